import Verif.Model.Shared
import Verif.Model.PlmLinks

/-
Goroutines that run arbitrary programs on one PLM. `Model/Shared.lean` has the single calls as state machines; here a goroutine is any
program that uses the port and the channels of the PLM (plm/plm.go 57-69) through the code of the library or otherwise.
-/

namespace Insteon

/-- A program: what it computes between two accesses to the serial port (plm/plm.go 152) or to one of the channels (plm/plm.go 184, 193) is a
function of the results so far. Loops without end are not represented, but there is no bound on the number of accesses. -/
inductive Prog (α : Type) where
  | ret (a : α)
  | tx (b : Bytes) (k : Option Err → Prog α)
  | rxPacket (k : Recv → Prog α)
  | rxMsg (k : Recv → Prog α)

namespace Prog
variable {α β : Type}

/-- The program run by itself in a world. -/
def run {σ : Type} (io : PlmIO σ) : Prog α → σ → σ × α
  | .ret a, s => (s, a)
  | .tx b k, s => run io (k (io.tx s b).2) (io.tx s b).1
  | .rxPacket k, s => run io (k (io.rxPacket s).2) (io.rxPacket s).1
  | .rxMsg k, s => run io (k (io.rxMsg s).2) (io.rxMsg s).1

/-- One program after another. -/
def bind : Prog α → (α → Prog β) → Prog β
  | .ret a, f => f a
  | .tx b k, f => .tx b fun r => bind (k r) f
  | .rxPacket k, f => .rxPacket fun r => bind (k r) f
  | .rxMsg k, f => .rxMsg fun r => bind (k r) f

/-- What a program that is over has come to. -/
def value : Prog α → Option α
  | .ret a => some a
  | _ => none

end Prog

namespace Prog

/-- What `PLM.WritePacket` makes of what `ReadPacket` gave it (plm/plm.go 155-176). -/
def ackOf (pkt : Packet) : Recv → PRes
  | .timeout => .ret none (some (.wrapped .plmReadTimeout))
  | .closed => .panic
  | .packet ack => match Plm.checkAck pkt ack with
    | .ok e => .ret (some ack) e
    | _ => .panic

/-- `PLM.WritePacket` (plm/plm.go 148-181) as a program. -/
def writePacket (pkt : Packet) : Prog PRes :=
  .tx pkt.marshalBinary fun
    | some e => .ret (.ret none (some e))
    | none => .rxPacket fun r => .ret (ackOf pkt r)

/-- The loop of `retryWriter.WritePacket` (plm/port.go 87-97) as a program. -/
def retryLoop (ignoreNak : Bool) (pkt : Packet) : Nat → PRes → Prog PRes
  | 0, cur => .ret cur
  | n + 1, _ => (writePacket pkt).bind fun
    | .panic => .ret .panic
    | .ret a e => if retryable ignoreNak e then retryLoop ignoreNak pkt n (.ret a e) else .ret (.ret a e)

/-- `retry(plm, retries, ignoreNak).WritePacket(pkt)` (plm/port.go 85-103) as a program. -/
def retry (retries : Int) (ignoreNak : Bool) (pkt : Packet) : Prog PRes :=
  retryLoop ignoreNak pkt (retries + 1).toNat (.ret none none)

/-- The loop of `refresh` (plm/linkdb.go 101-114) as a program, with fuel: `none` when it is used up. -/
def refreshLoop (retries : Int) : Nat → List LinkRecord → Prog (Option (Out (List LinkRecord × Err)))
  | 0, _ => .ret none
  | fuel + 1, links => .rxPacket fun
    | .timeout => .ret (some (.ok (links, .wrapped .plmReadTimeout)))
    | .closed => .ret (some .panic)
    | .packet pkt =>
      if pkt.command = PCmd.allLinkRecordResp then
        match LinkRecord.unmarshalBinary LinkRecord.zero pkt.payload with
        | (_, some e) => .ret (some (.ok (links, e)))
        | (link, none) => (retry retries false ⟨PCmd.getNextAllLink, [], 0#8⟩).bind fun
          | .panic => .ret (some .panic)
          | .ret _ (some e) => .ret (some (.ok (links ++ [link], e)))
          | .ret _ none => refreshLoop retries fuel (links ++ [link])
      else refreshLoop retries fuel links

/-- How `refresh` ends (plm/linkdb.go 115-120). -/
def refreshEnd (cached : List LinkRecord) : Option (Out (List LinkRecord × Err)) → Option (Out (List LinkRecord × Option Err))
  | none => none
  | some (.ok (links, e)) => some (.ok (if e = .plmNak then (links, none) else (cached, some e)))
  | some _ => some .panic

/-- `Links` (plm/linkdb.go 95-128) as a program. The links kept from before, which the goroutines share, are an argument: they only matter when
the call returns an error. -/
def links (retries : Int) (fuel : Nat) (cached : List LinkRecord) : Prog (Option (Out (List LinkRecord × Option Err))) :=
  (retry retries true ⟨PCmd.getFirstAllLink, [], 0#8⟩).bind fun
    | .panic => .ret (some .panic)
    | .ret _ (some e) => .ret (some (.ok (if e = .plmNak then ([], none) else (cached, some e))))
    | .ret _ none => (refreshLoop retries fuel []).bind fun r => .ret (refreshEnd cached r)

end Prog

/-- The PLM and the goroutines. `down`: one of them has panicked, which ends all. -/
structure Team (α : Type) where
  port : PortSt
  progs : List (Prog α)
  down : Bool

namespace Team
variable {α : Type}

/-- A program is over and its outcome is a panic. -/
def crashed (dead : α → Bool) (p : Prog α) : Bool := (p.value.map dead).getD false

/-- State when the goroutines begin, after `New` (plm/plm.go 72-92). -/
def init (dead : α → Bool) (progs : List (Prog α)) : Team α := ⟨Port.init, progs, progs.any (crashed dead)⟩

/-- The goroutine with this number goes on with the rest of its program. -/
def set (dead : α → Bool) (s : Team α) (i : Nat) (p : Prog α) (port : PortSt) : Team α := ⟨port, s.progs.set i p, crashed dead p⟩

/-- `readLoop` at work (plm/plm.go 94-120). -/
def arrival (s : Team α) (e : PortEv) : Team α × SharedObs :=
  match Port.step s.port e with
  | (port, .queued p) => ({ s with port := port }, .queued p)
  | (port, .dropped p) => ({ s with port := port }, .dropped p)
  | (port, _) => ({ s with port := port }, .none)

/-- One step, as in `Shared.step`. -/
def step (dead : α → Bool) (s : Team α) : SharedEv → Team α × SharedObs
  | .arrive p => if s.down then (s, .none) else arrival s (.arrive p)
  | .fail => if s.down then (s, .none) else arrival s .fail
  | .go i late err =>
    if s.down then (s, .none)
    else match s.progs[i]? with
      | none => (s, .none)
      | some (.ret _) => (s, .none)
      | some (.tx b k) => (s.set dead i (k err) s.port, .wrote i b err)
      | some (.rxPacket k) =>
        let r := Port.recv s.port.pktQ s.port.closed late
        (s.set dead i (k r.2) { s.port with pktQ := r.1 }, .tookPkt i r.2)
      | some (.rxMsg k) =>
        let r := Port.recv s.port.msgQ s.port.closed late
        (s.set dead i (k r.2) { s.port with msgQ := r.1 }, .tookMsg i r.2)

/-- A run. -/
def run (dead : α → Bool) (s : Team α) : List SharedEv → Team α × List SharedObs
  | [] => (s, [])
  | e :: es =>
    let r := step dead s e
    let t := run dead r.1 es
    (t.1, r.2 :: t.2)

/-- What a goroutine has come to, if its program is over. -/
def result (s : Team α) (i : Nat) : Option α := (s.progs[i]?).bind Prog.value

end Team

end Insteon
