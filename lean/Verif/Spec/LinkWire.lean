import Verif.Model.LinkTimed
import Verif.Model.Live
import Verif.Model.ModemCmd
import Verif.Spec.LinkOps
import Verif.Spec.SerialDevice
import Verif.Spec.Device

/-
Specification of a house seen from the serial line in which a modem and devices can be linked: what the modem and the devices do with each frame the host sends,
and what the modem sends back (PLM developer's guide: start and cancel ALL-Linking, send message, ALL-Linking completed).
-/

namespace Insteon.Spec

/-- What is fixed in the house. In the network number 0 is the modem. Of the others: which one has an address; the version of its engine; and the product
numbers it announces. The modem may or may not report each link it has made or deleted in linking mode. -/
structure Premises where
  net : NetDef
  who : BitVec 32 → Option Nat
  engine : Nat → BitVec 64
  product : Nat → BitVec 8 × BitVec 8 × BitVec 8
  reports : Bool

namespace Premises

/-- The modem's report about a link with number `other`: a code, the group, the address and the product numbers. -/
def reportFrame (p : Premises) (code g : BitVec 8) (other : Nat) : Frame :=
  ⟨0x53#8, [code, g] ++ addr3 (p.net.addr other) ++ [(p.product other).1, (p.product other).2.1, (p.product other).2.2]⟩

/-- The code: 01 when the modem is the controller of a new link, 00 when it is the responder, ff when the link has been deleted. -/
def reportCode (linking : Bool) (controller : Nat) : BitVec 8 :=
  if linking = false then 0xff#8 else if controller = 0 then 0x01#8 else 0x00#8

/-- What the modem reports when the button of `d` is pressed while another one is waiting and the modem is one of the two. -/
def report (p : Premises) (n : Net) (d : Nat) : Items :=
  match n.mode with
  | none => []
  | some (c, g, linking) =>
    if p.reports = true ∧ c ≠ d ∧ (c = 0 ∨ d = 0) then [([], p.reportFrame (reportCode linking c) g (if c = 0 then d else c))] else []

/-- Devices of the third version of the engine accept linking commands only with data and a right checksum. -/
def Accepts (p : Premises) (d : Nat) (m : Message) : Prop := p.engine d = 2#64 → isExtended m.flags ∧ checksumOk m

instance (p : Premises) (d m) : Decidable (p.Accepts d m) := by unfold Accepts; infer_instance

/-- Device `d` gets a message: what becomes of the network, what the modem reports of it, and whether the device agrees. 08 ends linking mode, 09 starts it, 0a
starts unlinking mode, the second byte of the command is the group. -/
def obeys (p : Premises) (n : Net) (d : Nat) (m : Message) : Net × Items × Bool :=
  let g := BitVec.ofNat 8 (cmd2 m)
  if cmd1 m = 0x08 then (n.leave d, [], true)
  else if cmd1 m = 0x09 then if p.Accepts d m then (n.press p.net d g, p.report n d, true) else (n, [], false)
  else if cmd1 m = 0x0a then if p.Accepts d m then ({ n with mode := some (d, g, false) }, [], true) else (n, [], false)
  else (n, [], true)

/-- The acknowledgement of device `d`, or its refusal with the reason fd. -/
def answers (p : Premises) (d : Nat) (m : Message) (agrees : Bool) : Message :=
  if agrees then ⟨p.net.addr d, p.net.addr 0, 0x2f#8, BitVec.ofNat 64 (cmd1 m * 256 + cmd2 m), []⟩
  else ⟨p.net.addr d, p.net.addr 0, 0xaf#8, BitVec.ofNat 64 (cmd1 m * 256 + 0xfd), []⟩

/-- Everybody at work on a frame from the host. 60: tell the address and the product numbers; 64: start linking (03) or unlinking (ff); 65: cancel linking; 6b: set the
configuration; 73: tell it; 62: send a message, which is confirmed, and answered by the device it is for if there is one. -/
def receive (p : Premises) (n : Net) (frame : List (BitVec 8)) : Net × Items :=
  match frame with
  | start :: cmd :: body =>
    if start ≠ 0x02#8 then (n, [])
    else if cmd = 0x64#8 then
      match body with
      | [mode, g] =>
        if mode = 0x03#8 then (n.press p.net 0 g, ([], ⟨0x64#8, [mode, g, 0x06#8]⟩) :: p.report n 0)
        else if mode = 0xff#8 then ({ n with mode := some (0, g, false) }, [([], ⟨0x64#8, [mode, g, 0x06#8]⟩)])
        else (n, [([], ⟨0x64#8, [mode, g, 0x15#8]⟩)])
      | _ => (n, [])
    else if cmd = 0x60#8 then
      (n, [([], ⟨0x60#8, addr3 (p.net.addr 0) ++ [(p.product 0).1, (p.product 0).2.1, (p.product 0).2.2, 0x06#8]⟩)])
    else if cmd = 0x6b#8 then (n, [([], ⟨0x6b#8, body.take 1 ++ [0x06#8]⟩)])
    else if cmd = 0x65#8 then (n.leave 0, [([], ⟨0x65#8, [0x06#8]⟩)])
    else if cmd = 0x73#8 then (n, [([], ⟨0x73#8, [0x00#8, 0x00#8, 0x00#8, 0x06#8]⟩)])
    else if cmd = 0x62#8 then
      match requested body with
      | none => (n, [])
      | some m =>
        match p.who m.dst with
        | none => (n, [([], ⟨0x62#8, body ++ [0x06#8]⟩)])
        | some d =>
          ((p.obeys n d m).1,
            ([], ⟨0x62#8, body ++ [0x06#8]⟩) :: ((p.obeys n d m).2.1 ++ [([], heard (p.answers d m (p.obeys n d m).2.2))]))
    else (n, [])
  | _ => (n, [])

/-- Bytes in, bytes out. -/
def react (p : Premises) (n : Net) (frame : List (BitVec 8)) : Net × List (BitVec 8) := ((p.receive n frame).1, line (p.receive n frame).2)

/-- The modem as the program sees it, through a running PLM. -/
def modem (p : Premises) : LinkTimed.Party (Wired Net) := .modem (Wired.io p.react)

/-- A device as the program sees it, through a running PLM. How long the program sleeps makes no difference here: all is quiet when it goes on. -/
def device (p : Premises) (retries : Int) (fuel : Nat) (info : DeviceInfo) : LinkTimed.Party (Wired Net) :=
  .device info (Wired.msgIO p.react retries fuel) fun _ s => s

/-- Device `d` is found under its address, and what the program knows about it is right. -/
structure Knows (p : Premises) (d : Nat) (info : DeviceInfo) : Prop where
  ne : d ≠ 0
  found : p.who (p.net.addr d) = some d
  address : info.address = p.net.addr d
  engine : info.engineVersion = p.engine d

/-- `party` is number `d` as the program sees it. -/
def Is (p : Premises) (retries : Int) (fuel : Nat) (d : Nat) (party : LinkTimed.Party (Wired Net)) : Prop :=
  (d = 0 ∧ party = p.modem) ∨ ∃ info, p.Knows d info ∧ party = p.device retries fuel info

end Premises

/-- The program and the modem are in step: nothing is on the line and nothing is waiting to be read. -/
def InStep {τ : Type} (w : Wired τ) : Prop := w.port = ⟨[], [], false⟩ ∧ w.wire = []

/-- The network after `c` and `r` have been linked for group `g`: the databases of the two have the new records, nobody is waiting. -/
def Net.linked (nd : NetDef) (c r : Nat) (g : BitVec 8) (n : Net) : Net :=
  ({ n with mode := none }.setDb c (nd.install (n.db c) (nd.record true g (nd.addr r)))).setDb r
    (nd.install (n.db r) (nd.record false g (nd.addr c)))

/-- The network after `c` and `r` have been unlinked for group `g`. -/
def Net.unlinked (nd : NetDef) (c r : Nat) (g : BitVec 8) (n : Net) : Net :=
  ({ n with mode := none }.setDb c (freeHalf true (nd.addr r) g (n.db c))).setDb r (freeHalf false (nd.addr c) g (n.db r))

/-- Calls of the modem that ask it something or tell it something. -/
def AsksModem : ModemCall → Prop
  | .info | .config | .setConfig _ | .enterLinking _ | .enterUnlinking _ => True
  | _ => False

end Insteon.Spec
