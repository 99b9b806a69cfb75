import Verif.Model.LinkOps
import Verif.Spec.LinkText

/-
Specification vocabulary for operations on several devices: half-links, devices that answer anything (only the
calls they receive are recorded), and a network of devices that keep databases and carry out linking sessions.
-/

namespace Insteon.Spec

/-- An in-use record with the given role, address and group. -/
def HalfLink (controller : Bool) (a : BitVec 32) (g : BitVec 8) (l : LinkRecord) : Prop :=
  inUseBit l.flags ∧ (controllerBit l.flags ↔ controller = true) ∧ l.address = a ∧ l.group = g

instance (c a g l) : Decidable (HalfLink c a g l) := by unfold HalfLink; infer_instance

/-- Records with the same role, group and (24-bit) address. -/
def SameKey (a b : LinkRecord) : Prop :=
  (controllerBit a.flags ↔ controllerBit b.flags) ∧ a.group = b.group ∧ a.address.toNat % 2 ^ 24 = b.address.toNat % 2 ^ 24

instance (a b) : Decidable (SameKey a b) := by unfold SameKey; infer_instance

/-- The record marked available: the in-use bit (the highest one) cleared. -/
def freed (l : LinkRecord) : LinkRecord := { l with flags := BitVec.ofNat 8 (l.flags.toNat % 128) }

/-! ### Devices that answer anything -/

/-- A call of a method of a device. -/
inductive Call where
  | address (d : Nat)
  | enter (d : Nat) (g : BitVec 8)
  | unlink (d : Nat) (g : BitVec 8)
  | exit (d : Nat)
  | links (d : Nat)
  | update (d : Nat) (ls : List LinkRecord)
  | overwrite (d : Nat) (ls : List LinkRecord)
  | write (d : Nat) (i : Int) (l : LinkRecord)
deriving DecidableEq

/-- What a call returns. -/
structure Reply where
  err : Option Err
  links : List LinkRecord
  address : BitVec 32

/-- The calls made so far, oldest first. -/
abbrev Hist := List Call

/-- Device `d` in an environment that answers each call as it likes, depending on all calls before. -/
def anyDevice (env : Hist → Call → Reply) (canWrite : Nat → Bool) (d : Nat) : Linkable Hist where
  ident := d
  address := fun h => (h ++ [.address d], (env h (.address d)).address)
  enterLinkingMode := fun h g => (h ++ [.enter d g], (env h (.enter d g)).err)
  enterUnlinkingMode := fun h g => (h ++ [.unlink d g], (env h (.unlink d g)).err)
  exitLinkingMode := fun h => (h ++ [.exit d], (env h (.exit d)).err)
  links := fun h => (h ++ [.links d], (env h (.links d)).links, (env h (.links d)).err)
  updateLinks := fun h ls => (h ++ [.update d ls], (env h (.update d ls)).err)
  writeLinks := fun h ls => (h ++ [.overwrite d ls], (env h (.overwrite d ls)).err)
  writeLink := if canWrite d then some fun h i l => (h ++ [.write d i l], (env h (.write d i l)).err) else none

/-- Calls that only look. -/
def Call.readOnly : Call → Bool
  | .address _ | .links _ => true
  | _ => false

/-! ### A network -/

/-- What is fixed in a network: addresses, which devices can write single records, what records a linking session
creates and how a device stores one. -/
structure NetDef where
  addr : Nat → BitVec 32
  canWrite : Nat → Bool
  record : Bool → BitVec 8 → BitVec 32 → LinkRecord
  install : List LinkRecord → LinkRecord → List LinkRecord

/-- Devices have 24-bit addresses; a session creates the records it should; storing one keeps the in-use
records and adds the new one. -/
structure NetDef.Ok (nd : NetDef) : Prop where
  addr : ∀ d, (nd.addr d).toNat < 2 ^ 24
  record : ∀ c g a, HalfLink c a g (nd.record c g a)
  install : ∀ db l x, inUseBit x.flags → inUseBit l.flags → (x ∈ nd.install db l ↔ x = l ∨ x ∈ db)

/-- What happens to a call: carried out; lost, the caller seeing an error; carried out, the caller seeing an error
nevertheless. -/
inductive CallFate where
  | done
  | lost (e : Err)
  | unconfirmed (e : Err)

/-- The state of a network: databases, the device that waits in linking mode (`true`) or unlinking mode with its
group, the fate of the calls to come (afterwards all are carried out). -/
structure Net where
  db : Nat → List LinkRecord
  mode : Option (Nat × BitVec 8 × Bool)
  fates : List CallFate

/-- A call with effect `f` under its fate. -/
def Net.call (n : Net) (f : Net → Net) : Net × Option Err :=
  match n.fates with
  | [] => (f n, none)
  | .done :: fs => (f { n with fates := fs }, none)
  | .lost e :: fs => ({ n with fates := fs }, some e)
  | .unconfirmed e :: fs => (f { n with fates := fs }, some e)

/-- Changing the database of one device. -/
def Net.setDb (n : Net) (d : Nat) (db : List LinkRecord) : Net :=
  { n with db := fun x => if x = d then db else n.db x }

/-- Half-links with this role, address and group marked available. -/
def freeHalf (c : Bool) (a : BitVec 32) (g : BitVec 8) (db : List LinkRecord) : List LinkRecord :=
  db.map fun l => if HalfLink c a g l then freed l else l

/-- Device `d` has its set button pressed with group `g`: it becomes the waiting controller, or the responder that
completes the session of the waiting controller; both get their half-links, or lose them. -/
def Net.press (nd : NetDef) (d : Nat) (g : BitVec 8) (n : Net) : Net :=
  match n.mode with
  | none => { n with mode := some (d, g, true) }
  | some (c, gc, linking) =>
    if c = d then { n with mode := some (d, g, true) }
    else if linking then
      ({ n with mode := none }.setDb c (nd.install (n.db c) (nd.record true gc (nd.addr d)))).setDb d
        (nd.install (n.db d) (nd.record false gc (nd.addr c)))
    else
      ({ n with mode := none }.setDb c (freeHalf true (nd.addr d) gc (n.db c))).setDb d
        (freeHalf false (nd.addr c) gc (n.db d))

/-- Device `d` leaves linking mode. -/
def Net.leave (d : Nat) (n : Net) : Net :=
  match n.mode with
  | some (c, _, _) => if c = d then { n with mode := none } else n
  | none => n

/-- Records replaced by the given ones with the same role, group and address. -/
def overlay (db ls : List LinkRecord) : List LinkRecord :=
  db.map fun l => (ls.find? fun x => SameKey l x).getD l

/-- Device `d` of a network. -/
def netDevice (nd : NetDef) (d : Nat) : Linkable Net where
  ident := d
  address := fun n => (n, nd.addr d)
  enterLinkingMode := fun n g => n.call (Net.press nd d g)
  enterUnlinkingMode := fun n g => n.call fun n => { n with mode := some (d, g, false) }
  exitLinkingMode := fun n => n.call (Net.leave d)
  links := fun n => let r := n.call fun n => n; (r.1, (if r.2 = none then n.db d else []), r.2)
  updateLinks := fun n ls => n.call fun n => n.setDb d (overlay (n.db d) ls)
  writeLinks := fun n ls => n.call fun n => n.setDb d ls
  writeLink := if nd.canWrite d then some fun n i l => n.call fun n => n.setDb d ((n.db d).set i.toNat l) else none

/-- The database of device `d` has the half-link. -/
def Net.Has (n : Net) (d : Nat) (c : Bool) (a : BitVec 32) (g : BitVec 8) : Prop := ∃ l ∈ n.db d, HalfLink c a g l

end Insteon.Spec
