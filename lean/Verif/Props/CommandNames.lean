import Verif.Props.Names
import Verif.Props.IcDevice
import Verif.Spec.CommandNames

/-
Commands are shown under their documented names: C192.
-/

namespace Insteon
open Insteon.Spec

theorem code_inj : ∀ a b : MsgKind, a.code = b.code → a = b := by
  intro a b; cases a <;> cases b <;> decide

/-- A row of the tables as a key and a text. -/
def Spec.rowEntry (r : MsgKind × Nat × Nat × String) : Command × Bytes :=
  (BitVec.ofNat 64 (r.1.code * 65536 + r.2.1 * 256 + r.2.2.1), ascii r.2.2.2)

theorem rows_in_table : ∀ r ∈ namedCommands, rowEntry r ∈ cmdStrings ∧ r.2.1 < 256 ∧ r.2.2.1 < 256 := by decide +kernel

theorem table_in_rows : ∀ p ∈ cmdStrings, p ∈ namedCommands.map rowEntry := by decide +kernel

theorem table_keys : (cmdStrings.map Prod.fst).Nodup := by decide +kernel

theorem cmdName_of_mem {c : Command} {s : Bytes} (h : (c, s) ∈ cmdStrings) : cmdName c = some s := by
  unfold cmdName
  have key : ∀ (l : List (Command × Bytes)), (l.map Prod.fst).Nodup → (c, s) ∈ l → (l.find? (fun p => p.1 == c)).map Prod.snd = some s := by
    intro l
    induction l with
    | nil => intro _ hm; simp at hm
    | cons p l ih =>
      intro hn hm
      rw [List.map_cons, List.nodup_cons] at hn
      rw [List.find?_cons]
      rcases List.mem_cons.mp hm with rfl | hm
      · simp
      · have : (p.1 == c) = false := by
          rw [beq_eq_false_iff_ne]
          intro he
          apply hn.1
          rw [he]
          exact List.mem_map_of_mem (f := Prod.fst) hm
        rw [this]
        exact ih hn.2 hm
  exact key cmdStrings table_keys h

theorem ofWire_number (f c1 c2 : Byte) :
    Command.ofWire f c1 c2 = BitVec.ofNat 64 ((kindOf f.toNat).code * 65536 + c1.toNat * 256 + c2.toNat) := by
  have hk : ∀ f : Byte, commandClass f = (kindOf f.toNat).code := by decide +kernel
  have hc : ∀ k : MsgKind, k.code ≤ 12 := by intro k; cases k <;> decide
  have h1 := c1.isLt
  have h2 := c2.isLt
  have h3 := hc (kindOf f.toNat)
  apply BitVec.eq_of_toNat_eq
  rw [ofWire_value, hk, BitVec.toNat_ofNat, Nat.mod_eq_of_lt (by omega)]

/-- The map of the program and the documentation say the same. -/
theorem cmdName_documented (k : MsgKind) (c1 c2 : Nat) (h1 : c1 < 256) (h2 : c2 < 256) :
    cmdName (BitVec.ofNat 64 (k.code * 65536 + c1 * 256 + c2)) = (nameOf k c1 c2).map ascii := by
  have hc : ∀ k : MsgKind, k.code ≤ 12 := by intro k; cases k <;> decide
  unfold nameOf
  rcases hf : namedCommands.find? (fun r => r.1 == k && r.2.1 == c1 && r.2.2.1 == c2) with _ | r
  · rw [hf, Option.map_none, Option.map_none]
    rcases hn : cmdName (BitVec.ofNat 64 (k.code * 65536 + c1 * 256 + c2)) with _ | s
    · rfl
    · exfalso
      have hm := table_in_rows _ (cmdName_mem hn)
      rw [List.mem_map] at hm
      obtain ⟨r, hr, he⟩ := hm
      have hb := rows_in_table r hr
      rw [List.find?_eq_none] at hf
      apply hf r hr
      unfold rowEntry at he
      simp only [Prod.mk.injEq] at he
      have hv := congrArg BitVec.toNat he.1
      have h3 := hc k
      have h4 := hc r.1
      rw [BitVec.toNat_ofNat, BitVec.toNat_ofNat, Nat.mod_eq_of_lt (by omega), Nat.mod_eq_of_lt (by omega)] at hv
      have e1 : r.1 = k := code_inj _ _ (by omega)
      have e2 : r.2.1 = c1 := by rw [e1] at hv; omega
      have e3 : r.2.2.1 = c2 := by rw [e1] at hv; omega
      simp [e1, e2, e3]
  · have hp := List.find?_some hf
    have hm := List.mem_of_find?_eq_some hf
    simp only [Bool.and_eq_true, beq_iff_eq] at hp
    obtain ⟨⟨e1, e2⟩, e3⟩ := hp
    have := (rows_in_table r hm).1
    unfold rowEntry at this
    rw [e1, e2, e3] at this
    rw [hf]
    exact cmdName_of_mem this

/-- C192: the command of every message that is received is shown as documented. -/
theorem message_named (old m : Message) (head rest : Bytes) (hh : head.length = 6) (flags c1 c2 : Byte)
    (h : old.unmarshalBinary (head ++ flags :: c1 :: c2 :: rest) = (m, none)) :
    m.command.string = commandText (kindOf flags.toNat) c1.toNat c2.toNat := by
  have hcmd : m.command = Command.ofWire flags c1 c2 := by
    rcases head with _ | ⟨a0, _ | ⟨a1, _ | ⟨a2, _ | ⟨a3, _ | ⟨a4, _ | ⟨a5, _ | ⟨a6, head⟩⟩⟩⟩⟩⟩⟩ <;> simp at hh
    unfold Message.unmarshalBinary at h
    dsimp only [List.cons_append, List.nil_append] at h
    split_ifs at h <;> simp only [Prod.mk.injEq, reduceCtorEq, and_false] at h <;> rw [← h.1]
  have hdec : ∀ b : Byte, decByte b = decimal b.toNat := by decide +kernel
  have hhex : ∀ k : MsgKind, hex2 (BitVec.ofNat 8 k.code) = hexPair k.code := by intro k; cases k <;> decide +kernel
  have hc : ∀ k : MsgKind, k.code ≤ 12 := by intro k; cases k <;> decide
  have h1 := c1.isLt
  have h2 := c2.isLt
  have h3 := hc (kindOf flags.toNat)
  have hmask : Command.ofWire flags c1 c2 &&& 0xffff00#64 =
      BitVec.ofNat 64 ((kindOf flags.toNat).code * 65536 + c1.toNat * 256 + 0) := by
    have hz : Command.ofWire flags c1 c2 &&& 0xffff00#64 = Command.ofWire flags c1 0 := by
      have hcl : ∀ f : Byte, Command.fromClass f &&& 0xffff00#64 = Command.fromClass f := by decide +kernel
      have hc1 : ∀ b : Byte, (b.setWidth 64 <<< 8 : BitVec 64) &&& 0xffff00#64 = b.setWidth 64 <<< 8 := by decide +kernel
      have hc2 : ∀ b : Byte, (b.setWidth 64 : BitVec 64) &&& 0xffff00#64 = (0#8).setWidth 64 := by decide +kernel
      unfold Command.ofWire
      rw [BitVec.and_or_distrib_right, BitVec.and_or_distrib_right, hcl, hc1, hc2]
      rfl
    rw [hz, ofWire_number]
    rfl
  have h0 : (Command.ofWire flags c1 c2).command0.setWidth 8 = BitVec.ofNat 8 (kindOf flags.toNat).code := by
    rw [command0_byte]
    apply BitVec.eq_of_toNat_eq
    rw [extract_toNat, ofWire_number, BitVec.toNat_ofNat, BitVec.toNat_ofNat]
    omega
  have hb1 : (Command.ofWire flags c1 c2).command1.setWidth 8 = c1 := by
    rw [command1_byte]
    apply BitVec.eq_of_toNat_eq
    rw [extract_toNat, ofWire_number, BitVec.toNat_ofNat]
    omega
  have hb2 : (Command.ofWire flags c1 c2).command2.setWidth 8 = c2 := by
    rw [command2_byte]
    apply BitVec.eq_of_toNat_eq
    rw [extract_toNat, ofWire_number, BitVec.toNat_ofNat]
    omega
  rw [hcmd]
  unfold Command.string commandText
  rw [hmask, h0, hb1, hb2, cmdName_documented _ _ 0 h1 (by decide)]
  rw [ofWire_number, cmdName_documented _ _ _ h1 h2]
  rcases nameOf (kindOf flags.toNat) c1.toNat c2.toNat with _ | n
  · rcases nameOf (kindOf flags.toNat) c1.toNat 0 with _ | n
    · dsimp only [Option.map]
      rw [hhex, hex2_pair, hex2_pair]
      rfl
    · dsimp only [Option.map]
      rw [hdec]
      rfl
  · rfl

/-- C192: the documentation is not ambiguous, and every row of it has an effect. -/
theorem documented_shown (r : MsgKind × Nat × Nat × String) (h : r ∈ namedCommands) : commandText r.1 r.2.1 r.2.2.1 = ascii r.2.2.2 := by
  revert r
  decide +kernel

/-- An acknowledgement of 00.00.05, decoded; "Light On" with the level, and a broadcast. -/
example : (Message.zero.unmarshalBinary [0, 0, 5, 0, 0, 9, 0x2b, 0x11, 0x80]).2 = none ∧
    (Message.zero.unmarshalBinary [0, 0, 5, 0, 0, 9, 0x2b, 0x11, 0x80]).1.command.string = ascii "Light On(128)" ∧
    commandText .broadcast 1 0 = ascii "Set-button Pressed (responder)" ∧ commandText .allLink 1 2 = ascii "Command(0x0c, 0x01, 0x02)" := by
  decide +kernel

end Insteon
