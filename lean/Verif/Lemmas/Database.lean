import Verif.Spec.Database
import Verif.Lemmas.JsonText
import Verif.Props.Address
import Verif.Props.Link
import Verif.Props.LinkLine

namespace Insteon
open Spec

theorem dbmap_get_put (m : DbMap) (a b : Address) (i : DeviceInfo) :
    (m.put a i).get b = if b = a then some i else m.get b := by
  induction m with
  | nil => simp only [DbMap.put, DbMap.get]; simp only [eq_comm]
  | cons e m ih =>
    obtain ⟨k, v⟩ := e
    unfold DbMap.put
    split_ifs with h1 h2 h2
    · subst h1; subst h2; simp [DbMap.get]
    · subst h1; simp only [DbMap.get]; rw [if_neg (Ne.symm h2), if_neg (Ne.symm h2)]
    · subst h2; simp only [DbMap.get]; rw [if_neg h1, ih, if_pos rfl]
    · simp only [DbMap.get]; rw [ih, if_neg h2]

/-- Distinct keys. -/
def DbMap.Distinct (m : DbMap) : Prop := (m.map Prod.fst).Nodup

theorem dbmap_put_keys (m : DbMap) (a b : Address) (i : DeviceInfo) :
    b ∈ (m.put a i).map Prod.fst ↔ b = a ∨ b ∈ m.map Prod.fst := by
  induction m with
  | nil => simp [DbMap.put]
  | cons e m ih =>
    obtain ⟨k, v⟩ := e
    unfold DbMap.put
    split_ifs with h
    · subst h; simp
    · rw [List.map_cons, List.map_cons, List.mem_cons, List.mem_cons, ih]
      tauto

theorem dbmap_put_distinct (m : DbMap) (a : Address) (i : DeviceInfo) (h : m.Distinct) : (m.put a i).Distinct := by
  induction m with
  | nil => simp [DbMap.put, DbMap.Distinct]
  | cons e m ih =>
    obtain ⟨k, v⟩ := e
    unfold DbMap.Distinct at h ih ⊢
    rw [List.map_cons, List.nodup_cons] at h
    unfold DbMap.put
    split_ifs with hk
    · rw [List.map_cons, List.nodup_cons]; exact h
    · rw [List.map_cons, List.nodup_cons, dbmap_put_keys]
      refine ⟨?_, ih h.2⟩
      rintro (h' | h')
      · exact hk h'
      · exact h.1 h'

theorem dbmap_get_mem (m : DbMap) (h : m.Distinct) (a : Address) (i : DeviceInfo) : m.get a = some i ↔ (a, i) ∈ m := by
  induction m with
  | nil => simp [DbMap.get]
  | cons e m ih =>
    obtain ⟨k, v⟩ := e
    unfold DbMap.Distinct at h ih
    rw [List.map_cons, List.nodup_cons] at h
    simp only [DbMap.get, List.mem_cons, Prod.mk.injEq]
    split_ifs with hk
    · subst hk
      simp only [Option.some.injEq, true_and]
      constructor
      · rintro rfl; exact Or.inl rfl
      · rintro (rfl | h')
        · rfl
        · exact absurd (List.mem_map_of_mem (f := Prod.fst) h') h.1
    · rw [ih h.2]
      constructor
      · exact Or.inr
      · rintro (⟨rfl, -⟩ | h')
        · exact absurd rfl hk
        · exact h'

theorem dbmap_get_perm (m n : DbMap) (h : m.Distinct) (hp : m.Perm n) : m.get = n.get := by
  have hn : n.Distinct := (hp.map Prod.fst).nodup_iff.mp h
  funext a
  apply Option.ext
  intro i
  rw [dbmap_get_mem m h, dbmap_get_mem n hn, hp.mem_iff]

theorem decodeDoc_distinct (d : List (Bytes × Json.Value)) (m : DbMap) (e : Option Err) (h : m.Distinct) : (decodeDoc d m e).1.Distinct := by
  induction d generalizing m e with
  | nil => exact h
  | cons x d ih =>
    obtain ⟨k, v⟩ := x
    unfold decodeDoc
    rcases decodeEntry v e with err | ⟨i, e'⟩
    · exact h
    · dsimp only
      rcases Address.set 0 k with ⟨a, _ | err⟩
      · exact ih _ _ (dbmap_put_distinct m a i h)
      · exact h

/-- What every database keeps: the keys are distinct and a nil map is empty. -/
def MemDb.Ok (db : MemDb) : Prop := db.values.Distinct ∧ (db.nilMap = true → db.values = [])

theorem new_ok : MemDb.new.Ok := ⟨by simp [DbMap.Distinct, MemDb.new], by simp [MemDb.new]⟩

theorem put_ok {db db' : MemDb} {info : DeviceInfo} (h : db.Ok) (hp : db.put info = some db') : db'.Ok := by
  unfold MemDb.put at hp
  split_ifs at hp with h1 h2 <;> simp only [Option.some.injEq] at hp <;> subst hp
  · exact ⟨dbmap_put_distinct _ _ _ h.1, fun h0 => absurd h0 h2⟩
  · exact h

theorem unmarshal_ok (db : MemDb) (data : Bytes) : (db.unmarshalJSON data).1.Ok := by
  unfold MemDb.unmarshalJSON
  have e : DbMap.Distinct [] := by simp [DbMap.Distinct]
  rcases Json.readDoc data with _ | _ | _ | _ | _ | _ | ms
  · exact ⟨e, fun _ => rfl⟩
  · exact ⟨e, fun _ => rfl⟩
  · exact ⟨e, fun _ => rfl⟩
  · exact ⟨e, fun _ => rfl⟩
  · exact ⟨e, fun _ => rfl⟩
  · exact ⟨e, fun _ => rfl⟩
  · exact ⟨decodeDoc_distinct ms [] none e, by simp⟩

theorem run_ok {db : MemDb} {op : DbOp} {r : MemDb × Option Err} (h : db.Ok) (hr : op.run db = some r) : r.1.Ok := by
  cases op with
  | put info =>
    simp only [DbOp.run, Option.map_eq_some_iff] at hr
    obtain ⟨d, hp, rfl⟩ := hr
    exact put_ok h hp
  | save f =>
    simp only [DbOp.run, MemDb.save, Option.some.injEq] at hr
    subst hr
    cases f <;> exact h
  | load input =>
    simp only [DbOp.run, Option.some.injEq] at hr
    subst hr
    cases input with
    | error e => exact h
    | ok data => exact unmarshal_ok db data

theorem history_ok {ops : List DbOp} {db db' : MemDb} {c c' : Contents} (h : db.Ok) (hh : history db c ops = some (db', c')) : db'.Ok := by
  induction ops generalizing db c with
  | nil =>
    simp only [history, Option.some.injEq, Prod.mk.injEq] at hh
    exact hh.1 ▸ h
  | cons op ops ih =>
    rw [history] at hh
    rcases hr : op.run db with _ | r <;> rw [hr] at hh
    · cases hh
    · exact ih (run_ok h hr) hh

/-! ### Reading back the JSON of a database -/

theorem hex2_plain (b : Byte) : Json.Plain (hex2 b) := by
  have : ∀ n, n < 16 → hexDigit n ≠ ch '"' ∧ hexDigit n ≠ ch '\\' ∧ 0x20 ≤ (hexDigit n).toNat ∧ (hexDigit n).toNat < 0x80 := by
    intro n h; interval_cases n <;> decide
  intro x hx
  simp only [hex2, List.mem_cons, List.not_mem_nil, or_false] at hx
  rcases hx with rfl | rfl
  · exact this _ (byte_div16 b)
  · exact this _ (byte_mod16 b)

theorem plain_append {s t : Bytes} (hs : Json.Plain s) (ht : Json.Plain t) : Json.Plain (s ++ t) := by
  intro b hb
  rcases List.mem_append.mp hb with h | h
  · exact hs b h
  · exact ht b h

theorem plain_dot : Json.Plain [ch '.'] := by unfold Json.Plain; decide

theorem address_plain (a : Address) : Json.Plain a.string :=
  plain_append (plain_append (plain_append (plain_append (hex2_plain _) plain_dot) (hex2_plain _)) plain_dot) (hex2_plain _)

theorem devcat_plain (c : DevCat) : Json.Plain c.text := plain_append (plain_append (hex2_plain _) plain_dot) (hex2_plain _)

theorem toInt_bound (x : BitVec 64) : x.toInt.natAbs < 10 ^ 20 := by
  have h1 := BitVec.le_toInt x
  have h2 := BitVec.toInt_lt (x := x)
  norm_num at h1 h2 ⊢
  omega

theorem fields_plain (i : DeviceInfo) : ∀ f ∈ i.fields, Json.Plain f.1 ∧ Json.PlainScalar f.2 := by
  intro f hf
  simp only [DeviceInfo.fields, List.mem_cons, List.not_mem_nil, or_false] at hf
  rcases hf with rfl | rfl | rfl | rfl
  · exact ⟨by dsimp only; unfold Json.Plain; decide, address_plain _⟩
  · exact ⟨by dsimp only; unfold Json.Plain; decide, devcat_plain _⟩
  · exact ⟨by dsimp only; unfold Json.Plain; decide, toInt_bound _⟩
  · exact ⟨by dsimp only; unfold Json.Plain; decide, toInt_bound _⟩

/-- The document of a list of entries. -/
def entriesDoc (m : DbMap) : Json.Doc := m.map fun e => (e.1.string, e.2.fields)

theorem entries_plain (m : DbMap) : Json.PlainDoc (entriesDoc m) := by
  intro e he
  simp only [entriesDoc, List.mem_map] at he
  obtain ⟨x, -, rfl⟩ := he
  exact ⟨address_plain _, fields_plain _⟩

theorem devcat_scan_text (c : DevCat) : DevCat.scan c.text = some c := by
  unfold DevCat.scan DevCat.text
  rw [List.append_assoc, scan_hex2]
  simp only [List.cons_append, List.nil_append, scanLit, if_true]
  have := scan_hex2 c.2 []
  rw [List.append_nil] at this
  rw [this]

theorem decodeInt_text (old x : BitVec 64) : decodeInt old (.num (Json.intText x.toInt)) = (x, none) := by
  have h1 := BitVec.le_toInt x
  have h2 := BitVec.toInt_lt (x := x)
  have h3 := (atoi_iff (Json.intText x.toInt) x.toInt).mpr ⟨intText_spec _ (toInt_bound x), by norm_num at h1; omega, by norm_num at h2; omega⟩
  unfold decodeInt
  dsimp only
  rw [h3]
  dsimp only
  rw [BitVec.ofInt_toInt]

theorem decodeEntry_text (i : DeviceInfo) (h : i.address.toNat < 2 ^ 24) (e : Option Err) :
    decodeEntry (.obj (i.fields.map fun f => (f.1, f.2.value))) e = .ok (i, e) := by
  unfold DeviceInfo.fields decodeEntry
  have n1 : nameEq (lit "address") (lit "address") = true := by decide
  have n2 : nameEq (lit "address") (lit "devCat") = false := by decide
  have n3 : nameEq (lit "devCat") (lit "devCat") = true := by decide
  have n4 : nameEq (lit "address") (lit "firmwareVersion") = false := by decide
  have n5 : nameEq (lit "devCat") (lit "firmwareVersion") = false := by decide
  have n6 : nameEq (lit "firmwareVersion") (lit "firmwareVersion") = true := by decide
  have n7 : nameEq (lit "address") (lit "engineVersion") = false := by decide
  have n8 : nameEq (lit "devCat") (lit "engineVersion") = false := by decide
  have n9 : nameEq (lit "firmwareVersion") (lit "engineVersion") = false := by decide
  have n10 : nameEq (lit "engineVersion") (lit "engineVersion") = true := by decide
  have ha : ∀ r : Address, r.set i.address.string = (i.address, none) := by
    intro r
    exact (address_text_roundtrip_valid i.address r h).2.1
  simp only [List.map_cons, List.map_nil, Json.Scalar.value, decodeFields, n1, n2, n3, n4, n5, n6, n7, n8, n9, n10, if_true, Bool.false_eq_true,
    if_false, Address.unmarshalJSON, DevCat.unmarshalJSON, ha, devcat_scan_text, decodeInt_text, Option.or_none]

theorem decodeDoc_entries (m : DbMap) (h3 : ∀ x ∈ m, x.1.toNat < 2 ^ 24 ∧ x.2.address.toNat < 2 ^ 24) (acc : DbMap) (e : Option Err) :
    decodeDoc (Json.docValue (entriesDoc m)) acc e = (m.foldl (fun acc x => acc.put x.1 x.2) acc, e) := by
  induction m generalizing acc with
  | nil => rfl
  | cons x m ih =>
    obtain ⟨h1, h2⟩ := h3 x (by simp)
    simp only [entriesDoc, Json.docValue, List.map_cons, decodeDoc, decodeEntry_text x.2 h2]
    rw [show Address.set 0 x.1.string = (x.1, none) from (address_text_roundtrip_valid x.1 0 h1).2.1]
    dsimp only
    exact ih (fun y hy => h3 y (by simp [hy])) _

theorem foldl_put_get (m : DbMap) (h : m.Distinct) (acc : DbMap) (a : Address) :
    (m.foldl (fun acc x => acc.put x.1 x.2) acc).get a = (m.get a).or (acc.get a) := by
  induction m generalizing acc with
  | nil => simp [DbMap.get]
  | cons x m ih =>
    obtain ⟨k, v⟩ := x
    unfold DbMap.Distinct at h ih
    rw [List.map_cons, List.nodup_cons] at h
    rw [List.foldl_cons, ih h.2, dbmap_get_put]
    simp only [DbMap.get]
    by_cases hk : k = a
    · subst hk
      rw [if_pos rfl, if_pos rfl]
      have : DbMap.get m k = none := by
        rcases hg : DbMap.get m k with _ | i
        · rfl
        · rw [dbmap_get_mem m h.2] at hg
          exact absurd (List.mem_map_of_mem (f := Prod.fst) hg) h.1
      rw [this]; rfl
    · rw [if_neg hk, if_neg (Ne.symm hk)]

theorem marshal_doc (db : MemDb) (h : db.nilMap = false) : db.marshalJSON = Json.docText (entriesDoc db.sorted) := by
  unfold MemDb.marshalJSON
  rw [h]
  rfl

theorem marshal_null (db : MemDb) (h : db.nilMap = true) : db.marshalJSON = lit "null" := by
  unfold MemDb.marshalJSON
  rw [h]
  rfl

/-- Loading a saved database. -/
theorem unmarshal_marshal (db db' : MemDb) (h : db.Ok) (h3 : ThreeBytes db.get) :
    ∃ m, db'.unmarshalJSON db.marshalJSON = (⟨m, db'.dirty, db.nilMap⟩, none) ∧ DbMap.get m = db.values.get ∧ m.Distinct := by
  cases hn : db.nilMap with
  | true =>
    have hr : Json.readDoc db.marshalJSON = some .null := by
      rw [marshal_null db hn]
      exact (Json.readDoc_iff _ _).mpr Json.null_json
    unfold MemDb.unmarshalJSON
    rw [hr]
    exact ⟨[], rfl, by rw [h.2 hn], by simp [DbMap.Distinct]⟩
  | false =>
    have hp : db.sorted.Perm db.values := List.perm_insertionSort _ _
    have hd : DbMap.Distinct db.sorted := (hp.map Prod.fst).nodup_iff.mpr h.1
    have hr : Json.readDoc db.marshalJSON = some (.obj (Json.docValue (entriesDoc db.sorted))) := by
      rw [marshal_doc db hn]
      exact Json.readDoc_docText _ (entries_plain _)
    have h4 : ∀ x ∈ db.sorted, x.1.toNat < 2 ^ 24 ∧ x.2.address.toNat < 2 ^ 24 := by
      rintro ⟨a, i⟩ hx
      exact h3 a i ((dbmap_get_mem _ h.1 a i).mpr (hp.mem_iff.mp hx))
    unfold MemDb.unmarshalJSON
    rw [hr]
    dsimp only
    rw [decodeDoc_entries _ h4]
    refine ⟨_, rfl, ?_, ?_⟩
    · funext a
      rw [foldl_put_get _ hd, ← dbmap_get_perm _ _ hd hp]
      simp [DbMap.get]
    · have := decodeDoc_distinct (Json.docValue (entriesDoc db.sorted)) [] none (by simp [DbMap.Distinct])
      rw [decodeDoc_entries _ h4] at this
      exact this

/-- What `Save` writes, cut short, cannot be read. -/
theorem marshal_prefix (db : MemDb) (p q : Bytes) (hp : p ++ q = db.marshalJSON) (hq : q ≠ []) : Json.readDoc p = none := by
  cases hn : db.nilMap with
  | true => exact Json.null_prefix p q (by rw [hp, marshal_null db hn]) hq
  | false => exact Json.docText_prefix (entriesDoc db.sorted) (entries_plain _) p q (by rw [hp, marshal_doc db hn]) hq

/-! ### What a file says -/

theorem lowerByte_iff (b c : Byte) (hc : c.toNat < 0x80) : lowerByte b = lowerByte c ↔
    b = c ∨ (0x61 ≤ b.toNat ∧ b.toNat ≤ 0x7a ∧ c.toNat + 0x20 = b.toNat) ∨ (0x61 ≤ c.toNat ∧ c.toNat ≤ 0x7a ∧ b.toNat + 0x20 = c.toNat) := by
  have hb := b.isLt
  constructor
  · intro h
    have h' := congrArg BitVec.toNat h
    unfold lowerByte at h'
    split_ifs at h' <;> (try simp only [BitVec.toNat_ofNat] at h')
    · left; apply BitVec.eq_of_toNat_eq; omega
    · right; right; omega
    · right; left; omega
    · left; exact BitVec.eq_of_toNat_eq h'
  · rintro (rfl | h | h)
    · rfl
    · apply BitVec.eq_of_toNat_eq
      unfold lowerByte
      rw [if_neg (by omega), if_pos (by omega), BitVec.toNat_ofNat]
      omega
    · apply BitVec.eq_of_toNat_eq
      unfold lowerByte
      rw [if_pos (by omega), if_neg (by omega), BitVec.toNat_ofNat]
      omega

theorem lower_s (b : Byte) : lowerByte b = ch 's' ↔ b = 0x73#8 ∨ b = 0x53#8 := by
  revert b; decide +kernel

/-- Names of fields are ASCII. -/
def AsciiName (s : Bytes) : Prop := ∀ b ∈ s, b.toNat < 0x80

theorem nameEq_cons (b c : Byte) (s t : Bytes) : nameEq (b :: s) (c :: t) = if c.toNat < 0x80 then lowerByte b == lowerByte c && nameEq s t
    else match t with
      | [] => false
      | d :: t => lowerByte b == ch 's' && c == 0xc5#8 && d == 0xbf#8 && nameEq s t := by
  cases t <;> rw [nameEq.eq_def]

theorem nameEq_sound (name key : Bytes) (h : nameEq name key = true) : SameName name key := by
  induction name generalizing key with
  | nil =>
    rw [nameEq] at h
    rw [List.isEmpty_iff.mp h]
    exact .nil
  | cons b name ih =>
    rcases key with _ | ⟨c, key⟩
    · simp [nameEq] at h
    rw [nameEq_cons] at h
    split_ifs at h with h8
    · rw [Bool.and_eq_true, beq_iff_eq, lowerByte_iff b c h8] at h
      rcases h.1 with rfl | h1 | h1
      · exact .same b (ih _ h.2)
      · exact .other b c ⟨h1.1, h1.2.1⟩ h1.2.2 (ih _ h.2)
      · exact .other' c b ⟨h1.1, h1.2.1⟩ h1.2.2 (ih _ h.2)
    · rcases key with _ | ⟨d, key⟩
      · cases h
      · simp only [Bool.and_eq_true, beq_iff_eq] at h
        obtain ⟨⟨⟨h1, rfl⟩, rfl⟩, h4⟩ := h
        exact SameName.long b ((lower_s b).mp h1) (ih _ h4)

theorem nameEq_complete {name key : Bytes} (h : SameName name key) (ha : AsciiName name) : nameEq name key = true := by
  induction h with
  | nil => rfl
  | same b h ih =>
    have := ha b (by simp)
    rw [nameEq_cons, if_pos this]
    simp [ih fun x hx => ha x (by simp [hx])]
  | other l u hl hu h ih =>
    have := ha l (by simp)
    rw [nameEq_cons, if_pos (by omega), (lowerByte_iff l u (by omega)).mpr (Or.inr (Or.inl ⟨hl.1, hl.2, hu⟩))]
    simp [ih fun x hx => ha x (by simp [hx])]
  | other' l u hl hu h ih =>
    have := ha u (by simp)
    rw [nameEq_cons, if_pos (by omega), (lowerByte_iff u l (by omega)).mpr (Or.inr (Or.inr ⟨hl.1, hl.2, hu⟩))]
    simp [ih fun x hx => ha x (by simp [hx])]
  | long s hs h ih =>
    have e : utf8 0x17f = [0xc5#8, 0xbf#8] := by decide
    rw [e]
    simp only [List.cons_append, List.nil_append]
    rw [nameEq_cons, if_neg (by decide)]
    dsimp only
    rw [(lower_s s).mpr hs, ih fun x hx => ha x (by simp [hx])]
    rfl

theorem nameEq_iff (n : String) (hn : AsciiName (ascii n)) (key : Bytes) : nameEq (lit n) key = true ↔ SameName (ascii n) key :=
  ⟨nameEq_sound _ _, fun h => nameEq_complete h hn⟩

theorem name_address (key : Bytes) : nameEq (lit "address") key = true ↔ SameName (ascii "address") key :=
  nameEq_iff _ (by unfold AsciiName; decide) key
theorem name_devCat (key : Bytes) : nameEq (lit "devCat") key = true ↔ SameName (ascii "devCat") key :=
  nameEq_iff _ (by unfold AsciiName; decide) key
theorem name_firmware (key : Bytes) : nameEq (lit "firmwareVersion") key = true ↔ SameName (ascii "firmwareVersion") key :=
  nameEq_iff _ (by unfold AsciiName; decide) key
theorem name_engine (key : Bytes) : nameEq (lit "engineVersion") key = true ↔ SameName (ascii "engineVersion") key :=
  nameEq_iff _ (by unfold AsciiName; decide) key

/-- A key matches one name only: the names differ in their first letters. -/
theorem nameEq_head {b : Byte} {name key : Bytes} (h : nameEq (b :: name) key = true) (hs : lowerByte b ≠ ch 's') :
    ∃ c, key.head? = some c ∧ lowerByte c = lowerByte b := by
  rcases key with _ | ⟨c, key⟩
  · simp [nameEq] at h
  rw [nameEq_cons] at h
  split_ifs at h with h8
  · rw [Bool.and_eq_true, beq_iff_eq] at h
    exact ⟨c, rfl, h.1.symm⟩
  · rcases key with _ | ⟨d, key⟩
    · cases h
    · simp only [Bool.and_eq_true, beq_iff_eq] at h
      exact absurd h.1.1.1 hs

theorem names_differ (b b' : Byte) (name name' key : Bytes) (h : nameEq (b :: name) key = true)
    (hs : lowerByte b ≠ ch 's') (hs' : lowerByte b' ≠ ch 's') (hne : lowerByte b ≠ lowerByte b') : nameEq (b' :: name') key = false := by
  rw [← Bool.not_eq_true]
  intro h'
  obtain ⟨c, h1, h2⟩ := nameEq_head h hs
  obtain ⟨c', h3, h4⟩ := nameEq_head h' hs'
  rw [h1] at h3
  rw [← Option.some.inj h3, h2] at h4
  exact hne h4

theorem address_says (r a : Address) (s : Bytes) : r.set s = (a, none) ↔ AddressSays s a := address_reads r a s

theorem category_says (s : Bytes) (c : DevCat) : DevCat.scan s = some c ↔ CategorySays s c := by
  have dot : ascii "." = [ch '.'] := by decide
  constructor
  · intro h
    unfold DevCat.scan at h
    rcases h1 : scanHexByte (some 2) s with _ | ⟨a, s1⟩ <;> rw [h1] at h
    · cases h
    dsimp only at h
    rcases h2 : scanLit (ch '.') s1 with _ | s2 <;> rw [h2] at h
    · cases h
    dsimp only at h
    rcases h3 : scanHexByte (some 2) s2 with _ | ⟨b, s3⟩ <;> rw [h3] at h
    · cases h
    simp only [Option.some.injEq] at h
    subst h
    rw [scanLit_iff] at h2
    subst h2
    obtain ⟨w1, f1, rfl, hw1, hf1, -⟩ := (scan2_iff _ _ _).mp h1
    obtain ⟨w2, f2, rfl, hw2, hf2, hr⟩ := (scan2_iff _ _ _).mp h3
    exact ⟨w1, f1, w2, f2, s3, by rw [dot]; simp, hw1, hw2, hf1, hf2, hr⟩
  · rintro ⟨w1, f1, w2, f2, rest, rfl, hw1, hw2, hf1, hf2, hr⟩
    have h1 : scanHexByte (some 2) (w1 ++ f1 ++ ascii "." ++ (w2 ++ f2 ++ rest)) = some (c.1, ch '.' :: (w2 ++ f2 ++ rest)) := by
      refine (scan2_iff _ _ _).mpr ⟨w1, f1, by rw [dot]; simp, hw1, hf1, Or.inr ?_⟩
      rw [startsHex_cons]
      decide
    have h3 : scanHexByte (some 2) (w2 ++ f2 ++ rest) = some (c.2, rest) := (scan2_iff _ _ _).mpr ⟨w2, f2, rfl, hw2, hf2, hr⟩
    unfold DevCat.scan
    rw [h1]
    dsimp only
    rw [(scanLit_iff _ _ _).mpr rfl]
    dsimp only
    rw [h3]

theorem version_says (old new : BitVec 64) (v : Json.Value) : decodeInt old v = (new, none) ↔ VersionSays old v new := by
  unfold VersionSays
  cases v with
  | null => simp [decodeInt, eq_comm]
  | num t =>
    simp only [decodeInt]
    constructor
    · intro h
      rcases ha : atoi t with _ | n <;> rw [ha] at h
      · simp at h
      · simp only [Prod.mk.injEq, and_true] at h
        obtain ⟨h1, h2, h3⟩ := (atoi_iff t n).mp ha
        exact Or.inr ⟨t, n, rfl, h1, by norm_num; omega, by norm_num; omega, h.symm⟩
    · rintro (⟨h, -⟩ | ⟨t', n, h, h1, h2, h3, rfl⟩)
      · cases h
      · simp only [Json.Value.num.injEq] at h
        subst h
        rw [(atoi_iff t n).mpr ⟨h1, by norm_num at h2; omega, by norm_num at h3; omega⟩]
  | bool b => simp [decodeInt]
  | str s => simp [decodeInt]
  | arr vs => simp [decodeInt]
  | obj ms => simp [decodeInt]

theorem address_empty (r : Address) (a : Address) : r.set [] ≠ (a, none) := by
  intro h
  obtain ⟨v1, v2, v3, rest, ⟨w1, f1, w2, f2, w3, f3, he, -⟩, -⟩ := (address_says r a []).mp h
  have := congrArg List.length he
  simp [withDots, ascii] at this

theorem category_empty : DevCat.scan [] = none := by decide

end Insteon
