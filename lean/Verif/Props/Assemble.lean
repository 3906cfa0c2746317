import Verif.Spec.Assemble
import Verif.Props.Resolve
import Verif.Proof.Generic
/-! # C132: a table put together from parts -/

namespace OpenType.Props
open OpenType Spec lookup directory

/-! ## The value -/

section
variable {T : Type} (mk : Nat → Nat → T)

/-- What is read of the extensions. -/
def extTables (type_ : Nat) : Nat → Nat → List Data → List T
  | _, _, [] => []
  | p, e, body :: bodies => mk type_ (e - p) :: extTables type_ (p + 8) (e + body.length) bodies

/-- What is read of a lookup. -/
def plannedRecord (number p e : Nat) (l : Planned) : lookup.Record T :=
  ⟨number, l.flags, l.bodies.length, (List.range l.bodies.length).map fun j => l.head + 8 * j, l.mark_filtering_set,
    extTables mk l.type_ (p + l.head) e l.bodies⟩

/-- What is read of the lookups. -/
def plannedRecords (number : Nat) : Nat → Nat → List Planned → List (lookup.Record T)
  | _, _, [] => []
  | p, e, l :: ls => plannedRecord mk number p e l :: plannedRecords number (p + l.size) (e + l.bodies.flatten.length) ls

/-- What is read of the table. -/
def planned (number : Nat) (t : Directory T) (s f : Data) (ls : List Planned) : Directory T where
  major_version := 1
  minor_version := 0
  script_offset := 10
  feature_offset := 10 + s.length
  lookup_offset := 10 + s.length + f.length
  variation_offset := 0
  scripts := t.scripts
  features := t.features
  lookups := ⟨ls.length, offsetsFrom (2 + 2 * ls.length) ls, plannedRecords mk number (10 + s.length + f.length + 2 + 2 * ls.length)
    (10 + s.length + f.length + 2 + 2 * ls.length + (ls.map Planned.size).sum) ls⟩
  variations := none

theorem extTables_length (type_ p e : Nat) (bodies : List Data) : (extTables mk type_ p e bodies).length = bodies.length := by
  induction bodies generalizing p e with
  | nil => rfl
  | cons body bodies ih => simp [extTables, ih]

theorem plannedRecords_length (number p e : Nat) (ls : List Planned) : (plannedRecords mk number p e ls).length = ls.length := by
  induction ls generalizing p e with
  | nil => rfl
  | cons l ls ih => simp [plannedRecords, ih]

end

theorem offsetsFrom_length (o : Nat) (ls : List Planned) : (offsetsFrom o ls).length = ls.length := by
  induction ls generalizing o with
  | nil => rfl
  | cons l ls ih => simp [offsetsFrom, ih]

theorem offsetsFrom_le (o : Nat) (ls : List Planned) : ∀ x ∈ offsetsFrom o ls, x ≤ o + (ls.map Planned.size).sum := by
  induction ls generalizing o with
  | nil => intro x h; cases h
  | cons l ls ih =>
    intro x h
    rw [List.map_cons, List.sum_cons]
    rcases List.mem_cons.mp h with rfl | h
    · omega
    · have := ih _ x h
      omega

theorem extensionsAt_length (type_ p e : Nat) (bodies : List Data) : (extensionsAt type_ p e bodies).length = 8 * bodies.length := by
  induction bodies generalizing p e with
  | nil => rfl
  | cons body bodies ih =>
    simp only [extensionsAt, List.length_append, enc16_length, enc32_length, ih, List.length_cons]
    omega

theorem bytesAt_length (number p e : Nat) (l : Planned) : (l.bytesAt number p e).length = l.size := by
  unfold Planned.bytesAt Planned.size Planned.head
  cases l.mark_filtering_set <;>
    simp only [List.length_append, enc16_length, enc16s_length, extensionsAt_length, List.length_map, List.length_range,
      List.length_nil, Option.isSome_none, Option.isSome_some, if_true, Bool.false_eq_true, if_false]

theorem lookupsAt_length (number p e : Nat) (ls : List Planned) :
    (lookupsAt number p e ls).length = (ls.map Planned.size).sum := by
  induction ls generalizing p e with
  | nil => rfl
  | cons l ls ih => simp [lookupsAt, bytesAt_length, ih]

theorem assemble_length (number : Nat) (s f : Data) (ls : List Planned) :
    (assemble number s f ls).length =
      10 + s.length + f.length + 2 + 2 * ls.length + (ls.map Planned.size).sum + (ls.flatMap fun l => l.bodies.flatten).length := by
  unfold assemble
  simp only [List.length_append, enc16_length, enc16s_length, lookupsAt_length, offsetsFrom_length]

/-! ## The bytes -/

section
variable {T : Type} {mk : Nat → Nat → T} {isTable : Nat → Data → Nat → T → Prop} {number : Nat} {d : Data} {cfg : Cfg}
  (hmk : ∀ a type_ o, U16 d a 1 → U16 d (a + 2) type_ → U32 d (a + 4) o → isTable number d a (mk type_ o))
include hmk

theorem extensions_there {type_ : Nat} (ht : type_ < 65536) {bodies : List Data} {P p e : Nat}
    (h : Stored d P (extensionsAt type_ p e bodies)) (hl : e + bodies.flatten.length < 4294967296) {j : Nat} {x : T}
    (hx : (extTables mk type_ p e bodies)[j]? = some x) : isTable number d (P + 8 * j) x := by
  induction bodies generalizing P p e j with
  | nil => cases hx
  | cons body bodies ih =>
    simp only [extensionsAt, stored_append, List.length_append, enc16_length, enc32_length] at h
    rw [List.flatten_cons, List.length_append] at hl
    cases j with
    | zero =>
      rw [extTables, List.getElem?_cons_zero] at hx
      obtain rfl := Option.some.inj hx
      exact hmk _ _ _ (at16.mpr ⟨by omega, h.1.1.1⟩) (at16.mpr ⟨ht, h.1.1.2⟩) (at32.mpr ⟨by omega, h.1.2⟩)
    | succ j =>
      rw [extTables, List.getElem?_cons_succ] at hx
      have := ih h.2 (by omega) hx
      rwa [show P + (2 + 2 + 4) + 8 * j = P + 8 * (j + 1) by omega] at this

theorem record_there (hn : number < 65536) {l : Planned} (hf : l.type_ < 65536 ∧ l.flags < 65536 ∧ FlagsOk cfg 0x00E0 l.flags ∧
    (l.flags.testBit 4 = l.mark_filtering_set.isSome) ∧ ∀ n, l.mark_filtering_set = some n → n < 65536) (hs : l.size < 65536) {P p e : Nat}
    (h : Stored d P (l.bytesAt number p e)) (hl : e + l.bodies.flatten.length < 4294967296) :
    IsLookupRecord cfg isTable d P (plannedRecord mk number p e l) := by
  obtain ⟨f1, f2, f3, f4, f5⟩ := hf
  unfold Planned.bytesAt at h
  simp only [stored_append, List.length_append, enc16_length, enc16s_length, List.length_map, List.length_range] at h
  obtain ⟨⟨⟨⟨⟨s1, s2⟩, s3⟩, s4⟩, s5⟩, s6⟩ := h
  have hb : l.bodies.length < 65536 := by unfold Planned.size Planned.head at hs; omega
  refine ⟨at16.mpr ⟨hn, s1⟩, at16.mpr ⟨f2, s2⟩, f3, at16.mpr ⟨hb, s3⟩, at16s.mpr ⟨by simp [plannedRecord], ?_, s4⟩, ?_, ?_⟩
  · intro x hx
    obtain ⟨j, hj, rfl⟩ := List.mem_map.mp hx
    have := List.mem_range.mp hj
    unfold Planned.size at hs
    omega
  · unfold IsMarkFilteringSet plannedRecord
    dsimp only
    cases e : l.mark_filtering_set with
    | none => rw [e] at f4; exact f4
    | some n =>
      rw [e] at f4 s5
      refine ⟨f4, at16.mpr ⟨f5 n e, ?_⟩⟩
      rwa [show P + (2 + 2 + 2 + 2 * l.bodies.length) = P + 6 + 2 * l.bodies.length by omega] at s5
  · refine ⟨by simp [plannedRecord, extTables_length], ?_⟩
    intro j o x ho hx
    have ho : ((List.range l.bodies.length).map fun j => l.head + 8 * j)[j]? = some o := ho
    rw [List.getElem?_map, Option.map_eq_some_iff] at ho
    obtain ⟨k, hk, rfl⟩ := ho
    obtain ⟨hk, rfl⟩ := List.getElem?_eq_some_iff.mp hk
    rw [List.getElem_range]
    have := extensions_there hmk f1 (P := P + l.head) ?_ hl hx
    · rwa [← Nat.add_assoc]
    · unfold Planned.head at s6 ⊢
      cases e : l.mark_filtering_set with
      | none =>
        rw [e] at s6
        simp only [List.length_nil, Option.isSome_none, Bool.false_eq_true, if_false] at s6 ⊢
        rwa [show P + (6 + 2 * l.bodies.length + 0) = P + (2 + 2 + 2 + 2 * l.bodies.length + 0) by omega]
      | some n =>
        rw [e] at s6
        simp only [enc16_length, Option.isSome_some, if_true] at s6 ⊢
        rwa [show P + (6 + 2 * l.bodies.length + 2) = P + (2 + 2 + 2 + 2 * l.bodies.length + 2) by omega]

theorem records_there (hn : number < 65536) {ls : List Planned} (hf : ∀ l ∈ ls, l.type_ < 65536 ∧ l.flags < 65536 ∧ FlagsOk cfg 0x00E0 l.flags ∧
    (l.flags.testBit 4 = l.mark_filtering_set.isSome) ∧ ∀ n, l.mark_filtering_set = some n → n < 65536)
    (hs : (ls.map Planned.size).sum < 65536) {B o p e : Nat} (h : Stored d (B + o) (lookupsAt number p e ls))
    (hl : e + (ls.flatMap fun l => l.bodies.flatten).length < 4294967296) {i o' : Nat} {record : lookup.Record T}
    (h1 : (offsetsFrom o ls)[i]? = some o') (h2 : (plannedRecords mk number p e ls)[i]? = some record) :
    IsLookupRecord cfg isTable d (B + o') record := by
  induction ls generalizing o p e i with
  | nil => cases h1
  | cons l ls ih =>
    simp only [lookupsAt, stored_append, bytesAt_length] at h
    rw [List.flatMap_cons, List.length_append] at hl
    rw [List.map_cons, List.sum_cons] at hs
    cases i with
    | zero =>
      rw [offsetsFrom, List.getElem?_cons_zero] at h1
      rw [plannedRecords, List.getElem?_cons_zero] at h2
      obtain rfl := Option.some.inj h1
      obtain rfl := Option.some.inj h2
      exact record_there hmk hn (hf l List.mem_cons_self) (by omega) h.1 (by omega)
    | succ i =>
      rw [offsetsFrom, List.getElem?_cons_succ] at h1
      rw [plannedRecords, List.getElem?_cons_succ] at h2
      refine ih (fun l hl => hf l (List.mem_cons_of_mem _ hl)) (by omega) (o := o + l.size) ?_ (by omega) h1 h2
      rw [← Nat.add_assoc]
      exact h.2

end

/-! ## The subtables -/

theorem body_there {T : Type} {mk : Nat → Nat → T} {type_ : Nat} {d : Data} {P : Nat} {bodies : List Data} {p e : Nat}
    (h : Stored d (P + e) bodies.flatten) (he : p + 8 * bodies.length ≤ e) {j : Nat} {body : Data} (hb : bodies[j]? = some body) :
    ∃ e', p + 8 * j ≤ e' ∧ (extTables mk type_ p e bodies)[j]? = some (mk type_ (e' - (p + 8 * j))) ∧ Stored d (P + e') body := by
  induction bodies generalizing p e j with
  | nil => cases hb
  | cons b bodies ih =>
    rw [List.flatten_cons, stored_append] at h
    rw [List.length_cons] at he
    cases j with
    | zero =>
      rw [List.getElem?_cons_zero] at hb
      obtain rfl := Option.some.inj hb
      exact ⟨e, by omega, rfl, h.1⟩
    | succ j =>
      rw [List.getElem?_cons_succ] at hb
      obtain ⟨e', h1, h2, h3⟩ := ih (p := p + 8) (e := e + b.length) (by rw [← Nat.add_assoc]; exact h.2) (by omega) hb
      refine ⟨e', by omega, ?_, h3⟩
      rw [extTables, List.getElem?_cons_succ, h2, show p + 8 + 8 * j = p + 8 * (j + 1) by omega]

theorem lookup_there {T : Type} {mk : Nat → Nat → T} {number : Nat} {d : Data} {P : Nat} {ls : List Planned} {o p e : Nat}
    (h : Stored d (P + e) (ls.flatMap fun l => l.bodies.flatten)) (he : p + (ls.map Planned.size).sum ≤ e) {i : Nat} {l : Planned}
    (hl : ls[i]? = some l) :
    ∃ n e', (offsetsFrom o ls)[i]? = some (o + n) ∧ p + n + l.size ≤ e' ∧
      (plannedRecords mk number p e ls)[i]? = some (plannedRecord mk number (p + n) e' l) ∧ Stored d (P + e') l.bodies.flatten := by
  induction ls generalizing o p e i with
  | nil => cases hl
  | cons k ls ih =>
    rw [List.flatMap_cons, stored_append] at h
    rw [List.map_cons, List.sum_cons] at he
    cases i with
    | zero =>
      rw [List.getElem?_cons_zero] at hl
      obtain rfl := Option.some.inj hl
      exact ⟨0, e, rfl, by omega, rfl, h.1⟩
    | succ i =>
      rw [List.getElem?_cons_succ] at hl
      obtain ⟨n, e', h1, h2, h3, h4⟩ := ih (o := o + k.size) (p := p + k.size) (e := e + k.bodies.flatten.length)
        (by rw [← Nat.add_assoc]; exact h.2) (by omega) hl
      refine ⟨k.size + n, e', ?_, by omega, ?_, h4⟩
      · rw [offsetsFrom, List.getElem?_cons_succ, h1, Nat.add_assoc]
      · rw [plannedRecords, List.getElem?_cons_succ, h3, Nat.add_assoc]

/-! ## The table -/

section
variable {T : Type} {cfg : Cfg} {number : Nat} {readTable : Nat → Reader T} {extension : T → Option (Nat × Nat)} {mk : Nat → Nat → T}
  {t : Directory T} {s f : Data} {ls : List Planned}

/-- The subtables of the planned table. -/
def plannedTables (t : Directory T) (other : T) (i j : Nat) : T :=
  ((t.lookups.records[i]?).bind (·.tables[j]?)).getD other

theorem plannedRecords_at {p e i : Nat} {record : lookup.Record T} (h : (plannedRecords mk number p e ls)[i]? = some record) :
    ∃ l p' e', ls[i]? = some l ∧ record = plannedRecord mk number p' e' l := by
  induction ls generalizing p e i with
  | nil => cases h
  | cons l ls ih =>
    cases i with
    | zero => exact ⟨l, p, e, rfl, (Option.some.inj h).symm⟩
    | succ i =>
      rw [plannedRecords, List.getElem?_cons_succ] at h
      rw [List.getElem?_cons_succ]
      exact ih h

theorem forall₂_at {α β : Type} {R : α → β → Prop} {xs : List α} {ys : List β} (h : List.Forall₂ R xs ys) {i : Nat} {y : β}
    (hy : ys[i]? = some y) : ∃ x, xs[i]? = some x ∧ R x y := by
  induction h generalizing i with
  | nil => cases hy
  | @cons a b xs ys h _ ih =>
    cases i with
    | zero => exact ⟨a, rfl, Option.some.inj hy ▸ h⟩
    | succ i => exact ih hy

theorem forall₂_of_at {α β : Type} {R : α → β → Prop} {xs : List α} {ys : List β} (hl : xs.length = ys.length)
    (h : ∀ (i : Nat) x y, xs[i]? = some x → ys[i]? = some y → R x y) : List.Forall₂ R xs ys := by
  induction xs generalizing ys with
  | nil =>
    cases ys with
    | nil => exact .nil
    | cons => cases hl
  | cons x xs ih =>
    cases ys with
    | nil => cases hl
    | cons y ys => exact .cons (h 0 x y rfl rfl) (ih (by simpa using hl) fun i x y hx hy => h (i + 1) x y hx hy)

theorem planned_same (h : PlanFor cfg number readTable extension t s f ls) (other : T) :
    SameContent (withSubtables (plannedTables t other) (planned mk number t s f ls)) t := by
  refine ⟨rfl, rfl, forall₂_of_at ?_ ?_⟩
  · simp [withSubtables, planned, plannedRecords_length, h.lookups.length_eq]
  · intro i record record' h1 h2
    simp only [withSubtables, List.getElem?_mapIdx, Option.map_eq_some_iff] at h1
    obtain ⟨record, h1, rfl⟩ := h1
    obtain ⟨l, p, e, h3, rfl⟩ := plannedRecords_at h1
    obtain ⟨_, h4, k1, k2, k3⟩ := forall₂_at h.lookups h3
    obtain rfl := Option.some.inj (h2.symm.trans h4)
    refine ⟨k1.symm, k2.symm, ?_⟩
    apply List.ext_getElem?
    intro j
    simp only [List.getElem?_mapIdx, plannedRecord]
    have hl : (extTables mk l.type_ (p + l.head) e l.bodies).length = record'.tables.length := by
      rw [extTables_length, k3.length_eq]
    by_cases hj : j < record'.tables.length
    · rw [List.getElem?_eq_getElem (by omega), List.getElem?_eq_getElem hj]
      simp [plannedTables, h2, List.getElem?_eq_getElem hj]
    · rw [List.getElem?_eq_none (by omega), List.getElem?_eq_none (by omega)]
      rfl

theorem stored_at {d b : Data} {a a' : Nat} (h : Stored d a b) (e : a = a') : Stored d a' b := e ▸ h

theorem reads_there {α : Type} {e : Prop} {r : Reader α} {P : α → Prop} [Reloc e r P] {d b : Data} (hd : Fits d) {a : Nat} {v : α}
    (h : Reads r b 0 v) (hs : Stored d a b) : Reads r d a v := by
  obtain ⟨q, h⟩ := h
  exact ⟨_, (moved (e := e) (P := P) (k := a) hs hd).1 v q h⟩

theorem planned_reads {isTable : Nat → Data → Nat → T → Prop} (hr : ∀ {d}, Fits d → ∀ n p v, Reads (readTable n) d p v ↔ isTable n d p v)
    (h : PlanFor cfg number readTable extension t s f ls) (hn : number < 65536) {d : Data} (hd : Fits d) {p : Nat}
    (hs : Stored d p (assemble number s f ls))
    (hmk : ∀ a type_ o, U16 d a 1 → U16 d (a + 2) type_ → U32 d (a + 4) o → isTable number d a (mk type_ o)) :
    Reads (Directory.read cfg readTable) d p (planned mk number t s f ls) := by
  refine (directory_reads hr hd).mpr ?_
  have k1 := h.start
  have k2 := h.offsets
  have k3 := h.length
  rw [assemble_length] at k3
  unfold assemble at hs
  simp only [stored_append, List.length_append, enc16_length, enc16s_length, offsetsFrom_length, lookupsAt_length] at hs
  obtain ⟨⟨⟨⟨⟨⟨⟨⟨⟨⟨s1, s2⟩, s3⟩, s4⟩, s5⟩, s6⟩, s7⟩, s8⟩, s9⟩, s10⟩, s11⟩ := hs
  have part : ∀ {α : Type} (S : Nat → α → Prop) (o : Nat) (empty x : α), o ≠ 0 → S (p + o) x → IsPart cfg S p o empty x := by
    intro α S o empty x ho hx
    unfold IsPart
    rwa [if_neg (fun hc => ho hc.2)]
  unfold planned IsDirectory
  dsimp only
  refine ⟨at16.mpr ⟨by decide, s1⟩, at16.mpr ⟨by decide, s2⟩, rfl, .inl rfl, at16.mpr ⟨by decide, s3⟩, at16.mpr ⟨by omega, s4⟩,
    at16.mpr ⟨k1, s5⟩, by rw [if_neg (by decide)], part _ _ _ _ (by decide) ?_, part _ _ _ _ (by omega) ?_,
    part _ _ _ _ (by omega) ⟨at16.mpr ⟨?_, ?_⟩, at16s.mpr ⟨?_, ?_, ?_⟩, ?_, ?_⟩, rfl⟩
  · exact (reads_parses hd).mp (reads_there (e := True) hd h.scripts s6)
  · exact (reads_parses hd).mp (reads_there (e := True) hd h.features (stored_at s7 (by omega)))
  · dsimp only; omega
  · exact stored_at s8 (by omega)
  · exact offsetsFrom_length _ _
  · intro x hx
    have := offsetsFrom_le _ _ x hx
    omega
  · exact stored_at s9 (by omega)
  · rw [plannedRecords_length, offsetsFrom_length]
  · intro i o record h1 h2
    exact records_there hmk hn h.fine (by omega) (stored_at s10 (by omega)) (by omega) h1 h2

theorem planned_found (h : PlanFor cfg number readTable extension t s f ls) {d : Data} {p : Nat}
    (hs : Stored d p (assemble number s f ls)) (hm : ∀ type_ o, extension (mk type_ o) = some (type_, o))
    (hr : ∀ n a b v, Reads (readTable n) b 0 v → Stored d a b → Reads (readTable n) d a v)
    (hb : ∀ n a v, Reads (readTable n) d a v → a < 2 ^ 64) (other : T) :
    ∀ i record, (planned mk number t s f ls).lookups.records[i]? = some record → ∀ j, j < record.tables.length →
      Reads (subtable extension readTable p (planned mk number t s f ls) i j) d 0 (some (plannedTables t other i j)) ∧
        extension (plannedTables t other i j) = none := by
  intro i record h1 j h2
  obtain ⟨l, p', e', h3, rfl⟩ := plannedRecords_at h1
  unfold assemble at hs
  simp only [stored_append, List.length_append, enc16_length, enc16s_length, offsetsFrom_length, lookupsAt_length] at hs
  obtain ⟨n, e, k1, k2, k3, k4⟩ := lookup_there (mk := mk) (number := number) (P := p) (ls := ls) (o := 2 + 2 * ls.length)
    (p := 10 + s.length + f.length + 2 + 2 * ls.length) (stored_at hs.2 (by omega)) (Nat.le_refl _) h3
  have hj : j < l.bodies.length := by rwa [plannedRecord, extTables_length] at h2
  obtain ⟨record, h4, _, _, m3⟩ := forall₂_at h.lookups h3
  obtain ⟨v, h5, h6, h7⟩ := forall₂_at m3 (List.getElem?_eq_getElem hj)
  have hx : plannedTables t other i j = v := by simp [plannedTables, h4, h5]
  obtain ⟨e'', b1, b2, b3⟩ := body_there (mk := mk) (type_ := l.type_) (P := p)
    (p := 10 + s.length + f.length + 2 + 2 * ls.length + n + l.head) (e := e) k4 (by unfold Planned.size at k2; omega)
    (List.getElem?_eq_getElem hj)
  rw [hx]
  refine ⟨?_, h7⟩
  have c1 : (planned mk number t s f ls).lookups.offsets[i]? = some (2 + 2 * ls.length + n) := k1
  have c2 : (planned mk number t s f ls).lookups.records[i]? =
    some (plannedRecord mk number (10 + s.length + f.length + 2 + 2 * ls.length + n) e l) := k3
  have c3 : (plannedRecord mk number (10 + s.length + f.length + 2 + 2 * ls.length + n) e l).table_offsets[j]? =
      some (l.head + 8 * j) := by
    simp [plannedRecord, hj]
  have c4 : (plannedRecord mk number (10 + s.length + f.length + 2 + 2 * ls.length + n) e l).tables[j]? = _ := b2
  unfold subtable
  rw [c1, c2]
  dsimp only
  rw [c3, c4]
  dsimp only
  rw [hm]
  dsimp only
  have key : Reads (readTable l.type_) d (p + (planned mk number t s f ls).lookup_offset + (2 + 2 * ls.length + n) + (l.head + 8 * j) +
      (e'' - (10 + s.length + f.length + 2 + 2 * ls.length + n + l.head + 8 * j))) v := by
    refine hr _ _ _ _ h6 (stored_at b3 ?_)
    unfold planned
    dsimp only
    omega
  have small := hb _ _ _ key
  obtain ⟨q, key⟩ := key
  exact ⟨q, run_bind.mpr ⟨v, q, run_jumpTake.mpr ⟨small, key⟩, rfl⟩⟩

end

theorem planned_substitution (cfg : Cfg) {t : gsub.GlyphSubstitution} {s f : Data} {ls : List Planned}
    (h : PlanFor cfg 7 gsub.Type_.read substitutionExtension t s f ls) {d : Data} (hd : Fits d) {p : Nat}
    (hs : Stored d p (assemble 7 s f ls)) :
    Reads (gsub.GlyphSubstitution.read cfg) d p (planned (fun n o => .extensionSubstitution ⟨1, n, o⟩) 7 t s f ls) ∧
      StandFor cfg 7 Spec.gsub.IsTable d p (plannedTables t (.extensionSubstitution ⟨0, 0, 0⟩)) := by
  have k : Reads (gsub.GlyphSubstitution.read cfg) d p (planned (fun n o => .extensionSubstitution ⟨1, n, o⟩) 7 t s f ls) :=
    planned_reads (isTable := Spec.gsub.IsTable) (fun hd _ _ _ => reads_parses hd) h (by decide) hd hs
      fun a n o h1 h2 h3 => ⟨rfl, h1, rfl, h2, h3⟩
  refine ⟨k, (C131_found cfg hd).1 _ _ k (planned_found h hs (fun _ _ => rfl)
    (fun n a b v h1 h2 => reads_there (e := True) hd h1 h2) ?_ _)⟩
  intro n a v hv
  have := Parses.bound (gsub.Type_.read n) ((reads_parses hd).mp hv)
  unfold Fits at hd
  omega

theorem planned_positioning (cfg : Cfg) {t : gpos.GlyphPositioning} {s f : Data} {ls : List Planned}
    (h : PlanFor cfg 9 (gpos.Type_.read cfg) positioningExtension t s f ls) {d : Data} (hd : Fits d) {p : Nat}
    (hs : Stored d p (assemble 9 s f ls)) :
    Reads (gpos.GlyphPositioning.read cfg) d p (planned (fun n o => .extensionPositioning ⟨1, n, o⟩) 9 t s f ls) ∧
      StandFor cfg 9 (Spec.gpos.IsTable cfg) d p (plannedTables t (.extensionPositioning ⟨0, 0, 0⟩)) := by
  have k : Reads (gpos.GlyphPositioning.read cfg) d p (planned (fun n o => .extensionPositioning ⟨1, n, o⟩) 9 t s f ls) :=
    planned_reads (isTable := Spec.gpos.IsTable cfg) (fun hd _ _ _ => reads_parses hd) h (by decide) hd hs
      fun a n o h1 h2 h3 => ⟨rfl, h1, rfl, h2, h3⟩
  refine ⟨k, (C131_found cfg hd).2 _ _ k (planned_found h hs (fun _ _ => rfl)
    (fun n a b v h1 h2 => reads_there (e := True) hd h1 h2) ?_ _)⟩
  intro n a v hv
  have := Parses.bound (gpos.Type_.read cfg n) ((reads_parses hd).mp hv)
  unfold Fits at hd
  omega

/-- Whatever the table, if its parts are there, then what is put together from them is read, wherever it is in a file, and it has the
content of the table, once extensions are replaced by what they stand for. -/
theorem C132_table (cfg : Cfg) (s f : Data) (ls : List Planned) :
    (∀ t, PlanFor cfg 7 gsub.Type_.read substitutionExtension t s f ls → ∃ t' x, SameContent (withSubtables x t') t ∧
      ∀ d p, Fits d → Stored d p (assemble 7 s f ls) →
        Reads (gsub.GlyphSubstitution.read cfg) d p t' ∧ StandFor cfg 7 Spec.gsub.IsTable d p x) ∧
    ∀ t, PlanFor cfg 9 (gpos.Type_.read cfg) positioningExtension t s f ls → ∃ t' x, SameContent (withSubtables x t') t ∧
      ∀ d p, Fits d → Stored d p (assemble 9 s f ls) →
        Reads (gpos.GlyphPositioning.read cfg) d p t' ∧ StandFor cfg 9 (Spec.gpos.IsTable cfg) d p x :=
  ⟨fun _ h => ⟨_, _, planned_same h _, fun _ _ hd hs => planned_substitution cfg h hd hs⟩,
    fun _ h => ⟨_, _, planned_same h _, fun _ _ hd hs => planned_positioning cfg h hd hs⟩⟩

/-! ## Text -/

theorem absent_taken {α : Type} {accept : Tag → Bool} {cfg : Cfg} {d : Data} (hd : Fits d) {table : TableType} {r : Reader α}
    (h : Absent accept d table) : Takes accept cfg d 0 table r none := by
  obtain ⟨h1, directory, h2, h3⟩ := h
  refine ⟨⟨[⟨directory⟩]⟩, (C01_one_font accept d 0 hd _).mpr ⟨h1, _, rfl, h2⟩, ?_⟩
  exact ⟨_, List.mem_singleton.mpr rfl, (C03_exists_take cfg tableChecksum ⟨directory⟩ table r (fun _ : Unit => r) () d 0).2.1.mpr
    ((C03_exists_take cfg tableChecksum ⟨directory⟩ table r (fun _ : Unit => r) () d 0).1.mpr h3)⟩

theorem assembled_taken {T : Type} {accept : Tag → Bool} {cfg : Cfg} {d : Data} (hd : Fits d) {table : TableType} {number : Nat}
    {readTable : Nat → Reader T} {extension : T → Option (Nat × Nat)} {isTable : Nat → Data → Nat → T → Prop}
    (hr : ∀ {d}, Fits d → ∀ n p v, Reads (readTable n) d p v ↔ isTable n d p v) {t : Option (Directory T)}
    (h : HasAssembled accept cfg d table number readTable extension t) (other : T)
    (hp : ∀ t s f ls, PlanFor cfg number readTable extension t s f ls → ∃ t' x, SameContent (withSubtables x t') t ∧
      ∀ d p, Fits d → Stored d p (assemble number s f ls) →
        Reads (Directory.read cfg readTable) d p t' ∧ StandFor cfg number isTable d p x) :
    ∃ t' x, Takes accept cfg d 0 table (Directory.read cfg readTable) t' ∧ Option.Rel SameContent (t'.map (withSubtables x)) t ∧
      ∀ p, TableAt accept cfg d table p → StandFor cfg number isTable d p x := by
  cases t with
  | none => exact ⟨none, fun _ _ => other, absent_taken hd h, .none, fun p hp => (taken_none hd (absent_taken hd h (r := Directory.read cfg readTable)) p hp).elim⟩
  | some t =>
    obtain ⟨s, f, ls, h1, before, after, rfl, h2⟩ := h
    obtain ⟨t', x, h3, h4⟩ := hp t s f ls h1
    obtain ⟨h5, h6⟩ := h4 _ before.length hd (ext_mid before _ after)
    have ht := (C55_stored accept cfg _ hd (fun _ _ => directory_reads hr hd) 0 t').mpr
      ⟨_, h2, (directory_reads hr hd).mp h5⟩
    refine ⟨some t', x, ht, .some h3, fun p hp => ?_⟩
    obtain rfl := taken_place hd ht hp h2
    exact h6

/-- A file that has the tables of another put together from parts sets every text as the other does. -/
theorem C132_text (accept accept' : Tag → Bool) (cfg cfg' : Cfg) {d d' : Data} (hd : Fits d) (hd' : Fits d') {p₁ p₂ p₃ p₁' : Nat}
    {definition : Option gdef.GlyphDefinition} {substitution : Option gsub.GlyphSubstitution}
    {positioning : Option gpos.GlyphPositioning}
    (h1 : Takes accept cfg d p₁ .glyphDefinition (gdef.GlyphDefinition.read cfg) definition)
    (h2 : Takes accept cfg d p₂ .glyphSubstitution (gsub.GlyphSubstitution.read cfg) substitution)
    (h3 : Takes accept cfg d p₃ .glyphPositioning (gpos.GlyphPositioning.read cfg) positioning)
    {x : Nat → Nat → gsub.Type_} {y : Nat → Nat → gpos.Type_}
    (hs : ∀ p, TableAt accept cfg d .glyphSubstitution p → StandFor cfg 7 Spec.gsub.IsTable d p x)
    (hp : ∀ p, TableAt accept cfg d .glyphPositioning p → StandFor cfg 9 (Spec.gpos.IsTable cfg) d p y)
    (h1' : Takes accept' cfg' d' p₁' .glyphDefinition (gdef.GlyphDefinition.read cfg') definition)
    (h2' : HasAssembled accept' cfg' d' .glyphSubstitution 7 gsub.Type_.read substitutionExtension (substitution.map (withSubtables x)))
    (h3' : HasAssembled accept' cfg' d' .glyphPositioning 9 (gpos.Type_.read cfg') positioningExtension (positioning.map (withSubtables y)))
    (n : Nat) (script language : Tag) (tags : List Tag) (glyphs : List Nat) :
    alone (typeset accept' cfg' n script language tags glyphs) d' = alone (typeset accept cfg n script language tags glyphs) d := by
  obtain ⟨t₁, x', k1, k2, k3⟩ := assembled_taken hd' (isTable := Spec.gsub.IsTable) (fun hd _ _ _ => reads_parses hd) h2'
    (.extensionSubstitution ⟨0, 0, 0⟩) fun t s f ls => (C132_table cfg' s f ls).1 t
  obtain ⟨t₂, y', m1, m2, m3⟩ := assembled_taken hd' (isTable := Spec.gpos.IsTable cfg') (fun hd _ _ _ => reads_parses hd) h3'
    (.extensionPositioning ⟨0, 0, 0⟩) fun t s f ls => (C132_table cfg' s f ls).2 t
  exact C131_same accept' accept cfg' cfg hd' hd h1' k1 m1 h1 h2 h3 k3 m3 hs hp k2 m2 n script language tags glyphs

/-- What corresponds to a table corresponds to one with the same content. -/
theorem corresponds_content {T : Type} {alike : T → T → Prop} {idle idle' : T → Prop} {G R : Nat → Nat → Prop}
    {definition definition' : Option gdef.GlyphDefinition} {script language : Tag} {tags : List Tag} {t t' t'' : Option (Directory T)}
    (hc : CorrespondsBy alike idle idle' G R definition definition' script language tags t t') (h : Option.Rel SameContent t'' t') :
    CorrespondsBy alike idle idle' G R definition definition' script language tags t t'' := by
  have key := sameContent_corresponds (alike := Eq) (fun _ => rfl) (fun _ => False) (fun _ => False) definition' script language tags h
  have plain : ∀ {xs ys : List T}, SameBut Eq (fun _ => False) (fun _ => False) xs ys → xs = ys := by
    intro xs ys h
    induction h with
    | nil => rfl
    | cons h _ ih => rw [h, ih]
    | left h _ _ => exact h.elim
    | right h _ _ => exact h.elim
  have wanted : ∀ i, WantedOf t'' script language tags i ↔ WantedOf t' script language tags i := by
    intro i
    constructor
    · intro hi
      obtain ⟨j, rfl, hj⟩ := key.there i hi
      exact hj
    · intro hi
      obtain ⟨j, rfl, hj⟩ := key.back i hi
      exact hj
  refine ⟨fun i hi => ?_, fun j hj => hc.back j ((wanted j).mp hj), hc.order, fun i j hR g g' hg => ?_, fun i j hR => ?_⟩
  · obtain ⟨j, hR, hj⟩ := hc.there i hi
    exact ⟨j, hR, (wanted j).mpr hj⟩
  · exact (hc.passes i j hR g g' hg).trans (key.passes j j rfl g' g' rfl).symm
  · rw [plain (key.tables j j rfl)]
    exact hc.tables i j hR

/-- A font cut down, or with other numbers for its glyphs, can be put together from parts: a file that has tables put together from the
parts of tables that correspond to those of the font sets the texts in its glyphs as the font does. -/
theorem C132_subset (accept accept' : Tag → Bool) (cfg cfg' : Cfg) {d d' : Data} (hd : Fits d) (hd' : Fits d') {p₁ p₂ p₃ p₁' : Nat}
    {definition definition' : Option gdef.GlyphDefinition} {substitution substitution' : Option gsub.GlyphSubstitution}
    {positioning positioning' : Option gpos.GlyphPositioning}
    (h1 : Takes accept cfg d p₁ .glyphDefinition (gdef.GlyphDefinition.read cfg) definition)
    (h2 : Takes accept cfg d p₂ .glyphSubstitution (gsub.GlyphSubstitution.read cfg) substitution)
    (h3 : Takes accept cfg d p₃ .glyphPositioning (gpos.GlyphPositioning.read cfg) positioning)
    {x : Nat → Nat → gsub.Type_} {y : Nat → Nat → gpos.Type_}
    (hs : ∀ p, TableAt accept cfg d .glyphSubstitution p → StandFor cfg 7 Spec.gsub.IsTable d p x)
    (hp : ∀ p, TableAt accept cfg d .glyphPositioning p → StandFor cfg 9 (Spec.gpos.IsTable cfg) d p y)
    (h1' : Takes accept' cfg' d' p₁' .glyphDefinition (gdef.GlyphDefinition.read cfg') definition')
    (h2' : HasAssembled accept' cfg' d' .glyphSubstitution 7 gsub.Type_.read substitutionExtension substitution')
    (h3' : HasAssembled accept' cfg' d' .glyphPositioning 9 (gpos.Type_.read cfg') positioningExtension positioning')
    {script language : Tag} {tags : List Tag} {G R S : Nat → Nat → Prop}
    (hR : CorrespondsBy (SubstitutionsBy G R) (SubstitutionIdle (Kept G)) (SubstitutionIdle (Known G)) G R definition definition' script
      language tags (substitution.map (withSubtables x)) substitution')
    (hS : CorrespondsBy (PositioningsBy G S) (PositioningIdle (Kept G)) (PositioningIdle (Known G)) G S definition definition' script
      language tags (positioning.map (withSubtables y)) positioning')
    (hm : MarksBy G definition definition') (n : Nat) {glyphs glyphs' : List Nat} (hg : List.Forall₂ G glyphs glyphs') :
    OutcomesBy (List.Forall₂ (ItemsBy G)) (alone (typeset accept cfg n script language tags glyphs) d)
      (alone (typeset accept' cfg' n script language tags glyphs') d') := by
  obtain ⟨t₁, x', k1, k2, k3⟩ := assembled_taken hd' (isTable := Spec.gsub.IsTable) (fun hd _ _ _ => reads_parses hd) h2'
    (.extensionSubstitution ⟨0, 0, 0⟩) fun t s f ls => (C132_table cfg' s f ls).1 t
  obtain ⟨t₂, y', m1, m2, m3⟩ := assembled_taken hd' (isTable := Spec.gpos.IsTable cfg') (fun hd _ _ _ => reads_parses hd) h3'
    (.extensionPositioning ⟨0, 0, 0⟩) fun t s f ls => (C132_table cfg' s f ls).2 t
  exact C131_alike accept accept' cfg cfg' hd hd' h1 h2 h3 h1' k1 m1 hs hp k3 m3 (corresponds_content hR k2) (corresponds_content hS m2)
    hm n hg

/-! ## Example -/

/-- A list of scripts, a list of features, and two subtables, each on its own. -/
def partScripts : Data := bytes <| [0, 1,  0x6C, 0x61, 0x74, 0x6E,  0, 8] ++ [0, 4,  0, 0] ++ [0, 0,  0xFF, 0xFF,  0, 1,  0, 0]
def partFeatures : Data := bytes <| [0, 1,  0x6C, 0x69, 0x67, 0x61,  0, 8] ++ [0, 0,  0, 1,  0, 0]
def partLigatures : Data := bytes <|
  [0, 1,  0, 8,  0, 1,  0, 14] ++ [0, 1,  0, 1,  0, 1] ++ [0, 2,  0, 6,  0, 14] ++ [0, 4,  0, 3,  0, 1,  0, 2] ++ [0, 3,  0, 2,  0, 2]
def partSingle : Data := bytes <| [0, 1,  0, 6,  0, 5] ++ [0, 1,  0, 1,  0, 3]

/-- The table with one lookup that is put together from these. -/
theorem part_plan : PlanFor ⟨false, false, false, false, false, false⟩ 7 gsub.Type_.read substitutionExtension subsetValue partScripts
    partFeatures [⟨4, 0, none, [partLigatures]⟩] where
  scripts := by decide +kernel
  features := by decide +kernel
  lookups := by
    have e : subsetValue.lookups.records = [⟨4, 0, 1, [8], none, [.ligatureSubstitution subsetLigatures]⟩] := by decide +kernel
    rw [e]
    exact .cons ⟨rfl, rfl, .cons ⟨by decide +kernel, rfl⟩ .nil⟩ .nil
  fine := by
    intro l hl
    obtain rfl := List.mem_singleton.mp hl
    exact ⟨by decide, by decide, (fun h => by cases h), rfl, (fun _ h => by cases h)⟩
  start := by decide +kernel
  offsets := by decide +kernel
  length := by decide +kernel

/-- It is the table of `extendedFile`. -/
theorem part_assembled : assemble 7 partScripts partFeatures [⟨4, 0, none, [partLigatures]⟩] = extendedTable := by decide +kernel

/-- The file has it, and no GPOS table. -/
theorem extended_has : HasTable (· == 0x00010000) ⟨false, false, false, false, false, false⟩ extendedFile .glyphSubstitution
    (some extendedTable) := by
  have := hasTable_written (accept := (· == 0x00010000)) (version := 0x00010000) (a := 32) (b := 1) (c := 0)
    (tables := [(TableType.glyphSubstitution.tag, extendedTable)]) (after := [])
    ⟨by decide, by decide, by decide, by decide +kernel, by decide +kernel⟩
    (by decide +kernel) ⟨false, false, false, false, false, false⟩ .glyphSubstitution
  rw [List.append_nil, show bodyOf .glyphSubstitution [(TableType.glyphSubstitution.tag, extendedTable)] = some extendedTable by
    decide +kernel] at this
  exact this

theorem extended_lacks : HasTable (· == 0x00010000) ⟨false, false, false, false, false, false⟩ extendedFile .glyphPositioning none := by
  have hd : Fits extendedFile := by decide +kernel
  have hf : Reads (File.read (· == 0x00010000)) extendedFile 0 ⟨[fontOf extendedFile]⟩ := by decide +kernel
  refine (absent_iff hd hf).mpr ?_
  unfold NoneWith
  decide +kernel

/-- So that file sets every text as the one with the whole table does. -/
example (n : Nat) (script language : Tag) (tags : List Tag) (glyphs : List Nat) :
    alone (typeset (· == 0x00010000) ⟨false, false, false, false, false, false⟩ n script language tags glyphs) extendedFile =
      alone (typeset (· == 0x00010000) ⟨false, false, false, false, false, false⟩ n script language tags glyphs) subsetFile := by
  have hd : Fits subsetFile := by decide +kernel
  have hd' : Fits extendedFile := by decide +kernel
  have hf : Reads (File.read (· == 0x00010000)) subsetFile 0 ⟨[fontOf subsetFile]⟩ := by decide +kernel
  have hf' : Reads (File.read (· == 0x00010000)) extendedFile 0 ⟨[fontOf extendedFile]⟩ := by decide +kernel
  have e : withSubtables (fun _ _ => .ligatureSubstitution subsetLigatures) subsetValue = subsetValue := by decide +kernel
  refine C132_text (p₁ := 0) (p₂ := 0) (p₃ := 0) (p₁' := 0) (definition := none) (positioning := none)
    (substitution := some subsetValue) (x := fun _ _ => .ligatureSubstitution subsetLigatures)
    (y := fun _ _ => .extensionPositioning ⟨0, 0, 0⟩) _ _ _ _ hd hd'
    ⟨_, hf, by decide +kernel⟩ ⟨_, hf, by decide +kernel⟩ ⟨_, hf, by decide +kernel⟩
    (stand_for_one (a := 28) (t := subsetValue) hd hf (by decide +kernel) (by decide +kernel) (by decide +kernel) rfl)
    (stand_for_none hd (p := 0) ⟨_, hf, by decide +kernel⟩ _) ⟨_, hf', by decide +kernel⟩ ?_ ?_ n script language tags glyphs
  · rw [Option.map_some, e]
    refine ⟨_, _, _, part_plan, ?_⟩
    rw [part_assembled]
    exact extended_has
  · exact extended_lacks

theorem stand_for_several {d : Data} {a n : Nat} {t : gsub.GlyphSubstitution} {x : Nat → gsub.Type_} (hd : Fits d)
    (hf : Reads (File.read (· == 0x00010000)) d 0 ⟨[fontOf d]⟩)
    (ht : Reads (tableOf ⟨false, false, false, false, false, false⟩ (fontOf d) .glyphSubstitution
      (gsub.GlyphSubstitution.read ⟨false, false, false, false, false, false⟩)) d 0 (some (a, t)))
    (h1 : t.lookups.records.map (·.tables.length) = [n])
    (h2 : ∀ j < n, Reads (subtable substitutionExtension gsub.Type_.read a t 0 j) d 0 (some (x j)) ∧ substitutionExtension (x j) = none) :
    ∀ p, TableAt (· == 0x00010000) ⟨false, false, false, false, false, false⟩ d .glyphSubstitution p →
      StandFor ⟨false, false, false, false, false, false⟩ 7 Spec.gsub.IsTable d p fun _ j => x j := by
  intro p hp
  obtain ⟨k, e⟩ := ht
  rw [run_tableOf hd hf hp] at e
  obtain ⟨y, e1, e2⟩ : ∃ y, gsub.GlyphSubstitution.read ⟨false, false, false, false, false, false⟩ d p = .ok (y, k) ∧ (p, y) = (a, t) := by
    cases e1 : gsub.GlyphSubstitution.read ⟨false, false, false, false, false, false⟩ d p with
    | error => rw [e1] at e; cases e
    | ok y => rw [e1] at e; cases e; exact ⟨_, rfl, rfl⟩
  obtain ⟨rfl, rfl⟩ := Prod.mk.inj e2
  refine (C131_found _ hd).1 y _ ⟨k, e1⟩ fun i record e j hj => ?_
  have : (y.lookups.records.map (·.tables.length))[i]? = some record.tables.length := by rw [List.getElem?_map, e]; rfl
  rw [h1] at this
  cases i with
  | zero =>
    injection this with this
    exact h2 j (by omega)
  | succ i => cases this

/-- And it sets the texts in its glyphs as the font does that it was cut down from. -/
example (n : Nat) {glyphs : List Nat} (hg : ∀ g ∈ glyphs, g ∈ keptGlyphs) :
    OutcomesBy (List.Forall₂ (ItemsBy SameGlyph))
      (alone (typeset (· == 0x00010000) ⟨false, false, false, false, false, false⟩ n 0x6C61746E 0x44455520 [0x6C696761] glyphs) wholeFile)
      (alone (typeset (· == 0x00010000) ⟨false, false, false, false, false, false⟩ n 0x6C61746E 0x44455520 [0x6C696761]
        (glyphs.map newGlyph)) extendedFile) := by
  have hd : Fits wholeFile := by decide +kernel
  have hd' : Fits extendedFile := by decide +kernel
  have hf : Reads (File.read (· == 0x00010000)) wholeFile 0 ⟨[fontOf wholeFile]⟩ := by decide +kernel
  have hf' : Reads (File.read (· == 0x00010000)) extendedFile 0 ⟨[fontOf extendedFile]⟩ := by decide +kernel
  have e : withSubtables (fun _ j => .ligatureSubstitution (if j = 0 then doubledLigatures else wholeLigatures)) wholeValue =
    wholeValue := by decide +kernel
  have one : OneToOne SameGlyph := by
    rintro g h g' h' ⟨k, rfl⟩ ⟨k', rfl⟩
    exact ⟨fun e => by rw [e], (by decide : ∀ g ∈ keptGlyphs, ∀ h ∈ keptGlyphs, newGlyph g = newGlyph h → g = h) g k g' k'⟩
  have weaken : ∀ {xs ys : List gsub.Type_}, SameBut (SubsetSubstitution SameGlyph fun i j => i = 0 ∧ j = 0)
      (SubstitutionIdle (Kept SameGlyph)) (SubstitutionIdle (Known SameGlyph)) xs ys → SameBut (SubstitutionsBy SameGlyph fun i j =>
        i = 0 ∧ j = 0) (SubstitutionIdle (Kept SameGlyph)) (SubstitutionIdle (Known SameGlyph)) xs ys := by
    intro xs ys h
    induction h with
    | nil => exact .nil
    | cons h _ ih => exact .cons (C130_substitutions one h) ih
    | left h _ ih => exact .left h ih
    | right h _ ih => exact .right h ih
  refine C132_subset (p₁ := 0) (p₂ := 0) (p₃ := 0) (p₁' := 0) (definition := none) (definition' := none) (positioning := none)
    (positioning' := none) (substitution := some wholeValue) (substitution' := some subsetValue) (R := fun i j => i = 0 ∧ j = 0)
    (S := fun _ _ => False) (x := fun _ j => .ligatureSubstitution (if j = 0 then doubledLigatures else wholeLigatures))
    (y := fun _ _ => .extensionPositioning ⟨0, 0, 0⟩) _ _ _ _ hd hd'
    ⟨_, hf, by decide +kernel⟩ ⟨_, hf, by decide +kernel⟩ ⟨_, hf, by decide +kernel⟩
    (stand_for_several (a := 28) (n := 2) (t := wholeValue) hd hf (by decide +kernel) (by decide +kernel) (by decide +kernel))
    (stand_for_none hd (p := 0) ⟨_, hf, by decide +kernel⟩ _) ⟨_, hf', by decide +kernel⟩
    ⟨_, _, _, part_plan, part_assembled ▸ extended_has⟩ extended_lacks ?_ ?_
    (fun _ _ _ => ⟨(fun ⟨_, h, _⟩ => by cases h), (fun ⟨_, h, _⟩ => by cases h)⟩) n ?_
  · rw [Option.map_some, e]
    exact { subset_corresponds with tables := fun i j hr => weaken (subset_corresponds.tables i j hr) }
  · have hn : ∀ i, ¬WantedOf (none : Option gpos.GlyphPositioning) 0x6C61746E 0x44455520 [0x6C696761] i := by
      rintro i ⟨_, h, _⟩
      cases h
    exact ⟨fun i h => (hn i h).elim, fun i h => (hn i h).elim, fun i _ _ _ h => (hn i h).elim, fun _ _ h => h.elim, fun _ _ h => h.elim⟩
  · induction glyphs with
    | nil => exact .nil
    | cons g glyphs ih =>
      exact .cons (sameGlyph_of (hg g List.mem_cons_self)) (ih fun h hh => hg h (List.mem_cons_of_mem _ hh))

/-- A table with two lookups, of which one has two subtables and a set of marks. -/
example : PlanFor ⟨false, false, false, false, true, false⟩ 7 gsub.Type_.read substitutionExtension
    { subsetValue with lookups := ⟨0, [], [⟨0, 16, 0, [], some 2, [.ligatureSubstitution subsetLigatures, .ligatureSubstitution
      subsetLigatures]⟩, ⟨0, 0, 0, [], none, [.singleSubstitution (.format1 ⟨1, 6, 5, .format1 ⟨1, 1, [3]⟩⟩)]⟩]⟩ } partScripts partFeatures
    [⟨4, 16, some 2, [partLigatures, partLigatures]⟩, ⟨1, 0, none, [partSingle]⟩] where
  scripts := by decide +kernel
  features := by decide +kernel
  lookups := .cons ⟨rfl, rfl, .cons ⟨by decide +kernel, rfl⟩ (.cons ⟨by decide +kernel, rfl⟩ .nil)⟩
    (.cons ⟨rfl, rfl, .cons ⟨by decide +kernel, rfl⟩ .nil⟩ .nil)
  fine := by
    intro l hl
    rcases List.mem_cons.mp hl with rfl | hl
    · exact ⟨by decide, by decide, (fun h => by cases h), by decide, (fun n h => by cases h; decide)⟩
    · obtain rfl := List.mem_singleton.mp hl
      exact ⟨by decide, by decide, (fun h => by cases h), by decide, (fun _ h => by cases h)⟩
  start := by decide +kernel
  offsets := by decide +kernel
  length := by decide +kernel

/-- Its bytes, and where the subtables are. -/
example : (assemble 7 partScripts partFeatures [⟨4, 16, some 2, [partLigatures, partLigatures]⟩, ⟨1, 0, none, [partSingle]⟩]).drop 44 =
    bytes ([0, 2,  0, 6,  0, 34] ++
      [0, 7,  0, 16,  0, 2,  0, 12,  0, 20,  0, 2] ++ [0, 1,  0, 4,  0, 0, 0, 32] ++ [0, 1,  0, 4,  0, 0, 0, 58] ++
      [0, 7,  0, 0,  0, 1,  0, 8] ++ [0, 1,  0, 1,  0, 0, 0, 76]) ++ partLigatures ++ partLigatures ++ partSingle := by decide +kernel

end OpenType.Props
