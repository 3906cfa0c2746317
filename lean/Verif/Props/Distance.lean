import Verif.Spec.Distance
import Verif.Props.Correct
import Verif.Props.Gpos
/-! # C120: distances at a size and in a variation -/

namespace OpenType.Props
open OpenType Spec

/-- A program ends well, and exactly with what the bytes say. -/
def Answers {α : Type} (result : Except Err α) (S : α → Prop) : Prop := (∀ x, result = .ok x ↔ S x) ∧ ∃ x, result = .ok x

theorem Answers.ok {α : Type} {a : α} {S : α → Prop} (h : ∀ x, S x ↔ x = a) : Answers (.ok a) S :=
  ⟨fun x => ⟨fun e => (h x).mpr (by injection e with e; exact e.symm), fun e => by rw [(h x).mp e]⟩, a, rfl⟩

/-- Any store that is read, with records as in C106. -/
def StoreAt (cfg : Cfg) (d : Data) : Option Nat → Option item.Store → Prop
  | none, none => True
  | some s, some t => Reads (item.Store.read cfg) d s t ∧ ∀ outer a, ItemRecordAt d s outer a → Ordinary d a
  | _, _ => False

theorem answers_sum {cfg : Cfg} {d : Data} {a : Nat} {t : item.Record} (h : IsItemRecord cfg d a t) (ho : Ordinary d a) {item : Nat}
    (hi : item < t.item_count) (weight : Nat → Int) (n : Nat) :
    n ≤ t.region_count → Answers (sumDeltas t item weight n) (Weighted d a item weight n) := by
  induction n with
  | zero => exact fun _ => Answers.ok fun x => Iff.rfl
  | succ n ih =>
    intro hn
    obtain ⟨h1, c, hc⟩ := ih (by omega)
    obtain ⟨g1, g2, g3⟩ := gives_delta h ho item n
    obtain ⟨region, x, hx⟩ : ∃ region x, itemDelta t item n = .ok (some (region, x)) := by
      cases e : itemDelta t item n with
      | error e' => exact (g3 _ e).elim
      | ok y =>
        cases y with
        | none => exact (g2.mp e _ _ h.1 h.2.2.1 ⟨hi, by omega⟩).elim
        | some y => exact ⟨y.1, y.2, rfl⟩
    have e : sumDeltas t item weight (n + 1) = .ok (c + weight region * x) := by
      unfold sumDeltas
      rw [hc, hx]
      rfl
    rw [e]
    refine Answers.ok fun y => ?_
    constructor
    · rintro ⟨c', region', x', k1, k2, rfl⟩
      have k1 := (h1 c').mpr k1
      rw [hc] at k1
      cases k1
      have k2 := (g1 (region', x')).mpr k2
      rw [hx] at k2
      cases k2
      rfl
    · rintro rfl
      exact ⟨c, region, x, (h1 c).mp hc, (g1 (region, x)).mp hx, rfl⟩

theorem recordAt_unique {d : Data} {s outer a b : Nat} (h : ItemRecordAt d s outer a) (h' : ItemRecordAt d s outer b) : a = b := by
  obtain ⟨_, o, _, _, k1, rfl⟩ := h
  obtain ⟨_, o', _, _, k2, rfl⟩ := h'
  rw [k1.unique k2]

theorem answers_vary {cfg : Cfg} {d : Data} {s : Nat} (hd : Fits d) {t : item.Store} (h : Reads (item.Store.read cfg) d s t)
    (ho : ∀ outer a, ItemRecordAt d s outer a → Ordinary d a) (outer inner : Nat) (weight : Nat → Int) :
    Answers (vary t outer inner weight) (Varied d s outer inner weight) := by
  obtain ⟨_, _, _, h1, ⟨h2, h3⟩, h4, h5⟩ := (reads_parses (S := IsStore cfg) hd).mp h
  unfold vary
  cases e : t.records[outer]? with
  | none =>
    have hl : t.count ≤ outer := by
      have := List.getElem?_eq_none_iff.mp e
      omega
    refine Answers.ok fun x => ?_
    have hno : ∀ a, ¬ItemRecordAt d s outer a := by
      rintro a ⟨n, _, k1, k2, _⟩
      rw [k1.unique h1] at k2
      omega
    constructor
    · rintro (⟨a, _, _, k, _⟩ | ⟨_, rfl⟩)
      · exact (hno a k).elim
      · rfl
    · rintro rfl
      exact .inr ⟨fun ⟨a, _, k, _⟩ => hno a k, rfl⟩
  | some record =>
    have hl : outer < t.records.length := (List.getElem?_eq_some_iff.mp e).1
    have e' := List.getElem?_eq_getElem (l := t.offsets) (i := outer) (by omega)
    have hr := h5 _ _ _ e' e
    have ha : ItemRecordAt d s outer _ := ⟨_, _, h1, by omega, h3 _ _ e', rfl⟩
    dsimp only
    split
    · rename_i hi
      obtain ⟨g1, g2⟩ := answers_sum hr (ho _ _ ha) hi weight _ (Nat.le_refl _)
      refine ⟨fun x => (g1 x).trans ?_, g2⟩
      constructor
      · intro k
        exact .inl ⟨_, _, _, ha, hr.1, hr.2.2.1, hi, k⟩
      · rintro (⟨a, items, regions, k1, k2, k3, k4, k5⟩ | ⟨k, _⟩)
        · obtain rfl := recordAt_unique k1 ha
          rw [k3.unique hr.2.2.1] at k5
          exact k5
        · exact (k ⟨_, _, ha, hr.1, hi⟩).elim
    · rename_i hi
      have hno : ¬∃ a items, ItemRecordAt d s outer a ∧ U16 d a items ∧ inner < items := by
        rintro ⟨a, items, k1, k2, k3⟩
        obtain rfl := recordAt_unique k1 ha
        rw [k2.unique hr.1] at k3
        exact hi k3
      refine Answers.ok fun x => ⟨?_, fun e => .inr ⟨hno, e⟩⟩
      rintro (⟨a, items, _, k1, k2, _, k3, _⟩ | ⟨_, rfl⟩)
      · exact (hno ⟨a, items, k1, k2, k3⟩).elim
      · rfl

theorem answers_correction {cfg : Cfg} {d : Data} (hd : Fits d) {s : Option Nat} {store : Option item.Store}
    (hs : StoreAt cfg d s store) {a : Nat} {t : correction.Correction} (h : IsCorrection d a t) (size : Nat) (weight : Nat → Int) :
    Answers (correctBy store size weight (some t)) fun x => CorrectedBy d s a size weight x.1 x.2 := by
  cases t with
  | device t =>
    obtain ⟨g1, g2, g3⟩ := C106_device hd ((reads_parses (r := correction.Correction.read) hd).mpr h) size
    obtain ⟨k1, k2, k3, k4, k5, k6, _⟩ := h
    cases e : sizeDelta t size with
    | error e' => exact (g3 _ e).elim
    | ok y =>
      have e' : correctBy store size weight (some (.device t)) = .ok (0, y.getD 0) := by
        unfold correctBy
        dsimp only
        rw [e]
        rfl
      rw [e']
      refine Answers.ok fun x => ?_
      obtain ⟨units, pixels⟩ := x
      constructor
      · rintro (⟨format, _, _, _, rfl, hk⟩ | ⟨k, _⟩)
        · rcases hk with hk | ⟨hk, rfl⟩
          · have := (g1 _).mpr hk
            rw [e] at this
            cases this
            rfl
          · have := g2.mpr hk
            rw [e] at this
            cases this
            rfl
        · have := k.unique k3
          omega
      · intro k
        injection k with k7 k8
        refine .inl ⟨_, k3, k5, k6, k7, ?_⟩
        cases y with
        | none => exact .inr ⟨g2.mp e, k8⟩
        | some y =>
          cases k8
          exact .inl ((g1 _).mp e)
  | variation t =>
    obtain ⟨hf, k1, k2, k3⟩ := h
    rw [hf] at k3
    match s, store, hs with
    | none, none, _ =>
      refine Answers.ok fun x => ?_
      obtain ⟨units, pixels⟩ := x
      constructor
      · rintro (⟨format, k, _⟩ | ⟨_, rfl, _, _, _, _, rfl⟩)
        · have := k.unique k3
          omega
        · rfl
      · intro k
        cases k
        exact .inr ⟨k3, rfl, _, _, k1, k2, rfl⟩
    | some s, some store, ⟨hs, ho⟩ =>
      obtain ⟨g1, c, hc⟩ := answers_vary hd hs ho t.outer_index t.inner_index weight
      have e' : correctBy (some store) size weight (some (.variation t)) = .ok (c, 0) := by
        unfold correctBy
        dsimp only
        rw [hc]
        rfl
      rw [e']
      refine Answers.ok fun x => ?_
      obtain ⟨units, pixels⟩ := x
      constructor
      · rintro (⟨format, k, _⟩ | ⟨_, rfl, outer, inner, l1, l2, l3⟩)
        · have := k.unique k3
          omega
        · cases l1.unique k1
          cases l2.unique k2
          have := (g1 _).mpr l3
          rw [hc] at this
          cases this
          rfl
      · intro k
        cases k
        exact .inr ⟨k3, rfl, _, _, k1, k2, (g1 _).mp hc⟩

/-- A number with what is at an offset. -/
theorem answers_distance {cfg : Cfg} {d : Data} (hd : Fits d) {s : Option Nat} {store : Option item.Store}
    (hs : StoreAt cfg d s store) {base offset : Nat} {t : Option correction.Correction} (h : Optional (IsCorrection d) base offset t)
    (size : Nat) (weight : Nat → Int) (stored : Int) :
    Answers (amend store size weight stored t) fun x =>
      ∃ more, OffsetCorrects d s base offset size weight more x.2 ∧ x.1 = 16384 * stored + more := by
  cases t with
  | none =>
    refine Answers.ok fun x => ?_
    obtain ⟨units, pixels⟩ := x
    constructor
    · rintro ⟨more, ⟨_, rfl, rfl⟩ | ⟨k, _⟩, rfl⟩
      · rfl
      · exact (k h).elim
    · intro k
      cases k
      exact ⟨0, .inl ⟨h, rfl, rfl⟩, rfl⟩
  | some t =>
    obtain ⟨ho, h⟩ := h
    obtain ⟨g1, ⟨units, pixels⟩, hc⟩ := answers_correction hd hs h size weight
    have e' : amend store size weight stored (some t) = .ok (16384 * stored + units, pixels) := by
      unfold amend
      rw [hc]
      rfl
    rw [e']
    refine Answers.ok fun x => ?_
    obtain ⟨units', pixels'⟩ := x
    constructor
    · rintro ⟨more, ⟨k, _⟩ | ⟨_, k⟩, rfl⟩
      · exact (ho k).elim
      · have := (g1 (more, pixels')).mpr k
        rw [hc] at this
        cases this
        rfl
    · intro k
      cases k
      exact ⟨units, .inr ⟨ho, (g1 (units, pixels)).mp hc⟩, rfl⟩

theorem answers_plain (store : Option item.Store) (size : Nat) (weight : Nat → Int) (stored : Int) :
    Answers (amend store size weight stored none) fun x => x.1 = 16384 * stored ∧ x.2 = 0 := by
  refine Answers.ok fun x => ?_
  obtain ⟨units, pixels⟩ := x
  constructor
  · rintro ⟨rfl, rfl⟩
    simp
  · intro k
    cases k
    simp

theorem i16_same {d : Data} {p : Nat} {x y : Int} (h : I16 d p x) (h' : I16 d p y) : x = y := by
  obtain ⟨h1, h2, h3⟩ := h
  obtain ⟨k1, k2, k3⟩ := h'
  have := h3.unique k3
  omega

theorem Answers.congr {α : Type} {result : Except Err α} {S S' : α → Prop} (h : Answers result S) (hs : ∀ x, S x ↔ S' x) :
    Answers result S' := ⟨fun x => (h.1 x).trans (hs x), h.2⟩

/-- One measure. -/
theorem answers_field {cfg : Cfg} {d : Data} (hd : Fits d) {s : Option Nat} {store : Option item.Store}
    (hs : StoreAt cfg d s store) {base flags p : Nat} {m : Measure} {x : Option Int} {o : Option Nat}
    {t : Option correction.Correction} (hx : gpos.IsField (I16 d) flags p m.bit x)
    (ho : gpos.IsField (U16 d) flags p (m.bit + 4) o) (ht : gpos.IsCorrectionOf d base o t) (size : Nat) (weight : Nat → Int) :
    Answers (amend store size weight (x.getD 0) t) fun y => MeasuresTo d s base flags p m size weight y.1 y.2 := by
  have h1 : ∀ stored, (if flags.testBit m.bit then I16 d (p + 2 * gpos.bitsBelow flags m.bit) stored else stored = 0) ↔
      stored = x.getD 0 := by
    intro stored
    cases x with
    | none =>
      have hx : flags.testBit m.bit = false := hx
      rw [hx]
      exact Iff.rfl
    | some x =>
      obtain ⟨k1, k2⟩ := hx
      rw [if_pos k1]
      exact ⟨fun h => i16_same h k2, fun h => by rw [h]; exact k2⟩
  cases o with
  | none =>
    have ho : flags.testBit (m.bit + 4) = false := ho
    have ht : t = none := ht
    subst ht
    refine (answers_plain store size weight _).congr fun y => ?_
    unfold MeasuresTo
    simp only [h1, ho, Bool.false_eq_true, if_false]
    constructor
    · rintro ⟨k1, k2⟩
      exact ⟨_, 0, rfl, ⟨rfl, k2⟩, by rw [k1]; simp⟩
    · rintro ⟨_, _, rfl, ⟨rfl, k2⟩, k1⟩
      exact ⟨by rw [k1]; simp, k2⟩
  | some o =>
    obtain ⟨k1, k2⟩ := ho
    refine (answers_distance hd hs ht size weight _).congr fun y => ?_
    unfold MeasuresTo
    simp only [h1, k1, if_true]
    constructor
    · rintro ⟨more, k3, k4⟩
      exact ⟨_, more, rfl, ⟨o, k2, k3⟩, k4⟩
    · rintro ⟨_, more, rfl, ⟨o', k2', k3⟩, k4⟩
      cases k2.unique k2'
      exact ⟨more, k3, k4⟩

/-- Whatever the bytes of a value record, anywhere in a table, and of its corrections are, at every size and place in the space of variations: the
distances are those the bytes say, and there is no panic. -/
theorem C120_parts (cfg : Cfg) {d : Data} (hd : Fits d) {s : Option Nat} {store : Option item.Store} (hs : StoreAt cfg d s store)
    {base flags p : Nat} {t : gpos.Single} (h : gpos.IsSingle base flags d p t) (m : Measure) (size : Nat) (weight : Nat → Int) :
    (∀ units pixels, measure store size weight t m = .ok (units, pixels) ↔ MeasuresTo d s base flags p m size weight units pixels) ∧
    ∀ e, measure store size weight t m ≠ .error e := by
  have key : Answers (measure store size weight t m) fun y => MeasuresTo d s base flags p m size weight y.1 y.2 := by
    obtain ⟨h0, h1, h2, h3, h4, h5, h6, h7, c0, c1, c2, c3⟩ := h
    cases m with
    | xPlacement => exact answers_field hd hs (m := .xPlacement) h0 h4 c0 size weight
    | yPlacement => exact answers_field hd hs (m := .yPlacement) h1 h5 c1 size weight
    | xAdvance => exact answers_field hd hs (m := .xAdvance) h2 h6 c2 size weight
    | yAdvance => exact answers_field hd hs (m := .yAdvance) h3 h7 c3 size weight
  obtain ⟨k1, y, k2⟩ := key
  refine ⟨fun units pixels => k1 (units, pixels), fun e he => ?_⟩
  rw [k2] at he
  cases he

/-- The same for a value record that is read by itself. -/
theorem C120_values (cfg : Cfg) {d : Data} (hd : Fits d) {s : Option Nat} {store : Option item.Store} (hs : StoreAt cfg d s store)
    {base flags p : Nat} {t : gpos.Single} (h : Reads (gpos.Single.read base flags) d p t) (m : Measure) (size : Nat)
    (weight : Nat → Int) :
    (∀ units pixels, measure store size weight t m = .ok (units, pixels) ↔ MeasuresTo d s base flags p m size weight units pixels) ∧
    ∀ e, measure store size weight t m ≠ .error e :=
  C120_parts cfg hd hs ((reads_fixed hd).mp h) m size weight

/-- The same for the coordinates of anchors. -/
theorem C120_anchors (cfg : Cfg) {d : Data} (hd : Fits d) {s : Option Nat} {store : Option item.Store} (hs : StoreAt cfg d s store)
    {p : Nat} {t : gpos.Anchor} (h : Reads gpos.Anchor.read d p t) (vertical : Bool) (size : Nat) (weight : Nat → Int) :
    (∀ units pixels, coordinate store size weight vertical t = .ok (units, pixels) ↔
      AnchorsAt d s p vertical size weight units pixels) ∧
    ∀ e, coordinate store size weight vertical t ≠ .error e := by
  have h := (reads_parses (r := gpos.Anchor.read) hd).mp h
  have key : Answers (coordinate store size weight vertical t) fun y => AnchorsAt d s p vertical size weight y.1 y.2 := by
    have plain : ∀ {format : Nat} {x y : Int}, U16 d p format → format ≠ 3 → I16 d (p + 2) x → I16 d (p + 4) y →
        Answers (amend store size weight (if vertical then y else x) none) fun y =>
          AnchorsAt d s p vertical size weight y.1 y.2 := by
      intro format x y hf hn hx hy
      refine (answers_plain store size weight _).congr fun z => ?_
      have hv : I16 d (p + if vertical then 4 else 2) (if vertical then y else x) := by cases vertical <;> assumption
      constructor
      · rintro ⟨k1, k2⟩
        refine ⟨format, _, 0, hf, hv, ?_, by rw [k1]; simp⟩
        rw [if_neg hn]
        exact ⟨rfl, k2⟩
      · rintro ⟨format', stored, more, l1, l2, l3, l4⟩
        rw [if_neg (by rw [l1.unique hf]; exact hn)] at l3
        obtain ⟨rfl, l3⟩ := l3
        refine ⟨?_, l3⟩
        rw [l4, i16_same hv l2]
        simp
    cases t with
    | format1 t =>
      obtain ⟨hf, h1, h2, h3⟩ := h
      exact plain h1 (by omega) h2 h3
    | format2 t =>
      obtain ⟨hf, h1, h2, h3, _⟩ := h
      exact plain h1 (by omega) h2 h3
    | format3 t =>
      obtain ⟨hf, h1, h2, h3, h4, h5, h6, h7⟩ := h
      rw [hf] at h1
      have hv : I16 d (p + if vertical then 4 else 2) (if vertical then t.y else t.x) := by cases vertical <;> assumption
      have ho : U16 d (p + if vertical then 8 else 6) (if vertical then t.y_correction_offset else t.x_correction_offset) := by
        cases vertical <;> assumption
      have hc : Optional (IsCorrection d) p (if vertical then t.y_correction_offset else t.x_correction_offset)
          (if vertical then t.y_correction else t.x_correction) := by cases vertical <;> assumption
      refine (answers_distance hd hs hc size weight (if vertical then t.y else t.x)).congr fun z => ?_
      constructor
      · rintro ⟨more, k1, k2⟩
        refine ⟨3, _, more, h1, hv, ?_, k2⟩
        rw [if_pos rfl]
        exact ⟨_, ho, k1⟩
      · rintro ⟨format', stored, more, l1, l2, l3, l4⟩
        rw [if_pos (l1.unique h1)] at l3
        obtain ⟨offset, l3, l5⟩ := l3
        cases l3.unique ho
        cases i16_same l2 hv
        exact ⟨more, l5, l4⟩
  obtain ⟨k1, y, k2⟩ := key
  refine ⟨fun units pixels => k1 (units, pixels), fun e he => ?_⟩
  rw [k2] at he
  cases he

/-! ## Examples -/

/-- The store of the example of C106, a value record with a placement of 7, an advance of -3 and an offset for the correction of
each, a variation for the item 1, and the device of the example of C106. -/
def distancesTable : Data :=
  deltasTable ++ bytes ([0, 7,  255, 253,  0, 8,  0, 14] ++ [0, 0,  0, 1,  128, 0]) ++ deviceTable

def distancesValue : gpos.Single :=
  ⟨some 7, none, some (-3), none, some 8, none, some 14, none, some (.variation ⟨0, 1, 0x8000⟩), none,
    some (.device ⟨11, 15, 2, [0x1E3C, 0x5000]⟩), none⟩

theorem distances_store : StoreAt ⟨false, false, false, false, false, true⟩ distancesTable (some 0) (some deltasValue) := by
  refine ⟨by decide +kernel, ?_⟩
  rintro outer a ⟨n, offset, h1, h2, h3, rfl⟩
  have h1' : U16 distancesTable 6 1 := by decide +kernel
  rw [h1.unique h1'] at h2
  obtain rfl : outer = 0 := by omega
  have h3' : U32 distancesTable 8 12 := by decide +kernel
  rw [h3.unique h3']
  exact ⟨1, 2, by decide +kernel, by decide +kernel, by omega, by omega, by omega⟩

/-- At 14 pixels, half way into region 5 and at the peak of region 7, glyphs are placed by 7 - 128 + 4 units, and advance by
-3 units and -4 pixels. -/
example : Fits distancesTable ∧
    Reads (gpos.Single.read 28 0b01010101) distancesTable 28 distancesValue ∧
    measure (some deltasValue) 14 (fun region => if region = 5 then 8192 else 16384) distancesValue .xPlacement =
      .ok (16384 * (7 - 128 + 4), 0) ∧
    measure (some deltasValue) 14 (fun _ => 0) distancesValue .xAdvance = .ok (16384 * (-3), -4) ∧
    measure (some deltasValue) 14 (fun _ => 0) distancesValue .yAdvance = .ok (0, 0) := by
  decide +kernel

/-- The first of these, in terms of the bytes. -/
example : MeasuresTo distancesTable (some 0) 28 0b01010101 28 .xPlacement 14 (fun region => if region = 5 then 8192 else 16384)
    (16384 * (7 - 128 + 4)) 0 :=
  have h : Reads (gpos.Single.read 28 0b01010101) distancesTable 28 distancesValue := by decide +kernel
  ((C120_values _ (by decide +kernel) distances_store h .xPlacement 14 _).1 _ _).mp
    (by decide +kernel)

/-- An anchor at (5, -6), the device of the example of C106 correcting the first. -/
def anchorTable : Data := bytes [0, 3,  0, 5,  255, 250,  0, 10,  0, 0] ++ deviceTable

example : Fits anchorTable ∧
    Reads gpos.Anchor.read anchorTable 0 (.format3 ⟨3, 5, -6, 10, 0, some (.device ⟨11, 15, 2, [0x1E3C, 0x5000]⟩), none⟩) := by
  decide +kernel

/-- At 12 pixels it is two pixels to the left of (5, -6), and at 16 pixels it is there. -/
example : AnchorsAt anchorTable none 0 false 12 (fun _ => 0) (16384 * 5) (-2) ∧
    AnchorsAt anchorTable none 0 true 12 (fun _ => 0) (16384 * (-6)) 0 ∧
    AnchorsAt anchorTable none 0 false 16 (fun _ => 0) (16384 * 5) 0 :=
  have h : Reads gpos.Anchor.read anchorTable 0
      (.format3 ⟨3, 5, -6, 10, 0, some (.device ⟨11, 15, 2, [0x1E3C, 0x5000]⟩), none⟩) := by decide +kernel
  have key := fun vertical size => (C120_anchors ⟨false, false, false, false, false, true⟩ (by decide +kernel)
    (show StoreAt _ _ none none from trivial) h vertical size (fun _ => 0)).1
  ⟨(key _ _ _ _).mp (by decide +kernel), (key _ _ _ _).mp (by decide +kernel), (key _ _ _ _).mp (by decide +kernel)⟩

end OpenType.Props
