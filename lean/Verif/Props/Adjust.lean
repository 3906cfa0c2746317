import Verif.Props.Apply
/-! # C103: adjustments of single glyphs and of pairs -/

namespace OpenType.Props
open OpenType Spec coverage class_

theorem fixed_unique {α : Type} {r : Reader α} {S : Data → Nat → α → Prop} {size : Nat} [Fixed r S size] {d : Data}
    (hd : Fits d) {a : Nat} {x y : α} (hx : S d a x) (hy : S d a y) : x = y := by
  have e := (Fixed.run (r := r) hd).mpr ⟨hx, rfl⟩
  rw [(Fixed.run (r := r) hd).mpr ⟨hy, rfl⟩] at e
  injection e with e
  injection e with e
  exact e.symm

/-- There is nothing when there is neither something nor a panic. -/
theorem none_iff {α : Type} {result : Except Err (Option α)} {P : α → Prop} {Q : Prop}
    (h1 : ∀ x, result = .ok (some x) ↔ P x) (h2 : (∃ e, result = .error e) ↔ Q) :
    result = .ok none ↔ ¬Q ∧ ∀ x, ¬P x := by
  constructor
  · rintro rfl
    refine ⟨fun h => ?_, fun x h => ?_⟩
    · obtain ⟨_, e⟩ := h2.mpr h; cases e
    · have := (h1 x).mpr h; cases this
  · rintro ⟨h3, h4⟩
    cases result with
    | error e => exact (h3 (h2.mp ⟨e, rfl⟩)).elim
    | ok x =>
      cases x with
      | none => rfl
      | some x => exact (h4 x ((h1 x).mp rfl)).elim

/-- What applying a single adjustment gives: the value the bytes tell. -/
theorem C103_single {cfg : Cfg} {d : Data} {p : Nat} (hd : Fits d) {t : gpos.SingleAdjustment}
    (h : Reads (gpos.SingleAdjustment.read cfg) d p t) (g : Nat) :
    (∀ value, place t g = .ok (some value) ↔ PlacedBy d p g value) ∧
    (place t g = .ok none ↔ ∀ i, ¬CoveredIn d p g i) ∧
    ((∃ e, place t g = .error e) ↔ MissingValue d p g) := by
  have h := (reads_parses (S := gpos.IsSingleAdjustment cfg) hd).mp h
  cases t with
  | format1 t =>
    obtain ⟨h0, h1, h2, h3, _, h4, h5⟩ := h
    rw [h0] at h1
    have hc := coveredIn_iff h2 h5 g
    have h12 : ¬U16 d p 2 := fun h => by have := h.unique h1; omega
    simp only [place, Except.ok.injEq]
    refine ⟨fun x => ?_, ?_, ?_⟩
    · rw [Option.map_eq_some_iff]
      constructor
      · rintro ⟨i, hi, rfl⟩
        exact ⟨_, i, h3, (hc i).mp hi, .inl ⟨h1, h4⟩⟩
      · rintro ⟨f, i, hf, hi, ⟨_, hv⟩ | ⟨h, _⟩⟩
        · rw [hf.unique h3] at hv
          exact ⟨i, (hc i).mpr hi, fixed_unique (r := gpos.Single.read p t.value_flags) hd h4 hv⟩
        · exact (h12 h).elim
    · rw [Option.map_eq_none_iff]
      constructor
      · intro hn i hi
        rw [(hc i).mpr hi] at hn; cases hn
      · intro hn
        cases e : indexOf t.coverage g with
        | none => rfl
        | some i => exact (hn i ((hc i).mp e)).elim
    · constructor
      · rintro ⟨e, h⟩; cases h
      · rintro ⟨h, _⟩; exact (h12 h).elim
  | format2 t =>
    obtain ⟨h0, h1, h2, h3, _, h4, ⟨h5, h6⟩, h7⟩ := h
    rw [h0] at h1
    have hc := coveredIn_iff h2 h7 g
    have h12 : ¬U16 d p 1 := fun h => by have := h.unique h1; omega
    obtain ⟨k1, k2, k3⟩ := entryOf_iff (entries := t.values) hc
    simp only [place]
    refine ⟨fun x => (k2 x).trans ?_, k1, k3.trans ?_⟩
    · constructor
      · rintro ⟨i, hi, hx⟩
        have := (List.getElem?_eq_some_iff.mp hx).1
        exact ⟨_, i, h3, hi, .inr ⟨h1, _, h4, by omega, h6 i _ hx⟩⟩
      · rintro ⟨f, i, hf, hi, ⟨h, _⟩ | ⟨_, n, hn, hl, hx⟩⟩
        · exact (h12 h).elim
        · rw [hn.unique h4, ← h5] at hl
          rw [hf.unique h3] at hx
          refine ⟨i, hi, ?_⟩
          rw [List.getElem?_eq_getElem hl, fixed_unique (r := gpos.Single.read p t.value_flags) hd
            (h6 i _ (List.getElem?_eq_getElem hl)) hx]
    · constructor
      · rintro ⟨i, hi, hl⟩; exact ⟨h1, i, _, hi, h4, by omega⟩
      · rintro ⟨_, i, n, hi, hn, hl⟩; rw [hn.unique h4] at hl; exact ⟨i, hi, by omega⟩

/-- Element `i`, or a panic. -/
theorem element_iff {α : Type} (xs : List α) (i : Nat) :
    (∀ x, element xs i = .ok x ↔ xs[i]? = some x) ∧ ((∃ e, element xs i = .error e) ↔ xs.length ≤ i) := by
  unfold element
  cases h : xs[i]? with
  | none => simpa using List.getElem?_eq_none_iff.mp h
  | some y =>
    have := (List.getElem?_eq_some_iff.mp h).1
    refine ⟨fun x => by simp, ?_⟩
    constructor
    · rintro ⟨e, h⟩; cases h
    · intro h; omega

/-- What applying a pair adjustment gives: the two values the bytes tell. It panics if and only if the table refers to
what it does not have. -/
theorem C103_pair {cfg : Cfg} {d : Data} {p : Nat} (hd : Fits d) {t : gpos.PairAdjustment}
    (h : Reads (gpos.PairAdjustment.read cfg) d p t) (g1 g2 : Nat) :
    (∀ values, adjust t g1 g2 = .ok (some values) ↔ AdjustedBy d p g1 g2 values.1 values.2) ∧
    (adjust t g1 g2 = .ok none ↔ ¬MissingPair d p g1 g2 ∧
      ∀ values : Option gpos.Single × Option gpos.Single, ¬AdjustedBy d p g1 g2 values.1 values.2) ∧
    ((∃ e, adjust t g1 g2 = .error e) ↔ MissingPair d p g1 g2) := by
  have h := (reads_parses (S := gpos.IsPairAdjustment cfg) hd).mp h
  have : (∀ values, adjust t g1 g2 = .ok (some values) ↔ AdjustedBy d p g1 g2 values.1 values.2) ∧
      ((∃ e, adjust t g1 g2 = .error e) ↔ MissingPair d p g1 g2) := by
    cases t with
    | format1 t =>
      obtain ⟨h0, h1, h2, h3, _, h4, _, h5, ⟨h6, h7⟩, h8, h9, h10⟩ := h
      rw [h0] at h1
      have h12 : ¬U16 d p 2 := fun h => by have := h.unique h1; omega
      obtain ⟨k1, k2, k3⟩ := entryOf_iff (entries := t.records) (coveredIn_iff h2 h8 g1)
      simp only [adjust]
      constructor
      · rintro ⟨v1, v2⟩
        constructor
        · intro e
          cases hr : entryOf t.coverage t.records g1 with
          | error m => rw [hr] at e; cases e
          | ok r =>
            rw [hr] at e
            cases r with
            | none => cases e
            | some set =>
              obtain ⟨i, hi, hs⟩ := (k2 set).mp hr
              injection e with e
              obtain ⟨pair, hp, e⟩ := Option.map_eq_some_iff.mp e
              injection e with e1 e2
              subst e1 e2
              obtain ⟨k, m1, m2, m3⟩ := find?_places.mp hp
              have hl := (List.getElem?_eq_some_iff.mp hs).1
              have e := List.getElem?_eq_getElem (l := t.record_offsets) (i := i) (by omega)
              obtain ⟨n1, n2, n3⟩ := h10 i _ _ e hs
              obtain ⟨q1, q2, q3⟩ := n3 k _ m1
              have hk := (List.getElem?_eq_some_iff.mp m1).1
              refine ⟨_, _, h3, h4, .inl ⟨h1, i, _, _, _, k, hi, h5, by omega, h7 i _ e, n1, by omega, ?_, ?_, q2, q3⟩⟩
              · rw [beq_iff_eq] at m2; exact m2 ▸ q1
              · intro j hj hu
                have e' := List.getElem?_eq_getElem (l := set.records) (i := j) (by omega)
                have := m3 j hj _ e'
                rw [(n3 j _ e').1.unique hu] at this
                simp at this
        · rintro ⟨f1, f2, hf1, hf2, ⟨_, i, n, o, m, k, hi, hn, hl, ho, hm, hk, q1, q4, q2, q3⟩ | ⟨h, _⟩⟩
          · rw [hf1.unique h3, hf2.unique h4] at *
            rw [hn.unique h5] at hl
            have e := List.getElem?_eq_getElem (l := t.record_offsets) (i := i) (by omega)
            have e' := List.getElem?_eq_getElem (l := t.records) (i := i) (by omega)
            obtain ⟨n1, n2, n3⟩ := h10 i _ _ e e'
            rw [(h7 i _ e).unique ho] at n1 n3
            have hk' := hm.unique n1
            have e2 := List.getElem?_eq_getElem (l := (t.records[i]'(by omega)).records) (i := k) (by omega)
            obtain ⟨r1, r2, r3⟩ := n3 k _ e2
            rw [(k2 _).mpr ⟨i, hi, e'⟩]
            have hf := find?_places (xs := (t.records[i]'(by omega)).records) (f := fun pair => pair.glyph2_id == g2)
              |>.mpr ⟨k, e2, by rw [beq_iff_eq]; exact r1.unique q1, fun j hj y hy => by
                have := (n3 j _ hy).1
                rw [beq_eq_false_iff_ne]
                rintro rfl
                exact q4 j hj this⟩
            change Except.ok _ = _
            rw [hf]
            change Except.ok (some (_, _)) = _
            rw [fixed_unique (r := gpos.takeValue (p + o) t.value1_flags) hd r2 q2,
              fixed_unique (r := gpos.takeValue (p + o) t.value2_flags) hd r3 q3]
          · exact (h12 h).elim
      · constructor
        · rintro ⟨m, e⟩
          cases hr : entryOf t.coverage t.records g1 with
          | error m =>
            obtain ⟨i, hi, hl⟩ := k3.mp ⟨m, hr⟩
            exact .inl ⟨h1, i, _, hi, h5, by omega⟩
          | ok r => rw [hr] at e; cases r <;> cases e
        · rintro (⟨_, i, n, hi, hn, hl⟩ | ⟨h, _⟩)
          · rw [hn.unique h5] at hl
            obtain ⟨m, e⟩ := k3.mpr ⟨i, hi, by omega⟩
            rw [e]; exact ⟨m, rfl⟩
          · exact (h12 h).elim
    | format2 t =>
      obtain ⟨h0, h1, h2, h3, _, h4, _, h5, h6, h7, h8, ⟨h9, h10⟩, h11, h12, h13⟩ := h
      rw [h0] at h1
      have h21 : ¬U16 d p 1 := fun h => by have := h.unique h1; omega
      have hc := coveredIn_iff h2 h11 g1
      have c1 := classOf_iff h12 g1
      have c2 := classOf_iff h13 g2
      have a1 := element_iff t.records (classOf t.class1 g1)
      simp only [adjust]
      cases hi : indexOf t.coverage g1 with
      | none =>
        have hn : ∀ i, ¬CoveredIn d p g1 i := fun i hi' => by rw [(hc i).mpr hi'] at hi; cases hi
        constructor
        · intro values
          constructor
          · intro e; cases e
          · rintro ⟨_, _, _, _, ⟨h, _⟩ | ⟨_, i, _, _, _, _, _, _, h, _⟩⟩
            · exact (h21 h).elim
            · exact (hn i h).elim
        · constructor
          · rintro ⟨m, e⟩; cases e
          · rintro (⟨h, _⟩ | ⟨_, i, _, _, _, _, _, _, h, _⟩)
            · exact (h21 h).elim
            · exact (hn i h).elim
      | some i =>
        have hi := (hc i).mp hi
        cases hr : element t.records (classOf t.class1 g1) with
        | error m =>
          have hl := a1.2.mp ⟨m, hr⟩
          have hm : MissingPair d p g1 g2 := .inr ⟨h1, i, _, _, _, _, _, _, hi, h5, h6, h7, h8, (c1 _).mp rfl, (c2 _).mp rfl,
            .inl (by omega)⟩
          refine ⟨fun values => ⟨fun e => (by cases e), ?_⟩, ⟨fun _ => hm, fun _ => ⟨m, rfl⟩⟩⟩
          rintro ⟨_, _, _, _, ⟨h, _⟩ | ⟨_, _, _, _, n1, _, row, _, _, o1, _, hn1, _, r1, _, hl', _⟩⟩
          · exact (h21 h).elim
          · rw [o1.unique h5, ← c1] at r1
            rw [hn1.unique h7] at hl'
            omega
        | ok row =>
          have hrow := (a1.1 row).mp hr
          have hl1 := (List.getElem?_eq_some_iff.mp hrow).1
          obtain ⟨s1, s2⟩ := h10 _ _ hrow
          have a2 := element_iff row.records (classOf t.class2 g2)
          cases hr2 : element row.records (classOf t.class2 g2) with
          | error m =>
            have hl := a2.2.mp ⟨m, hr2⟩
            have hm : MissingPair d p g1 g2 := .inr ⟨h1, i, _, _, _, _, _, _, hi, h5, h6, h7, h8, (c1 _).mp rfl, (c2 _).mp rfl,
              .inr (by omega)⟩
            refine ⟨fun values => ⟨fun e => ?_, ?_⟩, ⟨fun _ => hm, fun _ => ⟨m, ?_⟩⟩⟩
            · change (element row.records (classOf t.class2 g2) >>= _) = _ at e
              rw [hr2] at e; cases e
            · rintro ⟨_, _, _, _, ⟨h, _⟩ | ⟨_, _, _, _, _, n2, _, column, _, _, o2, _, hn2, _, r2, _, hl', _⟩⟩
              · exact (h21 h).elim
              · rw [o2.unique h6, ← c2] at r2
                rw [hn2.unique h8] at hl'
                omega
            · change (element row.records (classOf t.class2 g2) >>= _) = _
              rw [hr2]; rfl
          | ok cell =>
            have hcell := (a2.1 cell).mp hr2
            have hl2 := (List.getElem?_eq_some_iff.mp hcell).1
            obtain ⟨u1, u2⟩ := s2 _ _ hcell
            have place : p + 16 + (gpos.valueSize t.value1_flags + gpos.valueSize t.value2_flags) * t.class2_count *
                classOf t.class1 g1 + (gpos.valueSize t.value1_flags + gpos.valueSize t.value2_flags) * classOf t.class2 g2 =
                p + 16 + (gpos.valueSize t.value1_flags + gpos.valueSize t.value2_flags) *
                  (t.class2_count * classOf t.class1 g1 + classOf t.class2 g2) := by
              rw [Nat.mul_add, Nat.mul_assoc]; omega
            rw [place] at u1 u2
            refine ⟨fun values => Iff.trans (b := (cell.value1, cell.value2) = values) ?_ ?_, ⟨?_, ?_⟩⟩
            · change ((element row.records (classOf t.class2 g2) >>= _) = _) ↔ _
              rw [hr2]
              constructor
              · intro e
                injection e with e
                injection e
              · rintro rfl; rfl
            · constructor
              · rintro rfl
                exact ⟨_, _, h3, h4, .inr ⟨h1, i, _, _, _, _, _, _, hi, h5, h6, h7, h8, (c1 _).mp rfl, (c2 _).mp rfl,
                  by omega, by omega, u1, u2⟩⟩
              · rintro ⟨f1, f2, hf1, hf2, ⟨h, _⟩ |
                  ⟨_, _, _, _, n1, n2, row, column, _, o1, o2, hn1, hn2, r1, r2, _, _, v1, v2⟩⟩
                · exact (h21 h).elim
                · rw [o1.unique h5, ← c1] at r1
                  rw [o2.unique h6, ← c2] at r2
                  rw [hf1.unique h3, hf2.unique h4, hn2.unique h8, ← r1, ← r2] at v1 v2
                  rw [fixed_unique (r := gpos.takeValue p t.value1_flags) hd u1 v1,
                    fixed_unique (r := gpos.takeValue p t.value2_flags) hd u2 v2]
            · rintro ⟨m, e⟩
              change (element row.records (classOf t.class2 g2) >>= _) = _ at e
              rw [hr2] at e; cases e
            · rintro (⟨h, _⟩ | ⟨_, _, _, _, n1, n2, row, column, _, o1, o2, hn1, hn2, r1, r2, hl'⟩)
              · exact (h21 h).elim
              · rw [o1.unique h5, ← c1] at r1
                rw [o2.unique h6, ← c2] at r2
                rw [hn1.unique h7, hn2.unique h8] at hl'
                omega
  exact ⟨this.1, none_iff this.1 this.2, this.2⟩

/-! ## Examples -/

/-- A pair adjustment of format 1 that covers glyphs 3 and 4 and has a set for glyph 3 only, in which glyph 5 comes twice. -/
def pairsTable : Data := bytes <|
  [0, 1,  0, 12,  0, 4,  0, 0,  0, 1,  0, 20] ++ [0, 1, 0, 2, 0, 3, 0, 4] ++ [0, 3, 0, 6, 0, 1, 0, 5, 255, 255, 0, 5, 0, 7]

def pairsValue : gpos.PairAdjustment :=
  .format1 ⟨1, 12, 4, 0, 1, [20], .format1 ⟨1, 2, [3, 4]⟩,
    [⟨3, [⟨6, some (numberOf 1), none⟩, ⟨5, some (numberOf (-1)), none⟩, ⟨5, some (numberOf 7), none⟩]⟩]⟩

example : Reads (gpos.PairAdjustment.read ⟨false, false, false, false, false, true⟩) pairsTable 0 pairsValue ∧
    adjust pairsValue 3 5 = .ok (some (some (numberOf (-1)), none)) ∧ adjust pairsValue 3 7 = .ok none ∧
    adjust pairsValue 5 5 = .ok none ∧ ∃ e, adjust pairsValue 4 5 = .error e :=
  ⟨by decide +kernel, by decide +kernel, by decide +kernel, by decide +kernel, _, rfl⟩

/-- One of these facts, in terms of the bytes. -/
example : MissingPair pairsTable 0 4 5 := by
  refine .inl ⟨by decide +kernel, 1, 1, ⟨12, by decide +kernel, .inl ⟨by decide +kernel, 2, by decide +kernel, by omega,
    by decide +kernel, ?_⟩⟩, by decide +kernel, by omega⟩
  intro j hj
  obtain rfl : j = 0 := by omega
  decide +kernel

/-- A pair adjustment of format 2 with one row and two columns: glyph 3 is of class 0, glyph 4 of class 1 in the first
definition, and glyph 6 of class 1 in the second. -/
def matrixTable : Data := bytes <|
  [0, 2,  0, 20,  0, 4,  0, 0,  0, 28,  0, 36,  0, 1,  0, 2] ++ [0, 1, 0, 2] ++ [0, 1, 0, 2, 0, 3, 0, 4] ++
  [0, 1, 0, 4, 0, 1, 0, 1] ++ [0, 1, 0, 6, 0, 1, 0, 1]

def matrixValue : gpos.PairAdjustment :=
  .format2 ⟨2, 20, 4, 0, 28, 36, 1, 2, [⟨[⟨some (numberOf 1), none⟩, ⟨some (numberOf 2), none⟩]⟩],
    .format1 ⟨1, 2, [3, 4]⟩, .format1 ⟨1, 4, 1, [1]⟩, .format1 ⟨1, 6, 1, [1]⟩⟩

example : Reads (gpos.PairAdjustment.read ⟨false, false, false, false, false, true⟩) matrixTable 0 matrixValue ∧
    adjust matrixValue 3 5 = .ok (some (some (numberOf 1), none)) ∧
    adjust matrixValue 3 6 = .ok (some (some (numberOf 2), none)) ∧ adjust matrixValue 5 6 = .ok none ∧
    ∃ e, adjust matrixValue 4 6 = .error e :=
  ⟨by decide +kernel, by decide +kernel, by decide +kernel, by decide +kernel, _, rfl⟩

/-- One of these facts, in terms of the bytes: column 1 of row 0. -/
example : AdjustedBy matrixTable 0 3 6 (some (numberOf 2)) none := by
  refine ⟨4, 0, by decide +kernel, by decide +kernel, .inr ⟨by decide +kernel, 0, 28, 36, 1, 2, 0, 1,
    ⟨20, by decide +kernel, .inl ⟨by decide +kernel, 2, by decide +kernel, by omega, by decide +kernel, ?_⟩⟩, by decide +kernel,
    by decide +kernel, by decide +kernel, by decide +kernel, .inl ⟨by decide +kernel, 4, 1, by decide +kernel, by decide +kernel, ?_⟩,
    .inl ⟨by decide +kernel, 6, 1, by decide +kernel, by decide +kernel, ?_⟩, by omega, by omega, ?_, ?_⟩⟩
  · intro j hj; omega
  · rw [if_neg (by omega)]
  · rw [if_pos (by omega)]; decide +kernel
  · exact (Fixed.run (r := gpos.takeValue 0 4) (q := 20) (by decide +kernel)).mp (by decide +kernel) |>.1
  · exact rfl

/-- A single adjustment of format 2 for glyphs 3 and 4, read from `sampleAdjustment`. -/
example : (do
    let t ← gpos.SingleAdjustment.read ⟨false, false, false, false, false, true⟩ sampleAdjustment 0
    place t.1 3) =
    .ok (some ⟨some (-2), none, none, none, none, none, some 0, none, none, none, none, none⟩) := by decide +kernel

end OpenType.Props
