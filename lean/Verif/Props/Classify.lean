import Verif.Spec.Classify
import Verif.Props.Attach
import Verif.Props.Gdef
/-! # C107: what a glyph definition tells about a glyph -/

namespace OpenType.Props
open OpenType Spec

theorem classIn_iff {d : Data} {p a o : Nat} {t : Option class_.Class} (ho : U16 d a o) (h : Optional (IsClass d) p o t)
    (g k : Nat) : classIn t g = k ↔ ClassAt d p a g k := by
  constructor
  · intro e
    refine ⟨o, ho, ?_⟩
    cases t with
    | none => rw [if_pos (show o = 0 from h)]; exact e.symm
    | some t => rw [if_neg h.1]; exact (classOf_iff h.2 g k).mp e
  · rintro ⟨o', ho', hk⟩
    rw [ho'.unique ho] at hk
    cases t with
    | none => rw [if_pos (show o = 0 from h)] at hk; exact hk.symm
    | some t => rw [if_neg h.1] at hk; exact (classOf_iff h.2 g k).mpr hk

/-- The offsets of a header are where its version has them. -/
theorem gdef_offsets {d : Data} {p : Nat} {t : gdef.Header} (h : gdef.IsHeader d p t) :
    U16 d (p + 4) (gdef.offsets t).1 ∧ U16 d (p + 6) (gdef.offsets t).2.1 ∧ U16 d (p + 10) (gdef.offsets t).2.2.2.1 ∧
    ((∃ minor, U16 d (p + 2) minor ∧ 2 ≤ minor ∧ U16 d (p + 12) (gdef.offsets t).2.2.2.2.1) ∨
      U16 d (p + 2) 0 ∧ (gdef.offsets t).2.2.2.2.1 = 0) := by
  cases t with
  | version1 t =>
    obtain ⟨_, _, h1, h2, h3, h4, h5, h6⟩ := h
    exact ⟨h3, h4, h6, .inr ⟨h2 ▸ h1, rfl⟩⟩
  | version12 t =>
    obtain ⟨_, _, h1, h2, h3, h4, h5, h6, h7⟩ := h
    exact ⟨h3, h4, h6, .inl ⟨_, h1, by omega, h7⟩⟩
  | version13 t =>
    obtain ⟨_, _, h1, h2, h3, h4, h5, h6, h7, _⟩ := h
    exact ⟨h3, h4, h6, .inl ⟨_, h1, by omega, h7⟩⟩

/-- The classes of glyphs and marks are those of the bytes. -/
theorem C107_classes {cfg : Cfg} {d : Data} {p : Nat} (hd : Fits d) {t : gdef.GlyphDefinition}
    (h : Reads (gdef.GlyphDefinition.read cfg) d p t) (g k : Nat) :
    (classIn t.glyph_class g = k ↔ GlyphClass d p g k) ∧ (classIn t.mark_class g = k ↔ MarkClass d p g k) := by
  obtain ⟨⟨h1, h2, _, _, h3, _⟩, _⟩ := (reads_parses (S := gdef.IsGlyphDefinitionTaken cfg) hd).mp h
  obtain ⟨o1, _, o2, _⟩ := gdef_offsets h1
  exact ⟨classIn_iff o1 h2 g k, classIn_iff o2 h3 g k⟩

/-- The attachment points of a glyph are those of the bytes. -/
theorem C107_points {cfg : Cfg} {d : Data} {p : Nat} (hd : Fits d) {t : gdef.GlyphDefinition}
    (h : Reads (gdef.GlyphDefinition.read cfg) d p t) (g : Nat) :
    (∀ points, pointsOf t g = .ok (some points) ↔ PointsOf d p g points) ∧
    (pointsOf t g = .ok none ↔ ¬MissingPoints d p g ∧ ∀ points, ¬PointsOf d p g points) ∧
    ((∃ e, pointsOf t g = .error e) ↔ MissingPoints d p g) := by
  obtain ⟨⟨h1, _, h2, _⟩, _⟩ := (reads_parses (S := gdef.IsGlyphDefinitionTaken cfg) hd).mp h
  obtain ⟨_, o1, _⟩ := gdef_offsets h1
  have : (∀ points, pointsOf t g = .ok (some points) ↔ PointsOf d p g points) ∧
      ((∃ e, pointsOf t g = .error e) ↔ MissingPoints d p g) := by
    unfold pointsOf
    cases ht : t.attachments with
    | none =>
      rw [ht] at h2
      have h2 : _ = 0 := h2
      have hn : ∀ s i n, ¬PointsAt d p g s i n := by
        rintro s i n ⟨o, c, ho, hne, _⟩
        rw [ho.unique o1, h2] at hne
        exact hne rfl
      refine ⟨fun points => ⟨fun e => (by cases e), ?_⟩, ⟨fun ⟨_, e⟩ => (by cases e), ?_⟩⟩
      · rintro ⟨s, i, n, _, h, _⟩; exact (hn s i n h).elim
      · rintro ⟨s, i, n, h, _⟩; exact (hn s i n h).elim
    | some a =>
      rw [ht] at h2
      obtain ⟨hne, k1, k2, ⟨k3, k4⟩, k5, k6, k7⟩ := h2
      generalize (gdef.offsets t.header).2.1 = o at *
      have key : ∀ s i n, PointsAt d p g s i n ↔ s = p + o ∧ indexOf a.coverage g = some i ∧ n = a.count := by
        intro s i n
        constructor
        · rintro ⟨o', c, ho, _, rfl, hc, hi, hn⟩
          obtain rfl := ho.unique o1
          rw [hc.unique k1] at hi
          exact ⟨rfl, (indexOf_iff k5 g i).mpr hi, hn.unique k2⟩
        · rintro ⟨rfl, hi, rfl⟩
          exact ⟨o, _, o1, hne, rfl, k1, (indexOf_iff k5 g i).mp hi, k2⟩
      have he := entryOf_iff (t := a.coverage) (entries := a.records) (g := g) (C := fun i => indexOf a.coverage g = some i)
        fun _ => Iff.rfl
      obtain ⟨_, e2, e3⟩ := he
      unfold PointsOf MissingPoints
      simp only [key]
      constructor
      · intro points
        rw [except_bind_ok]
        constructor
        · rintro ⟨r, hr, e⟩
          injection e with e
          obtain ⟨x, rfl, rfl⟩ := Option.map_eq_some_iff.mp e
          obtain ⟨i, hi, hx⟩ := (e2 x).mp hr
          have hl := (List.getElem?_eq_some_iff.mp hx).1
          have e' := List.getElem?_eq_getElem (l := a.offsets) (i := i) (by omega)
          exact ⟨_, i, _, _, ⟨rfl, hi, rfl⟩, by omega, k4 i _ e', _, k7 i _ _ e' hx⟩
        · rintro ⟨s, i, n, q, ⟨rfl, hi, rfl⟩, hl, hq, m, hm, hp⟩
          have e' := List.getElem?_eq_getElem (l := a.offsets) (i := i) (by omega)
          have e := List.getElem?_eq_getElem (l := a.records) (i := i) (by omega)
          have hv := k7 i _ _ e' e
          rw [(k4 i _ e').unique hq] at hv
          refine ⟨_, (e2 _).mpr ⟨i, hi, e⟩, ?_⟩
          have := parses_unique (r := gdef.Attachment.read) hd _ _ ⟨m, points⟩ hv ⟨hm, hp⟩
          rw [this]
          rfl
      · rw [except_bind_error]
        constructor
        · rintro (h | ⟨_, _, e, he⟩)
          · obtain ⟨i, hi, hl⟩ := e3.mp h
            exact ⟨_, i, _, ⟨rfl, hi, rfl⟩, by omega⟩
          · cases he
        · rintro ⟨s, i, n, ⟨rfl, hi, rfl⟩, hl⟩
          exact .inl (e3.mpr ⟨i, hi, by omega⟩)
  exact ⟨this.1, none_iff this.1 this.2, this.2⟩

/-- The mark sets are those of the bytes. -/
theorem C107_marks {cfg : Cfg} {d : Data} {p : Nat} (hd : Fits d) {t : gdef.GlyphDefinition}
    (h : Reads (gdef.GlyphDefinition.read cfg) d p t) (k g : Nat) : inMarkSet t k g = true ↔ InMarkSet d p k g := by
  obtain ⟨⟨h1, _, _, _, _, h2⟩, _⟩ := (reads_parses (S := gdef.IsGlyphDefinitionTaken cfg) hd).mp h
  obtain ⟨_, _, _, o1⟩ := gdef_offsets h1
  unfold inMarkSet
  cases ht : t.marks with
  | none =>
    rw [ht] at h2
    have h2 : _ = 0 := h2
    refine ⟨fun e => (by cases e), ?_⟩
    rintro ⟨minor, o, n, c, i, u1, u2, u3, u4, _⟩
    obtain ⟨_, _, _, hm⟩ | ⟨hm, _⟩ := o1
    · rw [u3.unique hm, h2] at u4; exact (u4 rfl).elim
    · have := u1.unique hm; omega
  | some m =>
    rw [ht] at h2
    obtain ⟨hne, _, _, k2, ⟨k3, k4⟩, k6, k7⟩ := h2
    generalize (gdef.offsets t.header).2.2.2.2.1 = o at *
    obtain ⟨minor, m1, m2, m3⟩ | ⟨_, hz⟩ := o1
    · constructor
      · intro e
        dsimp only at e
        split at e
        · cases e
        · rename_i coverage hc
          obtain ⟨i, hi⟩ := Option.isSome_iff_exists.mp e
          have hl := (List.getElem?_eq_some_iff.mp hc).1
          have e' := List.getElem?_eq_getElem (l := m.coverage_offsets) (i := k) (by omega)
          exact ⟨minor, o, _, _, i, m1, m2, m3, hne, k2, by omega, k4 k _ e', (indexOf_iff (k7 k _ _ e' hc) g i).mp hi⟩
      · rintro ⟨minor', o', n, c, i, _, _, u3, _, hn, hl, hc, hi⟩
        obtain rfl := u3.unique m3
        rw [hn.unique k2] at hl
        have e' := List.getElem?_eq_getElem (l := m.coverage_offsets) (i := k) (by omega)
        have e := List.getElem?_eq_getElem (l := m.coverages) (i := k) (by omega)
        have hv := k7 k _ _ e' e
        rw [(k4 k _ e').unique hc] at hv
        simp only [e]
        rw [(indexOf_iff hv g i).mpr hi]
        rfl
    · exact (hne hz).elim

/-! ## Examples -/

/-- A table of version 1.2 with classes, attachment points for glyphs 3 and 4, of which only the first has some, and one mark
set. -/
def classifyingTable : Data := bytes <|
  [0, 1, 0, 2,  0, 14,  0, 22,  0, 0,  0, 14,  0, 42] ++ [0, 1, 0, 3, 0, 1, 0, 2] ++
  [0, 6,  0, 1, 0, 14] ++ [0, 1, 0, 2, 0, 3, 0, 4] ++ [0, 2, 0, 5, 0, 6] ++ [0, 1, 0, 1, 0, 0, 0, 8] ++ [0, 1, 0, 1, 0, 9]

def classifyingValue : gdef.GlyphDefinition where
  header := .version12 ⟨1, 2, 14, 22, 0, 14, 42⟩
  glyph_class := some (.format1 ⟨1, 3, 1, [2]⟩)
  attachments := some ⟨6, 1, [14], .format1 ⟨1, 2, [3, 4]⟩, [⟨2, [5, 6]⟩]⟩
  ligatures := none
  mark_class := some (.format1 ⟨1, 3, 1, [2]⟩)
  marks := some ⟨1, 1, [8], [.format1 ⟨1, 1, [9]⟩]⟩
  variations := none

example : Reads (gdef.GlyphDefinition.read ⟨false, false, false, false, false, true⟩) classifyingTable 0 classifyingValue ∧
    classIn classifyingValue.glyph_class 3 = 2 ∧ classIn classifyingValue.glyph_class 4 = 0 ∧
    pointsOf classifyingValue 3 = .ok (some [5, 6]) ∧ pointsOf classifyingValue 5 = .ok none ∧
    inMarkSet classifyingValue 0 9 = true ∧ inMarkSet classifyingValue 0 8 = false ∧ inMarkSet classifyingValue 1 9 = false ∧
    ∃ e, pointsOf classifyingValue 4 = .error e :=
  ⟨by decide +kernel, by decide +kernel, by decide +kernel, by decide +kernel, by decide +kernel, by decide +kernel,
    by decide +kernel, by decide +kernel, _, rfl⟩

/-- Some of these facts, in terms of the bytes. -/
example : GlyphClass classifyingTable 0 3 2 ∧ MissingPoints classifyingTable 0 4 ∧ InMarkSet classifyingTable 0 0 9 := by
  refine ⟨⟨14, by decide +kernel, ?_⟩, ⟨22, 1, 1, ⟨22, 6, by decide +kernel, by omega, rfl, by decide +kernel,
    .inl ⟨by decide +kernel, 2, by decide +kernel, by omega, by decide +kernel, ?_⟩, by decide +kernel⟩, by omega⟩,
    2, 42, 1, 8, 0, by decide +kernel, by omega, by decide +kernel, by omega, by decide +kernel, by omega, by decide +kernel,
    .inl ⟨by decide +kernel, 1, by decide +kernel, by omega, by decide +kernel, fun j hj => by omega⟩⟩
  · rw [if_neg (by omega)]
    refine .inl ⟨by decide +kernel, 3, 1, by decide +kernel, by decide +kernel, ?_⟩
    rw [if_pos (by omega)]
    decide +kernel
  · intro j hj
    obtain rfl : j = 0 := by omega
    decide +kernel

end OpenType.Props
