import Verif.Props.Lists
import Verif.Props.Gpos
import Verif.Props.Gdef
import Verif.Props.Fvar
import Verif.Spec.Lenient
/-! # C54: a more lenient build reads whatever a less lenient one reads -/

namespace OpenType.Props
open OpenType Spec lookup directory gpos

theorem array_map {α β : Type} {S : Nat → α → Prop} {S' : Nat → β → Prop} {f : α → β} {stride p n : Nat}
    {xs : List α} (hf : ∀ q x, S q x → S' q (f x)) (h : ArrayOf S stride p n xs) :
    ArrayOf S' stride p n (xs.map f) := by
  refine ⟨(List.length_map f).trans h.1, fun i y hy => ?_⟩
  rw [List.getElem?_map, Option.map_eq_some_iff] at hy
  obtain ⟨x, hx, rfl⟩ := hy
  exact hf _ _ (h.2 i x hx)

theorem at_map {α β : Type} {S : Nat → α → Prop} {S' : Nat → β → Prop} {f : α → β} {base : Nat}
    {offsets : List Nat} {xs : List α} (hf : ∀ q x, S q x → S' q (f x)) (h : AtOffsets S base offsets xs) :
    AtOffsets S' base offsets (xs.map f) := by
  refine ⟨(List.length_map f).trans h.1, fun i o y ho hy => ?_⟩
  rw [List.getElem?_map, Option.map_eq_some_iff] at hy
  obtain ⟨x, hx, rfl⟩ := hy
  exact hf _ _ (h.2 i o x ho hx)

theorem array_mono {α : Type} {S S' : Nat → α → Prop} {stride p n : Nat}
    {xs : List α} (hf : ∀ q x, x ∈ xs → S q x → S' q x) (h : ArrayOf S stride p n xs) :
    ArrayOf S' stride p n xs :=
  ⟨h.1, fun i x hx => hf _ _ (List.mem_of_getElem? hx) (h.2 i x hx)⟩

theorem at_mono {α : Type} {S S' : Nat → α → Prop} {base : Nat} {offsets : List Nat}
    {xs : List α} (hf : ∀ q x, x ∈ xs → S q x → S' q x) (h : AtOffsets S base offsets xs) :
    AtOffsets S' base offsets xs :=
  ⟨h.1, fun i o x ho hx => hf _ _ (List.mem_of_getElem? hx) (h.2 i o x ho hx)⟩

theorem flags_mono {cfg cfg' : Cfg} (h : cfg'.rejectInvalidFlags = true → cfg.rejectInvalidFlags = true)
    {m x : Nat} (hx : FlagsOk cfg m x) : FlagsOk cfg' m x := fun hc => hx (h hc)

/-! ## Directories -/

theorem map_id {T : Type} (t : Directory T) : mapTables id t = t := by
  unfold mapTables
  simp

theorem part_mono {α : Type} {cfg cfg' : Cfg} {S S' : Nat → α → Prop} {f : α → α}
    (hc : cfg.ignoreIncompleteDirectories = true → cfg'.ignoreIncompleteDirectories = true)
    (hf : ∀ q x, S q x → S' q (f x)) {base offset : Nat} {empty x : α} (h : IsPart cfg S base offset empty x) :
    IsPart cfg' S' base offset empty
      (if cfg'.ignoreIncompleteDirectories = true ∧ offset = 0 then empty else f x) := by
  unfold IsPart at h ⊢
  split
  · rfl
  · next hn =>
    rw [if_neg fun h => hn ⟨hc h.1, h.2⟩] at h
    exact hf _ _ h

theorem lookups_mono {T : Type} {cfg cfg' : Cfg} {isTable isTable' : Nat → Data → Nat → T → Prop} {f : T → T}
    (hr : cfg'.rejectInvalidFlags = true → cfg.rejectInvalidFlags = true)
    (hf : ∀ n d q x, isTable n d q x → isTable' n d q (f x)) {d : Data} {p : Nat} {t : Lookups T}
    (h : IsLookups cfg isTable d p t) :
    IsLookups cfg' isTable' d p
      { t with records := t.records.map fun r => { r with tables := r.tables.map f } } := by
  obtain ⟨h1, h2, h3⟩ := h
  refine ⟨h1, h2, at_map (fun q x hx => ?_) h3⟩
  obtain ⟨a1, a2, a3, a4, a5, a6, a7⟩ := hx
  exact ⟨a1, a2, flags_mono hr a3, a4, a5, a6, at_map (fun q y hy => hf _ _ _ _ hy) a7⟩

theorem directory_mono {T : Type} {cfg cfg' : Cfg} (hm : Milder cfg cfg')
    {isTable isTable' : Nat → Data → Nat → T → Prop} {f : T → T}
    (hf : ∀ n d q x, isTable n d q x → isTable' n d q (f x)) {d : Data} {p : Nat} {t : Directory T}
    (h : IsDirectory cfg isTable d p t) :
    IsDirectory cfg' isTable' d p
      (if cfg'.ignoreIncompleteDirectories = true then forgiveLists (mapTables f t) else mapTables f t) := by
  obtain ⟨h1, h2, h3, h4, h5, h6, h7, h8, h9, h10, h11, h12⟩ := h
  have a := part_mono (f := id) hm.1 (fun _ _ h => h) h9
  have b := part_mono (f := id) hm.1 (fun _ _ h => h) h10
  have c := part_mono hm.1 (fun q x hx => lookups_mono hm.2.2.1 hf hx) h11
  split
  · next hc =>
    simp only [hc, true_and] at a b c
    exact ⟨h1, h2, h3, h4, h5, h6, h7, h8, a, b, c, h12⟩
  · next hc =>
    simp only [hc] at a b c
    exact ⟨h1, h2, h3, h4, h5, h6, h7, h8, a, b, c, h12⟩

/-! ## Marks -/

theorem marks_mono {cfg cfg' : Cfg} (hm : cfg.ignoreIncompleteMarks = true → cfg'.ignoreIncompleteMarks = true)
    {d : Data} {p : Nat} {t : Mark1s} (h : Spec.gpos.IsMark1s cfg d p t) :
    Spec.gpos.IsMark1s cfg' d p (if cfg'.ignoreIncompleteMarks = true then forgiveMarks t else t) := by
  obtain ⟨h1, h2⟩ := h
  split
  · next hc =>
    refine ⟨h1, array_map (fun q x hx => ?_) h2⟩
    obtain ⟨a1, a2, a3⟩ := hx
    unfold forgiveMark
    unfold Spec.gpos.IsMarkAnchor at a3
    split
    · next ho => exact ⟨a1, a2, by unfold Spec.gpos.IsMarkAnchor; rw [if_pos ⟨hc, ho⟩]⟩
    · next ho =>
      rw [if_neg fun h => ho h.2] at a3
      exact ⟨a1, a2, by unfold Spec.gpos.IsMarkAnchor; rwa [if_neg fun h => ho h.2]⟩
  · next hc =>
    refine ⟨h1, array_mono (fun q x _ hx => ?_) h2⟩
    obtain ⟨a1, a2, a3⟩ := hx
    unfold Spec.gpos.IsMarkAnchor at a3
    rw [if_neg fun h => hc (hm h.1)] at a3
    exact ⟨a1, a2, by unfold Spec.gpos.IsMarkAnchor; rwa [if_neg fun h => hc h.1]⟩

theorem table_mono {cfg cfg' : Cfg} (hm : Milder cfg cfg') {n : Nat} {d : Data} {p : Nat} {t : gpos.Type_}
    (h : Spec.gpos.IsTable cfg n d p t) :
    Spec.gpos.IsTable cfg' n d p ((if cfg'.ignoreIncompleteMarks = true then forgiveTable else id) t) := by
  have e : (if cfg'.ignoreIncompleteMarks = true then forgiveTable else id) t =
      if cfg'.ignoreIncompleteMarks = true then forgiveTable t else t := by split <;> rfl
  rw [e]
  have hr := hm.2.2.1
  cases t with
  | singleAdjustment t =>
    have e : forgiveTable (.singleAdjustment t) = .singleAdjustment t := rfl
    rw [e, ite_self]
    obtain ⟨h0, h⟩ := h
    refine ⟨h0, ?_⟩
    cases t with
    | format1 t =>
      obtain ⟨h0, h1, h2, h3, h4, h5⟩ := h
      exact ⟨h0, h1, h2, h3, flags_mono hr h4, h5⟩
    | format2 t =>
      obtain ⟨h0, h1, h2, h3, h4, h5⟩ := h
      exact ⟨h0, h1, h2, h3, flags_mono hr h4, h5⟩
  | pairAdjustment t =>
    have e : forgiveTable (.pairAdjustment t) = .pairAdjustment t := rfl
    rw [e, ite_self]
    obtain ⟨h0, h⟩ := h
    refine ⟨h0, ?_⟩
    cases t with
    | format1 t =>
      obtain ⟨h0, h1, h2, h3, h4, h5, h6, h7⟩ := h
      exact ⟨h0, h1, h2, h3, flags_mono hr h4, h5, flags_mono hr h6, h7⟩
    | format2 t =>
      obtain ⟨h0, h1, h2, h3, h4, h5, h6, h7⟩ := h
      exact ⟨h0, h1, h2, h3, flags_mono hr h4, h5, flags_mono hr h6, h7⟩
  | markToBaseAttachment t =>
    obtain ⟨h0, h1, h2, h3, h4, h5, h6, h7, h8, h9, h10, h11⟩ := h
    have := marks_mono hm.2.1 h10
    split <;> simp only [*, if_true] at this <;>
      exact ⟨h0, h1, h2, h3, h4, h5, h6, h7, h8, h9, this, h11⟩
  | markToLigatureAttachment t =>
    obtain ⟨h0, h1, h2, h3, h4, h5, h6, h7, h8, h9, h10, h11⟩ := h
    have := marks_mono hm.2.1 h10
    split <;> simp only [*, if_true] at this <;>
      exact ⟨h0, h1, h2, h3, h4, h5, h6, h7, h8, h9, this, h11⟩
  | markToMarkAttachment t =>
    obtain ⟨h0, h1, h2, h3, h4, h5, h6, h7, h8, h9, h10, h11⟩ := h
    have := marks_mono hm.2.1 h10
    split <;> simp only [*, if_true] at this <;>
      exact ⟨h0, h1, h2, h3, h4, h5, h6, h7, h8, h9, this, h11⟩
  | cursiveAttachment t => rw [show forgiveTable (.cursiveAttachment t) = .cursiveAttachment t from rfl, ite_self]; exact h
  | contextualPositioning t => rw [show forgiveTable (.contextualPositioning t) = .contextualPositioning t from rfl, ite_self]; exact h
  | chainedContextualPositioning t =>
    rw [show forgiveTable (.chainedContextualPositioning t) = .chainedContextualPositioning t from rfl, ite_self]
    exact h
  | extensionPositioning t => rw [show forgiveTable (.extensionPositioning t) = .extensionPositioning t from rfl, ite_self]; exact h

/-! ## The claim -/

/-- Whatever a build reads from a substitution table, a more lenient build reads too, and the value differs only
in that the lists without an offset are empty if the second build ignores incomplete directories. -/
theorem C54_gsub {cfg cfg' : Cfg} (hm : Milder cfg cfg') {d : Data} {p : Nat} (hd : Fits d)
    {t : gsub.GlyphSubstitution} (h : Reads (gsub.GlyphSubstitution.read cfg) d p t) :
    Reads (gsub.GlyphSubstitution.read cfg') d p (forgiveGsub cfg' t) := by
  have := directory_mono (f := id) hm (fun _ _ _ _ h => h) ((((C20_directory cfg).1 d p hd).1 t).mp h)
  rw [map_id] at this
  exact (((C20_directory cfg').1 d p hd).1 _).mpr this

/-- Whatever a build reads from a positioning table, a more lenient build reads too. The value differs only in
that the lists without an offset are empty if the second build ignores incomplete directories, and that the
anchors of marks without an offset are zero if it ignores incomplete marks. -/
theorem C54_gpos {cfg cfg' : Cfg} (hm : Milder cfg cfg') {d : Data} {p : Nat} (hd : Fits d)
    {t : gpos.GlyphPositioning} (h : Reads (gpos.GlyphPositioning.read cfg) d p t) :
    Reads (gpos.GlyphPositioning.read cfg') d p (forgiveGpos cfg' t) := by
  have := directory_mono hm (fun _ _ _ _ h => table_mono hm h) ((((C20_directory cfg).2 d p hd).1 t).mp h)
  refine (((C20_directory cfg').2 d p hd).1 _).mpr ?_
  unfold forgiveGpos
  cases hc : cfg'.ignoreIncompleteMarks with
  | true => rw [hc] at this; exact this
  | false =>
    rw [hc, if_neg Bool.false_ne_true, map_id] at this
    exact this

/-- The other tables have no such feature: a build that checks less, of flags or of sums, reads the same. -/
theorem C54_others {cfg cfg' : Cfg} (hm : Milder cfg cfg') {d : Data} {p : Nat} (hd : Fits d) :
    (∀ t, Reads (fvar.FontVariations.read cfg) d p t → Reads (fvar.FontVariations.read cfg') d p t) ∧
    (∀ t, Reads (gdef.GlyphDefinition.read cfg) d p t → Reads (gdef.GlyphDefinition.read cfg') d p t) ∧
    (∀ t, Reads (item.Store.read cfg) d p t → Reads (item.Store.read cfg') d p t) := by
  have store : ∀ q t, IsStore cfg d q t → IsStore cfg' d q t := by
    intro q t ⟨h1, h2, h3, h4, h6, h5⟩
    refine ⟨h1, h2, h3, h4, h6, at_mono (fun q x _ hx => ?_) h5⟩
    obtain ⟨a1, a2, a3, a4, n, a5, a6⟩ := hx
    exact ⟨a1, a2, a3, a4, n, ⟨fun hc => a5.1 (hm.2.2.2 hc), a5.2⟩, a6⟩
  refine ⟨fun t h => ?_, fun t h => ?_, fun t h => ?_⟩
  · obtain ⟨h1, h2, h3⟩ := ((C36_variations cfg d p hd).1 t).mp h
    refine ((C36_variations cfg' d p hd).1 t).mpr ⟨h1, array_mono (fun q x _ hx => ?_) h2,
      array_mono (fun q x _ hx => ?_) h3⟩
    · obtain ⟨a1, a2, a3, a4, a5, a6, a7⟩ := hx
      exact ⟨a1, a2, a3, a4, a5, flags_mono hm.2.2.1 a6, a7⟩
    · obtain ⟨a1, a2, a3, a4⟩ := hx
      exact ⟨a1, a2, flags_mono hm.2.2.1 a3, a4⟩
  · obtain ⟨h1, ⟨g1, g2, g3, g4, g5, h2⟩⟩ := (C30_glyph_definition cfg hd t).mp h
    refine (C30_glyph_definition cfg' hd t).mpr ⟨h1, g1, g2, g3, g4, g5, ?_⟩
    revert h2
    unfold Optional
    split
    · exact id
    · exact fun h => ⟨h.1, store _ _ h.2⟩
  · exact (reads_parses hd).mpr (store _ _ ((reads_parses hd).mp h))

/-- A positioning table with one lookup, one mark and no offset to its anchor. -/
def sampleIncomplete : Data := bytes <|
  [0, 1,  0, 0,  0, 10,  0, 10,  0, 12,  0, 0] ++ [0, 1,  0, 4] ++ [0, 4,  0, 0,  0, 1,  0, 8] ++
  [0, 1,  0, 12,  0, 12,  0, 0,  0, 18,  0, 24] ++ [0, 1,  0, 1,  0, 7] ++ [0, 1,  0, 5,  0, 0] ++ [0, 0]

/-- What a build reads of it, given the anchor. -/
def sampleIncompleteValue (anchor : Anchor) : gpos.GlyphPositioning :=
  ⟨1, 0, 10, 10, 12, 0, ⟨0, [], []⟩, ⟨0, [], []⟩, ⟨1, [4], [⟨4, 0, 1, [8], none,
    [.markToBaseAttachment ⟨1, 12, 12, 0, 18, 24, .format1 ⟨1, 1, [7]⟩, .format1 ⟨1, 1, [7]⟩,
      ⟨1, [⟨5, 0, anchor⟩]⟩, ⟨0, []⟩⟩]⟩]⟩, none⟩

/-- Without the feature the head of the array is taken for the anchor; with it the anchor is zero. -/
example :
    let strict : Cfg := ⟨false, false, false, false, true, true⟩
    let lenient : Cfg := ⟨false, true, true, false, true, false⟩
    Milder strict lenient ∧ Fits sampleIncomplete ∧
    Reads (gpos.GlyphPositioning.read strict) sampleIncomplete 0
      (sampleIncompleteValue (.format1 ⟨1, 5, 0⟩)) ∧
    Reads (gpos.GlyphPositioning.read lenient) sampleIncomplete 0
      (sampleIncompleteValue (.format1 ⟨0, 0, 0⟩)) ∧
    forgiveGpos lenient (sampleIncompleteValue (.format1 ⟨1, 5, 0⟩)) =
      sampleIncompleteValue (.format1 ⟨0, 0, 0⟩) := by
  refine ⟨?_, ?_⟩
  · unfold Milder; decide
  · decide +kernel

/-! ## Complete tables -/

theorem part_same {α : Type} {cfg cfg' : Cfg} {S S' : Nat → α → Prop} {base offset : Nat} {empty x : α}
    (ho : offset ≠ 0) (hf : ∀ q, S q x → S' q x) (h : IsPart cfg S base offset empty x) :
    IsPart cfg' S' base offset empty x := by
  unfold IsPart at h ⊢
  rw [if_neg fun h => ho h.2] at h ⊢
  exact hf _ h

theorem directory_same {T : Type} {cfg cfg' : Cfg} (hr : cfg'.rejectInvalidFlags = cfg.rejectInvalidFlags)
    {isTable isTable' : Nat → Data → Nat → T → Prop} {d : Data} {p : Nat} {t : Directory T}
    (hc : CompleteLists t)
    (hf : ∀ r ∈ t.lookups.records, ∀ x ∈ r.tables, ∀ n q, isTable n d q x → isTable' n d q x)
    (h : IsDirectory cfg isTable d p t) : IsDirectory cfg' isTable' d p t := by
  obtain ⟨h1, h2, h3, h4, h5, h6, h7, h8, h9, h10, h11, h12⟩ := h
  refine ⟨h1, h2, h3, h4, h5, h6, h7, h8, part_same hc.1 (fun _ h => h) h9,
    part_same hc.2.1 (fun _ h => h) h10, part_same hc.2.2 (fun q h => ?_) h11, h12⟩
  obtain ⟨a1, a2, a3⟩ := h
  refine ⟨a1, a2, at_mono (fun q x hm hx => ?_) a3⟩
  obtain ⟨b1, b2, b3, b4, b5, b6, b7⟩ := hx
  exact ⟨b1, b2, flags_mono (fun h => hr.symm.trans h) b3, b4, b5, b6,
    at_mono (fun q y hy => hf _ hm _ hy _ _) b7⟩

theorem marks_same {cfg cfg' : Cfg} {d : Data} {p : Nat} {t : Mark1s} (hc : CompleteMarks t)
    (h : Spec.gpos.IsMark1s cfg d p t) : Spec.gpos.IsMark1s cfg' d p t := by
  refine ⟨h.1, array_mono (fun q x hm hx => ?_) h.2⟩
  obtain ⟨a1, a2, a3⟩ := hx
  refine ⟨a1, a2, ?_⟩
  unfold Spec.gpos.IsMarkAnchor at a3 ⊢
  rwa [if_neg fun h => hc _ hm h.2] at a3 ⊢

theorem table_same {cfg cfg' : Cfg} (hr : cfg'.rejectInvalidFlags = cfg.rejectInvalidFlags) {n : Nat} {d : Data}
    {p : Nat} {t : gpos.Type_} (hc : CompleteTable t) (h : Spec.gpos.IsTable cfg n d p t) :
    Spec.gpos.IsTable cfg' n d p t := by
  have hr : cfg'.rejectInvalidFlags = true → cfg.rejectInvalidFlags = true := fun h => hr.symm.trans h
  cases t with
  | singleAdjustment t =>
    obtain ⟨h0, h⟩ := h
    refine ⟨h0, ?_⟩
    cases t with
    | format1 t =>
      obtain ⟨h0, h1, h2, h3, h4, h5⟩ := h
      exact ⟨h0, h1, h2, h3, flags_mono hr h4, h5⟩
    | format2 t =>
      obtain ⟨h0, h1, h2, h3, h4, h5⟩ := h
      exact ⟨h0, h1, h2, h3, flags_mono hr h4, h5⟩
  | pairAdjustment t =>
    obtain ⟨h0, h⟩ := h
    refine ⟨h0, ?_⟩
    cases t with
    | format1 t =>
      obtain ⟨h0, h1, h2, h3, h4, h5, h6, h7⟩ := h
      exact ⟨h0, h1, h2, h3, flags_mono hr h4, h5, flags_mono hr h6, h7⟩
    | format2 t =>
      obtain ⟨h0, h1, h2, h3, h4, h5, h6, h7⟩ := h
      exact ⟨h0, h1, h2, h3, flags_mono hr h4, h5, flags_mono hr h6, h7⟩
  | markToBaseAttachment t =>
    obtain ⟨h0, h1, h2, h3, h4, h5, h6, h7, h8, h9, h10, h11⟩ := h
    exact ⟨h0, h1, h2, h3, h4, h5, h6, h7, h8, h9, marks_same hc h10, h11⟩
  | markToLigatureAttachment t =>
    obtain ⟨h0, h1, h2, h3, h4, h5, h6, h7, h8, h9, h10, h11⟩ := h
    exact ⟨h0, h1, h2, h3, h4, h5, h6, h7, h8, h9, marks_same hc h10, h11⟩
  | markToMarkAttachment t =>
    obtain ⟨h0, h1, h2, h3, h4, h5, h6, h7, h8, h9, h10, h11⟩ := h
    exact ⟨h0, h1, h2, h3, h4, h5, h6, h7, h8, h9, marks_same hc h10, h11⟩
  | cursiveAttachment t => exact h
  | contextualPositioning t => exact h
  | chainedContextualPositioning t => exact h
  | extensionPositioning t => exact h

/-- All builds that treat invalid flags alike read the same complete tables: those none of whose lists, and for
positioning none of whose marks, lacks its offset. -/
theorem C54_complete {cfg cfg' : Cfg} (hr : cfg'.rejectInvalidFlags = cfg.rejectInvalidFlags) {d : Data} {p : Nat}
    (hd : Fits d) :
    (∀ t, CompleteLists t →
      (Reads (gsub.GlyphSubstitution.read cfg) d p t ↔ Reads (gsub.GlyphSubstitution.read cfg') d p t)) ∧
    (∀ t, CompleteGpos t →
      (Reads (gpos.GlyphPositioning.read cfg) d p t ↔ Reads (gpos.GlyphPositioning.read cfg') d p t)) := by
  refine ⟨fun t hc => ?_, fun t hc => ?_⟩
  · rw [((C20_directory cfg).1 d p hd).1 t, ((C20_directory cfg').1 d p hd).1 t]
    exact ⟨directory_same hr hc fun _ _ _ _ _ _ h => h, directory_same hr.symm hc fun _ _ _ _ _ _ h => h⟩
  · rw [((C20_directory cfg).2 d p hd).1 t, ((C20_directory cfg').2 d p hd).1 t]
    exact ⟨directory_same hr hc.1 fun r h s h' _ _ => table_same hr (hc.2 r h s h'),
      directory_same hr.symm hc.1 fun r h s h' _ _ => table_same hr.symm (hc.2 r h s h')⟩

/-- An array of two marks with offsets is complete, that of `sampleIncomplete` is not; its lists are. -/
example : CompleteMarks ⟨2, [⟨5, 14, .format1 ⟨1, 2, 3⟩⟩, ⟨6, 14, .format1 ⟨1, 2, 3⟩⟩]⟩ ∧
    CompleteLists (sampleIncompleteValue (.format1 ⟨0, 0, 0⟩)) ∧
    ¬CompleteMarks ⟨1, [⟨5, 0, .format1 ⟨0, 0, 0⟩⟩]⟩ := by
  unfold CompleteMarks CompleteLists sampleIncompleteValue
  decide

end OpenType.Props
