import Verif.Model.Defaults
import Verif.Props.Gpos
import Verif.Proof.Gdef
/-! # C80: what stands for nothing cannot be taken for what was read -/

namespace OpenType.Props
open OpenType Spec

/-- Nothing that is read from any tape at any position is `v`. -/
def NeverRead {α : Type} (r : Reader α) (v : α) : Prop := ∀ d p, Fits d → ¬Reads r d p v

/-- The values that the crate makes up, by which an absent part is represented, are not those of any stored part. -/
theorem C80_never_read :
    NeverRead coverage.Coverage.read .default ∧
    NeverRead class_.Class.read .default ∧
    NeverRead correction.Correction.read .default ∧
    NeverRead gpos.Anchor.read .default ∧
    NeverRead gdef.Header.read .default := by
  refine ⟨?_, ?_, ?_, ?_, ?_⟩ <;> intro d p hd h
  · have := ((reads_parses hd).mp h).1
    cases this
  · have := ((reads_parses hd).mp h).1
    cases this
  · obtain ⟨_, _, _, _, h, _⟩ := (reads_parses hd).mp h
    cases h
  · have := ((reads_parses hd).mp h).1
    cases this
  · obtain ⟨_, h, _⟩ := (reads_parses hd).mp h
    cases h

/-- A mark has the made-up anchor exactly when its own is missing and the crate was built to put up with that. -/
theorem C80_marks (cfg : Cfg) {d : Data} {p : Nat} (hd : Fits d) {t : gpos.Mark1s}
    (h : Reads (gpos.Mark1s.read cfg) d p t) (mark : gpos.Mark1) (hm : mark ∈ t.records) :
    mark.anchor = .default ↔ cfg.ignoreIncompleteMarks = true ∧ mark.anchor_offset = 0 := by
  obtain ⟨i, hi⟩ := List.mem_iff_getElem?.mp hm
  obtain ⟨_, _, h1, h2⟩ := C29_anchor cfg hd h hi
  constructor
  · intro ha
    by_cases hc : cfg.ignoreIncompleteMarks = true ∧ mark.anchor_offset = 0
    · exact hc
    · have := h1 (by cases h' : cfg.ignoreIncompleteMarks <;> simp_all)
      rw [ha] at this
      exact (C80_never_read.2.2.2.1 d _ hd ((reads_parses hd).mpr this)).elim
  · rintro ⟨hc, ho⟩
    exact h2 hc ho

/-- The same for the marks of the three kinds of attachments. -/
theorem C80_attachments (cfg : Cfg) {d : Data} {p : Nat} (hd : Fits d) (mark : gpos.Mark1) :
    (∀ t, Reads (gpos.MarkToBaseAttachment.read cfg) d p t → mark ∈ t.marks.records →
      (mark.anchor = .default ↔ cfg.ignoreIncompleteMarks = true ∧ mark.anchor_offset = 0)) ∧
    (∀ t, Reads (gpos.MarkToLigatureAttachment.read cfg) d p t → mark ∈ t.marks.records →
      (mark.anchor = .default ↔ cfg.ignoreIncompleteMarks = true ∧ mark.anchor_offset = 0)) ∧
    (∀ t, Reads (gpos.MarkToMarkAttachment.read cfg) d p t → mark ∈ t.mark1s.records →
      (mark.anchor = .default ↔ cfg.ignoreIncompleteMarks = true ∧ mark.anchor_offset = 0)) := by
  refine ⟨fun t h hm => ?_, fun t h hm => ?_, fun t h hm => ?_⟩
  · obtain ⟨_, _, _, _, _, _, _, _, _, h, _⟩ := (reads_parses hd).mp h
    exact C80_marks cfg hd ((reads_parses hd).mpr h) mark hm
  · obtain ⟨_, _, _, _, _, _, _, _, _, h, _⟩ := (reads_parses hd).mp h
    exact C80_marks cfg hd ((reads_parses hd).mpr h) mark hm
  · obtain ⟨_, _, _, _, _, _, _, _, _, h, _⟩ := (reads_parses hd).mp h
    exact C80_marks cfg hd ((reads_parses hd).mpr h) mark hm

/-- A mark without an anchor, read by a build that puts up with it, and one whose anchor is at the origin. -/
example : Reads (gpos.Mark1s.read ⟨false, false, true, false, false, true⟩)
    (bytes [0, 2, 0, 5, 0, 0, 0, 6, 0, 10, 0, 1, 0, 0, 0, 0]) 0
    ⟨2, [⟨5, 0, .default⟩, ⟨6, 10, .format1 ⟨1, 0, 0⟩⟩]⟩ := by decide +kernel

end OpenType.Props
