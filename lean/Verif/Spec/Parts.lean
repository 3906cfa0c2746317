import Verif.Model.Gsub
import Verif.Model.Gpos
import Verif.Model.Gdef
import Verif.Model.Cpal
import Verif.Model.Fvar
import Verif.Spec.Gdef
/-!
# Specification: the parts of a table

A table holds offsets and what they lead to. `parts r t` lists, for a table `t` of the kind that `r` reads,
everything inside it that can be read on its own: with the reader of its type, the number of bytes between the
beginning of `t` and the beginning of the part, and the value that `t` holds for it. Parts of parts are listed
as well, down to the leaves. Only the fields of `t` are used to say where a part is; nothing here reads. -/

namespace OpenType.Spec
open OpenType

/-- A value inside a table, with the reader of its type and its distance from the beginning of the table. -/
structure Part : Type 1 where
  Value : Type
  read : Reader Value
  offset : Nat
  value : Value

/-- The same part, seen from `n` bytes before. -/
def Part.shift (n : Nat) (x : Part) : Part := { x with offset := n + x.offset }

/-- What the tables that `r` reads consist of. -/
class Parts {α : Type} (r : Reader α) where
  parts : α → List Part

/-- The parts of a table. -/
def parts {α : Type} (r : Reader α) [h : Parts r] (t : α) : List Part := h.parts t

section
variable {α : Type} (r : Reader α) [Parts r]

/-- The value `x` at `offset`, with all its parts. -/
def one (offset : Nat) (x : α) : List Part := ⟨α, r, offset, x⟩ :: (parts r x).map (Part.shift offset)

/-- One value at each offset. -/
def many (offsets : List Nat) (xs : List α) : List Part := (offsets.zip xs).flatMap fun a => one r a.1 a.2

/-- A value that may be absent. -/
def maybe (offset : Nat) (x : Option α) : List Part := x.toList.flatMap (one r offset)

/-- One value, which may be absent, at each offset. -/
def maybes (offsets : List Nat) (xs : List (Option α)) : List Part := (offsets.zip xs).flatMap fun a => maybe r a.1 a.2

/-- Values `stride` bytes apart, from `offset` on. -/
def row (stride offset : Nat) (xs : List α) : List Part := xs.zipIdx.flatMap fun a => one r (offset + stride * a.2) a.1

/-- A value at `offset` unless the configuration lets a null offset stand for nothing. -/
def lenient (skip : Bool) (offset : Nat) (x : α) : List Part :=
  if skip = true ∧ offset = 0 then [] else one r offset x

end

/-! ## Common tables -/
section
open coverage class_ correction context

instance : Parts Coverage1.read := ⟨fun _ => []⟩
instance : Parts Coverage2.read := ⟨fun _ => []⟩
instance : Parts Coverage.read := ⟨fun
  | .format1 t => one Coverage1.read 0 t
  | .format2 t => one Coverage2.read 0 t⟩
instance : Parts Class1.read := ⟨fun _ => []⟩
instance : Parts Class2.read := ⟨fun _ => []⟩
instance : Parts Class.read := ⟨fun
  | .format1 t => one Class1.read 0 t
  | .format2 t => one Class2.read 0 t⟩
instance : Parts Device.read := ⟨fun _ => []⟩
instance : Parts Variation.read := ⟨fun _ => []⟩
instance : Parts Correction.read := ⟨fun
  | .device t => one Device.read 0 t
  | .variation t => one Variation.read 0 t⟩

instance : Parts context.Record.read := ⟨fun _ => []⟩
instance : Parts ClassRecord.read := ⟨fun _ => []⟩
instance : Parts ChainedRecord.read := ⟨fun _ => []⟩
instance : Parts ChainedClassRecord.read := ⟨fun _ => []⟩
instance : Parts Records.read := ⟨fun t => many context.Record.read t.offsets t.records⟩
instance : Parts ClassRecords.read := ⟨fun t => many ClassRecord.read t.offsets t.records⟩
instance : Parts ChainedRecords.read := ⟨fun t => many ChainedRecord.read t.offsets t.records⟩
instance : Parts ChainedClassRecords.read := ⟨fun t => many ChainedClassRecord.read t.offsets t.records⟩

instance : Parts Context1.read := ⟨fun t =>
  one Coverage.read t.coverage_offset t.coverage ++ many Records.read t.record_offsets t.records⟩
instance : Parts Context2.read := ⟨fun t =>
  one Coverage.read t.coverage_offset t.coverage ++ one Class.read t.class_offset t.class_ ++
    maybes ClassRecords.read t.record_offsets t.records⟩
instance : Parts Context3.read := ⟨fun t => many Coverage.read t.coverage_offsets t.coverages⟩
instance : Parts Context.read := ⟨fun
  | .format1 t => one Context1.read 0 t
  | .format2 t => one Context2.read 0 t
  | .format3 t => one Context3.read 0 t⟩

instance : Parts ChainedContext1.read := ⟨fun t =>
  one Coverage.read t.coverage_offset t.coverage ++ many ChainedRecords.read t.record_offsets t.records⟩
instance : Parts ChainedContext2.read := ⟨fun t =>
  one Coverage.read t.coverage_offset t.coverage ++ one Class.read t.backward_class_offset t.backward_class ++
    one Class.read t.class_offset t.class_ ++ one Class.read t.forward_class_offset t.forward_class ++
    maybes ChainedClassRecords.read t.record_offsets t.records⟩
instance : Parts ChainedContext3.read := ⟨fun t =>
  many Coverage.read t.backward_coverage_offsets t.backward_coverages ++
    many Coverage.read t.coverage_offsets t.coverages ++
    many Coverage.read t.forward_coverage_offsets t.forward_coverages⟩
instance : Parts ChainedContext.read := ⟨fun
  | .format1 t => one ChainedContext1.read 0 t
  | .format2 t => one ChainedContext2.read 0 t
  | .format3 t => one ChainedContext3.read 0 t⟩

end

/-! ## Lists and the directory -/
section
open script feature lookup directory

instance : Parts language.Record.read := ⟨fun _ => []⟩
instance : Parts script.Record.read := ⟨fun t =>
  maybe language.Record.read t.default_language_offset t.default_language ++
    many language.Record.read (t.language_headers.map (·.offset)) t.language_records⟩
instance : Parts Scripts.read := ⟨fun t => many script.Record.read (t.headers.map (·.offset)) t.records⟩
instance : Parts feature.Record.read := ⟨fun _ => []⟩
instance : Parts Features.read := ⟨fun t => many feature.Record.read (t.headers.map (·.offset)) t.records⟩
instance : Parts Variations.read := ⟨fun _ => []⟩

variable {T : Type} (cfg : Cfg) (readTable : Nat → Reader T) [∀ n, Parts (readTable n)]

/-- The subtables of a lookup are read with its type. -/
instance : Parts (lookup.Record.read cfg readTable) := ⟨fun t => many (readTable t.type_) t.table_offsets t.tables⟩
instance : Parts (Lookups.read cfg readTable) := ⟨fun t => many (lookup.Record.read cfg readTable) t.offsets t.records⟩
/-- With `ignore-incomplete-directories`, a null offset leads nowhere. -/
instance : Parts (Directory.read cfg readTable) := ⟨fun t =>
  lenient Scripts.read cfg.ignoreIncompleteDirectories t.script_offset t.scripts ++
    lenient Features.read cfg.ignoreIncompleteDirectories t.feature_offset t.features ++
    lenient (Lookups.read cfg readTable) cfg.ignoreIncompleteDirectories t.lookup_offset t.lookups ++
    maybe Variations.read t.variation_offset t.variations⟩

end

/-! ## Glyph substitution -/
section
open OpenType.gsub

instance : Parts Alternates.read := ⟨fun _ => []⟩
instance : Parts Sequence.read := ⟨fun _ => []⟩
instance : Parts gsub.Ligature.read := ⟨fun _ => []⟩
instance : Parts gsub.Ligatures.read := ⟨fun t => many gsub.Ligature.read t.offsets t.records⟩
instance : Parts SingleSubstitution1.read := ⟨fun t => one coverage.Coverage.read t.coverage_offset t.coverage⟩
instance : Parts SingleSubstitution2.read := ⟨fun t => one coverage.Coverage.read t.coverage_offset t.coverage⟩
instance : Parts SingleSubstitution.read := ⟨fun
  | .format1 t => one SingleSubstitution1.read 0 t
  | .format2 t => one SingleSubstitution2.read 0 t⟩
instance : Parts MultipleSubstitution.read := ⟨fun t =>
  one coverage.Coverage.read t.coverage_offset t.coverage ++ many Sequence.read t.record_offsets t.records⟩
instance : Parts AlternateSubstitution.read := ⟨fun t =>
  one coverage.Coverage.read t.coverage_offset t.coverage ++ many Alternates.read t.record_offsets t.records⟩
instance : Parts LigatureSubstitution.read := ⟨fun t =>
  one coverage.Coverage.read t.coverage_offset t.coverage ++ many gsub.Ligatures.read t.record_offsets t.records⟩
instance : Parts ExtensionSubstitution.read := ⟨fun _ => []⟩
instance : Parts ReverseChainedContextualSubstibution.read := ⟨fun t =>
  one coverage.Coverage.read t.coverage_offset t.coverage ++
    many coverage.Coverage.read t.backward_coverage_offsets t.backward_coverages ++
    many coverage.Coverage.read t.forward_coverage_offsets t.forward_coverages⟩
instance (n : Nat) : Parts (gsub.Type_.read n) := ⟨fun
  | .singleSubstitution t => one SingleSubstitution.read 0 t
  | .multipleSubstitution t => one MultipleSubstitution.read 0 t
  | .alternateSubstitution t => one AlternateSubstitution.read 0 t
  | .ligatureSubstitution t => one LigatureSubstitution.read 0 t
  | .contextualSubstitution t => one context.Context.read 0 t
  | .chainedContextualSubstitution t => one context.ChainedContext.read 0 t
  | .extensionSubstitution t => one ExtensionSubstitution.read 0 t
  | .reverseChainedContextualSubstibution t => one ReverseChainedContextualSubstibution.read 0 t⟩
instance (cfg : Cfg) : Parts (GlyphSubstitution.read cfg) :=
  inferInstanceAs (Parts (directory.Directory.read cfg gsub.Type_.read))

end

/-! ## Glyph positioning -/
section
open OpenType.gpos correction

instance : Parts Anchor1.read := ⟨fun _ => []⟩
instance : Parts Anchor2.read := ⟨fun _ => []⟩
instance : Parts Anchor3.read := ⟨fun t =>
  maybe Correction.read t.x_correction_offset t.x_correction ++ maybe Correction.read t.y_correction_offset t.y_correction⟩
instance : Parts Anchor.read := ⟨fun
  | .format1 t => one Anchor1.read 0 t
  | .format2 t => one Anchor2.read 0 t
  | .format3 t => one Anchor3.read 0 t⟩

/-- What an offset field of a value record leads to. -/
def correctionPart (offset : Option Nat) (x : Option Correction) : List Part :=
  match offset with
  | none => []
  | some offset => maybe Correction.read offset x

/-- The corrections of a value record, whose offsets count from the beginning of the table it belongs to. -/
def valueParts (t : Single) : List Part :=
  correctionPart t.x_placement_correction_offset t.x_placement_correction ++
    correctionPart t.y_placement_correction_offset t.y_placement_correction ++
    correctionPart t.x_advance_correction_offset t.x_advance_correction ++
    correctionPart t.y_advance_correction_offset t.y_advance_correction

/-- The same for two value records that may be absent. -/
def pairParts (x y : Option Single) : List Part := x.toList.flatMap valueParts ++ y.toList.flatMap valueParts

instance (f g : Nat) : Parts (Pair1s.read f g) := ⟨fun t => t.records.flatMap fun x => pairParts x.value1 x.value2⟩
instance (n : Nat) : Parts (Bases.read n) := ⟨fun t =>
  t.records.flatMap fun x => maybes Anchor.read x.anchor_offsets x.anchors⟩
instance (n : Nat) : Parts (gpos.Ligature.read n) := ⟨fun t =>
  t.components.flatMap fun x => maybes Anchor.read x.anchor_offsets x.anchors⟩
instance (n : Nat) : Parts (gpos.Ligatures.read n) := ⟨fun t => many (gpos.Ligature.read n) t.offsets t.records⟩
/-- With `ignore-incomplete-marks`, a null offset leads nowhere. -/
instance (cfg : Cfg) : Parts (Mark1s.read cfg) := ⟨fun t =>
  t.records.flatMap fun x => lenient Anchor.read cfg.ignoreIncompleteMarks x.anchor_offset x.anchor⟩
instance (n : Nat) : Parts (Mark2s.read n) := ⟨fun t =>
  t.records.flatMap fun x => maybes Anchor.read x.anchor_offsets x.anchors⟩

instance (cfg : Cfg) : Parts (SingleAdjustment1.read cfg) := ⟨fun t =>
  one coverage.Coverage.read t.coverage_offset t.coverage ++ valueParts t.value⟩
instance (cfg : Cfg) : Parts (SingleAdjustment2.read cfg) := ⟨fun t =>
  one coverage.Coverage.read t.coverage_offset t.coverage ++ t.values.flatMap valueParts⟩
instance (cfg : Cfg) : Parts (SingleAdjustment.read cfg) := ⟨fun
  | .format1 t => one (SingleAdjustment1.read cfg) 0 t
  | .format2 t => one (SingleAdjustment2.read cfg) 0 t⟩
instance (cfg : Cfg) : Parts (PairAdjustment1.read cfg) := ⟨fun t =>
  one coverage.Coverage.read t.coverage_offset t.coverage ++
    many (Pair1s.read t.value1_flags t.value2_flags) t.record_offsets t.records⟩
instance (cfg : Cfg) : Parts (PairAdjustment2.read cfg) := ⟨fun t =>
  one coverage.Coverage.read t.coverage_offset t.coverage ++ one class_.Class.read t.class1_offset t.class1 ++
    one class_.Class.read t.class2_offset t.class2 ++
    t.records.flatMap fun x => x.records.flatMap fun x => pairParts x.value1 x.value2⟩
instance (cfg : Cfg) : Parts (PairAdjustment.read cfg) := ⟨fun
  | .format1 t => one (PairAdjustment1.read cfg) 0 t
  | .format2 t => one (PairAdjustment2.read cfg) 0 t⟩
instance : Parts CursiveAttachment.read := ⟨fun t =>
  one coverage.Coverage.read t.coverage_offset t.coverage ++
    t.connections.flatMap fun x => maybe Anchor.read x.start_anchor_offset x.start_anchor ++
      maybe Anchor.read x.end_anchor_offset x.end_anchor⟩
instance (cfg : Cfg) : Parts (MarkToBaseAttachment.read cfg) := ⟨fun t =>
  one coverage.Coverage.read t.mark_coverage_offset t.mark_coverage ++
    one coverage.Coverage.read t.base_coverage_offset t.base_coverage ++
    one (Mark1s.read cfg) t.marks_offset t.marks ++ one (Bases.read t.mark_class_count) t.bases_offset t.bases⟩
instance (cfg : Cfg) : Parts (MarkToLigatureAttachment.read cfg) := ⟨fun t =>
  one coverage.Coverage.read t.mark_coverage_offset t.mark_coverage ++
    one coverage.Coverage.read t.ligature_coverage_offset t.ligature_coverage ++
    one (Mark1s.read cfg) t.marks_offset t.marks ++
    one (gpos.Ligatures.read t.mark_class_count) t.ligatures_offset t.ligatures⟩
instance (cfg : Cfg) : Parts (MarkToMarkAttachment.read cfg) := ⟨fun t =>
  one coverage.Coverage.read t.mark1_coverage_offset t.mark1_coverage ++
    one coverage.Coverage.read t.mark2_coverage_offset t.mark2_coverage ++
    one (Mark1s.read cfg) t.mark1s_offset t.mark1s ++ one (Mark2s.read t.mark_class_count) t.mark2s_offset t.mark2s⟩
instance : Parts ExtensionPositioning.read := ⟨fun _ => []⟩
instance (cfg : Cfg) (n : Nat) : Parts (gpos.Type_.read cfg n) := ⟨fun
  | .singleAdjustment t => one (SingleAdjustment.read cfg) 0 t
  | .pairAdjustment t => one (PairAdjustment.read cfg) 0 t
  | .cursiveAttachment t => one CursiveAttachment.read 0 t
  | .markToBaseAttachment t => one (MarkToBaseAttachment.read cfg) 0 t
  | .markToLigatureAttachment t => one (MarkToLigatureAttachment.read cfg) 0 t
  | .markToMarkAttachment t => one (MarkToMarkAttachment.read cfg) 0 t
  | .contextualPositioning t => one context.Context.read 0 t
  | .chainedContextualPositioning t => one context.ChainedContext.read 0 t
  | .extensionPositioning t => one ExtensionPositioning.read 0 t⟩
instance (cfg : Cfg) : Parts (GlyphPositioning.read cfg) :=
  inferInstanceAs (Parts (directory.Directory.read cfg (gpos.Type_.read cfg)))

end

/-! ## Glyph definition and variations -/
section
open OpenType.gdef

instance (cfg : Cfg) : Parts (item.Record.read cfg) := ⟨fun _ => []⟩
instance (cfg : Cfg) : Parts (item.Store.read cfg) := ⟨fun t => many (item.Record.read cfg) t.offsets t.records⟩
instance : Parts Attachment.read := ⟨fun _ => []⟩
instance : Parts Attachments.read := ⟨fun t =>
  one coverage.Coverage.read t.coverage_offset t.coverage ++ many Attachment.read t.offsets t.records⟩
instance : Parts Caret1.read := ⟨fun _ => []⟩
instance : Parts Caret2.read := ⟨fun _ => []⟩
instance : Parts Caret3.read := ⟨fun t => one correction.Correction.read t.correction_offset t.correction⟩
instance : Parts Caret.read := ⟨fun
  | .format1 t => one Caret1.read 0 t
  | .format2 t => one Caret2.read 0 t
  | .format3 t => one Caret3.read 0 t⟩
instance : Parts gdef.Ligature.read := ⟨fun t => many Caret.read t.caret_offsets t.carets⟩
instance : Parts gdef.Ligatures.read := ⟨fun t =>
  one coverage.Coverage.read t.coverage_offset t.coverage ++ many gdef.Ligature.read t.offsets t.records⟩
instance : Parts Marks.read := ⟨fun t => many coverage.Coverage.read t.coverage_offsets t.coverages⟩
instance : Parts gdef.Header1.read := ⟨fun _ => []⟩
instance : Parts Header12.read := ⟨fun _ => []⟩
instance : Parts Header13.read := ⟨fun _ => []⟩
instance : Parts gdef.Header.read := ⟨fun
  | .version1 t => one gdef.Header1.read 0 t
  | .version12 t => one Header12.read 0 t
  | .version13 t => one Header13.read 0 t⟩
/-- The place of the variations is the one the code takes: see C31. -/
instance (cfg : Cfg) : Parts (GlyphDefinition.read cfg) := ⟨fun t =>
  one gdef.Header.read 0 t.header ++
    maybe class_.Class.read (gdef.offsets t.header).1 t.glyph_class ++
    maybe Attachments.read (gdef.offsets t.header).2.1 t.attachments ++
    maybe gdef.Ligatures.read (gdef.offsets t.header).2.2.1 t.ligatures ++
    maybe class_.Class.read (gdef.offsets t.header).2.2.2.1 t.mark_class ++
    maybe Marks.read (gdef.offsets t.header).2.2.2.2.1 t.marks ++
    maybe (item.Store.read cfg) (gdef.storeOffsetTaken t.header) t.variations⟩

end

/-! ## Color palettes and font variations -/
section
open cpal fvar

instance : Parts Color.read := ⟨fun _ => []⟩
instance : Parts Header0.read := ⟨fun _ => []⟩
instance : Parts cpal.Header1.read := ⟨fun _ => []⟩
instance : Parts cpal.Header.read := ⟨fun
  | .version0 t => one Header0.read 0 t
  | .version1 t => one cpal.Header1.read 0 t⟩
instance : Parts ColorPalettes.read := ⟨fun t =>
  one cpal.Header.read 0 t.header ++
    match t.header with
    | .version0 h => row Color.read 4 h.color_offset t.colors
    | .version1 h => row Color.read 4 h.color_offset t.colors⟩

instance : Parts fvar.Header.read := ⟨fun _ => []⟩
instance (cfg : Cfg) : Parts (AxisRecord.read cfg) := ⟨fun _ => []⟩
instance (cfg : Cfg) (n : Nat) : Parts (InstanceRecord.read cfg n) := ⟨fun _ => []⟩
instance (cfg : Cfg) : Parts (FontVariations.read cfg) := ⟨fun t =>
  one fvar.Header.read 0 t.header ++
    row (AxisRecord.read cfg) t.header.axis_size t.header.axis_offset t.axis_records ++
    row (InstanceRecord.read cfg t.header.axis_count) t.header.instance_size
      (t.header.axis_offset + t.header.axis_count * t.header.axis_size) t.instance_records⟩

end

/-- Each of the parts is what its own reader gives at its own place, for a table at `p`. -/
def ReadAlone (d : Data) (p : Nat) (ps : List Part) : Prop := ∀ x ∈ ps, ∃ q, x.read d (p + x.offset) = .ok (x.value, q)

end OpenType.Spec
