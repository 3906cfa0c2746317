import Verif.Model.Layout
import Verif.Model.Defaults
/-!
# Generated by `tools/translate.py` from the source: do not edit

Each definition is the translation of the code at the lines given, and each theorem says that the definition
of the model written by hand is the same.
-/

set_option linter.unusedVariables false

namespace OpenType.Generated

namespace coverage
/-- `src/layout/coverage.rs:50-55`. -/
def Coverage.default : coverage.Coverage := (.format1 { format := 0, glyph_count := 0, glyph_ids := [] })

/-- The model of `src/layout/coverage.rs:50-55` is its translation. -/
theorem Coverage.default_eq : @Coverage.default = @OpenType.coverage.Coverage.default := rfl
end coverage

namespace coverage
/-- `src/layout/coverage.rs:16-26`. -/
def Coverage1.read : Reader coverage.Coverage1 := do
  let format ← u16
  let glyph_count ← u16
  let glyph_ids ← takeVec u16 glyph_count
  return { format, glyph_count, glyph_ids }

/-- The model of `src/layout/coverage.rs:16-26` is its translation. -/
theorem Coverage1.read_eq : @Coverage1.read = @OpenType.coverage.Coverage1.read := rfl
end coverage

namespace coverage
/-- `src/layout/coverage.rs:40-48`. -/
def Record.read : Reader coverage.Record := do
  let start_glyph_id ← u16
  let end_glyph_id ← u16
  let index ← u16
  return { start_glyph_id, end_glyph_id, index }

/-- The model of `src/layout/coverage.rs:40-48` is its translation. -/
theorem Record.read_eq : @Record.read = @OpenType.coverage.Record.read := rfl
end coverage

namespace coverage
/-- `src/layout/coverage.rs:28-38`. -/
def Coverage2.read : Reader coverage.Coverage2 := do
  let format ← u16
  let record_count ← u16
  let records ← takeVec Record.read record_count
  return { format, record_count, records }

/-- The model of `src/layout/coverage.rs:28-38` is its translation. -/
theorem Coverage2.read_eq : @Coverage2.read = @OpenType.coverage.Coverage2.read := by
  delta Coverage2.read OpenType.coverage.Coverage2.read
  simp only [Record.read_eq] <;> rfl
end coverage

namespace coverage
/-- `src/layout/coverage.rs:57-65`. -/
def Coverage.read : Reader coverage.Coverage := do
  let t1 ← peek u16
  match t1 with
  | 1 => do
      let t2 ← Coverage1.read
      pure (.format1 t2)
  | 2 => do
      let t3 ← Coverage2.read
      pure (.format2 t3)
  | value => raise ⟨"found an unknown format of the glyph coverage", [value]⟩

/-- The model of `src/layout/coverage.rs:57-65` is its translation. -/
theorem Coverage.read_eq : @Coverage.read = @OpenType.coverage.Coverage.read := by
  delta Coverage.read OpenType.coverage.Coverage.read
  simp only [Coverage1.read_eq, Coverage2.read_eq] <;> rfl
end coverage

namespace class_
/-- `src/layout/class.rs:51-56`. -/
def Class.default : class_.Class := (.format1 { format := 0, start_glyph_id := 0, glyph_count := 0, indices := [] })

/-- The model of `src/layout/class.rs:51-56` is its translation. -/
theorem Class.default_eq : @Class.default = @OpenType.class_.Class.default := rfl
end class_

namespace class_
/-- `src/layout/class.rs:16-27`. -/
def Class1.read : Reader class_.Class1 := do
  let format ← u16
  let start_glyph_id ← u16
  let glyph_count ← u16
  let indices ← takeVec u16 glyph_count
  return { format, start_glyph_id, glyph_count, indices }

/-- The model of `src/layout/class.rs:16-27` is its translation. -/
theorem Class1.read_eq : @Class1.read = @OpenType.class_.Class1.read := rfl
end class_

namespace class_
/-- `src/layout/class.rs:41-49`. -/
def Record.read : Reader class_.Record := do
  let start_glyph_id ← u16
  let end_glyph_id ← u16
  let index ← u16
  return { start_glyph_id, end_glyph_id, index }

/-- The model of `src/layout/class.rs:41-49` is its translation. -/
theorem Record.read_eq : @Record.read = @OpenType.class_.Record.read := rfl
end class_

namespace class_
/-- `src/layout/class.rs:29-39`. -/
def Class2.read : Reader class_.Class2 := do
  let format ← u16
  let record_count ← u16
  let records ← takeVec Record.read record_count
  return { format, record_count, records }

/-- The model of `src/layout/class.rs:29-39` is its translation. -/
theorem Class2.read_eq : @Class2.read = @OpenType.class_.Class2.read := by
  delta Class2.read OpenType.class_.Class2.read
  simp only [Record.read_eq] <;> rfl
end class_

namespace class_
/-- `src/layout/class.rs:58-66`. -/
def Class.read : Reader class_.Class := do
  let t1 ← peek u16
  match t1 with
  | 1 => do
      let t2 ← Class1.read
      pure (.format1 t2)
  | 2 => do
      let t3 ← Class2.read
      pure (.format2 t3)
  | value => raise ⟨"found an unknown format of the glyph class", [value]⟩

/-- The model of `src/layout/class.rs:58-66` is its translation. -/
theorem Class.read_eq : @Class.read = @OpenType.class_.Class.read := by
  delta Class.read OpenType.class_.Class.read
  simp only [Class1.read_eq, Class2.read_eq] <;> rfl
end class_

namespace correction
/-- `src/layout/correction.rs:44-49`. -/
def Correction.default : correction.Correction := (.device { start_size := 0, end_size := 0, format := 0, deltas := [] })

/-- The model of `src/layout/correction.rs:44-49` is its translation. -/
theorem Correction.default_eq : @Correction.default = @OpenType.correction.Correction.default := rfl
end correction

namespace correction
/-- `src/layout/correction.rs:51-73`. -/
def Device.read : Reader correction.Device := do
  let start_size ← u16
  let end_size ← u16
  raiseIf (start_size > end_size) "found a malformed device correction"
  let format ← u16
  raiseIf ((format = 0) ∨ (format > 3)) ⟨"found an unknown format of the device correction", [format]⟩
  let t6 ← subUint end_size start_size
  let count ← addUsize t6 1
  let bit_count ← mulUsize (1 <<< format) count
  let t9 ← addUsize bit_count 16
  let t10 ← subUint t9 (bit_count % 16)
  let short_count := (t10 >>> 4)
  let deltas ← takeVec u16 short_count
  return { start_size, end_size, format, deltas }

/-- The model of `src/layout/correction.rs:51-73` is its translation. -/
theorem Device.read_eq : @Device.read = @OpenType.correction.Device.read := rfl
end correction

namespace correction
/-- `src/layout/correction.rs:25-32`. -/
def Variation.read : Reader correction.Variation := do
  let outer_index ← u16
  let inner_index ← u16
  let format ← u16
  return { outer_index, inner_index, format }

/-- The model of `src/layout/correction.rs:25-32` is its translation. -/
theorem Variation.read_eq : @Variation.read = @OpenType.correction.Variation.read := rfl
end correction

namespace correction
/-- `src/layout/correction.rs:34-42`. -/
def Correction.read : Reader correction.Correction := do
  let t3 ←
    peek (do
      let t1 ← u32
      let t2 ← u16
      pure (t1, t2))
  if 1 ≤ t3.2 ∧ t3.2 ≤ 3 then
    do
      let t6 ← Device.read
      pure (.device t6)
  else
    if t3.2 = 32768 then
      do
        let t5 ← Variation.read
        pure (.variation t5)
    else
      do
        let value := t3.2
        raise ⟨"found an unknown format of the adjustment correction", [value]⟩

/-- The model of `src/layout/correction.rs:34-42` is its translation. -/
theorem Correction.read_eq : @Correction.read = @OpenType.correction.Correction.read := by
  delta Correction.read OpenType.correction.Correction.read
  simp only [Device.read_eq, Variation.read_eq] <;> rfl
end correction

namespace context
/-- `src/layout/context.rs:369-376`. -/
def Action.read : Reader context.Action := do
  let position_index ← u16
  let lookup_index ← u16
  return { position_index, lookup_index }

/-- The model of `src/layout/context.rs:369-376` is its translation. -/
theorem Action.read_eq : @Action.read = @OpenType.context.Action.read := rfl
end context

namespace context
/-- `src/layout/context.rs:203-220`. -/
def Record.read : Reader context.Record := do
  let glyph_count ← u16
  let action_count ← u16
  raiseIf (glyph_count = 0) "found a malformed context record"
  let t2 ← subUint glyph_count 1
  let glyph_ids ← takeVec u16 t2
  let actions ← takeVec Action.read action_count
  return { glyph_count, action_count, glyph_ids, actions }

/-- The model of `src/layout/context.rs:203-220` is its translation. -/
theorem Record.read_eq : @Record.read = @OpenType.context.Record.read := by
  delta Record.read OpenType.context.Record.read
  simp only [Action.read_eq] <;> rfl
end context

namespace context
/-- `src/layout/context.rs:222-236`. -/
def Records.read : Reader context.Records := do
  let position ← position
  let count ← u16
  let offsets ← takeVec u16 count
  let records ← jumpTakeN position count offsets Record.read
  return { count, offsets, records }

/-- The model of `src/layout/context.rs:222-236` is its translation. -/
theorem Records.read_eq : @Records.read = @OpenType.context.Records.read := by
  delta Records.read OpenType.context.Records.read
  simp only [Record.read_eq] <;> rfl
end context

namespace context
/-- `src/layout/context.rs:19-39`. -/
def Context1.read : Reader context.Context1 := do
  let position ← position
  let format ← u16
  let coverage_offset ← u16
  let record_count ← u16
  let record_offsets ← takeVec u16 record_count
  let coverage ← jumpTake position coverage_offset Generated.coverage.Coverage.read
  let records ← jumpTakeN position record_count record_offsets Records.read
  return { format, coverage_offset, record_count, record_offsets, coverage, records }

/-- The model of `src/layout/context.rs:19-39` is its translation. -/
theorem Context1.read_eq : @Context1.read = @OpenType.context.Context1.read := by
  delta Context1.read OpenType.context.Context1.read
  simp only [Generated.coverage.Coverage.read_eq, Records.read_eq] <;> rfl
end context

namespace context
/-- `src/layout/context.rs:238-255`. -/
def ClassRecord.read : Reader context.ClassRecord := do
  let glyph_count ← u16
  let action_count ← u16
  raiseIf (glyph_count = 0) "found a malformed class context record"
  let t2 ← subUint glyph_count 1
  let indices ← takeVec u16 t2
  let actions ← takeVec Action.read action_count
  return { glyph_count, action_count, indices, actions }

/-- The model of `src/layout/context.rs:238-255` is its translation. -/
theorem ClassRecord.read_eq : @ClassRecord.read = @OpenType.context.ClassRecord.read := by
  delta ClassRecord.read OpenType.context.ClassRecord.read
  simp only [Action.read_eq] <;> rfl
end context

namespace context
/-- `src/layout/context.rs:257-271`. -/
def ClassRecords.read : Reader context.ClassRecords := do
  let position ← position
  let count ← u16
  let offsets ← takeVec u16 count
  let records ← jumpTakeN position count offsets ClassRecord.read
  return { count, offsets, records }

/-- The model of `src/layout/context.rs:257-271` is its translation. -/
theorem ClassRecords.read_eq : @ClassRecords.read = @OpenType.context.ClassRecords.read := by
  delta ClassRecords.read OpenType.context.ClassRecords.read
  simp only [ClassRecord.read_eq] <;> rfl
end context

namespace context
/-- `src/layout/context.rs:41-66`. -/
def Context2.read : Reader context.Context2 := do
  let position ← position
  let format ← u16
  let coverage_offset ← u16
  let class_offset ← u16
  let record_count ← u16
  let record_offsets ← takeVec u16 record_count
  let coverage ← jumpTake position coverage_offset Generated.coverage.Coverage.read
  let class_ ← jumpTake position class_offset Generated.class_.Class.read
  let records ← jumpTakeMaybeN position record_count record_offsets ClassRecords.read
  return { format, coverage_offset, class_offset, record_count, record_offsets, coverage, class_, records }

/-- The model of `src/layout/context.rs:41-66` is its translation. -/
theorem Context2.read_eq : @Context2.read = @OpenType.context.Context2.read := by
  delta Context2.read OpenType.context.Context2.read
  simp only [ClassRecords.read_eq, Generated.class_.Class.read_eq, Generated.coverage.Coverage.read_eq] <;> rfl
end context

namespace context
/-- `src/layout/context.rs:68-88`. -/
def Context3.read : Reader context.Context3 := do
  let position ← position
  let format ← u16
  let glyph_count ← u16
  let action_count ← u16
  let coverage_offsets ← takeVec u16 glyph_count
  let actions ← takeVec Action.read action_count
  let coverages ← jumpTakeN position glyph_count coverage_offsets Generated.coverage.Coverage.read
  return { format, glyph_count, action_count, coverage_offsets, actions, coverages }

/-- The model of `src/layout/context.rs:68-88` is its translation. -/
theorem Context3.read_eq : @Context3.read = @OpenType.context.Context3.read := by
  delta Context3.read OpenType.context.Context3.read
  simp only [Action.read_eq, Generated.coverage.Coverage.read_eq] <;> rfl
end context

namespace context
/-- `src/layout/context.rs:378-387`. -/
def Context.read : Reader context.Context := do
  let t1 ← peek u16
  match t1 with
  | 1 => do
      let t2 ← Context1.read
      pure (.format1 t2)
  | 2 => do
      let t3 ← Context2.read
      pure (.format2 t3)
  | 3 => do
      let t4 ← Context3.read
      pure (.format3 t4)
  | value => raise ⟨"found an unknown format of the context table", [value]⟩

/-- The model of `src/layout/context.rs:378-387` is its translation. -/
theorem Context.read_eq : @Context.read = @OpenType.context.Context.read := by
  delta Context.read OpenType.context.Context.read
  simp only [Context1.read_eq, Context2.read_eq, Context3.read_eq] <;> rfl
end context

namespace context
/-- `src/layout/context.rs:273-303`. -/
def ChainedRecord.read : Reader context.ChainedRecord := do
  let backward_glyph_count ← u16
  let backward_glyph_ids ← takeVec u16 backward_glyph_count
  let glyph_count ← u16
  raiseIf (glyph_count = 0) "found a malformed chained context record"
  let t2 ← subUint glyph_count 1
  let glyph_ids ← takeVec u16 t2
  let forward_glyph_count ← u16
  let forward_glyph_ids ← takeVec u16 forward_glyph_count
  let action_count ← u16
  let actions ← takeVec Action.read action_count
  return { backward_glyph_count, backward_glyph_ids, glyph_count, glyph_ids, forward_glyph_count, forward_glyph_ids, action_count, actions }

/-- The model of `src/layout/context.rs:273-303` is its translation. -/
theorem ChainedRecord.read_eq : @ChainedRecord.read = @OpenType.context.ChainedRecord.read := by
  delta ChainedRecord.read OpenType.context.ChainedRecord.read
  simp only [Action.read_eq] <;> rfl
end context

namespace context
/-- `src/layout/context.rs:305-319`. -/
def ChainedRecords.read : Reader context.ChainedRecords := do
  let position ← position
  let count ← u16
  let offsets ← takeVec u16 count
  let records ← jumpTakeN position count offsets ChainedRecord.read
  return { count, offsets, records }

/-- The model of `src/layout/context.rs:305-319` is its translation. -/
theorem ChainedRecords.read_eq : @ChainedRecords.read = @OpenType.context.ChainedRecords.read := by
  delta ChainedRecords.read OpenType.context.ChainedRecords.read
  simp only [ChainedRecord.read_eq] <;> rfl
end context

namespace context
/-- `src/layout/context.rs:101-121`. -/
def ChainedContext1.read : Reader context.ChainedContext1 := do
  let position ← position
  let format ← u16
  let coverage_offset ← u16
  let record_count ← u16
  let record_offsets ← takeVec u16 record_count
  let coverage ← jumpTake position coverage_offset Generated.coverage.Coverage.read
  let records ← jumpTakeN position record_count record_offsets ChainedRecords.read
  return { format, coverage_offset, record_count, record_offsets, coverage, records }

/-- The model of `src/layout/context.rs:101-121` is its translation. -/
theorem ChainedContext1.read_eq : @ChainedContext1.read = @OpenType.context.ChainedContext1.read := by
  delta ChainedContext1.read OpenType.context.ChainedContext1.read
  simp only [ChainedRecords.read_eq, Generated.coverage.Coverage.read_eq] <;> rfl
end context

namespace context
/-- `src/layout/context.rs:321-351`. -/
def ChainedClassRecord.read : Reader context.ChainedClassRecord := do
  let backward_glyph_count ← u16
  let backward_indices ← takeVec u16 backward_glyph_count
  let glyph_count ← u16
  raiseIf (glyph_count = 0) "found a malformed chained class context record"
  let t2 ← subUint glyph_count 1
  let indices ← takeVec u16 t2
  let forward_glyph_count ← u16
  let forward_indices ← takeVec u16 forward_glyph_count
  let action_count ← u16
  let actions ← takeVec Action.read action_count
  return { backward_glyph_count, backward_indices, glyph_count, indices, forward_glyph_count, forward_indices, action_count, actions }

/-- The model of `src/layout/context.rs:321-351` is its translation. -/
theorem ChainedClassRecord.read_eq : @ChainedClassRecord.read = @OpenType.context.ChainedClassRecord.read := by
  delta ChainedClassRecord.read OpenType.context.ChainedClassRecord.read
  simp only [Action.read_eq] <;> rfl
end context

namespace context
/-- `src/layout/context.rs:353-367`. -/
def ChainedClassRecords.read : Reader context.ChainedClassRecords := do
  let position ← position
  let count ← u16
  let offsets ← takeVec u16 count
  let records ← jumpTakeN position count offsets ChainedClassRecord.read
  return { count, offsets, records }

/-- The model of `src/layout/context.rs:353-367` is its translation. -/
theorem ChainedClassRecords.read_eq : @ChainedClassRecords.read = @OpenType.context.ChainedClassRecords.read := by
  delta ChainedClassRecords.read OpenType.context.ChainedClassRecords.read
  simp only [ChainedClassRecord.read_eq] <;> rfl
end context

namespace context
/-- `src/layout/context.rs:123-158`. -/
def ChainedContext2.read : Reader context.ChainedContext2 := do
  let position ← position
  let format ← u16
  let coverage_offset ← u16
  let backward_class_offset ← u16
  let class_offset ← u16
  let forward_class_offset ← u16
  let record_count ← u16
  let record_offsets ← takeVec u16 record_count
  let coverage ← jumpTake position coverage_offset Generated.coverage.Coverage.read
  let backward_class ← jumpTake position backward_class_offset Generated.class_.Class.read
  let class_ ← jumpTake position class_offset Generated.class_.Class.read
  let forward_class ← jumpTake position forward_class_offset Generated.class_.Class.read
  let records ← jumpTakeMaybeN position record_count record_offsets ChainedClassRecords.read
  return { format, coverage_offset, backward_class_offset, class_offset, forward_class_offset, record_count, record_offsets, coverage, backward_class, class_, forward_class, records }

/-- The model of `src/layout/context.rs:123-158` is its translation. -/
theorem ChainedContext2.read_eq : @ChainedContext2.read = @OpenType.context.ChainedContext2.read := by
  delta ChainedContext2.read OpenType.context.ChainedContext2.read
  simp only [ChainedClassRecords.read_eq, Generated.class_.Class.read_eq, Generated.coverage.Coverage.read_eq] <;> rfl
end context

namespace context
/-- `src/layout/context.rs:160-201`. -/
def ChainedContext3.read : Reader context.ChainedContext3 := do
  let position ← position
  let format ← u16
  let backward_glyph_count ← u16
  let backward_coverage_offsets ← takeVec u16 backward_glyph_count
  let glyph_count ← u16
  let coverage_offsets ← takeVec u16 glyph_count
  let forward_glyph_count ← u16
  let forward_coverage_offsets ← takeVec u16 forward_glyph_count
  let action_count ← u16
  let actions ← takeVec Action.read action_count
  let backward_coverages ← jumpTakeN position backward_glyph_count backward_coverage_offsets Generated.coverage.Coverage.read
  let coverages ← jumpTakeN position glyph_count coverage_offsets Generated.coverage.Coverage.read
  let forward_coverages ← jumpTakeN position forward_glyph_count forward_coverage_offsets Generated.coverage.Coverage.read
  return { format, backward_glyph_count, backward_coverage_offsets, glyph_count, coverage_offsets, forward_glyph_count, forward_coverage_offsets, action_count, actions, backward_coverages, coverages, forward_coverages }

/-- The model of `src/layout/context.rs:160-201` is its translation. -/
theorem ChainedContext3.read_eq : @ChainedContext3.read = @OpenType.context.ChainedContext3.read := by
  delta ChainedContext3.read OpenType.context.ChainedContext3.read
  simp only [Action.read_eq, Generated.coverage.Coverage.read_eq] <;> rfl
end context

namespace context
/-- `src/layout/context.rs:389-400`. -/
def ChainedContext.read : Reader context.ChainedContext := do
  let t1 ← peek u16
  match t1 with
  | 1 => do
      let t2 ← ChainedContext1.read
      pure (.format1 t2)
  | 2 => do
      let t3 ← ChainedContext2.read
      pure (.format2 t3)
  | 3 => do
      let t4 ← ChainedContext3.read
      pure (.format3 t4)
  | value => raise ⟨"found an unknown format of the chained context table", [value]⟩

/-- The model of `src/layout/context.rs:389-400` is its translation. -/
theorem ChainedContext.read_eq : @ChainedContext.read = @OpenType.context.ChainedContext.read := by
  delta ChainedContext.read OpenType.context.ChainedContext.read
  simp only [ChainedContext1.read_eq, ChainedContext2.read_eq, ChainedContext3.read_eq] <;> rfl
end context

end OpenType.Generated
