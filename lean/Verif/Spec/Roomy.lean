import Verif.Spec.Work
/-!
# Specification: the subtables of GPOS whose cells take up room

A pair adjustment in format 2 is a matrix. Its rows are empty when there are no second classes, and its cells are
when neither of the flags asks for a value.
-/

namespace OpenType.Spec
open OpenType

/-- The matrix of `t` takes up room in the file: there are no rows, or there are cells and they have values. -/
def HasRoom : gpos.PairAdjustment → Prop
  | .format1 _ => True
  | .format2 t => t.class1_count = 0 ∨ (t.class2_count ≠ 0 ∧ (t.value1_flags ≠ 0 ∨ t.value2_flags ≠ 0))

/-- `t` is not a matrix that takes up no room. -/
def Roomy : gpos.Type_ → Prop
  | .pairAdjustment t => HasRoom t
  | _ => True

instance : DecidablePred HasRoom := fun t => by
  cases t <;> (unfold HasRoom; infer_instance)

instance : DecidablePred Roomy := fun t => by
  cases t <;> (unfold Roomy; infer_instance)

end OpenType.Spec
