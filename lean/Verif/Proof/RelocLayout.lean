import Verif.Proof.Reloc
import Verif.Model.Layout
namespace OpenType
open coverage class_ correction context
variable {e : Prop}

attribute [local irreducible] u8 u16 u32 i16 q32 takeTag takeVec takeIf expectU16 flagsU16 jumpTake
  jumpTakeMaybe jumpTakeN jumpTakeMaybeN raiseIf position stay raise

instance : Reloc e coverage.Record.read (fun _ => True) := by reloc coverage.Record.read
instance : Reloc e Coverage1.read (fun _ => True) := by reloc Coverage1.read
instance : Reloc e Coverage2.read (fun _ => True) := by reloc Coverage2.read
instance : Reloc e Coverage.read (fun _ => True) := by reloc_enum Coverage.read
instance : Reloc e class_.Record.read (fun _ => True) := by reloc class_.Record.read
instance : Reloc e Class1.read (fun _ => True) := by reloc Class1.read
instance : Reloc e Class2.read (fun _ => True) := by reloc Class2.read
instance : Reloc e Class.read (fun _ => True) := by reloc_enum Class.read
instance : Reloc e Device.read (fun _ => True) := by
  constructor
  intro d D k hx hD p
  unfold Device.read
  refine good_bind (good_u16 hx hD) fun a _ ⟨_, _⟩ => ?_
  refine good_bind (good_u16 hx hD) fun b _ ⟨_, _⟩ => ?_
  refine good_bind good_raiseIf fun _ _ _ => ?_
  refine good_bind (good_u16 hx hD) fun f _ ⟨_, _⟩ => ?_
  refine good_bind good_raiseIf fun _ _ _ => ?_
  refine good_subUint (by omega) ?_
  refine good_addUsize (by omega) ?_
  have m : (1 <<< f) * (b - a + 1) ≤ 8 * 65536 := by
    refine Nat.mul_le_mul ?_ (by omega)
    rw [Nat.one_shiftLeft]
    exact Nat.pow_le_pow_right (by decide) (by omega : f ≤ 3)
  refine good_mulUsize (by omega) ?_
  refine good_addUsize (by omega) ?_
  refine good_subUint (by omega) ?_
  repeat good_step hx hD
instance : Reloc e Variation.read (fun _ => True) := by reloc Variation.read
instance : Reloc e peeked (fun _ => True) := by reloc peeked
instance : Reloc e Correction.read (fun _ => True) := by
  constructor
  intro d D k hx hD p
  unfold Correction.read
  refine good_bind (good_stay (Reloc.good hx hD _)) fun _ _ _ => ?_
  dsimp only
  split
  repeat good_step hx hD
  split <;> repeat good_step hx hD
instance : Reloc e Action.read (fun _ => True) := by reloc Action.read
instance : Reloc e context.Record.read (fun _ => True) := by reloc context.Record.read
instance : Reloc e Records.read (fun _ => True) := by reloc Records.read
instance : Reloc e context.ClassRecord.read (fun _ => True) := by reloc context.ClassRecord.read
instance : Reloc e ClassRecords.read (fun _ => True) := by reloc ClassRecords.read
instance : Reloc e ChainedRecord.read (fun _ => True) := by reloc ChainedRecord.read
instance : Reloc e ChainedRecords.read (fun _ => True) := by reloc ChainedRecords.read
instance : Reloc e ChainedClassRecord.read (fun _ => True) := by reloc ChainedClassRecord.read
instance : Reloc e ChainedClassRecords.read (fun _ => True) := by reloc ChainedClassRecords.read
instance : Reloc e Context1.read (fun _ => True) := by reloc Context1.read
instance : Reloc e Context2.read (fun _ => True) := by reloc Context2.read
instance : Reloc e Context3.read (fun _ => True) := by reloc Context3.read
instance : Reloc e Context.read (fun _ => True) := by reloc_enum Context.read
instance : Reloc e ChainedContext1.read (fun _ => True) := by reloc ChainedContext1.read
instance : Reloc e ChainedContext2.read (fun _ => True) := by reloc ChainedContext2.read
instance : Reloc e ChainedContext3.read (fun _ => True) := by reloc ChainedContext3.read
instance : Reloc e ChainedContext.read (fun _ => True) := by reloc_enum ChainedContext.read

end OpenType
