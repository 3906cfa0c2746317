import Verif.Proof.Run
/-!
# The equations between what the source is translated to and the primitives of the model

The modules in `Verif/Generated` are translated from the source by `tools/translate.py`. Where the model is written
differently, the theorems of those modules use the equations below.
-/

namespace OpenType.Generated

/-- The offsets `i => headers[i].offset` of `jump_take!` are those of the list of all offsets. -/
theorem forFrom_index {α β : Type} (f : β → Nat) (base count : Nat) (xs : List β) (r : Reader α) :
    forFrom (fun i => do
      let x ← index xs i
      jumpTake base (f x) r) 0 count = jumpTakeN base count (xs.map f) r := by
  unfold jumpTakeN
  congr 1
  funext i
  unfold index
  rw [List.getElem?_map]
  cases xs[i]? <;> rfl

end OpenType.Generated
