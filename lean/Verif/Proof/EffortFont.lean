import Verif.Proof.EffortTables
/-! # How much work it takes to take a table, whatever the outcome -/

namespace OpenType
open Spec

/-- The words of a table are as many as there are bytes at most, and one that fails. -/
theorem operations_sumWords_all {skip : Nat → Bool} {i n : Nat} (d : Data) (p : Nat) :
    (sumWords skip i n).operations d p ≤ d.length - p + 1 := by
  induction n generalizing i p with
  | zero => exact Nat.zero_le _
  | succ n ih =>
    unfold sumWords
    rw [operations_bind]
    have h1 := operations_u32 d p
    split
    · next a q e =>
      have h3 := (inferInstance : Advances u32).advances _ _ _ _ e
      rw [operations_bind]
      have h2 := ih (i := i + 1) q
      split
      · show _ + (_ + 0) ≤ _
        omega
      · omega
    · omega

instance {skip : Nat → Bool} {i n : Nat} : Costs (sumWords skip i n) 0 1 1 := ⟨fun {d} _ hB _ p => by
  have := operations_sumWords_all (skip := skip) (i := i) (n := n) d p
  rw [Nat.pow_one]
  omega⟩

instance {record : offsets.Record} : Costs (tableChecksum record) 0 4 1 := ⟨fun hB _ => by
  unfold tableChecksum
  refine effort_stay' (c := 2) ?_ (by omega)
  refine effort_known hB (Nat.zero_le _) (by decide) (by decide) fun _ => ?_
  exact effort_leaf hB (Nat.zero_le _) (by decide) (by decide)⟩

instance {cfg : Cfg} {tag : Tag} {records : List offsets.Record} :
    Costs (Font.positionIn cfg tableChecksum tag records) 0 5 1 := by
  induction records with
  | nil => exact ⟨fun _ _ => effort_pure⟩
  | cons record records ih => costs Font.positionIn

instance {α : Type} {cfg : Cfg} {font : Font} {table : TableType} {r : Reader α} {m c k : Nat} [Costs r m c k] :
    Costs (font.take cfg tableChecksum table r) m (c + 5) (max 1 k) := ⟨fun hB hm => by
  unfold Font.take Font.position
  refine effort_known hB (Nat.zero_le _) (by omega) (by omega) fun x => ?_
  split
  · refine effort_known hB hm (by omega) (by omega) fun _ => effort_pure
  · exact effort_pure⟩

end OpenType
