import Verif.Proof.Tactic
import Verif.Spec.Item
/-! # Item variation stores against their layout -/
namespace OpenType
open Spec item

instance {cfg : Cfg} {a b : Nat} : Fixed (addU16 cfg a b) (fun _ _ n =>
    (cfg.overflowChecks = true → a + b < 65536) ∧ n = (a + b) % 65536) 0 where
  run := by
    intro d p v q hd
    unfold addU16
    split
    · rename_i h; rw [Nat.mod_eq_of_lt h]; simp [h]
    · rename_i h
      split
      · rename_i h'; simp [h, h']
      · rename_i h'; simp [h']

instance {cfg : Cfg} : Parses (item.Record.read cfg) (IsItemRecord cfg) where
  reads := by
    intro d p v hd
    unfold item.Record.read IsItemRecord deltasPerItem
    reads_simp hd
    constructor
    · rintro ⟨a, ha, b, hb, c, hc, x, hx, n, hn, -, y, hy, rfl⟩
      exact ⟨ha, hb, hc, hx, n, hn, hy⟩
    · rintro ⟨ha, hb, hc, hx, n, hn, hy⟩
      have h1 := ha.lt
      have h2 : n < 65536 := by rw [hn.2]; exact Nat.mod_lt _ (by decide)
      have : v.item_count * n ≤ 65535 * 65535 := Nat.mul_le_mul (by omega) (by omega)
      exact ⟨_, ha, _, hb, _, hc, _, hx, n, hn, by omega, _, hy, rfl⟩
  bound h := h.1.bound

instance {cfg : Cfg} : Parses (Store.read cfg) (IsStore cfg) where
  reads := by
    intro d p v hd
    layout Store.read IsStore hd
  bound h := h.1.bound

end OpenType
