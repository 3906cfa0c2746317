import Verif.Proof.Tactic
import Verif.Spec.Layout
namespace OpenType
open Spec coverage class_ correction context

instance : Fixed coverage.Record.read IsCoverageRecord 6 where
  run := by
    intro d p v q hd
    layout_fixed coverage.Record.read IsCoverageRecord hd

instance : Parses Coverage1.read IsCoverage1 where
  reads := by
    intro d p v hd
    layout Coverage1.read IsCoverage1 hd
  bound h := h.1.bound

instance : Parses Coverage2.read IsCoverage2 where
  reads := by
    intro d p v hd
    layout Coverage2.read IsCoverage2 hd
  bound h := h.1.bound

instance : Parses Coverage.read IsCoverage where
  reads := by
    intro d p v hd
    layout_enum Coverage.read IsCoverage hd
  bound {d p v} h := by cases v <;> exact h.2.1.bound

instance : Fixed class_.Record.read IsClassRecord 6 where
  run := by
    intro d p v q hd
    layout_fixed class_.Record.read IsClassRecord hd

instance : Parses Class1.read IsClass1 where
  reads := by
    intro d p v hd
    layout Class1.read IsClass1 hd
  bound h := h.1.bound

instance : Parses Class2.read IsClass2 where
  reads := by
    intro d p v hd
    layout Class2.read IsClass2 hd
  bound h := h.1.bound

instance : Parses Class.read IsClass where
  reads := by
    intro d p v hd
    layout_enum Class.read IsClass hd
  bound {d p v} h := by cases v <;> exact h.2.1.bound

instance : Fixed Action.read IsAction 4 where
  run := by
    intro d p v q hd
    layout_fixed Action.read IsAction hd

instance : Parses context.Record.read IsRecord where
  reads := by
    intro d p v hd
    layout context.Record.read IsRecord hd
  bound h := h.1.bound

instance : Parses Records.read IsRecords where
  reads := by
    intro d p v hd
    layout Records.read IsRecords hd
  bound h := h.1.bound

instance : Parses ClassRecord.read IsContextClassRecord where
  reads := by
    intro d p v hd
    layout ClassRecord.read IsContextClassRecord hd
  bound h := h.1.bound

instance : Parses ClassRecords.read IsClassRecords where
  reads := by
    intro d p v hd
    layout ClassRecords.read IsClassRecords hd
  bound h := h.1.bound

instance : Parses ChainedRecord.read IsChainedRecord where
  reads := by
    intro d p v hd
    layout ChainedRecord.read IsChainedRecord hd
  bound h := h.1.bound

instance : Parses ChainedRecords.read IsChainedRecords where
  reads := by
    intro d p v hd
    layout ChainedRecords.read IsChainedRecords hd
  bound h := h.1.bound

instance : Parses ChainedClassRecord.read IsChainedClassRecord where
  reads := by
    intro d p v hd
    layout ChainedClassRecord.read IsChainedClassRecord hd
  bound h := h.1.bound

instance : Parses ChainedClassRecords.read IsChainedClassRecords where
  reads := by
    intro d p v hd
    layout ChainedClassRecords.read IsChainedClassRecords hd
  bound h := h.1.bound

instance : Parses Context1.read IsContext1 where
  reads := by
    intro d p v hd
    layout Context1.read IsContext1 hd
  bound h := h.1.bound

instance : Parses Context2.read IsContext2 where
  reads := by
    intro d p v hd
    layout Context2.read IsContext2 hd
  bound h := h.1.bound

instance : Parses Context3.read IsContext3 where
  reads := by
    intro d p v hd
    layout Context3.read IsContext3 hd
  bound h := h.1.bound

instance : Parses Context.read IsContext where
  reads := by
    intro d p v hd
    layout_enum Context.read IsContext hd
  bound {d p v} h := by cases v <;> exact h.2.1.bound

instance : Parses ChainedContext1.read IsChainedContext1 where
  reads := by
    intro d p v hd
    layout ChainedContext1.read IsChainedContext1 hd
  bound h := h.1.bound

instance : Parses ChainedContext2.read IsChainedContext2 where
  reads := by
    intro d p v hd
    layout ChainedContext2.read IsChainedContext2 hd
  bound h := h.1.bound

instance : Parses ChainedContext3.read IsChainedContext3 where
  reads := by
    intro d p v hd
    layout ChainedContext3.read IsChainedContext3 hd
  bound h := h.1.bound

instance : Parses ChainedContext.read IsChainedContext where
  reads := by
    intro d p v hd
    layout_enum ChainedContext.read IsChainedContext hd
  bound {d p v} h := by cases v <;> exact h.2.1.bound

end OpenType

namespace OpenType
open Spec correction

theorem deviceWordsTaken_eq (s e f : Nat) :
    ((1 <<< f) * (e - s + 1) + 16 - (1 <<< f) * (e - s + 1) % 16) >>> 4 = deviceWordsTaken s e f := by
  rw [Nat.one_shiftLeft, Nat.shiftRight_eq_div_pow]
  unfold deviceWordsTaken
  generalize 2 ^ f * (e - s + 1) = b
  omega

theorem deviceBits_lt {f n : Nat} (hf : f ≤ 3) (hn : n ≤ 65536) : (1 <<< f) * n ≤ 8 * 65536 := by
  refine Nat.mul_le_mul ?_ hn
  rw [Nat.one_shiftLeft]
  exact Nat.pow_le_pow_right (by decide) hf

instance : Parses Device.read IsDevice where
  reads := by
    intro d p v hd
    unfold Device.read
    reads_simp hd
    simp only [deviceWordsTaken_eq]
    unfold IsDevice
    constructor
    · rintro ⟨a, ha, b, hb, hab, f, hf, hf', -, -, -, -, -, ds, hds, rfl⟩
      exact ⟨ha, hb, hf, by dsimp only; omega, by dsimp only; omega, by dsimp only; omega, hds⟩
    · rintro ⟨ha, hb, hf, h1, h2, h3, hds⟩
      have := hb.lt
      have m := deviceBits_lt h3 (by omega : v.end_size - v.start_size + 1 ≤ 65536)
      exact ⟨_, ha, _, hb, by omega, _, hf, by omega, h1, by omega, by omega, by omega, by omega, _, hds, rfl⟩
  bound h := h.1.bound

instance : Fixed Variation.read IsVariation 6 where
  run := by
    intro d p v q hd
    layout_fixed Variation.read IsVariation hd

instance : Fixed peeked (fun d p x => U32 d p x.1 ∧ U16 d (p + 4) x.2) 6 where
  run := by
    intro d p v q hd
    simp only [peeked, run_bind, Fixed.run hd, run_pure]
    constructor
    · rintro ⟨a, _, ⟨ha, rfl⟩, b, _, ⟨hb, rfl⟩, rfl, rfl⟩; exact ⟨⟨ha, hb⟩, rfl⟩
    · rintro ⟨⟨ha, hb⟩, rfl⟩; exact ⟨_, _, ⟨ha, rfl⟩, _, _, ⟨hb, rfl⟩, rfl, rfl⟩

instance : Parses Correction.read IsCorrection where
  reads := by
    intro d p v hd
    unfold Correction.read
    rw [reads_bind_peek hd]
    constructor
    · rintro ⟨⟨x, f⟩, ⟨-, hf⟩, h⟩
      dsimp only at hf h
      split at h
      · reads_simp hd at h
        obtain ⟨t, ht, rfl⟩ := h
        exact ht
      · split at h
        · reads_simp hd at h
          obtain ⟨t, ht, rfl⟩ := h
          exact And.intro (by rw [ht.2.2.unique hf]; assumption) ht
        · reads_simp hd at h
    · intro h
      cases v with
      | device t =>
        have h : IsDevice d p t := h
        obtain ⟨a, b, h1, h2, h3⟩ : ∃ a b, U16 d p a ∧ U16 d (p + 2) b ∧ U16 d (p + 4) t.format :=
          ⟨_, _, h.1, h.2.1, h.2.2.1⟩
        refine ⟨(65536 * a + b, t.format), ⟨⟨a, b, h1, h2, rfl⟩, h3⟩, ?_⟩
        dsimp only
        rw [if_pos ⟨h.2.2.2.2.1, h.2.2.2.2.2.1⟩]
        reads_simp hd
        exact ⟨_, h, rfl⟩
      | variation t =>
        have h : t.format = 0x8000 ∧ IsVariation d p t := h
        obtain ⟨a, b, h1, h2, h3⟩ : ∃ a b, U16 d p a ∧ U16 d (p + 2) b ∧ U16 d (p + 4) t.format :=
          ⟨_, _, h.2.1, h.2.2.1, h.2.2.2⟩
        refine ⟨(65536 * a + b, t.format), ⟨⟨a, b, h1, h2, rfl⟩, h3⟩, ?_⟩
        dsimp only
        rw [if_neg (by omega), if_pos h.1]
        reads_simp hd
        exact ⟨_, h.2, rfl⟩
  bound {d p v} h := by
    cases v with
    | device t => exact h.1.bound
    | variation t => exact h.2.1.bound

end OpenType
