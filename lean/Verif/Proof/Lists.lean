import Verif.Proof.Tactic
import Verif.Spec.Lists
/-! # Script, language, feature and lookup lists and the directory against their layout -/
namespace OpenType
open Spec script feature lookup directory

instance : Fixed language.Header.read IsLanguageHeader 6 where
  run := by
    intro d p v q hd
    layout_fixed language.Header.read IsLanguageHeader hd

instance : Parses language.Record.read IsLanguageRecord where
  reads := by
    intro d p v hd
    layout language.Record.read IsLanguageRecord hd
  bound h := h.1.bound

instance : Fixed script.Header.read IsScriptHeader 6 where
  run := by
    intro d p v q hd
    layout_fixed script.Header.read IsScriptHeader hd

theorem mapOffset {α : Type} {S : Nat → α → Prop} {k p n : Nat} {xs : List α} (f : α → Nat)
    (h : ArrayOf S k p n xs) : (xs.map f).length = n := by rw [List.length_map]; exact h.1

instance : Parses script.Record.read IsScriptRecord where
  reads := by
    intro d p v hd
    unfold script.Record.read IsScriptRecord
    reads_simp hd
    constructor
    · rintro ⟨a, ha, b, hb, c, hc, x, hx, y, hy, rfl⟩
      exact ⟨ha, hb, hc, hx, (Jumped.iff hd (mapOffset _ hc)).mp hy⟩
    · rintro ⟨ha, hb, hc, hx, hy⟩
      exact ⟨_, ha, _, hb, _, hc, _, hx, _, (Jumped.iff hd (mapOffset _ hc)).mpr hy, rfl⟩
  bound h := h.1.bound

instance : Parses Scripts.read IsScripts where
  reads := by
    intro d p v hd
    unfold Scripts.read IsScripts
    reads_simp hd
    constructor
    · rintro ⟨b, hb, c, hc, y, hy, rfl⟩
      exact ⟨hb, hc, (Jumped.iff hd (mapOffset _ hc)).mp hy⟩
    · rintro ⟨hb, hc, hy⟩
      exact ⟨_, hb, _, hc, _, (Jumped.iff hd (mapOffset _ hc)).mpr hy, rfl⟩
  bound h := h.1.bound

instance : Fixed feature.Header.read IsFeatureHeader 6 where
  run := by
    intro d p v q hd
    layout_fixed feature.Header.read IsFeatureHeader hd

theorem reads_takeParameters {d : Data} {p b o : Nat} (h : b + o < 2 ^ 64) {v} :
    Reads (takeParameters b o) d p v ↔ v = if o = 0 then none else some [] := by
  unfold takeParameters
  split
  · rename_i ho
    rw [if_neg (by omega)]
    simp only [Reads, run_bind, run_addU64, jump, takeBytes, takeVec, run_pure]
    constructor
    · rintro ⟨_, _, _, _, _, _, _, _, _, ⟨rfl, _⟩, rfl, _⟩; rfl
    · rintro rfl; exact ⟨_, _, _, ⟨h, rfl, rfl⟩, _, _, rfl, _, _, ⟨rfl, rfl⟩, rfl, rfl⟩
  · rw [if_pos (by omega), reads_pure]

instance {b o : Nat} : Indep (takeParameters b o) where
  indep := by
    intro d p p' v
    unfold takeParameters
    split
    · simp only [Reads, run_bind, run_addU64, jump, takeBytes, takeVec, run_pure]
      rintro ⟨_, _, _, ⟨h, _, _⟩, _, _, _, _, _, ⟨rfl, _⟩, rfl, _⟩
      exact ⟨_, _, _, ⟨h, rfl, rfl⟩, _, _, rfl, _, _, ⟨rfl, rfl⟩, rfl, rfl⟩
    · simp [reads_pure]

instance : Parses feature.Record.read IsFeatureRecord where
  reads := by
    intro d p v hd
    unfold feature.Record.read IsFeatureRecord
    reads_simp hd
    constructor
    · rintro ⟨a, ha, b, hb, c, hc, y, hy, rfl⟩
      have := ha.bound; have := ha.lt
      have h64 : p + a < 2 ^ 64 := by unfold Fits at hd; omega
      exact ⟨ha, hb, hc, (reads_takeParameters h64).mp hy⟩
    · rintro ⟨ha, hb, hc, hy⟩
      have := ha.bound; have := ha.lt
      exact ⟨_, ha, _, hb, _, hc, _, (reads_takeParameters (by unfold Fits at hd; omega)).mpr hy, rfl⟩
  bound h := h.1.bound

instance : Parses Variations.read IsVariations where
  reads := by
    intro d p v hd
    layout Variations.read IsVariations hd
  bound h := h.1.bound

instance : Parses Features.read IsFeatures where
  reads := by
    intro d p v hd
    unfold Features.read IsFeatures
    reads_simp hd
    constructor
    · rintro ⟨b, hb, c, hc, y, hy, rfl⟩
      exact ⟨hb, hc, (Jumped.iff hd (mapOffset _ hc)).mp hy⟩
    · rintro ⟨hb, hc, hy⟩
      exact ⟨_, hb, _, hc, _, (Jumped.iff hd (mapOffset _ hc)).mpr hy, rfl⟩
  bound h := h.1.bound

theorem flag_two_pow (x k : Nat) : flag x (2 ^ k) = x.testBit k := by
  unfold flag
  rw [Bool.eq_iff_iff, decide_eq_true_iff]
  constructor
  · intro h
    refine Decidable.byContradiction fun hk => ?_
    have : x &&& 2 ^ k = 0 := by
      apply Nat.eq_of_testBit_eq
      intro i
      rw [Nat.testBit_and, Nat.testBit_two_pow, Nat.zero_testBit]
      by_cases hi : k = i
      · subst hi; simp_all
      · simp [hi]
    omega
  · intro h
    apply Nat.pos_of_ne_zero
    intro h0
    have := congrArg (fun n => n.testBit k) h0
    simp [Nat.testBit_and, h] at this

theorem has_mark_filtering_eq (x : Nat) : has_mark_filtering x = x.testBit 4 := flag_two_pow x 4

theorem takeIf_iff_markFilteringSet {d : Data} {p f : Nat} {x : Option Nat} :
    TakenIf (has_mark_filtering f) (U16 d p) x ↔ IsMarkFilteringSet d p f x := by
  rw [has_mark_filtering_eq]
  unfold IsMarkFilteringSet TakenIf
  cases f.testBit 4 <;> cases x <;> simp

instance {T : Type} {cfg : Cfg} {readTable : Nat → Reader T} {S : Nat → Data → Nat → T → Prop}
    [h : ∀ t, Parses (readTable t) (S t)] :
    Parses (lookup.Record.read cfg readTable) (IsLookupRecord cfg S) where
  reads := by
    intro d p v hd
    unfold lookup.Record.read IsLookupRecord
    reads_simp hd
    constructor
    · rintro ⟨a, ha, b, hb, c, hc, e, he, f, hf, y, hy, rfl⟩
      exact ⟨ha, hb.1, hb.2, hc, he, takeIf_iff_markFilteringSet.mp hf, (Jumped.iff hd he.1).mp hy⟩
    · rintro ⟨ha, hb, hb', hc, he, hf, hy⟩
      exact ⟨_, ha, _, ⟨hb, hb'⟩, _, hc, _, he, _, takeIf_iff_markFilteringSet.mpr hf, _,
        (Jumped.iff hd he.1).mpr hy, rfl⟩
  bound h := h.1.bound

instance {T : Type} {cfg : Cfg} {readTable : Nat → Reader T} {S : Nat → Data → Nat → T → Prop}
    [h : ∀ t, Parses (readTable t) (S t)] :
    Parses (Lookups.read cfg readTable) (IsLookups cfg S) where
  reads := by
    intro d p v hd
    layout Lookups.read IsLookups hd
  bound h := h.1.bound

instance {α : Type} {cfg : Cfg} {b o : Nat} {r : Reader α} {e : α} : Indep (part cfg b o r e) := by
  unfold part; infer_instance

theorem reads_part {α : Type} {cfg : Cfg} {b o : Nat} {r : Reader α} {e : α} {S} [h : Parses r S]
    {d : Data} (hd : Fits d) {p : Nat} {v : α} :
    Reads (part cfg b o r e) d p v ↔ IsPart cfg (S d) b o e v := by
  unfold part IsPart
  split
  · rename_i hc
    simp only [hc, true_and]
    rw [reads_bind_indep]
    simp only [reads_jumpTakeMaybe hd, reads_pure]
    constructor
    · rintro ⟨x, hx, rfl⟩
      cases x with
      | none => rw [if_pos (show o = 0 from hx)]; rfl
      | some y => rw [if_neg hx.1]; exact hx.2
    · split
      · rename_i ho
        rintro rfl; exact ⟨none, ho, rfl⟩
      · rename_i ho
        intro hv; exact ⟨some v, ⟨ho, hv⟩, rfl⟩
  · rename_i hc
    rw [if_neg (by simp [hc]), reads_jumpTake hd]

instance {a b : Nat} : Fixed (variationOffset a b) (fun d p x =>
    if a = 1 ∧ b = 1 then U32 d p x else x = 0) (if a = 1 ∧ b = 1 then 4 else 0) where
  run := by
    intro d p v q hd
    unfold variationOffset
    simp only [Prod.mk.injEq]
    split
    · exact Fixed.run hd
    · simp

instance {T : Type} {cfg : Cfg} {readTable : Nat → Reader T} {S : Nat → Data → Nat → T → Prop}
    [h : ∀ t, Parses (readTable t) (S t)] :
    Parses (Directory.read cfg readTable) (IsDirectory cfg S) where
  reads := by
    intro d p v hd
    unfold Directory.read IsDirectory
    reads_simp hd
    simp only [reads_part hd, Decidable.not_not, Prod.mk.injEq]
    constructor
    · rintro ⟨a, ha, b, hb, hv, s, hs, f, hf, l, hl, o, ho, s', hs', f', hf', l', hl', v', hv', rfl⟩
      refine ⟨ha, hb, by dsimp only; omega, by dsimp only; omega, hs, hf, hl, ?_, hs', hf', hl', hv'⟩
      have : (a = 1 ∧ b = 1) ↔ b = 1 := by omega
      simpa only [this] using ho
    · rintro ⟨ha, hb, hv, hv1, hs, hf, hl, ho, hs', hf', hl', hv'⟩
      refine ⟨_, ha, _, hb, by omega, _, hs, _, hf, _, hl, v.variation_offset, ?_, _, hs', _, hf', _, hl',
        _, hv', rfl⟩
      have : (v.major_version = 1 ∧ v.minor_version = 1) ↔ v.minor_version = 1 := by omega
      simpa only [this] using ho
  bound h := h.1.bound

end OpenType
