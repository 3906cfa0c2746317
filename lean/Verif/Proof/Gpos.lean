import Verif.Proof.Layout
import Verif.Proof.Lists
import Verif.Spec.Gpos
/-! # The glyph positioning table against its layout -/
namespace OpenType.gpos
open Spec Spec.gpos

instance : Parses Anchor1.read IsAnchor1 where
  reads := by
    intro d p v hd
    layout Anchor1.read IsAnchor1 hd
  bound h := h.1.bound

instance : Parses Anchor2.read IsAnchor2 where
  reads := by
    intro d p v hd
    layout Anchor2.read IsAnchor2 hd
  bound h := h.1.bound

instance : Parses Anchor3.read IsAnchor3 where
  reads := by
    intro d p v hd
    layout Anchor3.read IsAnchor3 hd
  bound h := h.1.bound

instance : Parses Anchor.read IsAnchor where
  reads := by
    intro d p v hd
    layout_enum Anchor.read IsAnchor hd
  bound {d p v} h := by cases v <;> exact h.2.1.bound

/-! ## Value records -/

theorem takenIf_iff_isField {α : Type} {S : Nat → α → Prop} {f p k : Nat} {x : Option α} {b : Bool}
    (hb : b = f.testBit k) {q : Nat} (hq : q = p + 2 * bitsBelow f k) :
    TakenIf b (S q) x ↔ IsField S f p k x := by
  subst hb hq
  unfold TakenIf IsField
  cases f.testBit k <;> cases x <;> simp

theorem bitsBelow_step {f k p : Nat} {b : Bool} (hb : b = f.testBit k) {q : Nat}
    (hq : q = p + 2 * bitsBelow f k) :
    q + (if b = true then 2 else 0) = p + 2 * bitsBelow f (k + 1) := by
  subst hb hq
  rw [bitsBelow]
  split <;> omega

instance {b : Nat} {o : Option Nat} : Indep (takeCorrection b o) := by
  unfold takeCorrection
  split <;> infer_instance

theorem reads_takeCorrection {d : Data} (hd : Fits d) {p b : Nat} {o : Option Nat} {v} :
    Reads (takeCorrection b o) d p v ↔ IsCorrectionOf d b o v := by
  unfold takeCorrection IsCorrectionOf
  cases o with
  | none => exact reads_pure
  | some o => exact reads_jumpTakeMaybe hd

instance {b : Nat} {x y z w : Option Nat} : Gives (takeCorrections b x y z w) (fun d _ v =>
    IsCorrectionOf d b x v.1 ∧ IsCorrectionOf d b y v.2.1 ∧ IsCorrectionOf d b z v.2.2.1 ∧
      IsCorrectionOf d b w v.2.2.2) where
  reads := by
    intro d p v hd
    unfold takeCorrections
    simp only [reads_bind_indep, reads_takeCorrection hd, reads_pure]
    constructor
    · rintro ⟨_, h1, _, h2, _, h3, _, h4, rfl⟩; exact ⟨h1, h2, h3, h4⟩
    · rintro ⟨h1, h2, h3, h4⟩; exact ⟨_, h1, _, h2, _, h3, _, h4, rfl⟩

instance {b f : Nat} : Fixed (Single.read b f) (IsSingle b f) (valueSize f) where
  run := by
    intro d p v q hd
    have b0 : has_x_placement f = f.testBit 0 := flag_two_pow f 0
    have b1 : has_y_placement f = f.testBit 1 := flag_two_pow f 1
    have b2 : has_x_advance f = f.testBit 2 := flag_two_pow f 2
    have b3 : has_y_advance f = f.testBit 3 := flag_two_pow f 3
    have b4 : has_x_placement_correction f = f.testBit 4 := flag_two_pow f 4
    have b5 : has_y_placement_correction f = f.testBit 5 := flag_two_pow f 5
    have b6 : has_x_advance_correction f = f.testBit 6 := flag_two_pow f 6
    have b7 : has_y_advance_correction f = f.testBit 7 := flag_two_pow f 7
    have p0 : p = p + 2 * bitsBelow f 0 := by simp [bitsBelow]
    have p1 := bitsBelow_step b0 p0
    have p2 := bitsBelow_step b1 p1
    have p3 := bitsBelow_step b2 p2
    have p4 := bitsBelow_step b3 p3
    have p5 := bitsBelow_step b4 p4
    have p6 := bitsBelow_step b5 p5
    have p7 := bitsBelow_step b6 p6
    have p8 := bitsBelow_step b7 p7
    unfold Single.read IsSingle
    simp only [run_bind, Fixed.run hd, run_pure]
    constructor
    · rintro ⟨_, _, ⟨h0, rfl⟩, _, _, ⟨h1, rfl⟩, _, _, ⟨h2, rfl⟩, _, _, ⟨h3, rfl⟩, _, _, ⟨h4, rfl⟩, _, _,
        ⟨h5, rfl⟩, _, _, ⟨h6, rfl⟩, _, _, ⟨h7, rfl⟩, _, _, ⟨⟨g0, g1, g2, g3⟩, rfl⟩, rfl, rfl⟩
      exact ⟨⟨(takenIf_iff_isField b0 p0).mp h0, (takenIf_iff_isField b1 p1).mp h1,
        (takenIf_iff_isField b2 p2).mp h2, (takenIf_iff_isField b3 p3).mp h3,
        (takenIf_iff_isField b4 p4).mp h4, (takenIf_iff_isField b5 p5).mp h5,
        (takenIf_iff_isField b6 p6).mp h6, (takenIf_iff_isField b7 p7).mp h7, g0, g1, g2, g3⟩, p8⟩
    · rintro ⟨⟨h0, h1, h2, h3, h4, h5, h6, h7, g0, g1, g2, g3⟩, rfl⟩
      exact ⟨_, _, ⟨(takenIf_iff_isField b0 p0).mpr h0, rfl⟩,
        _, _, ⟨(takenIf_iff_isField b1 p1).mpr h1, rfl⟩,
        _, _, ⟨(takenIf_iff_isField b2 p2).mpr h2, rfl⟩,
        _, _, ⟨(takenIf_iff_isField b3 p3).mpr h3, rfl⟩,
        _, _, ⟨(takenIf_iff_isField b4 p4).mpr h4, rfl⟩,
        _, _, ⟨(takenIf_iff_isField b5 p5).mpr h5, rfl⟩,
        _, _, ⟨(takenIf_iff_isField b6 p6).mpr h6, rfl⟩,
        _, _, ⟨(takenIf_iff_isField b7 p7).mpr h7, rfl⟩,
        (_, _, _, _), _, ⟨⟨g0, g1, g2, g3⟩, rfl⟩, rfl, p8.symm⟩

theorem valueSize_zero : valueSize 0 = 0 := by decide

instance {b f : Nat} : Fixed (takeValue b f) (IsValue b f) (valueSize f) where
  run := by
    intro d p v q hd
    unfold takeValue
    split
    · rename_i hf
      simp only [run_bind, Fixed.run hd, run_pure]
      constructor
      · rintro ⟨_, _, ⟨h, rfl⟩, rfl, rfl⟩; exact ⟨⟨by omega, h⟩, rfl⟩
      · rintro ⟨h, rfl⟩
        cases v with
        | none => have : f = 0 := h; omega
        | some t => exact ⟨_, _, ⟨h.2, rfl⟩, rfl, rfl⟩
    · rename_i hf
      have : f = 0 := by omega
      subst this
      rw [run_pure, valueSize_zero]
      cases v with
      | none => simp [IsValue]
      | some t => simp [IsValue]

/-! ## Pairs -/

instance {b f g : Nat} : Fixed (Pair1.read b f g) (IsPair1 b f g) (2 + valueSize f + valueSize g) where
  run := by
    intro d p v q hd
    layout_fixed Pair1.read IsPair1 hd

instance {f g : Nat} : Parses (Pair1s.read f g) (IsPair1s f g) where
  reads := by
    intro d p v hd
    layout Pair1s.read IsPair1s hd
  bound h := h.1.bound

instance {b f g : Nat} : Fixed (Pair2.read b f g) (IsPair2 b f g) (valueSize f + valueSize g) where
  run := by
    intro d p v q hd
    layout_fixed Pair2.read IsPair2 hd

instance {b n f g : Nat} : Fixed (Pair2s.read b n f g) (IsPair2s b n f g)
    ((valueSize f + valueSize g) * n) where
  run := by
    intro d p v q hd
    layout_fixed Pair2s.read IsPair2s hd

/-! ## Attachments -/

instance {b n : Nat} : Fixed (Base.read b n) (IsBase b n) (2 * n) where
  run := by
    intro d p v q hd
    layout_fixed Base.read IsBase hd

instance {n : Nat} : Parses (Bases.read n) (IsBases n) where
  reads := by
    intro d p v hd
    layout Bases.read IsBases hd
  bound h := h.1.bound

instance {b n : Nat} : Fixed (Component.read b n) (IsComponent b n) (2 * n) where
  run := by
    intro d p v q hd
    layout_fixed Component.read IsComponent hd

instance {b x y : Nat} : Gives (takeAnchors b x y) (fun d _ v =>
    Optional (IsAnchor d) b x v.1 ∧ Optional (IsAnchor d) b y v.2) where
  reads := by
    intro d p v hd
    unfold takeAnchors
    simp only [reads_bind_indep, reads_jumpTakeMaybe hd, reads_pure]
    constructor
    · rintro ⟨_, h1, _, h2, rfl⟩; exact ⟨h1, h2⟩
    · rintro ⟨h1, h2⟩; exact ⟨_, h1, _, h2, rfl⟩

instance {b : Nat} : Fixed (Connection.read b) (IsConnection b) 4 where
  run := by
    intro d p v q hd
    unfold Connection.read IsConnection
    simp only [run_bind, Fixed.run hd, run_pure]
    constructor
    · rintro ⟨_, _, ⟨h1, rfl⟩, _, _, ⟨h2, rfl⟩, _, _, ⟨⟨h3, h4⟩, rfl⟩, rfl, rfl⟩
      exact ⟨⟨h1, h2, h3, h4⟩, rfl⟩
    · rintro ⟨⟨h1, h2, h3, h4⟩, rfl⟩
      exact ⟨_, _, ⟨h1, rfl⟩, _, _, ⟨h2, rfl⟩, (_, _), _, ⟨⟨h3, h4⟩, rfl⟩, rfl, rfl⟩

instance {n : Nat} : Parses (Ligature.read n) (IsLigature n) where
  reads := by
    intro d p v hd
    layout Ligature.read IsLigature hd
  bound h := h.1.bound

instance {n : Nat} : Parses (Ligatures.read n) (IsLigatures n) where
  reads := by
    intro d p v hd
    layout Ligatures.read IsLigatures hd
  bound h := h.1.bound

instance {cfg : Cfg} {b o : Nat} : Fixed (takeMarkAnchor cfg b o)
    (fun d _ v => IsMarkAnchor cfg d b o v) 0 where
  run := by
    intro d p v q hd
    unfold takeMarkAnchor IsMarkAnchor
    split
    · rename_i hc
      simp only [hc, true_and]
      simp only [run_bind, Fixed.run hd, run_pure]
      constructor
      · rintro ⟨x, _, ⟨hx, rfl⟩, rfl, rfl⟩
        refine ⟨?_, rfl⟩
        cases x with
        | none => rw [if_pos (show o = 0 from hx)]; rfl
        | some y => rw [if_neg hx.1]; exact hx.2
      · rintro ⟨h, rfl⟩
        split at h
        · rename_i ho
          subst h; exact ⟨none, _, ⟨ho, rfl⟩, rfl, rfl⟩
        · rename_i ho
          exact ⟨some v, _, ⟨⟨ho, h⟩, rfl⟩, rfl, rfl⟩
    · rename_i hc
      rw [if_neg (by simp [hc])]
      exact Fixed.run (r := stay (jumpTake b o Anchor.read)) hd

instance {cfg : Cfg} {b : Nat} : Fixed (Mark1.read cfg b) (IsMark1 cfg b) 4 where
  run := by
    intro d p v q hd
    layout_fixed Mark1.read IsMark1 hd

instance {cfg : Cfg} : Parses (Mark1s.read cfg) (IsMark1s cfg) where
  reads := by
    intro d p v hd
    layout Mark1s.read IsMark1s hd
  bound h := h.1.bound

instance {b n : Nat} : Fixed (Mark2.read b n) (IsMark2 b n) (2 * n) where
  run := by
    intro d p v q hd
    layout_fixed Mark2.read IsMark2 hd

instance {n : Nat} : Parses (Mark2s.read n) (IsMark2s n) where
  reads := by
    intro d p v hd
    layout Mark2s.read IsMark2s hd
  bound h := h.1.bound

/-! ## Lookup subtables -/

instance {cfg : Cfg} : Fixed (Flags.read cfg) (fun d p x => U16 d p x ∧ FlagsOk cfg 0xFF00 x) 2 :=
  inferInstanceAs (Fixed (flagsU16 cfg 0xFF00) _ _)

instance {cfg : Cfg} : Parses (SingleAdjustment1.read cfg) (IsSingleAdjustment1 cfg) where
  reads := by
    intro d p v hd
    layout SingleAdjustment1.read IsSingleAdjustment1 hd
  bound h := h.1.bound

instance {cfg : Cfg} : Parses (SingleAdjustment2.read cfg) (IsSingleAdjustment2 cfg) where
  reads := by
    intro d p v hd
    layout SingleAdjustment2.read IsSingleAdjustment2 hd
  bound h := h.1.bound

instance {cfg : Cfg} : Parses (SingleAdjustment.read cfg) (IsSingleAdjustment cfg) where
  reads := by
    intro d p v hd
    layout_enum SingleAdjustment.read IsSingleAdjustment hd
  bound {d p v} h := by cases v <;> exact h.2.1.bound

instance {cfg : Cfg} : Parses (PairAdjustment1.read cfg) (IsPairAdjustment1 cfg) where
  reads := by
    intro d p v hd
    layout PairAdjustment1.read IsPairAdjustment1 hd
  bound h := h.1.bound

instance {cfg : Cfg} : Parses (PairAdjustment2.read cfg) (IsPairAdjustment2 cfg) where
  reads := by
    intro d p v hd
    layout PairAdjustment2.read IsPairAdjustment2 hd
  bound h := h.1.bound

instance {cfg : Cfg} : Parses (PairAdjustment.read cfg) (IsPairAdjustment cfg) where
  reads := by
    intro d p v hd
    layout_enum PairAdjustment.read IsPairAdjustment hd
  bound {d p v} h := by cases v <;> exact h.2.1.bound

instance : Parses CursiveAttachment.read IsCursive where
  reads := by
    intro d p v hd
    layout CursiveAttachment.read IsCursive hd
  bound h := h.1.bound

instance {cfg : Cfg} : Parses (MarkToBaseAttachment.read cfg) (IsMarkToBase cfg) where
  reads := by
    intro d p v hd
    layout MarkToBaseAttachment.read IsMarkToBase hd
  bound h := h.1.bound

instance {cfg : Cfg} : Parses (MarkToLigatureAttachment.read cfg) (IsMarkToLigature cfg) where
  reads := by
    intro d p v hd
    layout MarkToLigatureAttachment.read IsMarkToLigature hd
  bound h := h.1.bound

instance {cfg : Cfg} : Parses (MarkToMarkAttachment.read cfg) (IsMarkToMark cfg) where
  reads := by
    intro d p v hd
    layout MarkToMarkAttachment.read IsMarkToMark hd
  bound h := h.1.bound

instance : Parses ExtensionPositioning.read IsExtension where
  reads := by
    intro d p v hd
    layout ExtensionPositioning.read IsExtension hd
  bound h := h.1.bound

instance {cfg : Cfg} {type_ : Nat} : Parses (Type_.read cfg type_) (IsTable cfg type_) where
  reads := by
    intro d p v hd
    unfold Type_.read
    constructor
    · intro h
      split at h <;> reads_simp hd at h <;> first
        | exact h.elim
        | (obtain ⟨t, ht, rfl⟩ := h; exact ⟨rfl, ht⟩)
    · intro h
      cases v <;>
        (obtain ⟨rfl, h⟩ := h
         reads_simp hd
         exact ⟨_, h, rfl⟩)
  bound {d p v} h := by
    cases v <;> first
      | exact Parses.bound (r := SingleAdjustment.read cfg) h.2
      | exact Parses.bound (r := PairAdjustment.read cfg) h.2
      | exact Parses.bound (r := context.Context.read) h.2
      | exact Parses.bound (r := context.ChainedContext.read) h.2
      | exact h.2.1.bound

instance {cfg : Cfg} : Parses (GlyphPositioning.read cfg) (IsGlyphPositioning cfg) :=
  inferInstanceAs (Parses (directory.Directory.read cfg (Type_.read cfg)) (IsDirectory cfg (IsTable cfg)))

end OpenType.gpos
