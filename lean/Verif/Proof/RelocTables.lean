import Verif.Proof.RelocLayout
import Verif.Model.Item
import Verif.Model.Lists
import Verif.Model.Gsub
import Verif.Model.Gpos
import Verif.Model.Gdef
import Verif.Model.Cpal
import Verif.Model.Fvar
namespace OpenType
open coverage class_ correction context
variable {e : Prop}

attribute [local irreducible] u8 u16 u32 i16 q32 takeTag takeVec takeIf expectU16 flagsU16 jumpTake
  jumpTakeMaybe jumpTakeN jumpTakeMaybeN raiseIf position stay raise

/-! ## Item variation stores -/

theorem good_addU16 {cfg : Cfg} {d D : Data} {k a b p : Nat} :
    Good (cfg.overflowChecks = true) d D k (item.addU16 cfg a b) (item.addU16 cfg a b) p
      (fun n => n < 65536) := by
  unfold item.addU16
  split
  · rename_i h; exact good_pure h
  · split
    · rename_i h; exact ⟨h, rfl⟩
    · exact good_pure (Nat.mod_lt _ (by decide))

instance {cfg : Cfg} : Reloc (cfg.overflowChecks = true) (item.Record.read cfg) (fun _ => True) := by
  constructor
  intro d D k hx hD p
  unfold item.Record.read
  refine good_bind (good_u16 hx hD) fun a _ ⟨_, _⟩ => ?_
  good_step hx hD
  good_step hx hD
  good_step hx hD
  refine good_bind good_addU16 fun n _ _ => ?_
  have : a * n ≤ 65535 * 65535 := Nat.mul_le_mul (by omega) (by omega)
  refine good_mulUsize (by omega) ?_
  repeat good_step hx hD

instance {cfg : Cfg} : Reloc (cfg.overflowChecks = true) (item.Store.read cfg) (fun _ => True) := by
  reloc item.Store.read

/-! ## Lists -/

instance : Reloc e language.Header.read (fun t => t.offset < 65536) := by
  constructor
  intro d D k hx hD p
  unfold language.Header.read
  good_step hx hD
  good_step hx hD
  exact good_pure (by assumption)

instance : Reloc e script.Header.read (fun t => t.offset < 65536) := by
  constructor
  intro d D k hx hD p
  unfold script.Header.read
  good_step hx hD
  good_step hx hD
  exact good_pure (by assumption)

instance : Reloc e feature.Header.read (fun t => t.offset < 65536) := by
  constructor
  intro d D k hx hD p
  unfold feature.Header.read
  good_step hx hD
  good_step hx hD
  exact good_pure (by assumption)

theorem listed_map {α : Type} {f : α → Nat} {xs : List α} {n B : Nat}
    (h : xs.length = n ∧ ∀ x ∈ xs, f x < B) :
    (xs.map f).length = n ∧ ∀ o ∈ xs.map f, o < B := by
  refine ⟨by simp [h.1], ?_⟩
  intro o ho
  obtain ⟨x, hx, rfl⟩ := List.mem_map.mp ho
  exact h.2 x hx

instance : Reloc e language.Record.read (fun _ => True) := by reloc language.Record.read

instance : Reloc e script.Record.read (fun _ => True) := by
  constructor
  intro d D k hx hD p
  unfold script.Record.read
  good_step hx hD
  good_step hx hD
  good_step hx hD
  refine good_bind (Reloc.good hx hD _) fun _ _ h => ?_
  good_step hx hD
  refine good_bind (good_jumpTakeN (by omega) (listed_map h) (by decide) (Reloc.good hx hD)) fun _ _ _ => ?_
  good_step hx hD

instance : Reloc e script.Scripts.read (fun _ => True) := by
  constructor
  intro d D k hx hD p
  unfold script.Scripts.read
  good_step hx hD
  good_step hx hD
  refine good_bind (Reloc.good hx hD _) fun _ _ h => ?_
  refine good_bind (good_jumpTakeN (by omega) (listed_map h) (by decide) (Reloc.good hx hD)) fun _ _ _ => ?_
  good_step hx hD

theorem good_takeParameters {d D : Data} {k b o p : Nat} (hb : k + b < 2 ^ 63) (ho : o < 65536) :
    Good e d D k (feature.takeParameters b o) (feature.takeParameters (k + b) o) p (fun _ => True) := by
  unfold feature.takeParameters
  split
  · refine good_addU64 (by omega) (good_bind_jump ?_)
    unfold takeBytes takeVec
    exact good_bind (good_pure (Q := fun _ => True) trivial) fun _ _ _ => good_pure trivial
  · exact good_pure trivial

instance : Reloc e feature.Record.read (fun _ => True) := by
  constructor
  intro d D k hx hD p
  unfold feature.Record.read
  good_step hx hD
  good_step hx hD
  good_step hx hD
  good_step hx hD
  refine good_bind (good_takeParameters (by omega) (by omega)) fun _ _ _ => ?_
  good_step hx hD

instance : Reloc e feature.Variations.read (fun _ => True) := by reloc feature.Variations.read

instance : Reloc e feature.Features.read (fun _ => True) := by
  constructor
  intro d D k hx hD p
  unfold feature.Features.read
  good_step hx hD
  good_step hx hD
  refine good_bind (Reloc.good hx hD _) fun _ _ h => ?_
  refine good_bind (good_jumpTakeN (by omega) (listed_map h) (by decide) (Reloc.good hx hD)) fun _ _ _ => ?_
  good_step hx hD

instance {T : Type} {cfg : Cfg} {readTable : Nat → Reader T}
    [h : ∀ t, Reloc e (readTable t) (fun _ => True)] :
    Reloc e (lookup.Record.read cfg readTable) (fun _ => True) := by
  reloc lookup.Record.read

instance {T : Type} {cfg : Cfg} {readTable : Nat → Reader T}
    [h : ∀ t, Reloc e (readTable t) (fun _ => True)] :
    Reloc e (lookup.Lookups.read cfg readTable) (fun _ => True) := by
  reloc lookup.Lookups.read

theorem good_part {α : Type} {r : Reader α} [h : Reloc e r (fun _ => True)] {cfg : Cfg} {x : α}
    {d D : Data} {k b o p : Nat} (hx : Ext d D k) (hD : Fits D) (hb : k + b < 2 ^ 63) (ho : o < 65536) :
    Good e d D k (directory.part cfg b o r x) (directory.part cfg (k + b) o r x) p (fun _ => True) := by
  unfold directory.part
  split
  · exact good_bind (good_jumpTakeMaybe hb (by omega) (Reloc.good hx hD)) fun _ _ _ => good_pure trivial
  · exact good_jumpTake hb (by omega) (Reloc.good hx hD)

instance {a b : Nat} : Reloc e (directory.variationOffset a b) (fun n => n < 4294967296) := by
  constructor
  intro d D k hx hD p
  unfold directory.variationOffset
  split
  · exact Reloc.good hx hD p
  · exact good_pure (by decide)

instance {T : Type} {cfg : Cfg} {readTable : Nat → Reader T}
    [h : ∀ t, Reloc e (readTable t) (fun _ => True)] :
    Reloc e (directory.Directory.read cfg readTable) (fun _ => True) := by
  constructor
  intro d D k hx hD p
  unfold directory.Directory.read
  good_step hx hD
  good_step hx hD
  good_step hx hD
  good_step hx hD
  good_step hx hD
  good_step hx hD
  good_step hx hD
  good_step hx hD
  refine good_bind (good_part hx hD (by omega) (by omega)) fun _ _ _ => ?_
  refine good_bind (good_part hx hD (by omega) (by omega)) fun _ _ _ => ?_
  refine good_bind (good_part hx hD (by omega) (by omega)) fun _ _ _ => ?_
  good_step hx hD
  good_step hx hD

/-! ## Glyph substitution -/
namespace gsub

instance : Reloc e Alternates.read (fun _ => True) := by reloc Alternates.read
instance : Reloc e Ligature.read (fun _ => True) := by reloc Ligature.read
instance : Reloc e Ligatures.read (fun _ => True) := by reloc Ligatures.read
instance : Reloc e Sequence.read (fun _ => True) := by reloc Sequence.read
instance : Reloc e SingleSubstitution1.read (fun _ => True) := by reloc SingleSubstitution1.read
instance : Reloc e SingleSubstitution2.read (fun _ => True) := by reloc SingleSubstitution2.read
instance : Reloc e SingleSubstitution.read (fun _ => True) := by reloc_enum SingleSubstitution.read
instance : Reloc e MultipleSubstitution.read (fun _ => True) := by reloc MultipleSubstitution.read
instance : Reloc e AlternateSubstitution.read (fun _ => True) := by reloc AlternateSubstitution.read
instance : Reloc e LigatureSubstitution.read (fun _ => True) := by reloc LigatureSubstitution.read
instance : Reloc e ExtensionSubstitution.read (fun _ => True) := by reloc ExtensionSubstitution.read
instance : Reloc e ReverseChainedContextualSubstibution.read (fun _ => True) := by
  reloc ReverseChainedContextualSubstibution.read

instance {t : Nat} : Reloc e (Type_.read t) (fun _ => True) := by
  constructor
  intro d D k hx hD p
  unfold Type_.read
  split <;> repeat good_step hx hD

instance {cfg : Cfg} : Reloc e (GlyphSubstitution.read cfg) (fun _ => True) :=
  inferInstanceAs (Reloc e (directory.Directory.read cfg Type_.read) _)

end gsub

/-! ## Glyph positioning -/
namespace gpos

instance : Reloc e Anchor1.read (fun _ => True) := by reloc Anchor1.read
instance : Reloc e Anchor2.read (fun _ => True) := by reloc Anchor2.read
instance : Reloc e Anchor3.read (fun _ => True) := by reloc Anchor3.read
instance : Reloc e Anchor.read (fun _ => True) := by reloc_enum Anchor.read

theorem good_takeCorrection {d D : Data} {k b p : Nat} {o : Option Nat} (hx : Ext d D k) (hD : Fits D)
    (hb : k + b < 2 ^ 63) (ho : ∀ y, o = some y → y < 65536) :
    Good e d D k (takeCorrection b o) (takeCorrection (k + b) o) p (fun _ => True) := by
  unfold takeCorrection
  cases o with
  | none => exact good_pure trivial
  | some o => exact good_jumpTakeMaybe hb (by have := ho o rfl; omega) (Reloc.good hx hD)

theorem good_takeCorrections {d D : Data} {k b p : Nat} {x y z w : Option Nat} (hx : Ext d D k)
    (hD : Fits D) (hb : k + b < 2 ^ 63) (h1 : ∀ n, x = some n → n < 65536)
    (h2 : ∀ n, y = some n → n < 65536) (h3 : ∀ n, z = some n → n < 65536)
    (h4 : ∀ n, w = some n → n < 65536) :
    Good e d D k (takeCorrections b x y z w) (takeCorrections (k + b) x y z w) p (fun _ => True) :=
  good_bind (good_takeCorrection hx hD hb h1) fun _ _ _ =>
    good_bind (good_takeCorrection hx hD hb h2) fun _ _ _ =>
      good_bind (good_takeCorrection hx hD hb h3) fun _ _ _ =>
        good_bind (good_takeCorrection hx hD hb h4) fun _ _ _ => good_pure trivial

instance {f : Nat} : RelocFrom e (fun b => Single.read b f) := by
  constructor
  intro d D k b hx hD hb p
  unfold Single.read
  good_step hx hD
  good_step hx hD
  good_step hx hD
  good_step hx hD
  refine good_bind (Reloc.good hx hD _) fun _ _ h1 => ?_
  refine good_bind (Reloc.good hx hD _) fun _ _ h2 => ?_
  refine good_bind (Reloc.good hx hD _) fun _ _ h3 => ?_
  refine good_bind (Reloc.good hx hD _) fun _ _ h4 => ?_
  refine good_bind (good_stay (good_takeCorrections hx hD hb h1 h2 h3 h4)) fun _ _ _ => ?_
  good_step hx hD

instance {f : Nat} : RelocFrom e (fun b => takeValue b f) := by
  constructor
  intro d D k b hx hD hb p
  unfold takeValue
  split
  · exact good_bind (RelocFrom.good (r := fun b => Single.read b f) hx hD hb _) fun _ _ _ =>
      good_pure trivial
  · exact good_pure trivial

instance {f g : Nat} : RelocFrom e (fun b => Pair1.read b f g) := by
  constructor
  intro d D k b hx hD hb p
  unfold Pair1.read
  good_step hx hD
  refine good_bind (RelocFrom.good (r := fun b => takeValue b f) hx hD hb _) fun _ _ _ => ?_
  refine good_bind (RelocFrom.good (r := fun b => takeValue b g) hx hD hb _) fun _ _ _ => ?_
  good_step hx hD

instance {f g : Nat} : Reloc e (Pair1s.read f g) (fun _ => True) := by
  constructor
  intro d D k hx hD p
  unfold Pair1s.read
  good_step hx hD
  good_step hx hD
  refine good_bind (good_takeVec (RelocFrom.good (r := fun b => Pair1.read b f g) hx hD (by omega)))
    fun _ _ _ => ?_
  good_step hx hD

instance {f g : Nat} : RelocFrom e (fun b => Pair2.read b f g) := by
  constructor
  intro d D k b hx hD hb p
  unfold Pair2.read
  refine good_bind (RelocFrom.good (r := fun b => takeValue b f) hx hD hb _) fun _ _ _ => ?_
  refine good_bind (RelocFrom.good (r := fun b => takeValue b g) hx hD hb _) fun _ _ _ => ?_
  good_step hx hD

instance {n f g : Nat} : RelocFrom e (fun b => Pair2s.read b n f g) := by
  constructor
  intro d D k b hx hD hb p
  unfold Pair2s.read
  refine good_bind (good_takeVec (RelocFrom.good (r := fun b => Pair2.read b f g) hx hD hb))
    fun _ _ _ => ?_
  good_step hx hD

instance {n : Nat} : RelocFrom e (fun b => Base.read b n) := by reloc_from Base.read
instance {n : Nat} : RelocFrom e (fun b => Component.read b n) := by reloc_from Component.read
instance {n : Nat} : RelocFrom e (fun b => Mark2.read b n) := by reloc_from Mark2.read

instance {n : Nat} : Reloc e (Bases.read n) (fun _ => True) := by
  constructor
  intro d D k hx hD p
  unfold Bases.read
  good_step hx hD
  good_step hx hD
  refine good_bind (good_takeVec (RelocFrom.good (r := fun b => Base.read b n) hx hD (by omega)))
    fun _ _ _ => ?_
  good_step hx hD

instance {n : Nat} : Reloc e (Mark2s.read n) (fun _ => True) := by
  constructor
  intro d D k hx hD p
  unfold Mark2s.read
  good_step hx hD
  good_step hx hD
  refine good_bind (good_takeVec (RelocFrom.good (r := fun b => Mark2.read b n) hx hD (by omega)))
    fun _ _ _ => ?_
  good_step hx hD

instance {n : Nat} : Reloc e (Ligature.read n) (fun _ => True) := by
  constructor
  intro d D k hx hD p
  unfold Ligature.read
  good_step hx hD
  good_step hx hD
  refine good_bind (good_takeVec (RelocFrom.good (r := fun b => Component.read b n) hx hD (by omega)))
    fun _ _ _ => ?_
  good_step hx hD

instance {n : Nat} : Reloc e (Ligatures.read n) (fun _ => True) := by reloc Ligatures.read

theorem good_takeAnchors {d D : Data} {k b x y p : Nat} (hx : Ext d D k) (hD : Fits D)
    (hb : k + b < 2 ^ 63) (h1 : x < 65536) (h2 : y < 65536) :
    Good e d D k (takeAnchors b x y) (takeAnchors (k + b) x y) p (fun _ => True) := by
  unfold takeAnchors
  repeat good_step hx hD

instance : RelocFrom e Connection.read := by
  constructor
  intro d D k b hx hD hb p
  unfold Connection.read
  good_step hx hD
  good_step hx hD
  refine good_bind (good_stay (good_takeAnchors hx hD hb (by omega) (by omega))) fun _ _ _ => ?_
  good_step hx hD

theorem good_takeMarkAnchor {cfg : Cfg} {d D : Data} {k b o p : Nat} (hx : Ext d D k) (hD : Fits D)
    (hb : k + b < 2 ^ 63) (ho : o < 65536) :
    Good e d D k (takeMarkAnchor cfg b o) (takeMarkAnchor cfg (k + b) o) p (fun _ => True) := by
  unfold takeMarkAnchor
  split
  · repeat good_step hx hD
  · exact good_stay (good_jumpTake hb (by omega) (Reloc.good hx hD))

instance {cfg : Cfg} : RelocFrom e (Mark1.read cfg) := by
  constructor
  intro d D k b hx hD hb p
  unfold Mark1.read
  good_step hx hD
  good_step hx hD
  refine good_bind (good_takeMarkAnchor hx hD hb (by omega)) fun _ _ _ => ?_
  good_step hx hD

instance {cfg : Cfg} : Reloc e (Mark1s.read cfg) (fun _ => True) := by
  constructor
  intro d D k hx hD p
  unfold Mark1s.read
  good_step hx hD
  good_step hx hD
  refine good_bind (good_takeVec (RelocFrom.good (r := Mark1.read cfg) hx hD (by omega)))
    fun _ _ _ => ?_
  good_step hx hD

instance {cfg : Cfg} : Reloc e (Flags.read cfg) (fun n => n < 65536) :=
  inferInstanceAs (Reloc e (flagsU16 cfg invalidFlags) _)

instance {cfg : Cfg} : Reloc e (SingleAdjustment1.read cfg) (fun _ => True) := by
  constructor
  intro d D k hx hD p
  unfold SingleAdjustment1.read
  good_step hx hD
  good_step hx hD
  good_step hx hD
  refine good_bind (Reloc.good hx hD _) fun f _ _ => ?_
  refine good_bind (RelocFrom.good (r := fun b => Single.read b f) hx hD (by omega) _) fun _ _ _ => ?_
  repeat good_step hx hD

instance {cfg : Cfg} : Reloc e (SingleAdjustment2.read cfg) (fun _ => True) := by
  constructor
  intro d D k hx hD p
  unfold SingleAdjustment2.read
  good_step hx hD
  good_step hx hD
  good_step hx hD
  refine good_bind (Reloc.good hx hD _) fun f _ _ => ?_
  good_step hx hD
  refine good_bind (good_takeVec (RelocFrom.good (r := fun b => Single.read b f) hx hD (by omega)))
    fun _ _ _ => ?_
  repeat good_step hx hD

instance {cfg : Cfg} : Reloc e (SingleAdjustment.read cfg) (fun _ => True) := by
  reloc_enum SingleAdjustment.read

instance {cfg : Cfg} : Reloc e (PairAdjustment1.read cfg) (fun _ => True) := by
  reloc PairAdjustment1.read

instance {cfg : Cfg} : Reloc e (PairAdjustment2.read cfg) (fun _ => True) := by
  constructor
  intro d D k hx hD p
  unfold PairAdjustment2.read
  good_step hx hD
  good_step hx hD
  good_step hx hD
  refine good_bind (Reloc.good hx hD _) fun f _ _ => ?_
  refine good_bind (Reloc.good hx hD _) fun g _ _ => ?_
  good_step hx hD
  good_step hx hD
  good_step hx hD
  refine good_bind (Reloc.good hx hD _) fun n _ _ => ?_
  refine good_bind (good_takeVec (RelocFrom.good (r := fun b => Pair2s.read b n f g) hx hD (by omega)))
    fun _ _ _ => ?_
  repeat good_step hx hD

instance {cfg : Cfg} : Reloc e (PairAdjustment.read cfg) (fun _ => True) := by
  reloc_enum PairAdjustment.read

instance : Reloc e CursiveAttachment.read (fun _ => True) := by
  constructor
  intro d D k hx hD p
  unfold CursiveAttachment.read
  good_step hx hD
  good_step hx hD
  good_step hx hD
  good_step hx hD
  refine good_bind (good_takeVec (RelocFrom.good (r := Connection.read) hx hD (by omega)))
    fun _ _ _ => ?_
  repeat good_step hx hD

instance {cfg : Cfg} : Reloc e (MarkToBaseAttachment.read cfg) (fun _ => True) := by
  reloc MarkToBaseAttachment.read
instance {cfg : Cfg} : Reloc e (MarkToLigatureAttachment.read cfg) (fun _ => True) := by
  reloc MarkToLigatureAttachment.read
instance {cfg : Cfg} : Reloc e (MarkToMarkAttachment.read cfg) (fun _ => True) := by
  reloc MarkToMarkAttachment.read
instance : Reloc e ExtensionPositioning.read (fun _ => True) := by reloc ExtensionPositioning.read

instance {cfg : Cfg} {t : Nat} : Reloc e (Type_.read cfg t) (fun _ => True) := by
  constructor
  intro d D k hx hD p
  unfold Type_.read
  split <;> repeat good_step hx hD

instance {cfg : Cfg} : Reloc e (GlyphPositioning.read cfg) (fun _ => True) :=
  inferInstanceAs (Reloc e (directory.Directory.read cfg (Type_.read cfg)) _)

end gpos

/-! ## Glyph definition -/
namespace gdef

instance : Reloc e Attachment.read (fun _ => True) := by reloc Attachment.read
instance : Reloc e Attachments.read (fun _ => True) := by reloc Attachments.read
instance : Reloc e Caret1.read (fun _ => True) := by reloc Caret1.read
instance : Reloc e Caret2.read (fun _ => True) := by reloc Caret2.read
instance : Reloc e Caret3.read (fun _ => True) := by reloc Caret3.read
instance : Reloc e Caret.read (fun _ => True) := by reloc_enum Caret.read
instance : Reloc e Ligature.read (fun _ => True) := by reloc Ligature.read
instance : Reloc e Ligatures.read (fun _ => True) := by reloc Ligatures.read
instance : Reloc e Marks.read (fun _ => True) := by reloc Marks.read

/-- All offsets of a header are small. -/
def Small (h : Header) : Prop :=
  h.glyph_class_offset < 65536 ∧ h.attachment_offset < 65536 ∧ h.ligature_offset < 65536 ∧
    h.mark_class_offset < 65536 ∧ h.mark_offset < 65536 ∧ h.variations_offset < 65536

theorem good_header {d D : Data} {k p : Nat} (hx : Ext d D k) (hD : Fits D) :
    Good e d D k Header.read Header.read p (fun h => Small h ∧ k + p < 2 ^ 63) := by
  unfold Header.read
  good_step hx hD
  split
  · refine good_bind (Q := fun t => Small (.version1 t)) ?_ fun _ _ h =>
      good_pure ⟨h, by assumption⟩
    unfold Header1.read
    iterate 6 good_step hx hD
    exact good_pure ⟨by assumption, by assumption, by assumption, by assumption, Nat.zero_lt_succ _, Nat.zero_lt_succ _⟩
  · refine good_bind (Q := fun t => Small (.version12 t)) ?_ fun _ _ h =>
      good_pure ⟨h, by assumption⟩
    unfold Header12.read
    iterate 7 good_step hx hD
    exact good_pure ⟨by assumption, by assumption, by assumption, by assumption, by assumption, Nat.zero_lt_succ _⟩
  · refine good_bind (Q := fun t => Small (.version13 t)) ?_ fun _ _ h =>
      good_pure ⟨h, by assumption⟩
    unfold Header13.read
    iterate 8 good_step hx hD
    exact good_pure
      ⟨by assumption, by assumption, by assumption, by assumption, by assumption, by assumption⟩
  · exact good_raise

instance {cfg : Cfg} : Reloc (cfg.overflowChecks = true) (GlyphDefinition.read cfg) (fun _ => True) := by
  constructor
  intro d D k hx hD p
  unfold GlyphDefinition.read
  good_step hx hD
  refine good_bind (good_header hx hD) fun _ _ ⟨⟨_, _, _, _, _, _⟩, _⟩ => ?_
  repeat good_step hx hD

end gdef

/-! ## Color palettes -/
namespace cpal

instance : Reloc e Color.read (fun _ => True) := by
  constructor
  intro d D k hx hD p
  unfold Color.read
  repeat good_step hx hD

theorem good_header {d D : Data} {k p : Nat} (hx : Ext d D k) (hD : Fits D) :
    Good e d D k Header.read Header.read p (fun h => k + p < 2 ^ 63 ∧
      match h with
      | .version0 h => h.color_offset < 4294967296
      | .version1 h => h.color_offset < 4294967296) := by
  unfold Header.read
  good_step hx hD
  split
  · refine good_bind (Q := fun t => t.color_offset < 4294967296) ?_ fun _ _ h =>
      good_pure ⟨by assumption, h⟩
    unfold Header0.read
    iterate 6 good_step hx hD
    exact good_pure (by assumption)
  · refine good_bind (Q := fun t => t.color_offset < 4294967296) ?_ fun _ _ h =>
      good_pure ⟨by assumption, h⟩
    unfold Header1.read
    iterate 6 good_step hx hD
    exact good_pure (by assumption)
  · exact good_raise

instance : Reloc e ColorPalettes.read (fun _ => True) := by
  constructor
  intro d D k hx hD p
  unfold ColorPalettes.read
  good_step hx hD
  refine good_bind (good_header hx hD) fun h _ hh => ?_
  cases h with
  | version0 h =>
    refine good_bind (good_jumpTake hh.1 (Nat.lt_trans hh.2 (by decide)) (Reloc.good hx hD)) fun _ _ _ => ?_
    good_step hx hD
  | version1 h =>
    refine good_bind (good_jumpTake hh.1 (Nat.lt_trans hh.2 (by decide)) (Reloc.good hx hD)) fun _ _ _ => ?_
    good_step hx hD

end cpal

/-! ## Font variations -/
namespace fvar

theorem good_header {d D : Data} {k p : Nat} (hx : Ext d D k) (hD : Fits D) :
    Good e d D k Header.read Header.read p (fun h => k + p < 2 ^ 63 ∧ h.axis_offset < 65536 ∧
      h.axis_count < 65536 ∧ h.axis_size < 65536 ∧ h.instance_count < 65536 ∧
      h.instance_size < 65536) := by
  unfold Header.read
  iterate 8 good_step hx hD
  exact good_pure ⟨by assumption, by assumption, by assumption, by assumption, by assumption,
    by assumption⟩

instance {cfg : Cfg} : Reloc e (AxisRecord.read cfg) (fun _ => True) := by reloc AxisRecord.read
instance {cfg : Cfg} {n : Nat} : Reloc e (InstanceRecord.read cfg n) (fun _ => True) := by
  reloc InstanceRecord.read

theorem good_loop {α : Type} {r : Reader α} [h : Reloc e r (fun _ => True)] {d D : Data} {k b s n p : Nat}
    (hx : Ext d D k) (hD : Fits D) (hb : ∀ i < n, k + b + i * s < 2 ^ 64) :
    Good e d D k (forFrom (fun i => do let o ← mulU64 i s; let q ← addU64 b o; jump q; r) 0 n)
      (forFrom (fun i => do let o ← mulU64 i s; let q ← addU64 (k + b) o; jump q; r) 0 n) p
      (fun _ => True) := by
  refine (good_forFrom (Q := fun _ => True) fun j _ hj p => ?_).mono fun _ _ => trivial
  have := hb j (by omega)
  exact good_mulU64 (by omega) (good_addU64 this (good_bind_jump (h.good hx hD _)))

instance {cfg : Cfg} : Reloc e (FontVariations.read cfg) (fun _ => True) := by
  constructor
  intro d D k hx hD p
  unfold FontVariations.read
  good_step hx hD
  refine good_bind (good_header hx hD) fun h _ ⟨h0, h1, h2, h3, h4, h5⟩ => ?_
  have m : h.axis_count * h.axis_size ≤ 65535 * 65535 := Nat.mul_le_mul (by omega) (by omega)
  refine good_addU64 (by omega) ?_
  refine good_bind (good_loop hx hD fun i hi => ?_) fun _ _ _ => ?_
  · have : i * h.axis_size ≤ 65535 * 65535 := Nat.mul_le_mul (by omega) (by omega)
    omega
  refine good_mulU64 (by omega) ?_
  refine good_addU64 (by omega) ?_
  refine good_bind (good_loop hx hD fun i hi => ?_) fun _ _ _ => ?_
  · have : i * h.instance_size ≤ 65535 * 65535 := Nat.mul_le_mul (by omega) (by omega)
    omega
  good_step hx hD

end fvar
end OpenType
