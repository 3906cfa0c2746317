import Verif.Proof.Calm
import Verif.Proof.RelocTables
namespace OpenType
open Spec
open coverage class_ correction context
variable {e : Mood} {m : Nat}

attribute [local irreducible] u8 u16 u32 i16 q32 takeTag takeVec takeIf expectU16 flagsU16 jumpTake
  jumpTakeMaybe jumpTakeN jumpTakeMaybeN raiseIf position stay raise

instance : Calm e coverage.Record.read (fun _ => True) := by calm coverage.Record.read
instance : Calm e Coverage1.read counted := by calm Coverage1.read
instance : Calm e Coverage2.read counted := by calm Coverage2.read
instance : Calm e Coverage.read counted := by calm_enum Coverage.read
instance : Calm e class_.Record.read (fun _ => True) := by calm class_.Record.read
instance : Calm e Class1.read counted := by calm Class1.read
instance : Calm e Class2.read counted := by calm Class2.read
instance : Calm e Class.read counted := by calm_enum Class.read
instance : Calm e Device.read (fun _ => True) := by
  constructor
  intro p
  unfold Device.read
  refine calm_bind (calm_u16) fun a _ ⟨_, _⟩ => ?_
  refine calm_bind (calm_u16) fun b _ ⟨_, _⟩ => ?_
  refine calm_bind calm_raiseIf fun _ _ _ => ?_
  refine calm_bind (calm_u16) fun f _ ⟨_, _⟩ => ?_
  refine calm_bind calm_raiseIf fun _ _ _ => ?_
  refine calm_subUint (by omega) ?_
  refine calm_addUsize (by omega) ?_
  have m : (1 <<< f) * (b - a + 1) ≤ 8 * 65536 := by
    refine Nat.mul_le_mul ?_ (by omega)
    rw [Nat.one_shiftLeft]
    exact Nat.pow_le_pow_right (by decide) (by omega : f ≤ 3)
  refine calm_mulUsize (by omega) ?_
  refine calm_addUsize (by omega) ?_
  refine calm_subUint (by omega) ?_
  repeat calm_step
instance : Calm e Variation.read (fun _ => True) := by calm Variation.read
instance : Calm e peeked (fun _ => True) := by calm peeked
instance : Calm e Correction.read (fun _ => True) := by
  constructor
  intro p
  unfold Correction.read
  refine calm_bind (calm_stay fun _ => (Calm.calm _)) fun _ _ _ => ?_
  dsimp only
  split
  repeat calm_step
  split <;> repeat calm_step
instance : Calm e Action.read (fun _ => True) := by calm Action.read
instance : Calm e context.Record.read counted := by calm context.Record.read
instance : Calm e Records.read counted := by calm Records.read
instance : Calm e context.ClassRecord.read counted := by calm context.ClassRecord.read
instance : Calm e ClassRecords.read counted := by calm ClassRecords.read
instance : Calm e ChainedRecord.read counted := by calm ChainedRecord.read
instance : Calm e ChainedRecords.read counted := by calm ChainedRecords.read
instance : Calm e ChainedClassRecord.read counted := by calm ChainedClassRecord.read
instance : Calm e ChainedClassRecords.read counted := by calm ChainedClassRecords.read
instance : Calm e Context1.read counted := by calm Context1.read
instance : Calm e Context2.read counted := by calm Context2.read
instance : Calm e Context3.read counted := by calm Context3.read
instance : Calm e Context.read counted := by calm_enum Context.read
instance : Calm e ChainedContext1.read counted := by calm ChainedContext1.read
instance : Calm e ChainedContext2.read counted := by calm ChainedContext2.read
instance : Calm e ChainedContext3.read counted := by calm ChainedContext3.read
instance : Calm e ChainedContext.read counted := by calm_enum ChainedContext.read


/-! ## Item variation stores -/

theorem calm_addU16 {cfg : Cfg} {a b p : Nat} :
    Calmly ⟨cfg.overflowChecks = true, m⟩ (item.addU16 cfg a b) p
      (fun n => n < 65536) := by
  unfold item.addU16
  split
  · rename_i h; exact calm_pure h
  · split
    · rename_i h; exact fun _ _ => h
    · exact calm_pure (Nat.mod_lt _ (by decide))

instance {cfg : Cfg} : Calm ⟨cfg.overflowChecks = true, m⟩ (item.Record.read cfg) counted := by
  constructor
  intro p
  unfold item.Record.read
  refine calm_bind (calm_u16) fun a _ ⟨_, _⟩ => ?_
  calm_step
  calm_step
  calm_step
  refine calm_bind calm_addU16 fun n _ _ => ?_
  have : a * n ≤ 65535 * 65535 := Nat.mul_le_mul (by omega) (by omega)
  refine calm_mulUsize (by omega) ?_
  repeat calm_step

instance {cfg : Cfg} : Calm ⟨cfg.overflowChecks = true, m⟩ (item.Store.read cfg) counted := by
  calm item.Store.read

/-! ## Lists -/

instance : Calm e language.Header.read (fun t => t.offset < 65536) := by
  constructor
  intro p
  unfold language.Header.read
  calm_step
  calm_step
  exact calm_pure (by assumption)

instance : Calm e script.Header.read (fun t => t.offset < 65536) := by
  constructor
  intro p
  unfold script.Header.read
  calm_step
  calm_step
  exact calm_pure (by assumption)

instance : Calm e feature.Header.read (fun t => t.offset < 65536) := by
  constructor
  intro p
  unfold feature.Header.read
  calm_step
  calm_step
  exact calm_pure (by assumption)

instance : Calm e language.Record.read counted := by calm language.Record.read

instance : Calm e script.Record.read counted := by
  constructor
  intro p
  unfold script.Record.read
  calm_step
  calm_step
  calm_step
  refine calm_bind (Calm.calm _) fun _ _ h => ?_
  calm_step
  refine calm_bind (calm_jumpTakeN (by omega) (listed_map h) (by decide) Calm.calm) fun _ _ _ => ?_
  calm_step

instance : Calm e script.Scripts.read counted := by
  constructor
  intro p
  unfold script.Scripts.read
  calm_step
  calm_step
  refine calm_bind (Calm.calm _) fun _ _ h => ?_
  refine calm_bind (calm_jumpTakeN (by omega) (listed_map h) (by decide) Calm.calm) fun _ _ _ => ?_
  calm_step

theorem calm_takeParameters {b o p : Nat} (hb : b < 2 ^ 63) (ho : o < 65536) :
    Calmly e (feature.takeParameters b o) p (fun _ => True) := by
  unfold feature.takeParameters
  split
  · refine calm_addU64 (by omega) (calm_bind_jump ?_)
    unfold takeBytes takeVec
    exact calm_bind (calm_pure (Q := fun _ => True) trivial) fun _ _ _ => calm_pure (by calm_done)
  · exact calm_pure (by calm_done)

instance : Calm e feature.Record.read counted := by
  constructor
  intro p
  unfold feature.Record.read
  calm_step
  calm_step
  calm_step
  calm_step
  refine calm_bind (calm_takeParameters (by omega) (by omega)) fun _ _ _ => ?_
  calm_step

instance : Calm e feature.Variations.read (fun _ => True) := by calm feature.Variations.read

instance : Calm e feature.Features.read counted := by
  constructor
  intro p
  unfold feature.Features.read
  calm_step
  calm_step
  refine calm_bind (Calm.calm _) fun _ _ h => ?_
  refine calm_bind (calm_jumpTakeN (by omega) (listed_map h) (by decide) Calm.calm) fun _ _ _ => ?_
  calm_step

instance {T : Type} [Counted T] {cfg : Cfg} {readTable : Nat → Reader T}
    [h : ∀ t, Calm e (readTable t) counted] :
    Calm e (lookup.Record.read cfg readTable) counted := by
  calm lookup.Record.read

instance {T : Type} [Counted T] {cfg : Cfg} {readTable : Nat → Reader T}
    [h : ∀ t, Calm e (readTable t) counted] :
    Calm e (lookup.Lookups.read cfg readTable) counted := by
  calm lookup.Lookups.read

theorem calm_part {α : Type} {r : Reader α} {P : α → Prop} [h : Calm e r P] {cfg : Cfg} {x : α}
    {b o p : Nat} (hx : P x) (hb : b < 2 ^ 63) (ho : o < 65536) :
    Calmly e (directory.part cfg b o r x) p P := by
  unfold directory.part
  split
  · exact calm_bind (calm_jumpTakeMaybe hb (by omega) Calm.calm) fun a _ ha => calm_pure (by
      cases a with
      | none => exact hx
      | some a => exact ha a rfl)
  · exact calm_jumpTake hb (by omega) Calm.calm

instance {a b : Nat} : Calm e (directory.variationOffset a b) (fun n => n < 4294967296) := by
  constructor
  intro p
  unfold directory.variationOffset
  split
  · exact Calm.calm p
  · exact calm_pure (by decide)

instance {T : Type} [Counted T] {cfg : Cfg} {readTable : Nat → Reader T}
    [h : ∀ t, Calm e (readTable t) counted] :
    Calm e (directory.Directory.read cfg readTable) counted := by
  constructor
  intro p
  unfold directory.Directory.read
  calm_step
  calm_step
  calm_step
  calm_step
  calm_step
  calm_step
  calm_step
  calm_step
  refine calm_bind (calm_part ⟨rfl, rfl, fun _ h => absurd h List.not_mem_nil⟩ (by omega) (by omega))
    fun _ _ _ => ?_
  refine calm_bind (calm_part ⟨rfl, rfl, fun _ h => absurd h List.not_mem_nil⟩ (by omega) (by omega))
    fun _ _ _ => ?_
  refine calm_bind (calm_part ⟨rfl, rfl, fun _ h => absurd h List.not_mem_nil⟩ (by omega) (by omega))
    fun _ _ _ => ?_
  calm_step
  calm_step

/-! ## Glyph substitution -/
namespace gsub

instance : Calm e Alternates.read counted := by calm Alternates.read
instance : Calm e Ligature.read counted := by calm Ligature.read
instance : Calm e Ligatures.read counted := by calm Ligatures.read
instance : Calm e Sequence.read counted := by calm Sequence.read
instance : Calm e SingleSubstitution1.read counted := by calm SingleSubstitution1.read
instance : Calm e SingleSubstitution2.read counted := by calm SingleSubstitution2.read
instance : Calm e SingleSubstitution.read counted := by calm_enum SingleSubstitution.read
instance : Calm e MultipleSubstitution.read counted := by calm MultipleSubstitution.read
instance : Calm e AlternateSubstitution.read counted := by calm AlternateSubstitution.read
instance : Calm e LigatureSubstitution.read counted := by calm LigatureSubstitution.read
instance : Calm e ExtensionSubstitution.read (fun _ => True) := by calm ExtensionSubstitution.read
instance : Calm e ReverseChainedContextualSubstibution.read counted := by
  calm ReverseChainedContextualSubstibution.read

instance {t : Nat} : Calm e (Type_.read t) counted := by
  constructor
  intro p
  unfold Type_.read
  split <;> repeat calm_step

instance {cfg : Cfg} : Calm e (GlyphSubstitution.read cfg) counted :=
  inferInstanceAs (Calm e (directory.Directory.read cfg Type_.read) _)

end gsub

/-! ## Glyph positioning -/
namespace gpos

instance : Calm e Anchor1.read (fun _ => True) := by calm Anchor1.read
instance : Calm e Anchor2.read (fun _ => True) := by calm Anchor2.read
instance : Calm e Anchor3.read (fun _ => True) := by calm Anchor3.read
instance : Calm e Anchor.read (fun _ => True) := by calm_enum Anchor.read

theorem calm_takeCorrection {b p : Nat} {o : Option Nat} 
    (hb : b < 2 ^ 63) (ho : ∀ y, o = some y → y < 65536) :
    Calmly e (takeCorrection b o) p (fun _ => True) := by
  unfold takeCorrection
  cases o with
  | none => exact calm_pure (by calm_done)
  | some o => exact (calm_jumpTakeMaybe hb (Nat.lt_trans (ho o rfl) (by decide)) Calm.calm).mono fun _ _ => trivial

theorem calm_takeCorrections {b p : Nat} {x y z w : Option Nat} (hb : b < 2 ^ 63) (h1 : ∀ n, x = some n → n < 65536)
    (h2 : ∀ n, y = some n → n < 65536) (h3 : ∀ n, z = some n → n < 65536)
    (h4 : ∀ n, w = some n → n < 65536) :
    Calmly e (takeCorrections b x y z w) p (fun _ => True) :=
  calm_bind (calm_takeCorrection hb h1) fun _ _ _ =>
    calm_bind (calm_takeCorrection hb h2) fun _ _ _ =>
      calm_bind (calm_takeCorrection hb h3) fun _ _ _ =>
        calm_bind (calm_takeCorrection hb h4) fun _ _ _ => calm_pure (by calm_done)

instance {f : Nat} : CalmFrom e (fun b => Single.read b f) (fun _ => True) := by
  constructor
  intro b hb p
  unfold Single.read
  calm_step
  calm_step
  calm_step
  calm_step
  refine calm_bind (Calm.calm _) fun _ _ h1 => ?_
  refine calm_bind (Calm.calm _) fun _ _ h2 => ?_
  refine calm_bind (Calm.calm _) fun _ _ h3 => ?_
  refine calm_bind (Calm.calm _) fun _ _ h4 => ?_
  refine calm_bind (calm_stay fun _ => (calm_takeCorrections hb h1 h2 h3 h4)) fun _ _ _ => ?_
  calm_step

instance {f : Nat} : CalmFrom e (fun b => takeValue b f) (fun _ => True) := by
  constructor
  intro b hb p
  unfold takeValue
  split
  · exact calm_bind (CalmFrom.calm (r := fun b => Single.read b f) hb _) fun _ _ _ =>
      calm_pure (by calm_done)
  · exact calm_pure (by calm_done)

instance {f g : Nat} : CalmFrom e (fun b => Pair1.read b f g) (fun _ => True) := by
  constructor
  intro b hb p
  unfold Pair1.read
  calm_step
  refine calm_bind (CalmFrom.calm (r := fun b => takeValue b f) hb _) fun _ _ _ => ?_
  refine calm_bind (CalmFrom.calm (r := fun b => takeValue b g) hb _) fun _ _ _ => ?_
  calm_step

instance {f g : Nat} : Calm e (Pair1s.read f g) counted := by
  constructor
  intro p
  unfold Pair1s.read
  calm_step
  calm_step
  refine calm_bind (calm_takeVec (CalmFrom.calm (r := fun b => Pair1.read b f g) (by omega)))
    fun _ _ _ => ?_
  calm_step

instance {f g : Nat} : CalmFrom e (fun b => Pair2.read b f g) (fun _ => True) := by
  constructor
  intro b hb p
  unfold Pair2.read
  refine calm_bind (CalmFrom.calm (r := fun b => takeValue b f) hb _) fun _ _ _ => ?_
  refine calm_bind (CalmFrom.calm (r := fun b => takeValue b g) hb _) fun _ _ _ => ?_
  calm_step

instance {n f g : Nat} : CalmFrom e (fun b => Pair2s.read b n f g) (fun t => t.records.length = n) := by
  constructor
  intro b hb p
  unfold Pair2s.read
  refine calm_bind (calm_takeVec (CalmFrom.calm (r := fun b => Pair2.read b f g) hb))
    fun _ _ _ => ?_
  calm_step

instance {n : Nat} : CalmFrom e (fun b => Base.read b n) (fun t => t.anchor_offsets.length = n ∧ t.anchors.length = n) := by calm_from Base.read
instance {n : Nat} : CalmFrom e (fun b => Component.read b n) (fun t => t.anchor_offsets.length = n ∧ t.anchors.length = n) := by calm_from Component.read
instance {n : Nat} : CalmFrom e (fun b => Mark2.read b n) (fun t => t.anchor_offsets.length = n ∧ t.anchors.length = n) := by calm_from Mark2.read

instance {n : Nat} : Calm e (Bases.read n) (fun t => counted t ∧ ∀ x ∈ t.records, x.anchor_offsets.length = n ∧ x.anchors.length = n) := by
  constructor
  intro p
  unfold Bases.read
  calm_step
  calm_step
  refine calm_bind (calm_takeVec (CalmFrom.calm (r := fun b => Base.read b n) (by omega)))
    fun _ _ _ => ?_
  calm_step

instance {n : Nat} : Calm e (Mark2s.read n) (fun t => counted t ∧ ∀ x ∈ t.records, x.anchor_offsets.length = n ∧ x.anchors.length = n) := by
  constructor
  intro p
  unfold Mark2s.read
  calm_step
  calm_step
  refine calm_bind (calm_takeVec (CalmFrom.calm (r := fun b => Mark2.read b n) (by omega)))
    fun _ _ _ => ?_
  calm_step

instance {n : Nat} : Calm e (Ligature.read n) (fun t => counted t ∧ ∀ x ∈ t.components, x.anchor_offsets.length = n ∧ x.anchors.length = n) := by
  constructor
  intro p
  unfold Ligature.read
  calm_step
  calm_step
  refine calm_bind (calm_takeVec (CalmFrom.calm (r := fun b => Component.read b n) (by omega)))
    fun _ _ _ => ?_
  calm_step

instance {n : Nat} : Calm e (Ligatures.read n) (fun t => counted t ∧ ∀ l ∈ t.records, ∀ x ∈ l.components,
    x.anchor_offsets.length = n ∧ x.anchors.length = n) := by
  constructor
  intro p
  unfold Ligatures.read
  calm_step
  calm_step
  calm_step
  refine calm_bind (calm_stay fun _ => (calm_jumpTakeN (by omega) (by assumption) (by decide) Calm.calm)) fun _ _ h => calm_pure ?_
  exact ⟨⟨by calm_done, by calm_done, fun x hx => (h.2 x hx).1⟩, fun x hx => (h.2 x hx).2⟩

theorem calm_takeAnchors {b x y p : Nat} 
    (hb : b < 2 ^ 63) (h1 : x < 65536) (h2 : y < 65536) :
    Calmly e (takeAnchors b x y) p (fun _ => True) := by
  unfold takeAnchors
  repeat calm_step

instance : CalmFrom e Connection.read (fun _ => True) := by
  constructor
  intro b hb p
  unfold Connection.read
  calm_step
  calm_step
  refine calm_bind (calm_stay fun _ => (calm_takeAnchors hb (by omega) (by omega))) fun _ _ _ => ?_
  calm_step

theorem calm_takeMarkAnchor {cfg : Cfg} {b o p : Nat} 
    (hb : b < 2 ^ 63) (ho : o < 65536) :
    Calmly e (takeMarkAnchor cfg b o) p (fun _ => True) := by
  unfold takeMarkAnchor
  split
  · repeat calm_step
  · exact calm_stay fun _ => (calm_jumpTake hb (by omega) Calm.calm)

instance {cfg : Cfg} : CalmFrom e (Mark1.read cfg) (fun _ => True) := by
  constructor
  intro b hb p
  unfold Mark1.read
  calm_step
  calm_step
  refine calm_bind (calm_takeMarkAnchor hb (by omega)) fun _ _ _ => ?_
  calm_step

instance {cfg : Cfg} : Calm e (Mark1s.read cfg) counted := by
  constructor
  intro p
  unfold Mark1s.read
  calm_step
  calm_step
  refine calm_bind (calm_takeVec (CalmFrom.calm (r := Mark1.read cfg) (by omega)))
    fun _ _ _ => ?_
  calm_step

instance {cfg : Cfg} : Calm e (Flags.read cfg) (fun n => n < 65536) :=
  inferInstanceAs (Calm e (flagsU16 cfg invalidFlags) _)

instance {cfg : Cfg} : Calm e (SingleAdjustment1.read cfg) counted := by
  constructor
  intro p
  unfold SingleAdjustment1.read
  calm_step
  calm_step
  calm_step
  refine calm_bind (Calm.calm _) fun f _ _ => ?_
  refine calm_bind (CalmFrom.calm (r := fun b => Single.read b f) (by omega) _) fun _ _ _ => ?_
  repeat calm_step

instance {cfg : Cfg} : Calm e (SingleAdjustment2.read cfg) counted := by
  constructor
  intro p
  unfold SingleAdjustment2.read
  calm_step
  calm_step
  calm_step
  refine calm_bind (Calm.calm _) fun f _ _ => ?_
  calm_step
  refine calm_bind (calm_takeVec (CalmFrom.calm (r := fun b => Single.read b f) (by omega)))
    fun _ _ _ => ?_
  repeat calm_step

instance {cfg : Cfg} : Calm e (SingleAdjustment.read cfg) counted := by
  calm_enum SingleAdjustment.read

instance {cfg : Cfg} : Calm e (PairAdjustment1.read cfg) counted := by
  calm PairAdjustment1.read

instance {cfg : Cfg} : Calm e (PairAdjustment2.read cfg) counted := by
  constructor
  intro p
  unfold PairAdjustment2.read
  calm_step
  calm_step
  calm_step
  refine calm_bind (Calm.calm _) fun f _ _ => ?_
  refine calm_bind (Calm.calm _) fun g _ _ => ?_
  calm_step
  calm_step
  calm_step
  refine calm_bind (Calm.calm _) fun n _ _ => ?_
  refine calm_bind (calm_takeVec (CalmFrom.calm (r := fun b => Pair2s.read b n f g) (by omega)))
    fun _ _ _ => ?_
  repeat calm_step

instance {cfg : Cfg} : Calm e (PairAdjustment.read cfg) counted := by
  calm_enum PairAdjustment.read

instance : Calm e CursiveAttachment.read counted := by
  constructor
  intro p
  unfold CursiveAttachment.read
  calm_step
  calm_step
  calm_step
  calm_step
  refine calm_bind (calm_takeVec (CalmFrom.calm (r := Connection.read) (by omega)))
    fun _ _ _ => ?_
  repeat calm_step

instance {cfg : Cfg} : Calm e (MarkToBaseAttachment.read cfg) counted := by
  calm MarkToBaseAttachment.read
instance {cfg : Cfg} : Calm e (MarkToLigatureAttachment.read cfg) counted := by
  calm MarkToLigatureAttachment.read
instance {cfg : Cfg} : Calm e (MarkToMarkAttachment.read cfg) counted := by
  calm MarkToMarkAttachment.read
instance : Calm e ExtensionPositioning.read (fun _ => True) := by calm ExtensionPositioning.read

instance {cfg : Cfg} {t : Nat} : Calm e (Type_.read cfg t) counted := by
  constructor
  intro p
  unfold Type_.read
  split <;> repeat calm_step

instance {cfg : Cfg} : Calm e (GlyphPositioning.read cfg) counted :=
  inferInstanceAs (Calm e (directory.Directory.read cfg (Type_.read cfg)) _)

end gpos

/-! ## Glyph definition -/
namespace gdef

instance : Calm e Attachment.read counted := by calm Attachment.read
instance : Calm e Attachments.read counted := by calm Attachments.read
instance : Calm e Caret1.read (fun _ => True) := by calm Caret1.read
instance : Calm e Caret2.read (fun _ => True) := by calm Caret2.read
instance : Calm e Caret3.read (fun _ => True) := by calm Caret3.read
instance : Calm e Caret.read (fun _ => True) := by calm_enum Caret.read
instance : Calm e Ligature.read counted := by calm Ligature.read
instance : Calm e Ligatures.read counted := by calm Ligatures.read
instance : Calm e Marks.read counted := by calm Marks.read

theorem calm_header {p : Nat} :
    Calmly e Header.read p (fun h => Small h ∧ (e.moved = 1 ∨ p < 2 ^ 63)) := by
  unfold Header.read
  calm_step
  split
  · refine calm_bind (Q := fun t => Small (.version1 t)) ?_ fun _ _ h =>
      calm_pure ⟨h, by assumption⟩
    unfold Header1.read
    iterate 6 calm_step
    exact calm_pure ⟨by assumption, by assumption, by assumption, by assumption, Nat.zero_lt_succ _, Nat.zero_lt_succ _⟩
  · refine calm_bind (Q := fun t => Small (.version12 t)) ?_ fun _ _ h =>
      calm_pure ⟨h, by assumption⟩
    unfold Header12.read
    iterate 7 calm_step
    exact calm_pure ⟨by assumption, by assumption, by assumption, by assumption, by assumption, Nat.zero_lt_succ _⟩
  · refine calm_bind (Q := fun t => Small (.version13 t)) ?_ fun _ _ h =>
      calm_pure ⟨h, by assumption⟩
    unfold Header13.read
    iterate 8 calm_step
    exact calm_pure
      ⟨by assumption, by assumption, by assumption, by assumption, by assumption, by assumption⟩
  · exact calm_raise

instance {cfg : Cfg} : Calm ⟨cfg.overflowChecks = true, m⟩ (GlyphDefinition.read cfg) counted := by
  constructor
  intro p
  unfold GlyphDefinition.read
  calm_step
  refine calm_bind (calm_header) fun _ _ ⟨⟨_, _, _, _, _, _⟩, _⟩ => ?_
  repeat calm_step

end gdef

/-! ## Color palettes -/
namespace cpal

instance : Calm e Color.read (fun _ => True) := by
  constructor
  intro p
  unfold Color.read
  repeat calm_step

theorem calm_header {p : Nat} :
    Calmly e Header.read p (fun h => (e.moved = 1 ∨ p < 2 ^ 63) ∧
      match h with
      | .version0 h => h.color_offset < 4294967296 ∧ h.color_indices.length = h.palette_count
      | .version1 h => h.color_offset < 4294967296 ∧ h.color_indices.length = h.palette_count) := by
  unfold Header.read
  calm_step
  split
  · refine calm_bind (Q := fun t => t.color_offset < 4294967296 ∧ t.color_indices.length = t.palette_count) ?_ fun _ _ h =>
      calm_pure ⟨by assumption, h⟩
    unfold Header0.read
    iterate 6 calm_step
    exact calm_pure (by calm_done)
  · refine calm_bind (Q := fun t => t.color_offset < 4294967296 ∧ t.color_indices.length = t.palette_count) ?_ fun _ _ h =>
      calm_pure ⟨by assumption, h⟩
    unfold Header1.read
    iterate 6 calm_step
    exact calm_pure (by calm_done)
  · exact calm_raise

instance : Calm e ColorPalettes.read counted := by
  constructor
  intro p
  unfold ColorPalettes.read
  calm_step
  refine calm_bind (calm_header) fun h _ hh => ?_
  cases h with
  | version0 h =>
    refine calm_bind (calm_jumpTake (by have := hh.1; omega) (Nat.lt_trans hh.2.1 (by decide)) Calm.calm) fun _ _ h => ?_
    exact calm_pure ⟨hh.2.2, h.1⟩
  | version1 h =>
    refine calm_bind (calm_jumpTake (by have := hh.1; omega) (Nat.lt_trans hh.2.1 (by decide)) Calm.calm) fun _ _ h => ?_
    exact calm_pure ⟨hh.2.2, h.1⟩

end cpal

/-! ## Font variations -/
namespace fvar

theorem calm_header {p : Nat} :
    Calmly e Header.read p (fun h => (e.moved = 1 ∨ p < 2 ^ 63) ∧ h.axis_offset < 65536 ∧
      h.axis_count < 65536 ∧ h.axis_size < 65536 ∧ h.instance_count < 65536 ∧
      h.instance_size < 65536) := by
  unfold Header.read
  iterate 8 calm_step
  exact calm_pure ⟨by assumption, by assumption, by assumption, by assumption, by assumption,
    by assumption⟩

instance {cfg : Cfg} : Calm e (AxisRecord.read cfg) (fun _ => True) := by calm AxisRecord.read
instance {cfg : Cfg} {n : Nat} : Calm e (InstanceRecord.read cfg n) (fun t => t.coordinates.length = n) := by
  calm InstanceRecord.read

theorem calm_loop {α : Type} {r : Reader α} {P : α → Prop} [h : Calm e r P] {b s n p : Nat}
    (hb : ∀ i < n, b + i * s < 2 ^ 64) :
    Calmly e (forFrom (fun i => do let o ← mulU64 i s; let q ← addU64 b o; jump q; r) 0 n) p
      (fun xs => xs.length = n ∧ ∀ x ∈ xs, P x) := by
  refine calm_forFrom fun j _ hj p => ?_
  have := hb j (by omega)
  exact calm_mulU64 (by omega) (calm_addU64 this (calm_bind_jump (h.calm _)))

instance {cfg : Cfg} : Calm e (FontVariations.read cfg) counted := by
  constructor
  intro p
  unfold FontVariations.read
  calm_step
  refine calm_bind (calm_header) fun h _ ⟨h0, h1, h2, h3, h4, h5⟩ => ?_
  have m : h.axis_count * h.axis_size ≤ 65535 * 65535 := Nat.mul_le_mul (by omega) (by omega)
  refine calm_addU64 (by omega) ?_
  refine calm_bind (calm_loop fun i hi => ?_) fun _ _ _ => ?_
  · have : i * h.axis_size ≤ 65535 * 65535 := Nat.mul_le_mul (by omega) (by omega)
    omega
  refine calm_mulU64 (by omega) ?_
  refine calm_addU64 (by omega) ?_
  refine calm_bind (calm_loop fun i hi => ?_) fun _ _ _ => ?_
  · have : i * h.instance_size ≤ 65535 * 65535 := Nat.mul_le_mul (by omega) (by omega)
    omega
  calm_step

end fvar
end OpenType
