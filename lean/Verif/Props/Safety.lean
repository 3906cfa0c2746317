import Verif.Proof.Safety
import Verif.Props.Sample
/-! # C39, C40, C41, C50: panics, appended bytes, relocation, bytes before a table

Each property is a predicate on readers, and each theorem lists the readers: every table and every part of one
that has a reader of its own. The readers that take the position of an enclosing table as a parameter come
separately. The item variation store and the tables holding it can panic in a build with overflow checks. -/

namespace OpenType.Props
open OpenType

/-! ## C39 -/

/-- Reading any tape of less than `2^63` bytes at any position does not panic. -/
def NeverPanics {α : Type} (r : Reader α) : Prop :=
  ∀ d p m, Fits d → r d p ≠ .error (.panic m)

theorem neverPanics {α : Type} {r : Reader α} {P : α → Prop} [h : Reloc False r P] : NeverPanics r :=
  fun _ _ _ hd hm => panic_only_if (e := False) (r := r) hd hm

/-- No reader panics, in any configuration, except possibly that of the item variation store and of the glyph
definition, which holds one. -/
theorem C39_no_panic_partial (cfg : Cfg) (n m : Nat) :
    NeverPanics (coverage.Coverage.read) ∧
    NeverPanics (class_.Class.read) ∧
    NeverPanics (correction.Correction.read) ∧
    NeverPanics (correction.Device.read) ∧
    NeverPanics (correction.Variation.read) ∧
    NeverPanics (context.Action.read) ∧
    NeverPanics (context.Record.read) ∧
    NeverPanics (context.Records.read) ∧
    NeverPanics (context.ClassRecord.read) ∧
    NeverPanics (context.ClassRecords.read) ∧
    NeverPanics (context.ChainedRecord.read) ∧
    NeverPanics (context.ChainedRecords.read) ∧
    NeverPanics (context.ChainedClassRecord.read) ∧
    NeverPanics (context.ChainedClassRecords.read) ∧
    NeverPanics (context.Context.read) ∧
    NeverPanics (context.ChainedContext.read) ∧
    NeverPanics (language.Record.read) ∧
    NeverPanics (script.Record.read) ∧
    NeverPanics (script.Scripts.read) ∧
    NeverPanics (feature.Record.read) ∧
    NeverPanics (feature.Features.read) ∧
    NeverPanics (feature.Variations.read) ∧
    NeverPanics (lookup.Record.read cfg gsub.Type_.read) ∧
    NeverPanics (lookup.Record.read cfg (gpos.Type_.read cfg)) ∧
    NeverPanics (lookup.Lookups.read cfg gsub.Type_.read) ∧
    NeverPanics (lookup.Lookups.read cfg (gpos.Type_.read cfg)) ∧
    NeverPanics (gsub.Alternates.read) ∧
    NeverPanics (gsub.Ligature.read) ∧
    NeverPanics (gsub.Ligatures.read) ∧
    NeverPanics (gsub.Sequence.read) ∧
    NeverPanics (gsub.SingleSubstitution.read) ∧
    NeverPanics (gsub.MultipleSubstitution.read) ∧
    NeverPanics (gsub.AlternateSubstitution.read) ∧
    NeverPanics (gsub.LigatureSubstitution.read) ∧
    NeverPanics (gsub.ExtensionSubstitution.read) ∧
    NeverPanics (gsub.ReverseChainedContextualSubstibution.read) ∧
    NeverPanics (gsub.Type_.read n) ∧
    NeverPanics (gsub.GlyphSubstitution.read cfg) ∧
    NeverPanics (gpos.Anchor.read) ∧
    NeverPanics (gpos.Pair1s.read n m) ∧
    NeverPanics (gpos.Bases.read n) ∧
    NeverPanics (gpos.Ligature.read n) ∧
    NeverPanics (gpos.Ligatures.read n) ∧
    NeverPanics (gpos.Mark1s.read cfg) ∧
    NeverPanics (gpos.Mark2s.read n) ∧
    NeverPanics (gpos.SingleAdjustment.read cfg) ∧
    NeverPanics (gpos.PairAdjustment.read cfg) ∧
    NeverPanics (gpos.CursiveAttachment.read) ∧
    NeverPanics (gpos.MarkToBaseAttachment.read cfg) ∧
    NeverPanics (gpos.MarkToLigatureAttachment.read cfg) ∧
    NeverPanics (gpos.MarkToMarkAttachment.read cfg) ∧
    NeverPanics (gpos.ExtensionPositioning.read) ∧
    NeverPanics (gpos.Type_.read cfg n) ∧
    NeverPanics (gpos.GlyphPositioning.read cfg) ∧
    NeverPanics (gdef.Attachment.read) ∧
    NeverPanics (gdef.Attachments.read) ∧
    NeverPanics (gdef.Caret.read) ∧
    NeverPanics (gdef.Ligature.read) ∧
    NeverPanics (gdef.Ligatures.read) ∧
    NeverPanics (gdef.Marks.read) ∧
    NeverPanics (cpal.Color.read) ∧
    NeverPanics (cpal.ColorPalettes.read) ∧
    NeverPanics (fvar.AxisRecord.read cfg) ∧
    NeverPanics (fvar.InstanceRecord.read cfg n) ∧
    NeverPanics (fvar.FontVariations.read cfg) := by
  refine ⟨?_, ?_, ?_, ?_, ?_, ?_, ?_, ?_, ?_, ?_, ?_, ?_, ?_, ?_, ?_, ?_, ?_, ?_, ?_, ?_, ?_, ?_, ?_, ?_, ?_, ?_, ?_, ?_, ?_, ?_, ?_, ?_, ?_, ?_, ?_, ?_, ?_, ?_, ?_, ?_, ?_, ?_, ?_, ?_, ?_, ?_, ?_, ?_, ?_, ?_, ?_, ?_, ?_, ?_, ?_, ?_, ?_, ?_, ?_, ?_, ?_, ?_, ?_, ?_, ?_⟩
  all_goals exact neverPanics

/-- The item variation store and the glyph definition do not panic in a build without overflow checks. -/
theorem C39_no_panic_release_partial (cfg : Cfg) (h : cfg.overflowChecks = false) :
    NeverPanics (item.Record.read cfg) ∧
    NeverPanics (item.Store.read cfg) ∧
    NeverPanics (gdef.GlyphDefinition.read cfg) := by
  refine ⟨?_, ?_, ?_⟩
  all_goals
    intro d p m hd hm
    have := panic_only_if (e := cfg.overflowChecks = true) hd hm
    rw [h] at this
    cases this

/-- The readers that count offsets from an enclosing table at a position `b` within the addressable range. -/
theorem C39_no_panic_based_partial (cfg : Cfg) (b c n m : Nat) (hb : b < 2 ^ 63) :
    NeverPanics (gpos.Single.read b n) ∧
    NeverPanics (gpos.Pair1.read b n m) ∧
    NeverPanics (gpos.Pair2.read b n m) ∧
    NeverPanics (gpos.Pair2s.read b c n m) ∧
    NeverPanics (gpos.Base.read b n) ∧
    NeverPanics (gpos.Component.read b n) ∧
    NeverPanics (gpos.Connection.read b) ∧
    NeverPanics (gpos.Mark1.read cfg b) ∧
    NeverPanics (gpos.Mark2.read b n) := by
  have key : ∀ {α : Type} (r : Nat → Reader α) [RelocFrom False r], NeverPanics (r b) := by
    intro α r h d p m hd hm
    have := h.good (ext_refl d) hd (by omega : 0 + b < 2 ^ 63) p
    unfold Good at this
    rw [hm] at this
    exact this.1
  exact ⟨key (fun b => gpos.Single.read b n), key (fun b => gpos.Pair1.read b n m),
    key (fun b => gpos.Pair2.read b n m), key (fun b => gpos.Pair2s.read b c n m),
    key (fun b => gpos.Base.read b n), key (fun b => gpos.Component.read b n),
    key gpos.Connection.read, key (gpos.Mark1.read cfg), key (fun b => gpos.Mark2.read b n)⟩

/-- A glyph definition of 38 bytes, version 1.3, whose mark offset leads to an item variation store with one
record: no items, 65535 short deltas and one region. -/
def panickingGdef : Data := bytes <|
  [0, 1, 0, 3,  0, 0,  0, 0,  0, 0,  0, 0,  0, 18,  0, 0, 0, 0] ++
  [0, 1,  0, 0, 0, 0,  0, 1,  0, 0, 0, 12] ++
  [0, 0,  255, 255,  0, 1,  0, 0]

/-- The property does not hold of the glyph definition (nor of the item variation store) in a build with
overflow checks. -/
theorem C39_gdef_panics (cfg : Cfg) (h : cfg.overflowChecks = true) :
    gdef.GlyphDefinition.read cfg panickingGdef 0 = .error (.panic "attempt to add with overflow") ∧
    item.Store.read cfg panickingGdef 18 = .error (.panic "attempt to add with overflow") ∧
    ¬NeverPanics (gdef.GlyphDefinition.read cfg) ∧ ¬NeverPanics (item.Store.read cfg) := by
  have h1 : gdef.GlyphDefinition.read cfg panickingGdef 0 =
      .error (.panic "attempt to add with overflow") := by
    obtain ⟨a, b, c, d, e, f⟩ := cfg
    cases h
    cases a <;> cases b <;> cases c <;> cases d <;> cases f <;> decide +kernel
  have h2 : item.Store.read cfg panickingGdef 18 = .error (.panic "attempt to add with overflow") := by
    obtain ⟨a, b, c, d, e, f⟩ := cfg
    cases h
    cases a <;> cases b <;> cases c <;> cases d <;> cases f <;> decide +kernel
  exact ⟨h1, h2, fun hn => hn _ _ _ (by decide +kernel) h1, fun hn => hn _ _ _ (by decide +kernel) h2⟩

/-! ## C40 -/

/-- Appending bytes changes neither a success nor a failure that is not about missing data. -/
def AppendStable {α : Type} (r : Reader α) : Prop :=
  ∀ d s p, Fits (d ++ s) →
    (∀ v q, r d p = .ok (v, q) → r (d ++ s) p = .ok (v, q)) ∧
    (∀ m, r d p = .error (.malformed m) → r (d ++ s) p = .error (.malformed m)) ∧
    (∀ m, r d p = .error (.panic m) → r (d ++ s) p = .error (.panic m))

theorem appendStable {e : Prop} {α : Type} {r : Reader α} {P : α → Prop} [h : Reloc e r P] :
    AppendStable r := by
  intro d s p hd
  have hx : Ext d (d ++ s) 0 := ext_mid [] d s
  have := moved (e := e) (r := r) hx hd (p := p)
  simp only [Nat.zero_add] at this
  exact ⟨this.1, this.2.1, this.2.2.2⟩

/-- Appending bytes never changes a conclusive result, for every reader and configuration. -/
theorem C40_append (cfg : Cfg) (n m : Nat) :
    AppendStable (coverage.Coverage.read) ∧
    AppendStable (class_.Class.read) ∧
    AppendStable (correction.Correction.read) ∧
    AppendStable (correction.Device.read) ∧
    AppendStable (correction.Variation.read) ∧
    AppendStable (context.Action.read) ∧
    AppendStable (context.Record.read) ∧
    AppendStable (context.Records.read) ∧
    AppendStable (context.ClassRecord.read) ∧
    AppendStable (context.ClassRecords.read) ∧
    AppendStable (context.ChainedRecord.read) ∧
    AppendStable (context.ChainedRecords.read) ∧
    AppendStable (context.ChainedClassRecord.read) ∧
    AppendStable (context.ChainedClassRecords.read) ∧
    AppendStable (context.Context.read) ∧
    AppendStable (context.ChainedContext.read) ∧
    AppendStable (language.Record.read) ∧
    AppendStable (script.Record.read) ∧
    AppendStable (script.Scripts.read) ∧
    AppendStable (feature.Record.read) ∧
    AppendStable (feature.Features.read) ∧
    AppendStable (feature.Variations.read) ∧
    AppendStable (lookup.Record.read cfg gsub.Type_.read) ∧
    AppendStable (lookup.Record.read cfg (gpos.Type_.read cfg)) ∧
    AppendStable (lookup.Lookups.read cfg gsub.Type_.read) ∧
    AppendStable (lookup.Lookups.read cfg (gpos.Type_.read cfg)) ∧
    AppendStable (gsub.Alternates.read) ∧
    AppendStable (gsub.Ligature.read) ∧
    AppendStable (gsub.Ligatures.read) ∧
    AppendStable (gsub.Sequence.read) ∧
    AppendStable (gsub.SingleSubstitution.read) ∧
    AppendStable (gsub.MultipleSubstitution.read) ∧
    AppendStable (gsub.AlternateSubstitution.read) ∧
    AppendStable (gsub.LigatureSubstitution.read) ∧
    AppendStable (gsub.ExtensionSubstitution.read) ∧
    AppendStable (gsub.ReverseChainedContextualSubstibution.read) ∧
    AppendStable (gsub.Type_.read n) ∧
    AppendStable (gsub.GlyphSubstitution.read cfg) ∧
    AppendStable (gpos.Anchor.read) ∧
    AppendStable (gpos.Pair1s.read n m) ∧
    AppendStable (gpos.Bases.read n) ∧
    AppendStable (gpos.Ligature.read n) ∧
    AppendStable (gpos.Ligatures.read n) ∧
    AppendStable (gpos.Mark1s.read cfg) ∧
    AppendStable (gpos.Mark2s.read n) ∧
    AppendStable (gpos.SingleAdjustment.read cfg) ∧
    AppendStable (gpos.PairAdjustment.read cfg) ∧
    AppendStable (gpos.CursiveAttachment.read) ∧
    AppendStable (gpos.MarkToBaseAttachment.read cfg) ∧
    AppendStable (gpos.MarkToLigatureAttachment.read cfg) ∧
    AppendStable (gpos.MarkToMarkAttachment.read cfg) ∧
    AppendStable (gpos.ExtensionPositioning.read) ∧
    AppendStable (gpos.Type_.read cfg n) ∧
    AppendStable (gpos.GlyphPositioning.read cfg) ∧
    AppendStable (gdef.Attachment.read) ∧
    AppendStable (gdef.Attachments.read) ∧
    AppendStable (gdef.Caret.read) ∧
    AppendStable (gdef.Ligature.read) ∧
    AppendStable (gdef.Ligatures.read) ∧
    AppendStable (gdef.Marks.read) ∧
    AppendStable (cpal.Color.read) ∧
    AppendStable (cpal.ColorPalettes.read) ∧
    AppendStable (fvar.AxisRecord.read cfg) ∧
    AppendStable (fvar.InstanceRecord.read cfg n) ∧
    AppendStable (fvar.FontVariations.read cfg) ∧
    AppendStable (item.Record.read cfg) ∧
    AppendStable (item.Store.read cfg) ∧
    AppendStable (gdef.GlyphDefinition.read cfg) := by
  refine ⟨?_, ?_, ?_, ?_, ?_, ?_, ?_, ?_, ?_, ?_, ?_, ?_, ?_, ?_, ?_, ?_, ?_, ?_, ?_, ?_, ?_, ?_, ?_, ?_, ?_, ?_, ?_, ?_, ?_, ?_, ?_, ?_, ?_, ?_, ?_, ?_, ?_, ?_, ?_, ?_, ?_, ?_, ?_, ?_, ?_, ?_, ?_, ?_, ?_, ?_, ?_, ?_, ?_, ?_, ?_, ?_, ?_, ?_, ?_, ?_, ?_, ?_, ?_, ?_, ?_, ?_, ?_, ?_⟩
  all_goals first
    | exact appendStable (e := False)
    | exact appendStable (e := cfg.overflowChecks = true)

/-! ## C41 -/

/-- Moving the bytes to another place, with anything before and after, changes neither the value nor the
failure, unless that is about missing data. -/
def Relocatable {α : Type} (r : Reader α) : Prop :=
  ∀ before d after p, Fits (before ++ d ++ after) →
    (∀ v, Reads r d p v → Reads r (before ++ d ++ after) (before.length + p) v) ∧
    (∀ m, r d p = .error (.malformed m) →
      r (before ++ d ++ after) (before.length + p) = .error (.malformed m))

theorem relocatable {e : Prop} {α : Type} {r : Reader α} {P : α → Prop} [h : Reloc e r P] :
    Relocatable r := by
  intro before d after p hd
  have := moved (e := e) (r := r) (ext_mid before d after) hd (p := p)
  refine ⟨?_, this.2.1⟩
  rintro v ⟨q, hq⟩
  exact ⟨_, this.1 v q hq⟩

/-- Every table and part of one is relocatable. -/
theorem C41_relocatable (cfg : Cfg) (n m : Nat) :
    Relocatable (coverage.Coverage.read) ∧
    Relocatable (class_.Class.read) ∧
    Relocatable (correction.Correction.read) ∧
    Relocatable (correction.Device.read) ∧
    Relocatable (correction.Variation.read) ∧
    Relocatable (context.Action.read) ∧
    Relocatable (context.Record.read) ∧
    Relocatable (context.Records.read) ∧
    Relocatable (context.ClassRecord.read) ∧
    Relocatable (context.ClassRecords.read) ∧
    Relocatable (context.ChainedRecord.read) ∧
    Relocatable (context.ChainedRecords.read) ∧
    Relocatable (context.ChainedClassRecord.read) ∧
    Relocatable (context.ChainedClassRecords.read) ∧
    Relocatable (context.Context.read) ∧
    Relocatable (context.ChainedContext.read) ∧
    Relocatable (language.Record.read) ∧
    Relocatable (script.Record.read) ∧
    Relocatable (script.Scripts.read) ∧
    Relocatable (feature.Record.read) ∧
    Relocatable (feature.Features.read) ∧
    Relocatable (feature.Variations.read) ∧
    Relocatable (lookup.Record.read cfg gsub.Type_.read) ∧
    Relocatable (lookup.Record.read cfg (gpos.Type_.read cfg)) ∧
    Relocatable (lookup.Lookups.read cfg gsub.Type_.read) ∧
    Relocatable (lookup.Lookups.read cfg (gpos.Type_.read cfg)) ∧
    Relocatable (gsub.Alternates.read) ∧
    Relocatable (gsub.Ligature.read) ∧
    Relocatable (gsub.Ligatures.read) ∧
    Relocatable (gsub.Sequence.read) ∧
    Relocatable (gsub.SingleSubstitution.read) ∧
    Relocatable (gsub.MultipleSubstitution.read) ∧
    Relocatable (gsub.AlternateSubstitution.read) ∧
    Relocatable (gsub.LigatureSubstitution.read) ∧
    Relocatable (gsub.ExtensionSubstitution.read) ∧
    Relocatable (gsub.ReverseChainedContextualSubstibution.read) ∧
    Relocatable (gsub.Type_.read n) ∧
    Relocatable (gsub.GlyphSubstitution.read cfg) ∧
    Relocatable (gpos.Anchor.read) ∧
    Relocatable (gpos.Pair1s.read n m) ∧
    Relocatable (gpos.Bases.read n) ∧
    Relocatable (gpos.Ligature.read n) ∧
    Relocatable (gpos.Ligatures.read n) ∧
    Relocatable (gpos.Mark1s.read cfg) ∧
    Relocatable (gpos.Mark2s.read n) ∧
    Relocatable (gpos.SingleAdjustment.read cfg) ∧
    Relocatable (gpos.PairAdjustment.read cfg) ∧
    Relocatable (gpos.CursiveAttachment.read) ∧
    Relocatable (gpos.MarkToBaseAttachment.read cfg) ∧
    Relocatable (gpos.MarkToLigatureAttachment.read cfg) ∧
    Relocatable (gpos.MarkToMarkAttachment.read cfg) ∧
    Relocatable (gpos.ExtensionPositioning.read) ∧
    Relocatable (gpos.Type_.read cfg n) ∧
    Relocatable (gpos.GlyphPositioning.read cfg) ∧
    Relocatable (gdef.Attachment.read) ∧
    Relocatable (gdef.Attachments.read) ∧
    Relocatable (gdef.Caret.read) ∧
    Relocatable (gdef.Ligature.read) ∧
    Relocatable (gdef.Ligatures.read) ∧
    Relocatable (gdef.Marks.read) ∧
    Relocatable (cpal.Color.read) ∧
    Relocatable (cpal.ColorPalettes.read) ∧
    Relocatable (fvar.AxisRecord.read cfg) ∧
    Relocatable (fvar.InstanceRecord.read cfg n) ∧
    Relocatable (fvar.FontVariations.read cfg) ∧
    Relocatable (item.Record.read cfg) ∧
    Relocatable (item.Store.read cfg) ∧
    Relocatable (gdef.GlyphDefinition.read cfg) := by
  refine ⟨?_, ?_, ?_, ?_, ?_, ?_, ?_, ?_, ?_, ?_, ?_, ?_, ?_, ?_, ?_, ?_, ?_, ?_, ?_, ?_, ?_, ?_, ?_, ?_, ?_, ?_, ?_, ?_, ?_, ?_, ?_, ?_, ?_, ?_, ?_, ?_, ?_, ?_, ?_, ?_, ?_, ?_, ?_, ?_, ?_, ?_, ?_, ?_, ?_, ?_, ?_, ?_, ?_, ?_, ?_, ?_, ?_, ?_, ?_, ?_, ?_, ?_, ?_, ?_, ?_, ?_, ?_, ?_⟩
  all_goals first
    | exact relocatable (e := False)
    | exact relocatable (e := cfg.overflowChecks = true)

/-! ## C50 -/

/-- What a reader concludes, without where it leaves the tape. -/
def conclusion {α : Type} : Except Err (α × Nat) → Except Err α
  | .ok (x, _) => .ok x
  | .error e => .error e

/-- The result, be it a success or a failure of any kind, depends only on the bytes from the start on. -/
def DependsOnRest {α : Type} (r : Reader α) : Prop :=
  ∀ d d' p p', Fits d → Fits d' → d.drop p = d'.drop p' → conclusion (r d p) = conclusion (r d' p')

theorem conclusion_drop {e : Prop} {α : Type} {r : Reader α} {P : α → Prop} [h : Reloc e r P] {d : Data}
    (hd : Fits d) (p : Nat) : conclusion (r d p) = conclusion (r (d.drop p) 0) := by
  have := moved (e := e) (r := r) (ext_drop d p) hd (p := 0)
  rw [Nat.add_zero] at this
  obtain ⟨h1, h2, h3, h4⟩ := this
  cases hr : r (d.drop p) 0 with
  | ok x => obtain ⟨v, q⟩ := x; rw [h1 v q hr]; rfl
  | error x =>
    cases x with
    | eof => rw [h3 (tight_drop d p) hr]
    | malformed m => rw [h2 m hr]
    | panic m => rw [h4 m hr]

theorem dependsOnRest {e : Prop} {α : Type} {r : Reader α} {P : α → Prop} [h : Reloc e r P] :
    DependsOnRest r := by
  intro d d' p p' hd hd' hr
  rw [conclusion_drop (e := e) hd p, conclusion_drop (e := e) hd' p', hr]

/-- Every reader depends only on the bytes from the start on. -/
theorem C50_depends_on_rest (cfg : Cfg) (n m : Nat) :
    DependsOnRest (coverage.Coverage.read) ∧
    DependsOnRest (class_.Class.read) ∧
    DependsOnRest (correction.Correction.read) ∧
    DependsOnRest (correction.Device.read) ∧
    DependsOnRest (correction.Variation.read) ∧
    DependsOnRest (context.Action.read) ∧
    DependsOnRest (context.Record.read) ∧
    DependsOnRest (context.Records.read) ∧
    DependsOnRest (context.ClassRecord.read) ∧
    DependsOnRest (context.ClassRecords.read) ∧
    DependsOnRest (context.ChainedRecord.read) ∧
    DependsOnRest (context.ChainedRecords.read) ∧
    DependsOnRest (context.ChainedClassRecord.read) ∧
    DependsOnRest (context.ChainedClassRecords.read) ∧
    DependsOnRest (context.Context.read) ∧
    DependsOnRest (context.ChainedContext.read) ∧
    DependsOnRest (language.Record.read) ∧
    DependsOnRest (script.Record.read) ∧
    DependsOnRest (script.Scripts.read) ∧
    DependsOnRest (feature.Record.read) ∧
    DependsOnRest (feature.Features.read) ∧
    DependsOnRest (feature.Variations.read) ∧
    DependsOnRest (lookup.Record.read cfg gsub.Type_.read) ∧
    DependsOnRest (lookup.Record.read cfg (gpos.Type_.read cfg)) ∧
    DependsOnRest (lookup.Lookups.read cfg gsub.Type_.read) ∧
    DependsOnRest (lookup.Lookups.read cfg (gpos.Type_.read cfg)) ∧
    DependsOnRest (gsub.Alternates.read) ∧
    DependsOnRest (gsub.Ligature.read) ∧
    DependsOnRest (gsub.Ligatures.read) ∧
    DependsOnRest (gsub.Sequence.read) ∧
    DependsOnRest (gsub.SingleSubstitution.read) ∧
    DependsOnRest (gsub.MultipleSubstitution.read) ∧
    DependsOnRest (gsub.AlternateSubstitution.read) ∧
    DependsOnRest (gsub.LigatureSubstitution.read) ∧
    DependsOnRest (gsub.ExtensionSubstitution.read) ∧
    DependsOnRest (gsub.ReverseChainedContextualSubstibution.read) ∧
    DependsOnRest (gsub.Type_.read n) ∧
    DependsOnRest (gsub.GlyphSubstitution.read cfg) ∧
    DependsOnRest (gpos.Anchor.read) ∧
    DependsOnRest (gpos.Pair1s.read n m) ∧
    DependsOnRest (gpos.Bases.read n) ∧
    DependsOnRest (gpos.Ligature.read n) ∧
    DependsOnRest (gpos.Ligatures.read n) ∧
    DependsOnRest (gpos.Mark1s.read cfg) ∧
    DependsOnRest (gpos.Mark2s.read n) ∧
    DependsOnRest (gpos.SingleAdjustment.read cfg) ∧
    DependsOnRest (gpos.PairAdjustment.read cfg) ∧
    DependsOnRest (gpos.CursiveAttachment.read) ∧
    DependsOnRest (gpos.MarkToBaseAttachment.read cfg) ∧
    DependsOnRest (gpos.MarkToLigatureAttachment.read cfg) ∧
    DependsOnRest (gpos.MarkToMarkAttachment.read cfg) ∧
    DependsOnRest (gpos.ExtensionPositioning.read) ∧
    DependsOnRest (gpos.Type_.read cfg n) ∧
    DependsOnRest (gpos.GlyphPositioning.read cfg) ∧
    DependsOnRest (gdef.Attachment.read) ∧
    DependsOnRest (gdef.Attachments.read) ∧
    DependsOnRest (gdef.Caret.read) ∧
    DependsOnRest (gdef.Ligature.read) ∧
    DependsOnRest (gdef.Ligatures.read) ∧
    DependsOnRest (gdef.Marks.read) ∧
    DependsOnRest (cpal.Color.read) ∧
    DependsOnRest (cpal.ColorPalettes.read) ∧
    DependsOnRest (fvar.AxisRecord.read cfg) ∧
    DependsOnRest (fvar.InstanceRecord.read cfg n) ∧
    DependsOnRest (fvar.FontVariations.read cfg) ∧
    DependsOnRest (item.Record.read cfg) ∧
    DependsOnRest (item.Store.read cfg) ∧
    DependsOnRest (gdef.GlyphDefinition.read cfg) := by
  refine ⟨?_, ?_, ?_, ?_, ?_, ?_, ?_, ?_, ?_, ?_, ?_, ?_, ?_, ?_, ?_, ?_, ?_, ?_, ?_, ?_, ?_, ?_, ?_, ?_, ?_, ?_, ?_, ?_, ?_, ?_, ?_, ?_, ?_, ?_, ?_, ?_, ?_, ?_, ?_, ?_, ?_, ?_, ?_, ?_, ?_, ?_, ?_, ?_, ?_, ?_, ?_, ?_, ?_, ?_, ?_, ?_, ?_, ?_, ?_, ?_, ?_, ?_, ?_, ?_, ?_, ?_, ?_, ?_⟩
  all_goals first
    | exact dependsOnRest (e := False)
    | exact dependsOnRest (e := cfg.overflowChecks = true)

/-! ## Instances -/

/-- A coverage of format 2 with one range, at position 3 with three bytes before it and one after. -/
def sampleCoverage : Data := bytes [9, 9, 9,  0, 2,  0, 1,  0, 5,  0, 7,  0, 0,  8]

example : Reads coverage.Coverage.read sampleCoverage 3 (.format2 ⟨2, 1, [⟨5, 7, 0⟩]⟩) ∧
    Reads coverage.Coverage.read (bytes [1, 2] ++ sampleCoverage ++ bytes [3, 4]) 5
      (.format2 ⟨2, 1, [⟨5, 7, 0⟩]⟩) ∧
    Reads coverage.Coverage.read (sampleCoverage.drop 3) 0 (.format2 ⟨2, 1, [⟨5, 7, 0⟩]⟩) := by
  decide +kernel

/-- Running out of data is the one conclusion that more data can change. -/
example : coverage.Coverage.read (bytes [0, 1, 0, 1]) 0 = .error .eof ∧
    Reads coverage.Coverage.read (bytes [0, 1, 0, 1, 0, 6]) 0 (.format1 ⟨1, 1, [6]⟩) := by
  decide +kernel

end OpenType.Props
