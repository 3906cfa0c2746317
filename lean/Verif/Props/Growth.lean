import Verif.Proof.Growth
import Verif.Proof.DeviceTables
import Verif.Props.Generic
/-!
# C83: fonts that are still being written

The content of the tape grows while it is read (`Spec/Growth.lean`): bytes are appended, none is changed. -/

namespace OpenType.Props
open OpenType

/-- On any device whose content grows from `first` to `last`, starting anywhere: what the reader gives it gives on
`last`; if it reports the end of the data, it does so on `first`; any other error is that on `last`, or one of the
device. And on the beginning of a file it reports the end of the data or does what it does on all of the file. -/
def SurvivesGrowth {α : Type} (r : Reader α) : Prop :=
  (∀ (σ : Type) (device : Device σ) (first last : Data) (E : Err → Prop) (stands : σ → Nat → Prop),
    first <+: last → ServesGrowing device first last E stands → ∀ s p, stands s p →
      match r.exec device s with
      | (.ok a, s') => ∃ q, r last p = .ok (a, q) ∧ stands s' q
      | (.error e, s') => ((e ≠ .eof ∧ r last p = .error e) ∨ (e = .eof ∧ r first p = .error .eof) ∨ E e) ∧
          ∃ q, stands s' q) ∧
  (∀ (first last : Data) (p : Nat), first <+: last → r first p = .error .eof ∨ r first p = r last p)

theorem survivesGrowth {α : Type} {r : Reader α} [h : Stops r] : SurvivesGrowth r :=
  ⟨fun _ _ _ _ _ _ hl hs _ _ hp => exec_grows hl hs h.stops hp, fun _ _ p hl => stops_prefix h.stops hl p⟩

/-- Every reader survives the growth of its tape. -/
theorem C83_growth (cfg : Cfg) (n m b c : Nat) (accept : Tag → Bool) (record : offsets.Record) :
    SurvivesGrowth (coverage.Coverage.read) ∧
    SurvivesGrowth (class_.Class.read) ∧
    SurvivesGrowth (correction.Correction.read) ∧
    SurvivesGrowth (correction.Device.read) ∧
    SurvivesGrowth (correction.Variation.read) ∧
    SurvivesGrowth (context.Action.read) ∧
    SurvivesGrowth (context.Record.read) ∧
    SurvivesGrowth (context.Records.read) ∧
    SurvivesGrowth (context.ClassRecord.read) ∧
    SurvivesGrowth (context.ClassRecords.read) ∧
    SurvivesGrowth (context.ChainedRecord.read) ∧
    SurvivesGrowth (context.ChainedRecords.read) ∧
    SurvivesGrowth (context.ChainedClassRecord.read) ∧
    SurvivesGrowth (context.ChainedClassRecords.read) ∧
    SurvivesGrowth (context.Context.read) ∧
    SurvivesGrowth (context.ChainedContext.read) ∧
    SurvivesGrowth (language.Record.read) ∧
    SurvivesGrowth (script.Record.read) ∧
    SurvivesGrowth (script.Scripts.read) ∧
    SurvivesGrowth (feature.Record.read) ∧
    SurvivesGrowth (feature.Features.read) ∧
    SurvivesGrowth (feature.Variations.read) ∧
    SurvivesGrowth (lookup.Record.read cfg gsub.Type_.read) ∧
    SurvivesGrowth (lookup.Record.read cfg (gpos.Type_.read cfg)) ∧
    SurvivesGrowth (lookup.Lookups.read cfg gsub.Type_.read) ∧
    SurvivesGrowth (lookup.Lookups.read cfg (gpos.Type_.read cfg)) ∧
    SurvivesGrowth (gsub.Alternates.read) ∧
    SurvivesGrowth (gsub.Ligature.read) ∧
    SurvivesGrowth (gsub.Ligatures.read) ∧
    SurvivesGrowth (gsub.Sequence.read) ∧
    SurvivesGrowth (gsub.SingleSubstitution.read) ∧
    SurvivesGrowth (gsub.MultipleSubstitution.read) ∧
    SurvivesGrowth (gsub.AlternateSubstitution.read) ∧
    SurvivesGrowth (gsub.LigatureSubstitution.read) ∧
    SurvivesGrowth (gsub.ExtensionSubstitution.read) ∧
    SurvivesGrowth (gsub.ReverseChainedContextualSubstibution.read) ∧
    SurvivesGrowth (gsub.Type_.read n) ∧
    SurvivesGrowth (gsub.GlyphSubstitution.read cfg) ∧
    SurvivesGrowth (gpos.Anchor.read) ∧
    SurvivesGrowth (gpos.Pair1s.read n m) ∧
    SurvivesGrowth (gpos.Bases.read n) ∧
    SurvivesGrowth (gpos.Ligature.read n) ∧
    SurvivesGrowth (gpos.Ligatures.read n) ∧
    SurvivesGrowth (gpos.Mark1s.read cfg) ∧
    SurvivesGrowth (gpos.Mark2s.read n) ∧
    SurvivesGrowth (gpos.SingleAdjustment.read cfg) ∧
    SurvivesGrowth (gpos.PairAdjustment.read cfg) ∧
    SurvivesGrowth (gpos.CursiveAttachment.read) ∧
    SurvivesGrowth (gpos.MarkToBaseAttachment.read cfg) ∧
    SurvivesGrowth (gpos.MarkToLigatureAttachment.read cfg) ∧
    SurvivesGrowth (gpos.MarkToMarkAttachment.read cfg) ∧
    SurvivesGrowth (gpos.ExtensionPositioning.read) ∧
    SurvivesGrowth (gpos.Type_.read cfg n) ∧
    SurvivesGrowth (gpos.GlyphPositioning.read cfg) ∧
    SurvivesGrowth (gdef.Attachment.read) ∧
    SurvivesGrowth (gdef.Attachments.read) ∧
    SurvivesGrowth (gdef.Caret.read) ∧
    SurvivesGrowth (gdef.Ligature.read) ∧
    SurvivesGrowth (gdef.Ligatures.read) ∧
    SurvivesGrowth (gdef.Marks.read) ∧
    SurvivesGrowth (cpal.Color.read) ∧
    SurvivesGrowth (cpal.ColorPalettes.read) ∧
    SurvivesGrowth (fvar.AxisRecord.read cfg) ∧
    SurvivesGrowth (fvar.InstanceRecord.read cfg n) ∧
    SurvivesGrowth (fvar.FontVariations.read cfg) ∧
    SurvivesGrowth (item.Record.read cfg) ∧
    SurvivesGrowth (item.Store.read cfg) ∧
    SurvivesGrowth (gdef.GlyphDefinition.read cfg) ∧
    SurvivesGrowth (gpos.Single.read b n) ∧
    SurvivesGrowth (gpos.Pair1.read b n m) ∧
    SurvivesGrowth (gpos.Pair2.read b n m) ∧
    SurvivesGrowth (gpos.Pair2s.read b c n m) ∧
    SurvivesGrowth (gpos.Base.read b n) ∧
    SurvivesGrowth (gpos.Component.read b n) ∧
    SurvivesGrowth (gpos.Connection.read b) ∧
    SurvivesGrowth (gpos.Mark1.read cfg b) ∧
    SurvivesGrowth (gpos.Mark2.read b n) ∧
    SurvivesGrowth (File.read accept) ∧
    SurvivesGrowth (Font.read accept) ∧
    SurvivesGrowth (tableChecksum record) := by
  refine ⟨?_, ?_, ?_, ?_, ?_, ?_, ?_, ?_, ?_, ?_, ?_, ?_, ?_, ?_, ?_, ?_, ?_, ?_, ?_, ?_, ?_, ?_, ?_, ?_, ?_, ?_,
    ?_, ?_, ?_, ?_, ?_, ?_, ?_, ?_, ?_, ?_, ?_, ?_, ?_, ?_, ?_, ?_, ?_, ?_, ?_, ?_, ?_, ?_, ?_, ?_, ?_, ?_, ?_,
    ?_, ?_, ?_, ?_, ?_, ?_, ?_, ?_, ?_, ?_, ?_, ?_, ?_, ?_, ?_, ?_, ?_, ?_, ?_, ?_, ?_, ?_, ?_, ?_, ?_, ?_, ?_⟩
  all_goals exact survivesGrowth


theorem SurvivesGrowth.bind {α β : Type} {r : Reader α} {f : α → Reader β} (hr : SurvivesGrowth r)
    (hf : ∀ a, SurvivesGrowth (f a)) : SurvivesGrowth (r >>= f) := by
  refine ⟨fun σ device first last E stands hl hs s p hp => ?_, fun first last p hl => ?_⟩
  · have h1 := hr.1 σ device first last E stands hl hs s p hp
    have h2 := hr.2 first last p hl
    rw [exec_bind, run_bind_eq, run_bind_eq]
    cases h : r.exec device s with
    | mk x s' =>
      rw [h] at h1
      cases x with
      | ok a =>
        obtain ⟨q, hq, hs'⟩ := h1
        have h3 := (hf a).1 σ device first last E stands hl hs s' q hs'
        rw [hq] at h2 ⊢
        dsimp only at h3 ⊢
        cases h' : (f a).exec device s' with
        | mk y s2 =>
          rw [h'] at h3
          cases y with
          | ok b => exact h3
          | error e =>
            refine ⟨?_, h3.2⟩
            rcases h3.1 with h3 | ⟨he, h3⟩ | h3
            · exact .inl h3
            · refine .inr (.inl ⟨he, ?_⟩)
              rcases h2 with h2 | h2
              · rw [h2]
              · rw [h2]; exact h3
            · exact .inr (.inr h3)
      | error e =>
        refine ⟨?_, h1.2⟩
        rcases h1.1 with ⟨he, h1⟩ | ⟨he, h1⟩ | h1
        · rw [h1]; exact .inl ⟨he, rfl⟩
        · rw [h1]; exact .inr (.inl ⟨he, rfl⟩)
        · exact .inr (.inr h1)
  · rw [run_bind_eq, run_bind_eq]
    rcases hr.2 first last p hl with h | h
    · rw [h]; exact .inl rfl
    · rw [h]
      cases r last p with
      | error e => exact .inr rfl
      | ok x => exact (hf x.1).2 first last x.2 hl

/-- Taking a table survives the growth of the tape if the reader of the table does, be it one of the crate or not. -/
theorem C83_take {α P : Type} (cfg : Cfg) (font : Font) (table : TableType) :
    SurvivesGrowth (font.position cfg tableChecksum table) ∧
    (∀ r : Reader α, SurvivesGrowth r → SurvivesGrowth (font.take cfg tableChecksum table r)) ∧
    (∀ (r : P → Reader α) (parameter : P), SurvivesGrowth (r parameter) →
      SurvivesGrowth (font.take_given cfg tableChecksum table r parameter)) := by
  have key : ∀ r : Reader α, SurvivesGrowth r → SurvivesGrowth (font.take cfg tableChecksum table r) := by
    intro r hr
    refine .bind survivesGrowth fun x => ?_
    cases x with
    | none => exact survivesGrowth
    | some _ => exact .bind hr fun _ => survivesGrowth
  exact ⟨survivesGrowth, key, fun r parameter hr => key _ hr⟩

/-- Lookups and directories survive growth if their subtables do, be they of the crate or not. -/
theorem C83_layout {T : Type} (cfg : Cfg) (readTable : Nat → Reader T) (h : ∀ t, SurvivesGrowth (readTable t)) :
    ForLayout SurvivesGrowth cfg readTable :=
  have hs : Sequential SurvivesGrowth := ⟨fun _ _ => survivesGrowth, fun h hf => h.bind hf⟩
  ⟨hs.record h, hs.lookups h, hs.directory h⟩

/-- As soon as nothing is missing, on a device that does not fail, the conclusion is the final one, whatever is
appended meanwhile. -/
theorem C83_enough {α σ : Type} {r : Reader α} (hr : SurvivesGrowth r) (device : Device σ) {first last : Data}
    {stands : σ → Nat → Prop} (hl : first <+: last) (hs : ServesGrowing device first last (fun _ => False) stands)
    {s : σ} {p : Nat} (hp : stands s p) (h : r first p ≠ .error .eof) :
    (r.exec device s).1 = outcome (r last p) ∧ r first p = r last p := by
  refine ⟨?_, (hr.2 first last p hl).resolve_left h⟩
  have key := hr.1 σ device first last _ stands hl hs s p hp
  cases hx : r.exec device s with
  | mk x s' =>
    rw [hx] at key
    cases x with
    | ok a =>
      obtain ⟨q, hq, _⟩ := key
      rw [hq]
      rfl
    | error e =>
      rcases key.1 with ⟨_, h1⟩ | ⟨_, h1⟩ | h1
      · rw [h1]; rfl
      · exact absurd h1 h
      · exact h1.elim

/-- The reader of the requested table survives growth. -/
def Call.SurvivesGrowth : Call → Prop
  | .take _ _ r => Props.SurvivesGrowth r
  | .takeGiven _ _ _ r parameter => Props.SurvivesGrowth (r parameter)
  | .position _ => True

/-- In any session on a device whose content grows and which may fail, each call returns what it returns on a freshly
opened tape with all of the content; or it reports the end of the data, as it does on the content at the beginning of
the session; or an error of the device. -/
theorem C83_session {σ : Type} (cfg : Cfg) (font : Font) (device : Device σ) (first last : Data) (E : Err → Prop)
    (stands : σ → Nat → Prop) (hl : first <+: last) (hs : ServesGrowing device first last E stands) (calls : List Call)
    (hcalls : ∀ call ∈ calls, call.SurvivesGrowth) (s : σ) (p : Nat) (hp : stands s p) :
    ∀ entry ∈ session cfg tableChecksum font device calls s,
      entry.2 = outcome (entry.1.run cfg tableChecksum font last 0) ∨
      (entry.2 = .error .eof ∧ entry.1.run cfg tableChecksum font first 0 = .error .eof) ∨
      ∃ e, E e ∧ entry.2 = .error e := by
  induction calls generalizing s p with
  | nil => simp [session]
  | cons call calls ih =>
    have hcall : SurvivesGrowth (call.run cfg tableChecksum font) := by
      have := hcalls call (by simp)
      cases call with
      | take α table r => exact (C83_take (P := Unit) cfg font table).2.1 r this
      | takeGiven α P table r parameter => exact (C83_take cfg font table).2.2 r parameter this
      | position table => exact (C83_take (α := Unit) (P := Unit) cfg font table).1
    have key := hcall.1 σ device first last E stands hl hs s p hp
    have any := fun d => call_anywhere (cfg := cfg) C07_checksum_anywhere font call d p 0
    cases h : (call.run cfg tableChecksum font).exec device s with
    | mk x s' =>
      rw [h] at key
      intro entry he
      unfold session at he
      rw [h] at he
      cases x with
      | ok a =>
        obtain ⟨q, hq, hs'⟩ := key
        rcases List.mem_cons.mp he with rfl | he
        · left
          rw [← any, hq]
          rfl
        · exact ih (fun c hc => hcalls c (by simp [hc])) s' q hs' entry he
      | error e =>
        obtain ⟨h1, q, hs'⟩ := key
        rcases List.mem_cons.mp he with rfl | he
        · rcases h1 with ⟨_, h1⟩ | ⟨rfl, h1⟩ | h1
          · left
            rw [← any, h1]
            rfl
          · refine .inr (.inl ⟨rfl, ?_⟩)
            have := any first
            rw [h1] at this
            show Call.run cfg tableChecksum font call first 0 = _
            cases hx : Call.run cfg tableChecksum font call first 0 with
            | ok x => rw [hx] at this; cases this
            | error e => rw [hx] at this; cases this; rfl
          · exact .inr (.inr ⟨e, h1, rfl⟩)
        · exact ih (fun c hc => hcalls c (by simp [hc])) s' q hs' entry he

/-- Files that grow in any way qualify. -/
theorem C83_growing (last : Data) (size : Nat → Nat) (n : Nat) (h : ∀ i, n ≤ size i) :
    last.take n <+: last ∧ ServesGrowing (growing last size) (last.take n) last (fun _ => False) (·.1 = ·) :=
  ⟨List.take_prefix n last, growing_serves last size n h⟩

/-- A file of which one more byte is there whenever the tape is used. At first its directory is incomplete. A table is
read though it is not yet complete when its taking begins. -/
example :
    let call : Call := .take Nat .colorPalettes u32
    ((File.read sampleAccept).exec (growing sampleFont (· + 8)) (0, 0)).1 = .error .eof ∧
    (session defaultCfg tableChecksum sampleDirectory (growing sampleFont (· + 65)) [call, call] (0, 0)) =
      [⟨call, .ok (some 1)⟩, ⟨call, .ok (some 1)⟩] ∧
    call.run defaultCfg tableChecksum sampleDirectory (sampleFont.take 65) 0 = .error .eof ∧
    outcome (call.run defaultCfg tableChecksum sampleDirectory sampleFont 0) = .ok (some 1) ∧
    call.SurvivesGrowth :=
  ⟨rfl, rfl, rfl, rfl, survivesGrowth (r := u32)⟩

end OpenType.Props
