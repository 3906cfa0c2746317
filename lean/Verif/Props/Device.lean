import Verif.Proof.DeviceTables
import Verif.Props.Font
/-! # C61, C62: tapes that fail

The tape is any device giving access to some content whose operations may fail at any time, with any error
(`Spec/Device.lean`). -/

namespace OpenType.Props
open OpenType

/-! ## C61 -/

/-- Run on a device with content `d` that stands at `p` and may fail at any operation, the reader gives the value it
gives on a tape that works, and leaves the device where it leaves that tape; or it fails with the very error it fails
with on a tape that works, or with an error of the device. On a device that does not fail there is no difference. -/
def SurvivesFaults {α : Type} (r : Reader α) : Prop :=
  (∀ (σ : Type) (device : Device σ) (d : Data) (E : Err → Prop) (stands : σ → Nat → Prop),
    Serves device d E stands → ∀ s p, stands s p →
      match r.exec device s with
      | (.ok a, s') => ∃ q, r d p = .ok (a, q) ∧ stands s' q
      | (.error e, s') => (r d p = .error e ∨ E e) ∧ ∃ q, stands s' q) ∧
  (∀ (d : Data) (p : Nat),
    match r d p with
    | .ok (a, q) => r.exec (working d) p = (.ok a, q)
    | .error e => (r.exec (working d) p).1 = .error e)

theorem survivesFaults {α : Type} {r : Reader α} [h : Stops r] : SurvivesFaults r :=
  ⟨fun _ _ _ _ _ hs _ _ hp => exec_serves hs h.stops hp, fun _ _ => exec_working h.stops⟩

/-- Every reader survives the failures of its tape. -/
theorem C61_faults (cfg : Cfg) (n m b c : Nat) (accept : Tag → Bool) (record : offsets.Record) :
    SurvivesFaults (coverage.Coverage.read) ∧
    SurvivesFaults (class_.Class.read) ∧
    SurvivesFaults (correction.Correction.read) ∧
    SurvivesFaults (correction.Device.read) ∧
    SurvivesFaults (correction.Variation.read) ∧
    SurvivesFaults (context.Action.read) ∧
    SurvivesFaults (context.Record.read) ∧
    SurvivesFaults (context.Records.read) ∧
    SurvivesFaults (context.ClassRecord.read) ∧
    SurvivesFaults (context.ClassRecords.read) ∧
    SurvivesFaults (context.ChainedRecord.read) ∧
    SurvivesFaults (context.ChainedRecords.read) ∧
    SurvivesFaults (context.ChainedClassRecord.read) ∧
    SurvivesFaults (context.ChainedClassRecords.read) ∧
    SurvivesFaults (context.Context.read) ∧
    SurvivesFaults (context.ChainedContext.read) ∧
    SurvivesFaults (language.Record.read) ∧
    SurvivesFaults (script.Record.read) ∧
    SurvivesFaults (script.Scripts.read) ∧
    SurvivesFaults (feature.Record.read) ∧
    SurvivesFaults (feature.Features.read) ∧
    SurvivesFaults (feature.Variations.read) ∧
    SurvivesFaults (lookup.Record.read cfg gsub.Type_.read) ∧
    SurvivesFaults (lookup.Record.read cfg (gpos.Type_.read cfg)) ∧
    SurvivesFaults (lookup.Lookups.read cfg gsub.Type_.read) ∧
    SurvivesFaults (lookup.Lookups.read cfg (gpos.Type_.read cfg)) ∧
    SurvivesFaults (gsub.Alternates.read) ∧
    SurvivesFaults (gsub.Ligature.read) ∧
    SurvivesFaults (gsub.Ligatures.read) ∧
    SurvivesFaults (gsub.Sequence.read) ∧
    SurvivesFaults (gsub.SingleSubstitution.read) ∧
    SurvivesFaults (gsub.MultipleSubstitution.read) ∧
    SurvivesFaults (gsub.AlternateSubstitution.read) ∧
    SurvivesFaults (gsub.LigatureSubstitution.read) ∧
    SurvivesFaults (gsub.ExtensionSubstitution.read) ∧
    SurvivesFaults (gsub.ReverseChainedContextualSubstibution.read) ∧
    SurvivesFaults (gsub.Type_.read n) ∧
    SurvivesFaults (gsub.GlyphSubstitution.read cfg) ∧
    SurvivesFaults (gpos.Anchor.read) ∧
    SurvivesFaults (gpos.Pair1s.read n m) ∧
    SurvivesFaults (gpos.Bases.read n) ∧
    SurvivesFaults (gpos.Ligature.read n) ∧
    SurvivesFaults (gpos.Ligatures.read n) ∧
    SurvivesFaults (gpos.Mark1s.read cfg) ∧
    SurvivesFaults (gpos.Mark2s.read n) ∧
    SurvivesFaults (gpos.SingleAdjustment.read cfg) ∧
    SurvivesFaults (gpos.PairAdjustment.read cfg) ∧
    SurvivesFaults (gpos.CursiveAttachment.read) ∧
    SurvivesFaults (gpos.MarkToBaseAttachment.read cfg) ∧
    SurvivesFaults (gpos.MarkToLigatureAttachment.read cfg) ∧
    SurvivesFaults (gpos.MarkToMarkAttachment.read cfg) ∧
    SurvivesFaults (gpos.ExtensionPositioning.read) ∧
    SurvivesFaults (gpos.Type_.read cfg n) ∧
    SurvivesFaults (gpos.GlyphPositioning.read cfg) ∧
    SurvivesFaults (gdef.Attachment.read) ∧
    SurvivesFaults (gdef.Attachments.read) ∧
    SurvivesFaults (gdef.Caret.read) ∧
    SurvivesFaults (gdef.Ligature.read) ∧
    SurvivesFaults (gdef.Ligatures.read) ∧
    SurvivesFaults (gdef.Marks.read) ∧
    SurvivesFaults (cpal.Color.read) ∧
    SurvivesFaults (cpal.ColorPalettes.read) ∧
    SurvivesFaults (fvar.AxisRecord.read cfg) ∧
    SurvivesFaults (fvar.InstanceRecord.read cfg n) ∧
    SurvivesFaults (fvar.FontVariations.read cfg) ∧
    SurvivesFaults (item.Record.read cfg) ∧
    SurvivesFaults (item.Store.read cfg) ∧
    SurvivesFaults (gdef.GlyphDefinition.read cfg) ∧
    SurvivesFaults (gpos.Single.read b n) ∧
    SurvivesFaults (gpos.Pair1.read b n m) ∧
    SurvivesFaults (gpos.Pair2.read b n m) ∧
    SurvivesFaults (gpos.Pair2s.read b c n m) ∧
    SurvivesFaults (gpos.Base.read b n) ∧
    SurvivesFaults (gpos.Component.read b n) ∧
    SurvivesFaults (gpos.Connection.read b) ∧
    SurvivesFaults (gpos.Mark1.read cfg b) ∧
    SurvivesFaults (gpos.Mark2.read b n) ∧
    SurvivesFaults (File.read accept) ∧
    SurvivesFaults (Font.read accept) ∧
    SurvivesFaults (tableChecksum record) := by
  refine ⟨?_, ?_, ?_, ?_, ?_, ?_, ?_, ?_, ?_, ?_, ?_, ?_, ?_, ?_, ?_, ?_, ?_, ?_, ?_, ?_, ?_, ?_, ?_, ?_, ?_, ?_,
    ?_, ?_, ?_, ?_, ?_, ?_, ?_, ?_, ?_, ?_, ?_, ?_, ?_, ?_, ?_, ?_, ?_, ?_, ?_, ?_, ?_, ?_, ?_, ?_, ?_, ?_, ?_,
    ?_, ?_, ?_, ?_, ?_, ?_, ?_, ?_, ?_, ?_, ?_, ?_, ?_, ?_, ?_, ?_, ?_, ?_, ?_, ?_, ?_, ?_, ?_, ?_, ?_, ?_, ?_⟩
  all_goals exact survivesFaults

section
variable {α β : Type}

theorem exec_bind {σ : Type} {device : Device σ} {r : Reader α} {f : α → Reader β} {s : σ} :
    (r >>= f).exec device s = match r.exec device s with
      | (.ok a, s') => (f a).exec device s'
      | (.error e, s') => (.error e, s') := by
  show (Reader.bind r f).exec device s = _
  induction r generalizing s with
  | done a => rfl
  | fail e => rfl
  | tell next ih => exact ih _
  | seek q next ih => exact ih _
  | fetch n next ih => exact ih _

theorem SurvivesFaults.bind {r : Reader α} {f : α → Reader β} (hr : SurvivesFaults r)
    (hf : ∀ a, SurvivesFaults (f a)) : SurvivesFaults (r >>= f) := by
  refine ⟨fun σ device d E stands hs s p hp => ?_, fun d p => ?_⟩
  · have := hr.1 σ device d E stands hs s p hp
    rw [exec_bind, run_bind_eq]
    cases h : r.exec device s with
    | mk x s' =>
      rw [h] at this
      cases x with
      | ok a =>
        obtain ⟨q, hq, hs'⟩ := this
        rw [hq]
        exact (hf a).1 σ device d E stands hs s' q hs'
      | error e =>
        obtain ⟨h1, h2⟩ := this
        refine ⟨?_, h2⟩
        rcases h1 with h1 | h1
        · rw [h1]; exact .inl rfl
        · exact .inr h1
  · have := hr.2 d p
    rw [exec_bind, run_bind_eq]
    cases h : r d p with
    | ok x =>
      obtain ⟨a, q⟩ := x
      rw [h] at this
      dsimp only at this ⊢
      rw [this]
      exact (hf a).2 d q
    | error e =>
      rw [h] at this
      dsimp only at this ⊢
      cases h' : r.exec (working d) p with
      | mk x s' =>
        rw [h'] at this
        subst this
        rfl

theorem position_survives {cfg : Cfg} {checksum : offsets.Record → Reader Nat}
    (hc : ∀ record, SurvivesFaults (checksum record)) (font : Font) (table : TableType) :
    SurvivesFaults (font.position cfg checksum table) := by
  unfold Font.position
  induction font.offsets.records with
  | nil => unfold Font.positionIn; exact survivesFaults
  | cons record records ih =>
    unfold Font.positionIn
    split
    · split
      · exact .bind (hc record) fun _ => survivesFaults
      · exact survivesFaults
    · exact ih

end

/-- Taking a table survives the failures of the tape if the reader of the table and the computation of the checksum
do. -/
theorem C61_take {α P : Type} (cfg : Cfg) {checksum : offsets.Record → Reader Nat}
    (hc : ∀ record, SurvivesFaults (checksum record)) (font : Font) (table : TableType) :
    SurvivesFaults (font.position cfg checksum table) ∧
    (∀ r : Reader α, SurvivesFaults r → SurvivesFaults (font.take cfg checksum table r)) ∧
    (∀ (r : P → Reader α) (parameter : P), SurvivesFaults (r parameter) →
      SurvivesFaults (font.take_given cfg checksum table r parameter)) := by
  have key : ∀ r : Reader α, SurvivesFaults r → SurvivesFaults (font.take cfg checksum table r) := by
    intro r hr
    refine .bind (position_survives hc font table) fun x => ?_
    cases x with
    | none => exact survivesFaults
    | some _ => exact .bind hr fun _ => survivesFaults
  exact ⟨position_survives hc font table, key, fun r parameter hr => key _ hr⟩

/-- Reading a coverage table takes six operations: three for the format, and one for each of the three words. A
failure of any of them is reported; one that would come later does not matter. -/
example :
    let d := bytes [0, 1, 0, 1, 0, 7]
    let fails (i : Nat) := (coverage.Coverage.read.exec
      (flaky d fun j => if j = i then some (.malformed "disk", 99) else none) (0, 0)).1
    fails 6 = .ok (.format1 ⟨1, 1, [7]⟩) ∧ (∀ i < 6, fails i = .error (.malformed "disk")) := by decide +kernel

/-- Such devices qualify, whatever the schedule. -/
theorem C61_flaky (d : Data) (schedule : Nat → Option (Err × Nat)) :
    Serves (flaky d schedule) d (fun e => e = .eof ∨ ∃ i q, schedule i = some (e, q)) (·.1 = ·) :=
  flaky_serves d schedule

/-! ## C62 -/

/-- Making calls one after another on one device. -/
def session {σ : Type} (cfg : Cfg) (checksum : offsets.Record → Reader Nat) (font : Font) (device : Device σ) :
    List Call → σ → List ((call : Call) × Except Err call.Value)
  | [], _ => []
  | call :: calls, s =>
    ⟨call, ((call.run cfg checksum font).exec device s).1⟩ ::
      session cfg checksum font device calls ((call.run cfg checksum font).exec device s).2

/-- The reader of the requested table survives failures. -/
def Call.Survives : Call → Prop
  | .take _ _ r => SurvivesFaults r
  | .takeGiven _ _ _ r parameter => SurvivesFaults (r parameter)
  | .position _ => True

/-- In any session on a device that may fail at any operation, each call returns what it returns on a freshly opened
tape that works, or an error of the device: no failure has an effect on what later calls return. -/
theorem C62_session {σ : Type} (cfg : Cfg) (checksum : offsets.Record → Reader Nat) (ha : Anywhere checksum)
    (hc : ∀ record, SurvivesFaults (checksum record)) (font : Font) (device : Device σ) (d : Data)
    (E : Err → Prop) (stands : σ → Nat → Prop) (hs : Serves device d E stands) (calls : List Call)
    (hcalls : ∀ call ∈ calls, call.Survives) (s : σ) (p : Nat) (hp : stands s p) :
    ∀ entry ∈ session cfg checksum font device calls s,
      entry.2 = outcome (entry.1.run cfg checksum font d 0) ∨ ∃ e, E e ∧ entry.2 = .error e := by
  induction calls generalizing s p with
  | nil => simp [session]
  | cons call calls ih =>
    have hcall : SurvivesFaults (call.run cfg checksum font) := by
      have := hcalls call (by simp)
      cases call with
      | take α table r => exact (C61_take (P := Unit) cfg hc font table).2.1 r this
      | takeGiven α P table r parameter => exact (C61_take cfg hc font table).2.2 r parameter this
      | position table => exact position_survives hc font table
    have key := hcall.1 σ device d E stands hs s p hp
    have any := call_anywhere (cfg := cfg) ha font call d p 0
    cases h : (call.run cfg checksum font).exec device s with
    | mk x s' =>
      rw [h] at key
      intro entry he
      unfold session at he
      rw [h] at he
      cases x with
      | ok a =>
        obtain ⟨q, hq, hs'⟩ := key
        rcases List.mem_cons.mp he with rfl | he
        · left
          rw [← any, hq]
          rfl
        · exact ih (fun c hc => hcalls c (by simp [hc])) s' q hs' entry he
      | error e =>
        obtain ⟨h1, q, hs'⟩ := key
        rcases List.mem_cons.mp he with rfl | he
        · rcases h1 with h1 | h1
          · left
            rw [← any, h1]
            rfl
          · exact .inr ⟨e, h1, rfl⟩
        · exact ih (fun c hc => hcalls c (by simp [hc])) s' q hs' entry he

/-- A session of three calls with a failure in the first: the second is refused as it would be anyway, and the third
gives what is stored. -/
example :
    let device := flaky sampleFont fun i => if i = 3 then some (.malformed "disk", 7) else none
    let calls : List Call := [.take Nat .colorPalettes u32, .take Nat .glyphSubstitution u32,
      .take Nat .colorPalettes u32]
    session defaultCfg tableChecksum sampleDirectory device calls (0, 0) =
      [⟨.take Nat .colorPalettes u32, .error (.malformed "disk")⟩,
        ⟨.take Nat .glyphSubstitution u32, .error (.malformed ⟨"found a malformed font table with", [TableType.glyphSubstitution.tag]⟩)⟩,
        ⟨.take Nat .colorPalettes u32, .ok (some 1)⟩] ∧
    (∀ call ∈ calls, call.Survives) ∧ (∀ record, SurvivesFaults (tableChecksum record)) ∧
    Anywhere tableChecksum := by
  refine ⟨?_, ?_, fun _ => survivesFaults, C07_checksum_anywhere⟩
  · rfl
  · intro call h
    simp only [List.mem_cons, List.not_mem_nil, or_false] at h
    rcases h with rfl | rfl | rfl <;> exact survivesFaults (r := u32)

/-- Taking one of the tables of this crate, or looking for a table. -/
inductive Call.Own (cfg : Cfg) : Call → Prop
  | glyphSubstitution (table : TableType) : Call.Own cfg (.take _ table (gsub.GlyphSubstitution.read cfg))
  | glyphPositioning (table : TableType) : Call.Own cfg (.take _ table (gpos.GlyphPositioning.read cfg))
  | glyphDefinition (table : TableType) : Call.Own cfg (.take _ table (gdef.GlyphDefinition.read cfg))
  | colorPalettes (table : TableType) : Call.Own cfg (.take _ table cpal.ColorPalettes.read)
  | fontVariations (table : TableType) : Call.Own cfg (.take _ table (fvar.FontVariations.read cfg))
  | position (table : TableType) : Call.Own cfg (.position table)

/-- In particular, whatever the device, the schedule of its failures and the tables that are taken: only errors of
the device make a difference. -/
theorem C62_tables {σ : Type} (cfg : Cfg) (font : Font) (device : Device σ) (d : Data) (E : Err → Prop)
    (stands : σ → Nat → Prop) (hs : Serves device d E stands) (calls : List Call)
    (hcalls : ∀ call ∈ calls, call.Own cfg) (s : σ) (p : Nat) (hp : stands s p) :
    ∀ entry ∈ session cfg tableChecksum font device calls s,
      entry.2 = outcome (entry.1.run cfg tableChecksum font d 0) ∨ ∃ e, E e ∧ entry.2 = .error e := by
  refine C62_session cfg tableChecksum C07_checksum_anywhere (fun _ => survivesFaults) font device d E stands hs calls
    (fun call h => ?_) s p hp
  cases hcalls call h
  case position => trivial
  all_goals exact survivesFaults

/-- A session with the sample font and a failure of the first seek. -/
example :
    let device := flaky sampleFont fun i => if i = 1 then some (.malformed "disk", 7) else none
    let call : Call := .take _ .colorPalettes cpal.ColorPalettes.read
    (session defaultCfg tableChecksum sampleDirectory device [call, call] (0, 0)).map (·.2.toBool) = [false, false] ∧
      ∀ c ∈ [call, call], Call.Own defaultCfg c := by
  refine ⟨by decide +kernel, fun c h => ?_⟩
  simp only [List.mem_cons, List.not_mem_nil, or_false, or_self] at h
  subst h
  exact .colorPalettes _

end OpenType.Props
