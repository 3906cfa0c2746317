import Verif.Props.Retry
/-! # C71: sessions with several fonts, files and tables on one tape -/

namespace OpenType.Props
open OpenType

/-- Something to do with a tape: to open the file that starts at a position, to look for a table of a font or to take
one, or to go to a position and read there. -/
inductive Action (cfg : Cfg) where
  | openAt (accept : Tag → Bool) (p : Nat)
  | use (font : Font) (call : Call) (own : call.Own cfg)
  | readAt (α : Type) (r : Reader α) (p : Nat)

/-- What doing it gives. -/
def Action.Value {cfg : Cfg} : Action cfg → Type
  | .openAt _ _ => File
  | .use _ call _ => call.Value
  | .readAt α _ _ => α

/-- Doing it. -/
def Action.run {cfg : Cfg} : (action : Action cfg) → Reader action.Value
  | .openAt accept p => jump p >>= fun _ => File.read accept
  | .use font call _ => call.run cfg tableChecksum font
  | .readAt _ r p => jump p >>= fun _ => r

/-- What it gives on a tape of its own that works. -/
def Action.alone {cfg : Cfg} (action : Action cfg) (d : Data) : Except Err action.Value := outcome (action.run d 0)

/-- Doing one thing after another on one device. -/
def mixed {σ : Type} {cfg : Cfg} (device : Device σ) :
    List (Action cfg) → σ → List ((action : Action cfg) × Except Err action.Value)
  | [], _ => []
  | action :: actions, s => ⟨action, (action.run.exec device s).1⟩ :: mixed device actions (action.run.exec device s).2

/-- A reader of a table or of a part of one, among those of this crate. -/
inductive Readable (cfg : Cfg) : {α : Type} → Reader α → Prop
  | glyphSubstitution : Readable cfg (gsub.GlyphSubstitution.read cfg)
  | glyphPositioning : Readable cfg (gpos.GlyphPositioning.read cfg)
  | glyphDefinition : Readable cfg (gdef.GlyphDefinition.read cfg)
  | colorPalettes : Readable cfg cpal.ColorPalettes.read
  | fontVariations : Readable cfg (fvar.FontVariations.read cfg)
  | store : Readable cfg (item.Store.read cfg)
  | coverage : Readable cfg coverage.Coverage.read
  | class_ : Readable cfg class_.Class.read
  | correction : Readable cfg correction.Correction.read
  | context : Readable cfg context.Context.read
  | chainedContext : Readable cfg context.ChainedContext.read
  | scripts : Readable cfg script.Scripts.read
  | features : Readable cfg feature.Features.read
  | substitution (type_ : Nat) : Readable cfg (gsub.Type_.read type_)
  | positioning (type_ : Nat) : Readable cfg (gpos.Type_.read cfg type_)

/-- What is read is read by such a reader. -/
def Action.Own {cfg : Cfg} : Action cfg → Prop
  | .readAt _ r _ => Readable cfg r
  | _ => True

theorem action_stops {cfg : Cfg} {action : Action cfg} (h : action.Own) : Stops action.run := by
  cases action with
  | openAt accept p => exact inferInstanceAs (Stops (jump p >>= fun _ => File.read accept))
  | use font call own =>
    cases own
    case position table => exact inferInstanceAs (Stops (font.position cfg tableChecksum table))
    all_goals
      rename_i table
      exact inferInstanceAs (Stops (font.take cfg tableChecksum table _))
  | readAt α r p =>
    have : Stops r := by
      cases h <;> infer_instance
    exact inferInstanceAs (Stops (jump p >>= fun _ => r))

theorem action_anywhere {cfg : Cfg} (action : Action cfg) (d : Data) (p : Nat) :
    outcome (action.run d p) = action.alone d := by
  cases action with
  | openAt accept q => rfl
  | use font call own => exact call_anywhere C07_checksum_anywhere font call d p 0
  | readAt α r q => rfl

/-- On a device that may fail at any operation each action gives what it gives on a tape of its own that works, or an
error of the device, whatever was done before, with whatever fonts and tables and whether it succeeded or failed. -/
theorem C71_mixed {σ : Type} {cfg : Cfg} (device : Device σ) (d : Data) (E : Err → Prop) (stands : σ → Nat → Prop)
    (hs : Serves device d E stands) (actions : List (Action cfg)) (ho : ∀ action ∈ actions, action.Own) (s : σ) (p : Nat)
    (hp : stands s p) :
    ∀ entry ∈ mixed device actions s, entry.2 = entry.1.alone d ∨ ∃ e, E e ∧ entry.2 = .error e := by
  induction actions generalizing s p with
  | nil => simp [mixed]
  | cons action actions ih =>
    have key := exec_serves hs (action_stops (ho action (by simp))).stops hp
    have any := action_anywhere action d p
    intro entry he
    unfold mixed at he
    cases h : action.run.exec device s with
    | mk x s' =>
      rw [h] at key he
      cases x with
      | ok a =>
        obtain ⟨q, hq, hs'⟩ := key
        rcases List.mem_cons.mp he with rfl | he
        · left
          rw [← any, hq]
          rfl
        · exact ih (fun c hc => ho c (by simp [hc])) s' q hs' entry he
      | error e =>
        obtain ⟨h1, q, hs'⟩ := key
        rcases List.mem_cons.mp he with rfl | he
        · rcases h1 with h1 | h1
          · left
            rw [← any, h1]
            rfl
          · exact .inr ⟨e, h1, rfl⟩
        · exact ih (fun c hc => ho c (by simp [hc])) s' q hs' entry he

/-- On a tape that works there is no difference at all. -/
theorem C71_working {cfg : Cfg} (d : Data) (actions : List (Action cfg)) (ho : ∀ action ∈ actions, action.Own)
    (p : Nat) : mixed (working d) actions p = actions.map fun action => ⟨action, action.alone d⟩ := by
  induction actions generalizing p with
  | nil => rfl
  | cons action actions ih =>
    have key := exec_working (action_stops (ho action (by simp))).stops (d := d) (p := p)
    have any := action_anywhere action d p
    unfold mixed
    rw [List.map_cons, ih fun c hc => ho c (by simp [hc]), ← any]
    congr 2
    cases h : action.run d p with
    | ok x =>
      rw [h] at key
      simp only at key
      rw [key]
      rfl
    | error e =>
      rw [h] at key
      exact key

/-- And the entries spoiled by failures are no more than the operations that fail. -/
theorem C71_spoiled {cfg : Cfg} (d : Data) (schedule : Nat → Option (Err × Nat)) (failures : List Nat)
    (hf : ∀ i, schedule i ≠ none → i ∈ failures) (actions : List (Action cfg))
    (ho : ∀ action ∈ actions, action.Own) (s : Nat × Nat)
    (spoiled : List ((action : Action cfg) × Except Err action.Value))
    (hs : spoiled.Sublist (mixed (flaky d schedule) actions s))
    (hd : ∀ entry ∈ spoiled, entry.2 ≠ entry.1.alone d) : spoiled.length ≤ failures.length := by
  have key : spoiled.length ≤ (failures.filter (s.2 ≤ ·)).length := by
    induction actions generalizing s spoiled with
    | nil =>
      rw [List.sublist_nil.mp hs]
      exact Nat.zero_le _
    | cons action actions ih =>
      have ⟨h1, h2⟩ := stops_unspoiled (action_stops (ho action (by simp))).stops d schedule s
      have any := action_anywhere action d s.1
      unfold mixed at hs
      generalize e : action.run.exec (flaky d schedule) s = x at h1 h2 hs
      obtain ⟨x, s'⟩ := x
      dsimp only at h1 h2 hs
      cases hs with
      | cons _ hs =>
        exact Nat.le_trans (ih (fun c hc => ho c (by simp [hc])) s' spoiled hs hd) (later h1).length_le
      | cons_cons _ hs =>
        rename_i rest
        have hrest := ih (fun c hc => ho c (by simp [hc])) s' rest hs fun entry he => hd entry (by simp [he])
        by_cases hn : ∀ i, s.2 ≤ i → i < s'.2 → schedule i = none
        · exact absurd ((h2 hn).trans any) (hd ⟨action, x⟩ (by simp))
        · obtain ⟨i, hi⟩ := Classical.not_forall.mp hn
          simp only [Classical.not_imp] at hi
          obtain ⟨h3, h4, h5⟩ := hi
          have hlt := fewer hf h1 h3 h4 h5
          rw [List.length_cons]
          omega
  exact Nat.le_trans key (List.length_filter_le _ _)

/-- Opening the sample file fails at the second operation and is repeated; then a table is looked for, and what is
stored there is not a palette table. -/
example :
    let actions : List (Action defaultCfg) := [.openAt sampleAccept 0, .openAt sampleAccept 0,
      .use sampleDirectory (.position .colorPalettes) (.position _), .readAt _ cpal.ColorPalettes.read 60]
    let schedule (i : Nat) : Option (Err × Nat) := if i = 1 then some (.malformed "disk", 7) else none
    (∀ action ∈ actions, action.Own) ∧
      (mixed (flaky sampleFont schedule) actions (5, 0)).map (·.2.toBool) = [false, true, true, false] ∧
      (mixed (working sampleFont) actions 5).map (·.2.toBool) = [true, true, true, false] := by
  refine ⟨fun action h => ?_, by decide +kernel, by decide +kernel⟩
  simp only [List.mem_cons, List.not_mem_nil, or_false] at h
  rcases h with rfl | rfl | rfl | rfl
  · trivial
  · trivial
  · trivial
  · exact Readable.colorPalettes

end OpenType.Props
