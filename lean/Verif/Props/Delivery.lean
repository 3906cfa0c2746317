import Verif.Props.Threads
import Verif.Props.Growth
import Verif.Spec.Delivery
/-! # C85: tapes that deliver bytes in pieces -/

namespace OpenType.Props
open OpenType

theorem readExact_delivers {σ : Type} {source : Source σ} {first last : Data} {E : Err → Prop}
    {stands : σ → Nat → Prop} (h : Delivers source first last E stands) (s : σ) (n : Nat) :
    ∀ p, stands s p →
    (∃ bytes, BytesAt last p n bytes ∧ Obeys E stands bytes (p + n) (source.readExact s n)) ∨
    (∃ e, (source.readExact s n).1 = .error e ∧ (E e ∨ e = .eof ∧ ¬∃ bytes, BytesAt first p n bytes) ∧
      ∃ q, stands (source.readExact s n).2 q) := by
  intro p hp
  unfold Source.readExact
  by_cases hn : n = 0
  · subst hn
    rw [if_pos rfl]
    exact .inl ⟨[], ⟨rfl, by simp⟩, rfl, hp⟩
  rw [if_neg hn]
  have key := h.read s p n hp (by omega)
  split
  · rename_i hx
    rw [hx] at key
    obtain ⟨_, hend, _, hs⟩ := key
    refine .inr ⟨.eof, rfl, .inr ⟨rfl, ?_⟩, _, hs⟩
    rintro ⟨bytes, hlen, hb⟩
    have hfirst := hend rfl
    cases bytes with
    | nil => exact hn hlen.symm
    | cons b bytes =>
      have := hb 0 b rfl
      rw [List.getElem?_eq_none (by omega)] at this
      cases this
  · rename_i b bytes hx
    rw [hx] at key
    obtain ⟨hlen, _, ⟨_, hbytes⟩, hs⟩ := key
    rw [List.length_cons] at hlen hs
    have ih := readExact_delivers h (source.read s n).2 (n - (bytes.length + 1)) _ hs
    rcases ih with ⟨more, ⟨hm, hmore⟩, ho⟩ | ⟨e, he, hE, hq⟩
    · have hall : BytesAt last p n (b :: bytes ++ more) := by
        refine ⟨by rw [List.length_append, List.length_cons, hm]; omega, fun i c hi => ?_⟩
        by_cases hlt : i < bytes.length + 1
        · rw [List.getElem?_append_left (by simpa using hlt)] at hi
          exact hbytes i c hi
        · rw [List.getElem?_append_right (by simpa using hlt), List.length_cons] at hi
          have := hmore _ c hi
          rwa [show p + (bytes.length + 1) + (i - (bytes.length + 1)) = p + i by omega] at this
      refine .inl ⟨_, hall, ?_⟩
      unfold Obeys at ho ⊢
      dsimp only
      cases hr : (source.readExact (source.read s n).2 (n - (bytes.length + 1))).1 with
      | ok a =>
        rw [hr] at ho
        obtain ⟨rfl, hs'⟩ := ho
        refine ⟨rfl, ?_⟩
        rwa [show p + (bytes.length + 1) + (n - (bytes.length + 1)) = p + n by omega] at hs'
      | error e =>
        rw [hr] at ho
        exact ho
    · refine .inr ⟨e, by dsimp only; rw [he]; rfl, ?_, hq⟩
      refine hE.imp id fun ⟨h1, h2⟩ => ⟨h1, fun ⟨all, hall, hb⟩ => h2 ⟨all.drop (bytes.length + 1), ?_, ?_⟩⟩
      · rw [List.length_drop, hall]
      · intro i c hi
        rw [List.getElem?_drop] at hi
        have := hb _ c hi
        rwa [← Nat.add_assoc] at this
  · rename_i hx
    rw [hx] at key
    exact readExact_delivers h (source.read s n).2 n p key
  · rename_i e hx
    rw [hx] at key
    exact .inr ⟨e, rfl, .inl key.1, key.2⟩
termination_by (n, source.patience s)
decreasing_by
  · exact .left _ _ (by omega)
  · exact .right _ (source.calms s n (by assumption))

/-- A source that delivers its content in pieces, of any sizes and with any interruptions, gives readers access to that
content as a tape that delivers what it is asked for does. -/
theorem C85_serves {σ : Type} {source : Source σ} {first last : Data} {E : Err → Prop}
    {stands : σ → Nat → Prop} (h : Delivers source first last E stands) :
    ServesGrowing source.device first last E stands :=
  ⟨h.tell, h.seek, fun s p n hp => readExact_delivers h s n p hp⟩

/-- A result on a device whose content grows from `d` to `d` is that on `d`. -/
theorem exec_exact {α σ : Type} {r : Reader α} (hr : SurvivesGrowth r) {device : Device σ} {d : Data}
    {stands : σ → Nat → Prop} (h : ServesGrowing device d d (fun _ => False) stands) {s : σ} {p : Nat}
    (hp : stands s p) :
    (r.exec device s).1 = outcome (r d p) ∧ ∃ q, stands (r.exec device s).2 q := by
  have key := hr.1 σ device d d _ stands (List.prefix_refl d) h s p hp
  cases hx : r.exec device s with
  | mk x s' =>
    rw [hx] at key
    cases x with
    | ok a =>
      obtain ⟨q, hq, hs⟩ := key
      rw [hq]
      exact ⟨rfl, q, hs⟩
    | error e =>
      refine ⟨?_, key.2⟩
      rcases key.1 with ⟨_, h1⟩ | ⟨rfl, h1⟩ | h1
      · rw [h1]; rfl
      · rw [h1]; rfl
      · exact h1.elim

/-- However the content is delivered, a reader gives what it gives on a tape that delivers what it is asked for. The
readers of this crate are those of C83. -/
theorem C85_reader {α σ : Type} {r : Reader α} (hr : SurvivesGrowth r) (source : Source σ) (d : Data)
    (stands : σ → Nat → Prop) (h : Delivers source d d (fun _ => False) stands) (s : σ) (p : Nat) (hp : stands s p) :
    (r.exec source.device s).1 = outcome (r d p) :=
  (exec_exact hr (C85_serves h) hp).1

/-- However the content is delivered, whatever is done with the tape gives what it gives alone on a tape that delivers
what it is asked for. -/
theorem C85_session {σ : Type} {cfg : Cfg} (source : Source σ) (d : Data) (stands : σ → Nat → Prop)
    (h : Delivers source d d (fun _ => False) stands) (actions : List (Action cfg))
    (ho : ∀ action ∈ actions, action.Own) (s : σ) (p : Nat) (hp : stands s p) :
    mixed source.device actions s = actions.map fun action => ⟨action, action.alone d⟩ := by
  induction actions generalizing s p with
  | nil => rfl
  | cons action actions ih =>
    have := action_stops (ho action (by simp))
    obtain ⟨h1, q, h2⟩ := exec_exact survivesGrowth (C85_serves h) hp (r := action.run)
    unfold mixed
    rw [List.map_cons, ih (fun c hc => ho c (by simp [hc])) _ q h2, h1, action_anywhere]

/-- If some reads fail, the failure is that of the source or the result is the same. -/
theorem C85_failures {σ : Type} {cfg : Cfg} (source : Source σ) (d : Data) (E : Err → Prop) (stands : σ → Nat → Prop)
    (h : Delivers source d d E stands) (actions : List (Action cfg)) (ho : ∀ action ∈ actions, action.Own) (s : σ)
    (p : Nat) (hp : stands s p) :
    ∀ entry ∈ mixed source.device actions s, entry.2 = entry.1.alone d ∨ ∃ e, E e ∧ entry.2 = .error e := by
  induction actions generalizing s p with
  | nil => simp [mixed]
  | cons action actions ih =>
    have := action_stops (ho action (by simp))
    have key := exec_grows (List.prefix_refl d) (C85_serves h) this.stops hp
    have any := action_anywhere action d p
    intro entry he
    unfold mixed at he
    cases hx : action.run.exec source.device s with
    | mk x s' =>
      rw [hx] at key he
      cases x with
      | ok a =>
        obtain ⟨q, hq, hs'⟩ := key
        rcases List.mem_cons.mp he with rfl | he
        · left
          rw [← any, hq]
          rfl
        · exact ih (fun c hc => ho c (by simp [hc])) s' q hs' entry he
      | error e =>
        obtain ⟨h1, q, hs'⟩ := key
        rcases List.mem_cons.mp he with rfl | he
        · rcases h1 with ⟨_, h1⟩ | ⟨rfl, h1⟩ | h1
          · left; rw [← any, h1]; rfl
          · left; rw [← any, h1]; rfl
          · exact .inr ⟨e, h1, rfl⟩
        · exact ih (fun c hc => ho c (by simp [hc])) s' q hs' entry he

/-- Sources that deliver pieces of any sizes after any numbers of interruptions qualify. -/
theorem C85_piecemeal (d : Data) (size pauses : Nat → Nat) :
    Delivers (piecemeal d size pauses) d d (fun _ => False) (·.1 = ·) where
  tell := by rintro s _ rfl; exact ⟨rfl, rfl⟩
  seek := by rintro s _ q rfl; exact ⟨rfl, rfl⟩
  read := by
    rintro s _ n rfl hn
    by_cases hs : s.2.2 = 0
    · have e : (piecemeal d size pauses).read s n =
          (.bytes ((d.drop s.1).take (min n (size s.2.1 + 1))),
            (s.1 + ((d.drop s.1).take (min n (size s.2.1 + 1))).length, s.2.1 + 1, pauses (s.2.1 + 1))) := by
        simp only [piecemeal, if_pos hs]
      rw [e]
      refine ⟨by simp; omega, fun h => ?_, ⟨rfl, fun i b hi => ?_⟩, rfl⟩
      · have := congrArg List.length h
        simp only [List.length_take, List.length_drop, List.length_nil] at this
        omega
      · rw [List.getElem?_take] at hi
        split at hi
        · rwa [List.getElem?_drop] at hi
        · cases hi
    · have e : (piecemeal d size pauses).read s n = (.interrupted, (s.1, s.2.1, s.2.2 - 1)) := by
        simp only [piecemeal, if_neg hs]
      rw [e]

/-- The sample file byte by byte, with up to two interruptions before each. -/
example :
    let actions : List (Action defaultCfg) := [.openAt sampleAccept 0,
      .use sampleDirectory (.position .colorPalettes) (.position _), .readAt _ cpal.ColorPalettes.read 60]
    (mixed (piecemeal sampleFont (fun _ => 0) (· % 3)).device actions (5, 0, 0)).map (·.2.toBool) =
      [true, true, false] := by
  intro actions
  rw [C85_session _ sampleFont _ (C85_piecemeal _ _ _) actions (fun action h => ?_) (5, 0, 0) 5 rfl]
  · decide +kernel
  · simp only [actions, List.mem_cons, List.not_mem_nil, or_false] at h
    rcases h with rfl | rfl | rfl
    · trivial
    · trivial
    · exact Readable.colorPalettes

end OpenType.Props
