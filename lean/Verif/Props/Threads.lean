import Verif.Props.Session
import Verif.Proof.Growth
import Verif.Spec.Threads
/-! # C84: several threads, each with a tape of its own -/

namespace OpenType.Props
open OpenType

/-- A thread: what its actions have given so far, what remains of the one it is at, and those that are left. -/
structure Thread (cfg : Cfg) where
  given : List ((action : Action cfg) × Except Err action.Value)
  current : Option ((action : Action cfg) × Reader action.Value)
  left : List (Action cfg)

/-- A thread that has not begun. -/
def Thread.start {cfg : Cfg} (actions : List (Action cfg)) : Thread cfg := ⟨[], none, actions⟩

/-- A thread has its turn: it begins its next action, performs one operation of the action it is at, or takes note of
the result. -/
def Thread.step {W : Type} {cfg : Cfg} (device : Device W) : Thread cfg → W → Thread cfg × W
  | ⟨given, none, []⟩, w => (⟨given, none, []⟩, w)
  | ⟨given, none, action :: left⟩, w => (⟨given, some ⟨action, action.run⟩, left⟩, w)
  | ⟨given, some ⟨action, r⟩, left⟩, w =>
    match r.result with
    | some x => (⟨given ++ [⟨action, x⟩], none, left⟩, w)
    | none => (⟨given, some ⟨action, (r.step device w).1⟩, left⟩, (r.step device w).2)

/-- The threads and the world after the threads have had their turns as scheduled. -/
def scheduled {W : Type} {cfg : Cfg} (device : Nat → Device W) :
    List Nat → (Nat → Thread cfg) × W → (Nat → Thread cfg) × W
  | [], x => x
  | i :: schedule, x =>
    scheduled device schedule (replaced x.1 i ((x.1 i).step (device i) x.2).1, ((x.1 i).step (device i) x.2).2)

/-- The result of an action is the one that it gives alone on the last content; or the end of the data, as it reports
alone on the first; or an error `e` of the tape, such that `E e`. -/
def Right {cfg : Cfg} (first last : Data) (E : Err → Prop) (entry : (action : Action cfg) × Except Err action.Value) :
    Prop :=
  entry.2 = entry.1.alone last ∨ (entry.2 = .error .eof ∧ entry.1.alone first = .error .eof) ∨
    ∃ e, E e ∧ entry.2 = .error e

/-- What remains of an action leads to the right result. -/
def OnWay {cfg : Cfg} (first last : Data) (E : Err → Prop) (action : Action cfg) (r : Reader action.Value) (p : Nat) :
    Prop :=
  (∃ e, E e ∧ r = .fail e) ∨ (r = .fail .eof ∧ action.alone first = .error .eof) ∨
    (r.Stops ∧ outcome (r last p) = action.alone last ∧ (r first p = .error .eof → action.alone first = .error .eof))

theorem OnWay.start {cfg : Cfg} {first last : Data} {E : Err → Prop} {action : Action cfg} (h : action.Own) (p : Nat) :
    OnWay first last E action action.run p := by
  refine .inr (.inr ⟨(action_stops h).stops, action_anywhere action last p, fun h => ?_⟩)
  rw [← action_anywhere action first p, h]
  rfl

theorem OnWay.result {cfg : Cfg} {first last : Data} {E : Err → Prop} {action : Action cfg} {r : Reader action.Value}
    {p : Nat} (h : OnWay first last E action r p) {x : Except Err action.Value} (hx : r.result = some x) :
    Right first last E ⟨action, x⟩ := by
  rcases h with ⟨e, he, rfl⟩ | ⟨rfl, h⟩ | ⟨_, h, _⟩
  · cases hx
    exact .inr (.inr ⟨e, he, rfl⟩)
  · cases hx
    exact .inr (.inl ⟨rfl, h⟩)
  · left
    show x = _
    rw [← h]
    cases r <;> cases hx <;> rfl

theorem OnWay.step {W : Type} {cfg : Cfg} {first last : Data} {E : Err → Prop} {stands : W → Nat → Prop}
    {device : Device W} (hl : first <+: last) (hs : ServesGrowing device first last E stands) {action : Action cfg}
    {r : Reader action.Value} {w : W} {p : Nat} (hp : stands w p) (h : OnWay first last E action r p)
    (hr : r.result = none) :
    ∃ q, stands (r.step device w).2 q ∧ OnWay first last E action (r.step device w).1 q := by
  rcases h with ⟨e, he, rfl⟩ | ⟨rfl, h⟩ | ⟨stops, hlast, hfirst⟩
  · cases hr
  · cases hr
  cases r with
  | done a => cases hr
  | fail e => cases hr
  | tell next =>
    have := hs.tell w p hp
    unfold Obeys at this
    show ∃ q', stands (device.tell w).2 q' ∧ OnWay first last E action (next (device.tell w).1) q'
    cases hx : (device.tell w).1 with
    | ok a =>
      rw [hx] at this
      obtain ⟨rfl, hw⟩ := this
      exact ⟨a, hw, .inr (.inr ⟨stops.2 a, hlast, hfirst⟩)⟩
    | error e =>
      rw [hx] at this
      obtain ⟨he, q, hw⟩ := this
      exact ⟨q, hw, .inl ⟨e, he, stops.1 e⟩⟩
  | seek q next =>
    have := hs.seek w p q hp
    unfold Obeys at this
    show ∃ q', stands (device.seek w q).2 q' ∧ OnWay first last E action (next (device.seek w q).1) q'
    cases hx : (device.seek w q).1 with
    | ok a =>
      rw [hx] at this
      exact ⟨q, this.2, .inr (.inr ⟨stops.2 a, hlast, hfirst⟩)⟩
    | error e =>
      rw [hx] at this
      obtain ⟨he, q, hw⟩ := this
      exact ⟨q, hw, .inl ⟨e, he, stops.1 e⟩⟩
  | fetch n next =>
    show ∃ q', stands (device.fetch w n).2 q' ∧ OnWay first last E action (next (device.fetch w n).1) q'
    rcases hs.fetch w p n hp with ⟨bytes, hb, this⟩ | ⟨e, hx, he, q, hw⟩
    · unfold Obeys at this
      cases hx : (device.fetch w n).1 with
      | ok a =>
        rw [hx] at this
        obtain ⟨rfl, hw⟩ := this
        have e2 : Reader.slice last p n = .ok a := slice_eq hb
        refine ⟨p + n, hw, .inr (.inr ⟨stops.2 a, ?_, fun h => hfirst ?_⟩)⟩
        · rw [← hlast]
          show _ = outcome ((next (Reader.slice last p n)).run last (p + n))
          rw [e2]
        · show (next (Reader.slice first p n)).run first (p + n) = _
          rcases slice_prefix hl p n with h' | h'
          · rw [h', stops.1]; rfl
          · rw [h', e2]; exact h
      | error e =>
        rw [hx] at this
        obtain ⟨he, q, hw⟩ := this
        exact ⟨q, hw, .inl ⟨e, he, stops.1 e⟩⟩
    · rw [hx]
      refine ⟨q, hw, ?_⟩
      rcases he with he | ⟨rfl, he⟩
      · exact .inl ⟨e, he, stops.1 e⟩
      · refine .inr (.inl ⟨stops.1 _, hfirst ?_⟩)
        show (next (Reader.slice first p n)).run first (p + n) = _
        have : Reader.slice first p n = .error .eof := by
          unfold Reader.slice
          rw [if_neg fun hn => he ⟨_, bytesAt_slice hn⟩]
        rw [this, stops.1]
        rfl

/-- What holds of a thread at any time. -/
structure Sound {W : Type} {cfg : Cfg} (first last : Data) (E : Err → Prop) (stands : W → Nat → Prop)
    (actions : List (Action cfg)) (t : Thread cfg) (w : W) : Prop where
  place : ∃ p, stands w p ∧ ∀ action r, t.current = some ⟨action, r⟩ → OnWay first last E action r p
  given : ∀ entry ∈ t.given, Right first last E entry
  order : t.given.map (·.1) ++ t.current.toList.map (·.1) ++ t.left = actions

theorem Sound.start {W : Type} {cfg : Cfg} (first last : Data) (E : Err → Prop) {stands : W → Nat → Prop} {w : W}
    {p : Nat} (hp : stands w p) (actions : List (Action cfg)) :
    Sound first last E stands actions (.start actions) w :=
  ⟨⟨p, hp, fun _ _ h => (by cases h)⟩, fun _ h => (by cases h), rfl⟩

theorem Sound.step {W : Type} {cfg : Cfg} {first last : Data} {E : Err → Prop} {stands : W → Nat → Prop}
    {device : Device W} (hl : first <+: last) (hs : ServesGrowing device first last E stands)
    {actions : List (Action cfg)} (ho : ∀ action ∈ actions, action.Own) {t : Thread cfg} {w : W}
    (h : Sound first last E stands actions t w) :
    Sound first last E stands actions (t.step device w).1 (t.step device w).2 := by
  obtain ⟨given, current, left⟩ := t
  obtain ⟨⟨p, hp, hc⟩, hg, horder⟩ := h
  cases current with
  | none =>
    cases left with
    | nil => exact ⟨⟨p, hp, hc⟩, hg, horder⟩
    | cons action left =>
      refine ⟨⟨p, hp, ?_⟩, hg, ?_⟩
      · rintro _ _ ⟨⟩
        exact OnWay.start (ho action (by rw [← horder]; simp)) p
      · rw [← horder]
        simp [Thread.step]
  | some x =>
    obtain ⟨action, r⟩ := x
    have way := hc action r rfl
    cases hr : r.result with
    | some x =>
      have e : (Thread.step device ⟨given, some ⟨action, r⟩, left⟩ w) = (⟨given ++ [⟨action, x⟩], none, left⟩, w) := by
        simp only [Thread.step, hr]
      rw [e]
      refine ⟨⟨p, hp, nofun⟩, ?_, ?_⟩
      · intro entry he
        rcases List.mem_append.mp he with he | he
        · exact hg entry he
        · rw [List.mem_singleton] at he
          subst he
          exact way.result hr
      · rw [← horder]
        simp
    | none =>
      have e : (Thread.step device ⟨given, some ⟨action, r⟩, left⟩ w) =
          (⟨given, some ⟨action, (r.step device w).1⟩, left⟩, (r.step device w).2) := by
        simp only [Thread.step, hr]
      rw [e]
      obtain ⟨q, hq, way'⟩ := way.step hl hs hp hr
      refine ⟨⟨q, hq, ?_⟩, hg, ?_⟩
      · rintro _ _ ⟨⟩
        exact way'
      · exact horder

theorem apart_step {W : Type} {cfg : Cfg} {device : Nat → Device W} {stands : Nat → W → Nat → Prop}
    (h : Apart device stands) {i j : Nat} (hij : i ≠ j) {w : W} {p : Nat} (hp : stands i w p) (t : Thread cfg) :
    stands i (t.step (device j) w).2 p := by
  obtain ⟨given, current, left⟩ := t
  cases current with
  | none => cases left <;> exact hp
  | some x =>
    obtain ⟨action, r⟩ := x
    cases r with
    | done a => exact hp
    | fail e => exact hp
    | tell next => exact h.tell i j w p hij hp
    | seek q next => exact h.seek i j w p q hij hp
    | fetch n next => exact h.fetch i j w p n hij hp

theorem sound_scheduled {W : Type} {cfg : Cfg} (device : Nat → Device W) (first last : Data) (E : Err → Prop)
    (stands : Nat → W → Nat → Prop) (hl : first <+: last)
    (hs : ∀ i, ServesGrowing (device i) first last E (stands i)) (ha : Apart device stands)
    (actions : Nat → List (Action cfg)) (ho : ∀ i, ∀ action ∈ actions i, action.Own) (w : W)
    (hw : ∀ i, ∃ p, stands i w p) (schedule : List Nat) (i : Nat) :
    Sound first last E (stands i) (actions i) ((scheduled device schedule (fun i => .start (actions i), w)).1 i)
      (scheduled device schedule (fun i => .start (actions i), w)).2 := by
  have key : ∀ (schedule : List Nat) (x : (Nat → Thread cfg) × W),
      (∀ i, Sound first last E (stands i) (actions i) (x.1 i) x.2) →
      ∀ i, Sound first last E (stands i) (actions i) ((scheduled device schedule x).1 i)
        (scheduled device schedule x).2 := by
    intro schedule
    induction schedule with
    | nil => exact fun x h => h
    | cons j schedule ih =>
      intro x h
      refine ih _ fun i => ?_
      by_cases hij : i = j
      · subst hij
        simp only [replaced, if_pos]
        exact (h i).step hl (hs i) (ho i)
      · simp only [replaced, if_neg hij]
        obtain ⟨⟨p, hp, hc⟩, hg, horder⟩ := h i
        exact ⟨⟨p, apart_step ha hij hp _, hc⟩, hg, horder⟩
  exact key schedule (fun i => .start (actions i), w)
    (fun i => (hw i).elim fun p hp => Sound.start first last E hp (actions i)) i

/-- Any number of threads, each with a tape of its own on a content that may grow and which may fail, and any schedule:
at any time each thread has the right result of each of its actions so far, in order. -/
theorem C84_schedule {W : Type} {cfg : Cfg} (device : Nat → Device W) (first last : Data) (E : Err → Prop)
    (stands : Nat → W → Nat → Prop) (hl : first <+: last)
    (hs : ∀ i, ServesGrowing (device i) first last E (stands i)) (ha : Apart device stands)
    (actions : Nat → List (Action cfg)) (ho : ∀ i, ∀ action ∈ actions i, action.Own) (w : W)
    (hw : ∀ i, ∃ p, stands i w p) (schedule : List Nat) (i : Nat) :
    let t := (scheduled device schedule (fun i => .start (actions i), w)).1 i
    (∀ entry ∈ t.given, Right first last E entry) ∧ t.given.map (·.1) <+: actions i := by
  intro t
  have this := sound_scheduled device first last E stands hl hs ha actions ho w hw schedule i
  refine ⟨this.given, ?_⟩
  rw [← this.order, List.append_assoc]
  exact List.prefix_append _ _

/-- The threads and the world after the first `n` turns of an infinite schedule. -/
def after {W : Type} {cfg : Cfg} (device : Nat → Device W) (turn : Nat → Nat) (x : (Nat → Thread cfg) × W) (n : Nat) :
    (Nat → Thread cfg) × W := scheduled device ((List.range n).map turn) x

theorem scheduled_append {W : Type} {cfg : Cfg} (device : Nat → Device W) (a b : List Nat)
    (x : (Nat → Thread cfg) × W) :
    scheduled device (a ++ b) x = scheduled device b (scheduled device a x) := by
  induction a generalizing x with
  | nil => rfl
  | cons i a ih => exact ih _

section progress
variable {W : Type} {cfg : Cfg} (device : Nat → Device W) (turn : Nat → Nat) (x : (Nat → Thread cfg) × W)

theorem after_succ (n : Nat) : after device turn x (n + 1) =
    scheduled device [turn n] (after device turn x n) := by
  unfold after
  rw [List.range_succ, List.map_append, scheduled_append]
  rfl

theorem after_other {n i : Nat} (h : turn n ≠ i) :
    (after device turn x (n + 1)).1 i = (after device turn x n).1 i := by
  rw [after_succ]
  show replaced _ _ _ i = _
  unfold replaced
  rw [if_neg (Ne.symm h)]

theorem after_own {n i : Nat} (h : turn n = i) : (after device turn x (n + 1)).1 i =
    (((after device turn x n).1 i).step (device i) (after device turn x n).2).1 := by
  rw [after_succ]
  subst h
  show replaced _ _ _ _ = _
  unfold replaced
  rw [if_pos rfl]

theorem next_turn {i : Nat} (hf : ∀ n, ∃ m, n ≤ m ∧ turn m = i) (n : Nat) :
    ∃ m, turn m = i ∧ (after device turn x m).1 i = (after device turn x n).1 i := by
  obtain ⟨m, hm, ht⟩ := hf n
  obtain ⟨k, rfl⟩ := Nat.exists_eq_add_of_le hm
  clear hm
  induction k generalizing n with
  | zero => exact ⟨n, ht, rfl⟩
  | succ k ih =>
    by_cases h : turn n = i
    · exact ⟨n, h, rfl⟩
    · obtain ⟨m, h1, h2⟩ := ih (n + 1) (by rw [← ht]; congr 1; omega)
      exact ⟨m, h1, h2.trans (after_other device turn x h)⟩

theorem finishes {i : Nat} (hf : ∀ n, ∃ m, n ≤ m ∧ turn m = i) (left : List (Action cfg)) :
    ∀ n given, (after device turn x n).1 i = ⟨given, none, left⟩ →
      ∃ m given, (after device turn x m).1 i = ⟨given, none, []⟩ := by
  induction left with
  | nil => exact fun n given h => ⟨n, given, h⟩
  | cons action left ih =>
    have key : ∀ (r : Reader action.Value) n given,
        (after device turn x n).1 i = ⟨given, some ⟨action, r⟩, left⟩ →
        ∃ m given, (after device turn x m).1 i = ⟨given, none, []⟩ := by
      intro r
      induction r with
      | done a =>
        intro n given h
        obtain ⟨m, h1, h2⟩ := next_turn device turn x hf n
        exact ih (m + 1) _ (by rw [after_own device turn x h1, h2, h]; rfl)
      | fail e =>
        intro n given h
        obtain ⟨m, h1, h2⟩ := next_turn device turn x hf n
        exact ih (m + 1) _ (by rw [after_own device turn x h1, h2, h]; rfl)
      | tell next ih' =>
        intro n given h
        obtain ⟨m, h1, h2⟩ := next_turn device turn x hf n
        exact ih' _ (m + 1) given (by rw [after_own device turn x h1, h2, h]; rfl)
      | seek q next ih' =>
        intro n given h
        obtain ⟨m, h1, h2⟩ := next_turn device turn x hf n
        exact ih' _ (m + 1) given (by rw [after_own device turn x h1, h2, h]; rfl)
      | fetch k next ih' =>
        intro n given h
        obtain ⟨m, h1, h2⟩ := next_turn device turn x hf n
        exact ih' _ (m + 1) given (by rw [after_own device turn x h1, h2, h]; rfl)
    intro n given h
    obtain ⟨m, h1, h2⟩ := next_turn device turn x hf n
    exact key action.run (m + 1) given (by rw [after_own device turn x h1, h2, h]; rfl)

theorem finished {i n : Nat} {given : List ((action : Action cfg) × Except Err action.Value)}
    (h : (after device turn x n).1 i = ⟨given, none, []⟩) (k : Nat) :
    (after device turn x (n + k)).1 i = ⟨given, none, []⟩ := by
  induction k with
  | zero => exact h
  | succ k ih =>
    by_cases ht : turn (n + k) = i
    · rw [← Nat.add_assoc, after_own device turn x ht, ih]
      rfl
    · rw [← Nat.add_assoc, after_other device turn x ht, ih]

end progress

/-- Whatever the tapes do and whatever the others do, a thread that has its turn again and again gets through all of
its actions. -/
theorem C84_progress {W : Type} {cfg : Cfg} (device : Nat → Device W) (actions : Nat → List (Action cfg)) (w : W)
    (turn : Nat → Nat) (i : Nat) (hf : ∀ n, ∃ m, n ≤ m ∧ turn m = i) :
    ∃ n, ∀ m, n ≤ m →
      let t := (after device turn (fun i => .start (actions i), w) m).1 i
      t.current = none ∧ t.left = [] := by
  obtain ⟨n, given, h⟩ := finishes device turn (fun i => .start (actions i), w) hf (actions i) 0 [] rfl
  refine ⟨n, fun m hm => ?_⟩
  obtain ⟨k, rfl⟩ := Nat.exists_eq_add_of_le hm
  have := finished device turn (fun i => .start (actions i), w) h k
  intro t
  exact ⟨congrArg Thread.current this, congrArg Thread.left this⟩

/-- So on tapes that work, whatever the schedule, a thread that has its turn again and again ends up with the result that
each of its actions gives alone. -/
theorem C84_alone {W : Type} {cfg : Cfg} (device : Nat → Device W) (d : Data) (stands : Nat → W → Nat → Prop)
    (hs : ∀ i, ServesGrowing (device i) d d (fun _ => False) (stands i)) (ha : Apart device stands)
    (actions : Nat → List (Action cfg)) (ho : ∀ i, ∀ action ∈ actions i, action.Own) (w : W)
    (hw : ∀ i, ∃ p, stands i w p) (turn : Nat → Nat) (i : Nat) (hf : ∀ n, ∃ m, n ≤ m ∧ turn m = i) :
    ∃ n, ∀ m, n ≤ m → ((after device turn (fun i => .start (actions i), w) m).1 i).given =
      (actions i).map fun action => ⟨action, action.alone d⟩ := by
  obtain ⟨n, h⟩ := C84_progress device actions w turn i hf
  refine ⟨n, fun m hm => ?_⟩
  obtain ⟨h1, h2⟩ := h m hm
  have := sound_scheduled device d d (fun _ => False) stands (List.prefix_refl d) hs ha actions ho w hw
    ((List.range m).map turn) i
  have order := this.order
  change Thread.current (scheduled device _ _ |>.1 i) = _ at h1
  change Thread.left (scheduled device _ _ |>.1 i) = _ at h2
  rw [h1, h2] at order
  have given := this.given
  show Thread.given (scheduled device _ _ |>.1 i) = _
  generalize Thread.given (scheduled device ((List.range m).map turn) (fun i => .start (actions i), w) |>.1 i) = g at order given
  rw [← order]
  clear order
  simp only [Option.toList, List.map_nil, List.append_nil, List.map_map]
  symm
  refine (List.map_congr_left fun entry he => ?_).trans (List.map_id g)
  obtain ⟨action, value⟩ := entry
  rcases given _ he with h | ⟨h, h'⟩ | ⟨_, h, _⟩
  · exact Sigma.ext rfl (heq_of_eq h.symm)
  · exact Sigma.ext rfl (heq_of_eq (h'.trans h.symm))
  · exact h.elim

/-- Handles of one file qualify, be it that the file grows, and however the handles are placed. -/
theorem C84_handles (last : Data) (size : Nat → Nat) (n : Nat) (h : ∀ t, n ≤ size t) :
    last.take n <+: last ∧
    (∀ i, ServesGrowing (handle last size i) (last.take n) last (fun _ => False) (fun w p => w.1 i = p)) ∧
    Apart (handle last size) (fun i w p => w.1 i = p) ∧
    ∀ (w : (Nat → Nat) × Nat) i, ∃ p, w.1 i = p := by
  refine ⟨List.take_prefix n last, fun i => ⟨?_, ?_, ?_⟩, ⟨?_, ?_, ?_⟩, fun w i => ⟨_, rfl⟩⟩
  · rintro w _ rfl; exact ⟨rfl, rfl⟩
  · rintro w _ q rfl; exact ⟨rfl, by simp [handle, replaced]⟩
  · rintro w _ m rfl
    have key := (growing_serves last size n h).fetch (w.1 i, w.2) (w.1 i) m rfl
    unfold handle growing at *
    simp only at key ⊢
    by_cases hc : m = 0 ∨ w.1 i + m ≤ min (size w.2) last.length
    · rw [if_pos hc] at key ⊢
      rcases key with ⟨bytes, hb, hk⟩ | ⟨e, he, _⟩
      · exact .inl ⟨bytes, hb, hk.1, by simp [replaced]⟩
      · cases he
    · rw [if_neg hc] at key ⊢
      rcases key with ⟨bytes, hb, hk⟩ | ⟨e, he, hk, _⟩
      · exact hk.1.elim
      · exact .inr ⟨e, he, hk, _, rfl⟩
  · intro i j w p hij hp; exact hp
  · intro i j w p q hij hp
    show replaced _ _ _ i = p
    unfold replaced
    rw [if_neg hij]; exact hp
  · intro i j w p m hij hp
    unfold handle
    simp only
    split
    · show replaced _ _ _ i = p
      unfold replaced
      rw [if_neg hij]; exact hp
    · exact hp

/-- Two threads that open the sample file and look for a table, turn by turn. -/
def sampleThreads (i : Nat) : List (Action defaultCfg) :=
  if i < 2 then [.openAt sampleAccept 0, .use sampleDirectory (.position .colorPalettes) (.position _)] else []

/-- That every tape has a position of its own is needed: two threads that share one, as clones of a `std::fs::File` do,
disturb each other. -/
theorem C84_shared_disturbs :
    ∃ schedule, ∃ entry ∈ ((scheduled (fun _ => working sampleFont) schedule
      (fun i => .start (sampleThreads i), 0)).1 0).given,
      ¬Right (cfg := defaultCfg) sampleFont sampleFont (fun _ => False) entry := by
  have h : ((scheduled (fun _ => working sampleFont) ((List.range 60).map (· % 2))
      (fun i => .start (sampleThreads i), 0)).1 0).given.map
        (fun entry => (entry.2.toBool, (entry.1.alone sampleFont).toBool)) = [(false, true), (true, true)] := by
    decide +kernel
  refine ⟨(List.range 60).map (· % 2), ?_⟩
  generalize ((scheduled (fun _ => working sampleFont) ((List.range 60).map (· % 2))
      (fun i => .start (sampleThreads i), 0)).1 0).given = given at h
  cases given with
  | nil => cases h
  | cons entry rest =>
    refine ⟨entry, by simp, ?_⟩
    simp only [List.map_cons, List.cons.injEq, Prod.mk.injEq] at h
    obtain ⟨⟨h1, h2⟩, _⟩ := h
    rintro (h | ⟨_, h⟩ | ⟨_, h, _⟩)
    · rw [h, h2] at h1; cases h1
    · rw [h] at h2; cases h2
    · exact h

/-- With handles of their own they do not: here the first has done its work after 60 turns, the second has not. -/
example :
    (∀ i, ∀ action ∈ sampleThreads i, action.Own) ∧
    let x := scheduled (handle sampleFont fun _ => sampleFont.length) ((List.range 60).map (· % 3 % 2))
      (fun i => .start (sampleThreads i), (fun _ => 7, 0))
    ((x.1 0).given.map (·.2.toBool), (x.1 1).given.map (·.2.toBool), (x.1 1).left.length) = ([true, true], [], 1) := by
  refine ⟨fun i action h => ?_, by decide +kernel⟩
  unfold sampleThreads at h
  split at h
  · simp only [List.mem_cons, List.not_mem_nil, or_false] at h
    rcases h with rfl | rfl <;> trivial
  · cases h

end OpenType.Props
