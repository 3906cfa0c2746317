import Verif.Spec.Client
import Verif.Props.Delivery
/-! # C116: programs that use the crate -/

namespace OpenType.Props
open OpenType Spec

theorem exec_right {σ : Type} {cfg : Cfg} {device : Device σ} {first last : Data} {E : Err → Prop} {stands : σ → Nat → Prop}
    (hl : first <+: last) (hs : ServesGrowing device first last E stands) {action : Action cfg} (ho : action.Own) {s : σ} {p : Nat}
    (hp : stands s p) :
    Right first last E ⟨action, (action.run.exec device s).1⟩ ∧ ∃ q, stands (action.run.exec device s).2 q := by
  have key := exec_grows hl hs (action_stops ho).stops hp
  have any := action_anywhere action last p
  have any' := action_anywhere action first p
  cases h : action.run.exec device s with
  | mk x s' =>
    rw [h] at key
    cases x with
    | ok a =>
      obtain ⟨q, hq, hs'⟩ := key
      refine ⟨.inl ?_, q, hs'⟩
      rw [← any, hq]
      rfl
    | error e =>
      obtain ⟨h1, q, hs'⟩ := key
      refine ⟨?_, q, hs'⟩
      rcases h1 with ⟨-, h1⟩ | ⟨rfl, h1⟩ | h1
      · left
        rw [← any, h1]
        rfl
      · exact .inr (.inl ⟨rfl, by rw [← any', h1]; rfl⟩)
      · exact .inr (.inr ⟨e, h1, rfl⟩)

/-- Whatever a program does, on any device whose content may grow and which may fail, and whatever it makes of the results and
failures it gets: everything it does gives the right result. -/
theorem C116_right {σ ρ : Type} {cfg : Cfg} (device : Device σ) (first last : Data) (E : Err → Prop) (stands : σ → Nat → Prop)
    (hl : first <+: last) (hs : ServesGrowing device first last E stands) (client : Client cfg ρ) (ho : client.Own) (s : σ) (p : Nat)
    (hp : stands s p) : ∀ entry ∈ (client.exec device s).1, Right first last E entry := by
  induction client generalizing s p with
  | finish result => exact fun _ h => (by cases h)
  | act action next ih =>
    obtain ⟨h1, q, h2⟩ := exec_right hl hs ho.1 hp
    intro entry he
    rcases List.mem_cons.mp he with rfl | he
    · exact h1
    · exact ih _ (ho.2 _) _ q h2 entry he

/-- As long as failures change nothing, the program does what it does when everything is done alone, and has the same result. -/
theorem C116_unspoiled {σ ρ : Type} {cfg : Cfg} (device : Device σ) (d : Data) (client : Client cfg ρ) (s : σ)
    (h : ∀ entry ∈ (client.exec device s).1, entry.2 = entry.1.alone d) : client.exec device s = client.alone d := by
  induction client generalizing s with
  | finish result => rfl
  | act action next ih =>
    have h1 : (action.run.exec device s).1 = action.alone d := h ⟨action, _⟩ (List.mem_cons_self ..)
    have h2 := ih (action.run.exec device s).1 (action.run.exec device s).2 fun entry he => h entry (List.mem_cons_of_mem _ he)
    unfold Client.exec Client.alone
    rw [h1] at h2
    simp only [h1, h2]

/-- On a tape that does not fail, wherever it stands and however it delivers its content, there is no difference at all. -/
theorem C116_alone {σ ρ : Type} {cfg : Cfg} (device : Device σ) (d : Data) (stands : σ → Nat → Prop)
    (hs : ServesGrowing device d d (fun _ => False) stands) (client : Client cfg ρ) (ho : client.Own) (s : σ) (p : Nat)
    (hp : stands s p) : client.exec device s = client.alone d := by
  refine C116_unspoiled device d client s fun entry he => ?_
  rcases C116_right device d d _ stands (List.prefix_refl d) hs client ho s p hp entry he with h | ⟨h, h'⟩ | ⟨_, h, _⟩
  · exact h
  · rw [h, h']
  · exact h.elim

/-- Such are sources that deliver a content in pieces, with interruptions. -/
theorem C116_pieces {σ ρ : Type} {cfg : Cfg} (source : Source σ) (d : Data) (stands : σ → Nat → Prop)
    (h : Delivers source d d (fun _ => False) stands) (client : Client cfg ρ) (ho : client.Own) (s : σ) (p : Nat)
    (hp : stands s p) : client.exec source.device s = client.alone d :=
  C116_alone source.device d stands (C85_serves h) client ho s p hp

/-- What is spoiled by failures is no more than the operations that fail, whatever the program does about them. -/
theorem C116_spoiled {ρ : Type} {cfg : Cfg} (d : Data) (schedule : Nat → Option (Err × Nat)) (failures : List Nat)
    (hf : ∀ i, schedule i ≠ none → i ∈ failures) (client : Client cfg ρ) (ho : client.Own) (s : Nat × Nat)
    (spoiled : List (Entry cfg)) (hs : spoiled.Sublist (client.exec (flaky d schedule) s).1)
    (hd : ∀ entry ∈ spoiled, entry.2 ≠ entry.1.alone d) : spoiled.length ≤ failures.length := by
  have key : spoiled.length ≤ (failures.filter (s.2 ≤ ·)).length := by
    induction client generalizing s spoiled with
    | finish result =>
      rw [List.sublist_nil.mp hs]
      exact Nat.zero_le _
    | act action next ih =>
      have ⟨h1, h2⟩ := stops_unspoiled (action_stops ho.1).stops d schedule s
      have any := action_anywhere action d s.1
      unfold Client.exec at hs
      generalize e : action.run.exec (flaky d schedule) s = x at h1 h2 hs
      obtain ⟨x, s'⟩ := x
      dsimp only at h1 h2 hs
      cases hs with
      | cons _ hs => exact Nat.le_trans (ih x (ho.2 x) s' spoiled hs hd) (later h1).length_le
      | cons_cons _ hs =>
        rename_i rest
        have hrest := ih x (ho.2 x) s' rest hs fun entry he => hd entry (by simp [he])
        by_cases hn : ∀ i, s.2 ≤ i → i < s'.2 → schedule i = none
        · exact absurd ((h2 hn).trans any) (hd ⟨action, x⟩ (by simp))
        · obtain ⟨i, hi⟩ := Classical.not_forall.mp hn
          simp only [Classical.not_imp] at hi
          obtain ⟨h3, h4, h5⟩ := hi
          have hlt := fewer hf h1 h3 h4 h5
          rw [List.length_cons]
          omega
  exact Nat.le_trans key (List.length_filter_le _ _)

/-! ## Threads -/

theorem _root_.OpenType.Spec.Client.Did.trans {ρ : Type} {cfg : Cfg} {a b c : Client cfg ρ} {xs ys : List (Entry cfg)} (h : Client.Did a xs b)
    (h' : Client.Did b ys c) : Client.Did a (xs ++ ys) c := by
  induction h with
  | nil => exact h'
  | cons _ ih => exact .cons (ih h')

theorem _root_.OpenType.Spec.Client.Did.own {ρ : Type} {cfg : Cfg} {a b : Client cfg ρ} {xs : List (Entry cfg)} (h : Client.Did a xs b) (ho : a.Own) :
    b.Own := by
  induction h with
  | nil => exact ho
  | cons _ ih => exact ih (ho.2 _)

/-- What holds of a thread at any time. -/
structure Steady {W ρ : Type} {cfg : Cfg} (first last : Data) (E : Err → Prop) (stands : W → Nat → Prop)
    (client : Client cfg ρ) (t : Worker cfg ρ) (w : W) : Prop where
  place : ∃ p, stands w p ∧ ∀ action r next, t.current = some ⟨action, r, next⟩ →
    t.left = .act action next ∧ OnWay first last E action r p
  given : ∀ entry ∈ t.given, Right first last E entry
  did : Client.Did client t.given t.left

theorem Steady.step {W ρ : Type} {cfg : Cfg} {first last : Data} {E : Err → Prop} {stands : W → Nat → Prop}
    {device : Device W} (hl : first <+: last) (hs : ServesGrowing device first last E stands)
    {client : Client cfg ρ} (ho : client.Own) {t : Worker cfg ρ} {w : W} (h : Steady first last E stands client t w) :
    Steady first last E stands client (t.step device w).1 (t.step device w).2 := by
  obtain ⟨given, current, left⟩ := t
  obtain ⟨⟨p, hp, hc⟩, hg, hdid⟩ := h
  cases current with
  | none =>
    cases left with
    | finish result => exact ⟨⟨p, hp, hc⟩, hg, hdid⟩
    | act action next =>
      refine ⟨⟨p, hp, ?_⟩, hg, hdid⟩
      rintro _ _ _ ⟨⟩
      exact ⟨rfl, OnWay.start (hdid.own ho).1 p⟩
  | some x =>
    obtain ⟨action, r, next⟩ := x
    obtain ⟨hleft, way⟩ := hc action r next rfl
    dsimp only at hleft
    subst hleft
    cases hr : r.result with
    | some x =>
      have e : (Worker.step device ⟨given, some ⟨action, r, next⟩, .act action next⟩ w) =
          (⟨given ++ [⟨action, x⟩], none, next x⟩, w) := by
        simp only [Worker.step, hr]
      rw [e]
      refine ⟨⟨p, hp, nofun⟩, ?_, hdid.trans (.cons .nil)⟩
      intro entry he
      rcases List.mem_append.mp he with he | he
      · exact hg entry he
      · rw [List.mem_singleton] at he
        subst he
        exact way.result hr
    | none =>
      have e : (Worker.step device ⟨given, some ⟨action, r, next⟩, .act action next⟩ w) =
          (⟨given, some ⟨action, (r.step device w).1, next⟩, .act action next⟩, (r.step device w).2) := by
        simp only [Worker.step, hr]
      rw [e]
      obtain ⟨q, hq, way'⟩ := way.step hl hs hp hr
      refine ⟨⟨q, hq, ?_⟩, hg, hdid⟩
      rintro _ _ _ ⟨⟩
      exact ⟨rfl, way'⟩

theorem apart_turn {W ρ : Type} {cfg : Cfg} {device : Nat → Device W} {stands : Nat → W → Nat → Prop}
    (h : Apart device stands) {i j : Nat} (hij : i ≠ j) {w : W} {p : Nat} (hp : stands i w p) (t : Worker cfg ρ) :
    stands i (t.step (device j) w).2 p := by
  obtain ⟨given, current, left⟩ := t
  cases current with
  | none => cases left <;> exact hp
  | some x =>
    obtain ⟨action, r, next⟩ := x
    cases r with
    | done a => exact hp
    | fail e => exact hp
    | tell next => exact h.tell i j w p hij hp
    | seek q next => exact h.seek i j w p q hij hp
    | fetch n next => exact h.fetch i j w p n hij hp

theorem steady_turns {W ρ : Type} {cfg : Cfg} (device : Nat → Device W) (first last : Data) (E : Err → Prop)
    (stands : Nat → W → Nat → Prop) (hl : first <+: last) (hs : ∀ i, ServesGrowing (device i) first last E (stands i))
    (ha : Apart device stands) (clients : Nat → Client cfg ρ) (ho : ∀ i, (clients i).Own) (w : W) (hw : ∀ i, ∃ p, stands i w p)
    (schedule : List Nat) (i : Nat) :
    Steady first last E (stands i) (clients i) ((turns device schedule (fun i => .start (clients i), w)).1 i)
      (turns device schedule (fun i => .start (clients i), w)).2 := by
  have key : ∀ (schedule : List Nat) (x : (Nat → Worker cfg ρ) × W),
      (∀ i, Steady first last E (stands i) (clients i) (x.1 i) x.2) →
      ∀ i, Steady first last E (stands i) (clients i) ((turns device schedule x).1 i) (turns device schedule x).2 := by
    intro schedule
    induction schedule with
    | nil => exact fun x h => h
    | cons j schedule ih =>
      intro x h
      refine ih _ fun i => ?_
      by_cases hij : i = j
      · subst hij
        simp only [replaced, if_pos]
        exact (h i).step hl (hs i) (ho i)
      · simp only [replaced, if_neg hij]
        obtain ⟨⟨p, hp, hc⟩, hg, hdid⟩ := h i
        exact ⟨⟨p, apart_turn ha hij hp _, hc⟩, hg, hdid⟩
  exact key schedule (fun i => .start (clients i), w)
    (fun i => (hw i).elim fun p hp => ⟨⟨p, hp, fun _ _ _ h => (by cases h)⟩, fun _ h => (by cases h), .nil⟩) i

/-- Any number of threads that run programs, each with a tape of its own on a content that may grow and which may fail, and any
schedule: at any time each thread has done what its program told it to do, with the right results. -/
theorem C116_threads {W ρ : Type} {cfg : Cfg} (device : Nat → Device W) (first last : Data) (E : Err → Prop)
    (stands : Nat → W → Nat → Prop) (hl : first <+: last) (hs : ∀ i, ServesGrowing (device i) first last E (stands i))
    (ha : Apart device stands) (clients : Nat → Client cfg ρ) (ho : ∀ i, (clients i).Own) (w : W) (hw : ∀ i, ∃ p, stands i w p)
    (schedule : List Nat) (i : Nat) :
    let t := (turns device schedule (fun i => .start (clients i), w)).1 i
    (∀ entry ∈ t.given, Right first last E entry) ∧ Client.Did (clients i) t.given t.left :=
  have this := steady_turns device first last E stands hl hs ha clients ho w hw schedule i
  ⟨this.given, this.did⟩

/-- The threads and the world after the first `n` turns of an infinite schedule. -/
def afterTurns {W ρ : Type} {cfg : Cfg} (device : Nat → Device W) (turn : Nat → Nat) (x : (Nat → Worker cfg ρ) × W) (n : Nat) :
    (Nat → Worker cfg ρ) × W := turns device ((List.range n).map turn) x

theorem turns_append {W ρ : Type} {cfg : Cfg} (device : Nat → Device W) (a b : List Nat) (x : (Nat → Worker cfg ρ) × W) :
    turns device (a ++ b) x = turns device b (turns device a x) := by
  induction a generalizing x with
  | nil => rfl
  | cons i a ih => exact ih _

section progress
variable {W ρ : Type} {cfg : Cfg} (device : Nat → Device W) (turn : Nat → Nat) (x : (Nat → Worker cfg ρ) × W)

theorem afterTurns_succ (n : Nat) : afterTurns device turn x (n + 1) = turns device [turn n] (afterTurns device turn x n) := by
  unfold afterTurns
  rw [List.range_succ, List.map_append, turns_append]
  rfl

theorem afterTurns_other {n i : Nat} (h : turn n ≠ i) :
    (afterTurns device turn x (n + 1)).1 i = (afterTurns device turn x n).1 i := by
  rw [afterTurns_succ]
  show replaced _ _ _ i = _
  unfold replaced
  rw [if_neg (Ne.symm h)]

theorem afterTurns_own {n i : Nat} (h : turn n = i) : (afterTurns device turn x (n + 1)).1 i =
    (((afterTurns device turn x n).1 i).step (device i) (afterTurns device turn x n).2).1 := by
  rw [afterTurns_succ]
  subst h
  show replaced _ _ _ _ = _
  unfold replaced
  rw [if_pos rfl]

theorem own_turn {i : Nat} (hf : ∀ n, ∃ m, n ≤ m ∧ turn m = i) (n : Nat) :
    ∃ m, turn m = i ∧ (afterTurns device turn x m).1 i = (afterTurns device turn x n).1 i := by
  obtain ⟨m, hm, ht⟩ := hf n
  obtain ⟨k, rfl⟩ := Nat.exists_eq_add_of_le hm
  clear hm
  induction k generalizing n with
  | zero => exact ⟨n, ht, rfl⟩
  | succ k ih =>
    by_cases h : turn n = i
    · exact ⟨n, h, rfl⟩
    · obtain ⟨m, h1, h2⟩ := ih (n + 1) (by rw [← ht]; congr 1; omega)
      exact ⟨m, h1, h2.trans (afterTurns_other device turn x h)⟩

theorem completes {i : Nat} (hf : ∀ n, ∃ m, n ≤ m ∧ turn m = i) (left : Client cfg ρ) :
    ∀ n given, (afterTurns device turn x n).1 i = ⟨given, none, left⟩ →
      ∃ m given result, (afterTurns device turn x m).1 i = ⟨given, none, .finish result⟩ := by
  induction left with
  | finish result => exact fun n given h => ⟨n, given, result, h⟩
  | act action following ih =>
    have key : ∀ (r : Reader action.Value) n given,
        (afterTurns device turn x n).1 i = ⟨given, some ⟨action, r, following⟩, .act action following⟩ →
        ∃ m given result, (afterTurns device turn x m).1 i = ⟨given, none, .finish result⟩ := by
      intro r
      induction r with
      | done a =>
        intro n given h
        obtain ⟨m, h1, h2⟩ := own_turn device turn x hf n
        exact ih (.ok a) (m + 1) (given ++ [⟨action, .ok a⟩]) (by rw [afterTurns_own device turn x h1, h2, h]; rfl)
      | fail e =>
        intro n given h
        obtain ⟨m, h1, h2⟩ := own_turn device turn x hf n
        exact ih (.error e) (m + 1) (given ++ [⟨action, .error e⟩]) (by rw [afterTurns_own device turn x h1, h2, h]; rfl)
      | tell next ih' =>
        intro n given h
        obtain ⟨m, h1, h2⟩ := own_turn device turn x hf n
        exact ih' _ (m + 1) given (by rw [afterTurns_own device turn x h1, h2, h]; rfl)
      | seek q next ih' =>
        intro n given h
        obtain ⟨m, h1, h2⟩ := own_turn device turn x hf n
        exact ih' _ (m + 1) given (by rw [afterTurns_own device turn x h1, h2, h]; rfl)
      | fetch k next ih' =>
        intro n given h
        obtain ⟨m, h1, h2⟩ := own_turn device turn x hf n
        exact ih' _ (m + 1) given (by rw [afterTurns_own device turn x h1, h2, h]; rfl)
    intro n given h
    obtain ⟨m, h1, h2⟩ := own_turn device turn x hf n
    exact key action.run (m + 1) given (by rw [afterTurns_own device turn x h1, h2, h]; rfl)

theorem completed {i n : Nat} {given : List (Entry cfg)} {result : ρ}
    (h : (afterTurns device turn x n).1 i = ⟨given, none, .finish result⟩) (k : Nat) :
    (afterTurns device turn x (n + k)).1 i = ⟨given, none, .finish result⟩ := by
  induction k with
  | zero => exact h
  | succ k ih =>
    by_cases ht : turn (n + k) = i
    · rw [← Nat.add_assoc, afterTurns_own device turn x ht, ih]
      rfl
    · rw [← Nat.add_assoc, afterTurns_other device turn x ht, ih]

end progress

/-- Whatever the tapes do and whatever the others do, a thread that has its turn again and again comes to the end of its
program, and stays there. -/
theorem C116_progress {W ρ : Type} {cfg : Cfg} (device : Nat → Device W) (clients : Nat → Client cfg ρ) (w : W)
    (turn : Nat → Nat) (i : Nat) (hf : ∀ n, ∃ m, n ≤ m ∧ turn m = i) :
    ∃ n given result, ∀ m, n ≤ m →
      (afterTurns device turn (fun i => .start (clients i), w) m).1 i = ⟨given, none, .finish result⟩ := by
  obtain ⟨n, given, result, h⟩ := completes device turn (fun i => .start (clients i), w) hf (clients i) 0 [] rfl
  refine ⟨n, given, result, fun m hm => ?_⟩
  obtain ⟨k, rfl⟩ := Nat.exists_eq_add_of_le hm
  exact completed device turn (fun i => .start (clients i), w) h k

theorem _root_.OpenType.Spec.Client.Did.alone {ρ : Type} {cfg : Cfg} {d : Data} {client left : Client cfg ρ} {entries : List (Entry cfg)}
    (h : Client.Did client entries left) (he : ∀ entry ∈ entries, entry.2 = entry.1.alone d) :
    client.alone d = (entries ++ (left.alone d).1, (left.alone d).2) := by
  induction h with
  | nil => rfl
  | cons h ih =>
    rename_i action next x entries left
    have h1 : x = action.alone d := he ⟨action, x⟩ (List.mem_cons_self ..)
    have h2 := ih fun entry h => he entry (List.mem_cons_of_mem _ h)
    subst h1
    simp only [Client.alone] at h2 ⊢
    rw [h2]
    rfl

/-- So on tapes that work, whatever the schedule, a thread that has its turn again and again ends with the result that its
program has when everything is done alone. -/
theorem C116_threads_alone {W ρ : Type} {cfg : Cfg} (device : Nat → Device W) (d : Data) (stands : Nat → W → Nat → Prop)
    (hs : ∀ i, ServesGrowing (device i) d d (fun _ => False) (stands i)) (ha : Apart device stands)
    (clients : Nat → Client cfg ρ) (ho : ∀ i, (clients i).Own) (w : W) (hw : ∀ i, ∃ p, stands i w p) (turn : Nat → Nat) (i : Nat)
    (hf : ∀ n, ∃ m, n ≤ m ∧ turn m = i) :
    ∃ n, ∀ m, n ≤ m → (afterTurns device turn (fun i => .start (clients i), w) m).1 i =
      ⟨((clients i).alone d).1, none, .finish ((clients i).alone d).2⟩ := by
  obtain ⟨n, given, result, h⟩ := C116_progress device clients w turn i hf
  refine ⟨n, fun m hm => ?_⟩
  have key := steady_turns device d d (fun _ => False) stands (List.prefix_refl d) hs ha clients ho w hw
    ((List.range m).map turn) i
  have hm' := h m hm
  have g1 := key.given
  have g2 := key.did
  change ∀ entry ∈ ((afterTurns device turn (fun i => .start (clients i), w) m).1 i).given, _ at g1
  change Client.Did _ ((afterTurns device turn (fun i => .start (clients i), w) m).1 i).given
    ((afterTurns device turn (fun i => .start (clients i), w) m).1 i).left at g2
  rw [hm'] at g1 g2 ⊢
  rw [g2.alone (d := d) fun entry he => ?_]
  · simp [Client.alone]
  · rcases g1 entry he with h | ⟨h, h'⟩ | ⟨_, h, _⟩
    · exact h
    · rw [h, h']
    · exact h.elim

/-! ## Example -/

/-- A program that opens the sample file, once more if this fails, and looks for a table in the font it has found there. The
result is whether it has the table. -/
def sampleClient : Client defaultCfg (Option Bool) :=
  .act (.openAt sampleAccept 0) fun
    | .ok file => look file
    | .error _ => .act (.openAt sampleAccept 0) fun
      | .ok file => look file
      | .error _ => .finish none
where
  look (file : File) : Client defaultCfg (Option Bool) :=
    match file.fonts with
    | [] => .finish none
    | font :: _ => .act (.use font (.position .colorPalettes) (.position _)) fun
      | .ok x => .finish (some (show Option Unit from x).isSome)
      | .error _ => .finish none

theorem sampleClient_own : sampleClient.Own := by
  have hlook : ∀ file, (sampleClient.look file).Own := by
    intro file
    unfold sampleClient.look
    split
    · trivial
    · exact ⟨trivial, fun x => by cases x <;> trivial⟩
  refine ⟨trivial, fun x => ?_⟩
  cases x with
  | ok file => exact hlook file
  | error e =>
    refine ⟨trivial, fun x => ?_⟩
    cases x with
    | ok file => exact hlook file
    | error e => trivial

/-- It gets over one failure, not over two. -/
example :
    let run (n : Nat) := sampleClient.exec (flaky sampleFont fun i => if i < n then some (.malformed "disk", 7) else none) (5, 0)
    sampleClient.Own ∧ (sampleClient.alone sampleFont).2 = some true ∧ (run 1).2 = some true ∧
      (run 1).1.map (·.2.toBool) = [false, true, true] ∧ (run 2).2 = none :=
  ⟨sampleClient_own, by decide +kernel, by decide +kernel, by decide +kernel, by decide +kernel⟩

/-- On a file that grows meanwhile but has all it needs, and on a source that gives the bytes in pieces, it gets what it gets alone. -/
example : sampleClient.exec (growing sampleFont fun i => sampleFont.length + i) (5, 0) = sampleClient.alone sampleFont ∧
    sampleClient.exec (piecemeal sampleFont (· % 4) (· % 3)).device (5, 0, 0) = sampleClient.alone sampleFont := by
  have h := (C83_growing sampleFont (fun i => sampleFont.length + i) sampleFont.length fun i => Nat.le_add_right _ i).2
  rw [List.take_length] at h
  exact ⟨C116_alone _ _ _ h _ sampleClient_own _ 5 rfl, C116_pieces _ _ _ (C85_piecemeal _ _ _) _ sampleClient_own _ 5 rfl⟩

/-- A tape that fails in its first operation spoils one call, as the theorem says. -/
example (spoiled : List (Entry defaultCfg))
    (hs : spoiled.Sublist (sampleClient.exec (flaky sampleFont fun i => if i < 1 then some (.malformed "disk", 7) else none) (5, 0)).1)
    (hd : ∀ entry ∈ spoiled, entry.2 ≠ entry.1.alone sampleFont) : spoiled.length ≤ 1 :=
  C116_spoiled sampleFont _ [0] (fun i h => by
    by_cases hi : i < 1
    · obtain rfl : i = 0 := by omega
      exact List.mem_singleton.mpr rfl
    · exact absurd (if_neg hi) h) _ sampleClient_own _ spoiled hs hd

/-- Two threads, each with the program and a handle of its own, that take turns get in the end what the program gets alone. -/
example (i : Nat) (hi : i < 2) : ∃ n, ∀ m, n ≤ m →
    (afterTurns (handle sampleFont fun _ => sampleFont.length) (· % 2) (fun _ => .start sampleClient, (fun _ => 7, 0)) m).1 i =
      ⟨(sampleClient.alone sampleFont).1, none, .finish (sampleClient.alone sampleFont).2⟩ := by
  obtain ⟨_, h1, h2, h3⟩ := C84_handles sampleFont (fun _ => sampleFont.length) sampleFont.length fun _ => Nat.le_refl _
  rw [List.take_length] at h1
  exact C116_threads_alone _ sampleFont _ h1 h2 (fun _ => sampleClient) (fun _ => sampleClient_own) _ (h3 _) _ i
    fun n => ⟨2 * n + i, by omega, by show (2 * n + i) % 2 = i; omega⟩

end OpenType.Props
