import Verif.Props.Device
/-! # C70: a failure of the tape spoils at most one call, so that repeating calls is enough -/

namespace OpenType.Props
open OpenType

/-- If none of the operations that a run on a failing tape has performed has failed, the outcome is that of a tape
that works. -/
def Unspoiled {α : Type} (r : Reader α) : Prop :=
  ∀ (d : Data) (schedule : Nat → Option (Err × Nat)) (s : Nat × Nat),
    s.2 ≤ (r.exec (flaky d schedule) s).2.2 ∧
    ((∀ i, s.2 ≤ i → i < (r.exec (flaky d schedule) s).2.2 → schedule i = none) →
      (r.exec (flaky d schedule) s).1 = outcome (r d s.1))

theorem exec_flaky_mono {α : Type} {r : Reader α} {d : Data} {schedule : Nat → Option (Err × Nat)} {s : Nat × Nat} :
    s.2 ≤ (r.exec (flaky d schedule) s).2.2 := by
  induction r generalizing s with
  | done a => exact Nat.le_refl _
  | fail e => exact Nat.le_refl _
  | tell next ih =>
    unfold Reader.exec
    refine Nat.le_trans ?_ (ih _)
    unfold flaky
    dsimp only
    split <;> simp
  | seek q next ih =>
    unfold Reader.exec
    refine Nat.le_trans ?_ (ih _)
    unfold flaky
    dsimp only
    split <;> simp
  | fetch n next ih =>
    unfold Reader.exec
    refine Nat.le_trans ?_ (ih _)
    unfold flaky
    dsimp only
    split
    · simp
    · split <;> simp

theorem stops_unspoiled {α : Type} {r : Reader α} (h : r.Stops) : Unspoiled r := by
  intro d schedule s
  refine ⟨exec_flaky_mono, ?_⟩
  induction r generalizing s with
  | done a => intro _; rfl
  | fail e => intro _; rfl
  | tell next ih =>
    intro hn
    have hi := hn s.2 (Nat.le_refl _)
    unfold Reader.exec at hn hi ⊢
    have e : (flaky d schedule).tell s =
        match schedule s.2 with
        | some (e, q) => (.error e, (q, s.2 + 1))
        | none => (.ok s.1, (s.1, s.2 + 1)) := rfl
    have h1 : schedule s.2 = none := hi (by
      refine Nat.lt_of_lt_of_le ?_ exec_flaky_mono
      rw [e]; split <;> simp)
    simp only [e, h1] at hn ⊢
    exact ih _ (h.2 _) (s.1, s.2 + 1) fun i hi => hn i (by simp only at hi; omega)
  | seek q next ih =>
    intro hn
    have hi := hn s.2 (Nat.le_refl _)
    unfold Reader.exec at hn hi ⊢
    have e : (flaky d schedule).seek s q =
        match schedule s.2 with
        | some (e, q') => (.error e, (q', s.2 + 1))
        | none => (.ok (), (q, s.2 + 1)) := rfl
    have h1 : schedule s.2 = none := hi (by
      refine Nat.lt_of_lt_of_le ?_ exec_flaky_mono
      rw [e]; split <;> simp)
    simp only [e, h1] at hn ⊢
    exact ih _ (h.2 _) (q, s.2 + 1) fun i hi => hn i (by simp only at hi; omega)
  | fetch n next ih =>
    intro hn
    have hi := hn s.2 (Nat.le_refl _)
    unfold Reader.exec at hn hi ⊢
    have e : (flaky d schedule).fetch s n =
        match schedule s.2 with
        | some (e, q) => (.error e, (q, s.2 + 1))
        | none => if n = 0 ∨ s.1 + n ≤ d.length then (.ok ((d.drop s.1).take n), (s.1 + n, s.2 + 1))
          else (.error .eof, (s.1, s.2 + 1)) := rfl
    have h1 : schedule s.2 = none := hi (by
      refine Nat.lt_of_lt_of_le ?_ exec_flaky_mono
      rw [e]
      split
      · simp
      · split <;> simp)
    have e' : (Reader.fetch n next) d s.1 = (next (Reader.slice d s.1 n)) d (s.1 + n) := rfl
    rw [e']
    unfold Reader.slice
    by_cases hl : n = 0 ∨ s.1 + n ≤ d.length
    · simp only [e, h1, if_pos hl] at hn ⊢
      exact ih _ (h.2 _) (s.1 + n, s.2 + 1) fun i hi => hn i (by simp only at hi; omega)
    · simp only [e, h1, if_neg hl, h.1]
      rfl

theorem unspoiled {α : Type} {r : Reader α} [h : Stops r] : Unspoiled r := stops_unspoiled h.stops

theorem own_unspoiled {cfg : Cfg} {call : Call} (h : call.Own cfg) (font : Font) :
    Unspoiled (call.run cfg tableChecksum font) := by
  cases h
  all_goals first
    | exact unspoiled (r := Font.take _ _ _ _ _)
    | exact unspoiled (r := Font.position _ _ _ _)

theorem later {failures : List Nat} {a b : Nat} (h : a ≤ b) :
    (failures.filter (b ≤ ·)).Sublist (failures.filter (a ≤ ·)) := by
  have : failures.filter (b ≤ ·) = (failures.filter (a ≤ ·)).filter (b ≤ ·) := by
    rw [List.filter_filter]
    refine List.filter_congr fun i _ => ?_
    rw [Bool.eq_iff_iff]
    simp only [Bool.and_eq_true, decide_eq_true_eq]
    omega
  rw [this]
  exact List.filter_sublist

theorem fewer {schedule : Nat → Option (Err × Nat)} {failures : List Nat}
    (hf : ∀ i, schedule i ≠ none → i ∈ failures) {a b i : Nat} (h : a ≤ b) (h1 : a ≤ i) (h2 : i < b)
    (h3 : schedule i ≠ none) : (failures.filter (b ≤ ·)).length < (failures.filter (a ≤ ·)).length := by
  refine Nat.lt_of_le_of_ne (later h).length_le fun e => ?_
  have hm : i ∈ failures.filter (a ≤ ·) := by simp [hf i h3, h1]
  rw [← (later h).eq_of_length e] at hm
  simp at hm
  omega

/-- In any session on a tape that fails as a schedule says, the calls that do not return what they return on a freshly
opened tape that works are no more than the operations that fail. -/
theorem C70_spoiled (cfg : Cfg) (font : Font) (d : Data) (schedule : Nat → Option (Err × Nat)) (failures : List Nat)
    (hf : ∀ i, schedule i ≠ none → i ∈ failures) (calls : List Call) (hcalls : ∀ call ∈ calls, call.Own cfg)
    (s : Nat × Nat) (spoiled : List ((call : Call) × Except Err call.Value))
    (hs : spoiled.Sublist (session cfg tableChecksum font (flaky d schedule) calls s))
    (hd : ∀ entry ∈ spoiled, entry.2 ≠ outcome (entry.1.run cfg tableChecksum font d 0)) :
    spoiled.length ≤ failures.length := by
  have key : spoiled.length ≤ (failures.filter (s.2 ≤ ·)).length := by
    induction calls generalizing s spoiled with
    | nil =>
      rw [List.sublist_nil.mp hs]
      exact Nat.zero_le _
    | cons call calls ih =>
      have ⟨h1, h2⟩ := own_unspoiled (hcalls call (by simp)) font d schedule s
      have any := call_anywhere (cfg := cfg) C07_checksum_anywhere font call d s.1 0
      unfold session at hs
      generalize e : (call.run cfg tableChecksum font).exec (flaky d schedule) s = x at h1 h2 hs
      obtain ⟨x, s'⟩ := x
      dsimp only at h1 h2 hs
      cases hs with
      | cons _ hs =>
        exact Nat.le_trans (ih (fun c hc => hcalls c (by simp [hc])) s' spoiled hs hd) (later h1).length_le
      | cons_cons _ hs =>
        rename_i rest
        have hrest := ih (fun c hc => hcalls c (by simp [hc])) s' rest hs fun entry he => hd entry (by simp [he])
        by_cases hn : ∀ i, s.2 ≤ i → i < s'.2 → schedule i = none
        · exact absurd ((h2 hn).trans any) (hd ⟨call, x⟩ (by simp))
        · obtain ⟨i, hi⟩ := Classical.not_forall.mp hn
          simp only [Classical.not_imp] at hi
          obtain ⟨h3, h4, h5⟩ := hi
          have hlt := fewer hf h1 h3 h4 h5
          rw [List.length_cons]
          omega
  exact Nat.le_trans key (List.length_filter_le _ _)

/-- So if a tape fails at most `k` times, one of `k + 1` times the same call gives what it should. -/
theorem C70_retry (cfg : Cfg) (font : Font) (d : Data) (schedule : Nat → Option (Err × Nat)) (failures : List Nat)
    (hf : ∀ i, schedule i ≠ none → i ∈ failures) (call : Call) (hcall : call.Own cfg) (s : Nat × Nat) :
    ∃ entry ∈ session cfg tableChecksum font (flaky d schedule) (List.replicate (failures.length + 1) call) s,
      entry.2 = outcome (entry.1.run cfg tableChecksum font d 0) := by
  by_cases h : ∃ entry ∈
      session cfg tableChecksum font (flaky d schedule) (List.replicate (failures.length + 1) call) s,
      entry.2 = outcome (entry.1.run cfg tableChecksum font d 0)
  · exact h
  · have hl : ∀ calls s, (session cfg tableChecksum font (flaky d schedule) calls s).length = calls.length := by
      intro calls
      induction calls with
      | nil => intro s; rfl
      | cons call calls ih => intro s; simp [session, ih]
    have := C70_spoiled cfg font d schedule failures hf (List.replicate (failures.length + 1) call)
      (fun c hc => by rw [List.eq_of_mem_replicate hc]; exact hcall) s _ (List.Sublist.refl _)
      fun entry he e => h ⟨entry, he, e⟩
    rw [hl, List.length_replicate] at this
    omega

/-- Three calls with two failures, the second of them at the first operation of the second call: the third call gives
what is stored. -/
example :
    let schedule (i : Nat) : Option (Err × Nat) := if i = 1 ∨ i = 2 then some (.malformed "disk", 7) else none
    (∀ i, schedule i ≠ none → i ∈ [1, 2]) ∧ Call.Own defaultCfg (.position .colorPalettes) ∧
      session defaultCfg tableChecksum sampleDirectory (flaky sampleFont schedule)
        (List.replicate 3 (.position .colorPalettes)) (0, 0) =
      [⟨.position .colorPalettes, .error (.malformed "disk")⟩, ⟨.position .colorPalettes, .error (.malformed "disk")⟩,
        ⟨.position .colorPalettes, .ok (some ())⟩] := by
  refine ⟨fun i h => ?_, .position _, rfl⟩
  simp only [ne_eq, ite_eq_right_iff, reduceCtorEq, imp_false, Classical.not_not] at h
  simpa using h

/-- Trying again and again on one device. -/
def attempts {σ α : Type} (device : Device σ) (r : Reader α) : Nat → σ → List (Except Err α)
  | 0, _ => []
  | n + 1, s => (r.exec device s).1 :: attempts device r n (r.exec device s).2

theorem attempts_unspoiled {α : Type} {r : Reader α} (h : Unspoiled r) {x : Except Err α} {d : Data}
    (hx : ∀ p, outcome (r d p) = x) {schedule : Nat → Option (Err × Nat)} {failures : List Nat}
    (hf : ∀ i, schedule i ≠ none → i ∈ failures) {n : Nat} {s : Nat × Nat}
    (hn : (failures.filter (s.2 ≤ ·)).length < n) : x ∈ attempts (flaky d schedule) r n s := by
  induction n generalizing s with
  | zero => omega
  | succ n ih =>
    unfold attempts
    have ⟨h1, h2⟩ := h d schedule s
    generalize e : r.exec (flaky d schedule) s = y at h1 h2
    obtain ⟨y, s'⟩ := y
    dsimp only at h1 h2 ⊢
    by_cases hn : ∀ i, s.2 ≤ i → i < s'.2 → schedule i = none
    · rw [h2 hn, hx]
      exact List.mem_cons_self
    · obtain ⟨i, hi⟩ := Classical.not_forall.mp hn
      simp only [Classical.not_imp] at hi
      obtain ⟨h3, h4, h5⟩ := hi
      refine List.mem_cons_of_mem _ (ih ?_)
      have hlt := fewer hf h1 h3 h4 h5
      omega

/-- Likewise for opening a file, each time from the same place. -/
theorem C70_open (accept : Tag → Bool) (d : Data) (p : Nat) (schedule : Nat → Option (Err × Nat))
    (failures : List Nat) (hf : ∀ i, schedule i ≠ none → i ∈ failures) (s : Nat × Nat) :
    outcome (File.read accept d p) ∈
      attempts (flaky d schedule) (jump p >>= fun _ => File.read accept) (failures.length + 1) s :=
  attempts_unspoiled unspoiled (fun _ => rfl) hf (Nat.lt_succ_of_le (List.length_filter_le _ _))

/-- Four failures, one in each of the first four attempts. -/
example :
    let schedule (i : Nat) : Option (Err × Nat) :=
      if i ∈ [0, 1, 3, 6] then some (.malformed "disk", 3 * i) else none
    attempts (flaky sampleFont schedule) (jump 0 >>= fun _ => File.read sampleAccept) 5 (7, 0) =
      List.replicate 4 (.error (.malformed "disk")) ++ [.ok ⟨[sampleDirectory]⟩] := by
  decide +kernel

end OpenType.Props
