import Verif.Spec.Partly
import Verif.Proof.Device
/-! # Reading what is partly at hand -/

namespace OpenType

/-- The bytes of a request are at hand. -/
def met (here : Nat → Bool) (request : Nat × Nat) : Bool := (List.range request.2).all fun i => here (request.1 + i)

theorem met_iff {here : Nat → Bool} {q n : Nat} : met here (q, n) = true ↔ ∀ x, q ≤ x → x < q + n → here x = true := by
  unfold met
  simp only [List.all_eq_true, List.mem_range]
  constructor
  · intro h x h1 h2
    have := h (x - q) (by omega)
    rwa [show q + (x - q) = x by omega] at this
  · exact fun h i hi => h _ (by omega) (by omega)

/-- The request is for bytes that exist. -/
def possible (d : Data) (request : Nat × Nat) : Prop := request.2 = 0 ∨ request.1 + request.2 ≤ d.length

instance {d : Data} {request : Nat × Nat} : Decidable (possible d request) := by unfold possible; infer_instance

/-- What a reader gives on a tape that works. -/
def given {α : Type} : Except Err (α × Nat) → Except Err α
  | .ok (a, _) => .ok a
  | .error e => .error e

/-- A reader that stops at errors either gets all it asks for, and gives what it gives on the complete tape, or ends
at a request that it makes on the complete tape too. -/
theorem exec_partly {α : Type} {r : Reader α} (hr : r.Stops) {d : Data} {here : Nat → Bool} {pending : Err} {p : Nat} :
    ((∀ request ∈ r.fetches d p, possible d request → met here request = true) ∧
      ∃ q, r.exec (partly d here pending) (p, none) = (given (r d p), (q, none))) ∨
    (∃ request ∈ r.fetches d p, possible d request ∧ met here request = false ∧
      ∃ q, r.exec (partly d here pending) (p, none) = (.error pending, (q, some request))) := by
  induction r generalizing p with
  | done a => exact .inl ⟨nofun, p, rfl⟩
  | fail e => exact .inl ⟨nofun, p, rfl⟩
  | tell next ih => exact ih _ (hr.2 p)
  | seek q next ih => exact ih _ (hr.2 ())
  | fetch n next ih =>
    by_cases hn : n = 0 ∨ p + n ≤ d.length
    · cases hm : met here (p, n) with
      | false =>
        refine .inr ⟨(p, n), .head _, hn, hm, p, ?_⟩
        unfold Reader.exec partly
        dsimp only
        rw [if_pos hn, show ((List.range n).all fun i => here (p + i)) = false from hm]
        rw [if_neg nofun, hr.1 pending]
        rfl
      | true =>
        have hs : Reader.slice d p n = .ok ((d.drop p).take n) := by unfold Reader.slice; rw [if_pos hn]
        have he : (Reader.fetch n next).exec (partly d here pending) (p, none) =
            (next (.ok ((d.drop p).take n))).exec (partly d here pending) (p + n, none) := by
          conv => lhs; unfold Reader.exec partly
          dsimp only
          rw [if_pos hn, show ((List.range n).all fun i => here (p + i)) = true from hm, if_pos rfl]
          rfl
        have hf : (Reader.fetch n next).fetches d p = (p, n) :: (next (.ok ((d.drop p).take n))).fetches d (p + n) := by
          rw [← hs]; rfl
        have hd : (Reader.fetch n next) d p = (next (.ok ((d.drop p).take n))) d (p + n) := by
          rw [← hs]; rfl
        rw [he, hf, hd]
        rcases ih _ (hr.2 _) (p := p + n) with ⟨h1, h2⟩ | ⟨request, h1, h2⟩
        · refine .inl ⟨fun request hq hp => ?_, h2⟩
          rcases List.mem_cons.mp hq with rfl | hq
          · exact hm
          · exact h1 request hq hp
        · exact .inr ⟨request, .tail _ h1, h2⟩
    · have hs : Reader.slice d p n = .error .eof := by unfold Reader.slice; rw [if_neg hn]
      refine .inl ⟨fun request hq hp => ?_, p, ?_⟩
      · have hf : (Reader.fetch n next).fetches d p = (p, n) :: (next (Reader.slice d p n)).fetches d (p + n) := rfl
        rw [hf, hs, hr.1] at hq
        rcases List.mem_cons.mp hq with rfl | hq
        · exact (hn hp).elim
        · cases hq
      · have hd : (Reader.fetch n next) d p = (next (Reader.slice d p n)) d (p + n) := rfl
        rw [hd, hs, hr.1]
        unfold Reader.exec partly
        dsimp only
        rw [if_neg hn, hr.1]
        rfl

theorem countP_lt {α : Type} {f g : α → Bool} {xs : List α} (h : ∀ x ∈ xs, f x = true → g x = true) {a : α} (ha : a ∈ xs)
    (h1 : g a = true) (h2 : f a = false) : xs.countP f < xs.countP g := by
  induction xs with
  | nil => cases ha
  | cons x xs ih =>
    rw [List.countP_cons, List.countP_cons]
    have hx := h x (.head _)
    have hle : xs.countP f ≤ xs.countP g := List.countP_mono_left fun y hy => h y (.tail _ hy)
    rcases List.mem_cons.mp ha with rfl | ha
    · rw [h1, h2, if_pos rfl, if_neg nofun]
      omega
    · have := ih (fun y hy => h y (.tail _ hy)) ha
      cases hf : f x with
      | false =>
        rw [if_neg nofun]
        split <;> omega
      | true =>
        rw [hx hf, if_pos rfl]
        omega

theorem met_downloaded {here : Nat → Bool} {q n : Nat} {request : Nat × Nat} (h : met here request = true) :
    met (downloaded here q n) request = true := by
  obtain ⟨y, m⟩ := request
  rw [met_iff] at h ⊢
  intro x h1 h2
  unfold downloaded
  rw [h x h1 h2]
  rfl

theorem met_self {here : Nat → Bool} {q n : Nat} : met (downloaded here q n) (q, n) = true := by
  rw [met_iff]
  intro x h1 h2
  unfold downloaded
  simp [h1, h2]

theorem download_ends {α : Type} {r : Reader α} (hr : r.Stops) {d : Data} {pending : Err} {p rounds : Nat} {here : Nat → Bool}
    (hrounds : (r.fetches d p).countP (fun request => decide (possible d request) && !met here request) < rounds) :
    ∃ here', r.download d pending p rounds here = some (given (r d p), here') ∧
      ∀ x, here' x = true ↔ here x = true ∨ ∃ q n, (q, n) ∈ r.fetches d p ∧ q + n ≤ d.length ∧ q ≤ x ∧ x < q + n := by
  induction rounds generalizing here with
  | zero => omega
  | succ rounds ih =>
    rcases exec_partly hr (d := d) (here := here) (pending := pending) (p := p) with ⟨h1, q, h2⟩ | ⟨request, h1, h2, h3, q, h4⟩
    · refine ⟨here, ?_, fun x => ⟨.inl, ?_⟩⟩
      · unfold Reader.download
        rw [h2]
      · rintro (h | ⟨q, n, hq, hp, h3, h4⟩)
        · exact h
        · exact met_iff.mp (h1 _ hq (.inr hp)) x h3 h4
    · obtain ⟨y, n⟩ := request
      have hlt : (r.fetches d p).countP (fun request => decide (possible d request) && !met (downloaded here y n) request) <
          (r.fetches d p).countP (fun request => decide (possible d request) && !met here request) := by
        refine countP_lt (a := (y, n)) (fun request hq h => ?_) h1 ?_ ?_
        · simp only [Bool.and_eq_true, Bool.not_eq_true'] at h ⊢
          refine ⟨h.1, ?_⟩
          cases hm : met here request with
          | false => rfl
          | true => rw [met_downloaded hm] at h; exact h.2
        · rw [h3]; simp [h2]
        · rw [met_self]; simp
      obtain ⟨here', h5, h6⟩ := ih (here := downloaded here y n) (by omega)
      refine ⟨here', ?_, fun x => ?_⟩
      · unfold Reader.download
        rw [h4]
        exact h5
      · rw [h6]
        have hb : y + n ≤ d.length ∨ n = 0 := h2.symm
        unfold downloaded
        simp only [Bool.or_eq_true, Bool.and_eq_true, decide_eq_true_eq]
        constructor
        · rintro ((h | h) | h)
          · exact .inl h
          · exact .inr ⟨y, n, h1, by omega, h⟩
          · exact .inr h
        · rintro (h | h)
          · exact .inl (.inl h)
          · exact .inr h

end OpenType
