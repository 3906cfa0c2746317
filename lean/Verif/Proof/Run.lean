import Verif.Prim
/-! # Running readers -/

namespace OpenType

section
variable {α β : Type} {d : Data} {p : Nat}

theorem run_bind_eq {r : Reader α} {f : α → Reader β} :
    (r >>= f) d p = match r d p with
      | .ok (a, q) => f a d q
      | .error e => .error e := by
  show Reader.run (Reader.bind r f) d p = _
  induction r generalizing p with
  | done a => rfl
  | fail e => rfl
  | tell next ih => exact ih _
  | seek q next ih => exact ih _
  | fetch n next ih => exact ih _

theorem Reader.lawful : LawfulMonad Reader := LawfulMonad.mk'
  (id_map := by
    intro α r
    show Reader.bind r (fun a => Reader.done (id a)) = r
    induction r with
    | done a => rfl
    | fail e => rfl
    | tell next ih => exact congrArg Reader.tell (funext ih)
    | seek q next ih => exact congrArg (Reader.seek q) (funext ih)
    | fetch n next ih => exact congrArg (Reader.fetch n) (funext ih))
  (pure_bind := fun _ _ => rfl)
  (bind_assoc := by
    intro α β γ r f g
    show Reader.bind (Reader.bind r f) g = Reader.bind r fun a => Reader.bind (f a) g
    induction r with
    | done a => rfl
    | fail e => rfl
    | tell next ih => exact congrArg Reader.tell (funext ih)
    | seek q next ih => exact congrArg (Reader.seek q) (funext ih)
    | fetch n next ih => exact congrArg (Reader.fetch n) (funext ih))

theorem run_stay_eq {r : Reader α} :
    stay r d p = match r d p with
      | .ok (a, _) => .ok (a, p)
      | .error e => .error e := by
  unfold stay
  show Reader.run (r >>= _) d p = _
  rw [run_bind_eq]
  cases r d p with
  | ok x => rfl
  | error e => rfl

theorem run_fetch {n : Nat} {f : List UInt8 → α} :
    (Reader.fetch n fun bytes => .ofResult (bytes.map f)) d p =
      if n = 0 ∨ p + n ≤ d.length then .ok (f ((d.drop p).take n), p + n) else .error .eof := by
  show Reader.run (Reader.ofResult ((Reader.slice d p n).map f)) d (p + n) = _
  unfold Reader.slice
  split <;> rfl

theorem run_u8 : u8 d p = match d[p]? with
    | some a => .ok (a.toNat, p + 1)
    | none => .error .eof := by
  unfold u8
  rw [run_fetch]
  cases h : d[p]? with
  | none => rw [if_neg]; simp at h ⊢; omega
  | some a =>
    obtain ⟨hp, rfl⟩ := List.getElem?_eq_some_iff.mp h
    rw [if_pos (by omega), List.drop_eq_getElem_cons hp]
    simp only [List.take_succ_cons, List.take_zero, bigEndian, List.foldl_cons, List.foldl_nil, Nat.zero_mul, Nat.zero_add]

theorem run_u16 : u16 d p = match d[p]?, d[p + 1]? with
    | some a, some b => .ok (a.toNat * 256 + b.toNat, p + 2)
    | _, _ => .error .eof := by
  unfold u16
  rw [run_fetch]
  cases h : d[p + 1]? with
  | none =>
    rw [if_neg]
    · cases d[p]? <;> rfl
    · simp at h ⊢; omega
  | some b =>
    obtain ⟨hp, rfl⟩ := List.getElem?_eq_some_iff.mp h
    have hp' : p < d.length := by omega
    rw [if_pos (by omega), List.getElem?_eq_getElem hp', List.drop_eq_getElem_cons hp',
      List.drop_eq_getElem_cons hp]
    simp only [List.take_succ_cons, List.take_zero, bigEndian, List.foldl_cons, List.foldl_nil, Nat.zero_mul, Nat.zero_add]

theorem run_u32 : u32 d p = match d[p]?, d[p + 1]?, d[p + 2]?, d[p + 3]? with
    | some a, some b, some c, some e =>
      .ok (((a.toNat * 256 + b.toNat) * 256 + c.toNat) * 256 + e.toNat, p + 4)
    | _, _, _, _ => .error .eof := by
  unfold u32
  rw [run_fetch]
  cases h : d[p + 3]? with
  | none =>
    rw [if_neg]
    · cases d[p]? <;> cases d[p + 1]? <;> cases d[p + 2]? <;> rfl
    · simp at h ⊢; omega
  | some b =>
    obtain ⟨hp, rfl⟩ := List.getElem?_eq_some_iff.mp h
    have h0 : p < d.length := by omega
    have h1 : p + 1 < d.length := by omega
    have h2 : p + 2 < d.length := by omega
    rw [if_pos (by omega), List.getElem?_eq_getElem h0, List.getElem?_eq_getElem h1,
      List.getElem?_eq_getElem h2, List.drop_eq_getElem_cons h0,
      List.drop_eq_getElem_cons h1, List.drop_eq_getElem_cons h2, List.drop_eq_getElem_cons hp]
    simp only [List.take_succ_cons, List.take_zero, bigEndian, List.foldl_cons, List.foldl_nil, Nat.zero_mul, Nat.zero_add]

end

end OpenType
