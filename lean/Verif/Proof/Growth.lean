import Verif.Spec.Growth
import Verif.Proof.Device
/-! # Readers on tapes whose content grows -/

namespace OpenType

section
variable {α : Type}

theorem slice_prefix {first last : Data} (h : first <+: last) (p n : Nat) :
    Reader.slice first p n = .error .eof ∨ Reader.slice first p n = Reader.slice last p n := by
  obtain ⟨rest, rfl⟩ := h
  unfold Reader.slice
  by_cases hn : n = 0 ∨ p + n ≤ first.length
  · right
    rw [if_pos hn, if_pos (by simp only [List.length_append]; omega)]
    congr 1
    rcases hn with rfl | hn
    · simp
    · rw [List.drop_append_of_le_length (by omega), List.take_append_of_le_length (by simp; omega)]
  · left
    rw [if_neg hn]

/-- On the beginning of a file a reader that stops at errors reports missing data or does what it does on all of it. -/
theorem stops_prefix {r : Reader α} (hr : r.Stops) {first last : Data} (h : first <+: last) (p : Nat) :
    r first p = .error .eof ∨ r first p = r last p := by
  induction r generalizing p with
  | done a => exact .inr rfl
  | fail e => exact .inr rfl
  | tell next ih => exact ih _ (hr.2 p) p
  | seek q next ih => exact ih _ (hr.2 ()) q
  | fetch n next ih =>
    show (next (Reader.slice first p n)).run first (p + n) = _ ∨
      (next (Reader.slice first p n)).run first (p + n) = (next (Reader.slice last p n)).run last (p + n)
    cases hs : Reader.slice first p n with
    | error e =>
      have : e = .eof := by
        unfold Reader.slice at hs
        split at hs
        · cases hs
        · cases hs; rfl
      subst this
      left
      rw [hr.1]
      rfl
    | ok b =>
      rcases slice_prefix h p n with h' | h'
      · rw [hs] at h'; cases h'
      · rw [← h', hs]
        exact ih _ (hr.2 b) _

/-- On a device whose content grows, a reader that stops at errors gives what it gives on the last content; or it
reports the end of the data as it does on the first; or an error of the device. -/
theorem exec_grows {σ : Type} {device : Device σ} {first last : Data} {E : Err → Prop} {stands : σ → Nat → Prop}
    (hl : first <+: last) (h : ServesGrowing device first last E stands) {r : Reader α} (hr : r.Stops) {s : σ} {p : Nat}
    (hs : stands s p) :
    match r.exec device s with
    | (.ok a, s') => ∃ q, r last p = .ok (a, q) ∧ stands s' q
    | (.error e, s') => ((e ≠ .eof ∧ r last p = .error e) ∨ (e = .eof ∧ r first p = .error .eof) ∨ E e) ∧
        ∃ q, stands s' q := by
  induction r generalizing s p with
  | done a => exact ⟨p, rfl, hs⟩
  | fail e => exact ⟨.inl ⟨hr, rfl⟩, p, hs⟩
  | tell next ih =>
    have := h.tell s p hs
    unfold Obeys at this
    unfold Reader.exec
    cases hx : (device.tell s).1 with
    | ok a =>
      rw [hx] at this
      obtain ⟨rfl, hs'⟩ := this
      exact ih _ (hr.2 _) hs'
    | error e =>
      rw [hx] at this
      rw [hr.1 e]
      exact ⟨.inr (.inr this.1), this.2⟩
  | seek q next ih =>
    have := h.seek s p q hs
    unfold Obeys at this
    unfold Reader.exec
    cases hx : (device.seek s q).1 with
    | ok a =>
      rw [hx] at this
      exact ih _ (hr.2 _) this.2
    | error e =>
      rw [hx] at this
      rw [hr.1 e]
      exact ⟨.inr (.inr this.1), this.2⟩
  | fetch n next ih =>
    rcases h.fetch s p n hs with ⟨bytes, hb, this⟩ | ⟨e, he, hE, hq⟩
    · unfold Obeys at this
      unfold Reader.exec
      cases hx : (device.fetch s n).1 with
      | ok a =>
        rw [hx] at this
        obtain ⟨rfl, hs'⟩ := this
        have hs2 : Reader.slice last p n = .ok a := slice_eq hb
        have key := ih _ (hr.2 a) hs'
        have e2 : (Reader.fetch n next).run last p = (next (.ok a)).run last (p + n) := by
          show (next (Reader.slice last p n)).run last (p + n) = _
          rw [hs2]
        cases hx' : (next (.ok a)).exec device (device.fetch s n).2 with
        | mk x s' =>
          rw [hx'] at key
          cases x with
          | ok v => obtain ⟨q, hq, h'⟩ := key; exact ⟨q, e2.trans hq, h'⟩
          | error e =>
            obtain ⟨h1, h2⟩ := key
            refine ⟨?_, h2⟩
            rcases h1 with ⟨he, h1⟩ | ⟨he, h1⟩ | h1
            · exact .inl ⟨he, e2.trans h1⟩
            · refine .inr (.inl ⟨he, ?_⟩)
              show (next (Reader.slice first p n)).run first (p + n) = _
              rcases slice_prefix hl p n with h' | h'
              · rw [h', hr.1]; rfl
              · rw [h', hs2]; exact h1
            · exact .inr (.inr h1)
      | error e =>
        rw [hx] at this
        rw [hr.1 e]
        exact ⟨.inr (.inr this.1), this.2⟩
    · unfold Reader.exec
      rw [he, hr.1 e]
      refine ⟨?_, hq⟩
      rcases hE with hE | ⟨rfl, hE⟩
      · exact .inr (.inr hE)
      · refine .inr (.inl ⟨rfl, ?_⟩)
        show (next (Reader.slice first p n)).run first (p + n) = _
        have : Reader.slice first p n = .error .eof := by
          unfold Reader.slice
          rw [if_neg fun hn => hE ⟨_, bytesAt_slice hn⟩]
        rw [this, hr.1]
        rfl

theorem growing_serves (last : Data) (size : Nat → Nat) (n : Nat) (h : ∀ i, n ≤ size i) :
    ServesGrowing (growing last size) (last.take n) last (fun _ => False) (·.1 = ·) where
  tell := by rintro s _ rfl; exact ⟨rfl, rfl⟩
  seek := by rintro s _ q rfl; exact ⟨rfl, rfl⟩
  fetch := by
    rintro s _ m rfl
    unfold growing
    dsimp only
    by_cases hm : m = 0 ∨ s.1 + m ≤ min (size s.2) last.length
    · rw [if_pos hm]
      exact .inl ⟨_, bytesAt_slice (by omega), rfl, rfl⟩
    · rw [if_neg hm]
      refine .inr ⟨_, rfl, .inr ⟨rfl, ?_⟩, _, rfl⟩
      rintro ⟨bytes, hl, hb⟩
      have hn := h s.2
      have hm : 0 < m := by omega
      have := hb (m - 1) bytes[m - 1] (List.getElem?_eq_getElem (by omega))
      have := (List.getElem?_eq_some_iff.mp this).1
      rw [List.length_take] at this
      omega

end
end OpenType
