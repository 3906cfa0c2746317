import Verif.Spec.Buffer
import Verif.Props.Delivery
/-! # C97: tapes with a buffer -/

namespace OpenType.Props
open OpenType

/-- Where a tape with a buffer stands: the bytes in the buffer lie between there and where the source stands. -/
def StandsBuffered {σ : Type} (last : Data) (stands : σ → Nat → Prop) (x : σ × List UInt8) (p : Nat) : Prop :=
  stands x.1 (p + x.2.length) ∧ BytesAt last p x.2.length x.2

theorem standsBuffered_nil {σ : Type} {last : Data} {stands : σ → Nat → Prop} {s : σ} {p : Nat} (h : stands s p) :
    StandsBuffered last stands (s, []) p := ⟨h, rfl, nofun⟩

theorem bytesAt_take {d : Data} {p m : Nat} {bytes : List UInt8} (h : BytesAt d p m bytes) (n : Nat) :
    BytesAt d p (bytes.take n).length (bytes.take n) := by
  refine ⟨rfl, fun i b hi => ?_⟩
  rw [List.getElem?_take] at hi
  split at hi
  · exact h.2 i b hi
  · cases hi

theorem bytesAt_drop {d : Data} {p m : Nat} {bytes : List UInt8} (h : BytesAt d p m bytes) (n : Nat) :
    BytesAt d (p + (bytes.take n).length) (bytes.drop n).length (bytes.drop n) := by
  refine ⟨rfl, fun i b hi => ?_⟩
  rw [List.getElem?_drop] at hi
  have := h.2 _ b hi
  have hl := (List.getElem?_eq_some_iff.mp hi).1
  rw [List.length_take, show p + min n bytes.length + i = p + (n + i) by omega]
  exact this

section
variable {σ : Type} {source : Source σ} {capacity : Nat} {s : σ} {buffer : List UInt8}

theorem buffered_told {q : Nat} (h : (source.tell s).1 = .ok q) (hq : buffer.length ≤ q) :
    (buffered source capacity).tell (s, buffer) = (.ok (q - buffer.length), ((source.tell s).2, buffer)) := by
  simp only [buffered, h, if_pos hq]

theorem buffered_untold {e : Err} (h : (source.tell s).1 = .error e) :
    (buffered source capacity).tell (s, buffer) = (.error e, ((source.tell s).2, buffer)) := by
  simp only [buffered, h]

theorem buffered_sought {q : Nat} {u : Unit} (h : (source.seek s q).1 = .ok u) :
    (buffered source capacity).seek (s, buffer) q = (.ok (), ((source.seek s q).2, [])) := by
  simp only [buffered, h]

theorem buffered_unsought {q : Nat} {e : Err} (h : (source.seek s q).1 = .error e) :
    (buffered source capacity).seek (s, buffer) q = (.error e, ((source.seek s q).2, buffer)) := by
  simp only [buffered, h]

end

/-- What a source delivers, it delivers through a buffer of any size. -/
theorem C97_delivers {σ : Type} {source : Source σ} {first last : Data} {E : Err → Prop} {stands : σ → Nat → Prop}
    (h : Delivers source first last E stands) (hs : Steady source stands) (capacity : Nat) :
    Delivers (buffered source capacity) first last E (StandsBuffered last stands) where
  tell := by
    rintro ⟨s, buffer⟩ p ⟨h1, h2⟩
    have key := h.tell s _ h1
    have steady := (hs s _ h1).1
    unfold Obeys at key ⊢
    cases hx : (source.tell s).1 with
    | ok q =>
      rw [hx] at key
      obtain ⟨rfl, h3⟩ := key
      rw [buffered_told hx (by dsimp only; omega)]
      exact ⟨by dsimp only; omega, h3, h2⟩
    | error e =>
      rw [hx] at key
      rw [buffered_untold hx]
      exact ⟨key.1, p, steady e hx, h2⟩
  seek := by
    rintro ⟨s, buffer⟩ p q ⟨h1, h2⟩
    have key := h.seek s _ q h1
    have steady := (hs s _ h1).2 q
    unfold Obeys at key ⊢
    cases hx : (source.seek s q).1 with
    | ok a =>
      rw [hx] at key
      rw [buffered_sought hx]
      exact ⟨rfl, standsBuffered_nil key.2⟩
    | error e =>
      rw [hx] at key
      rw [buffered_unsought hx]
      exact ⟨key.1, p, steady e hx, h2⟩
  read := by
    rintro ⟨s, buffer⟩ p n ⟨h1, h2⟩ hn
    show match (if buffer = [] then _ else _ : Piece × σ × List UInt8).1 with
      | .bytes bytes => _ ∧ _ ∧ _ ∧ StandsBuffered last stands (if buffer = [] then _ else _ : Piece × σ × List UInt8).2 _
      | .interrupted => StandsBuffered last stands (if buffer = [] then _ else _ : Piece × σ × List UInt8).2 p
      | .failed e => E e ∧ ∃ q, StandsBuffered last stands (if buffer = [] then _ else _ : Piece × σ × List UInt8).2 q
    by_cases hb : buffer = []
    · subst hb
      rw [if_pos rfl]
      change stands s p at h1
      by_cases hc : capacity ≤ n
      · rw [if_pos hc]
        have key := h.read s p n h1 hn
        dsimp only
        cases hx : (source.read s n).1 <;> rw [hx] at key
        · exact ⟨key.1, key.2.1, key.2.2.1, standsBuffered_nil key.2.2.2⟩
        · exact standsBuffered_nil key
        · obtain ⟨h3, q, h4⟩ := key
          exact ⟨h3, q, standsBuffered_nil h4⟩
      · rw [if_neg hc]
        have key := h.read s p capacity h1 (by omega)
        cases hx : (source.read s capacity).1 with
        | bytes bytes =>
          rw [hx] at key
          obtain ⟨h3, h4, h5, h6⟩ := key
          refine ⟨List.length_take_le _ _, fun h => h4 ?_, bytesAt_take h5 n, ?_, bytesAt_drop h5 n⟩
          · rcases List.take_eq_nil_iff.mp h with h | h
            · omega
            · exact h
          · rw [List.length_take, List.length_drop, show p + min n bytes.length + (bytes.length - n) =
              p + bytes.length by omega]
            exact h6
        | interrupted =>
          rw [hx] at key
          exact standsBuffered_nil key
        | failed e =>
          rw [hx] at key
          obtain ⟨h3, q, h4⟩ := key
          exact ⟨h3, q, standsBuffered_nil h4⟩
    · rw [if_neg hb]
      refine ⟨List.length_take_le _ _, fun h => ?_, bytesAt_take h2 n, ?_, bytesAt_drop h2 n⟩
      · rcases List.take_eq_nil_iff.mp h with h | h
        · omega
        · exact absurd h hb
      · rw [List.length_take, List.length_drop, show p + min n buffer.length + (buffer.length - n) =
          p + buffer.length by omega]
        exact h1

/-- It stays where it was, too, when telling the position or seeking fails; so there may be buffers of buffers. -/
theorem C97_steady {σ : Type} {source : Source σ} {first last : Data} {E : Err → Prop} {stands : σ → Nat → Prop}
    (h : Delivers source first last E stands) (hs : Steady source stands) (capacity : Nat) :
    Steady (buffered source capacity) (StandsBuffered last stands) := by
  rintro ⟨s, buffer⟩ p ⟨h1, h2⟩
  refine ⟨fun e he => ?_, fun q e he => ?_⟩
  · cases hx : (source.tell s).1 with
    | ok q =>
      have key := h.tell s _ h1
      unfold Obeys at key
      rw [hx] at key
      obtain ⟨rfl, h3⟩ := key
      rw [buffered_told hx (by dsimp only; omega)] at he
      cases he
    | error e =>
      rw [buffered_untold hx]
      exact ⟨(hs s _ h1).1 e hx, h2⟩
  · cases hx : (source.seek s q).1 with
    | ok _ =>
      rw [buffered_sought hx] at he
      cases he
    | error e =>
      rw [buffered_unsought hx]
      exact ⟨(hs s _ h1).2 q e hx, h2⟩

/-- Whatever is done with a tape that has a buffer of any size gives what it gives alone on a tape without one. -/
theorem C97_session {σ : Type} {cfg : Cfg} (source : Source σ) (capacity : Nat) (d : Data) (stands : σ → Nat → Prop)
    (h : Delivers source d d (fun _ => False) stands) (actions : List (Action cfg))
    (ho : ∀ action ∈ actions, action.Own) (s : σ) (p : Nat) (hp : stands s p) :
    mixed (buffered source capacity).device actions (s, []) = actions.map fun action => ⟨action, action.alone d⟩ := by
  refine C85_session _ d _ (C97_delivers h ?_ capacity) actions ho _ p (standsBuffered_nil hp)
  intro s p hs
  refine ⟨fun e he => ?_, fun q e he => ?_⟩
  · have key := h.tell s p hs
    unfold Obeys at key
    rw [he] at key
    exact key.1.elim
  · have key := h.seek s p q hs
    unfold Obeys at key
    rw [he] at key
    exact key.1.elim

/-- If some operations of the source fail, then an action gives that or the error. -/
theorem C97_failures {σ : Type} {cfg : Cfg} (source : Source σ) (capacity : Nat) (d : Data) (E : Err → Prop)
    (stands : σ → Nat → Prop) (h : Delivers source d d E stands) (hs : Steady source stands) (actions : List (Action cfg))
    (ho : ∀ action ∈ actions, action.Own) (s : σ) (p : Nat) (hp : stands s p) :
    ∀ entry ∈ mixed (buffered source capacity).device actions (s, []),
      entry.2 = entry.1.alone d ∨ ∃ e, E e ∧ entry.2 = .error e :=
  C85_failures _ d E _ (C97_delivers h hs capacity) actions ho _ p (standsBuffered_nil hp)

/-- A source that delivers what it is asked for, except that its `i`-th operation fails with the error `fails i`, if any. The
state is the position and the number of operations so far. -/
def stumbling (d : Data) (fails : Nat → Option Err) : Source (Nat × Nat) where
  tell s := match fails s.2 with
    | some e => (.error e, (s.1, s.2 + 1))
    | none => (.ok s.1, (s.1, s.2 + 1))
  seek s q := match fails s.2 with
    | some e => (.error e, (s.1, s.2 + 1))
    | none => (.ok (), (q, s.2 + 1))
  read s n := match fails s.2 with
    | some e => (.failed e, (s.1, s.2 + 1))
    | none => (.bytes ((d.drop s.1).take n), (s.1 + ((d.drop s.1).take n).length, s.2 + 1))
  patience _ := 0
  calms s n h := by
    split at h <;> cases h

/-- It is one of those the theorems are about. -/
theorem C97_stumbling (d : Data) (fails : Nat → Option Err) :
    Delivers (stumbling d fails) d d (fun e => ∃ i, fails i = some e) (·.1 = ·) ∧ Steady (stumbling d fails) (·.1 = ·) := by
  refine ⟨⟨?_, ?_, ?_⟩, ?_⟩
  · rintro ⟨p, i⟩ _ rfl
    cases h : fails i <;> simp only [stumbling, h, Obeys]
    · exact ⟨trivial, trivial⟩
    · exact ⟨⟨i, h⟩, p, rfl⟩
  · rintro ⟨p, i⟩ _ q rfl
    cases h : fails i <;> simp only [stumbling, h, Obeys]
    · exact ⟨trivial, trivial⟩
    · exact ⟨⟨i, h⟩, p, rfl⟩
  · rintro ⟨p, i⟩ _ n rfl hn
    cases h : fails i <;> simp only [stumbling, h]
    · refine ⟨List.length_take_le _ _, fun h => ?_, ⟨rfl, fun i b hi => ?_⟩, trivial⟩
      · have := congrArg List.length h
        simp only [List.length_take, List.length_drop, List.length_nil] at this
        omega
      · rw [List.getElem?_take] at hi
        split at hi
        · rwa [List.getElem?_drop] at hi
        · cases hi
    · exact ⟨⟨i, h⟩, p, rfl⟩
  · rintro ⟨p, i⟩ _ rfl
    refine ⟨fun e he => ?_, fun q e he => ?_⟩ <;> cases h : fails i <;> simp only [stumbling, h] at he ⊢ <;> cases he

/-- The sample file through a buffer of ten bytes, and that again through one of three. The pieces are of up to four bytes, with
interruptions. -/
example :
    let actions : List (Action defaultCfg) := [.openAt sampleAccept 0,
      .use sampleDirectory (.position .colorPalettes) (.position _), .readAt _ cpal.ColorPalettes.read 60]
    (mixed (buffered (buffered (piecemeal sampleFont (· % 4) (· % 3)) 10) 3).device actions (((5, 0, 0), []), [])).map
      (·.2.toBool) = [true, true, false] := by
  intro actions
  have steady : Steady (piecemeal sampleFont (· % 4) (· % 3)) (·.1 = ·) := fun _ _ _ => ⟨nofun, nofun⟩
  rw [C97_session _ 3 sampleFont _ (C97_delivers (C85_piecemeal _ _ _) steady 10) actions (fun action h => ?_) _ 5
    (standsBuffered_nil rfl)]
  · decide +kernel
  · simp only [actions, List.mem_cons, List.not_mem_nil, or_false] at h
    rcases h with rfl | rfl | rfl
    · trivial
    · trivial
    · exact Readable.colorPalettes

/-- What the buffer does: two bytes are asked for, four are read, and two are kept. The tape stands between them. -/
example : (buffered (stumbling (bytes [1, 2, 3, 4, 5, 6]) fun _ => none) 4).read ((1, 0), []) 2 =
      (.bytes (bytes [2, 3]), ((5, 1), bytes [4, 5])) ∧
    (buffered (stumbling (bytes [1, 2, 3, 4, 5, 6]) fun _ => none) 4).tell ((5, 1), bytes [4, 5]) =
      (.ok 3, ((5, 2), bytes [4, 5])) := by
  decide +kernel

end OpenType.Props
