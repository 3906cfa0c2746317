import Verif.Proof.Tactic
import Verif.Spec.Fvar
/-! # The font variations against their layout -/
namespace OpenType.fvar
open Spec

instance : Fixed Header.read IsFvarHeader 16 where
  run := by
    intro d p v q hd
    unfold Header.read IsFvarHeader
    simp only [run_bind, Fixed.run hd, run_pure]
    constructor
    · intro h
      casesm* ∃ _, _, _ ∧ _
      subst_vars
      refine ⟨⟨?_, ?_, ?_, ?_, ?_, ?_, ?_, ?_, ?_⟩, rfl⟩ <;> first | assumption | rfl
    · rintro ⟨⟨h0, h1, h2, h3, h3', h4, h5, h6, h7⟩, rfl⟩
      exact ⟨_, _, ⟨h0, rfl⟩, _, _, ⟨h1, rfl⟩, _, _, ⟨h2, rfl⟩, _, _, ⟨⟨h3, h3'⟩, rfl⟩, _, _, ⟨h4, rfl⟩,
        _, _, ⟨h5, rfl⟩, _, _, ⟨h6, rfl⟩, _, _, ⟨h7, rfl⟩, rfl, rfl⟩

instance {cfg : Cfg} : Fixed (AxisRecord.read cfg) (IsAxis cfg) 20 where
  run := by
    intro d p v q hd
    unfold AxisRecord.read IsAxis
    simp only [run_bind, Fixed.run hd, run_pure]
    constructor
    · rintro ⟨_, _, ⟨h0, rfl⟩, _, _, ⟨h1, rfl⟩, _, _, ⟨h2, rfl⟩, _, _, ⟨h3, rfl⟩, _, _, ⟨h4, rfl⟩, _, _,
        ⟨h5, rfl⟩, rfl, rfl⟩
      exact ⟨⟨h0, h1, h2, h3, h4.1, h4.2, h5⟩, rfl⟩
    · rintro ⟨⟨h0, h1, h2, h3, h4, h4', h5⟩, rfl⟩
      exact ⟨_, _, ⟨h0, rfl⟩, _, _, ⟨h1, rfl⟩, _, _, ⟨h2, rfl⟩, _, _, ⟨h3, rfl⟩, _, _, ⟨⟨h4, h4'⟩, rfl⟩, _, _,
        ⟨h5, rfl⟩, rfl, rfl⟩

instance {cfg : Cfg} {n : Nat} :
    Fixed (InstanceRecord.read cfg n) (IsInstance cfg n) (2 + 2 + 4 * n + 2) where
  run := by
    intro d p v q hd
    unfold InstanceRecord.read IsInstance
    simp only [run_bind, Fixed.run hd, run_pure]
    constructor
    · rintro ⟨_, _, ⟨h0, rfl⟩, _, _, ⟨h1, rfl⟩, _, _, ⟨h2, rfl⟩, _, _, ⟨h3, rfl⟩, rfl, rfl⟩
      exact ⟨⟨h0, h1.1, h1.2, h2, h3⟩, by omega⟩
    · rintro ⟨⟨h0, h1, h1', h2, h3⟩, rfl⟩
      exact ⟨_, _, ⟨h0, rfl⟩, _, _, ⟨⟨h1, h1'⟩, rfl⟩, _, _, ⟨h2, rfl⟩, _, _, ⟨h3, rfl⟩, rfl, by omega⟩

theorem mulU64_eq {a b : Nat} (h : a * b < 2 ^ 64) : mulU64 a b = pure (a * b) := if_pos h

theorem forFrom_congr {α : Type} {f g : Nat → Reader α} {i n : Nat}
    (h : ∀ j, i ≤ j → j < i + n → f j = g j) : forFrom f i n = forFrom g i n := by
  induction n generalizing i with
  | zero => rfl
  | succ n ih =>
    unfold forFrom
    rw [h i (by omega) (by omega), ih fun j h1 h2 => h j (by omega) (by omega)]

/-- One turn of the loops of `FontVariations.read` is a jump. -/
theorem loop_eq {α : Type} {b k n : Nat} (hb : ∀ i < n, b + i * k < 2 ^ 64) (r : Reader α) :
    forFrom (fun i => do let o ← mulU64 i k; let q ← addU64 b o; jump q; r) 0 n =
      forFrom (fun i => jumpTake b (i * k) r) 0 n := by
  refine forFrom_congr fun i _ hi => ?_
  have := hb i (by omega)
  rw [mulU64_eq (by omega)]
  rfl

theorem reads_loop {α : Type} {r : Reader α} {S size} [h : Fixed r S size] {d : Data} (hd : Fits d)
    {p b k n : Nat} (hb : ∀ i < n, b + i * k < 2 ^ 64) {xs : List α} :
    Reads (forFrom (fun i => do let o ← mulU64 i k; let q ← addU64 b o; jump q; r) 0 n) d p xs ↔
      ArrayOf (S d) k b n xs := by
  rw [loop_eq hb]
  rw [reads_forFrom]
  unfold ArrayOf
  refine and_congr_right fun hl => forall_congr' fun i => forall_congr' fun x => ?_
  refine ⟨fun hx hi => ?_, fun hx hi => ?_⟩
  all_goals
    have hi' := (List.getElem?_eq_some_iff.mp hi).1
    have := hb i (by omega)
    have e : b + (0 + i) * k = b + k * i := by rw [Nat.zero_add, Nat.mul_comm]
  · obtain ⟨q, hq⟩ := hx hi
    rw [run_jumpTake, h.run hd, e] at hq
    exact hq.2.1
  · refine ⟨_, run_jumpTake.mpr ⟨?_, (h.run hd).mpr ⟨?_, rfl⟩⟩⟩
    · rwa [Nat.zero_add]
    · rw [e]; exact hx hi

instance {cfg : Cfg} : Parses (FontVariations.read cfg) (IsFontVariations cfg) where
  reads := by
    intro d p v hd
    unfold FontVariations.read IsFontVariations
    rw [reads_bind_position, reads_bind_fixed hd]
    have key (h : Header) (hh : IsFvarHeader d p h) :
        p + h.axis_offset < 2 ^ 64 ∧ (∀ i < h.axis_count, p + h.axis_offset + i * h.axis_size < 2 ^ 64) ∧
        p + h.axis_offset + h.axis_count * h.axis_size < 2 ^ 64 ∧
        (∀ i < h.instance_count,
          p + h.axis_offset + h.axis_count * h.axis_size + i * h.instance_size < 2 ^ 64) := by
      have h0 := hh.1.bound
      obtain ⟨-, -, h1, -, -, h2, h3, h4, h5⟩ := hh
      have h1 := h1.lt; have h2 := h2.lt; have h3 := h3.lt; have h4 := h4.lt; have h5 := h5.lt
      have m : h.axis_count * h.axis_size ≤ 65535 * 65535 := Nat.mul_le_mul (by omega) (by omega)
      unfold Fits at hd
      refine ⟨by omega, fun i hi => ?_, by omega, fun i hi => ?_⟩
      · have : i * h.axis_size ≤ 65535 * 65535 := Nat.mul_le_mul (by omega) (by omega)
        omega
      · have : i * h.instance_size ≤ 65535 * 65535 := Nat.mul_le_mul (by omega) (by omega)
        omega
    constructor
    · rintro ⟨h, hh, h'⟩
      obtain ⟨k1, k2, k3, k4⟩ := key h hh
      obtain ⟨q, h'⟩ := h'
      obtain ⟨b, m, hb, h1⟩ := run_bind.mp h'
      obtain ⟨-, rfl, rfl⟩ := run_addU64.mp hb
      obtain ⟨xs, m, hx, h2⟩ := run_bind.mp h1
      rw [mulU64_eq (by omega)] at h2
      obtain ⟨o, m', ho, h2'⟩ := run_bind.mp h2
      obtain ⟨rfl, rfl⟩ := run_pure.mp ho
      obtain ⟨b, m', hb', h3⟩ := run_bind.mp h2'
      obtain ⟨-, rfl, rfl⟩ := run_addU64.mp hb'
      obtain ⟨ys, m'', hy, h4⟩ := run_bind.mp h3
      obtain ⟨rfl, rfl⟩ := run_pure.mp h4
      exact ⟨hh, (reads_loop hd k2).mp ⟨_, hx⟩, (reads_loop hd k4).mp ⟨_, hy⟩⟩
    · obtain ⟨h, xs, ys⟩ := v
      rintro ⟨hh, hx, hy⟩
      obtain ⟨k1, k2, k3, k4⟩ := key h hh
      refine ⟨h, hh, ?_⟩
      obtain ⟨m, hx⟩ := (reads_loop (r := AxisRecord.read cfg) hd k2 (p := p + 16)).mpr hx
      obtain ⟨m', hy⟩ := (reads_loop (r := InstanceRecord.read cfg h.axis_count) hd k4 (p := m)).mpr hy
      rw [mulU64_eq (by omega)]
      exact ⟨m', run_bind.mpr ⟨_, _, run_addU64.mpr ⟨k1, rfl, rfl⟩, run_bind.mpr ⟨_, _, hx,
        run_bind.mpr ⟨_, _, run_pure.mpr ⟨rfl, rfl⟩, run_bind.mpr ⟨_, _, run_addU64.mpr ⟨k3, rfl, rfl⟩,
        run_bind.mpr ⟨_, _, hy, run_pure.mpr ⟨rfl, rfl⟩⟩⟩⟩⟩⟩⟩
  bound h := h.1.1.bound

end OpenType.fvar
