import Verif.Spec.Correct
import Verif.Props.Attach
import Verif.Proof.Item
/-! # C106: corrections -/

namespace OpenType.Props
open OpenType Spec

/-- Two's complement. -/
theorem signed_iff {bits n : Nat} {x : Int} (hb : 0 < bits) (hn : n < 2 ^ bits) :
    signed bits n = x ↔ -2 ^ (bits - 1) ≤ x ∧ x < 2 ^ (bits - 1) ∧ (x % 2 ^ bits).toNat = n := by
  obtain ⟨b, rfl⟩ : ∃ b, bits = b + 1 := ⟨bits - 1, by omega⟩
  have hp : (2 : Int) ^ (b + 1) = 2 * 2 ^ b := by rw [Int.pow_succ]; omega
  have hc : ((2 ^ b : Nat) : Int) = 2 ^ b := by simp
  have hpos : 0 < 2 ^ b := Nat.two_pow_pos b
  rw [Nat.pow_succ] at hn
  unfold signed
  simp only [Nat.add_sub_cancel]
  rw [hp, ← hc]
  generalize 2 ^ b = m at *
  split
  · constructor
    · rintro rfl
      refine ⟨by omega, by omega, ?_⟩
      rw [Int.emod_eq_of_lt (by omega) (by omega)]; simp
    · rintro ⟨h1, h2, h3⟩
      by_cases hx : 0 ≤ x
      · rw [Int.emod_eq_of_lt hx (by omega)] at h3; omega
      · have : x % (2 * (m : Int)) = x + 2 * m := by
          rw [← Int.add_emod_right, Int.emod_eq_of_lt (by omega) (by omega)]
        rw [this] at h3; omega
  · constructor
    · rintro rfl
      refine ⟨by omega, by omega, ?_⟩
      have : ((n : Int) - 2 * m) % (2 * (m : Int)) = n := by
        rw [Int.sub_emod_right, Int.emod_eq_of_lt (by omega) (by omega)]
      rw [this]; simp
    · rintro ⟨h1, h2, h3⟩
      by_cases hx : 0 ≤ x
      · rw [Int.emod_eq_of_lt hx (by omega)] at h3; omega
      · have : x % (2 * (m : Int)) = x + 2 * m := by
          rw [← Int.add_emod_right, Int.emod_eq_of_lt (by omega) (by omega)]
        rw [this] at h3; omega

/-- A device that is read from any tape has a correction for each of its sizes, the one its bytes have; asking for it never
panics, although the bytes may be fewer than those the crate takes (C12). -/
theorem C106_device {d : Data} {p : Nat} (hd : Fits d) {t : correction.Device}
    (h : Reads correction.Correction.read d p (.device t)) (size : Nat) :
    (∀ x, sizeDelta t size = .ok (some x) ↔ SizeDelta d p size x) ∧
    (sizeDelta t size = .ok none ↔ ∀ first last, U16 d p first → U16 d (p + 2) last → ¬(first ≤ size ∧ size ≤ last)) ∧
    ∀ e, sizeDelta t size ≠ .error e := by
  obtain ⟨h1, h2, h3, h4, h5, h6, h7, h8⟩ := (reads_parses (S := IsCorrection) hd).mp h
  unfold sizeDelta
  split
  · rename_i hc
    have hl : (size - t.start_size) / (16 / 2 ^ t.format) < t.deltas.length := by
      rw [h7, deviceWordsTaken]
      obtain h | h | h : t.format = 1 ∨ t.format = 2 ∨ t.format = 3 := by omega
      all_goals rw [h]; simp only [Nat.reducePow, Nat.reduceDiv]; omega
    have e := List.getElem?_eq_getElem hl
    have hw := h8 _ _ e
    dsimp only
    rw [show element t.deltas ((size - t.start_size) / (16 / 2 ^ t.format)) = .ok _ from ((element_iff _ _).1 _).mpr e]
    refine ⟨fun x => ?_, ⟨fun e => (by cases e), fun h => ((h _ _ h1 h2) hc).elim⟩, fun m e => (by cases e)⟩
    have hs := @signed_iff (2 ^ t.format) ((t.deltas[(size - t.start_size) / (16 / 2 ^ t.format)] >>>
      (16 - 2 ^ t.format * ((size - t.start_size) % (16 / 2 ^ t.format) + 1))) % 2 ^ 2 ^ t.format) x (Nat.two_pow_pos _)
      (Nat.mod_lt _ (Nat.two_pow_pos _))
    rw [Nat.shiftRight_eq_div_pow] at hs
    refine Iff.trans (b := signed (2 ^ t.format) ((t.deltas[(size - t.start_size) / (16 / 2 ^ t.format)] >>>
      (16 - 2 ^ t.format * ((size - t.start_size) % (16 / 2 ^ t.format) + 1))) % 2 ^ 2 ^ t.format) = x) ?_ ?_
    · constructor
      · intro e
        injection e with e
        injection e
      · intro e
        rw [← e]
        rfl
    · rw [Nat.shiftRight_eq_div_pow]
      refine hs.trans ⟨?_, ?_⟩
      · rintro ⟨q1, q2, q3⟩
        exact ⟨_, _, _, _, h1, h2, h3, hc.1, hc.2, hw, q1, q2, q3⟩
      · rintro ⟨first, last, format, word, u1, u2, u3, _, _, u4, q1, q2, q3⟩
        obtain rfl := u1.unique h1
        obtain rfl := u3.unique h3
        obtain rfl := u4.unique hw
        exact ⟨q1, q2, q3⟩
  · rename_i hc
    refine ⟨fun x => ⟨fun e => (by cases e), ?_⟩, ⟨fun _ first last u1 u2 h => ?_, fun _ => rfl⟩, fun m e => (by cases e)⟩
    · rintro ⟨first, last, format, word, u1, u2, u3, q1, q2, _⟩
      rw [u1.unique h1] at q1
      rw [u2.unique h2] at q2
      exact (hc ⟨q1, q2⟩).elim
    · rw [u1.unique h1, u2.unique h2] at h
      exact hc h

theorem U8_lt {d : Data} {p n : Nat} (h : U8 d p n) : n < 256 := by
  obtain ⟨a, _, rfl⟩ := h
  exact UInt8.toNat_lt a

theorem I8_iff {d : Data} {p n : Nat} (h : U8 d p n) (x : Int) : signed 8 n = x ↔ I8 d p x := by
  rw [signed_iff (by omega) (U8_lt h)]
  constructor
  · rintro ⟨h1, h2, h3⟩; exact ⟨h1, h2, h3 ▸ h⟩
  · rintro ⟨h1, h2, h3⟩; exact ⟨h1, h2, h3.unique h⟩

theorem I16_iff {d : Data} {p a b : Nat} (h : U8 d p a) (h' : U8 d (p + 1) b) (x : Int) :
    signed 16 (256 * a + b) = x ↔ I16 d p x := by
  have := U8_lt h
  have := U8_lt h'
  rw [signed_iff (by omega) (by omega)]
  constructor
  · rintro ⟨h1, h2, h3⟩; exact ⟨h1, h2, a, b, h, h', h3⟩
  · rintro ⟨h1, h2, a', b', h3, h4, h5⟩
    rw [h3.unique h, h4.unique h'] at h5
    exact ⟨h1, h2, h5⟩

/-- What is known of a program that finds a delta. -/
def GivesDelta (d : Data) (a item r : Nat) (result : Except Err (Option (Nat × Int))) : Prop :=
  (∀ x, result = .ok (some x) ↔ ItemDelta d a item r x.1 x.2) ∧
  (result = .ok none ↔ ∀ items regions, U16 d a items → U16 d (a + 4) regions → ¬(item < items ∧ r < regions)) ∧
  ∀ e, result ≠ .error e

theorem gives_delta {cfg : Cfg} {d : Data} {p : Nat} {t : item.Record} (h : IsItemRecord cfg d p t) (ho : Ordinary d p)
    (item r : Nat) : GivesDelta d p item r (itemDelta t item r) := by
  obtain ⟨h1, h2, h3, ⟨h4, h5⟩, n, ⟨_, hn⟩, h6, h7⟩ := h
  obtain ⟨words, regions, o1, o2, o3, o4, _⟩ := ho
  obtain rfl := o1.unique h2
  obtain rfl := o2.unique h3
  rw [Nat.mod_eq_of_lt o4] at hn
  subst hn
  unfold itemDelta
  split
  · rename_i hc
    have e := List.getElem?_eq_getElem (l := t.region_indices) (i := r) (by omega)
    have hr := h5 r _ e
    rw [((element_iff t.region_indices r).1 _).mpr e]
    have hrow : item * (t.short_delta_count + t.region_count) + (t.short_delta_count + t.region_count) ≤ t.deltas.length := by
      rw [h6, ← Nat.succ_mul]
      exact Nat.mul_le_mul_right _ hc.1
    have place : ∀ k, k < t.short_delta_count + t.region_count → ∃ b,
        element t.deltas (item * (t.short_delta_count + t.region_count) + k) = .ok b ∧
        U8 d (p + 6 + 2 * t.region_count + item * (t.short_delta_count + t.region_count) + k) b := by
      intro k hk
      have e := List.getElem?_eq_getElem (l := t.deltas) (i := item * (t.short_delta_count + t.region_count) + k) (by omega)
      refine ⟨_, ((element_iff _ _).1 _).mpr e, ?_⟩
      have := h7 _ _ e
      rw [Nat.one_mul, ← Nat.add_assoc] at this
      exact this
    have fin : ∀ x : Int, (∀ y, x = y ↔ if r < t.short_delta_count
          then I16 d (p + 6 + 2 * t.region_count + item * (t.short_delta_count + t.region_count) + 2 * r) y
          else I8 d (p + 6 + 2 * t.region_count + item * (t.short_delta_count + t.region_count) +
            2 * t.short_delta_count + (r - t.short_delta_count)) y) →
        GivesDelta d p item r (.ok (some (t.region_indices[r]'(by omega), x))) := by
      intro x hx
      refine ⟨fun y => ?_, ⟨fun e => (by cases e), fun h => (h _ _ h1 h3 hc).elim⟩, fun m e => (by cases e)⟩
      constructor
      · intro e
        injection e with e
        injection e with e
        subst e
        exact ⟨_, _, _, h1, h2, h3, hc.1, hc.2, hr, (hx x).mp rfl⟩
      · rintro ⟨items, words, regions, u1, u2, u3, _, _, u4, q⟩
        obtain rfl := u2.unique h2
        obtain rfl := u3.unique h3
        rw [(hx y.2).mpr q, hr.unique u4]
    by_cases hw : r < t.short_delta_count
    · obtain ⟨a, ea, ua⟩ := place (2 * r) (by omega)
      obtain ⟨b, eb, ub⟩ := place (2 * r + 1) (by omega)
      have := fin (signed 16 (256 * a + b)) fun y => by rw [if_pos hw]; exact I16_iff ua ub y
      refine cast (congrArg (GivesDelta d p item r) (Eq.symm ?_)) this
      change (if r < t.short_delta_count then _ else _) = _
      rw [if_pos hw, ea]
      change (element t.deltas (item * (t.short_delta_count + t.region_count) + 2 * r + 1) >>= _) = _
      rw [Nat.add_assoc, eb]
      rfl
    · obtain ⟨a, ea, ua⟩ := place (2 * t.short_delta_count + (r - t.short_delta_count)) (by omega)
      have := fin (signed 8 a) fun y => by rw [if_neg hw, Nat.add_assoc _ (2 * t.short_delta_count)]; exact I8_iff ua y
      refine cast (congrArg (GivesDelta d p item r) (Eq.symm ?_)) this
      change (if r < t.short_delta_count then _ else _) = _
      rw [if_neg hw, Nat.add_assoc _ (2 * t.short_delta_count), ea]
      rfl
  · rename_i hc
    refine ⟨fun x => ⟨fun e => (by cases e), ?_⟩, ⟨fun _ items regions u1 u2 h => ?_, fun _ => rfl⟩, fun m e => (by cases e)⟩
    · rintro ⟨items, words, regions, u1, u2, u3, q1, q2, _⟩
      rw [u1.unique h1] at q1
      rw [u3.unique h3] at q2
      exact (hc ⟨q1, q2⟩).elim
    · rw [u1.unique h1, u2.unique h3] at h
      exact hc h

/-- The deltas of an item variation record that is read from any tape. -/
theorem C106_record {cfg : Cfg} {d : Data} {p : Nat} (hd : Fits d) {t : item.Record} (h : Reads (item.Record.read cfg) d p t)
    (ho : Ordinary d p) (item r : Nat) : GivesDelta d p item r (itemDelta t item r) :=
  gives_delta ((reads_parses (S := IsItemRecord cfg) hd).mp h) ho item r

/-- The deltas of an item variation store that is read from any tape. -/
theorem C106_store {cfg : Cfg} {d : Data} {p : Nat} (hd : Fits d) {t : item.Store} (h : Reads (item.Store.read cfg) d p t)
    (outer inner r : Nat) :
    (∀ a, ItemRecordAt d p outer a → Ordinary d a → GivesDelta d a inner r (storeDelta t outer inner r)) ∧
    ((∀ a, ¬ItemRecordAt d p outer a) → storeDelta t outer inner r = .ok none) := by
  obtain ⟨_, _, _, h1, ⟨h2, h3⟩, h4, h5⟩ := (reads_parses (S := IsStore cfg) hd).mp h
  unfold storeDelta
  constructor
  · rintro a ⟨n, o, hn, hl, ho, rfl⟩ hord
    rw [hn.unique h1] at hl
    have e := List.getElem?_eq_getElem (l := t.offsets) (i := outer) (by omega)
    have e' := List.getElem?_eq_getElem (l := t.records) (i := outer) (by omega)
    have hr := h5 _ _ _ e e'
    rw [(h3 _ _ e).unique ho] at hr
    rw [e']
    exact gives_delta hr hord inner r
  · intro hn
    rw [List.getElem?_eq_none]
    refine Nat.le_of_not_lt fun hl => ?_
    have e := List.getElem?_eq_getElem (l := t.offsets) (i := outer) (by omega)
    exact hn _ ⟨_, _, h1, by omega, h3 _ _ e, rfl⟩

/-! ## Examples -/

/-- A device with corrections of four bits for the sizes from 11 to 15: 1, -2, 3, -4 and 5. -/
def deviceTable : Data := bytes [0, 11,  0, 15,  0, 2,  0x1E, 0x3C,  0x50, 0]

example : Reads correction.Correction.read deviceTable 0 (.device ⟨11, 15, 2, [0x1E3C, 0x5000]⟩) ∧
    (List.range 7).map (fun k => sizeDelta ⟨11, 15, 2, [0x1E3C, 0x5000]⟩ (10 + k)) =
      [.ok none, .ok (some 1), .ok (some (-2)), .ok (some 3), .ok (some (-4)), .ok (some 5), .ok none] := by decide +kernel

/-- One of these facts, in terms of the bytes. -/
example : SizeDelta deviceTable 0 14 (-4) :=
  ⟨11, 15, 2, 0x1E3C, by decide +kernel, by decide +kernel, by decide +kernel, by omega, by omega, by decide +kernel,
    by decide, by decide, by decide⟩

/-- A store with one record of two items and two regions, the first delta of an item having two bytes. -/
def deltasTable : Data := bytes <|
  [0, 1,  0, 0, 0, 0,  0, 1,  0, 0, 0, 12] ++ [0, 2,  0, 1,  0, 2,  0, 5, 0, 7] ++ [0, 1, 255] ++ [255, 0, 4]

def deltasValue : item.Store := ⟨1, 0, 1, [12], [⟨2, 1, 2, [5, 7], [0, 1, 255, 255, 0, 4]⟩]⟩

example : Reads (item.Store.read ⟨false, false, false, false, false, true⟩) deltasTable 0 deltasValue ∧
    storeDelta deltasValue 0 0 0 = .ok (some (5, 1)) ∧ storeDelta deltasValue 0 0 1 = .ok (some (7, -1)) ∧
    storeDelta deltasValue 0 1 0 = .ok (some (5, -256)) ∧ storeDelta deltasValue 0 1 1 = .ok (some (7, 4)) ∧
    storeDelta deltasValue 0 2 0 = .ok none ∧ storeDelta deltasValue 1 0 0 = .ok none := by decide +kernel

/-- The same record, in terms of the bytes. -/
example : ItemRecordAt deltasTable 0 0 12 ∧ Ordinary deltasTable 12 ∧ ItemDelta deltasTable 12 1 0 5 (-256) ∧
    ItemDelta deltasTable 12 0 1 7 (-1) := by
  refine ⟨⟨1, 12, by decide +kernel, by omega, by decide +kernel, rfl⟩, ⟨1, 2, by decide +kernel, by decide +kernel, by omega, by omega,
    by omega⟩, ⟨2, 1, 2, by decide +kernel, by decide +kernel, by decide +kernel, by omega, by omega, by decide +kernel, ?_⟩,
    ⟨2, 1, 2, by decide +kernel, by decide +kernel, by decide +kernel, by omega, by omega, by decide +kernel, ?_⟩⟩
  · rw [if_pos (by omega)]; exact ⟨by omega, by omega, by decide +kernel⟩
  · rw [if_neg (by omega)]; exact ⟨by omega, by omega, by decide +kernel⟩

end OpenType.Props
