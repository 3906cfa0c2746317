import Verif.Proof.Tactic
import Verif.Spec.Cpal
/-! # The color palettes against their layout -/
namespace OpenType.cpal
open Spec

instance : Fixed Color.read IsColor 4 where
  run := by
    intro d p v q hd
    layout_fixed Color.read IsColor hd

instance : Parses Header0.read IsCpalHeader0 where
  reads := by
    intro d p v hd
    layout Header0.read IsCpalHeader0 hd
  bound h := h.1.bound

instance : Parses Header1.read IsCpalHeader1 where
  reads := by
    intro d p v hd
    layout Header1.read IsCpalHeader1 hd
  bound h := h.1.bound

instance : Parses Header.read IsCpalHeader where
  reads := by
    intro d p v hd
    unfold Header.read
    rw [reads_bind_peek hd]
    constructor
    · rintro ⟨n, hn, h⟩
      split at h <;> reads_simp hd at h <;> first
        | exact h.elim
        | (obtain ⟨t, ht, rfl⟩ := h; exact ht)
    · intro h
      cases v with
      | version0 t =>
        have h : IsCpalHeader0 d p t := h
        have h' := h.1
        rw [h.2.1] at h'
        refine ⟨_, h', ?_⟩
        reads_simp hd
        exact ⟨_, h, rfl⟩
      | version1 t =>
        have h : IsCpalHeader1 d p t := h
        have h' := h.1
        rw [h.2.1] at h'
        refine ⟨_, h', ?_⟩
        reads_simp hd
        exact ⟨_, h, rfl⟩
  bound {d p v} h := by cases v <;> exact h.1.bound

theorem reads_jumpTake_fixed {α : Type} {r : Reader α} {S size} [h : Fixed r S size] {d : Data}
    (hd : Fits d) {p b o : Nat} (hb : b + o < 2 ^ 64) {v} :
    Reads (jumpTake b o r) d p v ↔ S d (b + o) v := by
  simp [Reads, run_jumpTake, h.run hd, hb]

instance : Parses ColorPalettes.read IsColorPalettes where
  reads := by
    intro d p v hd
    unfold ColorPalettes.read IsColorPalettes
    rw [reads_bind_position, reads_bind_indep]
    simp only [reads_bind_indep, reads_parses hd, reads_pure]
    constructor
    · rintro ⟨h, hh, c, hc, rfl⟩
      refine ⟨hh, ?_⟩
      cases h with
      | version0 t =>
        have hh : IsCpalHeader0 d p t := hh
        have := hh.1.bound; have := hh.2.2.2.2.2.1.lt
        have h64 : p + t.color_offset < 2 ^ 64 := by unfold Fits at hd; omega
        exact (reads_jumpTake_fixed hd h64).mp hc
      | version1 t =>
        have hh : IsCpalHeader1 d p t := hh
        have := hh.1.bound; have := hh.2.2.2.2.2.1.lt
        have h64 : p + t.color_offset < 2 ^ 64 := by unfold Fits at hd; omega
        exact (reads_jumpTake_fixed hd h64).mp hc
    · obtain ⟨h, c⟩ := v
      rintro ⟨hh, hc⟩
      refine ⟨h, hh, c, ?_, rfl⟩
      cases h with
      | version0 t =>
        have hh : IsCpalHeader0 d p t := hh
        have := hh.1.bound; have := hh.2.2.2.2.2.1.lt
        have h64 : p + t.color_offset < 2 ^ 64 := by unfold Fits at hd; omega
        exact (reads_jumpTake_fixed hd h64).mpr hc
      | version1 t =>
        have hh : IsCpalHeader1 d p t := hh
        have := hh.1.bound; have := hh.2.2.2.2.2.1.lt
        have h64 : p + t.color_offset < 2 ^ 64 := by unfold Fits at hd; omega
        exact (reads_jumpTake_fixed hd h64).mpr hc
  bound h := Parses.bound (r := Header.read) h.1

end OpenType.cpal
