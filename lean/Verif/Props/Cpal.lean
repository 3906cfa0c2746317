import Verif.Props.Faithful
import Verif.Proof.Cpal
/-! # C33, C34, C35: color palettes -/

namespace OpenType.Props
open OpenType Spec cpal

/-! ## C33 -/

/-- Color palettes are read exactly as they are stored. -/
theorem C33_palettes : Faithful ColorPalettes.read IsColorPalettes := faithful

/-- Any other version is refused. -/
theorem C33_other_version {d : Data} {p n : Nat} (hd : Fits d) (h : U16 d p n) (hn : n ≠ 0 ∧ n ≠ 1) :
    Refuses (ColorPalettes.read d p) := by
  have hr : Refuses (Header.read d p) := by refuses_format Header.read hd h
  obtain ⟨m, hm⟩ := hr
  exact ⟨m, (bind_ok (show position d p = .ok (p, p) from rfl)).trans (bind_error hm)⟩

/-- Two palettes of two entries that share one color; three colors after a gap. -/
def samplePalettes : Data := bytes <|
  [0, 1,  0, 2,  0, 2,  0, 3,  0, 0, 0, 18,  0, 0,  0, 1] ++ [9, 9] ++
  [1, 2, 3, 4,  5, 6, 7, 8,  9, 10, 11, 12]

example : Reads ColorPalettes.read samplePalettes 0
      ⟨.version1 ⟨1, 2, 2, 3, 18, [0, 1]⟩, [⟨1, 2, 3, 4⟩, ⟨5, 6, 7, 8⟩, ⟨9, 10, 11, 12⟩]⟩ ∧
    ColorPalettes.read (bytes [0, 2, 0, 0]) 0 =
      .error (.malformed ⟨"found an unknown version of the color-palette table", [2]⟩) := by decide +kernel

/-! ## C34 -/

theorem iter_eq (cfg : Cfg) {d : Data} {p : Nat} (hd : Fits d) {t : ColorPalettes}
    (h : Reads ColorPalettes.read d p t) :
    ∃ entries palettes colors offset indices, U16 d (p + 2) entries ∧ U16 d (p + 4) palettes ∧
      U16 d (p + 6) colors ∧ U32 d (p + 8) offset ∧ U16s d (p + 12) palettes indices ∧
      ArrayOf (IsColor d) 4 (p + offset) colors t.colors ∧
      t.iter cfg = indices.map fun i => (List.range entries).map fun j => entry cfg t.colors colors i j := by
  obtain ⟨h1, h2⟩ := (reads_parses hd).mp h
  unfold ColorPalettes.iter
  obtain ⟨header, xs⟩ := t
  cases header with
  | version0 t =>
    obtain ⟨_, _, h3, h4, h5, h6, h7⟩ := h1
    exact ⟨_, _, _, _, _, h3, h4, h5, h6, h7, h2, rfl⟩
  | version1 t =>
    obtain ⟨_, _, h3, h4, h5, h6, h7⟩ := h1
    exact ⟨_, _, _, _, _, h3, h4, h5, h6, h7, h2, rfl⟩

theorem entry_ok {cfg : Cfg} {xs : List Color} {n i j : Nat} (hn : xs.length = n) (h : i + j < n)
    (h32 : n < 2 ^ 32) : ∃ c, xs[i + j]? = some c ∧ entry cfg xs n i j = .ok c := by
  refine ⟨_, List.getElem?_eq_getElem (by omega), ?_⟩
  unfold entry
  dsimp only
  rw [if_neg (by omega)]
  simp [h, List.getElem?_eq_getElem (l := xs) (i := i + j) (by omega)]

theorem entry_panics {cfg : Cfg} {xs : List Color} {n i j : Nat} (hn : xs.length = n) (h : ¬i + j < n) :
    ∃ m, entry cfg xs n i j = .error (.panic m) := by
  unfold entry
  dsimp only
  split
  · exact ⟨_, rfl⟩
  rw [List.getElem?_eq_none (by omega)]
  cases cfg.overflowChecks <;> simp [h]

/-- Iterating an accepted table whose header announces so many entries, palettes and colors gives that many
palettes of that many entries. Entry `j` of palette `i`, whose first color is `start`, is color `start + j`, read
from its four bytes, whenever there is such a color. -/
theorem C34_iteration (cfg : Cfg) {d : Data} {p entries palettes colors offset : Nat} (hd : Fits d)
    {t : ColorPalettes} (h : Reads ColorPalettes.read d p t) (he : U16 d (p + 2) entries)
    (hp : U16 d (p + 4) palettes) (hc : U16 d (p + 6) colors) (ho : U32 d (p + 8) offset) :
    (t.iter cfg).length = palettes ∧
    ∀ i palette, (t.iter cfg)[i]? = some palette → palette.length = entries ∧
      ∃ start, U16 d (p + 12 + 2 * i) start ∧
        ∀ j item, palette[j]? = some item →
          (start + j < colors → ∃ color, item = .ok color ∧ t.colors[start + j]? = some color) ∧
          ∀ color, item = .ok color → IsColor d (p + offset + 4 * (start + j)) color := by
  obtain ⟨entries', palettes', colors', offset', indices, h1, h2, h3, h4, h5, h6, h7⟩ := iter_eq cfg hd h
  cases h1.unique he
  cases h2.unique hp
  cases h3.unique hc
  obtain ⟨a, b, ha, hb, rfl⟩ := h4
  obtain ⟨a', b', ha', hb', rfl⟩ := ho
  cases ha.unique ha'
  cases hb.unique hb'
  rw [h7]
  refine ⟨by rw [List.length_map, h5.1], ?_⟩
  intro i palette hi
  rw [List.getElem?_map] at hi
  cases hx : indices[i]? with
  | none => rw [hx] at hi; cases hi
  | some start =>
    rw [hx] at hi
    cases hi
    refine ⟨by rw [List.length_map, List.length_range], start, h5.2 i _ hx, ?_⟩
    intro j item hj
    rw [List.getElem?_map] at hj
    cases hr : (List.range entries)[j]? with
    | none => rw [hr] at hj; cases hj
    | some j' =>
      rw [hr] at hj
      have : j' = j := by
        obtain ⟨_, e⟩ := List.getElem?_eq_some_iff.mp hr
        rw [List.getElem_range] at e
        exact e.symm
      subst this
      cases hj
      refine ⟨fun hlt => ?_, fun color hcolor => ?_⟩
      · obtain ⟨c, hc, hc'⟩ := entry_ok (cfg := cfg) (j := j') h6.1 hlt (by have := hc.lt; omega)
        exact ⟨c, hc', hc⟩
      · replace hcolor : entry cfg t.colors colors start j' = .ok color := hcolor
        by_cases hlt : start + j' < colors
        · obtain ⟨c, hc, hc'⟩ := entry_ok (cfg := cfg) (j := j') h6.1 hlt (by have := hc.lt; omega)
          rw [hc'] at hcolor
          cases hcolor
          exact h6.2 _ _ hc
        · obtain ⟨m, hm⟩ := entry_panics (cfg := cfg) (j := j') h6.1 hlt
          rw [hm] at hcolor
          cases hcolor

example : Reads ColorPalettes.read samplePalettes 0
      ⟨.version1 ⟨1, 2, 2, 3, 18, [0, 1]⟩, [⟨1, 2, 3, 4⟩, ⟨5, 6, 7, 8⟩, ⟨9, 10, 11, 12⟩]⟩ ∧
    ColorPalettes.iter ⟨false, false, false, false, true, true⟩
      ⟨.version1 ⟨1, 2, 2, 3, 18, [0, 1]⟩, [⟨1, 2, 3, 4⟩, ⟨5, 6, 7, 8⟩, ⟨9, 10, 11, 12⟩]⟩ =
    [[.ok ⟨1, 2, 3, 4⟩, .ok ⟨5, 6, 7, 8⟩], [.ok ⟨5, 6, 7, 8⟩, .ok ⟨9, 10, 11, 12⟩]] := by decide +kernel

/-! ## C35 -/

/-- Iterating a table completely does not panic. -/
def IteratesSafely (cfg : Cfg) (t : ColorPalettes) : Prop :=
  ∀ palette ∈ t.iter cfg, ∀ item ∈ palette, ∃ color, item = .ok color

/-- The property: every accepted table can be iterated. -/
def AlwaysIterates (cfg : Cfg) : Prop :=
  ∀ d p t, Fits d → Reads ColorPalettes.read d p t → IteratesSafely cfg t

/-- An accepted table can be iterated without a panic exactly when every palette lies within the colors, or has
no entries. -/
theorem C35_safe_iff_partial (cfg : Cfg) {d : Data} {p entries palettes colors : Nat} (hd : Fits d)
    {t : ColorPalettes} (h : Reads ColorPalettes.read d p t) (he : U16 d (p + 2) entries)
    (hp : U16 d (p + 4) palettes) (hc : U16 d (p + 6) colors) :
    IteratesSafely cfg t ↔
      entries = 0 ∨ ∀ i start, i < palettes → U16 d (p + 12 + 2 * i) start → start + entries ≤ colors := by
  obtain ⟨entries', palettes', colors', offset', indices, h1, h2, h3, h4, h5, h6, h7⟩ := iter_eq cfg hd h
  cases h1.unique he
  cases h2.unique hp
  cases h3.unique hc
  unfold IteratesSafely
  rw [h7]
  simp only [List.mem_map, List.mem_range, forall_exists_index, and_imp, forall_apply_eq_imp_iff₂]
  constructor
  · intro hs
    by_cases he0 : entries = 0
    · exact .inl he0
    · refine .inr fun i start hi hstart => ?_
      have e := List.getElem?_eq_getElem (l := indices) (i := i) (by have := h5.1; omega)
      have e' := (h5.2 i _ e).unique hstart
      obtain ⟨c, hc⟩ := hs _ (List.mem_of_getElem? e) (entries - 1) (by omega)
      by_cases hlt : start + entries ≤ colors
      · exact hlt
      · obtain ⟨m, hm⟩ := entry_panics (cfg := cfg) (i := start) (j := entries - 1) h6.1 (by omega)
        rw [e', hm] at hc
        cases hc
  · intro hs start hstart j hj
    obtain ⟨i, hi, rfl⟩ := List.getElem_of_mem hstart
    rcases hs with rfl | hs
    · omega
    · have e := List.getElem?_eq_getElem hi
      have := hs i _ (by have := h5.1; omega) (h5.2 i _ e)
      obtain ⟨c, _, hc⟩ := entry_ok (cfg := cfg) (i := indices[i]) (j := j) h6.1 (by omega) (by have := hc.lt; omega)
      exact ⟨c, hc⟩

/-- One palette of one entry, and no colors. -/
def emptyPalettes : Data := bytes [0, 0,  0, 1,  0, 1,  0, 0,  0, 0, 0, 14,  0, 0]

/-- The property does not hold: a table is accepted whose first entry is out of range. -/
theorem C35_violated (cfg : Cfg) : ¬AlwaysIterates cfg := by
  intro h
  have h1 : Reads ColorPalettes.read emptyPalettes 0 ⟨.version0 ⟨0, 1, 1, 0, 14, [0]⟩, []⟩ := by decide +kernel
  have h2 := (C35_safe_iff_partial cfg (entries := 1) (palettes := 1) (colors := 0) (by decide +kernel) h1
    (by decide +kernel) (by decide +kernel) (by decide +kernel)).mp (h _ _ _ (by decide +kernel) h1)
  have := h2.resolve_left (by decide) 0 0 (by decide) (by decide +kernel)
  omega

/-- The palettes of `samplePalettes` lie within its three colors. -/
example : U16 samplePalettes 2 2 ∧ U16 samplePalettes 4 2 ∧ U16 samplePalettes 6 3 ∧
    U16 samplePalettes 12 0 ∧ U16 samplePalettes 14 1 := by decide +kernel

end OpenType.Props
