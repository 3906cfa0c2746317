import Verif.Spec.Ask
import Verif.Props.Anytape
import Verif.Props.Cpal
import Verif.Props.Fvar
/-! # C118 and C119: from a file to its colors and instances -/

namespace OpenType.Props
open OpenType Spec

/-! ## Any table -/

theorem reads_opened {accept : Tag → Bool} {d : Data} (hd : Fits d) {directory : offsets.Offsets} (hn : ¬U32 d 0 0x74746366)
    (ho : IsOffsets accept d 0 directory) : Reads (File.read accept) d 0 ⟨[⟨directory⟩]⟩ :=
  (C01_one_font accept d 0 hd _).mpr ⟨hn, _, rfl, ho⟩

theorem ask_iff {α β : Type} {accept : Tag → Bool} {cfg : Cfg} {table : TableType} {r : Reader α} {f : α → Except Err (Option β)}
    {d : Data} (hd : Fits d) (y : Option β) :
    Reads (ask accept cfg table r f) d 0 y ↔
      (Absent accept d table ∧ y = none) ∨ ∃ p t, TableAt accept cfg d table p ∧ Reads r d p t ∧ f t = .ok y := by
  unfold ask
  rw [reads_bind_iff]
  constructor
  · rintro ⟨file, q, e, hr⟩
    obtain ⟨hn, font, hfonts, ho⟩ := (C01_one_font accept d 0 hd file).mp ⟨q, e⟩
    have hfile : file = ⟨[font]⟩ := by cases file; simp only at hfonts; rw [hfonts]
    subst hfile
    have hf : Reads (File.read accept) d 0 ⟨[font]⟩ := ⟨q, e⟩
    dsimp only at hr
    obtain ⟨found, q1, e1, hr⟩ := reads_bind_iff.mp hr
    rcases (tableOf_iff hd hf _ _).mp ⟨_, e1⟩ with ⟨h, rfl⟩ | ⟨a, t, h1, h2, rfl⟩
    · exact .inl ⟨h, reads_pure.mp hr⟩
    · refine .inr ⟨a, t, h1, h2, ?_⟩
      dsimp only at hr
      cases hk : f t with
      | error e => rw [hk] at hr; obtain ⟨_, hr⟩ := hr; cases hr
      | ok y' => rw [hk] at hr; rw [reads_pure.mp hr]
  · intro h
    obtain ⟨directory, hn, ho⟩ : ∃ directory, ¬U32 d 0 0x74746366 ∧ IsOffsets accept d 0 directory := by
      rcases h with ⟨⟨k1, directory, k2, _⟩, _⟩ | ⟨_, _, ⟨k1, directory, _, k2, _⟩, _⟩
      · exact ⟨directory, k1, k2⟩
      · exact ⟨directory, k1, k2⟩
    have hf := reads_opened hd hn ho
    obtain ⟨q, e⟩ := hf
    have hf : Reads (File.read accept) d 0 ⟨[⟨directory⟩]⟩ := ⟨q, e⟩
    refine ⟨_, q, e, ?_⟩
    dsimp only
    rcases h with ⟨h, rfl⟩ | ⟨a, t, h1, h2, h3⟩
    · obtain ⟨q1, e1⟩ := (tableOf_iff (r := r) (cfg := cfg) hd hf q _).mpr (.inl ⟨h, rfl⟩)
      exact reads_bind_iff.mpr ⟨none, q1, e1, reads_pure.mpr rfl⟩
    · obtain ⟨q1, e1⟩ := (tableOf_iff (cfg := cfg) hd hf q _).mpr (.inr ⟨a, t, h1, h2, rfl⟩)
      refine reads_bind_iff.mpr ⟨_, q1, e1, ?_⟩
      dsimp only
      rw [h3]
      exact reads_pure.mpr rfl

/-- What goes wrong in the end. -/
theorem ask_error {α β : Type} {accept : Tag → Bool} {cfg : Cfg} {table : TableType} {r : Reader α} {f : α → Except Err (Option β)}
    {d : Data} (hd : Fits d) {p : Nat} {t : α} {e : Err} (h1 : TableAt accept cfg d table p) (h2 : Reads r d p t)
    (h3 : f t = .error e) : ask accept cfg table r f d 0 = .error e := by
  have h1' := h1
  obtain ⟨k1, directory, _, k2, _⟩ := h1'
  have hf := reads_opened hd k1 k2
  obtain ⟨q, hq⟩ := hf
  have hf : Reads (File.read accept) d 0 ⟨[⟨directory⟩]⟩ := ⟨q, hq⟩
  obtain ⟨q1, e1⟩ := (tableOf_iff (cfg := cfg) hd hf q _).mpr (.inr ⟨p, t, h1, h2, rfl⟩)
  refine (bind_ok hq).trans ((bind_ok e1).trans ?_)
  dsimp only
  rw [h3]
  rfl

theorem stops_ask {α β : Type} {accept : Tag → Bool} {cfg : Cfg} {table : TableType} {r : Reader α} [Stops r]
    {f : α → Except Err (Option β)} (hf : ∀ t, Sane (f t)) : Stops (ask accept cfg table r f) := by
  unfold ask
  refine @stops_bind _ _ _ _ inferInstance fun file => ?_
  split
  · infer_instance
  · refine @stops_bind _ _ _ _ inferInstance fun found => ?_
    rcases found with - | ⟨_, t⟩
    · infer_instance
    · have := hf t
      dsimp only
      split
      · rename_i e he
        rw [he] at this
        exact ⟨fun h => this (by rw [h])⟩
      · infer_instance

/-! ## C118 -/

theorem colorIn_eq (cfg : Cfg) {d : Data} {p : Nat} (hd : Fits d) {t : cpal.ColorPalettes} (h : Reads cpal.ColorPalettes.read d p t)
    (i j : Nat) :
    (colorIn cfg i j t = .ok none ∧ ∃ palettes entries, PaletteShape d p palettes entries ∧ (palettes ≤ i ∨ entries ≤ j)) ∨
    (∃ color, colorIn cfg i j t = .ok (some color) ∧ Colored d p i j color) ∨
    (∃ m, colorIn cfg i j t = .error (.panic m) ∧ Uncolored d p i j) := by
  obtain ⟨entries, palettes, colors, offset, indices, h1, h2, h3, h4, h5, h6, h7⟩ := iter_eq cfg hd h
  unfold colorIn
  rw [h7]
  by_cases hi : i < palettes
  · have e : indices[i]? = some (indices[i]'(by rw [h5.1]; exact hi)) := List.getElem?_eq_getElem _
    generalize indices[i]'(by rw [h5.1]; exact hi) = start at e
    have hs : U16 d (p + 12 + 2 * i) start := h5.2 _ _ e
    by_cases hj : j < entries
    · simp only [List.getElem?_map, e, Option.map_some, List.getElem?_range hj]
      have hb1 := u16_lt' hs
      have hb2 := u16_lt' h1
      have hsum : ¬2 ^ 32 ≤ start + j := by omega
      by_cases hc : start + j < colors
      · refine .inr (.inl ?_)
        have hx : t.colors[start + j]? = some (t.colors[start + j]'(by rw [h6.1]; exact hc)) := List.getElem?_eq_getElem _
        refine ⟨t.colors[start + j]'(by rw [h6.1]; exact hc), ?_, palettes, entries, colors, offset, start, ⟨h1, h2⟩, hi, hj, h3, h4, hs,
          hc, h6.2 _ _ hx⟩
        unfold cpal.entry
        simp only [hsum, if_false, hc, decide_true, Bool.not_true, Bool.and_false, hx]
        rfl
      · refine .inr (.inr ?_)
        have hx : t.colors[start + j]? = none := List.getElem?_eq_none (by rw [h6.1]; omega)
        have hu : Uncolored d p i j := ⟨palettes, entries, colors, start, ⟨h1, h2⟩, hi, hj, h3, hs, by omega⟩
        unfold cpal.entry
        simp only [hsum, if_false, hx]
        split
        · exact ⟨_, rfl, hu⟩
        · exact ⟨_, rfl, hu⟩
    · refine .inl ?_
      have e' : (List.range entries)[j]? = none := List.getElem?_eq_none (by rw [List.length_range]; omega)
      simp only [List.getElem?_map, e, Option.map_some, e', Option.map_none, true_and]
      exact ⟨palettes, entries, ⟨h1, h2⟩, .inr (by omega)⟩
  · refine .inl ?_
    have e : indices[i]? = none := List.getElem?_eq_none (by rw [h5.1]; omega)
    simp only [List.getElem?_map, e, Option.map_none, true_and]
    exact ⟨palettes, entries, ⟨h1, h2⟩, .inl (by omega)⟩

theorem shape_unique {d : Data} {p a b a' b' : Nat} (h : PaletteShape d p a b) (h' : PaletteShape d p a' b') :
    a = a' ∧ b = b' := ⟨h.2.unique h'.2, h.1.unique h'.1⟩

/-- Whatever the bytes of a file are, in every build: the color of an entry of a palette is the one that the bytes give; and there
is none exactly if there is no CPAL table, or it has no such entry. -/
theorem C118_colors (accept : Tag → Bool) (cfg : Cfg) {d : Data} (hd : Fits d) (i j : Nat) (y : Option cpal.Color) :
    Reads (colorOf accept cfg i j) d 0 y ↔
      (Absent accept d .colorPalettes ∧ y = none) ∨
      ∃ p t, TableAt accept cfg d .colorPalettes p ∧ IsColorPalettes d p t ∧
        ((y = none ∧ ∃ palettes entries, PaletteShape d p palettes entries ∧ (palettes ≤ i ∨ entries ≤ j)) ∨
          ∃ color, y = some color ∧ Colored d p i j color) := by
  unfold colorOf
  rw [ask_iff hd]
  refine or_congr Iff.rfl (exists_congr fun p => exists_congr fun t => and_congr_right fun _ => ?_)
  rw [reads_parses (r := cpal.ColorPalettes.read) hd]
  refine and_congr_right fun ht => ?_
  rcases colorIn_eq cfg hd ((reads_parses (r := cpal.ColorPalettes.read) hd).mpr ht) i j with
    ⟨e, h⟩ | ⟨color, e, h⟩ | ⟨m, e, h⟩
  · rw [e]
    constructor
    · intro k
      cases k
      exact .inl ⟨rfl, h⟩
    · rintro (⟨rfl, _⟩ | ⟨_, _, palettes, entries, _, _, _, k1, k2, k3, _⟩)
      · rfl
      · obtain ⟨palettes', entries', k4, k5⟩ := h
        obtain ⟨rfl, rfl⟩ := shape_unique k1 k4
        omega
  · rw [e]
    constructor
    · intro k
      cases k
      exact .inr ⟨_, rfl, h⟩
    · rintro (⟨_, palettes', entries', k4, k5⟩ | ⟨color', rfl, h'⟩)
      · obtain ⟨palettes, entries, _, _, _, k1, k2, k3, _⟩ := h
        obtain ⟨rfl, rfl⟩ := shape_unique k1 k4
        omega
      · obtain ⟨_, _, _, offset, start, _, _, _, _, a1, a2, _, a3⟩ := h
        obtain ⟨_, _, _, offset', start', _, _, _, _, b1, b2, _, b3⟩ := h'
        cases a1.unique b1
        cases a2.unique b2
        cases color
        cases color'
        obtain ⟨c1, c2, c3, c4⟩ := a3
        obtain ⟨d1, d2, d3, d4⟩ := b3
        cases c1.unique d1
        cases c2.unique d2
        cases c3.unique d3
        cases c4.unique d4
        rfl
  · rw [e]
    refine ⟨nofun, ?_⟩
    obtain ⟨palettes, entries, colors, start, k1, k2, k3, k4, k5, k6⟩ := h
    rintro (⟨_, palettes', entries', k4, k5⟩ | ⟨_, _, _, _, _, _, _, _, _, _, l1, _, l2, l3, _⟩)
    · obtain ⟨rfl, rfl⟩ := shape_unique k1 k4
      omega
    · cases l1.unique k4
      cases l2.unique k5
      omega

/-- If the CPAL table is well-formed but for an entry that is none of its colors, asking for that entry panics. -/
theorem C118_panics (accept : Tag → Bool) (cfg : Cfg) {d : Data} (hd : Fits d) {p : Nat} {t : cpal.ColorPalettes}
    (hp : TableAt accept cfg d .colorPalettes p) (ht : IsColorPalettes d p t) {i j : Nat} (hu : Uncolored d p i j) :
    ∃ m, colorOf accept cfg i j d 0 = .error (.panic m) := by
  have hr := (reads_parses (r := cpal.ColorPalettes.read) hd).mpr ht
  obtain ⟨palettes, entries, colors, start, k1, k2, k3, k4, k5, k6⟩ := hu
  rcases colorIn_eq cfg hd hr i j with
    ⟨e, palettes', entries', k7, k8⟩ | ⟨color, e, h⟩ | ⟨m, e, _⟩
  · obtain ⟨rfl, rfl⟩ := shape_unique k1 k7
    omega
  · obtain ⟨_, _, _, _, _, _, _, _, l1, _, l2, l3, _⟩ := h
    cases l1.unique k4
    cases l2.unique k5
    omega
  · exact ⟨m, ask_error hd hp hr e⟩

theorem sane_entry (cfg : Cfg) (colors : List cpal.Color) (n i j : Nat) : Sane (cpal.entry cfg colors n i j) := by
  unfold cpal.entry
  dsimp only
  split
  · exact fun h => (by cases h)
  · split
    · exact fun h => (by cases h)
    · cases colors[i + j]? with
      | none => exact fun h => (by cases h)
      | some _ => exact .ok

theorem sane_color (cfg : Cfg) (i j : Nat) (t : cpal.ColorPalettes) : Sane (colorIn cfg i j t) := by
  unfold colorIn
  cases e : (t.iter cfg)[i]? with
  | none => exact .ok
  | some palette =>
    dsimp only
    cases e' : palette[j]? with
    | none => exact .ok
    | some item =>
      refine Sane.map ?_
      unfold cpal.ColorPalettes.iter at e
      dsimp only at e
      have h1 := List.mem_of_getElem? e
      obtain ⟨start, _, rfl⟩ := List.mem_map.mp h1
      obtain ⟨k, _, rfl⟩ := List.mem_map.mp (List.mem_of_getElem? e')
      exact sane_entry _ _ _ _ _

instance {accept : Tag → Bool} {cfg : Cfg} {i j : Nat} : Stops (colorOf accept cfg i j) := stops_ask (sane_color cfg i j)

/-- Colors survive failures of the tape and the growth of the file. -/
theorem C118_tapes (accept : Tag → Bool) (cfg : Cfg) (i j : Nat) :
    SurvivesFaults (colorOf accept cfg i j) ∧ SurvivesGrowth (colorOf accept cfg i j) := ⟨survivesFaults, survivesGrowth⟩

/-- A file with the table of the example of C33, and what its palettes have: entry 1 of palette 0 is entry 0 of palette 1. -/
def coloredFile : Data := fontFile 0x00010000 16 0 0 [(TableType.colorPalettes.tag, samplePalettes)]

example : Fits coloredFile ∧
    Reads (colorOf (· == 0x00010000) ⟨false, false, false, false, true, false⟩ 0 1) coloredFile 0 (some ⟨5, 6, 7, 8⟩) ∧
    Reads (colorOf (· == 0x00010000) ⟨false, false, false, false, true, false⟩ 1 0) coloredFile 0 (some ⟨5, 6, 7, 8⟩) ∧
    Reads (colorOf (· == 0x00010000) ⟨false, false, false, false, true, false⟩ 1 1) coloredFile 0 (some ⟨9, 10, 11, 12⟩) ∧
    Reads (colorOf (· == 0x00010000) ⟨false, false, false, false, true, false⟩ 1 2) coloredFile 0 none ∧
    Reads (colorOf (· == 0x00010000) ⟨false, false, false, false, true, false⟩ 2 0) coloredFile 0 none := by
  decide +kernel

/-- A file with the table without colors of C35. -/
def uncoloredFile : Data := fontFile 0x00010000 16 0 0 [(TableType.colorPalettes.tag, emptyPalettes)]

example : ∃ m, colorOf (· == 0x00010000) ⟨false, false, false, false, false, false⟩ 0 0 uncoloredFile 0 = .error (.panic m) :=
  ⟨"index out of bounds", by decide +kernel⟩

/-! ## C119 -/

theorem i32_same {d : Data} {p : Nat} {x y : Int} (h : I32 d p x) (h' : I32 d p y) : x = y := by
  obtain ⟨h1, h2, h3⟩ := h
  obtain ⟨k1, k2, k3⟩ := h'
  have := h3.unique k3
  omega

section
variable {cfg : Cfg} {d : Data} (hd : Fits d) {p : Nat} {t : fvar.FontVariations} (ht : IsFontVariations cfg d p t)
include ht

theorem axisAt_iff {i a : Nat} : AxisAt d p i a ↔
    i < t.axis_records.length ∧ a = p + t.header.axis_offset + t.header.axis_size * i := by
  obtain ⟨⟨_, _, h1, _, _, h2, h3, _, _⟩, h4, _⟩ := ht
  rw [h4.1, Nat.mul_comm]
  constructor
  · rintro ⟨offset, axes, size, k1, k2, k3, k4, rfl⟩
    cases k1.unique h1
    cases k2.unique h2
    cases k3.unique h3
    exact ⟨k4, rfl⟩
  · rintro ⟨k4, rfl⟩
    exact ⟨_, _, _, h1, h2, h3, k4, rfl⟩

theorem axis_tag {i a : Nat} (ha : AxisAt d p i a) {x : fvar.AxisRecord} (hx : t.axis_records[i]? = some x) (tag : Tag) :
    U32 d a tag ↔ x.tag = tag := by
  obtain ⟨_, rfl⟩ := (axisAt_iff ht).mp ha
  have := (ht.2.1.2 _ _ hx).1
  exact ⟨fun h => this.unique h, fun h => h ▸ this⟩

theorem axisWith_iff {tag : Tag} {i a : Nat} : AxisWith d p tag i a ↔
    axisIn tag t = some i ∧ a = p + t.header.axis_offset + t.header.axis_size * i := by
  unfold axisIn
  rw [List.findIdx?_eq_some_iff_getElem]
  constructor
  · rintro ⟨h1, h2, h3⟩
    obtain ⟨hi, rfl⟩ := (axisAt_iff ht).mp h1
    refine ⟨⟨hi, beq_iff_eq.mpr ((axis_tag ht h1 (List.getElem?_eq_getElem hi) tag).mp h2), fun k hk => ?_⟩, rfl⟩
    have hk' : k < t.axis_records.length := by omega
    have h4 : AxisAt d p k _ := (axisAt_iff ht).mpr ⟨hk', rfl⟩
    intro e
    exact h3 k _ hk h4 ((axis_tag ht h4 (List.getElem?_eq_getElem hk') tag).mpr (beq_iff_eq.mp e))
  · rintro ⟨⟨hi, h2, h3⟩, rfl⟩
    have h1 : AxisAt d p i _ := (axisAt_iff ht).mpr ⟨hi, rfl⟩
    refine ⟨h1, (axis_tag ht h1 (List.getElem?_eq_getElem hi) tag).mpr (beq_iff_eq.mp h2), fun k a' hk h4 h5 => ?_⟩
    have hk' : k < t.axis_records.length := by omega
    exact h3 k hk (beq_iff_eq.mpr ((axis_tag ht h4 (List.getElem?_eq_getElem hk') tag).mp h5))

theorem noAxisWith_iff {tag : Tag} : NoAxisWith d p tag ↔ axisIn tag t = none := by
  unfold axisIn
  rw [List.findIdx?_eq_none_iff]
  constructor
  · intro h x hx
    obtain ⟨i, hi, rfl⟩ := List.getElem_of_mem hx
    have h1 : AxisAt d p i _ := (axisAt_iff ht).mpr ⟨hi, rfl⟩
    have := h i _ h1
    rw [axis_tag ht h1 (List.getElem?_eq_getElem hi)] at this
    exact beq_eq_false_iff_ne.mpr this
  · intro h i a ha hk
    have hi := ((axisAt_iff ht).mp ha).1
    have := h _ (List.getElem_mem hi)
    rw [beq_eq_false_iff_ne] at this
    exact this ((axis_tag ht ha (List.getElem?_eq_getElem hi) tag).mp hk)

theorem instanceAt_iff {j b : Nat} : InstanceAt d p j b ↔ j < t.instance_records.length ∧
    b = p + t.header.axis_offset + t.header.axis_count * t.header.axis_size + t.header.instance_size * j := by
  obtain ⟨⟨_, _, h1, _, _, h2, h3, h4, h5⟩, _, h6⟩ := ht
  rw [h6.1, Nat.mul_comm t.header.instance_size]
  constructor
  · rintro ⟨_, _, _, _, _, k1, k2, k3, k4, k5, k6, rfl⟩
    cases k1.unique h1
    cases k2.unique h2
    cases k3.unique h3
    cases k4.unique h4
    cases k5.unique h5
    exact ⟨k6, rfl⟩
  · rintro ⟨k6, rfl⟩
    exact ⟨_, _, _, _, _, h1, h2, h3, h4, h5, k6, rfl⟩

omit ht in
theorem axisIn_lt {tag : Tag} {i : Nat} (h : axisIn tag t = some i) : i < t.axis_records.length := by
  obtain ⟨hi, _⟩ := List.findIdx?_eq_some_iff_getElem.mp h
  exact hi

theorem coordinateIn_eq (j : Nat) (tag : Tag) :
    (coordinateIn j tag t = .ok none ∧ (NoAxisWith d p tag ∨ ∀ b, ¬InstanceAt d p j b)) ∨
    ∃ x, coordinateIn j tag t = .ok (some x) ∧ Coordinate d p j tag x := by
  unfold coordinateIn
  cases e : axisIn tag t with
  | none => exact .inl ⟨rfl, .inl ((noAxisWith_iff ht).mpr e)⟩
  | some i =>
    cases e' : t.instance_records[j]? with
    | none =>
      refine .inl ⟨rfl, .inr fun b hb => ?_⟩
      have := ((instanceAt_iff ht).mp hb).1
      rw [List.getElem?_eq_getElem this] at e'
      cases e'
    | some x =>
      have hi := axisIn_lt e
      obtain ⟨_, _, _, h1, _⟩ := ht.2.2.2 _ _ e'
      have hi' : i < x.coordinates.length := by rw [h1.1, ← ht.2.1.1]; exact hi
      have hj : j < t.instance_records.length := by
        by_cases hj : j < t.instance_records.length
        · exact hj
        · rw [List.getElem?_eq_none (by omega)] at e'; cases e'
      refine .inr ⟨x.coordinates[i], ?_, i, _, _, (axisWith_iff ht).mpr ⟨e, rfl⟩, (instanceAt_iff ht).mpr ⟨hj, rfl⟩,
        h1.2 _ _ (List.getElem?_eq_getElem hi')⟩
      dsimp only
      unfold element
      rw [List.getElem?_eq_getElem hi']
      rfl

theorem clampIn_eq (tag : Tag) (v : Int) :
    (clampIn tag v t = .ok none ∧ NoAxisWith d p tag) ∨ ∃ x, clampIn tag v t = .ok (some x) ∧ NearestOn d p tag v x := by
  unfold clampIn
  cases e : t.axis_records.find? (·.tag == tag) with
  | none =>
    refine .inl ⟨rfl, (noAxisWith_iff ht).mpr ?_⟩
    unfold axisIn
    rw [List.findIdx?_eq_none_iff]
    intro x hx
    have := List.find?_eq_none.mp e x hx
    simpa using this
  | some axis =>
    obtain ⟨h1, i, hi, h2, h3⟩ := List.find?_eq_some_iff_getElem.mp e
    have e' : axisIn tag t = some i := by
      unfold axisIn
      rw [List.findIdx?_eq_some_iff_getElem]
      exact ⟨hi, by rw [h2]; exact h1, fun k hk => by have := h3 k hk; simpa using this⟩
    have hx : t.axis_records[i]? = some axis := by rw [List.getElem?_eq_getElem hi, h2]
    obtain ⟨_, k1, _, k2, _⟩ := ht.2.1.2 _ _ hx
    refine .inr ⟨_, rfl, i, _, axis.min_value, axis.max_value, (axisWith_iff ht).mpr ⟨e', rfl⟩, k1, k2, ?_⟩
    split
    · exact .inl ⟨by assumption, rfl⟩
    · split
      · exact .inr (.inr ⟨by omega, by assumption, rfl⟩)
      · exact .inr (.inl ⟨by omega, by omega, rfl⟩)

theorem axisWith_unique {tag : Tag} {i a i' a' : Nat} (h : AxisWith d p tag i a) (h' : AxisWith d p tag i' a') : i = i' ∧ a = a' := by
  obtain ⟨h1, rfl⟩ := (axisWith_iff ht).mp h
  obtain ⟨h2, rfl⟩ := (axisWith_iff ht).mp h'
  rw [h1] at h2
  cases h2
  exact ⟨rfl, rfl⟩

end

/-- Whatever the bytes of a file are, in every build: an instance is where the bytes say on the axis that is first to have a tag; and
nowhere exactly if there is no fvar table, no such axis or no such instance. -/
theorem C119_coordinates (accept : Tag → Bool) (cfg : Cfg) {d : Data} (hd : Fits d) (j : Nat) (tag : Tag) (y : Option Int) :
    Reads (coordinateOf accept cfg j tag) d 0 y ↔
      (Absent accept d .fontVariations ∧ y = none) ∨
      ∃ p t, TableAt accept cfg d .fontVariations p ∧ IsFontVariations cfg d p t ∧
        ((y = none ∧ (NoAxisWith d p tag ∨ ∀ b, ¬InstanceAt d p j b)) ∨ ∃ x, y = some x ∧ Coordinate d p j tag x) := by
  unfold coordinateOf
  rw [ask_iff hd]
  refine or_congr Iff.rfl (exists_congr fun p => exists_congr fun t => and_congr_right fun _ => ?_)
  rw [reads_parses (r := fvar.FontVariations.read cfg) hd]
  refine and_congr_right fun ht => ?_
  rcases coordinateIn_eq ht j tag with ⟨e, h⟩ | ⟨x, e, h⟩
  · rw [e]
    constructor
    · intro k
      cases k
      exact .inl ⟨rfl, h⟩
    · rintro (⟨rfl, _⟩ | ⟨_, _, i, a, b, h1, h2, _⟩)
      · rfl
      · rcases h with h | h
        · exact (h i a h1.1 h1.2.1).elim
        · exact (h b h2).elim
  · rw [e]
    constructor
    · intro k
      cases k
      exact .inr ⟨_, rfl, h⟩
    · obtain ⟨i, a, b, h1, h2, h3⟩ := h
      rintro (⟨_, k | k⟩ | ⟨x', rfl, i', a', b', h1', h2', h3'⟩)
      · exact (k i a h1.1 h1.2.1).elim
      · exact (k b h2).elim
      · obtain ⟨rfl, rfl⟩ := axisWith_unique ht h1 h1'
        obtain ⟨_, rfl⟩ := (instanceAt_iff ht).mp h2
        obtain ⟨_, rfl⟩ := (instanceAt_iff ht).mp h2'
        rw [i32_same h3 h3']

/-- A place is brought into the range that the bytes give the axis; and nowhere exactly if there is no fvar table or no such axis. -/
theorem C119_ranges (accept : Tag → Bool) (cfg : Cfg) {d : Data} (hd : Fits d) (tag : Tag) (v : Int) (y : Option Int) :
    Reads (clampOf accept cfg tag v) d 0 y ↔
      (Absent accept d .fontVariations ∧ y = none) ∨
      ∃ p t, TableAt accept cfg d .fontVariations p ∧ IsFontVariations cfg d p t ∧
        ((y = none ∧ NoAxisWith d p tag) ∨ ∃ x, y = some x ∧ NearestOn d p tag v x) := by
  unfold clampOf
  rw [ask_iff hd]
  refine or_congr Iff.rfl (exists_congr fun p => exists_congr fun t => and_congr_right fun _ => ?_)
  rw [reads_parses (r := fvar.FontVariations.read cfg) hd]
  refine and_congr_right fun ht => ?_
  rcases clampIn_eq ht tag v with ⟨e, h⟩ | ⟨x, e, h⟩
  · rw [e]
    constructor
    · intro k
      cases k
      exact .inl ⟨rfl, h⟩
    · rintro (⟨rfl, _⟩ | ⟨_, _, i, a, _, _, h1, _⟩)
      · rfl
      · exact (h i a h1.1 h1.2.1).elim
  · rw [e]
    constructor
    · intro k
      cases k
      exact .inr ⟨_, rfl, h⟩
    · obtain ⟨i, a, least, greatest, h1, h2, h3, h4⟩ := h
      rintro (⟨_, k⟩ | ⟨x', rfl, i', a', least', greatest', h1', h2', h3', h4'⟩)
      · exact (k i a h1.1 h1.2.1).elim
      · obtain ⟨rfl, rfl⟩ := axisWith_unique ht h1 h1'
        cases i32_same h2 h2'
        cases i32_same h3 h3'
        have : x = x' := by omega
        rw [this]

/-- Where the table is well-formed, there are answers. -/
theorem C119_answers (accept : Tag → Bool) (cfg : Cfg) {d : Data} (hd : Fits d) {p : Nat} {t : fvar.FontVariations}
    (hp : TableAt accept cfg d .fontVariations p) (ht : IsFontVariations cfg d p t) (j : Nat) (tag : Tag) (v : Int) :
    (∃ y, Reads (coordinateOf accept cfg j tag) d 0 y) ∧ ∃ y, Reads (clampOf accept cfg tag v) d 0 y := by
  constructor
  · rcases coordinateIn_eq ht j tag with ⟨_, h⟩ | ⟨x, _, h⟩
    · exact ⟨none, (C119_coordinates accept cfg hd j tag _).mpr (.inr ⟨p, t, hp, ht, .inl ⟨rfl, h⟩⟩)⟩
    · exact ⟨some x, (C119_coordinates accept cfg hd j tag _).mpr (.inr ⟨p, t, hp, ht, .inr ⟨x, rfl, h⟩⟩)⟩
  · rcases clampIn_eq ht tag v with ⟨_, h⟩ | ⟨x, _, h⟩
    · exact ⟨none, (C119_ranges accept cfg hd tag v _).mpr (.inr ⟨p, t, hp, ht, .inl ⟨rfl, h⟩⟩)⟩
    · exact ⟨some x, (C119_ranges accept cfg hd tag v _).mpr (.inr ⟨p, t, hp, ht, .inr ⟨x, rfl, h⟩⟩)⟩

theorem sane_coordinate (j : Nat) (tag : Tag) (t : fvar.FontVariations) : Sane (coordinateIn j tag t) := by
  unfold coordinateIn
  split
  · exact (sane_element _ _).map
  · exact .ok

theorem sane_clamp (tag : Tag) (v : Int) (t : fvar.FontVariations) : Sane (clampIn tag v t) := by
  unfold clampIn
  split <;> exact .ok

instance {accept : Tag → Bool} {cfg : Cfg} {j : Nat} {tag : Tag} : Stops (coordinateOf accept cfg j tag) :=
  stops_ask (sane_coordinate j tag)

instance {accept : Tag → Bool} {cfg : Cfg} {tag : Tag} {v : Int} : Stops (clampOf accept cfg tag v) := stops_ask (sane_clamp tag v)

/-- Coordinates and ranges survive failures of the tape and the growth of the file. -/
theorem C119_tapes (accept : Tag → Bool) (cfg : Cfg) (j : Nat) (tag : Tag) (v : Int) :
    (SurvivesFaults (coordinateOf accept cfg j tag) ∧ SurvivesGrowth (coordinateOf accept cfg j tag)) ∧
    SurvivesFaults (clampOf accept cfg tag v) ∧ SurvivesGrowth (clampOf accept cfg tag v) :=
  ⟨⟨survivesFaults, survivesGrowth⟩, survivesFaults, survivesGrowth⟩

/-- A file with the table of the example of C36. -/
def variableFile : Data := fontFile 0x00010000 16 0 0 [(TableType.fontVariations.tag, sampleFvar)]

/-- On `wdth`, the second axis, the instances are at -1 and 1, in 65536ths; and 2 is brought to 1, -2 to -1. -/
example : Fits variableFile ∧
    Reads (coordinateOf (· == 0x00010000) ⟨false, false, false, false, true, false⟩ 0 0x77647468) variableFile 0 (some (-65536)) ∧
    Reads (coordinateOf (· == 0x00010000) ⟨false, false, false, false, true, false⟩ 1 0x77647468) variableFile 0 (some 65536) ∧
    Reads (coordinateOf (· == 0x00010000) ⟨false, false, false, false, true, false⟩ 2 0x77647468) variableFile 0 none ∧
    Reads (coordinateOf (· == 0x00010000) ⟨false, false, false, false, true, false⟩ 0 0x6F70737A) variableFile 0 none ∧
    Reads (clampOf (· == 0x00010000) ⟨false, false, false, false, true, false⟩ 0x77647468 131072) variableFile 0 (some 65536) ∧
    Reads (clampOf (· == 0x00010000) ⟨false, false, false, false, true, false⟩ 0x77647468 (-131072)) variableFile 0
      (some (-65536)) ∧
    Reads (clampOf (· == 0x00010000) ⟨false, false, false, false, true, false⟩ 0x77647468 7) variableFile 0 (some 7) := by
  decide +kernel

end OpenType.Props
