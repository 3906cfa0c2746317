import Verif.Proof.Bounds
import Verif.Proof.Gsub
import Verif.Proof.Gpos
import Verif.Proof.Gdef
import Verif.Proof.Cpal
import Verif.Proof.Fvar
import Verif.Props.Sample
/-!
# C58: no vector has more elements than the file has bytes

A count field can announce at most as many elements as the file can hold: a few bytes cannot make the
library allocate millions of elements. It holds for every table but the positioning subtables with elements
of no bytes and the font variations with a record size of zero. -/

namespace OpenType.Props
open OpenType Spec coverage class_ correction context script feature directory

/-- Whatever a reader returns has no vector, at any level, with more elements than the tape has bytes. -/
def Contained {α : Type} [Bounded α] (r : Reader α) : Prop :=
  ∀ (d : Data) (p : Nat) (t : α) (q : Nat), Fits d → r d p = .ok (t, q) → within d.length t

theorem contained {α : Type} [Bounded α] {r : Reader α} {S : Data → Nat → α → Prop} [h : Parses r S]
    [∀ d, Bounds d (S d)] : Contained r := fun _ _ _ _ hd hr => Bounds.of ((h.reads hd).mp ⟨_, hr⟩)

/-- The glyph substitution table. -/
theorem C58_gsub (cfg : Cfg) : Contained (gsub.GlyphSubstitution.read cfg) :=
  contained (S := fun d => IsDirectory cfg Spec.gsub.IsTable d)

/-- The glyph definition table. -/
theorem C58_gdef (cfg : Cfg) : Contained (gdef.GlyphDefinition.read cfg) := contained

/-- The color palettes. -/
theorem C58_cpal : Contained cpal.ColorPalettes.read := contained

/-- The item variation store. -/
theorem C58_store (cfg : Cfg) : Contained (item.Store.read cfg) := contained

/-- The tables of the layout module, taken on their own. -/
theorem C58_layout : Contained Coverage.read ∧ Contained Class.read ∧ Contained Correction.read ∧
    Contained Context.read ∧ Contained ChainedContext.read ∧ Contained Scripts.read ∧
    Contained Features.read :=
  ⟨contained, contained, contained, contained, contained, contained, contained⟩

/-- The glyph positioning table, when every element of its subtables takes up room: value records with at
least one field, and at least one mark class. Missing: the other subtables, for which the claim is false
(`C58_gpos_violated`). -/
theorem C58_gpos_partial (cfg : Cfg) (d : Data) (p : Nat) (t : gpos.GlyphPositioning) (q : Nat)
    (hd : Fits d) (hr : gpos.GlyphPositioning.read cfg d p = .ok (t, q))
    (room : ∀ lookup ∈ t.lookups.records, ∀ table ∈ lookup.tables, TakesRoom table) :
    within d.length t := by
  have h : IsDirectory cfg (Spec.gpos.IsTable cfg) d p t := (reads_parses hd).mp ⟨q, hr⟩
  exact Bounds.of (directory_and h room)

/-- The font variations, when the record sizes of the header are not zero. Missing: zero sizes, for which
the claim is false (`C58_fvar_violated`). -/
theorem C58_fvar_partial (cfg : Cfg) (d : Data) (p : Nat) (t : fvar.FontVariations) (q : Nat)
    (hd : Fits d) (hr : fvar.FontVariations.read cfg d p = .ok (t, q))
    (axes : t.header.axis_size ≠ 0) (instances : t.header.instance_size ≠ 0) : within d.length t := by
  obtain ⟨_, ha, hi⟩ : IsFontVariations cfg d p t := (reads_parses hd).mp ⟨q, hr⟩
  exact ⟨within_array ha (Nat.pos_of_ne_zero axes), within_array hi (Nat.pos_of_ne_zero instances)⟩

/-! ## Where it fails -/

section
variable {d : Data} {p : Nat}

theorem u16_at {n : Nat} {a b : UInt8} (ha : d[p]? = some a) (hb : d[p + 1]? = some b)
    (h : n = 256 * a.toNat + b.toNat) : U16 d p n := ⟨_, _, ⟨a, ha, rfl⟩, ⟨b, hb, rfl⟩, h⟩

theorem split16 {n : Nat} (h : n < 65536) :
    n = 256 * (UInt8.ofNat (n / 256)).toNat + (UInt8.ofNat n).toNat := by
  simp only [UInt8.toNat_ofNat']
  omega

variable {α : Type} {S : Nat → α → Prop} {k o : Nat} {x : α}

theorem array_nil : ArrayOf S k p 0 [] := ⟨rfl, fun i x hx => by simp at hx⟩

theorem array_one (h : S p x) : ArrayOf S k p 1 [x] := by
  refine ⟨rfl, fun i y hy => ?_⟩
  obtain ⟨hi, rfl⟩ := List.getElem?_eq_some_iff.mp hy
  obtain rfl : i = 0 := by simpa using hi
  exact h

theorem offsets_nil : AtOffsets S p [] [] := ⟨rfl, fun i o x ho => by simp at ho⟩

theorem offsets_one (h : S (p + o) x) : AtOffsets S p [o] [x] := by
  refine ⟨rfl, fun i o' y ho hy => ?_⟩
  obtain ⟨hi, rfl⟩ := List.getElem?_eq_some_iff.mp hy
  obtain rfl : i = 0 := by simpa using hi
  cases ho
  exact h

theorem array_replicate {n : Nat} (h : ∀ q, S q x) : ArrayOf S k p n (List.replicate n x) := by
  refine ⟨List.length_replicate, fun i y hy => ?_⟩
  obtain rfl := List.eq_of_mem_replicate (List.mem_of_getElem? hy)
  exact h _

end

/-- A file of 36 bytes: a font variations table with `n` axes, all of them in the same 20 bytes. -/
def manyAxes (n : Nat) : Data :=
  bytes [0, 1, 0, 0, 0, 16, 0, 2] ++ [UInt8.ofNat (n / 256), UInt8.ofNat n] ++
    bytes [0, 0, 0, 0, 0, 0, 0x77, 0x67, 0x68, 0x74, 0, 0, 0, 1, 0, 0, 0, 2, 0, 0, 0, 3, 0, 0, 1, 0]

/-- 36 bytes suffice for any number of axes that a 16-bit field can announce. -/
theorem C58_fvar_violated (cfg : Cfg) (n : Nat) (hn : n < 65536) :
    (manyAxes n).length = 36 ∧
      ∃ t, Reads (fvar.FontVariations.read cfg) (manyAxes n) 0 t ∧ t.axis_records.length = n := by
  refine ⟨rfl, ⟨⟨1, 0, 16, 2, n, 0, 0, 0⟩, List.replicate n ⟨0x77676874, 1, 2, 3, 0, 256⟩, []⟩, ?_,
    List.length_replicate⟩
  have hd : Fits (manyAxes n) := by
    unfold Fits
    change 36 < _
    decide
  refine (reads_parses hd).mpr ⟨⟨u16_at rfl rfl rfl, u16_at rfl rfl rfl, u16_at rfl rfl rfl,
    u16_at rfl rfl rfl, rfl, u16_at rfl rfl (split16 hn), u16_at rfl rfl rfl, u16_at rfl rfl rfl,
    u16_at rfl rfl rfl⟩, ⟨List.length_replicate, fun i x hx => ?_⟩, rfl, fun i x hx => by simp at hx⟩
  obtain rfl := List.eq_of_mem_replicate (List.mem_of_getElem? hx)
  rw [show 0 + 16 + 0 * i = 16 by omega]
  exact ⟨⟨_, _, u16_at rfl rfl rfl, u16_at rfl rfl rfl, rfl⟩,
    ⟨by decide, by decide, _, _, u16_at rfl rfl rfl, u16_at rfl rfl rfl, rfl⟩,
    ⟨by decide, by decide, _, _, u16_at rfl rfl rfl, u16_at rfl rfl rfl, rfl⟩,
    ⟨by decide, by decide, _, _, u16_at rfl rfl rfl, u16_at rfl rfl rfl, rfl⟩,
    u16_at rfl rfl rfl, fun _ => Nat.zero_and _, u16_at rfl rfl rfl⟩

/-- A file of 50 bytes: a glyph positioning table with one pair adjustment of `m` by `n` classes and no
value fields. -/
def manyPairs (m n : Nat) : Data :=
  bytes [0, 1, 0, 0, 0, 10, 0, 12, 0, 14, 0, 0, 0, 0, 0, 1, 0, 4, 0, 2, 0, 0, 0, 1, 0, 8,
    0, 2, 0, 16, 0, 0, 0, 0, 0, 20, 0, 20] ++
    [UInt8.ofNat (m / 256), UInt8.ofNat m, UInt8.ofNat (n / 256), UInt8.ofNat n] ++
    bytes [0, 1, 0, 0, 0, 2, 0, 0]

/-- 50 bytes suffice for a matrix of any size that two 16-bit fields can announce: more than four billion
cells with `m = n = 65535`. -/
theorem C58_gpos_violated (cfg : Cfg) (m n : Nat) (hm : m < 65536) (hn : n < 65536) :
    (manyPairs m n).length = 50 ∧
      ∃ t lookup matrix, Reads (gpos.GlyphPositioning.read cfg) (manyPairs m n) 0 t ∧
        t.lookups.records = [lookup] ∧ lookup.tables = [.pairAdjustment (.format2 matrix)] ∧
        matrix.records.length = m ∧ ∀ row ∈ matrix.records, row.records.length = n := by
  refine ⟨rfl, ⟨1, 0, 10, 12, 14, 0, ⟨0, [], []⟩, ⟨0, [], []⟩,
    ⟨1, [4], [⟨2, 0, 1, [8], none, [.pairAdjustment (.format2 ⟨2, 16, 0, 0, 20, 20, m, n,
      List.replicate m ⟨List.replicate n ⟨none, none⟩⟩, .format1 ⟨1, 0, []⟩, .format2 ⟨2, 0, []⟩,
      .format2 ⟨2, 0, []⟩⟩)]⟩]⟩, none⟩, _, _, ?_, rfl, rfl,
    List.length_replicate, fun row hrow => ?_⟩
  · have hd : Fits (manyPairs m n) := by
      unfold Fits
      change 50 < _
      decide
    refine (reads_parses hd).mpr (show IsDirectory cfg (Spec.gpos.IsTable cfg) _ _ _ from ?_)
    have hc : Spec.IsClass (manyPairs m n) 46 (.format2 ⟨2, 0, []⟩) :=
      ⟨rfl, u16_at rfl rfl rfl, u16_at rfl rfl rfl, array_nil⟩
    have hs : IsScripts (manyPairs m n) 10 ⟨0, [], []⟩ := ⟨u16_at rfl rfl rfl, array_nil, offsets_nil⟩
    have hf : IsFeatures (manyPairs m n) 12 ⟨0, [], []⟩ :=
      ⟨u16_at rfl rfl rfl, array_nil, offsets_nil⟩
    refine ⟨u16_at rfl rfl rfl, u16_at rfl rfl rfl, rfl, .inl rfl, u16_at rfl rfl rfl,
      u16_at rfl rfl rfl, u16_at rfl rfl rfl, rfl, ?_, ?_, ?_, rfl⟩
    · rw [IsPart, if_neg (by simp)]
      exact hs
    · rw [IsPart, if_neg (by simp)]
      exact hf
    rw [IsPart, if_neg (by simp)]
    refine ⟨u16_at rfl rfl rfl, array_one (u16_at rfl rfl rfl), offsets_one
      ⟨u16_at rfl rfl rfl, u16_at rfl rfl rfl, fun _ => Nat.zero_and _, u16_at rfl rfl rfl,
        array_one (u16_at rfl rfl rfl), by simp [IsMarkFilteringSet], offsets_one ⟨rfl, rfl, ?_⟩⟩⟩
    exact ⟨u16_at rfl rfl rfl, u16_at rfl rfl rfl, u16_at rfl rfl rfl, fun _ => Nat.zero_and _,
      u16_at rfl rfl rfl, fun _ => Nat.zero_and _, u16_at rfl rfl rfl, u16_at rfl rfl rfl,
      u16_at rfl rfl (split16 hm), u16_at rfl rfl (split16 hn),
      array_replicate fun q => array_replicate fun q => ⟨rfl, rfl⟩,
      ⟨rfl, u16_at rfl rfl rfl, u16_at rfl rfl rfl, array_nil⟩, hc, hc⟩
  · obtain rfl := List.eq_of_mem_replicate hrow
    exact List.length_replicate

/-! ## Concrete cases -/

/-- A positioning table with one pair adjustment of one by one class whose cell has one field. -/
def samplePairs : Data := bytes <|
  [0, 1, 0, 0, 0, 10, 0, 12, 0, 14, 0, 0, 0, 0, 0, 1, 0, 4, 0, 2, 0, 0, 0, 1, 0, 8] ++
    [0, 2, 0, 18, 0, 4, 0, 0, 0, 22, 0, 22, 0, 1, 0, 1, 255, 251] ++ [0, 1, 0, 0, 0, 2, 0, 0]

/-- It meets the hypotheses of `C58_gpos_partial`. -/
example : ∃ t matrix, Reads (gpos.GlyphPositioning.read ⟨true, false, false, false, true, true⟩) samplePairs 0 t ∧
    t.lookups.records.map (·.tables) = [[.pairAdjustment (.format2 matrix)]] ∧
    matrix.records.map (fun row => row.records.map fun cell => cell.value1.map (·.x_advance)) =
      [[some (some (-5))]] ∧
    ∀ lookup ∈ t.lookups.records, ∀ table ∈ lookup.tables, TakesRoom table := by
  refine ⟨⟨1, 0, 10, 12, 14, 0, ⟨0, [], []⟩, ⟨0, [], []⟩,
    ⟨1, [4], [⟨2, 0, 1, [8], none, [.pairAdjustment (.format2 ⟨2, 18, 4, 0, 22, 22, 1, 1,
      [⟨[⟨some ⟨none, none, some (-5), none, none, none, none, none, none, none, none, none⟩, none⟩]⟩],
      .format1 ⟨1, 0, []⟩, .format2 ⟨2, 0, []⟩, .format2 ⟨2, 0, []⟩⟩)]⟩]⟩, none⟩, _,
    by decide +kernel, rfl, rfl, ?_⟩
  intro lookup hl table ht
  obtain rfl := List.mem_singleton.mp hl
  obtain rfl := List.mem_singleton.mp ht
  exact ⟨.inl (by decide), by decide⟩

/-- Fewer axes than bytes, with a record size of 20, meet the hypotheses of `C58_fvar_partial`. -/
example : ∃ t, Reads (fvar.FontVariations.read ⟨true, false, false, false, true, true⟩) (bytes [0, 1, 0, 0, 0, 16, 0, 2, 0, 1, 0, 20, 0, 0, 0, 8,
      0x77, 0x67, 0x68, 0x74, 0, 0, 0, 1, 0, 0, 0, 2, 0, 0, 0, 3, 0, 0, 1, 0]) 0 t ∧
    t.axis_records.length = 1 ∧ t.header.axis_size ≠ 0 ∧ t.header.instance_size ≠ 0 :=
  ⟨⟨⟨1, 0, 16, 2, 1, 20, 0, 8⟩, [⟨0x77676874, 1, 2, 3, 0, 256⟩], []⟩, by decide +kernel, rfl, by decide,
    by decide⟩

/-- The predicate looks inside: the deltas of a device table of a caret are too long for it. -/
example : ¬within 1 (gdef.Ligature.mk 1 [6] [.format3 ⟨3, 5, 6, .device ⟨1, 9, 1, [7, 8]⟩⟩]) :=
  fun h => absurd (h.2.2 _ (List.mem_singleton.mpr rfl)).1 (by decide : ¬2 ≤ 1)

end OpenType.Props
