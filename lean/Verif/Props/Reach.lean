import Verif.Proof.ReachTables
import Verif.Props.Confined
/-! # C87: how far a reader looks -/

namespace OpenType.Props
open OpenType Spec

/-- The first `k` bytes from where the reader starts are all that matters: whatever the content and the position,
whether reading succeeds or fails, it asks for no other byte, and on any other content with the same bytes there it
gives the same value or error and leaves the tape at the same place. -/
def Window {α : Type} (r : Reader α) (k : Nat) : Prop :=
  ∀ (d : Data) (p : Nat),
    (∀ q n, (q, n) ∈ r.fetches d p → 0 < n → p ≤ q ∧ q + n ≤ p + k) ∧
    ∀ d' : Data, (∀ i, p ≤ i → i < p + k → d[i]? = d'[i]?) → r d p = r d' p

/-- Some content of `k` bytes is accepted, and is not read the same without its last byte. So no smaller number
would do in `Window r k`. -/
def NeedsAll {α : Type} (r : Reader α) (k : Nat) : Prop :=
  ∃ d : Data, d.length = k ∧ (∃ v q, r d 0 = .ok (v, q)) ∧ ∀ k' < k, r (d.take k') 0 ≠ r d 0

/-- What `NeedsAll` is for. -/
theorem Window.least {α : Type} {r : Reader α} {k k' : Nat} (h : NeedsAll r k) (hw : Window r k') : k ≤ k' := by
  obtain ⟨d, hd, _, hn⟩ := h
  rcases Nat.lt_or_ge k' k with hk | hk
  · refine absurd ((hw (d.take k') 0).2 d fun i _ hi => ?_) (hn k' hk)
    rw [List.getElem?_take, if_pos (by omega)]
  · exact hk

theorem run_agree {α : Type} {r : Reader α} {d d' : Data} {p : Nat}
    (h : ∀ q n, (q, n) ∈ r.fetches d p → Reader.slice d q n = Reader.slice d' q n) : r d p = r d' p := by
  show r.run d p = r.run d' p
  induction r generalizing p with
  | done a => rfl
  | fail e => rfl
  | tell next ih => exact ih _ h
  | seek q next ih => exact ih _ h
  | fetch n next ih =>
    show (next (Reader.slice d p n)).run d (p + n) = (next (Reader.slice d' p n)).run d' (p + n)
    rw [← h p n (List.mem_cons_self ..)]
    exact ih _ fun q m hm => h q m (List.mem_cons_of_mem _ hm)

theorem slice_agree {d d' : Data} {p n : Nat} (h : ∀ i, p ≤ i → i < p + n → d[i]? = d'[i]?) :
    Reader.slice d p n = Reader.slice d' p n := by
  have hl : (n = 0 ∨ p + n ≤ d.length) ↔ (n = 0 ∨ p + n ≤ d'.length) := by
    rcases Nat.eq_zero_or_pos n with hn | hn
    · simp [hn]
    · have := h (p + n - 1) (by omega) (by omega)
      have h1 := List.getElem?_eq_none_iff (l := d) (i := p + n - 1)
      have h2 := List.getElem?_eq_none_iff (l := d') (i := p + n - 1)
      rw [this] at h1
      rw [h1] at h2
      omega
  have he : (d.drop p).take n = (d'.drop p).take n := by
    refine List.ext_getElem? fun i => ?_
    rw [List.getElem?_take, List.getElem?_take]
    split
    · rw [List.getElem?_drop, List.getElem?_drop]
      exact h _ (by omega) (by omega)
    · rfl
  unfold Reader.slice
  simp only [hl, he]

theorem window {α : Type} {r : Reader α} {k : Nat} [h : Looks r k] [Forward r] : Window r k := by
  intro d p
  have hf : ∀ q n, (q, n) ∈ r.fetches d p → 0 < n → p ≤ q ∧ q + n ≤ p + k := fun q n hm hn =>
    ⟨asksForward d p q n hm, window_fetches (h.within (Nat.le_refl _)) d q n hm hn⟩
  refine ⟨hf, fun d' hd => run_agree fun q n hm => slice_agree fun i hi hi' => ?_⟩
  have := hf q n hm (by omega)
  exact hd i (by omega) (by omega)

/-- A larger window is a window. -/
theorem Window.mono {α : Type} {r : Reader α} {k k' : Nat} (h : Window r k) (hk : k ≤ k') : Window r k' :=
  fun d p => ⟨fun q n hm hn => by have := (h d p).1 q n hm hn; omega,
    fun d' hd => (h d p).2 d' fun i h1 h2 => hd i h1 (by omega)⟩

/-- The tables and the directory of a file. -/
theorem C87_window (cfg : Cfg) (accept : Tag → Bool) :
    Window (gsub.GlyphSubstitution.read cfg) (0xFFFFFFFF + 8) ∧
    Window (gpos.GlyphPositioning.read cfg) (3 * 0xFFFF + 16 + 0xFFFF * 0xFFFF * 32) ∧
    Window (gdef.GlyphDefinition.read cfg) (0xFFFF + 0xFFFFFFFF + 6 + 0xFFFF * 2 + 0xFFFF * 0xFFFF) ∧
    Window cpal.ColorPalettes.read (0xFFFFFFFF + 0xFFFF * 4) ∧
    Window (fvar.FontVariations.read cfg) (0xFFFF + 0xFFFF * 0xFFFF + 0xFFFE * 0xFFFF + 6 + 0xFFFF * 4) ∧
    Window (item.Store.read cfg) (0xFFFFFFFF + 6 + 0xFFFF * 2 + 0xFFFF * 0xFFFF) ∧
    Window (Font.read accept) (12 + 0xFFFF * 16) ∧
    Window (File.read accept) (12 + 0xFFFF * 16) :=
  ⟨window, window, window, window, window, window, window, window⟩

/-- The parts of the layout tables. -/
theorem C87_layout (cfg : Cfg) :
    Window coverage.Coverage.read (4 + 0xFFFF * 6) ∧
    Window class_.Class.read (4 + 0xFFFF * 6) ∧
    Window correction.Correction.read (6 + 0x8001 * 2) ∧
    Window context.Context.read (2 * 0xFFFF + 4 + 0xFFFE * 2 + 0xFFFF * 4) ∧
    Window context.ChainedContext.read (2 * 0xFFFF + 8 + 0xFFFF * 2 + 0xFFFE * 2 + 0xFFFF * 2 + 0xFFFF * 4) ∧
    Window language.Record.read (6 + 0xFFFF * 2) ∧
    Window script.Record.read (4 + 0xFFFF * 6) ∧
    Window script.Scripts.read (0xFFFF + 4 + 0xFFFF * 6) ∧
    Window feature.Record.read (4 + 0xFFFF * 2) ∧
    Window feature.Features.read (2 + 0xFFFF * 6) ∧
    Window feature.Variations.read 8 ∧
    Window (lookup.Lookups.read cfg gsub.Type_.read) (4 * 0xFFFF + 8 + 0xFFFF * 2 + 0xFFFE * 2 + 0xFFFF * 2 + 0xFFFF * 4) ∧
    Window (lookup.Lookups.read cfg (gpos.Type_.read cfg)) (2 * 0xFFFF + 16 + 0xFFFF * 0xFFFF * 32) :=
  ⟨window, window, window, window, window, window, window, window, window, window, window, window, window⟩

/-- The subtables of GSUB. -/
theorem C87_gsub (type_ : Nat) :
    Window gsub.SingleSubstitution.read (0xFFFF + 4 + 0xFFFF * 6) ∧
    Window gsub.MultipleSubstitution.read (0xFFFF + 4 + 0xFFFF * 6) ∧
    Window gsub.AlternateSubstitution.read (0xFFFF + 4 + 0xFFFF * 6) ∧
    Window gsub.LigatureSubstitution.read (0xFFFF + 4 + 0xFFFF * 6) ∧
    Window gsub.ExtensionSubstitution.read 8 ∧
    Window gsub.ReverseChainedContextualSubstibution.read (0xFFFF + 4 + 0xFFFF * 6) ∧
    Window (gsub.Type_.read type_) (2 * 0xFFFF + 8 + 0xFFFF * 2 + 0xFFFE * 2 + 0xFFFF * 2 + 0xFFFF * 4) ∧
    Window gsub.Sequence.read (2 + 0xFFFF * 2) ∧
    Window gsub.Alternates.read (2 + 0xFFFF * 2) ∧
    Window gsub.Ligature.read (4 + 0xFFFE * 2) ∧
    Window gsub.Ligatures.read (0xFFFF + 4 + 0xFFFE * 2) :=
  ⟨window, window, window, window, window, window, window, window, window, window, window⟩

/-- The subtables of GPOS and their parts, `n` being the number of mark classes. -/
theorem C87_gpos (cfg : Cfg) (type_ n flags1 flags2 : Nat) :
    Window gpos.Anchor.read (0xFFFF + 6 + 0x8001 * 2) ∧
    Window (gpos.Pair1s.read flags1 flags2) (2 + 0xFFFF * 34) ∧
    Window (gpos.Mark1s.read cfg) (2 + 0xFFFF * 4) ∧
    Window (gpos.Bases.read n) (max (2 + 0xFFFF * 2 * n) (2 * 0xFFFF + 6 + 0x8001 * 2)) ∧
    Window (gpos.Mark2s.read n) (max (2 + 0xFFFF * 2 * n) (2 * 0xFFFF + 6 + 0x8001 * 2)) ∧
    Window (gpos.Ligature.read n) (max (2 + 0xFFFF * 2 * n) (2 * 0xFFFF + 6 + 0x8001 * 2)) ∧
    Window (gpos.Ligatures.read n) (0xFFFF + max (2 + 0xFFFF * 2 * n) (2 * 0xFFFF + 6 + 0x8001 * 2)) ∧
    Window (gpos.SingleAdjustment.read cfg) (8 + 0xFFFF * 16) ∧
    Window (gpos.PairAdjustment.read cfg) (16 + 0xFFFF * 0xFFFF * 32) ∧
    Window gpos.CursiveAttachment.read (0xFFFF + 4 + 0xFFFF * 6) ∧
    Window (gpos.MarkToBaseAttachment.read cfg) (0xFFFF + 2 + 0xFFFF * 2 * 0xFFFF) ∧
    Window (gpos.MarkToLigatureAttachment.read cfg) (2 * 0xFFFF + 2 + 0xFFFF * 2 * 0xFFFF) ∧
    Window (gpos.MarkToMarkAttachment.read cfg) (0xFFFF + 2 + 0xFFFF * 2 * 0xFFFF) ∧
    Window gpos.ExtensionPositioning.read 8 ∧
    Window (gpos.Type_.read cfg type_) (16 + 0xFFFF * 0xFFFF * 32) :=
  ⟨window, window, window, window, window, window, window.mono (by omega), window, window, window, window, window,
    window, window, window⟩

/-- The parts of GDEF, CPAL, fvar and variation stores, `n` being the number of axes. -/
theorem C87_other (cfg : Cfg) (n : Nat) :
    Window gdef.Attachment.read (2 + 0xFFFF * 2) ∧
    Window gdef.Attachments.read (0xFFFF + 4 + 0xFFFF * 6) ∧
    Window gdef.Caret.read (0xFFFF + 6 + 0x8001 * 2) ∧
    Window gdef.Ligature.read (2 * 0xFFFF + 6 + 0x8001 * 2) ∧
    Window gdef.Ligatures.read (0xFFFF + 4 + 0xFFFF * 6) ∧
    Window gdef.Marks.read (0xFFFFFFFF + 4 + 0xFFFF * 6) ∧
    Window cpal.Color.read 4 ∧
    Window (fvar.AxisRecord.read cfg) 20 ∧
    Window (fvar.InstanceRecord.read cfg n) (6 + 4 * n) ∧
    Window (item.Record.read cfg) (6 + 0xFFFF * 2 + 0xFFFF * 0xFFFF) :=
  ⟨window, window, window, window, window, window, window, window, window, window⟩

/-! ## None of the numbers for the tables can be smaller -/

/-- The first `k` bytes of an endless tape. -/
def start (k : Nat) (f : Nat → UInt8) : Data := (List.range k).map f

section
variable {k i a n : Nat} {f : Nat → UInt8}

theorem length_start : (start k f).length = k := by simp [start]

theorem byte_start (h : i < k) : (start k f)[i]? = some (f i) := by simp [start, h]

theorem u8_start (h : i < k) (hn : (f i).toNat = n) : U8 (start k f) i n := ⟨f i, byte_start h, hn.symm⟩

theorem u16_start (h : i + 2 ≤ k) (hn : 256 * (f i).toNat + (f (i + 1)).toNat = n) : U16 (start k f) i n :=
  ⟨_, _, u8_start (by omega) rfl, u8_start (by omega) rfl, hn.symm⟩

theorem u32_start (h : i + 4 ≤ k) (hn : 65536 * (256 * (f i).toNat + (f (i + 1)).toNat) +
    (256 * (f (i + 2)).toNat + (f (i + 3)).toNat) = n) : U32 (start k f) i n :=
  ⟨_, _, u16_start (by omega) rfl, u16_start (by omega) rfl, hn.symm⟩

theorem u8_zero (hz : ∀ i, a ≤ i → f i = 0) (h : i < k) (ha : a ≤ i) : U8 (start k f) i 0 :=
  u8_start h (by rw [hz i ha]; rfl)

theorem u16_zero (hz : ∀ i, a ≤ i → f i = 0) (h : i + 2 ≤ k) (ha : a ≤ i) : U16 (start k f) i 0 :=
  u16_start h (by rw [hz i ha, hz (i + 1) (by omega)]; rfl)

theorem u32_zero (hz : ∀ i, a ≤ i → f i = 0) (h : i + 4 ≤ k) (ha : a ≤ i) : U32 (start k f) i 0 :=
  ⟨_, _, u16_zero hz (by omega) ha, u16_zero hz (by omega) (by omega), rfl⟩

theorem i16_zero (hz : ∀ i, a ≤ i → f i = 0) (h : i + 2 ≤ k) (ha : a ≤ i) : I16 (start k f) i 0 :=
  ⟨by omega, by omega, u16_zero hz h ha⟩

theorem i32_zero (hz : ∀ i, a ≤ i → f i = 0) (h : i + 4 ≤ k) (ha : a ≤ i) : I32 (start k f) i 0 :=
  ⟨by omega, by omega, u32_zero hz h ha⟩

theorem array_start {α : Type} {S : Nat → α → Prop} {stride p n : Nat} {x : α} (h : ∀ j < n, S (p + stride * j) x) :
    ArrayOf S stride p n (List.replicate n x) := by
  refine ⟨List.length_replicate, fun j y hy => ?_⟩
  rw [List.getElem?_replicate] at hy
  split at hy
  · cases hy
    exact h j ‹_›
  · cases hy

theorem needsAll {α : Type} {r : Reader α} {S : Data → α → Prop} (v : α)
    (hr : ∀ d, Fits d → (Reads r d 0 v ↔ S d v)) (hk : k < 2 ^ 63)
    (hs : S (start k f) v) (hl : ∀ d, S d v → ∃ x, d[k - 1]? = some x) : NeedsAll r k := by
  have hd : Fits (start k f) := by
    unfold Fits
    rw [length_start]
    exact hk
  obtain ⟨q, hq⟩ := (hr _ hd).mpr hs
  refine ⟨start k f, length_start, ⟨v, q, hq⟩, fun k' hk' he => ?_⟩
  have hd' : Fits ((start k f).take k') := by
    unfold Fits at hd ⊢
    rw [List.length_take]
    omega
  obtain ⟨x, hx⟩ := hl _ ((hr _ hd').mp ⟨q, he.trans hq⟩)
  rw [List.getElem?_take, if_neg (by omega)] at hx
  cases hx

theorem at_single {α : Type} {S : Nat → α → Prop} {base o : Nat} {x : α} (h : S (base + o) x) :
    AtOffsets S base [o] [x] := by
  refine ⟨rfl, fun i o' x' ho hx => ?_⟩
  cases i with
  | zero =>
    cases ho
    cases hx
    exact h
  | succ i => cases ho

theorem at_empty {α : Type} {S : Nat → α → Prop} {base : Nat} : AtOffsets S base [] [] := ⟨rfl, nofun⟩

theorem array_empty {α : Type} {S : Nat → α → Prop} {stride p : Nat} : ArrayOf S stride p 0 [] := ⟨rfl, nofun⟩

theorem array_single {α : Type} {S : Nat → α → Prop} {stride p : Nat} {x : α} (h : S p x) : ArrayOf S stride p 1 [x] :=
  ⟨rfl, fun i y hy => by
    cases i with
    | zero => cases hy; exact h
    | succ i => cases hy⟩

theorem last_u8 {d : Data} (h : U8 d i n) : ∃ x, d[i]? = some x := ⟨_, h.choose_spec.1⟩

theorem last_u16 {d : Data} (h : U16 d i n) : ∃ x, d[i + 1]? = some x := by
  obtain ⟨_, _, _, h, _⟩ := h
  exact last_u8 h

theorem last_u32 {d : Data} (h : U32 d i n) : ∃ x, d[i + 3]? = some x := by
  obtain ⟨_, _, _, h, _⟩ := h
  exact last_u16 h

theorem last_array {α : Type} {S : Nat → α → Prop} {stride p n : Nat} {x : α}
    (h : ArrayOf S stride p n (List.replicate n x)) (j : Nat) (hj : j < n) : S (p + stride * j) x :=
  h.2 j x (by rw [List.getElem?_replicate, if_pos hj])

end

/-- A coverage or a class definition with as many ranges as possible. -/
def coverageTape (i : Nat) : UInt8 := if i = 1 then 2 else if i = 2 ∨ i = 3 then 255 else 0

theorem coverageTape_zero (i : Nat) (h : 4 ≤ i) : coverageTape i = 0 := by
  unfold coverageTape
  rw [if_neg (by omega), if_neg (by omega)]

theorem needs_coverage : NeedsAll coverage.Coverage.read (4 + 0xFFFF * 6) := by
  refine needsAll (f := coverageTape) (.format2 ⟨2, 65535, List.replicate 65535 ⟨0, 0, 0⟩⟩)
    (fun _ hd => reads_parses hd) (by omega) ?_ ?_
  · refine ⟨rfl, u16_start (by omega) rfl, u16_start (by omega) rfl, array_start fun j (hj : j < 65535) => ?_⟩
    exact ⟨u16_zero coverageTape_zero (by omega) (by omega), u16_zero coverageTape_zero (by omega) (by omega),
      u16_zero coverageTape_zero (by omega) (by omega)⟩
  · intro d ⟨_, _, _, h⟩
    exact last_u16 (last_array (n := 65535) h 65534 (by omega)).2.2

theorem needs_class : NeedsAll class_.Class.read (4 + 0xFFFF * 6) := by
  refine needsAll (f := coverageTape) (.format2 ⟨2, 65535, List.replicate 65535 ⟨0, 0, 0⟩⟩)
    (fun _ hd => reads_parses hd) (by omega) ?_ ?_
  · refine ⟨rfl, u16_start (by omega) rfl, u16_start (by omega) rfl, array_start fun j (hj : j < 65535) => ?_⟩
    exact ⟨u16_zero coverageTape_zero (by omega) (by omega), u16_zero coverageTape_zero (by omega) (by omega),
      u16_zero coverageTape_zero (by omega) (by omega)⟩
  · intro d ⟨_, _, _, h⟩
    exact last_u16 (last_array (n := 65535) h 65534 (by omega)).2.2

/-- A file with as many tables as possible. -/
def fileTape (i : Nat) : UInt8 := if i = 4 ∨ i = 5 then 255 else 0

theorem fileTape_zero (i : Nat) (h : 6 ≤ i) : fileTape i = 0 := by
  unfold fileTape
  rw [if_neg (by omega)]

theorem needs_file : NeedsAll (File.read fun _ => true) (12 + 0xFFFF * 16) := by
  refine needsAll (f := fileTape) (S := fun d file => ¬U32 d 0 0x74746366 ∧
      ∃ font, file.fonts = [font] ∧ IsOffsets (fun _ => true) d 0 font.offsets)
    ⟨[⟨⟨⟨0, 65535, 0, 0, 0⟩, List.replicate 65535 ⟨0, 0, 0, 0⟩⟩⟩]⟩
    (fun d hd => C01_one_font _ d 0 hd _) (by omega) ⟨?_, _, rfl, ?_⟩ ?_
  · intro ⟨a, _, ⟨_, _, ⟨x, hx, rfl⟩, ⟨y, hy, rfl⟩, ha⟩, ⟨_, _, ⟨z, hz, rfl⟩, ⟨w, hw, rfl⟩, hb⟩, h⟩
    rw [byte_start (by omega)] at hx hy hz hw
    cases hx
    cases hy
    cases hz
    cases hw
    subst ha hb
    revert h
    decide
  · refine ⟨u32_start (by omega) rfl, rfl, u16_start (by omega) rfl, u16_start (by omega) rfl, u16_start (by omega) rfl,
      u16_start (by omega) rfl, array_start fun j (hj : j < 65535) => ?_⟩
    exact ⟨u32_zero fileTape_zero (by omega) (by omega), u32_zero fileTape_zero (by omega) (by omega),
      u32_zero fileTape_zero (by omega) (by omega), u32_zero fileTape_zero (by omega) (by omega)⟩
  · intro d ⟨_, font, hf, _, _, _, _, _, _, h⟩
    cases hf
    exact last_u32 (last_array (n := 65535) h 65534 (by omega)).2.2.2

/-- A palette table with as many colors as possible, as far away as possible. -/
def cpalTape (i : Nat) : UInt8 := if 6 ≤ i ∧ i < 12 then 255 else 0

theorem cpalTape_zero (i : Nat) (h : 12 ≤ i) : cpalTape i = 0 := by
  unfold cpalTape
  rw [if_neg (by omega)]

theorem needs_cpal : NeedsAll cpal.ColorPalettes.read (0xFFFFFFFF + 0xFFFF * 4) := by
  refine needsAll (f := cpalTape) ⟨.version0 ⟨0, 0, 0, 65535, 0xFFFFFFFF, []⟩, List.replicate 65535 ⟨0, 0, 0, 0⟩⟩
    (fun _ hd => reads_parses hd) (by omega) ⟨?_, ?_⟩ ?_
  · exact ⟨u16_start (by omega) rfl, rfl, u16_start (by omega) rfl, u16_start (by omega) rfl, u16_start (by omega) rfl,
      u32_start (by omega) rfl, array_empty⟩
  · refine array_start fun j (hj : j < 65535) => ?_
    dsimp only
    exact ⟨u8_zero cpalTape_zero (by omega) (by omega), u8_zero cpalTape_zero (by omega) (by omega),
        u8_zero cpalTape_zero (by omega) (by omega), u8_zero cpalTape_zero (by omega) (by omega)⟩
  · intro d ⟨_, h⟩
    exact last_u8 (last_array (n := 65535) h 65534 (by omega)).2.2.2

/-- Three empty lists and feature variations as far away as possible. -/
def gsubTape (i : Nat) : UInt8 :=
  if i = 1 ∨ i = 3 ∨ i = 4294967296 then 1 else if i = 5 ∨ i = 7 ∨ i = 9 then 14
  else if 10 ≤ i ∧ i < 14 then 255 else 0

theorem part_of {α : Type} {cfg : Cfg} {S : Nat → α → Prop} {base offset : Nat} {empty x : α} (ho : offset ≠ 0)
    (h : S (base + offset) x) : IsPart cfg S base offset empty x := by
  unfold IsPart
  rw [if_neg (by omega)]
  exact h

theorem needs_gsub (cfg : Cfg) : NeedsAll (gsub.GlyphSubstitution.read cfg) (0xFFFFFFFF + 8) := by
  refine needsAll (f := gsubTape)
    ⟨1, 1, 14, 14, 14, 0xFFFFFFFF, ⟨0, [], []⟩, ⟨0, [], []⟩, ⟨0, [], []⟩, some ⟨1, 0, 0⟩⟩
    (fun _ hd => reads_parses hd) (by omega) ?_ ?_
  · refine ⟨u16_start (by omega) rfl, u16_start (by omega) rfl, rfl, .inr rfl, u16_start (by omega) rfl,
      u16_start (by omega) rfl, u16_start (by omega) rfl, u32_start (by omega) rfl, part_of (Nat.succ_ne_zero 13) ?_,
      part_of (Nat.succ_ne_zero 13) ?_, part_of (Nat.succ_ne_zero 13) ?_, Nat.succ_ne_zero 4294967294, ?_⟩
    · dsimp only
      exact ⟨u16_start (by omega) rfl, array_empty, at_empty⟩
    · dsimp only
      exact ⟨u16_start (by omega) rfl, array_empty, at_empty⟩
    · dsimp only
      exact ⟨u16_start (by omega) rfl, array_empty, at_empty⟩
    · dsimp only
      exact ⟨u16_start (by omega) rfl, rfl, u16_start (by omega) rfl, rfl, u32_start (by omega) rfl⟩
  · intro d ⟨_, _, _, _, _, _, _, _, _, _, _, _, h⟩
    exact last_u32 h.2.2.2.2

/-- As many axes and instances as possible, as far apart as possible. -/
def fvarTape (i : Nat) : UInt8 := if i = 7 then 2 else if i = 4 ∨ i = 5 ∨ 8 ≤ i ∧ i < 16 then 255 else 0

theorem fvarTape_zero (i : Nat) (h : 16 ≤ i) : fvarTape i = 0 := by
  unfold fvarTape
  rw [if_neg (by omega), if_neg (by omega)]

theorem needs_fvar (cfg : Cfg) : NeedsAll (fvar.FontVariations.read cfg)
    (0xFFFF + 0xFFFF * 0xFFFF + 0xFFFE * 0xFFFF + 6 + 0xFFFF * 4) := by
  refine needsAll (f := fvarTape)
    ⟨⟨0, 0, 65535, 2, 65535, 65535, 65535, 65535⟩, List.replicate 65535 ⟨0, 0, 0, 0, 0, 0⟩,
      List.replicate 65535 ⟨0, 0, List.replicate 65535 0, 0⟩⟩
    (fun _ hd => reads_parses hd) (by omega) ⟨?_, ?_, ?_⟩ ?_
  · exact ⟨u16_start (by omega) rfl, u16_start (by omega) rfl, u16_start (by omega) rfl, u16_start (by omega) rfl, rfl,
      u16_start (by omega) rfl, u16_start (by omega) rfl, u16_start (by omega) rfl, u16_start (by omega) rfl⟩
  · refine array_start fun j (hj : j < 65535) => ?_
    dsimp only
    exact ⟨u32_zero fvarTape_zero (by omega) (by omega), i32_zero fvarTape_zero (by omega) (by omega),
      i32_zero fvarTape_zero (by omega) (by omega), i32_zero fvarTape_zero (by omega) (by omega),
      u16_zero fvarTape_zero (by omega) (by omega), fun _ => rfl, u16_zero fvarTape_zero (by omega) (by omega)⟩
  · refine array_start fun j (hj : j < 65535) => ?_
    dsimp only
    exact ⟨u16_zero fvarTape_zero (by omega) (by omega), u16_zero fvarTape_zero (by omega) (by omega), fun _ => rfl,
      array_start fun i hi => i32_zero fvarTape_zero (by omega) (by omega),
      u16_zero fvarTape_zero (by omega) (by omega)⟩
  · intro d ⟨_, _, h⟩
    exact last_u16 (last_array (n := 65535) h 65534 (by omega)).2.2.2.2

/-- A store with one record as far away as possible, with as many deltas as possible. -/
def storeTape (i : Nat) : UInt8 :=
  if i = 1 ∨ i = 7 then 1 else if 8 ≤ i ∧ i < 12 then 255
  else if 4294967295 ≤ i ∧ i < 4294967297 ∨ 4294967299 ≤ i ∧ i < 4294967301 then 255 else 0

theorem storeTape_zero (i : Nat) (h : 4294967301 ≤ i) : storeTape i = 0 := by
  unfold storeTape
  rw [if_neg (by omega), if_neg (by omega), if_neg (by omega)]

/-- What is read from it. -/
def farStore : item.Store :=
  ⟨1, 0, 1, [0xFFFFFFFF], [⟨65535, 0, 65535, List.replicate 65535 0, List.replicate (65535 * 65535) 0⟩]⟩

theorem farStore_last {cfg : Cfg} {d : Data} {p : Nat} (h : IsStore cfg d p farStore) :
    ∃ x, d[p + (0xFFFFFFFF + 6 + 0xFFFF * 2 + 0xFFFF * 0xFFFF) - 1]? = some x := by
  obtain ⟨_, _, _, _, _, h⟩ := h
  obtain ⟨_, _, _, _, n, hn, h⟩ := h.2 0 _ _ rfl rfl
  have hn : n = 65535 := hn.2
  subst hn
  have := last_u8 (last_array (n := 65535 * 65535) h (65535 * 65535 - 1) (by omega))
  have he : p + (0xFFFFFFFF + 6 + 0xFFFF * 2 + 0xFFFF * 0xFFFF) - 1 =
    p + 4294967295 + 6 + 2 * 65535 + 1 * (65535 * 65535 - 1) := by omega
  rw [he]
  exact this

theorem needs_store (cfg : Cfg) :
    NeedsAll (item.Store.read cfg) (0xFFFFFFFF + 6 + 0xFFFF * 2 + 0xFFFF * 0xFFFF) := by
  refine needsAll (f := storeTape) farStore (fun _ hd => reads_parses hd) (by omega) ?_ ?_
  · refine ⟨u16_start (by omega) rfl, rfl, u32_start (by omega) rfl, u16_start (by omega) rfl,
      array_single (u32_start (by omega) rfl), at_single ?_⟩
    refine ⟨u16_start (by omega) rfl, u16_start (by omega) rfl, u16_start (by omega) rfl,
      array_start fun j (hj : j < 65535) => u16_zero storeTape_zero (by omega) (by omega), 65535, ⟨fun _ => by decide, rfl⟩,
      array_start fun j (hj : j < 65535 * 65535) => u8_zero storeTape_zero (by dsimp only; omega) (by dsimp only; omega)⟩
  · intro d h
    have := farStore_last h
    rwa [Nat.zero_add] at this

/-- A glyph-definition table that is nothing but such a store, as far away as possible. The code looks for it where
the mark glyph sets are (C52), which are empty here. -/
def gdefTape (i : Nat) : UInt8 :=
  if i = 1 then 1 else if i = 3 then 3 else if 12 ≤ i ∧ i < 14 then 255
  else if i < 65535 then 0 else storeTape (i - 65535)

theorem gdefTape_zero (i : Nat) (h : 65535 + 4294967301 ≤ i) : gdefTape i = 0 := by
  unfold gdefTape
  rw [if_neg (by omega), if_neg (by omega), if_neg (by omega), if_neg (by omega)]
  exact storeTape_zero _ (by omega)

theorem needs_gdef (cfg : Cfg) : NeedsAll (gdef.GlyphDefinition.read cfg)
    (0xFFFF + 0xFFFFFFFF + 6 + 0xFFFF * 2 + 0xFFFF * 0xFFFF) := by
  refine needsAll (f := gdefTape)
    ⟨.version13 ⟨1, 3, 0, 0, 0, 0, 65535, 0⟩, none, none, none, none, some ⟨1, 0, [], []⟩, some farStore⟩
    (fun _ hd => reads_parses hd) (by omega) ⟨⟨?_, rfl, rfl, rfl, rfl, Nat.succ_ne_zero 65534, ?_⟩, Nat.succ_ne_zero 65534, ?_⟩ ?_
  · exact ⟨u16_start (by omega) rfl, rfl, u16_start (by omega) rfl, rfl, u16_start (by omega) rfl, u16_start (by omega) rfl,
      u16_start (by omega) rfl, u16_start (by omega) rfl, u16_start (by omega) rfl, u32_start (by omega) rfl⟩
  · dsimp only [gdef.offsets]
    exact ⟨u16_start (by omega) rfl, rfl, u16_start (by omega) rfl, array_empty, at_empty⟩
  · dsimp only [gdef.storeOffsetTaken]
    refine ⟨u16_start (by omega) rfl, rfl, u32_start (by omega) rfl, u16_start (by omega) rfl,
      array_single (u32_start (by omega) rfl), at_single ?_⟩
    refine ⟨u16_start (by omega) rfl, u16_start (by omega) rfl, u16_start (by omega) rfl,
      array_start fun j (hj : j < 65535) => u16_zero gdefTape_zero (by omega) (by omega), 65535,
      ⟨fun _ => by decide, rfl⟩,
      array_start fun j (hj : j < 65535 * 65535) => u8_zero gdefTape_zero (by dsimp only; omega) (by dsimp only; omega)⟩
  · intro d ⟨_, _, h⟩
    exact farStore_last h

/-- Lists with one lookup and one subtable, each as far away as possible, and in it as many pairs of classes with as
many values as possible. -/
def gposTape (i : Nat) : UInt8 :=
  if i = 1 then 1 else if i = 5 ∨ i = 7 then 10 else if i = 8 ∨ i = 9 then 255
  else if i = 65536 then 1 else if i = 65537 ∨ i = 65538 then 255
  else if i = 131071 then 2 else if i = 131075 then 1 else if i = 131076 ∨ i = 131077 then 255
  else if i = 196606 then 2 else if i = 196610 ∨ i = 196612 ∨ 196617 ≤ i ∧ i < 196621 then 255 else 0

theorem gposTape_zero (i : Nat) (h : 196621 ≤ i) : gposTape i = 0 := by
  unfold gposTape
  rw [if_neg (by omega), if_neg (by omega), if_neg (by omega), if_neg (by omega), if_neg (by omega), if_neg (by omega),
    if_neg (by omega), if_neg (by omega), if_neg (by omega), if_neg (by omega)]

/-- A value of which everything is there and zero. -/
def zeroValue : gpos.Single :=
  ⟨some 0, some 0, some 0, some 0, some 0, some 0, some 0, some 0, none, none, none, none⟩

theorem is_zeroValue {k p base : Nat} (h : p + 16 ≤ k) (hp : 196621 ≤ p) :
    gpos.IsSingle base 255 (start k gposTape) p zeroValue := by
  refine ⟨⟨rfl, ?_⟩, ⟨rfl, ?_⟩, ⟨rfl, ?_⟩, ⟨rfl, ?_⟩, ⟨rfl, ?_⟩, ⟨rfl, ?_⟩, ⟨rfl, ?_⟩, ⟨rfl, ?_⟩, rfl, rfl, rfl, rfl⟩
  · exact i16_zero (i := p + 0) gposTape_zero (by omega) (by omega)
  · exact i16_zero (i := p + 2) gposTape_zero (by omega) (by omega)
  · exact i16_zero (i := p + 4) gposTape_zero (by omega) (by omega)
  · exact i16_zero (i := p + 6) gposTape_zero (by omega) (by omega)
  · exact u16_zero (i := p + 8) gposTape_zero (by omega) (by omega)
  · exact u16_zero (i := p + 10) gposTape_zero (by omega) (by omega)
  · exact u16_zero (i := p + 12) gposTape_zero (by omega) (by omega)
  · exact u16_zero (i := p + 14) gposTape_zero (by omega) (by omega)

theorem needs_gpos (cfg : Cfg) :
    NeedsAll (gpos.GlyphPositioning.read cfg) (3 * 0xFFFF + 16 + 0xFFFF * 0xFFFF * 32) := by
  refine needsAll (f := gposTape)
    ⟨1, 0, 10, 10, 65535, 0, ⟨0, [], []⟩, ⟨0, [], []⟩,
      ⟨1, [65535], [⟨2, 0, 1, [65535], none,
        [.pairAdjustment (.format2 ⟨2, 0, 255, 255, 0, 0, 65535, 65535,
          List.replicate 65535 ⟨List.replicate 65535 ⟨some zeroValue, some zeroValue⟩⟩,
          .format2 ⟨2, 0, []⟩, .format2 ⟨2, 0, []⟩, .format2 ⟨2, 0, []⟩⟩)]⟩]⟩, none⟩
    (fun _ hd => reads_parses hd) (by omega) ?_ ?_
  · refine ⟨u16_start (by omega) rfl, u16_start (by omega) rfl, rfl, .inl rfl, u16_start (by omega) rfl,
      u16_start (by omega) rfl, u16_start (by omega) rfl, rfl, part_of (Nat.succ_ne_zero 9) ?_,
      part_of (Nat.succ_ne_zero 9) ?_, part_of (Nat.succ_ne_zero 65534) ?_, rfl⟩
    · dsimp only
      exact ⟨u16_start (by omega) rfl, array_empty, at_empty⟩
    · dsimp only
      exact ⟨u16_start (by omega) rfl, array_empty, at_empty⟩
    · dsimp only
      refine ⟨u16_start (by omega) rfl, array_single (u16_start (by omega) rfl), at_single ?_⟩
      refine ⟨u16_start (by omega) rfl, u16_start (by omega) rfl, fun _ => rfl, u16_start (by omega) rfl,
        array_single (u16_start (by omega) rfl), rfl, at_single ⟨rfl, rfl, ?_⟩⟩
      refine ⟨u16_start (by omega) rfl, u16_start (by omega) rfl, u16_start (by omega) rfl, fun _ => rfl,
        u16_start (by omega) rfl, fun _ => rfl, u16_start (by omega) rfl, u16_start (by omega) rfl, u16_start (by omega) rfl,
        u16_start (by omega) rfl, array_start fun j (hj : j < 65535) => array_start fun i (hi : i < 65535) => ?_, ?_, ?_, ?_⟩
      · change gpos.IsPair2 _ 255 255 _ (0 + 65535 + 65535 + 65535 + 16 + (32 * 65535) * j + 32 * i) _
        exact ⟨⟨Nat.succ_ne_zero 254, is_zeroValue (by omega) (by omega)⟩, Nat.succ_ne_zero 254,
          is_zeroValue (p := 0 + 65535 + 65535 + 65535 + 16 + (32 * 65535) * j + 32 * i + 16) (by omega) (by omega)⟩
      · exact ⟨rfl, u16_start (by dsimp only; omega) rfl, u16_start (by dsimp only; omega) rfl, array_empty⟩
      · exact ⟨rfl, u16_start (by dsimp only; omega) rfl, u16_start (by dsimp only; omega) rfl, array_empty⟩
      · exact ⟨rfl, u16_start (by dsimp only; omega) rfl, u16_start (by dsimp only; omega) rfl, array_empty⟩
  · intro d ⟨_, _, _, _, _, _, _, _, _, _, h, _⟩
    unfold IsPart at h
    rw [if_neg (fun h => Nat.succ_ne_zero 65534 h.2)] at h
    obtain ⟨_, _, _, _, _, _, h⟩ := h.2.2.2 0 _ _ rfl rfl
    obtain ⟨_, _, _, _, _, _, _, _, _, _, _, _, h, _⟩ := h.2 0 _ _ rfl rfl
    obtain ⟨_, _, h⟩ := last_array (n := 65535) (last_array (n := 65535) h 65534 (by omega)) 65534 (by omega)
    obtain ⟨_, _, _, _, _, _, _, ⟨_, h⟩, _⟩ := h
    exact last_u16 h

/-- The numbers of C87_window are the least, and so are those for coverages and class definitions: there are tables of
just so many bytes that cannot do without the last. -/
theorem C87_least (cfg : Cfg) :
    NeedsAll (gsub.GlyphSubstitution.read cfg) (0xFFFFFFFF + 8) ∧
    NeedsAll (gpos.GlyphPositioning.read cfg) (3 * 0xFFFF + 16 + 0xFFFF * 0xFFFF * 32) ∧
    NeedsAll (gdef.GlyphDefinition.read cfg) (0xFFFF + 0xFFFFFFFF + 6 + 0xFFFF * 2 + 0xFFFF * 0xFFFF) ∧
    NeedsAll cpal.ColorPalettes.read (0xFFFFFFFF + 0xFFFF * 4) ∧
    NeedsAll (fvar.FontVariations.read cfg) (0xFFFF + 0xFFFF * 0xFFFF + 0xFFFE * 0xFFFF + 6 + 0xFFFF * 4) ∧
    NeedsAll (item.Store.read cfg) (0xFFFFFFFF + 6 + 0xFFFF * 2 + 0xFFFF * 0xFFFF) ∧
    NeedsAll (File.read fun _ => true) (12 + 0xFFFF * 16) ∧
    NeedsAll coverage.Coverage.read (4 + 0xFFFF * 6) ∧
    NeedsAll class_.Class.read (4 + 0xFFFF * 6) :=
  ⟨needs_gsub cfg, needs_gpos cfg, needs_gdef cfg, needs_cpal, needs_fvar cfg, needs_store cfg, needs_file,
    needs_coverage, needs_class⟩

end OpenType.Props
