import Verif.Props.Faithful
import Verif.Proof.Fvar
import Verif.Proof.Item
import Verif.Proof.Mono
/-! # C36, C37, C38, C51: font variations and item variations -/

namespace OpenType.Props
open OpenType Spec

/-! ## C36 -/

/-- Font variations are read exactly as they are stored, at the strides the header declares. -/
theorem C36_variations (cfg : Cfg) : Faithful (fvar.FontVariations.read cfg) (IsFontVariations cfg) := faithful

/-- Spelled out for one axis and one instance. -/
theorem C36_strides (cfg : Cfg) {d : Data} {p offset axes axisSize instances instanceSize : Nat} (hd : Fits d)
    {t : fvar.FontVariations} (h : Reads (fvar.FontVariations.read cfg) d p t) (ho : U16 d (p + 4) offset)
    (ha : U16 d (p + 8) axes) (ha' : U16 d (p + 10) axisSize) (hi : U16 d (p + 12) instances)
    (hi' : U16 d (p + 14) instanceSize) :
    U16 d (p + 6) 2 ∧ t.axis_records.length = axes ∧ t.instance_records.length = instances ∧
    (∀ i x, t.axis_records[i]? = some x → Reads (fvar.AxisRecord.read cfg) d (p + offset + i * axisSize) x) ∧
    ∀ j x, t.instance_records[j]? = some x → x.coordinates.length = axes ∧
      Reads (fvar.InstanceRecord.read cfg axes) d
        (p + offset + axes * axisSize + j * instanceSize) x := by
  obtain ⟨⟨_, _, h1, h2, h3, h4, h5, h6, h7⟩, h8, h9⟩ := (reads_parses hd).mp h
  rw [h1.unique ho, h4.unique ha, h5.unique ha'] at h8 h9
  rw [h6.unique hi, h7.unique hi'] at h9
  refine ⟨h3 ▸ h2, h8.1, h9.1, fun i x hx => ?_, fun j x hx => ?_⟩
  · rw [reads_fixed hd, Nat.mul_comm]
    exact h8.2 i x hx
  · rw [reads_fixed hd, Nat.mul_comm j]
    exact ⟨(h9.2 j x hx).2.2.2.1.1, h9.2 j x hx⟩

/-- A reserved word other than 2 is refused. -/
theorem C36_reserved (cfg : Cfg) {d : Data} {p n : Nat} (hd : Fits d) (h : U16 d (p + 6) n) (hn : n ≠ 2) :
    Fails (fvar.FontVariations.read cfg d p) := by
  refine (C36_variations cfg).fails hd ?_
  rintro t ⟨⟨_, _, _, h2, h3, _⟩, _⟩
  exact hn (h.unique (h3 ▸ h2))

/-- Two axes 22 bytes apart after a gap of one byte, two instances 16 bytes apart. -/
def sampleFvar : Data := bytes <|
  [0, 1, 0, 0,  0, 17,  0, 2,  0, 2,  0, 22,  0, 2,  0, 16] ++ [99] ++
  [119, 103, 104, 116,  0, 1, 0, 0,  0, 2, 0, 0,  0, 3, 0, 0,  0, 1,  1, 0,  9, 9] ++
  [119, 100, 116, 104,  255, 255, 0, 0,  0, 0, 0, 0,  0, 1, 0, 0,  0, 0,  1, 1,  9, 9] ++
  [1, 2,  0, 0,  0, 1, 0, 0,  255, 255, 0, 0,  1, 4,  9, 9] ++
  [1, 3,  0, 0,  0, 3, 0, 0,  0, 1, 0, 0,  1, 5]

example : Reads (fvar.FontVariations.read ⟨false, false, false, false, true, true⟩) sampleFvar 0
    ⟨⟨1, 0, 17, 2, 2, 22, 2, 16⟩,
      [⟨0x77676874, 0x10000, 0x20000, 0x30000, 1, 256⟩, ⟨0x77647468, -0x10000, 0, 0x10000, 0, 257⟩],
      [⟨258, 0, [0x10000, -0x10000], 260⟩, ⟨259, 0, [0x30000, 0x10000], 261⟩]⟩ := by decide +kernel

/-! ## C37 -/

/-- A table without PostScript names, up to its last byte: the instances are `4 + 4 * axis_count` bytes apart and
the tape ends where the last one does. -/
def IsShortFvar (cfg : Cfg) (d : Data) (p : Nat) (h : fvar.Header) : Prop :=
  IsFvarHeader d p h ∧ h.instance_size = 4 + 4 * h.axis_count ∧
    (∃ axes, ArrayOf (IsAxis cfg d) h.axis_size (p + h.axis_offset) h.axis_count axes) ∧
    (∀ j < h.instance_count, ∃ name flags coordinates, IsShortInstance cfg h.axis_count d
      (p + h.axis_offset + h.axis_count * h.axis_size + j * h.instance_size) name flags coordinates) ∧
    d.length = p + h.axis_offset + h.axis_count * h.axis_size + h.instance_count * h.instance_size

/-- The property: such a table is accepted. -/
def ShortAccepted (cfg : Cfg) : Prop :=
  ∀ d p h, Fits d → IsShortFvar cfg d p h → ∃ t, Reads (fvar.FontVariations.read cfg) d p t

theorem header_unique {d : Data} {p : Nat} (hd : Fits d) {h h' : fvar.Header} (a : IsFvarHeader d p h)
    (b : IsFvarHeader d p h') : h = h' := by
  have ha := (Fixed.run (r := fvar.Header.read) hd).mpr ⟨a, rfl⟩
  have hb := (Fixed.run (r := fvar.Header.read) hd).mpr ⟨b, rfl⟩
  rw [ha] at hb
  exact (Prod.mk.inj (Except.ok.inj hb)).1

/-- Unless it has no instances, no such table is accepted. -/
theorem C37_rejected (cfg : Cfg) {d : Data} {p : Nat} {h : fvar.Header} (hd : Fits d) (hs : IsShortFvar cfg d p h)
    (hn : h.instance_count ≠ 0) : Fails (fvar.FontVariations.read cfg d p) := by
  refine (C36_variations cfg).fails hd ?_
  rintro t ⟨h1, _, h2⟩
  cases header_unique hd hs.1 h1
  obtain ⟨_, hz, _, _, hl⟩ := hs
  have e := List.getElem?_eq_getElem (l := t.instance_records) (i := t.header.instance_count - 1)
    (by have := h2.1; omega)
  have := (h2.2 _ _ e).2.2.2.2.bound'
  have e' : t.header.instance_count * t.header.instance_size =
      t.header.instance_size * (t.header.instance_count - 1) + t.header.instance_size := by
    rw [Nat.mul_comm, ← Nat.mul_succ]
    congr 1
    omega
  omega

/-- Without instances it is accepted, and so is one followed by two more bytes, whatever they are. What is
returned has the stored names, flags and coordinates. The claimed PostScript names are other data. -/
theorem C37_followed_partial (cfg : Cfg) {d : Data} {p : Nat} {h : fvar.Header}
    (hs : IsShortFvar cfg d p h) (a b : UInt8) (hd' : Fits (d ++ [a, b])) :
    ∃ t, Reads (fvar.FontVariations.read cfg) (d ++ [a, b]) p t ∧ t.header = h ∧
      ∀ j x, t.instance_records[j]? = some x → IsShortInstance cfg h.axis_count d
        (p + h.axis_offset + h.axis_count * h.axis_size + j * h.instance_size)
        x.subfamily_name_id x.flags x.coordinates := by
  obtain ⟨h1, h2, ⟨axes, h3⟩, h4, h5⟩ := hs
  have hx := ext_append d [a, b]
  have zero : ∀ q, 0 + q = q := Nat.zero_add
  have h1' : IsFvarHeader (d ++ [a, b]) p h := by
    obtain ⟨a1, a2, a3, a4, a5, a6, a7, a8, a9⟩ := h1
    have b1 := a1.ext hx
    have b2 := a2.ext hx
    have b3 := a3.ext hx
    have b4 := a4.ext hx
    have b6 := a6.ext hx
    have b7 := a7.ext hx
    have b8 := a8.ext hx
    have b9 := a9.ext hx
    rw [zero] at b1 b2 b3 b4 b6 b7 b8 b9
    exact ⟨b1, b2, b3, b4, a5, b6, b7, b8, b9⟩
  have h3' : ArrayOf (IsAxis cfg (d ++ [a, b])) h.axis_size (p + h.axis_offset) h.axis_count axes := by
    refine h3.imp fun i x _ hi => ?_
    obtain ⟨a1, a2, a3, a4, a5, a6, a7⟩ := hi
    have b1 := a1.ext hx
    have b2 := a2.ext hx
    have b3 := a3.ext hx
    have b4 := a4.ext hx
    have b5 := a5.ext hx
    have b7 := a7.ext hx
    rw [zero] at b1 b2 b3 b4 b5 b7
    exact ⟨b1, b2, b3, b4, b5, a6, b7⟩
  obtain ⟨xs, hl, hxs⟩ := exists_list (n := h.instance_count)
    (P := fun j x => IsShortInstance cfg h.axis_count d
        (p + h.axis_offset + h.axis_count * h.axis_size + j * h.instance_size)
        x.subfamily_name_id x.flags x.coordinates ∧
      IsInstance cfg h.axis_count (d ++ [a, b])
        (p + h.axis_offset + h.axis_count * h.axis_size + h.instance_size * j) x) <| by
    intro j hj
    obtain ⟨name, flags, coordinates, hi⟩ := h4 j hj
    have e : j * h.instance_size + h.instance_size ≤ h.instance_count * h.instance_size := by
      rw [← Nat.succ_mul]
      exact Nat.mul_le_mul_right _ hj
    obtain ⟨n, hn⟩ := U16.exists (d := d ++ [a, b])
      (p := p + h.axis_offset + h.axis_count * h.axis_size + j * h.instance_size + 4 + 4 * h.axis_count) (by
        rw [List.length_append, h5]
        simp only [List.length_cons, List.length_nil]
        omega)
    refine ⟨⟨name, flags, coordinates, n⟩, hi, ?_⟩
    obtain ⟨a1, a2, a3, a4⟩ := hi
    have b1 := a1.ext hx
    have b2 := a2.ext hx
    have b4 := a4.ext (S := I32) (D := d ++ [a, b]) (k := 0) fun q x hq => hq.ext hx
    rw [zero] at b1 b2 b4
    rw [Nat.mul_comm j] at b1 b2 b4 hn
    exact ⟨b1, b2, a3, b4, hn⟩
  exact ⟨⟨h, axes, xs⟩, (reads_parses hd').mpr ⟨h1', h3', hl, fun j x hj => (hxs j x hj).2⟩, rfl,
    fun j x hj => (hxs j x hj).1⟩

/-- One axis and one instance without a PostScript name. -/
def shortFvar : Data := bytes <|
  [0, 1, 0, 0,  0, 16,  0, 2,  0, 1,  0, 20,  0, 1,  0, 8] ++
  [119, 103, 104, 116,  0, 1, 0, 0,  0, 2, 0, 0,  0, 3, 0, 0,  0, 1,  1, 0] ++
  [1, 2,  0, 0,  0, 1, 0, 0]

theorem shortFvar_ok (cfg : Cfg) : IsShortFvar cfg shortFvar 0 ⟨1, 0, 16, 2, 1, 20, 1, 8⟩ := by
  have h1 : Reads fvar.Header.read shortFvar 0 ⟨1, 0, 16, 2, 1, 20, 1, 8⟩ := by decide +kernel
  have h2 : Reads (fvar.AxisRecord.read cfg) shortFvar 16 ⟨0x77676874, 0x10000, 0x20000, 0x30000, 1, 256⟩ := by
    obtain ⟨a, b, c, d, e, f⟩ := cfg
    cases a <;> cases b <;> cases c <;> cases d <;> cases e <;> cases f <;> decide +kernel
  refine ⟨(reads_fixed (by decide +kernel)).mp h1, rfl,
    ⟨[⟨0x77676874, 0x10000, 0x20000, 0x30000, 1, 256⟩], rfl, ?_⟩, ?_, by decide +kernel⟩
  · intro i x hi
    match i, hi with
    | 0, hi => cases hi; exact (reads_fixed (by decide +kernel)).mp h2
  · intro j hj
    have : j = 0 := by have : j < 1 := hj; omega
    subst this
    refine ⟨258, 0, [0x10000], by decide +kernel, by decide +kernel, fun _ => rfl, rfl, ?_⟩
    intro i x hi
    match i, hi with
    | 0, hi => cases hi; exact ⟨by decide, by decide, by decide +kernel⟩

theorem C37_violated (cfg : Cfg) : ¬ShortAccepted cfg := by
  intro h
  obtain ⟨t, q, hq⟩ := h _ _ _ (by decide +kernel) (shortFvar_ok cfg)
  rcases C37_rejected cfg (by decide +kernel) (shortFvar_ok cfg) (by decide) with hr | ⟨m, hr⟩
  · rw [hq] at hr; cases hr
  · rw [hq] at hr; cases hr

/-! ## C38 -/

/-- The property: a store is what the plain specification says, whatever the counts. -/
def StoresPlain (cfg : Cfg) : Prop :=
  ∀ d p t, Fits d → (Reads (item.Store.read cfg) d p t ↔ IsStorePlain d p t)

/-- The sum of the two counts of every record stored at the offsets fits 16 bits. -/
def SumsFit (d : Data) (p : Nat) (offsets : List Nat) : Prop :=
  ∀ (i o short region : Nat), offsets[i]? = some o → U16 d (p + o + 2) short → U16 d (p + o + 4) region →
    short + region < 65536

/-- The property holds of every store in which the sum of the two counts of each record fits 16 bits. -/
theorem C38_store_partial (cfg : Cfg) {d : Data} {p : Nat} (hd : Fits d) (t : item.Store)
    (hs : SumsFit d p t.offsets) : Reads (item.Store.read cfg) d p t ↔ IsStorePlain d p t := by
  rw [reads_parses hd]
  unfold IsStore IsStorePlain
  refine and_congr_right fun _ => and_congr_right fun _ => and_congr_right fun _ =>
    and_congr_right fun _ => and_congr_right fun _ => and_congr_right fun _ => ?_
  refine forall_congr' fun i => forall_congr' fun o => forall_congr' fun x => forall_congr' fun ho =>
    forall_congr' fun _ => ?_
  unfold IsItemRecord IsItemRecordPlain deltasPerItem
  refine and_congr_right fun _ => and_congr_right fun h1 => and_congr_right fun h2 =>
    and_congr_right fun _ => ?_
  have := hs i o _ _ ho h1 h2
  rw [Nat.mod_eq_of_lt this]
  constructor
  · rintro ⟨n, ⟨_, rfl⟩, h⟩; exact h
  · intro h; exact ⟨_, ⟨fun _ => this, rfl⟩, h⟩

/-- With overflow checks nothing else is accepted: whatever is returned is right. -/
theorem C38_store_checked_partial (cfg : Cfg) (hc : cfg.overflowChecks = true) {d : Data} {p : Nat} (hd : Fits d)
    {t : item.Store} (h : Reads (item.Store.read cfg) d p t) : IsStorePlain d p t := by
  refine (C38_store_partial cfg hd t ?_).mp h
  obtain ⟨_, _, _, _, _, h1, h2⟩ := (reads_parses hd).mp h
  intro i o short region ho hs hr
  have hi := (List.getElem?_eq_some_iff.mp ho).1
  obtain ⟨_, h3, h4, _, n, h5, _⟩ := h2 i o _ ho (List.getElem?_eq_getElem (by omega))
  have := h5.1 hc
  rw [h3.unique hs, h4.unique hr] at this
  exact this

/-- A format other than 1 is an error. -/
theorem C38_other_format (cfg : Cfg) {d : Data} {p n : Nat} (hd : Fits d) (h : U16 d p n) (hn : n ≠ 1)
    (t : item.Store) : ¬Reads (item.Store.read cfg) d p t := by
  intro ht
  obtain ⟨h1, h2, _⟩ := (reads_parses hd).mp ht
  exact hn (h.unique (h2 ▸ h1))

/-- A store with one record: one item, 65535 short deltas and one region. Then nothing, although there should be
65536 bytes. -/
def oddStore : Data := bytes <| [0, 1,  0, 0, 0, 0,  0, 1,  0, 0, 0, 12] ++ [0, 1,  255, 255,  0, 1,  0, 0]

/-- In a build without overflow checks the store is accepted with no deltas at all. -/
theorem C38_wraps (cfg : Cfg) (hc : cfg.overflowChecks = false) :
    Reads (item.Store.read cfg) oddStore 0 ⟨1, 0, 1, [12], [⟨1, 65535, 1, [0], []⟩]⟩ := by
  obtain ⟨a, b, c, d, e, f⟩ := cfg
  cases hc
  cases a <;> cases b <;> cases c <;> cases d <;> cases f <;> decide +kernel

theorem C38_violated (cfg : Cfg) (hc : cfg.overflowChecks = false) : ¬StoresPlain cfg := by
  intro h
  obtain ⟨_, _, _, _, _, _, h1⟩ := (h _ _ _ (by decide +kernel)).mp (C38_wraps cfg hc)
  obtain ⟨_, _, _, _, h2, _⟩ := h1 0 12 _ rfl rfl
  exact absurd h2 (by decide)

/-- A store with two records that share their data, two items with one short delta and two regions each. -/
def sampleStore : Data := bytes <|
  [0, 1,  0, 0, 0, 99,  0, 2,  0, 0, 0, 16,  0, 0, 0, 16] ++ [0, 2,  0, 1,  0, 2,  0, 5,  0, 6] ++
  [1, 2, 3,  4, 5, 6]

example : Reads (item.Store.read ⟨false, false, false, false, true, true⟩) sampleStore 0
      ⟨1, 99, 2, [16, 16], [⟨2, 1, 2, [5, 6], [1, 2, 3, 4, 5, 6]⟩, ⟨2, 1, 2, [5, 6], [1, 2, 3, 4, 5, 6]⟩]⟩ := by
  decide +kernel

example : SumsFit sampleStore 0 [16, 16] := by
  intro i o short region ho hs hr
  have : o = 16 := by
    match i, ho with
    | 0, ho => cases ho; rfl
    | 1, ho => cases ho; rfl
  subst this
  rw [hs.unique (show U16 sampleStore 18 1 by decide +kernel),
    hr.unique (show U16 sampleStore 20 2 by decide +kernel)]
  decide

/-! ## C51 -/

/-- The property: the delta bytes of a record are as many as the OpenType specification says, with no more 16-bit
or 32-bit deltas than regions. -/
def DeltaSetsSized (cfg : Cfg) : Prop :=
  ∀ d p t, Fits d → Reads (item.Record.read cfg) d p t → t.short_delta_count % 0x8000 ≤ t.region_count →
    t.deltas.length = t.item_count * deltaSetSize t.short_delta_count t.region_count

/-- It holds of the records without 32-bit deltas whose sum of the two counts fits 16 bits. -/
theorem C51_sized_partial (cfg : Cfg) {d : Data} {p : Nat} (hd : Fits d) {t : item.Record}
    (h : Reads (item.Record.read cfg) d p t) (hs : t.short_delta_count < 0x8000)
    (hr : t.short_delta_count ≤ t.region_count) (hf : t.short_delta_count + t.region_count < 65536) :
    t.deltas.length = t.item_count * deltaSetSize t.short_delta_count t.region_count := by
  obtain ⟨_, _, _, _, n, hn, h1⟩ := (reads_parses hd).mp h
  rw [h1.1, hn.2, Nat.mod_eq_of_lt hf]
  unfold deltaSetSize
  rw [Nat.mod_eq_of_lt hs, if_pos hs]
  congr 1
  omega

/-- It holds of no record with items and 32-bit deltas, unless the sum of the counts is very large. -/
theorem C51_long_words (cfg : Cfg) {d : Data} {p words : Nat} (hd : Fits d) {t : item.Record}
    (h : Reads (item.Record.read cfg) d p t) (hs : t.short_delta_count = 0x8000 + words)
    (hr : words ≤ t.region_count)
    (hw : words + t.region_count < 0x8000) (hi : t.item_count ≠ 0) :
    t.deltas.length ≠ t.item_count * deltaSetSize t.short_delta_count t.region_count := by
  obtain ⟨_, _, _, _, n, hn, h1⟩ := (reads_parses hd).mp h
  rw [h1.1, hn.2, hs]
  unfold deltaSetSize
  intro e
  have := Nat.eq_of_mul_eq_mul_left (Nat.pos_of_ne_zero hi) e
  rw [if_neg (by omega)] at this
  omega

/-- One item, one delta of 32 bits, one region, and a lot of zeros. -/
def longStore : Data := bytes [0, 1,  0x80, 1,  0, 1,  0, 0] ++ List.replicate 32770 0

/-- The one delta set of four bytes is taken to have 32770. -/
theorem C51_misread (cfg : Cfg) :
    Reads (item.Record.read cfg) longStore 0 ⟨1, 0x8001, 1, [0], List.replicate 32770 0⟩ ∧
      deltaSetSize 0x8001 1 = 4 := by
  have hl : longStore.length = 8 + 32770 := by
    unfold longStore
    rw [List.length_append, List.length_replicate]
    rfl
  have hp : ∀ {q n : Nat}, U16 (bytes [0, 1,  0x80, 1,  0, 1,  0, 0]) q n → U16 longStore q n := by
    intro q n h
    have := h.ext (ext_append _ (List.replicate 32770 0))
    rwa [Nat.zero_add] at this
  refine ⟨(reads_parses (by unfold Fits; rw [hl]; decide)).mpr ?_, rfl⟩
  refine ⟨hp (by decide +kernel), hp (by decide +kernel), hp (by decide +kernel), ⟨rfl, ?_⟩, 32770,
    ⟨fun _ => by decide, by decide⟩, by rw [List.length_replicate]; rfl, ?_⟩
  · intro i x hi
    match i, hi with
    | 0, hi => cases hi; exact hp (by decide +kernel)
  · intro i x hi
    obtain ⟨hlt, e⟩ := List.getElem?_eq_some_iff.mp hi
    rw [List.getElem_replicate] at e
    subst e
    rw [List.length_replicate] at hlt
    refine ⟨0, ?_, rfl⟩
    unfold longStore
    have : (bytes [0, 1,  0x80, 1,  0, 1,  0, 0]).length = 8 := rfl
    dsimp only
    rw [List.getElem?_append_right (by rw [this]; omega), List.getElem?_replicate, if_pos (by rw [this]; omega)]

theorem C51_violated (cfg : Cfg) : ¬DeltaSetsSized cfg := by
  intro h
  have hl : longStore.length = 8 + 32770 := by
    unfold longStore
    rw [List.length_append, List.length_replicate]
    rfl
  have := h _ _ _ (by unfold Fits; rw [hl]; decide) (C51_misread cfg).1 (by decide)
  dsimp only at this
  rw [List.length_replicate, (C51_misread cfg).2] at this
  omega

/-- A record within the hypotheses of the partial theorem. -/
example : Reads (item.Record.read ⟨false, false, false, false, true, true⟩) sampleStore 16
    ⟨2, 1, 2, [5, 6], [1, 2, 3, 4, 5, 6]⟩ ∧ deltaSetSize 1 2 = 3 := by decide +kernel

end OpenType.Props
