import Verif.Props.FontFile
/-! # C89: damage to a few bytes of a table -/

namespace OpenType.Props
open OpenType Spec offsets

/-- Byte `i` of the table counts towards its checksum: it is one of its `⌈size / 4⌉` words, and not of the adjustment
in `head`, the third. -/
def Counts (record : offsets.Record) (i : Nat) : Prop :=
  i < 4 * ((record.size + 3) / 4) ∧ ¬(record.tag = 0x68656164 ∧ i / 4 = 2)

instance {record : offsets.Record} {i : Nat} : Decidable (Counts record i) := by unfold Counts; infer_instance

/-- The byte at `q`, as a number. -/
def byteAt (d : Data) (q : Nat) : Nat := ((d[q]?).map UInt8.toNat).getD 0

theorem byteAt_lt (d : Data) (q : Nat) : byteAt d q < 256 := by
  unfold byteAt
  cases d[q]? with
  | none => decide
  | some a => exact a.toNat_lt

theorem byteAt_u8 {d : Data} {q n : Nat} (h : U8 d q n) : n = byteAt d q := by
  obtain ⟨a, ha, rfl⟩ := h
  unfold byteAt
  rw [ha]
  rfl

theorem byteAt_inj {d d' : Data} {q n n' : Nat} (h : U8 d q n) (h' : U8 d' q n') (e : byteAt d' q = byteAt d q) :
    d'[q]? = d[q]? := by
  obtain ⟨a, ha, rfl⟩ := h
  obtain ⟨a', ha', rfl⟩ := h'
  unfold byteAt at e
  rw [ha, ha'] at e ⊢
  exact congrArg some (UInt8.toNat_inj.mp e)

/-- The sum of byte `c` of each word but the skipped ones. -/
def column (d : Data) (skip : Nat → Bool) (c : Nat) : Nat → Nat → Nat → Nat
  | _, _, 0 => 0
  | p, i, n + 1 => (if skip i then 0 else byteAt d (p + c)) + column d skip c (p + 4) (i + 1) n

theorem sumBut_columns {d : Data} {skip : Nat → Bool} {n p i : Nat} {ws : List Nat} (h : U32s d p n ws) :
    sumBut skip i ws =
      16777216 * column d skip 0 p i n + 65536 * column d skip 1 p i n + 256 * column d skip 2 p i n +
        column d skip 3 p i n := by
  induction n generalizing p i ws with
  | zero =>
    obtain rfl := List.length_eq_zero_iff.mp h.1
    rfl
  | succ n ih =>
    obtain ⟨w, ws', rfl, hw, h'⟩ := arrayOf_succ.mp h
    have ih := ih (i := i + 1) h'
    obtain ⟨a, b, ⟨a1, a2, u1, u2, rfl⟩, ⟨b1, b2, u3, u4, rfl⟩, rfl⟩ := hw
    have e1 := byteAt_u8 u1
    have e2 := byteAt_u8 u2
    have e3 := byteAt_u8 u3
    have e4 := byteAt_u8 u4
    simp only [sumBut, column, Nat.add_zero]
    rw [ih, e1, e2, e3, e4, show p + 2 + 1 = p + 3 from rfl]
    split <;> omega

theorem column_same {d d' : Data} {skip : Nat → Bool} {c p i n : Nat}
    (h : ∀ j < n, skip (i + j) = false → byteAt d' (p + 4 * j + c) = byteAt d (p + 4 * j + c)) :
    column d' skip c p i n = column d skip c p i n := by
  induction n generalizing p i with
  | zero => rfl
  | succ n ih =>
    unfold column
    rw [ih fun j hj hs => ?_]
    · congr 1
      split
      · rfl
      · next hs => exact h 0 (by omega) (by simpa using hs)
    · have := h (j + 1) (by omega) (by rw [← hs]; congr 1; omega)
      rwa [show p + 4 * (j + 1) + c = p + 4 + 4 * j + c by omega] at this

theorem column_one {d d' : Data} {skip : Nat → Bool} {c p i n k : Nat} (hk : k < n) (hs : skip (i + k) = false)
    (h : ∀ j < n, j ≠ k → skip (i + j) = false → byteAt d' (p + 4 * j + c) = byteAt d (p + 4 * j + c)) :
    column d skip c p i n + byteAt d' (p + 4 * k + c) = column d' skip c p i n + byteAt d (p + 4 * k + c) := by
  induction n generalizing p i k with
  | zero => omega
  | succ n ih =>
    unfold column
    cases k with
    | zero =>
      have : column d' skip c (p + 4) (i + 1) n = column d skip c (p + 4) (i + 1) n :=
        column_same fun j hj hs => by
          have := h (j + 1) (by omega) (by omega) (by rw [← hs]; congr 1; omega)
          rwa [show p + 4 * (j + 1) + c = p + 4 + 4 * j + c by omega] at this
      rw [Nat.add_zero] at hs
      rw [this, hs]
      simp only [Bool.false_eq_true, if_false, Nat.mul_zero, Nat.add_zero]
      omega
    | succ k =>
      have ih := ih (p := p + 4) (i := i + 1) (k := k) (by omega) (by rw [← hs]; congr 1; omega) fun j hj hne hs => by
        have := h (j + 1) (by omega) (by omega) (by rw [← hs]; congr 1; omega)
        rwa [show p + 4 * (j + 1) + c = p + 4 + 4 * j + c by omega] at this
      rw [show p + 4 + 4 * k + c = p + 4 * (k + 1) + c by omega] at ih
      have h0 : skip i = false → byteAt d' (p + c) = byteAt d (p + c) := fun hs =>
        h 0 (by omega) (by omega) hs
      split
      · omega
      · next hs' => have := h0 (by simpa using hs'); omega

/-- If at most one byte of the column changes, the sum changes by the difference of two bytes. -/
theorem column_changed {d d' : Data} {skip : Nat → Bool} {c p n : Nat}
    (h : ∀ j k, j < n → k < n → skip j = false → skip k = false →
      byteAt d' (p + 4 * j + c) ≠ byteAt d (p + 4 * j + c) →
      byteAt d' (p + 4 * k + c) ≠ byteAt d (p + 4 * k + c) → j = k) :
    ∃ x y, x < 256 ∧ y < 256 ∧ column d skip c p 0 n + y = column d' skip c p 0 n + x ∧
      (x = y → ∀ j < n, skip j = false → byteAt d' (p + 4 * j + c) = byteAt d (p + 4 * j + c)) := by
  by_cases hx : ∃ k, k < n ∧ skip k = false ∧ byteAt d' (p + 4 * k + c) ≠ byteAt d (p + 4 * k + c)
  · obtain ⟨k, hk, hs, hne⟩ := hx
    refine ⟨byteAt d (p + 4 * k + c), byteAt d' (p + 4 * k + c), byteAt_lt _ _, byteAt_lt _ _,
      column_one hk (by rwa [Nat.zero_add]) fun j hj hjk hs' => ?_, fun e => absurd e.symm hne⟩
    rw [Nat.zero_add] at hs'
    exact Decidable.byContradiction fun hc => hjk (h j k hj hk hs' hs hc hne)
  · have same : ∀ j < n, skip j = false → byteAt d' (p + 4 * j + c) = byteAt d (p + 4 * j + c) := fun j hj hs =>
      Decidable.byContradiction fun hc => hx ⟨j, hj, hs, hc⟩
    exact ⟨0, 0, by omega, by omega, by
      rw [column_same fun j hj hs => same j hj (by rwa [Nat.zero_add] at hs)], fun _ => same⟩

theorem counts_skipped {record : offsets.Record} {j c : Nat} (hj : j < (record.size + 3) / 4) (hc : c < 4)
    (hs : skipped record j = false) : Counts record (4 * j + c) := by
  refine ⟨by omega, fun ⟨h1, h2⟩ => ?_⟩
  have : j = 2 := by omega
  subst this
  have : record.tag = TableType.fontHeader.tag := h1
  simp [skipped, this] at hs

/-- If a table passes the test, and then some of the bytes that count change, no two of which have the same place in
their words, then a checking build refuses the table. -/
theorem C89_columns {α : Type} (cfg : Cfg) (font : Font) (table : TableType) (record : offsets.Record) (r : Reader α)
    (d d' : Data) (p p' : Nat) (hi : cfg.ignoreInvalidChecksums = false)
    (hf : FirstWith table.tag font.offsets.records record)
    (hp : Reads (tableChecksum record) d p record.checksum)
    (hone : ∀ i j, Counts record i → Counts record j → d'[record.offset + i]? ≠ d[record.offset + i]? →
      d'[record.offset + j]? ≠ d[record.offset + j]? → i % 4 = j % 4 → i = j)
    (hsome : ∃ i, Counts record i ∧ d'[record.offset + i]? ≠ d[record.offset + i]?) :
    font.take cfg tableChecksum table r d' p' = .error .eof ∨
    font.take cfg tableChecksum table r d' p' =
      .error (.malformed ⟨"found a malformed font table with", [table.tag]⟩) := by
  obtain ⟨q, hq⟩ := hp
  obtain ⟨⟨ws, hw, hs⟩, rfl⟩ := run_tableChecksum.mp hq
  have ht : record.tag = table.tag := by obtain ⟨_, _, _, h, _⟩ := hf; exact h
  have hpos : Font.position cfg tableChecksum font table = Font.found cfg tableChecksum record :=
    Font.positionIn_first hf
  rw [Font.take_eq, hpos, Font.found_check hi]
  rcases tableChecksum_cases record d' p' with ⟨s, h⟩ | h
  · right
    rw [h]
    dsimp only
    rw [if_neg, ht]
    intro e
    obtain ⟨⟨ws', hw', hs'⟩, _⟩ := run_tableChecksum.mp h
    rw [sumBut_columns hw] at hs
    rw [sumBut_columns hw'] at hs'
    generalize hn : (record.size + 3) / 4 = n at *
    have bytes_in : ∀ {d : Data} {ws : List Nat}, U32s d record.offset n ws → ∀ j < n, ∀ c < 4,
        ∃ x, U8 d (record.offset + 4 * j + c) x := by
      intro d ws hw j hj c hc
      have hj' : j < ws.length := by rw [hw.1]; exact hj
      obtain ⟨a, b, ⟨a1, a2, u1, u2, _⟩, ⟨b1, b2, u3, u4, _⟩, _⟩ := hw.2 j _ (List.getElem?_eq_getElem hj')
      match c, hc with
      | 0, _ => exact ⟨_, u1⟩
      | 1, _ => exact ⟨_, u2⟩
      | 2, _ => exact ⟨_, u3⟩
      | 3, _ => exact ⟨_, u4⟩
    have eq_iff : ∀ j < n, ∀ c < 4, byteAt d' (record.offset + 4 * j + c) = byteAt d (record.offset + 4 * j + c) →
        d'[record.offset + (4 * j + c)]? = d[record.offset + (4 * j + c)]? := by
      intro j hj c hc e
      obtain ⟨x, hx⟩ := bytes_in hw j hj c hc
      obtain ⟨y, hy⟩ := bytes_in hw' j hj c hc
      rw [← Nat.add_assoc]
      exact byteAt_inj hx hy e
    have col : ∀ c < 4, ∃ x y, x < 256 ∧ y < 256 ∧
        column d (skipped record) c record.offset 0 n + y = column d' (skipped record) c record.offset 0 n + x ∧
        (x = y → ∀ j < n, skipped record j = false →
          byteAt d' (record.offset + 4 * j + c) = byteAt d (record.offset + 4 * j + c)) := by
      intro c hc
      refine column_changed fun j k hj hk sj sk cj ck => ?_
      have ne : ∀ j, byteAt d' (record.offset + 4 * j + c) ≠ byteAt d (record.offset + 4 * j + c) →
          d'[record.offset + (4 * j + c)]? ≠ d[record.offset + (4 * j + c)]? := by
        intro j hne he
        rw [← Nat.add_assoc] at he
        exact hne (by unfold byteAt; rw [he])
      have := hone (4 * j + c) (4 * k + c) (counts_skipped (hn ▸ hj) hc sj) (counts_skipped (hn ▸ hk) hc sk) (ne j cj)
        (ne k ck) (by omega)
      omega
    obtain ⟨x0, y0, _, _, g0, e0⟩ := col 0 (by omega)
    obtain ⟨x1, y1, _, _, g1, e1⟩ := col 1 (by omega)
    obtain ⟨x2, y2, _, _, g2, e2⟩ := col 2 (by omega)
    obtain ⟨x3, y3, _, _, g3, e3⟩ := col 3 (by omega)
    have hxy : x0 = y0 ∧ x1 = y1 ∧ x2 = y2 ∧ x3 = y3 := by
      rw [e] at hs
      rw [hs] at hs'
      clear e0 e1 e2 e3 hs
      have : 16777216 * y0 + 65536 * y1 + 256 * y2 + y3 = 16777216 * x0 + 65536 * x1 + 256 * x2 + x3 := by omega
      omega
    obtain ⟨i, ⟨hi1, hi2⟩, hne⟩ := hsome
    have hj : i / 4 < n := by omega
    have hsk : skipped record (i / 4) = false := by
      unfold skipped
      by_cases hh : i / 4 = 2
      · have : record.tag ≠ TableType.fontHeader.tag := fun h => hi2 ⟨h, hh⟩
        simp [this]
      · simp [hh]
    refine hne ?_
    have hmod : i = 4 * (i / 4) + i % 4 := by omega
    have hc : i % 4 < 4 := by omega
    rw [hmod]
    refine eq_iff (i / 4) hj (i % 4) hc ?_
    rcases (by omega : i % 4 = 0 ∨ i % 4 = 1 ∨ i % 4 = 2 ∨ i % 4 = 3) with h | h | h | h <;> rw [h]
    · exact e0 hxy.1 _ hj hsk
    · exact e1 hxy.2.1 _ hj hsk
    · exact e2 hxy.2.2.1 _ hj hsk
    · exact e3 hxy.2.2.2 _ hj hsk
  · left
    rw [h]

/-- In particular any damage that is confined to four bytes in a row, wherever they are. -/
theorem C89_burst {α : Type} (cfg : Cfg) (font : Font) (table : TableType) (record : offsets.Record) (r : Reader α)
    (d d' : Data) (p p' b : Nat) (hi : cfg.ignoreInvalidChecksums = false)
    (hf : FirstWith table.tag font.offsets.records record)
    (hp : Reads (tableChecksum record) d p record.checksum)
    (hsame : ∀ q, q < b ∨ b + 4 ≤ q → d'[q]? = d[q]?)
    (hsome : ∃ i, Counts record i ∧ d'[record.offset + i]? ≠ d[record.offset + i]?) :
    font.take cfg tableChecksum table r d' p' = .error .eof ∨
    font.take cfg tableChecksum table r d' p' =
      .error (.malformed ⟨"found a malformed font table with", [table.tag]⟩) := by
  refine C89_columns cfg font table record r d d' p p' hi hf hp (fun i j _ _ hi hj hm => ?_) hsome
  have inside : ∀ q, d'[q]? ≠ d[q]? → b ≤ q ∧ q < b + 4 := fun q hq =>
    ⟨Decidable.byContradiction fun h => hq (hsame q (by omega)),
      Decidable.byContradiction fun h => hq (hsame q (by omega))⟩
  have := inside _ hi
  have := inside _ hj
  omega

theorem u32s_exists {d : Data} {n p : Nat} (h : p + 4 * n ≤ d.length) : ∃ ws, U32s d p n ws := by
  induction n generalizing p with
  | zero => exact ⟨[], rfl, fun i x hx => by simp at hx⟩
  | succ n ih =>
    obtain ⟨ws, hw⟩ := ih (p := p + 4) (by omega)
    refine ⟨_, arrayOf_succ.mpr ⟨_, ws, rfl, ⟨_, _, ⟨_, _, ⟨_, List.getElem?_eq_getElem (by omega), rfl⟩,
      ⟨_, List.getElem?_eq_getElem (by omega), rfl⟩, rfl⟩, ⟨_, _, ⟨_, List.getElem?_eq_getElem (by omega), rfl⟩,
      ⟨_, List.getElem?_eq_getElem (by omega), rfl⟩, rfl⟩, rfl⟩, hw⟩⟩

/-- The bytes that do not count are not tested: a table that passes passes with any others in their place. -/
theorem C89_uncounted (record : offsets.Record) (d d' : Data) (p p' : Nat)
    (hp : Reads (tableChecksum record) d p record.checksum)
    (hin : record.offset + 4 * ((record.size + 3) / 4) ≤ d'.length)
    (hsame : ∀ i, Counts record i → d'[record.offset + i]? = d[record.offset + i]?) :
    Reads (tableChecksum record) d' p' record.checksum := by
  obtain ⟨q, hq⟩ := hp
  obtain ⟨⟨ws, hw, hs⟩, rfl⟩ := run_tableChecksum.mp hq
  obtain ⟨ws', hw'⟩ := u32s_exists hin
  refine ⟨p', run_tableChecksum.mpr ⟨⟨ws', hw', ?_⟩, rfl⟩⟩
  have col : ∀ c < 4, column d' (skipped record) c record.offset 0 ((record.size + 3) / 4) =
      column d (skipped record) c record.offset 0 ((record.size + 3) / 4) := fun c hc =>
    column_same fun j hj hs => by
      rw [Nat.zero_add] at hs
      have := hsame _ (counts_skipped hj hc hs)
      rw [← Nat.add_assoc] at this
      unfold byteAt
      rw [this]
  rw [hs, sumBut_columns hw, sumBut_columns hw', col 0 (by omega), col 1 (by omega), col 2 (by omega), col 3 (by omega)]

theorem sumBut_none {skip : Nat → Bool} {ws : List Nat} (h : ∀ i, skip i = false) (i : Nat) :
    sumBut skip i ws = ws.sum := by
  induction ws generalizing i with
  | nil => rfl
  | cons w ws ih => simp [sumBut, h, ih]

/-- The other side: the test does not see the order of the words. A table other than `head` that passes passes also
when its words are put in another order. -/
theorem C89_order (record : offsets.Record) (d d' : Data) (p p' : Nat) (words words' : List Nat)
    (hh : record.tag ≠ 0x68656164)
    (hp : Reads (tableChecksum record) d p record.checksum)
    (hw : U32s d record.offset ((record.size + 3) / 4) words)
    (hw' : U32s d' record.offset ((record.size + 3) / 4) words')
    (hperm : words'.Perm words) : Reads (tableChecksum record) d' p' record.checksum := by
  obtain ⟨q, hq⟩ := hp
  obtain ⟨⟨ws, hws, hs⟩, rfl⟩ := run_tableChecksum.mp hq
  obtain rfl := u32s_unique hws hw
  refine ⟨p', run_tableChecksum.mpr ⟨⟨words', hw', ?_⟩, rfl⟩⟩
  have none : ∀ i, skipped record i = false := fun i => by
    have : record.tag ≠ TableType.fontHeader.tag := hh
    simp [skipped, this]
  rw [hs, sumBut_none none, sumBut_none none, hperm.sum_nat]

/-- `sampleFont` with its bytes 61 to 64 changed: these are of both words of the table. -/
def damagedFont : Data := sampleFont.take 61 ++ bytes [0xFF, 0xFF, 0xFE, 0xFF] ++ sampleFont.drop 65

/-- A table that passes, and damage to four of its bytes, across two words. -/
example :
    FirstWith TableType.colorPalettes.tag sampleDirectory.offsets.records ⟨TableType.colorPalettes.tag, 65538, 60, 8⟩ ∧
    Reads (tableChecksum ⟨TableType.colorPalettes.tag, 65538, 60, 8⟩) sampleFont 0 65538 ∧
    Counts ⟨TableType.colorPalettes.tag, 65538, 60, 8⟩ 3 ∧ damagedFont[60 + 3]? ≠ sampleFont[60 + 3]? :=
  ⟨⟨[⟨TableType.glyphSubstitution.tag, 7, 60, 8⟩], [⟨TableType.colorPalettes.tag, 151587081, 151587081, 151587081⟩],
    rfl, rfl, by decide +kernel⟩, by decide +kernel, by decide +kernel, by decide +kernel⟩

example (r : Reader Nat) :
    sampleDirectory.take defaultCfg tableChecksum .colorPalettes r damagedFont 0 = .error .eof ∨
    sampleDirectory.take defaultCfg tableChecksum .colorPalettes r damagedFont 0 =
      .error (.malformed ⟨"found a malformed font table with", [TableType.colorPalettes.tag]⟩) := by
  refine C89_burst defaultCfg sampleDirectory .colorPalettes ⟨TableType.colorPalettes.tag, 65538, 60, 8⟩ r sampleFont
    damagedFont 0 0 61 rfl ⟨[⟨TableType.glyphSubstitution.tag, 7, 60, 8⟩],
      [⟨TableType.colorPalettes.tag, 151587081, 151587081, 151587081⟩], rfl, rfl, by decide +kernel⟩ (by decide +kernel)
    (fun q hq => ?_) ⟨3, by decide +kernel, by decide +kernel⟩
  by_cases hl : q < 68
  · have : ∀ q < 68, q < 61 ∨ 61 + 4 ≤ q → damagedFont[q]? = sampleFont[q]? := by decide +kernel
    exact this q hl hq
  · rw [List.getElem?_eq_none (Nat.le_trans (by decide +kernel) (Nat.le_of_not_lt hl)),
      List.getElem?_eq_none (Nat.le_trans (by decide +kernel) (Nat.le_of_not_lt hl))]

/-- The two words of the same table exchanged: it passes. -/
example : Reads (tableChecksum ⟨TableType.colorPalettes.tag, 65538, 60, 8⟩)
    (sampleFont.take 60 ++ bytes [0, 1, 0, 1,  0, 0, 0, 1]) 0 65538 := by decide +kernel

/-- Five bytes in a row changed, unnoticed: one more in the first word and one less in the second. -/
example : Reads (tableChecksum ⟨TableType.colorPalettes.tag, 65538, 60, 8⟩)
    (sampleFont.take 60 ++ bytes [0, 0, 0, 2,  0, 1, 0, 0]) 0 65538 := by decide +kernel

/-- The bytes 8 to 11 of `head` do not count. -/
example : Counts ⟨TableType.fontHeader.tag, 0, 0, 54⟩ 7 ∧ ¬Counts ⟨TableType.fontHeader.tag, 0, 0, 54⟩ 8 ∧
    ¬Counts ⟨TableType.fontHeader.tag, 0, 0, 54⟩ 11 ∧ Counts ⟨TableType.fontHeader.tag, 0, 0, 54⟩ 55 ∧
    ¬Counts ⟨TableType.fontHeader.tag, 0, 0, 54⟩ 56 := by decide +kernel

end OpenType.Props
