import Verif.Proof.Gpos
import Verif.Props.Faithful
/-! # C24-C29: positioning lookups, value records, strides, matrices and anchors -/

namespace OpenType.Props
open OpenType Spec OpenType.gpos

/-! ## C24 -/

/-- A positioning subtable is read as it is stored, under each of the nine types. -/
theorem C24_positioning (cfg : Cfg) (type_ : Nat) :
    Faithful (gpos.Type_.read cfg type_) (Spec.gpos.IsTable cfg type_) := faithful

/-- Every other type is refused, whatever the bytes. -/
theorem C24_other_type (cfg : Cfg) (type_ : Nat) (h : ¬(1 ≤ type_ ∧ type_ ≤ 9)) (d : Data) (p : Nat) :
    Refuses (gpos.Type_.read cfg type_ d p) := by
  unfold gpos.Type_.read
  split
  all_goals first
    | exact ⟨_, rfl⟩
    | omega

/-- The format numbers of each type. -/
def gposFormats : Nat → List Nat
  | 1 => [1, 2]
  | 2 => [1, 2]
  | 3 => [1]
  | 4 => [1]
  | 5 => [1]
  | 6 => [1]
  | 7 => [1, 2, 3]
  | 8 => [1, 2, 3]
  | 9 => [1]
  | _ => []

/-- Every other format is an error. -/
theorem C24_other_format (cfg : Cfg) {type_ f p : Nat} {d : Data} (hd : Fits d) (h : U16 d p f)
    (hf : f ∉ gposFormats type_) : Fails (gpos.Type_.read cfg type_ d p) := by
  refine (C24_positioning cfg type_).fails hd fun v hv => ?_
  unfold Spec.gpos.IsTable at hv
  split at hv
  all_goals obtain ⟨rfl, hv⟩ := hv
  · unfold Spec.gpos.IsSingleAdjustment at hv
    split at hv <;> (have := h.unique hv.2.1; simp [gposFormats] at hf; omega)
  · unfold Spec.gpos.IsPairAdjustment at hv
    split at hv <;> (have := h.unique hv.2.1; simp [gposFormats] at hf; omega)
  · have := h.unique hv.1; have := hv.2.1; simp [gposFormats] at hf; omega
  · have := h.unique hv.1; have := hv.2.1; simp [gposFormats] at hf; omega
  · have := h.unique hv.1; have := hv.2.1; simp [gposFormats] at hf; omega
  · have := h.unique hv.1; have := hv.2.1; simp [gposFormats] at hf; omega
  · unfold IsContext at hv
    split at hv <;> (have := h.unique hv.2.1; simp [gposFormats] at hf; omega)
  · unfold IsChainedContext at hv
    split at hv <;> (have := h.unique hv.2.1; simp [gposFormats] at hf; omega)
  · have := h.unique hv.1; have := hv.2.1; simp [gposFormats] at hf; omega

/-- An anchor is read as it is stored. -/
theorem C24_anchor : Faithful Anchor.read Spec.gpos.IsAnchor := faithful

/-- A single adjustment of format 2 with two values, the second of which has a variation index. -/
def sampleAdjustment : Data := bytes <|
  [0, 2,  0, 16,  0, 0x41,  0, 2,  255, 254,  0, 0,  0, 5,  0, 26] ++ [0, 2,  0, 1,  0, 3,  0, 4,  0, 0] ++
  [0, 1,  0, 2,  0x80, 0]

example : Reads (gpos.Type_.read ⟨false, false, false, false, false, true⟩ 1) sampleAdjustment 0
      (.singleAdjustment (.format2 ⟨2, 16, 0x41, 2,
        [⟨some (-2), none, none, none, none, none, some 0, none, none, none, none, none⟩,
         ⟨some 5, none, none, none, none, none, some 26, none, none, none,
           some (.variation ⟨1, 2, 0x8000⟩), none⟩],
        .format2 ⟨2, 1, [⟨3, 4, 0⟩]⟩⟩)) ∧
    U16 sampleAdjustment 2 16 ∧ 16 ∉ gposFormats 1 := by
  decide +kernel

/-! ## C25 -/

theorem faithful_from {α : Type} {r : Nat → Reader α} {b size : Nat} {S} [Fixed (r b) S size] [RelocFrom False r]
    (hb : b < 2 ^ 63) : FaithfulMove (r b) S size := by
  intro d p hd
  refine ⟨fun v q => Fixed.run hd, fun hn => fails_of (fun v hv => hn v ((reads_fixed hd).mp hv)) ?_⟩
  intro m hm
  have := RelocFrom.good (e := False) (r := r) (ext_refl d) hd (by omega : 0 + b < 2 ^ 63) p
  unfold Good at this
  rw [hm] at this
  exact this.1

/-- A value record has the fields its format announces, and reading it moves the tape by two bytes for each bit
set among the lowest eight. The position `b` is that of the table its correction offsets count from. -/
theorem C25_value_record (b flags : Nat) (hb : b < 2 ^ 63) :
    FaithfulMove (Single.read b flags) (Spec.gpos.IsSingle b flags)
      (2 * ((List.range 8).filter flags.testBit).length) := by
  have : 2 * ((List.range 8).filter flags.testBit).length = Spec.gpos.valueSize flags := by
    unfold Spec.gpos.valueSize
    congr 1
    have : ∀ k, ((List.range k).filter flags.testBit).length = Spec.gpos.bitsBelow flags k := by
      intro k
      induction k with
      | zero => rfl
      | succ k ih =>
        rw [List.range_succ, List.filter_append, List.length_append, ih, Spec.gpos.bitsBelow]
        cases h : flags.testBit k <;> simp [h]
    exact this 8
  rw [this]
  exact faithful_from (r := fun b => Single.read b flags) hb

/-- A correction is there exactly when its offset is there and not zero, and then is what is stored at that
offset. -/
def CorrectionIff (d : Data) (b : Nat) (offset : Option Nat) (x : Option correction.Correction) : Prop :=
  (x.isSome ↔ ∃ o, offset = some o ∧ o ≠ 0) ∧
    ∀ o c, offset = some o → x = some c → IsCorrection d (b + o) c

theorem correctionIff {d : Data} {b : Nat} {offset : Option Nat} {x : Option correction.Correction}
    (h : Spec.gpos.IsCorrectionOf d b offset x) : CorrectionIff d b offset x := by
  unfold Spec.gpos.IsCorrectionOf Optional at h
  unfold CorrectionIff
  cases offset <;> cases x <;> simp_all

/-- The corrections of a value record. -/
theorem C25_corrections {b flags : Nat} {d : Data} {p : Nat} (hd : Fits d) {t : Single}
    (h : Reads (Single.read b flags) d p t) :
    CorrectionIff d b t.x_placement_correction_offset t.x_placement_correction ∧
    CorrectionIff d b t.y_placement_correction_offset t.y_placement_correction ∧
    CorrectionIff d b t.x_advance_correction_offset t.x_advance_correction ∧
    CorrectionIff d b t.y_advance_correction_offset t.y_advance_correction := by
  obtain ⟨_, _, _, _, _, _, _, _, h1, h2, h3, h4⟩ := (reads_fixed hd).mp h
  exact ⟨correctionIff h1, correctionIff h2, correctionIff h3, correctionIff h4⟩

/-- Three fields, 1, 3 and 5, of which the last leads to a variation index. -/
example : Single.read 0 0x2A (bytes [9, 9,  0, 1,  255, 255,  0, 8,  0, 3, 0, 4, 0x80, 0]) 2 =
    .ok (⟨none, some 1, none, some (-1), none, some 8, none, none, none, some (.variation ⟨3, 4, 0x8000⟩),
      none, none⟩, 2 + 2 * 3) := by decide +kernel

/-! ## C26 -/

/-- Reading a record leaves the tape right after its inline part, whatever it leads to. -/
def MovesBy {α : Type} (r : Reader α) (size : Nat) : Prop :=
  ∀ d p v q, Fits d → r d p = .ok (v, q) → q = p + size

theorem movesBy {α : Type} {r : Reader α} {S size} [Fixed r S size] : MovesBy r size :=
  fun _ _ _ _ hd h => ((Fixed.run hd).mp h).2

/-- Every record with out-of-line parts leaves the tape right after its inline part. -/
theorem C26_moves (cfg : Cfg) (b n f g : Nat) :
    MovesBy (Single.read b f) (Spec.gpos.valueSize f) ∧
    MovesBy (Pair1.read b f g) (2 + Spec.gpos.valueSize f + Spec.gpos.valueSize g) ∧
    MovesBy (Pair2.read b f g) (Spec.gpos.valueSize f + Spec.gpos.valueSize g) ∧
    MovesBy (Pair2s.read b n f g) ((Spec.gpos.valueSize f + Spec.gpos.valueSize g) * n) ∧
    MovesBy (Connection.read b) 4 ∧
    MovesBy (Base.read b n) (2 * n) ∧
    MovesBy (Component.read b n) (2 * n) ∧
    MovesBy (Mark1.read cfg b) 4 ∧
    MovesBy (Mark2.read b n) (2 * n) :=
  ⟨movesBy, movesBy, movesBy, movesBy, movesBy, movesBy, movesBy, movesBy, movesBy⟩

/-- Record `i` of an array that begins at `start` is what reading at `start + i * stride` gives. -/
def AtStride {α : Type} (r : Reader α) (d : Data) (start stride : Nat) (records : List α) : Prop :=
  ∀ i x, records[i]? = some x → Reads r d (start + i * stride) x

theorem atStride {α : Type} {r : Reader α} {S size} [Fixed r S size] {d : Data} (hd : Fits d) {p n : Nat}
    {xs : List α} (h : ArrayOf (S d) size p n xs) : AtStride r d p size xs := by
  intro i x hi
  rw [reads_fixed hd, Nat.mul_comm]
  exact h.2 i x hi

/-- In every table with such records, record `i` is decoded at its fixed stride, as if it were alone. -/
theorem C26_strides (cfg : Cfg) {n f g : Nat} {d : Data} {p : Nat} (hd : Fits d) :
    (∀ t, Reads (SingleAdjustment.read cfg) d p (.format2 t) →
      AtStride (Single.read p t.value_flags) d (p + 8) (Spec.gpos.valueSize t.value_flags) t.values) ∧
    (∀ t, Reads (Pair1s.read f g) d p t →
      AtStride (Pair1.read p f g) d (p + 2) (2 + Spec.gpos.valueSize f + Spec.gpos.valueSize g) t.records) ∧
    (∀ t, Reads (PairAdjustment.read cfg) d p (.format2 t) →
      AtStride (Pair2s.read p t.class2_count t.value1_flags t.value2_flags) d (p + 16)
        ((Spec.gpos.valueSize t.value1_flags + Spec.gpos.valueSize t.value2_flags) * t.class2_count)
        t.records) ∧
    (∀ t, Reads CursiveAttachment.read d p t → AtStride (Connection.read p) d (p + 6) 4 t.connections) ∧
    (∀ t, Reads (Bases.read n) d p t → AtStride (Base.read p n) d (p + 2) (2 * n) t.records) ∧
    (∀ t, Reads (Ligature.read n) d p t → AtStride (Component.read p n) d (p + 2) (2 * n) t.components) ∧
    (∀ t, Reads (Mark1s.read cfg) d p t → AtStride (Mark1.read cfg p) d (p + 2) 4 t.records) ∧
    (∀ t, Reads (Mark2s.read n) d p t → AtStride (Mark2.read p n) d (p + 2) (2 * n) t.records) := by
  refine ⟨fun t h => ?_, fun t h => ?_, fun t h => ?_, fun t h => ?_, fun t h => ?_, fun t h => ?_,
    fun t h => ?_, fun t h => ?_⟩
  · obtain ⟨_, _, _, _, _, _, h, _⟩ := (reads_parses hd).mp h
    exact atStride hd h
  · exact atStride hd ((reads_parses hd).mp h).2
  · obtain ⟨_, _, _, _, _, _, _, _, _, _, _, h, _⟩ := (reads_parses hd).mp h
    exact atStride hd h
  · obtain ⟨_, _, _, _, h, _⟩ := (reads_parses hd).mp h
    exact atStride hd h
  · exact atStride hd ((reads_parses hd).mp h).2
  · exact atStride hd ((reads_parses hd).mp h).2
  · exact atStride hd ((reads_parses hd).mp h).2
  · exact atStride hd ((reads_parses hd).mp h).2

/-- Three marks whose anchors overlap, lie behind one another, and include the array itself. -/
def sampleMarks : Data := bytes <|
  [0, 3,  0, 0, 0, 14,  0, 1, 0, 14,  0, 1, 0, 6] ++ [0, 1, 0, 3, 255, 252]

example : Reads (Mark1s.read ⟨false, false, false, false, false, true⟩) sampleMarks 0
    ⟨3, [⟨0, 14, .format1 ⟨1, 3, -4⟩⟩, ⟨1, 14, .format1 ⟨1, 3, -4⟩⟩, ⟨1, 6, .format1 ⟨1, 14, 1⟩⟩]⟩ := by
  decide +kernel

/-! ## C27 -/

/-- The pair class matrix: as many rows as first classes, as many cells in each as second classes, cell
`(i, j)` at its place, its value `k` absent exactly when format `k` is zero. -/
theorem C27_matrix (cfg : Cfg) {d : Data} {p : Nat} (hd : Fits d) {t : PairAdjustment2}
    (h : Reads (PairAdjustment.read cfg) d p (.format2 t)) :
    let size1 := Spec.gpos.valueSize t.value1_flags
    let size2 := Spec.gpos.valueSize t.value2_flags
    U16 d (p + 4) t.value1_flags ∧ U16 d (p + 6) t.value2_flags ∧
    U16 d (p + 12) t.records.length ∧ U16 d (p + 14) t.class2_count ∧
    ∀ i row, t.records[i]? = some row → row.records.length = t.class2_count ∧
      ∀ j cell, row.records[j]? = some cell →
        let place := p + 16 + (i * t.class2_count + j) * (size1 + size2)
        (cell.value1 = none ↔ t.value1_flags = 0) ∧ (cell.value2 = none ↔ t.value2_flags = 0) ∧
        (∀ x, cell.value1 = some x → Spec.gpos.IsSingle p t.value1_flags d place x) ∧
        (∀ x, cell.value2 = some x → Spec.gpos.IsSingle p t.value2_flags d (place + size1) x) := by
  obtain ⟨_, _, _, h1, _, h2, _, _, _, h3, h4, h5, _⟩ := (reads_parses hd).mp h
  refine ⟨h1, h2, h5.1 ▸ h3, h4, ?_⟩
  intro i row hi
  have h6 := h5.2 i row hi
  refine ⟨h6.1, ?_⟩
  intro j cell hj
  obtain ⟨h7, h8⟩ := h6.2 j cell hj
  have e : p + 16 + (Spec.gpos.valueSize t.value1_flags + Spec.gpos.valueSize t.value2_flags) *
      t.class2_count * i + (Spec.gpos.valueSize t.value1_flags + Spec.gpos.valueSize t.value2_flags) * j =
      p + 16 + (i * t.class2_count + j) *
        (Spec.gpos.valueSize t.value1_flags + Spec.gpos.valueSize t.value2_flags) := by
    generalize Spec.gpos.valueSize t.value1_flags + Spec.gpos.valueSize t.value2_flags = s
    rw [Nat.add_mul, Nat.mul_comm s j, Nat.mul_assoc, Nat.mul_comm s (t.class2_count * i),
      Nat.mul_comm t.class2_count i, Nat.add_assoc]
  rw [e] at h7 h8
  unfold Spec.gpos.IsValue at h7 h8
  dsimp only
  refine ⟨?_, ?_, ?_, ?_⟩
  · cases hc : cell.value1 <;> rw [hc] at h7 <;> simp_all
  · cases hc : cell.value2 <;> rw [hc] at h8 <;> simp_all
  · intro x hx; rw [hx] at h7; exact h7.2
  · intro x hx; rw [hx] at h8; exact h8.2

/-- Two rows of two cells, with one number for the first glyph and nothing for the second. -/
def sampleMatrix : Data := bytes <|
  [0, 2,  0, 24,  0, 4,  0, 0,  0, 28,  0, 28,  0, 2,  0, 2] ++ [0, 1, 0, 2, 0, 3, 0, 4] ++
  [0, 1, 0, 0] ++ [0, 2, 0, 0]

def numberOf (x : Int) : Single := ⟨none, none, some x, none, none, none, none, none, none, none, none, none⟩

example : Reads (PairAdjustment.read ⟨false, false, false, false, false, true⟩) sampleMatrix 0 (.format2
    ⟨2, 24, 4, 0, 28, 28, 2, 2, [⟨[⟨some (numberOf 1), none⟩, ⟨some (numberOf 2), none⟩]⟩,
      ⟨[⟨some (numberOf 3), none⟩, ⟨some (numberOf 4), none⟩]⟩], .format1 ⟨1, 0, []⟩, .format2 ⟨2, 0, []⟩,
      .format2 ⟨2, 0, []⟩⟩) := by decide +kernel

/-! ## C28 -/

/-- One optional anchor for each of `n` offsets stored at `p`: absent exactly when its offset is zero, and
otherwise what is stored at that offset from `base`. -/
def OptionalAnchors (d : Data) (base p n : Nat) (anchors : List (Option Anchor)) : Prop :=
  anchors.length = n ∧
    ∀ i a, anchors[i]? = some a → ∃ o, U16 d (p + 2 * i) o ∧ (a = none ↔ o = 0) ∧
      ∀ x, a = some x → Spec.gpos.IsAnchor d (base + o) x

theorem optionalAnchors {d : Data} {base p n : Nat} {os : List Nat} {anchors : List (Option Anchor)}
    (h : U16s d p n os) (h' : AtOptionalOffsets (Spec.gpos.IsAnchor d) base os anchors) :
    OptionalAnchors d base p n anchors := by
  refine ⟨h'.1.trans h.1, ?_⟩
  intro i a ha
  have hi := (List.getElem?_eq_some_iff.mp ha).1
  have e := List.getElem?_eq_getElem (l := os) (i := i) (by have := h'.1; omega)
  have ho := h'.2 i _ a e ha
  refine ⟨_, h.2 i _ e, ?_, ?_⟩
  · unfold Optional at ho
    cases a <;> simp_all
  · rintro x rfl
    exact ho.2

theorem optionalAnchors_two {d : Data} {base p o o' : Nat} {a a' : Option Anchor} (h : U16 d p o)
    (h' : U16 d (p + 2) o') (ha : Optional (Spec.gpos.IsAnchor d) base o a)
    (ha' : Optional (Spec.gpos.IsAnchor d) base o' a') : OptionalAnchors d base p 2 [a, a'] := by
  refine optionalAnchors (os := [o, o']) ⟨rfl, ?_⟩ ⟨rfl, ?_⟩
  · intro i x hi
    match i with
    | 0 => cases hi; exact h
    | 1 => cases hi; exact h'
    | _ + 2 => cases hi
  · intro i x y hi hj
    match i with
    | 0 => cases hi; cases hj; exact ha
    | 1 => cases hi; cases hj; exact ha'
    | _ + 2 => cases hi

/-- The anchors of cursive connections, bases, ligature components and second marks. The offsets of a
connection count from the attachment table, the others from the array or ligature that holds them. -/
theorem C28_anchors {d : Data} {p n : Nat} (hd : Fits d) :
    (∀ t, Reads CursiveAttachment.read d p t → ∀ i x, t.connections[i]? = some x →
      OptionalAnchors d p (p + 6 + 4 * i) 2 [x.start_anchor, x.end_anchor]) ∧
    (∀ t, Reads (Bases.read n) d p t → ∀ i x, t.records[i]? = some x →
      OptionalAnchors d p (p + 2 + 2 * n * i) n x.anchors) ∧
    (∀ t, Reads (Ligature.read n) d p t → ∀ i x, t.components[i]? = some x →
      OptionalAnchors d p (p + 2 + 2 * n * i) n x.anchors) ∧
    (∀ t, Reads (Mark2s.read n) d p t → ∀ i x, t.records[i]? = some x →
      OptionalAnchors d p (p + 2 + 2 * n * i) n x.anchors) := by
  refine ⟨fun t h i x hi => ?_, fun t h i x hi => ?_, fun t h i x hi => ?_, fun t h i x hi => ?_⟩
  · obtain ⟨_, _, _, _, h, _⟩ := (reads_parses hd).mp h
    obtain ⟨h1, h2, h3, h4⟩ := h.2 i x hi
    exact optionalAnchors_two h1 h2 h3 h4
  · have := ((reads_parses hd).mp h).2.2 i x hi
    exact optionalAnchors this.1 this.2
  · have := ((reads_parses hd).mp h).2.2 i x hi
    exact optionalAnchors this.1 this.2
  · have := ((reads_parses hd).mp h).2.2 i x hi
    exact optionalAnchors this.1 this.2

/-- In the attachment tables the number of anchors is the number of mark classes stored in the table. -/
theorem C28_class_count (cfg : Cfg) {d : Data} {p n : Nat} (hd : Fits d) (hn : U16 d (p + 6) n) :
    (∀ t, Reads (MarkToBaseAttachment.read cfg) d p t → ∀ x ∈ t.bases.records, x.anchors.length = n) ∧
    (∀ t, Reads (MarkToLigatureAttachment.read cfg) d p t → ∀ l ∈ t.ligatures.records,
      ∀ x ∈ l.components, x.anchors.length = n) ∧
    (∀ t, Reads (MarkToMarkAttachment.read cfg) d p t → ∀ x ∈ t.mark2s.records, x.anchors.length = n) := by
  refine ⟨fun t h x hx => ?_, fun t h l hl x hx => ?_, fun t h x hx => ?_⟩
  · obtain ⟨_, _, _, _, h1, _, _, _, _, _, h2⟩ := (reads_parses hd).mp h
    obtain ⟨i, hi, rfl⟩ := List.getElem_of_mem hx
    have := h2.2.2 i _ (List.getElem?_eq_getElem hi)
    rw [this.2.1, this.1.1, h1.unique hn]
  · obtain ⟨_, _, _, _, h1, _, _, _, _, _, h2⟩ := (reads_parses hd).mp h
    obtain ⟨i, hi, rfl⟩ := List.getElem_of_mem hl
    obtain ⟨_, h3, h4, h5⟩ := h2
    have e := List.getElem?_eq_getElem (l := t.ligatures.offsets) (i := i) (by omega)
    have h6 := h5 i _ _ e (List.getElem?_eq_getElem hi)
    obtain ⟨j, hj, rfl⟩ := List.getElem_of_mem hx
    have := h6.2.2 j _ (List.getElem?_eq_getElem hj)
    rw [this.2.1, this.1.1, h1.unique hn]
  · obtain ⟨_, _, _, _, h1, _, _, _, _, _, h2⟩ := (reads_parses hd).mp h
    obtain ⟨i, hi, rfl⟩ := List.getElem_of_mem hx
    have := h2.2.2 i _ (List.getElem?_eq_getElem hi)
    rw [this.2.1, this.1.1, h1.unique hn]

/-- Two bases with two mark classes; three of the four anchors are absent. -/
def sampleBases : Data := bytes <| [0, 2,  0, 0, 0, 10,  0, 0, 0, 0] ++ [0, 1, 0, 3, 0, 4]

example : Reads (Bases.read 2) sampleBases 0
    ⟨2, [⟨[0, 10], [none, some (.format1 ⟨1, 3, 4⟩)]⟩, ⟨[0, 0], [none, none]⟩]⟩ := by decide +kernel

/-! ## C29 -/

/-- A mark array is read as it is stored, with or without the feature. -/
theorem C29_marks (cfg : Cfg) : Faithful (Mark1s.read cfg) (Spec.gpos.IsMark1s cfg) := faithful

/-- Spelled out: without the feature, or when the offset is not zero, the anchor of a mark is what is stored at
its offset from the array; with the feature a zero offset gives the anchor of format 1 with zero fields. -/
theorem C29_anchor (cfg : Cfg) {d : Data} {p : Nat} (hd : Fits d) {t : Mark1s}
    (h : Reads (Mark1s.read cfg) d p t) {i : Nat} {mark : Mark1} (hi : t.records[i]? = some mark) :
    U16 d (p + 2 + 4 * i) mark.class_id ∧ U16 d (p + 2 + 4 * i + 2) mark.anchor_offset ∧
    (cfg.ignoreIncompleteMarks = false ∨ mark.anchor_offset ≠ 0 →
      Spec.gpos.IsAnchor d (p + mark.anchor_offset) mark.anchor) ∧
    (cfg.ignoreIncompleteMarks = true → mark.anchor_offset = 0 → mark.anchor = .format1 ⟨0, 0, 0⟩) := by
  obtain ⟨_, _, h1⟩ := (reads_parses hd).mp h
  obtain ⟨h2, h3, h4⟩ := h1 i mark hi
  unfold Spec.gpos.IsMarkAnchor at h4
  refine ⟨h2, h3, fun hc => ?_, fun hc ho => ?_⟩
  · rwa [if_neg (by rintro ⟨h, h'⟩; rcases hc with hc | hc <;> simp_all)] at h4
  · rwa [if_pos ⟨hc, ho⟩] at h4

theorem takeMarkAnchor_eq {cfg : Cfg} {b o : Nat} (ho : 0 < o) :
    takeMarkAnchor cfg b o = stay (jumpTake b o Anchor.read) := by
  unfold takeMarkAnchor
  split
  · unfold jumpTakeMaybe stay
    rw [if_pos ho]
    have := Reader.lawful
    simp
  · rfl

theorem mark_eq {cfg cfg' : Cfg} {b p : Nat} {d : Data} (hd : Fits d)
    (h : ∀ o, U16 d (p + 2) o → o ≠ 0) : Mark1.read cfg b d p = Mark1.read cfg' b d p := by
  unfold Mark1.read
  cases hc : u16 d p with
  | error x => exact (bind_error hc).trans (bind_error hc).symm
  | ok x =>
    obtain ⟨c, q⟩ := x
    have hq := ((Fixed.run hd).mp hc).2
    subst hq
    refine (bind_ok hc).trans (Eq.symm ((bind_ok hc).trans ?_))
    cases ho : u16 d (p + 2) with
    | error x => exact (bind_error ho).trans (bind_error ho).symm
    | ok x =>
      obtain ⟨o, q⟩ := x
      have := h o ((Fixed.run hd).mp ho).1
      refine (bind_ok ho).trans (Eq.symm ((bind_ok ho).trans ?_))
      rw [takeMarkAnchor_eq (by omega), takeMarkAnchor_eq (by omega)]

theorem marks_eq {cfg cfg' : Cfg} {b : Nat} {d : Data} (hd : Fits d) (n : Nat) :
    ∀ p, (∀ i o, i < n → U16 d (p + 4 * i + 2) o → o ≠ 0) →
      takeVec (Mark1.read cfg b) n d p = takeVec (Mark1.read cfg' b) n d p := by
  induction n with
  | zero => intro p _; rfl
  | succ n ih =>
    intro p h
    have e := mark_eq (cfg := cfg) (cfg' := cfg') (b := b) hd (p := p)
      fun o ho => h 0 o (by omega) (by simpa using ho)
    unfold takeVec
    cases hm : Mark1.read cfg b d p with
    | error x => exact (bind_error hm).trans (bind_error (e ▸ hm)).symm
    | ok x =>
      obtain ⟨m, q⟩ := x
      have hq := ((Fixed.run hd).mp hm).2
      subst hq
      refine (bind_ok hm).trans (Eq.symm ((bind_ok (e ▸ hm)).trans (Eq.symm ?_)))
      have e' := ih (p + 4) fun i o hi ho => h (i + 1) o (by omega)
        (by rwa [show p + 4 * (i + 1) + 2 = p + 4 + 4 * i + 2 by omega])
      rw [run_bind_eq, run_bind_eq, e']

/-- When no stored anchor offset is zero, the feature makes no difference to a mark array: same value, same
error, same position of the tape. -/
theorem C29_nonzero_offsets (cfg : Cfg) {d : Data} {p : Nat} (hd : Fits d)
    (h : ∀ n i o, U16 d p n → i < n → U16 d (p + 2 + 4 * i + 2) o → o ≠ 0) :
    Mark1s.read { cfg with ignoreIncompleteMarks := true } d p =
      Mark1s.read { cfg with ignoreIncompleteMarks := false } d p := by
  unfold Mark1s.read
  refine (bind_ok (show position d p = .ok (p, p) from rfl)).trans
    (Eq.symm ((bind_ok (show position d p = .ok (p, p) from rfl)).trans (Eq.symm ?_)))
  cases hc : u16 d p with
  | error x => exact (bind_error hc).trans (bind_error hc).symm
  | ok x =>
    obtain ⟨n, q⟩ := x
    obtain ⟨hn, rfl⟩ := (Fixed.run hd).mp hc
    refine (bind_ok hc).trans (Eq.symm ((bind_ok hc).trans (Eq.symm ?_)))
    have e := marks_eq (cfg := { cfg with ignoreIncompleteMarks := true })
      (cfg' := { cfg with ignoreIncompleteMarks := false }) (b := p) hd n (p + 2)
      fun i o hi ho => h n i o hn hi ho
    rw [run_bind_eq, run_bind_eq, e]

/-- The offsets of `sampleMarks` are not zero. With a zero offset the builds differ. -/
example : Fits sampleMarks ∧ U16 sampleMarks 0 3 ∧ U16 sampleMarks 4 14 ∧ U16 sampleMarks 8 14 ∧
    U16 sampleMarks 12 6 ∧
    Reads (Mark1s.read ⟨false, false, true, false, false, true⟩) (bytes [0, 1, 0, 0, 0, 0]) 0
      ⟨1, [⟨0, 0, .format1 ⟨0, 0, 0⟩⟩]⟩ ∧
    Reads (Mark1s.read ⟨false, false, false, false, false, true⟩) (bytes [0, 1, 0, 0, 0, 0]) 0
      ⟨1, [⟨0, 0, .format1 ⟨1, 0, 0⟩⟩]⟩ := by decide +kernel

end OpenType.Props
