import Verif.Props.Lists
import Verif.Props.Fvar
import Verif.Props.Gpos
/-! # C53: the predicates on flags -/

namespace OpenType.Props
open OpenType Spec

/-- A mask of `n` consecutive bits from bit `k` on. -/
theorem and_mask (x k n : Nat) : x &&& ((2 ^ n - 1) * 2 ^ k) = x / 2 ^ k % 2 ^ n * 2 ^ k := by
  apply Nat.eq_of_testBit_eq
  intro i
  rw [Nat.testBit_and, ← Nat.shiftLeft_eq, ← Nat.shiftLeft_eq, Nat.testBit_shiftLeft, Nat.testBit_shiftLeft,
    Nat.testBit_two_pow_sub_one, Nat.testBit_mod_two_pow, Nat.testBit_div_two_pow]
  by_cases h : k ≤ i
  · simp [h, Bool.and_comm]
  · simp [h]

theorem flag_mask (x k n : Nat) : flag x ((2 ^ n - 1) * 2 ^ k) = true ↔ x / 2 ^ k % 2 ^ n ≠ 0 := by
  unfold flag
  rw [and_mask, decide_eq_true_iff, gt_iff_lt, Nat.pos_iff_ne_zero, Ne, Nat.mul_eq_zero,
    or_iff_left (Nat.ne_of_gt (Nat.two_pow_pos k))]

/-- Whatever the flags of a lookup, an axis, an instance or a value record, each predicate is about its own
bit or bits of the number. -/
theorem C53_predicates (x : Nat) :
    (lookup.is_right_to_left x = true ↔ x % 2 = 1) ∧
    (lookup.should_ignore_base_glyphs x = true ↔ x / 2 % 2 = 1) ∧
    (lookup.should_ignore_ligature x = true ↔ x / 4 % 2 = 1) ∧
    (lookup.should_ignore_marks x = true ↔ x / 8 % 2 = 1) ∧
    (lookup.has_mark_filtering x = true ↔ x / 16 % 2 = 1) ∧
    (lookup.is_invalid x = true ↔ x / 32 % 8 ≠ 0) ∧
    (fvar.AxisFlags.is_hidden x = true ↔ x % 2 = 1) ∧
    (fvar.AxisFlags.is_invalid x = true ↔ x / 2 % 32768 ≠ 0) ∧
    (fvar.InstanceFlags.is_invalid x = true ↔ x % 65536 ≠ 0) ∧
    (gpos.has_x_placement x = true ↔ x % 2 = 1) ∧
    (gpos.has_y_placement x = true ↔ x / 2 % 2 = 1) ∧
    (gpos.has_x_advance x = true ↔ x / 4 % 2 = 1) ∧
    (gpos.has_y_advance x = true ↔ x / 8 % 2 = 1) ∧
    (gpos.has_x_placement_correction x = true ↔ x / 16 % 2 = 1) ∧
    (gpos.has_y_placement_correction x = true ↔ x / 32 % 2 = 1) ∧
    (gpos.has_x_advance_correction x = true ↔ x / 64 % 2 = 1) ∧
    (gpos.has_y_advance_correction x = true ↔ x / 128 % 2 = 1) ∧
    (gpos.is_invalid x = true ↔ x / 256 % 256 ≠ 0) := by
  have h := fun k n => flag_mask x k n
  have one : ∀ y, y % 2 ^ 1 ≠ 0 ↔ y % 2 = 1 := by omega
  refine ⟨?_, (h 1 1).trans (one _), (h 2 1).trans (one _), (h 3 1).trans (one _), (h 4 1).trans (one _), h 5 3,
    ?_, h 1 15, ?_, ?_, (h 1 1).trans (one _), (h 2 1).trans (one _), (h 3 1).trans (one _),
    (h 4 1).trans (one _), (h 5 1).trans (one _), (h 6 1).trans (one _), (h 7 1).trans (one _), h 8 8⟩
  · exact (h 0 1).trans ((one _).trans (by rw [Nat.pow_zero, Nat.div_one]))
  · exact (h 0 1).trans ((one _).trans (by rw [Nat.pow_zero, Nat.div_one]))
  · exact (h 0 16).trans (by rw [Nat.pow_zero, Nat.div_one])
  · exact (h 0 1).trans ((one _).trans (by rw [Nat.pow_zero, Nat.div_one]))

/-- The flags of `record` answer for the word stored after the type of the lookup `i` of the lookup list at `p`. -/
def AnswersForWord {T : Type} (cfg : Cfg) (d : Data) (p i : Nat) (record : lookup.Record T) : Prop :=
  ∃ offset word, U16 d (p + 2 + 2 * i) offset ∧ U16 d (p + offset + 2) word ∧
    (lookup.is_right_to_left record.flags = true ↔ word % 2 = 1) ∧
    (lookup.should_ignore_base_glyphs record.flags = true ↔ word / 2 % 2 = 1) ∧
    (lookup.should_ignore_ligature record.flags = true ↔ word / 4 % 2 = 1) ∧
    (lookup.should_ignore_marks record.flags = true ↔ word / 8 % 2 = 1) ∧
    (lookup.has_mark_filtering record.flags = true ↔ word / 16 % 2 = 1) ∧
    (lookup.has_mark_filtering record.flags = true ↔ record.mark_filtering_set ≠ none) ∧
    (lookup.is_invalid record.flags = true ↔ word / 32 % 8 ≠ 0) ∧
    (cfg.rejectInvalidFlags = true → lookup.is_invalid record.flags = false)

theorem answers_for_word {T : Type} {cfg : Cfg} {isTable : Nat → Data → Nat → T → Prop} {d : Data} {p i : Nat}
    {t : lookup.Lookups T} (h : IsLookups cfg isTable d p t) {record : lookup.Record T}
    (hr : t.records[i]? = some record) : AnswersForWord cfg d p i record := by
  obtain ⟨offset, h1, _, h2, _, _, h3, _⟩ := IsLookups.stored h hr
  obtain ⟨a1, a2, a3, a4, a5, a6, _⟩ := C53_predicates record.flags
  refine ⟨offset, record.flags, h1, h2, a1, a2, a3, a4, a5, ?_, a6, ?_⟩
  · rw [a5, ← h3]
    cases record.mark_filtering_set <;> simp
  · intro hc
    obtain ⟨_, ⟨_, _⟩, h4, h5⟩ := h
    have e1 := List.getElem?_eq_getElem (l := t.offsets) (i := i)
      (by have := (List.getElem?_eq_some_iff.mp hr).1; omega)
    have := (h5 i _ _ e1 hr).2.2.1 hc
    show decide (record.flags &&& 0xE0 > 0) = false
    rw [this]
    rfl

/-- The flags of a lookup read from a tape answer for the word stored. -/
theorem C53_lookup (cfg : Cfg) {d : Data} {p : Nat} (hd : Fits d) :
    (∀ t, Reads (lookup.Lookups.read cfg gsub.Type_.read) d p t → ∀ i record, t.records[i]? = some record →
      AnswersForWord cfg d p i record) ∧
    (∀ t, Reads (lookup.Lookups.read cfg (gpos.Type_.read cfg)) d p t → ∀ i record,
      t.records[i]? = some record → AnswersForWord cfg d p i record) :=
  ⟨fun _ h _ _ hr => answers_for_word ((reads_parses hd).mp h) hr,
    fun _ h _ _ hr => answers_for_word ((reads_parses hd).mp h) hr⟩

theorem not_invalid {cfg : Cfg} {mask x : Nat} (h : FlagsOk cfg mask x) (hc : cfg.rejectInvalidFlags = true) :
    flag x mask = false := by
  unfold flag
  rw [h hc]
  rfl

/-- The flags of an axis read from a tape answer for the word stored sixteen bytes into it, and unless the build
ignores invalid flags they are not invalid. -/
theorem C53_axis (cfg : Cfg) {d : Data} {p : Nat} (hd : Fits d) {t : fvar.AxisRecord}
    (h : Reads (fvar.AxisRecord.read cfg) d p t) :
    ∃ word, U16 d (p + 16) word ∧ (fvar.AxisFlags.is_hidden t.flags = true ↔ word % 2 = 1) ∧
      (fvar.AxisFlags.is_invalid t.flags = true ↔ word / 2 % 32768 ≠ 0) ∧
      (cfg.rejectInvalidFlags = true → fvar.AxisFlags.is_invalid t.flags = false) := by
  obtain ⟨_, _, _, _, h1, h2, _⟩ := (reads_fixed hd).mp h
  obtain ⟨_, _, _, _, _, _, a1, a2, _⟩ := C53_predicates t.flags
  exact ⟨_, h1, a1, a2, fun hc => not_invalid h2 hc⟩

/-- The flags of an instance read from a tape answer for its second word. -/
theorem C53_instance (cfg : Cfg) {axes : Nat} {d : Data} {p : Nat} (hd : Fits d) {t : fvar.InstanceRecord}
    (h : Reads (fvar.InstanceRecord.read cfg axes) d p t) :
    ∃ word, U16 d (p + 2) word ∧ (fvar.InstanceFlags.is_invalid t.flags = true ↔ word ≠ 0) ∧
      (cfg.rejectInvalidFlags = true → fvar.InstanceFlags.is_invalid t.flags = false) := by
  obtain ⟨_, h1, h2, _⟩ := (reads_fixed hd).mp h
  obtain ⟨_, _, _, _, _, _, _, _, a, _⟩ := C53_predicates t.flags
  refine ⟨_, h1, a.trans ?_, fun hc => not_invalid h2 hc⟩
  rw [Nat.mod_eq_of_lt (U16.lt h1)]

/-- The flags `x` of value records answer for the word stored at `p`. -/
def AnswersForFormat (cfg : Cfg) (d : Data) (p x : Nat) : Prop :=
  ∃ word, U16 d p word ∧
    (gpos.has_x_placement x = true ↔ word % 2 = 1) ∧
    (gpos.has_y_placement x = true ↔ word / 2 % 2 = 1) ∧
    (gpos.has_x_advance x = true ↔ word / 4 % 2 = 1) ∧
    (gpos.has_y_advance x = true ↔ word / 8 % 2 = 1) ∧
    (gpos.has_x_placement_correction x = true ↔ word / 16 % 2 = 1) ∧
    (gpos.has_y_placement_correction x = true ↔ word / 32 % 2 = 1) ∧
    (gpos.has_x_advance_correction x = true ↔ word / 64 % 2 = 1) ∧
    (gpos.has_y_advance_correction x = true ↔ word / 128 % 2 = 1) ∧
    (gpos.is_invalid x = true ↔ word / 256 ≠ 0) ∧
    (cfg.rejectInvalidFlags = true → gpos.is_invalid x = false)

theorem answers_for_format {cfg : Cfg} {d : Data} {p x : Nat} (h : U16 d p x) (hf : FlagsOk cfg 0xFF00 x) :
    AnswersForFormat cfg d p x := by
  obtain ⟨_, _, _, _, _, _, _, _, _, a1, a2, a3, a4, a5, a6, a7, a8, a9⟩ := C53_predicates x
  refine ⟨x, h, a1, a2, a3, a4, a5, a6, a7, a8, a9.trans ?_, fun hc => not_invalid hf hc⟩
  have := U16.lt h
  rw [Nat.mod_eq_of_lt (by omega)]

/-- The flags of value records read from a tape answer for the words stored after the offset of the coverage. -/
theorem C53_values (cfg : Cfg) {d : Data} {p : Nat} (hd : Fits d) :
    (∀ t, Reads (gpos.SingleAdjustment.read cfg) d p (.format1 t) → AnswersForFormat cfg d (p + 4) t.value_flags) ∧
    (∀ t, Reads (gpos.SingleAdjustment.read cfg) d p (.format2 t) → AnswersForFormat cfg d (p + 4) t.value_flags) ∧
    (∀ t, Reads (gpos.PairAdjustment.read cfg) d p (.format1 t) →
      AnswersForFormat cfg d (p + 4) t.value1_flags ∧ AnswersForFormat cfg d (p + 6) t.value2_flags) ∧
    (∀ t, Reads (gpos.PairAdjustment.read cfg) d p (.format2 t) →
      AnswersForFormat cfg d (p + 4) t.value1_flags ∧ AnswersForFormat cfg d (p + 6) t.value2_flags) := by
  refine ⟨fun t h => ?_, fun t h => ?_, fun t h => ?_, fun t h => ?_⟩
  · obtain ⟨_, _, _, h1, h2, _⟩ := (reads_parses hd).mp h
    exact answers_for_format h1 h2
  · obtain ⟨_, _, _, h1, h2, _⟩ := (reads_parses hd).mp h
    exact answers_for_format h1 h2
  · obtain ⟨_, _, _, h1, h2, h3, h4, _⟩ := (reads_parses hd).mp h
    exact ⟨answers_for_format h1 h2, answers_for_format h3 h4⟩
  · obtain ⟨_, _, _, h1, h2, h3, h4, _⟩ := (reads_parses hd).mp h
    exact ⟨answers_for_format h1 h2, answers_for_format h3 h4⟩

/-- In `sampleLookups` the only flag is that of the mark filtering set; flags with all bits. -/
example : lookup.has_mark_filtering 16 = true ∧ lookup.is_invalid 16 = false ∧
    lookup.should_ignore_marks 16 = false ∧ lookup.is_invalid 0xFF1F = false ∧
    lookup.is_invalid 0x0040 = true ∧ lookup.is_right_to_left 0xFFFF = true := by decide +kernel

/-- In `sampleFvar` the first axis is hidden and the second is not; in `sampleAdjustment` each value has a horizontal
placement and a place for the correction of the horizontal advance. -/
example : Fits sampleFvar ∧
    Reads (fvar.AxisRecord.read ⟨false, false, false, false, true, true⟩) sampleFvar 17
      ⟨0x77676874, 0x10000, 0x20000, 0x30000, 1, 256⟩ ∧ fvar.AxisFlags.is_hidden 1 = true ∧
    Reads (fvar.InstanceRecord.read ⟨false, false, false, false, true, true⟩ 2) sampleFvar 61
      ⟨258, 0, [0x10000, -0x10000], 260⟩ ∧
    U16 sampleAdjustment 4 0x41 ∧ gpos.has_x_placement 0x41 = true ∧
    gpos.has_x_advance_correction 0x41 = true ∧ gpos.has_y_placement 0x41 = false := by decide +kernel

end OpenType.Props
