import Verif.Proof.Layout
import Verif.Proof.Gsub
import Verif.Props.Faithful
/-! # C09-C15: coverages, classes, corrections and contexts -/

namespace OpenType.Props
open OpenType Spec coverage class_ correction context

/-! ## C09 -/

/-- A coverage is read as it is stored. -/
theorem C09_coverage : Faithful Coverage.read IsCoverage := faithful

/-- Any other format number is an error. -/
theorem C09_other_format {d : Data} {p n : Nat} (hd : Fits d) (h : U16 d p n) (hn : n ≠ 1 ∧ n ≠ 2) :
    Refuses (Coverage.read d p) := by
  refuses_format Coverage.read hd h

/-- Missing bytes are an error: the tape ends before the last glyph or range. -/
theorem C09_missing {d : Data} {p f n : Nat} (hd : Fits d) (hf : U16 d p f) (hn : U16 d (p + 2) n)
    (h : f = 1 ∧ d.length < p + 4 + 2 * n ∨ f = 2 ∧ d.length < p + 4 + 6 * n) :
    Fails (Coverage.read d p) := by
  refine C09_coverage.fails hd fun v hv => ?_
  have key : ∀ {α : Type} {S : Nat → α → Prop} {k q m : Nat} {xs : List α}, ArrayOf S k q m xs →
      (∀ i x, S i x → i + k ≤ d.length) → m ≠ 0 → q + k * m ≤ d.length := by
    intro α S k q m xs hx hS hm
    have h1 : m - 1 < xs.length := by have := hx.1; omega
    have h2 := hS _ _ (hx.2 (m - 1) _ (List.getElem?_eq_getElem h1))
    have h3 : k * (m - 1) + k = k * m := by rw [← Nat.mul_succ]; congr 1; omega
    omega
  unfold IsCoverage at hv
  split at hv
  · obtain ⟨h1, h2, h3, h4⟩ := hv
    rw [h1] at h2
    have := hf.unique h2
    have h5 := hn.unique h3
    have h6 := hn.bound'
    rcases h with ⟨_, h⟩ | ⟨h, _⟩
    · by_cases h0 : n = 0
      · omega
      · have := key h4 (fun i x hx => by have := U16.bound' hx; omega) (by omega)
        omega
    · omega
  · obtain ⟨h1, h2, h3, h4⟩ := hv
    rw [h1] at h2
    have := hf.unique h2
    have h5 := hn.unique h3
    have h6 := hn.bound'
    rcases h with ⟨h, _⟩ | ⟨_, h⟩
    · omega
    · by_cases h0 : n = 0
      · omega
      · have := key h4 (fun i x hx => by have := U16.bound' hx.2.2; omega) (by omega)
        omega

/-- Two ranges at position 1; a format nobody knows at position 0; not enough glyphs. -/
example : let d := bytes [7, 0, 2, 0, 2, 0, 5, 0, 7, 0, 0, 0, 9, 0, 9, 0, 3]
    Reads Coverage.read d 1 (.format2 ⟨2, 2, [⟨5, 7, 0⟩, ⟨9, 9, 3⟩]⟩) ∧ U16 d 0 0x700 ∧
      Refuses (Coverage.read d 0) :=
  ⟨by decide +kernel, by decide +kernel, C09_other_format (by decide +kernel) (n := 0x700) (by decide +kernel)
    (by decide)⟩

example : let d := bytes [0, 1, 0, 3, 0, 5, 0, 7]
    U16 d 0 1 ∧ U16 d 2 3 ∧ d.length < 0 + 4 + 2 * 3 ∧ Coverage.read d 0 = .error .eof := by decide +kernel

/-! ## C10 -/

/-- A class definition is read as it is stored. -/
theorem C10_class : Faithful Class.read IsClass := faithful

/-- Any other format number is an error. -/
theorem C10_other_format {d : Data} {p n : Nat} (hd : Fits d) (h : U16 d p n) (hn : n ≠ 1 ∧ n ≠ 2) :
    Refuses (Class.read d p) := by
  refuses_format Class.read hd h

example : let d := bytes [0, 1, 0, 9, 0, 2, 0, 5, 0, 7]
    Reads Class.read d 0 (.format1 ⟨1, 9, 2, [5, 7]⟩) ∧ U16 d 2 9 := by decide +kernel

/-! ## C11 -/

/-- A correction is read as it is stored, be it a device table or a variation index. -/
theorem C11_correction : Faithful Correction.read IsCorrection := faithful

/-- A device table comes out only for formats 1 to 3 and sizes in order, and its fields are the stored ones. -/
theorem C11_device {d : Data} {p f : Nat} (hd : Fits d) (hf : U16 d (p + 4) f) {t : Device}
    (h : Reads Correction.read d p (.device t)) :
    1 ≤ f ∧ f ≤ 3 ∧ t.format = f ∧ U16 d p t.start_size ∧ U16 d (p + 2) t.end_size ∧
      t.start_size ≤ t.end_size ∧
      ∀ i w, t.deltas[i]? = some w → U16 d (p + 6 + 2 * i) w := by
  obtain ⟨h1, h2, h3, h4, h5, h6, h7⟩ := ((C11_correction d p hd).1 _).mp h
  have := hf.unique h3
  exact ⟨by omega, by omega, by omega, h1, h2, h4, h7.2⟩

/-- Sizes out of order are refused. -/
theorem C11_sizes {d : Data} {p f s e : Nat} (hd : Fits d) (hf : U16 d (p + 4) f) (hs : U16 d p s)
    (he : U16 d (p + 2) e) (h : e < s) (h13 : 1 ≤ f ∧ f ≤ 3) : Refuses (Correction.read d p) := by
  have hp : peek peeked d p = .ok ((65536 * s + e, f), p) := peek_ok hd ⟨⟨s, e, hs, he, rfl⟩, hf⟩
  have hr : Device.read d p = .error (.malformed "found a malformed device correction") := by
    unfold Device.read
    refine (bind_ok ((Fixed.run hd).mpr ⟨hs, rfl⟩)).trans ?_
    refine (bind_ok ((Fixed.run hd).mpr ⟨he, rfl⟩)).trans ?_
    refine bind_error ?_
    unfold raiseIf
    rw [if_pos h]
    rfl
  refine ⟨"found a malformed device correction", ?_⟩
  unfold Correction.read
  refine (bind_ok hp).trans ?_
  dsimp only
  rw [if_pos h13]
  exact bind_error hr

/-- A variation index comes out exactly for `0x8000`, and its fields are the stored ones. -/
theorem C11_variation {d : Data} {p f : Nat} (hd : Fits d) (hf : U16 d (p + 4) f) :
    (f = 0x8000 ↔ ∃ t, Reads Correction.read d p (.variation t)) ∧
    ∀ t, Reads Correction.read d p (.variation t) →
      U16 d p t.outer_index ∧ U16 d (p + 2) t.inner_index ∧ t.format = f := by
  have word : ∀ q, q + 1 < d.length → ∃ w, U16 d q w := fun q hq =>
    ⟨_, _, _, ⟨_, List.getElem?_eq_getElem (by omega), rfl⟩, ⟨_, List.getElem?_eq_getElem hq, rfl⟩, rfl⟩
  have hb := hf.bound'
  refine ⟨⟨?_, ?_⟩, ?_⟩
  · rintro rfl
    obtain ⟨a, ha⟩ := word p (by omega)
    obtain ⟨b, hb⟩ := word (p + 2) (by omega)
    exact ⟨⟨a, b, 0x8000⟩, ((C11_correction d p hd).1 _).mpr ⟨rfl, ha, hb, hf⟩⟩
  · rintro ⟨t, ht⟩
    obtain ⟨h1, _, _, h2⟩ := ((C11_correction d p hd).1 _).mp ht
    exact (hf.unique h2).trans h1
  · intro t ht
    obtain ⟨h1, h2, h3, h4⟩ := ((C11_correction d p hd).1 _).mp ht
    exact ⟨h2, h3, (h4.unique hf)⟩

/-- Every other format is an error. -/
theorem C11_other_format {d : Data} {p f : Nat} (hd : Fits d) (hf : U16 d (p + 4) f)
    (hn : ¬(1 ≤ f ∧ f ≤ 3) ∧ f ≠ 0x8000) : Refuses (Correction.read d p) := by
  have hb := hf.bound'
  have hx : ∃ a, U32 d p a :=
    ⟨_, _, _, ⟨_, _, ⟨_, List.getElem?_eq_getElem (by omega), rfl⟩, ⟨_, List.getElem?_eq_getElem (by omega), rfl⟩,
      rfl⟩, ⟨_, _, ⟨_, List.getElem?_eq_getElem (by omega), rfl⟩, ⟨_, List.getElem?_eq_getElem (by omega), rfl⟩,
      rfl⟩, rfl⟩
  obtain ⟨a, ha⟩ := hx
  have hp : peek peeked d p = .ok ((a, f), p) := peek_ok hd ⟨ha, hf⟩
  refine ⟨⟨"found an unknown format of the adjustment correction", [f]⟩, ?_⟩
  unfold Correction.read
  refine (bind_ok hp).trans ?_
  dsimp only
  rw [if_neg hn.1, if_neg hn.2]
  rfl

/-- Sizes 11 to 15 with 4 bits each: 20 bits, two words. -/
def sampleDevice : Data := bytes [0, 11, 0, 15, 0, 2, 0x12, 0x34, 0x50, 0]

example : Reads Correction.read sampleDevice 0 (.device ⟨11, 15, 2, [0x1234, 0x5000]⟩) ∧
    Reads Correction.read (bytes [0, 1, 0, 2, 0x80, 0]) 0 (.variation ⟨1, 2, 0x8000⟩) ∧
    (∃ m, Correction.read (bytes [0, 1, 0, 2, 0x80, 1]) 0 = .error (.malformed m)) ∧
    ∃ m, Correction.read (bytes [0, 2, 0, 1, 0, 1]) 0 = .error (.malformed m) :=
  ⟨by decide +kernel, by decide +kernel, C11_other_format (f := 0x8001) (by decide +kernel) (by decide +kernel)
    (by decide), C11_sizes (f := 1) (s := 2) (e := 1) (by decide +kernel) (by decide +kernel) (by decide +kernel)
    (by decide +kernel) (by decide) (by decide)⟩

/-! ## C12 -/

/-- The full property: a device table with as many words as its sizes call for is what is read. -/
def ExactDevices : Prop :=
  ∀ d p t, Fits d → IsDeviceExact d p t → Reads Correction.read d p (.device t)

/-- The property holds of a device table whose last word is not full. -/
theorem C12_exact_words_partial {d : Data} {p : Nat} {t : Device} (hd : Fits d)
    (h : 2 ^ t.format * (t.end_size - t.start_size + 1) % 16 ≠ 0) :
    Reads Correction.read d p (.device t) ↔ IsDeviceExact d p t := by
  rw [(C11_correction d p hd).1]
  show IsDevice d p t ↔ IsDeviceExact d p t
  unfold IsDevice IsDeviceExact
  rw [show deviceWordsTaken t.start_size t.end_size t.format = deviceWords t.start_size t.end_size t.format by
    unfold deviceWordsTaken deviceWords; omega]

example : Fits sampleDevice ∧ 2 ^ 2 * (15 - 11 + 1) % 16 ≠ 0 ∧
    Reads Correction.read sampleDevice 0 (.device ⟨11, 15, 2, [0x1234, 0x5000]⟩) := by decide +kernel

/-- Otherwise one word more is demanded and returned: the words of the table come first. -/
theorem C12_one_word_more_partial {d : Data} {p : Nat} {t : Device} (hd : Fits d)
    (h : 2 ^ t.format * (t.end_size - t.start_size + 1) % 16 = 0) :
    Reads Correction.read d p (.device t) ↔
      ∃ words extra, t.deltas = words ++ [extra] ∧ IsDeviceExact d p { t with deltas := words } ∧
        U16 d (p + 6 + 2 * deviceWords t.start_size t.end_size t.format) extra := by
  rw [(C11_correction d p hd).1]
  show IsDevice d p t ↔ _
  unfold IsDevice IsDeviceExact
  dsimp only
  have hw : deviceWordsTaken t.start_size t.end_size t.format =
      deviceWords t.start_size t.end_size t.format + 1 := by
    unfold deviceWordsTaken deviceWords; omega
  rw [hw]
  generalize deviceWords t.start_size t.end_size t.format = n
  constructor
  · rintro ⟨h1, h2, h3, h4, h5, h6, h7, h8⟩
    have hne : t.deltas ≠ [] := by intro h; rw [h] at h7; cases h7
    refine ⟨t.deltas.dropLast, t.deltas.getLast hne, (List.dropLast_concat_getLast hne).symm,
      ⟨h1, h2, h3, h4, h5, h6, ?_, ?_⟩, ?_⟩
    · rw [List.length_dropLast]; omega
    · intro i x hi
      refine h8 i x ?_
      rw [List.getElem?_dropLast] at hi
      split at hi
      · exact hi
      · cases hi
    · refine h8 n _ ?_
      rw [List.getLast_eq_getElem, List.getElem?_eq_getElem (by omega)]
      congr 2
      omega
  · rintro ⟨words, extra, hw, ⟨h1, h2, h3, h4, h5, h6, h7, h8⟩, h9⟩
    refine ⟨h1, h2, h3, h4, h5, h6, by rw [hw]; simp [h7], ?_⟩
    intro i x hi
    rw [hw] at hi
    by_cases hl : i < words.length
    · rw [List.getElem?_append_left hl] at hi
      exact h8 i x hi
    · rw [List.getElem?_append_right (by omega)] at hi
      have hi' : i - words.length = 0 := by
        have := (List.getElem?_eq_some_iff.mp hi).1
        simpa using this
      rw [hi'] at hi
      cases hi
      rwa [show i = n by omega]

/-- Sizes 1 to 8 with 2 bits each, which fill one word. -/
def fullDevice : Data := bytes [0, 1, 0, 8, 0, 1, 0x12, 0x34]

/-- The property does not hold: a device table whose deltas fill their last word is refused when it ends the
tape, and is given a word that does not belong to it when it does not. -/
theorem C12_violated :
    ¬ExactDevices ∧
    IsDeviceExact fullDevice 0 ⟨1, 8, 1, [0x1234]⟩ ∧ Correction.read fullDevice 0 = .error .eof ∧
    Reads Correction.read (fullDevice ++ bytes [0xAB, 0xCD]) 0 (.device ⟨1, 8, 1, [0x1234, 0xABCD]⟩) := by
  have h1 : IsDeviceExact fullDevice 0 ⟨1, 8, 1, [0x1234]⟩ := by
    refine ⟨by decide +kernel, by decide +kernel, by decide +kernel, by decide, by decide, by decide, rfl, ?_⟩
    intro i x hi
    match i with
    | 0 => cases hi; decide +kernel
    | _ + 1 => cases hi
  have h2 : Correction.read fullDevice 0 = .error .eof := by decide +kernel
  refine ⟨?_, h1, h2, by decide +kernel⟩
  intro h
  obtain ⟨q, hq⟩ := h _ _ _ (by decide +kernel) h1
  rw [h2] at hq
  cases hq

/-! ## C13 and C14 -/

/-- A contextual table is read as it is stored. -/
theorem C13_context : Faithful Context.read IsContext := faithful

/-- Any other format number is an error. -/
theorem C13_other_format {d : Data} {p n : Nat} (hd : Fits d) (h : U16 d p n)
    (hn : n ≠ 1 ∧ n ≠ 2 ∧ n ≠ 3) : Refuses (Context.read d p) := by
  refuses_format Context.read hd h

/-- A chained contextual table is read as it is stored. -/
theorem C14_chained_context : Faithful ChainedContext.read IsChainedContext := faithful

/-- Any other format number is an error. -/
theorem C14_other_format {d : Data} {p n : Nat} (hd : Fits d) (h : U16 d p n)
    (hn : n ≠ 1 ∧ n ≠ 2 ∧ n ≠ 3) : Refuses (ChainedContext.read d p) := by
  refuses_format ChainedContext.read hd h

/-- A class-based contextual table with two rule sets, of which the first is absent. -/
def sampleContext : Data := bytes <|
  [0, 2,  0, 12,  0, 18,  0, 2,  0, 0,  0, 26] ++
  [0, 1, 0, 1, 0, 77] ++
  [0, 1, 0, 77, 0, 1, 0, 1] ++
  [0, 1, 0, 4] ++
  [0, 2, 0, 1, 0, 1, 0, 0, 0, 3]

example : Reads Context.read sampleContext 0 (.format2 ⟨2, 12, 18, 2, [0, 26], .format1 ⟨1, 1, [77]⟩,
      .format1 ⟨1, 77, 1, [1]⟩, [none, some ⟨1, [4], [⟨2, 1, [1], [⟨0, 3⟩]⟩]⟩]⟩) ∧
    U16 sampleContext 2 12 := by decide +kernel

/-- A coverage-based chained contextual table whose three parts differ. -/
def sampleChained : Data := bytes <|
  [0, 3,  0, 1, 0, 18,  0, 1, 0, 24,  0, 1, 0, 30,  0, 0, 9, 9] ++
  [0, 1, 0, 1, 0, 71] ++ [0, 1, 0, 1, 0, 72] ++ [0, 1, 0, 1, 0, 73]

example : Reads ChainedContext.read sampleChained 0 (.format3 ⟨3, 1, [18], 1, [24], 1, [30], 0, [],
      [.format1 ⟨1, 1, [71]⟩], [.format1 ⟨1, 1, [72]⟩], [.format1 ⟨1, 1, [73]⟩]⟩) ∧
    U16 sampleChained 4 18 := by decide +kernel

/-! ## C15 -/

/-- A rule or ligature without a single glyph is an error. The count comes first in a rule, after the
`n` backtrack glyphs in a chained rule, and after the ligature glyph in a ligature. -/
theorem C15_zero_refused {d : Data} {p : Nat} (hd : Fits d) :
    (U16 d p 0 → Fails (context.Record.read d p)) ∧
    (U16 d p 0 → Fails (ClassRecord.read d p)) ∧
    (∀ n, U16 d p n → U16 d (p + 2 + 2 * n) 0 → Fails (ChainedRecord.read d p)) ∧
    (∀ n, U16 d p n → U16 d (p + 2 + 2 * n) 0 → Fails (ChainedClassRecord.read d p)) ∧
    (U16 d (p + 2) 0 → Fails (gsub.Ligature.read d p)) := by
  refine ⟨fun h => ?_, fun h => ?_, fun n hn h => ?_, fun n hn h => ?_, fun h => ?_⟩
  · exact (faithful (r := context.Record.read)).fails hd fun v hv => hv.2.2.1 (hv.1.unique h)
  · exact (faithful (r := ClassRecord.read)).fails hd fun v hv => hv.2.2.1 (hv.1.unique h)
  · refine (faithful (r := ChainedRecord.read)).fails hd fun v hv => ?_
    obtain ⟨h1, _, h2, h3, _⟩ := hv
    rw [h1.unique hn] at h2
    exact h3 (h2.unique h)
  · refine (faithful (r := ChainedClassRecord.read)).fails hd fun v hv => ?_
    obtain ⟨h1, _, h2, h3, _⟩ := hv
    rw [h1.unique hn] at h2
    exact h3 (h2.unique h)
  · exact (faithful (r := gsub.Ligature.read)).fails hd fun v hv => hv.2.2.1 (hv.2.1.unique h)

/-- Otherwise one glyph fewer than the stored count is returned. -/
theorem C15_one_fewer {d : Data} {p : Nat} (hd : Fits d) :
    (∀ n t, U16 d p n → Reads context.Record.read d p t → n ≠ 0 ∧ t.glyph_ids.length = n - 1) ∧
    (∀ n t, U16 d p n → Reads ClassRecord.read d p t → n ≠ 0 ∧ t.indices.length = n - 1) ∧
    (∀ m n t, U16 d p m → U16 d (p + 2 + 2 * m) n → Reads ChainedRecord.read d p t →
      n ≠ 0 ∧ t.glyph_ids.length = n - 1 ∧ t.backward_glyph_ids.length = m) ∧
    (∀ m n t, U16 d p m → U16 d (p + 2 + 2 * m) n → Reads ChainedClassRecord.read d p t →
      n ≠ 0 ∧ t.indices.length = n - 1 ∧ t.backward_indices.length = m) ∧
    (∀ n t, U16 d (p + 2) n → Reads gsub.Ligature.read d p t → n ≠ 0 ∧ t.glyph_ids.length = n - 1) := by
  refine ⟨?_, ?_, ?_, ?_, ?_⟩
  · intro n t hn h
    obtain ⟨h1, _, h2, h3, _⟩ := (reads_parses hd).mp h
    rw [hn.unique h1]
    exact ⟨h2, h3.1⟩
  · intro n t hn h
    obtain ⟨h1, _, h2, h3, _⟩ := (reads_parses hd).mp h
    rw [hn.unique h1]
    exact ⟨h2, h3.1⟩
  · intro m n t hm hn h
    obtain ⟨h1, h2, h3, h4, h5, _⟩ := (reads_parses hd).mp h
    rw [hm.unique h1] at hn ⊢
    rw [hn.unique h3]
    exact ⟨h4, h5.1, h2.1⟩
  · intro m n t hm hn h
    obtain ⟨h1, h2, h3, h4, h5, _⟩ := (reads_parses hd).mp h
    rw [hm.unique h1] at hn ⊢
    rw [hn.unique h3]
    exact ⟨h4, h5.1, h2.1⟩
  · intro n t hn h
    obtain ⟨_, h1, h2, h3⟩ := (reads_parses hd).mp h
    rw [hn.unique h1]
    exact ⟨h2, h3.1⟩

/-- A ligature of three glyphs, one of none, and a chained rule with one backtrack glyph. -/
example : Reads gsub.Ligature.read (bytes [0, 9, 0, 3, 0, 1, 0, 2]) 0 ⟨9, 3, [1, 2]⟩ ∧
    U16 (bytes [0, 9, 0, 0, 0, 1]) 2 0 ∧
    Reads ChainedRecord.read (bytes [0, 1, 0, 4, 0, 2, 0, 5, 0, 0, 0, 0]) 0 ⟨1, [4], 2, [5], 0, [], 0, []⟩ ∧
    U16 (bytes [0, 1, 0, 4, 0, 0, 0, 0]) 0 1 ∧ U16 (bytes [0, 1, 0, 4, 0, 0, 0, 0]) (0 + 2 + 2 * 1) 0 := by
  decide +kernel

end OpenType.Props
