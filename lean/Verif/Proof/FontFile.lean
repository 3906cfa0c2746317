import Verif.Spec.FontFile
import Verif.Proof.Encode
import Verif.Proof.Checksum
/-! # Reading a font file that was written -/

namespace OpenType
open Spec offsets

theorem pad_length (body : Data) : (pad body).length = 4 * ((body.length + 3) / 4) := by
  simp only [pad, List.length_append, List.length_replicate]
  omega

theorem words_length (d : Data) : (words d).length = d.length / 4 := by
  induction d using words.induct with
  | case1 a b c e rest ih => simp only [words, List.length_cons, ih]; omega
  | case2 d h =>
    unfold words
    split
    · exact (h _ _ _ _ _ rfl).elim
    · match d, h with
      | [], _ => rfl
      | [_], _ => simp
      | [_, _], _ => simp
      | [_, _, _], _ => simp
      | a :: b :: c :: e :: rest, h => exact (h a b c e rest rfl).elim

theorem words_fit (d : Data) : All32 (words d) := by
  induction d using words.induct with
  | case1 a b c e rest ih =>
    intro x hx
    rw [words, List.mem_cons] at hx
    rcases hx with rfl | hx
    · have := a.toNat_lt; have := b.toNat_lt; have := c.toNat_lt; have := e.toNat_lt
      omega
    · exact ih x hx
  | case2 d h =>
    have : words d = [] := by
      unfold words
      split
      · exact (h _ _ _ _ _ rfl).elim
      · rfl
    rw [this]
    intro x hx
    cases hx

theorem enc32s_words (d : Data) (h : d.length % 4 = 0) : enc32s (words d) = d := by
  induction d using words.induct with
  | case1 a b c e rest ih =>
    have ih := ih (by simp only [List.length_cons] at h; omega)
    have ha := a.toNat_lt; have hb := b.toNat_lt; have hc := c.toNat_lt; have he := e.toNat_lt
    simp only [words, enc32s, List.flatMap_cons] at ih ⊢
    rw [ih]
    simp only [enc32, enc16]
    have e1 : (a.toNat * 16777216 + b.toNat * 65536 + c.toNat * 256 + e.toNat) / 65536 / 256 = a.toNat := by omega
    have e2 : (a.toNat * 16777216 + b.toNat * 65536 + c.toNat * 256 + e.toNat) / 65536 % 256 = b.toNat := by omega
    have e3 : (a.toNat * 16777216 + b.toNat * 65536 + c.toNat * 256 + e.toNat) % 65536 / 256 = c.toNat := by omega
    have e4 : (a.toNat * 16777216 + b.toNat * 65536 + c.toNat * 256 + e.toNat) % 65536 % 256 = e.toNat := by omega
    rw [e1, e2, e3, e4]
    simp
  | case2 d hn =>
    match d, hn with
    | [], _ => rfl
    | [_], _ => simp at h
    | [_, _], _ => simp at h
    | [_, _, _], _ => simp at h
    | a :: b :: c :: e :: rest, hn => exact (hn a b c e rest rfl).elim

theorem sumBut_none {skip : Nat → Bool} {i : Nat} {ws : List Nat} (h : ∀ j, skip j = false) :
    sumBut skip i ws = ws.sum := by
  induction ws generalizing i with
  | nil => rfl
  | cons w ws ih => simp [sumBut, h, ih]

theorem sumBut_one {skip : Nat → Bool} {i k : Nat} {ws : List Nat}
    (h : ∀ j, skip j = decide (j = i + k)) : sumBut skip i ws = (ws.set k 0).sum := by
  induction ws generalizing i k with
  | nil => rfl
  | cons w ws ih =>
    cases k with
    | zero =>
      have : ∀ j, i < j → skip j = false := by intro j hj; rw [h]; simp; omega
      have : ∀ m, i < m → sumBut skip m ws = ws.sum := by
        clear ih h
        induction ws with
        | nil => intros; rfl
        | cons v ws ih => intro m hm; simp [sumBut, this m hm, ih (m + 1) (by omega)]
      simp [sumBut, h, this (i + 1)]
    | succ k =>
      have := ih (i := i + 1) (k := k) fun j => by rw [h]; congr 1; rw [Nat.add_assoc, Nat.add_comm 1 k]
      rw [List.set_cons_succ, List.sum_cons, ← this]
      simp [sumBut, h]

theorem head_tag : TableType.fontHeader.tag = 0x68656164 := by decide +kernel

/-- The checksum the reader computes is the one written. -/
theorem checksum_written {d : Data} {tag : Tag} {body : Data} {p offset n : Nat}
    (h : Stored d offset (pad body)) :
    tableChecksum ⟨tag, n, offset, body.length⟩ d p = .ok (checksumOf tag body, p) := by
  rw [run_tableChecksum]
  refine ⟨⟨words (pad body), ?_, ?_⟩, rfl⟩
  · rw [at32s, enc32s_words _ (by rw [pad_length]; omega), words_length, pad_length]
    exact ⟨by simp, words_fit _, h⟩
  · unfold checksumOf
    congr 1
    split
    · next e =>
      refine (sumBut_one (k := 2) fun j => ?_).symm
      rw [Bool.eq_iff_iff]
      simp [skipped, e, head_tag]
    · next e =>
      refine (sumBut_none fun j => ?_).symm
      simp [skipped, e, head_tag]

theorem recordsFrom_append (o : Nat) (a b : List (Tag × Data)) :
    recordsFrom o (a ++ b) =
      recordsFrom o a ++ recordsFrom (o + (a.flatMap fun t => pad t.2).length) b := by
  induction a generalizing o with
  | nil => rfl
  | cons t a ih =>
    simp only [List.cons_append, recordsFrom, ih, List.flatMap_cons, List.length_append, Nat.add_assoc]

theorem recordsFrom_length (o : Nat) (a : List (Tag × Data)) : (recordsFrom o a).length = a.length := by
  induction a generalizing o with
  | nil => rfl
  | cons t a ih => simp [recordsFrom, ih]

theorem mem_recordsFrom {o : Nat} {a : List (Tag × Data)} {r : offsets.Record} (h : r ∈ recordsFrom o a) :
    ∃ before body after, a = before ++ (r.tag, body) :: after ∧ r.size = body.length ∧
      r.checksum = checksumOf r.tag body ∧
      r.offset = o + (before.flatMap fun t => pad t.2).length := by
  induction a generalizing o with
  | nil => cases h
  | cons t a ih =>
    rw [recordsFrom, List.mem_cons] at h
    rcases h with rfl | h
    · exact ⟨[], t.2, a, rfl, rfl, rfl, rfl⟩
    · obtain ⟨before, body, after, rfl, h1, h2, h3⟩ := ih h
      exact ⟨t :: before, body, after, rfl, h1, h2, by
        rw [h3, List.flatMap_cons, List.length_append, Nat.add_assoc]⟩

theorem encRecord_length (r : offsets.Record) : (encRecord r).length = 16 := rfl

theorem fontFile_length (version a b c : Nat) (tables : List (Tag × Data)) :
    (fontFile version a b c tables).length =
      tablesOffset tables + (tables.flatMap fun t => pad t.2).length := by
  simp only [fontFile, tablesOffset, List.length_append, enc32_length, enc16_length,
    flatMap_length fun r _ => encRecord_length r, recordsFrom_length]

theorem at_record {d : Data} {p : Nat} {r : offsets.Record} :
    IsOffsetsRecord d p r ↔
      (r.tag < 4294967296 ∧ r.checksum < 4294967296 ∧ r.offset < 4294967296 ∧ r.size < 4294967296) ∧
        Stored d p (encRecord r) ∧ True := by
  simp only [IsOffsetsRecord, encRecord, at32, stored_append, List.length_append, enc32_length]
  grind

/-- The directory of a written file. -/
theorem offsets_written {accept : Tag → Bool} {version a b c : Nat} {tables : List (Tag × Data)}
    (hv : version < 4294967296) (ha : accept version = true) (h1 : a < 65536) (h2 : b < 65536) (h3 : c < 65536)
    (hn : tables.length < 65536) (ht : ∀ t ∈ tables, t.1 < 4294967296)
    (hl : (fontFile version a b c tables).length < 4294967296) (after : Data) :
    IsOffsets accept (fontFile version a b c tables ++ after) 0 (directoryOf version a b c tables).offsets := by
  have hs : Stored (fontFile version a b c tables ++ after) 0 (fontFile version a b c tables) := by
    intro i x hi
    rw [Nat.zero_add, List.getElem?_append_left (List.getElem?_eq_some_iff.mp hi).1]
    exact hi
  generalize hd : fontFile version a b c tables ++ after = d at hs ⊢
  unfold fontFile at hs
  simp only [stored_append, List.length_append, enc32_length, enc16_length, Nat.zero_add] at hs
  obtain ⟨⟨⟨⟨⟨⟨s1, s2⟩, s3⟩, s4⟩, s5⟩, s6⟩, s7⟩ := hs
  have s1 := at32.mpr ⟨hv, s1⟩
  have s2 := at16.mpr ⟨hn, s2⟩
  have s3 := at16.mpr ⟨h1, s3⟩
  have s4 := at16.mpr ⟨h2, s4⟩
  have s5 := at16.mpr ⟨h3, s5⟩
  unfold IsOffsets directoryOf
  simp only [Nat.zero_add]
  refine ⟨s1, ha, s2, s3, s4, s5, ?_⟩
  refine (at_array (d := d) (S := IsOffsetsRecord d) (f := encRecord) (H := fun _ => True) (size := 16)
    (V := fun r => r.tag < 4294967296 ∧ r.checksum < 4294967296 ∧ r.offset < 4294967296 ∧ r.size < 4294967296)
    (fun p x => at_record) fun x _ => encRecord_length x).mpr
    ⟨recordsFrom_length _ _, fun r hr => ?_, s6, fun _ _ => trivial⟩
  obtain ⟨before, body, rest, e, e1, e2, e3⟩ := mem_recordsFrom hr
  rw [fontFile_length] at hl
  have hb : (pad body).length = 4 * ((body.length + 3) / 4) := pad_length body
  rw [e] at hl
  simp only [List.flatMap_append, List.flatMap_cons, List.length_append] at hl
  rw [← e] at hl
  refine ⟨ht (r.tag, body) (by rw [e]; simp), ?_, ?_, ?_⟩
  · rw [e2]; unfold checksumOf; omega
  · rw [e3]; omega
  · rw [e1]; omega

/-- Where a table of a written file is. -/
theorem table_written (version a b c : Nat) (before after : List (Tag × Data)) (tag : Tag) (body : Data) :
    ∃ pre post, fontFile version a b c (before ++ (tag, body) :: after) = pre ++ pad body ++ post ∧
      pre.length = tablesOffset (before ++ (tag, body) :: after) + (before.flatMap fun t => pad t.2).length := by
  let tables := before ++ (tag, body) :: after
  refine ⟨enc32 version ++ enc16 tables.length ++ enc16 a ++ enc16 b ++ enc16 c ++
    (recordsFrom (tablesOffset tables) tables).flatMap encRecord ++ before.flatMap fun t => pad t.2,
    after.flatMap fun t => pad t.2, ?_, ?_⟩
  · unfold fontFile
    rw [List.flatMap_append, List.flatMap_cons]
    simp only [List.append_assoc, tables]
  · simp only [tables, tablesOffset, List.length_append, enc32_length, enc16_length,
      flatMap_length fun r _ => encRecord_length r, recordsFrom_length]

end OpenType
