import Verif.Spec.Rules
import Verif.Proof.Generic
import Verif.Proof.Encode
import Verif.Proof.Gsub
import Verif.Props.Sample
/-! # C133: subtables made of rules -/

namespace OpenType.Props
open OpenType Spec

variable {d : Data}

theorem writeCoverage_length (glyphs : List Nat) : (writeCoverage glyphs).length = 4 + 2 * glyphs.length := by
  simp only [writeCoverage, List.length_append, enc16_length, enc16s_length]

theorem coverage_there {glyphs : List Nat} (hg : Glyphs glyphs) (hn : glyphs.length < 65536) {P : Nat}
    (h : Stored d P (writeCoverage glyphs)) : IsCoverage d P (.format1 ⟨1, glyphs.length, glyphs⟩) := by
  simp only [writeCoverage, stored_append, List.length_append, enc16_length] at h
  exact ⟨rfl, at16.mpr ⟨(by decide : 1 < 65536), h.1.1⟩, at16.mpr ⟨hn, h.1.2⟩, at16s.mpr ⟨rfl, hg, h.2⟩⟩

theorem placesFrom_length (o : Nat) (bodies : List Data) : (placesFrom o bodies).length = bodies.length := by
  induction bodies generalizing o with
  | nil => rfl
  | cons b bs ih => simp only [placesFrom, List.length_cons, ih]

theorem placesFrom_fit {o : Nat} {bodies : List Data} (h : o + bodies.flatten.length < 65536) : All16 (placesFrom o bodies) := by
  induction bodies generalizing o with
  | nil => intro x hx; cases hx
  | cons b bs ih =>
    rw [List.flatten_cons, List.length_append] at h
    intro x hx
    rcases List.mem_cons.mp hx with rfl | hx
    · omega
    · exact ih (by omega) x hx

theorem there_each {α β : Type} {write : α → Data} {value : α → β} {S : Nat → β → Prop} {rules : List α} {P o : Nat}
    (h : Stored d (P + o) (rules.map write).flatten) (hS : ∀ r ∈ rules, ∀ Q, Stored d Q (write r) → S Q (value r)) :
    AtOffsets S P (placesFrom o (rules.map write)) (rules.map value) := by
  refine ⟨by rw [placesFrom_length, List.length_map, List.length_map], ?_⟩
  induction rules generalizing o with
  | nil => intro i o x h _; cases h
  | cons r rules ih =>
    rw [List.map_cons, List.flatten_cons, stored_append] at h
    intro i o' x h1 h2
    cases i with
    | zero =>
      obtain rfl := Option.some.inj h1
      obtain rfl := Option.some.inj h2
      exact hS r List.mem_cons_self _ h.1
    | succ i => exact ih (o := o + (write r).length) (by rw [← Nat.add_assoc]; exact h.2) (fun r hr => hS r (List.mem_cons_of_mem _ hr)) i o' x h1 h2

theorem entryOf_rules {α β : Type} (n : Nat) (rules : List (Nat × α)) (value : α → β) (g : Nat) :
    entryOf (.format1 ⟨1, n, rules.map (·.1)⟩) (rules.map fun r => value r.2) g = .ok ((rules.lookup g).map value) := by
  unfold entryOf indexOf
  dsimp only
  suffices h : (match (rules.map (·.1)).findIdx? (· == g) with
      | none => none
      | some i => (rules.map fun r => value r.2)[i]?) = (rules.lookup g).map value ∧
      ∀ i, (rules.map (·.1)).findIdx? (· == g) = some i → i < rules.length by
    obtain ⟨h1, h2⟩ := h
    cases e : (rules.map (·.1)).findIdx? (· == g) with
    | none => rw [e] at h1; rw [← h1]
    | some i =>
      have hi := h2 i e
      rw [e] at h1
      dsimp only at h1 ⊢
      rw [← h1]
      unfold element
      rw [List.getElem?_eq_getElem (by rw [List.length_map]; exact hi)]
      rfl
  refine ⟨?_, fun i e => by have := (List.findIdx?_eq_some_iff_findIdx_eq.mp e).1; rwa [List.length_map] at this⟩
  induction rules with
  | nil => rfl
  | cons r rules ih =>
    rw [List.map_cons, List.findIdx?_cons, List.lookup_cons]
    by_cases hg : r.1 = g
    · subst hg
      simp
    · have h1 : (r.1 == g) = false := by simpa using hg
      have h2 : (g == r.1) = false := by simpa using fun h => hg h.symm
      rw [h1, h2]
      simp only [Bool.false_eq_true, if_false]
      rw [← ih]
      cases (rules.map (·.1)).findIdx? (· == g) <;> rfl

/-- The rules for single glyphs can be read wherever they are, and say what becomes of each glyph: what the first rule for it says. -/
theorem C133_single {rules : List (Nat × Nat)} (h1 : Glyphs (rules.map (·.1))) (h2 : Glyphs (rules.map (·.2)))
    (hl : 6 + 2 * rules.length < 65536) :
    ∃ t, (∀ d p, Fits d → Stored d p (writeSingle rules) → Reads (gsub.Type_.read 1) d p (.singleSubstitution t)) ∧
      ∀ g, replace t g = .ok (rules.lookup g) := by
  refine ⟨.format2 ⟨2, 6 + 2 * rules.length, rules.length, rules.map (·.2), .format1 ⟨1, (rules.map (·.1)).length, rules.map (·.1)⟩⟩, ?_, ?_⟩
  · intro d p hd h
    refine (reads_parses (S := Spec.gsub.IsTable 1) hd).mpr ?_
    simp only [writeSingle, stored_append, List.length_append, enc16_length, enc16s_length, List.length_map] at h
    obtain ⟨⟨⟨⟨s1, s2⟩, s3⟩, s4⟩, s5⟩ := h
    have hn : rules.length < 65536 := by omega
    refine ⟨rfl, rfl, at16.mpr ⟨(by decide : 2 < 65536), s1⟩, at16.mpr ⟨hl, s2⟩, at16.mpr ⟨hn, s3⟩, at16s.mpr ⟨List.length_map .., h2, s4⟩, ?_⟩
    refine coverage_there h1 (by rw [List.length_map]; omega) ?_
    exact s5
  · intro g
    have := entryOf_rules (rules.map (·.1)).length rules id g
    rw [Option.map_id_fun, id] at this
    exact this

theorem each_there {α β : Type} {write : α → Data} {value : α → β} {S : Nat → β → Prop} {rules : List (Nat × α)} {p : Nat}
    (h : Stored d p (writeEach write rules)) (h1 : Glyphs (rules.map (·.1))) (hl : (writeEach write rules).length < 65536)
    (hS : ∀ r ∈ rules, ∀ Q, Stored d Q (write r.2) → S Q (value r.2)) :
    U16 d p 1 ∧ U16 d (p + 2) (6 + 2 * rules.length) ∧ U16 d (p + 4) rules.length ∧
      U16s d (p + 6) rules.length
        (placesFrom (6 + 2 * rules.length + (writeCoverage (rules.map (·.1))).length) (rules.map fun r => write r.2)) ∧
      IsCoverage d (p + (6 + 2 * rules.length)) (.format1 ⟨1, (rules.map (·.1)).length, rules.map (·.1)⟩) ∧
      AtOffsets S p (placesFrom (6 + 2 * rules.length + (writeCoverage (rules.map (·.1))).length) (rules.map fun r => write r.2))
        (rules.map fun r => value r.2) := by
  simp only [writeEach, List.length_append, enc16_length, enc16s_length, placesFrom_length, List.length_map] at hl
  have hc := writeCoverage_length (rules.map (·.1))
  rw [List.length_map] at hc
  simp only [writeEach, stored_append, List.length_append, enc16_length, enc16s_length, placesFrom_length, List.length_map] at h
  obtain ⟨⟨⟨⟨⟨s1, s2⟩, s3⟩, s4⟩, s5⟩, s6⟩ := h
  refine ⟨at16.mpr ⟨by decide, s1⟩, at16.mpr ⟨by omega, s2⟩, at16.mpr ⟨by omega, s3⟩,
    at16s.mpr ⟨by rw [placesFrom_length, List.length_map], placesFrom_fit (by omega), s4⟩,
    coverage_there h1 (by rw [List.length_map]; omega) s5, there_each ?_ hS⟩
  exact s6

theorem glyphs_there {glyphs : List Nat} (hg : Glyphs glyphs) (hl : glyphs.length < 65536) {P : Nat} (h : Stored d P (writeGlyphs glyphs)) :
    U16 d P glyphs.length ∧ U16s d (P + 2) glyphs.length glyphs := by
  simp only [writeGlyphs, stored_append, enc16_length] at h
  exact ⟨at16.mpr ⟨hl, h.1⟩, at16s.mpr ⟨rfl, hg, h.2⟩⟩

theorem each_length {α : Type} {write : α → Data} {rules : List (Nat × α)} {r : Nat × α} (hr : r ∈ rules) :
    (write r.2).length ≤ (writeEach write rules).length := by
  have : (write r.2).length ≤ (rules.map fun r => write r.2).flatten.length := by
    induction rules with
    | nil => cases hr
    | cons x rules ih =>
      rw [List.map_cons, List.flatten_cons, List.length_append]
      rcases List.mem_cons.mp hr with rfl | hr
      · omega
      · have := ih hr
        omega
  unfold writeEach
  rw [List.length_append]
  omega

/-- What is read of some glyphs. -/
def sequenceOf (xs : List Nat) : gsub.Sequence := ⟨xs.length, xs⟩
def alternatesOf (xs : List Nat) : gsub.Alternates := ⟨xs.length, xs⟩

theorem glyphs_fit {rules : List (Nat × List Nat)} (hl : (writeEach writeGlyphs rules).length < 65536) {r : Nat × List Nat} (hr : r ∈ rules) :
    r.2.length < 65536 := by
  have h := each_length (write := writeGlyphs) hr
  have e : (writeGlyphs r.2).length = 2 + 2 * r.2.length := by
    simp only [writeGlyphs, List.length_append, enc16_length, enc16s_length]
  omega

/-- The rules that replace a glyph by several. -/
theorem C133_multiple {rules : List (Nat × List Nat)} (h1 : Glyphs (rules.map (·.1))) (h2 : ∀ r ∈ rules, Glyphs r.2)
    (hl : (writeEach writeGlyphs rules).length < 65536) :
    ∃ t, (∀ d p, Fits d → Stored d p (writeEach writeGlyphs rules) → Reads (gsub.Type_.read 2) d p (.multipleSubstitution t)) ∧
      ∀ g, expand t g = .ok (rules.lookup g) := by
  refine ⟨⟨1, 6 + 2 * rules.length, rules.length, placesFrom (6 + 2 * rules.length + (writeCoverage (rules.map (·.1))).length)
    (rules.map fun r => writeGlyphs r.2), .format1 ⟨1, (rules.map (·.1)).length, rules.map (·.1)⟩,
    rules.map fun r => sequenceOf r.2⟩, ?_, ?_⟩
  · intro d p hd h
    refine (reads_parses (S := Spec.gsub.IsTable 2) hd).mpr ?_
    obtain ⟨k1, k2⟩ := each_there (S := Spec.gsub.IsSequence d) (value := sequenceOf) h h1 hl fun r hr Q hQ =>
      glyphs_there (h2 r hr) (glyphs_fit hl hr) hQ
    exact ⟨rfl, k1, rfl, k2⟩
  · intro g
    unfold expand
    dsimp only
    rw [entryOf_rules]
    show Except.ok _ = _
    cases rules.lookup g <;> rfl

/-- The rules that give alternates for a glyph. -/
theorem C133_alternate {rules : List (Nat × List Nat)} (h1 : Glyphs (rules.map (·.1))) (h2 : ∀ r ∈ rules, Glyphs r.2)
    (hl : (writeEach writeGlyphs rules).length < 65536) :
    ∃ t, (∀ d p, Fits d → Stored d p (writeEach writeGlyphs rules) → Reads (gsub.Type_.read 3) d p (.alternateSubstitution t)) ∧
      ∀ g, alternatives t g = .ok (rules.lookup g) := by
  refine ⟨⟨1, 6 + 2 * rules.length, rules.length, placesFrom (6 + 2 * rules.length + (writeCoverage (rules.map (·.1))).length)
    (rules.map fun r => writeGlyphs r.2), .format1 ⟨1, (rules.map (·.1)).length, rules.map (·.1)⟩,
    rules.map fun r => alternatesOf r.2⟩, ?_, ?_⟩
  · intro d p hd h
    refine (reads_parses (S := Spec.gsub.IsTable 3) hd).mpr ?_
    obtain ⟨k1, k2⟩ := each_there (S := Spec.gsub.IsAlternates d) (value := alternatesOf) h h1 hl fun r hr Q hQ =>
      glyphs_there (h2 r hr) (glyphs_fit hl hr) hQ
    exact ⟨rfl, k1, rfl, k2⟩
  · intro g
    unfold alternatives
    dsimp only
    rw [entryOf_rules]
    show Except.ok _ = _
    cases rules.lookup g <;> rfl

/-- What is read of a ligature. -/
def ligatureOf (l : List Nat × Nat) : gsub.Ligature := ⟨l.2, l.1.length + 1, l.1⟩

/-- What is read of a set of ligatures. -/
def ligaturesOf (ls : List (List Nat × Nat)) : gsub.Ligatures :=
  ⟨ls.length, placesFrom (2 + 2 * ls.length) (ls.map writeLigature), ls.map ligatureOf⟩

theorem writeLigatures_member {ls : List (List Nat × Nat)} {l : List Nat × Nat} (hl : l ∈ ls) :
    (writeLigature l).length ≤ (ls.map writeLigature).flatten.length := by
  induction ls with
  | nil => cases hl
  | cons x ls ih =>
    rw [List.map_cons, List.flatten_cons, List.length_append]
    rcases List.mem_cons.mp hl with rfl | hl
    · omega
    · have := ih hl
      omega

theorem ligatures_there {ls : List (List Nat × Nat)} (hg : ∀ l ∈ ls, Glyphs l.1 ∧ l.2 < 65536) (hl : (writeLigatures ls).length < 65536)
    {P : Nat} (h : Stored d P (writeLigatures ls)) : Spec.gsub.IsLigatures d P (ligaturesOf ls) := by
  simp only [writeLigatures, List.length_append, enc16_length, enc16s_length, placesFrom_length, List.length_map] at hl
  simp only [writeLigatures, stored_append, List.length_append, enc16_length, enc16s_length, placesFrom_length, List.length_map] at h
  obtain ⟨⟨s1, s2⟩, s3⟩ := h
  refine ⟨at16.mpr ⟨by unfold ligaturesOf; dsimp only; omega, s1⟩,
    at16s.mpr ⟨by unfold ligaturesOf; rw [placesFrom_length, List.length_map], placesFrom_fit (by omega), s2⟩, there_each s3 ?_⟩
  intro l hm Q hQ
  obtain ⟨g1, g2⟩ := hg l hm
  have := writeLigatures_member hm
  simp only [writeLigature, List.length_append, enc16_length, enc16s_length] at this
  simp only [writeLigature, stored_append, List.length_append, enc16_length] at hQ
  have hb : l.1.length + 1 < 65536 := by
    omega
  exact ⟨at16.mpr ⟨g2, hQ.1.1⟩, at16.mpr ⟨hb, hQ.1.2⟩, Nat.succ_ne_zero _, at16s.mpr ⟨rfl, g1, hQ.2⟩⟩

/-- The rules that join glyphs: of the rules for a glyph the first counts whose other glyphs come behind it. -/
theorem C133_ligature {rules : List (Nat × List (List Nat × Nat))} (h1 : Glyphs (rules.map (·.1)))
    (h2 : ∀ r ∈ rules, ∀ l ∈ r.2, Glyphs l.1 ∧ l.2 < 65536) (hl : (writeEach writeLigatures rules).length < 65536) :
    ∃ t, (∀ d p, Fits d → Stored d p (writeEach writeLigatures rules) → Reads (gsub.Type_.read 4) d p (.ligatureSubstitution t)) ∧
      ∀ g following, ligate t g following =
        .ok (((rules.lookup g).bind fun ls => ls.find? fun l => l.1.isPrefixOf following).map fun l => (l.2, l.1.length)) := by
  refine ⟨⟨1, 6 + 2 * rules.length, rules.length, placesFrom (6 + 2 * rules.length + (writeCoverage (rules.map (·.1))).length)
    (rules.map fun r => writeLigatures r.2), .format1 ⟨1, (rules.map (·.1)).length, rules.map (·.1)⟩,
    rules.map fun r => ligaturesOf r.2⟩, ?_, ?_⟩
  · intro d p hd h
    refine (reads_parses (S := Spec.gsub.IsTable 4) hd).mpr ?_
    obtain ⟨k1, k2⟩ := each_there (S := Spec.gsub.IsLigatures d) (value := ligaturesOf) h h1 hl fun r hr Q hQ =>
      ligatures_there (h2 r hr) (by have := each_length (write := writeLigatures) hr; omega) hQ
    exact ⟨rfl, k1, rfl, k2⟩
  · intro g following
    unfold ligate
    dsimp only
    rw [entryOf_rules]
    show (match (rules.lookup g).map ligaturesOf with | none => _ | some set => _) = _
    cases rules.lookup g with
    | none => rfl
    | some ls =>
      show Except.ok _ = _
      congr 1
      unfold ligaturesOf
      dsimp only
      rw [Option.bind_some, List.find?_map]
      rw [Option.map_map]
      rfl

/-! ## Example -/

/-- Rules for single glyphs, and their bytes. -/
example : writeSingle [(3, 7), (5, 3)] = bytes [0, 2,  0, 10,  0, 2,  0, 7,  0, 3,  0, 1,  0, 2,  0, 3,  0, 5] := by decide +kernel

example : ∃ t, (∀ d p, Fits d → Stored d p (writeSingle [(3, 7), (5, 3)]) → Reads (gsub.Type_.read 1) d p (.singleSubstitution t)) ∧
    replace t 3 = .ok (some 7) ∧ replace t 5 = .ok (some 3) ∧ replace t 7 = .ok none := by
  obtain ⟨t, h1, h2⟩ := C133_single (rules := [(3, 7), (5, 3)]) (by unfold Glyphs; decide) (by unfold Glyphs; decide) (by decide)
  exact ⟨t, h1, h2 3, h2 5, h2 7⟩

/-- Rules that replace a glyph by several, or by none. -/
example : ∃ t, (∀ d p, Fits d → Stored d p (writeEach writeGlyphs [(3, [7, 8]), (5, [])]) →
      Reads (gsub.Type_.read 2) d p (.multipleSubstitution t)) ∧
    expand t 3 = .ok (some [7, 8]) ∧ expand t 5 = .ok (some []) ∧ expand t 7 = .ok none := by
  obtain ⟨t, h1, h2⟩ := C133_multiple (rules := [(3, [7, 8]), (5, [])]) (by unfold Glyphs; decide) (by unfold Glyphs; decide)
    (by decide +kernel)
  exact ⟨t, h1, h2 3, h2 5, h2 7⟩

example : ∃ t, (∀ d p, Fits d → Stored d p (writeEach writeGlyphs [(3, [7, 8])]) →
      Reads (gsub.Type_.read 3) d p (.alternateSubstitution t)) ∧ alternatives t 3 = .ok (some [7, 8]) := by
  obtain ⟨t, h1, h2⟩ := C133_alternate (rules := [(3, [7, 8])]) (by unfold Glyphs; decide) (by unfold Glyphs; decide) (by decide +kernel)
  exact ⟨t, h1, h2 3⟩

/-- Ligatures: the first of a set that fits counts. -/
example : writeEach writeLigatures [(1, [([2, 3], 20), ([2], 21)])] =
    bytes ([0, 1,  0, 8,  0, 1,  0, 14] ++ [0, 1,  0, 1,  0, 1] ++ [0, 2,  0, 6,  0, 14] ++ [0, 20,  0, 3,  0, 2,  0, 3] ++
      [0, 21,  0, 2,  0, 2]) := by decide +kernel

example : ∃ t, (∀ d p, Fits d → Stored d p (writeEach writeLigatures [(1, [([2, 3], 20), ([2], 21)])]) →
      Reads (gsub.Type_.read 4) d p (.ligatureSubstitution t)) ∧
    ligate t 1 [2, 3, 4] = .ok (some (20, 2)) ∧ ligate t 1 [2, 4] = .ok (some (21, 1)) ∧ ligate t 1 [3] = .ok none := by
  obtain ⟨t, h1, h2⟩ := C133_ligature (rules := [(1, [([2, 3], 20), ([2], 21)])]) (by unfold Glyphs; decide) (by unfold Glyphs; decide)
    (by decide +kernel)
  exact ⟨t, h1, h2 1 [2, 3, 4], h2 1 [2, 4], h2 1 [3]⟩

end OpenType.Props
