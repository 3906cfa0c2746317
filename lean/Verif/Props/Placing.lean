import Verif.Spec.Placing
import Verif.Props.Kern
/-! # C136: places made of rules -/

namespace OpenType.Props
open OpenType Spec directory

variable {d : Data}

/-! ## Marks and bases -/

theorem writeAnchor_length (point : Int × Int) : (writeAnchor point).length = 6 := by
  simp only [writeAnchor, List.length_append, enc16_length, encI16_length]

theorem anchor_there {point : Int × Int} (hp : PointFine point) {P : Nat} (h : Stored d P (writeAnchor point)) :
    Spec.gpos.IsAnchor d P (anchorAt point) := by
  simp only [writeAnchor, stored_append, List.length_append, enc16_length, encI16_length] at h
  exact ⟨rfl, at16.mpr ⟨(by decide : 1 < 65536), h.1.1⟩, atI16.mpr ⟨hp.1, h.1.2⟩, atI16.mpr ⟨hp.2, h.2⟩⟩

/-- What is read of the marks. -/
def markRecordsOf : Nat → List (Nat × Nat × (Int × Int)) → List gpos.Mark1
  | _, [] => []
  | o, m :: marks => ⟨m.2.1, o, anchorAt m.2.2⟩ :: markRecordsOf (o + 6) marks

theorem markRecordsOf_length (o : Nat) (marks : List (Nat × Nat × (Int × Int))) : (markRecordsOf o marks).length = marks.length := by
  induction marks generalizing o with
  | nil => rfl
  | cons m marks ih => exact congrArg (· + 1) (ih (o + 6))

theorem writeMarkRecords_length (o : Nat) (marks : List (Nat × Nat × (Int × Int))) :
    (writeMarkRecords o marks).length = 4 * marks.length := by
  induction marks generalizing o with
  | nil => rfl
  | cons m marks ih =>
    simp only [writeMarkRecords, List.length_append, enc16_length, ih, List.length_cons]
    omega

theorem anchors_length (marks : List (Nat × Nat × (Int × Int))) : (marks.flatMap fun m => writeAnchor m.2.2).length = 6 * marks.length := by
  induction marks with
  | nil => rfl
  | cons m marks ih =>
    rw [List.flatMap_cons, List.length_append, writeAnchor_length, ih, List.length_cons]
    omega

theorem points_length (ps : List (Int × Int)) : (ps.flatMap writeAnchor).length = 6 * ps.length := by
  induction ps with
  | nil => rfl
  | cons p ps ih =>
    rw [List.flatMap_cons, List.length_append, writeAnchor_length, ih, List.length_cons]
    omega

theorem mark_each (cfg : Cfg) {marks : List (Nat × Nat × (Int × Int))} (hm : ∀ m ∈ marks, m.2.1 < 65536 ∧ PointFine m.2.2) {o R P : Nat}
    (ho : o ≠ 0) (hl : o + 6 * marks.length ≤ 65536) (h1 : Stored d R (writeMarkRecords o marks))
    (h2 : Stored d (P + o) (marks.flatMap fun m => writeAnchor m.2.2)) (i : Nat) (x : gpos.Mark1)
    (hx : (markRecordsOf o marks)[i]? = some x) : Spec.gpos.IsMark1 cfg P d (R + 4 * i) x := by
  induction marks generalizing o R i with
  | nil => cases hx
  | cons m marks ih =>
    simp only [writeMarkRecords, stored_append, List.length_append, enc16_length] at h1
    rw [List.flatMap_cons, stored_append, writeAnchor_length] at h2
    rw [List.length_cons] at hl
    obtain ⟨m1, m2⟩ := hm m List.mem_cons_self
    cases i with
    | zero =>
      obtain rfl := Option.some.inj hx
      refine ⟨at16.mpr ⟨m1, h1.1.1⟩, at16.mpr ⟨by dsimp only; omega, h1.1.2⟩, ?_⟩
      unfold Spec.gpos.IsMarkAnchor
      rw [if_neg fun h => ho h.2]
      exact anchor_there m2 h2.1
    | succ i =>
      have := ih (fun m h => hm m (List.mem_cons_of_mem _ h)) (o := o + 6) (by omega) (by omega) h1.2
        (by rw [← Nat.add_assoc]; exact h2.2) i hx
      rwa [show R + (2 + 2) + 4 * i = R + 4 * (i + 1) by omega] at this

theorem writeMarks_length (marks : List (Nat × Nat × (Int × Int))) : (writeMarks marks).length = 2 + 10 * marks.length := by
  simp only [writeMarks, List.length_append, enc16_length, writeMarkRecords_length, anchors_length]
  omega

theorem marks_there (cfg : Cfg) {marks : List (Nat × Nat × (Int × Int))} (hm : ∀ m ∈ marks, m.2.1 < 65536 ∧ PointFine m.2.2)
    (hl : (writeMarks marks).length < 65536) {P : Nat} (h : Stored d P (writeMarks marks)) :
    Spec.gpos.IsMark1s cfg d P ⟨marks.length, markRecordsOf (2 + 4 * marks.length) marks⟩ := by
  rw [writeMarks_length] at hl
  simp only [writeMarks, stored_append, List.length_append, enc16_length, writeMarkRecords_length] at h
  refine ⟨at16.mpr ⟨by dsimp only; omega, h.1.1⟩, markRecordsOf_length .., ?_⟩
  exact mark_each cfg hm (by omega) (by omega) h.1.2 h.2

theorem cellPlaces_length (o : Nat) (cells : List (Option (Int × Int))) : (cellPlaces o cells).length = cells.length := by
  induction cells generalizing o with
  | nil => rfl
  | cons c cells ih => cases c <;> exact congrArg (· + 1) (ih _)

theorem cellPlaces_fit {o : Nat} {cells : List (Option (Int × Int))} (hl : o + 6 * (points cells).length ≤ 65536) :
    All16 (cellPlaces o cells) := by
  induction cells generalizing o with
  | nil => intro x hx; cases hx
  | cons c cells ih =>
    intro x hx
    cases c with
    | none =>
      rcases List.mem_cons.mp hx with rfl | hx
      · decide
      · exact ih hl x hx
    | some c =>
      have hl : o + 6 * ((points cells).length + 1) ≤ 65536 := hl
      rcases List.mem_cons.mp hx with rfl | hx
      · omega
      · exact ih (by omega) x hx

theorem cellPlaces_append (o : Nat) (a b : List (Option (Int × Int))) :
    cellPlaces o (a ++ b) = cellPlaces o a ++ cellPlaces (o + 6 * (points a).length) b := by
  induction a generalizing o with
  | nil => rfl
  | cons c a ih =>
    cases c with
    | none => exact congrArg (0 :: ·) (ih o)
    | some c =>
      refine congrArg (o :: ·) ((ih (o + 6)).trans ?_)
      rw [show o + 6 + 6 * (points a).length = o + 6 * ((points a).length + 1) by omega]
      rfl

theorem cells_there {cells : List (Option (Int × Int))} (hc : ∀ point, some point ∈ cells → PointFine point) {o P : Nat} (ho : o ≠ 0)
    (h : Stored d (P + o) ((points cells).flatMap writeAnchor)) :
    AtOptionalOffsets (Spec.gpos.IsAnchor d) P (cellPlaces o cells) (cells.map (Option.map anchorAt)) := by
  refine ⟨by rw [cellPlaces_length, List.length_map], ?_⟩
  induction cells generalizing o with
  | nil => intro i o' x h; cases h
  | cons c cells ih =>
    intro i o' x h1 h2
    cases c with
    | none =>
      cases i with
      | zero =>
        obtain rfl := Option.some.inj h1
        obtain rfl := Option.some.inj h2
        exact (rfl : (0 : Nat) = 0)
      | succ i => exact ih (fun p hp => hc p (List.mem_cons_of_mem _ hp)) ho h i o' x h1 h2
    | some c =>
      have h : Stored d (P + o) ((c :: points cells).flatMap writeAnchor) := h
      rw [List.flatMap_cons, stored_append, writeAnchor_length] at h
      cases i with
      | zero =>
        obtain rfl := Option.some.inj h1
        obtain rfl := Option.some.inj h2
        exact ⟨ho, anchor_there (hc c List.mem_cons_self) h.1⟩
      | succ i =>
        exact ih (fun p hp => hc p (List.mem_cons_of_mem _ hp)) (o := o + 6) (by omega) (by rw [← Nat.add_assoc]; exact h.2) i o' x h1 h2

/-- What is read of the bases. -/
def baseRecordsOf : Nat → List (Nat × List (Option (Int × Int))) → List gpos.Base
  | _, [] => []
  | o, b :: bases => ⟨cellPlaces o b.2, b.2.map (Option.map anchorAt)⟩ :: baseRecordsOf (o + 6 * (points b.2).length) bases

theorem baseRecordsOf_length (o : Nat) (bases : List (Nat × List (Option (Int × Int)))) : (baseRecordsOf o bases).length = bases.length := by
  induction bases generalizing o with
  | nil => rfl
  | cons b bases ih => exact congrArg (· + 1) (ih _)

theorem enc16s_append (a b : List Nat) : enc16s (a ++ b) = enc16s a ++ enc16s b := by
  unfold enc16s
  exact List.flatMap_append

theorem points_append (a b : List (Option (Int × Int))) : points (a ++ b) = points a ++ points b := List.filterMap_append

theorem base_each {n : Nat} {bases : List (Nat × List (Option (Int × Int)))}
    (hb : ∀ b ∈ bases, b.2.length = n ∧ ∀ point, some point ∈ b.2 → PointFine point) {o R P : Nat} (ho : o ≠ 0)
    (hl : o + 6 * (points (bases.flatMap (·.2))).length ≤ 65536)
    (h1 : Stored d R (enc16s (cellPlaces o (bases.flatMap (·.2)))))
    (h2 : Stored d (P + o) ((points (bases.flatMap (·.2))).flatMap writeAnchor)) (i : Nat) (x : gpos.Base)
    (hx : (baseRecordsOf o bases)[i]? = some x) : Spec.gpos.IsBase P n d (R + 2 * n * i) x := by
  induction bases generalizing o R i with
  | nil => cases hx
  | cons b bases ih =>
    rw [List.flatMap_cons, points_append, List.length_append] at hl
    rw [List.flatMap_cons, cellPlaces_append, enc16s_append, stored_append, enc16s_length, cellPlaces_length] at h1
    rw [List.flatMap_cons, points_append, List.flatMap_append, stored_append, points_length] at h2
    obtain ⟨b1, b2⟩ := hb b List.mem_cons_self
    cases i with
    | zero =>
      obtain rfl := Option.some.inj hx
      exact ⟨at16s.mpr ⟨by rw [cellPlaces_length]; exact b1, cellPlaces_fit (by omega), h1.1⟩, cells_there b2 ho h2.1⟩
    | succ i =>
      have := ih (fun b h => hb b (List.mem_cons_of_mem _ h)) (o := o + 6 * (points b.2).length) (by omega) (by omega) h1.2
        (by rw [← Nat.add_assoc]; exact h2.2) i hx
      rwa [b1, show R + 2 * n + 2 * n * i = R + 2 * n * (i + 1) by rw [Nat.mul_add]; omega] at this

theorem bases_there {n : Nat} {bases : List (Nat × List (Option (Int × Int)))}
    (hb : ∀ b ∈ bases, b.2.length = n ∧ ∀ point, some point ∈ b.2 → PointFine point) (hn : bases.length < 65536)
    (hl : (writeBases bases).length < 65536) {P : Nat} (h : Stored d P (writeBases bases)) :
    Spec.gpos.IsBases n d P ⟨bases.length, baseRecordsOf (2 + 2 * (bases.flatMap (·.2)).length) bases⟩ := by
  simp only [writeBases, List.length_append, enc16_length, enc16s_length, cellPlaces_length, points_length] at hl
  simp only [writeBases, stored_append, List.length_append, enc16_length, enc16s_length, cellPlaces_length] at h
  refine ⟨at16.mpr ⟨hn, h.1.1⟩, baseRecordsOf_length .., ?_⟩
  exact base_each hb (by omega) (by omega) h.1.2 h.2

/-! ## The subtable -/

/-- What is read of the subtable. -/
def marksOf (rules : MarkRules) : gpos.MarkToBaseAttachment where
  format := 1
  mark_coverage_offset := 12
  base_coverage_offset := 12 + (writeCoverage (rules.marks.map (·.1))).length
  mark_class_count := rules.classes
  marks_offset := 12 + (writeCoverage (rules.marks.map (·.1))).length + (writeCoverage (rules.bases.map (·.1))).length
  bases_offset := 12 + (writeCoverage (rules.marks.map (·.1))).length + (writeCoverage (rules.bases.map (·.1))).length +
    (writeMarks rules.marks).length
  mark_coverage := .format1 ⟨1, (rules.marks.map (·.1)).length, rules.marks.map (·.1)⟩
  base_coverage := .format1 ⟨1, (rules.bases.map (·.1)).length, rules.bases.map (·.1)⟩
  marks := ⟨rules.marks.length, markRecordsOf (2 + 4 * rules.marks.length) rules.marks⟩
  bases := ⟨rules.bases.length, baseRecordsOf (2 + 2 * (rules.bases.flatMap (·.2)).length) rules.bases⟩

theorem index_rules {α : Type} (rules : List (Nat × α)) (g : Nat) :
    match (rules.map (·.1)).findIdx? (· == g) with
    | none => rules.lookup g = none
    | some i => ∃ r, rules[i]? = some r ∧ rules.lookup g = some r.2 := by
  induction rules with
  | nil => rfl
  | cons r rules ih =>
    rw [List.map_cons, List.findIdx?_cons, List.lookup_cons]
    by_cases hg : r.1 = g
    · subst hg
      simp
    · have h1 : (r.1 == g) = false := by simpa using hg
      have h2 : (g == r.1) = false := by simpa using fun h => hg h.symm
      rw [h1, h2]
      simp only [Bool.false_eq_true, if_false]
      generalize (rules.map (·.1)).findIdx? (· == g) = a at ih
      cases a with
      | none => exact ih
      | some i => exact ih

theorem markRecordsOf_at (o : Nat) (marks : List (Nat × Nat × (Int × Int))) (i : Nat) (m : Nat × Nat × (Int × Int)) (h : marks[i]? = some m) :
    ∃ o', (markRecordsOf o marks)[i]? = some ⟨m.2.1, o', anchorAt m.2.2⟩ := by
  induction marks generalizing o i with
  | nil => cases h
  | cons a marks ih =>
    cases i with
    | zero =>
      obtain rfl := Option.some.inj h
      exact ⟨o, rfl⟩
    | succ i => exact ih (o + 6) i h

theorem baseRecordsOf_at (o : Nat) (bases : List (Nat × List (Option (Int × Int)))) (i : Nat) (b : Nat × List (Option (Int × Int)))
    (h : bases[i]? = some b) : ∃ os, (baseRecordsOf o bases)[i]? = some ⟨os, b.2.map (Option.map anchorAt)⟩ := by
  induction bases generalizing o i with
  | nil => cases h
  | cons a bases ih =>
    cases i with
    | zero =>
      obtain rfl := Option.some.inj h
      exact ⟨_, rfl⟩
    | succ i => exact ih _ i h

theorem marks_table {rules : MarkRules} (hr : rules.Fine) (cfg : Cfg) {p : Nat} (h : Stored d p rules.bytes) :
    Spec.gpos.IsMarkToBase cfg d p (marksOf rules) := by
  obtain ⟨h1, h2, h3, hl⟩ := hr
  have c1 := writeCoverage_length (rules.marks.map (·.1))
  have c2 := writeCoverage_length (rules.bases.map (·.1))
  rw [List.length_map] at c1 c2
  simp only [MarkRules.bytes, List.length_append, enc16_length] at hl
  simp only [MarkRules.bytes, stored_append, List.length_append, enc16_length] at h
  obtain ⟨⟨⟨⟨⟨⟨⟨⟨⟨s1, s2⟩, s3⟩, s4⟩, s5⟩, s6⟩, s7⟩, s8⟩, s9⟩, s10⟩ := h
  refine ⟨at16.mpr ⟨(by decide : 1 < 65536), s1⟩, rfl, at16.mpr ⟨(by decide : 12 < 65536), s2⟩,
    at16.mpr ⟨by dsimp only [marksOf]; omega, s3⟩, at16.mpr ⟨h1, s4⟩, at16.mpr ⟨by dsimp only [marksOf]; omega, s5⟩,
    at16.mpr ⟨by dsimp only [marksOf]; omega, s6⟩, ?_, ?_, ?_, ?_⟩
  · refine coverage_there (fun g hg => ?_) (by rw [List.length_map]; omega) s7
    obtain ⟨m, hm, rfl⟩ := List.mem_map.mp hg
    exact (h2 m hm).1
  · refine coverage_there (fun g hg => ?_) (by rw [List.length_map]; omega) ?_
    · obtain ⟨b, hb, rfl⟩ := List.mem_map.mp hg
      exact (h3 b hb).1
    · rw [show p + (marksOf rules).base_coverage_offset =
        p + (2 + 2 + 2 + 2 + 2 + 2 + (writeCoverage (rules.marks.map (·.1))).length) from rfl]
      exact s8
  · refine marks_there cfg (fun m hm => ⟨Nat.lt_trans (h2 m hm).2.1 h1, (h2 m hm).2.2⟩) (by omega) ?_
    rw [show p + (marksOf rules).marks_offset = p + (2 + 2 + 2 + 2 + 2 + 2 + (writeCoverage (rules.marks.map (·.1))).length +
      (writeCoverage (rules.bases.map (·.1))).length) from rfl]
    exact s9
  · refine bases_there (fun b hb => (h3 b hb).2) (by omega) (by omega) ?_
    rw [show p + (marksOf rules).bases_offset = p + (2 + 2 + 2 + 2 + 2 + 2 + (writeCoverage (rules.marks.map (·.1))).length +
      (writeCoverage (rules.bases.map (·.1))).length + (writeMarks rules.marks).length) from rfl]
    exact s10

theorem marks_attach {rules : MarkRules} (hr : rules.Fine) (m b : Nat) :
    attachToBase (marksOf rules) m b = .ok ((rules.at m b).map fun y => (anchorAt y.1, anchorAt y.2)) := by
  obtain ⟨h1, h2, h3, hl⟩ := hr
  unfold attachToBase anchors indexOf marksOf MarkRules.at
  dsimp only
  have k1 := index_rules rules.marks m
  have k2 := index_rules rules.bases b
  generalize (rules.marks.map (·.1)).findIdx? (· == m) = i at k1
  generalize (rules.bases.map (·.1)).findIdx? (· == b) = j at k2
  cases i with
  | none =>
    dsimp only at k1
    rw [k1]
    rfl
  | some i =>
    obtain ⟨mark, i1, i2⟩ := k1
    rw [i2, Option.bind_some]
    cases j with
    | none =>
      dsimp only at k2
      rw [k2]
      rfl
    | some j =>
      obtain ⟨base, j1, j2⟩ := k2
      rw [j2, Option.bind_some]
      obtain ⟨o, e1⟩ := markRecordsOf_at (2 + 4 * rules.marks.length) rules.marks i mark i1
      obtain ⟨os, e2⟩ := baseRecordsOf_at (2 + 2 * (rules.bases.flatMap (·.2)).length) rules.bases j base j1
      have hc := (h2 mark (List.mem_of_getElem? i1)).2.1
      rw [← (h3 base (List.mem_of_getElem? j1)).2.1] at hc
      unfold element
      dsimp only
      rw [e1, e2]
      dsimp only [bind, Except.bind]
      rw [List.getElem?_map, List.getElem?_eq_getElem hc]
      dsimp only [Option.map_some, Option.getD_some]
      cases base.2[mark.2.1] <;> rfl

/-- The rules for marks can be read wherever they are, and say which points of each mark and each base come together: those of the first
rules for the two. -/
theorem C136_marks {rules : MarkRules} (hr : rules.Fine) (cfg : Cfg) :
    ∃ t, (∀ d p, Fits d → Stored d p rules.bytes → Reads (gpos.Type_.read cfg 4) d p (.markToBaseAttachment t)) ∧
      ∀ m b, attachToBase t m b = .ok ((rules.at m b).map fun y => (anchorAt y.1, anchorAt y.2)) :=
  ⟨marksOf rules, fun _ _ hd h => (reads_parses (S := Spec.gpos.IsTable cfg 4) hd).mpr ⟨rfl, marks_table hr cfg h⟩, marks_attach hr⟩

/-! ## Marks on marks -/

def stacksOf (rules : MarkRules) : gpos.MarkToMarkAttachment :=
  let t := marksOf rules
  ⟨t.format, t.mark_coverage_offset, t.base_coverage_offset, t.mark_class_count, t.marks_offset, t.bases_offset, t.mark_coverage,
    t.base_coverage, t.marks, ⟨t.bases.count, t.bases.records.map fun b => ⟨b.anchor_offsets, b.anchors⟩⟩⟩

theorem stacks_table {rules : MarkRules} (hr : rules.Fine) (cfg : Cfg) {p : Nat} (h : Stored d p rules.bytes) :
    Spec.gpos.IsMarkToMark cfg d p (stacksOf rules) := by
  obtain ⟨h1, h2, h3, h4, h5, h6, h7, h8, h9, h10, h11, h12, h13⟩ := marks_table hr cfg h
  refine ⟨h1, h2, h3, h4, h5, h6, h7, h8, h9, h10, h11, (List.length_map ..).trans h12, fun i x hx => ?_⟩
  have hx : ((marksOf rules).bases.records.map fun b => (⟨b.anchor_offsets, b.anchors⟩ : gpos.Mark2))[i]? = some x := hx
  rw [List.getElem?_map, Option.map_eq_some_iff] at hx
  obtain ⟨b, hb, rfl⟩ := hx
  exact h13 i b hb

theorem stacks_attach (rules : MarkRules) (m b : Nat) : attachToMark (stacksOf rules) m b = attachToBase (marksOf rules) m b := by
  unfold attachToMark attachToBase
  have : (fun j k => (do element (← element (stacksOf rules).mark2s.records j).anchors k)) =
      fun j k => (do element (← element (marksOf rules).bases.records j).anchors k) := by
    funext j k
    show ((element ((marksOf rules).bases.records.map fun b => (⟨b.anchor_offsets, b.anchors⟩ : gpos.Mark2)) j) >>= fun x => element x.anchors k) = _
    unfold element
    rw [List.getElem?_map]
    cases (marksOf rules).bases.records[j]? <;> rfl
  rw [this]
  rfl

/-- The same for marks that hang on other marks. -/
theorem C136_stacks {rules : MarkRules} (hr : rules.Fine) (cfg : Cfg) :
    ∃ t, (∀ d p, Fits d → Stored d p rules.bytes → Reads (gpos.Type_.read cfg 6) d p (.markToMarkAttachment t)) ∧
      ∀ m b, attachToMark t m b = .ok ((rules.at m b).map fun y => (anchorAt y.1, anchorAt y.2)) :=
  ⟨stacksOf rules, fun _ _ hd h => (reads_parses (S := Spec.gpos.IsTable cfg 6) hd).mpr ⟨rfl, stacks_table hr cfg h⟩,
    fun m b => (stacks_attach rules m b).trans (marks_attach hr m b)⟩

/-! ## Marks on ligatures -/

/-- What is read of the components. -/
def componentsOf (components : List (List (Option (Int × Int)))) : gpos.Ligature :=
  let bases := components.map fun cells => (0, cells)
  ⟨components.length, (baseRecordsOf (2 + 2 * (bases.flatMap (·.2)).length) bases).map fun b => ⟨b.anchor_offsets, b.anchors⟩⟩

theorem components_there {n : Nat} {components : List (List (Option (Int × Int)))} (hn : components.length < 65536)
    (hc : ∀ cells ∈ components, cells.length = n ∧ ∀ point, some point ∈ cells → PointFine point)
    (hl : (writeComponents components).length < 65536) {P : Nat} (h : Stored d P (writeComponents components)) :
    Spec.gpos.IsLigature n d P (componentsOf components) := by
  obtain ⟨h1, h2, h3⟩ := bases_there (n := n) (bases := components.map fun cells => (0, cells)) (fun b hb => by
    obtain ⟨cells, hm, rfl⟩ := List.mem_map.mp hb
    exact hc cells hm) (by rw [List.length_map]; exact hn) hl h
  dsimp only at h1 h2 h3
  rw [List.length_map] at h1 h2
  refine ⟨h1, (List.length_map ..).trans h2, fun i x hx => ?_⟩
  have hx : ((baseRecordsOf (2 + 2 * ((components.map fun cells => (0, cells)).flatMap (·.2)).length)
    (components.map fun cells => (0, cells))).map fun b => (⟨b.anchor_offsets, b.anchors⟩ : gpos.Component))[i]? = some x := hx
  rw [List.getElem?_map, Option.map_eq_some_iff] at hx
  obtain ⟨b, hb, rfl⟩ := hx
  exact h3 i b hb

theorem componentsOf_at (components : List (List (Option (Int × Int)))) (c : Nat) (cells : List (Option (Int × Int)))
    (h : components[c]? = some cells) : ∃ os, (componentsOf components).components[c]? = some ⟨os, cells.map (Option.map anchorAt)⟩ := by
  obtain ⟨os, e⟩ := baseRecordsOf_at (2 + 2 * ((components.map fun cells => (0, cells)).flatMap (·.2)).length)
    (components.map fun cells => (0, cells)) c (0, cells) (by rw [List.getElem?_map, h]; rfl)
  refine ⟨os, ?_⟩
  unfold componentsOf
  dsimp only
  rw [List.getElem?_map, e]
  rfl

theorem member_length {α : Type} (write : α → Data) {xs : List α} {x : α} (h : x ∈ xs) : (write x).length ≤ (xs.map write).flatten.length := by
  induction xs with
  | nil => cases h
  | cons y xs ih =>
    rw [List.map_cons, List.flatten_cons, List.length_append]
    rcases List.mem_cons.mp h with rfl | h
    · omega
    · have := ih h
      omega

theorem ligature_array_there {n : Nat} {ligatures : List (Nat × List (List (Option (Int × Int))))}
    (hc : ∀ l ∈ ligatures, l.2.length < 65536 ∧ ∀ cells ∈ l.2, cells.length = n ∧ ∀ point, some point ∈ cells → PointFine point)
    (hl : (writeLigatureArray ligatures).length < 65536) {P : Nat} (h : Stored d P (writeLigatureArray ligatures)) :
    Spec.gpos.IsLigatures n d P ⟨ligatures.length, placesFrom (2 + 2 * ligatures.length) (ligatures.map fun l => writeComponents l.2),
      ligatures.map fun l => componentsOf l.2⟩ := by
  simp only [writeLigatureArray, List.length_append, enc16_length, enc16s_length, placesFrom_length, List.length_map] at hl
  simp only [writeLigatureArray, stored_append, List.length_append, enc16_length, enc16s_length, placesFrom_length, List.length_map] at h
  refine ⟨at16.mpr ⟨by dsimp only; omega, h.1.1⟩,
    at16s.mpr ⟨by rw [placesFrom_length, List.length_map], placesFrom_fit (by omega), h.1.2⟩, there_each h.2 fun l hm Q hQ => ?_⟩
  have := member_length (fun l : Nat × List (List (Option (Int × Int))) => writeComponents l.2) hm
  exact components_there (hc l hm).1 (hc l hm).2 (by omega) hQ

/-- What is read of the subtable. -/
def ligatureMarksOf (rules : LigatureRules) : gpos.MarkToLigatureAttachment where
  format := 1
  mark_coverage_offset := 12
  ligature_coverage_offset := 12 + (writeCoverage (rules.marks.map (·.1))).length
  mark_class_count := rules.classes
  marks_offset := 12 + (writeCoverage (rules.marks.map (·.1))).length + (writeCoverage (rules.ligatures.map (·.1))).length
  ligatures_offset := 12 + (writeCoverage (rules.marks.map (·.1))).length + (writeCoverage (rules.ligatures.map (·.1))).length +
    (writeMarks rules.marks).length
  mark_coverage := .format1 ⟨1, (rules.marks.map (·.1)).length, rules.marks.map (·.1)⟩
  ligature_coverage := .format1 ⟨1, (rules.ligatures.map (·.1)).length, rules.ligatures.map (·.1)⟩
  marks := ⟨rules.marks.length, markRecordsOf (2 + 4 * rules.marks.length) rules.marks⟩
  ligatures := ⟨rules.ligatures.length, placesFrom (2 + 2 * rules.ligatures.length) (rules.ligatures.map fun l => writeComponents l.2),
    rules.ligatures.map fun l => componentsOf l.2⟩

theorem ligatures_table {rules : LigatureRules} (hr : rules.Fine) (cfg : Cfg) {p : Nat} (h : Stored d p rules.bytes) :
    Spec.gpos.IsMarkToLigature cfg d p (ligatureMarksOf rules) := by
  obtain ⟨h1, h2, h3, hl⟩ := hr
  have c1 := writeCoverage_length (rules.marks.map (·.1))
  have c2 := writeCoverage_length (rules.ligatures.map (·.1))
  rw [List.length_map] at c1 c2
  simp only [LigatureRules.bytes, List.length_append, enc16_length] at hl
  simp only [LigatureRules.bytes, stored_append, List.length_append, enc16_length] at h
  obtain ⟨⟨⟨⟨⟨⟨⟨⟨⟨s1, s2⟩, s3⟩, s4⟩, s5⟩, s6⟩, s7⟩, s8⟩, s9⟩, s10⟩ := h
  refine ⟨at16.mpr ⟨(by decide : 1 < 65536), s1⟩, rfl, at16.mpr ⟨(by decide : 12 < 65536), s2⟩,
    at16.mpr ⟨by dsimp only [ligatureMarksOf]; omega, s3⟩, at16.mpr ⟨h1, s4⟩, at16.mpr ⟨by dsimp only [ligatureMarksOf]; omega, s5⟩,
    at16.mpr ⟨by dsimp only [ligatureMarksOf]; omega, s6⟩, ?_, ?_, ?_, ?_⟩
  · refine coverage_there (fun g hg => ?_) (by rw [List.length_map]; omega) s7
    obtain ⟨m, hm, rfl⟩ := List.mem_map.mp hg
    exact (h2 m hm).1
  · refine coverage_there (fun g hg => ?_) (by rw [List.length_map]; omega) ?_
    · obtain ⟨b, hb, rfl⟩ := List.mem_map.mp hg
      exact (h3 b hb).1
    · rw [show p + (ligatureMarksOf rules).ligature_coverage_offset =
        p + (2 + 2 + 2 + 2 + 2 + 2 + (writeCoverage (rules.marks.map (·.1))).length) from rfl]
      exact s8
  · refine marks_there cfg (fun m hm => ⟨Nat.lt_trans (h2 m hm).2.1 h1, (h2 m hm).2.2⟩) (by omega) ?_
    rw [show p + (ligatureMarksOf rules).marks_offset = p + (2 + 2 + 2 + 2 + 2 + 2 + (writeCoverage (rules.marks.map (·.1))).length +
      (writeCoverage (rules.ligatures.map (·.1))).length) from rfl]
    exact s9
  · refine ligature_array_there (fun l hm => (h3 l hm).2) (by omega) ?_
    rw [show p + (ligatureMarksOf rules).ligatures_offset = p + (2 + 2 + 2 + 2 + 2 + 2 + (writeCoverage (rules.marks.map (·.1))).length +
      (writeCoverage (rules.ligatures.map (·.1))).length + (writeMarks rules.marks).length) from rfl]
    exact s10

theorem ligatures_attach {rules : LigatureRules} (hr : rules.Fine) (c m b : Nat)
    (hb : ∀ components, rules.ligatures.lookup b = some components → c < components.length) :
    attachToLigature (ligatureMarksOf rules) c m b = .ok ((rules.at c m b).map fun y => (anchorAt y.1, anchorAt y.2)) := by
  obtain ⟨h1, h2, h3, hl⟩ := hr
  unfold attachToLigature anchors indexOf ligatureMarksOf LigatureRules.at
  dsimp only
  have k1 := index_rules rules.marks m
  have k2 := index_rules rules.ligatures b
  generalize (rules.marks.map (·.1)).findIdx? (· == m) = i at k1
  generalize (rules.ligatures.map (·.1)).findIdx? (· == b) = j at k2
  cases i with
  | none =>
    dsimp only at k1
    rw [k1]
    rfl
  | some i =>
    obtain ⟨mark, i1, i2⟩ := k1
    rw [i2, Option.bind_some]
    cases j with
    | none =>
      dsimp only at k2
      rw [k2]
      rfl
    | some j =>
      obtain ⟨ligature, j1, j2⟩ := k2
      have hb := hb _ j2
      rw [j2, Option.bind_some]
      have e := List.getElem?_eq_getElem hb
      generalize ligature.2[c] = cells at e
      obtain ⟨o, e1⟩ := markRecordsOf_at (2 + 4 * rules.marks.length) rules.marks i mark i1
      obtain ⟨os, e2⟩ := componentsOf_at ligature.2 c cells e
      have hc := (h2 mark (List.mem_of_getElem? i1)).2.1
      rw [← ((h3 ligature (List.mem_of_getElem? j1)).2.2 cells (List.mem_of_getElem? e)).1] at hc
      rw [e, Option.bind_some]
      unfold element
      dsimp only
      rw [e1, List.getElem?_map, j1]
      dsimp only [bind, Except.bind, Option.map_some]
      rw [e2]
      dsimp only
      rw [List.getElem?_map, List.getElem?_eq_getElem hc]
      dsimp only [Option.map_some, Option.getD_some]
      cases cells[mark.2.1] <;> rfl

/-- The rules for marks on ligatures can be read wherever they are, and say which points of each mark and each component of each ligature
come together: those of the first rules for the two. -/
theorem C138_ligatures {rules : LigatureRules} (hr : rules.Fine) (cfg : Cfg) :
    ∃ t, (∀ d p, Fits d → Stored d p rules.bytes → Reads (gpos.Type_.read cfg 5) d p (.markToLigatureAttachment t)) ∧
      ∀ c m b, (∀ components, rules.ligatures.lookup b = some components → c < components.length) →
        attachToLigature t c m b = .ok ((rules.at c m b).map fun y => (anchorAt y.1, anchorAt y.2)) :=
  ⟨ligatureMarksOf rules, fun _ _ hd h => (reads_parses (S := Spec.gpos.IsTable cfg 5) hd).mpr ⟨rfl, ligatures_table hr cfg h⟩,
    ligatures_attach hr⟩

theorem reads_same {α : Type} {r : Reader α} {p : Nat} {x y : α} (h1 : Reads r d p x) (h2 : Reads r d p y) : x = y := by
  obtain ⟨_, h1⟩ := h1
  obtain ⟨_, h2⟩ := h2
  rw [h1] at h2
  cases h2
  rfl

/-- Two sets of rules that are written as the same bytes say the same about all marks and all components. -/
theorem C138_only {rules other : LigatureRules} (hr : rules.Fine) (ho : other.Fine) (h : rules.bytes = other.bytes) (c m b : Nat)
    (h1 : ∀ components, rules.ligatures.lookup b = some components → c < components.length)
    (h2 : ∀ components, other.ligatures.lookup b = some components → c < components.length) : rules.at c m b = other.at c m b := by
  obtain ⟨t, a1, a2⟩ := C138_ligatures hr ⟨false, false, false, false, false, false⟩
  obtain ⟨u, b1, b2⟩ := C138_ligatures ho ⟨false, false, false, false, false, false⟩
  have hf : Fits rules.bytes := Nat.lt_trans hr.length (by decide)
  have e := reads_same (a1 rules.bytes 0 hf (stored_self _)) (b1 rules.bytes 0 hf (by rw [← h]; exact stored_self _))
  injection e with e
  subst e
  have e := (a2 c m b h1).symm.trans (b2 c m b h2)
  injection e with e
  revert e
  cases rules.at c m b <;> cases other.at c m b <;> intro e
  · rfl
  · cases e
  · cases e
  · rename_i x y
    obtain ⟨⟨x1, x2⟩, x3, x4⟩ := x
    obtain ⟨⟨y1, y2⟩, y3, y4⟩ := y
    simp only [Option.map_some, anchorAt, Option.some.injEq, Prod.mk.injEq, gpos.Anchor.format1.injEq, gpos.Anchor1.mk.injEq, true_and] at e
    obtain ⟨⟨rfl, rfl⟩, rfl, rfl⟩ := e
    rfl

/-! ## Values -/

theorem moves_length (rules : List (Nat × Int × Int × Int)) :
    (rules.flatMap fun r => encI16 r.2.1 ++ encI16 r.2.2.1 ++ encI16 r.2.2.2).length = 6 * rules.length := by
  induction rules with
  | nil => rfl
  | cons r rules ih =>
    simp only [List.flatMap_cons, List.length_append, encI16_length, ih, List.length_cons]
    omega

theorem moves_each {rules : List (Nat × Int × Int × Int)}
    (hr : ∀ r ∈ rules, r.1 < 65536 ∧ PointFine (r.2.1, r.2.2.1) ∧ -32768 ≤ r.2.2.2 ∧ r.2.2.2 < 32768) {base P : Nat}
    (h : Stored d P (rules.flatMap fun r => encI16 r.2.1 ++ encI16 r.2.2.1 ++ encI16 r.2.2.2)) (i : Nat) (x : gpos.Single)
    (hx : (rules.map fun r => moveBy r.2)[i]? = some x) : Spec.gpos.IsSingle base 7 d (P + 6 * i) x := by
  induction rules generalizing P i with
  | nil => cases hx
  | cons r rules ih =>
    simp only [List.flatMap_cons, stored_append, List.length_append, encI16_length] at h
    obtain ⟨_, h1, h2⟩ := hr r List.mem_cons_self
    cases i with
    | zero =>
      obtain rfl := Option.some.inj hx
      have b (k : Nat) (hk : Nat.testBit 7 k = false) : Nat.testBit 7 k = false := hk
      exact ⟨⟨by decide, atI16.mpr ⟨h1.1, h.1.1.1⟩⟩, ⟨by decide, atI16.mpr ⟨h1.2, h.1.1.2⟩⟩, ⟨by decide, atI16.mpr ⟨h2, h.1.2⟩⟩,
        b 3 (by decide), b 4 (by decide), b 5 (by decide), b 6 (by decide), b 7 (by decide), rfl, rfl, rfl, rfl⟩
    | succ i =>
      have := ih (fun r h => hr r (List.mem_cons_of_mem _ h)) h.2 i hx
      rwa [show P + (2 + 2 + 2) + 6 * i = P + 6 * (i + 1) by omega] at this

/-- The values for glyphs can be read wherever they are, and say how each glyph is moved: as the first rule for it says. -/
theorem C136_moves {rules : List (Nat × Int × Int × Int)}
    (hr : ∀ r ∈ rules, r.1 < 65536 ∧ PointFine (r.2.1, r.2.2.1) ∧ -32768 ≤ r.2.2.2 ∧ r.2.2.2 < 32768)
    (hl : (writeMoves rules).length < 65536) (cfg : Cfg) :
    ∃ t, (∀ d p, Fits d → Stored d p (writeMoves rules) → Reads (gpos.Type_.read cfg 1) d p (.singleAdjustment t)) ∧
      ∀ g, place t g = .ok ((rules.lookup g).map moveBy) := by
  refine ⟨.format2 ⟨2, 8 + 6 * rules.length, 7, rules.length, rules.map fun r => moveBy r.2,
    .format1 ⟨1, (rules.map (·.1)).length, rules.map (·.1)⟩⟩, ?_, ?_⟩
  rotate_left
  · intro g
    exact entryOf_rules _ rules moveBy g
  intro d p hd h
  refine (reads_parses (S := Spec.gpos.IsTable cfg 1) hd).mpr ?_
  simp only [writeMoves, List.length_append, enc16_length, moves_length] at hl
  simp only [writeMoves, stored_append, List.length_append, enc16_length, moves_length] at h
  obtain ⟨⟨⟨⟨⟨s1, s2⟩, s3⟩, s4⟩, s5⟩, s6⟩ := h
  have l1 : 8 + 6 * rules.length < 65536 := by omega
  have l2 : rules.length < 65536 := by omega
  refine ⟨rfl, rfl, at16.mpr ⟨(by decide : 2 < 65536), s1⟩, at16.mpr ⟨l1, s2⟩, at16.mpr ⟨(by decide : 7 < 65536), s3⟩,
    (fun _ => (by decide : 7 &&& 0xFF00 = 0)), at16.mpr ⟨l2, s4⟩, ⟨List.length_map .., fun i x hx => ?_⟩, ?_⟩
  · have := moves_each (base := p) hr s5 i x hx
    rw [show 6 = Spec.gpos.valueSize 7 by decide] at this
    exact this
  · refine coverage_there (fun g hg => ?_) (by rw [List.length_map]; omega) s6
    obtain ⟨r, hm, rfl⟩ := List.mem_map.mp hg
    exact (hr r hm).1

/-! ## Pairs of classes -/

theorem classes_each {classes : List (Nat × Nat)} (hc : ∀ c ∈ classes, c.1 < 65536 ∧ c.2 < 65536) {P : Nat}
    (h : Stored d P (classes.flatMap fun c => enc16 c.1 ++ enc16 c.1 ++ enc16 c.2)) (i : Nat) (x : class_.Record)
    (hx : (classes.map fun c => (⟨c.1, c.1, c.2⟩ : class_.Record))[i]? = some x) : IsClassRecord d (P + 6 * i) x := by
  induction classes generalizing P i with
  | nil => cases hx
  | cons c classes ih =>
    simp only [List.flatMap_cons, stored_append, List.length_append, enc16_length] at h
    obtain ⟨h1, h2⟩ := hc c List.mem_cons_self
    cases i with
    | zero =>
      obtain rfl := Option.some.inj hx
      exact ⟨at16.mpr ⟨h1, h.1.1.1⟩, at16.mpr ⟨h1, h.1.1.2⟩, at16.mpr ⟨h2, h.1.2⟩⟩
    | succ i =>
      have := ih (fun c h => hc c (List.mem_cons_of_mem _ h)) h.2 i hx
      rwa [show P + (2 + 2 + 2) + 6 * i = P + 6 * (i + 1) by omega] at this

theorem classOf_ranges (n : Nat) (classes : List (Nat × Nat)) (g : Nat) :
    classOf (.format2 ⟨2, n, classes.map fun c => ⟨c.1, c.1, c.2⟩⟩) g = (classes.lookup g).getD 0 := by
  show ((((classes.map fun c => (⟨c.1, c.1, c.2⟩ : class_.Record)).find? fun r => r.start_glyph_id ≤ g && g ≤ r.end_glyph_id).map
    (·.index)).getD 0) = _
  congr 1
  induction classes with
  | nil => rfl
  | cons c classes ih =>
    rw [List.map_cons, List.find?_cons, List.lookup_cons]
    by_cases e : g = c.1
    · subst e
      simp
    · have h1 : (decide (c.1 ≤ g) && decide (g ≤ c.1)) = false := by
        rw [Bool.and_eq_false_iff, decide_eq_false_iff_not, decide_eq_false_iff_not]
        omega
      have h2 : (g == c.1) = false := by simpa using e
      dsimp only
      rw [h1, h2]
      exact ih

theorem writeClassRanges_length (classes : List (Nat × Nat)) : (writeClassRanges classes).length = 4 + 6 * classes.length := by
  unfold writeClassRanges
  rw [List.length_append, List.length_append, enc16_length, enc16_length]
  congr 1
  induction classes with
  | nil => rfl
  | cons c classes ih =>
    rw [List.flatMap_cons, List.length_append, ih, List.length_append, List.length_append, enc16_length, enc16_length, List.length_cons]
    omega

theorem class_there {classes : List (Nat × Nat)} (hl : classes.length < 65536) (hc : ∀ c ∈ classes, c.1 < 65536 ∧ c.2 < 65536) {P : Nat}
    (h : Stored d P (writeClassRanges classes)) : IsClass d P (.format2 ⟨2, classes.length, classes.map fun c => ⟨c.1, c.1, c.2⟩⟩) := by
  simp only [writeClassRanges, stored_append, List.length_append, enc16_length] at h
  exact ⟨rfl, at16.mpr ⟨(by decide : 2 < 65536), h.1.1⟩, at16.mpr ⟨hl, h.1.2⟩, List.length_map .., classes_each hc h.2⟩

theorem row_length (row : List Int) : (row.flatMap encI16).length = 2 * row.length := by
  induction row with
  | nil => rfl
  | cons v row ih =>
    rw [List.flatMap_cons, List.length_append, encI16_length, ih, List.length_cons]
    omega

theorem rows_length {width : Nat} {rows : List (List Int)} (h : ∀ row ∈ rows, row.length = width) :
    (rows.flatMap fun row => row.flatMap encI16).length = 2 * (rows.length * width) := by
  induction rows with
  | nil => rw [List.length_nil, Nat.zero_mul]; rfl
  | cons row rows ih =>
    rw [List.flatMap_cons, List.length_append, row_length, ih fun r hr => h r (List.mem_cons_of_mem _ hr), h row List.mem_cons_self,
      List.length_cons, Nat.succ_mul rows.length width]
    omega

theorem row_each {row : List Int} (hv : ∀ v ∈ row, -32768 ≤ v ∧ v < 32768) {base P : Nat} (h : Stored d P (row.flatMap encI16)) (i : Nat)
    (x : gpos.Pair2) (hx : (row.map fun v => (⟨some (advanceBy v), none⟩ : gpos.Pair2))[i]? = some x) :
    Spec.gpos.IsPair2 base 4 0 d (P + 2 * i) x := by
  induction row generalizing P i with
  | nil => cases hx
  | cons v row ih =>
    rw [List.flatMap_cons, stored_append, encI16_length] at h
    cases i with
    | zero =>
      obtain rfl := Option.some.inj hx
      exact ⟨⟨(by decide : 4 ≠ 0), value_there (atI16.mpr ⟨hv v List.mem_cons_self, h.1⟩)⟩, (rfl : (0 : Nat) = 0)⟩
    | succ i =>
      have := ih (fun v h => hv v (List.mem_cons_of_mem _ h)) h.2 i hx
      rwa [show P + 2 + 2 * i = P + 2 * (i + 1) by omega] at this

theorem rows_each {width : Nat} {rows : List (List Int)} (hr : ∀ row ∈ rows, row.length = width ∧ ∀ v ∈ row, -32768 ≤ v ∧ v < 32768)
    {base P : Nat} (h : Stored d P (rows.flatMap fun row => row.flatMap encI16)) (i : Nat) (x : gpos.Pair2s)
    (hx : (rows.map fun row => (⟨row.map fun v => ⟨some (advanceBy v), none⟩⟩ : gpos.Pair2s))[i]? = some x) :
    Spec.gpos.IsPair2s base width 4 0 d (P + 2 * width * i) x := by
  induction rows generalizing P i with
  | nil => cases hx
  | cons row rows ih =>
    obtain ⟨h1, h2⟩ := hr row List.mem_cons_self
    rw [List.flatMap_cons, stored_append, row_length, h1] at h
    cases i with
    | zero =>
      obtain rfl := Option.some.inj hx
      exact ⟨(List.length_map ..).trans h1, row_each h2 h.1⟩
    | succ i =>
      have := ih (fun row h => hr row (List.mem_cons_of_mem _ h)) h.2 i hx
      rwa [show P + 2 * width + 2 * width * i = P + 2 * width * (i + 1) by rw [Nat.mul_succ]; omega] at this

/-- The rules for pairs of classes can be read wherever they are, and say how far each two glyphs are moved apart. -/
theorem C136_classes {rules : ClassRules} (hr : rules.Fine) (cfg : Cfg) :
    ∃ t, (∀ d p, Fits d → Stored d p rules.bytes → Reads (gpos.Type_.read cfg 2) d p (.pairAdjustment t)) ∧
      ∀ g h, adjust t g h = .ok ((rules.at g (some h)).map fun v => (some (advanceBy v), none)) := by
  obtain ⟨h1, h2, h3, h4, hl⟩ := hr
  have hw := rows_length fun row h => (h4 row h).1
  let o := 16 + 2 * (rules.rows.length * rules.width)
  refine ⟨.format2 ⟨2, o, 4, 0, o + (writeCoverage (rules.firsts.map (·.1))).length,
    o + (writeCoverage (rules.firsts.map (·.1))).length + (writeClassRanges rules.firsts).length, rules.rows.length, rules.width,
    rules.rows.map fun row => ⟨row.map fun v => ⟨some (advanceBy v), none⟩⟩,
    .format1 ⟨1, (rules.firsts.map (·.1)).length, rules.firsts.map (·.1)⟩,
    .format2 ⟨2, rules.firsts.length, rules.firsts.map fun c => ⟨c.1, c.1, c.2⟩⟩,
    .format2 ⟨2, rules.seconds.length, rules.seconds.map fun c => ⟨c.1, c.1, c.2⟩⟩⟩, ?_, ?_⟩
  · intro d p hd h
    refine (reads_parses (S := Spec.gpos.IsTable cfg 2) hd).mpr ?_
    have c1 := writeCoverage_length (rules.firsts.map (·.1))
    rw [List.length_map] at c1
    have c2 := writeClassRanges_length rules.firsts
    have c3 := writeClassRanges_length rules.seconds
    have hn := Nat.le_mul_of_pos_right rules.rows.length h3.1
    simp only [ClassRules.bytes, List.length_append, enc16_length, hw] at hl
    simp only [ClassRules.bytes, stored_append, List.length_append, enc16_length, hw] at h
    obtain ⟨⟨⟨⟨⟨⟨⟨⟨⟨⟨⟨s1, s2⟩, s3⟩, s4⟩, s5⟩, s6⟩, s7⟩, s8⟩, s9⟩, s10⟩, s11⟩, s12⟩ := h
    have l1 : o < 65536 := by omega
    have l2 : o + (writeCoverage (rules.firsts.map (·.1))).length < 65536 := by omega
    have l3 : o + (writeCoverage (rules.firsts.map (·.1))).length + (writeClassRanges rules.firsts).length < 65536 := by omega
    have l4 : rules.rows.length < 65536 := by omega
    refine ⟨rfl, rfl, at16.mpr ⟨(by decide : 2 < 65536), s1⟩, at16.mpr ⟨l1, s2⟩, at16.mpr ⟨(by decide : 4 < 65536), s3⟩,
      (fun _ => (by decide : 4 &&& 0xFF00 = 0)), at16.mpr ⟨(by decide : 0 < 65536), s4⟩, (fun _ => (by decide : 0 &&& 0xFF00 = 0)),
      at16.mpr ⟨l2, s5⟩, at16.mpr ⟨l3, s6⟩, at16.mpr ⟨l4, s7⟩, at16.mpr ⟨h3.2, s8⟩, ⟨List.length_map .., fun i x hx => ?_⟩, ?_, ?_, ?_⟩
    · have := rows_each (base := p) h4 s9 i x hx
      rw [show 2 = Spec.gpos.valueSize 4 + Spec.gpos.valueSize 0 by decide] at this
      exact this
    · refine coverage_there (fun g hg => ?_) (by rw [List.length_map]; omega) s10
      obtain ⟨r, hm, rfl⟩ := List.mem_map.mp hg
      exact (h1 r hm).1
    · refine class_there (by omega) (fun c hc => ⟨(h1 c hc).1, by have := (h1 c hc).2; omega⟩) ?_
      exact Nat.add_assoc p _ _ ▸ s11
    · refine class_there (by omega) (fun c hc => ⟨(h2 c hc).1, by have := (h2 c hc).2; omega⟩) ?_
      exact s12
  · intro g h
    unfold adjust ClassRules.at
    dsimp only
    rw [classOf_ranges, classOf_ranges, Option.bind_some]
    unfold indexOf
    dsimp only
    have k := index_rules rules.firsts g
    generalize (rules.firsts.map (·.1)).findIdx? (· == g) = i at k
    cases i with
    | none =>
      dsimp only at k
      rw [k]
      rfl
    | some i =>
      obtain ⟨r, k1, k2⟩ := k
      have b1 : r.2 < rules.rows.length := (h1 r (List.mem_of_getElem? k1)).2
      have b2 : (rules.seconds.lookup h).getD 0 < rules.width := by
        have k := index_rules rules.seconds h
        generalize (rules.seconds.map (·.1)).findIdx? (· == h) = j at k
        cases j with
        | none =>
          dsimp only at k
          rw [k]
          exact h3.1
        | some j =>
          obtain ⟨s, k3, k4⟩ := k
          rw [k4]
          exact (h2 s (List.mem_of_getElem? k3)).2
      have b3 := (h4 _ (List.getElem_mem b1)).1
      rw [k2, Option.bind_some, Option.getD_some]
      dsimp only
      have e1 : element (rules.rows.map fun row => (⟨row.map fun v => ⟨some (advanceBy v), none⟩⟩ : gpos.Pair2s)) r.2 =
          .ok ⟨rules.rows[r.2].map fun v => ⟨some (advanceBy v), none⟩⟩ := by
        unfold element
        rw [List.getElem?_map, List.getElem?_eq_getElem b1]
        rfl
      have e2 : element (rules.rows[r.2].map fun v => (⟨some (advanceBy v), none⟩ : gpos.Pair2)) ((rules.seconds.lookup h).getD 0) =
          .ok ⟨some (advanceBy (rules.rows[r.2][(rules.seconds.lookup h).getD 0]'(by omega))), none⟩ := by
        unfold element
        rw [List.getElem?_map, List.getElem?_eq_getElem (by omega)]
        rfl
      rw [e1, List.getElem?_eq_getElem b1, Option.bind_some, List.getElem?_eq_getElem (by omega)]
      show (element (rules.rows[r.2].map fun v => (⟨some (advanceBy v), none⟩ : gpos.Pair2)) ((rules.seconds.lookup h).getD 0) >>=
        fun cell => Except.ok (some (cell.value1, cell.value2))) = _
      rw [e2]
      rfl

/-! ## Joints -/

/-- Where the anchor of a cell is, and where the next begins. -/
def placeOf (o : Nat) (c : Option (Int × Int)) : Nat := if c.isSome then o else 0
def placeAfter (o : Nat) (c : Option (Int × Int)) : Nat := if c.isSome then o + 6 else o

theorem cellPlaces_cons (o : Nat) (c : Option (Int × Int)) (cells : List (Option (Int × Int))) :
    cellPlaces o (c :: cells) = placeOf o c :: cellPlaces (placeAfter o c) cells := by
  cases c <;> rfl

theorem points_cons (c : Option (Int × Int)) (cells : List (Option (Int × Int))) : points (c :: cells) = c.toList ++ points cells := by
  cases c <;> rfl

theorem placeAfter_eq (o : Nat) (c : Option (Int × Int)) : placeAfter o c = o + (c.toList.flatMap writeAnchor).length := by
  cases c with
  | none => rfl
  | some c =>
    rw [points_length]
    rfl

theorem cell_there {c : Option (Int × Int)} (hc : ∀ point, c = some point → PointFine point) {o P : Nat} (ho : o ≠ 0)
    (h : Stored d (P + o) (c.toList.flatMap writeAnchor)) : Optional (Spec.gpos.IsAnchor d) P (placeOf o c) (c.map anchorAt) := by
  cases c with
  | none => exact (rfl : (0 : Nat) = 0)
  | some c =>
    rw [Option.toList_some, List.flatMap_singleton] at h
    exact ⟨ho, anchor_there (hc c rfl) h⟩

def connectionsOf : Nat → List (Nat × Option (Int × Int) × Option (Int × Int)) → List gpos.Connection
  | _, [] => []
  | o, r :: rules => ⟨placeOf o r.2.1, placeOf (placeAfter o r.2.1) r.2.2, r.2.1.map anchorAt, r.2.2.map anchorAt⟩ ::
      connectionsOf (placeAfter (placeAfter o r.2.1) r.2.2) rules

theorem connectionsOf_length (o : Nat) (rules : List (Nat × Option (Int × Int) × Option (Int × Int))) :
    (connectionsOf o rules).length = rules.length := by
  induction rules generalizing o with
  | nil => rfl
  | cons r rules ih => exact congrArg (· + 1) (ih _)

theorem connectionsOf_at (o : Nat) (rules : List (Nat × Option (Int × Int) × Option (Int × Int))) (i : Nat)
    (r : Nat × Option (Int × Int) × Option (Int × Int)) (h : rules[i]? = some r) :
    ∃ o₁ o₂, (connectionsOf o rules)[i]? = some ⟨o₁, o₂, r.2.1.map anchorAt, r.2.2.map anchorAt⟩ := by
  induction rules generalizing o i with
  | nil => cases h
  | cons a rules ih =>
    cases i with
    | zero =>
      obtain rfl := Option.some.inj h
      exact ⟨_, _, rfl⟩
    | succ i => exact ih _ i h

theorem joint_each {rules : List (Nat × Option (Int × Int) × Option (Int × Int))}
    (hr : ∀ r ∈ rules, (∀ point, r.2.1 = some point → PointFine point) ∧ ∀ point, r.2.2 = some point → PointFine point) {o R P : Nat}
    (ho : o ≠ 0) (hl : o + 6 * (points (rules.flatMap fun r => [r.2.1, r.2.2])).length ≤ 65536)
    (h1 : Stored d R (enc16s (cellPlaces o (rules.flatMap fun r => [r.2.1, r.2.2]))))
    (h2 : Stored d (P + o) ((points (rules.flatMap fun r => [r.2.1, r.2.2])).flatMap writeAnchor)) (i : Nat) (x : gpos.Connection)
    (hx : (connectionsOf o rules)[i]? = some x) : Spec.gpos.IsConnection P d (R + 4 * i) x := by
  induction rules generalizing o R i with
  | nil => cases hx
  | cons r rules ih =>
    have e : ((r :: rules).flatMap fun r => [r.2.1, r.2.2]) = r.2.1 :: r.2.2 :: rules.flatMap fun r => [r.2.1, r.2.2] := rfl
    have hf := cellPlaces_fit hl
    rw [e, points_cons, points_cons] at h2 hl
    rw [e, cellPlaces_cons, cellPlaces_cons] at h1 hf
    rw [List.flatMap_append, stored_append, Nat.add_assoc, ← placeAfter_eq, List.flatMap_append, stored_append, Nat.add_assoc,
      ← placeAfter_eq] at h2
    rw [show ∀ (a b : Nat) (xs : List Nat), a :: b :: xs = [a] ++ ([b] ++ xs) from fun _ _ _ => rfl, enc16s_append, enc16s_append,
      stored_append, stored_append, enc16s_length, enc16s_length] at h1
    obtain ⟨r1, r2⟩ := hr r List.mem_cons_self
    have ho' : placeAfter o r.2.1 ≠ 0 := by rw [placeAfter_eq]; omega
    cases i with
    | zero =>
      obtain rfl := Option.some.inj hx
      refine ⟨at16.mpr ⟨hf _ List.mem_cons_self, ?_⟩, at16.mpr ⟨hf _ (List.mem_cons_of_mem _ List.mem_cons_self), ?_⟩,
        cell_there r1 ho h2.1, cell_there r2 ho' h2.2.1⟩
      · have := h1.1
        rw [show ∀ a, enc16s [a] = enc16 a from fun a => List.flatMap_singleton ..] at this
        exact this
      · have := h1.2.1
        rw [show ∀ a, enc16s [a] = enc16 a from fun a => List.flatMap_singleton ..] at this
        exact this
    | succ i =>
      have ho'' : placeAfter (placeAfter o r.2.1) r.2.2 ≠ 0 := by rw [placeAfter_eq]; omega
      have hl' : placeAfter (placeAfter o r.2.1) r.2.2 + 6 * (points (rules.flatMap fun r => [r.2.1, r.2.2])).length ≤ 65536 := by
        rw [placeAfter_eq, placeAfter_eq, points_length, points_length]
        simp only [List.length_append] at hl
        omega
      have := ih (fun r h => hr r (List.mem_cons_of_mem _ h)) ho'' hl' h1.2.2 h2.2.2 i hx
      rwa [show R + 2 * [placeOf o r.2.1].length + 2 * [placeOf (placeAfter o r.2.1) r.2.2].length + 4 * i = R + 4 * (i + 1) by
        simp only [List.length_cons, List.length_nil]
        omega] at this

/-- The joints can be read wherever they are, and say by which points each two glyphs are joined: those of the first rules for the two. -/
theorem C136_joints {rules : List (Nat × Option (Int × Int) × Option (Int × Int))}
    (hr : ∀ r ∈ rules, r.1 < 65536 ∧ (∀ point, r.2.1 = some point → PointFine point) ∧ ∀ point, r.2.2 = some point → PointFine point)
    (hl : (writeJoints rules).length < 65536) (cfg : Cfg) :
    ∃ t, (∀ d p, Fits d → Stored d p (writeJoints rules) → Reads (gpos.Type_.read cfg 3) d p (.cursiveAttachment t)) ∧
      (∀ g, connect t g = .ok ((rules.lookup g).map fun r => (r.1.map anchorAt, r.2.map anchorAt))) ∧
      ∀ g h, join t g h = .ok ((jointAt rules g (some h)).map fun y => .joined (anchorAt y.1) (anchorAt y.2)) := by
  let o := 6 + 4 * rules.length + (writeCoverage (rules.map (·.1))).length
  have hc (g : Nat) : connect ⟨1, 6 + 4 * rules.length, rules.length, connectionsOf o rules,
      .format1 ⟨1, (rules.map (·.1)).length, rules.map (·.1)⟩⟩ g =
      .ok ((rules.lookup g).map fun r => (r.1.map anchorAt, r.2.map anchorAt)) := by
    unfold connect entryOf indexOf
    dsimp only
    have k := index_rules rules g
    generalize (rules.map (·.1)).findIdx? (· == g) = i at k
    cases i with
    | none =>
      dsimp only at k
      rw [k]
      rfl
    | some i =>
      obtain ⟨r, k1, k2⟩ := k
      obtain ⟨o₁, o₂, e⟩ := connectionsOf_at o rules i r k1
      rw [k2]
      dsimp only
      unfold element
      rw [e]
      rfl
  refine ⟨⟨1, 6 + 4 * rules.length, rules.length, connectionsOf o rules, .format1 ⟨1, (rules.map (·.1)).length, rules.map (·.1)⟩⟩, ?_, hc, ?_⟩
  · intro d p hd h
    refine (reads_parses (S := Spec.gpos.IsTable cfg 3) hd).mpr ?_
    have hn : (rules.flatMap fun r => [r.2.1, r.2.2]).length = 2 * rules.length := by
      clear hr hl hc h
      induction rules with
      | nil => rfl
      | cons r rules ih =>
        rw [List.flatMap_cons, List.length_append, ih, List.length_cons, List.length_cons, List.length_cons, List.length_nil]
        omega
    simp only [writeJoints, List.length_append, enc16_length, enc16s_length, cellPlaces_length, points_length, hn] at hl
    simp only [writeJoints, stored_append, List.length_append, enc16_length, enc16s_length, cellPlaces_length, hn] at h
    obtain ⟨⟨⟨⟨⟨s1, s2⟩, s3⟩, s4⟩, s5⟩, s6⟩ := h
    have l1 : 6 + 4 * rules.length < 65536 := by omega
    have l2 : rules.length < 65536 := by omega
    have l3 : 2 * (2 * rules.length) = 4 * rules.length := by omega
    rw [l3] at s5 s6
    refine ⟨rfl, at16.mpr ⟨(by decide : 1 < 65536), s1⟩, rfl, at16.mpr ⟨l1, s2⟩, at16.mpr ⟨l2, s3⟩,
      ⟨connectionsOf_length .., fun i x hx => ?_⟩, ?_⟩
    · exact joint_each (fun r h => (hr r h).2) (o := o) (by omega) (by omega) s4 s6 i x hx
    · refine coverage_there (fun g hg => ?_) (by rw [List.length_map]; omega) s5
      obtain ⟨r, hm, rfl⟩ := List.mem_map.mp hg
      exact (hr r hm).1
  · intro g h
    unfold join jointAt
    rw [hc, hc, Option.bind_some]
    cases rules.lookup g with
    | none => rfl
    | some r =>
      obtain ⟨entry, exit⟩ := r
      cases exit with
      | none => rfl
      | some exit =>
        cases rules.lookup h with
        | none => rfl
        | some r =>
          obtain ⟨entry, _⟩ := r
          cases entry <;> rfl

/-! ## A lookup -/

theorem add_nothing (x : Item) : x.add [] = x := by
  unfold Item.add
  rw [List.append_nil]

theorem nearest_base (mark : Nat → Bool) (before : List Item) :
    (nearest (fun y => false || mark y.glyph) before).map (fun y => (y.1, y.2.glyph)) = baseBefore mark (before.map Item.glyph) := by
  unfold nearest
  rw [Option.map_map]
  induction before with
  | nil => rfl
  | cons x before ih =>
    unfold Spec.splitAt
    rw [List.map_cons]
    unfold baseBefore
    rw [Bool.false_or]
    cases mark x.glyph with
    | false => rfl
    | true =>
      rw [if_pos rfl, if_pos rfl, ← ih, Option.map_map, Option.map_map]
      rfl

/-- The subtable does what the rules say. -/
structure PlacesAs (x : gpos.Type_) (placing : Placing) : Prop where
  inline : positioningExtension x = none
  respond : ∀ (mark : Nat → Bool) nested (before : List Item) (y : Item) (following : List Item), y.component = 0 → ∃ r,
    respond (before.map Item.glyph) ((nearest (fun y => false || mark y.glyph) before).map (·.2.glyph)) y.component y.glyph
      (following.map Item.glyph) x = .ok r ∧
    match r with
    | none => placing.at mark (before.map Item.glyph) y.glyph (following.head?.map Item.glyph) = []
    | some r => conclude (fun _ => false) nested before (nearest (fun y => false || mark y.glyph) before) y following r =
        Pure.pure ([y.add (placing.at mark (before.map Item.glyph) y.glyph (following.head?.map Item.glyph))], following)

theorem placing_behaves {placing : Placing} (h : placing.Fine) (cfg : Cfg) :
    ∃ x, (∀ d p, Fits d → Stored d p placing.bytes → Reads (gpos.Type_.read cfg placing.type_) d p x) ∧ PlacesAs x placing := by
  cases placing with
  | move rules =>
    obtain ⟨t, h1, h2⟩ := C136_moves h.1 h.2 cfg
    refine ⟨_, h1, rfl, fun mark nested before y following _ => ?_⟩
    unfold Spec.respond move
    dsimp only [Placing.at]
    rw [h2]
    refine ⟨_, rfl, ?_⟩
    cases rules.lookup y.glyph <;> rfl
  | classes rules =>
    obtain ⟨t, h1, h2⟩ := C136_classes h cfg
    refine ⟨_, h1, rfl, fun mark nested before y following _ => ?_⟩
    unfold Spec.respond move
    dsimp only [Placing.at]
    rw [List.head?_map]
    cases following with
    | nil => exact ⟨none, rfl, rfl⟩
    | cons z following =>
      rw [List.head?_cons]
      dsimp only [Option.map_some]
      rw [h2]
      refine ⟨_, rfl, ?_⟩
      cases rules.at y.glyph (some z.glyph) <;> rfl
  | joints rules =>
    obtain ⟨t, h1, _, h2⟩ := C136_joints h.1 h.2 cfg
    refine ⟨_, h1, rfl, fun mark nested before y following _ => ?_⟩
    unfold Spec.respond
    dsimp only [Placing.at]
    rw [List.head?_map]
    cases following with
    | nil => exact ⟨none, rfl, rfl⟩
    | cons z following =>
      rw [List.head?_cons]
      dsimp only [Option.map_some]
      rw [h2]
      refine ⟨_, rfl, ?_⟩
      cases jointAt rules y.glyph (some z.glyph) <;> rfl
  | stacks rules =>
    obtain ⟨t, h1, h2⟩ := C136_stacks h cfg
    refine ⟨_, h1, rfl, fun mark nested before y following _ => ?_⟩
    unfold Spec.respond
    dsimp only [Placing.at]
    rw [List.head?_map]
    cases before with
    | nil => exact ⟨none, rfl, rfl⟩
    | cons z before =>
      rw [List.head?_cons]
      dsimp only [Option.map_some]
      rw [h2]
      refine ⟨_, rfl, ?_⟩
      rw [Option.bind_some]
      cases rules.at y.glyph z.glyph <;> rfl
  | kern rules =>
    obtain ⟨x, h1, h2⟩ := kern_behaves h cfg
    refine ⟨x, h1, h2.inline, fun mark nested before y following _ => ⟨_, h2.respond _ _ _ _ _, ?_⟩⟩
    rw [List.head?_map]
    dsimp only [Placing.at]
    cases kernAt rules y.glyph (following.head?.map Item.glyph) <;> rfl
  | marks rules =>
    obtain ⟨t, h1, h2⟩ := C136_marks h cfg
    refine ⟨_, h1, rfl, fun mark nested before y following _ => ?_⟩
    have hn := nearest_base mark before
    generalize nearest (fun y => false || mark y.glyph) before = base at hn
    unfold Spec.respond
    dsimp only [Placing.at]
    rw [← hn]
    cases base with
    | none => exact ⟨none, rfl, rfl⟩
    | some base =>
      dsimp only [Option.map_some]
      rw [h2]
      refine ⟨_, rfl, ?_⟩
      cases rules.at y.glyph base.2.glyph <;> rfl
  | ligatures rules =>
    obtain ⟨t, h1, h2⟩ := C138_ligatures h.1 cfg
    refine ⟨_, h1, rfl, fun mark nested before y following hy => ?_⟩
    have hn := nearest_base mark before
    generalize nearest (fun y => false || mark y.glyph) before = base at hn
    unfold Spec.respond
    dsimp only [Placing.at]
    rw [← hn, hy]
    cases base with
    | none => exact ⟨none, rfl, rfl⟩
    | some base =>
      dsimp only [Option.map_some]
      rw [h2 0 y.glyph base.2.glyph fun components hl => by
        have k := index_rules rules.ligatures base.2.glyph
        generalize (rules.ligatures.map (·.1)).findIdx? (· == base.2.glyph) = j at k
        cases j with
        | none =>
          dsimp only at k
          rw [k] at hl
          cases hl
        | some j =>
          obtain ⟨l, k1, k2⟩ := k
          rw [k2] at hl
          obtain rfl := Option.some.inj hl
          exact List.length_pos_iff.mpr (h.2 l (List.mem_of_getElem? k1))]
      refine ⟨_, rfl, ?_⟩
      cases rules.at 0 y.glyph base.2.glyph <;> rfl

/-- Lookups that do what the rules say, one for each. -/
structure HasPlacings (u : gpos.GlyphPositioning) (placings : List Placing) : Prop where
  count : u.lookups.records.length = placings.length
  even : Evened u
  tables : ∀ (i : Nat) (placing : Placing), placings[i]? = some placing → ∃ (record : lookup.Record gpos.Type_) (x : gpos.Type_),
    u.lookups.records[i]? = some record ∧ record.tables = [x] ∧ PlacesAs x placing

theorem component_placing (mark : Nat → Bool) (placing : Placing) (before : List Nat) {text : List Item} (hy : ∀ y ∈ text, y.component = 0) :
    ∀ y ∈ placing.through mark before text, y.component = 0 := by
  induction text generalizing before with
  | nil =>
    intro y h
    cases h
  | cons x text ih =>
    intro y h
    rcases List.mem_cons.mp h with rfl | h
    · exact hy x List.mem_cons_self
    · exact ih _ (fun z hz => hy z (List.mem_cons_of_mem _ hz)) y h

theorem component_placings (mark : Nat → Bool) (placings : List Placing) {text : List Item} (hy : ∀ y ∈ text, y.component = 0) :
    ∀ y ∈ placingsThrough mark placings text, y.component = 0 := by
  unfold placingsThrough
  induction placings generalizing text with
  | nil => exact hy
  | cons placing placings ih => exact ih (component_placing mark placing [] hy)

section
variable {cfg : Cfg} {u : gpos.GlyphPositioning} {placings : List Placing} (h : HasPlacings u placings) (mark : Nat → Bool)
include h

theorem settle_placing {i : Nat} {placing : Placing} (hi : placings[i]? = some placing) (n : Nat) (before : List Item) (y : Item)
    (text : List Item) (hy : y.component = 0) :
    ∃ r, settle cfg 0 u (fun _ _ => false) mark (n + 1) i before (y :: text) = Pure.pure r ∧
      match r with
      | none => placing.at mark (before.map Item.glyph) y.glyph (text.head?.map Item.glyph) = []
      | some r => r = ([y.add (placing.at mark (before.map Item.glyph) y.glyph (text.head?.map Item.glyph))], text) := by
  obtain ⟨record, x, h1, h2, h3⟩ := h.tables i placing hi
  obtain ⟨r, k1, k2⟩ := h3.respond mark (settle cfg 0 u (fun _ _ => false) mark n) before y text hy
  unfold settle
  rw [if_neg Bool.false_ne_true]
  dsimp only
  rw [filter_not_false, filter_not_false, perform_only h.even h1 h2 h3.inline k1]
  cases r with
  | none => exact ⟨none, rfl, k2⟩
  | some r =>
    dsimp only at k2
    refine ⟨some _, ?_, rfl⟩
    show (conclude _ _ _ _ _ _ r >>= fun z => Pure.pure (some z)) = _
    rw [k2]
    rfl

theorem forward_placing {i : Nat} {placing : Placing} (hi : placings[i]? = some placing) (n fuel : Nat) (before text : List Item)
    (hf : text.length ≤ fuel) (hy : ∀ y ∈ text, y.component = 0) :
    forward (settle cfg 0 u (fun _ _ => false) mark (n + 1) i) fuel before text =
      Pure.pure (placing.through mark (before.map Item.glyph) text) := by
  induction fuel generalizing before text with
  | zero =>
    obtain rfl := List.length_eq_zero_iff.mp (Nat.le_zero.mp hf)
    rfl
  | succ fuel ih =>
    cases text with
    | nil => rfl
    | cons y text =>
      rw [List.length_cons] at hf
      obtain ⟨r, k1, k2⟩ := settle_placing (cfg := cfg) h mark hi n before y text (hy y List.mem_cons_self)
      unfold forward
      rw [k1]
      unfold Placing.through
      cases r with
      | none =>
        dsimp only at k2
        rw [k2, add_nothing]
        show (forward _ fuel (y :: before) text >>= fun x => Pure.pure (y :: x)) = _
        rw [ih _ _ (by omega) fun z hz => hy z (List.mem_cons_of_mem _ hz)]
        rfl
      | some r =>
        dsimp only at k2
        rw [k2]
        show (forward _ fuel (y.add _ :: before) text >>= fun x => Pure.pure ([y.add _] ++ x)) = _
        rw [ih _ _ (by omega) fun z hz => hy z (List.mem_cons_of_mem _ hz)]
        rfl

theorem below_placings (n : Nat) (wanted : Nat → Bool) (b : Bool) (hw : ∀ k < placings.length, wanted k = b) (text : List Item) (m : Nat)
    (hm : m ≤ placings.length) (hy : ∀ y ∈ text, y.component = 0) :
    below (fun i text => forward (settle cfg 0 u (fun _ _ => false) mark (n + 1) i) text.length [] text) wanted m text =
      Pure.pure (if b then placingsThrough mark (placings.take m) text else text) := by
  induction m with
  | zero => cases b <;> rfl
  | succ m ih =>
    unfold below
    rw [ih (by omega), hw m (by omega)]
    cases b with
    | false => rfl
    | true =>
      have hi : placings[m]? = some placings[m] := List.getElem?_eq_getElem (by omega)
      simp only [if_true]
      show forward (settle cfg 0 u (fun _ _ => false) mark (n + 1) m) (placingsThrough mark (placings.take m) text).length []
        (placingsThrough mark (placings.take m) text) = _
      rw [forward_placing h mark hi n _ [] _ (Nat.le_refl _) (component_placings mark _ hy), List.take_succ_eq_append_getElem (by omega)]
      unfold placingsThrough
      rw [List.foldl_append]
      rfl

end

/-! ## The table -/

theorem placing_length {placing : Placing} (h : placing.Fine) : placing.bytes.length < 65536 := by
  cases placing with
  | move rules => exact h.2
  | kern rules => exact h.2.2
  | classes rules => exact h.length
  | joints rules => exact h.2
  | marks rules => exact h.length
  | ligatures rules => exact h.1.length
  | stacks rules => exact h.length

theorem placings_length {placings : List Placing} (h : ∀ placing ∈ placings, placing.Fine) :
    ((placings.map fun placing => (⟨placing.type_, 0, none, [placing.bytes]⟩ : Planned)).flatMap fun l => l.bodies.flatten).length ≤
      65536 * placings.length := by
  induction placings with
  | nil => exact Nat.le_refl _
  | cons placing placings ih =>
    have h1 := placing_length (h placing List.mem_cons_self)
    have h2 := ih fun s hs => h s (List.mem_cons_of_mem _ hs)
    rw [List.map_cons, List.flatMap_cons, List.length_append, List.length_cons]
    have : ([placing.bytes] : List Data).flatten.length = placing.bytes.length := by simp
    dsimp only
    omega

theorem placings_values (cfg : Cfg) {placings : List Placing} (h : ∀ placing ∈ placings, placing.Fine) :
    ∃ xs : List gpos.Type_,
      List.Forall₂ (fun x placing => PlacesAs x placing ∧ Reads (gpos.Type_.read cfg placing.type_) placing.bytes 0 x) xs placings := by
  induction placings with
  | nil => exact ⟨[], .nil⟩
  | cons placing placings ih =>
    obtain ⟨x, h1, h2⟩ := placing_behaves (h placing List.mem_cons_self) cfg
    obtain ⟨xs, hx⟩ := ih fun s hs => h s (List.mem_cons_of_mem _ hs)
    refine ⟨x :: xs, .cons ⟨h2, h1 _ 0 ?_ (stored_self _)⟩ hx⟩
    have := placing_length (h placing List.mem_cons_self)
    unfold Fits
    omega

/-- What is read of the table, with the subtables `xs`. -/
def placedValue (script feature : Tag) (xs : List gpos.Type_) : gpos.GlyphPositioning where
  major_version := 1
  minor_version := 0
  script_offset := 0
  feature_offset := 0
  lookup_offset := 0
  variation_offset := 0
  scripts := scriptOf script
  features := featureOf feature xs.length
  lookups := ⟨0, [], xs.map fun x => ⟨0, 0, 0, [], none, [x]⟩⟩
  variations := none

theorem placing_plan {cfg : Cfg} {script feature : Tag} {placings : List Placing} (hs : script < 4294967296) (hf : feature < 4294967296)
    (h : ∀ placing ∈ placings, placing.Fine) (hm : placings.length ≤ 3640) {xs : List gpos.Type_}
    (hx : List.Forall₂ (fun x placing => PlacesAs x placing ∧ Reads (gpos.Type_.read cfg placing.type_) placing.bytes 0 x) xs placings) :
    PlanFor cfg 9 (gpos.Type_.read cfg) positioningExtension (placedValue script feature xs) (writeScript script)
      (writeFeature feature placings.length) (placings.map fun placing => ⟨placing.type_, 0, none, [placing.bytes]⟩) := by
  have hl := hx.length_eq
  have e1 : (writeScript script).length = 20 := by simp only [writeScript, List.length_append, enc16_length, enc32_length]
  have e2 := writeFeature_length feature placings.length
  have e3 : ((placings.map fun placing => (⟨placing.type_, 0, none, [placing.bytes]⟩ : Planned)).map Planned.size).sum =
      16 * placings.length := by
    rw [List.map_map]
    clear h hm hx hl e2
    induction placings with
    | nil => rfl
    | cons placing placings ih =>
      rw [List.map_cons, List.sum_cons, ih, List.length_cons]
      show 16 + _ = _
      omega
  refine ⟨script_reads hs, ?_, ?_, ?_, ?_, ?_, ?_⟩
  · unfold placedValue
    dsimp only
    rw [hl]
    exact feature_reads hf (by omega)
  · unfold placedValue
    dsimp only
    clear h hm hl e2 e3
    induction hx with
    | nil => exact .nil
    | cons h1 _ ih => exact .cons ⟨rfl, rfl, .cons ⟨h1.2, h1.1.inline⟩ .nil⟩ ih
  · intro l hm
    obtain ⟨placing, _, rfl⟩ := List.mem_map.mp hm
    refine ⟨?_, (by decide : 0 < 65536), (fun _ => (by decide : 0 &&& 224 = 0)), (by decide : Nat.testBit 0 4 = false), (fun _ h => by cases h)⟩
    cases placing
    · exact (by decide : 1 < 65536)
    · exact (by decide : 2 < 65536)
    · exact (by decide : 2 < 65536)
    · exact (by decide : 3 < 65536)
    · exact (by decide : 4 < 65536)
    · exact (by decide : 5 < 65536)
    · exact (by decide : 6 < 65536)
  · rw [e1, e2]
    omega
  · rw [e3, List.length_map]
    omega
  · rw [assemble_length, e1, e2, e3]
    have := placings_length h
    rw [List.length_map]
    omega

theorem placed_has {cfg : Cfg} {script feature : Tag} {placings : List Placing} {xs : List gpos.Type_}
    (hx : List.Forall₂ (fun x placing => PlacesAs x placing ∧ Reads (gpos.Type_.read cfg placing.type_) placing.bytes 0 x) xs placings)
    {u : gpos.GlyphPositioning} (he : Evened u) (hc : SameContent u (placedValue script feature xs)) : HasPlacings u placings := by
  refine ⟨?_, he, fun i placing hi => ?_⟩
  · rw [hc.lookups.length_eq, ← hx.length_eq]
    exact List.length_map ..
  · obtain ⟨x, e, hb⟩ : ∃ x, xs[i]? = some x ∧ PlacesAs x placing := by
      clear hc
      induction hx generalizing i with
      | nil => cases hi
      | cons h _ ih =>
        cases i with
        | zero =>
          obtain rfl := Option.some.inj hi
          exact ⟨_, rfl, h.1⟩
        | succ i => exact ih i hi
    have key := sameContent_at hc i
    rw [show (placedValue script feature xs).lookups.records[i]? = some ⟨0, 0, 0, [], none, [x]⟩ by
      show (xs.map _)[i]? = _
      rw [List.getElem?_map, e]
      rfl] at key
    generalize e' : u.lookups.records[i]? = a at key
    cases key with
    | some key => exact ⟨_, x, rfl, key.2.2, hb⟩

/-- How the glyphs are placed in a file with the table that is made of the rules. -/
theorem placed_taken (accept : Tag → Bool) (cfg : Cfg) (hd : Fits d) {script feature : Tag} {placings : List Placing}
    (hs : script < 4294967296) (hf : feature < 4294967296) (h : ∀ placing ∈ placings, placing.Fine) (hm : placings.length ≤ 3640)
    (h3 : HasTable accept cfg d .glyphPositioning (some (compilePlacings script feature placings))) :
    ∃ t y, Takes accept cfg d 0 .glyphPositioning (gpos.GlyphPositioning.read cfg) (some t) ∧
      (∀ p, TableAt accept cfg d .glyphPositioning p → StandFor cfg 9 (Spec.gpos.IsTable cfg) d p y) ∧
      ∀ definition n script' language tags glyphs,
        settleValue cfg definition (n + 1) script' language tags glyphs (some (withSubtables y t)) =
          .ok (if script' = script ∧ feature ∈ tags then placingsThrough (marked definition) placings (glyphs.map Item.of)
            else glyphs.map Item.of) := by
  obtain ⟨xs, hx⟩ := placings_values cfg h
  have h3' : HasAssembled accept cfg d .glyphPositioning 9 (gpos.Type_.read cfg) positioningExtension (some (placedValue script feature xs)) :=
    ⟨_, _, _, placing_plan hs hf h hm hx, h3⟩
  obtain ⟨t, y, k1, k2, k3⟩ := assembled_taken hd (isTable := Spec.gpos.IsTable cfg) (fun hd _ _ _ => reads_parses hd) h3'
    (.extensionPositioning ⟨0, 0, 0⟩) fun t s f ls => (C132_table cfg s f ls).2 t
  cases t with
  | none => cases k2
  | some t =>
    refine ⟨t, y, k1, k3, fun definition n script' language tags glyphs => ?_⟩
    have hc : SameContent (withSubtables y t) (placedValue script feature xs) := by
      cases k2 with
      | some h => exact h
    have he : Evened (withSubtables y t) := by
      obtain ⟨p, _, hp⟩ := (C55_stored accept cfg _ hd (fun _ _ => directory_reads (isTable := Spec.gpos.IsTable cfg)
        (fun hd _ _ _ => reads_parses hd) hd) 0 t).mp k1
      exact evened_with (evened_read hp)
    obtain ⟨found, e1, e2⟩ := listed_lookups (m := xs.length) hc.scripts hc.features
      (by rw [hc.lookups.length_eq]; exact List.length_map ..) script' language tags
    have hst := placed_has hx he hc
    rw [hx.length_eq] at e2
    have hp := same_plain hc fun record hm => by
      obtain ⟨x, _, rfl⟩ := List.mem_map.mp hm
      exact ⟨rfl, rfl⟩
    have key : settleText cfg 0 (withSubtables y t) (ignoring definition (withSubtables y t)) (marked definition) (n + 1) script' language tags
        (glyphs.map Item.of) = Pure.pure (if script' = script ∧ feature ∈ tags then
          placingsThrough (marked definition) placings (glyphs.map Item.of) else glyphs.map Item.of) := by
      unfold settleText passAll
      rw [e1, plain_ignoring hp]
      dsimp only
      rw [hst.count]
      have := below_placings (cfg := cfg) hst (marked definition) n _ _ e2 (glyphs.map Item.of) placings.length (Nat.le_refl _) fun y hy => by
        obtain ⟨g, _, rfl⟩ := List.mem_map.mp hy
        rfl
      rw [List.take_length] at this
      simp only [decide_eq_true_eq] at this
      exact this
    unfold settleValue
    dsimp only
    rw [key]
    rfl

/-! ## Text -/

/-- A file with the tables that are made of the rules sets every text as they say: the stages make it into another, and the rules for pairs
and marks place its glyphs, one after another, each from the first glyph to the last. Which glyphs are marks is up to the glyph definition. -/
theorem C136_text (accept : Tag → Bool) (cfg : Cfg) (hd : Fits d) {script feature script₂ feature₂ : Tag} {stages : List Stage}
    {placings : List Placing} (hs : script < 4294967296) (hf : feature < 4294967296) (h : ∀ stage ∈ stages, stage.Fine)
    (hm : stages.length ≤ 3640) (hs₂ : script₂ < 4294967296) (hf₂ : feature₂ < 4294967296) (h' : ∀ placing ∈ placings, placing.Fine)
    (hm' : placings.length ≤ 3640) {p : Nat} {definition : Option gdef.GlyphDefinition}
    (h1 : Takes accept cfg d p .glyphDefinition (gdef.GlyphDefinition.read cfg) definition)
    (h2 : HasTable accept cfg d .glyphSubstitution (some (compile script feature stages)))
    (h3 : HasTable accept cfg d .glyphPositioning (some (compilePlacings script₂ feature₂ placings)))
    (n : Nat) (script' language : Tag) (tags : List Tag) (glyphs : List Nat) :
    alone (typeset accept cfg (n + 1) script' language tags glyphs) d =
      .ok (
        let made := (if script' = script ∧ feature ∈ tags then stagesThrough stages glyphs else glyphs).map Item.of
        if script' = script₂ ∧ feature₂ ∈ tags then placingsThrough (marked (definition.map fun t => (0, t))) placings made else made) := by
  obtain ⟨t, x, k1, k2, k3⟩ := compiled_taken accept cfg hd hs hf h hm h2
  obtain ⟨t', y, m1, m2, m3⟩ := placed_taken accept cfg hd hs₂ hf₂ h' hm' h3
  rw [C131_values accept cfg hd h1 k1 m1 (x := x) (y := y) k2 m2]
  unfold setValues
  rw [Option.map_some, Option.map_some]
  dsimp only
  rw [k3]
  exact m3 ..

/-- The same for a file without a table that makes texts into others. -/
theorem C136_alone (accept : Tag → Bool) (cfg : Cfg) (hd : Fits d) {script feature : Tag} {placings : List Placing}
    (hs : script < 4294967296) (hf : feature < 4294967296) (h : ∀ placing ∈ placings, placing.Fine) (hm : placings.length ≤ 3640)
    {p : Nat} {definition : Option gdef.GlyphDefinition}
    (h1 : Takes accept cfg d p .glyphDefinition (gdef.GlyphDefinition.read cfg) definition)
    (h2 : HasTable accept cfg d .glyphSubstitution none)
    (h3 : HasTable accept cfg d .glyphPositioning (some (compilePlacings script feature placings)))
    (n : Nat) (script' language : Tag) (tags : List Tag) (glyphs : List Nat) :
    alone (typeset accept cfg (n + 1) script' language tags glyphs) d =
      .ok (if script' = script ∧ feature ∈ tags then
        placingsThrough (marked (definition.map fun t => (0, t))) placings (glyphs.map Item.of) else glyphs.map Item.of) := by
  obtain ⟨t', y, m1, m2, m3⟩ := placed_taken accept cfg hd hs hf h hm h3
  rw [C131_values accept cfg hd h1 (absent_taken hd h2) m1 (x := fun _ _ => .extensionSubstitution ⟨0, 0, 0⟩) (y := y)
    (fun p hp => (taken_none hd (absent_taken hd h2 (r := Directory.read cfg gsub.Type_.read)) p hp).elim) m2]
  unfold setValues
  rw [Option.map_none, Option.map_some]
  exact m3 ..

/-- No glyph is lost, added or changed, and nothing is taken away of what there was about its place. -/
theorem C136_glyphs (mark : Nat → Bool) (placings : List Placing) (text : List Item) :
    (placingsThrough mark placings text).map Item.glyph = text.map Item.glyph ∧
      List.Forall₂ (fun x y => x.placements <+: y.placements) text (placingsThrough mark placings text) := by
  have one (placing : Placing) (before : List Nat) (text : List Item) : (placing.through mark before text).map Item.glyph = text.map Item.glyph ∧
      List.Forall₂ (fun x y => x.placements <+: y.placements) text (placing.through mark before text) := by
    induction text generalizing before with
    | nil => exact ⟨rfl, .nil⟩
    | cons x text ih =>
      obtain ⟨h1, h2⟩ := ih (x.glyph :: before)
      exact ⟨congrArg (x.glyph :: ·) h1, .cons (List.prefix_append ..) h2⟩
  unfold placingsThrough
  induction placings generalizing text with
  | nil =>
    refine ⟨rfl, ?_⟩
    show List.Forall₂ _ text text
    induction text with
    | nil => exact .nil
    | cons x text ih => exact .cons (List.prefix_refl _) ih
  | cons placing placings ih =>
    rw [List.foldl_cons]
    obtain ⟨h1, h2⟩ := one placing [] text
    obtain ⟨h3, h4⟩ := ih (placing.through mark [] text)
    refine ⟨h3.trans h1, ?_⟩
    generalize placing.through mark [] text = mid at h2 h4
    generalize placings.foldl (fun text placing => placing.through mark [] text) mid = out at h4
    clear h1 h3 ih
    induction h2 generalizing out with
    | nil => cases h4; exact .nil
    | cons ha _ ih =>
      cases h4 with
      | cons hb h4 => exact .cons (ha.trans hb) (ih _ h4)

/-- Rules that move glyphs go through each of them, those for pairs say what C135 says, and glyphs without rules are left as they are. -/
theorem C136_kinds (mark : Nat → Bool) (text : List Item) :
    (∀ rules before, (Placing.move rules).through mark before text =
      text.map fun x => x.add ((rules.lookup x.glyph).toList.map fun v => .moved (moveBy v))) ∧
    (∀ rules glyphs, placingsThrough mark [.kern rules] (glyphs.map Item.of) = kerned rules glyphs) ∧
    placingsThrough mark [] text = text := by
  refine ⟨fun rules before => ?_, fun rules glyphs => ?_, rfl⟩
  · induction text generalizing before with
    | nil => rfl
    | cons x text ih => exact congrArg (_ :: ·) (ih _)
  · show (Placing.kern rules).through mark [] (glyphs.map Item.of) = _
    generalize ([] : List Nat) = before
    induction glyphs generalizing before with
    | nil => rfl
    | cons g glyphs ih =>
      rw [List.map_cons]
      unfold Placing.through kerned
      rw [ih]
      congr 1
      dsimp only [Placing.at]
      rw [List.head?_map, Option.map_map, show Item.glyph ∘ Item.of = id from rfl, Option.map_id, id]
      show (Item.of g).add ((kernAt rules g glyphs.head?).toList.map _) = _
      cases kernAt rules g glyphs.head? <;> rfl

/-- What two sets of rules say does not depend on which of them comes first, but for the order in which it is said. -/
theorem C136_order (mark : Nat → Bool) (a b : Placing) (text : List Item) :
    List.Forall₂ (fun x y => x.glyph = y.glyph ∧ x.component = y.component ∧ x.placements.Perm y.placements)
      (placingsThrough mark [a, b] text) (placingsThrough mark [b, a] text) := by
  show List.Forall₂ _ (b.through mark [] (a.through mark [] text)) (a.through mark [] (b.through mark [] text))
  have head (c : Placing) (before : List Nat) (text : List Item) :
      (c.through mark before text).head?.map Item.glyph = text.head?.map Item.glyph := by
    cases text <;> rfl
  generalize ([] : List Nat) = before
  induction text generalizing before with
  | nil => exact .nil
  | cons x text ih =>
    unfold Placing.through
    refine .cons ⟨rfl, rfl, ?_⟩ (ih _)
    rw [head, head]
    show ((x.placements ++ _) ++ _).Perm ((x.placements ++ _) ++ _)
    rw [List.append_assoc, List.append_assoc]
    exact List.Perm.append_left _ List.perm_append_comm

/-! ## Example -/

/-- A mark, of the second of two classes, and a base, without a point for marks of the first. -/
def exampleMarks : MarkRules := ⟨2, [(40, 1, (5, -6))], [(20, [none, some (100, 200)])]⟩

def examplePlacings : List Placing := [.kern exampleKern, .marks exampleMarks]

example : exampleMarks.bytes =
    bytes ([0, 1,  0, 12,  0, 18,  0, 2,  0, 24,  0, 36] ++ [0, 1,  0, 1,  0, 40] ++ [0, 1,  0, 1,  0, 20] ++
      ([0, 1,  0, 1,  0, 6] ++ [0, 1,  0, 5,  0xFF, 0xFA]) ++ ([0, 1,  0, 0,  0, 6] ++ [0, 1,  0, 100,  0, 200])) := by decide +kernel

theorem examplePlacings_fine : ∀ placing ∈ examplePlacings, placing.Fine := by
  intro placing h
  rcases List.mem_cons.mp h with rfl | h
  · exact exampleKern_fine
  · obtain rfl := List.mem_singleton.mp h
    refine ⟨by decide, ?_, ?_, by decide +kernel⟩
    · intro m hm
      obtain rfl := List.mem_singleton.mp hm
      exact ⟨by decide, by decide, by unfold PointFine; decide⟩
    · intro b hb
      obtain rfl := List.mem_singleton.mp hb
      refine ⟨by decide, by decide, fun point hp => ?_⟩
      rcases List.mem_cons.mp hp with hp | hp
      · cases hp
      · obtain rfl := Option.some.inj (List.mem_singleton.mp hp)
        unfold PointFine
        decide

/-- The mark hangs on the base, past another mark, and the base is not kerned with what comes behind them. -/
example : placingsThrough (· == 40) examplePlacings ([40, 20, 40, 40, 30, 30].map Item.of) =
    [⟨40, 0, []⟩, ⟨20, 0, []⟩, ⟨40, 0, [.attached 1 (anchorAt (5, -6)) (anchorAt (100, 200))]⟩,
      ⟨40, 0, [.attached 2 (anchorAt (5, -6)) (anchorAt (100, 200))]⟩, ⟨30, 0, [.moved (advanceBy 7)]⟩, ⟨30, 0, []⟩] := by decide +kernel

/-- A file with the table, and a glyph definition by which glyph 40 is a mark. -/
def placingFile : Data :=
  fontFile 0x00010000 32 1 0
    [(TableType.glyphDefinition.tag, bytes ([0, 1,  0, 0,  0, 12,  0, 0,  0, 0,  0, 0] ++ [0, 1,  0, 40,  0, 1,  0, 3])),
      (TableType.glyphPositioning.tag, compilePlacings 0x6C61746E 0x6B65726E examplePlacings)]

def placingDefinition : gdef.GlyphDefinition :=
  ⟨.version1 ⟨1, 0, 12, 0, 0, 0⟩, some (.format1 ⟨1, 40, 1, [3]⟩), none, none, none, none, none⟩

/-- What is read from the file. -/
def placingRead : File :=
  match File.read (· == 0x00010000) placingFile 0 with
  | .ok x => x.1
  | .error _ => ⟨[]⟩

theorem placing_takes : Takes (· == 0x00010000) ⟨false, false, false, false, true, false⟩ placingFile 0 .glyphDefinition
    (gdef.GlyphDefinition.read ⟨false, false, false, false, true, false⟩) (some placingDefinition) :=
  ⟨placingRead, by decide +kernel, by decide +kernel⟩

/-- It sets every text as the rules say. -/
example (n : Nat) (language : Tag) (glyphs : List Nat) :
    alone (typeset (· == 0x00010000) ⟨false, false, false, false, true, false⟩ (n + 1) 0x6C61746E language [0x6B65726E] glyphs)
      placingFile = .ok (placingsThrough (marked (some (0, placingDefinition))) examplePlacings (glyphs.map Item.of)) := by
  have hd : Fits placingFile := by decide +kernel
  have hw : Writable (· == 0x00010000) 0x00010000 32 1 0
      [(TableType.glyphDefinition.tag, bytes ([0, 1,  0, 0,  0, 12,  0, 0,  0, 0,  0, 0] ++ [0, 1,  0, 40,  0, 1,  0, 3])),
        (TableType.glyphPositioning.tag, compilePlacings 0x6C61746E 0x6B65726E examplePlacings)] :=
    ⟨by decide, by decide, by decide, by decide +kernel, by decide +kernel⟩
  have ht (table : TableType) := hasTable_written hw (after := []) (by rw [List.append_nil]; exact hd)
    ⟨false, false, false, false, true, false⟩ table
  rw [List.append_nil] at ht
  have b2 (x y : Data) : bodyOf .glyphSubstitution [(TableType.glyphDefinition.tag, x), (TableType.glyphPositioning.tag, y)] = none :=
    (if_neg (by decide)).trans (if_neg (by decide))
  have b3 (x y : Data) : bodyOf .glyphPositioning [(TableType.glyphDefinition.tag, x), (TableType.glyphPositioning.tag, y)] = some y :=
    (if_neg (by decide)).trans (if_pos rfl)
  have t2 := ht .glyphSubstitution
  have t3 := ht .glyphPositioning
  rw [b2] at t2
  rw [b3] at t3
  rw [C136_alone _ _ hd (by decide) (by decide) examplePlacings_fine (by decide) placing_takes t2 t3 n 0x6C61746E language [0x6B65726E] glyphs]
  rfl

/-- As the crate's readers do on one of them. -/
example : alone (typeset (· == 0x00010000) ⟨false, false, false, false, true, false⟩ 1 0x6C61746E 0 [0x6B65726E] [20, 40, 40, 30])
    placingFile = .ok [⟨20, 0, []⟩, ⟨40, 0, [.attached 1 (anchorAt (5, -6)) (anchorAt (100, 200))]⟩,
      ⟨40, 0, [.attached 2 (anchorAt (5, -6)) (anchorAt (100, 200))]⟩, ⟨30, 0, []⟩] := by decide +kernel

/-! ### The other kinds -/

/-- A mark of the second of two classes, and a ligature of two components, the first without a point for marks of the first class, the
second with one for them only. -/
def exampleLigatures : LigatureRules := ⟨2, [(40, 1, (5, -6))], [(20, [[none, some (100, 200)], [some (7, 8), none]])]⟩

example : exampleLigatures.bytes =
    bytes ([0, 1,  0, 12,  0, 18,  0, 2,  0, 24,  0, 36] ++ [0, 1,  0, 1,  0, 40] ++ [0, 1,  0, 1,  0, 20] ++
      ([0, 1,  0, 1,  0, 6] ++ [0, 1,  0, 5,  0xFF, 0xFA]) ++
      ([0, 1,  0, 4] ++ ([0, 2,  0, 0,  0, 10,  0, 16,  0, 0] ++ [0, 1,  0, 100,  0, 200] ++ [0, 1,  0, 7,  0, 8]))) := by decide +kernel

theorem exampleLigatures_fine : exampleLigatures.Fine := by
  refine ⟨by decide, ?_, ?_, by decide +kernel⟩
  · intro m hm
    obtain rfl := List.mem_singleton.mp hm
    exact ⟨by decide, by decide, by unfold PointFine; decide⟩
  · intro l hm
    obtain rfl := List.mem_singleton.mp hm
    refine ⟨by decide, by decide, fun cells hc => ?_⟩
    rcases List.mem_cons.mp hc with rfl | hc
    · refine ⟨by decide, fun point hp => ?_⟩
      rcases List.mem_cons.mp hp with hp | hp
      · cases hp
      · obtain rfl := Option.some.inj (List.mem_singleton.mp hp)
        unfold PointFine
        decide
    · obtain rfl := List.mem_singleton.mp hc
      refine ⟨by decide, fun point hp => ?_⟩
      rcases List.mem_cons.mp hp with hp | hp
      · obtain rfl := Option.some.inj hp
        unfold PointFine
        decide
      · cases List.mem_singleton.mp hp

/-- The mark hangs on the first component, and not on the second. -/
example : [0, 1].map (fun c => attachToLigature (ligatureMarksOf exampleLigatures) c 40 20) =
    [.ok (some (anchorAt (5, -6), anchorAt (100, 200))), .ok none] := by
  rw [List.map_cons, List.map_cons, List.map_nil, ligatures_attach exampleLigatures_fine 0 40 20 (by intro _ h; cases h; decide),
    ligatures_attach exampleLigatures_fine 1 40 20 (by intro _ h; cases h; decide)]
  rfl


/-- Glyphs 70 and 71 are kerned with 72, by their classes, and with all others. -/
def exampleClasses : ClassRules := ⟨[(70, 0), (71, 1)], [(72, 1)], 2, [[0, 11], [12, -13]]⟩

example : exampleClasses.bytes =
    bytes ([0, 2,  0, 24,  0, 4,  0, 0,  0, 32,  0, 48,  0, 2,  0, 2] ++ [0, 0,  0, 11] ++ [0, 12,  0xFF, 0xF3] ++
      [0, 1,  0, 2,  0, 70,  0, 71] ++ [0, 2,  0, 2,  0, 70,  0, 70,  0, 0,  0, 71,  0, 71,  0, 1] ++
      [0, 2,  0, 1,  0, 72,  0, 72,  0, 1]) := by decide +kernel

theorem exampleClasses_fine : (Placing.classes exampleClasses).Fine :=
  ⟨by decide, by decide, by decide, by decide, by decide +kernel⟩

example : [(70, 72), (71, 72), (71, 9), (9, 72)].map (fun pair => exampleClasses.at pair.1 (some pair.2)) =
    [some 11, some (-13), some 12, none] := by decide +kernel

/-- Glyph 50 is moved, glyphs 60 and 61 are joined, and marks 41 hang on marks 40. -/
def exampleMoves : List (Nat × Int × Int × Int) := [(50, 3, -4, 5)]
def exampleJoints : List (Nat × Option (Int × Int) × Option (Int × Int)) := [(60, none, some (7, 8)), (61, some (9, -10), none)]
def exampleStacks : MarkRules := ⟨1, [(41, 0, (1, 2))], [(40, [some (3, 4)])]⟩

def otherPlacings : List Placing := [.ligatures exampleLigatures, .classes exampleClasses, .move exampleMoves, .joints exampleJoints, .stacks exampleStacks]

example : writeMoves exampleMoves =
    bytes ([0, 2,  0, 14,  0, 7,  0, 1] ++ [0, 3,  0xFF, 0xFC,  0, 5] ++ [0, 1,  0, 1,  0, 50]) := by decide +kernel

example : writeJoints exampleJoints =
    bytes ([0, 1,  0, 14,  0, 2] ++ [0, 0,  0, 22] ++ [0, 28,  0, 0] ++ [0, 1,  0, 2,  0, 60,  0, 61] ++
      [0, 1,  0, 7,  0, 8] ++ [0, 1,  0, 9,  0xFF, 0xF6]) := by decide +kernel

theorem otherPlacings_fine : ∀ placing ∈ otherPlacings, placing.Fine := by
  intro placing h
  rcases List.mem_cons.mp h with rfl | h
  · refine ⟨exampleLigatures_fine, fun l hl => ?_⟩
    obtain rfl := List.mem_singleton.mp hl
    exact List.cons_ne_nil _ _
  rcases List.mem_cons.mp h with rfl | h
  · exact exampleClasses_fine
  rcases List.mem_cons.mp h with rfl | h
  · refine ⟨fun r hr => ?_, by decide +kernel⟩
    obtain rfl := List.mem_singleton.mp hr
    exact ⟨by decide, by unfold PointFine; decide, by decide, by decide⟩
  rcases List.mem_cons.mp h with rfl | h
  · refine ⟨fun r hr => ?_, by decide +kernel⟩
    rcases List.mem_cons.mp hr with rfl | hr
    · refine ⟨by decide, fun point hp => ?_, fun point hp => ?_⟩
      · cases hp
      · obtain rfl := Option.some.inj hp
        unfold PointFine
        decide
    · obtain rfl := List.mem_singleton.mp hr
      refine ⟨by decide, fun point hp => ?_, fun point hp => ?_⟩
      · obtain rfl := Option.some.inj hp
        unfold PointFine
        decide
      · cases hp
  · obtain rfl := List.mem_singleton.mp h
    refine ⟨by decide, ?_, ?_, by decide +kernel⟩
    · intro m hm
      obtain rfl := List.mem_singleton.mp hm
      exact ⟨by decide, by decide, by unfold PointFine; decide⟩
    · intro b hb
      obtain rfl := List.mem_singleton.mp hb
      refine ⟨by decide, by decide, fun point hp => ?_⟩
      obtain rfl := Option.some.inj (List.mem_singleton.mp hp)
      unfold PointFine
      decide

example : placingsThrough (fun _ => false) otherPlacings ([70, 71, 50, 60, 61, 20, 40, 41, 41].map Item.of) =
    [⟨70, 0, [.moved (advanceBy 0)]⟩, ⟨71, 0, [.moved (advanceBy 12)]⟩, ⟨50, 0, [.moved (moveBy (3, -4, 5))]⟩, ⟨60, 0, [.joined 1 (anchorAt (7, 8)) (anchorAt (9, -10))]⟩, ⟨61, 0, []⟩, ⟨20, 0, []⟩,
      ⟨40, 0, [.attached 1 (anchorAt (5, -6)) (anchorAt (100, 200))]⟩, ⟨41, 0, [.attached 1 (anchorAt (1, 2)) (anchorAt (3, 4))]⟩, ⟨41, 0, []⟩] := by decide +kernel

/-- As the crate's readers do. -/
example : alone (typeset (· == 0x00010000) ⟨false, false, false, false, true, false⟩ 1 0x6C61746E 0 [0x6B65726E]
    [70, 71, 50, 60, 61, 20, 40, 41, 41])
      (fontFile 0x00010000 16 0 0 [(TableType.glyphPositioning.tag, compilePlacings 0x6C61746E 0x6B65726E otherPlacings)]) =
    .ok [⟨70, 0, [.moved (advanceBy 0)]⟩, ⟨71, 0, [.moved (advanceBy 12)]⟩, ⟨50, 0, [.moved (moveBy (3, -4, 5))]⟩, ⟨60, 0, [.joined 1 (anchorAt (7, 8)) (anchorAt (9, -10))]⟩, ⟨61, 0, []⟩, ⟨20, 0, []⟩,
      ⟨40, 0, [.attached 1 (anchorAt (5, -6)) (anchorAt (100, 200))]⟩, ⟨41, 0, [.attached 1 (anchorAt (1, 2)) (anchorAt (3, 4))]⟩, ⟨41, 0, []⟩] := by decide +kernel

end OpenType.Props
