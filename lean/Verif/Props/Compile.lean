import Verif.Spec.Compile
import Verif.Props.Rules
import Verif.Props.Assemble
/-! # C134: fonts made of rules -/

namespace OpenType.Props
open OpenType Spec directory

/-! ## A lookup -/

/-- The subtable does what the stage says. -/
structure Behaves (x : gsub.Type_) (stage : Stage) : Prop where
  inline : substitutionExtension x = none
  react : ∀ before g following, react before g following x = .ok ((stage.at g following).map fun y => .replaced y.1 y.2)
  reverse : ∀ before g after, reverseAct before g after x = .ok none

/-- The table has a lookup with one subtable for each of the stages. -/
structure HasStages (u : gsub.GlyphSubstitution) (stages : List Stage) : Prop where
  count : u.lookups.records.length = stages.length
  even : Evened u
  tables : ∀ (i : Nat) stage, stages[i]? = some stage → ∃ (record : lookup.Record gsub.Type_) (x : gsub.Type_),
    u.lookups.records[i]? = some record ∧ record.tables = [x] ∧ Behaves x stage

theorem perform_only {T : Type} {extension : T → Option (Nat × Nat)} {readTable : Nat → Reader T} {u : Directory T} {i : Nat}
    {record : lookup.Record T} {x : T} (he : Evened u) (hr : u.lookups.records[i]? = some record) (ht : record.tables = [x])
    (hx : extension x = none) {β : Type} {act : T → Except Err (Option β)} {y : Option β} (ha : act x = .ok y) :
    perform extension readTable act 0 u i = Pure.pure y := by
  have hs : subtable extension readTable 0 u i 0 = Pure.pure (some x) := by
    unfold subtable
    obtain ⟨hi, _⟩ := List.getElem?_eq_some_iff.mp hr
    rw [hr, List.getElem?_eq_getElem (by rw [he.1]; exact hi)]
    dsimp only
    have hl := he.2 record (List.mem_of_getElem? hr)
    rw [ht] at hl ⊢
    rw [List.getElem?_eq_getElem (show 0 < record.table_offsets.length by rw [hl]; exact Nat.one_pos)]
    dsimp only [List.getElem?_cons_zero]
    rw [hx]
  unfold perform
  rw [hr, Option.map_some, ht]
  show firstActing _ _ _ _ _ _ [0] = _
  unfold firstActing
  rw [hs]
  show (match act x with | .error e => _ | .ok (some y) => _ | .ok none => _) = _
  rw [ha]
  cases y <;> rfl

theorem without_drop (k : Nat) (text : List Nat) : without (fun _ => false) k text = text.drop k := by
  induction text generalizing k with
  | nil => cases k <;> rfl
  | cons g text ih =>
    cases k with
    | zero => rfl
    | succ k => exact ih k

theorem through_drop (stage : Stage) (k : Nat) (text : List Nat) : stage.through k text = stage.through 0 (text.drop k) := by
  induction text generalizing k with
  | nil => cases k <;> rfl
  | cons g text ih =>
    cases k with
    | zero => rfl
    | succ k => exact ih k

theorem filter_all (xs : List Nat) : xs.filter (fun _ => !false) = xs := List.filter_eq_self.mpr fun _ _ => rfl

section
variable {u : gsub.GlyphSubstitution} {stages : List Stage} (h : HasStages u stages)
include h

theorem touch_stage {i : Nat} {stage : Stage} (hi : stages[i]? = some stage) (n : Nat) (before : List Nat) (g : Nat) (text : List Nat) :
    touch 0 u (fun _ _ => false) (n + 1) i before (g :: text) =
      Pure.pure ((stage.at g text).map fun y => (y.1, text.drop y.2)) := by
  obtain ⟨record, x, h1, h2, h3⟩ := h.tables i stage hi
  unfold touch
  rw [if_neg Bool.false_ne_true, filter_all, filter_all, perform_only h.even h1 h2 h3.inline (h3.react before g text)]
  cases stage.at g text with
  | none => rfl
  | some y =>
    show (Pure.pure (some (y.1, without (fun _ => false) y.2 text)) : Reader _) = _
    rw [without_drop]
    rfl

theorem forward_stage {i : Nat} {stage : Stage} (hi : stages[i]? = some stage) (n : Nat) (fuel : Nat) (before text : List Nat)
    (hf : text.length ≤ fuel) :
    forward (touch 0 u (fun _ _ => false) (n + 1) i) fuel before text = Pure.pure (stage.through 0 text) := by
  induction fuel generalizing before text with
  | zero =>
    obtain rfl := List.length_eq_zero_iff.mp (Nat.le_zero.mp hf)
    rfl
  | succ fuel ih =>
    cases text with
    | nil => rfl
    | cons g text =>
      rw [List.length_cons] at hf
      unfold forward
      rw [touch_stage h hi]
      unfold Stage.through
      cases e : stage.at g text with
      | none =>
        show (forward _ fuel (g :: before) text >>= fun x => Pure.pure (g :: x)) = _
        rw [ih _ _ (by omega)]
        rfl
      | some y =>
        show (forward _ fuel (y.1.reverse ++ before) (text.drop y.2) >>= fun x => Pure.pure (y.1 ++ x)) = _
        rw [ih _ _ (by rw [List.length_drop]; omega)]
        show (Pure.pure (y.1 ++ stage.through 0 (text.drop y.2)) : Reader _) = Pure.pure (y.1 ++ stage.through y.2 text)
        rw [through_drop stage y.2]

theorem backward_stage {i : Nat} {stage : Stage} (hi : stages[i]? = some stage) (before text : List Nat) :
    backward 0 u (fun _ => false) i before text = Pure.pure text := by
  induction text generalizing before with
  | nil => rfl
  | cons g text ih =>
    obtain ⟨record, x, h1, h2, h3⟩ := h.tables i stage hi
    unfold backward
    rw [ih]
    show (perform substitutionExtension gsub.Type_.read (reverseAct (before.filter fun _ => !false) g (text.filter fun _ => !false)) 0 u i >>=
      fun y => match y with
        | none => Pure.pure (g :: text)
        | some x => Pure.pure (x :: text)) = _
    rw [perform_only h.even h1 h2 h3.inline (h3.reverse _ _ _)]
    rfl

theorem below_stages (n : Nat) (wanted : Nat → Bool) (b : Bool) (hw : ∀ k < stages.length, wanted k = b) (text : List Nat) (m : Nat)
    (hm : m ≤ stages.length) :
    below (fun i glyphs => do
      let glyphs ← forward (touch 0 u (fun _ _ => false) (n + 1) i) glyphs.length [] glyphs
      backward 0 u (fun _ => false) i [] glyphs) wanted m text = Pure.pure (if b then stagesThrough (stages.take m) text else text) := by
  induction m with
  | zero => cases b <;> rfl
  | succ m ih =>
    unfold below
    rw [ih (by omega), hw m (by omega)]
    cases b with
    | false => rfl
    | true =>
      have hi : stages[m]? = some stages[m] := List.getElem?_eq_getElem (by omega)
      simp only [if_true]
      show (forward (touch 0 u (fun _ _ => false) (n + 1) m) (stagesThrough (stages.take m) text).length []
        (stagesThrough (stages.take m) text) >>= _) = _
      rw [forward_stage h hi n _ [] _ (Nat.le_refl _)]
      show backward 0 u (fun _ => false) m [] _ = _
      rw [backward_stage h hi]
      rw [List.take_succ_eq_append_getElem (by omega)]
      unfold stagesThrough
      rw [List.foldl_append]
      rfl

end

/-! ## The subtables -/

theorem stage_behaves {stage : Stage} (h : stage.Fine) :
    ∃ x, (∀ d p, Fits d → Stored d p stage.bytes → Reads (gsub.Type_.read stage.type_) d p x) ∧ Behaves x stage := by
  cases stage with
  | single rules =>
    obtain ⟨t, h1, h2⟩ := C133_single h.1 h.2.1 h.2.2
    refine ⟨_, h1, rfl, fun before g following => ?_, fun _ _ _ => rfl⟩
    unfold react substitute
    dsimp only
    rw [h2]
    rfl
  | multiple rules =>
    obtain ⟨t, h1, h2⟩ := C133_multiple h.1 h.2.1 h.2.2
    refine ⟨_, h1, rfl, fun before g following => ?_, fun _ _ _ => rfl⟩
    unfold react substitute
    dsimp only
    rw [h2]
    rfl
  | ligature rules =>
    obtain ⟨t, h1, h2⟩ := C133_ligature h.1 h.2.1 h.2.2
    refine ⟨_, h1, rfl, fun before g following => ?_, fun _ _ _ => rfl⟩
    unfold react substitute
    dsimp only
    rw [h2]
    show Except.ok _ = _
    dsimp only [Stage.at]
    cases ((rules.lookup g).bind fun ls => ls.find? fun l => l.1.isPrefixOf following) <;> rfl

theorem stage_length {stage : Stage} (h : stage.Fine) : stage.bytes.length < 1000000 := by
  cases stage with
  | single rules =>
    have := h.2.2
    simp only [Stage.bytes, writeSingle, List.length_append, enc16_length, enc16s_length, writeCoverage_length, List.length_map]
    omega
  | multiple rules => exact Nat.lt_trans h.2.2 (by decide)
  | ligature rules => exact Nat.lt_trans h.2.2 (by decide)

theorem stages_length {stages : List Stage} (h : ∀ stage ∈ stages, stage.Fine) :
    ((stages.map fun stage => (⟨stage.type_, 0, none, [stage.bytes]⟩ : Planned)).flatMap fun l => l.bodies.flatten).length ≤
      1000000 * stages.length := by
  induction stages with
  | nil => exact Nat.le_refl _
  | cons stage stages ih =>
    have h1 := stage_length (h stage List.mem_cons_self)
    have h2 := ih fun s hs => h s (List.mem_cons_of_mem _ hs)
    rw [List.map_cons, List.flatMap_cons, List.length_append, List.length_cons]
    have : ([stage.bytes] : List Data).flatten.length = stage.bytes.length := by simp
    dsimp only
    omega

/-! ## The table -/

/-- What is read of the script. -/
def scriptOf (script : Tag) : OpenType.script.Scripts := ⟨1, [⟨script, 8⟩], [⟨4, 0, [], some ⟨0, 0xFFFF, 1, [0]⟩, []⟩]⟩

/-- What is read of the feature. -/
def featureOf (feature : Tag) (m : Nat) : OpenType.feature.Features := ⟨1, [⟨feature, 8⟩], [⟨0, m, List.range m, none⟩]⟩

theorem array_single {α : Type} {S : Nat → α → Prop} {stride p : Nat} {x : α} (h : S p x) : ArrayOf S stride p 1 [x] := by
  refine ⟨rfl, fun i y hy => ?_⟩
  cases i with
  | zero =>
    obtain rfl := Option.some.inj hy
    exact h
  | succ i => cases hy

theorem array_empty {α : Type} {S : Nat → α → Prop} {stride p : Nat} : ArrayOf S stride p 0 ([] : List α) :=
  ⟨rfl, fun _ _ hy => by cases hy⟩

theorem offsets_single {α : Type} {S : Nat → α → Prop} {base o : Nat} {x : α} (h : S (base + o) x) : AtOffsets S base [o] [x] := by
  refine ⟨rfl, fun i o' y ho hy => ?_⟩
  cases i with
  | zero =>
    obtain rfl := Option.some.inj ho
    obtain rfl := Option.some.inj hy
    exact h
  | succ i => cases hy

theorem stored_self (d : Data) : Stored d 0 d := fun i x h => by rw [Nat.zero_add]; exact h

theorem script_there {d : Data} {script : Tag} (hs : script < 4294967296) {p : Nat} (h : Stored d p (writeScript script)) :
    IsScripts d p (scriptOf script) := by
  simp only [writeScript, stored_append, List.length_append, enc16_length, enc32_length] at h
  obtain ⟨⟨⟨⟨⟨⟨⟨⟨s1, s2⟩, s3⟩, s4⟩, s5⟩, s6⟩, s7⟩, s8⟩, s9⟩ := h
  refine ⟨at16.mpr ⟨(by decide : 1 < 65536), s1⟩, array_single ⟨at32.mpr ⟨hs, s2⟩, at16.mpr ⟨(by decide : 8 < 65536), s3⟩⟩, offsets_single ?_⟩
  refine ⟨at16.mpr ⟨(by decide : 4 < 65536), s4⟩, at16.mpr ⟨(by decide : 0 < 65536), s5⟩, array_empty, ⟨(by decide : 4 ≠ 0), ?_⟩,
    rfl, (fun _ _ _ h => by cases h)⟩
  exact ⟨at16.mpr ⟨(by decide : 0 < 65536), s6⟩, rfl, at16.mpr ⟨(by decide : 0xFFFF < 65536), s7⟩, at16.mpr ⟨(by decide : 1 < 65536), s8⟩,
    array_single (at16.mpr ⟨by decide, s9⟩)⟩

theorem script_reads {script : Tag} (hs : script < 4294967296) :
    Reads OpenType.script.Scripts.read (writeScript script) 0 (scriptOf script) := by
  have hd : Fits (writeScript script) := by
    unfold Fits
    simp only [writeScript, List.length_append, enc16_length, enc32_length]
    decide
  exact (reads_parses (S := IsScripts) hd).mpr (script_there hs (stored_self _))

theorem writeFeature_length (feature : Tag) (m : Nat) : (writeFeature feature m).length = 12 + 2 * m := by
  simp only [writeFeature, List.length_append, enc16_length, enc32_length, enc16s_length, List.length_range]

theorem feature_there {d : Data} {feature : Tag} (hf : feature < 4294967296) {m : Nat} (hm : m < 65536) {p : Nat}
    (h : Stored d p (writeFeature feature m)) : IsFeatures d p (featureOf feature m) := by
  simp only [writeFeature, stored_append, List.length_append, enc16_length, enc32_length] at h
  obtain ⟨⟨⟨⟨⟨s1, s2⟩, s3⟩, s4⟩, s5⟩, s6⟩ := h
  refine ⟨at16.mpr ⟨(by decide : 1 < 65536), s1⟩, array_single ⟨at32.mpr ⟨hf, s2⟩, at16.mpr ⟨(by decide : 8 < 65536), s3⟩⟩, offsets_single ?_⟩
  exact ⟨at16.mpr ⟨(by decide : 0 < 65536), s4⟩, at16.mpr ⟨hm, s5⟩,
    at16s.mpr ⟨List.length_range, (fun x hx => by have := List.mem_range.mp hx; omega), s6⟩, rfl⟩

theorem feature_reads {feature : Tag} (hf : feature < 4294967296) {m : Nat} (hm : m < 65536) :
    Reads OpenType.feature.Features.read (writeFeature feature m) 0 (featureOf feature m) := by
  have hd : Fits (writeFeature feature m) := by
    unfold Fits
    rw [writeFeature_length]
    omega
  exact (reads_parses (S := IsFeatures) hd).mpr (feature_there hf hm (stored_self _))

theorem stages_values {stages : List Stage} (h : ∀ stage ∈ stages, stage.Fine) :
    ∃ xs : List gsub.Type_, List.Forall₂ (fun x stage => Behaves x stage ∧ Reads (gsub.Type_.read stage.type_) stage.bytes 0 x) xs stages := by
  induction stages with
  | nil => exact ⟨[], .nil⟩
  | cons stage stages ih =>
    obtain ⟨x, h1, h2⟩ := stage_behaves (h stage List.mem_cons_self)
    obtain ⟨xs, hx⟩ := ih fun s hs => h s (List.mem_cons_of_mem _ hs)
    refine ⟨x :: xs, .cons ⟨h2, h1 _ 0 ?_ (stored_self _)⟩ hx⟩
    have := stage_length (h stage List.mem_cons_self)
    unfold Fits
    omega

/-- What is read of the table, with the subtables `xs`. -/
def compiledValue (script feature : Tag) (xs : List gsub.Type_) : gsub.GlyphSubstitution where
  major_version := 1
  minor_version := 0
  script_offset := 0
  feature_offset := 0
  lookup_offset := 0
  variation_offset := 0
  scripts := scriptOf script
  features := featureOf feature xs.length
  lookups := ⟨0, [], xs.map fun x => ⟨0, 0, 0, [], none, [x]⟩⟩
  variations := none

theorem compile_plan {cfg : Cfg} {script feature : Tag} {stages : List Stage} (hs : script < 4294967296) (hf : feature < 4294967296)
    (h : ∀ stage ∈ stages, stage.Fine) (hm : stages.length ≤ 3640) {xs : List gsub.Type_}
    (hx : List.Forall₂ (fun x stage => Behaves x stage ∧ Reads (gsub.Type_.read stage.type_) stage.bytes 0 x) xs stages) :
    PlanFor cfg 7 gsub.Type_.read substitutionExtension (compiledValue script feature xs) (writeScript script)
      (writeFeature feature stages.length) (stages.map fun stage => ⟨stage.type_, 0, none, [stage.bytes]⟩) := by
  have hl := hx.length_eq
  have e1 : (writeScript script).length = 20 := by simp only [writeScript, List.length_append, enc16_length, enc32_length]
  have e2 := writeFeature_length feature stages.length
  have e3 : ((stages.map fun stage => (⟨stage.type_, 0, none, [stage.bytes]⟩ : Planned)).map Planned.size).sum = 16 * stages.length := by
    rw [List.map_map]
    clear h hm hx hl e2
    induction stages with
    | nil => rfl
    | cons stage stages ih =>
      rw [List.map_cons, List.sum_cons, ih, List.length_cons]
      show 16 + _ = _
      omega
  refine ⟨script_reads hs, ?_, ?_, ?_, ?_, ?_, ?_⟩
  · unfold compiledValue
    dsimp only
    rw [hl]
    exact feature_reads hf (by omega)
  · unfold compiledValue
    dsimp only
    clear h hm hl e2 e3
    induction hx with
    | nil => exact .nil
    | cons h1 _ ih => exact .cons ⟨rfl, rfl, .cons ⟨h1.2, h1.1.inline⟩ .nil⟩ ih
  · intro l hm
    obtain ⟨stage, _, rfl⟩ := List.mem_map.mp hm
    refine ⟨?_, (by decide : 0 < 65536), (fun _ => (by decide : 0 &&& 224 = 0)), (by decide : Nat.testBit 0 4 = false), (fun _ h => by cases h)⟩
    cases stage
    · exact (by decide : 1 < 65536)
    · exact (by decide : 2 < 65536)
    · exact (by decide : 4 < 65536)
  · rw [e1, e2]
    omega
  · rw [e3, List.length_map]
    omega
  · rw [assemble_length, e1, e2, e3]
    have := stages_length h
    rw [List.length_map]
    omega

theorem compiled_has {script feature : Tag} {stages : List Stage} {xs : List gsub.Type_}
    (hx : List.Forall₂ (fun x stage => Behaves x stage ∧ Reads (gsub.Type_.read stage.type_) stage.bytes 0 x) xs stages)
    {u : gsub.GlyphSubstitution} (he : Evened u) (hc : SameContent u (compiledValue script feature xs)) : HasStages u stages := by
  refine ⟨?_, he, fun i stage hi => ?_⟩
  · rw [hc.lookups.length_eq, ← hx.length_eq]
    exact List.length_map ..
  · obtain ⟨x, e, hb⟩ : ∃ x, xs[i]? = some x ∧ Behaves x stage := by
      clear hc
      induction hx generalizing i with
      | nil => cases hi
      | cons h _ ih =>
        cases i with
        | zero =>
          obtain rfl := Option.some.inj hi
          exact ⟨_, rfl, h.1⟩
        | succ i => exact ih i hi
    have key := sameContent_at hc i
    rw [show (compiledValue script feature xs).lookups.records[i]? = some ⟨0, 0, 0, [], none, [x]⟩ by
      show (xs.map _)[i]? = _
      rw [List.getElem?_map, e]
      rfl] at key
    generalize e' : u.lookups.records[i]? = a at key
    cases key with
    | some key => exact ⟨_, x, rfl, key.2.2, hb⟩

/-- The lookups that are wanted: all, or none. -/
theorem listed_lookups {T : Type} {script feature : Tag} {m : Nat} {u : Directory T} (e1 : u.scripts = scriptOf script)
    (e2 : u.features = featureOf feature m) (hl : u.lookups.records.length = m) (script' language : Tag) (tags : List Tag) :
    ∃ found, lookupsFor u script' language = .ok found ∧ ∀ k < m,
      (found.any fun x => tags.contains x.1 && x.2.1 == k) = decide (script' = script ∧ feature ∈ tags) := by
  unfold lookupsFor
  rw [e1]
  by_cases h : script' = script
  · subst h
    refine ⟨lookupsOf u 0, ?_, fun k hk => ?_⟩
    · have : (scriptOf script').get script' = .ok (some ⟨4, 0, [], some ⟨0, 0xFFFF, 1, [0]⟩, []⟩) := by
        simp [OpenType.script.Scripts.get, getByTag, scriptOf]
      rw [this]
      show Except.ok ((featuresOf ⟨0, 0xFFFF, 1, [0]⟩).flatMap (lookupsOf u)) = _
      show Except.ok ([0].flatMap (lookupsOf u)) = _
      rw [List.flatMap_singleton]
    · obtain ⟨record, hr⟩ : ∃ record, u.lookups.records[k]? = some record := ⟨_, List.getElem?_eq_getElem (by omega)⟩
      have e3 : lookupsOf u 0 = (List.range m).filterMap fun k => u.lookups.records[k]?.map fun record => (feature, k, record) := by
        unfold lookupsOf
        rw [e2]
        rfl
      rw [e3, Bool.eq_iff_iff, List.any_eq_true, decide_eq_true_iff]
      constructor
      · rintro ⟨x, hx, hy⟩
        obtain ⟨j, _, hj⟩ := List.mem_filterMap.mp hx
        obtain ⟨r, _, rfl⟩ := Option.map_eq_some_iff.mp hj
        rw [Bool.and_eq_true] at hy
        exact ⟨rfl, List.contains_iff_mem.mp hy.1⟩
      · rintro ⟨_, hf⟩
        refine ⟨(feature, k, record), List.mem_filterMap.mpr ⟨k, List.mem_range.mpr hk, by rw [hr]; rfl⟩, ?_⟩
        rw [Bool.and_eq_true]
        exact ⟨List.contains_iff_mem.mpr hf, by simp⟩
  · refine ⟨[], ?_, fun k _ => ?_⟩
    · have : (scriptOf script).get script' = .ok none := by
        simp [OpenType.script.Scripts.get, getByTag, scriptOf, Ne.symm h]
      rw [this]
      rfl
    · simp [h]

/-! ## Text -/

/-- Nothing is passed over, whatever the glyph definition says. -/
theorem plain_ignoring {T : Type} {u : Directory T}
    (h : ∀ record ∈ u.lookups.records, record.flags = 0 ∧ record.mark_filtering_set = none)
    (definition : Option (Nat × gdef.GlyphDefinition)) : ignoring definition u = fun _ _ => false := by
  funext i g
  unfold ignoring
  cases definition with
  | none => rfl
  | some definition =>
    dsimp only [passedOver]
    generalize e : u.lookups.records[i]? = a
    cases a with
    | none => rfl
    | some record =>
      obtain ⟨h1, h2⟩ := h record (List.mem_of_getElem? e)
      dsimp only [ignores]
      rw [h1, h2]
      have f1 : lookup.should_ignore_base_glyphs 0 = false := by decide +kernel
      have f2 : lookup.should_ignore_ligature 0 = false := by decide +kernel
      have f3 : lookup.should_ignore_marks 0 = false := by decide +kernel
      split
      · exact f1
      · exact f2
      · rw [f3]
        show (false || ((0 / 256 != 0) && _)) = false
        rw [show ((0 / 256 : Nat) != 0) = false by decide]
        rfl
      · rfl

theorem same_plain {T : Type} {u v : Directory T} (hc : SameContent u v)
    (h : ∀ record ∈ v.lookups.records, record.flags = 0 ∧ record.mark_filtering_set = none) :
    ∀ record ∈ u.lookups.records, record.flags = 0 ∧ record.mark_filtering_set = none := by
  intro record hm
  obtain ⟨i, hi⟩ := List.getElem?_of_mem hm
  have key := sameContent_at hc i
  rw [hi] at key
  generalize e : v.lookups.records[i]? = b at key
  cases key with
  | some key =>
    obtain ⟨h1, h2⟩ := h _ (List.mem_of_getElem? e)
    exact ⟨key.1.trans h1, key.2.1.trans h2⟩

/-- What becomes of the glyphs in a file with the table that is made of the rules. -/
theorem compiled_taken (accept : Tag → Bool) (cfg : Cfg) {d : Data} (hd : Fits d) {script feature : Tag} {stages : List Stage}
    (hs : script < 4294967296) (hf : feature < 4294967296) (h : ∀ stage ∈ stages, stage.Fine) (hm : stages.length ≤ 3640)
    (h2 : HasTable accept cfg d .glyphSubstitution (some (compile script feature stages))) :
    ∃ t y, Takes accept cfg d 0 .glyphSubstitution (gsub.GlyphSubstitution.read cfg) (some t) ∧
      (∀ p, TableAt accept cfg d .glyphSubstitution p → StandFor cfg 7 Spec.gsub.IsTable d p y) ∧
      ∀ definition n script' language tags glyphs,
        shapeValue definition (n + 1) script' language tags glyphs (some (withSubtables y t)) =
          .ok (if script' = script ∧ feature ∈ tags then stagesThrough stages glyphs else glyphs) := by
  obtain ⟨xs, hx⟩ := stages_values h
  have h2' : HasAssembled accept cfg d .glyphSubstitution 7 gsub.Type_.read substitutionExtension (some (compiledValue script feature xs)) :=
    ⟨_, _, _, compile_plan hs hf h hm hx, h2⟩
  obtain ⟨t, y, k1, k2, k3⟩ := assembled_taken hd (isTable := Spec.gsub.IsTable) (fun hd _ _ _ => reads_parses hd) h2'
    (.extensionSubstitution ⟨0, 0, 0⟩) fun t s f ls => (C132_table cfg s f ls).1 t
  cases t with
  | none => cases k2
  | some t =>
    refine ⟨t, y, k1, k3, fun definition n script' language tags glyphs => ?_⟩
    have hc : SameContent (withSubtables y t) (compiledValue script feature xs) := by
      cases k2 with
      | some h => exact h
    have he : Evened (withSubtables y t) := by
      obtain ⟨p, _, hp⟩ := (C55_stored accept cfg _ hd (fun _ _ => directory_reads (isTable := Spec.gsub.IsTable)
        (fun hd _ _ _ => reads_parses hd) hd) 0 t).mp k1
      exact evened_with (evened_read hp)
    obtain ⟨found, e1, e2⟩ := listed_lookups (m := xs.length) hc.scripts hc.features
      (by rw [hc.lookups.length_eq]; exact List.length_map ..) script' language tags
    have hst := compiled_has hx he hc
    rw [hx.length_eq] at e2
    have hp := same_plain hc fun record hm => by
      obtain ⟨x, _, rfl⟩ := List.mem_map.mp hm
      exact ⟨rfl, rfl⟩
    have key : shapeText 0 (withSubtables y t) (ignoring definition (withSubtables y t)) (n + 1) script' language tags glyphs =
        Pure.pure (if script' = script ∧ feature ∈ tags then stagesThrough stages glyphs else glyphs) := by
      unfold shapeText passAll
      rw [e1, plain_ignoring hp]
      dsimp only
      rw [hst.count]
      have := below_stages hst n _ _ e2 glyphs stages.length (Nat.le_refl _)
      rw [List.take_length] at this
      simp only [decide_eq_true_eq] at this
      exact this
    unfold shapeValue
    dsimp only
    rw [key]
    rfl

/-- A file with the table that is made of the rules sets every text as the stages of the rules say: one after another, each from the first
glyph to the last. In other scripts, and without the feature, nothing becomes of a text. The file can have a glyph definition, but no
table that places the glyphs. -/
theorem C134_text (accept : Tag → Bool) (cfg : Cfg) {d : Data} (hd : Fits d) {script feature : Tag} {stages : List Stage}
    (hs : script < 4294967296) (hf : feature < 4294967296) (h : ∀ stage ∈ stages, stage.Fine) (hm : stages.length ≤ 3640)
    {p : Nat} {definition : Option gdef.GlyphDefinition}
    (h1 : Takes accept cfg d p .glyphDefinition (gdef.GlyphDefinition.read cfg) definition)
    (h2 : HasTable accept cfg d .glyphSubstitution (some (compile script feature stages)))
    (h3 : HasTable accept cfg d .glyphPositioning none)
    (n : Nat) (script' language : Tag) (tags : List Tag) (glyphs : List Nat) :
    alone (typeset accept cfg (n + 1) script' language tags glyphs) d =
      .ok ((if script' = script ∧ feature ∈ tags then stagesThrough stages glyphs else glyphs).map Item.of) := by
  obtain ⟨t, y, k1, k3, key⟩ := compiled_taken accept cfg hd hs hf h hm h2
  rw [C131_values accept cfg hd h1 k1 (absent_taken hd h3) (x := y) (y := fun _ _ => .extensionPositioning ⟨0, 0, 0⟩) k3
    (fun p hp => (taken_none hd (absent_taken hd h3 (r := Directory.read cfg (gpos.Type_.read cfg))) p hp).elim)]
  unfold setValues
  rw [Option.map_some]
  dsimp only
  rw [key]
  rfl

/-- A stage of the first kind goes through each glyph, and one of the second puts several in the place of each. -/
theorem C134_stages (text : List Nat) :
    (∀ rules, (Stage.single rules).through 0 text = text.map fun g => (rules.lookup g).getD g) ∧
    (∀ rules, (Stage.multiple rules).through 0 text = text.flatMap fun g => (rules.lookup g).getD [g]) := by
  constructor
  · intro rules
    induction text with
    | nil => rfl
    | cons g text ih =>
      unfold Stage.through
      dsimp only [Stage.at]
      rw [List.map_cons, ← ih]
      cases rules.lookup g <;> rfl
  · intro rules
    induction text with
    | nil => rfl
    | cons g text ih =>
      unfold Stage.through
      dsimp only [Stage.at]
      rw [List.flatMap_cons, ← ih]
      cases rules.lookup g <;> rfl

/-! ## Example -/

/-- Three stages: the first writes glyph 9 as two, the second joins some, and the third replaces some. -/
def exampleStages : List Stage :=
  [.multiple [(9, [1, 2]), (8, [])], .ligature [(1, [([2, 3], 20), ([2], 21)]), (21, [([], 22)])], .single [(21, 30), (5, 6), (6, 5)]]

theorem exampleStages_fine : ∀ stage ∈ exampleStages, stage.Fine := by
  intro stage hs
  have {xs : List Nat} (h : xs.all (· < 65536) = true) : Glyphs xs := fun g hg => by simpa using List.all_eq_true.mp h g hg
  rcases List.mem_cons.mp hs with rfl | hs
  · exact ⟨this (by decide), (fun r hr => this (by revert r; decide)), by decide +kernel⟩
  · rcases List.mem_cons.mp hs with rfl | hs
    · exact ⟨this (by decide), (fun r hr l hl => ⟨this (by revert l; revert r; decide), by revert l; revert r; decide⟩), by decide +kernel⟩
    · obtain rfl := List.mem_singleton.mp hs
      exact ⟨this (by decide), this (by decide), by decide⟩

example : stagesThrough exampleStages [9, 3, 8, 9, 5, 6, 7, 1, 21] = [20, 30, 6, 5, 7, 1, 22] := by decide

/-- Their table, in a file. -/
def exampleFile : Data :=
  fontFile 0x00010000 16 0 0 [(TableType.glyphSubstitution.tag, compile 0x6C61746E 0x6C696761 exampleStages)]

/-- So the file sets every text as the stages say. -/
example (n : Nat) (language : Tag) (glyphs : List Nat) :
    alone (typeset (· == 0x00010000) ⟨false, false, false, false, true, false⟩ (n + 1) 0x6C61746E language [0x6C696761] glyphs) exampleFile =
      .ok ((stagesThrough exampleStages glyphs).map Item.of) := by
  have hd : Fits exampleFile := by decide +kernel
  have hw : Writable (· == 0x00010000) 0x00010000 16 0 0
      [(TableType.glyphSubstitution.tag, compile 0x6C61746E 0x6C696761 exampleStages)] :=
    ⟨by decide, by decide, by decide, by decide +kernel, by decide +kernel⟩
  have ht (table : TableType) := hasTable_written hw (after := []) (by rw [List.append_nil]; exact hd)
    ⟨false, false, false, false, true, false⟩ table
  have e : fontFile 0x00010000 16 0 0 [(TableType.glyphSubstitution.tag, compile 0x6C61746E 0x6C696761 exampleStages)] ++ [] =
    exampleFile := List.append_nil _
  rw [e] at ht
  have b (x : Data) : bodyOf .glyphSubstitution [(TableType.glyphSubstitution.tag, x)] = some x := if_pos rfl
  have b1 (x : Data) : bodyOf .glyphDefinition [(TableType.glyphSubstitution.tag, x)] = none := if_neg (by decide)
  have b2 (x : Data) : bodyOf .glyphPositioning [(TableType.glyphSubstitution.tag, x)] = none := if_neg (by decide)
  have t1 := ht .glyphDefinition
  have t2 := ht .glyphSubstitution
  have t3 := ht .glyphPositioning
  rw [b] at t2
  rw [b1] at t1
  rw [b2] at t3
  rw [C134_text _ _ hd (by decide) (by decide) exampleStages_fine (by decide) (absent_taken hd t1) t2 t3 n 0x6C61746E language
    [0x6C696761] glyphs]
  rfl

/-- As the crate's readers do on one of them. -/
example : alone (typeset (· == 0x00010000) ⟨false, false, false, false, true, false⟩ 1 0x6C61746E 0 [0x6C696761] [9, 3, 8, 9, 5]) exampleFile =
    .ok ([20, 30, 6].map Item.of) := by decide +kernel

end OpenType.Props
