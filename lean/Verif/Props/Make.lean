import Verif.Spec.Make
import Verif.Props.Placing
/-! # C137 and C139: whole fonts made of rules -/

namespace OpenType.Props
open OpenType Spec directory

variable {d : Data}

/-! ## The glyph definition -/

/-- What is read of the glyph definition. -/
def definitionOf (classes : List (Nat × Nat)) : gdef.GlyphDefinition :=
  ⟨.version1 ⟨1, 0, 12, 0, 0, 0⟩, some (.format2 ⟨2, classes.length, classes.map fun c => ⟨c.1, c.1, c.2⟩⟩), none, none, none, none, none⟩

theorem definition_there (cfg : Cfg) {classes : List (Nat × Nat)} (hl : classes.length < 65536)
    (hc : ∀ c ∈ classes, c.1 < 65536 ∧ c.2 < 65536) {P : Nat} (h : Stored d P (writeClasses classes)) :
    Spec.gdef.IsGlyphDefinitionTaken cfg d P (definitionOf classes) := by
  simp only [writeClasses, stored_append, List.length_append, enc16_length] at h
  obtain ⟨⟨⟨⟨⟨⟨s1, s2⟩, s3⟩, s4⟩, s5⟩, s6⟩, ⟨s7, s8⟩, s9⟩ := h
  refine ⟨⟨⟨at16.mpr ⟨(by decide : 1 < 65536), s1⟩, rfl, at16.mpr ⟨(by decide : 0 < 65536), s2⟩, rfl, at16.mpr ⟨(by decide : 12 < 65536), s3⟩,
    at16.mpr ⟨(by decide : 0 < 65536), s4⟩, at16.mpr ⟨(by decide : 0 < 65536), s5⟩, at16.mpr ⟨(by decide : 0 < 65536), s6⟩⟩,
    ⟨(by decide : 12 ≠ 0), rfl, at16.mpr ⟨(by decide : 2 < 65536), s7⟩, at16.mpr ⟨hl, s8⟩, List.length_map .., ?_⟩, rfl, rfl, rfl, rfl⟩, rfl⟩
  exact classes_each hc s9

theorem classIn_definition (classes : List (Nat × Nat)) (g : Nat) :
    classIn (definitionOf classes).glyph_class g = (classes.lookup g).getD 0 :=
  classOf_ranges classes.length classes g

/-- The classes can be read wherever they are, and each glyph is in the class of the first that is said about it, or in class zero. -/
theorem C137_classes {classes : List (Nat × Nat)} (hl : classes.length < 65536) (hc : ∀ c ∈ classes, c.1 < 65536 ∧ c.2 < 65536) (cfg : Cfg) :
    ∃ t, (∀ d p, Fits d → Stored d p (writeClasses classes) → Reads (gdef.GlyphDefinition.read cfg) d p t) ∧
      ∀ g, classIn t.glyph_class g = (classes.lookup g).getD 0 :=
  ⟨definitionOf classes, fun _ _ hd h => (reads_parses (S := Spec.gdef.IsGlyphDefinitionTaken cfg) hd).mpr (definition_there cfg hl hc h),
    classIn_definition classes⟩

theorem marked_definition (sources : Sources) : marked (some (0, definitionOf sources.classes)) = sources.mark := by
  funext g
  unfold marked Sources.mark
  dsimp only
  rw [classIn_definition]
  cases sources.classes.lookup g <;> rfl

/-! ## The file -/

theorem plain_sizes {α : Type} (type_ : α → Nat) (bytes : α → Data) (xs : List α) :
    ((xs.map fun x => (⟨type_ x, 0, none, [bytes x]⟩ : Planned)).map Planned.size).sum = 16 * xs.length := by
  induction xs with
  | nil => rfl
  | cons x xs ih =>
    rw [List.map_cons, List.map_cons, List.sum_cons, ih, List.length_cons]
    show 16 + _ = _
    omega

theorem classes_length (classes : List (Nat × Nat)) : (writeClasses classes).length = 16 + 6 * classes.length := by
  have : (classes.flatMap fun c => enc16 c.1 ++ enc16 c.1 ++ enc16 c.2).length = 6 * classes.length := by
    induction classes with
    | nil => rfl
    | cons c classes ih =>
      simp only [List.flatMap_cons, List.length_append, enc16_length, ih, List.length_cons]
      omega
  simp only [writeClasses, List.length_append, enc16_length, this]
  omega

/-- The file is always short enough for its offsets. -/
theorem made_length {sources : Sources} (hf : sources.Fine) (script feature : Tag) : (sources.file script feature).length < 4294967296 := by
  obtain ⟨⟨h1, _⟩, ⟨h2, h3⟩, h4, h5⟩ := hf
  have e1 : (writeScript script).length = 20 := by simp only [writeScript, List.length_append, enc16_length, enc32_length]
  have k1 := classes_length sources.classes
  have k2 := placings_length h5
  have k3 := stages_length h3
  have k4 : (compilePlacings script feature sources.placings).length ≤ 100 + 20 * 3640 + 65536 * 3640 := by
    unfold compilePlacings
    rw [assemble_length, e1, writeFeature_length, plain_sizes, List.length_map]
    omega
  have k5 : (compile script feature sources.stages).length ≤ 100 + 20 * 3640 + 1000000 * 3640 := by
    unfold compile
    rw [assemble_length, e1, writeFeature_length, plain_sizes, List.length_map]
    omega
  unfold Sources.file
  rw [fontFile_length]
  simp only [List.flatMap_cons, List.flatMap_nil, List.length_append, List.length_nil, pad_length, tablesOffset, List.length_cons]
  omega

section
variable {accept : Tag → Bool} {sources : Sources} {script feature : Tag} (ha : accept 0x00010000 = true) (hf : sources.Fine)
  (hl : (sources.file script feature).length < 4294967296)
include ha hl

theorem made_writable : Writable accept 0x00010000 32 1 16
    [(TableType.glyphDefinition.tag, writeClasses sources.classes),
      (TableType.glyphPositioning.tag, compilePlacings script feature sources.placings),
      (TableType.glyphSubstitution.tag, compile script feature sources.stages)] := by
  refine ⟨⟨by decide, ha, by decide⟩, by decide, (by decide : 3 < 65536), ?_, hl⟩
  intro table h
  simp only [List.mem_cons, List.not_mem_nil, or_false] at h
  rcases h with rfl | rfl | rfl
  · exact (by decide : TableType.glyphDefinition.tag < 4294967296)
  · exact (by decide : TableType.glyphPositioning.tag < 4294967296)
  · exact (by decide : TableType.glyphSubstitution.tag < 4294967296)

theorem made_tables (cfg : Cfg) : HasTable accept cfg (sources.file script feature) .glyphDefinition (some (writeClasses sources.classes)) ∧
    HasTable accept cfg (sources.file script feature) .glyphPositioning (some (compilePlacings script feature sources.placings)) ∧
    HasTable accept cfg (sources.file script feature) .glyphSubstitution (some (compile script feature sources.stages)) := by
  have h (table : TableType) := hasTable_written (made_writable ha hl) (after := [])
    (by rw [List.append_nil]; exact Nat.lt_trans hl (by decide)) cfg table
  rw [List.append_nil] at h
  have b1 (x y z : Data) : bodyOf .glyphDefinition [(TableType.glyphDefinition.tag, x), (TableType.glyphPositioning.tag, y),
    (TableType.glyphSubstitution.tag, z)] = some x := if_pos rfl
  have b2 (x y z : Data) : bodyOf .glyphPositioning [(TableType.glyphDefinition.tag, x), (TableType.glyphPositioning.tag, y),
    (TableType.glyphSubstitution.tag, z)] = some y := (if_neg (by decide)).trans (if_pos rfl)
  have b3 (x y z : Data) : bodyOf .glyphSubstitution [(TableType.glyphDefinition.tag, x), (TableType.glyphPositioning.tag, y),
    (TableType.glyphSubstitution.tag, z)] = some z := (if_neg (by decide)).trans ((if_neg (by decide)).trans (if_pos rfl))
  have t1 := h .glyphDefinition
  have t2 := h .glyphPositioning
  have t3 := h .glyphSubstitution
  rw [b1] at t1
  rw [b2] at t2
  rw [b3] at t3
  exact ⟨t1, t2, t3⟩

include hf in
theorem made_definition (cfg : Cfg) : Takes accept cfg (sources.file script feature) 0 .glyphDefinition (gdef.GlyphDefinition.read cfg)
    (some (definitionOf sources.classes)) := by
  obtain ⟨before, after, e, h⟩ := (made_tables ha hl cfg).1
  refine (C55_stored accept cfg _ (Nat.lt_trans hl (by decide)) (S := Spec.gdef.IsGlyphDefinitionTaken cfg)
    (fun _ _ => reads_parses (Nat.lt_trans hl (by decide))) 0 _).mpr ⟨_, h, ?_⟩
  refine definition_there cfg hf.classes.1 hf.classes.2 ?_
  have := ext_mid before (writeClasses sources.classes) after
  rwa [← e] at this

end

/-- The file that is made of what is said about the glyphs of a font sets every text exactly so, in every build, with nothing else about the
program that uses it but that it takes such files. In other scripts, and without the feature, nothing becomes of a text. -/
theorem C137_set {accept : Tag → Bool} {sources : Sources} {script feature : Tag} (ha : accept 0x00010000 = true) (hf : sources.Fine)
    (hs : script < 4294967296) (ht : feature < 4294967296) (cfg : Cfg) (n : Nat) (script' language : Tag) (tags : List Tag) (glyphs : List Nat) :
    alone (typeset accept cfg (n + 1) script' language tags glyphs) (sources.file script feature) =
      .ok (if script' = script ∧ feature ∈ tags then sources.set glyphs else glyphs.map Item.of) := by
  have hl := made_length hf script feature
  obtain ⟨_, t2, t3⟩ := made_tables ha hl cfg
  rw [C136_text accept cfg (Nat.lt_trans hl (by decide)) hs ht hf.stages.2 hf.stages.1 hs ht hf.placings.2 hf.placings.1
    (made_definition ha hf hl cfg) t3 t2]
  by_cases h : script' = script ∧ feature ∈ tags
  · dsimp only
    rw [if_pos h, if_pos h, if_pos h, Option.map_some, marked_definition]
    rfl
  · dsimp only
    rw [if_neg h, if_neg h, if_neg h]

/-- Two fonts that say the same about all texts set all texts the same, and the other way round: nothing but what is said shows. -/
theorem C137_only (accept accept' : Tag → Bool) (cfg cfg' : Cfg) {sources sources' : Sources} {script feature : Tag}
    (ha : accept 0x00010000 = true) (ha' : accept' 0x00010000 = true) (hf : sources.Fine) (hf' : sources'.Fine)
    (hs : script < 4294967296) (ht : feature < 4294967296) :
    (∀ glyphs, sources.set glyphs = sources'.set glyphs) ↔ ∀ n script' language tags glyphs,
      alone (typeset accept cfg (n + 1) script' language tags glyphs) (sources.file script feature) =
        alone (typeset accept' cfg' (n + 1) script' language tags glyphs) (sources'.file script feature) := by
  constructor
  · intro h n script' language tags glyphs
    rw [C137_set ha hf hs ht, C137_set ha' hf' hs ht, h]
  · intro h glyphs
    have := h 0 script 0 [feature] glyphs
    rw [C137_set ha hf hs ht, C137_set ha' hf' hs ht, if_pos ⟨rfl, List.mem_singleton.mpr rfl⟩,
      if_pos ⟨rfl, List.mem_singleton.mpr rfl⟩] at this
    exact Except.ok.inj this

/-! ## What fonts there are -/

theorem lookup_all {α : Type} (f : Nat → α) (xs : List Nat) {g : Nat} (h : g ∈ xs) : (xs.map fun g => (g, f g)).lookup g = some (f g) := by
  induction xs with
  | nil => cases h
  | cons x xs ih =>
    rw [List.map_cons, List.lookup_cons]
    by_cases e : g = x
    · subst e
      rw [beq_self_eq_true]
    · rw [show (g == x) = false by simpa using e]
      exact ih ((List.mem_cons.mp h).resolve_left e)

theorem range_glyphs {N : Nat} (hN : N ≤ 65536) : ∀ g ∈ List.range N, g < 65536 := fun _ hg => Nat.lt_of_lt_of_le (List.mem_range.mp hg) hN

/-- Whatever becomes of each of up to 32764 glyphs, there is a font by which it becomes of every text of these glyphs. -/
theorem C139_replace {N : Nat} (hN : N ≤ 32764) (f : Nat → Nat) (hf : ∀ g < N, f g < 65536) {script feature : Tag} (hs : script < 4294967296)
    (ht : feature < 4294967296) :
    ∃ file : Data, ∀ (accept : Tag → Bool) (cfg : Cfg) (n : Nat) (language : Tag) (tags : List Tag) (glyphs : List Nat),
      accept 0x00010000 = true → feature ∈ tags → (∀ g ∈ glyphs, g < N) →
        alone (typeset accept cfg (n + 1) script language tags glyphs) file = .ok (glyphs.map fun g => ⟨f g, 0, []⟩) := by
  have hfine : Sources.Fine ⟨[], [.single ((List.range N).map fun g => (g, f g))], []⟩ := by
    refine ⟨⟨(by decide : 0 < 65536), fun c h => by cases h⟩, ⟨(by decide : 1 ≤ 3640), fun stage h => ?_⟩, (by decide : 0 ≤ 3640),
      fun placing h => by cases h⟩
    obtain rfl := List.mem_singleton.mp h
    refine ⟨fun g hg => ?_, fun g hg => ?_, ?_⟩
    · rw [List.map_map, show Prod.fst ∘ (fun g => (g, f g)) = id from rfl, List.map_id] at hg
      exact range_glyphs (by omega) g hg
    · rw [List.map_map] at hg
      obtain ⟨x, hx, rfl⟩ := List.mem_map.mp hg
      exact hf x (List.mem_range.mp hx)
    · rw [List.length_map, List.length_range]
      omega
  refine ⟨Sources.file ⟨[], [.single ((List.range N).map fun g => (g, f g))], []⟩ script feature,
    fun accept cfg n language tags glyphs ha hm hg => ?_⟩
  rw [C137_set ha hfine hs ht, if_pos ⟨rfl, hm⟩]
  congr 1
  show ((Stage.single _).through 0 glyphs).map Item.of = _
  rw [(C134_stages glyphs).1, List.map_map]
  refine List.map_congr_left fun g hm => ?_
  show Item.of ((((List.range N).map fun g => (g, f g)).lookup g).getD g) = _
  rw [lookup_all f _ (List.mem_range.mpr (hg g hm))]
  rfl

theorem kerned_at (rules : List (Nat × List (Nat × Int))) (text : List Nat) :
    (kerned rules text).length = text.length ∧ ∀ (i g : Nat), text[i]? = some g →
      (kerned rules text)[i]? = some ⟨g, 0, (kernAt rules g text[i + 1]?).toList.map fun v => Placement.moved (advanceBy v)⟩ := by
  induction text with
  | nil => exact ⟨rfl, fun i g h => by cases h⟩
  | cons x text ih =>
    refine ⟨congrArg (· + 1) ih.1, fun i g h => ?_⟩
    cases i with
    | zero =>
      obtain rfl := Option.some.inj h
      unfold kerned
      rw [List.getElem?_cons_zero, List.getElem?_cons_succ, ← List.head?_eq_getElem?]
      cases kernAt rules x text.head? <;> rfl
    | succ i => exact ih.2 i g h

theorem flatten_each {α : Type} {write : α → Data} {c : Nat} {xs : List α} (h : ∀ x ∈ xs, (write x).length = c) :
    (xs.map write).flatten.length = xs.length * c := by
  induction xs with
  | nil => rw [List.length_nil, Nat.zero_mul]; rfl
  | cons x xs ih =>
    rw [List.map_cons, List.flatten_cons, List.length_append, h x List.mem_cons_self, ih fun y hy => h y (List.mem_cons_of_mem _ hy),
      List.length_cons, Nat.succ_mul xs.length c, Nat.add_comm]

/-- The rules that move every two of the first glyphs. -/
private def everyKern (N : Nat) (k : Nat → Nat → Int) : List (Nat × List (Nat × Int)) :=
  (List.range N).map fun g => (g, (List.range N).map fun h => (h, k g h))

theorem everyKern_fine {N : Nat} (hN : N ≤ 127) {k : Nat → Nat → Int} (hk : ∀ g < N, ∀ h < N, -32768 ≤ k g h ∧ k g h < 32768) :
    Placing.Fine (.kern (everyKern N k)) := by
  refine ⟨fun g hg => ?_, fun r hr pair hp => ?_, ?_⟩
  · unfold everyKern at hg
    rw [List.map_map] at hg
    obtain ⟨x, hx, rfl⟩ := List.mem_map.mp hg
    exact range_glyphs (by omega) x hx
  · obtain ⟨g, hg, rfl⟩ := List.mem_map.mp hr
    obtain ⟨h, hh, rfl⟩ := List.mem_map.mp hp
    exact ⟨range_glyphs (by omega) h hh, hk g (List.mem_range.mp hg) h (List.mem_range.mp hh)⟩
  · have e := flatten_each (write := fun r => writePairs r.2) (c := 2 + 4 * N) (xs := everyKern N k) fun r hr => by
      obtain ⟨g, _, rfl⟩ := List.mem_map.mp hr
      rw [writePairs_length, List.length_map, List.length_range]
    have n1 : (everyKern N k).length = N := by rw [everyKern, List.length_map, List.length_range]
    have n2 : N * (2 + 4 * N) ≤ 127 * 510 := Nat.mul_le_mul hN (by omega)
    rw [n1] at e
    simp only [writeKern, List.length_append, enc16_length, enc16s_length, placesFrom_length, List.length_map, writeCoverage_length, e, n1]
    omega

theorem everyKern_at {N : Nat} {k : Nat → Nat → Int} {text : List Nat} (ht : ∀ g ∈ text, g < N) {i g : Nat} (hi : text[i]? = some g) :
    (kerned (everyKern N k) text)[i]? = some ⟨g, 0, (text[i + 1]?.map fun h => Placement.moved (advanceBy (k g h))).toList⟩ := by
  rw [(kerned_at _ text).2 i g hi]
  congr 2
  unfold kernAt everyKern
  cases e : text[i + 1]? with
  | none => rfl
  | some h =>
    rw [Option.bind_some, lookup_all _ _ (List.mem_range.mpr (ht g (List.mem_of_getElem? hi))), Option.bind_some,
      lookup_all _ _ (List.mem_range.mpr (ht h (List.mem_of_getElem? e)))]
    rfl

/-- However far each two of up to 127 glyphs are to be apart, there is a font that moves every two in every text of these glyphs so far. -/
theorem C139_kern {N : Nat} (hN : N ≤ 127) (k : Nat → Nat → Int) (hk : ∀ g < N, ∀ h < N, -32768 ≤ k g h ∧ k g h < 32768) {script feature : Tag}
    (hs : script < 4294967296) (ht : feature < 4294967296) :
    ∃ file : Data, ∀ (accept : Tag → Bool) (cfg : Cfg) (n : Nat) (language : Tag) (tags : List Tag) (glyphs : List Nat),
      accept 0x00010000 = true → feature ∈ tags → (∀ g ∈ glyphs, g < N) →
        ∃ out, alone (typeset accept cfg (n + 1) script language tags glyphs) file = .ok out ∧ out.length = glyphs.length ∧
          ∀ (i g : Nat), glyphs[i]? = some g → out[i]? = some ⟨g, 0, (glyphs[i + 1]?.map fun h => Placement.moved (advanceBy (k g h))).toList⟩ := by
  have hfine : Sources.Fine ⟨[], [], [.kern (everyKern N k)]⟩ := by
    refine ⟨⟨(by decide : 0 < 65536), fun c h => by cases h⟩, ⟨(by decide : 0 ≤ 3640), fun stage h => by cases h⟩, (by decide : 1 ≤ 3640),
      fun placing h => ?_⟩
    obtain rfl := List.mem_singleton.mp h
    exact everyKern_fine hN hk
  refine ⟨Sources.file ⟨[], [], [.kern (everyKern N k)]⟩ script feature, fun accept cfg n language tags glyphs ha hm hg =>
    ⟨kerned (everyKern N k) glyphs, ?_, (kerned_at _ glyphs).1, fun i g hi => everyKern_at hg hi⟩⟩
  rw [C137_set ha hfine hs ht, if_pos ⟨rfl, hm⟩]
  congr 1
  exact (C136_kinds _ []).2.1 _ glyphs

theorem everyWord_fine {N : Nat} {f : Nat → List Nat} (hf : ∀ g < N, ∀ x ∈ f g, x < 65536)
    (hN : 10 + 6 * N + 2 * ((List.range N).flatMap f).length < 65536) : Stage.Fine (.multiple ((List.range N).map fun g => (g, f g))) := by
  have hl (xs : List Nat) : ((xs.map fun g => (g, f g)).map fun r => writeGlyphs r.2).flatten.length =
      2 * xs.length + 2 * (xs.flatMap f).length := by
    induction xs with
    | nil => rfl
    | cons x xs ih =>
      rw [List.map_cons, List.map_cons, List.flatten_cons, List.length_append, ih, List.flatMap_cons, List.length_append, List.length_cons]
      simp only [writeGlyphs, List.length_append, enc16_length, enc16s_length]
      omega
  refine ⟨fun g hg => ?_, fun r hr => ?_, ?_⟩
  · rw [List.map_map, show Prod.fst ∘ (fun g => (g, f g)) = id from rfl, List.map_id] at hg
    exact range_glyphs (by omega) g hg
  · obtain ⟨g, hg, rfl⟩ := List.mem_map.mp hr
    exact hf g (List.mem_range.mp hg)
  · have := hl (List.range N)
    rw [List.length_range] at this
    simp only [writeEach, List.length_append, enc16_length, enc16s_length, placesFrom_length, List.length_map, writeCoverage_length,
      List.length_range, this]
    omega

theorem everyWord_text {N : Nat} (f : Nat → List Nat) {glyphs : List Nat} (hg : ∀ g ∈ glyphs, g < N) :
    stagesThrough [.multiple ((List.range N).map fun g => (g, f g))] glyphs = glyphs.flatMap f := by
  show (Stage.multiple _).through 0 glyphs = _
  rw [(C134_stages glyphs).2]
  induction glyphs with
  | nil => rfl
  | cons g glyphs ih =>
    rw [List.flatMap_cons, List.flatMap_cons, ih fun x hx => hg x (List.mem_cons_of_mem _ hx),
      lookup_all f _ (List.mem_range.mpr (hg g List.mem_cons_self))]
    rfl

/-- Whatever words become of the first glyphs, if they are not too long all together, there is a font by which they become of every text of
these glyphs. -/
theorem C139_words {N : Nat} (f : Nat → List Nat) (hf : ∀ g < N, ∀ x ∈ f g, x < 65536)
    (hN : 10 + 6 * N + 2 * ((List.range N).flatMap f).length < 65536) {script feature : Tag} (hs : script < 4294967296)
    (ht : feature < 4294967296) :
    ∃ file : Data, ∀ (accept : Tag → Bool) (cfg : Cfg) (n : Nat) (language : Tag) (tags : List Tag) (glyphs : List Nat),
      accept 0x00010000 = true → feature ∈ tags → (∀ g ∈ glyphs, g < N) →
        alone (typeset accept cfg (n + 1) script language tags glyphs) file = .ok ((glyphs.flatMap f).map fun g => ⟨g, 0, []⟩) := by
  have hfine : Sources.Fine ⟨[], [.multiple ((List.range N).map fun g => (g, f g))], []⟩ := by
    refine ⟨⟨(by decide : 0 < 65536), fun c h => by cases h⟩, ⟨(by decide : 1 ≤ 3640), fun stage h => ?_⟩, (by decide : 0 ≤ 3640),
      fun placing h => by cases h⟩
    obtain rfl := List.mem_singleton.mp h
    exact everyWord_fine hf hN
  refine ⟨Sources.file ⟨[], [.multiple ((List.range N).map fun g => (g, f g))], []⟩ script feature,
    fun accept cfg n language tags glyphs ha hm hg => ?_⟩
  rw [C137_set ha hfine hs ht, if_pos ⟨rfl, hm⟩]
  congr 1
  show (stagesThrough _ glyphs).map Item.of = _
  rw [everyWord_text f hg]
  rfl

/-- Whatever words of up to 127 glyphs become of the first glyphs, and however far each two of these are to be apart, there is a font by which
both come about: the words first, and the distances within and between the words. -/
theorem C139_both {N M : Nat} (hM : M ≤ 127) (f : Nat → List Nat) (hf : ∀ g < N, ∀ x ∈ f g, x < M)
    (hN : 10 + 6 * N + 2 * ((List.range N).flatMap f).length < 65536) (k : Nat → Nat → Int)
    (hk : ∀ g < M, ∀ h < M, -32768 ≤ k g h ∧ k g h < 32768) {script feature : Tag} (hs : script < 4294967296) (ht : feature < 4294967296) :
    ∃ file : Data, ∀ (accept : Tag → Bool) (cfg : Cfg) (n : Nat) (language : Tag) (tags : List Tag) (glyphs : List Nat),
      accept 0x00010000 = true → feature ∈ tags → (∀ g ∈ glyphs, g < N) →
        ∃ out, alone (typeset accept cfg (n + 1) script language tags glyphs) file = .ok out ∧ out.length = (glyphs.flatMap f).length ∧
          ∀ (i g : Nat), (glyphs.flatMap f)[i]? = some g →
            out[i]? = some ⟨g, 0, ((glyphs.flatMap f)[i + 1]?.map fun h => Placement.moved (advanceBy (k g h))).toList⟩ := by
  have hfine : Sources.Fine ⟨[], [.multiple ((List.range N).map fun g => (g, f g))], [.kern (everyKern M k)]⟩ := by
    refine ⟨⟨(by decide : 0 < 65536), fun c h => by cases h⟩, ⟨(by decide : 1 ≤ 3640), fun stage h => ?_⟩, (by decide : 1 ≤ 3640),
      fun placing h => ?_⟩
    · obtain rfl := List.mem_singleton.mp h
      exact everyWord_fine (fun g hg x hx => Nat.lt_of_lt_of_le (hf g hg x hx) (by omega)) hN
    · obtain rfl := List.mem_singleton.mp h
      exact everyKern_fine hM hk
  refine ⟨Sources.file ⟨[], [.multiple ((List.range N).map fun g => (g, f g))], [.kern (everyKern M k)]⟩ script feature,
    fun accept cfg n language tags glyphs ha hm hg =>
      ⟨kerned (everyKern M k) (glyphs.flatMap f), ?_, (kerned_at _ _).1, fun i g hi => everyKern_at (fun x hx => ?_) hi⟩⟩
  · rw [C137_set ha hfine hs ht, if_pos ⟨rfl, hm⟩]
    congr 1
    show placingsThrough _ _ ((stagesThrough _ glyphs).map Item.of) = _
    rw [everyWord_text f hg]
    exact (C136_kinds _ []).2.1 _ _
  · obtain ⟨g, hgm, hx⟩ := List.mem_flatMap.mp hx
    exact hf g (hg g hgm) x hx

/-- For example, a font that takes each of 1000 glyphs for the next, and one that moves each two of 100 by the difference. -/
example : ∃ file : Data, ∀ glyphs, (∀ g ∈ glyphs, g < 1000) →
    alone (typeset (· == 0x00010000) ⟨false, false, false, false, true, false⟩ 1 0x6C61746E 0 [0x6C696761] glyphs) file =
      .ok (glyphs.map fun g => ⟨g + 1, 0, []⟩) := by
  obtain ⟨file, h⟩ := C139_replace (N := 1000) (by decide) (· + 1) (fun g hg => Nat.lt_trans (Nat.succ_lt_succ hg) (by decide)) (script := 0x6C61746E)
    (feature := 0x6C696761) (by decide) (by decide)
  exact ⟨file, fun glyphs hg => h _ _ 0 0 _ glyphs rfl (List.mem_singleton.mpr rfl) hg⟩

example := C139_kern (N := 100) (by decide) (fun g h => (g : Int) - h) (fun g hg h hh => by omega) (script := 0x6C61746E)
  (feature := 0x6B65726E) (by decide) (by decide)

/-- And one that writes each of 1000 glyphs twice. -/
example := C139_words (N := 1000) (fun g => [g, g]) (fun g hg x hx => by simp at hx; omega) (by decide +kernel) (script := 0x6C61746E)
  (feature := 0x6C696761) (by decide) (by decide)

/-- And one that also moves what it writes. -/
example := C139_both (N := 50) (M := 100) (by decide) (fun g => [g, 2 * g]) (fun g hg x hx => by simp at hx; omega) (by decide +kernel)
  (fun g h => (g : Int) - h) (fun g hg h hh => by omega) (script := 0x6C61746E) (feature := 0x6C696761) (by decide) (by decide)

/-! ## Marks -/

theorem through_at (mark : Nat → Bool) (placing : Placing) (glyphs before : List Nat) :
    (placing.through mark before (glyphs.map Item.of)).length = glyphs.length ∧ ∀ (i g : Nat), glyphs[i]? = some g →
      (placing.through mark before (glyphs.map Item.of))[i]? =
        some ⟨g, 0, placing.at mark ((glyphs.take i).reverse ++ before) g glyphs[i + 1]?⟩ := by
  induction glyphs generalizing before with
  | nil => exact ⟨rfl, fun i g h => by cases h⟩
  | cons x glyphs ih =>
    refine ⟨congrArg (· + 1) (ih (x :: before)).1, fun i g h => ?_⟩
    cases i with
    | zero =>
      obtain rfl := Option.some.inj h
      rw [List.map_cons]
      unfold Placing.through
      rw [List.getElem?_cons_zero, List.getElem?_cons_succ, ← List.head?_eq_getElem?, List.head?_map, Option.map_map,
        show Item.glyph ∘ Item.of = id from rfl, Option.map_id]
      rfl
    | succ i =>
      rw [List.take_succ_cons, List.reverse_cons, List.append_assoc]
      exact (ih (x :: before)).2 i g h

theorem baseBefore_at {mark : Nat → Bool} {before : List Nat} {k b : Nat} (hk : before[k]? = some b) (hb : mark b = false)
    (h : ∀ l < k, ∀ m, before[l]? = some m → mark m = true) : baseBefore mark before = some (k + 1, b) := by
  induction before generalizing k with
  | nil => cases hk
  | cons x before ih =>
    unfold baseBefore
    cases k with
    | zero =>
      obtain rfl := Option.some.inj hk
      rw [hb]
      rfl
    | succ k =>
      rw [h 0 (Nat.succ_pos k) x rfl, if_pos rfl, ih hk fun l hl m hm => h (l + 1) (Nat.succ_lt_succ hl) m hm]
      rfl

theorem baseBefore_none {mark : Nat → Bool} {before : List Nat} (h : ∀ m ∈ before, mark m = true) : baseBefore mark before = none := by
  induction before with
  | nil => rfl
  | cons x before ih =>
    unfold baseBefore
    rw [h x List.mem_cons_self, if_pos rfl, ih fun m hm => h m (List.mem_cons_of_mem _ hm)]
    rfl

/-- The rules that hang each of `M` marks on each of `B` bases. -/
private def everyMark (B M : Nat) (q : Nat → Int × Int) (p : Nat → Nat → Int × Int) : MarkRules :=
  ⟨M, ((List.range M).map (B + ·)).map fun m => (m, m - B, q m), (List.range B).map fun b => (b, (List.range M).map fun m => some (p (B + m) b))⟩

theorem everyMark_fine {B M : Nat} (hs : 24 + 12 * M + 2 * B + 8 * (B * M) < 65536) {q : Nat → Int × Int} {p : Nat → Nat → Int × Int}
    (hq : ∀ m, B ≤ m → m < B + M → PointFine (q m)) (hp : ∀ m b, B ≤ m → m < B + M → b < B → PointFine (p m b)) :
    (everyMark B M q p).Fine := by
  refine ⟨(by omega : M < 65536), fun m hm => ?_, fun b hb => ?_, ?_⟩
  · obtain ⟨x, hx, rfl⟩ := List.mem_map.mp hm
    obtain ⟨y, hy, rfl⟩ := List.mem_map.mp hx
    have := List.mem_range.mp hy
    exact ⟨(by omega : B + y < 65536), (by omega : B + y - B < M), hq (B + y) (by omega) (by omega)⟩
  · obtain ⟨x, hx, rfl⟩ := List.mem_map.mp hb
    have := List.mem_range.mp hx
    refine ⟨(by omega : x < 65536), by rw [List.length_map, List.length_range]; rfl, fun point h => ?_⟩
    obtain ⟨m, hm, e⟩ := List.mem_map.mp h
    obtain rfl := Option.some.inj e
    have := List.mem_range.mp hm
    exact hp (B + m) x (by omega) (by omega) (by omega)
  · have e1 (xs : List Nat) : (xs.flatMap fun b => (List.range M).map fun m => some (p (B + m) b)).length = xs.length * M := by
      induction xs with
      | nil => rw [List.length_nil, Nat.zero_mul]; rfl
      | cons x xs ih =>
        rw [List.flatMap_cons, List.length_append, ih, List.length_map, List.length_range, List.length_cons, Nat.succ_mul xs.length M, Nat.add_comm]
    have e2 := e1 (List.range B)
    have e3 : ((everyMark B M q p).bases.flatMap (·.2)).length = B * M := by
      rw [List.length_range] at e2
      unfold everyMark
      rw [List.flatMap_map]
      exact e2
    have e4 : (points ((everyMark B M q p).bases.flatMap (·.2))).length ≤ B * M := by
      rw [← e3]
      exact List.length_filterMap_le ..
    have e5 : (everyMark B M q p).marks.length = M := by simp only [everyMark, List.length_map, List.length_range]
    have e6 : (everyMark B M q p).bases.length = B := by simp only [everyMark, List.length_map, List.length_range]
    simp only [MarkRules.bytes, writeBases, List.length_append, enc16_length, enc16s_length, cellPlaces_length, points_length,
      writeMarks_length, writeCoverage_length, List.length_map, e3, e5, e6]
    omega

theorem everyMark_at {B M m b : Nat} {q : Nat → Int × Int} {p : Nat → Nat → Int × Int} (h1 : B ≤ m) (h2 : m < B + M) (hb : b < B) :
    (everyMark B M q p).at m b = some (q m, p m b) := by
  have hm : m ∈ (List.range M).map (B + ·) := List.mem_map.mpr ⟨m - B, List.mem_range.mpr (by omega), (by omega : B + (m - B) = m)⟩
  unfold MarkRules.at everyMark
  dsimp only
  rw [lookup_all (fun m => (m - B, q m)) _ hm, Option.bind_some, lookup_all _ _ (List.mem_range.mpr hb), Option.bind_some, List.getElem?_map,
    List.getElem?_range (by omega)]
  show some (q m, p (B + (m - B)) b) = _
  rw [show B + (m - B) = m by omega]

theorem lookup_not {α : Type} (f : Nat → α) (xs : List Nat) {g : Nat} (h : g ∉ xs) : (xs.map fun g => (g, f g)).lookup g = none := by
  induction xs with
  | nil => rfl
  | cons x xs ih =>
    rw [List.map_cons, List.lookup_cons, show (g == x) = false from beq_false_of_ne fun (e : g = x) => h (by rw [e]; exact List.mem_cons_self)]
    exact ih fun hx => h (List.mem_cons_of_mem _ hx)

/-- Wherever each of the marks is to hang on each of the bases, while all points fit one table, there is a font that hangs each mark on the
nearest base before it in every text of these glyphs, there, and does nothing else. The first `B` glyphs are bases, and the next `M` marks. -/
theorem C140_hang {B M : Nat} (hsize : 24 + 12 * M + 2 * B + 8 * (B * M) < 65536) (q : Nat → Int × Int) (p : Nat → Nat → Int × Int)
    (hq : ∀ m, B ≤ m → m < B + M → PointFine (q m)) (hp : ∀ m b, B ≤ m → m < B + M → b < B → PointFine (p m b))
    {script feature : Tag} (hs : script < 4294967296) (ht : feature < 4294967296) :
    ∃ file : Data, ∀ (accept : Tag → Bool) (cfg : Cfg) (n : Nat) (language : Tag) (tags : List Tag) (glyphs : List Nat),
      accept 0x00010000 = true → feature ∈ tags → (∀ g ∈ glyphs, g < B + M) →
        ∃ out, alone (typeset accept cfg (n + 1) script language tags glyphs) file = .ok out ∧ out.length = glyphs.length ∧
          ∀ (i g : Nat), glyphs[i]? = some g →
            (g < B → out[i]? = some ⟨g, 0, []⟩) ∧
            ((∀ l < i, ∀ m, glyphs[l]? = some m → B ≤ m) → out[i]? = some ⟨g, 0, []⟩) ∧
            (B ≤ g → ∀ j < i, ∀ b < B, glyphs[j]? = some b → (∀ l, j < l → l < i → ∀ m, glyphs[l]? = some m → B ≤ m) →
              out[i]? = some ⟨g, 0, [.attached (i - j) (anchorAt (q g)) (anchorAt (p g b))]⟩) := by
  let sources : Sources := ⟨((List.range M).map (B + ·)).map fun m => (m, 3), [], [.marks (everyMark B M q p)]⟩
  have hfine : sources.Fine := by
    refine ⟨⟨?_, fun c h => ?_⟩, ⟨(by decide : 0 ≤ 3640), fun stage h => by cases h⟩, (by decide : 1 ≤ 3640), fun placing h => ?_⟩
    · simp only [sources, List.length_map, List.length_range]
      omega
    · obtain ⟨x, hx, rfl⟩ := List.mem_map.mp h
      obtain ⟨y, hy, rfl⟩ := List.mem_map.mp hx
      have := List.mem_range.mp hy
      exact ⟨(by omega : B + y < 65536), (by decide : 3 < 65536)⟩
    · obtain rfl := List.mem_singleton.mp h
      exact everyMark_fine hsize hq hp
  have hmark (g : Nat) (h1 : B ≤ g) (h2 : g < B + M) : sources.mark g = true := by
    have hm : g ∈ (List.range M).map (B + ·) := List.mem_map.mpr ⟨g - B, List.mem_range.mpr (by omega), (by omega : B + (g - B) = g)⟩
    unfold Sources.mark
    rw [show sources.classes.lookup g = some 3 from lookup_all (fun _ => 3) _ hm]
    rfl
  have hnot (g : Nat) (h : g < B) : g ∉ (List.range M).map (B + ·) := fun hm => by
    obtain ⟨y, _, e⟩ := List.mem_map.mp hm
    omega
  have hbase (g : Nat) (h : g < B) : sources.mark g = false := by
    unfold Sources.mark
    rw [show sources.classes.lookup g = none from lookup_not (fun _ => 3) _ (hnot g h)]
    rfl
  refine ⟨sources.file script feature, fun accept cfg n language tags glyphs ha hm hg =>
    ⟨(Placing.marks (everyMark B M q p)).through sources.mark [] (glyphs.map Item.of), ?_, (through_at ..).1, fun i g hi => ?_⟩⟩
  · rw [C137_set ha hfine hs ht, if_pos ⟨rfl, hm⟩]
    rfl
  rw [(through_at sources.mark _ glyphs []).2 i g hi, List.append_nil]
  have hlen : i < glyphs.length := (List.getElem?_eq_some_iff.mp hi).1
  have htake : (glyphs.take i).length = i := by rw [List.length_take]; omega
  have hrev (l : Nat) (hl : l < i) : (glyphs.take i).reverse[l]? = glyphs[i - 1 - l]? := by
    rw [List.getElem?_reverse (by omega), htake, List.getElem?_take_of_lt (by omega)]
  refine ⟨fun h => ?_, fun h => ?_, fun h j hj b hb hjb hl => ?_⟩
  · congr 2
    show (match baseBefore sources.mark (glyphs.take i).reverse with
      | none => []
      | some (k, b) => ((everyMark B M q p).at g b).toList.map fun y => Placement.attached k (anchorAt y.1) (anchorAt y.2)) = []
    split
    · rfl
    · rw [show (everyMark B M q p).at g _ = none by
        unfold MarkRules.at everyMark
        dsimp only
        rw [lookup_not (fun m => (m - B, q m)) _ (hnot g h)]
        rfl]
      rfl
  · congr 2
    unfold Placing.at
    rw [baseBefore_none fun m hm => ?_]
    have hm := List.mem_reverse.mp hm
    obtain ⟨l, hl⟩ := List.mem_iff_getElem?.mp hm
    have hli : l < i := by
      have := (List.getElem?_eq_some_iff.mp hl).1
      omega
    rw [List.getElem?_take_of_lt hli] at hl
    exact hmark m (h l hli m hl) (hg m (List.mem_of_getElem? hl))
  · congr 2
    unfold Placing.at
    rw [baseBefore_at (k := i - 1 - j) (b := b) (by rw [hrev _ (by omega), show i - 1 - (i - 1 - j) = j by omega]; exact hjb) (hbase b hb)
      fun l hlt m hm => ?_]
    · dsimp only
      rw [everyMark_at h (hg g (List.mem_of_getElem? hi)) hb, show i - 1 - j + 1 = i - j by omega]
      rfl
    · rw [hrev l (by omega)] at hm
      exact hmark m (hl _ (by omega) (by omega) m hm) (hg m (List.mem_of_getElem? hm))

/-- For example, 100 bases and 50 marks, with a point for every two of them. -/
example := C140_hang (B := 100) (M := 50) (by decide) (fun m => (m, -m)) (fun m b => ((m : Int) * b, (b : Int) - m))
  (fun m h1 h2 => by unfold PointFine; dsimp only; omega)
  (fun m b h1 h2 h3 => by
    have : m * b ≤ 150 * 100 := Nat.mul_le_mul (by omega) (by omega)
    unfold PointFine
    dsimp only
    rw [← Int.natCast_mul]
    omega) (script := 0x6C61746E) (feature := 0x6D61726B) (by decide) (by decide)

/-! ## Movements and joints -/

/-- Wherever each of up to 8190 glyphs is to be moved, there is a font that moves it there in every text of these glyphs. -/
theorem C140_moves {N : Nat} (hN : N ≤ 8190) (v : Nat → Int × Int × Int)
    (hv : ∀ g < N, PointFine ((v g).1, (v g).2.1) ∧ -32768 ≤ (v g).2.2 ∧ (v g).2.2 < 32768) {script feature : Tag}
    (hs : script < 4294967296) (ht : feature < 4294967296) :
    ∃ file : Data, ∀ (accept : Tag → Bool) (cfg : Cfg) (n : Nat) (language : Tag) (tags : List Tag) (glyphs : List Nat),
      accept 0x00010000 = true → feature ∈ tags → (∀ g ∈ glyphs, g < N) →
        alone (typeset accept cfg (n + 1) script language tags glyphs) file = .ok (glyphs.map fun g => ⟨g, 0, [.moved (moveBy (v g))]⟩) := by
  have hfine : Sources.Fine ⟨[], [], [.move ((List.range N).map fun g => (g, v g))]⟩ := by
    refine ⟨⟨(by decide : 0 < 65536), fun c h => by cases h⟩, ⟨(by decide : 0 ≤ 3640), fun stage h => by cases h⟩, (by decide : 1 ≤ 3640),
      fun placing h => ?_⟩
    obtain rfl := List.mem_singleton.mp h
    refine ⟨fun r hr => ?_, ?_⟩
    · obtain ⟨g, hg, rfl⟩ := List.mem_map.mp hr
      exact ⟨range_glyphs (by omega) g hg, hv g (List.mem_range.mp hg)⟩
    · simp only [writeMoves, List.length_append, enc16_length, moves_length, writeCoverage_length, List.length_map, List.length_range]
      omega
  refine ⟨Sources.file ⟨[], [], [.move ((List.range N).map fun g => (g, v g))]⟩ script feature,
    fun accept cfg n language tags glyphs ha hm hg => ?_⟩
  rw [C137_set ha hfine hs ht, if_pos ⟨rfl, hm⟩]
  congr 1
  show (Placing.move ((List.range N).map fun g => (g, v g))).through _ [] (glyphs.map Item.of) = _
  rw [(C136_kinds _ _).1, List.map_map]
  refine List.map_congr_left fun g hm => ?_
  show (Item.of g).add (((((List.range N).map fun g => (g, v g)).lookup g).toList).map fun v => Placement.moved (moveBy v)) = _
  rw [lookup_all v _ (List.mem_range.mpr (hg g hm))]
  rfl

/-- Wherever each of up to 3640 glyphs is to be entered and left, if at all, there is a font that joins each two glyphs in every text of
these glyphs there, if the first is left and the second entered, and does nothing else. -/
theorem C140_joints {N : Nat} (hN : N ≤ 3640) (entry exit : Nat → Option (Int × Int)) (hi : ∀ g < N, ∀ point, entry g = some point → PointFine point)
    (ho : ∀ g < N, ∀ point, exit g = some point → PointFine point) {script feature : Tag} (hs : script < 4294967296) (ht : feature < 4294967296) :
    ∃ file : Data, ∀ (accept : Tag → Bool) (cfg : Cfg) (n : Nat) (language : Tag) (tags : List Tag) (glyphs : List Nat),
      accept 0x00010000 = true → feature ∈ tags → (∀ g ∈ glyphs, g < N) →
        ∃ out, alone (typeset accept cfg (n + 1) script language tags glyphs) file = .ok out ∧ out.length = glyphs.length ∧
          ∀ (i g : Nat), glyphs[i]? = some g →
            (∀ h a b, glyphs[i + 1]? = some h → exit g = some a → entry h = some b →
              out[i]? = some ⟨g, 0, [.joined 1 (anchorAt a) (anchorAt b)]⟩) ∧
            ((∀ h, glyphs[i + 1]? = some h → exit g = none ∨ entry h = none) → out[i]? = some ⟨g, 0, []⟩) := by
  let rules := (List.range N).map fun g => (g, entry g, exit g)
  have hfine : Sources.Fine ⟨[], [], [.joints rules]⟩ := by
    refine ⟨⟨(by decide : 0 < 65536), fun c h => by cases h⟩, ⟨(by decide : 0 ≤ 3640), fun stage h => by cases h⟩, (by decide : 1 ≤ 3640),
      fun placing h => ?_⟩
    obtain rfl := List.mem_singleton.mp h
    refine ⟨fun r hr => ?_, ?_⟩
    · obtain ⟨g, hg, rfl⟩ := List.mem_map.mp hr
      exact ⟨range_glyphs (by omega) g hg, hi g (List.mem_range.mp hg), ho g (List.mem_range.mp hg)⟩
    · have e1 (xs : List (Nat × Option (Int × Int) × Option (Int × Int))) : (xs.flatMap fun r => [r.2.1, r.2.2]).length = 2 * xs.length := by
        induction xs with
        | nil => rfl
        | cons x xs ih =>
          simp only [List.flatMap_cons, List.length_append, ih, List.length_cons, List.length_nil]
          omega
      have e2 : rules.length = N := by rw [List.length_map, List.length_range]
      have e3 : (points (rules.flatMap fun r => [r.2.1, r.2.2])).length ≤ 2 * N := by
        rw [← e2, ← e1]
        exact List.length_filterMap_le ..
      simp only [writeJoints, List.length_append, enc16_length, enc16s_length, cellPlaces_length, points_length, writeCoverage_length,
        List.length_map, e1, e2]
      omega
  refine ⟨Sources.file ⟨[], [], [.joints rules]⟩ script feature, fun accept cfg n language tags glyphs ha hm hg =>
    ⟨(Placing.joints rules).through (Sources.mark ⟨[], [], [.joints rules]⟩) [] (glyphs.map Item.of), ?_, (through_at ..).1, fun i g hi => ?_⟩⟩
  · rw [C137_set ha hfine hs ht, if_pos ⟨rfl, hm⟩]
    rfl
  rw [(through_at _ _ glyphs []).2 i g hi]
  have hl (g : Nat) (h : g ∈ glyphs) : rules.lookup g = some (entry g, exit g) := lookup_all _ _ (List.mem_range.mpr (hg g h))
  refine ⟨fun h a b hh ha hb => ?_, fun h => ?_⟩
  · unfold Placing.at jointAt
    dsimp only
    rw [hh, Option.bind_some, hl g (List.mem_of_getElem? hi), hl h (List.mem_of_getElem? hh), Option.bind_some, Option.bind_some]
    dsimp only
    rw [ha, hb]
    rfl
  · congr 2
    unfold Placing.at jointAt
    dsimp only
    cases e : glyphs[i + 1]? with
    | none => rfl
    | some x =>
      rw [Option.bind_some, hl g (List.mem_of_getElem? hi), hl x (List.mem_of_getElem? e), Option.bind_some, Option.bind_some]
      dsimp only
      rcases h x e with h | h
      · rw [h]
        rfl
      · rw [h]
        cases exit g <;> rfl

example := C140_moves (N := 1000) (by decide) (fun g => (g, -g, 2 * g)) (fun g hg => by unfold PointFine; dsimp only; omega)
  (script := 0x6C61746E) (feature := 0x6B65726E) (by decide) (by decide)

example := C140_joints (N := 1000) (by decide) (fun g => if g = 7 then none else some (0, g)) (fun g => some (g, 0))
  (fun g hg point h => by
    split at h
    · cases h
    · obtain rfl := Option.some.inj h
      unfold PointFine
      dsimp only
      omega)
  (fun g hg point h => by
    obtain rfl := Option.some.inj h
    unfold PointFine
    dsimp only
    omega) (script := 0x6C61746E) (feature := 0x63757273) (by decide) (by decide)

/-! ## Ligatures -/

/-- The ligatures of two glyphs that begin with `g`. -/
private def everyPair (N : Nat) (join : Nat → Nat → Option Nat) (g : Nat) : List (List Nat × Nat) :=
  (List.range N).filterMap fun h => (join g h).map fun x => ([h], x)

theorem flatten_each_le {α : Type} {write : α → Data} {c : Nat} {xs : List α} (h : ∀ x ∈ xs, (write x).length ≤ c) :
    (xs.map write).flatten.length ≤ xs.length * c := by
  induction xs with
  | nil => exact Nat.zero_le _
  | cons x xs ih =>
    have h1 := h x List.mem_cons_self
    have h2 := ih fun y hy => h y (List.mem_cons_of_mem _ hy)
    rw [List.map_cons, List.flatten_cons, List.length_append, List.length_cons, Nat.succ_mul xs.length c]
    omega

theorem everyPair_mem {N : Nat} {join : Nat → Nat → Option Nat} {g : Nat} {l : List Nat × Nat} (h : l ∈ everyPair N join g) :
    ∃ x < N, l.1 = [x] ∧ join g x = some l.2 := by
  obtain ⟨x, hx, e⟩ := List.mem_filterMap.mp h
  obtain ⟨y, hy, rfl⟩ := Option.map_eq_some_iff.mp e
  exact ⟨x, List.mem_range.mp hx, rfl, hy⟩

theorem everyPair_fine {N : Nat} (hN : N ≤ 90) {join : Nat → Nat → Option Nat} (hj : ∀ g < N, ∀ h < N, ∀ x, join g h = some x → x < 65536) :
    Stage.Fine (.ligature ((List.range N).map fun g => (g, everyPair N join g))) := by
  refine ⟨fun g hg => ?_, fun r hr l hl => ?_, ?_⟩
  · rw [List.map_map] at hg
    obtain ⟨x, hx, rfl⟩ := List.mem_map.mp hg
    exact range_glyphs (by omega) x hx
  · obtain ⟨g, hg, rfl⟩ := List.mem_map.mp hr
    obtain ⟨x, hx, e, h⟩ := everyPair_mem hl
    refine ⟨fun y hy => ?_, hj g (List.mem_range.mp hg) x hx _ h⟩
    rw [e] at hy
    obtain rfl := List.mem_singleton.mp hy
    omega
  · have e1 (g : Nat) : (writeLigatures (everyPair N join g)).length ≤ 2 + 8 * N := by
      have n1 : (everyPair N join g).length ≤ N := by
        refine Nat.le_trans (List.length_filterMap_le ..) ?_
        rw [List.length_range]
        omega
      have n2 := flatten_each (write := writeLigature) (c := 6) (xs := everyPair N join g) fun l hl => by
        obtain ⟨x, _, e, _⟩ := everyPair_mem hl
        simp only [writeLigature, List.length_append, enc16_length, enc16s_length, e, List.length_cons, List.length_nil]
      simp only [writeLigatures, List.length_append, enc16_length, enc16s_length, placesFrom_length, List.length_map, n2]
      omega
    have e2 := flatten_each_le (write := fun r => writeLigatures r.2) (c := 2 + 8 * N) (xs := (List.range N).map fun g => (g, everyPair N join g))
      fun r hr => by
        obtain ⟨g, _, rfl⟩ := List.mem_map.mp hr
        exact e1 g
    have n2 : N * (2 + 8 * N) ≤ 90 * 722 := Nat.mul_le_mul hN (by omega)
    have n3 : ((List.range N).map fun g => (g, everyPair N join g)).length = N := by rw [List.length_map, List.length_range]
    rw [n3] at e2
    simp only [writeEach, List.length_append, enc16_length, enc16s_length, placesFrom_length, writeCoverage_length, List.length_map,
      List.length_range] at e2 ⊢
    omega

theorem everyPair_find (join : Nat → Nat → Option Nat) (g h : Nat) (text : List Nat) (xs : List Nat) :
    ((xs.filterMap fun h => (join g h).map fun x => ([h], x)).find? fun l => l.1.isPrefixOf (h :: text)) =
      if h ∈ xs then (join g h).map fun x => ([h], x) else none := by
  induction xs with
  | nil => rfl
  | cons x xs ih =>
    rw [List.filterMap_cons]
    by_cases e : x = h
    · subst e
      rw [if_pos List.mem_cons_self]
      cases ej : join g x with
      | none =>
        rw [Option.map_none]
        dsimp only
        rw [ih, ej]
        exact ite_self _
      | some y =>
        rw [Option.map_some]
        dsimp only
        rw [List.find?_cons_of_pos]
        simp
    · have : (h ∈ x :: xs) = (h ∈ xs) := by
        rw [List.mem_cons]
        exact propext ⟨fun k => k.resolve_left fun k => e k.symm, Or.inr⟩
      simp only [this]
      cases ej : join g x with
      | none => exact ih
      | some y =>
        rw [Option.map_some]
        dsimp only
        rw [List.find?_cons_of_neg]
        · exact ih
        · simpa using e

theorem everyPair_text {N : Nat} (join : Nat → Nat → Option Nat) : ∀ glyphs : List Nat, (∀ g ∈ glyphs, g < N) →
    (Stage.ligature ((List.range N).map fun g => (g, everyPair N join g))).through 0 glyphs = joinPairs join glyphs
  | [], _ => rfl
  | [g], h => by
    have e : (Stage.ligature ((List.range N).map fun g => (g, everyPair N join g))).at g [] = none := by
      unfold Stage.at
      dsimp only
      rw [lookup_all _ _ (List.mem_range.mpr (h g List.mem_cons_self)), Option.bind_some, Option.map_eq_none_iff, List.find?_eq_none]
      intro l hl
      obtain ⟨x, _, e, _⟩ := everyPair_mem hl
      rw [e]
      exact Bool.false_ne_true
    unfold Stage.through
    rw [e]
    rfl
  | g :: x :: text, h => by
    have e : (Stage.ligature ((List.range N).map fun g => (g, everyPair N join g))).at g (x :: text) = (join g x).map fun y => ([y], 1) := by
      unfold Stage.at
      dsimp only
      rw [lookup_all _ _ (List.mem_range.mpr (h g List.mem_cons_self)), Option.bind_some]
      unfold everyPair
      rw [everyPair_find, if_pos (List.mem_range.mpr (h x (List.mem_cons_of_mem _ List.mem_cons_self)))]
      cases join g x <;> rfl
    have h1 := everyPair_text join (x :: text) fun y hy => h y (List.mem_cons_of_mem _ hy)
    have h2 := everyPair_text join text fun y hy => h y (List.mem_cons_of_mem _ (List.mem_cons_of_mem _ hy))
    unfold Stage.through joinPairs
    rw [e]
    cases join g x with
    | none => exact congrArg (g :: ·) h1
    | some y => exact congrArg (y :: ·) h2

/-- Whichever two of up to 90 glyphs are to be joined, and whatever becomes of them, there is a font that joins these, and no others, in
every text of these glyphs, from the first on. -/
theorem C139_join {N : Nat} (hN : N ≤ 90) (join : Nat → Nat → Option Nat) (hj : ∀ g < N, ∀ h < N, ∀ x, join g h = some x → x < 65536)
    {script feature : Tag} (hs : script < 4294967296) (ht : feature < 4294967296) :
    ∃ file : Data, ∀ (accept : Tag → Bool) (cfg : Cfg) (n : Nat) (language : Tag) (tags : List Tag) (glyphs : List Nat),
      accept 0x00010000 = true → feature ∈ tags → (∀ g ∈ glyphs, g < N) →
        alone (typeset accept cfg (n + 1) script language tags glyphs) file = .ok ((joinPairs join glyphs).map fun g => ⟨g, 0, []⟩) := by
  have hfine : Sources.Fine ⟨[], [.ligature ((List.range N).map fun g => (g, everyPair N join g))], []⟩ := by
    refine ⟨⟨(by decide : 0 < 65536), fun c h => by cases h⟩, ⟨(by decide : 1 ≤ 3640), fun stage h => ?_⟩, (by decide : 0 ≤ 3640),
      fun placing h => by cases h⟩
    obtain rfl := List.mem_singleton.mp h
    exact everyPair_fine hN hj
  refine ⟨Sources.file ⟨[], [.ligature ((List.range N).map fun g => (g, everyPair N join g))], []⟩ script feature,
    fun accept cfg n language tags glyphs ha hm hg => ?_⟩
  rw [C137_set ha hfine hs ht, if_pos ⟨rfl, hm⟩]
  congr 1
  show ((Stage.ligature _).through 0 glyphs).map Item.of = _
  rw [everyPair_text join glyphs hg]
  rfl

/-- For example, two of the same become the glyph of twice the number. -/
example := C139_join (N := 80) (by decide) (fun g h => if g = h then some (2 * g) else none)
  (fun g hg h hh x e => by
    split at e
    · obtain rfl := Option.some.inj e
      omega
    · cases e) (script := 0x6C61746E) (feature := 0x6C696761) (by decide) (by decide)

example : joinPairs (fun g h => if g = h then some (2 * g) else none) [3, 3, 3, 6, 6, 12] = [6, 3, 12, 12] := by decide

/-! ## Steps -/

theorem joinPairs_mem {join : Nat → Nat → Option Nat} {N : Nat} (hj : ∀ g < N, ∀ h < N, ∀ x, join g h = some x → x < N) :
    ∀ glyphs : List Nat, (∀ g ∈ glyphs, g < N) → ∀ x ∈ joinPairs join glyphs, x < N
  | [], _, x, hx => by cases hx
  | [g], h, x, hx => h x hx
  | g :: y :: text, h, x, hx => by
    have hg := h g List.mem_cons_self
    have hy := h y (List.mem_cons_of_mem _ List.mem_cons_self)
    unfold joinPairs at hx
    split at hx
    · rcases List.mem_cons.mp hx with rfl | hx
      · exact hg
      · exact joinPairs_mem hj (y :: text) (fun z hz => h z (List.mem_cons_of_mem _ hz)) x hx
    · next z e =>
      rcases List.mem_cons.mp hx with rfl | hx
      · exact hj g hg y hy x e
      · exact joinPairs_mem hj text (fun z hz => h z (List.mem_cons_of_mem _ (List.mem_cons_of_mem _ hz))) x hx

/-- The stage for a step. -/
private def stageOf (N : Nat) : (Nat → List Nat) ⊕ (Nat → Nat → Option Nat) → Stage
  | .inl f => .multiple ((List.range N).map fun g => (g, f g))
  | .inr join => .ligature ((List.range N).map fun g => (g, everyPair N join g))

/-- Steps, each of which either puts a word in the place of each glyph or joins pairs, for up to 90 glyphs, can be done one after another by
one font, up to 3640 of them, if the words of each step fit one table. -/
theorem C139_steps {N : Nat} (hN : N ≤ 90) (steps : List ((Nat → List Nat) ⊕ (Nat → Nat → Option Nat))) (hl : steps.length ≤ 3640)
    (hf : ∀ f, .inl f ∈ steps → (∀ g < N, ∀ x ∈ f g, x < N) ∧ 10 + 6 * N + 2 * ((List.range N).flatMap f).length < 65536)
    (hj : ∀ join, .inr join ∈ steps → ∀ g < N, ∀ h < N, ∀ x, join g h = some x → x < N)
    {script feature : Tag} (hs : script < 4294967296) (ht : feature < 4294967296) :
    ∃ file : Data, ∀ (accept : Tag → Bool) (cfg : Cfg) (n : Nat) (language : Tag) (tags : List Tag) (glyphs : List Nat),
      accept 0x00010000 = true → feature ∈ tags → (∀ g ∈ glyphs, g < N) →
        alone (typeset accept cfg (n + 1) script language tags glyphs) file =
          .ok ((steps.foldl (fun text step => step.elim (fun f => text.flatMap f) fun join => joinPairs join text) glyphs).map
            fun g => ⟨g, 0, []⟩) := by
  have hfine : Sources.Fine ⟨[], steps.map (stageOf N), []⟩ := by
    refine ⟨⟨(by decide : 0 < 65536), fun c h => by cases h⟩, ⟨by rw [List.length_map]; exact hl, fun stage h => ?_⟩, (by decide : 0 ≤ 3640),
      fun placing h => by cases h⟩
    obtain ⟨step, hm, rfl⟩ := List.mem_map.mp h
    cases step with
    | inl f => exact everyWord_fine (fun g hg x hx => Nat.lt_of_lt_of_le ((hf f hm).1 g hg x hx) (by omega)) (hf f hm).2
    | inr join => exact everyPair_fine hN fun g hg h hh x hx => Nat.lt_of_lt_of_le (hj join hm g hg h hh x hx) (by omega)
  refine ⟨Sources.file ⟨[], steps.map (stageOf N), []⟩ script feature, fun accept cfg n language tags glyphs ha hm hg => ?_⟩
  rw [C137_set ha hfine hs ht, if_pos ⟨rfl, hm⟩]
  congr 1
  show (stagesThrough (steps.map (stageOf N)) glyphs).map Item.of = _
  refine congrArg (List.map Item.of) ?_
  clear hfine hl hm
  unfold stagesThrough
  induction steps generalizing glyphs with
  | nil => rfl
  | cons step steps ih =>
    rw [List.map_cons, List.foldl_cons, List.foldl_cons]
    have ih := ih (fun f h => hf f (List.mem_cons_of_mem _ h)) fun join h => hj join (List.mem_cons_of_mem _ h)
    cases step with
    | inl f =>
      rw [show (stageOf N (.inl f)).through 0 glyphs = glyphs.flatMap f from everyWord_text f hg]
      refine ih _ fun x hx => ?_
      obtain ⟨g, hgm, hx⟩ := List.mem_flatMap.mp hx
      exact (hf f List.mem_cons_self).1 g (hg g hgm) x hx
    | inr join =>
      rw [show (stageOf N (.inr join)).through 0 glyphs = joinPairs join glyphs from everyPair_text join glyphs hg]
      exact ih _ (joinPairs_mem (hj join List.mem_cons_self) glyphs hg)

/-- For example, one that writes each glyph twice, drops glyph 3, and joins two of the same, and then two of the same again. -/
example := C139_steps (N := 50) (by decide)
  [.inl fun g => if g = 3 then [] else [g, g], .inr fun g h => if g = h then some (g / 2) else none, .inr fun g h => if g = h then some 7 else none]
  (by decide)
  (fun f h => by
    simp only [List.mem_cons, Sum.inl.injEq, reduceCtorEq, List.not_mem_nil, or_false] at h
    subst h
    refine ⟨fun g hg x hx => ?_, by decide +kernel⟩
    dsimp only at hx
    split at hx
    · cases hx
    · simp at hx
      omega)
  (fun join h g hg k hk x e => by
    simp only [List.mem_cons, Sum.inr.injEq, reduceCtorEq, List.not_mem_nil, or_false, false_or] at h
    rcases h with rfl | rfl
    · dsimp only at e
      split at e
      · obtain rfl := Option.some.inj e
        omega
      · cases e
    · dsimp only at e
      split at e
      · obtain rfl := Option.some.inj e
        omega
      · cases e) (script := 0x6C61746E) (feature := 0x6C696761) (by decide) (by decide)

/-! ## Example -/

/-- A font with a mark, some stages, kerning and attachment. -/
def exampleSources : Sources := ⟨[(40, 3), (20, 1)], exampleStages, examplePlacings⟩

theorem exampleSources_fine : exampleSources.Fine :=
  ⟨⟨by decide, by decide⟩, ⟨by decide, exampleStages_fine⟩, by decide, examplePlacings_fine⟩

example : writeClasses [(40, 3), (20, 1)] =
    bytes ([0, 1,  0, 0,  0, 12,  0, 0,  0, 0,  0, 0] ++ [0, 2,  0, 2,  0, 40,  0, 40,  0, 3,  0, 20,  0, 20,  0, 1]) := by decide +kernel

example : exampleSources.set [9, 3, 40, 40, 9] = [⟨20, 0, []⟩, ⟨40, 0, [.attached 1 (anchorAt (5, -6)) (anchorAt (100, 200))]⟩,
    ⟨40, 0, [.attached 2 (anchorAt (5, -6)) (anchorAt (100, 200))]⟩, ⟨30, 0, []⟩] := by decide +kernel

example (cfg : Cfg) (n : Nat) (language : Tag) (glyphs : List Nat) :
    alone (typeset (fun _ => true) cfg (n + 1) 0x6C61746E language [0x6B65726E] glyphs) (exampleSources.file 0x6C61746E 0x6B65726E) =
      .ok (exampleSources.set glyphs) :=
  (C137_set rfl exampleSources_fine (by decide) (by decide) cfg n 0x6C61746E language [0x6B65726E] glyphs).trans
    (congrArg Except.ok (if_pos (by decide)))

/-- As the crate's readers do on one of them. -/
example : alone (typeset (· == 0x00010000) ⟨false, false, false, false, true, false⟩ 1 0x6C61746E 0 [0x6B65726E] [9, 3, 40, 40, 9])
    (exampleSources.file 0x6C61746E 0x6B65726E) = .ok [⟨20, 0, []⟩, ⟨40, 0, [.attached 1 (anchorAt (5, -6)) (anchorAt (100, 200))]⟩,
      ⟨40, 0, [.attached 2 (anchorAt (5, -6)) (anchorAt (100, 200))]⟩, ⟨30, 0, []⟩] := by decide +kernel

end OpenType.Props
