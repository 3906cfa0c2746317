import Verif.Spec.Kern
import Verif.Props.Compile
import Verif.Proof.Gpos
/-! # C135: kerning made of rules -/

namespace OpenType.Props
open OpenType Spec directory

variable {d : Data}

/-! ## The subtable -/

/-- What is read of the pairs. -/
def pairsOf (pairs : List (Nat × Int)) : gpos.Pair1s := ⟨pairs.length, pairs.map fun pair => ⟨pair.1, some (advanceBy pair.2), none⟩⟩

/-- What is read of the subtable. -/
def kernOf (rules : List (Nat × List (Nat × Int))) : gpos.PairAdjustment :=
  .format1 ⟨1, 10 + 2 * rules.length, 4, 0, rules.length,
    placesFrom (10 + 2 * rules.length + (writeCoverage (rules.map (·.1))).length) (rules.map fun r => writePairs r.2),
    .format1 ⟨1, (rules.map (·.1)).length, rules.map (·.1)⟩, rules.map fun r => pairsOf r.2⟩

theorem value_there {base p : Nat} {v : Int} (h : I16 d p v) : Spec.gpos.IsSingle base 4 d p (advanceBy v) := by
  have b (k : Nat) (hk : Nat.testBit 4 k = false) : Nat.testBit 4 k = false := hk
  exact ⟨b 0 (by decide), b 1 (by decide), ⟨by decide, h⟩, b 3 (by decide), b 4 (by decide), b 5 (by decide), b 6 (by decide),
    b 7 (by decide), rfl, rfl, rfl, rfl⟩

theorem pairs_each {pairs : List (Nat × Int)} (hp : ∀ pair ∈ pairs, pair.1 < 65536 ∧ -32768 ≤ pair.2 ∧ pair.2 < 32768) {base P : Nat}
    (h : Stored d P (pairs.flatMap fun pair => enc16 pair.1 ++ encI16 pair.2)) (i : Nat) (x : gpos.Pair1)
    (hx : (pairs.map fun pair => (⟨pair.1, some (advanceBy pair.2), none⟩ : gpos.Pair1))[i]? = some x) :
    Spec.gpos.IsPair1 base 4 0 d (P + 4 * i) x := by
  induction pairs generalizing P i with
  | nil => cases hx
  | cons pair pairs ih =>
    simp only [List.flatMap_cons, stored_append, List.length_append, enc16_length, encI16_length] at h
    obtain ⟨h1, h2, h3⟩ := hp pair List.mem_cons_self
    cases i with
    | zero =>
      obtain rfl := Option.some.inj hx
      exact ⟨at16.mpr ⟨h1, h.1.1⟩, ⟨(by decide : 4 ≠ 0), value_there (atI16.mpr ⟨⟨h2, h3⟩, h.1.2⟩)⟩, (rfl : (0 : Nat) = 0)⟩
    | succ i =>
      have := ih (fun p hp' => hp p (List.mem_cons_of_mem _ hp')) h.2 i hx
      rwa [show P + (2 + 2) + 4 * i = P + 4 * (i + 1) by omega] at this

theorem writePairs_length (pairs : List (Nat × Int)) : (writePairs pairs).length = 2 + 4 * pairs.length := by
  unfold writePairs
  rw [List.length_append, enc16_length]
  congr 1
  induction pairs with
  | nil => rfl
  | cons pair pairs ih =>
    rw [List.flatMap_cons, List.length_append, ih, List.length_append, enc16_length, encI16_length, List.length_cons]
    omega

theorem pairs_there {pairs : List (Nat × Int)} (hp : ∀ pair ∈ pairs, pair.1 < 65536 ∧ -32768 ≤ pair.2 ∧ pair.2 < 32768)
    (hl : pairs.length < 65536) {P : Nat} (h : Stored d P (writePairs pairs)) : Spec.gpos.IsPair1s 4 0 d P (pairsOf pairs) := by
  unfold writePairs at h
  rw [stored_append, enc16_length] at h
  refine ⟨at16.mpr ⟨hl, h.1⟩, List.length_map .., fun i x hx => ?_⟩
  exact pairs_each hp h.2 i x hx

theorem pairs_fit {rules : List (Nat × List (Nat × Int))} (hl : (writeKern rules).length < 65536) {r : Nat × List (Nat × Int)}
    (hr : r ∈ rules) : r.2.length < 65536 := by
  have h : (writePairs r.2).length ≤ (rules.map fun r => writePairs r.2).flatten.length := by
    clear hl
    induction rules with
    | nil => cases hr
    | cons x rules ih =>
      rw [List.map_cons, List.flatten_cons, List.length_append]
      rcases List.mem_cons.mp hr with rfl | hr
      · omega
      · have := ih hr
        omega
  rw [writePairs_length] at h
  unfold writeKern at hl
  rw [List.length_append] at hl
  omega

theorem pairs_lookup (pairs : List (Nat × Int)) (h : Nat) :
    ((pairsOf pairs).records.find? fun pair => pair.glyph2_id == h).map (fun pair => (pair.value1, pair.value2)) =
      (pairs.lookup h).map fun v => (some (advanceBy v), none) := by
  unfold pairsOf
  dsimp only
  induction pairs with
  | nil => rfl
  | cons pair pairs ih =>
    rw [List.map_cons, List.find?_cons, List.lookup_cons]
    by_cases e : pair.1 = h
    · subst e
      simp
    · have h1 : (pair.1 == h) = false := by simpa using e
      have h2 : (h == pair.1) = false := by simpa using fun e' => e e'.symm
      dsimp only
      rw [h1, h2]
      exact ih

/-- The rules for pairs can be read wherever they are, and say how the advance of each glyph changes in front of each other glyph: as the
first rule for the two says. -/
theorem C135_pairs {rules : List (Nat × List (Nat × Int))} (hk : KernFine rules) (cfg : Cfg) :
    ∃ t, (∀ d p, Fits d → Stored d p (writeKern rules) → Reads (gpos.Type_.read cfg 2) d p (.pairAdjustment t)) ∧
      ∀ g h, adjust t g h = .ok ((kernAt rules g (some h)).map fun v => (some (advanceBy v), none)) := by
  obtain ⟨h1, h2, hl⟩ := hk
  refine ⟨kernOf rules, ?_, ?_⟩
  · intro d p hd h
    refine (reads_parses (S := Spec.gpos.IsTable cfg 2) hd).mpr ?_
    have hf := fun r hr => pairs_fit hl (r := r) hr
    have hc := writeCoverage_length (rules.map (·.1))
    rw [List.length_map] at hc
    simp only [writeKern, List.length_append, enc16_length, enc16s_length, placesFrom_length, List.length_map] at hl
    simp only [writeKern, stored_append, List.length_append, enc16_length, enc16s_length, placesFrom_length, List.length_map] at h
    obtain ⟨⟨⟨⟨⟨⟨⟨s1, s2⟩, s3⟩, s4⟩, s5⟩, s6⟩, s7⟩, s8⟩ := h
    have l1 : 10 + 2 * rules.length < 65536 := by omega
    have l2 : rules.length < 65536 := by omega
    refine ⟨rfl, rfl, at16.mpr ⟨(by decide : 1 < 65536), s1⟩, at16.mpr ⟨l1, s2⟩, at16.mpr ⟨(by decide : 4 < 65536), s3⟩,
      (fun _ => (by decide : 4 &&& 0xFF00 = 0)), at16.mpr ⟨(by decide : 0 < 65536), s4⟩, (fun _ => (by decide : 0 &&& 0xFF00 = 0)),
      at16.mpr ⟨l2, s5⟩, at16s.mpr ⟨by rw [placesFrom_length, List.length_map], placesFrom_fit (by omega), s6⟩,
      coverage_there h1 (by rw [List.length_map]; omega) s7, there_each s8 fun r hr Q hQ => pairs_there (h2 r hr) (hf r hr) hQ⟩
  · intro g h
    unfold kernOf adjust
    dsimp only
    rw [entryOf_rules]
    unfold kernAt
    rw [Option.bind_some]
    cases rules.lookup g with
    | none => rfl
    | some pairs =>
      rw [Option.bind_some, ← pairs_lookup]
      rfl

/-! ## A lookup -/

/-- The subtable does what the rules say. -/
structure Kerns (x : gpos.Type_) (rules : List (Nat × List (Nat × Int))) : Prop where
  inline : positioningExtension x = none
  respond : ∀ before base component g following, respond before base component g following x =
    .ok ((kernAt rules g following.head?).map fun v => .moved (some (advanceBy v)) none)

theorem kern_behaves {rules : List (Nat × List (Nat × Int))} (hk : KernFine rules) (cfg : Cfg) :
    ∃ x, (∀ d p, Fits d → Stored d p (writeKern rules) → Reads (gpos.Type_.read cfg 2) d p x) ∧ Kerns x rules := by
  obtain ⟨t, h1, h2⟩ := C135_pairs hk cfg
  refine ⟨_, h1, rfl, fun before base component g following => ?_⟩
  unfold respond move
  dsimp only
  cases following.head? with
  | none => rfl
  | some h =>
    dsimp only
    rw [h2]
    show Except.ok _ = _
    cases kernAt rules g (some h) <;> rfl

theorem filter_not_false (xs : List Nat) : xs.filter (fun _ => !false) = xs := List.filter_eq_self.mpr fun _ _ => rfl

section
variable {cfg : Cfg} {u : gpos.GlyphPositioning} {rules : List (Nat × List (Nat × Int))} {record : lookup.Record gpos.Type_} {x : gpos.Type_}
  (he : Evened u) (hr : u.lookups.records = [record]) (ht : record.tables = [x]) (hx : Kerns x rules) (mark : Nat → Bool)
include he hr ht hx

theorem settle_kern (n : Nat) (before : List Item) (g : Nat) (text : List Nat) :
    settle cfg 0 u (fun _ _ => false) mark (n + 1) 0 before (Item.of g :: text.map Item.of) =
      Pure.pure ((kernAt rules g text.head?).map fun v => ([⟨g, 0, [.moved (advanceBy v)]⟩], text.map Item.of)) := by
  unfold settle
  rw [if_neg Bool.false_ne_true]
  have e : (text.map Item.of).map Item.glyph = text := by
    rw [List.map_map]
    exact List.map_id _
  dsimp only
  rw [filter_not_false, filter_not_false, e,
    perform_only he (by rw [hr]; rfl) ht hx.inline (hx.respond _ _ _ _ _), show (Item.of g).glyph = g from rfl]
  cases kernAt rules g text.head? <;> rfl

theorem forward_kern (n fuel : Nat) (before : List Item) (text : List Nat) (hf : text.length ≤ fuel) :
    forward (settle cfg 0 u (fun _ _ => false) mark (n + 1) 0) fuel before (text.map Item.of) = Pure.pure (kerned rules text) := by
  induction fuel generalizing before text with
  | zero =>
    obtain rfl := List.length_eq_zero_iff.mp (Nat.le_zero.mp hf)
    rfl
  | succ fuel ih =>
    cases text with
    | nil => rfl
    | cons g text =>
      rw [List.length_cons] at hf
      rw [List.map_cons]
      unfold forward
      rw [settle_kern he hr ht hx]
      unfold kerned
      cases kernAt rules g text.head? with
      | none =>
        show (forward _ fuel (Item.of g :: before) (text.map Item.of) >>= fun x => Pure.pure (Item.of g :: x)) = _
        rw [ih _ _ (by omega)]
        rfl
      | some v =>
        show (forward _ fuel _ (text.map Item.of) >>= fun x => Pure.pure ([⟨g, 0, [.moved (advanceBy v)]⟩] ++ x)) = _
        rw [ih _ _ (by omega)]
        rfl

end

/-! ## The table -/

/-- What is read of the table. -/
def kernValue (script feature : Tag) (x : gpos.Type_) : gpos.GlyphPositioning where
  major_version := 1
  minor_version := 0
  script_offset := 0
  feature_offset := 0
  lookup_offset := 0
  variation_offset := 0
  scripts := scriptOf script
  features := featureOf feature 1
  lookups := ⟨0, [], [⟨0, 0, 0, [], none, [x]⟩]⟩
  variations := none

theorem kern_plan {cfg : Cfg} {script feature : Tag} {rules : List (Nat × List (Nat × Int))} (hs : script < 4294967296)
    (hf : feature < 4294967296) (hk : KernFine rules) {x : gpos.Type_} (hx : Reads (gpos.Type_.read cfg 2) (writeKern rules) 0 x)
    (hi : positioningExtension x = none) :
    PlanFor cfg 9 (gpos.Type_.read cfg) positioningExtension (kernValue script feature x) (writeScript script) (writeFeature feature 1)
      [⟨2, 0, none, [writeKern rules]⟩] := by
  have e1 : (writeScript script).length = 20 := by simp only [writeScript, List.length_append, enc16_length, enc32_length]
  have e2 := writeFeature_length feature 1
  have e3 : ([(⟨2, 0, none, [writeKern rules]⟩ : Planned)].map Planned.size).sum = 16 := rfl
  have e4 : ([(⟨2, 0, none, [writeKern rules]⟩ : Planned)].flatMap fun l => l.bodies.flatten).length = (writeKern rules).length := by
    simp
  refine ⟨script_reads hs, feature_reads hf (by decide), .cons ⟨rfl, rfl, .cons ⟨hx, hi⟩ .nil⟩ .nil, ?_, ?_, ?_, ?_⟩
  · intro l hm
    obtain rfl := List.mem_singleton.mp hm
    exact ⟨(by decide : 2 < 65536), (by decide : 0 < 65536), (fun _ => (by decide : 0 &&& 224 = 0)), (by decide : Nat.testBit 0 4 = false),
      (fun _ h => by cases h)⟩
  · rw [e1, e2]
    decide
  · rw [e3]
    exact (by decide : 2 + 2 * 1 + 16 < 65536)
  · rw [assemble_length, e1, e2, e3, e4]
    have := hk.2.2
    show 10 + 20 + (12 + 2 * 1) + 2 + 2 * 1 + 16 + (writeKern rules).length < _
    omega

/-- How the glyphs are placed in a file with the table that is made of the rules. -/
theorem kern_taken (accept : Tag → Bool) (cfg : Cfg) (hd : Fits d) {script feature : Tag} {rules : List (Nat × List (Nat × Int))}
    (hs : script < 4294967296) (hf : feature < 4294967296) (hk : KernFine rules)
    (h3 : HasTable accept cfg d .glyphPositioning (some (compileKern script feature rules))) :
    ∃ t y, Takes accept cfg d 0 .glyphPositioning (gpos.GlyphPositioning.read cfg) (some t) ∧
      (∀ p, TableAt accept cfg d .glyphPositioning p → StandFor cfg 9 (Spec.gpos.IsTable cfg) d p y) ∧
      ∀ definition n script' language tags glyphs,
        settleValue cfg definition (n + 1) script' language tags glyphs (some (withSubtables y t)) =
          .ok (if script' = script ∧ feature ∈ tags then kerned rules glyphs else glyphs.map Item.of) := by
  obtain ⟨x, hx, hb⟩ := kern_behaves hk cfg
  have hx := hx (writeKern rules) 0 (by have := hk.2.2; unfold Fits; omega) (stored_self _)
  have h3' : HasAssembled accept cfg d .glyphPositioning 9 (gpos.Type_.read cfg) positioningExtension (some (kernValue script feature x)) :=
    ⟨_, _, _, kern_plan hs hf hk hx hb.inline, h3⟩
  obtain ⟨t, y, k1, k2, k3⟩ := assembled_taken hd (isTable := Spec.gpos.IsTable cfg) (fun hd _ _ _ => reads_parses hd) h3'
    (.extensionPositioning ⟨0, 0, 0⟩) fun t s f ls => (C132_table cfg s f ls).2 t
  cases t with
  | none => cases k2
  | some t =>
    refine ⟨t, y, k1, k3, fun definition n script' language tags glyphs => ?_⟩
    have hc : SameContent (withSubtables y t) (kernValue script feature x) := by
      cases k2 with
      | some h => exact h
    have he : Evened (withSubtables y t) := by
      obtain ⟨p, _, hp⟩ := (C55_stored accept cfg _ hd (fun _ _ => directory_reads (isTable := Spec.gpos.IsTable cfg)
        (fun hd _ _ _ => reads_parses hd) hd) 0 t).mp k1
      exact evened_with (evened_read hp)
    have hp := same_plain hc fun record hm => by
      obtain rfl := List.mem_singleton.mp hm
      exact ⟨rfl, rfl⟩
    obtain ⟨record, hr, ht⟩ : ∃ record, (withSubtables y t).lookups.records = [record] ∧ record.tables = [x] := by
      have := hc.lookups
      generalize (withSubtables y t).lookups.records = rs at this
      cases this with
      | cons h h' =>
        cases h'
        exact ⟨_, rfl, h.2.2⟩
    obtain ⟨found, e1, e2⟩ := listed_lookups (m := 1) hc.scripts hc.features (by rw [hr]; rfl) script' language tags
    unfold settleValue
    dsimp only
    unfold settleText passAll
    rw [e1, plain_ignoring hp]
    dsimp only
    rw [hr]
    show offline (below _ _ 1 _) = _
    unfold below below
    show offline (if (found.any fun x => tags.contains x.1 && x.2.1 == 0) then
      forward _ (glyphs.map Item.of).length [] (glyphs.map Item.of) else Pure.pure (glyphs.map Item.of)) = _
    rw [e2 0 Nat.one_pos, forward_kern he hr ht hb _ n _ [] glyphs (by rw [List.length_map]; exact Nat.le_refl _)]
    by_cases h : script' = script ∧ feature ∈ tags
    · rw [if_pos (decide_eq_true h), if_pos h]
      rfl
    · rw [if_neg (by rw [decide_eq_true_iff]; exact h), if_neg h]
      rfl

/-! ## Text -/

/-- A file with the tables that are made of the rules sets every text as they say: the stages make it into another, and the rules for
pairs change the advances of its glyphs. -/
theorem C135_text (accept : Tag → Bool) (cfg : Cfg) (hd : Fits d) {script feature script₂ feature₂ : Tag} {stages : List Stage}
    {rules : List (Nat × List (Nat × Int))} (hs : script < 4294967296) (hf : feature < 4294967296) (h : ∀ stage ∈ stages, stage.Fine)
    (hm : stages.length ≤ 3640) (hs₂ : script₂ < 4294967296) (hf₂ : feature₂ < 4294967296) (hk : KernFine rules)
    {p : Nat} {definition : Option gdef.GlyphDefinition}
    (h1 : Takes accept cfg d p .glyphDefinition (gdef.GlyphDefinition.read cfg) definition)
    (h2 : HasTable accept cfg d .glyphSubstitution (some (compile script feature stages)))
    (h3 : HasTable accept cfg d .glyphPositioning (some (compileKern script₂ feature₂ rules)))
    (n : Nat) (script' language : Tag) (tags : List Tag) (glyphs : List Nat) :
    alone (typeset accept cfg (n + 1) script' language tags glyphs) d =
      .ok (
        let made := if script' = script ∧ feature ∈ tags then stagesThrough stages glyphs else glyphs
        if script' = script₂ ∧ feature₂ ∈ tags then kerned rules made else made.map Item.of) := by
  obtain ⟨t, x, k1, k2, k3⟩ := compiled_taken accept cfg hd hs hf h hm h2
  obtain ⟨t', y, m1, m2, m3⟩ := kern_taken accept cfg hd hs₂ hf₂ hk h3
  rw [C131_values accept cfg hd h1 k1 m1 (x := x) (y := y) k2 m2]
  unfold setValues
  rw [Option.map_some, Option.map_some]
  dsimp only
  rw [k3]
  exact m3 ..

/-- The same for a file without a table that makes texts into others. -/
theorem C135_alone (accept : Tag → Bool) (cfg : Cfg) (hd : Fits d) {script feature : Tag} {rules : List (Nat × List (Nat × Int))}
    (hs : script < 4294967296) (hf : feature < 4294967296) (hk : KernFine rules)
    {p : Nat} {definition : Option gdef.GlyphDefinition}
    (h1 : Takes accept cfg d p .glyphDefinition (gdef.GlyphDefinition.read cfg) definition)
    (h2 : HasTable accept cfg d .glyphSubstitution none)
    (h3 : HasTable accept cfg d .glyphPositioning (some (compileKern script feature rules)))
    (n : Nat) (script' language : Tag) (tags : List Tag) (glyphs : List Nat) :
    alone (typeset accept cfg (n + 1) script' language tags glyphs) d =
      .ok (if script' = script ∧ feature ∈ tags then kerned rules glyphs else glyphs.map Item.of) := by
  obtain ⟨t', y, m1, m2, m3⟩ := kern_taken accept cfg hd hs hf hk h3
  rw [C131_values accept cfg hd h1 (absent_taken hd h2) m1 (x := fun _ _ => .extensionSubstitution ⟨0, 0, 0⟩) (y := y)
    (fun p hp => (taken_none hd (absent_taken hd h2 (r := Directory.read cfg gsub.Type_.read)) p hp).elim) m2]
  unfold setValues
  rw [Option.map_none, Option.map_some]
  exact m3 ..

/-! ## Example -/

/-- Kerning for some pairs. -/
def exampleKern : List (Nat × List (Nat × Int)) := [(20, [(30, -50), (6, 10)]), (30, [(30, 7)])]

example : writeKern [(1, [(2, -3)])] =
    bytes ([0, 1,  0, 12,  0, 4,  0, 0,  0, 1,  0, 18] ++ [0, 1,  0, 1,  0, 1] ++ [0, 1,  0, 2,  0xFF, 0xFD]) := by decide +kernel

theorem exampleKern_fine : KernFine exampleKern := by
  refine ⟨?_, ?_, by decide +kernel⟩
  · unfold Glyphs
    decide
  · decide

example : kerned exampleKern [20, 30, 30, 6] =
    [⟨20, 0, [.moved (advanceBy (-50))]⟩, ⟨30, 0, [.moved (advanceBy 7)]⟩, ⟨30, 0, []⟩, ⟨6, 0, []⟩] := by decide +kernel

/-- A file with both tables. -/
def kernFile : Data :=
  fontFile 0x00010000 32 1 0 [(TableType.glyphPositioning.tag, compileKern 0x6C61746E 0x6B65726E exampleKern),
    (TableType.glyphSubstitution.tag, compile 0x6C61746E 0x6C696761 exampleStages)]

/-- It sets every text as both say. -/
example (n : Nat) (language : Tag) (glyphs : List Nat) :
    alone (typeset (· == 0x00010000) ⟨false, false, false, false, true, false⟩ (n + 1) 0x6C61746E language [0x6B65726E, 0x6C696761] glyphs)
      kernFile = .ok (kerned exampleKern (stagesThrough exampleStages glyphs)) := by
  have hd : Fits kernFile := by decide +kernel
  have hw : Writable (· == 0x00010000) 0x00010000 32 1 0
      [(TableType.glyphPositioning.tag, compileKern 0x6C61746E 0x6B65726E exampleKern),
        (TableType.glyphSubstitution.tag, compile 0x6C61746E 0x6C696761 exampleStages)] :=
    ⟨by decide, by decide, by decide, by decide +kernel, by decide +kernel⟩
  have ht (table : TableType) := hasTable_written hw (after := []) (by rw [List.append_nil]; exact hd)
    ⟨false, false, false, false, true, false⟩ table
  have e : fontFile 0x00010000 32 1 0 [(TableType.glyphPositioning.tag, compileKern 0x6C61746E 0x6B65726E exampleKern),
      (TableType.glyphSubstitution.tag, compile 0x6C61746E 0x6C696761 exampleStages)] ++ [] = kernFile := List.append_nil _
  rw [e] at ht
  have b1 (x y : Data) : bodyOf .glyphDefinition [(TableType.glyphPositioning.tag, x), (TableType.glyphSubstitution.tag, y)] = none :=
    (if_neg (by decide)).trans (if_neg (by decide))
  have b2 (x y : Data) : bodyOf .glyphSubstitution [(TableType.glyphPositioning.tag, x), (TableType.glyphSubstitution.tag, y)] = some y :=
    (if_neg (by decide)).trans (if_pos rfl)
  have b3 (x y : Data) : bodyOf .glyphPositioning [(TableType.glyphPositioning.tag, x), (TableType.glyphSubstitution.tag, y)] = some x :=
    if_pos rfl
  have t1 := ht .glyphDefinition
  have t2 := ht .glyphSubstitution
  have t3 := ht .glyphPositioning
  rw [b1] at t1
  rw [b2] at t2
  rw [b3] at t3
  rw [C135_text _ _ hd (by decide) (by decide) exampleStages_fine (by decide) (by decide) (by decide) exampleKern_fine
    (absent_taken hd t1) t2 t3 n 0x6C61746E language [0x6B65726E, 0x6C696761] glyphs]
  rfl

/-- As the crate's readers do on one of them. -/
example : alone (typeset (· == 0x00010000) ⟨false, false, false, false, true, false⟩ 1 0x6C61746E 0 [0x6B65726E, 0x6C696761] [9, 3, 9])
    kernFile = .ok [⟨20, 0, [.moved (advanceBy (-50))]⟩, ⟨30, 0, []⟩] := by decide +kernel

end OpenType.Props
