import Verif.Spec.Resolve
import Verif.Props.SubsetTables
/-! # C131: extensions make no difference to text -/

namespace OpenType.Props
open OpenType Spec lookup directory

/-! ## Programs with and without a tape -/

/-- On the tape the first program gives what the second gives wherever its tape is and whatever is on it. -/
def AgreeOn {α : Type} (d : Data) (r r' : Reader α) : Prop := ∀ q d' q', (r d q).map (·.1) = (r' d' q').map (·.1)

section
variable {α β : Type} {d : Data}

theorem AgreeOn.pure {a : α} : AgreeOn d (Pure.pure a) (Pure.pure a) := fun _ _ _ => rfl

theorem AgreeOn.fail {e : Err} : AgreeOn d (.fail e : Reader α) (.fail e) := fun _ _ _ => rfl

theorem AgreeOn.bind {r r' : Reader α} {f f' : α → Reader β} (h : AgreeOn d r r') (hf : ∀ a, AgreeOn d (f a) (f' a)) :
    AgreeOn d (r >>= f) (r' >>= f') := by
  intro q d' q'
  have := h q d' q'
  rw [run_bind_eq, run_bind_eq]
  cases e : r d q with
  | error x =>
    cases e' : r' d' q' with
    | error x' => rw [e, e'] at this; cases this; rfl
    | ok y => rw [e, e'] at this; cases this
  | ok y =>
    obtain ⟨y, k⟩ := y
    cases e' : r' d' q' with
    | error x' => rw [e, e'] at this; cases this
    | ok z =>
      obtain ⟨z, k'⟩ := z
      rw [e, e'] at this
      have : y = z := by injection this
      subst this
      exact hf y k d' k'

section
variable {T : Type} {extension : T → Option (Nat × Nat)} {readTable readTable' : Nat → Reader T} {isTable : Nat → Data → Nat → T → Prop}
  {cfg : Cfg} {number p : Nat} {t : Directory T} {x : Nat → Nat → T}

theorem records_with (i : Nat) : (withSubtables x t).lookups.records[i]? =
    t.lookups.records[i]?.map fun record => { record with tables := record.tables.mapIdx fun j _ => x i j } := by
  unfold withSubtables
  dsimp only
  rw [List.getElem?_mapIdx]

variable (hr : ∀ type_ a y, isTable type_ d a y → Reads (readTable type_) d a y)
  (hn : ∀ type_ a y, isTable type_ d a y → type_ ≠ number → extension y = none)
  (hf : FindsSubtables cfg number extension readTable d p t) (hx : StandFor cfg number isTable d p x)
include hr hn hf hx

theorem on_subtable (p' i j : Nat) :
    AgreeOn d (subtable extension readTable p t i j) (subtable extension readTable' p' (withSubtables x t) i j) := by
  intro q d' q'
  have key : (∃ k, subtable extension readTable p t i j d q = .ok (none, k)) ∨
      (∃ k, subtable extension readTable p t i j d q = .ok (some (x i j), k)) ∧ extension (x i j) = none := by
    by_cases h : ∃ type_ a, SubtableAt cfg d p i j type_ a
    · obtain ⟨type_, a, h⟩ := h
      obtain ⟨type', a', h1, h2, h3⟩ := hx i j type_ a h
      obtain ⟨type'', a'', h4, h5, _⟩ := (hf i j q).2 type_ a h
      obtain ⟨rfl, rfl⟩ := StandsFor.unique h1 h4
      exact .inr ⟨(h5 _).mpr (hr _ _ _ h3), hn _ _ _ h3 h2⟩
    · exact .inl ((hf i j q).1 fun type_ a h' => h ⟨type_, a, h'⟩)
  have e0 : (withSubtables x t).lookups.offsets = t.lookups.offsets := rfl
  unfold subtable at key ⊢
  rw [records_with, e0]
  cases e1 : t.lookups.offsets[i]? with
  | none => rfl
  | some o =>
    cases e2 : t.lookups.records[i]? with
    | none => rfl
    | some record =>
      rw [e1, e2] at key
      dsimp only [Option.map_some] at key ⊢
      rw [List.getElem?_mapIdx]
      cases e3 : record.table_offsets[j]? with
      | none => rfl
      | some s =>
        cases e4 : record.tables[j]? with
        | none => rfl
        | some table =>
          rw [e3, e4] at key
          dsimp only [Option.map_some] at key ⊢
          cases e5 : extension table with
          | none =>
            rw [e5] at key
            dsimp only at key ⊢
            rcases key with ⟨k, h⟩ | ⟨⟨k, h⟩, h'⟩
            · cases h
            · rw [h']
              cases h
              rfl
          | some y =>
            obtain ⟨type_, offset⟩ := y
            rw [e5] at key
            dsimp only at key ⊢
            rcases key with ⟨k, h⟩ | ⟨⟨k, h⟩, h'⟩
            · rw [run_bind_eq] at h
              split at h
              · cases h
              · cases h
            · rw [h, h']
              rfl

theorem on_perform (act : T → Except Err (Option β)) (p' i : Nat) :
    AgreeOn d (perform extension readTable act p t i) (perform extension readTable' act p' (withSubtables x t) i) := by
  unfold perform
  have e : (((withSubtables x t).lookups.records[i]?.map (·.tables.length)).getD 0) =
      ((t.lookups.records[i]?.map (·.tables.length)).getD 0) := by
    rw [records_with]
    cases t.lookups.records[i]? <;> simp
  rw [e]
  generalize List.range _ = js
  induction js with
  | nil => exact .pure
  | cons j js ih =>
    unfold firstActing
    refine (on_subtable hr hn hf hx p' i j).bind fun x => ?_
    cases x with
    | none => exact .pure
    | some x =>
      dsimp only
      split
      · exact .fail
      · exact .pure
      · exact ih

end

theorem on_actAll {nested nested' : Nat → List α → List α → Reader (Option (List α × List α))}
    (h : ∀ i a b, AgreeOn d (nested i a b) (nested' i a b)) (ignored : α → Bool) (before : List α) (actions : List context.Action) :
    ∀ window rest, AgreeOn d (actAll nested ignored before actions window rest)
      (actAll nested' ignored before actions window rest) := by
  induction actions with
  | nil => intro window rest; exact .pure
  | cons action actions ih =>
    intro window rest
    unfold actAll
    split
    · exact ih _ _
    · refine (h _ _ _).bind fun x => ?_
      cases x <;> exact ih _ _

theorem on_forward {touch touch' : List α → List α → Reader (Option (List α × List α))}
    (h : ∀ a b, AgreeOn d (touch a b) (touch' a b)) (fuel : Nat) :
    ∀ before text, AgreeOn d (forward touch fuel before text) (forward touch' fuel before text) := by
  induction fuel with
  | zero => intro before text; exact .pure
  | succ fuel ih =>
    intro before text
    cases text with
    | nil => exact .pure
    | cons g following =>
      unfold forward
      refine (h _ _).bind fun x => ?_
      rcases x with - | ⟨done, rest⟩
      · exact (ih _ _).bind fun _ => .pure
      · exact (ih _ _).bind fun _ => .pure

/-- Two tables have the same scripts and features and lookups under the same numbers. -/
structure SameShape {T : Type} (t t' : Directory T) : Prop where
  scripts : t.scripts = t'.scripts
  features : t.features = t'.features
  length : t.lookups.records.length = t'.lookups.records.length

section
variable {T : Type} {t t' : Directory T} (hs : SameShape t t')
include hs

theorem shape_lookupsOf (f : Nat) :
    List.Forall₂ (fun a b => a.1 = b.1 ∧ a.2.1 = b.2.1) (lookupsOf t f) (lookupsOf t' f) := by
  unfold lookupsOf
  rw [hs.features]
  split
  · rename_i header feature _ _
    induction feature.lookup_indices with
    | nil => exact .nil
    | cons k ks ih =>
      rw [List.filterMap_cons, List.filterMap_cons]
      cases e : t.lookups.records[k]? with
      | none =>
        have e' : t'.lookups.records[k]? = none := by
          rw [List.getElem?_eq_none_iff] at e ⊢
          rw [← hs.length]
          exact e
        rw [e']
        exact ih
      | some record =>
        have hk := (List.getElem?_eq_some_iff.mp e).1
        rw [hs.length] at hk
        rw [List.getElem?_eq_getElem hk]
        exact .cons ⟨rfl, rfl⟩ ih
  · exact .nil

theorem shape_lookups (script language : Tag) :
    OutcomesBy (List.Forall₂ fun a b => a.1 = b.1 ∧ a.2.1 = b.2.1) (lookupsFor t script language) (lookupsFor t' script language) := by
  unfold lookupsFor
  rw [hs.scripts]
  cases t'.scripts.get script with
  | error => exact .error
  | ok s =>
    cases s with
    | none => exact .ok .nil
    | some s =>
      simp only [bind, Except.bind]
      cases s.get language with
      | error => exact .error
      | ok l =>
        dsimp only
        cases l.or s.default_language with
        | none => exact .ok .nil
        | some l =>
          refine .ok ?_
          induction featuresOf l with
          | nil => exact .nil
          | cons f fs ih =>
            rw [List.flatMap_cons, List.flatMap_cons]
            exact forall₂_append (shape_lookupsOf hs f) ih

omit hs in
theorem any_shape {found found' : List (Tag × Nat × lookup.Record T)} (h : List.Forall₂ (fun a b => a.1 = b.1 ∧ a.2.1 = b.2.1) found found')
    (tags : List Tag) (k : Nat) :
    (found.any fun x => tags.contains x.1 && x.2.1 == k) = found'.any fun x => tags.contains x.1 && x.2.1 == k := by
  induction h with
  | nil => rfl
  | cons h _ ih => rw [List.any_cons, List.any_cons, ih, h.1, h.2]

theorem on_passAll {pass pass' : Nat → List α → Reader (List α)}
    (h : ∀ i a, AgreeOn d (pass i a) (pass' i a)) (script language : Tag) (tags : List Tag) (glyphs : List α) :
    AgreeOn d (passAll t pass script language tags glyphs) (passAll t' pass' script language tags glyphs) := by
  unfold passAll
  have key := shape_lookups hs script language
  generalize lookupsFor t script language = a at key ⊢
  generalize lookupsFor t' script language = b at key ⊢
  cases key with
  | error => exact .fail
  | @ok found found' key =>
    dsimp only
    have e : (fun k => found.any fun x => tags.contains x.1 && x.2.1 == k) = fun k => found'.any fun x => tags.contains x.1 && x.2.1 == k :=
      funext fun k => any_shape key tags k
    rw [e, hs.length]
    generalize t'.lookups.records.length = m
    induction m with
    | zero => exact .pure
    | succ m ih =>
      unfold below
      refine ih.bind fun x => ?_
      split
      · exact h _ _
      · exact .pure

theorem shape_wanted {script language : Tag} {tags : List Tag} {i : Nat} :
    WantedOf (some t) script language tags i ↔ WantedOf (some t') script language tags i := by
  have key := shape_lookups hs script language
  cases e : lookupsFor t script language with
  | error x =>
    cases e' : lookupsFor t' script language with
    | error y =>
      constructor
      · rintro ⟨_, ⟨⟩, found, h, _⟩; rw [e] at h; cases h
      · rintro ⟨_, ⟨⟩, found, h, _⟩; rw [e'] at h; cases h
    | ok found' => rw [e, e'] at key; cases key
  | ok found =>
    cases e' : lookupsFor t' script language with
    | error y => rw [e, e'] at key; cases key
    | ok found' =>
      rw [e, e'] at key
      cases key with
      | ok key => rw [← wanted_any e, ← wanted_any e', any_shape key]

theorem shape_findable {script language : Tag} (h : Findable t script language) : Findable t' script language := by
  obtain ⟨found, e⟩ := h
  have key := shape_lookups hs script language
  rw [e] at key
  cases e' : lookupsFor t' script language with
  | error y => rw [e'] at key; cases key
  | ok found' => exact ⟨found', e'⟩

end

theorem shape_with {T : Type} (x : Nat → Nat → T) (t : Directory T) : SameShape t (withSubtables x t) :=
  ⟨rfl, rfl, by simp [withSubtables]⟩

theorem ignoring_with {T : Type} (definition : Option (Nat × gdef.GlyphDefinition)) (x : Nat → Nat → T) (t : Directory T) :
    ignoring definition (withSubtables x t) = ignoring definition t := by
  funext i g
  unfold ignoring
  cases definition with
  | none => rfl
  | some y =>
    dsimp only
    unfold passedOver
    rw [records_with]
    cases t.lookups.records[i]? <;> rfl

end

section
variable {d : Data}

theorem on_shapeText {t : gsub.GlyphSubstitution} {x : Nat → Nat → gsub.Type_} {p : Nat}
    (hp : ∀ {β : Type} (act : gsub.Type_ → Except Err (Option β)) i,
      AgreeOn d (perform substitutionExtension gsub.Type_.read act p t i)
        (perform substitutionExtension gsub.Type_.read act 0 (withSubtables x t) i))
    (ignored : Nat → Nat → Bool) (n : Nat) (script language : Tag) (tags : List Tag) (glyphs : List Nat) :
    AgreeOn d (shapeText p t ignored n script language tags glyphs)
      (shapeText 0 (withSubtables x t) ignored n script language tags glyphs) := by
  have h1 : ∀ n i a text, AgreeOn d (touch p t ignored n i a text) (touch 0 (withSubtables x t) ignored n i a text) := by
    intro n
    induction n with
    | zero => intro i a text; exact .pure
    | succ n ih =>
      intro i a text
      cases text with
      | nil => exact .pure
      | cons g following =>
        unfold touch
        split
        · exact .pure
        · refine (hp _ i).bind fun x => ?_
          rcases x with - | ⟨glyphs, k⟩ | ⟨k, actions⟩
          · exact .pure
          · exact .pure
          · exact (on_actAll ih _ _ _ _ _).bind fun _ => .pure
  have h2 : ∀ i text a, AgreeOn d (backward p t (ignored i) i a text) (backward 0 (withSubtables x t) (ignored i) i a text) := by
    intro i text
    induction text with
    | nil => intro a; exact .pure
    | cons g following ih =>
      intro a
      unfold backward
      refine (ih _).bind fun out => ?_
      split
      · exact .pure
      · refine (hp _ i).bind fun x => ?_
        cases x <;> exact .pure
  exact on_passAll (shape_with x t) (fun i a => (on_forward (h1 n i) _ _ _).bind fun _ => h2 i _ _) _ _ _ _

theorem on_settleText (cfg : Cfg) {t : gpos.GlyphPositioning} {x : Nat → Nat → gpos.Type_} {p : Nat}
    (hp : ∀ {β : Type} (act : gpos.Type_ → Except Err (Option β)) i,
      AgreeOn d (perform positioningExtension (gpos.Type_.read cfg) act p t i)
        (perform positioningExtension (gpos.Type_.read cfg) act 0 (withSubtables x t) i))
    (ignored : Nat → Nat → Bool) (mark : Nat → Bool) (n : Nat) (script language : Tag) (tags : List Tag) (text : List Item) :
    AgreeOn d (settleText cfg p t ignored mark n script language tags text)
      (settleText cfg 0 (withSubtables x t) ignored mark n script language tags text) := by
  have h1 : ∀ n i a text, AgreeOn d (settle cfg p t ignored mark n i a text) (settle cfg 0 (withSubtables x t) ignored mark n i a text) := by
    intro n
    induction n with
    | zero => intro i a text; exact .pure
    | succ n ih =>
      intro i a text
      cases text with
      | nil => exact .pure
      | cons g following =>
        unfold settle
        split
        · exact .pure
        · refine (hp _ i).bind fun x => ?_
          cases x with
          | none => exact .pure
          | some r =>
            refine AgreeOn.bind ?_ fun _ => .pure
            cases r with
            | sequence n actions => exact on_actAll ih _ _ _ _ _
            | _ => exact .pure
  exact on_passAll (shape_with x t) (fun i a => on_forward (h1 n i) _ _ _) _ _ _ _

end

/-! ## Files -/

/-- What is taken from a file, with its place. -/
theorem takes_placed {accept : Tag → Bool} {cfg : Cfg} {d : Data} (hd : Fits d) {font : Font}
    (hf : Reads (File.read accept) d 0 ⟨[font]⟩) {table : TableType} {α : Type} {r : Reader α} {t : Option α} {p : Nat}
    (h : Takes accept cfg d p table r t) (q : Nat) :
    (∃ k, tableOf cfg font table r d q = .ok (none, k) ∧ t = none) ∨
      ∃ a y k, tableOf cfg font table r d q = .ok (some (a, y), k) ∧ t = some y ∧ TableAt accept cfg d table a ∧ Reads r d a y := by
  cases t with
  | none => exact .inl ⟨q, run_tableOf_none hd hf ((C55_absent accept cfg table hd p).mp h) q, rfl⟩
  | some t =>
    obtain ⟨a, h1, k, e⟩ := (C55_stored (S := fun d q t => Reads r d q t) accept cfg table hd (fun _ _ => Iff.rfl) p t).mp h
    exact .inr ⟨a, t, k, by rw [run_tableOf hd hf h1, e], rfl, h1, k, e⟩

/-- When tables are taken from a file and `x` and `y` are what their subtables stand for, glyphs are set, or fail to be set, as they are
with the tables that have these instead, in memory. -/
theorem C131_values (accept : Tag → Bool) (cfg : Cfg) {d : Data} (hd : Fits d) {p₁ p₂ p₃ : Nat}
    {definition : Option gdef.GlyphDefinition} {substitution : Option gsub.GlyphSubstitution}
    {positioning : Option gpos.GlyphPositioning}
    (h1 : Takes accept cfg d p₁ .glyphDefinition (gdef.GlyphDefinition.read cfg) definition)
    (h2 : Takes accept cfg d p₂ .glyphSubstitution (gsub.GlyphSubstitution.read cfg) substitution)
    (h3 : Takes accept cfg d p₃ .glyphPositioning (gpos.GlyphPositioning.read cfg) positioning)
    {x : Nat → Nat → gsub.Type_} {y : Nat → Nat → gpos.Type_}
    (hs : ∀ p, TableAt accept cfg d .glyphSubstitution p → StandFor cfg 7 Spec.gsub.IsTable d p x)
    (hp : ∀ p, TableAt accept cfg d .glyphPositioning p → StandFor cfg 9 (Spec.gpos.IsTable cfg) d p y)
    (n : Nat) (script language : Tag) (tags : List Tag) (glyphs : List Nat) :
    alone (typeset accept cfg n script language tags glyphs) d =
      setValues cfg definition (substitution.map (withSubtables x)) (positioning.map (withSubtables y)) n script language tags glyphs := by
  have hf : ∃ font, Reads (File.read accept) d 0 ⟨[font]⟩ := by
    obtain ⟨file, h, _⟩ := h1
    obtain ⟨_, font, e, _⟩ := (C01_one_font accept d 0 hd file).mp h
    exact ⟨font, by rw [← e]; exact h⟩
  obtain ⟨font, hf⟩ := hf
  obtain ⟨q, e⟩ := id hf
  obtain ⟨z, k, e1, g1⟩ := takes_found hd hf h1 q
  unfold alone typeset
  rw [bind_ok e]
  dsimp only
  rw [bind_ok e1]
  have hi : z.map (·.2) = (definition.map fun t => (0, t)).map (·.2) := by
    rw [g1]; cases definition <;> rfl
  have last : ∀ glyphs q, (settleWith cfg font z n script language tags glyphs d q).map (·.1) =
      settleValue cfg (definition.map fun t => (0, t)) n script language tags glyphs (positioning.map (withSubtables y)) := by
    intro glyphs q
    unfold settleWith
    rcases takes_placed hd hf h3 q with ⟨k, e3, rfl⟩ | ⟨a, t, k, e3, rfl, e4, e5⟩
    · rw [bind_ok e3]
      rfl
    · rw [bind_ok e3]
      dsimp only [Option.map_some, settleValue]
      rw [ignoring_same hi, marked_same hi, ignoring_with]
      exact on_settleText cfg (fun act i => on_perform (isTable := Spec.gpos.IsTable cfg) (fun _ _ _ h => (reads_parses hd).mpr h)
        (fun type_ a z h hne => by
          rcases positioning_extension cfg type_ d a z h with h | h
          · exact h.2
          · exact (hne h.1).elim) ((C101_follow cfg hd).2 t e5) (hp a e4) act 0 i) _ _ _ _ _ _ _ _ _ _
  have first : (shapeWith cfg font z n script language tags glyphs d k).map (·.1) =
      shapeValue (definition.map fun t => (0, t)) n script language tags glyphs (substitution.map (withSubtables x)) := by
    unfold shapeWith
    rcases takes_placed hd hf h2 k with ⟨k, e3, rfl⟩ | ⟨a, t, k, e3, rfl, e4, e5⟩
    · rw [bind_ok e3]
      rfl
    · rw [bind_ok e3]
      dsimp only [Option.map_some, shapeValue]
      rw [ignoring_same hi, ignoring_with]
      exact on_shapeText (fun act i => on_perform (isTable := Spec.gsub.IsTable) (fun _ _ _ h => (reads_parses hd).mpr h)
        (fun type_ a z h hne => by
          rcases substitution_extension type_ d a z h with h | h
          · exact h.2
          · exact (hne h.1).elim) ((C101_follow cfg hd).1 t e5) (hs a e4) act 0 i) _ _ _ _ _ _ _ _ _
  unfold setValues
  dsimp only
  rw [← first, run_bind_eq]
  cases shapeWith cfg font z n script language tags glyphs d k with
  | error x => rfl
  | ok y => exact last _ _

section
variable {T : Type} {extension : T → Option (Nat × Nat)} {readTable : Nat → Reader T} {isTable : Nat → Data → Nat → T → Prop}
  {cfg : Cfg} {number p : Nat} {t : Directory T} {x : Nat → Nat → T} {d : Data}

theorem evened_with (h : Evened t) : Evened (withSubtables x t) := by
  refine ⟨by simpa [withSubtables] using h.1, fun record hr => ?_⟩
  obtain ⟨i, hi⟩ := List.getElem?_of_mem hr
  rw [records_with] at hi
  obtain ⟨old, h1, rfl⟩ := Option.map_eq_some_iff.mp hi
  simpa using h.2 old (List.mem_of_getElem? h1)

theorem inline_with
    (hn : ∀ type_ a y, isTable type_ d a y → type_ ≠ number → extension y = none)
    (hf : FindsSubtables cfg number extension readTable d p t) (hx : StandFor cfg number isTable d p x) (he : Evened t) :
    Inline extension (withSubtables x t) := by
  intro record hm table ht
  obtain ⟨i, hi⟩ := List.getElem?_of_mem hm
  rw [records_with] at hi
  obtain ⟨old, h1, rfl⟩ := Option.map_eq_some_iff.mp hi
  obtain ⟨j, hj⟩ := List.getElem?_of_mem ht
  rw [List.getElem?_mapIdx] at hj
  obtain ⟨table', h2, rfl⟩ := Option.map_eq_some_iff.mp hj
  by_cases h : ∃ type_ a, SubtableAt cfg d p i j type_ a
  · obtain ⟨type_, a, h⟩ := h
    obtain ⟨type', a', _, h4, h5⟩ := hx i j type_ a h
    exact hn _ _ _ h5 h4
  · obtain ⟨k, h3⟩ := (hf i j 0).1 fun type_ a h' => h ⟨type_, a, h'⟩
    have l1 := (List.getElem?_eq_some_iff.mp h1).1
    have l2 := (List.getElem?_eq_some_iff.mp h2).1
    have l3 := he.2 old (List.mem_of_getElem? h1)
    rw [← he.1] at l1
    rw [← l3] at l2
    unfold subtable at h3
    rw [h1, List.getElem?_eq_getElem l1] at h3
    dsimp only at h3
    rw [h2, List.getElem?_eq_getElem l2] at h3
    dsimp only at h3
    split at h3
    · rw [run_bind_eq] at h3
      split at h3 <;> cases h3
    · cases h3

end

section
variable {accept : Tag → Bool} {cfg : Cfg} {d : Data} (hd : Fits d) {p : Nat}
include hd

theorem resolved_substitution {substitution : Option gsub.GlyphSubstitution} {x : Nat → Nat → gsub.Type_}
    (h : Takes accept cfg d p .glyphSubstitution (gsub.GlyphSubstitution.read cfg) substitution)
    (hs : ∀ p, TableAt accept cfg d .glyphSubstitution p → StandFor cfg 7 Spec.gsub.IsTable d p x) (script language : Tag) :
    ∀ t, substitution.map (withSubtables x) = some t → Inline substitutionExtension t ∧ Evened t ∧ Findable t script language := by
  intro t e
  obtain ⟨t, rfl, rfl⟩ := Option.map_eq_some_iff.mp e
  obtain ⟨b, k1, k2⟩ := ((C55_tables accept cfg hd p).1 t).mp h
  have k3 := taken_substitution hd h script language
  refine ⟨inline_with (isTable := Spec.gsub.IsTable) (fun type_ a z h hne => ?_)
    ((C101_follow cfg hd).1 t ((reads_parses hd).mpr k2)) (hs b k1) k3.1, evened_with k3.1, shape_findable (shape_with x t) k3.2⟩
  rcases substitution_extension type_ d a z h with h | h
  · exact h.2
  · exact (hne h.1).elim

theorem resolved_positioning {positioning : Option gpos.GlyphPositioning} {y : Nat → Nat → gpos.Type_}
    (h : Takes accept cfg d p .glyphPositioning (gpos.GlyphPositioning.read cfg) positioning)
    (hs : ∀ p, TableAt accept cfg d .glyphPositioning p → StandFor cfg 9 (Spec.gpos.IsTable cfg) d p y) (script language : Tag) :
    ∀ t, positioning.map (withSubtables y) = some t → Inline positioningExtension t ∧ Evened t ∧ Findable t script language := by
  intro t e
  obtain ⟨t, rfl, rfl⟩ := Option.map_eq_some_iff.mp e
  obtain ⟨b, k1, k2⟩ := ((C55_tables accept cfg hd p).2.1 t).mp h
  have k3 := taken_positioning hd h script language
  refine ⟨inline_with (isTable := Spec.gpos.IsTable cfg) (fun type_ a z h hne => ?_)
    ((C101_follow cfg hd).2 t ((reads_parses hd).mpr k2)) (hs b k1) k3.1, evened_with k3.1, shape_findable (shape_with y t) k3.2⟩
  rcases positioning_extension cfg type_ d a z h with h | h
  · exact h.2
  · exact (hne h.1).elim

end

/-- C130 for files with extensions: what corresponds are the tables with the subtables that the extensions stand for. -/
theorem C131_alike (accept accept' : Tag → Bool) (cfg cfg' : Cfg) {d d' : Data} (hd : Fits d) (hd' : Fits d')
    {p₁ p₂ p₃ p₁' p₂' p₃' : Nat} {definition definition' : Option gdef.GlyphDefinition}
    {substitution substitution' : Option gsub.GlyphSubstitution} {positioning positioning' : Option gpos.GlyphPositioning}
    (h1 : Takes accept cfg d p₁ .glyphDefinition (gdef.GlyphDefinition.read cfg) definition)
    (h2 : Takes accept cfg d p₂ .glyphSubstitution (gsub.GlyphSubstitution.read cfg) substitution)
    (h3 : Takes accept cfg d p₃ .glyphPositioning (gpos.GlyphPositioning.read cfg) positioning)
    (h1' : Takes accept' cfg' d' p₁' .glyphDefinition (gdef.GlyphDefinition.read cfg') definition')
    (h2' : Takes accept' cfg' d' p₂' .glyphSubstitution (gsub.GlyphSubstitution.read cfg') substitution')
    (h3' : Takes accept' cfg' d' p₃' .glyphPositioning (gpos.GlyphPositioning.read cfg') positioning')
    {x x' : Nat → Nat → gsub.Type_} {y y' : Nat → Nat → gpos.Type_}
    (hs : ∀ p, TableAt accept cfg d .glyphSubstitution p → StandFor cfg 7 Spec.gsub.IsTable d p x)
    (hp : ∀ p, TableAt accept cfg d .glyphPositioning p → StandFor cfg 9 (Spec.gpos.IsTable cfg) d p y)
    (hs' : ∀ p, TableAt accept' cfg' d' .glyphSubstitution p → StandFor cfg' 7 Spec.gsub.IsTable d' p x')
    (hp' : ∀ p, TableAt accept' cfg' d' .glyphPositioning p → StandFor cfg' 9 (Spec.gpos.IsTable cfg') d' p y')
    {script language : Tag} {tags : List Tag} {G R S : Nat → Nat → Prop}
    (hR : CorrespondsBy (SubstitutionsBy G R) (SubstitutionIdle (Kept G)) (SubstitutionIdle (Known G)) G R definition definition' script
      language tags (substitution.map (withSubtables x)) (substitution'.map (withSubtables x')))
    (hS : CorrespondsBy (PositioningsBy G S) (PositioningIdle (Kept G)) (PositioningIdle (Known G)) G S definition definition' script
      language tags (positioning.map (withSubtables y)) (positioning'.map (withSubtables y')))
    (hm : MarksBy G definition definition') (n : Nat) {glyphs glyphs' : List Nat} (hg : List.Forall₂ G glyphs glyphs') :
    OutcomesBy (List.Forall₂ (ItemsBy G)) (alone (typeset accept cfg n script language tags glyphs) d)
      (alone (typeset accept' cfg' n script language tags glyphs') d') := by
  rw [C131_values accept cfg hd h1 h2 h3 hs hp, C131_values accept' cfg' hd' h1' h2' h3' hs' hp']
  exact setValues_by cfg cfg' (resolved_substitution hd h2 hs _ _) (resolved_positioning hd h3 hp _ _)
    (resolved_substitution hd' h2' hs' _ _) (resolved_positioning hd' h3' hp' _ _) hR hS hm n hg

/-! ## The same content -/

theorem forall₂_eq {α : Type} {xs ys : List α} (h : List.Forall₂ Eq xs ys) : xs = ys := by
  induction h with
  | nil => rfl
  | cons h _ ih => rw [h, ih]

theorem actionsAlike_refl (actions : List context.Action) : ActionsAlike Eq actions actions := by
  induction actions with
  | nil => exact .nil
  | cons a actions ih => exact .cons ⟨rfl, rfl⟩ ih

theorem substitutionsBy_refl (x : gsub.Type_) : SubstitutionsBy Eq Eq x x := by
  intro before before' g g' following following' h1 h2 h3
  obtain rfl := forall₂_eq h1
  obtain rfl := forall₂_eq h3
  subst h2
  refine ⟨results_refl fun y _ => ?_, results_refl fun _ _ => rfl⟩
  cases y with
  | replaced glyphs n => exact .replaced (List.forall₂_refl glyphs)
  | sequence n actions => exact .sequence (actionsAlike_refl actions)

theorem positioningsBy_refl (x : gpos.Type_) : PositioningsBy Eq Eq x x := by
  intro before before' base base' component g g' following following' h1 h2 h3 h4
  obtain rfl := forall₂_eq h1
  obtain rfl := forall₂_eq h4
  subst h3
  obtain rfl : base = base' := by
    cases h2 with
    | none => rfl
    | some h => rw [h]
  refine results_refl fun y _ => ?_
  cases y with
  | moved => exact .moved
  | joined => exact .joined
  | onBase => exact .onBase
  | onMark => exact .onMark
  | sequence n actions => exact .sequence (actionsAlike_refl actions)

theorem sameContent_at {T : Type} {t t' : Directory T} (h : SameContent t t') (i : Nat) :
    Option.Rel SameLookup t.lookups.records[i]? t'.lookups.records[i]? := by
  have h := h.lookups
  generalize t.lookups.records = xs at h
  generalize t'.lookups.records = ys at h
  induction h generalizing i with
  | nil => exact .none
  | cons h _ ih =>
    cases i with
    | zero => exact .some h
    | succ i => simpa using ih i

theorem sameContent_corresponds {T : Type} {alike : T → T → Prop} (hr : ∀ x, alike x x) (idle idle' : T → Prop)
    (definition : Option gdef.GlyphDefinition) (script language : Tag) (tags : List Tag) {t t' : Option (Directory T)}
    (h : Option.Rel SameContent t t') : CorrespondsBy alike idle idle' Eq Eq definition definition script language tags t t' := by
  have refl : ∀ xs : List T, SameBut alike idle idle' xs xs := by
    intro xs
    induction xs with
    | nil => exact .nil
    | cons x xs ih => exact .cons (hr x) ih
  cases h with
  | none =>
    have hn : ∀ i, ¬WantedOf (none : Option (Directory T)) script language tags i := by
      rintro i ⟨_, h, _⟩
      cases h
    exact ⟨fun i h => (hn i h).elim, fun i h => (hn i h).elim, fun i _ _ _ h => (hn i h).elim,
      (fun i j h g g' e => by subst h; subst e; exact Iff.rfl), fun i j h => by subst h; exact refl _⟩
  | @some t t' h =>
    have hs : SameShape t t' := ⟨h.scripts, h.features, h.lookups.length_eq⟩
    refine ⟨fun i hi => ⟨i, rfl, (shape_wanted hs).mp hi⟩, fun i hi => ⟨i, rfl, (shape_wanted hs).mpr hi⟩, ?_, ?_, ?_⟩
    · rintro i j i' j' - - rfl rfl
      exact Iff.rfl
    · rintro i j rfl g g' rfl
      unfold PassesOver
      have key := sameContent_at h i
      simp only [Option.some.injEq, exists_eq_left']
      generalize t.lookups.records[i]? = a at key ⊢
      generalize t'.lookups.records[i]? = b at key ⊢
      cases key with
      | none => simp
      | @some record record' key =>
        simp only [Option.some.injEq, exists_eq_left']
        have : ∀ definition', ignores definition' record g = ignores definition' record' g := by
          intro definition'
          unfold ignores
          rw [key.1, key.2.1]
        simp only [this]
    · rintro i j rfl
      have key := sameContent_at h i
      unfold tablesOf
      dsimp only [Option.bind_some]
      generalize t.lookups.records[i]? = a at key ⊢
      generalize t'.lookups.records[i]? = b at key ⊢
      cases key with
      | none => exact .nil
      | @some record record' key =>
        dsimp only [Option.map_some, Option.getD_some]
        rw [key.2.2]
        exact refl _

theorem outcomesBy_eq {a b : Except Err (List Item)} (h : OutcomesBy (List.Forall₂ (ItemsBy Eq)) a b) : a = b := by
  cases h with
  | error => rfl
  | @ok xs ys h =>
    refine congrArg Except.ok ?_
    induction h with
    | nil => rfl
    | @cons x y xs ys h _ ih =>
      rw [ih]
      obtain ⟨k1, k2, k3⟩ := h
      cases x; cases y
      dsimp only at k1 k2 k3
      rw [k1, k2, k3]

/-- Two files have the same content, once the extensions of both are replaced by what they stand for. Then every text becomes the same
with both, or fails with the same error. -/
theorem C131_same (accept accept' : Tag → Bool) (cfg cfg' : Cfg) {d d' : Data} (hd : Fits d) (hd' : Fits d')
    {p₁ p₂ p₃ p₁' p₂' p₃' : Nat} {definition : Option gdef.GlyphDefinition}
    {substitution substitution' : Option gsub.GlyphSubstitution} {positioning positioning' : Option gpos.GlyphPositioning}
    (h1 : Takes accept cfg d p₁ .glyphDefinition (gdef.GlyphDefinition.read cfg) definition)
    (h2 : Takes accept cfg d p₂ .glyphSubstitution (gsub.GlyphSubstitution.read cfg) substitution)
    (h3 : Takes accept cfg d p₃ .glyphPositioning (gpos.GlyphPositioning.read cfg) positioning)
    (h1' : Takes accept' cfg' d' p₁' .glyphDefinition (gdef.GlyphDefinition.read cfg') definition)
    (h2' : Takes accept' cfg' d' p₂' .glyphSubstitution (gsub.GlyphSubstitution.read cfg') substitution')
    (h3' : Takes accept' cfg' d' p₃' .glyphPositioning (gpos.GlyphPositioning.read cfg') positioning')
    {x x' : Nat → Nat → gsub.Type_} {y y' : Nat → Nat → gpos.Type_}
    (hs : ∀ p, TableAt accept cfg d .glyphSubstitution p → StandFor cfg 7 Spec.gsub.IsTable d p x)
    (hp : ∀ p, TableAt accept cfg d .glyphPositioning p → StandFor cfg 9 (Spec.gpos.IsTable cfg) d p y)
    (hs' : ∀ p, TableAt accept' cfg' d' .glyphSubstitution p → StandFor cfg' 7 Spec.gsub.IsTable d' p x')
    (hp' : ∀ p, TableAt accept' cfg' d' .glyphPositioning p → StandFor cfg' 9 (Spec.gpos.IsTable cfg') d' p y')
    (hx : Option.Rel SameContent (substitution.map (withSubtables x)) (substitution'.map (withSubtables x')))
    (hy : Option.Rel SameContent (positioning.map (withSubtables y)) (positioning'.map (withSubtables y')))
    (n : Nat) (script language : Tag) (tags : List Tag) (glyphs : List Nat) :
    alone (typeset accept cfg n script language tags glyphs) d = alone (typeset accept' cfg' n script language tags glyphs) d' := by
  exact outcomesBy_eq (C131_alike accept accept' cfg cfg' hd hd' h1 h2 h3 h1' h2' h3' hs hp hs' hp' (G := Eq) (R := Eq) (S := Eq)
    (sameContent_corresponds substitutionsBy_refl _ _ definition script language tags hx)
    (sameContent_corresponds positioningsBy_refl _ _ definition script language tags hy)
    (fun g h e => by subst e; exact Iff.rfl) n (List.forall₂_refl glyphs))

theorem sameContent_inline {T : Type} {extension : T → Option (Nat × Nat)} {t t' : Directory T} (h : SameContent t t')
    (hi : Inline extension t) : Inline extension t' := by
  intro record hm table ht
  obtain ⟨i, hi'⟩ := List.getElem?_of_mem hm
  have key := sameContent_at h i
  rw [hi'] at key
  generalize e : t.lookups.records[i]? = a at key
  cases key with
  | some key => exact hi _ (List.mem_of_getElem? e) table (key.2.2 ▸ ht)

/-- A font can be written anew without extensions: a file that is written from tables that have the same content, but in the place of
each extension the subtable that it stands for, sets every text as the first file does. -/
theorem C131_written {accept accept' : Tag → Bool} (cfg cfg' : Cfg) {d : Data} (hd : Fits d) {p₁ p₂ p₃ : Nat}
    {definition : Option gdef.GlyphDefinition} {substitution substitution' : Option gsub.GlyphSubstitution}
    {positioning positioning' : Option gpos.GlyphPositioning}
    (h1 : Takes accept cfg d p₁ .glyphDefinition (gdef.GlyphDefinition.read cfg) definition)
    (h2 : Takes accept cfg d p₂ .glyphSubstitution (gsub.GlyphSubstitution.read cfg) substitution)
    (h3 : Takes accept cfg d p₃ .glyphPositioning (gpos.GlyphPositioning.read cfg) positioning)
    {x : Nat → Nat → gsub.Type_} {y : Nat → Nat → gpos.Type_}
    (hs : ∀ p, TableAt accept cfg d .glyphSubstitution p → StandFor cfg 7 Spec.gsub.IsTable d p x)
    (hp : ∀ p, TableAt accept cfg d .glyphPositioning p → StandFor cfg 9 (Spec.gpos.IsTable cfg) d p y)
    (hx : Option.Rel SameContent (substitution.map (withSubtables x)) substitution')
    (hy : Option.Rel SameContent (positioning.map (withSubtables y)) positioning')
    {version a b c : Nat} {tables : List (Tag × Data)} (hw : Writable accept' version a b c tables) {after : Data}
    (hd' : Fits (fontFile version a b c tables ++ after))
    (v1 : ∀ t, definition = some t → validGlyphDefinitionTaken cfg' t ∧ Consistent (gdefEncodingTaken t))
    (v2 : ∀ t, substitution' = some t → validDirectory cfg' gsub.validTable t ∧ Consistent (directoryEncoding cfg' t))
    (v3 : ∀ t, positioning' = some t → validDirectory cfg' (gpos.validTable cfg') t ∧ Consistent (directoryEncoding cfg' t))
    (w1 : bodyOf .glyphDefinition tables = definition.map fun t => render (gdefEncodingTaken t))
    (w2 : bodyOf .glyphSubstitution tables = substitution'.map fun t => render (directoryEncoding cfg' t))
    (w3 : bodyOf .glyphPositioning tables = positioning'.map fun t => render (directoryEncoding cfg' t))
    (n : Nat) (script language : Tag) (tags : List Tag) (glyphs : List Nat) :
    alone (typeset accept' cfg' n script language tags glyphs) (fontFile version a b c tables ++ after) =
      alone (typeset accept cfg n script language tags glyphs) d := by
  have r1 := resolved_substitution hd h2 hs script language
  have r2 := resolved_positioning hd h3 hp script language
  have i1 : ∀ t, substitution' = some t → Inline substitutionExtension t := by
    intro t e
    subst e
    generalize hm : substitution.map (withSubtables x) = m at hx
    cases hx with
    | some hx => exact sameContent_inline hx (r1 _ hm).1
  have i2 : ∀ t, positioning' = some t → Inline positioningExtension t := by
    intro t e
    subst e
    generalize hm : positioning.map (withSubtables y) = m at hy
    cases hy with
    | some hy => exact sameContent_inline hy (r2 _ hm).1
  obtain ⟨k2, k3, k1, _⟩ := C56_values cfg'
  have t2 := takes_written k2 hw hd' v2 w2 0
  have t3 := takes_written k3 hw hd' v3 w3 0
  rw [C122_values accept' cfg' hd' (takes_written k1 hw hd' v1 w1 0) t2 t3 i1 i2, C131_values accept cfg hd h1 h2 h3 hs hp]
  refine (outcomesBy_eq (setValues_by cfg cfg' r1 r2 ?_ ?_
    (sameContent_corresponds substitutionsBy_refl _ _ definition script language tags hx)
    (sameContent_corresponds positioningsBy_refl _ _ definition script language tags hy)
    (fun g h e => by subst e; exact Iff.rfl) n (List.forall₂_refl glyphs))).symm
  · intro t e
    subst e
    exact ⟨i1 t rfl, taken_substitution hd' t2 script language⟩
  · intro t e
    subst e
    exact ⟨i2 t rfl, taken_positioning hd' t3 script language⟩

/-! ## Following -/

section
variable {T : Type} {extension : T → Option (Nat × Nat)} {readTable : Nat → Reader T} {isTable : Nat → Data → Nat → T → Prop}
  {cfg : Cfg} {number p : Nat} {t : Directory T} {x : Nat → Nat → T} {d : Data}

theorem found_stands (hr : ∀ type_ a y, Reads (readTable type_) d a y → isTable type_ d a y ∧ ((extension y).isSome ↔ type_ = number))
    (hf : FindsSubtables cfg number extension readTable d p t)
    (h : ∀ i record, t.lookups.records[i]? = some record → ∀ j, j < record.tables.length →
      Reads (subtable extension readTable p t i j) d 0 (some (x i j)) ∧ extension (x i j) = none) :
    StandFor cfg number isTable d p x := by
  intro i j type_ a hs
  obtain ⟨type', a', h1, h2, h3⟩ := (hf i j 0).2 type_ a hs
  have there : ∃ record, t.lookups.records[i]? = some record ∧ j < record.tables.length := by
    apply Classical.byContradiction
    intro hno
    have e : subtable extension readTable p t i j d 0 = .ok (none, 0) := by
      unfold subtable
      split
      · rename_i o record _ e2
        split
        · rename_i s table _ e4
          exact (hno ⟨record, e2, (List.getElem?_eq_some_iff.mp e4).1⟩).elim
        · rfl
      · rfl
    cases e' : readTable type' d a' with
    | error y =>
      have := (h3 y).mpr e'
      rw [e] at this
      cases this
    | ok y =>
      obtain ⟨_, this⟩ := (h2 y.1).mpr ⟨y.2, e'⟩
      rw [e] at this
      cases this
  obtain ⟨record, h4, h5⟩ := there
  obtain ⟨h6, h7⟩ := h i record h4 j h5
  obtain ⟨h8, h9⟩ := hr _ _ _ ((h2 _).mp h6)
  refine ⟨type', a', h1, fun e => ?_, h8⟩
  have := h9.mpr e
  rw [h7] at this
  cases this

end

/-- What one gets by following the extensions, as in C101, is what the subtables stand for, if none of it is again an extension. -/
theorem C131_found (cfg : Cfg) {d : Data} (hd : Fits d) {p : Nat} :
    (∀ t x, Reads (gsub.GlyphSubstitution.read cfg) d p t →
      (∀ i record, t.lookups.records[i]? = some record → ∀ j, j < record.tables.length →
        Reads (subtable substitutionExtension gsub.Type_.read p t i j) d 0 (some (x i j)) ∧ substitutionExtension (x i j) = none) →
      StandFor cfg 7 Spec.gsub.IsTable d p x) ∧
    ∀ t x, Reads (gpos.GlyphPositioning.read cfg) d p t →
      (∀ i record, t.lookups.records[i]? = some record → ∀ j, j < record.tables.length →
        Reads (subtable positioningExtension (gpos.Type_.read cfg) p t i j) d 0 (some (x i j)) ∧ positioningExtension (x i j) = none) →
      StandFor cfg 9 (Spec.gpos.IsTable cfg) d p x := by
  refine ⟨fun t x ht h => found_stands (fun type_ a y hy => ⟨(reads_parses hd).mp hy, (C101_step cfg hd type_).1 y hy⟩)
    ((C101_follow cfg hd).1 t ht) h, fun t x ht h => found_stands
    (fun type_ a y hy => ⟨(reads_parses hd).mp hy, (C101_step cfg hd type_).2 y hy⟩) ((C101_follow cfg hd).2 t ht) h⟩

/-! ## Example -/

/-- The table `subsetTable` with an extension: its lookup has type 7, and its subtable says that there is one of type 4 behind it. -/
def extendedTable : Data := bytes <|
  [0, 1,  0, 0,  0, 10,  0, 30,  0, 44] ++
  [0, 1,  0x6C, 0x61, 0x74, 0x6E,  0, 8] ++ [0, 4,  0, 0] ++ [0, 0,  0xFF, 0xFF,  0, 1,  0, 0] ++
  [0, 1,  0x6C, 0x69, 0x67, 0x61,  0, 8] ++ [0, 0,  0, 1,  0, 0] ++
  [0, 1,  0, 4] ++
  [0, 7,  0, 0,  0, 1,  0, 8] ++ [0, 1,  0, 4,  0, 0, 0, 8] ++
  [0, 1,  0, 8,  0, 1,  0, 14] ++ [0, 1,  0, 1,  0, 1] ++ [0, 2,  0, 6,  0, 14] ++
  [0, 4,  0, 3,  0, 1,  0, 2] ++ [0, 3,  0, 2,  0, 2]

def extendedFile : Data := fontFile 0x00010000 32 1 0 [(TableType.glyphSubstitution.tag, extendedTable)]

def extendedValue : gsub.GlyphSubstitution :=
  match gsub.GlyphSubstitution.read ⟨false, false, false, false, false, false⟩ extendedTable 0 with
  | .ok x => x.1
  | .error _ => sampleGsub

/-- The font of a file. -/
def fontOf (d : Data) : Font :=
  match File.read (· == 0x00010000) d 0 with
  | .ok (⟨font :: _⟩, _) => font
  | _ => ⟨⟨⟨0, 0, 0, 0, 0⟩, []⟩⟩

/-- A file with a table that has one lookup with one subtable. -/
theorem stand_for_one {d : Data} {a : Nat} {t : gsub.GlyphSubstitution} {x : gsub.Type_} (hd : Fits d)
    (hf : Reads (File.read (· == 0x00010000)) d 0 ⟨[fontOf d]⟩)
    (ht : Reads (tableOf ⟨false, false, false, false, false, false⟩ (fontOf d) .glyphSubstitution
      (gsub.GlyphSubstitution.read ⟨false, false, false, false, false, false⟩)) d 0 (some (a, t)))
    (h1 : t.lookups.records.map (·.tables.length) = [1])
    (h2 : Reads (subtable substitutionExtension gsub.Type_.read a t 0 0) d 0 (some x)) (h3 : substitutionExtension x = none) :
    ∀ p, TableAt (· == 0x00010000) ⟨false, false, false, false, false, false⟩ d .glyphSubstitution p →
      StandFor ⟨false, false, false, false, false, false⟩ 7 Spec.gsub.IsTable d p fun _ _ => x := by
  intro p hp
  obtain ⟨k, e⟩ := ht
  rw [run_tableOf hd hf hp] at e
  obtain ⟨y, e1, e2⟩ : ∃ y, gsub.GlyphSubstitution.read ⟨false, false, false, false, false, false⟩ d p = .ok (y, k) ∧ (p, y) = (a, t) := by
    cases e1 : gsub.GlyphSubstitution.read ⟨false, false, false, false, false, false⟩ d p with
    | error => rw [e1] at e; cases e
    | ok y => rw [e1] at e; cases e; exact ⟨_, rfl, rfl⟩
  obtain ⟨rfl, rfl⟩ := Prod.mk.inj e2
  refine (C131_found _ hd).1 y _ ⟨k, e1⟩ fun i record e j hj => ?_
  have : (y.lookups.records.map (·.tables.length))[i]? = some record.tables.length := by rw [List.getElem?_map, e]; rfl
  rw [h1] at this
  cases i with
  | zero =>
    injection this with this
    obtain rfl : j = 0 := by omega
    exact ⟨h2, h3⟩
  | succ i => cases this

theorem stand_for_none {d : Data} (hd : Fits d) {p : Nat}
    (h : Takes (· == 0x00010000) ⟨false, false, false, false, false, false⟩ d p .glyphPositioning
      (gpos.GlyphPositioning.read ⟨false, false, false, false, false, false⟩) none) (y : Nat → Nat → gpos.Type_) :
    ∀ p, TableAt (· == 0x00010000) ⟨false, false, false, false, false, false⟩ d .glyphPositioning p →
      StandFor ⟨false, false, false, false, false, false⟩ 9 (Spec.gpos.IsTable ⟨false, false, false, false, false, false⟩) d p y :=
  fun p hp => (taken_none hd h p hp).elim

/-- The extension makes no difference. -/
example (n : Nat) (script language : Tag) (tags : List Tag) (glyphs : List Nat) :
    alone (typeset (· == 0x00010000) ⟨false, false, false, false, false, false⟩ n script language tags glyphs) subsetFile =
      alone (typeset (· == 0x00010000) ⟨false, false, false, false, false, false⟩ n script language tags glyphs) extendedFile := by
  have hd : Fits subsetFile := by decide +kernel
  have hd' : Fits extendedFile := by decide +kernel
  have hf : Reads (File.read (· == 0x00010000)) subsetFile 0 ⟨[fontOf subsetFile]⟩ := by decide +kernel
  have hf' : Reads (File.read (· == 0x00010000)) extendedFile 0 ⟨[fontOf extendedFile]⟩ := by decide +kernel
  refine C131_same (p₁ := 0) (p₂ := 0) (p₃ := 0) (p₁' := 0) (p₂' := 0) (p₃' := 0) (definition := none) (positioning := none)
    (positioning' := none) (substitution := some subsetValue) (substitution' := some extendedValue)
    (x := fun _ _ => .ligatureSubstitution subsetLigatures) (x' := fun _ _ => .ligatureSubstitution subsetLigatures)
    (y := fun _ _ => .extensionPositioning ⟨0, 0, 0⟩) (y' := fun _ _ => .extensionPositioning ⟨0, 0, 0⟩) _ _ _ _ hd hd'
    ⟨_, hf, by decide +kernel⟩ ⟨_, hf, by decide +kernel⟩ ⟨_, hf, by decide +kernel⟩ ⟨_, hf', by decide +kernel⟩
    ⟨_, hf', by decide +kernel⟩ ⟨_, hf', by decide +kernel⟩
    (stand_for_one (a := 28) (t := subsetValue) hd hf (by decide +kernel) (by decide +kernel) (by decide +kernel) rfl)
    (stand_for_none hd (p := 0) ⟨_, hf, by decide +kernel⟩ _)
    (stand_for_one (a := 28) (t := extendedValue) hd' hf' (by decide +kernel) (by decide +kernel) (by decide +kernel) rfl)
    (stand_for_none hd' (p := 0) ⟨_, hf', by decide +kernel⟩ _) (.some ⟨?_, ?_, ?_⟩) .none n script language tags glyphs
  · decide +kernel
  · decide +kernel
  · unfold SameLookup
    decide +kernel

/-- The tables are not the same: the one has an extension. -/
example : ¬Inline substitutionExtension extendedValue ∧
    alone (typeset (· == 0x00010000) ⟨false, false, false, false, false, false⟩ 2 0x6C61746E 0x44455520 [0x6C696761]
      [1, 2, 1, 1, 2]) extendedFile = .ok ([3, 4].map Item.of) := by
  refine ⟨?_, by decide +kernel⟩
  unfold Inline
  decide +kernel

/-- The font written anew, with the subtable instead of the extension. -/
example (n : Nat) (script language : Tag) (tags : List Tag) (glyphs : List Nat) :
    alone (typeset (· == 0x00010000) ⟨false, false, false, false, false, false⟩ n script language tags glyphs)
      (fontFile 0x00010000 16 0 0 [(TableType.glyphSubstitution.tag,
        render (directoryEncoding ⟨false, false, false, false, false, false⟩ subsetValue))] ++ []) =
      alone (typeset (· == 0x00010000) ⟨false, false, false, false, false, false⟩ n script language tags glyphs) extendedFile := by
  have hd : Fits extendedFile := by decide +kernel
  have hf : Reads (File.read (· == 0x00010000)) extendedFile 0 ⟨[fontOf extendedFile]⟩ := by decide +kernel
  refine C131_written (p₁ := 0) (p₂ := 0) (p₃ := 0) (definition := none) (positioning := none) (positioning' := none)
    (substitution := some extendedValue) (substitution' := some subsetValue)
    (x := fun _ _ => .ligatureSubstitution subsetLigatures) (y := fun _ _ => .extensionPositioning ⟨0, 0, 0⟩) _ _ hd
    ⟨_, hf, by decide +kernel⟩ ⟨_, hf, by decide +kernel⟩ ⟨_, hf, by decide +kernel⟩
    (stand_for_one (a := 28) (t := extendedValue) hd hf (by decide +kernel) (by decide +kernel) (by decide +kernel) rfl)
    (stand_for_none hd (p := 0) ⟨_, hf, by decide +kernel⟩ _) (.some ⟨?_, ?_, ?_⟩) .none
    ⟨by decide, by decide, by decide, by decide +kernel, by decide +kernel⟩ (by decide +kernel) (fun _ h => by cases h) ?_
    (fun _ h => by cases h) (by decide +kernel) (by decide +kernel) (by decide +kernel) n script language tags glyphs
  · decide +kernel
  · decide +kernel
  · unfold SameLookup
    decide +kernel
  · intro t h
    obtain rfl := Option.some.inj h
    exact ⟨(((C48_gsub _).accepts (render (directoryEncoding ⟨false, false, false, false, false, false⟩ subsetValue))
      0 subsetValue (by decide +kernel)).mp (by decide +kernel)).1, by decide +kernel⟩

end OpenType.Props
