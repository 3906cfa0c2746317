import Verif.Spec.Renumber
import Verif.Props.Values
import Verif.Props.Nested
/-! # C128: fonts that say the same set text alike -/

namespace OpenType.Props
open OpenType Spec lookup directory context

/-! ## One lookup -/

section
variable {T : Type}

/-- There are as many offsets as there are lookups, and as many as there are subtables. -/
def Evened (t : Directory T) : Prop :=
  t.lookups.offsets.length = t.lookups.records.length ∧
    ∀ record ∈ t.lookups.records, record.table_offsets.length = record.tables.length

theorem evened_read {cfg : Cfg} {isTable : Nat → Data → Nat → T → Prop} {d : Data} {p : Nat} {t : Directory T}
    (h : IsDirectory cfg isTable d p t) : Evened t := by
  obtain ⟨_, _, _, _, _, _, _, _, _, _, h, _⟩ := h
  unfold IsPart at h
  split at h
  · rw [Evened, h]
    exact ⟨rfl, fun _ h => by cases h⟩
  · obtain ⟨_, _, h1, h2⟩ := h
    refine ⟨h1.symm, fun record hr => ?_⟩
    obtain ⟨k, hk, rfl⟩ := List.mem_iff_getElem.mp hr
    obtain ⟨_, _, _, _, _, _, h3, _⟩ := h2 k _ _ (List.getElem?_eq_getElem (by omega)) (List.getElem?_eq_getElem hk)
    exact h3.symm

/-- What the first of some subtables that does something does. -/
def firstOf {β : Type} (act : T → Except Err (Option β)) : List T → Except Err (Option β)
  | [] => .ok none
  | x :: xs =>
    match act x with
    | .error e => .error e
    | .ok (some y) => .ok (some y)
    | .ok none => firstOf act xs

theorem firstOf_alike {β γ : Type} {alike : T → T → Prop} {rel : β → γ → Prop} {act : T → Except Err (Option β)}
    {act' : T → Except Err (Option γ)} (h : ∀ x y, alike x y → ResultsAlike rel (act x) (act' y)) {xs ys : List T}
    (hs : List.Forall₂ alike xs ys) : ResultsAlike rel (firstOf act xs) (firstOf act' ys) := by
  induction hs with
  | nil => exact .none
  | cons h1 _ ih =>
    unfold firstOf
    have := h _ _ h1
    generalize act _ = a at this
    generalize act' _ = b at this
    cases this with
    | error => exact .error
    | none => exact ih
    | some h => exact .some h

theorem perform_inline {β : Type} {extension : T → Option (Nat × Nat)} {readTable : Nat → Reader T} {t : Directory T}
    (hi : Inline extension t) (he : Evened t) (act : T → Except Err (Option β)) (p i : Nat) (d : Data) (q : Nat) :
    perform extension readTable act p t i d q = (firstOf act (tablesOf (some t) i)).map (·, q) := by
  unfold perform tablesOf
  dsimp only [Option.bind_some]
  cases e : t.lookups.records[i]? with
  | none => rfl
  | some record =>
    have hr := List.mem_of_getElem? e
    have hl := he.2 record hr
    have hlt := (List.getElem?_eq_some_iff.mp e).1
    have key : ∀ m s, s + m = record.tables.length →
        firstActing extension readTable act p t i (List.range' s m) d q = (firstOf act (record.tables.drop s)).map (·, q) := by
      intro m
      induction m with
      | zero =>
        intro s hs
        rw [List.drop_of_length_le (by omega)]
        rfl
      | succ m ih =>
        intro s hs
        have e1 := List.getElem?_eq_getElem (l := record.table_offsets) (i := s) (by omega)
        have e2 := List.getElem?_eq_getElem (l := record.tables) (i := s) (by omega)
        have e3 := List.getElem?_eq_getElem (l := t.lookups.offsets) (i := i) (by have := he.1; omega)
        rw [List.range'_succ, List.drop_eq_getElem_cons (by omega)]
        have : subtable extension readTable p t i s d q = .ok (some record.tables[s], q) := by
          unfold subtable
          rw [e3, e]
          dsimp only
          rw [e1, e2]
          dsimp only
          rw [hi record hr _ (List.getElem_mem _)]
          rfl
        unfold firstActing firstOf
        rw [bind_ok this]
        dsimp only
        split
        · rename_i h; rw [h]; rfl
        · rename_i h; rw [h]; rfl
        · rename_i h; rw [h]; exact ih (s + 1) (by omega)
    have := key record.tables.length 0 (by omega)
    simp only [Option.map_some, Option.getD_some]
    rw [List.range_eq_range', this, List.drop_zero]

theorem agree_performed {β γ δ : Type} {extension : T → Option (Nat × Nat)} {readTable readTable' : Nat → Reader T}
    {t t' : Directory T} (hi : Inline extension t) (hi' : Inline extension t') (he : Evened t) (he' : Evened t')
    {alike : T → T → Prop} {rel : β → γ → Prop} {act : T → Except Err (Option β)} {act' : T → Except Err (Option γ)}
    (h : ∀ x y, alike x y → ResultsAlike rel (act x) (act' y)) {i j : Nat}
    (hs : List.Forall₂ alike (tablesOf (some t) i) (tablesOf (some t') j)) (p p' : Nat)
    {f : Option β → Reader δ} {f' : Option γ → Reader δ} (hn : Agree (f none) (f' none))
    (hf : ∀ x y, rel x y → Agree (f (some x)) (f' (some y))) :
    Agree (perform extension readTable act p t i >>= f) (perform extension readTable' act' p' t' j >>= f') := by
  intro d q d' q'
  have hx := firstOf_alike h hs
  have e1 := perform_inline (readTable := readTable) hi he act p i d q
  have e2 := perform_inline (readTable := readTable') hi' he' act' p' j d' q'
  rw [run_bind_eq, run_bind_eq, e1, e2]
  generalize firstOf act _ = a at hx
  generalize firstOf act' _ = b at hx
  cases hx with
  | error => rfl
  | none => exact hn d q d' q'
  | some h => exact hf _ _ h d q d' q'

end

/-! ## All lookups -/

section
variable {α : Type}

theorem agree_acted {R : Nat → Nat → Prop} {nested nested' : Nat → List α → List α → Reader (Option (List α × List α))}
    (h : ∀ i j, R i j → ∀ a b, Agree (nested i a b) (nested' j a b)) (ignored : α → Bool) (before : List α)
    {actions actions' : List Action} (ha : ActionsAlike R actions actions') :
    ∀ window rest, Agree (actAll nested ignored before actions window rest) (actAll nested' ignored before actions' window rest) := by
  unfold ActionsAlike at ha
  induction ha with
  | nil => intro window rest; exact .pure
  | cons h1 _ ih =>
    intro window rest
    unfold actAll
    rw [← h1.1]
    split
    · exact ih _ _
    · refine (h _ _ h1.2 _ _).bind fun x => ?_
      cases x <;> exact ih _ _

theorem Agree.drop {r r' : Reader α} (h : Agree r r') : Agree (r >>= Pure.pure) r' := by
  intro d q d' q'
  rw [run_bind_eq, ← h d q d' q']
  cases r d q <;> rfl

theorem Agree.symm {r r' : Reader α} (h : Agree r r') : Agree r' r := fun d q d' q' => (h d' q' d q).symm

theorem agree_below {R : Nat → Nat → Prop} {pass pass' : Nat → List α → Reader (List α)} {wanted wanted' : Nat → Bool}
    (h : ∀ i j, R i j → ∀ text, Agree (pass i text) (pass' j text))
    (ho : ∀ i j i' j', wanted i = true → wanted i' = true → R i j → R i' j' → (i < i' ↔ j < j')) (text : List α) :
    ∀ s m m', m + m' ≤ s → (∀ i < m, wanted i = true → ∃ j < m', R i j ∧ wanted' j = true) →
      (∀ j < m', wanted' j = true → ∃ i < m, R i j ∧ wanted i = true) →
      Agree (below pass wanted m text) (below pass' wanted' m' text) := by
  intro s
  induction s with
  | zero =>
    intro m m' hs _ _
    obtain rfl : m = 0 := by omega
    obtain rfl : m' = 0 := by omega
    exact .pure
  | succ s ih =>
    intro m m' hs h1 h2
    -- the last of the first table is not wanted
    by_cases hm : ∃ k, m = k + 1 ∧ wanted k = false
    · obtain ⟨k, rfl, hk⟩ := hm
      have := ih k m' (by omega) (fun i hi hw => h1 i (by omega) hw) (fun j hj hw => by
        obtain ⟨i, k1, k2, k3⟩ := h2 j hj hw
        refine ⟨i, ?_, k2, k3⟩
        rcases Nat.lt_or_eq_of_le (Nat.le_of_lt_succ k1) with k1 | rfl
        · exact k1
        · rw [hk] at k3; cases k3)
      rw [below.eq_2 pass]
      simp only [hk, Bool.false_eq_true, if_false]
      exact this.drop
    · by_cases hm' : ∃ k, m' = k + 1 ∧ wanted' k = false
      · obtain ⟨k, rfl, hk⟩ := hm'
        have := ih m k (by omega) (fun i hi hw => by
          obtain ⟨j, k1, k2, k3⟩ := h1 i hi hw
          refine ⟨j, ?_, k2, k3⟩
          rcases Nat.lt_or_eq_of_le (Nat.le_of_lt_succ k1) with k1 | rfl
          · exact k1
          · rw [hk] at k3; cases k3) (fun j hj hw => h2 j (by omega) hw)
        rw [below.eq_2 pass']
        simp only [hk, Bool.false_eq_true, if_false]
        exact this.symm.drop.symm
      · cases m with
        | zero =>
          cases m' with
          | zero => exact .pure
          | succ k' =>
            have hk' : wanted' k' = true := by
              cases e : wanted' k' with
              | true => rfl
              | false => exact (hm' ⟨k', rfl, e⟩).elim
            obtain ⟨i, k1, _⟩ := h2 k' (by omega) hk'
            omega
        | succ k =>
          have hk : wanted k = true := by
            cases e : wanted k with
            | true => rfl
            | false => exact (hm ⟨k, rfl, e⟩).elim
          cases m' with
          | zero =>
            obtain ⟨j, k1, _⟩ := h1 k (by omega) hk
            omega
          | succ k' =>
            have hk' : wanted' k' = true := by
              cases e : wanted' k' with
              | true => rfl
              | false => exact (hm' ⟨k', rfl, e⟩).elim
            obtain ⟨j, a1, a2, a3⟩ := h1 k (by omega) hk
            obtain ⟨i, b1, b2, b3⟩ := h2 k' (by omega) hk'
            have hik : i = k := by
              have := ho i k' k j b3 hk b2 a2
              omega
            subst hik
            have := ih i k' (by omega) (fun l hl hw => by
              obtain ⟨j', c1, c2, c3⟩ := h1 l (by omega) hw
              have := ho l j' i k' hw hk c2 b2
              exact ⟨j', by omega, c2, c3⟩) (fun l hl hw => by
              obtain ⟨l', c1, c2, c3⟩ := h2 l (by omega) hw
              have := ho l' l i k' c3 hk c2 b2
              exact ⟨l', by omega, c2, c3⟩)
            unfold below
            simp only [hk, hk', if_true]
            exact this.bind fun text => h i k' b2 text

/-- What the program does when it finds the wanted lookups. -/
theorem wanted_any {T : Type} {t : Directory T} {script language : Tag} {tags : List Tag} {found : List (Tag × Nat × lookup.Record T)}
    (h : lookupsFor t script language = .ok found) (k : Nat) :
    (found.any fun x => tags.contains x.1 && x.2.1 == k) = true ↔ WantedOf (some t) script language tags k := by
  simp only [List.any_eq_true, Bool.and_eq_true, List.contains_iff_mem, beq_iff_eq]
  constructor
  · rintro ⟨⟨tag, k', record⟩, h1, h2, rfl⟩
    exact ⟨t, rfl, found, h, tag, h2, record, h1⟩
  · rintro ⟨_, ⟨⟩, found', h', tag, h1, record, h2⟩
    rw [h] at h'
    cases h'
    exact ⟨_, h2, h1, rfl⟩

theorem wanted_below {T : Type} {t : Directory T} {script language : Tag} {tags : List Tag} {k : Nat}
    (h : WantedOf (some t) script language tags k) : k < t.lookups.records.length := by
  obtain ⟨_, ⟨⟩, found, h, tag, h1, record, h2⟩ := h
  have key : ∀ f, (tag, k, record) ∈ lookupsOf t f → k < t.lookups.records.length := by
    intro f hf
    unfold lookupsOf at hf
    split at hf
    · obtain ⟨k', _, h3⟩ := List.mem_filterMap.mp hf
      obtain ⟨r, h4, h5⟩ := Option.map_eq_some_iff.mp h3
      cases h5
      exact (List.getElem?_eq_some_iff.mp h4).1
    · cases hf
  unfold lookupsFor at h
  cases e1 : t.scripts.get script with
  | error e => rw [e1] at h; cases h
  | ok s =>
    rw [e1] at h
    cases s with
    | none => cases h; cases h2
    | some s =>
      replace h : (do
        match (← s.get language).or s.default_language with
        | none => return []
        | some l => return (featuresOf l).flatMap (lookupsOf t)) = Except.ok found := h
      cases e2 : s.get language with
      | error e => rw [e2] at h; cases h
      | ok l =>
        rw [e2] at h
        replace h : (match l.or s.default_language with
          | none => (return [] : Except Err _)
          | some l => return (featuresOf l).flatMap (lookupsOf t)) = Except.ok found := h
        cases e3 : l.or s.default_language with
        | none => rw [e3] at h; cases h; cases h2
        | some l =>
          rw [e3] at h
          cases h
          obtain ⟨f, _, hf⟩ := List.mem_flatMap.mp h2
          exact key f hf

/-- The wanted lookups can be found. -/
def Findable {T : Type} (t : Directory T) (script language : Tag) : Prop := ∃ found, lookupsFor t script language = .ok found

theorem agree_passed {T : Type} {alike : T → T → Prop} {R : Nat → Nat → Prop} {definition definition' : Option gdef.GlyphDefinition}
    {script language : Tag} {tags : List Tag} {t t' : Directory T}
    (hc : Corresponds alike R definition definition' script language tags (some t) (some t'))
    (hf : Findable t script language) (hf' : Findable t' script language) {pass pass' : Nat → List α → Reader (List α)}
    (h : ∀ i j, R i j → ∀ text, Agree (pass i text) (pass' j text)) (text : List α) :
    Agree (passAll t pass script language tags text) (passAll t' pass' script language tags text) := by
  obtain ⟨found, e⟩ := hf
  obtain ⟨found', e'⟩ := hf'
  unfold passAll
  rw [e, e']
  refine agree_below h (fun i j i' j' h1 h2 => hc.order i j i' j' ((wanted_any e i).mp h1) ((wanted_any e i').mp h2)) text _ _ _ (Nat.le_refl _)
    (fun i _ hw => ?_) (fun j _ hw => ?_)
  · obtain ⟨j, h1, h2⟩ := hc.there i ((wanted_any e i).mp hw)
    exact ⟨j, wanted_below h2, h1, (wanted_any e' j).mpr h2⟩
  · obtain ⟨i, h1, h2⟩ := hc.back j ((wanted_any e' j).mp hw)
    exact ⟨i, wanted_below h2, h1, (wanted_any e i).mpr h2⟩

/-- If no lookups are wanted, nothing is done. -/
theorem passed_idle {T : Type} {t : Directory T} {script language : Tag} {tags : List Tag} (hf : Findable t script language)
    (h : ∀ i, ¬WantedOf (some t) script language tags i) (pass : Nat → List α → Reader (List α)) (text : List α) :
    offline (passAll t pass script language tags text) = .ok text := by
  obtain ⟨found, e⟩ := hf
  have key : ∀ m, Agree (below pass (fun k => found.any fun x => tags.contains x.1 && x.2.1 == k) m text) (Pure.pure text) := by
    intro m
    induction m with
    | zero => exact .pure
    | succ m ih =>
      unfold below
      have : (found.any fun x => tags.contains x.1 && x.2.1 == m) = false := by
        cases e' : (found.any fun x => tags.contains x.1 && x.2.1 == m) with
        | false => rfl
        | true => exact (h m ((wanted_any e m).mp e')).elim
      simp only [this, Bool.false_eq_true, if_false]
      exact ih.drop
  unfold passAll
  rw [e]
  exact key _ [] 0 [] 0

end

theorem ignoring_passes {T : Type} {definition : Option gdef.GlyphDefinition} {t : Directory T} {i g : Nat} :
    ignoring (definition.map fun t => (0, t)) t i g = true ↔ PassesOver definition (some t) i g := by
  unfold ignoring PassesOver passedOver
  cases definition with
  | none => simp
  | some definition =>
    simp only [Option.map_some]
    cases e : t.lookups.records[i]? with
    | none => simp [e]
    | some record => simp [e]

theorem corresponds_ignoring {T : Type} {alike : T → T → Prop} {R : Nat → Nat → Prop}
    {definition definition' : Option gdef.GlyphDefinition} {script language : Tag} {tags : List Tag} {t t' : Directory T}
    (hc : Corresponds alike R definition definition' script language tags (some t) (some t')) {i j : Nat} (h : R i j) :
    Spec.ignoring (definition.map fun t => (0, t)) t i = Spec.ignoring (definition'.map fun t => (0, t)) t' j := by
  funext g
  rw [Bool.eq_iff_iff, ignoring_passes, ignoring_passes]
  exact hc.passes i j h g

theorem marks_alike {definition definition' : Option gdef.GlyphDefinition} (h : MarksAlike definition definition') :
    Spec.marked (definition.map fun t => (0, t)) = Spec.marked (definition'.map fun t => (0, t)) := by
  have key : ∀ (definition : Option gdef.GlyphDefinition) g, Spec.marked (definition.map fun t => (0, t)) g = true ↔
      ∃ t, definition = some t ∧ classIn t.glyph_class g = 3 := by
    intro definition g
    cases definition <;> simp [Spec.marked]
  funext g
  rw [Bool.eq_iff_iff, key, key]
  exact h g

section
variable {R : Nat → Nat → Prop} {definition definition' : Option gdef.GlyphDefinition} {script language : Tag} {tags : List Tag}

theorem shapeValue_alike {t t' : Option gsub.GlyphSubstitution}
    (hc : Corresponds (SubstitutionsAlike R) R definition definition' script language tags t t')
    (hi : ∀ x, t = some x → Inline substitutionExtension x ∧ Evened x ∧ Findable x script language)
    (hi' : ∀ x, t' = some x → Inline substitutionExtension x ∧ Evened x ∧ Findable x script language) (n : Nat) (glyphs : List Nat) :
    shapeValue (definition.map fun t => (0, t)) n script language tags glyphs t =
      shapeValue (definition'.map fun t => (0, t)) n script language tags glyphs t' := by
  cases t with
  | none =>
    cases t' with
    | none => rfl
    | some t' =>
      refine (passed_idle (hi' t' rfl).2.2 (fun j hj => ?_) _ _).symm
      obtain ⟨_, _, _, h, _⟩ := hc.back j hj
      cases h
  | some t =>
    cases t' with
    | none =>
      refine passed_idle (hi t rfl).2.2 (fun j hj => ?_) _ _
      obtain ⟨_, _, _, h, _⟩ := hc.there j hj
      cases h
    | some t' =>
      obtain ⟨i1, i2, i3⟩ := hi t rfl
      obtain ⟨i1', i2', i3'⟩ := hi' t' rfl
      have h1 : ∀ n i j, R i j → ∀ a text, Agree (touch 0 t (ignoring (definition.map fun t => (0, t)) t) n i a text)
          (touch 0 t' (ignoring (definition'.map fun t => (0, t)) t') n j a text) := by
        intro n
        induction n with
        | zero => intro i j _ a text; exact .pure
        | succ n ih =>
          intro i j hr a text
          cases text with
          | nil => exact .pure
          | cons g following =>
            unfold touch
            rw [corresponds_ignoring hc hr]
            split
            · exact .pure
            · refine agree_performed i1 i1' i2 i2' (fun x y h => (h _ _ _).1) (hc.tables i j hr) 0 0 .pure fun x y hxy => ?_
              cases hxy with
              | replaced => exact .pure
              | sequence ha => exact (agree_acted ih _ _ ha _ _).bind fun _ => .pure
      have h2 : ∀ i j, R i j → ∀ text a, Agree (backward 0 t (ignoring (definition.map fun t => (0, t)) t i) i a text)
          (backward 0 t' (ignoring (definition'.map fun t => (0, t)) t' j) j a text) := by
        intro i j hr text
        rw [corresponds_ignoring hc hr]
        induction text with
        | nil => intro a; exact .pure
        | cons g following ih =>
          intro a
          unfold backward
          refine (ih _).bind fun out => ?_
          split
          · exact .pure
          · refine agree_performed i1 i1' i2 i2' (fun x y h => (h _ _ _).2) (hc.tables i j hr) 0 0 .pure fun x y hxy => ?_
            subst hxy
            exact .pure
      exact agree_passed hc i3 i3' (fun i j hr text => (agree_forward (h1 n i j hr) text.length [] text).bind fun text => h2 i j hr text []) glyphs
        [] 0 [] 0

theorem settleValue_alike (cfg cfg' : Cfg) {t t' : Option gpos.GlyphPositioning}
    (hc : Corresponds (PositioningsAlike R) R definition definition' script language tags t t') (hm : MarksAlike definition definition')
    (hi : ∀ x, t = some x → Inline positioningExtension x ∧ Evened x ∧ Findable x script language)
    (hi' : ∀ x, t' = some x → Inline positioningExtension x ∧ Evened x ∧ Findable x script language) (n : Nat) (glyphs : List Nat) :
    settleValue cfg (definition.map fun t => (0, t)) n script language tags glyphs t =
      settleValue cfg' (definition'.map fun t => (0, t)) n script language tags glyphs t' := by
  cases t with
  | none =>
    cases t' with
    | none => rfl
    | some t' =>
      refine (passed_idle (hi' t' rfl).2.2 (fun j hj => ?_) _ _).symm
      obtain ⟨_, _, _, h, _⟩ := hc.back j hj
      cases h
  | some t =>
    cases t' with
    | none =>
      refine passed_idle (hi t rfl).2.2 (fun j hj => ?_) _ _
      obtain ⟨_, _, _, h, _⟩ := hc.there j hj
      cases h
    | some t' =>
      obtain ⟨i1, i2, i3⟩ := hi t rfl
      obtain ⟨i1', i2', i3'⟩ := hi' t' rfl
      unfold settleValue
      rw [marks_alike hm]
      have h1 : ∀ n i j, R i j → ∀ a text, Agree
          (settle cfg 0 t (ignoring (definition.map fun t => (0, t)) t) (marked (definition'.map fun t => (0, t))) n i a text)
          (settle cfg' 0 t' (ignoring (definition'.map fun t => (0, t)) t') (marked (definition'.map fun t => (0, t))) n j a text) := by
        intro n
        induction n with
        | zero => intro i j _ a text; exact .pure
        | succ n ih =>
          intro i j hr a text
          cases text with
          | nil => exact .pure
          | cons g following =>
            unfold settle
            rw [corresponds_ignoring hc hr]
            split
            · exact .pure
            · refine agree_performed i1 i1' i2 i2' (fun x y h => h _ _ _ _ _) (hc.tables i j hr) 0 0 .pure fun x y hxy => ?_
              refine Agree.bind ?_ fun _ => .pure
              cases hxy with
              | sequence ha => exact agree_acted ih _ _ ha _ _
              | _ => exact .pure
      exact agree_passed hc i3 i3' (fun i j hr text => agree_forward (h1 n i j hr) text.length [] text) _ [] 0 [] 0

end

/-! ## Files -/

section
variable {accept : Tag → Bool} {cfg : Cfg} {d : Data} (hd : Fits d) {p : Nat}

include hd

theorem taken_substitution {t : gsub.GlyphSubstitution}
    (h : Takes accept cfg d p .glyphSubstitution (gsub.GlyphSubstitution.read cfg) (some t)) (script language : Tag) :
    Evened t ∧ Findable t script language := by
  obtain ⟨b, _, k⟩ := ((C55_tables accept cfg hd p).1 t).mp h
  obtain ⟨found, e, _⟩ := (C100_walk cfg hd).1 t ((reads_parses hd).mpr k) script language
  exact ⟨evened_read k, found, e⟩

theorem taken_positioning {t : gpos.GlyphPositioning}
    (h : Takes accept cfg d p .glyphPositioning (gpos.GlyphPositioning.read cfg) (some t)) (script language : Tag) :
    Evened t ∧ Findable t script language := by
  obtain ⟨b, _, k⟩ := ((C55_tables accept cfg hd p).2.1 t).mp h
  obtain ⟨found, e, _⟩ := (C100_walk cfg hd).2 t ((reads_parses hd).mpr k) script language
  exact ⟨evened_read k, found, e⟩

end

/-- Two files, read by two builds, have tables without extensions whose lookups correspond, each in its own way for GSUB and GPOS, and
the same glyphs are marks. Then every text becomes the same with both, or fails with the same error. -/
theorem C128_alike (accept accept' : Tag → Bool) (cfg cfg' : Cfg) {d d' : Data} (hd : Fits d) (hd' : Fits d')
    {p₁ p₂ p₃ p₁' p₂' p₃' : Nat} {definition definition' : Option gdef.GlyphDefinition}
    {substitution substitution' : Option gsub.GlyphSubstitution} {positioning positioning' : Option gpos.GlyphPositioning}
    (h1 : Takes accept cfg d p₁ .glyphDefinition (gdef.GlyphDefinition.read cfg) definition)
    (h2 : Takes accept cfg d p₂ .glyphSubstitution (gsub.GlyphSubstitution.read cfg) substitution)
    (h3 : Takes accept cfg d p₃ .glyphPositioning (gpos.GlyphPositioning.read cfg) positioning)
    (h1' : Takes accept' cfg' d' p₁' .glyphDefinition (gdef.GlyphDefinition.read cfg') definition')
    (h2' : Takes accept' cfg' d' p₂' .glyphSubstitution (gsub.GlyphSubstitution.read cfg') substitution')
    (h3' : Takes accept' cfg' d' p₃' .glyphPositioning (gpos.GlyphPositioning.read cfg') positioning')
    (hs : ∀ t, substitution = some t → Inline substitutionExtension t)
    (hp : ∀ t, positioning = some t → Inline positioningExtension t)
    (hs' : ∀ t, substitution' = some t → Inline substitutionExtension t)
    (hp' : ∀ t, positioning' = some t → Inline positioningExtension t)
    {script language : Tag} {tags : List Tag} {R S : Nat → Nat → Prop}
    (hR : Corresponds (SubstitutionsAlike R) R definition definition' script language tags substitution substitution')
    (hS : Corresponds (PositioningsAlike S) S definition definition' script language tags positioning positioning')
    (hm : MarksAlike definition definition') (n : Nat) (glyphs : List Nat) :
    alone (typeset accept cfg n script language tags glyphs) d =
      alone (typeset accept' cfg' n script language tags glyphs) d' := by
  rw [C122_values accept cfg hd h1 h2 h3 hs hp, C122_values accept' cfg' hd' h1' h2' h3' hs' hp']
  unfold setValues
  dsimp only
  rw [shapeValue_alike hR (fun t e => ⟨hs t e, taken_substitution hd (by rw [← e]; exact h2) _ _⟩)
    (fun t e => ⟨hs' t e, taken_substitution hd' (by rw [← e]; exact h2') _ _⟩)]
  refine congrArg _ (funext fun glyphs => ?_)
  exact settleValue_alike cfg cfg' hS hm (fun t e => ⟨hp t e, taken_positioning hd (by rw [← e]; exact h3) _ _⟩)
    (fun t e => ⟨hp' t e, taken_positioning hd' (by rw [← e]; exact h3') _ _⟩) n glyphs

/-! ## Other numbers -/

section
variable {α β : Type}

theorem element_map (f : α → β) (xs : List α) (i : Nat) : element (xs.map f) i = (element xs i).map f := by
  unfold element
  rw [List.getElem?_map]
  cases xs[i]? <;> rfl

theorem entryOf_map (f : α → β) (c : coverage.Coverage) (xs : List α) (g : Nat) :
    entryOf c (xs.map f) g = (entryOf c xs g).map (Option.map f) := by
  unfold entryOf
  cases indexOf c g with
  | none => rfl
  | some i =>
    dsimp only
    rw [element_map]
    cases element xs i <;> rfl

theorem classEntryOf_map (f : α → β) (c : coverage.Coverage) (classes : class_.Class) (xs : List (Option α)) (g : Nat) :
    classEntryOf c classes (xs.map (Option.map f)) g = (classEntryOf c classes xs g).map (Option.map f) := by
  unfold classEntryOf
  cases indexOf c g with
  | none => rfl
  | some i => exact element_map _ _ _

end

/-- The actions with other numbers. -/
def renumbered (f : Nat → Nat) (y : Nat × List Action) : Nat × List Action := (y.1, y.2.map (renumberAction f))

theorem ruleOf_map {Set Rule : Type} {records : Set → List Rule} {wanted : Rule → Nat × List Action} {test : Rule → Bool} {f : Nat → Nat}
    (mapRule : Rule → Rule) (mapSet : Set → Set) (h1 : ∀ set, records (mapSet set) = (records set).map mapRule)
    (h2 : ∀ rule, wanted (mapRule rule) = renumbered f (wanted rule)) (h3 : ∀ rule, test (mapRule rule) = test rule)
    (entry : Except Err (Option Set)) :
    ruleOf records wanted (entry.map (Option.map mapSet)) test = (ruleOf records wanted entry test).map (Option.map (renumbered f)) := by
  unfold ruleOf
  cases entry with
  | error e => rfl
  | ok set =>
    cases set with
    | none => rfl
    | some set =>
      change Except.ok _ = Except.ok _
      rw [h1, List.find?_map, show test ∘ mapRule = test from funext h3]
      cases (records set).find? test with
      | none => rfl
      | some rule =>
        simp only [Option.map_some]
        rw [h2]

theorem matchContext_renumber (f : Nat → Nat) (t : Context) (g : Nat) (after : List Nat) :
    matchContext (renumberContext f t) g after = (matchContext t g after).map (Option.map (renumbered f)) := by
  cases t with
  | format1 t =>
    unfold renumberContext matchContext
    dsimp only
    rw [entryOf_map]
    refine ruleOf_map (fun rule : context.Record => { rule with actions := rule.actions.map (renumberAction f) }) _ ?_ ?_ ?_ _ <;>
      exact fun _ => rfl
  | format2 t =>
    unfold renumberContext matchContext
    dsimp only
    rw [classEntryOf_map]
    refine ruleOf_map (fun rule : ClassRecord => { rule with actions := rule.actions.map (renumberAction f) }) _ ?_ ?_ ?_ _ <;>
      exact fun _ => rfl
  | format3 t =>
    unfold renumberContext matchContext
    dsimp only
    split <;> rfl

theorem matchChain_renumber (f : Nat → Nat) (t : ChainedContext) (before : List Nat) (g : Nat) (after : List Nat) :
    matchChain (renumberChain f t) before g after = (matchChain t before g after).map (Option.map (renumbered f)) := by
  cases t with
  | format1 t =>
    unfold renumberChain matchChain
    dsimp only
    rw [entryOf_map]
    refine ruleOf_map (fun rule : ChainedRecord => { rule with actions := rule.actions.map (renumberAction f) }) _ ?_ ?_ ?_ _ <;>
      exact fun _ => rfl
  | format2 t =>
    unfold renumberChain matchChain
    dsimp only
    rw [classEntryOf_map]
    refine ruleOf_map (fun rule : ChainedClassRecord => { rule with actions := rule.actions.map (renumberAction f) }) _ ?_ ?_ ?_ _ <;>
      exact fun _ => rfl
  | format3 t =>
    unfold renumberChain matchChain
    dsimp only
    split <;> rfl

theorem actionsAlike_renumber {f : Nat → Nat} {R : Nat → Nat → Prop} {actions : List Action}
    (h : ∀ action ∈ actions, R action.lookup_index (f action.lookup_index)) : ActionsAlike R actions (actions.map (renumberAction f)) := by
  unfold ActionsAlike
  induction actions with
  | nil => exact .nil
  | cons a actions ih =>
    exact .cons ⟨rfl, h a List.mem_cons_self⟩ (ih fun b hb => h b (List.mem_cons_of_mem _ hb))

theorem results_refl {α : Type} {alike : α → α → Prop} {r : Except Err (Option α)} (h : ∀ x, r = .ok (some x) → alike x x) :
    ResultsAlike alike r r := by
  rcases r with e | (_ | x)
  · exact .error
  · exact .none
  · exact .some (h x rfl)

/-- A subtable does alike under other numbers. -/
theorem renumber_substitution {f : Nat → Nat} {R : Nat → Nat → Prop} {x : gsub.Type_}
    (h : ∀ action ∈ substitutionActions x, R action.lookup_index (f action.lookup_index)) :
    SubstitutionsAlike R x (renumberSubstitution f x) := by
  intro before g following
  cases x with
  | contextualSubstitution t =>
    refine ⟨?_, .none⟩
    simp only [renumberSubstitution, react]
    rw [matchContext_renumber]
    cases e : matchContext t g following with
    | error e => exact .error
    | ok y =>
      rcases y with - | ⟨n, actions⟩
      · exact .none
      · exact .some (.sequence (actionsAlike_renumber fun a ha => h a (contextActions_of e a ha)))
  | chainedContextualSubstitution t =>
    refine ⟨?_, .none⟩
    simp only [renumberSubstitution, react]
    rw [matchChain_renumber]
    cases e : matchChain t before g following with
    | error e => exact .error
    | ok y =>
      rcases y with - | ⟨n, actions⟩
      · exact .none
      · exact .some (.sequence (actionsAlike_renumber fun a ha => h a (chainActions_of e a ha)))
  | _ =>
    refine ⟨results_refl fun y hy => ?_, results_refl fun _ _ => rfl⟩
    simp only [react] at hy
    cases e : substitute g following _ with
    | error e' => rw [e] at hy; cases hy
    | ok z =>
      rw [e] at hy
      cases z with
      | none => cases hy
      | some z => cases hy; exact .replaced

theorem not_sequence {before : List Nat} {base : Option Nat} {component g : Nat} {following : List Nat} {x : gpos.Type_}
    (h1 : ∀ t, x ≠ .contextualPositioning t) (h2 : ∀ t, x ≠ .chainedContextualPositioning t) {n : Nat} {actions : List Action} :
    respond before base component g following x ≠ .ok (some (.sequence n actions)) := by
  have key : ∀ {β : Type} {r : Except Err (Option β)} {k : β → Response}, (∀ y, k y ≠ .sequence n actions) →
      (do return (← r).map k) ≠ (Except.ok (some (.sequence n actions)) : Except Err (Option Response)) := by
    intro β r k hk h
    rcases r with e | (_ | y)
    · cases h
    · cases h
    · injection h with h
      injection h with h
      exact hk y h
  intro h
  cases x with
  | contextualPositioning t => exact h1 t rfl
  | chainedContextualPositioning t => exact h2 t rfl
  | cursiveAttachment t =>
    simp only [respond] at h
    split at h
    · cases h
    · rename_i y _
      unfold join at h
      split at h
      · cases h
      · cases h
      · cases h
      · cases e : connect t y with
        | error e' => rw [e] at h; cases h
        | ok z =>
          rw [e] at h
          rcases z with - | ⟨- | z, w⟩ <;> cases h
  | markToBaseAttachment t =>
    simp only [respond] at h
    split at h
    · cases h
    · exact key (fun _ h => by cases h) h
  | markToLigatureAttachment t =>
    simp only [respond] at h
    split at h
    · cases h
    · exact key (fun _ h => by cases h) h
  | markToMarkAttachment t =>
    simp only [respond] at h
    split at h
    · cases h
    · exact key (fun _ h => by cases h) h
  | _ =>
    simp only [respond] at h
    exact key (fun _ h => by cases h) h

/-- A subtable does alike under other numbers. -/
theorem renumber_positioning {f : Nat → Nat} {R : Nat → Nat → Prop} {x : gpos.Type_}
    (h : ∀ action ∈ positioningActions x, R action.lookup_index (f action.lookup_index)) :
    PositioningsAlike R x (renumberPositioning f x) := by
  intro before base component g following
  cases x with
  | contextualPositioning t =>
    simp only [renumberPositioning, respond]
    rw [matchContext_renumber]
    cases e : matchContext t g following with
    | error e => exact .error
    | ok y =>
      rcases y with - | ⟨n, actions⟩
      · exact .none
      · exact .some (.sequence (actionsAlike_renumber fun a ha => h a (contextActions_of e a ha)))
  | chainedContextualPositioning t =>
    simp only [renumberPositioning, respond]
    rw [matchChain_renumber]
    cases e : matchChain t before g following with
    | error e => exact .error
    | ok y =>
      rcases y with - | ⟨n, actions⟩
      · exact .none
      · exact .some (.sequence (actionsAlike_renumber fun a ha => h a (chainActions_of e a ha)))
  | _ =>
    refine results_refl fun y hy => ?_
    cases y with
    | moved => exact .moved
    | joined => exact .joined
    | onBase => exact .onBase
    | onMark => exact .onMark
    | sequence n actions => exact (not_sequence (by intro t h; cases h) (by intro t h; cases h) hy).elim

/-- A table that has what another needs corresponds to it. -/
theorem retains_corresponds {T : Type} {actions : T → List Action} {renumber : (Nat → Nat) → T → T}
    {alike : (Nat → Nat → Prop) → T → T → Prop} {f : Nat → Nat}
    (h : ∀ (R : Nat → Nat → Prop) x, (∀ action ∈ actions x, R action.lookup_index (f action.lookup_index)) →
      alike R x (renumber f x)) {used : Nat → Prop} {script language : Tag} {tags : List Tag} {t t' : Option (Directory T)}
    (hr : Retains actions renumber f used script language tags t t') (definition : Option gdef.GlyphDefinition) :
    Corresponds (alike fun i j => used i ∧ f i = j) (fun i j => used i ∧ f i = j) definition definition script language tags
      t t' where
  there i hi := ⟨f i, ⟨hr.wanted i hi, rfl⟩, (hr.same _).mpr ⟨i, rfl, hi⟩⟩
  back j hj := by
    obtain ⟨i, rfl, hi⟩ := (hr.same j).mp hj
    exact ⟨i, ⟨hr.wanted i hi, rfl⟩, hi⟩
  order := by
    rintro i _ i' _ hi hi' ⟨_, rfl⟩ ⟨_, rfl⟩
    refine ⟨hr.order i i' hi hi', fun hlt => ?_⟩
    rcases Nat.lt_trichotomy i i' with h | rfl | h
    · exact h
    · omega
    · have := hr.order i' i hi' hi h
      omega
  passes := by
    rintro i _ ⟨hu, rfl⟩ g
    have := hr.records i hu
    have key : ∀ (t : Option (Directory T)) i, PassesOver definition t i g ↔
        ∃ definition', definition = some definition' ∧ ∃ record, (t.bind fun t => t.lookups.records[i]?) = some record ∧
          ignores definition' record g = true := by
      intro t i
      unfold PassesOver
      cases t <;> simp
    rw [key, key]
    refine exists_congr fun definition' => and_congr Iff.rfl ?_
    generalize (t.bind fun t => t.lookups.records[i]?) = x at this
    generalize (t'.bind fun t => t.lookups.records[f i]?) = y at this
    cases x <;> cases y
    · simp
    · exact this.elim
    · exact this.elim
    · obtain ⟨h1, h2, _⟩ := this
      simp only [Option.some.injEq, exists_eq_left']
      unfold ignores
      rw [h1, h2]
  tables := by
    rintro i _ ⟨hu, rfl⟩
    have := hr.records i hu
    have ha : ∀ record, (t.bind fun t => t.lookups.records[i]?) = some record → ∀ x ∈ record.tables, ∀ action ∈ actions x,
        used action.lookup_index := by
      intro record e x hx a ha
      obtain ⟨t, rfl, e⟩ := Option.bind_eq_some_iff.mp e
      exact hr.asked t rfl i _ hu ⟨record, e, x, hx, a, ha, rfl⟩
    unfold tablesOf
    generalize (t.bind fun t => t.lookups.records[i]?) = x at this ha
    generalize (t'.bind fun t => t.lookups.records[f i]?) = y at this
    cases x <;> cases y
    · exact .nil
    · exact this.elim
    · exact this.elim
    · simp only [Option.map_some, Option.getD_some]
      rw [this.2.2, List.forall₂_map_right_iff, List.forall₂_same]
      exact fun x hx => h _ x fun a ha' => ⟨ha _ rfl x hx a ha', rfl⟩

/-- A file that retains what another needs for a script, a language and some features, under whatever numbers, sets every text in them
as the other does. Both have the same glyph definition; what is not needed need not be there, and may be anything. -/
theorem C128_retained (accept accept' : Tag → Bool) (cfg cfg' : Cfg) {d d' : Data} (hd : Fits d) (hd' : Fits d')
    {p₁ p₂ p₃ p₁' p₂' p₃' : Nat} {definition : Option gdef.GlyphDefinition}
    {substitution substitution' : Option gsub.GlyphSubstitution} {positioning positioning' : Option gpos.GlyphPositioning}
    (h1 : Takes accept cfg d p₁ .glyphDefinition (gdef.GlyphDefinition.read cfg) definition)
    (h2 : Takes accept cfg d p₂ .glyphSubstitution (gsub.GlyphSubstitution.read cfg) substitution)
    (h3 : Takes accept cfg d p₃ .glyphPositioning (gpos.GlyphPositioning.read cfg) positioning)
    (h1' : Takes accept' cfg' d' p₁' .glyphDefinition (gdef.GlyphDefinition.read cfg') definition)
    (h2' : Takes accept' cfg' d' p₂' .glyphSubstitution (gsub.GlyphSubstitution.read cfg') substitution')
    (h3' : Takes accept' cfg' d' p₃' .glyphPositioning (gpos.GlyphPositioning.read cfg') positioning')
    (hs : ∀ t, substitution = some t → Inline substitutionExtension t)
    (hp : ∀ t, positioning = some t → Inline positioningExtension t)
    (hs' : ∀ t, substitution' = some t → Inline substitutionExtension t)
    (hp' : ∀ t, positioning' = some t → Inline positioningExtension t)
    {script language : Tag} {tags : List Tag} {f f' : Nat → Nat} {used used' : Nat → Prop}
    (hr : Retains substitutionActions renumberSubstitution f used script language tags substitution substitution')
    (hr' : Retains positioningActions renumberPositioning f' used' script language tags positioning positioning')
    (n : Nat) (glyphs : List Nat) :
    alone (typeset accept cfg n script language tags glyphs) d =
      alone (typeset accept' cfg' n script language tags glyphs) d' :=
  C128_alike accept accept' cfg cfg' hd hd' h1 h2 h3 h1' h2' h3' hs hp hs' hp'
    (retains_corresponds (fun _ _ h => renumber_substitution h) hr definition)
    (retains_corresponds (fun _ _ h => renumber_positioning h) hr' definition) (fun _ => Iff.rfl) n glyphs

/-! ## Example -/

/-- The numbers of the wanted lookups. -/
def wantedNumbers {T : Type} (t : Directory T) (script language : Tag) (tags : List Tag) : List Nat :=
  match lookupsFor t script language with
  | .ok found => (found.filter fun x => tags.contains x.1).map (·.2.1)
  | .error _ => []

theorem wantedNumbers_iff {T : Type} {t : Directory T} {script language : Tag} {tags : List Tag} {i : Nat} :
    WantedOf (some t) script language tags i ↔ i ∈ wantedNumbers t script language tags := by
  unfold wantedNumbers
  cases e : lookupsFor t script language with
  | error x =>
    refine ⟨?_, fun h => by cases h⟩
    rintro ⟨_, ⟨⟩, found, h, _⟩
    rw [e] at h
    cases h
  | ok found =>
    rw [← wanted_any e]
    simp only [List.any_eq_true, Bool.and_eq_true, beq_iff_eq, List.mem_map, List.mem_filter, and_assoc]

/-- The table `contextualTable` with two more lookups, number 0 and number 3, which would make glyphs 3 and 9 into others but are not
wanted. The lookups number 0 to 3 now have the numbers 1, 5, 4 and 2. -/
def renumberedTable : Data := bytes <|
  [0, 1,  0, 0,  0, 10,  0, 30,  0, 46] ++
  [0, 1,  0x6C, 0x61, 0x74, 0x6E,  0, 8] ++ [0, 4,  0, 0] ++ [0, 0,  0xFF, 0xFF,  0, 1,  0, 0] ++
  [0, 1,  0x63, 0x61, 0x6C, 0x74,  0, 8] ++ [0, 0,  0, 2,  0, 1,  0, 4] ++
  [0, 6,  0, 14,  0, 34,  0, 72,  0, 92,  0, 112,  0, 148] ++
  [0, 1,  0, 0,  0, 1,  0, 8] ++ [0, 1,  0, 6,  0, 1] ++ [0, 1,  0, 1,  0, 3] ++
  [0, 5,  0, 0,  0, 1,  0, 8] ++ [0, 3,  0, 2,  0, 2,  0, 18,  0, 24,  0, 0,  0, 5,  0, 2,  0, 2] ++
  [0, 1,  0, 1,  0, 3] ++ [0, 1,  0, 1,  0, 4] ++
  [0, 1,  0, 0,  0, 1,  0, 8] ++ [0, 1,  0, 6,  0, 1] ++ [0, 1,  0, 1,  0, 4] ++
  [0, 1,  0, 0,  0, 1,  0, 8] ++ [0, 1,  0, 6,  0, 1] ++ [0, 1,  0, 1,  0, 9] ++
  [0, 8,  0, 0,  0, 1,  0, 8] ++ [0, 1,  0, 14,  0, 0,  0, 1,  0, 20,  0, 1,  0, 10] ++ [0, 1,  0, 1,  0, 9] ++
  [0, 1,  0, 2,  0, 7,  0, 10] ++
  [0, 2,  0, 0,  0, 1,  0, 8] ++ [0, 1,  0, 8,  0, 1,  0, 14] ++ [0, 1,  0, 1,  0, 3] ++ [0, 2,  0, 7,  0, 8]

/-- A file with it and with another table before it. -/
def renumberedFile : Data := fontFile 0x00010000 32 1 0 [(7, [1]), (TableType.glyphSubstitution.tag, renumberedTable)]

def renumberedRead : File :=
  match File.read (· == 0x00010000) renumberedFile 0 with
  | .ok x => x.1
  | .error _ => ⟨[]⟩

def renumberedValue : gsub.GlyphSubstitution :=
  match gsub.GlyphSubstitution.read ⟨false, false, false, false, false, false⟩ renumberedTable 0 with
  | .ok x => x.1
  | .error _ => sampleGsub

/-- The new numbers. -/
def newNumber (i : Nat) : Nat := if i = 0 then 1 else if i = 1 then 5 else if i = 2 then 4 else 2

theorem records_match {T : Type} {renumber : T → T} {x y : Option (lookup.Record T)}
    (h : (x.map fun r => (r.flags, r.mark_filtering_set, r.tables.map renumber)) = y.map fun r => (r.flags, r.mark_filtering_set, r.tables)) :
    SameRecord renumber x y := by
  cases x <;> cases y
  · trivial
  · cases h
  · cases h
  · simp only [Option.map_some, Option.some.injEq, Prod.mk.injEq] at h
    exact ⟨h.1.symm, h.2.1.symm, h.2.2.symm⟩

theorem renumbered_retains : Retains substitutionActions renumberSubstitution newNumber (· < 4) 0x6C61746E 0x44455520 [0x63616C74]
    (some contextualValue) (some renumberedValue) := by
  have h1 : ∀ i, WantedOf (some contextualValue) 0x6C61746E 0x44455520 [0x63616C74] i ↔ i ∈ [0, 2] := by
    intro i
    rw [wantedNumbers_iff, show wantedNumbers contextualValue 0x6C61746E 0x44455520 [0x63616C74] = [0, 2] by decide +kernel]
  have h2 : ∀ i, WantedOf (some renumberedValue) 0x6C61746E 0x44455520 [0x63616C74] i ↔ i ∈ [1, 4] := by
    intro i
    rw [wantedNumbers_iff, show wantedNumbers renumberedValue 0x6C61746E 0x44455520 [0x63616C74] = [1, 4] by decide +kernel]
  have h3 : ∀ record ∈ contextualValue.lookups.records, ∀ table ∈ record.tables, ∀ action ∈ substitutionActions table,
      action.lookup_index < 4 := by decide +kernel
  have h4 : ∀ i ∈ List.range 4,
      (contextualValue.lookups.records[i]?.map fun r => (r.flags, r.mark_filtering_set, r.tables.map (renumberSubstitution newNumber))) =
        renumberedValue.lookups.records[newNumber i]?.map fun r => (r.flags, r.mark_filtering_set, r.tables) := by decide +kernel
  generalize contextualValue = a at h1 h3 h4 ⊢
  generalize renumberedValue = b at h2 h4 ⊢
  constructor
  · intro i hi
    have := (h1 i).mp hi
    simp at this
    omega
  · rintro x hx i j _ ⟨record, h4, table, h5, action, h6, rfl⟩
    obtain rfl := Option.some.inj hx
    exact h3 record (List.mem_of_getElem? h4) table h5 action h6
  · intro j
    rw [h2]
    simp only [h1]
    constructor
    · intro h
      rcases List.mem_cons.mp h with rfl | h
      · exact ⟨0, rfl, by decide⟩
      · obtain rfl := List.mem_singleton.mp h
        exact ⟨2, rfl, by decide⟩
    · rintro ⟨i, rfl, h⟩
      rcases List.mem_cons.mp h with rfl | h
      · decide
      · obtain rfl := List.mem_singleton.mp h
        decide
  · intro i j hi hj
    rw [h1] at hi hj
    exact (by decide : ∀ i ∈ [0, 2], ∀ j ∈ [0, 2], i < j → newNumber i < newNumber j) i hi j hj
  · intro i hi
    exact records_match (h4 i (List.mem_range.mpr hi))

/-- Both files set every text alike. -/
example (n : Nat) (glyphs : List Nat) :
    alone (typeset (· == 0x00010000) ⟨false, false, false, false, false, false⟩ n 0x6C61746E 0x44455520 [0x63616C74] glyphs)
        contextualFile =
      alone (typeset (· == 0x00010000) ⟨false, false, false, false, false, false⟩ n 0x6C61746E 0x44455520 [0x63616C74] glyphs)
        renumberedFile := by
  have hf : Reads (File.read (· == 0x00010000)) contextualFile 0 contextualRead := by decide +kernel
  have hf' : Reads (File.read (· == 0x00010000)) renumberedFile 0 renumberedRead := by decide +kernel
  refine C128_retained (p₁ := 0) (p₂ := 0) (p₃ := 0) (p₁' := 0) (p₂' := 0) (p₃' := 0) (definition := none)
    (positioning := none) (positioning' := none) (f' := id) (used' := fun _ => False) _ _ _ _ (by decide +kernel) (by decide +kernel)
    ⟨_, hf, by decide +kernel⟩ contextual_taken.1 contextual_taken.2 ⟨_, hf', by decide +kernel⟩ ⟨_, hf', by decide +kernel⟩
    ⟨_, hf', by decide +kernel⟩ (fun t h => ?_) (fun t h => by cases h) (fun t h => ?_) (fun t h => by cases h) renumbered_retains ?_ n glyphs
  · obtain rfl := Option.some.inj h
    exact contextual_asks.1
  · obtain rfl := Option.some.inj h
    unfold Inline
    decide +kernel
  · have hn : ∀ i, ¬WantedOf (none : Option gpos.GlyphPositioning) 0x6C61746E 0x44455520 [0x63616C74] i := by
      rintro i ⟨_, h, _⟩
      cases h
    exact ⟨fun i h => hn i h, (fun _ h => by cases h), (fun j => ⟨fun h => (hn j h).elim, fun ⟨i, _, h⟩ => (hn i h).elim⟩),
      fun i _ h => (hn i h).elim, fun _ h => h.elim⟩

/-- What they make of one. -/
example : alone (typeset (· == 0x00010000) ⟨false, false, false, false, false, false⟩ 2 0x6C61746E 0x44455520 [0x63616C74] [9, 9, 3, 4, 3])
    renumberedFile = .ok ([10, 10, 7, 8, 5, 3].map Item.of) := by decide +kernel

/-- The order of the wanted lookups matters: `contextualTable` with the first and the third lookup exchanged. Glyph 9 would become
glyph 10 before glyph 7, but this has not been made yet. -/
example : let exchanged := contextualTable.take 48 ++ bytes [0, 76,  0, 48,  0, 10] ++ contextualTable.drop 54
    alone (typeset (· == 0x00010000) ⟨false, false, false, false, false, false⟩ 2 0x6C61746E 0x44455520 [0x63616C74] [9, 3, 4])
      contextualFile = .ok ([10, 7, 8, 5].map Item.of) ∧
    alone (typeset (· == 0x00010000) ⟨false, false, false, false, false, false⟩ 2 0x6C61746E 0x44455520 [0x63616C74] [9, 3, 4])
      (fontFile 0x00010000 32 1 0 [(TableType.glyphSubstitution.tag, exchanged)]) = .ok ([9, 7, 8, 5].map Item.of) := by
  decide +kernel

end OpenType.Props
