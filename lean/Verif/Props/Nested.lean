import Verif.Spec.Nested
import Verif.Props.Closed
/-! # C126: a depth that suffices -/

namespace OpenType.Props
open OpenType Spec lookup directory context

/-! ## Steps -/

theorem Fewer.imp {step step' : Nat → Nat → Prop} (h : ∀ i j, step' i j → step i j) {n i : Nat} (hf : Fewer step n i) :
    Fewer step' n i := by
  induction n generalizing i with
  | zero => exact hf
  | succ n ih => exact fun j hj => ih (hf j (h i j hj))

theorem Fewer.mono {step : Nat → Nat → Prop} {n m i : Nat} (hf : Fewer step n i) (h : n ≤ m) : Fewer step m i := by
  induction n generalizing m i with
  | zero => exact hf.elim
  | succ n ih =>
    obtain ⟨m, rfl⟩ : ∃ k, m = k + 1 := ⟨m - 1, by omega⟩
    exact fun j hj => ih (hf j hj) (by omega)

theorem first_step {step : Nat → Nat → Prop} {i j : Nat} (h : Relation.TransGen step i j) :
    ∃ k, step i k ∧ (k = j ∨ Relation.TransGen step k j) := by
  induction h with
  | single h => exact ⟨_, h, .inl rfl⟩
  | tail _ h ih =>
    obtain ⟨k, h1, rfl | h2⟩ := ih
    · exact ⟨_, h1, .inr (.single h)⟩
    · exact ⟨_, h1, .inr (h2.tail h)⟩

theorem noCircles_of_fewer {step : Nat → Nat → Prop} {n : Nat} (h : ∀ i, Fewer step n i) : NoCircles step := by
  have key : ∀ n i, Fewer step n i → ¬Relation.TransGen step i i := by
    intro n
    induction n with
    | zero => intro i h; exact h.elim
    | succ n ih =>
      intro i h hc
      obtain ⟨k, h1, rfl | h2⟩ := first_step hc
      · exact ih _ (h _ h1) hc
      · exact ih k (h k h1) (h2.tail h1)
  exact fun i => key n i (h i)

/-- Without circles, the number of those from which there is a step bounds the number of steps. -/
theorem fewer_of_noCircles {step : Nat → Nat → Prop} (h : NoCircles step) {count : Nat} (hc : ∀ i j, step i j → i < count) (i : Nat) :
    Fewer step (count + 1) i := by
  have bound {used : List Nat} (h1 : used.Nodup) (h2 : ∀ u ∈ used, u < count) : used.length ≤ count := by
    have := List.Nodup.length_le_of_subset h1 (l₂ := List.range count) fun u hu => List.mem_range.mpr (h2 u hu)
    rwa [List.length_range] at this
  have key : ∀ k i (used : List Nat), used.Nodup → (∀ u ∈ used, u < count ∧ Relation.TransGen step u i) → used.length + k = count →
      Fewer step (k + 1) i := by
    intro k
    induction k with
    | zero =>
      intro i used h1 h2 h3 j hj
      have := bound (used := i :: used) (List.nodup_cons.mpr ⟨fun hm => h i (h2 i hm).2, h1⟩) (by
        intro u hu
        rcases List.mem_cons.mp hu with rfl | hu
        · exact hc _ _ hj
        · exact (h2 u hu).1)
      rw [List.length_cons] at this
      omega
    | succ k ih =>
      intro i used h1 h2 h3 j hj
      refine ih j (i :: used) (List.nodup_cons.mpr ⟨fun hm => h i (h2 i hm).2, h1⟩) ?_ (by rw [List.length_cons]; omega)
      intro u hu
      rcases List.mem_cons.mp hu with rfl | hu
      · exact ⟨hc _ _ hj, .single hj⟩
      · exact ⟨(h2 u hu).1, (h2 u hu).2.tail hj⟩
  exact key count i [] List.nodup_nil (fun u hu => by cases hu) (by simp)

/-! ## Text -/

section
variable {α : Type}

theorem ActedOn.congr {nested nested' : Nat → List α → List α → Option (List α × List α) → Prop} {I : α → Prop} {before : List α}
    {actions : List Action} {window rest window' rest' : List α}
    (h : ∀ action ∈ actions, ∀ before text result, nested action.lookup_index before text result →
      nested' action.lookup_index before text result)
    (ha : ActedOn nested I before actions window rest window' rest') : ActedOn nested' I before actions window rest window' rest' := by
  induction ha with
  | nil => exact .nil
  | absent h1 _ ih => exact .absent h1 (ih fun a ha => h a (List.mem_cons_of_mem _ ha))
  | still h1 h2 _ ih => exact .still h1 (h _ List.mem_cons_self _ _ _ h2) (ih fun a ha => h a (List.mem_cons_of_mem _ ha))
  | act h1 h2 h3 _ ih => exact .act h1 (h _ List.mem_cons_self _ _ _ h2) h3 (ih fun a ha => h a (List.mem_cons_of_mem _ ha))

theorem Forward.congr {touched touched' : List α → List α → Option (List α × List α) → Prop}
    (h : ∀ before text result, touched before text result → touched' before text result) {before text out : List α}
    (hf : Forward touched before text out) : Forward touched' before text out := by
  induction hf with
  | nil => exact .nil
  | keep h1 _ ih => exact .keep (h _ _ _ h1) ih
  | change h1 _ ih => exact .change (h _ _ _ h1) ih

theorem AllPassed.imp {cfg : Cfg} {d : Data} {p : Nat} {passed passed' : Nat → List α → List α → Prop} {script language : Tag}
    {tags : List Tag} (h : ∀ i, Wanted cfg d p script language tags i → ∀ text out, passed i text out → passed' i text out)
    {text out : List α} (ha : AllPassed cfg d p passed script language tags text out) :
    AllPassed cfg d p passed' script language tags text out := by
  obtain ⟨m, h1, h2⟩ := ha
  refine ⟨m, h1, ?_⟩
  clear h1
  induction h2 with
  | zero => exact .zero
  | skip h1 _ ih => exact .skip h1 ih
  | pass h1 _ h2 ih => exact .pass h1 ih (h _ h1 _ _ h2)

end

section
variable {cfg : Cfg} {d : Data} {p : Nat} {I : Nat → Nat → Prop} {M : Nat → Prop}

theorem touched_deeper : ∀ {n m i : Nat}, Fewer (CallsInSubstitution cfg d p) n i → n ≤ m → ∀ before text result,
    Touched cfg d p I m i before text result ↔ Touched cfg d p I n i before text result := by
  intro n
  induction n with
  | zero => intro m i h; exact h.elim
  | succ n ih =>
    intro m i h hm before text result
    obtain ⟨m, rfl⟩ : ∃ k, m = k + 1 := ⟨m - 1, by omega⟩
    cases text with
    | nil => exact Iff.rfl
    | cons g following =>
      unfold Touched
      refine or_congr Iff.rfl (or_congr Iff.rfl (or_congr Iff.rfl (and_congr Iff.rfl ?_)))
      have key : ∀ k actions, DoneAt cfg 7 (reaction (seen (I i) before) g (seen (I i) following)) d p i (.sequence k actions) →
          ∀ action ∈ actions, ∀ before text result, Touched cfg d p I m action.lookup_index before text result ↔
            Touched cfg d p I n action.lookup_index before text result := by
        intro k actions hk action ha
        obtain ⟨j, ⟨type_, a, type', a', h1, h2, h3⟩, _⟩ := hk
        exact ih (h _ ⟨j, type_, a, type', a', h1, h2, _, _, _, _, _, h3.2, action, ha, rfl⟩) (by omega)
      constructor
      · rintro ⟨k, actions, window, rest, window', rest', h1, h2, h3, h4⟩
        exact ⟨k, actions, window, rest, window', rest', h1, h2,
          ActedOn.congr (fun a ha b t r => (key k actions h1 a ha b t r).mp) h3, h4⟩
      · rintro ⟨k, actions, window, rest, window', rest', h1, h2, h3, h4⟩
        exact ⟨k, actions, window, rest, window', rest', h1, h2,
          ActedOn.congr (fun a ha b t r => (key k actions h1 a ha b t r).mpr) h3, h4⟩

theorem Outcome.congr {I : Item → Prop} {nested nested' : Nat → List Item → List Item → Option (List Item × List Item) → Prop}
    {before : List Item} {base : Option (Nat × Item)} {x : Item} {following : List Item} {r : Response} {done rest : List Item}
    (h : ∀ n actions, r = .sequence n actions → ∀ action ∈ actions, ∀ before text result,
      nested action.lookup_index before text result → nested' action.lookup_index before text result)
    (ho : Outcome I nested before base x following r done rest) : Outcome I nested' before base x following r done rest := by
  cases ho with
  | moved h1 => exact .moved h1
  | joined h1 => exact .joined h1
  | onBase => exact .onBase
  | onMark h1 => exact .onMark h1
  | sequence h1 h2 => exact .sequence h1 (ActedOn.congr (h _ _ rfl) h2)

theorem settled_deeper : ∀ {n m i : Nat}, Fewer (CallsInPositioning cfg d p) n i → n ≤ m → ∀ before text result,
    Settled cfg d p I M m i before text result ↔ Settled cfg d p I M n i before text result := by
  intro n
  induction n with
  | zero => intro m i h; exact h.elim
  | succ n ih =>
    intro m i h hm before text result
    obtain ⟨m, rfl⟩ : ∃ k, m = k + 1 := ⟨m - 1, by omega⟩
    cases text with
    | nil => exact Iff.rfl
    | cons x following =>
      unfold Settled
      refine or_congr Iff.rfl (and_congr Iff.rfl (exists_congr fun base => and_congr Iff.rfl (or_congr Iff.rfl ?_)))
      have key : ∀ r, DoneAt cfg 9 (response cfg (seen (I i) (before.map Item.glyph)) (base.map (·.2.glyph)) x.component x.glyph
          (seen (I i) (following.map Item.glyph))) d p i r → ∀ k actions, r = .sequence k actions →
          ∀ action ∈ actions, ∀ before text result, Settled cfg d p I M m action.lookup_index before text result ↔
            Settled cfg d p I M n action.lookup_index before text result := by
        rintro _ hk k actions rfl action ha
        obtain ⟨j, ⟨type_, a, type', a', h1, h2, h3⟩, _⟩ := hk
        exact ih (h _ ⟨j, type_, a, type', a', h1, h2, _, _, _, _, _, h3.2, action, ha, rfl⟩) (by omega)
      constructor
      · rintro ⟨r, done, rest, h1, h2, h3⟩
        exact ⟨r, done, rest, h1, Outcome.congr (fun k actions e a ha b t r' => (key r h1 k actions e a ha b t r').mp) h2, h3⟩
      · rintro ⟨r, done, rest, h1, h2, h3⟩
        exact ⟨r, done, rest, h1, Outcome.congr (fun k actions e a ha b t r' => (key r h1 k actions e a ha b t r').mpr) h2, h3⟩

end

/-! ## Files -/

section
variable (accept : Tag → Bool) (cfg : Cfg) {d : Data} (hd : Fits d)

include hd

/-- Every depth suffices that is greater than the number of calls one can follow from the lookups that are wanted: the text becomes
the same, or fails alike. -/
theorem C126_depth {n m : Nat} {script language : Tag} {tags : List Tag}
    (hs : ∀ p t, TableAt accept cfg d .glyphSubstitution p → gsub.IsGlyphSubstitution cfg d p t →
      ∀ i, Wanted cfg d p script language tags i → Fewer (CallsInSubstitution cfg d p) n i)
    (hp : ∀ p t, TableAt accept cfg d .glyphPositioning p → gpos.IsGlyphPositioning cfg d p t →
      ∀ i, Wanted cfg d p script language tags i → Fewer (CallsInPositioning cfg d p) n i) (hm : n ≤ m) (glyphs : List Nat) (out : List Item) :
    Reads (typeset accept cfg m script language tags glyphs) d 0 out ↔
      Reads (typeset accept cfg n script language tags glyphs) d 0 out := by
  rw [C113_typeset accept cfg hd, C113_typeset accept cfg hd]
  refine and_congr Iff.rfl (exists_congr fun middle => and_congr (or_congr Iff.rfl ?_) (or_congr Iff.rfl ?_))
  · refine exists_congr fun p => exists_congr fun t => and_congr_right fun h1 => and_congr_right fun h2 => ?_
    constructor
    · exact AllPassed.imp fun i hi text out ⟨middle, k1, k2⟩ =>
        ⟨middle, Forward.congr (fun b x r => (touched_deeper (hs p t h1 h2 i hi) hm b x r).mp) k1, k2⟩
    · exact AllPassed.imp fun i hi text out ⟨middle, k1, k2⟩ =>
        ⟨middle, Forward.congr (fun b x r => (touched_deeper (hs p t h1 h2 i hi) hm b x r).mpr) k1, k2⟩
  · refine exists_congr fun p => exists_congr fun t => and_congr_right fun h1 => and_congr_right fun h2 => ?_
    constructor
    · exact AllPassed.imp fun i hi text out k1 =>
        Forward.congr (fun b x r => (settled_deeper (hp p t h1 h2 i hi) hm b x r).mp) k1
    · exact AllPassed.imp fun i hi text out k1 =>
        Forward.congr (fun b x r => (settled_deeper (hp p t h1 h2 i hi) hm b x r).mpr) k1

omit hd in
theorem calls_below {T : Type} {isTable : Nat → Data → Nat → T → Prop} {number plain chained p i j : Nat} {t : Directory T}
    (ht : IsDirectory cfg isTable d p t) (h : Calls cfg number plain chained d p i j) : i < t.lookups.records.length := by
  obtain ⟨_, _, _, _, _, ⟨_, _, _, ⟨b', n, _, ⟨offset, k1, k2, rfl⟩, k3, k4, _⟩, _⟩, _⟩ := h
  obtain ⟨_, _, _, _, _, _, h1, _, _, _, h2, _⟩ := ht
  cases U16.unique h1 k1
  unfold IsPart at h2
  rw [if_neg k2] at h2
  obtain ⟨h3, h4, h5⟩ := h2
  cases U16.unique h3 k3
  rw [h5.1, h4.1]
  exact k4

/-- If lookups do not ask for each other in circles, all depths greater than the number of lookups are alike. -/
theorem C126_circles {n m : Nat} {script language : Tag} {tags : List Tag}
    (hs : ∀ p t, TableAt accept cfg d .glyphSubstitution p → gsub.IsGlyphSubstitution cfg d p t →
      NoCircles (CallsInSubstitution cfg d p) ∧ t.lookups.records.length < n)
    (hp : ∀ p t, TableAt accept cfg d .glyphPositioning p → gpos.IsGlyphPositioning cfg d p t →
      NoCircles (CallsInPositioning cfg d p) ∧ t.lookups.records.length < n) (hm : n ≤ m) (glyphs : List Nat) (out : List Item) :
    Reads (typeset accept cfg m script language tags glyphs) d 0 out ↔
      Reads (typeset accept cfg n script language tags glyphs) d 0 out :=
  C126_depth accept cfg hd
    (fun p t h1 h2 i _ => Fewer.mono (fewer_of_noCircles (hs p t h1 h2).1 (fun _ _ h => calls_below cfg h2 h) i) (hs p t h1 h2).2)
    (fun p t h1 h2 i _ => Fewer.mono (fewer_of_noCircles (hp p t h1 h2).1 (fun _ _ h => calls_below cfg h2 h) i) (hp p t h1 h2).2)
    hm glyphs out

end

/-! ## Values -/

theorem ruleOf_mem {Set Rule β : Type} {records : Set → List Rule} {wanted : Rule → β} {entry : Except Err (Option Set)}
    {test : Rule → Bool} {y : β} (h : ruleOf records wanted entry test = .ok (some y)) :
    ∃ set, entry = .ok (some set) ∧ ∃ rule ∈ records set, wanted rule = y := by
  unfold ruleOf at h
  cases entry with
  | error e => cases h
  | ok set =>
    cases set with
    | none => cases h
    | some set =>
      injection h with h
      obtain ⟨rule, h1, h2⟩ := Option.map_eq_some_iff.mp h
      exact ⟨set, rfl, rule, List.mem_of_find?_eq_some h1, h2⟩

theorem classEntry_mem {α : Type} {c : coverage.Coverage} {classes : class_.Class} {sets : List (Option α)} {g : Nat} {x : α}
    (h : classEntryOf c classes sets g = .ok (some x)) : some x ∈ sets := by
  unfold classEntryOf at h
  split at h
  · cases h
  · exact element_mem h

theorem contextActions_of {t : Context} {g : Nat} {after : List Nat} {n : Nat} {actions : List Action}
    (h : matchContext t g after = .ok (some (n, actions))) : ∀ action ∈ actions, action ∈ contextActions t := by
  intro action ha
  cases t with
  | format1 t =>
    obtain ⟨set, h1, rule, h2, h3⟩ := ruleOf_mem h
    cases h3
    exact List.mem_flatMap.mpr ⟨set, entry_mem h1, List.mem_flatMap.mpr ⟨rule, h2, ha⟩⟩
  | format2 t =>
    obtain ⟨set, h1, rule, h2, h3⟩ := ruleOf_mem h
    cases h3
    exact List.mem_flatMap.mpr ⟨some set, classEntry_mem h1, List.mem_flatMap.mpr ⟨set, List.mem_singleton_self set,
      List.mem_flatMap.mpr ⟨rule, h2, ha⟩⟩⟩
  | format3 t =>
    injection h with h
    split at h
    · cases h
      exact ha
    · cases h

theorem chainActions_of {t : ChainedContext} {before : List Nat} {g : Nat} {after : List Nat} {n : Nat} {actions : List Action}
    (h : matchChain t before g after = .ok (some (n, actions))) : ∀ action ∈ actions, action ∈ chainActions t := by
  intro action ha
  cases t with
  | format1 t =>
    obtain ⟨set, h1, rule, h2, h3⟩ := ruleOf_mem h
    cases h3
    exact List.mem_flatMap.mpr ⟨set, entry_mem h1, List.mem_flatMap.mpr ⟨rule, h2, ha⟩⟩
  | format2 t =>
    obtain ⟨set, h1, rule, h2, h3⟩ := ruleOf_mem h
    cases h3
    exact List.mem_flatMap.mpr ⟨some set, classEntry_mem h1, List.mem_flatMap.mpr ⟨set, List.mem_singleton_self set,
      List.mem_flatMap.mpr ⟨rule, h2, ha⟩⟩⟩
  | format3 t =>
    injection h with h
    split at h
    · cases h
      exact ha
    · cases h

/-- A subtable that is in the bytes is among those that were read. -/
theorem subtable_read {T : Type} {cfg : Cfg} {number : Nat} {extension : T → Option (Nat × Nat)} {readTable : Nat → Reader T}
    {d : Data} {p : Nat} {t : Directory T} (hf : FindsSubtables cfg number extension readTable d p t) (hi : Inline extension t)
    {i j type_ a type' a' : Nat} (h1 : SubtableAt cfg d p i j type_ a) (h2 : StandsFor number d type_ a type' a') :
    ∃ record, t.lookups.records[i]? = some record ∧ ∃ table ∈ record.tables, Reads (readTable type') d a' table := by
  obtain ⟨type'', a'', h3, h4, h5⟩ := (hf i j 0).2 type_ a h1
  obtain ⟨rfl, rfl⟩ := StandsFor.unique h2 h3
  have : subtable extension readTable p t i j d 0 = .ok (none, 0) ∨
      ∃ x, subtable extension readTable p t i j d 0 = .ok (some x, 0) ∧
        ∃ record, t.lookups.records[i]? = some record ∧ x ∈ record.tables := by
    unfold subtable
    split
    · rename_i o record _ e2
      split
      · rename_i s table _ e4
        rw [hi record (List.mem_of_getElem? e2) table (List.mem_of_getElem? e4)]
        exact .inr ⟨table, rfl, record, e2, List.mem_of_getElem? e4⟩
      · exact .inl rfl
    · exact .inl rfl
  rcases this with h | ⟨x, h, record, k1, k2⟩
  · cases e : readTable type'' d a'' with
    | error x =>
      have := (h5 x).mpr e
      rw [h] at this
      cases this
    | ok x =>
      obtain ⟨q, k⟩ := (h4 x.1).mpr ⟨x.2, e⟩
      rw [h] at k
      cases k
  · exact ⟨record, k1, x, k2, (h4 x).mp ⟨0, h⟩⟩

/-- What the bytes of a table ask for is what the table that was read asks for. -/
theorem C126_asks (cfg : Cfg) {d : Data} (hd : Fits d) {p : Nat} :
    (∀ t, Reads (gsub.GlyphSubstitution.read cfg) d p t → Inline substitutionExtension t →
      ∀ i j, CallsInSubstitution cfg d p i j → Asks substitutionActions t i j) ∧
    ∀ t, Reads (gpos.GlyphPositioning.read cfg) d p t → Inline positioningExtension t →
      ∀ i j, CallsInPositioning cfg d p i j → Asks positioningActions t i j := by
  constructor
  · rintro t ht hi i j ⟨k, type_, a, type', a', h1, h2, before, g, following, n, actions, h3, action, h4, rfl⟩
    obtain ⟨record, k1, table, k2, k3⟩ := subtable_read ((C101_follow cfg hd).1 t ht) hi h1 h2
    refine ⟨record, k1, table, k2, action, ?_, rfl⟩
    have k4 := (reads_parses (S := Spec.gsub.IsTable type') hd).mp k3
    rcases h3 with ⟨rfl, h3⟩ | ⟨rfl, h3⟩
    · cases table with
      | contextualSubstitution t =>
        exact contextActions_of (((C105_context hd ((reads_parses hd).mpr k4.2) g following).1 _).mpr h3) action h4
      | _ => exact absurd k4.1 (by decide)
    · cases table with
      | chainedContextualSubstitution t =>
        exact chainActions_of (((C105_chain hd ((reads_parses hd).mpr k4.2) before g following).1 _).mpr h3) action h4
      | _ => exact absurd k4.1 (by decide)
  · rintro t ht hi i j ⟨k, type_, a, type', a', h1, h2, before, g, following, n, actions, h3, action, h4, rfl⟩
    obtain ⟨record, k1, table, k2, k3⟩ := subtable_read ((C101_follow cfg hd).2 t ht) hi h1 h2
    refine ⟨record, k1, table, k2, action, ?_, rfl⟩
    have k4 := (reads_parses (S := Spec.gpos.IsTable cfg type') hd).mp k3
    rcases h3 with ⟨rfl, h3⟩ | ⟨rfl, h3⟩
    · cases table with
      | contextualPositioning t =>
        exact contextActions_of (((C105_context hd ((reads_parses hd).mpr k4.2) g following).1 _).mpr h3) action h4
      | _ => exact absurd k4.1 (by decide)
    · cases table with
      | chainedContextualPositioning t =>
        exact chainActions_of (((C105_chain hd ((reads_parses hd).mpr k4.2) before g following).1 _).mpr h3) action h4
      | _ => exact absurd k4.1 (by decide)

section
variable {accept : Tag → Bool} {cfg : Cfg} {d : Data} (hd : Fits d) {p : Nat} {table : TableType} {α : Type} {r : Reader α}

include hd

theorem taken_none (h : Takes accept cfg d p table r none) (a : Nat) : ¬TableAt accept cfg d table a := by
  intro ha
  obtain ⟨file, h1, font, h2, h3⟩ := h
  obtain ⟨_, font', e, _⟩ := (C01_one_font accept d 0 hd file).mp h1
  have e : file = ⟨[font']⟩ := by cases file; simp only at e; rw [e]
  subst e
  obtain ⟨record, ⟨_, _, e, hk, _⟩, _⟩ := (tableAt_iff hd h1 _).mp ha
  exact (absent_iff hd h1).mp ((C55_absent accept cfg _ hd p).mp ⟨_, h1, font, h2, h3⟩) record (by rw [e]; simp) hk

theorem taken_place {x : Option α} (h : Takes accept cfg d p table r x) {a b : Nat} (h1 : TableAt accept cfg d table a)
    (h2 : TableAt accept cfg d table b) : a = b := by
  obtain ⟨file, h3, _⟩ := h
  obtain ⟨_, font', e, _⟩ := (C01_one_font accept d 0 hd file).mp h3
  have e : file = ⟨[font']⟩ := by cases file; simp only at e; rw [e]
  subst e
  exact placed_unique hd h3 h1 h2

end

/-- With tables without extensions, every depth suffices that is greater than the number of calls one can follow in the tables as they
are taken from the file. -/
theorem C126_taken (accept : Tag → Bool) (cfg : Cfg) {d : Data} (hd : Fits d) {p₁ p₂ : Nat}
    {substitution : Option gsub.GlyphSubstitution} {positioning : Option gpos.GlyphPositioning}
    (h1 : Takes accept cfg d p₁ .glyphSubstitution (gsub.GlyphSubstitution.read cfg) substitution)
    (h2 : Takes accept cfg d p₂ .glyphPositioning (gpos.GlyphPositioning.read cfg) positioning) {n m : Nat}
    (hs : ∀ t, substitution = some t → Inline substitutionExtension t ∧ ∀ i, Fewer (Asks substitutionActions t) n i)
    (hp : ∀ t, positioning = some t → Inline positioningExtension t ∧ ∀ i, Fewer (Asks positioningActions t) n i) (hm : n ≤ m)
    (script language : Tag) (tags : List Tag) (glyphs : List Nat) (out : List Item) :
    Reads (typeset accept cfg m script language tags glyphs) d 0 out ↔
      Reads (typeset accept cfg n script language tags glyphs) d 0 out := by
  refine C126_depth accept cfg hd (fun p _ hp' _ i _ => ?_) (fun p _ hp' _ i _ => ?_) hm glyphs out
  · cases substitution with
    | none => exact (taken_none hd h1 p hp').elim
    | some t =>
      obtain ⟨b, k1, k2⟩ := ((C55_tables accept cfg hd p₁).1 t).mp h1
      cases taken_place hd h1 hp' k1
      exact Fewer.imp ((C126_asks cfg hd).1 t ((reads_parses hd).mpr k2) (hs t rfl).1) ((hs t rfl).2 i)
  · cases positioning with
    | none => exact (taken_none hd h2 p hp').elim
    | some t =>
      obtain ⟨b, k1, k2⟩ := ((C55_tables accept cfg hd p₂).2.1 t).mp h2
      cases taken_place hd h2 hp' k1
      exact Fewer.imp ((C126_asks cfg hd).2 t ((reads_parses hd).mpr k2) (hp t rfl).1) ((hp t rfl).2 i)

/-- One way to see how many calls can be followed: if lookups ask only for those of lower rank. -/
theorem C126_ranked {T : Type} (actions : T → List Action) (t : Directory T) (rank : Nat → Nat)
    (h : ∀ x ∈ t.lookups.records.zipIdx, ∀ table ∈ x.1.tables, ∀ action ∈ actions table, rank action.lookup_index < rank x.2)
    (i : Nat) : Fewer (Asks actions t) (rank i + 1) i := by
  have key : ∀ k i, rank i ≤ k → Fewer (Asks actions t) (k + 1) i := by
    intro k
    induction k with
    | zero =>
      rintro i hi j ⟨record, h1, table, h2, action, h3, rfl⟩
      have := h (record, i) (List.mk_mem_zipIdx_iff_getElem?.mpr h1) table h2 action h3
      dsimp only at this
      omega
    | succ k ih =>
      rintro i hi j ⟨record, h1, table, h2, action, h3, rfl⟩
      have := h (record, i) (List.mk_mem_zipIdx_iff_getElem?.mpr h1) table h2 action h3
      exact ih _ (by dsimp only at this; omega)
  exact key _ i (Nat.le_refl _)

/-! ## Example -/

/-- A file with the table of the example of C114. -/
def contextualFile : Data := fontFile 0x00010000 32 1 0 [(TableType.glyphSubstitution.tag, contextualTable)]

def contextualRead : File :=
  match File.read (· == 0x00010000) contextualFile 0 with
  | .ok x => x.1
  | .error _ => ⟨[]⟩

def contextualValue : gsub.GlyphSubstitution :=
  match gsub.GlyphSubstitution.read ⟨false, false, false, false, false, false⟩ contextualTable 0 with
  | .ok x => x.1
  | .error _ => sampleGsub

theorem contextual_taken :
    Takes (· == 0x00010000) ⟨false, false, false, false, false, false⟩ contextualFile 0 .glyphSubstitution
      (gsub.GlyphSubstitution.read ⟨false, false, false, false, false, false⟩) (some contextualValue) ∧
    Takes (· == 0x00010000) ⟨false, false, false, false, false, false⟩ contextualFile 0 .glyphPositioning
      (gpos.GlyphPositioning.read ⟨false, false, false, false, false, false⟩) none := by
  have hf : Reads (File.read (· == 0x00010000)) contextualFile 0 contextualRead := by decide +kernel
  exact ⟨⟨_, hf, by decide +kernel⟩, ⟨_, hf, by decide +kernel⟩⟩

theorem contextual_asks : Inline substitutionExtension contextualValue ∧ ∀ i, Fewer (Asks substitutionActions contextualValue) 2 i := by
  refine ⟨by unfold Inline; decide +kernel, fun i => ?_⟩
  refine Fewer.mono (C126_ranked _ _ (fun i => if i = 0 then 1 else 0) (by decide +kernel) i) ?_
  split <;> omega

/-- The first lookup asks for the second and the fourth, which ask for nothing. So depth 2 suffices, and depth 1 does not. -/
example : (∀ m, 2 ≤ m → ∀ script language tags glyphs out,
      Reads (typeset (· == 0x00010000) ⟨false, false, false, false, false, false⟩ m script language tags glyphs) contextualFile 0 out ↔
      Reads (typeset (· == 0x00010000) ⟨false, false, false, false, false, false⟩ 2 script language tags glyphs) contextualFile 0 out) ∧
    Reads (typeset (· == 0x00010000) ⟨false, false, false, false, false, false⟩ 2 0x6C61746E 0x44455520 [0x63616C74] [3, 4])
      contextualFile 0 [⟨7, 0, []⟩, ⟨8, 0, []⟩, ⟨5, 0, []⟩] ∧
    Reads (typeset (· == 0x00010000) ⟨false, false, false, false, false, false⟩ 1 0x6C61746E 0x44455520 [0x63616C74] [3, 4])
      contextualFile 0 [⟨3, 0, []⟩, ⟨4, 0, []⟩] := by
  refine ⟨fun m hm script language tags glyphs out => ?_, by decide +kernel, by decide +kernel⟩
  refine C126_taken _ _ (by decide +kernel) contextual_taken.1 contextual_taken.2 (fun t h => ?_) (fun t h => by cases h) hm script
    language tags glyphs out
  obtain rfl := Option.some.inj h
  exact contextual_asks

/-- Its four lookups do not ask for each other in circles, in its bytes too. -/
example : ∀ p t, TableAt (· == 0x00010000) ⟨false, false, false, false, false, false⟩ contextualFile .glyphSubstitution p →
    Spec.gsub.IsGlyphSubstitution ⟨false, false, false, false, false, false⟩ contextualFile p t →
    NoCircles (CallsInSubstitution ⟨false, false, false, false, false, false⟩ contextualFile p) ∧ t.lookups.records.length < 5 := by
  intro p t hp ht
  have hd : Fits contextualFile := by decide +kernel
  obtain ⟨b, k1, k2⟩ := ((C55_tables _ _ hd 0).1 contextualValue).mp contextual_taken.1
  cases taken_place hd contextual_taken.1 hp k1
  have e := parses_unique (r := gsub.GlyphSubstitution.read ⟨false, false, false, false, false, false⟩) hd _ _ _ ht k2
  rw [e]
  refine ⟨noCircles_of_fewer fun i => Fewer.imp ((C126_asks _ hd).1 _ ((reads_parses hd).mpr k2) contextual_asks.1)
    (contextual_asks.2 i), by decide +kernel⟩

end OpenType.Props
