import Verif.Spec.Closed
import Verif.Props.Lacking
/-! # C124: text stays among the glyphs it leads to -/

namespace OpenType.Props
open OpenType Spec lookup directory context

/-! ## Relations that hold between a text and what becomes of it -/

/-- A relation between glyphs with others before them, the nearest first, and what becomes of them. It is a preorder, and what
is about the end of a text is about all of it. -/
structure Tame {α : Type} (R : List α → List α → List α → Prop) : Prop where
  refl : ∀ before text, R before text text
  trans : ∀ {before text middle out}, R before text middle → R before middle out → R before text out
  under : ∀ {before pre text out}, R (pre.reverse ++ before) text out → R before (pre ++ text) (pre ++ out)

section
variable {α : Type} {R : List α → List α → List α → Prop}

theorem tame_acted (hR : Tame R) {N : Nat → List α → List α → Option (List α × List α) → Prop} {I : α → Prop} {before : List α}
    (hN : ∀ i before text done rest, N i before text (some (done, rest)) → R before text (done ++ rest))
    {actions : List Action} {window rest window' rest' : List α} (h : ActedOn N I before actions window rest window' rest') :
    R before (window ++ rest) (window' ++ rest') := by
  induction h with
  | nil => exact hR.refl _ _
  | absent _ _ ih => exact ih
  | still _ _ _ ih => exact ih
  | act h1 h2 h3 _ ih =>
    obtain ⟨rfl, _, _⟩ := h1
    subst h3
    rw [List.take_append_drop] at ih
    refine hR.trans ?_ ih
    have := hR.under (hN _ _ _ _ _ h2)
    simpa only [List.append_assoc, List.cons_append] using this

theorem tame_forward (hR : Tame R) {touched : List α → List α → Option (List α × List α) → Prop}
    (ht : ∀ before text done rest, touched before text (some (done, rest)) → R before text (done ++ rest))
    {before text out : List α} (h : Forward touched before text out) : R before text out := by
  induction h with
  | nil => exact hR.refl _ _
  | @keep before g following out _ _ ih => exact hR.under (pre := [g]) ih
  | change h1 _ ih => exact hR.trans (ht _ _ _ _ h1) (hR.under ih)

theorem tame_below (hR : Tame R) {passed : Nat → List α → List α → Prop}
    (hp : ∀ i text out, passed i text out → R [] text out) {wanted : Nat → Prop} {m : Nat} {text out : List α}
    (h : Below passed wanted m text out) : R [] text out := by
  induction h with
  | zero => exact hR.refl _ _
  | skip _ _ ih => exact ih
  | pass _ _ h ih => exact hR.trans ih (hp _ _ _ h)

end

theorem Window.append {α : Type} {I : α → Prop} {n : Nat} {glyphs window rest : List α} (h : Window I n glyphs window rest) :
    window ++ rest = glyphs := by
  induction h with
  | zero => rfl
  | nil => rfl
  | ignore _ _ ih => rw [List.cons_append, ih]
  | seen _ _ ih => rw [List.cons_append, ih]

theorem doneAt_all {T β : Type} {cfg : Cfg} {number : Nat} {E : Effect T β} {d : Data} {p i : Nat} {y : β}
    (h : DoneAt cfg number E d p i y) {P : Nat → Nat → Prop} (ha : AllSubtables cfg number d p P) :
    ∃ type_ a, P type_ a ∧ E.does d type_ a y := by
  obtain ⟨j, ⟨type_, a, type', a', h1, h2, h3⟩, _⟩ := h
  exact ⟨type', a', ha _ _ _ _ _ _ h1 h2, h3.2⟩

section
variable {cfg : Cfg} {d : Data} {p : Nat} {I : Nat → Nat → Prop} {R : List Nat → List Nat → List Nat → Prop}
  {P : Nat → Nat → Prop}

theorem tame_touched (hR : Tame R) (ha : AllSubtables cfg 7 d p P)
    (h1 : ∀ i type_ a, P type_ a → ∀ before g following glyphs k rest, SubstitutedBy d type_ a g (seen (I i) following) glyphs k →
      Without (I i) k following rest → R before (g :: following) (glyphs ++ rest)) :
    ∀ n i before text done rest, Touched cfg d p I n i before text (some (done, rest)) → R before text (done ++ rest) := by
  intro n
  induction n with
  | zero => intro i before text done rest h; cases h
  | succ n ih =>
    intro i before text done rest h
    cases text with
    | nil => cases h
    | cons g following =>
      unfold Touched at h
      rcases h with ⟨_, h⟩ | ⟨_, _, h⟩ | ⟨_, glyphs, k, rest₁, k1, k2, h⟩ | ⟨_, k, actions, window, rest₁, window', rest', k1, k2, k3, h⟩
      · cases h
      · cases h
      · cases h
        obtain ⟨type_, a, hp, hs⟩ := doneAt_all k1 ha
        exact h1 i type_ a hp _ _ _ _ _ _ hs k2
      · cases h
        have := tame_acted hR (fun i before text done rest => ih i before text done rest) k3
        rw [List.cons_append, Window.append k2] at this
        exact this

theorem tame_backward (hR : Tame R) (ha : AllSubtables cfg 7 d p P) {i : Nat}
    (h2 : ∀ a, P 8 a → ∀ before g out x, ReversedBy d a (seen (I i) before) g (seen (I i) out) x →
      R before (g :: out) (x :: out)) {before text out : List Nat} (h : Backward cfg d p (I i) i before text out) :
    R before text out := by
  induction h with
  | nil => exact hR.refl _ _
  | @ignore before g following out _ _ ih => exact hR.under (pre := [g]) ih
  | @keep before g following out _ _ _ ih => exact hR.under (pre := [g]) ih
  | @replace before g following out x _ _ hd ih =>
    obtain ⟨type_, a, hp, rfl, hs⟩ := doneAt_all hd ha
    exact hR.trans (hR.under (pre := [g]) ih) (h2 a hp _ _ _ _ hs)

/-- What is between a glyph and what replaces it, is between a text and what becomes of it. -/
theorem tame_becomes (hR : Tame R) (ha : AllSubtables cfg 7 d p P)
    (h1 : ∀ i type_ a, P type_ a → ∀ before g following glyphs k rest, SubstitutedBy d type_ a g (seen (I i) following) glyphs k →
      Without (I i) k following rest → R before (g :: following) (glyphs ++ rest))
    (h2 : ∀ i a, P 8 a → ∀ before g out x, ReversedBy d a (seen (I i) before) g (seen (I i) out) x →
      R before (g :: out) (x :: out))
    {n : Nat} {script language : Tag} {tags : List Tag} {glyphs out : List Nat}
    (h : Becomes cfg d p I n script language tags glyphs out) : R [] glyphs out := by
  obtain ⟨m, _, h⟩ := h
  refine tame_below hR (fun i text out h => ?_) h
  obtain ⟨middle, k1, k2⟩ := h
  exact hR.trans (tame_forward hR (tame_touched hR ha h1 n i) k1) (tame_backward hR ha (h2 i) k2)

end

/-! ## Positioning -/

theorem settled_keeps {cfg : Cfg} {d : Data} {p : Nat} {I : Nat → Nat → Prop} {M : Nat → Prop} {n : Nat} {script language : Tag}
    {tags : List Tag} {text out : List Item} (h : SettledInto cfg d p I M n script language tags text out) :
    out.map (fun x => (x.glyph, x.component)) = text.map fun x => (x.glyph, x.component) := by
  have hR : Tame fun _ (text out : List Item) =>
      out.map (fun x => (x.glyph, x.component)) = text.map fun x => (x.glyph, x.component) :=
    ⟨fun _ _ => rfl, fun h1 h2 => h2.trans h1, fun h => by rw [List.map_append, List.map_append, h]⟩
  have split {J : Item → Prop} {k : Nat} {glyphs pre post : List Item} {x : Item} (h : SplitAt J k glyphs pre x post) :
      glyphs = pre ++ x :: post := h.1
  obtain ⟨m, _, h⟩ := h
  refine tame_below hR (fun i text out h => tame_forward hR (fun before text done rest => ?_) h) h
  clear h
  revert i before text done rest
  generalize n = n
  induction n with
  | zero => intro i before text done rest h; cases h
  | succ n ih =>
    intro i before text done rest h
    cases text with
    | nil => cases h
    | cons x following =>
      unfold Settled at h
      rcases h with ⟨_, h⟩ | ⟨_, base, _, ⟨_, h⟩ | ⟨r, done', rest', _, ho, h⟩⟩
      · cases h
      · cases h
      · cases h
        cases ho with
        | moved hs =>
          cases hs with
          | none => rfl
          | absent _ => rfl
          | moved hs =>
            rw [split hs]
            simp [Item.add]
        | joined _ => rfl
        | onBase => rfl
        | onMark _ => rfl
        | sequence hw hact =>
          have := tame_acted hR (fun i before text done rest => ih i before text done rest) hact
          rw [List.cons_append, Window.append hw] at this
          exact this

/-! ## Files -/

section
variable {accept : Tag → Bool} {cfg : Cfg} {d : Data}

theorem tame_typeset (hd : Fits d) {R : List Nat → List Nat → List Nat → Prop} {P : Nat → Nat → Prop} (hR : Tame R)
    (ha : ∀ p, TableAt accept cfg d .glyphSubstitution p → AllSubtables cfg 7 d p P)
    (h1 : ∀ (I : Nat → Prop) type_ a, P type_ a → ∀ before g following glyphs k rest,
      SubstitutedBy d type_ a g (seen I following) glyphs k → Without I k following rest → R before (g :: following) (glyphs ++ rest))
    (h2 : ∀ (I : Nat → Prop) a, P 8 a → ∀ before g out x, ReversedBy d a (seen I before) g (seen I out) x →
      R before (g :: out) (x :: out))
    {n : Nat} {script language : Tag} {tags : List Tag} {glyphs : List Nat} {out : List Item}
    (h : Reads (typeset accept cfg n script language tags glyphs) d 0 out) : R [] glyphs (out.map Item.glyph) := by
  obtain ⟨_, middle, hm, ho⟩ := (C113_typeset accept cfg hd n script language tags glyphs out).mp h
  have e1 : out.map Item.glyph = middle := by
    have key : ∀ text : List Item, text.map (fun x => (x.glyph, x.component)) = middle.map (fun g => (g, 0)) →
        text.map Item.glyph = middle := by
      intro text e
      have := congrArg (List.map Prod.fst) e
      rw [List.map_map, List.map_map] at this
      exact this.trans (List.map_id' middle)
    rcases ho with ⟨_, rfl⟩ | ⟨p, t, _, _, ho⟩
    · exact key _ (by rw [List.map_map]; rfl)
    · exact key _ ((settled_keeps ho).trans (by rw [List.map_map]; rfl))
  rw [e1]
  rcases hm with ⟨_, rfl⟩ | ⟨p, t, hp, _, hm⟩
  · exact hR.refl _ _
  · exact tame_becomes hR (ha p hp) (fun i => h1 _) (fun i => h2 _) hm

theorem mem_seen {I : Nat → Prop} {glyphs : List Nat} {g : Nat} (h : g ∈ seen I glyphs) : g ∈ glyphs := (List.mem_filter.mp h).1

theorem mem_without {I : Nat → Prop} {k : Nat} {glyphs rest : List Nat} (h : Without I k glyphs rest) {g : Nat} (hg : g ∈ rest) :
    g ∈ glyphs := by
  induction h with
  | zero => exact hg
  | nil => exact hg
  | ignore _ _ ih =>
    rcases List.mem_cons.mp hg with rfl | hg
    · exact List.mem_cons_self
    · exact List.mem_cons_of_mem _ (ih hg)
  | gone _ _ ih => exact List.mem_cons_of_mem _ (ih hg)

theorem without_zero {I : Nat → Prop} {glyphs rest : List Nat} (h : Without I 0 glyphs rest) : rest = glyphs := by
  cases h <;> rfl

/-- Text becomes text in the same glyphs, if these do not lead out of themselves. -/
theorem C124_closed (hd : Fits d) {S : Nat → Prop}
    (hS : ∀ p, TableAt accept cfg d .glyphSubstitution p → ClosedUnder cfg d p S)
    {n : Nat} {script language : Tag} {tags : List Tag} {glyphs : List Nat} {out : List Item}
    (h : Reads (typeset accept cfg n script language tags glyphs) d 0 out) (hg : ∀ g ∈ glyphs, S g) :
    ∀ x ∈ out, S x.glyph := by
  have hR : Tame fun before text out => Every S before → Every S text → Every S out :=
    ⟨fun _ _ _ h => h, fun h1 h2 hb ht => h2 hb (h1 hb ht), fun {before pre text out} h hb ht =>
      have hp : Every S pre := fun x hx => ht x (List.mem_append_left _ hx)
      hp.append (h (hp.reverse.append hb) fun x hx => ht x (List.mem_append_right _ hx))⟩
  have := tame_typeset hd hR hS ?_ ?_ h (by intro x hx; cases hx) hg
  · intro x hx
    exact this _ (List.mem_map_of_mem hx)
  · intro I type_ a ha before g following glyphs k rest hs hw hb ht
    have hg : S g := ht g List.mem_cons_self
    have hf : Every S following := fun x hx => ht x (List.mem_cons_of_mem _ hx)
    exact Every.append ((ha before g (seen I following) hb hg fun x hx => hf x (mem_seen hx)).1 glyphs k hs)
      fun x hx => hf x (mem_without hw hx)
  · intro I a ha before g out x hs hb ht
    have hg : S g := ht g List.mem_cons_self
    have hf : Every S out := fun x hx => ht x (List.mem_cons_of_mem _ hx)
    exact Every.cons ((ha (seen I before) g (seen I out) (fun x hx => hb x (mem_seen hx)) hg fun x hx => hf x (mem_seen hx)).2
      x rfl hs) hf

/-- Text in glyphs that no substitution covers stays what it is, whatever contexts match. -/
theorem C124_uncovered (hd : Fits d) {S : Nat → Prop}
    (hS : ∀ p, TableAt accept cfg d .glyphSubstitution p → NoneCovers cfg d p S)
    {n : Nat} {script language : Tag} {tags : List Tag} {glyphs : List Nat} {out : List Item}
    (h : Reads (typeset accept cfg n script language tags glyphs) d 0 out) (hg : ∀ g ∈ glyphs, S g) :
    out.map Item.glyph = glyphs := by
  have hR : Tame fun _ text out => Every S text → out = text := by
    refine ⟨fun _ _ _ => rfl, fun h1 h2 ht => ?_, fun {before pre text out} h ht => ?_⟩
    · cases h1 ht
      exact h2 ht
    · rw [h fun x hx => ht x (List.mem_append_right _ hx)]
  refine tame_typeset hd hR hS ?_ ?_ h hg
  · intro I type_ a ha before g following glyphs k rest hs hw ht
    have hg : S g := ht g List.mem_cons_self
    rcases hs with ⟨rfl, _, x, ⟨_, i, _, hc, _⟩ | ⟨_, i, _, hc, _⟩, _⟩ | ⟨rfl, _, s, ⟨i, _, _, hc, _⟩, _⟩ |
      ⟨rfl, x, ⟨s, _, ⟨i, _, _, hc, _⟩, _⟩, _⟩
    · exact (ha (.inl rfl) g i hg hc).elim
    · exact (ha (.inl rfl) g i hg hc).elim
    · exact (ha (.inr (.inl rfl)) g i hg hc).elim
    · exact (ha (.inr (.inr (.inl rfl))) g i hg hc).elim
  · intro I a ha before g out x hs ht
    have hg : S g := ht g List.mem_cons_self
    obtain ⟨i, _, _, hr, _⟩ := hs
    exact (ha (.inr (.inr (.inr rfl))) g i hg hr.1).elim

/-- Without multiple substitutions, text does not get longer; and without ligatures too, it has as many glyphs as before. -/
theorem C124_length (hd : Fits d) (h2 : ∀ p, TableAt accept cfg d .glyphSubstitution p → NoneOf cfg d p 2)
    {n : Nat} {script language : Tag} {tags : List Tag} {glyphs : List Nat} {out : List Item}
    (h : Reads (typeset accept cfg n script language tags glyphs) d 0 out) :
    out.length ≤ glyphs.length ∧
      ((∀ p, TableAt accept cfg d .glyphSubstitution p → NoneOf cfg d p 4) → out.length = glyphs.length) := by
  constructor
  · have hR : Tame fun _ (text out : List Nat) => out.length ≤ text.length :=
      ⟨fun _ _ => Nat.le_refl _, fun h1 h2 => Nat.le_trans h2 h1, fun h => by
        rw [List.length_append, List.length_append]; exact Nat.add_le_add_left h _⟩
    have := tame_typeset hd hR h2 ?_ ?_ h
    · rwa [List.length_map] at this
    · intro I type_ a ha before g following glyphs k rest hs hw
      have := without_length hw
      rcases hs with ⟨_, _, x, _, rfl⟩ | ⟨e, _⟩ | ⟨_, x, _, rfl⟩
      · simpa using this
      · exact (ha e).elim
      · simpa using this
    · intro I a ha before g out x hs
      exact Nat.le_refl _
  · intro h4
    have hR : Tame fun _ (text out : List Nat) => out.length = text.length :=
      ⟨fun _ _ => rfl, fun h1 h2 => h2.trans h1, fun h => by rw [List.length_append, List.length_append, h]⟩
    have := tame_typeset (P := fun type_ _ => type_ ≠ 2 ∧ type_ ≠ 4) hd hR
      (fun p hp i j type_ a type' a' k1 k2 => ⟨h2 p hp i j type_ a type' a' k1 k2, h4 p hp i j type_ a type' a' k1 k2⟩) ?_ ?_ h
    · rwa [List.length_map] at this
    · intro I type_ a ha before g following glyphs k rest hs hw
      rcases hs with ⟨_, rfl, x, _, rfl⟩ | ⟨e, _⟩ | ⟨e, _⟩
      · rw [without_zero hw]
        rfl
      · exact (ha.1 e).elim
      · exact (ha.2 e).elim
    · intro I a ha before g out x hs
      rfl

end

/-! ## Values -/

theorem bind_some {α β : Type} {x : Except Err (Option α)} {f : α → β} {y : β}
    (h : (do return (← x).map f) = (.ok (some y) : Except Err (Option β))) : ∃ z, x = .ok (some z) ∧ f z = y := by
  cases x with
  | error e => cases h
  | ok x =>
    cases x with
    | none => cases h
    | some z =>
      injection h with h
      injection h with h
      exact ⟨z, rfl, h⟩

theorem entry_mem {α : Type} {c : coverage.Coverage} {entries : List α} {g : Nat} {x : α}
    (h : entryOf c entries g = .ok (some x)) : x ∈ entries := by
  unfold entryOf at h
  split at h
  · cases h
  · rename_i i _
    cases e : element entries i with
    | error e' => rw [e] at h; cases h
    | ok y =>
      rw [e] at h
      cases h
      exact element_mem e

/-- What a subtable puts in the place of a glyph is what it may put there. -/
theorem react_produces {before : List Nat} {g : Nat} {following : List Nat} {x : gsub.Type_} :
    (∀ glyphs n, react before g following x = .ok (some (.replaced glyphs n)) → ∀ y ∈ glyphs, Produces x g y) ∧
    ∀ y, reverseAct before g following x = .ok (some y) → Produces x g y := by
  cases x with
  | singleSubstitution t =>
    refine ⟨fun glyphs n h => ?_, fun y h => by cases h⟩
    obtain ⟨z, k, e⟩ := bind_some h
    clear h
    cases e
    obtain ⟨w, h, rfl⟩ := bind_some k
    intro y hy
    cases List.mem_singleton.mp hy
    cases t with
    | format1 t =>
      injection h with h
      obtain ⟨i, h1, h2⟩ := Option.map_eq_some_iff.mp h
      exact ⟨by rw [h1]; rfl, h2.symm⟩
    | format2 t => exact entry_mem h
  | multipleSubstitution t =>
    refine ⟨fun glyphs n h => ?_, fun y h => by cases h⟩
    obtain ⟨z, k, e⟩ := bind_some h
    clear h
    cases e
    obtain ⟨w, h, rfl⟩ := bind_some k
    obtain ⟨v, k', rfl⟩ := bind_some h
    exact fun y hy => ⟨v, entry_mem k', hy⟩
  | ligatureSubstitution t =>
    refine ⟨fun glyphs n h => ?_, fun y h => by cases h⟩
    obtain ⟨z, k, e⟩ := bind_some h
    clear h
    cases e
    obtain ⟨w, h, rfl⟩ := bind_some k
    intro y hy
    cases List.mem_singleton.mp hy
    unfold ligate at h
    cases e : entryOf t.coverage t.records g with
    | error e' => rw [e] at h; cases h
    | ok set =>
      rw [e] at h
      cases set with
      | none => cases h
      | some set =>
        injection h with h
        obtain ⟨l, h1, h2⟩ := Option.map_eq_some_iff.mp h
        exact ⟨set, entry_mem e, l, List.mem_of_find?_eq_some h1, by rw [← h2]⟩
  | alternateSubstitution t => exact ⟨fun glyphs n h => (by cases h), fun y h => (by cases h)⟩
  | contextualSubstitution t =>
    refine ⟨fun glyphs n h => ?_, fun y h => by cases h⟩
    obtain ⟨_, _, e⟩ := bind_some h
    cases e
  | chainedContextualSubstitution t =>
    refine ⟨fun glyphs n h => ?_, fun y h => by cases h⟩
    obtain ⟨_, _, e⟩ := bind_some h
    cases e
  | extensionSubstitution t => exact ⟨fun glyphs n h => (by cases h), fun y h => (by cases h)⟩
  | reverseChainedContextualSubstibution t =>
    refine ⟨fun glyphs n h => (by cases h), fun y h => ?_⟩
    unfold reverseAct matchReverse at h
    dsimp only at h
    split at h
    · exact entry_mem h
    · cases h

/-- What is so of all subtables that were taken from a file is so of all that are in its bytes. -/
theorem taken_subtables {accept : Tag → Bool} {cfg : Cfg} {d : Data} (hd : Fits d) {W : gsub.Type_ → Prop} {p : Nat}
    {substitution : Option gsub.GlyphSubstitution}
    (h : Takes accept cfg d p .glyphSubstitution (gsub.GlyphSubstitution.read cfg) substitution)
    (hs : ∀ t, substitution = some t → Inline substitutionExtension t ∧
      ∀ record ∈ t.lookups.records, ∀ table ∈ record.tables, W table) :
    ∀ p, TableAt accept cfg d .glyphSubstitution p →
      AllSubtables cfg 7 d p fun type_ a => ∃ x, Spec.gsub.IsTable type_ d a x ∧ W x := by
  intro a ha
  obtain ⟨file, h1, font, h2, h3⟩ := h
  obtain ⟨_, font', e, _⟩ := (C01_one_font accept d 0 hd file).mp h1
  have e : file = ⟨[font']⟩ := by cases file; simp only at e; rw [e]
  subst e
  have h : Takes accept cfg d p .glyphSubstitution (gsub.GlyphSubstitution.read cfg) substitution := ⟨_, h1, font, h2, h3⟩
  cases substitution with
  | none =>
    obtain ⟨record, ⟨_, _, e, hk, _⟩, _⟩ := (tableAt_iff hd h1 _).mp ha
    exact ((absent_iff hd h1).mp ((C55_absent accept cfg _ hd p).mp h) record (by rw [e]; simp) hk).elim
  | some t =>
    obtain ⟨b, k1, k2⟩ := ((C55_tables accept cfg hd p).1 t).mp h
    cases placed_unique hd h1 ha k1
    intro i j type_ a' type' a'' g1 g2
    obtain ⟨x, h3, h4⟩ := all_subtables ((C101_follow cfg hd).1 t ((reads_parses hd).mpr k2)) (hs t rfl).1 (hs t rfl).2
      i j type_ a' type' a'' g1 g2
    exact ⟨x, (reads_parses (S := Spec.gsub.IsTable type') hd).mp h3, h4⟩

/-- Text becomes text in the same glyphs, if they contain what the subtables that were taken from the file may make of them. -/
theorem C124_taken {accept : Tag → Bool} {cfg : Cfg} {d : Data} (hd : Fits d) {S : Nat → Prop} {p : Nat}
    {substitution : Option gsub.GlyphSubstitution}
    (h : Takes accept cfg d p .glyphSubstitution (gsub.GlyphSubstitution.read cfg) substitution)
    (hs : ∀ t, substitution = some t → Inline substitutionExtension t ∧
      ∀ record ∈ t.lookups.records, ∀ table ∈ record.tables, ∀ g x, S g → Produces table g x → S x) :
    (∀ p, TableAt accept cfg d .glyphSubstitution p → ClosedUnder cfg d p S) ∧
    ∀ {n : Nat} {script language : Tag} {tags : List Tag} {glyphs : List Nat} {out : List Item},
      Reads (typeset accept cfg n script language tags glyphs) d 0 out → (∀ g ∈ glyphs, S g) → ∀ x ∈ out, S x.glyph := by
  have : ∀ p, TableAt accept cfg d .glyphSubstitution p → ClosedUnder cfg d p S := by
    intro p hp i j type_ a type' a' g1 g2 before g following hb hg hf
    obtain ⟨x, h3, h4⟩ := taken_subtables hd h hs p hp i j type_ a type' a' g1 g2
    refine ⟨fun glyphs n hy y hm => ?_, ?_⟩
    · exact h4 g y hg (react_produces.1 glyphs n (((react_iff hd before g following type' a' x h3).1 (.replaced glyphs n)).mpr hy)
        y hm)
    · rintro y rfl hy
      cases x with
      | reverseChainedContextualSubstibution t =>
        exact h4 g y hg (react_produces.2 y (((C105_reverse hd ((reads_parses hd).mpr h3.2) before g following).1 y).mpr hy))
      | _ => exact absurd h3.1 (by decide)
  exact ⟨this, fun h hg => C124_closed hd this h hg⟩

/-- In the file of the example of C113, glyphs 3, 4, 6 and 9 lead to glyphs 3, 4 and 6. -/
example : ∀ p, TableAt (· == 0x00010000) ⟨false, false, false, false, false, false⟩ typesettingFile .glyphSubstitution p →
    ClosedUnder ⟨false, false, false, false, false, false⟩ typesettingFile p (· ∈ [3, 4, 6, 9]) := by
  refine (C124_taken (by decide +kernel) takes_typesetting.2.1 ?_).1
  rintro t ⟨⟩
  refine ⟨by unfold Inline; decide +kernel, ?_⟩
  · intro record hr table ht g x _ hx
    simp only [shapingValue, List.mem_cons, List.not_mem_nil, or_false] at hr
    rcases hr with rfl | rfl <;> simp only [List.mem_cons, List.not_mem_nil, or_false] at ht <;> subst ht
    · obtain ⟨s, h1, h2⟩ := hx
      cases List.mem_singleton.mp h1
      rcases List.mem_cons.mp h2 with rfl | h2
      · decide
      · cases List.mem_singleton.mp h2
        decide
    · obtain ⟨s, h1, l, h2, rfl⟩ := hx
      cases List.mem_singleton.mp h1
      cases List.mem_singleton.mp h2
      decide

/-- A file with the table `sampleGsub`, which makes glyph 9 into glyph 6. -/
def singleFile : Data := fontFile 0x00010000 32 1 0
  [(TableType.glyphSubstitution.tag, render (directoryEncoding ⟨false, false, false, false, false, false⟩ sampleGsub))]

def singleRead : File :=
  match File.read (· == 0x00010000) singleFile 0 with
  | .ok x => x.1
  | .error _ => ⟨[]⟩

/-- It has no multiple substitutions and no ligatures, and covers glyph 9 only. -/
example : Fits singleFile ∧
    (∀ p, TableAt (· == 0x00010000) ⟨false, false, false, false, false, false⟩ singleFile .glyphSubstitution p →
      NoneOf ⟨false, false, false, false, false, false⟩ singleFile p 2 ∧
      NoneOf ⟨false, false, false, false, false, false⟩ singleFile p 4 ∧
      NoneCovers ⟨false, false, false, false, false, false⟩ singleFile p (· ≠ 9)) ∧
    ∃ p, TableAt (· == 0x00010000) ⟨false, false, false, false, false, false⟩ singleFile .glyphSubstitution p := by
  have hd : Fits singleFile := by decide +kernel
  have hf : Reads (File.read (· == 0x00010000)) singleFile 0 singleRead := by decide +kernel
  have ht : Takes (· == 0x00010000) ⟨false, false, false, false, false, false⟩ singleFile 0 .glyphSubstitution
      (gsub.GlyphSubstitution.read ⟨false, false, false, false, false, false⟩) (some sampleGsub) := ⟨_, hf, by decide +kernel⟩
  refine ⟨hd, fun p hp => ?_, ?_⟩
  · have key := taken_subtables (W := fun x => x = .singleSubstitution (.format1 ⟨1, 6, -3, .format1 ⟨1, 1, [9]⟩⟩)) hd ht
      (by rintro t ⟨⟩; exact ⟨by unfold Inline; decide +kernel, by decide +kernel⟩) p hp
    refine ⟨fun i j type_ a type' a' g1 g2 => ?_, fun i j type_ a type' a' g1 g2 => ?_, fun i j type_ a type' a' g1 g2 => ?_⟩
    · obtain ⟨x, h, rfl⟩ := key i j type_ a type' a' g1 g2
      obtain ⟨rfl, _⟩ := h
      decide
    · obtain ⟨x, h, rfl⟩ := key i j type_ a type' a' g1 g2
      obtain ⟨rfl, _⟩ := h
      decide
    · obtain ⟨x, h, rfl⟩ := key i j type_ a type' a' g1 g2
      obtain ⟨_, _, _, h1, _, h2⟩ := h
      intro _ g i hg hc
      have h : [9].findIdx? (· == g) = some i := (coveredIn_iff h1 h2 g i).mpr hc
      rw [List.findIdx?_cons] at h
      split at h
      · rename_i e
        exact hg (beq_iff_eq.mp e).symm
      · cases h
  · obtain ⟨a, h, _⟩ := ((C55_tables _ _ hd 0).1 _).mp ht
    exact ⟨a, h⟩

end OpenType.Props
