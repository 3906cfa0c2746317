import Verif.Spec.Separate
import Verif.Props.Closed
import Verif.Props.Nested
/-! # C127: words can be set one by one -/

namespace OpenType.Props
open OpenType Spec lookup directory context

/-! ## Subtables -/

theorem Edge.nil {S : Nat → Prop} : Edge S [] := fun _ h => by cases h

theorem Edge.cons {S : Nat → Prop} {b : Nat} (h : S b) {glyphs : List Nat} : Edge S (b :: glyphs) := fun _ e => by cases e; exact h

theorem edge_cases {S : Nat → Prop} {glyphs : List Nat} (h : Edge S glyphs) : glyphs = [] ∨ ∃ b rest, S b ∧ glyphs = b :: rest := by
  cases glyphs with
  | nil => exact .inl rfl
  | cons b rest => exact .inr ⟨b, rest, h b rfl, rfl⟩

theorem seen_append {α : Type} {I : α → Prop} {xs ys : List α} : seen I (xs ++ ys) = seen I xs ++ seen I ys := List.filter_append ..

theorem seen_not {α : Type} {I : α → Prop} {x : α} {xs : List α} (h : ¬I x) : seen I (x :: xs) = x :: seen I xs := by
  unfold seen
  rw [List.filter_cons_of_pos (by simpa using h)]

theorem seen_ignored {α : Type} {I : α → Prop} {x : α} {xs : List α} (h : I x) : seen I (x :: xs) = seen I xs := by
  unfold seen
  rw [List.filter_cons_of_neg (by simpa using h)]

theorem Edge.seen {S I : Nat → Prop} (hI : ∀ g, S g → ¬I g) {glyphs : List Nat} (h : Edge S glyphs) : Edge S (seen I glyphs) := by
  rcases edge_cases h with rfl | ⟨b, rest, hb, rfl⟩
  · exact Edge.nil
  · rw [seen_not (hI b hb)]
    exact Edge.cons hb

section
variable {T β : Type} {cfg : Cfg} {number : Nat} {E E' : Effect T β} {d : Data} {p i : Nat}

theorem works_same {type_ a : Nat} (hw : E.wellFormed = E'.wellFormed) (h : SameEffect E E' d type_ a) (y : β) :
    E.Works d y type_ a ↔ E'.Works d y type_ a := by
  unfold Effect.Works
  rw [hw, h.2 y]

theorem silent_same {type_ a : Nat} (hw : E.wellFormed = E'.wellFormed) (h : SameEffect E E' d type_ a) :
    E.Silent d type_ a ↔ E'.Silent d type_ a := by
  unfold Effect.Silent
  rw [hw, h.1]
  exact and_congr Iff.rfl (and_congr Iff.rfl (forall_congr' fun y => not_congr (h.2 y)))

theorem atSubtable_same {P P' Q : Nat → Nat → Prop} (ha : AllSubtables cfg number d p Q)
    (h : ∀ type_ a, Q type_ a → (P type_ a ↔ P' type_ a)) {j : Nat} :
    AtSubtable cfg number d p i j P ↔ AtSubtable cfg number d p i j P' := by
  constructor
  · rintro ⟨type_, a, type', a', h1, h2, h3⟩
    exact ⟨type_, a, type', a', h1, h2, (h _ _ (ha _ _ _ _ _ _ h1 h2)).mp h3⟩
  · rintro ⟨type_, a, type', a', h1, h2, h3⟩
    exact ⟨type_, a, type', a', h1, h2, (h _ _ (ha _ _ _ _ _ _ h1 h2)).mpr h3⟩

theorem doneAt_same {Q : Nat → Nat → Prop} (ha : AllSubtables cfg number d p Q) (hw : E.wellFormed = E'.wellFormed)
    (h : ∀ type_ a, Q type_ a → SameEffect E E' d type_ a) (y : β) :
    DoneAt cfg number E d p i y ↔ DoneAt cfg number E' d p i y :=
  exists_congr fun _ => and_congr (atSubtable_same ha fun _ _ hq => works_same hw (h _ _ hq) y)
    (forall_congr' fun _ => forall_congr' fun _ => atSubtable_same ha fun _ _ hq => silent_same hw (h _ _ hq))

theorem silentAt_same {Q : Nat → Nat → Prop} (ha : AllSubtables cfg number d p Q) (hw : E.wellFormed = E'.wellFormed)
    (h : ∀ type_ a, Q type_ a → SameEffect E E' d type_ a) : SilentAt cfg number E d p i ↔ SilentAt cfg number E' d p i :=
  forall_congr' fun _ => forall_congr' fun _ => forall_congr' fun _ => forall_congr' fun _ =>
    atSubtable_same ha fun _ _ hq => silent_same hw (h _ _ hq)

/-- What every subtable stands for something. -/
def Standing (cfg : Cfg) (number : Nat) (d : Data) (p : Nat) : Prop :=
  ∀ i j type_ a, SubtableAt cfg d p i j type_ a → ∃ type' a', StandsFor number d type_ a type' a'

theorem silentAt_of {Q : Nat → Nat → Prop} (hs : Standing cfg number d p) (ha : AllSubtables cfg number d p Q)
    (h : ∀ type_ a, Q type_ a → E.Silent d type_ a) : SilentAt cfg number E d p i := by
  intro j type_ a h1
  obtain ⟨type', a', h2⟩ := hs i j type_ a h1
  exact ⟨type_, a, type', a', h1, h2, h _ _ (ha _ _ _ _ _ _ h1 h2)⟩

theorem not_doneAt_of {Q : Nat → Nat → Prop} (ha : AllSubtables cfg number d p Q)
    (h : ∀ type_ a, Q type_ a → E.Silent d type_ a) (y : β) : ¬DoneAt cfg number E d p i y := by
  rintro ⟨j, ⟨type_, a, type', a', h1, h2, h3⟩, _⟩
  exact (h _ _ (ha _ _ _ _ _ _ h1 h2)).2.2 y h3.2

end

/-! ## Parts of text -/

theorem Without.extend {I : Nat → Prop} {n : Nat} {glyphs right rest : List Nat} (h : n ≤ (seen I glyphs).length) :
    Without I n (glyphs ++ right) rest ↔ ∃ rest', Without I n glyphs rest' ∧ rest = rest' ++ right := by
  constructor
  · induction glyphs generalizing n rest with
    | nil =>
      intro hw
      obtain rfl : n = 0 := Nat.le_zero.mp h
      cases without_zero hw
      exact ⟨[], .zero, rfl⟩
    | cons g glyphs ih =>
      intro hw
      rw [List.cons_append] at hw
      cases hw with
      | zero => exact ⟨g :: glyphs, .zero, rfl⟩
      | ignore h1 h2 =>
        rw [seen_ignored h1] at h
        obtain ⟨rest', h3, rfl⟩ := ih h h2
        exact ⟨g :: rest', .ignore h1 h3, rfl⟩
      | gone h1 h2 =>
        rw [seen_not h1, List.length_cons] at h
        obtain ⟨rest', h3, rfl⟩ := ih (by omega) h2
        exact ⟨rest', .gone h1 h3, rfl⟩
  · rintro ⟨rest', h1, rfl⟩
    induction h1 with
    | zero => exact .zero
    | @nil n =>
      obtain rfl : n = 0 := Nat.le_zero.mp h
      exact .zero
    | ignore h1 _ ih =>
      rw [seen_ignored h1] at h
      exact .ignore h1 (ih h)
    | gone h1 _ ih =>
      rw [seen_not h1, List.length_cons] at h
      exact .gone h1 (ih (by omega))

theorem Window.extend {α : Type} {I : α → Prop} {n : Nat} {glyphs right window rest : List α} (h : n ≤ (seen I glyphs).length) :
    Window I n (glyphs ++ right) window rest ↔ ∃ rest', Window I n glyphs window rest' ∧ rest = rest' ++ right := by
  constructor
  · induction glyphs generalizing n window rest with
    | nil =>
      intro hw
      obtain rfl : n = 0 := Nat.le_zero.mp h
      cases hw <;> exact ⟨[], .zero, rfl⟩
    | cons g glyphs ih =>
      intro hw
      rw [List.cons_append] at hw
      cases hw with
      | zero => exact ⟨g :: glyphs, .zero, rfl⟩
      | ignore h1 h2 =>
        rw [seen_ignored h1] at h
        obtain ⟨rest', h3, rfl⟩ := ih h h2
        exact ⟨rest', .ignore h1 h3, rfl⟩
      | seen h1 h2 =>
        rw [seen_not h1, List.length_cons] at h
        obtain ⟨rest', h3, rfl⟩ := ih (by omega) h2
        exact ⟨rest', .seen h1 h3, rfl⟩
  · rintro ⟨rest', h1, rfl⟩
    induction h1 with
    | zero => exact .zero
    | @nil n =>
      obtain rfl : n = 0 := Nat.le_zero.mp h
      exact .zero
    | ignore h1 _ ih =>
      rw [seen_ignored h1] at h
      exact .ignore h1 (ih h)
    | seen h1 _ ih =>
      rw [seen_not h1, List.length_cons] at h
      exact .seen h1 (ih (by omega))

/-- What is done with a text, if there is more on the right. -/
def beside {α : Type} (right : List α) (x : List α × List α) : List α × List α := (x.1, x.2 ++ right)

/-- What is done at the beginning of a text depends neither on what is from an edge on the left, nor on what is from an edge on the
right. -/
def Apart {α : Type} (edge : List α → Prop) (touched : List α → List α → Option (List α × List α) → Prop) : Prop :=
  ∀ before text left right result, edge left → edge right →
    (touched (before ++ left) (text ++ right) result ↔ ∃ r, touched before text r ∧ result = r.map (beside right))

section
variable {α : Type} {edge : List α → Prop} {nested : Nat → List α → List α → Option (List α × List α) → Prop} {I : α → Prop}
  {before left right : List α} {actions : List Action} {window rest window' rest' : List α}

theorem actedOn_apart (h : ∀ action ∈ actions, Apart edge (nested action.lookup_index)) (hl : edge left) (hr : edge right) :
    ActedOn nested I (before ++ left) actions window (rest ++ right) window' rest' ↔
      ∃ r, ActedOn nested I before actions window rest window' r ∧ rest' = r ++ right := by
  have e (pre post : List α) (g : α) (rest : List α) :
      pre.reverse ++ (before ++ left) = (pre.reverse ++ before) ++ left ∧ g :: post ++ (rest ++ right) = (g :: post ++ rest) ++ right := by
    simp
  constructor
  · generalize hx : rest ++ right = x
    intro ha
    induction ha generalizing rest with
    | nil =>
      cases hx
      exact ⟨rest, .nil, rfl⟩
    | absent h1 _ ih =>
      obtain ⟨r, k1, k2⟩ := ih (fun a ha => h a (List.mem_cons_of_mem _ ha)) hx
      exact ⟨r, .absent h1 k1, k2⟩
    | @still action actions window _ pre g post _ _ h1 h2 _ ih =>
      obtain ⟨r, k1, k2⟩ := ih (fun a ha => h a (List.mem_cons_of_mem _ ha)) hx
      subst hx
      rw [(e pre post g rest).1, (e pre post g rest).2] at h2
      obtain ⟨r', h3, h4⟩ := (h action List.mem_cons_self _ _ _ _ _ hl hr).mp h2
      cases r' with
      | none => exact ⟨r, .still h1 h3 k1, k2⟩
      | some _ => cases h4
    | @act action actions window _ pre g post done rest₁ text _ _ h1 h2 h3 _ ih =>
      subst hx
      rw [(e pre post g rest).1, (e pre post g rest).2] at h2
      obtain ⟨r', h4, h5⟩ := (h action List.mem_cons_self _ _ _ _ _ hl hr).mp h2
      cases r' with
      | none => cases h5
      | some y =>
        obtain ⟨y1, y2⟩ := y
        cases h5
        subst h3
        have hk : (pre ++ y1 ++ (y2 ++ right)).length - (rest ++ right).length = (pre ++ y1 ++ y2).length - rest.length := by
          simp only [List.length_append]; omega
        have hle : (pre ++ y1 ++ y2).length - rest.length ≤ (pre ++ y1 ++ y2).length := Nat.sub_le _ _
        have e1 : (pre ++ y1 ++ (y2 ++ right)) = (pre ++ y1 ++ y2) ++ right := by simp
        rw [hk, e1, List.take_append_of_le_length hle, List.drop_append_of_le_length hle] at ih
        obtain ⟨r, k1, k2⟩ := ih (fun a ha => h a (List.mem_cons_of_mem _ ha)) rfl
        exact ⟨r, .act h1 h4 rfl k1, k2⟩
  · rintro ⟨r, ha, rfl⟩
    induction ha with
    | nil => exact .nil
    | absent h1 _ ih => exact .absent h1 (ih fun a ha => h a (List.mem_cons_of_mem _ ha))
    | @still action actions window rest pre g post _ _ h1 h2 _ ih =>
      refine .still h1 ?_ (ih fun a ha => h a (List.mem_cons_of_mem _ ha))
      rw [(e pre post g rest).1, (e pre post g rest).2]
      exact (h action List.mem_cons_self _ _ _ _ _ hl hr).mpr ⟨_, h2, rfl⟩
    | @act action actions window rest pre g post done rest₁ text _ _ h1 h2 h3 _ ih =>
      subst h3
      refine .act (done := done) (rest₁ := rest₁ ++ right) h1 ?_ rfl ?_
      · rw [(e pre post g rest).1, (e pre post g rest).2]
        exact (h action List.mem_cons_self _ _ _ _ _ hl hr).mpr ⟨_, h2, rfl⟩
      · have hk : (pre ++ done ++ (rest₁ ++ right)).length - (rest ++ right).length = (pre ++ done ++ rest₁).length - rest.length := by
          simp only [List.length_append]; omega
        have hle : (pre ++ done ++ rest₁).length - rest.length ≤ (pre ++ done ++ rest₁).length := Nat.sub_le _ _
        have e1 : (pre ++ done ++ (rest₁ ++ right)) = (pre ++ done ++ rest₁) ++ right := by simp
        rw [hk, e1, List.take_append_of_le_length hle, List.drop_append_of_le_length hle]
        exact ih fun a ha => h a (List.mem_cons_of_mem _ ha)

variable {touched : List α → List α → Option (List α × List α) → Prop}

/-- A lookup goes through words one by one. -/
theorem forward_apart (h : Apart edge touched) (hn : edge []) {x : α} (hx : ∀ xs, edge (x :: xs)) (hne : ∀ before, touched before [] none)
    (hu : ∀ before r, touched before [] r → r = none)
    {text more out : List α} :
    Forward touched before (text ++ x :: more) out ↔
      ∃ o1 o2, Forward touched before text o1 ∧ Forward touched [] more o2 ∧ out = o1 ++ x :: o2 := by
  have base {before text out left : List α} (hl : edge left) :
      Forward touched (before ++ left) text out ↔ Forward touched before text out := by
    have single {before text : List α} {r : Option (List α × List α)} :
        touched (before ++ left) text r ↔ touched before text r := by
      have := h before text left [] r hl hn
      rw [List.append_nil] at this
      rw [this]
      have e : ∀ r : Option (List α × List α), r.map (beside []) = r := by
        intro r
        cases r with
        | none => rfl
        | some y => simp [beside]
      constructor
      · rintro ⟨r', h1, rfl⟩
        rw [e]
        exact h1
      · intro h1
        exact ⟨r, h1, (e r).symm⟩
    constructor
    · generalize hb : before ++ left = b
      intro hf
      induction hf generalizing before with
      | nil => exact .nil
      | keep h1 _ ih =>
        subst hb
        exact .keep (single.mp h1) (ih rfl)
      | @change _ g following done rest out h1 _ ih =>
        subst hb
        exact .change (single.mp h1) (ih (List.append_assoc ..))
    · intro hf
      induction hf with
      | nil => exact .nil
      | keep h1 _ ih => exact .keep (single.mpr h1) ih
      | change h1 _ ih =>
        refine .change (single.mpr h1) ?_
        rw [← List.append_assoc]
        exact ih
  have split {before text : List α} {r : Option (List α × List α)} :
      touched before (text ++ x :: more) r ↔ ∃ r', touched before text r' ∧ r = r'.map (beside (x :: more)) := by
    have := h before text [] (x :: more) r hn (hx more)
    rwa [List.append_nil] at this
  constructor
  · generalize ht : text ++ x :: more = t
    intro hf
    induction hf generalizing text with
    | nil => cases text <;> cases ht
    | @keep before g following out h1 h2 ih =>
      cases text with
      | nil =>
        cases ht
        exact ⟨[], out, .nil, (base (before := []) (hx before)).mp h2, rfl⟩
      | cons g' text =>
        cases ht
        obtain ⟨r, k1, k2⟩ := (split (text := g :: text)).mp h1
        cases r with
        | none =>
          obtain ⟨o1, o2, k3, k4, k5⟩ := ih rfl
          exact ⟨g :: o1, o2, .keep k1 k3, k4, by rw [k5]; rfl⟩
        | some _ => cases k2
    | @change before g following done rest out h1 h2 ih =>
      cases text with
      | nil =>
        cases ht
        obtain ⟨r, k1, k2⟩ := (split (text := [])).mp h1
        cases hu _ _ k1
        cases k2
      | cons g' text =>
        cases ht
        obtain ⟨r, k1, k2⟩ := (split (text := g :: text)).mp h1
        cases r with
        | none => cases k2
        | some y =>
          obtain ⟨y1, y2⟩ := y
          cases k2
          obtain ⟨o1, o2, k3, k4, k5⟩ := ih rfl
          exact ⟨y1 ++ o1, o2, .change k1 k3, k4, by rw [k5, List.append_assoc]⟩
  · rintro ⟨o1, o2, h1, h2, rfl⟩
    induction h1 with
    | @nil before =>
      refine .keep (split (text := []) |>.mpr ⟨none, hne before, rfl⟩) ?_
      exact (base (before := []) (hx before)).mpr h2
    | keep h1 _ ih => exact .keep (split.mpr ⟨none, h1, rfl⟩) ih
    | @change before g following done rest out h1 _ ih =>
      rw [List.append_assoc]
      exact .change (rest := rest ++ x :: more) (split.mpr ⟨some (done, rest), h1, rfl⟩) ih

end

/-! ## Substitution -/

theorem begins_length {α β : Type} {R : β → α → Prop} {xs : List α} {ys : List β} (h : Begins R xs ys) : xs.length ≤ ys.length := by
  rcases Nat.eq_zero_or_pos xs.length with e | e
  · omega
  · obtain ⟨y, h1, _⟩ := h (xs.length - 1) _ (List.getElem?_eq_getElem (by omega))
    have := (List.getElem?_eq_some_iff.mp h1).1
    omega

theorem coveredBy_length {d : Data} {p a n : Nat} {glyphs : List Nat} (h : CoveredBy d p a n glyphs) : n ≤ glyphs.length := by
  rcases Nat.eq_zero_or_pos n with e | e
  · omega
  · obtain ⟨g, _, _, h1, _⟩ := h (n - 1) (by omega)
    have := (List.getElem?_eq_some_iff.mp h1).1
    omega

theorem matched_length {d : Data} {a g : Nat} {following : List Nat} {k : Nat} {actions : List Action}
    (h : MatchedBy d a g following (k, actions)) : k - 1 ≤ following.length := by
  rcases h with ⟨_, _, rule, _, ⟨_, _, h, _⟩, e⟩ | ⟨_, _, _, rule, _, _, ⟨_, _, h, _⟩, e⟩ | ⟨_, n, _, _, _, h, rfl, _⟩
  · cases e
    exact begins_length h
  · cases e
    exact begins_length h
  · have := coveredBy_length h
    rw [List.length_cons] at this
    dsimp only at *
    omega

theorem chainMatched_length {d : Data} {a g : Nat} {before following : List Nat} {k : Nat} {actions : List Action}
    (h : ChainMatchedBy d a before g following (k, actions)) : k - 1 ≤ following.length := by
  rcases h with ⟨_, _, rule, _, ⟨_, _, ⟨_, h, _⟩, _⟩, e⟩ | ⟨_, _, _, _, _, rule, _, _, _, _, ⟨_, _, ⟨_, h, _⟩, _⟩, e⟩ |
    ⟨_, _, n, _, _, _, _, _, _, _, h, _, e, _⟩
  · cases e
    exact begins_length h
  · cases e
    exact begins_length h
  · have := coveredBy_length h
    rw [List.length_cons] at this
    dsimp only at *
    omega

theorem doneAt_does {T β : Type} {cfg : Cfg} {number : Nat} {E : Effect T β} {d : Data} {p i : Nat} {y : β}
    (h : DoneAt cfg number E d p i y) : ∃ type_ a, E.does d type_ a y := by
  obtain ⟨j, ⟨type_, a, type', a', h1, h2, h3⟩, _⟩ := h
  exact ⟨type', a', h3.2⟩

theorem Option.isNone_apart {α : Type} {right : List α} {result : Option (List α × List α)} :
    result = none ↔ ∃ r : Option (List α × List α), r = none ∧ result = r.map (beside right) := by
  constructor
  · rintro rfl
    exact ⟨none, rfl, rfl⟩
  · rintro ⟨_, rfl, rfl⟩
    rfl

section
variable {cfg : Cfg} {d : Data} {p : Nat} {I : Nat → Nat → Prop} {S : Nat → Prop}

theorem touched_apart (hst : Standing cfg 7 d p) (hs : SubstitutionSeparated cfg d p S) (hI : ∀ i g, S g → ¬I i g) (n i : Nat) :
    Apart (Edge S) (Touched cfg d p I n i) := by
  induction n generalizing i with
  | zero => exact fun _ _ _ _ _ _ _ => Option.isNone_apart
  | succ n ih =>
    intro before text left right result hl hr
    cases text with
    | nil =>
      rcases edge_cases hr with rfl | ⟨b, rest, hb, rfl⟩
      · exact Option.isNone_apart
      · refine Iff.trans ?_ Option.isNone_apart
        have hq : ∀ type_ a, (∀ before g following,
            (S g → (reaction before g following).Silent d type_ a ∧ (reverseEffect before g following).Silent d type_ a) ∧
            ∀ left right, Edge S left → Edge S right →
              SameEffect (reaction (before ++ left) g (following ++ right)) (reaction before g following) d type_ a ∧
              SameEffect (reverseEffect (before ++ left) g (following ++ right)) (reverseEffect before g following) d type_ a) →
            (reaction (seen (I i) (before ++ left)) b (seen (I i) rest)).Silent d type_ a := fun type_ a h => ((h _ _ _).1 hb).1
        show Touched cfg d p I (n + 1) i (before ++ left) (b :: rest) result ↔ _
        unfold Touched
        constructor
        · rintro (⟨h, _⟩ | ⟨_, _, h⟩ | ⟨_, _, _, _, h, _⟩ | ⟨_, _, _, _, _, _, _, h, _⟩)
          · exact (hI i b hb h).elim
          · exact h
          · exact (not_doneAt_of hs hq _ h).elim
          · exact (not_doneAt_of hs hq _ h).elim
        · intro h
          exact .inr (.inl ⟨hI i b hb, silentAt_of hst hs hq, h⟩)
    | cons g following =>
      have same : ∀ type_ a, (∀ before g following,
            (S g → (reaction before g following).Silent d type_ a ∧ (reverseEffect before g following).Silent d type_ a) ∧
            ∀ left right, Edge S left → Edge S right →
              SameEffect (reaction (before ++ left) g (following ++ right)) (reaction before g following) d type_ a ∧
              SameEffect (reverseEffect (before ++ left) g (following ++ right)) (reverseEffect before g following) d type_ a) →
          SameEffect (reaction (seen (I i) (before ++ left)) g (seen (I i) (following ++ right)))
            (reaction (seen (I i) before) g (seen (I i) following)) d type_ a := by
        intro type_ a h
        rw [seen_append, seen_append]
        exact ((h _ _ _).2 _ _ (Edge.seen (hI i) hl) (Edge.seen (hI i) hr)).1
      have hdone : ∀ y, DoneAt cfg 7 (reaction (seen (I i) (before ++ left)) g (seen (I i) (following ++ right))) d p i y ↔
          DoneAt cfg 7 (reaction (seen (I i) before) g (seen (I i) following)) d p i y := doneAt_same hs rfl same
      have hsilent : SilentAt cfg 7 (reaction (seen (I i) (before ++ left)) g (seen (I i) (following ++ right))) d p i ↔
          SilentAt cfg 7 (reaction (seen (I i) before) g (seen (I i) following)) d p i := silentAt_same hs rfl same
      show Touched cfg d p I (n + 1) i (before ++ left) (g :: (following ++ right)) result ↔
        ∃ r, Touched cfg d p I (n + 1) i before (g :: following) r ∧ result = r.map (beside right)
      unfold Touched
      constructor
      · rintro (⟨h, rfl⟩ | ⟨h, h1, rfl⟩ | ⟨h, glyphs, k, rest, h1, h2, rfl⟩ | ⟨h, k, actions, window, rest, window', rest', h1, h2, h3, rfl⟩)
        · exact ⟨none, .inl ⟨h, rfl⟩, rfl⟩
        · exact ⟨none, .inr (.inl ⟨h, hsilent.mp h1, rfl⟩), rfl⟩
        · have h1 := (hdone _).mp h1
          have hk : k ≤ (seen (I i) following).length := by
            obtain ⟨type_, a, h⟩ := doneAt_does h1
            rcases h with ⟨_, rfl, _⟩ | ⟨_, rfl, _⟩ | ⟨_, x, ⟨_, _, _, ⟨components, _, h, rfl⟩, _⟩, _⟩
            · omega
            · omega
            · exact h.length_le
          obtain ⟨rest', h3, rfl⟩ := (Without.extend hk).mp h2
          exact ⟨some (glyphs, rest'), .inr (.inr (.inl ⟨h, glyphs, k, rest', h1, h3, rfl⟩)), rfl⟩
        · have h1 := (hdone _).mp h1
          have hk : k - 1 ≤ (seen (I i) following).length := by
            obtain ⟨type_, a, h⟩ := doneAt_does h1
            rcases h with ⟨_, h⟩ | ⟨_, h⟩
            · exact matched_length h
            · exact chainMatched_length h
          obtain ⟨rest₁, h4, rfl⟩ := (Window.extend hk).mp h2
          obtain ⟨r, h5, rfl⟩ := (actedOn_apart (fun action _ => ih action.lookup_index) hl hr).mp h3
          exact ⟨some (window', r), .inr (.inr (.inr ⟨h, k, actions, window, rest₁, window', r, h1, h4, h5, rfl⟩)), rfl⟩
      · rintro ⟨r, ⟨h, rfl⟩ | ⟨h, h1, rfl⟩ | ⟨h, glyphs, k, rest, h1, h2, rfl⟩ |
          ⟨h, k, actions, window, rest, window', rest', h1, h2, h3, rfl⟩, rfl⟩
        · exact .inl ⟨h, rfl⟩
        · exact .inr (.inl ⟨h, hsilent.mpr h1, rfl⟩)
        · have hk : k ≤ (seen (I i) following).length := by
            obtain ⟨type_, a, h⟩ := doneAt_does h1
            rcases h with ⟨_, rfl, _⟩ | ⟨_, rfl, _⟩ | ⟨_, x, ⟨_, _, _, ⟨components, _, h, rfl⟩, _⟩, _⟩
            · omega
            · omega
            · exact h.length_le
          exact .inr (.inr (.inl ⟨h, glyphs, k, _, (hdone _).mpr h1, (Without.extend hk).mpr ⟨rest, h2, rfl⟩, rfl⟩))
        · have hk : k - 1 ≤ (seen (I i) following).length := by
            obtain ⟨type_, a, h⟩ := doneAt_does h1
            rcases h with ⟨_, h⟩ | ⟨_, h⟩
            · exact matched_length h
            · exact chainMatched_length h
          exact .inr (.inr (.inr ⟨h, k, actions, window, _, window', _, (hdone _).mpr h1, (Window.extend hk).mpr ⟨rest, h2, rfl⟩,
            (actedOn_apart (fun action _ => ih action.lookup_index) hl hr).mpr ⟨rest', h3, rfl⟩, rfl⟩))

theorem backward_cons {J : Nat → Prop} {i : Nat} {before following out : List Nat} {g : Nat} :
    Backward cfg d p J i before (g :: following) out ↔ ∃ rest, Backward cfg d p J i (g :: before) following rest ∧
      ((J g ∧ out = g :: rest) ∨ (¬J g ∧ SilentAt cfg 7 (reverseEffect (seen J before) g (seen J rest)) d p i ∧ out = g :: rest) ∨
        ¬J g ∧ ∃ x, DoneAt cfg 7 (reverseEffect (seen J before) g (seen J rest)) d p i x ∧ out = x :: rest) := by
  constructor
  · intro h
    cases h with
    | ignore h1 h2 => exact ⟨_, h1, .inl ⟨h2, rfl⟩⟩
    | keep h1 h2 h3 => exact ⟨_, h1, .inr (.inl ⟨h2, h3, rfl⟩)⟩
    | replace h1 h2 h3 => exact ⟨_, h1, .inr (.inr ⟨h2, _, h3, rfl⟩)⟩
  · rintro ⟨rest, h1, ⟨h2, rfl⟩ | ⟨h2, h3, rfl⟩ | ⟨h2, x, h3, rfl⟩⟩
    · exact .ignore h1 h2
    · exact .keep h1 h2 h3
    · exact .replace h1 h2 h3

theorem backward_apart (hst : Standing cfg 7 d p) (hs : SubstitutionSeparated cfg d p S) {J : Nat → Prop} (hJ : ∀ g, S g → ¬J g) {i : Nat}
    {before text more out : List Nat} {b : Nat} (hb : S b) :
    Backward cfg d p J i before (text ++ b :: more) out ↔
      ∃ o1 o2, Backward cfg d p J i before text o1 ∧ Backward cfg d p J i [] more o2 ∧ out = o1 ++ b :: o2 := by
  have same {before left rest right : List Nat} {g : Nat} (hl : Edge S left) (hr : Edge S right) :
      (SilentAt cfg 7 (reverseEffect (seen J (before ++ left)) g (seen J (rest ++ right))) d p i ↔
        SilentAt cfg 7 (reverseEffect (seen J before) g (seen J rest)) d p i) ∧
      ∀ x, DoneAt cfg 7 (reverseEffect (seen J (before ++ left)) g (seen J (rest ++ right))) d p i x ↔
        DoneAt cfg 7 (reverseEffect (seen J before) g (seen J rest)) d p i x := by
    rw [seen_append, seen_append]
    exact ⟨silentAt_same hs rfl fun type_ a h => ((h _ _ _).2 _ _ (Edge.seen hJ hl) (Edge.seen hJ hr)).2,
      doneAt_same hs rfl fun type_ a h => ((h _ _ _).2 _ _ (Edge.seen hJ hl) (Edge.seen hJ hr)).2⟩
  have base {left : List Nat} (hl : Edge S left) : ∀ text before out,
      Backward cfg d p J i (before ++ left) text out ↔ Backward cfg d p J i before text out := by
    intro text
    induction text with
    | nil =>
      intro before out
      constructor
      · intro h; cases h; exact .nil
      · intro h; cases h; exact .nil
    | cons g text ih =>
      intro before out
      rw [backward_cons, backward_cons]
      refine exists_congr fun rest => and_congr (ih (g :: before) rest) (or_congr Iff.rfl (or_congr ?_ ?_))
      · have := (same (before := before) (rest := rest) (g := g) hl (Edge.nil (S := S))).1
        rw [List.append_nil] at this
        rw [this]
      · have := (same (before := before) (rest := rest) (g := g) hl (Edge.nil (S := S))).2
        simp only [List.append_nil] at this
        simp only [this]
  induction text generalizing before out with
  | nil =>
    rw [List.nil_append, backward_cons]
    have hq := fun (rest : List Nat) (type_ a : Nat) (h : ∀ before g following,
            (S g → (reaction before g following).Silent d type_ a ∧ (reverseEffect before g following).Silent d type_ a) ∧
            ∀ left right, Edge S left → Edge S right →
              SameEffect (reaction (before ++ left) g (following ++ right)) (reaction before g following) d type_ a ∧
              SameEffect (reverseEffect (before ++ left) g (following ++ right)) (reverseEffect before g following) d type_ a) =>
            ((h (seen J before) b (seen J rest)).1 hb).2
    constructor
    · rintro ⟨rest, h1, ⟨h2, _⟩ | ⟨_, _, rfl⟩ | ⟨_, x, h2, _⟩⟩
      · exact (hJ b hb h2).elim
      · exact ⟨[], rest, .nil, (base (Edge.cons hb) more [] rest).mp h1, rfl⟩
      · exact (not_doneAt_of hs (hq rest) x h2).elim
    · rintro ⟨o1, o2, h1, h2, rfl⟩
      cases h1
      exact ⟨o2, (base (Edge.cons hb) more [] o2).mpr h2, .inr (.inl ⟨hJ b hb, silentAt_of hst hs (hq o2), rfl⟩)⟩
  | cons g text ih =>
    rw [List.cons_append, backward_cons]
    simp only [backward_cons, ih]
    constructor
    · rintro ⟨_, ⟨o1, o2, h1, h2, rfl⟩, h3⟩
      have e := same (before := before) (rest := o1) (g := g) (Edge.nil (S := S)) (Edge.cons hb (glyphs := o2))
      simp only [List.append_nil] at e
      rw [e.1] at h3
      simp only [e.2] at h3
      rcases h3 with ⟨h3, rfl⟩ | ⟨h3, h4, rfl⟩ | ⟨h3, x, h4, rfl⟩
      · exact ⟨g :: o1, o2, ⟨o1, h1, .inl ⟨h3, rfl⟩⟩, h2, rfl⟩
      · exact ⟨g :: o1, o2, ⟨o1, h1, .inr (.inl ⟨h3, h4, rfl⟩)⟩, h2, rfl⟩
      · exact ⟨x :: o1, o2, ⟨o1, h1, .inr (.inr ⟨h3, x, h4, rfl⟩)⟩, h2, rfl⟩
    · rintro ⟨_, o2, ⟨o1, h1, h3⟩, h2, rfl⟩
      have e := same (before := before) (rest := o1) (g := g) (Edge.nil (S := S)) (Edge.cons hb (glyphs := o2))
      simp only [List.append_nil] at e
      rw [← e.1] at h3
      simp only [← e.2] at h3
      rcases h3 with ⟨h3, rfl⟩ | ⟨h3, h4, rfl⟩ | ⟨h3, x, h4, rfl⟩
      · exact ⟨_, ⟨o1, o2, h1, h2, rfl⟩, .inl ⟨h3, rfl⟩⟩
      · exact ⟨_, ⟨o1, o2, h1, h2, rfl⟩, .inr (.inl ⟨h3, h4, rfl⟩)⟩
      · exact ⟨_, ⟨o1, o2, h1, h2, rfl⟩, .inr (.inr ⟨h3, x, h4, rfl⟩)⟩

end

/-! ## Positioning -/

theorem seen_glyphs {J : Nat → Prop} {xs : List Item} : seen J (xs.map Item.glyph) = (seen (fun x => J x.glyph) xs).map Item.glyph := by
  unfold seen
  rw [List.filter_map]
  rfl

section
variable {J : Item → Prop} {xs right : List Item}

theorem nearest_exists (J : Item → Prop) (xs : List Item) : ∃ y, Nearest J xs y := by
  classical
  exact ⟨_, (nearest_iff (ignored := fun x => decide (J x)) (fun x => by simp) xs _).mp rfl⟩

theorem nearest_unique {y z : Option (Nat × Item)} (hy : Nearest J xs y) (hz : Nearest J xs z) : y = z := by
  classical
  have h := nearest_iff (I := J) (ignored := fun x => decide (J x)) (fun x => by simp) xs
  rw [← (h y).mpr hy, ← (h z).mpr hz]

theorem splitAt_extend {k : Nat} {pre post : List Item} {x : Item} (h : SplitAt J k xs pre x post) :
    SplitAt J k (xs ++ right) pre x (post ++ right) := by
  obtain ⟨rfl, h2, h3⟩ := h
  exact ⟨by simp, h2, h3⟩

theorem nearest_some (h : seen J xs ≠ []) : ∃ k x, Nearest J xs (some (k, x)) ∧ Nearest J (xs ++ right) (some (k, x)) := by
  obtain ⟨y, hy⟩ := nearest_exists J xs
  match y, hy with
  | none, hy =>
    exfalso
    apply h
    unfold seen
    rw [List.filter_eq_nil_iff]
    intro x hx
    simpa using hy x hx
  | some (k, x), hy =>
    refine ⟨k, x, hy, ?_⟩
    obtain ⟨pre, post, h1, h2⟩ := hy
    exact ⟨pre, post ++ right, splitAt_extend h1, h2⟩

theorem nearest_apart (h : seen J xs ≠ []) {y : Option (Nat × Item)} : Nearest J (xs ++ right) y ↔ Nearest J xs y := by
  obtain ⟨k, x, h1, h2⟩ := nearest_some (right := right) h
  constructor
  · intro hy
    rw [nearest_unique hy h2]
    exact h1
  · intro hy
    rw [nearest_unique hy h1]
    exact h2

theorem nearest_is {y : Option (Nat × Item)} (h : Nearest J xs y) {P : Option (Nat × Item) → Prop} :
    (∃ base, Nearest J xs base ∧ P base) ↔ P y :=
  ⟨fun ⟨_, h1, h2⟩ => nearest_unique h1 h ▸ h2, fun h2 => ⟨y, h, h2⟩⟩

theorem nearest_left {S : Nat → Prop} (hJ : ∀ x : Item, S x.glyph → ¬J x) (hr : Edge S (right.map Item.glyph)) :
    ∃ y z, Nearest J xs y ∧ Nearest J (xs ++ right) z ∧ (z = y ∨ y = none ∧ ∃ k b, S b.glyph ∧ z = some (k, b)) := by
  obtain ⟨y, hy⟩ := nearest_exists J xs
  match y, hy with
  | some (k, x), hy =>
    obtain ⟨pre, post, h1, h2⟩ := hy
    exact ⟨some (k, x), some (k, x), ⟨pre, post, h1, h2⟩, ⟨pre, post ++ right, splitAt_extend h1, h2⟩, .inl rfl⟩
  | none, hy =>
    cases right with
    | nil => exact ⟨none, none, hy, by rw [List.append_nil]; exact hy, .inl rfl⟩
    | cons b right =>
      have hb : S b.glyph := hr b.glyph rfl
      refine ⟨none, some (xs.length + 1, b), hy, ⟨xs, right, ⟨rfl, hJ b hb, ?_⟩, rfl⟩, .inr ⟨rfl, _, b, hb, rfl⟩⟩
      unfold seen
      rw [List.length_eq_zero_iff, List.filter_eq_nil_iff]
      intro x hx
      simpa using hy x hx

theorem second_apart {second : Option gpos.Single} {done rest : List Item} (h : second ≠ none → seen J xs ≠ []) :
    Second J second (xs ++ right) done rest ↔ ∃ r, Second J second xs done r ∧ rest = r ++ right := by
  cases second with
  | none =>
    constructor
    · intro hs
      cases hs
      exact ⟨xs, .none, rfl⟩
    · rintro ⟨r, hs, rfl⟩
      cases hs
      exact .none
  | some value =>
    obtain ⟨k, x, ⟨pre, post, h1, _⟩, _⟩ := nearest_some (right := right) (h (by simp))
    classical
    have hi (xs : List Item) (done rest : List Item) := second_iff (ignored := fun x => decide (J x)) (I := J) (fun x => by simp)
      (some value) xs done rest
    have e1 := (hi xs _ _).mpr (.moved h1)
    have e2 := (hi (xs ++ right) _ _).mpr (.moved (splitAt_extend h1))
    rw [← hi, e2]
    simp only [← hi, e1]
    constructor
    · intro e
      cases e
      exact ⟨_, rfl, rfl⟩
    · rintro ⟨r, e, rfl⟩
      cases e
      rfl

end

section
variable {cfg : Cfg} {d : Data} {p : Nat} {I : Nat → Nat → Prop} {M : Nat → Prop} {S : Nat → Prop}

theorem outcome_apart {J : Nat → Prop} {nested : Nat → List Item → List Item → Option (List Item × List Item) → Prop}
    (hn : ∀ i, Apart (fun xs => Edge S (xs.map Item.glyph)) (nested i)) {before left following right : List Item} {x : Item}
    {base base' : Option (Nat × Item)} (hbase : base' = base ∨ base = none)
    (hl : Edge S (left.map Item.glyph)) (hr : Edge S (right.map Item.glyph)) {r : Response}
    (h : ∃ type_ a, (response cfg (seen J (before.map Item.glyph)) (base.map (·.2.glyph)) x.component x.glyph
      (seen J (following.map Item.glyph))).does d type_ a r) {done rest : List Item} :
    Outcome (fun y => J y.glyph) nested (before ++ left) base' x (following ++ right) r done rest ↔
      ∃ rest', Outcome (fun y => J y.glyph) nested before base x following r done rest' ∧ rest = rest' ++ right := by
  obtain ⟨type_, a, h⟩ := h
  have some_of {xs : List Item} {g : Nat} (h : (seen J (xs.map Item.glyph)).head? = some g) : seen (fun y => J y.glyph) xs ≠ [] := by
    intro e
    rw [seen_glyphs, e] at h
    cases h
  cases r with
  | moved first second =>
    have hs : second ≠ none → seen (fun y : Item => J y.glyph) following ≠ [] := by
      intro hne
      rcases h with ⟨_, _, _, e⟩ | ⟨_, h, e, _⟩
      · cases e
        exact (hne rfl).elim
      · exact some_of e
    constructor
    · intro ho
      cases ho with
      | moved h1 =>
        obtain ⟨r, h2, rfl⟩ := (second_apart hs).mp h1
        exact ⟨r, .moved h2, rfl⟩
    · rintro ⟨r, ho, rfl⟩
      cases ho with
      | moved h1 => exact .moved ((second_apart hs).mpr ⟨_, h1, rfl⟩)
  | joined exit entry =>
    obtain ⟨_, h, e, _⟩ := h
    constructor
    · intro ho
      cases ho with
      | joined h1 => exact ⟨_, .joined ((nearest_apart (some_of e)).mp h1), rfl⟩
    · rintro ⟨r, ho, rfl⟩
      cases ho with
      | joined h1 => exact .joined ((nearest_apart (some_of e)).mpr h1)
  | onBase own other =>
    have e : base' = base := by
      rcases hbase with e | rfl
      · exact e
      · rcases h with ⟨_, _, e, _⟩ | ⟨_, _, e, _⟩ <;> cases e
    subst e
    constructor
    · intro ho
      cases ho
      exact ⟨_, .onBase, rfl⟩
    · rintro ⟨r, ho, rfl⟩
      cases ho
      exact .onBase
  | onMark own other =>
    obtain ⟨_, h, e, _⟩ := h
    constructor
    · intro ho
      cases ho with
      | onMark h1 => exact ⟨_, .onMark ((nearest_apart (some_of e)).mp h1), rfl⟩
    · rintro ⟨r, ho, rfl⟩
      cases ho with
      | onMark h1 => exact .onMark ((nearest_apart (some_of e)).mpr h1)
  | sequence k actions =>
    have hk : k - 1 ≤ (seen (fun y => J y.glyph) following).length := by
      have : k - 1 ≤ (seen J (following.map Item.glyph)).length := by
        rcases h with ⟨_, h⟩ | ⟨_, h⟩
        · exact matched_length h
        · exact chainMatched_length h
      rwa [seen_glyphs, List.length_map] at this
    constructor
    · intro ho
      cases ho with
      | sequence h1 h2 =>
        obtain ⟨r, h3, rfl⟩ := (Window.extend hk).mp h1
        obtain ⟨r', h4, rfl⟩ := (actedOn_apart (fun action _ => hn action.lookup_index) hl hr).mp h2
        exact ⟨r', .sequence h3 h4, rfl⟩
    · rintro ⟨r, ho, rfl⟩
      cases ho with
      | sequence h1 h2 =>
        exact .sequence ((Window.extend hk).mpr ⟨_, h1, rfl⟩)
          ((actedOn_apart (fun action _ => hn action.lookup_index) hl hr).mpr ⟨_, h2, rfl⟩)

theorem SameEffect.trans {T β : Type} {E E' E'' : Effect T β} {type_ a : Nat} (h : SameEffect E E' d type_ a)
    (h' : SameEffect E' E'' d type_ a) : SameEffect E E'' d type_ a :=
  ⟨h.1.trans h'.1, fun y => (h.2 y).trans (h'.2 y)⟩

theorem settled_apart (hst : Standing cfg 9 d p) (hs : PositioningSeparated cfg d p S) (hI : ∀ i g, S g → ¬I i g)
    (hM : ∀ g, S g → ¬M g) (n i : Nat) :
    Apart (fun xs => Edge S (xs.map Item.glyph)) (Settled cfg d p I M n i) := by
  induction n generalizing i with
  | zero => exact fun _ _ _ _ _ _ _ => Option.isNone_apart
  | succ n ih =>
    intro before text left right result hl hr
    cases text with
    | nil =>
      cases right with
      | nil => exact Option.isNone_apart
      | cons x rest =>
        have hb : S x.glyph := hr x.glyph rfl
        refine Iff.trans ?_ Option.isNone_apart
        have hq (base : Option Nat) := fun (type_ a : Nat) (h : ∀ before base component g following,
            (S g → (response cfg before base component g following).Silent d type_ a) ∧
            (∀ left right, Edge S left → Edge S right →
              SameEffect (response cfg (before ++ left) base component g (following ++ right))
                (response cfg before base component g following) d type_ a) ∧
            ∀ b, S b → SameEffect (response cfg before (some b) component g following)
              (response cfg before none component g following) d type_ a) =>
          (h (seen (I i) ((before ++ left).map Item.glyph)) base x.component x.glyph (seen (I i) (rest.map Item.glyph))).1 hb
        show Settled cfg d p I M (n + 1) i (before ++ left) (x :: rest) result ↔ _
        unfold Settled
        constructor
        · rintro (⟨h, _⟩ | ⟨_, base, _, ⟨_, h⟩ | ⟨_, _, _, h, _⟩⟩)
          · exact (hI i _ hb h).elim
          · exact h
          · exact (not_doneAt_of hs (hq _) _ h).elim
        · intro h
          obtain ⟨base, hbase⟩ := nearest_exists (fun y => I i y.glyph ∨ M y.glyph) (before ++ left)
          exact .inr ⟨hI i _ hb, base, hbase, .inl ⟨silentAt_of hst hs (hq _), h⟩⟩
    | cons x following =>
      obtain ⟨base, base', hb, hb', hbb⟩ := nearest_left (J := fun y : Item => I i y.glyph ∨ M y.glyph) (xs := before) (right := left)
        (fun y hy => not_or.mpr ⟨hI i _ hy, hM _ hy⟩) hl
      have same : ∀ type_ a, (∀ before base component g following,
            (S g → (response cfg before base component g following).Silent d type_ a) ∧
            (∀ left right, Edge S left → Edge S right →
              SameEffect (response cfg (before ++ left) base component g (following ++ right))
                (response cfg before base component g following) d type_ a) ∧
            ∀ b, S b → SameEffect (response cfg before (some b) component g following)
              (response cfg before none component g following) d type_ a) →
          SameEffect (response cfg (seen (I i) ((before ++ left).map Item.glyph)) (base'.map (·.2.glyph)) x.component x.glyph
              (seen (I i) ((following ++ right).map Item.glyph)))
            (response cfg (seen (I i) (before.map Item.glyph)) (base.map (·.2.glyph)) x.component x.glyph
              (seen (I i) (following.map Item.glyph))) d type_ a := by
        intro type_ a h
        rw [List.map_append, List.map_append, seen_append, seen_append]
        have h1 := (h (seen (I i) (before.map Item.glyph)) (base'.map (·.2.glyph)) x.component x.glyph
          (seen (I i) (following.map Item.glyph))).2.1 _ _ (Edge.seen (hI i) hl) (Edge.seen (hI i) hr)
        rcases hbb with rfl | ⟨rfl, k, b, hs, rfl⟩
        · exact h1
        · exact SameEffect.trans h1 ((h _ none _ _ _).2.2 _ hs)
      have hdone : ∀ y, DoneAt cfg 9 (response cfg (seen (I i) ((before ++ left).map Item.glyph)) (base'.map (·.2.glyph)) x.component
            x.glyph (seen (I i) ((following ++ right).map Item.glyph))) d p i y ↔
          DoneAt cfg 9 (response cfg (seen (I i) (before.map Item.glyph)) (base.map (·.2.glyph)) x.component x.glyph
              (seen (I i) (following.map Item.glyph))) d p i y := doneAt_same hs rfl same
      have hsilent : SilentAt cfg 9 (response cfg (seen (I i) ((before ++ left).map Item.glyph)) (base'.map (·.2.glyph)) x.component
            x.glyph (seen (I i) ((following ++ right).map Item.glyph))) d p i ↔
          SilentAt cfg 9 (response cfg (seen (I i) (before.map Item.glyph)) (base.map (·.2.glyph)) x.component x.glyph
              (seen (I i) (following.map Item.glyph))) d p i := silentAt_same hs rfl same
      have hbb' : base' = base ∨ base = none := hbb.imp id (·.1)
      show Settled cfg d p I M (n + 1) i (before ++ left) (x :: (following ++ right)) result ↔
        ∃ r, Settled cfg d p I M (n + 1) i before (x :: following) r ∧ result = r.map (beside right)
      unfold Settled
      rw [nearest_is hb']
      simp only [nearest_is hb]
      rw [hsilent]
      constructor
      · rintro (⟨h, rfl⟩ | ⟨h, ⟨h1, rfl⟩ | ⟨r, done, rest, h1, h2, rfl⟩⟩)
        · exact ⟨none, .inl ⟨h, rfl⟩, rfl⟩
        · exact ⟨none, .inr ⟨h, .inl ⟨h1, rfl⟩⟩, rfl⟩
        · have h1 := (hdone r).mp h1
          obtain ⟨rest', h3, rfl⟩ := (outcome_apart ih hbb' hl hr (doneAt_does h1)).mp h2
          exact ⟨some (done, rest'), .inr ⟨h, .inr ⟨r, done, rest', h1, h3, rfl⟩⟩, rfl⟩
      · rintro ⟨_, ⟨h, rfl⟩ | ⟨h, ⟨h1, rfl⟩ | ⟨r, done, rest, h1, h2, rfl⟩⟩, rfl⟩
        · exact .inl ⟨h, rfl⟩
        · exact .inr ⟨h, .inl ⟨h1, rfl⟩⟩
        · exact .inr ⟨h, .inr ⟨r, done, _, (hdone r).mpr h1, (outcome_apart ih hbb' hl hr (doneAt_does h1)).mpr ⟨rest, h2, rfl⟩, rfl⟩⟩

end

/-! ## All lookups -/

section
variable {α : Type} {passed : Nat → List α → List α → Prop} {x : α}

theorem allPassed_apart (h : ∀ i text more out, passed i (text ++ x :: more) out ↔
      ∃ o1 o2, passed i text o1 ∧ passed i more o2 ∧ out = o1 ++ x :: o2)
    {cfg : Cfg} {d : Data} {p : Nat} {script language : Tag} {tags : List Tag} {text more out : List α} :
    AllPassed cfg d p passed script language tags (text ++ x :: more) out ↔
      ∃ o1 o2, AllPassed cfg d p passed script language tags text o1 ∧ AllPassed cfg d p passed script language tags more o2 ∧
        out = o1 ++ x :: o2 := by
  have key {W : Nat → Prop} : ∀ m text more out, Below passed W m (text ++ x :: more) out ↔
      ∃ o1 o2, Below passed W m text o1 ∧ Below passed W m more o2 ∧ out = o1 ++ x :: o2 := by
    intro m
    induction m with
    | zero =>
      intro text more out
      constructor
      · intro hb
        cases hb
        exact ⟨text, more, .zero, .zero, rfl⟩
      · rintro ⟨o1, o2, h1, h2, rfl⟩
        cases h1
        cases h2
        exact .zero
    | succ m ih =>
      intro text more out
      constructor
      · intro hb
        cases hb with
        | skip h1 h2 =>
          obtain ⟨o1, o2, k1, k2, rfl⟩ := (ih text more out).mp h2
          exact ⟨o1, o2, .skip h1 k1, .skip h1 k2, rfl⟩
        | pass h1 h2 h3 =>
          obtain ⟨o1, o2, k1, k2, rfl⟩ := (ih text more _).mp h2
          obtain ⟨u1, u2, k3, k4, rfl⟩ := (h m o1 o2 out).mp h3
          exact ⟨u1, u2, .pass h1 k1 k3, .pass h1 k2 k4, rfl⟩
      · rintro ⟨o1, o2, h1, h2, rfl⟩
        cases h1 with
        | skip g1 g2 =>
          cases h2 with
          | skip k1 k2 => exact .skip g1 ((ih text more _).mpr ⟨o1, o2, g2, k2, rfl⟩)
          | pass k1 => exact (g1 k1).elim
        | pass g1 g2 g3 =>
          cases h2 with
          | skip k1 => exact (k1 g1).elim
          | pass _ k2 k3 => exact .pass g1 ((ih text more _).mpr ⟨_, _, g2, k2, rfl⟩) ((h m _ _ _).mpr ⟨o1, o2, g3, k3, rfl⟩)
  constructor
  · rintro ⟨m, h1, h2⟩
    obtain ⟨o1, o2, k1, k2, rfl⟩ := (key m text more out).mp h2
    exact ⟨o1, o2, ⟨m, h1, k1⟩, ⟨m, h1, k2⟩, rfl⟩
  · rintro ⟨o1, o2, ⟨m, h1, h2⟩, ⟨m', h3, h4⟩, rfl⟩
    refine ⟨m, h1, (key m text more _).mpr ⟨o1, o2, h2, ?_, rfl⟩⟩
    rcases Nat.le_total m m' with hl | hl
    · obtain ⟨l, rfl⟩ := Nat.exists_eq_add_of_le hl
      exact (below_add h1 _ _ l).mp h4
    · obtain ⟨l, rfl⟩ := Nat.exists_eq_add_of_le hl
      exact (below_add h3 _ _ l).mpr h4

end

section
variable {cfg : Cfg} {d : Data} {p : Nat} {I : Nat → Nat → Prop} {M : Nat → Prop} {S : Nat → Prop}

theorem becomes_apart (hst : Standing cfg 7 d p) (hs : SubstitutionSeparated cfg d p S) (hI : ∀ i g, S g → ¬I i g) {b : Nat} (hb : S b)
    {n : Nat} {script language : Tag} {tags : List Tag} {text more out : List Nat} :
    Becomes cfg d p I n script language tags (text ++ b :: more) out ↔
      ∃ o1 o2, Becomes cfg d p I n script language tags text o1 ∧ Becomes cfg d p I n script language tags more o2 ∧
        out = o1 ++ b :: o2 := by
  refine allPassed_apart fun i text more out => ?_
  have hf {text more out : List Nat} := forward_apart (touched_apart hst hs hI n i) Edge.nil (x := b) (fun _ => Edge.cons hb)
    (fun before => by cases n <;> rfl) (fun before r h => by cases n <;> exact h) (before := []) (text := text) (more := more) (out := out)
  simp only [hf]
  constructor
  · rintro ⟨_, ⟨m1, m2, h1, h2, rfl⟩, h3⟩
    obtain ⟨o1, o2, h4, h5, rfl⟩ := (backward_apart hst hs (hI i) hb).mp h3
    exact ⟨o1, o2, ⟨m1, h1, h4⟩, ⟨m2, h2, h5⟩, rfl⟩
  · rintro ⟨o1, o2, ⟨m1, h1, h4⟩, ⟨m2, h2, h5⟩, rfl⟩
    exact ⟨_, ⟨m1, m2, h1, h2, rfl⟩, (backward_apart hst hs (hI i) hb).mpr ⟨o1, o2, h4, h5, rfl⟩⟩

theorem settledInto_apart (hst : Standing cfg 9 d p) (hs : PositioningSeparated cfg d p S) (hI : ∀ i g, S g → ¬I i g)
    (hM : ∀ g, S g → ¬M g) {x : Item} (hb : S x.glyph)
    {n : Nat} {script language : Tag} {tags : List Tag} {text more out : List Item} :
    SettledInto cfg d p I M n script language tags (text ++ x :: more) out ↔
      ∃ o1 o2, SettledInto cfg d p I M n script language tags text o1 ∧ SettledInto cfg d p I M n script language tags more o2 ∧
        out = o1 ++ x :: o2 :=
  allPassed_apart fun i _ _ _ => forward_apart (settled_apart hst hs hI hM n i) Edge.nil (x := x) (fun _ => Edge.cons hb)
    (fun before => by cases n <;> rfl) (fun before r h => by cases n <;> exact h)

end

section
variable {accept : Tag → Bool} {cfg : Cfg} {d : Data} (hd : Fits d) {table : TableType}
include hd

theorem file_of_directory {directory : offsets.Offsets} (h1 : ¬U32 d 0 0x74746366) (h2 : IsOffsets accept d 0 directory) :
    Reads (File.read accept) d 0 ⟨[⟨directory⟩]⟩ := (C01_one_font accept d 0 hd _).mpr ⟨h1, _, rfl, h2⟩

theorem tableAt_unique {a b : Nat} (h1 : TableAt accept cfg d table a) (h2 : TableAt accept cfg d table b) : a = b := by
  obtain ⟨k1, directory, _, k2, _⟩ := id h1
  exact placed_unique hd (file_of_directory hd k1 k2) h1 h2

theorem tableAt_absent {a : Nat} (h1 : TableAt accept cfg d table a) (h2 : Absent accept d table) : False := by
  obtain ⟨k1, directory, _, k2, _⟩ := id h1
  have hf := file_of_directory hd k1 k2
  obtain ⟨record, ⟨_, _, e, ht, _⟩, _⟩ := (tableAt_iff hd hf _).mp h1
  exact (absent_iff hd hf).mp h2 record (by rw [e]; simp) ht

theorem standing_substitution {p : Nat} {t : gsub.GlyphSubstitution} (h : gsub.IsGlyphSubstitution cfg d p t) : Standing cfg 7 d p := by
  intro i j type_ a h1
  obtain ⟨type', a', h2, _⟩ := ((C101_follow cfg hd).1 t ((reads_parses hd).mpr h) i j 0).2 type_ a h1
  exact ⟨type', a', h2⟩

theorem standing_positioning {p : Nat} {t : gpos.GlyphPositioning} (h : gpos.IsGlyphPositioning cfg d p t) : Standing cfg 9 d p := by
  intro i j type_ a h1
  obtain ⟨type', a', h2, _⟩ := ((C101_follow cfg hd).2 t ((reads_parses hd).mpr h) i j 0).2 type_ a h1
  exact ⟨type', a', h2⟩

/-- What is on both sides of a separator can be set by itself: the whole is set as the two sides are, with the separator as it is
between them; and if one of the sides cannot be set, neither can the whole. -/
theorem C127_apart {S : Nat → Prop} (h : Separates accept cfg d S) {b : Nat} (hb : S b) (n : Nat) (script language : Tag)
    (tags : List Tag) (text more : List Nat) (out : List Item) :
    Reads (typeset accept cfg n script language tags (text ++ b :: more)) d 0 out ↔
      ∃ o1 o2, Reads (typeset accept cfg n script language tags text) d 0 o1 ∧
        Reads (typeset accept cfg n script language tags more) d 0 o2 ∧ out = o1 ++ Item.of b :: o2 := by
  simp only [C113_typeset accept cfg hd]
  constructor
  · rintro ⟨h1, middle, h2, h3⟩
    have : ∃ m1 m2, middle = m1 ++ b :: m2 ∧
        ((Absent accept d .glyphSubstitution ∧ m1 = text) ∨
          ∃ p t, TableAt accept cfg d .glyphSubstitution p ∧ gsub.IsGlyphSubstitution cfg d p t ∧
            Becomes cfg d p (IgnoredIn accept cfg d p) n script language tags text m1) ∧
        ((Absent accept d .glyphSubstitution ∧ m2 = more) ∨
          ∃ p t, TableAt accept cfg d .glyphSubstitution p ∧ gsub.IsGlyphSubstitution cfg d p t ∧
            Becomes cfg d p (IgnoredIn accept cfg d p) n script language tags more m2) := by
      rcases h2 with ⟨k1, rfl⟩ | ⟨p, t, k1, k2, k3⟩
      · exact ⟨text, more, rfl, .inl ⟨k1, rfl⟩, .inl ⟨k1, rfl⟩⟩
      · obtain ⟨m1, m2, k4, k5, rfl⟩ := (becomes_apart (standing_substitution hd k2) (h.1 p k1).1 (h.1 p k1).2 hb).mp k3
        exact ⟨m1, m2, rfl, .inr ⟨p, t, k1, k2, k4⟩, .inr ⟨p, t, k1, k2, k5⟩⟩
    obtain ⟨m1, m2, rfl, g1, g2⟩ := this
    rw [List.map_append, List.map_cons] at h3
    rcases h3 with ⟨k1, rfl⟩ | ⟨p, t, k1, k2, k3⟩
    · exact ⟨_, _, ⟨h1, m1, g1, .inl ⟨k1, rfl⟩⟩, ⟨h1, m2, g2, .inl ⟨k1, rfl⟩⟩, rfl⟩
    · obtain ⟨o1, o2, k4, k5, rfl⟩ :=
        (settledInto_apart (standing_positioning hd k2) (h.2 p k1).1 (h.2 p k1).2.1 (h.2 p k1).2.2 (x := Item.of b) hb).mp k3
      exact ⟨o1, o2, ⟨h1, m1, g1, .inr ⟨p, t, k1, k2, k4⟩⟩, ⟨h1, m2, g2, .inr ⟨p, t, k1, k2, k5⟩⟩, rfl⟩
  · rintro ⟨o1, o2, ⟨h1, m1, g1, f1⟩, ⟨_, m2, g2, f2⟩, rfl⟩
    refine ⟨h1, m1 ++ b :: m2, ?_, ?_⟩
    · rcases g1 with ⟨k1, rfl⟩ | ⟨p, t, k1, k2, k3⟩
      · rcases g2 with ⟨k2, rfl⟩ | ⟨p, t, k2, _⟩
        · exact .inl ⟨k1, rfl⟩
        · exact (tableAt_absent hd k2 k1).elim
      · rcases g2 with ⟨k4, _⟩ | ⟨p', t', k4, _, k5⟩
        · exact (tableAt_absent hd k1 k4).elim
        · cases tableAt_unique hd k1 k4
          exact .inr ⟨p, t, k1, k2,
            (becomes_apart (standing_substitution hd k2) (h.1 p k1).1 (h.1 p k1).2 hb).mpr ⟨m1, m2, k3, k5, rfl⟩⟩
    · rw [List.map_append, List.map_cons]
      rcases f1 with ⟨k1, rfl⟩ | ⟨p, t, k1, k2, k3⟩
      · rcases f2 with ⟨k2, rfl⟩ | ⟨p, t, k2, _⟩
        · exact .inl ⟨k1, rfl⟩
        · exact (tableAt_absent hd k2 k1).elim
      · rcases f2 with ⟨k4, _⟩ | ⟨p', t', k4, _, k5⟩
        · exact (tableAt_absent hd k1 k4).elim
        · cases tableAt_unique hd k1 k4
          exact .inr ⟨p, t, k1, k2, (settledInto_apart (standing_positioning hd k2) (h.2 p k1).1 (h.2 p k1).2.1 (h.2 p k1).2.2
            (x := Item.of b) hb).mpr ⟨o1, o2, k3, k5, rfl⟩⟩

end

/-! ## Values -/

section
variable {S : Nat → Prop}

theorem begins_edge {α : Type} {test : Nat → α → Bool} {xs : List α} (ht : ∀ x ∈ xs, ∀ g, S g → test g x = false) {right : List Nat}
    (hr : Edge S right) (ys : List Nat) : begins test xs (ys ++ right) = begins test xs ys := by
  induction xs generalizing ys with
  | nil => rfl
  | cons x xs ih =>
    cases ys with
    | nil =>
      cases right with
      | nil => rfl
      | cons b right =>
        show (test b x && begins test xs right) = false
        rw [ht x List.mem_cons_self b (hr b rfl), Bool.false_and]
    | cons y ys =>
      show (test y x && begins test xs (ys ++ right)) = (test y x && begins test xs ys)
      rw [ih fun x hx => ht x (List.mem_cons_of_mem _ hx)]

theorem begins_le {α : Type} {test : Nat → α → Bool} {xs : List α} {ys : List Nat} (h : begins test xs ys = true) :
    xs.length ≤ ys.length := by
  induction xs generalizing ys with
  | nil => exact Nat.zero_le _
  | cons x xs ih =>
    cases ys with
    | nil => cases h
    | cons y ys => exact Nat.succ_le_succ (ih (Bool.and_eq_true_iff.mp h).2)

theorem chain_edge {α : Type} {tb ti tf : Nat → α → Bool} {bs is fs : List α} (hb : ∀ x ∈ bs, ∀ g, S g → tb g x = false)
    (hi : ∀ x ∈ is, ∀ g, S g → ti g x = false) (hf : ∀ x ∈ fs, ∀ g, S g → tf g x = false) {left right : List Nat} (hl : Edge S left)
    (hr : Edge S right) (before after : List Nat) :
    (begins tb bs (before ++ left) && (begins ti is (after ++ right) && begins tf fs ((after ++ right).drop is.length))) =
      (begins tb bs before && (begins ti is after && begins tf fs (after.drop is.length))) := by
  rw [begins_edge hb hl, begins_edge hi hr]
  cases h : begins ti is after with
  | false => simp
  | true => rw [List.drop_append_of_le_length (begins_le h), begins_edge hf hr]

theorem find_same {α : Type} {p q : α → Bool} {xs : List α} (h : ∀ x ∈ xs, p x = q x) : xs.find? p = xs.find? q := by
  induction xs with
  | nil => rfl
  | cons x xs ih =>
    rw [List.find?_cons, List.find?_cons, h x List.mem_cons_self, ih fun x hx => h x (List.mem_cons_of_mem _ hx)]

theorem ruleOf_same {Set Rule β : Type} {records : Set → List Rule} {wanted : Rule → β} {entry : Except Err (Option Set)}
    {test test' : Rule → Bool} (h : ∀ set, entry = .ok (some set) → ∀ rule ∈ records set, test rule = test' rule) :
    ruleOf records wanted entry test = ruleOf records wanted entry test' := by
  unfold ruleOf
  match entry, h with
  | .error e, _ => rfl
  | .ok none, _ => rfl
  | .ok (some set), h =>
    show Except.ok (((records set).find? test).map wanted) = Except.ok (((records set).find? test').map wanted)
    rw [find_same (h set rfl)]

theorem entryOf_none {α : Type} {c : coverage.Coverage} {xs : List α} {g : Nat} (h : indexOf c g = none) : entryOf c xs g = .ok none := by
  unfold entryOf
  rw [h]

theorem classEntryOf_none {α : Type} {c : coverage.Coverage} {classes : class_.Class} {xs : List (Option α)} {g : Nat}
    (h : indexOf c g = none) : classEntryOf c classes xs g = .ok none := by
  unfold classEntryOf
  rw [h]

theorem named_test {glyphs : List Nat} (h : Unnamed S glyphs) : ∀ x ∈ glyphs, ∀ g, S g → (g == x) = false := by
  intro x hx g hg
  rw [beq_eq_false_iff_ne]
  rintro rfl
  exact h g hx hg

theorem class_test {classes : class_.Class} {ks : List Nat} (h : Unclassed S classes ks) :
    ∀ k ∈ ks, ∀ g, S g → (classOf classes g == k) = false :=
  fun k hk g hg => beq_eq_false_iff_ne.mpr (h k hk g hg)

theorem covers_test {cs : List coverage.Coverage} (h : ∀ c ∈ cs, Uncovers S c) : ∀ c ∈ cs, ∀ g, S g → covers g c = false := by
  intro c hc g hg
  unfold covers
  rw [h c hc g hg]
  rfl

theorem begins_at {cs : List coverage.Coverage} (h0 : cs ≠ []) (h : ∀ c ∈ cs, Uncovers S c) {g : Nat} (hg : S g) (after : List Nat) :
    begins covers cs (g :: after) = false := by
  cases cs with
  | nil => exact (h0 rfl).elim
  | cons c cs =>
    show (covers g c && _) = false
    rw [covers_test h c List.mem_cons_self g hg, Bool.false_and]

theorem matchContext_edge {t : Context} (h : ContextAvoids S t) {right : List Nat} (hr : Edge S right) (g : Nat) (after : List Nat) :
    matchContext t g (after ++ right) = matchContext t g after := by
  cases t with
  | format1 t => exact ruleOf_same fun set hs rule hm => begins_edge (named_test (h.2 set (entry_mem hs) rule hm)) hr after
  | format2 t => exact ruleOf_same fun set hs rule hm => begins_edge (class_test (h.2 set (classEntry_mem hs) rule hm)) hr after
  | format3 t =>
    simp only [matchContext]
    have := begins_edge (covers_test h.2) hr (g :: after)
    rw [List.cons_append] at this
    rw [this]

theorem matchContext_at {t : Context} (h : ContextAvoids S t) {g : Nat} (hg : S g) (after : List Nat) :
    matchContext t g after = .ok none := by
  cases t with
  | format1 t =>
    simp only [matchContext]
    rw [entryOf_none (h.1 g hg)]
    rfl
  | format2 t =>
    simp only [matchContext]
    rw [classEntryOf_none (h.1 g hg)]
    rfl
  | format3 t =>
    simp only [matchContext]
    rw [begins_at h.1 h.2 hg]
    rfl

theorem matchChain_edge {t : ChainedContext} (h : ChainAvoids S t) {left right : List Nat} (hl : Edge S left) (hr : Edge S right)
    (before : List Nat) (g : Nat) (after : List Nat) :
    matchChain t (before ++ left) g (after ++ right) = matchChain t before g after := by
  cases t with
  | format1 t =>
    refine ruleOf_same fun set hs rule hm => ?_
    obtain ⟨h1, h2, h3⟩ := h.2 set (entry_mem hs) rule hm
    exact chain_edge (named_test h1) (named_test h2) (named_test h3) hl hr before after
  | format2 t =>
    refine ruleOf_same fun set hs rule hm => ?_
    obtain ⟨h1, h2, h3⟩ := h.2 set (classEntry_mem hs) rule hm
    exact chain_edge (class_test h1) (class_test h2) (class_test h3) hl hr before after
  | format3 t =>
    simp only [matchChain]
    have := chain_edge (covers_test h.2.1) (covers_test h.2.2.1) (covers_test h.2.2.2) hl hr before (g :: after)
    rw [List.cons_append] at this
    rw [this]

theorem matchChain_at {t : ChainedContext} (h : ChainAvoids S t) {g : Nat} (hg : S g) (before after : List Nat) :
    matchChain t before g after = .ok none := by
  cases t with
  | format1 t =>
    simp only [matchChain]
    rw [entryOf_none (h.1 g hg)]
    rfl
  | format2 t =>
    simp only [matchChain]
    rw [classEntryOf_none (h.1 g hg)]
    rfl
  | format3 t =>
    simp only [matchChain]
    rw [begins_at h.1 h.2.2.1 hg, Bool.false_and, Bool.and_false]
    rfl

theorem prefix_edge {xs : List Nat} (h : Unnamed S xs) {right : List Nat} (hr : Edge S right) (ys : List Nat) :
    xs.isPrefixOf (ys ++ right) = xs.isPrefixOf ys := by
  have e : ∀ xs ys : List Nat, xs.isPrefixOf ys = begins (fun y x => x == y) xs ys := by
    intro xs
    induction xs with
    | nil => intro ys; rfl
    | cons x xs ih =>
      intro ys
      cases ys with
      | nil => rfl
      | cons y ys => simp [List.isPrefixOf, begins, ih]
  rw [e, e]
  refine begins_edge (fun x hx g hg => ?_) hr ys
  rw [beq_eq_false_iff_ne]
  rintro rfl
  exact h x hx hg

theorem ligate_edge {t : gsub.LigatureSubstitution}
    (h : ∀ set ∈ t.records, ∀ ligature ∈ set.records, Unnamed S ligature.glyph_ids) {right : List Nat} (hr : Edge S right) (g : Nat)
    (following : List Nat) : ligate t g (following ++ right) = ligate t g following := by
  unfold ligate
  match he : entryOf t.coverage t.records g with
  | .error e => rfl
  | .ok none => rfl
  | .ok (some set) =>
    show Except.ok _ = Except.ok _
    rw [find_same fun l hl => prefix_edge (h set (entry_mem he) l hl) hr following]

theorem react_edge {t : gsub.Type_} (h : SubstitutionAvoids S t) {left right : List Nat} (hl : Edge S left) (hr : Edge S right)
    (before : List Nat) (g : Nat) (following : List Nat) :
    react (before ++ left) g (following ++ right) t = react before g following t ∧
      reverseAct (before ++ left) g (following ++ right) t = reverseAct before g following t := by
  cases t with
  | ligatureSubstitution t =>
    refine ⟨?_, rfl⟩
    simp only [react, substitute]
    rw [ligate_edge h.2 hr]
  | contextualSubstitution t =>
    refine ⟨?_, rfl⟩
    simp only [react]
    rw [matchContext_edge h hr]
  | chainedContextualSubstitution t =>
    refine ⟨?_, rfl⟩
    simp only [react]
    rw [matchChain_edge h hl hr]
  | reverseChainedContextualSubstibution t =>
    refine ⟨rfl, ?_⟩
    simp only [reverseAct, matchReverse]
    rw [begins_edge (covers_test h.2.1) hl, begins_edge (covers_test h.2.2) hr]
  | _ => exact ⟨rfl, rfl⟩

theorem react_at {t : gsub.Type_} (h : SubstitutionAvoids S t) {g : Nat} (hg : S g) (before following : List Nat) :
    react before g following t = .ok none ∧ reverseAct before g following t = .ok none := by
  cases t with
  | singleSubstitution t =>
    refine ⟨?_, rfl⟩
    cases t with
    | format1 t =>
      have : indexOf t.coverage g = none := h g hg
      simp only [react, substitute, replace]
      rw [this]
      rfl
    | format2 t =>
      simp only [react, substitute, replace]
      rw [entryOf_none (h g hg)]
      rfl
  | multipleSubstitution t =>
    refine ⟨?_, rfl⟩
    simp only [react, substitute, expand]
    rw [entryOf_none (h g hg)]
    rfl
  | ligatureSubstitution t =>
    refine ⟨?_, rfl⟩
    simp only [react, substitute, ligate]
    rw [entryOf_none (h.1 g hg)]
    rfl
  | contextualSubstitution t =>
    refine ⟨?_, rfl⟩
    simp only [react]
    rw [matchContext_at h hg]
    rfl
  | chainedContextualSubstitution t =>
    refine ⟨?_, rfl⟩
    simp only [react]
    rw [matchChain_at h hg]
    rfl
  | reverseChainedContextualSubstibution t =>
    refine ⟨rfl, ?_⟩
    simp only [reverseAct, matchReverse]
    rw [entryOf_none (h.1 g hg)]
    split <;> rfl
  | _ => exact ⟨rfl, rfl⟩

theorem entryOf_below {α : Type} {c : coverage.Coverage} {xs : List α} (h : NumbersBelow c xs.length) (g : Nat) :
    ∃ y, entryOf c xs g = .ok y := by
  unfold entryOf
  cases hi : indexOf c g with
  | none => exact ⟨none, rfl⟩
  | some i =>
    dsimp only
    unfold element
    rw [List.getElem?_eq_getElem (h g i hi)]
    exact ⟨_, rfl⟩

theorem head_edge {right : List Nat} (hr : Edge S right) (xs : List Nat) :
    (xs ++ right).head? = xs.head? ∨ xs.head? = none ∧ ∃ b, S b ∧ (xs ++ right).head? = some b := by
  cases xs with
  | cons x xs => exact .inl rfl
  | nil =>
    rcases edge_cases hr with rfl | ⟨b, rest, hb, rfl⟩
    · exact .inl rfl
    · exact .inr ⟨rfl, b, hb, rfl⟩

theorem anchors_mark {mc bc : coverage.Coverage} {marks : List gpos.Mark1} {anchor : Nat → Nat → Except Err (Option gpos.Anchor)}
    {m b : Nat} (h : indexOf mc m = none) : anchors mc bc marks anchor m b = .ok none := by
  unfold anchors
  rw [h]

theorem anchors_other {mc bc : coverage.Coverage} {marks : List gpos.Mark1} {anchor : Nat → Nat → Except Err (Option gpos.Anchor)}
    {m b : Nat} (h : indexOf bc b = none) : anchors mc bc marks anchor m b = .ok none := by
  unfold anchors
  rw [h]
  cases indexOf mc m <;> rfl

theorem adjust_at {t : gpos.PairAdjustment} (h : PositioningAvoids S (.pairAdjustment t)) {b : Nat} (hb : S b) (g : Nat) :
    adjust t g b = .ok none := by
  cases t with
  | format1 t =>
    simp only [adjust]
    obtain ⟨y, e⟩ := entryOf_below h.2.1 g
    cases y with
    | none =>
      rw [e]
      rfl
    | some set =>
      rw [e]
      show Except.ok _ = Except.ok _
      have : (set.records.find? fun pair => pair.glyph2_id == b) = none := by
        rw [List.find?_eq_none]
        intro pair hp e'
        exact h.2.2 set (entry_mem e) pair hp (by rw [beq_iff_eq.mp e']; exact hb)
      rw [this]
      rfl
  | format2 t =>
    have : indexOf t.coverage g = none := h g
    simp only [adjust]
    rw [this]
    rfl

theorem adjust_first {t : gpos.PairAdjustment} (h : PositioningAvoids S (.pairAdjustment t)) {g : Nat} (hg : S g) (b : Nat) :
    adjust t g b = .ok none := by
  cases t with
  | format1 t =>
    simp only [adjust]
    rw [entryOf_none (h.1 g hg)]
    rfl
  | format2 t =>
    have : indexOf t.coverage g = none := h g
    simp only [adjust]
    rw [this]
    rfl

theorem join_at {t : gpos.CursiveAttachment} (h : PositioningAvoids S (.cursiveAttachment t)) {b : Nat} (hb : S b) (g : Nat) :
    join t g b = .ok none := by
  have e1 : connect t b = .ok none := by
    unfold connect
    rw [entryOf_none (h.1 b hb)]
    rfl
  have e2 : ∃ y, connect t g = .ok y := by
    obtain ⟨y, e⟩ := entryOf_below h.2 g
    unfold connect
    rw [e]
    exact ⟨_, rfl⟩
  obtain ⟨y, e2⟩ := e2
  unfold join
  rw [e2, e1]
  match y with
  | none => rfl
  | some (_, none) => rfl
  | some (_, some _) => rfl

theorem respond_edge {t : gpos.Type_} (h : PositioningAvoids S t) {left right : List Nat} (hl : Edge S left) (hr : Edge S right)
    (before : List Nat) (base : Option Nat) (component g : Nat) (following : List Nat) :
    respond (before ++ left) base component g (following ++ right) t = respond before base component g following t := by
  cases t with
  | singleAdjustment t => rfl
  | pairAdjustment t =>
    simp only [respond, move]
    rcases head_edge hr following with e | ⟨e, b, hb, e'⟩
    · rw [e]
    · rw [e, e']
      dsimp only
      rw [adjust_at h hb]
  | cursiveAttachment t =>
    simp only [respond]
    rcases head_edge hr following with e | ⟨e, b, hb, e'⟩
    · rw [e]
    · rw [e, e']
      exact join_at h hb g
  | markToBaseAttachment t => rfl
  | markToLigatureAttachment t => rfl
  | markToMarkAttachment t =>
    simp only [respond]
    rcases head_edge hl before with e | ⟨e, b, hb, e'⟩
    · rw [e]
    · rw [e, e']
      dsimp only
      unfold attachToMark
      rw [anchors_other (h.2 b hb)]
      rfl
  | contextualPositioning t =>
    simp only [respond]
    rw [matchContext_edge h hr]
  | chainedContextualPositioning t =>
    simp only [respond]
    rw [matchChain_edge h hl hr]
  | extensionPositioning t => rfl

theorem respond_at {t : gpos.Type_} (h : PositioningAvoids S t) {g : Nat} (hg : S g) (before : List Nat) (base : Option Nat)
    (component : Nat) (following : List Nat) : respond before base component g following t = .ok none := by
  cases t with
  | singleAdjustment t =>
    cases t with
    | format1 t =>
      have : indexOf t.coverage g = none := h g hg
      simp only [respond, move, place]
      rw [this]
      rfl
    | format2 t =>
      simp only [respond, move, place]
      rw [entryOf_none (h g hg)]
      rfl
  | pairAdjustment t =>
    simp only [respond, move]
    cases following.head? with
    | none => rfl
    | some b =>
      dsimp only
      rw [adjust_first h hg]
      rfl
  | cursiveAttachment t =>
    simp only [respond]
    cases following.head? with
    | none => rfl
    | some b =>
      dsimp only
      have : connect t g = .ok none := by
        unfold connect
        rw [entryOf_none (h.1 g hg)]
        rfl
      unfold join
      rw [this]
  | markToBaseAttachment t =>
    simp only [respond]
    cases base with
    | none => rfl
    | some b =>
      dsimp only
      unfold attachToBase
      rw [anchors_mark (h.1 g hg)]
      rfl
  | markToLigatureAttachment t =>
    simp only [respond]
    cases base with
    | none => rfl
    | some b =>
      dsimp only
      unfold attachToLigature
      rw [anchors_mark (h.1 g hg)]
      rfl
  | markToMarkAttachment t =>
    simp only [respond]
    cases before.head? with
    | none => rfl
    | some b =>
      dsimp only
      unfold attachToMark
      rw [anchors_mark (h.1 g hg)]
      rfl
  | contextualPositioning t =>
    simp only [respond]
    rw [matchContext_at h hg]
    rfl
  | chainedContextualPositioning t =>
    simp only [respond]
    rw [matchChain_at h hg]
    rfl
  | extensionPositioning t => rfl

theorem respond_base {t : gpos.Type_} (h : PositioningAvoids S t) {b : Nat} (hb : S b) (before : List Nat) (component g : Nat)
    (following : List Nat) : respond before (some b) component g following t = respond before none component g following t := by
  cases t with
  | markToBaseAttachment t =>
    simp only [respond]
    unfold attachToBase
    rw [anchors_other (h.2 b hb)]
    rfl
  | markToLigatureAttachment t =>
    simp only [respond]
    unfold attachToLigature
    rw [anchors_other (h.2 b hb)]
    rfl
  | _ => rfl

end

/-- Two ways to look at a subtable that come from the same value tell the same. -/
theorem sameEffect_of {T β : Type} {E E' : Effect T β} {d : Data} {type_ a : Nat} {y z : Except Err (Option β)}
    (h1 : (∀ x, y = .ok (some x) ↔ E.does d type_ a x) ∧ ((∃ e, y = .error e) ↔ E.missing d type_ a))
    (h2 : (∀ x, z = .ok (some x) ↔ E'.does d type_ a x) ∧ ((∃ e, z = .error e) ↔ E'.missing d type_ a)) (e : y = z) :
    SameEffect E E' d type_ a := by
  subst e
  exact ⟨h1.2.symm.trans h2.2, fun x => (h1.1 x).symm.trans (h2.1 x)⟩

theorem silent_of_none {T β : Type} {E : Effect T β} {d : Data} {type_ a : Nat} {y : Except Err (Option β)} {t : T}
    (ht : E.wellFormed type_ d a t)
    (h : (∀ x, y = .ok (some x) ↔ E.does d type_ a x) ∧ ((∃ e, y = .error e) ↔ E.missing d type_ a)) (e : y = .ok none) :
    E.Silent d type_ a := by
  subst e
  refine ⟨⟨t, ht⟩, fun hm => ?_, fun x hx => ?_⟩
  · obtain ⟨e, h⟩ := h.2.mpr hm
    cases h
  · cases (h.1 x).mpr hx

theorem reverse_iff {d : Data} (hd : Fits d) (before : List Nat) (g : Nat) (following : List Nat) (type_ a : Nat) (x : gsub.Type_)
    (h : Spec.gsub.IsTable type_ d a x) :
    (∀ y, reverseAct before g following x = .ok (some y) ↔ (reverseEffect before g following).does d type_ a y) ∧
    ((∃ e, reverseAct before g following x = .error e) ↔ (reverseEffect before g following).missing d type_ a) := by
  cases x with
  | reverseChainedContextualSubstibution t =>
    obtain ⟨rfl, h⟩ := h
    obtain ⟨k1, _, k2⟩ := C105_reverse hd ((reads_parses hd).mpr h) before g following
    exact ⟨fun y => (k1 y).trans ⟨fun h => ⟨rfl, h⟩, fun h => h.2⟩, k2.trans ⟨fun h => ⟨rfl, h⟩, fun h => h.2⟩⟩
  | _ =>
    refine ⟨fun y => ⟨fun e => (by cases e), fun hy => ?_⟩, ⟨fun ⟨e, h⟩ => (by cases h), fun hy => ?_⟩⟩
    · exact absurd (h.1.symm.trans hy.1) (by decide)
    · exact absurd (h.1.symm.trans hy.1) (by decide)

section
variable {accept : Tag → Bool} {cfg : Cfg} {d : Data} (hd : Fits d)
include hd

theorem taken_positionings {W : gpos.Type_ → Prop} {p : Nat} {positioning : Option gpos.GlyphPositioning}
    (h : Takes accept cfg d p .glyphPositioning (gpos.GlyphPositioning.read cfg) positioning)
    (hs : ∀ t, positioning = some t → Inline positioningExtension t ∧
      ∀ record ∈ t.lookups.records, ∀ table ∈ record.tables, W table) :
    ∀ p, TableAt accept cfg d .glyphPositioning p →
      AllSubtables cfg 9 d p fun type_ a => ∃ x, Spec.gpos.IsTable cfg type_ d a x ∧ W x := by
  intro a ha
  cases positioning with
  | none => exact (taken_none hd h a ha).elim
  | some t =>
    obtain ⟨b, k1, k2⟩ := ((C55_tables accept cfg hd p).2.1 t).mp h
    cases tableAt_unique hd ha k1
    intro i j type_ a' type' a'' g1 g2
    obtain ⟨x, h3, h4⟩ := all_subtables ((C101_follow cfg hd).2 t ((reads_parses hd).mpr k2)) (hs t rfl).1 (hs t rfl).2
      i j type_ a' type' a'' g1 g2
    exact ⟨x, (reads_parses (S := Spec.gpos.IsTable cfg type') hd).mp h3, h4⟩

theorem substitutionSeparated_of {S : Nat → Prop} {p : Nat}
    (h : AllSubtables cfg 7 d p fun type_ a => ∃ x, Spec.gsub.IsTable type_ d a x ∧ SubstitutionAvoids S x) :
    SubstitutionSeparated cfg d p S := by
  intro i j type_ a type' a' g1 g2 before g following
  obtain ⟨x, h3, h4⟩ := h i j type_ a type' a' g1 g2
  refine ⟨fun hg => ?_, fun left right hl hr => ?_⟩
  · exact ⟨silent_of_none h3 (react_iff hd before g following type' a' x h3) (react_at h4 hg before following).1,
      silent_of_none h3 (reverse_iff hd before g following type' a' x h3) (react_at h4 hg before following).2⟩
  · exact ⟨sameEffect_of (react_iff hd _ g _ type' a' x h3) (react_iff hd _ g _ type' a' x h3)
        (react_edge h4 hl hr before g following).1,
      sameEffect_of (reverse_iff hd _ g _ type' a' x h3) (reverse_iff hd _ g _ type' a' x h3)
        (react_edge h4 hl hr before g following).2⟩

theorem positioningSeparated_of {S : Nat → Prop} {p : Nat}
    (h : AllSubtables cfg 9 d p fun type_ a => ∃ x, Spec.gpos.IsTable cfg type_ d a x ∧ PositioningAvoids S x) :
    PositioningSeparated cfg d p S := by
  intro i j type_ a type' a' g1 g2 before base component g following
  obtain ⟨x, h3, h4⟩ := h i j type_ a type' a' g1 g2
  refine ⟨fun hg => ?_, fun left right hl hr => ?_, fun b hb => ?_⟩
  · exact silent_of_none h3 (respond_iff hd before base component g following type' a' x h3) (respond_at h4 hg ..)
  · exact sameEffect_of (respond_iff hd _ base component g _ type' a' x h3) (respond_iff hd _ base component g _ type' a' x h3)
      (respond_edge h4 hl hr ..)
  · exact sameEffect_of (respond_iff hd _ _ component g _ type' a' x h3) (respond_iff hd _ _ component g _ type' a' x h3)
      (respond_base h4 hb ..)

/-- Glyphs separate words, if the subtables that were taken from the file have no part in them, and by the glyph definition that was
taken from it no lookup ignores them and they are not marks. -/
theorem C127_taken {S : Nat → Prop} {p₀ p₁ p₂ : Nat} {definition : Option gdef.GlyphDefinition}
    {substitution : Option gsub.GlyphSubstitution} {positioning : Option gpos.GlyphPositioning}
    (h0 : Takes accept cfg d p₀ .glyphDefinition (gdef.GlyphDefinition.read cfg) definition)
    (h1 : Takes accept cfg d p₁ .glyphSubstitution (gsub.GlyphSubstitution.read cfg) substitution)
    (h2 : Takes accept cfg d p₂ .glyphPositioning (gpos.GlyphPositioning.read cfg) positioning)
    (hs : ∀ t, substitution = some t → Inline substitutionExtension t ∧
      (∀ record ∈ t.lookups.records, ∀ table ∈ record.tables, SubstitutionAvoids S table) ∧
      ∀ definition', definition = some definition' → ∀ i g, S g → passedOver definition' t i g = false)
    (hp : ∀ t, positioning = some t → Inline positioningExtension t ∧
      (∀ record ∈ t.lookups.records, ∀ table ∈ record.tables, PositioningAvoids S table) ∧
      ∀ definition', definition = some definition' → ∀ i g, S g → passedOver definition' t i g = false ∧
        classIn definition'.glyph_class g ≠ 3) :
    Separates accept cfg d S := by
  refine ⟨fun p h => ⟨substitutionSeparated_of hd (taken_subtables hd h1 (fun t e => ⟨(hs t e).1, (hs t e).2.1⟩) p h), ?_⟩,
    fun p h => ⟨positioningSeparated_of hd (taken_positionings hd h2 (fun t e => ⟨(hp t e).1, (hp t e).2.1⟩) p h), ?_, ?_⟩⟩
  · rintro i g hg ⟨q, hq, hi⟩
    cases definition with
    | none => exact taken_none hd h0 q hq
    | some definition =>
      cases substitution with
      | none => exact taken_none hd h1 p h
      | some t =>
        obtain ⟨b, k1, k2⟩ := ((C55_tables accept cfg hd p₀).2.2.1 _).mp h0
        obtain ⟨b', k3, k4⟩ := ((C55_tables accept cfg hd p₁).1 _).mp h1
        cases tableAt_unique hd hq k1
        cases tableAt_unique hd h k3
        obtain ⟨f1, f2⟩ := (C110_ignored cfg hd ((reads_parses hd).mpr k2)).1 t ((reads_parses hd).mpr k4)
        have := (hs t rfl).2.2 definition rfl i g hg
        unfold passedOver at this
        cases hr : t.lookups.records[i]? with
        | none => exact f2 i hr g hi
        | some record =>
          rw [hr] at this
          exact Bool.false_ne_true (this.symm.trans ((f1 i record hr g).mpr hi))
  · rintro i g hg ⟨q, hq, hi⟩
    cases definition with
    | none => exact taken_none hd h0 q hq
    | some definition =>
      cases positioning with
      | none => exact taken_none hd h2 p h
      | some t =>
        obtain ⟨b, k1, k2⟩ := ((C55_tables accept cfg hd p₀).2.2.1 _).mp h0
        obtain ⟨b', k3, k4⟩ := ((C55_tables accept cfg hd p₂).2.1 _).mp h2
        cases tableAt_unique hd hq k1
        cases tableAt_unique hd h k3
        obtain ⟨f1, f2⟩ := (C110_ignored cfg hd ((reads_parses hd).mpr k2)).2 t ((reads_parses hd).mpr k4)
        have := ((hp t rfl).2.2 definition rfl i g hg).1
        unfold passedOver at this
        cases hr : t.lookups.records[i]? with
        | none => exact f2 i hr g hi
        | some record =>
          rw [hr] at this
          exact Bool.false_ne_true (this.symm.trans ((f1 i record hr g).mpr hi))
  · rintro g hg ⟨q, hq, hi⟩
    cases definition with
    | none => exact taken_none hd h0 q hq
    | some definition =>
      cases positioning with
      | none => exact taken_none hd h2 p h
      | some t =>
        obtain ⟨b, k1, k2⟩ := ((C55_tables accept cfg hd p₀).2.2.1 _).mp h0
        cases tableAt_unique hd hq k1
        exact ((hp t rfl).2.2 definition rfl 0 g hg).2 ((C107_classes hd ((reads_parses hd).mpr k2) g 3).1.mpr hi)

/-- A text of words with separators between them is set as its words are, with the separators as they are between them; and if one of
the words cannot be set, neither can the text. -/
theorem C127_words {S : Nat → Prop} (h : Separates accept cfg d S) (n : Nat) (script language : Tag) (tags : List Tag)
    (first : List Nat) (words : List (Nat × List Nat)) (hb : ∀ word ∈ words, S word.1) (out : List Item) :
    Reads (typeset accept cfg n script language tags (first ++ words.flatMap fun word => word.1 :: word.2)) d 0 out ↔
      ∃ o outs, Reads (typeset accept cfg n script language tags first) d 0 o ∧ outs.length = words.length ∧
        (∀ pair ∈ words.zip outs, Reads (typeset accept cfg n script language tags pair.1.2) d 0 pair.2) ∧
        out = o ++ (words.zip outs).flatMap fun pair => Item.of pair.1.1 :: pair.2 := by
  induction words generalizing first out with
  | nil =>
    simp only [List.flatMap_nil, List.append_nil, List.zip_nil_left, List.not_mem_nil, List.length_nil, List.length_eq_zero_iff]
    constructor
    · intro hr
      exact ⟨out, [], hr, rfl, fun _ hm => (by cases hm), rfl⟩
    · rintro ⟨o, _, hr, _, _, rfl⟩
      exact hr
  | cons word words ih =>
    obtain ⟨b, word⟩ := word
    rw [List.flatMap_cons]
    have hb' := fun w hw => hb w (List.mem_cons_of_mem _ hw)
    show Reads (typeset accept cfg n script language tags (first ++ b :: (word ++ _))) d 0 out ↔ _
    rw [C127_apart hd h (hb (b, word) List.mem_cons_self)]
    simp only [ih word hb']
    constructor
    · rintro ⟨o1, _, k1, ⟨o, outs, k2, k3, k4, rfl⟩, rfl⟩
      refine ⟨o1, o :: outs, k1, by simp [k3], ?_, ?_⟩
      · intro pair hm
        rw [List.zip_cons_cons] at hm
        rcases List.mem_cons.mp hm with rfl | hm
        · exact k2
        · exact k4 pair hm
      · rw [List.zip_cons_cons, List.flatMap_cons]
        simp
    · rintro ⟨o1, outs, k1, k2, k3, rfl⟩
      cases outs with
      | nil => cases k2
      | cons o outs =>
        rw [List.zip_cons_cons] at k3 ⊢
        refine ⟨o1, _, k1, ⟨o, outs, k3 _ List.mem_cons_self, Nat.succ.inj k2, fun pair hm => k3 pair (List.mem_cons_of_mem _ hm),
          rfl⟩, ?_⟩
        rw [List.flatMap_cons]
        simp

end

/-! ## Examples -/

theorem uncovers_single {S : Nat → Prop} {c : Nat} (h : ¬S c) : Uncovers S (.format1 ⟨1, 1, [c]⟩) := by
  intro g hg
  show [c].findIdx? (· == g) = none
  rw [List.findIdx?_cons]
  have : (c == g) = false := by
    rw [beq_eq_false_iff_ne]
    rintro rfl
    exact h hg
  simp [this]

/-- In the file of the example of C113, all glyphs other than 3, 4 and 9 separate words. -/
theorem separates_typesetting : Separates (· == 0x00010000) ⟨false, false, false, false, false, false⟩ typesettingFile (· ∉ [3, 4, 9]) := by
  refine C127_taken (by decide +kernel) takes_typesetting.1 takes_typesetting.2.1 takes_typesetting.2.2 ?_ ?_
  · rintro t ⟨⟩
    refine ⟨by unfold Inline; decide +kernel, ?_, fun _ e => (by cases e)⟩
    intro record hr table ht
    simp only [shapingValue, List.mem_cons, List.not_mem_nil, or_false] at hr
    rcases hr with rfl | rfl <;> simp only [List.mem_cons, List.not_mem_nil, or_false] at ht <;> subst ht
    · exact uncovers_single (by decide)
    · refine ⟨uncovers_single (by decide), fun set hs ligature hl g hg => ?_⟩
      cases List.mem_singleton.mp hs
      cases List.mem_singleton.mp hl
      cases List.mem_singleton.mp hg
      decide
  · rintro t ⟨⟩
    refine ⟨by unfold Inline; decide +kernel, ?_, fun _ e => (by cases e)⟩
    intro record hr table ht
    simp only [positioningValue, List.mem_cons, List.not_mem_nil, or_false] at hr
    rcases hr with rfl | rfl <;> simp only [List.mem_cons, List.not_mem_nil, or_false] at ht <;> subst ht
    · refine ⟨uncovers_single (by decide), numbersBelow_format1, fun set hs pair hl => ?_⟩
      cases List.mem_singleton.mp hs
      cases List.mem_singleton.mp hl
      decide
    · exact uncovers_single (by decide)

/-- Glyphs 9, 3 and glyphs 4, 3, with glyph 1 between them, are set as they are by themselves; with glyph 4 instead of it they are
not. -/
example : Reads (typeset (· == 0x00010000) ⟨false, false, false, false, false, false⟩ 2 0x6C61746E 0x44455520 [0x6C696761, 0x6B65726E]
      [9, 3]) typesettingFile 0 [⟨6, 0, []⟩, ⟨3, 0, [.moved (advance 6)]⟩] ∧
    Reads (typeset (· == 0x00010000) ⟨false, false, false, false, false, false⟩ 2 0x6C61746E 0x44455520 [0x6C696761, 0x6B65726E]
      [4, 3]) typesettingFile 0 [⟨4, 0, []⟩, ⟨3, 0, [.moved (advance 6)]⟩] ∧
    Reads (typeset (· == 0x00010000) ⟨false, false, false, false, false, false⟩ 2 0x6C61746E 0x44455520 [0x6C696761, 0x6B65726E]
      ([9, 3] ++ 1 :: [4, 3])) typesettingFile 0
      [⟨6, 0, []⟩, ⟨3, 0, [.moved (advance 6)]⟩, ⟨1, 0, []⟩, ⟨4, 0, []⟩, ⟨3, 0, [.moved (advance 6)]⟩] ∧
    Reads (typeset (· == 0x00010000) ⟨false, false, false, false, false, false⟩ 2 0x6C61746E 0x44455520 [0x6C696761, 0x6B65726E]
      ([9, 3] ++ 4 :: [4, 3])) typesettingFile 0
      [⟨6, 0, []⟩, ⟨6, 0, []⟩, ⟨4, 0, []⟩, ⟨3, 0, [.moved (advance 6)]⟩] := by
  decide +kernel

/-- A glyph that is ignored does not separate anything: in the file of the example of C113 with a glyph definition, glyph 2 has no
part in any subtable, and yet glyphs 3 and 4 become one on both sides of it. -/
example : Reads (typeset (· == 0x00010000) ⟨false, false, false, false, false, false⟩ 2 0x6C61746E 0x44455520 [0x6C696761]
      [3]) markedFile 0 [⟨3, 0, []⟩] ∧
    Reads (typeset (· == 0x00010000) ⟨false, false, false, false, false, false⟩ 2 0x6C61746E 0x44455520 [0x6C696761]
      [4]) markedFile 0 [⟨4, 0, []⟩] ∧
    Reads (typeset (· == 0x00010000) ⟨false, false, false, false, false, false⟩ 2 0x6C61746E 0x44455520 [0x6C696761]
      ([3] ++ 2 :: [4])) markedFile 0 [⟨6, 0, []⟩, ⟨2, 0, []⟩] := by
  decide +kernel

end OpenType.Props
