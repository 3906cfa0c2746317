import Verif.Props.Subset
/-! # C130: subtables with other glyphs -/

namespace OpenType.Props
open OpenType Spec lookup directory context

/-! ## Results -/

section
variable {α β γ δ : Type} {rel : α → β → Prop} {rel' : γ → δ → Prop}

theorem results_map {r : Except Err (Option α)} {r' : Except Err (Option β)} {f : α → γ} {f' : β → δ} (h : ResultsAlike rel r r')
    (hf : ∀ x y, rel x y → rel' (f x) (f' y)) :
    ResultsAlike rel' (do return (← r).map f) (do return (← r').map f') := by
  cases h with
  | error => exact .error
  | none => exact .none
  | some h => exact .some (hf _ _ h)

theorem find_by {dead : α → Prop} {dead' : β → Prop} {test : α → Bool} {test' : β → Bool} {xs : List α} {ys : List β}
    (h : SameBut rel dead dead' xs ys) (h1 : ∀ x y, rel x y → test x = test' y) (h2 : ∀ x, dead x → test x = false)
    (h3 : ∀ y, dead' y → test' y = false) : Option.Rel rel (xs.find? test) (ys.find? test') := by
  induction h with
  | nil => exact .none
  | @cons x y xs ys h _ ih =>
    rw [List.find?_cons, List.find?_cons, h1 x y h]
    cases test' y with
    | false => exact ih
    | true => exact .some h
  | @left x xs ys h _ ih =>
    rw [List.find?_cons, h2 x h]
    exact ih
  | @right y xs ys h _ ih =>
    rw [List.find?_cons, h3 y h]
    exact ih

theorem ruleOf_by {Set Set' Rule Rule' : Type} {same : Rule → Rule' → Prop} {dead : Rule → Prop} {dead' : Rule' → Prop}
    {records : Set → List Rule} {records' : Set' → List Rule'} {wanted : Rule → γ} {wanted' : Rule' → δ}
    {entry : Except Err (Option Set)} {entry' : Except Err (Option Set')} {test : Rule → Bool} {test' : Rule' → Bool}
    (h : ResultsAlike (fun set set' => SameBut same dead dead' (records set) (records' set')) entry entry')
    (h1 : ∀ x y, same x y → test x = test' y) (h2 : ∀ x, dead x → test x = false) (h3 : ∀ y, dead' y → test' y = false)
    (h4 : ∀ x y, same x y → rel' (wanted x) (wanted' y)) :
    ResultsAlike rel' (ruleOf records wanted entry test) (ruleOf records' wanted' entry' test') := by
  unfold ruleOf
  cases h with
  | error => exact .error
  | none => exact .none
  | @some set set' h =>
    have key := find_by h h1 h2 h3
    simp only [bind, Except.bind]
    generalize (records set).find? test = a at key ⊢
    generalize (records' set').find? test' = b at key ⊢
    cases key with
    | none => exact .none
    | some h => exact .some (h4 _ _ h)

end

/-! ## Matching -/

section
variable {G R : Nat → Nat → Prop}

theorem begins_by {κ κ' : Type} {P : κ → κ' → Prop} {test : Nat → κ → Bool} {test' : Nat → κ' → Bool}
    (ht : ∀ g h k k', G g h → P k k' → test g k = test' h k') {ks : List κ} {ks' : List κ'} (hk : List.Forall₂ P ks ks')
    {xs ys : List Nat} (h : List.Forall₂ G xs ys) : begins test ks xs = begins test' ks' ys := by
  induction hk generalizing xs ys with
  | nil => rfl
  | cons hk _ ih =>
    cases h with
    | nil => rfl
    | cons h hs =>
      simp only [begins]
      rw [ht _ _ _ _ h hk, ih hs]

theorem begins_dead {κ : Type} {test : Nat → κ → Bool} {ks : List κ} {xs : List Nat} {k : κ} (hk : k ∈ ks)
    (h : ∀ x ∈ xs, test x k = false) : begins test ks xs = false := by
  induction ks generalizing xs with
  | nil => cases hk
  | cons k' ks ih =>
    cases xs with
    | nil => rfl
    | cons x xs =>
      simp only [begins, Bool.and_eq_false_iff]
      rcases List.mem_cons.mp hk with rfl | hk
      · exact .inl (h x List.mem_cons_self)
      · exact .inr (ih hk fun y hy => h y (List.mem_cons_of_mem _ hy))

theorem begins_glyphs (h1 : OneToOne G) {ks ks' xs ys : List Nat} (hk : List.Forall₂ G ks ks') (h : List.Forall₂ G xs ys) :
    begins (· == ·) ks xs = begins (· == ·) ks' ys :=
  begins_by (fun g h k k' hg hk => by rw [Bool.eq_iff_iff, beq_iff_eq, beq_iff_eq]; exact h1 _ _ _ _ hg hk) hk h

theorem begins_absent {P : Nat → Prop} {ks xs : List Nat} (hk : Dead P ks) (h : ∀ x ∈ xs, P x) : begins (· == ·) ks xs = false := by
  obtain ⟨k, h1, h2⟩ := hk
  refine begins_dead h1 fun x hx => beq_eq_false_iff_ne.mpr ?_
  rintro rfl
  exact h2 (h x hx)

theorem begins_classes {c c' : class_.Class} (hc : ClassBy G c c') {ks xs ys : List Nat} (h : List.Forall₂ G xs ys) :
    begins (fun g k => classOf c g == k) ks xs = begins (fun g k => classOf c' g == k) ks ys :=
  begins_by (P := Eq) (fun g h k k' hg hk => by rw [hc g h hg, hk]) (List.forall₂_eq_eq_eq ▸ rfl) h

theorem begins_classless {P : Nat → Prop} {c : class_.Class} {ks xs : List Nat} (hk : DeadClass P c ks) (h : ∀ x ∈ xs, P x) :
    begins (fun g k => classOf c g == k) ks xs = false := by
  obtain ⟨k, h1, h2⟩ := hk
  exact begins_dead h1 fun x hx => beq_eq_false_iff_ne.mpr (h2 x (h x hx))

theorem begins_covers {ks ks' : List coverage.Coverage} (hk : List.Forall₂ (CoverageBy G) ks ks') {xs ys : List Nat}
    (h : List.Forall₂ G xs ys) : begins covers ks xs = begins covers ks' ys :=
  begins_by (fun g h _ _ hg hk => hk g h hg) hk h

/-- Actions of the same number that are alike. -/
def MatchesBy (R : Nat → Nat → Prop) (x y : Nat × List Action) : Prop := x.1 = y.1 ∧ ActionsAlike R x.2 y.2

theorem matchContext_by (h1 : OneToOne G) {t t' : Context} (h : ContextBy G R t t') {g g' : Nat} (hg : G g g') {after after' : List Nat}
    (ha : List.Forall₂ G after after') : ResultsAlike (MatchesBy R) (matchContext t g after) (matchContext t' g' after') := by
  have l := forall₂_left ha
  have r := forall₂_right ha
  cases t with
  | format1 t =>
    cases t' with
    | format1 t' =>
      refine ruleOf_by (h g g' hg) (fun x y e => ?_) (fun x e => ?_) (fun y e => ?_) (fun x y e => ?_)
      · exact begins_glyphs h1 e.1 ha
      · exact begins_absent e l
      · exact begins_absent e r
      · exact ⟨by dsimp only; rw [e.1.length_eq], e.2⟩
    | format2 => exact h.elim
    | format3 => exact h.elim
  | format2 t =>
    cases t' with
    | format1 => exact h.elim
    | format2 t' =>
      refine ruleOf_by (h.2 g g' hg) (fun x y e => ?_) (fun x e => ?_) (fun y e => ?_) (fun x y e => ?_)
      · rw [e.1]
        exact begins_classes h.1 ha
      · exact begins_classless e l
      · exact begins_classless e r
      · exact ⟨by dsimp only; rw [e.1], e.2⟩
    | format3 => exact h.elim
  | format3 t =>
    cases t' with
    | format1 => exact h.elim
    | format2 => exact h.elim
    | format3 t' =>
      simp only [matchContext]
      rw [begins_covers h.1 (.cons hg ha)]
      split
      · exact .some ⟨h.1.length_eq, h.2⟩
      · exact .none

theorem matchChain_by (h1 : OneToOne G) {t t' : ChainedContext} (h : ChainBy G R t t') {before before' : List Nat}
    (hb : List.Forall₂ G before before') {g g' : Nat} (hg : G g g') {after after' : List Nat} (ha : List.Forall₂ G after after') :
    ResultsAlike (MatchesBy R) (matchChain t before g after) (matchChain t' before' g' after') := by
  have l := forall₂_left ha
  have r := forall₂_right ha
  have bl := forall₂_left hb
  have br := forall₂_right hb
  have dl : ∀ n, ∀ x ∈ after.drop n, Kept G x := fun n x hx => l x (List.mem_of_mem_drop hx)
  have dr : ∀ n, ∀ x ∈ after'.drop n, Known G x := fun n x hx => r x (List.mem_of_mem_drop hx)
  cases t with
  | format1 t =>
    cases t' with
    | format1 t' =>
      refine ruleOf_by (h g g' hg) (fun x y e => ?_) (fun x e => ?_) (fun y e => ?_) (fun x y e => ?_)
      · rw [begins_glyphs h1 e.1 hb, begins_glyphs h1 e.2.1 ha, begins_glyphs h1 e.2.2.1 (forall₂_drop ha _), e.2.1.length_eq]
      · rcases e with e | e | e
        · rw [begins_absent e bl, Bool.false_and]
        · rw [begins_absent e l, Bool.false_and, Bool.and_false]
        · rw [begins_absent e (dl _), Bool.and_false, Bool.and_false]
      · rcases e with e | e | e
        · rw [begins_absent e br, Bool.false_and]
        · rw [begins_absent e r, Bool.false_and, Bool.and_false]
        · rw [begins_absent e (dr _), Bool.and_false, Bool.and_false]
      · exact ⟨by dsimp only; rw [e.2.1.length_eq], e.2.2.2⟩
    | format2 => exact h.elim
    | format3 => exact h.elim
  | format2 t =>
    cases t' with
    | format1 => exact h.elim
    | format2 t' =>
      refine ruleOf_by (h.2.2.2 g g' hg) (fun x y e => ?_) (fun x e => ?_) (fun y e => ?_) (fun x y e => ?_)
      · rw [begins_classes h.1 hb, begins_classes h.2.1 ha, begins_classes h.2.2.1 (forall₂_drop ha _), e.1, e.2.1, e.2.2.1]
      · rcases e with e | e | e
        · rw [begins_classless e bl, Bool.false_and]
        · rw [begins_classless e l, Bool.false_and, Bool.and_false]
        · rw [begins_classless e (dl _), Bool.and_false, Bool.and_false]
      · rcases e with e | e | e
        · rw [begins_classless e br, Bool.false_and]
        · rw [begins_classless e r, Bool.false_and, Bool.and_false]
        · rw [begins_classless e (dr _), Bool.and_false, Bool.and_false]
      · exact ⟨by dsimp only; rw [e.2.1], e.2.2.2⟩
    | format3 => exact h.elim
  | format3 t =>
    cases t' with
    | format1 => exact h.elim
    | format2 => exact h.elim
    | format3 t' =>
      simp only [matchChain]
      have hga : List.Forall₂ G (g :: after) (g' :: after') := .cons hg ha
      rw [begins_covers h.1 hb, begins_covers h.2.1 hga, begins_covers h.2.2.1 (forall₂_drop hga _), h.2.1.length_eq]
      split
      · exact .some ⟨rfl, h.2.2.2⟩
      · exact .none

theorem isPrefixOf_by (h1 : OneToOne G) {ks ks' xs ys : List Nat} (hk : List.Forall₂ G ks ks') (h : List.Forall₂ G xs ys) :
    ks.isPrefixOf xs = ks'.isPrefixOf ys := by
  induction hk generalizing xs ys with
  | nil => rfl
  | cons hk _ ih =>
    cases h with
    | nil => rfl
    | cons h hs =>
      simp only [List.isPrefixOf]
      rw [ih hs]
      congr 1
      rw [Bool.eq_iff_iff, beq_iff_eq, beq_iff_eq]
      exact h1 _ _ _ _ hk h

theorem isPrefixOf_absent {P : Nat → Prop} {ks xs : List Nat} (hk : Dead P ks) (h : ∀ x ∈ xs, P x) : ks.isPrefixOf xs = false := by
  rw [Bool.eq_false_iff]
  intro e
  obtain ⟨k, h1, h2⟩ := hk
  exact h2 (h k ((List.isPrefixOf_iff_prefix.mp e).subset h1))

theorem ligate_rule (t : gsub.LigatureSubstitution) (g : Nat) (following : List Nat) :
    ligate t g following = ruleOf gsub.Ligatures.records (fun l => (l.glyph_id, l.glyph_ids.length)) (entryOf t.coverage t.records g)
      fun l => l.glyph_ids.isPrefixOf following := by
  unfold ligate ruleOf
  rcases entryOf t.coverage t.records g with e | (_ | x) <;> rfl

/-! ## Subtables -/

/-- Subtables of GSUB that have the same for the glyphs in both fonts do alike. -/
theorem C130_substitutions (h1 : OneToOne G) {x y : gsub.Type_} (h : SubsetSubstitution G R x y) : SubstitutionsBy G R x y := by
  intro before before' g g' following following' hb hg hf
  cases x <;> cases y <;> first | exact h.elim | skip
  · -- single
    refine ⟨?_, .none⟩
    exact results_map (rel := fun x y => List.Forall₂ G x.1 y.1 ∧ x.2 = y.2)
      (results_map (h g g' hg) fun _ _ e => ⟨.cons e .nil, rfl⟩) fun x y e => by rw [e.2]; exact .replaced e.1
  · -- multiple
    refine ⟨?_, .none⟩
    exact results_map (rel := fun x y => List.Forall₂ G x.1 y.1 ∧ x.2 = y.2)
      (results_map (results_map (h g g' hg) fun _ _ e => e) fun _ _ e => ⟨e, rfl⟩) fun x y e => by rw [e.2]; exact .replaced e.1
  · exact ⟨.none, .none⟩
  · -- ligature
    refine ⟨?_, .none⟩
    refine results_map (rel := fun x y => List.Forall₂ G x.1 y.1 ∧ x.2 = y.2)
      (results_map (rel := fun x y => G x.1 y.1 ∧ x.2 = y.2) ?_ fun _ _ e => ⟨.cons e.1 .nil, e.2⟩)
      fun x y e => by rw [e.2]; exact .replaced e.1
    rw [ligate_rule, ligate_rule]
    exact ruleOf_by (h g g' hg) (fun x y e => isPrefixOf_by h1 e.1 hf) (fun x e => isPrefixOf_absent e (forall₂_left hf))
      (fun y e => isPrefixOf_absent e (forall₂_right hf)) fun x y e => ⟨e.2, e.1.length_eq⟩
  · exact ⟨results_map (matchContext_by h1 h hg hf) fun x y e => by rw [e.1]; exact .sequence e.2, .none⟩
  · exact ⟨results_map (matchChain_by h1 h hb hg hf) fun x y e => by rw [e.1]; exact .sequence e.2, .none⟩
  · -- reverse
    refine ⟨.none, ?_⟩
    simp only [reverseAct, matchReverse]
    rw [begins_covers h.1 hb, begins_covers h.2.1 hf]
    split
    · exact h.2.2 g g' hg
    · exact .none

theorem results_eq {α : Type} {r r' : Except Err (Option α)} (h : r = r') : ResultsAlike Eq r r' := by
  subst h
  exact results_refl fun _ _ => rfl

/-- Subtables of GPOS that have the same for the glyphs in both fonts do alike. -/
theorem C130_positionings (h1 : OneToOne G) {x y : gpos.Type_} (h : SubsetPositioning G R x y) : PositioningsBy G R x y := by
  intro before before' base base' component g g' following following' hb hs hg hf
  cases x <;> cases y <;> first | exact h.elim | skip
  · exact results_map (results_map (results_eq (h g g' hg)) (rel' := Eq) fun _ _ e => by rw [e]) fun x y e => by subst e; exact .moved
  · cases hf with
    | nil => exact .none
    | cons hf _ => exact results_map (results_eq (h _ _ _ _ hg hf)) fun x y e => by subst e; exact .moved
  · rename_i t t'
    cases hf with
    | nil => exact .none
    | @cons a b _ _ hf _ =>
      simp only [respond, List.head?_cons]
      have e : join t g a = join t' g' b := by
        unfold join
        rw [h g g' hg, h a b hf]
      rw [e]
      refine results_refl fun y hy => ?_
      unfold join at hy
      split at hy
      · cases hy
      · cases hy
      · cases hy
      · cases e : connect t' b with
        | error e' => rw [e] at hy; cases hy
        | ok z =>
          rw [e] at hy
          rcases z with - | ⟨- | z, w⟩ <;> cases hy
          exact .joined
  · cases hs with
    | none => exact .none
    | some hs => exact results_map (results_eq (h _ _ _ _ hg hs)) fun x y e => by subst e; exact .onBase
  · cases hs with
    | none => exact .none
    | some hs => exact results_map (results_eq (h _ _ _ _ _ hg hs)) fun x y e => by subst e; exact .onBase
  · cases hb with
    | nil => exact .none
    | cons hb _ => exact results_map (results_eq (h _ _ _ _ hg hb)) fun x y e => by subst e; exact .onMark
  · exact results_map (matchContext_by h1 h hg hf) fun x y e => by rw [e.1]; exact .sequence e.2
  · exact results_map (matchChain_by h1 h hb hg hf) fun x y e => by rw [e.1]; exact .sequence e.2

end

/-! ## Subtables that do nothing -/

section
variable {P : Nat → Prop}

theorem uncovered_entry {α : Type} {c : coverage.Coverage} {xs : List α} {g : Nat} (h : covers g c = false) : entryOf c xs g = .ok none := by
  unfold entryOf
  rw [Option.isSome_eq_false_iff.mp h |> Option.isNone_iff_eq_none.mp]

theorem uncovered_class {α : Type} {c : coverage.Coverage} {k : class_.Class} {xs : List (Option α)} {g : Nat} (h : covers g c = false) :
    classEntryOf c k xs g = .ok none := by
  unfold classEntryOf
  rw [Option.isSome_eq_false_iff.mp h |> Option.isNone_iff_eq_none.mp]

theorem uncovered_context {t : Context} {c : coverage.Coverage} (hc : contextCoverage t = some c) {g : Nat} (h : covers g c = false)
    (after : List Nat) : matchContext t g after = .ok none := by
  cases t with
  | format1 t => cases hc; simp only [matchContext, ruleOf, uncovered_entry h]; rfl
  | format2 t => cases hc; simp only [matchContext, ruleOf, uncovered_class h]; rfl
  | format3 t =>
    obtain ⟨cs, e⟩ := List.head?_eq_some_iff.mp hc
    simp only [matchContext]
    rw [e, begins, h]
    rfl

theorem uncovered_chain {t : ChainedContext} {c : coverage.Coverage} (hc : chainCoverage t = some c) {g : Nat} (h : covers g c = false)
    (before after : List Nat) : matchChain t before g after = .ok none := by
  cases t with
  | format1 t => cases hc; simp only [matchChain, ruleOf, uncovered_entry h]; rfl
  | format2 t => cases hc; simp only [matchChain, ruleOf, uncovered_class h]; rfl
  | format3 t =>
    obtain ⟨cs, e⟩ := List.head?_eq_some_iff.mp hc
    simp only [matchChain]
    rw [e, begins, h]
    simp only [Bool.false_and, Bool.and_false]
    rfl

theorem uncovered_anchors {c c' : coverage.Coverage} {marks : List gpos.Mark1} {anchor : Nat → Nat → Except Err (Option gpos.Anchor)}
    {g b : Nat} (h : covers g c = false) : anchors c c' marks anchor g b = .ok none := by
  unfold anchors
  rw [Option.isSome_eq_false_iff.mp h |> Option.isNone_iff_eq_none.mp]

/-- Subtables that cover none of the glyphs do nothing to them. -/
theorem C130_uncovered :
    (∀ x c, substitutionCoverage x = some c → (∀ g, P g → covers g c = false) → SubstitutionIdle P x) ∧
    ∀ x c, positioningCoverage x = some c → (∀ g, P g → covers g c = false) → PositioningIdle P x := by
  constructor
  · intro x c hc h before g following _ hg _
    have hu := h g hg
    cases x with
    | singleSubstitution t =>
      cases t with
      | format1 t =>
        cases hc
        simp only [react, substitute, replace]
        rw [Option.isSome_eq_false_iff.mp hu |> Option.isNone_iff_eq_none.mp]
        exact ⟨rfl, rfl⟩
      | format2 t => cases hc; simp only [react, substitute, replace, uncovered_entry hu]; exact ⟨rfl, rfl⟩
    | multipleSubstitution t => cases hc; simp only [react, substitute, expand, uncovered_entry hu]; exact ⟨rfl, rfl⟩
    | alternateSubstitution t => exact ⟨rfl, rfl⟩
    | ligatureSubstitution t => cases hc; simp only [react, substitute, ligate, uncovered_entry hu]; exact ⟨rfl, rfl⟩
    | contextualSubstitution t => simp only [react, uncovered_context hc hu]; exact ⟨rfl, rfl⟩
    | chainedContextualSubstitution t => simp only [react, uncovered_chain hc hu]; exact ⟨rfl, rfl⟩
    | extensionSubstitution t => cases hc
    | reverseChainedContextualSubstibution t =>
      cases hc
      refine ⟨rfl, ?_⟩
      simp only [reverseAct, matchReverse, uncovered_entry hu]
      split <;> rfl
  · intro x c hc h before base component g following _ _ hg _
    have hu := h g hg
    cases x with
    | singleAdjustment t =>
      cases t with
      | format1 t =>
        cases hc
        simp only [respond, move, place]
        rw [Option.isSome_eq_false_iff.mp hu |> Option.isNone_iff_eq_none.mp]
        rfl
      | format2 t => cases hc; simp only [respond, move, place, uncovered_entry hu]; rfl
    | pairAdjustment t =>
      simp only [respond, move]
      cases following.head? with
      | none => rfl
      | some b =>
        cases t with
        | format1 t => cases hc; simp only [adjust, uncovered_entry hu]; rfl
        | format2 t =>
          cases hc
          simp only [adjust]
          rw [Option.isSome_eq_false_iff.mp hu |> Option.isNone_iff_eq_none.mp]
          rfl
    | cursiveAttachment t =>
      cases hc
      simp only [respond]
      cases following.head? with
      | none => rfl
      | some b => simp only [join, connect, uncovered_entry hu]; rfl
    | markToBaseAttachment t =>
      cases hc
      simp only [respond]
      cases base with
      | none => rfl
      | some b => simp only [attachToBase, uncovered_anchors hu]; rfl
    | markToLigatureAttachment t =>
      cases hc
      simp only [respond]
      cases base with
      | none => rfl
      | some b => simp only [attachToLigature, uncovered_anchors hu]; rfl
    | markToMarkAttachment t =>
      cases hc
      simp only [respond]
      cases before.head? with
      | none => rfl
      | some b => simp only [attachToMark, uncovered_anchors hu]; rfl
    | contextualPositioning t => simp only [respond, uncovered_context hc hu]; rfl
    | chainedContextualPositioning t => simp only [respond, uncovered_chain hc hu]; rfl
    | extensionPositioning t => cases hc

end

/-! ## Files -/

/-- An item with another number for its glyph. -/
def renamed (f : Nat → Nat) (x : Item) : Item := { x with glyph := f x.glyph }

/-- A second file has those glyphs of the first that are with `P`, each under the number that `f` gives. Then it makes of a text in
these glyphs what the first makes of it, under the new numbers; and nothing else comes up in it. With `f g = g`, the files set such a
text the same. -/
theorem C130_renamed (accept accept' : Tag → Bool) (cfg cfg' : Cfg) {d d' : Data} (hd : Fits d) (hd' : Fits d')
    {p₁ p₂ p₃ p₁' p₂' p₃' : Nat} {definition definition' : Option gdef.GlyphDefinition}
    {substitution substitution' : Option gsub.GlyphSubstitution} {positioning positioning' : Option gpos.GlyphPositioning}
    (h1 : Takes accept cfg d p₁ .glyphDefinition (gdef.GlyphDefinition.read cfg) definition)
    (h2 : Takes accept cfg d p₂ .glyphSubstitution (gsub.GlyphSubstitution.read cfg) substitution)
    (h3 : Takes accept cfg d p₃ .glyphPositioning (gpos.GlyphPositioning.read cfg) positioning)
    (h1' : Takes accept' cfg' d' p₁' .glyphDefinition (gdef.GlyphDefinition.read cfg') definition')
    (h2' : Takes accept' cfg' d' p₂' .glyphSubstitution (gsub.GlyphSubstitution.read cfg') substitution')
    (h3' : Takes accept' cfg' d' p₃' .glyphPositioning (gpos.GlyphPositioning.read cfg') positioning')
    (hs : ∀ t, substitution = some t → Inline substitutionExtension t)
    (hp : ∀ t, positioning = some t → Inline positioningExtension t)
    (hs' : ∀ t, substitution' = some t → Inline substitutionExtension t)
    (hp' : ∀ t, positioning' = some t → Inline positioningExtension t)
    {script language : Tag} {tags : List Tag} {P : Nat → Prop} {f : Nat → Nat} (hf : ∀ g h, P g → P h → f g = f h → g = h)
    {G R S : Nat → Nat → Prop} (hG : ∀ g h, G g h ↔ P g ∧ f g = h)
    (hR : CorrespondsBy (SubsetSubstitution G R) (SubstitutionIdle (Kept G)) (SubstitutionIdle (Known G)) G R definition definition'
      script language tags substitution substitution')
    (hS : CorrespondsBy (SubsetPositioning G S) (PositioningIdle (Kept G)) (PositioningIdle (Known G)) G S definition definition' script
      language tags positioning positioning')
    (hm : MarksBy G definition definition') (n : Nat) {glyphs : List Nat} (hg : ∀ g ∈ glyphs, P g) :
    alone (typeset accept' cfg' n script language tags (glyphs.map f)) d' =
      (alone (typeset accept cfg n script language tags glyphs) d).map (List.map (renamed f)) ∧
    ∀ out, alone (typeset accept cfg n script language tags glyphs) d = .ok out → ∀ x ∈ out, P x.glyph := by
  have one : OneToOne G := by
    intro g h g' h' e e'
    obtain ⟨e1, rfl⟩ := (hG g h).mp e
    obtain ⟨e1', rfl⟩ := (hG g' h').mp e'
    exact ⟨fun e => by rw [e], hf _ _ e1 e1'⟩
  have related : List.Forall₂ G glyphs (glyphs.map f) := by
    clear hm hS hR
    induction glyphs with
    | nil => exact .nil
    | cons g glyphs ih =>
      exact .cons ((hG _ _).mpr ⟨hg g List.mem_cons_self, rfl⟩) (ih fun h hh => hg h (List.mem_cons_of_mem _ hh))
  have weaken : ∀ {T : Type} {alike alike' : T → T → Prop} {idle idle' : T → Prop} {xs ys : List T}, (∀ x y, alike x y → alike' x y) →
      SameBut alike idle idle' xs ys → SameBut alike' idle idle' xs ys := by
    intro T alike alike' idle idle' xs ys hw h
    induction h with
    | nil => exact .nil
    | cons h _ ih => exact .cons (hw _ _ h) ih
    | left h _ ih => exact .left h ih
    | right h _ ih => exact .right h ih
  have key := C130_alike accept accept' cfg cfg' hd hd' h1 h2 h3 h1' h2' h3' hs hp hs' hp'
    { hR with tables := fun i j hr => weaken (fun _ _ => C130_substitutions one) (hR.tables i j hr) }
    { hS with tables := fun i j hr => weaken (fun _ _ => C130_positionings one) (hS.tables i j hr) } hm n related
  generalize alone (typeset accept cfg n script language tags glyphs) d = a at key ⊢
  generalize alone (typeset accept' cfg' n script language tags (glyphs.map f)) d' = b at key ⊢
  cases key with
  | error => exact ⟨rfl, fun _ h => by cases h⟩
  | @ok xs ys h =>
    refine ⟨?_, fun out e => ?_⟩
    · refine congrArg Except.ok ?_
      induction h with
      | nil => rfl
      | @cons x y xs ys h _ ih =>
        rw [List.map_cons, ← ih]
        obtain ⟨k1, k2, k3⟩ := h
        refine congrArg (· :: ys) ?_
        cases x; cases y
        dsimp only at k2 k3
        rw [k2, k3]
        exact congrArg (Item.mk · _ _) ((hG _ _).mp k1).2.symm
    · cases e
      intro x hx
      obtain ⟨y, hy⟩ := forall₂_left h x hx
      exact ((hG _ _).mp hy.1).1

/-! ## Example -/

/-- A table with ligatures of f, i and l, which are the glyphs 10, 11 and 12. The first subtable makes two l into glyph 23, the second
f, f and i into glyph 22, f and i into glyph 20, and f and l into glyph 21. -/
def wholeTable : Data := bytes <|
  [0, 1,  0, 0,  0, 10,  0, 30,  0, 44] ++
  [0, 1,  0x6C, 0x61, 0x74, 0x6E,  0, 8] ++ [0, 4,  0, 0] ++ [0, 0,  0xFF, 0xFF,  0, 1,  0, 0] ++
  [0, 1,  0x6C, 0x69, 0x67, 0x61,  0, 8] ++ [0, 0,  0, 1,  0, 0] ++
  [0, 1,  0, 4] ++
  [0, 4,  0, 0,  0, 2,  0, 10,  0, 34] ++
  [0, 1,  0, 8,  0, 1,  0, 14] ++ [0, 1,  0, 1,  0, 12] ++ [0, 1,  0, 4] ++ [0, 23,  0, 2,  0, 12] ++
  [0, 1,  0, 8,  0, 1,  0, 14] ++ [0, 1,  0, 1,  0, 10] ++ [0, 3,  0, 8,  0, 16,  0, 22] ++
  [0, 22,  0, 3,  0, 10,  0, 11] ++ [0, 20,  0, 2,  0, 11] ++ [0, 21,  0, 2,  0, 12]

/-- The table for the glyphs without l. There are only four: 1 and 2 for f and i, 3 for the ligature of these, and 4 for the one of f, f
and i. -/
def subsetTable : Data := bytes <|
  [0, 1,  0, 0,  0, 10,  0, 30,  0, 44] ++
  [0, 1,  0x6C, 0x61, 0x74, 0x6E,  0, 8] ++ [0, 4,  0, 0] ++ [0, 0,  0xFF, 0xFF,  0, 1,  0, 0] ++
  [0, 1,  0x6C, 0x69, 0x67, 0x61,  0, 8] ++ [0, 0,  0, 1,  0, 0] ++
  [0, 1,  0, 4] ++
  [0, 4,  0, 0,  0, 1,  0, 8] ++
  [0, 1,  0, 8,  0, 1,  0, 14] ++ [0, 1,  0, 1,  0, 1] ++ [0, 2,  0, 6,  0, 14] ++
  [0, 4,  0, 3,  0, 1,  0, 2] ++ [0, 3,  0, 2,  0, 2]

def wholeFile : Data := fontFile 0x00010000 32 1 0 [(TableType.glyphSubstitution.tag, wholeTable)]
def subsetFile : Data := fontFile 0x00010000 32 1 0 [(TableType.glyphSubstitution.tag, subsetTable)]

def wholeRead : File :=
  match File.read (· == 0x00010000) wholeFile 0 with
  | .ok x => x.1
  | .error _ => ⟨[]⟩

def subsetRead : File :=
  match File.read (· == 0x00010000) subsetFile 0 with
  | .ok x => x.1
  | .error _ => ⟨[]⟩

def wholeValue : gsub.GlyphSubstitution :=
  match gsub.GlyphSubstitution.read ⟨false, false, false, false, false, false⟩ wholeTable 0 with
  | .ok x => x.1
  | .error _ => sampleGsub

def subsetValue : gsub.GlyphSubstitution :=
  match gsub.GlyphSubstitution.read ⟨false, false, false, false, false, false⟩ subsetTable 0 with
  | .ok x => x.1
  | .error _ => sampleGsub

/-- The glyphs that are kept. -/
def keptGlyphs : List Nat := [10, 11, 20, 22]

/-- Their new numbers. -/
def newGlyph (g : Nat) : Nat := if g = 10 then 1 else if g = 11 then 2 else if g = 20 then 3 else 4

/-- A glyph of the one font is a glyph of the other. -/
def SameGlyph (g h : Nat) : Prop := g ∈ keptGlyphs ∧ newGlyph g = h

def doubledLigatures : gsub.LigatureSubstitution :=
  ⟨1, 8, 1, [14], .format1 ⟨1, 1, [12]⟩, [⟨1, [4], [⟨23, 2, [12]⟩]⟩]⟩

def wholeLigatures : gsub.LigatureSubstitution :=
  ⟨1, 8, 1, [14], .format1 ⟨1, 1, [10]⟩, [⟨3, [8, 16, 22], [⟨22, 3, [10, 11]⟩, ⟨20, 2, [11]⟩, ⟨21, 2, [12]⟩]⟩]⟩

def subsetLigatures : gsub.LigatureSubstitution :=
  ⟨1, 8, 1, [14], .format1 ⟨1, 1, [1]⟩, [⟨2, [6, 14], [⟨4, 3, [1, 2]⟩, ⟨3, 2, [2]⟩]⟩]⟩

theorem sameGlyph_of {g : Nat} (h : g ∈ keptGlyphs) : SameGlyph g (newGlyph g) := ⟨h, rfl⟩

theorem subset_corresponds :
    CorrespondsBy (SubsetSubstitution SameGlyph fun i j => i = 0 ∧ j = 0) (SubstitutionIdle (Kept SameGlyph))
      (SubstitutionIdle (Known SameGlyph)) SameGlyph (fun i j => i = 0 ∧ j = 0) none none 0x6C61746E 0x44455520 [0x6C696761]
      (some wholeValue) (some subsetValue) := by
  have h1 : ∀ i, WantedOf (some wholeValue) 0x6C61746E 0x44455520 [0x6C696761] i ↔ i ∈ [0] := by
    intro i
    rw [wantedNumbers_iff, show wantedNumbers wholeValue 0x6C61746E 0x44455520 [0x6C696761] = [0] by decide +kernel]
  have h2 : ∀ i, WantedOf (some subsetValue) 0x6C61746E 0x44455520 [0x6C696761] i ↔ i ∈ [0] := by
    intro i
    rw [wantedNumbers_iff, show wantedNumbers subsetValue 0x6C61746E 0x44455520 [0x6C696761] = [0] by decide +kernel]
  have h3 : tablesOf (some wholeValue) 0 = [.ligatureSubstitution doubledLigatures, .ligatureSubstitution wholeLigatures] := by
    decide +kernel
  have h4 : tablesOf (some subsetValue) 0 = [.ligatureSubstitution subsetLigatures] := by decide +kernel
  generalize wholeValue = a at h1 h3 ⊢
  generalize subsetValue = b at h2 h4 ⊢
  constructor
  · intro i h
    obtain rfl := List.mem_singleton.mp ((h1 i).mp h)
    exact ⟨0, ⟨rfl, rfl⟩, (h2 0).mpr (by decide)⟩
  · intro i h
    obtain rfl := List.mem_singleton.mp ((h2 i).mp h)
    exact ⟨0, ⟨rfl, rfl⟩, (h1 0).mpr (by decide)⟩
  · rintro i j i' j' - - ⟨rfl, rfl⟩ ⟨rfl, rfl⟩
    exact Iff.rfl
  · rintro i j - g h -
    exact ⟨(fun ⟨_, e, _⟩ => by cases e), (fun ⟨_, e, _⟩ => by cases e)⟩
  · rintro i j ⟨rfl, rfl⟩
    rw [h3, h4]
    refine .left (C130_uncovered.1 _ _ rfl ?_) (.cons ?_ .nil)
    · rintro g ⟨h, hg, -⟩
      exact (by decide : ∀ g ∈ keptGlyphs, covers g doubledLigatures.coverage = false) g hg
    · rintro g h ⟨hg, rfl⟩
      have hg' : g = 10 ∨ g = 11 ∨ g = 20 ∨ g = 22 := by simpa [keptGlyphs] using hg
      rcases hg' with rfl | rfl | rfl | rfl
      · refine .some (.cons ⟨.cons (sameGlyph_of (by decide)) (.cons (sameGlyph_of (by decide)) .nil), sameGlyph_of (by decide)⟩
          (.cons ⟨.cons (sameGlyph_of (by decide)) .nil, sameGlyph_of (by decide)⟩ (.left ⟨12, by decide, ?_⟩ .nil)))
        rintro ⟨h, hk, -⟩
        revert hk
        decide
      · exact .none
      · exact .none
      · exact .none

/-- The second file makes of every text in f, i and their ligatures what the first does. -/
example (n : Nat) {glyphs : List Nat} (hg : ∀ g ∈ glyphs, g ∈ keptGlyphs) :
    alone (typeset (· == 0x00010000) ⟨false, false, false, false, false, false⟩ n 0x6C61746E 0x44455520 [0x6C696761]
        (glyphs.map newGlyph)) subsetFile =
      (alone (typeset (· == 0x00010000) ⟨false, false, false, false, false, false⟩ n 0x6C61746E 0x44455520 [0x6C696761] glyphs)
        wholeFile).map (List.map (renamed newGlyph)) := by
  have hf : Reads (File.read (· == 0x00010000)) wholeFile 0 wholeRead := by decide +kernel
  have hf' : Reads (File.read (· == 0x00010000)) subsetFile 0 subsetRead := by decide +kernel
  refine (C130_renamed (p₁ := 0) (p₂ := 0) (p₃ := 0) (p₁' := 0) (p₂' := 0) (p₃' := 0) (definition := none) (definition' := none)
    (positioning := none) (positioning' := none) (S := fun _ _ => False) _ _ _ _ (by decide +kernel) (by decide +kernel)
    ⟨_, hf, by decide +kernel⟩ ⟨_, hf, by decide +kernel⟩ ⟨_, hf, by decide +kernel⟩ ⟨_, hf', by decide +kernel⟩
    ⟨_, hf', by decide +kernel⟩ ⟨_, hf', by decide +kernel⟩ (fun t h => ?_) (fun t h => by cases h) (fun t h => ?_)
    (fun t h => by cases h) (P := (· ∈ keptGlyphs)) (f := newGlyph) ?_ (fun _ _ => Iff.rfl) subset_corresponds ?_ ?_ n hg).1
  · obtain rfl := Option.some.inj h
    unfold Inline
    decide +kernel
  · obtain rfl := Option.some.inj h
    unfold Inline
    decide +kernel
  · exact fun g h hg hh => (by decide : ∀ g ∈ keptGlyphs, ∀ h ∈ keptGlyphs, newGlyph g = newGlyph h → g = h) g hg h hh
  · have hn : ∀ i, ¬WantedOf (none : Option gpos.GlyphPositioning) 0x6C61746E 0x44455520 [0x6C696761] i := by
      rintro i ⟨_, h, _⟩
      cases h
    exact ⟨fun i h => (hn i h).elim, fun i h => (hn i h).elim, fun i _ _ _ h => (hn i h).elim, fun _ _ h => h.elim, fun _ _ h => h.elim⟩
  · exact fun _ _ _ => ⟨(fun ⟨_, h, _⟩ => by cases h), (fun ⟨_, h, _⟩ => by cases h)⟩

/-- What they make of one; and of one with another glyph, which the first makes into a ligature. -/
example :
    alone (typeset (· == 0x00010000) ⟨false, false, false, false, false, false⟩ 2 0x6C61746E 0x44455520 [0x6C696761]
      [10, 11, 10, 10, 11]) wholeFile = .ok ([20, 22].map Item.of) ∧
    alone (typeset (· == 0x00010000) ⟨false, false, false, false, false, false⟩ 2 0x6C61746E 0x44455520 [0x6C696761]
      [1, 2, 1, 1, 2]) subsetFile = .ok ([3, 4].map Item.of) ∧
    alone (typeset (· == 0x00010000) ⟨false, false, false, false, false, false⟩ 2 0x6C61746E 0x44455520 [0x6C696761]
      [10, 12, 12, 12]) wholeFile = .ok ([21, 23].map Item.of) := by decide +kernel

end OpenType.Props
