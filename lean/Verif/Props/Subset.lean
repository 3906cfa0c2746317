import Verif.Spec.Subset
import Verif.Props.Renumber
/-! # C130: fonts with some of the glyphs set texts in these alike -/

namespace OpenType.Props
open OpenType Spec lookup directory context

/-! ## Programs that agree up to something -/

/-- Wherever the tapes are, the programs give what corresponds, or fail with the same error. -/
def AgreeBy {α β : Type} (rel : α → β → Prop) (r : Reader α) (r' : Reader β) : Prop :=
  ∀ d q d' q', OutcomesBy rel ((r d q).map (·.1)) ((r' d' q').map (·.1))

section
variable {α β γ δ : Type} {rel : α → β → Prop} {rel' : γ → δ → Prop}

theorem AgreeBy.pure {x : α} {y : β} (h : rel x y) : AgreeBy rel (Pure.pure x) (Pure.pure y) := fun _ _ _ _ => .ok h

theorem AgreeBy.bind {r : Reader α} {r' : Reader β} {f : α → Reader γ} {f' : β → Reader δ} (h : AgreeBy rel r r')
    (hf : ∀ x y, rel x y → AgreeBy rel' (f x) (f' y)) : AgreeBy rel' (r >>= f) (r' >>= f') := by
  intro d q d' q'
  have := h d q d' q'
  rw [run_bind_eq, run_bind_eq]
  cases e : r d q with
  | error x =>
    cases e' : r' d' q' with
    | error x' => rw [e, e'] at this; cases this; exact .error
    | ok y' => rw [e, e'] at this; cases this
  | ok y =>
    cases e' : r' d' q' with
    | error x' => rw [e, e'] at this; cases this
    | ok y' =>
      rw [e, e'] at this
      cases this with
      | ok h => exact hf _ _ h d _ d' _

theorem AgreeBy.left {r : Reader α} {r' : Reader β} (h : AgreeBy rel r r') : AgreeBy rel (r >>= Pure.pure) r' := by
  intro d q d' q'
  have := h d q d' q'
  rw [run_bind_eq]
  cases e : r d q <;> rw [e] at this <;> exact this

theorem AgreeBy.right {r : Reader α} {r' : Reader β} (h : AgreeBy rel r r') : AgreeBy rel r (r' >>= Pure.pure) := by
  intro d q d' q'
  have := h d q d' q'
  rw [run_bind_eq]
  cases e : r' d' q' <;> rw [e] at this <;> exact this

end

/-! ## Lists -/

/-- Both parts correspond. -/
def PairsBy {α β : Type} (A : α → β → Prop) (x : List α × List α) (y : List β × List β) : Prop :=
  List.Forall₂ A x.1 y.1 ∧ List.Forall₂ A x.2 y.2

section
variable {α β : Type} {A : α → β → Prop} {f : α → Bool} {f' : β → Bool}

theorem forall₂_append {xs xs₂ : List α} {ys ys₂ : List β} (h : List.Forall₂ A xs ys) (h₂ : List.Forall₂ A xs₂ ys₂) :
    List.Forall₂ A (xs ++ xs₂) (ys ++ ys₂) := by
  induction h with
  | nil => exact h₂
  | cons h _ ih => exact .cons h ih

theorem forall₂_reverse {xs : List α} {ys : List β} (h : List.Forall₂ A xs ys) : List.Forall₂ A xs.reverse ys.reverse := by
  induction h with
  | nil => exact .nil
  | cons h _ ih =>
    rw [List.reverse_cons, List.reverse_cons]
    exact forall₂_append ih (.cons h .nil)

theorem forall₂_filter (hf : ∀ x y, A x y → f x = f' y) {xs : List α} {ys : List β} (h : List.Forall₂ A xs ys) :
    List.Forall₂ A (xs.filter f) (ys.filter f') := by
  induction h with
  | nil => exact .nil
  | cons h _ ih =>
    rw [List.filter_cons, List.filter_cons, hf _ _ h]
    split
    · exact .cons h ih
    · exact ih

theorem forall₂_take {xs : List α} {ys : List β} (h : List.Forall₂ A xs ys) : ∀ n, List.Forall₂ A (xs.take n) (ys.take n) := by
  induction h with
  | nil => intro n; simp
  | cons h _ ih =>
    intro n
    cases n with
    | zero => exact .nil
    | succ n => exact .cons h (ih n)

theorem forall₂_drop {xs : List α} {ys : List β} (h : List.Forall₂ A xs ys) : ∀ n, List.Forall₂ A (xs.drop n) (ys.drop n) := by
  induction h with
  | nil => intro n; simp
  | cons h hs ih =>
    intro n
    cases n with
    | zero => exact .cons h hs
    | succ n => exact ih n

theorem forall₂_left {xs : List α} {ys : List β} (h : List.Forall₂ A xs ys) : ∀ x ∈ xs, ∃ y, A x y := by
  induction h with
  | nil => intro x hx; cases hx
  | cons h _ ih =>
    intro x hx
    rcases List.mem_cons.mp hx with rfl | hx
    · exact ⟨_, h⟩
    · exact ih x hx

theorem forall₂_right {xs : List α} {ys : List β} (h : List.Forall₂ A xs ys) : ∀ y ∈ ys, ∃ x, A x y := by
  induction h with
  | nil => intro x hx; cases hx
  | cons h _ ih =>
    intro x hx
    rcases List.mem_cons.mp hx with rfl | hx
    · exact ⟨_, h⟩
    · exact ih x hx

theorem option_left {x : Option α} {y : Option β} (h : Option.Rel A x y) : ∀ a ∈ x, ∃ b, A a b := by
  intro a e
  cases h with
  | none => cases e
  | some k => cases e; exact ⟨_, k⟩

theorem option_right {x : Option α} {y : Option β} (h : Option.Rel A x y) : ∀ b ∈ y, ∃ a, A a b := by
  intro a e
  cases h with
  | none => cases e
  | some k => cases e; exact ⟨_, k⟩

theorem splitAt_by (hf : ∀ x y, A x y → f x = f' y) {xs : List α} {ys : List β} (h : List.Forall₂ A xs ys) : ∀ k,
    Option.Rel (fun s s' => List.Forall₂ A s.1 s'.1 ∧ A s.2.1 s'.2.1 ∧ List.Forall₂ A s.2.2 s'.2.2) (splitAt f k xs) (splitAt f' k ys) := by
  induction h with
  | nil => intro k; unfold splitAt; exact .none
  | @cons x y xs ys h hs ih =>
    have step : ∀ k, Option.Rel (fun s s' => List.Forall₂ A s.1 s'.1 ∧ A s.2.1 s'.2.1 ∧ List.Forall₂ A s.2.2 s'.2.2)
        ((splitAt f k xs).map fun s => (x :: s.1, s.2)) ((splitAt f' k ys).map fun s => (y :: s.1, s.2)) := by
      intro k
      have := ih k
      generalize splitAt f k xs = a at this
      generalize splitAt f' k ys = b at this
      cases this with
      | none => exact .none
      | some h' => exact .some ⟨.cons h h'.1, h'.2⟩
    intro k
    unfold splitAt
    rw [hf _ _ h]
    split
    · exact step k
    · cases k with
      | zero => exact .some ⟨.nil, h, hs⟩
      | succ k => exact step k

theorem windowOf_by (hf : ∀ x y, A x y → f x = f' y) {xs : List α} {ys : List β} (h : List.Forall₂ A xs ys) : ∀ k,
    PairsBy A (windowOf f k xs) (windowOf f' k ys) := by
  induction h with
  | nil => intro k; cases k <;> exact ⟨.nil, .nil⟩
  | cons h hs ih =>
    intro k
    cases k with
    | zero => exact ⟨.nil, .cons h hs⟩
    | succ k =>
      unfold windowOf
      rw [hf _ _ h]
      exact ⟨.cons h (ih _).1, (ih _).2⟩

theorem without_by {G : Nat → Nat → Prop} {f f' : Nat → Bool} (hf : ∀ x y, G x y → f x = f' y) {xs ys : List Nat}
    (h : List.Forall₂ G xs ys) : ∀ k, List.Forall₂ G (without f k xs) (without f' k ys) := by
  induction h with
  | nil => intro k; cases k <;> exact .nil
  | cons h hs ih =>
    intro k
    cases k with
    | zero => exact .cons h hs
    | succ k =>
      unfold without
      rw [hf _ _ h]
      split
      · exact .cons h (ih _)
      · exact ih _

theorem actAll_by {R : Nat → Nat → Prop} {nested : Nat → List α → List α → Reader (Option (List α × List α))}
    {nested' : Nat → List β → List β → Reader (Option (List β × List β))}
    (h : ∀ i j, R i j → ∀ a a' b b', List.Forall₂ A a a' → List.Forall₂ A b b' → AgreeBy (Option.Rel (PairsBy A)) (nested i a b) (nested' j a' b'))
    (hf : ∀ x y, A x y → f x = f' y) {before : List α} {before' : List β} (hb : List.Forall₂ A before before')
    {actions actions' : List Action} (ha : ActionsAlike R actions actions') :
    ∀ window window' rest rest', List.Forall₂ A window window' → List.Forall₂ A rest rest' →
      AgreeBy (PairsBy A) (actAll nested f before actions window rest) (actAll nested' f' before' actions' window' rest') := by
  unfold ActionsAlike at ha
  induction ha with
  | nil => intro window window' rest rest' h1 h2; exact .pure ⟨h1, h2⟩
  | @cons action action' actions actions' h1 _ ih =>
    intro window window' rest rest' hw hr
    unfold actAll
    rw [← h1.1]
    have key := splitAt_by hf hw action.position_index
    generalize splitAt f action.position_index window = a at key
    generalize splitAt f' action.position_index window' = b at key
    cases key with
    | none => exact ih _ _ _ _ hw hr
    | @some s s' k =>
      obtain ⟨pre, x, post⟩ := s
      obtain ⟨pre', x', post'⟩ := s'
      obtain ⟨k1, k2, k3⟩ := k
      dsimp only
      refine (h _ _ h1.2 _ _ _ _ (forall₂_append (forall₂_reverse k1) hb) (.cons k2 (forall₂_append k3 hr))).bind fun y y' hy => ?_
      cases hy with
      | none => exact ih _ _ _ _ hw hr
      | some hy =>
        have e := forall₂_append (forall₂_append k1 hy.1) hy.2
        have l1 := e.length_eq
        have l2 := hr.length_eq
        dsimp only
        rw [← l1, ← l2]
        exact ih _ _ _ _ (forall₂_take e _) (forall₂_drop e _)

theorem forward_by {touch : List α → List α → Reader (Option (List α × List α))}
    {touch' : List β → List β → Reader (Option (List β × List β))}
    (h : ∀ a a' b b', List.Forall₂ A a a' → List.Forall₂ A b b' → AgreeBy (Option.Rel (PairsBy A)) (touch a b) (touch' a' b')) (fuel : Nat) :
    ∀ before before' text text', List.Forall₂ A before before' → List.Forall₂ A text text' →
      AgreeBy (List.Forall₂ A) (forward touch fuel before text) (forward touch' fuel before' text') := by
  induction fuel with
  | zero => intro _ _ _ _ _ _; exact .pure .nil
  | succ fuel ih =>
    intro before before' text text' hb ht
    cases ht with
    | nil => exact .pure .nil
    | cons h1 h2 =>
      unfold forward
      refine (h _ _ _ _ hb (.cons h1 h2)).bind fun y y' hy => ?_
      cases hy with
      | none => exact (ih _ _ _ _ (.cons h1 hb) h2).bind fun _ _ k => .pure (.cons h1 k)
      | some hy => exact (ih _ _ _ _ (forall₂_append (forall₂_reverse hy.1) hb) hy.2).bind fun _ _ k => .pure (forall₂_append hy.1 k)

theorem below_by {R : Nat → Nat → Prop} {pass : Nat → List α → Reader (List α)} {pass' : Nat → List β → Reader (List β)}
    {wanted wanted' : Nat → Bool}
    (h : ∀ i j, R i j → ∀ text text', List.Forall₂ A text text' → AgreeBy (List.Forall₂ A) (pass i text) (pass' j text'))
    (ho : ∀ i j i' j', wanted i = true → wanted i' = true → R i j → R i' j' → (i < i' ↔ j < j')) {text : List α} {text' : List β}
    (ht : List.Forall₂ A text text') :
    ∀ s m m', m + m' ≤ s → (∀ i < m, wanted i = true → ∃ j < m', R i j ∧ wanted' j = true) →
      (∀ j < m', wanted' j = true → ∃ i < m, R i j ∧ wanted i = true) →
      AgreeBy (List.Forall₂ A) (below pass wanted m text) (below pass' wanted' m' text') := by
  intro s
  induction s with
  | zero =>
    intro m m' hs _ _
    obtain rfl : m = 0 := by omega
    obtain rfl : m' = 0 := by omega
    exact .pure ht
  | succ s ih =>
    intro m m' hs h1 h2
    by_cases hm : ∃ k, m = k + 1 ∧ wanted k = false
    · obtain ⟨k, rfl, hk⟩ := hm
      have := ih k m' (by omega) (fun i hi hw => h1 i (by omega) hw) (fun j hj hw => by
        obtain ⟨i, k1, k2, k3⟩ := h2 j hj hw
        refine ⟨i, ?_, k2, k3⟩
        rcases Nat.lt_or_eq_of_le (Nat.le_of_lt_succ k1) with k1 | rfl
        · exact k1
        · rw [hk] at k3; cases k3)
      rw [below.eq_2 pass]
      simp only [hk, Bool.false_eq_true, if_false]
      exact this.left
    · by_cases hm' : ∃ k, m' = k + 1 ∧ wanted' k = false
      · obtain ⟨k, rfl, hk⟩ := hm'
        have := ih m k (by omega) (fun i hi hw => by
          obtain ⟨j, k1, k2, k3⟩ := h1 i hi hw
          refine ⟨j, ?_, k2, k3⟩
          rcases Nat.lt_or_eq_of_le (Nat.le_of_lt_succ k1) with k1 | rfl
          · exact k1
          · rw [hk] at k3; cases k3) (fun j hj hw => h2 j (by omega) hw)
        rw [below.eq_2 pass']
        simp only [hk, Bool.false_eq_true, if_false]
        exact this.right
      · cases m with
        | zero =>
          cases m' with
          | zero => exact .pure ht
          | succ k' =>
            have hk' : wanted' k' = true := by
              cases e : wanted' k' with
              | true => rfl
              | false => exact (hm' ⟨k', rfl, e⟩).elim
            obtain ⟨i, k1, _⟩ := h2 k' (by omega) hk'
            omega
        | succ k =>
          have hk : wanted k = true := by
            cases e : wanted k with
            | true => rfl
            | false => exact (hm ⟨k, rfl, e⟩).elim
          cases m' with
          | zero =>
            obtain ⟨j, k1, _⟩ := h1 k (by omega) hk
            omega
          | succ k' =>
            have hk' : wanted' k' = true := by
              cases e : wanted' k' with
              | true => rfl
              | false => exact (hm' ⟨k', rfl, e⟩).elim
            obtain ⟨j, a1, a2, a3⟩ := h1 k (by omega) hk
            obtain ⟨i, b1, b2, b3⟩ := h2 k' (by omega) hk'
            have hik : i = k := by
              have := ho i k' k j b3 hk b2 a2
              omega
            subst hik
            have := ih i k' (by omega) (fun l hl hw => by
              obtain ⟨j', c1, c2, c3⟩ := h1 l (by omega) hw
              have := ho l j' i k' hw hk c2 b2
              exact ⟨j', by omega, c2, c3⟩) (fun l hl hw => by
              obtain ⟨l', c1, c2, c3⟩ := h2 l (by omega) hw
              have := ho l' l i k' c3 hk c2 b2
              exact ⟨l', by omega, c2, c3⟩)
            unfold below
            simp only [hk, hk', if_true]
            exact this.bind fun text text' ht => h i k' b2 text text' ht

end

/-! ## Lookups -/

section
variable {T : Type}

theorem firstOf_by {β γ : Type} {alike : T → T → Prop} {idle idle' : T → Prop} {rel : β → γ → Prop} {act : T → Except Err (Option β)}
    {act' : T → Except Err (Option γ)} (h : ∀ x y, alike x y → ResultsAlike rel (act x) (act' y)) (hi : ∀ x, idle x → act x = .ok none)
    (hi' : ∀ x, idle' x → act' x = .ok none) {xs ys : List T} (hs : SameBut alike idle idle' xs ys) :
    ResultsAlike rel (firstOf act xs) (firstOf act' ys) := by
  induction hs with
  | nil => exact .none
  | cons h1 _ ih =>
    unfold firstOf
    have := h _ _ h1
    generalize act _ = a at this
    generalize act' _ = b at this
    cases this with
    | error => exact .error
    | none => exact ih
    | some h => exact .some h
  | left h1 _ ih =>
    rw [firstOf, hi _ h1]
    exact ih
  | right h1 _ ih =>
    rw [firstOf.eq_2 act', hi' _ h1]
    exact ih

theorem performed_by {β γ δ ε : Type} {extension : T → Option (Nat × Nat)} {readTable readTable' : Nat → Reader T}
    {t t' : Directory T} (hn : Inline extension t) (hn' : Inline extension t') (he : Evened t) (he' : Evened t')
    {alike : T → T → Prop} {idle idle' : T → Prop} {rel : β → γ → Prop} {act : T → Except Err (Option β)}
    {act' : T → Except Err (Option γ)} (h : ∀ x y, alike x y → ResultsAlike rel (act x) (act' y))
    (hi : ∀ x, idle x → act x = .ok none) (hi' : ∀ x, idle' x → act' x = .ok none) {i j : Nat}
    (hs : SameBut alike idle idle' (tablesOf (some t) i) (tablesOf (some t') j)) (p p' : Nat) {A : δ → ε → Prop}
    {f : Option β → Reader δ} {f' : Option γ → Reader ε} (h0 : AgreeBy A (f none) (f' none))
    (hf : ∀ x y, rel x y → AgreeBy A (f (some x)) (f' (some y))) :
    AgreeBy A (perform extension readTable act p t i >>= f) (perform extension readTable' act' p' t' j >>= f') := by
  intro d q d' q'
  have hx := firstOf_by h hi hi' hs
  have e1 := perform_inline (readTable := readTable) hn he act p i d q
  have e2 := perform_inline (readTable := readTable') hn' he' act' p' j d' q'
  rw [run_bind_eq, run_bind_eq, e1, e2]
  generalize firstOf act _ = a at hx
  generalize firstOf act' _ = b at hx
  cases hx with
  | error => exact .error
  | none => exact h0 d q d' q'
  | some h => exact hf _ _ h d q d' q'

theorem passed_by {alike : T → T → Prop} {idle idle' : T → Prop} {G R : Nat → Nat → Prop}
    {definition definition' : Option gdef.GlyphDefinition} {script language : Tag} {tags : List Tag} {t t' : Directory T}
    (hc : CorrespondsBy alike idle idle' G R definition definition' script language tags (some t) (some t'))
    (hf : Findable t script language) (hf' : Findable t' script language) {α β : Type} {A : α → β → Prop}
    {pass : Nat → List α → Reader (List α)} {pass' : Nat → List β → Reader (List β)}
    (h : ∀ i j, R i j → ∀ text text', List.Forall₂ A text text' → AgreeBy (List.Forall₂ A) (pass i text) (pass' j text'))
    {text : List α} {text' : List β} (ht : List.Forall₂ A text text') :
    AgreeBy (List.Forall₂ A) (passAll t pass script language tags text) (passAll t' pass' script language tags text') := by
  obtain ⟨found, e⟩ := hf
  obtain ⟨found', e'⟩ := hf'
  unfold passAll
  rw [e, e']
  refine below_by h (fun i j i' j' h1 h2 => hc.order i j i' j' ((wanted_any e i).mp h1) ((wanted_any e i').mp h2)) ht _ _ _ (Nat.le_refl _)
    (fun i _ hw => ?_) (fun j _ hw => ?_)
  · obtain ⟨j, h1, h2⟩ := hc.there i ((wanted_any e i).mp hw)
    exact ⟨j, wanted_below h2, h1, (wanted_any e' j).mpr h2⟩
  · obtain ⟨i, h1, h2⟩ := hc.back j ((wanted_any e' j).mp hw)
    exact ⟨i, wanted_below h2, h1, (wanted_any e i).mpr h2⟩

theorem ignoring_by {alike : T → T → Prop} {idle idle' : T → Prop} {G R : Nat → Nat → Prop}
    {definition definition' : Option gdef.GlyphDefinition} {script language : Tag} {tags : List Tag} {t t' : Directory T}
    (hc : CorrespondsBy alike idle idle' G R definition definition' script language tags (some t) (some t')) {i j : Nat} (h : R i j)
    (g g' : Nat) (hg : G g g') :
    Spec.ignoring (definition.map fun t => (0, t)) t i g = Spec.ignoring (definition'.map fun t => (0, t)) t' j g' := by
  rw [Bool.eq_iff_iff, ignoring_passes, ignoring_passes]
  exact hc.passes i j h g g' hg

end

theorem marked_by {G : Nat → Nat → Prop} {definition definition' : Option gdef.GlyphDefinition} (h : MarksBy G definition definition')
    (g g' : Nat) (hg : G g g') :
    Spec.marked (definition.map fun t => (0, t)) g = Spec.marked (definition'.map fun t => (0, t)) g' := by
  have key : ∀ (definition : Option gdef.GlyphDefinition) g, Spec.marked (definition.map fun t => (0, t)) g = true ↔
      ∃ t, definition = some t ∧ classIn t.glyph_class g = 3 := by
    intro definition g
    cases definition <;> simp [Spec.marked]
  rw [Bool.eq_iff_iff, key, key]
  exact h g g' hg

section
variable {G R : Nat → Nat → Prop} {definition definition' : Option gdef.GlyphDefinition} {script language : Tag} {tags : List Tag}

theorem shapeValue_by {t t' : Option gsub.GlyphSubstitution}
    (hc : CorrespondsBy (SubstitutionsBy G R) (SubstitutionIdle (Kept G)) (SubstitutionIdle (Known G)) G R definition definition' script
      language tags t t')
    (hi : ∀ x, t = some x → Inline substitutionExtension x ∧ Evened x ∧ Findable x script language)
    (hi' : ∀ x, t' = some x → Inline substitutionExtension x ∧ Evened x ∧ Findable x script language) (n : Nat)
    {glyphs glyphs' : List Nat} (hg : List.Forall₂ G glyphs glyphs') :
    OutcomesBy (List.Forall₂ G) (shapeValue (definition.map fun t => (0, t)) n script language tags glyphs t)
      (shapeValue (definition'.map fun t => (0, t)) n script language tags glyphs' t') := by
  cases t with
  | none =>
    cases t' with
    | none => exact .ok hg
    | some t' =>
      have : shapeValue (definition'.map fun t => (0, t)) n script language tags glyphs' (some t') = .ok glyphs' :=
        passed_idle (hi' t' rfl).2.2 (fun j hj => by
          obtain ⟨_, _, _, h, _⟩ := hc.back j hj
          cases h) _ _
      rw [this]
      exact .ok hg
  | some t =>
    cases t' with
    | none =>
      have : shapeValue (definition.map fun t => (0, t)) n script language tags glyphs (some t) = .ok glyphs :=
        passed_idle (hi t rfl).2.2 (fun j hj => by
          obtain ⟨_, _, _, h, _⟩ := hc.there j hj
          cases h) _ _
      rw [this]
      exact .ok hg
    | some t' =>
      obtain ⟨i1, i2, i3⟩ := hi t rfl
      obtain ⟨i1', i2', i3'⟩ := hi' t' rfl
      have hI := fun i j hr => ignoring_by hc (i := i) (j := j) hr
      have hN : ∀ i j, R i j → ∀ g g', G g g' → (!Spec.ignoring (definition.map fun t => (0, t)) t i g) =
          !Spec.ignoring (definition'.map fun t => (0, t)) t' j g' := fun i j hr g g' h => by rw [hI i j hr g g' h]
      have h1 : ∀ n i j, R i j → ∀ a a' text text', List.Forall₂ G a a' → List.Forall₂ G text text' →
          AgreeBy (Option.Rel (PairsBy G)) (touch 0 t (ignoring (definition.map fun t => (0, t)) t) n i a text)
          (touch 0 t' (ignoring (definition'.map fun t => (0, t)) t') n j a' text') := by
        intro n
        induction n with
        | zero => intro i j _ a a' text text' _ _; exact .pure .none
        | succ n ih =>
          intro i j hr a a' text text' ha ht
          cases ht with
          | nil => exact .pure .none
          | @cons g g' following following' k1 k2 =>
            unfold touch
            rw [hI i j hr _ _ k1]
            split
            · exact .pure .none
            · have m1 := forall₂_filter (hN i j hr) ha
              have m2 := forall₂_filter (hN i j hr) k2
              refine performed_by i1 i1' i2 i2' (fun x y h => (h _ _ _ _ _ _ m1 k1 m2).1)
                (fun x h => (h _ _ _ (forall₂_left m1) ⟨_, k1⟩ (forall₂_left m2)).1)
                (fun x h => (h _ _ _ (forall₂_right m1) ⟨_, k1⟩ (forall₂_right m2)).1) (hc.tables i j hr) 0 0 (.pure .none)
                fun x y hxy => ?_
              cases hxy with
              | replaced hs => exact .pure (.some ⟨hs, without_by (hI i j hr) k2 _⟩)
              | @sequence k actions actions' hs =>
                have w := windowOf_by (hI i j hr) k2 (k - 1)
                exact (actAll_by ih (hI i j hr) ha hs _ _ _ _ (.cons k1 w.1) w.2).bind fun _ _ h => .pure (.some h)
      have h2 : ∀ i j, R i j → ∀ text text', List.Forall₂ G text text' → ∀ a a', List.Forall₂ G a a' →
          AgreeBy (List.Forall₂ G) (backward 0 t (ignoring (definition.map fun t => (0, t)) t i) i a text)
          (backward 0 t' (ignoring (definition'.map fun t => (0, t)) t' j) j a' text') := by
        intro i j hr text text' ht
        induction ht with
        | nil => intro a a' _; exact .pure .nil
        | cons k1 k2 ih =>
          intro a a' ha
          unfold backward
          refine (ih _ _ (.cons k1 ha)).bind fun out out' ho => ?_
          rw [hI i j hr _ _ k1]
          split
          · exact .pure (.cons k1 ho)
          · have m1 := forall₂_filter (hN i j hr) ha
            have m2 := forall₂_filter (hN i j hr) ho
            exact performed_by i1 i1' i2 i2' (fun x y h => (h _ _ _ _ _ _ m1 k1 m2).2)
              (fun x h => (h _ _ _ (forall₂_left m1) ⟨_, k1⟩ (forall₂_left m2)).2)
              (fun x h => (h _ _ _ (forall₂_right m1) ⟨_, k1⟩ (forall₂_right m2)).2) (hc.tables i j hr) 0 0 (.pure (.cons k1 ho))
              fun x y hxy => .pure (.cons hxy ho)
      refine passed_by hc i3 i3' (fun i j hr text text' ht => ?_) hg [] 0 [] 0
      rw [ht.length_eq]
      exact (forward_by (h1 n i j hr) text'.length [] [] text text' .nil ht).bind fun _ _ h => h2 i j hr _ _ h [] [] .nil

theorem nearest_by {f f' : Item → Bool} (hf : ∀ x y, ItemsBy G x y → f x = f' y) {xs ys : List Item}
    (h : List.Forall₂ (ItemsBy G) xs ys) :
    Option.Rel (fun a b => a.1 = b.1 ∧ ItemsBy G a.2 b.2) (nearest f xs) (nearest f' ys) := by
  unfold nearest
  have := splitAt_by hf h 0
  generalize splitAt f 0 xs = a at this
  generalize splitAt f' 0 ys = b at this
  cases this with
  | none => exact .none
  | some h => exact .some ⟨by dsimp only; rw [h.1.length_eq], h.2.1⟩

theorem distance_by {a b : Option (Nat × Item)} (h : Option.Rel (fun a b => a.1 = b.1 ∧ ItemsBy G a.2 b.2) a b) :
    distance a = distance b := by
  cases h with
  | none => rfl
  | some h => exact h.1

theorem add_by {x y : Item} (h : ItemsBy G x y) (l : List Placement) : ItemsBy G (x.add l) (y.add l) := by
  obtain ⟨h1, h2, h3⟩ := h
  exact ⟨h1, h2, by rw [Item.add, Item.add]; dsimp only; rw [h3]⟩

theorem glyphs_by {xs ys : List Item} (h : List.Forall₂ (ItemsBy G) xs ys) : List.Forall₂ G (xs.map Item.glyph) (ys.map Item.glyph) := by
  induction h with
  | nil => exact .nil
  | cons h _ ih => exact .cons h.1 ih

theorem settleValue_by (cfg cfg' : Cfg) {t t' : Option gpos.GlyphPositioning}
    (hc : CorrespondsBy (PositioningsBy G R) (PositioningIdle (Kept G)) (PositioningIdle (Known G)) G R definition definition' script
      language tags t t') (hm : MarksBy G definition definition')
    (hi : ∀ x, t = some x → Inline positioningExtension x ∧ Evened x ∧ Findable x script language)
    (hi' : ∀ x, t' = some x → Inline positioningExtension x ∧ Evened x ∧ Findable x script language) (n : Nat)
    {glyphs glyphs' : List Nat} (hg : List.Forall₂ G glyphs glyphs') :
    OutcomesBy (List.Forall₂ (ItemsBy G)) (settleValue cfg (definition.map fun t => (0, t)) n script language tags glyphs t)
      (settleValue cfg' (definition'.map fun t => (0, t)) n script language tags glyphs' t') := by
  have hg : List.Forall₂ (ItemsBy G) (glyphs.map Item.of) (glyphs'.map Item.of) := by
    induction hg with
    | nil => exact .nil
    | cons h _ ih => exact .cons ⟨h, rfl, rfl⟩ ih
  cases t with
  | none =>
    cases t' with
    | none => exact .ok hg
    | some t' =>
      have : settleValue cfg' (definition'.map fun t => (0, t)) n script language tags glyphs' (some t') = .ok (glyphs'.map Item.of) :=
        passed_idle (hi' t' rfl).2.2 (fun j hj => by
          obtain ⟨_, _, _, h, _⟩ := hc.back j hj
          cases h) _ _
      rw [this]
      exact .ok hg
  | some t =>
    cases t' with
    | none =>
      have : settleValue cfg (definition.map fun t => (0, t)) n script language tags glyphs (some t) = .ok (glyphs.map Item.of) :=
        passed_idle (hi t rfl).2.2 (fun j hj => by
          obtain ⟨_, _, _, h, _⟩ := hc.there j hj
          cases h) _ _
      rw [this]
      exact .ok hg
    | some t' =>
      obtain ⟨i1, i2, i3⟩ := hi t rfl
      obtain ⟨i1', i2', i3'⟩ := hi' t' rfl
      have hI := fun i j hr => ignoring_by hc (i := i) (j := j) hr
      have hN : ∀ i j, R i j → ∀ g g', G g g' → (!Spec.ignoring (definition.map fun t => (0, t)) t i g) =
          !Spec.ignoring (definition'.map fun t => (0, t)) t' j g' := fun i j hr g g' h => by rw [hI i j hr g g' h]
      have hJ : ∀ i j, R i j → ∀ x y, ItemsBy G x y → Spec.ignoring (definition.map fun t => (0, t)) t i x.glyph =
          Spec.ignoring (definition'.map fun t => (0, t)) t' j y.glyph := fun i j hr x y h => hI i j hr _ _ h.1
      have h1 : ∀ n i j, R i j → ∀ a a' text text', List.Forall₂ (ItemsBy G) a a' → List.Forall₂ (ItemsBy G) text text' →
          AgreeBy (Option.Rel (PairsBy (ItemsBy G)))
          (settle cfg 0 t (ignoring (definition.map fun t => (0, t)) t) (marked (definition.map fun t => (0, t))) n i a text)
          (settle cfg' 0 t' (ignoring (definition'.map fun t => (0, t)) t') (marked (definition'.map fun t => (0, t))) n j a' text') := by
        intro n
        induction n with
        | zero => intro i j _ a a' text text' _ _; exact .pure .none
        | succ n ih =>
          intro i j hr a a' text text' ha ht
          cases ht with
          | nil => exact .pure .none
          | @cons x x' following following' k1 k2 =>
            unfold settle
            rw [hJ i j hr _ _ k1]
            split
            · exact .pure .none
            · have m1 := forall₂_filter (hN i j hr) (glyphs_by ha)
              have m2 := forall₂_filter (hN i j hr) (glyphs_by k2)
              have hb := nearest_by (G := G)
                (f := fun y => Spec.ignoring (definition.map fun t => (0, t)) t i y.glyph || marked (definition.map fun t => (0, t)) y.glyph)
                (f' := fun y => Spec.ignoring (definition'.map fun t => (0, t)) t' j y.glyph || marked (definition'.map fun t => (0, t)) y.glyph)
                (fun x y h => by rw [hJ i j hr x y h, marked_by hm _ _ h.1]) ha
              dsimp only
              generalize nearest (fun y => Spec.ignoring (definition.map fun t => (0, t)) t i y.glyph ||
                marked (definition.map fun t => (0, t)) y.glyph) a = base at hb
              generalize nearest (fun y => Spec.ignoring (definition'.map fun t => (0, t)) t' j y.glyph ||
                marked (definition'.map fun t => (0, t)) y.glyph) a' = base' at hb
              have m3 : Option.Rel G (base.map (·.2.glyph)) (base'.map (·.2.glyph)) := by
                cases hb with
                | none => exact .none
                | some h => exact .some h.2.1
              rw [k1.2.1]
              refine performed_by i1 i1' i2 i2' (fun x y h => h _ _ _ _ _ _ _ _ _ m1 m3 k1.1 m2)
                (fun x h => h _ _ _ _ _ (forall₂_left m1) (option_left m3) ⟨_, k1.1⟩ (forall₂_left m2))
                (fun x h => h _ _ _ _ _ (forall₂_right m1) (option_right m3) ⟨_, k1.1⟩ (forall₂_right m2)) (hc.tables i j hr) 0 0 (.pure .none)
                fun y y' hxy => ?_
              refine AgreeBy.bind (rel := PairsBy (ItemsBy G)) ?_ fun _ _ h => .pure (.some h)
              cases hxy with
              | @moved first second =>
                refine .pure ?_
                unfold moveSecond
                split
                · exact ⟨.cons (add_by k1 _) .nil, k2⟩
                · have key := splitAt_by (hJ i j hr) k2 0
                  generalize splitAt (fun y => Spec.ignoring (definition.map fun t => (0, t)) t i y.glyph) 0 following = u at key
                  generalize splitAt (fun y => Spec.ignoring (definition'.map fun t => (0, t)) t' j y.glyph) 0 following' = v at key
                  cases key with
                  | none => exact ⟨.cons (add_by k1 _) .nil, k2⟩
                  | some h => exact ⟨.cons (add_by k1 _) (forall₂_append h.1 (.cons (add_by h.2.1 _) .nil)), h.2.2⟩
              | joined =>
                refine .pure ⟨.cons ?_ .nil, k2⟩
                rw [distance_by (nearest_by (hJ i j hr) k2)]
                exact add_by k1 _
              | onBase =>
                refine .pure ⟨.cons ?_ .nil, k2⟩
                rw [distance_by hb]
                exact add_by k1 _
              | onMark =>
                refine .pure ⟨.cons ?_ .nil, k2⟩
                rw [distance_by (nearest_by (hJ i j hr) ha)]
                exact add_by k1 _
              | @sequence k actions actions' hs =>
                have w := windowOf_by (hJ i j hr) k2 (k - 1)
                exact actAll_by ih (hJ i j hr) ha hs _ _ _ _ (.cons k1 w.1) w.2
      refine passed_by hc i3 i3' (fun i j hr text text' ht => ?_) hg [] 0 [] 0
      rw [ht.length_eq]
      exact forward_by (h1 n i j hr) text'.length [] [] text text' .nil ht

end

/-! ## Values -/

/-- Tables without extensions in memory whose lookups correspond. -/
theorem setValues_by (cfg cfg' : Cfg) {definition definition' : Option gdef.GlyphDefinition}
    {substitution substitution' : Option gsub.GlyphSubstitution} {positioning positioning' : Option gpos.GlyphPositioning}
    {script language : Tag} {tags : List Tag}
    (hs : ∀ t, substitution = some t → Inline substitutionExtension t ∧ Evened t ∧ Findable t script language)
    (hp : ∀ t, positioning = some t → Inline positioningExtension t ∧ Evened t ∧ Findable t script language)
    (hs' : ∀ t, substitution' = some t → Inline substitutionExtension t ∧ Evened t ∧ Findable t script language)
    (hp' : ∀ t, positioning' = some t → Inline positioningExtension t ∧ Evened t ∧ Findable t script language)
    {G R S : Nat → Nat → Prop}
    (hR : CorrespondsBy (SubstitutionsBy G R) (SubstitutionIdle (Kept G)) (SubstitutionIdle (Known G)) G R definition definition' script
      language tags substitution substitution')
    (hS : CorrespondsBy (PositioningsBy G S) (PositioningIdle (Kept G)) (PositioningIdle (Known G)) G S definition definition' script
      language tags positioning positioning')
    (hm : MarksBy G definition definition') (n : Nat) {glyphs glyphs' : List Nat} (hg : List.Forall₂ G glyphs glyphs') :
    OutcomesBy (List.Forall₂ (ItemsBy G)) (setValues cfg definition substitution positioning n script language tags glyphs)
      (setValues cfg' definition' substitution' positioning' n script language tags glyphs') := by
  unfold setValues
  dsimp only
  have key := shapeValue_by hR hs hs' n hg
  generalize shapeValue _ n script language tags glyphs substitution = a at key
  generalize shapeValue _ n script language tags glyphs' substitution' = b at key
  cases key with
  | error => exact .error
  | ok hg => exact settleValue_by cfg cfg' hS hm hp hp' n hg

/-! ## Files -/

/-- Two files, read by two builds, have tables without extensions whose lookups correspond, each in its own way for GSUB and GPOS, and
the same glyphs are marks. Then texts of the same glyphs become texts of the same glyphs in the same places, or fail with the same
error. -/
theorem C130_alike (accept accept' : Tag → Bool) (cfg cfg' : Cfg) {d d' : Data} (hd : Fits d) (hd' : Fits d')
    {p₁ p₂ p₃ p₁' p₂' p₃' : Nat} {definition definition' : Option gdef.GlyphDefinition}
    {substitution substitution' : Option gsub.GlyphSubstitution} {positioning positioning' : Option gpos.GlyphPositioning}
    (h1 : Takes accept cfg d p₁ .glyphDefinition (gdef.GlyphDefinition.read cfg) definition)
    (h2 : Takes accept cfg d p₂ .glyphSubstitution (gsub.GlyphSubstitution.read cfg) substitution)
    (h3 : Takes accept cfg d p₃ .glyphPositioning (gpos.GlyphPositioning.read cfg) positioning)
    (h1' : Takes accept' cfg' d' p₁' .glyphDefinition (gdef.GlyphDefinition.read cfg') definition')
    (h2' : Takes accept' cfg' d' p₂' .glyphSubstitution (gsub.GlyphSubstitution.read cfg') substitution')
    (h3' : Takes accept' cfg' d' p₃' .glyphPositioning (gpos.GlyphPositioning.read cfg') positioning')
    (hs : ∀ t, substitution = some t → Inline substitutionExtension t)
    (hp : ∀ t, positioning = some t → Inline positioningExtension t)
    (hs' : ∀ t, substitution' = some t → Inline substitutionExtension t)
    (hp' : ∀ t, positioning' = some t → Inline positioningExtension t)
    {script language : Tag} {tags : List Tag} {G R S : Nat → Nat → Prop}
    (hR : CorrespondsBy (SubstitutionsBy G R) (SubstitutionIdle (Kept G)) (SubstitutionIdle (Known G)) G R definition definition' script
      language tags substitution substitution')
    (hS : CorrespondsBy (PositioningsBy G S) (PositioningIdle (Kept G)) (PositioningIdle (Known G)) G S definition definition' script
      language tags positioning positioning')
    (hm : MarksBy G definition definition') (n : Nat) {glyphs glyphs' : List Nat} (hg : List.Forall₂ G glyphs glyphs') :
    OutcomesBy (List.Forall₂ (ItemsBy G)) (alone (typeset accept cfg n script language tags glyphs) d)
      (alone (typeset accept' cfg' n script language tags glyphs') d') := by
  rw [C122_values accept cfg hd h1 h2 h3 hs hp, C122_values accept' cfg' hd' h1' h2' h3' hs' hp']
  exact setValues_by cfg cfg' (fun t e => ⟨hs t e, taken_substitution hd (by rw [← e]; exact h2) _ _⟩)
    (fun t e => ⟨hp t e, taken_positioning hd (by rw [← e]; exact h3) _ _⟩)
    (fun t e => ⟨hs' t e, taken_substitution hd' (by rw [← e]; exact h2') _ _⟩)
    (fun t e => ⟨hp' t e, taken_positioning hd' (by rw [← e]; exact h3') _ _⟩) hR hS hm n hg

end OpenType.Props
