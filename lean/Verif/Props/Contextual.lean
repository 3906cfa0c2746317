import Verif.Spec.Contextual
import Verif.Props.Shape
import Verif.Props.Engage
/-! # C114: what text becomes, with contexts -/

namespace OpenType.Props
open OpenType Spec lookup directory context

/-- What a subtable wants to be done is what its bytes say. -/
theorem react_iff {d : Data} (hd : Fits d) (before : List Nat) (g : Nat) (following : List Nat) (type_ a : Nat) (x : gsub.Type_)
    (h : Spec.gsub.IsTable type_ d a x) :
    (∀ y, react before g following x = .ok (some y) ↔ (reaction before g following).does d type_ a y) ∧
    ((∃ e, react before g following x = .error e) ↔ (reaction before g following).missing d type_ a) := by
  have plain : type_ ≠ 5 → type_ ≠ 6 →
      react before g following x = (do return (← substitute g following x).map fun y => .replaced y.1 y.2) →
      (∀ y, react before g following x = .ok (some y) ↔ (reaction before g following).does d type_ a y) ∧
      ((∃ e, react before g following x = .error e) ↔ (reaction before g following).missing d type_ a) := by
    intro h5 h6 e
    obtain ⟨h1, h2⟩ := substitute_iff hd g following type_ a x h
    obtain ⟨k1, k2⟩ := map_iff (f := fun y => Reaction.replaced y.1 y.2) h1 h2
    rw [e]
    refine ⟨fun y => Iff.trans (k1 y) ⟨?_, ?_⟩, Iff.trans k2 ⟨.inl, ?_⟩⟩
    · rintro ⟨x, hx, rfl⟩; exact hx
    · intro hy
      cases y with
      | replaced glyphs n => exact ⟨(glyphs, n), hy, rfl⟩
      | sequence n actions =>
        rcases hy with ⟨h, _⟩ | ⟨h, _⟩
        · exact (h5 h).elim
        · exact (h6 h).elim
    · rintro (h | ⟨h, _⟩ | ⟨h, _⟩)
      · exact h
      · exact (h5 h).elim
      · exact (h6 h).elim
  have noPlain : ∀ glyphs n, type_ ≠ 1 → type_ ≠ 2 → type_ ≠ 4 → ¬SubstitutedBy d type_ a g following glyphs n := by
    rintro glyphs n h1 h2 h4 (⟨h, _⟩ | ⟨h, _⟩ | ⟨h, _⟩)
    · exact h1 h
    · exact h2 h
    · exact h4 h
  have noLack : type_ ≠ 1 → type_ ≠ 2 → type_ ≠ 4 → ¬LacksSubstitute d type_ a g := by
    intro h1 h2 h4 h
    unfold LacksSubstitute at h
    omega
  cases x with
  | contextualSubstitution t =>
    have ht : type_ = 5 := h.1
    obtain ⟨h1, _, h2⟩ := C105_context hd ((reads_parses hd).mpr h.2) g following
    obtain ⟨k1, k2⟩ := map_iff (f := fun y => Reaction.sequence y.1 y.2) h1 h2
    refine ⟨fun y => Iff.trans (k1 y) ⟨?_, ?_⟩, Iff.trans k2 ⟨fun h => .inr (.inl ⟨ht, h⟩), ?_⟩⟩
    · rintro ⟨x, hx, rfl⟩; exact .inl ⟨ht, hx⟩
    · intro hy
      cases y with
      | replaced glyphs n => exact (noPlain _ _ (by omega) (by omega) (by omega) hy).elim
      | sequence n actions =>
        rcases hy with ⟨_, h⟩ | ⟨h, _⟩
        · exact ⟨_, h, rfl⟩
        · omega
    · rintro (h | ⟨_, h⟩ | ⟨h, _⟩)
      · exact (noLack (by omega) (by omega) (by omega) h).elim
      · exact h
      · omega
  | chainedContextualSubstitution t =>
    have ht : type_ = 6 := h.1
    obtain ⟨h1, _, h2⟩ := C105_chain hd ((reads_parses hd).mpr h.2) before g following
    obtain ⟨k1, k2⟩ := map_iff (f := fun y => Reaction.sequence y.1 y.2) h1 h2
    refine ⟨fun y => Iff.trans (k1 y) ⟨?_, ?_⟩, Iff.trans k2 ⟨fun h => .inr (.inr ⟨ht, h⟩), ?_⟩⟩
    · rintro ⟨x, hx, rfl⟩; exact .inr ⟨ht, hx⟩
    · intro hy
      cases y with
      | replaced glyphs n => exact (noPlain _ _ (by omega) (by omega) (by omega) hy).elim
      | sequence n actions =>
        rcases hy with ⟨h, _⟩ | ⟨_, h⟩
        · omega
        · exact ⟨_, h, rfl⟩
    · rintro (h | ⟨h, _⟩ | ⟨_, h⟩)
      · exact (noLack (by omega) (by omega) (by omega) h).elim
      · omega
      · exact h
  | _ => exact plain (by have := h.1; omega) (by have := h.1; omega) rfl

theorem without_iff {ignored : Nat → Bool} {I : Nat → Prop} (hI : ∀ g, ignored g = true ↔ I g) (n : Nat)
    (glyphs rest : List Nat) : without ignored n glyphs = rest ↔ Without I n glyphs rest := by
  constructor
  · rintro rfl
    induction glyphs generalizing n with
    | nil => cases n <;> exact .nil
    | cons g glyphs ih =>
      cases n with
      | zero => exact .zero
      | succ n =>
        unfold without
        by_cases hg : ignored g = true
        · rw [if_pos hg]; exact .ignore ((hI g).mp hg) (ih _)
        · rw [if_neg hg]; exact .gone (fun h => hg ((hI g).mpr h)) (ih _)
  · intro h
    induction h with
    | zero => unfold without; rfl
    | nil => unfold without; split <;> simp_all
    | ignore hg _ ih => unfold without; rw [if_pos ((hI _).mpr hg), ih]
    | gone hg _ ih => unfold without; rw [if_neg (fun h => hg ((hI _).mp h)), ih]

section
variable {α : Type} {ignored : α → Bool} {I : α → Prop} (hI : ∀ g, ignored g = true ↔ I g)
include hI

theorem window_iff (n : Nat) (glyphs window rest : List α) :
    windowOf ignored n glyphs = (window, rest) ↔ Window I n glyphs window rest := by
  constructor
  · intro h
    induction glyphs generalizing n window rest with
    | nil => cases n <;> (cases h; exact .nil)
    | cons g glyphs ih =>
      cases n with
      | zero => cases h; exact .zero
      | succ n =>
        unfold windowOf at h
        injection h with h1 h2
        subst h1 h2
        by_cases hg : ignored g = true
        · rw [if_pos hg]; exact .ignore ((hI g).mp hg) (ih _ _ _ rfl)
        · rw [if_neg hg]; exact .seen (fun h => hg ((hI g).mpr h)) (ih _ _ _ rfl)
  · intro h
    induction h with
    | zero => unfold windowOf; rfl
    | nil => unfold windowOf; split <;> simp_all
    | ignore hg _ ih => unfold windowOf; rw [if_pos ((hI _).mpr hg), ih]
    | seen hg _ ih => unfold windowOf; rw [if_neg (fun h => hg ((hI _).mp h)), ih]

theorem split_iff (k : Nat) (glyphs pre : List α) (g : α) (post : List α) :
    splitAt ignored k glyphs = some (pre, g, post) ↔ SplitAt I k glyphs pre g post := by
  unfold SplitAt
  induction glyphs generalizing k pre with
  | nil =>
    unfold splitAt
    refine ⟨fun h => (by cases h), fun ⟨h, _⟩ => ?_⟩
    cases pre <;> cases h
  | cons x glyphs ih =>
    unfold splitAt
    by_cases hx : ignored x = true
    · rw [if_pos hx, Option.map_eq_some_iff]
      constructor
      · rintro ⟨⟨pre', g', post'⟩, h1, h2⟩
        injection h2 with h2 h3
        injection h3 with h3 h4
        subst h2 h3 h4
        obtain ⟨k1, k2, k3⟩ := (ih k pre').mp h1
        refine ⟨by rw [k1]; rfl, k2, ?_⟩
        rw [← k3]
        unfold seen
        rw [List.filter_cons_of_neg (by simpa using (hI x).mp hx)]
      · rintro ⟨h1, h2, h3⟩
        cases pre with
        | nil =>
          injection h1 with h1 _
          exact (h2 (h1 ▸ (hI x).mp hx)).elim
        | cons y pre =>
          injection h1 with h1 h4
          subst h1
          refine ⟨(pre, g, post), (ih k pre).mpr ⟨h4, h2, ?_⟩, rfl⟩
          rw [← h3]
          unfold seen
          rw [List.filter_cons_of_neg (by simpa using (hI x).mp hx)]
    · have hn : ¬I x := fun h => hx ((hI x).mpr h)
      rw [if_neg hx]
      cases k with
      | zero =>
        constructor
        · intro h
          injection h with h
          injection h with h1 h2
          injection h2 with h2 h3
          subst h1 h2 h3
          exact ⟨rfl, hn, rfl⟩
        · rintro ⟨h1, h2, h3⟩
          cases pre with
          | nil => cases h1; rfl
          | cons y pre =>
            injection h1 with h1 _
            subst h1
            unfold seen at h3
            rw [List.filter_cons_of_pos (by simpa using hn)] at h3
            cases h3
      | succ k =>
        dsimp only
        rw [Option.map_eq_some_iff]
        constructor
        · rintro ⟨⟨pre', g', post'⟩, h1, h2⟩
          injection h2 with h2 h3
          injection h3 with h3 h4
          subst h2 h3 h4
          obtain ⟨k1, k2, k3⟩ := (ih k pre').mp h1
          refine ⟨by rw [k1]; rfl, k2, ?_⟩
          rw [← k3]
          unfold seen
          rw [List.filter_cons_of_pos (by simpa using hn)]
          rfl
        · rintro ⟨h1, h2, h3⟩
          cases pre with
          | nil => cases h3
          | cons y pre =>
            injection h1 with h1 h4
            subst h1
            refine ⟨(pre, g, post), (ih k pre).mpr ⟨h4, h2, ?_⟩, rfl⟩
            unfold seen at h3 ⊢
            rw [List.filter_cons_of_pos (by simpa using hn)] at h3
            exact Nat.succ.inj h3

/-- Actions do what they should if the lookups they ask for do. -/
theorem acted {d : Data} {nested : Nat → List α → List α → Reader (Option (List α × List α))}
    {N : Nat → List α → List α → Option (List α × List α) → Prop}
    (hN : ∀ i before text q y, Reads (nested i before text) d q y ↔ N i before text y) (before : List α) :
    ∀ (actions : List Action) (window rest : List α) (q : Nat) (y : List α × List α),
      Reads (actAll nested ignored before actions window rest) d q y ↔ ActedOn N I before actions window rest y.1 y.2 := by
  intro actions
  induction actions with
  | nil =>
    rintro window rest q ⟨w, r⟩
    show Reads (pure (window, rest)) d q (w, r) ↔ _
    rw [reads_pure]
    constructor
    · intro h; cases h; exact .nil
    · intro h; cases h; rfl
  | cons action actions ih =>
    intro window rest q y
    unfold actAll
    cases hs : splitAt ignored action.position_index window with
    | none =>
      have hn : ∀ pre g post, ¬SplitAt I action.position_index window pre g post := fun pre g post h => by
        rw [(split_iff hI ..).mpr h] at hs; cases hs
      refine Iff.trans (ih window rest q y) ⟨.absent hn, fun h => ?_⟩
      cases h with
      | absent _ h => exact h
      | still h _ _ => exact (hn _ _ _ h).elim
      | act h _ _ _ => exact (hn _ _ _ h).elim
    | some s =>
      obtain ⟨pre, g, post⟩ := s
      have hp := (split_iff hI ..).mp hs
      dsimp only
      rw [reads_bind_iff]
      constructor
      · rintro ⟨r, q', e, hr⟩
        cases r with
        | none => exact .still hp ((hN ..).mp ⟨q', e⟩) ((ih ..).mp hr)
        | some r =>
          obtain ⟨done, rest₁⟩ := r
          exact .act hp ((hN ..).mp ⟨q', e⟩) rfl ((ih ..).mp hr)
      · intro h
        cases h with
        | absent h _ => exact (h _ _ _ hp).elim
        | still h1 h2 h3 =>
          have := (split_iff hI ..).mpr h1
          rw [hs] at this
          cases this
          obtain ⟨q', e⟩ := (hN _ _ _ q _).mpr h2
          exact ⟨none, q', e, (ih ..).mpr h3⟩
        | act h1 h2 h3 h4 =>
          have := (split_iff hI ..).mpr h1
          rw [hs] at this
          cases this
          subst h3
          obtain ⟨q', e⟩ := (hN _ _ _ q _).mpr h2
          exact ⟨some _, q', e, (ih ..).mpr h4⟩

end

section
variable (cfg : Cfg) {d : Data} {p : Nat} (hd : Fits d) {t : gsub.GlyphSubstitution}
  (h : Reads (gsub.GlyphSubstitution.read cfg) d p t)
include hd h

theorem performs_reaction (before : List Nat) (g : Nat) (following : List Nat) :
    Performs cfg 7 substitutionExtension gsub.Type_.read (reaction before g following) (react before g following) d p t :=
  have : ∀ type_, Parses (gsub.Type_.read type_) ((reaction before g following).wellFormed type_) :=
    fun type_ => inferInstanceAs (Parses (gsub.Type_.read type_) (Spec.gsub.IsTable type_))
  performs hd h ((C101_follow cfg hd).1 t h) fun type_ a x hx => react_iff hd before g following type_ a x hx

variable {ignored : Nat → Nat → Bool} {I : Nat → Nat → Prop} (hI : ∀ i g, ignored i g = true ↔ I i g)
include hI

theorem touched : ∀ (n i : Nat) (before text : List Nat) (q : Nat) (y : Option (List Nat × List Nat)),
    Reads (touch p t ignored n i before text) d q y ↔ Touched cfg d p I n i before text y := by
  intro n
  induction n with
  | zero =>
    intro i before text q y
    show Reads (pure none) d q y ↔ _
    rw [reads_pure]
    exact ⟨fun h => h, fun h => h⟩
  | succ n ih =>
    intro i before text q y
    cases text with
    | nil =>
      show Reads (pure none) d q y ↔ _
      rw [reads_pure]
      exact ⟨fun h => h, fun h => h⟩
    | cons g following =>
      unfold touch Touched
      by_cases hg : ignored i g = true
      · have hg' := (hI i g).mp hg
        rw [if_pos hg]
        show Reads (pure none) d q y ↔ _
        rw [reads_pure]
        constructor
        · intro h; exact .inl ⟨hg', h⟩
        · rintro (⟨_, h⟩ | ⟨h, _⟩ | ⟨h, _⟩ | ⟨h, _⟩)
          · exact h
          · exact (h hg').elim
          · exact (h hg').elim
          · exact (h hg').elim
      · have hn : ¬I i g := fun hc => hg ((hI i g).mpr hc)
        obtain ⟨k1, k2, _⟩ := performs_reaction cfg hd h (seen (I i) before) g (seen (I i) following) i q
        rw [if_neg hg, reads_bind_iff, seen_iff (hI i), seen_iff (hI i)]
        constructor
        · rintro ⟨r, q', e, hr⟩
          cases r with
          | none => exact .inr (.inl ⟨hn, k2.mp ⟨q', e⟩, reads_pure.mp hr⟩)
          | some r =>
            cases r with
            | replaced glyphs k =>
              exact .inr (.inr (.inl ⟨hn, glyphs, k, _, (k1 _).mp ⟨q', e⟩, (without_iff (hI i) ..).mp rfl, reads_pure.mp hr⟩))
            | sequence k actions =>
              obtain ⟨z, q'', e', hr⟩ := reads_bind_iff.mp hr
              exact .inr (.inr (.inr ⟨hn, k, actions, _, _, z.1, z.2, (k1 _).mp ⟨q', e⟩, (window_iff (hI i) ..).mp rfl,
                (acted (hI i) ih ..).mp ⟨q'', e'⟩, reads_pure.mp hr⟩))
        · rintro (⟨h, _⟩ | ⟨_, h1, rfl⟩ | ⟨_, glyphs, k, rest, h1, h2, rfl⟩ |
            ⟨_, k, actions, w, r, w', r', h1, h2, h3, rfl⟩)
          · exact (hn h).elim
          · obtain ⟨q', e⟩ := k2.mpr h1
            exact ⟨none, q', e, reads_pure.mpr rfl⟩
          · obtain ⟨q', e⟩ := (k1 _).mpr h1
            refine ⟨some _, q', e, reads_pure.mpr ?_⟩
            rw [(without_iff (hI i) ..).mpr h2]
          · obtain ⟨q', e⟩ := (k1 _).mpr h1
            refine ⟨some _, q', e, ?_⟩
            dsimp only
            rw [(window_iff (hI i) ..).mpr h2, reads_bind_iff]
            obtain ⟨q'', e'⟩ := (acted (hI i) ih before actions (g :: w) r q' (w', r')).mpr h3
            exact ⟨_, q'', e', reads_pure.mpr rfl⟩

end

theorem without_length {I : Nat → Prop} {n : Nat} {glyphs rest : List Nat} (h : Without I n glyphs rest) :
    rest.length ≤ glyphs.length := by
  induction h with
  | zero => exact Nat.le_refl _
  | nil => exact Nat.le_refl _
  | ignore _ _ ih => exact Nat.succ_le_succ ih
  | gone _ _ ih => exact Nat.le_succ_of_le ih

theorem window_length {α : Type} {I : α → Prop} {n : Nat} {glyphs window rest : List α} (h : Window I n glyphs window rest) :
    rest.length ≤ glyphs.length := by
  induction h with
  | zero => exact Nat.le_refl _
  | nil => exact Nat.le_refl _
  | ignore _ _ ih => exact Nat.le_succ_of_le ih
  | seen _ _ ih => exact Nat.le_succ_of_le ih

theorem acted_length {α : Type} {N : Nat → List α → List α → Option (List α × List α) → Prop} {I : α → Prop} {before : List α}
    {actions : List Action} {window rest window' rest' : List α} (h : ActedOn N I before actions window rest window' rest') :
    rest'.length ≤ rest.length := by
  induction h with
  | nil => exact Nat.le_refl _
  | absent _ _ ih => exact ih
  | still _ _ _ ih => exact ih
  | act _ _ _ _ ih => rw [List.length_drop] at ih; omega

theorem touched_length {cfg : Cfg} {d : Data} {p : Nat} {I : Nat → Nat → Prop} {n i : Nat} {before following done rest : List Nat}
    {g : Nat} (h : Touched cfg d p I n i before (g :: following) (some (done, rest))) : rest.length ≤ following.length := by
  cases n with
  | zero => cases h
  | succ n =>
    unfold Touched at h
    rcases h with ⟨_, h⟩ | ⟨_, _, h⟩ | ⟨_, _, _, _, _, h1, h⟩ | ⟨_, _, _, _, _, _, _, _, h1, h2, h⟩
    · cases h
    · cases h
    · cases h; exact without_length h1
    · cases h; exact Nat.le_trans (acted_length h2) (window_length h1)

theorem went_forward {α : Type} {d : Data} {touch : List α → List α → Reader (Option (List α × List α))}
    {T : List α → List α → Option (List α × List α) → Prop} (hT : ∀ before text q y, Reads (touch before text) d q y ↔ T before text y)
    (hl : ∀ before g following done rest, T before (g :: following) (some (done, rest)) → rest.length ≤ following.length) :
    ∀ (fuel : Nat) (before text : List α) (q : Nat) (out : List α), text.length ≤ fuel →
      (Reads (forward touch fuel before text) d q out ↔ Forward T before text out) := by
  intro fuel
  induction fuel with
  | zero =>
    intro before text q out hf
    obtain rfl := List.length_eq_zero_iff.mp (Nat.le_zero.mp hf)
    show Reads (pure []) d q out ↔ _
    rw [reads_pure]
    constructor
    · rintro rfl; exact .nil
    · intro h; cases h; rfl
  | succ fuel ih =>
    intro before text q out hf
    cases text with
    | nil =>
      show Reads (pure []) d q out ↔ _
      rw [reads_pure]
      constructor
      · rintro rfl; exact .nil
      · intro h; cases h; rfl
    | cons g following =>
      have hf := Nat.le_of_succ_le_succ hf
      unfold forward
      rw [reads_bind_iff]
      constructor
      · rintro ⟨r, q', e, hr⟩
        have ht := (hT ..).mp ⟨q', e⟩
        cases r with
        | none =>
          obtain ⟨out', q'', e', hr⟩ := reads_bind_iff.mp hr
          rw [reads_pure.mp hr]
          exact .keep ht ((ih _ _ _ _ hf).mp ⟨q'', e'⟩)
        | some r =>
          obtain ⟨done, rest⟩ := r
          obtain ⟨out', q'', e', hr⟩ := reads_bind_iff.mp hr
          rw [reads_pure.mp hr]
          exact .change ht ((ih _ _ _ _ (Nat.le_trans (hl _ _ _ _ _ ht) hf)).mp ⟨q'', e'⟩)
      · intro h
        cases h with
        | keep h1 h2 =>
          obtain ⟨q', e⟩ := (hT _ _ q _).mpr h1
          obtain ⟨q'', e'⟩ := (ih _ _ q' _ hf).mpr h2
          exact ⟨none, q', e, reads_bind_iff.mpr ⟨_, q'', e', reads_pure.mpr rfl⟩⟩
        | change h1 h2 =>
          obtain ⟨q', e⟩ := (hT _ _ q _).mpr h1
          obtain ⟨q'', e'⟩ := (ih _ _ q' _ (Nat.le_trans (hl _ _ _ _ _ h1) hf)).mpr h2
          exact ⟨some _, q', e, reads_bind_iff.mpr ⟨_, q'', e', reads_pure.mpr rfl⟩⟩

theorem went_backward (cfg : Cfg) {d : Data} {p : Nat} (hd : Fits d) {t : gsub.GlyphSubstitution}
    (h : Reads (gsub.GlyphSubstitution.read cfg) d p t) {ignored : Nat → Bool} {I : Nat → Prop} (hI : ∀ g, ignored g = true ↔ I g) (i : Nat) :
    ∀ (text before : List Nat) (q : Nat) (out : List Nat),
      Reads (backward p t ignored i before text) d q out ↔ Backward cfg d p I i before text out := by
  intro text
  induction text with
  | nil =>
    intro before q out
    show Reads (pure []) d q out ↔ _
    rw [reads_pure]
    constructor
    · rintro rfl; exact .nil
    · intro h; cases h; rfl
  | cons g following ih =>
    intro before q out
    unfold backward
    rw [reads_bind_iff]
    constructor
    · rintro ⟨rest, q', e, hr⟩
      have hb := (ih ..).mp ⟨q', e⟩
      by_cases hg : ignored g = true
      · rw [if_pos hg] at hr
        rw [reads_pure.mp hr]
        exact .ignore hb ((hI g).mp hg)
      · have hn : ¬I g := fun hc => hg ((hI g).mpr hc)
        rw [if_neg hg, reads_bind_iff, seen_iff hI, seen_iff hI] at hr
        obtain ⟨r, q'', e', hr⟩ := hr
        obtain ⟨k1, k2, _⟩ := C111_reverse cfg hd h (seen I before) g (seen I rest) i q'
        cases r with
        | none => rw [reads_pure.mp hr]; exact .keep hb hn (k2.mp ⟨q'', e'⟩)
        | some x => rw [reads_pure.mp hr]; exact .replace hb hn ((k1 x).mp ⟨q'', e'⟩)
    · intro hb
      cases hb with
      | @ignore _ _ _ rest h1 h2 =>
        obtain ⟨q', e⟩ := (ih _ q _).mpr h1
        refine ⟨_, q', e, ?_⟩
        rw [if_pos ((hI g).mpr h2)]
        exact reads_pure.mpr rfl
      | @keep _ _ _ rest h1 h2 h3 =>
        obtain ⟨q', e⟩ := (ih _ q _).mpr h1
        obtain ⟨k1, k2, _⟩ := C111_reverse cfg hd h (seen I before) g (seen I rest) i q'
        obtain ⟨q'', e'⟩ := k2.mpr h3
        refine ⟨_, q', e, ?_⟩
        rw [if_neg (fun hc => h2 ((hI g).mp hc)), reads_bind_iff, seen_iff hI, seen_iff hI]
        exact ⟨none, q'', e', reads_pure.mpr rfl⟩
      | @replace _ _ _ rest x h1 h2 h3 =>
        obtain ⟨q', e⟩ := (ih _ q _).mpr h1
        obtain ⟨k1, k2, _⟩ := C111_reverse cfg hd h (seen I before) g (seen I rest) i q'
        obtain ⟨q'', e'⟩ := (k1 x).mpr h3
        refine ⟨_, q', e, ?_⟩
        rw [if_neg (fun hc => h2 ((hI g).mp hc)), reads_bind_iff, seen_iff hI, seen_iff hI]
        exact ⟨some x, q'', e', reads_pure.mpr rfl⟩

theorem went_below {α : Type} {d : Data} {pass : Nat → List α → Reader (List α)} {P : Nat → List α → List α → Prop}
    (hP : ∀ i glyphs q out, Reads (pass i glyphs) d q out ↔ P i glyphs out) {wanted : Nat → Bool} {W : Nat → Prop}
    (hw : ∀ k, wanted k = true ↔ W k) :
    ∀ (m q : Nat) (glyphs out : List α), Reads (below pass wanted m glyphs) d q out ↔ Below P W m glyphs out := by
  intro m
  induction m with
  | zero =>
    intro q glyphs out
    show Reads (pure glyphs) d q out ↔ _
    rw [reads_pure]
    constructor
    · rintro rfl; exact .zero
    · intro h; cases h; rfl
  | succ m ih =>
    intro q glyphs out
    unfold below
    rw [reads_bind_iff]
    by_cases hm : wanted m = true
    · simp only [if_pos hm]
      constructor
      · rintro ⟨middle, q', e, hr⟩
        exact .pass ((hw m).mp hm) ((ih ..).mp ⟨q', e⟩) ((hP ..).mp hr)
      · intro hs
        cases hs with
        | skip h1 _ => exact (h1 ((hw m).mp hm)).elim
        | pass _ h2 h3 =>
          obtain ⟨q', e⟩ := (ih q glyphs _).mpr h2
          exact ⟨_, q', e, (hP ..).mpr h3⟩
    · simp only [if_neg hm]
      constructor
      · rintro ⟨middle, q', e, hr⟩
        rw [reads_pure.mp hr]
        exact .skip (fun hc => hm ((hw m).mpr hc)) ((ih ..).mp ⟨q', e⟩)
      · intro hs
        cases hs with
        | skip _ h2 =>
          obtain ⟨q', e⟩ := (ih q glyphs _).mpr h2
          exact ⟨_, q', e, reads_pure.mpr rfl⟩
        | pass h1 _ _ => exact (hm ((hw m).mpr h1)).elim

/-- Lookups that are not wanted do not matter. -/
theorem below_add {α : Type} {P : Nat → List α → List α → Prop} {W : Nat → Prop} {m : Nat} (hm : ∀ k, W k → k < m)
    (glyphs out : List α) (l : Nat) : Below P W (m + l) glyphs out ↔ Below P W m glyphs out := by
  induction l with
  | zero => rfl
  | succ l ih =>
    rw [← ih]
    constructor
    · intro h
      cases h with
      | skip _ h => exact h
      | pass h _ _ => exact absurd (hm _ h) (Nat.not_lt.mpr (Nat.le_add_right m l))
    · intro h
      exact .skip (fun hc => absurd (hm _ hc) (Nat.not_lt.mpr (Nat.le_add_right m l))) h

/-- If each lookup does what the bytes tell, so do all. -/
theorem all_passed {T α : Type} {cfg : Cfg} {d : Data} {p : Nat} {t : Directory T} {pass : Nat → List α → Reader (List α)}
    {P : Nat → List α → List α → Prop} (hP : ∀ i glyphs q out, Reads (pass i glyphs) d q out ↔ P i glyphs out)
    {script language : Tag} {tags : List Tag}
    (hw : ∃ found, lookupsFor t script language = .ok found ∧
      (∀ k, (found.any fun x => tags.contains x.1 && x.2.1 == k) = true ↔ Wanted cfg d p script language tags k) ∧
      ∀ k, Wanted cfg d p script language tags k → k < t.lookups.records.length) (glyphs : List α) (q : Nat) (out : List α) :
    Reads (passAll t pass script language tags glyphs) d q out ↔ AllPassed cfg d p P script language tags glyphs out := by
  obtain ⟨found, e, hw, hm⟩ := hw
  unfold passAll
  rw [e]
  refine Iff.trans (went_below hP hw _ q glyphs out) ⟨fun hs => ⟨_, hm, hs⟩, ?_⟩
  rintro ⟨m, hn, hs⟩
  rcases Nat.le_total m t.lookups.records.length with hl | hl
  · obtain ⟨l, hl⟩ := Nat.exists_eq_add_of_le hl
    rw [hl]
    exact (below_add hn glyphs out l).mpr hs
  · obtain ⟨l, rfl⟩ := Nat.exists_eq_add_of_le hl
    exact (below_add hm glyphs out l).mp hs

/-- What shaping with contexts should give, if `ignored` tells the program what `I` says: what the bytes tell, whatever the
script, the language, the features and the glyphs are, however deep calls may be nested, and wherever the tape was before. -/
def ShapesText (cfg : Cfg) (d : Data) (p : Nat) (t : gsub.GlyphSubstitution) (ignored : Nat → Nat → Bool)
    (I : Nat → Nat → Prop) : Prop :=
  ∀ n script language tags glyphs q out,
    Reads (shapeText p t ignored n script language tags glyphs) d q out ↔ Becomes cfg d p I n script language tags glyphs out

theorem shapesText (cfg : Cfg) {d : Data} {p : Nat} (hd : Fits d) {t : gsub.GlyphSubstitution}
    (h : Reads (gsub.GlyphSubstitution.read cfg) d p t) {ignored : Nat → Nat → Bool} {I : Nat → Nat → Prop}
    (hI : ∀ i g, ignored i g = true ↔ I i g) : ShapesText cfg d p t ignored I := by
  intro n script language tags glyphs q out
  refine all_passed (fun i glyphs q out => ?_) (wanted_found (isTable := Spec.gsub.IsTable) hd h script language tags) glyphs q out
  rw [reads_bind_iff]
  have hf := fun text q out => went_forward (touched cfg hd h hI n i) (fun _ _ _ _ _ => touched_length) text.length [] text q out
    (Nat.le_refl _)
  constructor
  · rintro ⟨middle, q', e, hr⟩
    exact ⟨middle, (hf ..).mp ⟨q', e⟩, (went_backward cfg hd h (hI i) ..).mp hr⟩
  · rintro ⟨middle, h1, h2⟩
    obtain ⟨q', e⟩ := (hf _ q _).mpr h1
    exact ⟨middle, q', e, (went_backward cfg hd h (hI i) ..).mpr h2⟩

/-- Whatever GSUB table is read from any tape, in every build, text is shaped as its bytes tell, if no glyphs are ignored. -/
theorem C114_shape (cfg : Cfg) {d : Data} {p : Nat} (hd : Fits d) {t : gsub.GlyphSubstitution}
    (h : Reads (gsub.GlyphSubstitution.read cfg) d p t) : ShapesText cfg d p t (fun _ _ => false) (fun _ _ => False) :=
  shapesText cfg hd h fun _ _ => by simp

/-- Whatever GDEF table and GSUB table are read from any tape, in every build, text is shaped as their bytes tell. -/
theorem C114_ignoring (cfg : Cfg) {d : Data} {p q : Nat} (hd : Fits d) {definition : gdef.GlyphDefinition}
    (hdef : Reads (gdef.GlyphDefinition.read cfg) d q definition) {t : gsub.GlyphSubstitution}
    (h : Reads (gsub.GlyphSubstitution.read cfg) d p t) : ShapesText cfg d p t (ignoredBy definition t) (Ignores cfg d q p) :=
  shapesText cfg hd h (ignoredBy_iff cfg hd hdef h)

/-- The same from the file on. -/
theorem C114_font (accept : Tag → Bool) (cfg : Cfg) {d : Data} (hd : Fits d) (p p' : Nat) {definition : gdef.GlyphDefinition}
    (hdef : Takes accept cfg d p .glyphDefinition (gdef.GlyphDefinition.read cfg) (some definition)) {t : gsub.GlyphSubstitution}
    (h : Takes accept cfg d p' .glyphSubstitution (gsub.GlyphSubstitution.read cfg) (some t)) :
    ∃ a b, TableAt accept cfg d .glyphDefinition a ∧ TableAt accept cfg d .glyphSubstitution b ∧
      ShapesText cfg d b t (ignoredBy definition t) (Ignores cfg d a b) := by
  obtain ⟨a, h1, h2⟩ := (C55_stored (S := Reads _) accept cfg _ hd (fun _ _ => Iff.rfl) p definition).mp hdef
  obtain ⟨b, h3, h4⟩ := (C55_stored (S := Reads _) accept cfg _ hd (fun _ _ => Iff.rfl) p' t).mp h
  exact ⟨a, b, h1, h3, C114_ignoring cfg hd h2 h4⟩

/-! ## Example -/

/-- A GSUB table with one script, `latn`, one language, the default one, one feature, `calt`, and four lookups, of which the
feature has the first and the third. The first is a context: where glyph 4 follows glyph 3, the second lookup is performed at the
glyph number 0 and the fourth at the glyph number 2. The second makes glyph 3 into glyphs 7 and 8, the fourth makes glyph 4 into
glyph 5. The third is a reverse chained substitution: glyph 9 becomes glyph 10 before glyph 7 or 10. -/
def contextualTable : Data := bytes <|
  [0, 1,  0, 0,  0, 10,  0, 30,  0, 46] ++
  [0, 1,  0x6C, 0x61, 0x74, 0x6E,  0, 8] ++ [0, 4,  0, 0] ++ [0, 0,  0xFF, 0xFF,  0, 1,  0, 0] ++
  [0, 1,  0x63, 0x61, 0x6C, 0x74,  0, 8] ++ [0, 0,  0, 2,  0, 0,  0, 2] ++
  [0, 4,  0, 10,  0, 48,  0, 76,  0, 112] ++
  [0, 5,  0, 0,  0, 1,  0, 8] ++ [0, 3,  0, 2,  0, 2,  0, 18,  0, 24,  0, 0,  0, 1,  0, 2,  0, 3] ++
  [0, 1,  0, 1,  0, 3] ++ [0, 1,  0, 1,  0, 4] ++
  [0, 2,  0, 0,  0, 1,  0, 8] ++ [0, 1,  0, 8,  0, 1,  0, 14] ++ [0, 1,  0, 1,  0, 3] ++ [0, 2,  0, 7,  0, 8] ++
  [0, 8,  0, 0,  0, 1,  0, 8] ++ [0, 1,  0, 14,  0, 0,  0, 1,  0, 20,  0, 1,  0, 10] ++ [0, 1,  0, 1,  0, 9] ++
  [0, 1,  0, 2,  0, 7,  0, 10] ++
  [0, 1,  0, 0,  0, 1,  0, 8] ++ [0, 1,  0, 6,  0, 1] ++ [0, 1,  0, 1,  0, 4]

/-- Its text is shaped. -/
def shapeContextual (ignored : Nat → Nat → Bool) (n : Nat) (glyphs : List Nat) : Reader (List Nat) := do
  let t ← gsub.GlyphSubstitution.read ⟨false, false, false, false, false, false⟩
  shapeText 0 t ignored n 0x6C61746E 0x44455520 [0x63616C74] glyphs

/-- Glyphs 9, 9, 3, 4, 3 become 9, 9, 7, 8, 5, 3 by the first lookup and 10, 10, 7, 8, 5, 3 by the third. If calls may not be
nested, the context asks in vain. If the first lookup ignores glyph 6, it does not matter between glyphs 3 and 4. -/
example : Reads (shapeContextual (fun _ _ => false) 2 [9, 9, 3, 4, 3]) contextualTable 0 [10, 10, 7, 8, 5, 3] ∧
    Reads (shapeContextual (fun _ _ => false) 1 [9, 9, 3, 4, 3]) contextualTable 0 [9, 9, 3, 4, 3] ∧
    Reads (shapeContextual (fun i g => i == 0 && g == 6) 2 [9, 3, 6, 4, 4]) contextualTable 0 [10, 7, 8, 6, 5, 4] := by
  decide +kernel

end OpenType.Props
