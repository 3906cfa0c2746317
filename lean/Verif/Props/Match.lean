import Verif.Spec.Match
import Verif.Props.Attach
/-! # C105: contexts -/

namespace OpenType.Props
open OpenType Spec coverage class_ context

theorem begins_iff {α : Type} {test : Nat → α → Bool} {R : Nat → α → Prop} (h : ∀ y x, test y x = true ↔ R y x) (xs : List α)
    (ys : List Nat) : begins test xs ys = true ↔ Begins R xs ys := by
  induction xs generalizing ys with
  | nil => exact ⟨fun _ k x hx => (by cases hx), fun _ => rfl⟩
  | cons x xs ih =>
    cases ys with
    | nil =>
      refine ⟨fun e => (by cases e), fun hb => ?_⟩
      obtain ⟨y, hy, _⟩ := hb 0 x rfl
      cases hy
    | cons y ys =>
      simp only [begins, Bool.and_eq_true, h, ih]
      constructor
      · rintro ⟨h1, h2⟩ k x' hx
        cases k with
        | zero => cases hx; exact ⟨y, rfl, h1⟩
        | succ k => exact h2 k x' hx
      · intro hb
        refine ⟨?_, fun k x' hx => hb (k + 1) x' hx⟩
        obtain ⟨y', hy, hr⟩ := hb 0 x rfl
        cases hy
        exact hr

theorem begins_eq (xs ys : List Nat) : begins (· == ·) xs ys = true ↔ Begins Eq xs ys :=
  begins_iff (fun _ _ => beq_iff_eq) xs ys

theorem begins_class {d : Data} {c : Nat} {t : Class} (h : IsClass d c t) (xs ys : List Nat) :
    begins (fun g k => classOf t g == k) xs ys = true ↔ Begins (ClassedAs d c) xs ys :=
  begins_iff (fun g k => beq_iff_eq.trans (classOf_iff h g k)) xs ys

theorem coveredBy_iff {d : Data} {p a n : Nat} {offsets : List Nat} {coverages : List Coverage} (hs : U16s d a n offsets)
    (hr : AtOffsets (IsCoverage d) p offsets coverages) (glyphs : List Nat) :
    begins covers coverages glyphs = true ↔ CoveredBy d p a n glyphs := by
  rw [begins_iff (test := covers) (R := fun g coverage => ∃ i, indexOf coverage g = some i) fun g coverage => by
    unfold covers; exact Option.isSome_iff_exists]
  constructor
  · intro h k hk
    have e := List.getElem?_eq_getElem (l := offsets) (i := k) (by rw [hs.1]; exact hk)
    have e' := List.getElem?_eq_getElem (l := coverages) (i := k) (by rw [hr.1, hs.1]; exact hk)
    obtain ⟨g, hg, i, hi⟩ := h k _ e'
    exact ⟨g, _, i, hg, hs.2 k _ e, (indexOf_iff (hr.2 k _ _ e e') g i).mp hi⟩
  · intro h k coverage hk
    have hl := (List.getElem?_eq_some_iff.mp hk).1
    have e := List.getElem?_eq_getElem (l := offsets) (i := k) (by rw [← hr.1]; exact hl)
    obtain ⟨g, o, i, hg, ho, hi⟩ := h k (by rw [← hs.1, ← hr.1]; exact hl)
    have hc := hr.2 k _ _ e hk
    rw [(hs.2 k _ e).unique ho] at hc
    exact ⟨g, hg, i, (indexOf_iff hc g i).mpr hi⟩

/-- The first rule of a set. -/
theorem firstRule_iff {Rule : Type} {IsRule : Data → Nat → Rule → Prop} {d : Data} {s n : Nat} {offsets : List Nat}
    {records : List Rule} {test : Rule → Bool} {fits : Rule → Prop} (h1 : U16 d s n) (h2 : U16s d (s + 2) n offsets)
    (h3 : AtOffsets (IsRule d) s offsets records) (hu : ∀ a x y, IsRule d a x → IsRule d a y → x = y)
    (hf : ∀ rule, test rule = true ↔ fits rule) (rule : Rule) :
    records.find? test = some rule ↔ FirstRule IsRule d s fits rule := by
  have hk : ∀ (k : Nat) rule, records[k]? = some rule ↔ RuleIn IsRule d s k rule := by
    intro k rule
    constructor
    · intro e'
      have hl := (List.getElem?_eq_some_iff.mp e').1
      have e := List.getElem?_eq_getElem (l := offsets) (i := k) (by rw [← h3.1]; exact hl)
      exact ⟨n, _, h1, by rw [← h2.1, ← h3.1]; exact hl, h2.2 k _ e, h3.2 k _ _ e e'⟩
    · rintro ⟨n', o, hn, hl, ho, hr⟩
      rw [hn.unique h1] at hl
      have e := List.getElem?_eq_getElem (l := offsets) (i := k) (by rw [h2.1]; exact hl)
      have e' := List.getElem?_eq_getElem (l := records) (i := k) (by rw [h3.1, h2.1]; exact hl)
      have h := h3.2 k _ _ e e'
      rw [(h2.2 k _ e).unique ho] at h
      rw [e', hu _ _ _ h hr]
  rw [find?_places]
  constructor
  · rintro ⟨k, h1, h2, h3⟩
    refine ⟨k, (hk k rule).mp h1, (hf rule).mp h2, fun j hj other ho hfit => ?_⟩
    have := h3 j hj other ((hk j other).mpr ho)
    rw [(hf other).mpr hfit] at this
    cases this
  · rintro ⟨k, h1, h2, h3⟩
    exact ⟨k, (hk k rule).mpr h1, (hf rule).mpr h2, fun j hj other ho =>
      Bool.eq_false_iff.mpr fun e => h3 j hj other ((hk j other).mp ho) ((hf other).mp e)⟩

/-- Looking for a rule in the set for a glyph. -/
theorem found_iff {Set Rule β : Type} {IsRule : Data → Nat → Rule → Prop} {d : Data} {entry : Except Err (Option Set)}
    {P : Nat → Prop} {S : Nat → Set → Prop} {Q : Prop} {records : Set → List Rule} {test : Rule → Bool} {fits : Rule → Prop}
    {actions : Rule → β} (h1 : ∀ set, entry = .ok (some set) ↔ ∃ s, P s ∧ S s set)
    (h2 : (∃ e, entry = .error e) ↔ Q) (h3 : ∀ s, P s → ∃ set, S s set)
    (h4 : ∀ s set, S s set → ∀ rule, (records set).find? test = some rule ↔ FirstRule IsRule d s fits rule) :
    (∀ a, ruleOf records actions entry test = .ok (some a) ↔
      ∃ s rule, P s ∧ FirstRule IsRule d s fits rule ∧ a = actions rule) ∧
    ((∃ e, ruleOf records actions entry test = .error e) ↔ Q) := by
  unfold ruleOf
  constructor
  · intro a
    rw [except_bind_ok]
    constructor
    · rintro ⟨x, hx, e⟩
      cases x with
      | none => cases e
      | some set =>
        obtain ⟨s, hs, hset⟩ := (h1 set).mp hx
        injection e with e
        obtain ⟨rule, hr, rfl⟩ := Option.map_eq_some_iff.mp e
        exact ⟨s, rule, hs, (h4 s set hset rule).mp hr, rfl⟩
    · rintro ⟨s, rule, hs, hr, rfl⟩
      obtain ⟨set, hset⟩ := h3 s hs
      refine ⟨some set, (h1 set).mpr ⟨s, hs, hset⟩, ?_⟩
      change Except.ok _ = _
      rw [(h4 s set hset rule).mpr hr]
      rfl
  · rw [except_bind_error, ← h2]
    constructor
    · rintro (h | ⟨x, _, e, he⟩)
      · exact h
      · cases x <;> cases he
    · intro h; exact .inl h

/-- What there is at the entry for a glyph. -/
theorem entry_exists {α : Type} {d : Data} {p n : Nat} {S : Nat → α → Prop} {offsets : List Nat}
    {records : List α} (hn : U16 d (p + 4) n) (hs : U16s d (p + 6) n offsets) (hr : AtOffsets S p offsets records) {g s : Nat}
    (h : EntryAt d p g s) : ∃ set, S s set := by
  obtain ⟨i, n', o, _, hn', hl, ho, rfl⟩ := h
  rw [hn'.unique hn] at hl
  have e := List.getElem?_eq_getElem (l := offsets) (i := i) (by rw [hs.1]; exact hl)
  have e' := List.getElem?_eq_getElem (l := records) (i := i) (by rw [hr.1, hs.1]; exact hl)
  have h := hr.2 i _ _ e e'
  rw [(hs.2 i _ e).unique ho] at h
  exact ⟨_, h⟩

/-- The set of rules for the class of a glyph. -/
theorem classEntry_iff {α : Type} {d : Data} {p a b o c n g : Nat} {t : Coverage} {classes : Class} {S : Nat → α → Prop}
    {offsets : List Nat} {records : List (Option α)} (ho : U16 d (p + 2) o) (h : IsCoverage d (p + o) t) (hc : U16 d a c)
    (hcc : IsClass d (p + c) classes) (hn : U16 d b n) (hs : U16s d (b + 2) n offsets)
    (hr : AtOptionalOffsets S p offsets records) (hS : ∀ a x y, S a x → S a y → x = y) :
    (∀ x, classEntryOf t classes records g = .ok (some x) ↔ ∃ s, ClassEntryAt d p a b g s ∧ S s x) ∧
    ((∃ e, classEntryOf t classes records g = .error e) ↔ MissingClass d p a b g) ∧
    (∀ s, ClassEntryAt d p a b g s → ∃ x, S s x) := by
  have hi := coveredIn_iff ho h g
  have hk := classOf_iff hcc g
  have place : ∀ s, ClassEntryAt d p a b g s → (∃ i, indexOf t g = some i) ∧
      ∃ x, records[classOf classes g]? = some (some x) ∧ S s x := by
    rintro s ⟨i, c', k, n', o', h1, h2, h3, h4, h5, h6, h7, rfl⟩
    rw [h2.unique hc, ← hk] at h3
    subst h3
    rw [h4.unique hn] at h5
    have e := List.getElem?_eq_getElem (l := offsets) (i := classOf classes g) (by rw [hs.1]; exact h5)
    have e' := List.getElem?_eq_getElem (l := records) (i := classOf classes g) (by rw [hr.1, hs.1]; exact h5)
    have hv := hr.2 _ _ _ e e'
    rw [(hs.2 _ _ e).unique h6] at hv
    refine ⟨⟨i, (hi i).mpr h1⟩, ?_⟩
    cases hx : records[classOf classes g]'(by rw [hr.1, hs.1]; exact h5) with
    | none => rw [hx] at hv; exact (h7 hv).elim
    | some x => rw [hx] at hv e'; exact ⟨x, e', hv.2⟩
  refine ⟨fun x => ?_, ?_, fun s hs => ?_⟩
  · constructor
    · intro e
      unfold classEntryOf at e
      cases hx : indexOf t g with
      | none => rw [hx] at e; cases e
      | some i =>
        rw [hx] at e
        have e' := ((element_iff records (classOf classes g)).1 _).mp e
        have hl := (List.getElem?_eq_some_iff.mp e').1
        have e := List.getElem?_eq_getElem (l := offsets) (i := classOf classes g) (by rw [← hr.1]; exact hl)
        obtain ⟨h1, h2⟩ := hr.2 _ _ _ e e'
        exact ⟨_, ⟨i, _, _, n, _, (hi i).mp hx, hc, (hk _).mp rfl, hn, by rw [← hs.1, ← hr.1]; exact hl, hs.2 _ _ e, h1, rfl⟩, h2⟩
    · rintro ⟨s, h1, h2⟩
      obtain ⟨⟨i, hx⟩, y, hy, hy'⟩ := place s h1
      unfold classEntryOf
      rw [hx]
      rw [hS s x y h2 hy']
      exact ((element_iff records (classOf classes g)).1 _).mpr hy
  · unfold classEntryOf
    constructor
    · rintro ⟨m, e⟩
      cases hx : indexOf t g with
      | none => rw [hx] at e; cases e
      | some i =>
        rw [hx] at e
        have hl := (element_iff records (classOf classes g)).2.mp ⟨m, e⟩
        exact ⟨i, _, _, n, (hi i).mp hx, hc, (hk _).mp rfl, hn, by rw [← hs.1, ← hr.1]; exact hl⟩
    · rintro ⟨i, c', k, n', h1, h2, h3, h4, h5⟩
      rw [h2.unique hc, ← hk] at h3
      subst h3
      rw [h4.unique hn] at h5
      rw [(hi i).mpr h1]
      exact (element_iff records (classOf classes g)).2.mpr (by rw [hr.1, hs.1]; exact h5)
  · obtain ⟨_, x, _, hx⟩ := place s hs
    exact ⟨x, hx⟩

theorem actions_unique {d : Data} (hd : Fits d) {a n : Nat} {xs ys : List Action} (hx : ArrayOf (IsAction d) 4 a n xs)
    (hy : ArrayOf (IsAction d) 4 a n ys) : xs = ys := by
  refine List.ext_getElem? fun i => ?_
  by_cases hi : i < n
  · have e := List.getElem?_eq_getElem (l := xs) (i := i) (by rw [hx.1]; exact hi)
    have e' := List.getElem?_eq_getElem (l := ys) (i := i) (by rw [hy.1]; exact hi)
    rw [e, e', fixed_unique (r := Action.read) hd (hx.2 i _ e) (hy.2 i _ e')]
  · rw [List.getElem?_eq_none (by rw [hx.1]; omega), List.getElem?_eq_none (by rw [hy.1]; omega)]

/-- What looking for a match gives: the number of glyphs and the actions that the bytes tell. -/
def Matches (result : Except Err (Option (Nat × List Action))) (P : Nat × List Action → Prop) (Q : Prop) : Prop :=
  (∀ y, result = .ok (some y) ↔ P y) ∧
  (result = .ok none ↔ ¬Q ∧ ∀ y, ¬P y) ∧
  ((∃ e, result = .error e) ↔ Q)

theorem matches_of {result : Except Err (Option (Nat × List Action))} {P : Nat × List Action → Prop} {Q : Prop}
    (h : (∀ y, result = .ok (some y) ↔ P y) ∧ ((∃ e, result = .error e) ↔ Q)) : Matches result P Q :=
  ⟨h.1, none_iff h.1 h.2, h.2⟩

/-- A context matches where its bytes say. -/
theorem C105_context {d : Data} {p : Nat} (hd : Fits d) {t : Context} (h : Reads Context.read d p t) (g : Nat)
    (after : List Nat) : Matches (matchContext t g after) (MatchedBy d p g after) (MissingRules d p g) := by
  have h := (reads_parses (S := IsContext) hd).mp h
  apply matches_of
  cases t with
  | format1 t =>
    obtain ⟨h0, h1, h2, h3, h4, h5, h6⟩ := h
    rw [h0] at h1
    obtain ⟨_, k2, k3⟩ := entries_iff (g := g) h2 h5 h3 h4 h6 (parses_unique (r := Records.read) hd)
    simp only [matchContext]
    have f := found_iff (records := Records.records) (actions := fun rule => (rule.glyph_ids.length + 1, rule.actions)) (test := fun rule => begins (· == ·) rule.glyph_ids after)
      (fits := fun rule => Begins Eq rule.glyph_ids after)
      k2 k3 (fun s => entry_exists h3 h4 h6) (fun s set hset => firstRule_iff hset.1 hset.2.1 hset.2.2
        (parses_unique (r := context.Record.read) hd) fun rule => begins_eq _ _)
    refine ⟨fun a => (f.1 a).trans ⟨?_, ?_⟩, f.2.trans ⟨fun h => .inl ⟨h1, h⟩, ?_⟩⟩
    · rintro ⟨s, rule, q1, q2, q3⟩; exact .inl ⟨h1, s, rule, q1, q2, q3⟩
    · rintro (⟨_, s, rule, q1, q2, q3⟩ | ⟨h, _⟩ | ⟨h, _⟩)
      · exact ⟨s, rule, q1, q2, q3⟩
      · have := h.unique h1; omega
      · have := h.unique h1; omega
    · rintro (⟨_, h⟩ | ⟨h, _⟩)
      · exact h
      · have := h.unique h1; omega
  | format2 t =>
    obtain ⟨h0, h1, h2, h3, h4, h5, h6, h7, h8⟩ := h
    rw [h0] at h1
    obtain ⟨k2, k3, k4⟩ := classEntry_iff (g := g) h2 h6 h3 h7 h4 h5 h8 (parses_unique (r := ClassRecords.read) hd)
    simp only [matchContext]
    have f := found_iff (records := ClassRecords.records) (actions := fun rule => (rule.indices.length + 1, rule.actions))
      (test := fun rule => begins (fun g k => classOf t.class_ g == k) rule.indices after)
      (fits := fun rule => Begins (ClassedAs d (p + t.class_offset)) rule.indices after)
      k2 k3 k4 (fun s set hset => firstRule_iff hset.1 hset.2.1 hset.2.2
        (parses_unique (r := ClassRecord.read) hd) fun rule => begins_class h7 _ _)
    refine ⟨fun a => (f.1 a).trans ⟨?_, ?_⟩, f.2.trans ⟨fun h => .inr ⟨h1, h⟩, ?_⟩⟩
    · rintro ⟨s, rule, q1, q2, q3⟩; exact .inr (.inl ⟨h1, _, s, rule, h3, q1, q2, q3⟩)
    · rintro (⟨h, _⟩ | ⟨_, c, s, rule, q0, q1, q2, q3⟩ | ⟨h, _⟩)
      · have := h.unique h1; omega
      · rw [q0.unique h3] at q2
        exact ⟨s, rule, q1, q2, q3⟩
      · have := h.unique h1; omega
    · rintro (⟨h, _⟩ | ⟨_, h⟩)
      · have := h.unique h1; omega
      · exact h
  | format3 t =>
    obtain ⟨h0, h1, h2, h3, h4, h5, h6⟩ := h
    rw [h0] at h1
    have hb := coveredBy_iff h4 h6 (g :: after)
    have hl : t.coverages.length = t.glyph_count := by rw [h6.1, h4.1]
    refine ⟨fun a => ?_, ⟨fun ⟨_, e⟩ => (by cases e), ?_⟩⟩
    · constructor
      · intro e
        injection e with e
        split at e
        · rename_i hc
          injection e with e
          subst e
          exact .inr (.inr ⟨h1, _, _, h2, h3, hb.mp hc, hl, h5⟩)
        · cases e
      · rintro (⟨h, _⟩ | ⟨h, _⟩ | ⟨_, n, m, q1, q2, q3, q5, q4⟩)
        · have := h.unique h1; omega
        · have := h.unique h1; omega
        · rw [q1.unique h2] at q3 q4 q5
          rw [q2.unique h3] at q4
          simp only [matchContext]
          rw [if_pos (hb.mpr q3), actions_unique hd h5 q4, hl, ← q5]
    · rintro (⟨h, _⟩ | ⟨h, _⟩) <;> (have := h.unique h1; omega)

/-- A chained context matches where its bytes say. -/
theorem C105_chain {d : Data} {p : Nat} (hd : Fits d) {t : ChainedContext} (h : Reads ChainedContext.read d p t)
    (before : List Nat) (g : Nat) (after : List Nat) :
    Matches (matchChain t before g after) (ChainMatchedBy d p before g after) (MissingChain d p g) := by
  have h := (reads_parses (S := IsChainedContext) hd).mp h
  apply matches_of
  cases t with
  | format1 t =>
    obtain ⟨h0, h1, h2, h3, h4, h5, h6⟩ := h
    rw [h0] at h1
    obtain ⟨_, k2, k3⟩ := entries_iff (g := g) h2 h5 h3 h4 h6 (parses_unique (r := ChainedRecords.read) hd)
    simp only [matchChain]
    have f := found_iff (records := ChainedRecords.records) (actions := fun rule => (rule.glyph_ids.length + 1, rule.actions))
      (test := fun rule => begins (· == ·) rule.backward_glyph_ids before && (begins (· == ·) rule.glyph_ids after &&
          begins (· == ·) rule.forward_glyph_ids (after.drop rule.glyph_ids.length)))
      (fits := fun rule => Begins Eq rule.backward_glyph_ids before ∧ Begins Eq rule.glyph_ids after ∧
        Begins Eq rule.forward_glyph_ids (after.drop rule.glyph_ids.length))
      k2 k3 (fun s => entry_exists h3 h4 h6) (fun s set hset => firstRule_iff hset.1 hset.2.1 hset.2.2
        (parses_unique (r := ChainedRecord.read) hd) fun rule => by simp only [Bool.and_eq_true, begins_eq])
    refine ⟨fun a => (f.1 a).trans ⟨?_, ?_⟩, f.2.trans ⟨fun h => .inl ⟨h1, h⟩, ?_⟩⟩
    · rintro ⟨s, rule, q1, q2, q3⟩; exact .inl ⟨h1, s, rule, q1, q2, q3⟩
    · rintro (⟨_, s, rule, q1, q2, q3⟩ | ⟨h, _⟩ | ⟨h, _⟩)
      · exact ⟨s, rule, q1, q2, q3⟩
      · have := h.unique h1; omega
      · have := h.unique h1; omega
    · rintro (⟨_, h⟩ | ⟨h, _⟩)
      · exact h
      · have := h.unique h1; omega
  | format2 t =>
    obtain ⟨h0, h1, h2, c1, c2, c3, h4, h5, h6, b1, b2, b3, h8⟩ := h
    rw [h0] at h1
    obtain ⟨k2, k3, k4⟩ := classEntry_iff (g := g) h2 h6 c2 b2 h4 h5 h8 (parses_unique (r := ChainedClassRecords.read) hd)
    simp only [matchChain]
    have f := found_iff (records := ChainedClassRecords.records) (actions := fun rule => (rule.indices.length + 1, rule.actions))
      (test := fun rule => begins (fun g k => classOf t.backward_class g == k) rule.backward_indices before &&
        (begins (fun g k => classOf t.class_ g == k) rule.indices after &&
          begins (fun g k => classOf t.forward_class g == k) rule.forward_indices (after.drop rule.indices.length)))
      (fits := fun rule => Begins (ClassedAs d (p + t.backward_class_offset)) rule.backward_indices before ∧
        Begins (ClassedAs d (p + t.class_offset)) rule.indices after ∧
        Begins (ClassedAs d (p + t.forward_class_offset)) rule.forward_indices (after.drop rule.indices.length))
      k2 k3 k4 (fun s set hset => firstRule_iff hset.1 hset.2.1 hset.2.2
        (parses_unique (r := ChainedClassRecord.read) hd) fun rule => by
          simp only [Bool.and_eq_true, begins_class b1, begins_class b2, begins_class b3])
    refine ⟨fun a => (f.1 a).trans ⟨?_, ?_⟩, f.2.trans ⟨fun h => .inr ⟨h1, h⟩, ?_⟩⟩
    · rintro ⟨s, rule, q1, q2, q3⟩; exact .inr (.inl ⟨h1, _, _, _, s, rule, c1, c2, c3, q1, q2, q3⟩)
    · rintro (⟨h, _⟩ | ⟨_, _, _, _, s, rule, u1, u2, u3, q1, q2, q3⟩ | ⟨h, _⟩)
      · have := h.unique h1; omega
      · rw [u1.unique c1, u2.unique c2, u3.unique c3] at q2
        exact ⟨s, rule, q1, q2, q3⟩
      · have := h.unique h1; omega
    · rintro (⟨h, _⟩ | ⟨_, h⟩)
      · have := h.unique h1; omega
      · exact h
  | format3 t =>
    obtain ⟨h0, h1, n1, o1, n2, o2, n3, o3, h3, h5, r1, r2, r3⟩ := h
    rw [h0] at h1
    have e1 := coveredBy_iff o1 r1 before
    have e2 := coveredBy_iff o2 r2 (g :: after)
    have e3 := coveredBy_iff o3 r3 ((g :: after).drop t.coverages.length)
    have hl : t.coverages.length = t.glyph_count := by rw [r2.1, o2.1]
    refine ⟨fun a => ?_, ⟨fun ⟨_, e⟩ => (by cases e), ?_⟩⟩
    · constructor
      · intro e
        injection e with e
        split at e
        · rename_i hc
          injection e with e
          simp only [Bool.and_eq_true] at hc
          obtain ⟨q1, q2, q3⟩ := hc
          rw [e3, hl] at q3
          subst e
          exact .inr (.inr ⟨h1, _, _, _, _, n1, n2, n3, h3, e1.mp q1, e2.mp q2, q3, hl, h5⟩)
        · cases e
      · rintro (⟨h, _⟩ | ⟨h, _⟩ | ⟨_, m1, m2, m3, m, u1, u2, u3, u4, q1, q2, q3, q5, q4⟩)
        · have := h.unique h1; omega
        · have := h.unique h1; omega
        · obtain rfl := u1.unique n1
          obtain rfl := u2.unique n2
          obtain rfl := u3.unique n3
          obtain rfl := u4.unique h3
          simp only [matchChain]
          rw [if_pos (by rw [e1.mpr q1, e2.mpr q2, e3.mpr (by rw [hl]; exact q3)]; rfl), actions_unique hd h5 q4, hl, ← q5]
    · rintro (⟨h, _⟩ | ⟨h, _⟩) <;> (have := h.unique h1; omega)

/-- A reverse chained substitution replaces a glyph where its bytes say. -/
theorem C105_reverse {d : Data} {p : Nat} (hd : Fits d) {t : gsub.ReverseChainedContextualSubstibution}
    (h : Reads gsub.ReverseChainedContextualSubstibution.read d p t) (before : List Nat) (g : Nat) (after : List Nat) :
    (∀ x, matchReverse t before g after = .ok (some x) ↔ ReversedBy d p before g after x) ∧
    (matchReverse t before g after = .ok none ↔ ¬MissingSubstitute d p before g after ∧ ∀ x, ¬ReversedBy d p before g after x) ∧
    ((∃ e, matchReverse t before g after = .error e) ↔ MissingSubstitute d p before g after) := by
  obtain ⟨h1, h2, n1, o1, n2, o2, h3, ⟨h4, h5⟩, h6, r1, r2⟩ := (reads_parses (S := gsub.IsReverse) hd).mp h
  obtain ⟨k1, k2, k3⟩ := entryOf_iff (entries := t.glyph_ids) (coveredIn_iff h2 h6 g)
  have e1 := coveredBy_iff o1 r1 before
  have e2 := coveredBy_iff o2 r2 after
  have key : ∀ i n a, ReverseAt d p before g after i n a ↔
      (begins covers t.backward_coverages before && begins covers t.forward_coverages after) = true ∧ CoveredIn d p g i ∧
        n = t.glyph_count ∧ a = p + 6 + 2 * t.backward_glyph_count + 2 + 2 * t.forward_glyph_count + 2 := by
    intro i n a
    rw [Bool.and_eq_true, e1, e2]
    constructor
    · rintro ⟨q1, m1, m2, u1, u2, u3, q2, q3, q4⟩
      obtain rfl := u1.unique n1
      obtain rfl := u2.unique n2
      exact ⟨⟨q2, q3⟩, q1, u3.unique h3, q4⟩
    · rintro ⟨⟨q2, q3⟩, q1, rfl, q4⟩
      exact ⟨q1, _, _, n1, n2, h3, q2, q3, q4⟩
  have : (∀ x, matchReverse t before g after = .ok (some x) ↔ ReversedBy d p before g after x) ∧
      ((∃ e, matchReverse t before g after = .error e) ↔ MissingSubstitute d p before g after) := by
    unfold matchReverse ReversedBy MissingSubstitute
    simp only [key]
    split
    · rename_i hc
      constructor
      · intro x
        rw [k2 x]
        constructor
        · rintro ⟨i, hi, hx⟩
          have := (List.getElem?_eq_some_iff.mp hx).1
          exact ⟨i, _, _, ⟨hc, hi, rfl, rfl⟩, by omega, h5 i _ hx⟩
        · rintro ⟨i, n, a, ⟨_, hi, rfl, rfl⟩, hl, hx⟩
          have e := List.getElem?_eq_getElem (l := t.glyph_ids) (i := i) (by omega)
          exact ⟨i, hi, by rw [e, (h5 i _ e).unique hx]⟩
      · rw [k3]
        constructor
        · rintro ⟨i, hi, hl⟩; exact ⟨i, _, _, ⟨hc, hi, rfl, rfl⟩, by omega⟩
        · rintro ⟨i, n, a, ⟨_, hi, rfl, rfl⟩, hl⟩; exact ⟨i, hi, by omega⟩
    · rename_i hc
      constructor
      · intro x
        refine ⟨fun e => (by cases e), ?_⟩
        rintro ⟨_, _, _, ⟨h, _⟩, _⟩; exact (hc h).elim
      · refine ⟨fun ⟨_, e⟩ => (by cases e), ?_⟩
        rintro ⟨_, _, _, ⟨h, _⟩, _⟩; exact (hc h).elim
  exact ⟨this.1, none_iff this.1 this.2, this.2⟩

/-! ## Examples -/

/-- A context of format 1 with two rules for glyph 3: followed by 4 and 5, or by 4 alone. -/
def rulesTable : Data := bytes <|
  [0, 1,  0, 8,  0, 1,  0, 16] ++ [0, 1, 0, 2, 0, 3, 0, 9] ++ [0, 2, 0, 6, 0, 18] ++
  [0, 3, 0, 1,  0, 4, 0, 5,  0, 1, 0, 7] ++ [0, 2, 0, 1,  0, 4,  0, 0, 0, 8]

def rulesValue : Context :=
  .format1 ⟨1, 8, 1, [16], .format1 ⟨1, 2, [3, 9]⟩, [⟨2, [6, 18], [⟨3, 1, [4, 5], [⟨1, 7⟩]⟩, ⟨2, 1, [4], [⟨0, 8⟩]⟩]⟩]⟩

example : Reads Context.read rulesTable 0 rulesValue ∧
    matchContext rulesValue 3 [4, 5, 6] = .ok (some (3, [⟨1, 7⟩])) ∧ matchContext rulesValue 3 [4, 6] = .ok (some (2, [⟨0, 8⟩])) ∧
    matchContext rulesValue 3 [6] = .ok none ∧ matchContext rulesValue 4 [4] = .ok none ∧
    ∃ e, matchContext rulesValue 9 [4] = .error e :=
  ⟨by decide +kernel, by decide +kernel, by decide +kernel, by decide +kernel, by decide +kernel, _, rfl⟩

/-- The first of these facts, in terms of the bytes. -/
example : MatchedBy rulesTable 0 3 [4, 5, 6] (3, [⟨1, 7⟩]) := by
  have fits : Fits rulesTable := by decide +kernel
  have rule : IsRecord rulesTable (16 + 6) ⟨3, 1, [4, 5], [⟨1, 7⟩]⟩ :=
    (reads_parses (r := context.Record.read) fits).mp (by decide +kernel)
  refine .inl ⟨by decide +kernel, 16, _, ⟨0, 1, 16, ⟨8, by decide +kernel, .inl ⟨by decide +kernel, 2, by decide +kernel, by omega,
    by decide +kernel, fun j hj => by omega⟩⟩, by decide +kernel, by omega, by decide +kernel, rfl⟩,
    ⟨0, ⟨2, 6, by decide +kernel, by omega, by decide +kernel, rule⟩, ?_, fun j hj => by omega⟩, rfl⟩
  intro k x hx
  match k with
  | 0 => cases hx; exact ⟨_, rfl, rfl⟩
  | 1 => cases hx; exact ⟨_, rfl, rfl⟩
  | _ + 2 => cases hx

/-- A context of format 2: glyphs 3 and 4 are of class 1, for which there is one rule, with a glyph of class 0 to follow. -/
def classRulesTable : Data := bytes <|
  [0, 2,  0, 12,  0, 20,  0, 2,  0, 0,  0, 30] ++ [0, 1, 0, 2, 0, 3, 0, 4] ++ [0, 1, 0, 3, 0, 2, 0, 1, 0, 1] ++
  [0, 1, 0, 4] ++ [0, 2, 0, 1,  0, 0,  0, 0, 0, 8]

def classRulesValue : Context :=
  .format2 ⟨2, 12, 20, 2, [0, 30], .format1 ⟨1, 2, [3, 4]⟩, .format1 ⟨1, 3, 2, [1, 1]⟩,
    [none, some ⟨1, [4], [⟨2, 1, [0], [⟨0, 8⟩]⟩]⟩]⟩

example : Reads Context.read classRulesTable 0 classRulesValue ∧ matchContext classRulesValue 4 [9] = .ok (some (2, [⟨0, 8⟩])) ∧
    matchContext classRulesValue 4 [3] = .ok none ∧ matchContext classRulesValue 9 [9] = .ok none := by decide +kernel

/-- A chained context of format 3: glyph 3, between glyphs 1 and 5. -/
def chainTable : Data := bytes <|
  [0, 3,  0, 1, 0, 20,  0, 1, 0, 26,  0, 1, 0, 32,  0, 1,  0, 0, 0, 8] ++ [0, 1, 0, 1, 0, 1] ++ [0, 1, 0, 1, 0, 3] ++
  [0, 1, 0, 1, 0, 5]

def chainValue : ChainedContext :=
  .format3 ⟨3, 1, [20], 1, [26], 1, [32], 1, [⟨0, 8⟩], [.format1 ⟨1, 1, [1]⟩], [.format1 ⟨1, 1, [3]⟩], [.format1 ⟨1, 1, [5]⟩]⟩

example : Reads ChainedContext.read chainTable 0 chainValue ∧ matchChain chainValue [1, 2] 3 [5] = .ok (some (1, [⟨0, 8⟩])) ∧
    matchChain chainValue [2, 1] 3 [5] = .ok none ∧ matchChain chainValue [1] 3 [] = .ok none := by decide +kernel

/-- The first of these facts, in terms of the bytes. -/
example : ChainMatchedBy chainTable 0 [1, 2] 3 [5] (1, [⟨0, 8⟩]) := by
  have covered : ∀ a c g, U16 chainTable a c → U16 chainTable c 1 → U16 chainTable (c + 2) 1 → U16 chainTable (c + 4) g →
      ∀ rest, CoveredBy chainTable 0 a 1 (g :: rest) := by
    intro a c g h1 h2 h3 h4 rest k hk
    obtain rfl : k = 0 := by omega
    refine ⟨g, c, 0, rfl, h1, ?_⟩
    rw [Nat.zero_add]
    exact .inl ⟨h2, 1, h3, by omega, h4, fun j hj => by omega⟩
  refine .inr (.inr ⟨by decide +kernel, 1, 1, 1, 1, by decide +kernel, by decide +kernel, by decide +kernel, by decide +kernel,
    covered _ 20 _ (by decide +kernel) (by decide +kernel) (by decide +kernel) (by decide +kernel) _,
    covered _ 26 _ (by decide +kernel) (by decide +kernel) (by decide +kernel) (by decide +kernel) _,
    covered _ 32 5 (by decide +kernel) (by decide +kernel) (by decide +kernel) (by decide +kernel) [], rfl, rfl, ?_⟩)
  intro i x h
  match i with
  | 0 => cases h; exact ⟨by decide +kernel, by decide +kernel⟩
  | _ + 1 => cases h

/-- A reverse chained substitution: glyph 3 before glyph 5 becomes glyph 6; glyph 4 has no substitute. -/
def reverseTable : Data := bytes <|
  [0, 1,  0, 14,  0, 0,  0, 1, 0, 22,  0, 1, 0, 6] ++ [0, 1, 0, 2, 0, 3, 0, 4] ++ [0, 1, 0, 1, 0, 5]

def reverseValue : gsub.ReverseChainedContextualSubstibution :=
  ⟨1, 14, 0, [], 1, [22], 1, [6], .format1 ⟨1, 2, [3, 4]⟩, [], [.format1 ⟨1, 1, [5]⟩]⟩

example : Reads gsub.ReverseChainedContextualSubstibution.read reverseTable 0 reverseValue ∧
    matchReverse reverseValue [] 3 [5] = .ok (some 6) ∧ matchReverse reverseValue [] 3 [6] = .ok none ∧
    matchReverse reverseValue [] 4 [6] = .ok none ∧ ∃ e, matchReverse reverseValue [] 4 [5] = .error e :=
  ⟨by decide +kernel, by decide +kernel, by decide +kernel, by decide +kernel, _, rfl⟩

end OpenType.Props
