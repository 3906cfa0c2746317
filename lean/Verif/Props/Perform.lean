import Verif.Spec.Perform
import Verif.Props.Follow
import Verif.Props.Attach
/-! # C108: what lookups do to glyphs -/

namespace OpenType.Props
open OpenType Spec lookup directory

theorem subtableAt_unique {cfg : Cfg} {d : Data} {p i j type1 type2 a1 a2 : Nat} (h1 : SubtableAt cfg d p i j type1 a1)
    (h2 : SubtableAt cfg d p i j type2 a2) : type1 = type2 ∧ a1 = a2 := by
  obtain ⟨l1, _, o1, k1, k2, _, _, k3, rfl⟩ := h1
  obtain ⟨l2, _, o2, m1, m2, _, _, m3, rfl⟩ := h2
  obtain rfl := k1.unique m1
  exact ⟨k2.unique m2, by rw [k3.unique m3]⟩

theorem standsFor_unique {number : Nat} {d : Data} {type_ a type1 a1 type2 a2 : Nat} (h1 : StandsFor number d type_ a type1 a1)
    (h2 : StandsFor number d type_ a type2 a2) : type1 = type2 ∧ a1 = a2 := by
  rcases h1 with ⟨_, rfl, rfl⟩ | ⟨h, o1, k1, k2, rfl⟩ <;> rcases h2 with ⟨h', rfl, rfl⟩ | ⟨h', o2, m1, m2, rfl⟩
  · exact ⟨rfl, rfl⟩
  · contradiction
  · contradiction
  · exact ⟨k1.unique m1, by rw [k2.unique m2]⟩

/-- What performing a lookup should give: what the first subtable does that does not keep silent, an error if it fails, and
nothing if each keeps silent; wherever the tape was before. -/
def Performs {T β : Type} (cfg : Cfg) (number : Nat) (extension : T → Option (Nat × Nat)) (readTable : Nat → Reader T)
    (E : Effect T β) (act : T → Except Err (Option β)) (d : Data) (p : Nat) (t : Directory T) : Prop :=
  ∀ i q,
    (∀ y, Reads (perform extension readTable act p t i) d q (some y) ↔
      ∃ j, AtSubtable cfg number d p i j (E.Works d y) ∧ ∀ k < j, AtSubtable cfg number d p i k (E.Silent d)) ∧
    (Reads (perform extension readTable act p t i) d q none ↔
      ∀ j type_ a, SubtableAt cfg d p i j type_ a → AtSubtable cfg number d p i j (E.Silent d)) ∧
    ((∃ e, perform extension readTable act p t i d q = .error e) ↔
      ∃ j, AtSubtable cfg number d p i j (E.Fails d) ∧ ∀ k < j, AtSubtable cfg number d p i k (E.Silent d))

/-- The lookup has as many subtables as the value that is read. -/
theorem subtables_iff {T : Type} {cfg : Cfg} {readTable : Nat → Reader T} {isTable : Nat → Data → Nat → T → Prop}
    [∀ t, Parses (readTable t) (isTable t)] {d : Data} {p : Nat} (hd : Fits d) {t : Directory T}
    (h : Reads (Directory.read cfg readTable) d p t) (i j : Nat) :
    (∃ type_ a, SubtableAt cfg d p i j type_ a) ↔ j < (t.lookups.records[i]?.map (·.tables.length)).getD 0 := by
  have h := (reads_parses (S := IsDirectory cfg isTable) hd).mp h
  obtain ⟨_, _, _, _, _, _, ho, _, _, _, hp, _⟩ := h
  rcases IsPart.listAt (k := 2) ho hp with ⟨b, hb, h1, ⟨h2, h3⟩, h4, h5⟩ | ⟨he, hn⟩
  · by_cases hi : i < t.lookups.offsets.length
    · have e1 := List.getElem?_eq_getElem hi
      have e2 := List.getElem?_eq_getElem (l := t.lookups.records) (i := i) (by omega)
      obtain ⟨g1, _, _, g4, ⟨g5, g6⟩, _, g7, g8⟩ := h5 i _ _ e1 e2
      have hl : LookupAt cfg d p i (b + t.lookups.offsets[i]) := ⟨b, _, _, hb, h1, by omega, h3 i _ e1, rfl⟩
      rw [e2]
      simp only [Option.map_some, Option.getD_some]
      constructor
      · rintro ⟨type_, a, l, n, offset, k1, k2, k3, k4, k5, rfl⟩
        obtain rfl := k1.unique hl
        rw [k3.unique g4] at k4
        omega
      · intro hj
        exact ⟨_, _, _, _, _, hl, g1, g4, by omega, g6 j _ (List.getElem?_eq_getElem (by omega)), rfl⟩
    · rw [List.getElem?_eq_none (by omega)]
      refine ⟨?_, fun h => by simp at h⟩
      rintro ⟨type_, a, l, n, offset, ⟨b', n', o', k1, k2, k3, _⟩, _⟩
      obtain rfl := k1.unique hb
      rw [k2.unique h1] at k3
      omega
  · rw [he]
    refine ⟨?_, fun h => by simp at h⟩
    rintro ⟨type_, a, l, n, offset, ⟨b', n', o', k1, _⟩, _⟩
    exact (hn _ k1).elim

/-- The program goes through the subtables from number `s` on as it should. -/
theorem firstActing_spec {T β : Type} {extension : T → Option (Nat × Nat)} {readTable : Nat → Reader T}
    {act : T → Except Err (Option β)} {d : Data} {p : Nat} {t : Directory T} {i : Nat} {works : Nat → β → Prop}
    {silent fails : Nat → Prop} (n : Nat)
    (h : ∀ j < n, ∀ q,
      ((∃ y q', silent j = False ∧ fails j = False ∧ (∀ z, works j z ↔ z = y) ∧ ∃ x,
          subtable extension readTable p t i j d q = .ok (some x, q') ∧ act x = .ok (some y)) ∨
        (∃ q', silent j = True ∧ fails j = False ∧ (∀ z, ¬works j z) ∧ ∃ x,
          subtable extension readTable p t i j d q = .ok (some x, q') ∧ act x = .ok none) ∨
        (silent j = False ∧ fails j = True ∧
          ((∃ e, subtable extension readTable p t i j d q = .error e) ∨ ∃ x q' e,
            subtable extension readTable p t i j d q = .ok (some x, q') ∧ act x = .error e) ∧ ∀ z, ¬works j z))) :
    ∀ m s q, s + m = n →
      (∀ y, Reads (firstActing extension readTable act p t i (List.range' s m)) d q (some y) ↔
        ∃ j, s ≤ j ∧ j < n ∧ works j y ∧ ∀ k, s ≤ k → k < j → silent k) ∧
      (Reads (firstActing extension readTable act p t i (List.range' s m)) d q none ↔ ∀ j, s ≤ j → j < n → silent j) ∧
      ((∃ e, firstActing extension readTable act p t i (List.range' s m) d q = .error e) ↔
        ∃ j, s ≤ j ∧ j < n ∧ fails j ∧ ∀ k, s ≤ k → k < j → silent k) := by
  intro m
  induction m with
  | zero =>
    intro s q hs
    refine ⟨fun y => ⟨?_, ?_⟩, ⟨fun _ j _ _ => by omega, fun _ => ⟨q, rfl⟩⟩, ?_, ?_⟩
    · rintro ⟨q', e⟩; cases e
    · rintro ⟨j, _, _, _⟩; omega
    · rintro ⟨e, he⟩; cases he
    · rintro ⟨j, _, _, _⟩; omega
  | succ m ih =>
    intro s q hs
    rw [List.range'_succ]
    have hrun := run_bind_eq (r := subtable extension readTable p t i s) (d := d) (p := q)
      (f := fun r => match r with
        | none => (return none : Reader (Option β))
        | some x =>
          match act x with
          | .error e => .fail e
          | .ok (some y) => return some y
          | .ok none => firstActing extension readTable act p t i (List.range' (s + 1) m))
    have hrun' : firstActing extension readTable act p t i (s :: List.range' (s + 1) m) d q = _ := hrun
    unfold Reads
    simp only [hrun']
    rcases h s (by omega) q with ⟨y, q', h1, h2, h3, x, h4, h5⟩ | ⟨q', h1, h2, h3, x, h4, h5⟩ | ⟨h1, h2, h3, h4⟩
    · simp only [h4, h5]
      refine ⟨fun z => ⟨?_, ?_⟩, ⟨?_, ?_⟩, ?_, ?_⟩
      · rintro ⟨q', e⟩
        injection e with e
        injection e with e
        injection e with e
        exact ⟨s, by omega, by omega, (h3 z).mpr e.symm, fun k _ _ => by omega⟩
      · rintro ⟨j, g1, g2, g3, g4⟩
        by_cases hj : j = s
        · subst hj
          obtain rfl := (h3 z).mp g3
          exact ⟨_, rfl⟩
        · have := g4 s (by omega) (by omega)
          rw [h1] at this
          exact this.elim
      · rintro ⟨q', e⟩
        injection e with e
        injection e with e
        cases e
      · intro g
        have := g s (by omega) (by omega)
        rw [h1] at this
        exact this.elim
      · rintro ⟨e, he⟩; cases he
      · rintro ⟨j, g1, g2, g3, g4⟩
        by_cases hj : j = s
        · subst hj; rw [h2] at g3; exact g3.elim
        · have := g4 s (by omega) (by omega)
          rw [h1] at this
          exact this.elim
    · simp only [h4, h5]
      obtain ⟨ih1, ih2, ih3⟩ := ih (s + 1) q' (by omega)
      refine ⟨fun z => Iff.trans (ih1 z) ⟨?_, ?_⟩, Iff.trans ih2 ⟨?_, ?_⟩, Iff.trans ih3 ⟨?_, ?_⟩⟩
      · rintro ⟨j, g1, g2, g3, g4⟩
        refine ⟨j, by omega, g2, g3, fun k k1 k2 => ?_⟩
        by_cases hk : k = s
        · subst hk; rw [h1]; trivial
        · exact g4 k (by omega) k2
      · rintro ⟨j, g1, g2, g3, g4⟩
        by_cases hj : j = s
        · subst hj; exact (h3 z g3).elim
        · exact ⟨j, by omega, g2, g3, fun k k1 k2 => g4 k (by omega) k2⟩
      · intro g j g1 g2
        by_cases hj : j = s
        · subst hj; rw [h1]; trivial
        · exact g j (by omega) g2
      · intro g j g1 g2
        exact g j (by omega) g2
      · rintro ⟨j, g1, g2, g3, g4⟩
        refine ⟨j, by omega, g2, g3, fun k k1 k2 => ?_⟩
        by_cases hk : k = s
        · subst hk; rw [h1]; trivial
        · exact g4 k (by omega) k2
      · rintro ⟨j, g1, g2, g3, g4⟩
        by_cases hj : j = s
        · subst hj; rw [h2] at g3; exact g3.elim
        · exact ⟨j, by omega, g2, g3, fun k k1 k2 => g4 k (by omega) k2⟩
    · have he : ∃ e, firstActing extension readTable act p t i (s :: List.range' (s + 1) m) d q = .error e := by
        rw [hrun']
        rcases h3 with ⟨e, he⟩ | ⟨x, q', e, h5, h6⟩
        · exact ⟨e, by rw [he]⟩
        · exact ⟨e, by rw [h5]; dsimp only; rw [h6]; rfl⟩
      rw [hrun'] at he
      obtain ⟨e, he⟩ := he
      rw [he]
      have hn : ∀ j, s < j → ¬∀ k, s ≤ k → k < j → silent k := by
        intro j hj g
        have := g s (by omega) hj
        rw [h1] at this
        exact this
      refine ⟨fun z => ⟨?_, ?_⟩, ⟨?_, ?_⟩, ?_, ?_⟩
      · rintro ⟨q', e⟩; cases e
      · rintro ⟨j, g1, g2, g3, g4⟩
        by_cases hj : j = s
        · subst hj; exact (h4 z g3).elim
        · exact (hn j (by omega) g4).elim
      · rintro ⟨q', e⟩; cases e
      · intro g
        have := g s (by omega) (by omega)
        rw [h1] at this
        exact this.elim
      · intro _
        exact ⟨s, by omega, by omega, by rw [h2]; trivial, fun k _ _ => by omega⟩
      · intro _
        exact ⟨e, rfl⟩

theorem performs {T β : Type} {cfg : Cfg} {number : Nat} {extension : T → Option (Nat × Nat)}
    {readTable : Nat → Reader T} {E : Effect T β} {act : T → Except Err (Option β)}
    [∀ t, Parses (readTable t) (E.wellFormed t)] {d : Data} {p : Nat} (hd : Fits d) {t : Directory T}
    (h : Reads (Directory.read cfg readTable) d p t)
    (hf : FindsSubtables cfg number extension readTable d p t)
    (ha : ∀ type_ a x, E.wellFormed type_ d a x → (∀ y, act x = .ok (some y) ↔ E.does d type_ a y) ∧
      ((∃ e, act x = .error e) ↔ E.missing d type_ a)) :
    Performs cfg number extension readTable E act d p t := by
  intro i q
  have hs := subtables_iff (isTable := E.wellFormed) hd h i
  unfold perform
  generalize (t.lookups.records[i]?.map (·.tables.length)).getD 0 = n at *
  have uni : ∀ j (P Q : Nat → Nat → Prop), AtSubtable cfg number d p i j P → AtSubtable cfg number d p i j Q →
      ∃ type_ a, P type_ a ∧ Q type_ a := by
    rintro j P Q ⟨t1, a1, t1', a1', u1, u2, u3⟩ ⟨t2, a2, t2', a2', w1, w2, w3⟩
    obtain ⟨rfl, rfl⟩ := subtableAt_unique u1 w1
    obtain ⟨rfl, rfl⟩ := standsFor_unique u2 w2
    exact ⟨_, _, u3, w3⟩
  have key := firstActing_spec (extension := extension) (readTable := readTable) (act := act) (d := d) (p := p) (t := t)
    (i := i) (works := fun j y => AtSubtable cfg number d p i j (E.Works d y))
    (silent := fun j => AtSubtable cfg number d p i j (E.Silent d))
    (fails := fun j => AtSubtable cfg number d p i j (E.Fails d)) n (by
      intro j hj q
      obtain ⟨type_, a, hat⟩ := (hs j).mpr hj
      obtain ⟨type', a', hst, k1, k2⟩ := (hf i j q).2 _ _ hat
      have at_iff : ∀ P : Nat → Nat → Prop, AtSubtable cfg number d p i j P ↔ P type' a' := by
        intro P
        constructor
        · intro hP
          obtain ⟨_, _, u1, rfl, rfl⟩ := uni j P (fun x y => x = type' ∧ y = a') hP ⟨_, _, _, _, hat, hst, rfl, rfl⟩
          exact u1
        · intro hP; exact ⟨_, _, _, _, hat, hst, hP⟩
      simp only [at_iff]
      cases hr : readTable type' d a' with
      | error e =>
        have hno : ¬∃ x, E.wellFormed type' d a' x := by
          rintro ⟨x, hx⟩
          obtain ⟨q', e'⟩ := (reads_parses (r := readTable type') hd).mpr hx
          rw [hr] at e'; cases e'
        refine .inr (.inr ⟨eq_false ?_, eq_true (.inl hno), .inl ⟨e, (k2 e).mpr hr⟩, fun z hz => hno hz.1⟩)
        exact fun hz => hno hz.1
      | ok r =>
        obtain ⟨x, q1⟩ := r
        have hx := (reads_parses (r := readTable type') (S := E.wellFormed type') hd).mp ⟨q1, hr⟩
        obtain ⟨q', hq⟩ := (k1 x).mpr ⟨q1, hr⟩
        obtain ⟨a1, a2⟩ := ha _ _ _ hx
        cases hact : act x with
        | error e =>
          have hm := a2.mp ⟨e, hact⟩
          refine .inr (.inr ⟨eq_false fun hz => hz.2.1 hm, eq_true (.inr hm), .inr ⟨x, q', e, hq, hact⟩, fun z hz => ?_⟩)
          have := (a1 z).mpr hz.2
          rw [hact] at this; cases this
        | ok r =>
          have hm : ¬E.missing d type' a' := fun hm => by obtain ⟨e, he⟩ := a2.mpr hm; rw [hact] at he; cases he
          cases r with
          | none =>
            have hno : ∀ y, ¬E.does d type' a' y := fun y hy => by
              have := (a1 y).mpr hy
              rw [hact] at this; cases this
            refine .inr (.inl ⟨q', eq_true ⟨⟨x, hx⟩, hm, hno⟩, eq_false ?_, fun z hz => hno z hz.2, x, hq, hact⟩)
            rintro (h | h)
            · exact h ⟨x, hx⟩
            · exact hm h
          | some y =>
            have hy := (a1 y).mp hact
            refine .inl ⟨y, q', eq_false fun hz => hz.2.2 y hy, eq_false ?_, fun z => ⟨fun hz => ?_, ?_⟩, x, hq, hact⟩
            · rintro (h | h)
              · exact h ⟨x, hx⟩
              · exact hm h
            · have := (a1 z).mpr hz.2
              rw [hact] at this
              injection this with this
              injection this with this
              exact this.symm
            · rintro rfl; exact ⟨⟨x, hx⟩, hy⟩) n 0 q (by omega)
  rw [← List.range_eq_range'] at key
  obtain ⟨g1, g2, g3⟩ := key
  have lt : ∀ j (P : Nat → Nat → Prop), AtSubtable cfg number d p i j P → j < n := by
    rintro j P ⟨type_, a, _, _, h, _⟩
    exact (hs j).mp ⟨_, _, h⟩
  refine ⟨fun y => Iff.trans (g1 y) ⟨?_, ?_⟩, Iff.trans g2 ⟨?_, ?_⟩, Iff.trans g3 ⟨?_, ?_⟩⟩
  · rintro ⟨j, _, _, u1, u2⟩; exact ⟨j, u1, fun k hk => u2 k (by omega) hk⟩
  · rintro ⟨j, u1, u2⟩; exact ⟨j, by omega, lt j _ u1, u1, fun k _ hk => u2 k hk⟩
  · intro u j type_ a hat; exact u j (by omega) ((hs j).mp ⟨_, _, hat⟩)
  · intro u j _ hj
    obtain ⟨type_, a, hat⟩ := (hs j).mpr hj
    exact u j _ _ hat
  · rintro ⟨j, _, _, u1, u2⟩; exact ⟨j, u1, fun k hk => u2 k (by omega) hk⟩
  · rintro ⟨j, u1, u2⟩; exact ⟨j, by omega, lt j _ u1, u1, fun k _ hk => u2 k hk⟩

/-- Changing what was found changes what is there to be found. -/
theorem map_iff {α β : Type} {result : Except Err (Option α)} {f : α → β} {P : α → Prop} {Q : Prop}
    (h1 : ∀ x, result = .ok (some x) ↔ P x) (h2 : (∃ e, result = .error e) ↔ Q) :
    (∀ y, (do return (← result).map f : Except Err (Option β)) = .ok (some y) ↔ ∃ x, P x ∧ f x = y) ∧
    ((∃ e, (do return (← result).map f : Except Err (Option β)) = .error e) ↔ Q) := by
  cases result with
  | error e =>
    refine ⟨fun y => ⟨fun h => (by cases h), ?_⟩, Iff.trans ⟨fun _ => ⟨e, rfl⟩, fun _ => ⟨e, rfl⟩⟩ h2⟩
    rintro ⟨x, hx, _⟩
    have := (h1 x).mpr hx
    cases this
  | ok r =>
    refine ⟨fun y => ?_, Iff.trans ⟨fun ⟨_, h⟩ => (by cases h), fun ⟨_, h⟩ => (by cases h)⟩ h2⟩
    cases r with
    | none =>
      refine ⟨fun h => (by cases h), ?_⟩
      rintro ⟨x, hx, _⟩
      have := (h1 x).mpr hx
      cases this
    | some x =>
      constructor
      · intro h
        injection h with h
        injection h with h
        exact ⟨x, (h1 x).mp rfl, h⟩
      · rintro ⟨x', hx, rfl⟩
        have := (h1 x').mpr hx
        injection this with this
        injection this with this
        rw [this]; rfl

theorem substitute_iff {d : Data} (hd : Fits d) (g : Nat) (following : List Nat) (type_ a : Nat) (x : gsub.Type_)
    (h : gsub.IsTable type_ d a x) :
    (∀ y, substitute g following x = .ok (some y) ↔ SubstitutedBy d type_ a g following y.1 y.2) ∧
    ((∃ e, substitute g following x = .error e) ↔ LacksSubstitute d type_ a g) := by
  unfold SubstitutedBy LacksSubstitute
  cases x with
  | singleSubstitution t =>
    obtain ⟨rfl, h⟩ := h
    obtain ⟨h1, _, h3⟩ := C102_single hd ((reads_parses hd).mpr h) g
    obtain ⟨k1, k2⟩ := map_iff (f := fun x => ([x], 0)) h1 h3
    refine ⟨fun y => Iff.trans (k1 y) ⟨?_, ?_⟩, Iff.trans k2 ⟨?_, ?_⟩⟩
    · rintro ⟨x, hx, rfl⟩; exact .inl ⟨rfl, rfl, x, hx, rfl⟩
    · obtain ⟨y1, y2⟩ := y
      rintro (⟨_, rfl, x, hx, rfl⟩ | ⟨h, _⟩ | ⟨h, _⟩)
      · exact ⟨x, hx, rfl⟩
      · cases h
      · cases h
    · rintro ⟨u1, u2⟩; exact ⟨.inl ⟨rfl, u1⟩, u2⟩
    · rintro ⟨⟨_, u1⟩ | u | u, u2⟩
      · exact ⟨u1, u2⟩
      · cases u
      · cases u
  | multipleSubstitution t =>
    obtain ⟨rfl, h⟩ := h
    obtain ⟨h1, _, h3⟩ := C102_multiple hd ((reads_parses hd).mpr h) g
    obtain ⟨k1, k2⟩ := map_iff (f := fun x => (x, 0)) h1 h3
    refine ⟨fun y => Iff.trans (k1 y) ⟨?_, ?_⟩, Iff.trans k2 ⟨?_, ?_⟩⟩
    · rintro ⟨x, hx, rfl⟩; exact .inr (.inl ⟨rfl, rfl, hx⟩)
    · obtain ⟨y1, y2⟩ := y
      rintro (⟨h, _⟩ | ⟨_, rfl, hx⟩ | ⟨h, _⟩)
      · cases h
      · exact ⟨_, hx, rfl⟩
      · cases h
    · intro u; exact ⟨.inr (.inl rfl), u⟩
    · rintro ⟨_, u⟩; exact u
  | ligatureSubstitution t =>
    obtain ⟨rfl, h⟩ := h
    obtain ⟨h1, _, h3⟩ := C102_ligature hd ((reads_parses hd).mpr h) g following
    obtain ⟨k1, k2⟩ := map_iff (f := fun y => ([y.1], y.2)) (fun x : Nat × Nat => h1 x.1 x.2) h3
    refine ⟨fun y => Iff.trans (k1 y) ⟨?_, ?_⟩, Iff.trans k2 ⟨?_, ?_⟩⟩
    · rintro ⟨x, hx, rfl⟩; exact .inr (.inr ⟨rfl, x.1, hx, rfl⟩)
    · obtain ⟨y1, y2⟩ := y
      rintro (⟨h, _⟩ | ⟨h, _⟩ | ⟨_, x, hx, rfl⟩)
      · cases h
      · cases h
      · exact ⟨(x, y2), hx, rfl⟩
    · intro u; exact ⟨.inr (.inr rfl), u⟩
    · rintro ⟨_, u⟩; exact u
  | _ =>
    have := h.1
    refine ⟨fun y => ⟨fun h => (by cases h), ?_⟩, ⟨fun ⟨_, h⟩ => (by cases h), ?_⟩⟩
    · rintro (⟨h, _⟩ | ⟨h, _⟩ | ⟨h, _⟩) <;> omega
    · rintro ⟨⟨h, _⟩ | h | h, _⟩ <;> omega

theorem move_iff {cfg : Cfg} {d : Data} (hd : Fits d) (g : Nat) (next : Option Nat) (type_ a : Nat) (x : gpos.Type_)
    (h : gpos.IsTable cfg type_ d a x) :
    (∀ y, move g next x = .ok (some y) ↔ MovedBy d type_ a g next y) ∧
    ((∃ e, move g next x = .error e) ↔ MissingMove d type_ a g next) := by
  unfold MovedBy MissingMove
  cases x with
  | singleAdjustment t =>
    obtain ⟨rfl, h⟩ := h
    obtain ⟨h1, _, h3⟩ := C103_single (cfg := cfg) hd ((reads_parses hd).mpr h) g
    obtain ⟨k1, k2⟩ := map_iff (f := fun x => (some x, (none : Option gpos.Single))) h1 h3
    refine ⟨fun y => Iff.trans (k1 y) ⟨?_, ?_⟩, Iff.trans k2 ⟨?_, ?_⟩⟩
    · rintro ⟨x, hx, rfl⟩; exact .inl ⟨rfl, x, hx, rfl⟩
    · rintro (⟨_, x, hx, rfl⟩ | ⟨h, _⟩)
      · exact ⟨x, hx, rfl⟩
      · cases h
    · intro u; exact .inl ⟨rfl, u⟩
    · rintro (⟨_, u⟩ | ⟨h, _⟩)
      · exact u
      · cases h
  | pairAdjustment t =>
    obtain ⟨rfl, h⟩ := h
    cases next with
    | none =>
      refine ⟨fun y => ⟨fun h => (by cases h), ?_⟩, ⟨fun ⟨_, h⟩ => (by cases h), ?_⟩⟩
      · rintro (⟨h, _⟩ | ⟨_, _, h, _⟩) <;> cases h
      · rintro (⟨h, _⟩ | ⟨_, _, h, _⟩) <;> cases h
    | some next =>
      obtain ⟨h1, _, h3⟩ := C103_pair (cfg := cfg) hd ((reads_parses hd).mpr h) g next
      refine ⟨fun y => Iff.trans (h1 y) ⟨?_, ?_⟩, Iff.trans h3 ⟨?_, ?_⟩⟩
      · intro u; exact .inr ⟨rfl, next, rfl, u⟩
      · rintro (⟨h, _⟩ | ⟨_, _, h, u⟩)
        · cases h
        · injection h with h; rw [h]; exact u
      · intro u; exact .inr ⟨rfl, next, rfl, u⟩
      · rintro (⟨h, _⟩ | ⟨_, _, h, u⟩)
        · cases h
        · injection h with h; rw [h]; exact u
  | _ =>
    have := h.1
    refine ⟨fun y => ⟨fun h => (by cases h), ?_⟩, ⟨fun ⟨_, h⟩ => (by cases h), ?_⟩⟩
    · rintro (⟨h, _⟩ | ⟨h, _⟩) <;> omega
    · rintro (⟨h, _⟩ | ⟨h, _⟩) <;> omega

/-- Whatever GSUB table is read from any tape, in every build, a lookup substitutes glyphs as its bytes tell. -/
theorem C108_substitution (cfg : Cfg) {d : Data} {p : Nat} (hd : Fits d) {t : gsub.GlyphSubstitution}
    (h : Reads (gsub.GlyphSubstitution.read cfg) d p t) (g : Nat) (following : List Nat) :
    Performs cfg 7 substitutionExtension gsub.Type_.read (substitution g following) (substitute g following) d p t :=
  have : ∀ type_, Parses (gsub.Type_.read type_) ((substitution g following).wellFormed type_) :=
    fun type_ => inferInstanceAs (Parses (gsub.Type_.read type_) (Spec.gsub.IsTable type_))
  performs hd h ((C101_follow cfg hd).1 t h) (substitute_iff hd g following)

/-- Whatever GPOS table is read from any tape, in every build, a lookup adjusts glyphs as its bytes tell. -/
theorem C108_adjustment (cfg : Cfg) {d : Data} {p : Nat} (hd : Fits d) {t : gpos.GlyphPositioning}
    (h : Reads (gpos.GlyphPositioning.read cfg) d p t) (g : Nat) (next : Option Nat) :
    Performs cfg 9 positioningExtension (gpos.Type_.read cfg) (adjustment cfg g next) (move g next) d p t :=
  have : ∀ type_, Parses (gpos.Type_.read cfg type_) ((adjustment cfg g next).wellFormed type_) :=
    fun type_ => inferInstanceAs (Parses (gpos.Type_.read cfg type_) (Spec.gpos.IsTable cfg type_))
  performs hd h ((C101_follow cfg hd).2 t h) (move_iff hd g next)

/-! ## Examples -/

/-- The lookup of `extensionTable` (C101) has a single substitution behind an extension, which replaces glyph 9 by glyph 14,
and another extension. -/
example : Reads (gsub.GlyphSubstitution.read ⟨false, false, false, false, false, false⟩) extensionTable 0 extensionValue ∧
    Reads (perform substitutionExtension gsub.Type_.read (substitute 9 []) 0 extensionValue 0) extensionTable 3
      (some ([14], 0)) ∧
    Reads (perform substitutionExtension gsub.Type_.read (substitute 8 []) 0 extensionValue 0) extensionTable 3 none ∧
    Reads (perform substitutionExtension gsub.Type_.read (substitute 9 []) 0 extensionValue 1) extensionTable 3 none := by
  decide +kernel

/-- A GSUB table without scripts and features and with one lookup, of a ligature substitution, by which glyph 3 and the two
glyphs 4 and 5 become glyph 6, and of another one, which covers glyph 7 and has nothing for it. -/
def lookupTable : Data := bytes <|
  [0, 1,  0, 0,  0, 10,  0, 10,  0, 12] ++ [0, 0] ++ [0, 1,  0, 4] ++ [0, 4,  0, 0,  0, 2,  0, 10,  0, 36] ++
  [0, 1,  0, 8,  0, 1,  0, 14] ++ [0, 1,  0, 1,  0, 3] ++ [0, 1,  0, 4] ++ [0, 6,  0, 3,  0, 4,  0, 5] ++
  [0, 1,  0, 6,  0, 0] ++ [0, 1,  0, 1,  0, 7]

/-- What is read from it. -/
def lookupValue : gsub.GlyphSubstitution :=
  ⟨1, 0, 10, 10, 12, 0, ⟨0, [], []⟩, ⟨0, [], []⟩,
    ⟨1, [4], [⟨4, 0, 2, [10, 36], none,
      [.ligatureSubstitution ⟨1, 8, 1, [14], .format1 ⟨1, 1, [3]⟩, [⟨1, [4], [⟨6, 3, [4, 5]⟩]⟩]⟩,
        .ligatureSubstitution ⟨1, 6, 0, [], .format1 ⟨1, 1, [7]⟩, []⟩]⟩]⟩, none⟩

example : Reads (gsub.GlyphSubstitution.read ⟨false, false, false, false, false, false⟩) lookupTable 0 lookupValue ∧
    Reads (perform substitutionExtension gsub.Type_.read (substitute 3 [4, 5, 9]) 0 lookupValue 0) lookupTable 0
      (some ([6], 2)) ∧
    Reads (perform substitutionExtension gsub.Type_.read (substitute 3 [4]) 0 lookupValue 0) lookupTable 0 none ∧
    ∃ e, perform substitutionExtension gsub.Type_.read (substitute 7 []) 0 lookupValue 0 lookupTable 0 = .error e :=
  ⟨by decide +kernel, by decide +kernel, by decide +kernel, _, rfl⟩

/-- A value that has nothing but an advance. -/
def advance (x : Int) : gpos.Single := ⟨none, none, some x, none, none, none, none, none, none, none, none, none⟩

/-- A GPOS table without scripts and features and with one lookup, of two single adjustments, the first of which has 5 as the
advance of glyph 3, and the second of which has 6 as that of glyphs 3 and 4. -/
def movingTable : Data := bytes <|
  [0, 1,  0, 0,  0, 10,  0, 10,  0, 12] ++ [0, 0] ++ [0, 1,  0, 4] ++ [0, 1,  0, 0,  0, 2,  0, 10,  0, 24] ++
  [0, 1,  0, 8,  0, 4,  0, 5] ++ [0, 1,  0, 1,  0, 3] ++ [0, 1,  0, 8,  0, 4,  0, 6] ++ [0, 1,  0, 2,  0, 3,  0, 4]

/-- What is read from it. -/
def movingValue : gpos.GlyphPositioning :=
  ⟨1, 0, 10, 10, 12, 0, ⟨0, [], []⟩, ⟨0, [], []⟩,
    ⟨1, [4], [⟨1, 0, 2, [10, 24], none,
      [.singleAdjustment (.format1 ⟨1, 8, 4, advance 5, .format1 ⟨1, 1, [3]⟩⟩),
        .singleAdjustment (.format1 ⟨1, 8, 4, advance 6,
          .format1 ⟨1, 2, [3, 4]⟩⟩)]⟩]⟩, none⟩

example : Reads (gpos.GlyphPositioning.read ⟨false, false, false, false, false, false⟩) movingTable 0 movingValue ∧
    Reads (perform positioningExtension (gpos.Type_.read ⟨false, false, false, false, false, false⟩) (move 3 none) 0
      movingValue 0) movingTable 0 (some (some (advance 5), none)) ∧
    Reads (perform positioningExtension (gpos.Type_.read ⟨false, false, false, false, false, false⟩) (move 4 none) 0
      movingValue 0) movingTable 0 (some (some (advance 6), none)) := by
  decide +kernel

end OpenType.Props
