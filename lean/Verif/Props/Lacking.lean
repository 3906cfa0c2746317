import Verif.Spec.Lacking
import Verif.Props.Typeset
import Verif.Props.Values
/-! # C123: tables that lack nothing set every text -/

namespace OpenType.Props
open OpenType Spec lookup directory

/-! ## Programs that always give something -/

/-- From wherever the tape is, the program gives something, of which `P` is true. -/
def Gives {α : Type} (d : Data) (P : α → Prop) (r : Reader α) : Prop := ∀ q, ∃ y, Reads r d q y ∧ P y

section
variable {d : Data} {α β : Type} {P : α → Prop} {Q : β → Prop}

theorem Gives.pure {a : α} (h : P a) : Gives d P (Pure.pure a) := fun _ => ⟨a, reads_pure.mpr rfl, h⟩

theorem Gives.bind {r : Reader α} {f : α → Reader β} (h : Gives d P r) (hf : ∀ a, P a → Gives d Q (f a)) : Gives d Q (r >>= f) := by
  intro q
  obtain ⟨a, ⟨k, e⟩, hp⟩ := h q
  obtain ⟨y, hy, hq⟩ := hf a hp k
  exact ⟨y, reads_bind_iff.mpr ⟨a, k, e, hy⟩, hq⟩

/-- A lookup that never fails always gives something. -/
theorem gives_perform {T : Type} {cfg : Cfg} {number : Nat} {extension : T → Option (Nat × Nat)} {readTable : Nat → Reader T}
    {E : Effect T β} {act : T → Except Err (Option β)} {p : Nat} {t : Directory T}
    (h : Performs cfg number extension readTable E act d p t)
    (hc : AllSubtables cfg number d p fun type_ a => ¬E.Fails d type_ a) (i : Nat) :
    Gives d (fun _ => True) (perform extension readTable act p t i) := by
  intro q
  cases e : perform extension readTable act p t i d q with
  | ok y => exact ⟨y.1, ⟨y.2, e⟩, trivial⟩
  | error x =>
    obtain ⟨j, ⟨type_, a, type', a', h1, h2, h3⟩, _⟩ := (h i q).2.2.mp ⟨x, e⟩
    exact (hc i j type_ a type' a' h1 h2 h3).elim

/-- All elements are so. -/
def Every (A : α → Prop) (xs : List α) : Prop := ∀ x ∈ xs, A x

/-- All elements of both lists, if there are any, are so. -/
def EveryPair (A : α → Prop) (y : List α × List α) : Prop := Every A y.1 ∧ Every A y.2

variable {A : α → Prop}

theorem Every.append {xs ys : List α} (h1 : Every A xs) (h2 : Every A ys) : Every A (xs ++ ys) := by
  intro x hx
  rcases List.mem_append.mp hx with h | h
  · exact h1 x h
  · exact h2 x h

theorem Every.cons {x : α} {xs : List α} (h1 : A x) (h2 : Every A xs) : Every A (x :: xs) := by
  intro y hy
  rcases List.mem_cons.mp hy with rfl | h
  · exact h1
  · exact h2 y h

theorem Every.reverse {xs : List α} (h : Every A xs) : Every A xs.reverse := fun x hx => h x (List.mem_reverse.mp hx)

theorem Every.take {xs : List α} (h : Every A xs) (n : Nat) : Every A (xs.take n) := fun x hx => h x (List.mem_of_mem_take hx)

theorem Every.drop {xs : List α} (h : Every A xs) (n : Nat) : Every A (xs.drop n) := fun x hx => h x (List.mem_of_mem_drop hx)

theorem splitAt_append (ignored : α → Bool) : ∀ (xs : List α) (k : Nat) (pre : List α) (x : α) (post : List α),
    splitAt ignored k xs = some (pre, x, post) → xs = pre ++ x :: post := by
  intro xs
  induction xs with
  | nil => intro k pre x post h; cases h
  | cons g glyphs ih =>
    intro k pre x post h
    have step : ∀ k, (splitAt ignored k glyphs).map (fun x => (g :: x.1, x.2)) = some (pre, x, post) →
        g :: glyphs = pre ++ x :: post := by
      intro k h
      cases e : splitAt ignored k glyphs with
      | none => rw [e] at h; cases h
      | some y =>
        obtain ⟨a, b, c⟩ := y
        rw [e] at h
        injection h with h
        injection h with h1 h2
        injection h2 with h2 h3
        subst h1 h2 h3
        rw [ih k a b c e]
        rfl
    unfold splitAt at h
    split at h
    · exact step _ h
    · split at h
      · cases h; rfl
      · exact step _ h

theorem windowOf_append (ignored : α → Bool) : ∀ (xs : List α) (k : Nat),
    (windowOf ignored k xs).1 ++ (windowOf ignored k xs).2 = xs := by
  intro xs
  induction xs with
  | nil => intro k; cases k <;> rfl
  | cons g glyphs ih =>
    intro k
    cases k with
    | zero => rfl
    | succ k =>
      unfold windowOf
      dsimp only
      rw [List.cons_append, ih]

theorem every_split {xs pre post : List α} {x : α} (h : Every A xs) (e : xs = pre ++ x :: post) :
    Every A pre ∧ A x ∧ Every A post := by
  subst e
  exact ⟨fun y hy => h y (by simp [hy]), h x (by simp), fun y hy => h y (by simp [hy])⟩

theorem every_window {xs : List α} (h : Every A xs) (ignored : α → Bool) (k : Nat) :
    EveryPair A (windowOf ignored k xs) := by
  have e := windowOf_append ignored xs k
  exact ⟨fun y hy => h y (by rw [← e]; simp [hy]), fun y hy => h y (by rw [← e]; simp [hy])⟩

theorem gives_actAll {nested : Nat → List α → List α → Reader (Option (List α × List α))}
    (h : ∀ i a b, Every A a → Every A b → Gives d (fun y => ∀ z ∈ y, EveryPair A z) (nested i a b)) (ignored : α → Bool)
    {before : List α} (hb : Every A before) (actions : List context.Action) :
    ∀ window rest, Every A window → Every A rest → Gives d (EveryPair A) (actAll nested ignored before actions window rest) := by
  induction actions with
  | nil => intro window rest h1 h2; exact .pure ⟨h1, h2⟩
  | cons action actions ih =>
    intro window rest h1 h2
    unfold actAll
    split
    · exact ih _ _ h1 h2
    · rename_i pre g post e
      obtain ⟨k1, k2, k3⟩ := every_split h1 (splitAt_append _ _ _ _ _ _ e)
      refine (h _ _ _ (k1.reverse.append hb) (.cons k2 (k3.append h2))).bind fun x hx => ?_
      cases x with
      | none => exact ih _ _ h1 h2
      | some y =>
        obtain ⟨m1, m2⟩ := hx y rfl
        have := (k1.append m1).append m2
        exact ih _ _ (this.take _) (this.drop _)

theorem gives_forward {touch : List α → List α → Reader (Option (List α × List α))}
    (h : ∀ a b, Every A a → Every A b → Gives d (fun y => ∀ z ∈ y, EveryPair A z) (touch a b)) (fuel : Nat) :
    ∀ before text, Every A before → Every A text → Gives d (Every A) (forward touch fuel before text) := by
  induction fuel with
  | zero => intro before text _ _; exact .pure (fun x hx => by cases hx)
  | succ fuel ih =>
    intro before text h1 h2
    cases text with
    | nil => exact .pure (fun x hx => by cases hx)
    | cons g following =>
      unfold forward
      have hg := h2 g (by simp)
      refine (h _ _ h1 h2).bind fun x hx => ?_
      rcases x with - | ⟨done, rest⟩
      · exact (ih _ _ (h1.cons hg) fun y hy => h2 y (by simp [hy])).bind fun y hy => .pure (hy.cons hg)
      · obtain ⟨m1, m2⟩ := hx (done, rest) rfl
        exact (ih _ _ (m1.reverse.append h1) m2).bind fun y hy => .pure (m1.append hy)

theorem gives_passAll {T : Type} {t : Directory T} {pass : Nat → List α → Reader (List α)}
    (h : ∀ i a, Every A a → Gives d (Every A) (pass i a)) {script language : Tag} (tags : List Tag) {glyphs : List α}
    (hw : ∃ found, lookupsFor t script language = .ok found) (hg : Every A glyphs) :
    Gives d (Every A) (passAll t pass script language tags glyphs) := by
  obtain ⟨found, e⟩ := hw
  unfold passAll
  rw [e]
  dsimp only
  generalize t.lookups.records.length = m
  induction m with
  | zero => exact .pure hg
  | succ m ih =>
    unfold below
    refine ih.bind fun x hx => ?_
    split
    · exact h _ _ hx
    · exact .pure hx

end

/-! ## Text -/

section
variable {cfg : Cfg} {d : Data} {p : Nat} (hd : Fits d)
include hd

theorem gives_shapeText {t : gsub.GlyphSubstitution} (ht : Reads (gsub.GlyphSubstitution.read cfg) d p t)
    (hc : CompleteSubstitution cfg d p) (ignored : Nat → Nat → Bool) (n : Nat) (script language : Tag) (tags : List Tag)
    (glyphs : List Nat) : Gives d (fun _ => True) (shapeText p t ignored n script language tags glyphs) := by
  have all (xs : List Nat) : Every (fun _ => True) xs := fun _ _ => trivial
  have hp (before : List Nat) (g : Nat) (following : List Nat) (i : Nat) :
      Gives d (fun _ => True) (perform substitutionExtension gsub.Type_.read (react before g following) p t i) := by
    have : ∀ type_, Parses (gsub.Type_.read type_) ((reaction before g following).wellFormed type_) :=
      fun type_ => inferInstanceAs (Parses (gsub.Type_.read type_) (Spec.gsub.IsTable type_))
    refine gives_perform (E := reaction before g following)
      (performs hd ht ((C101_follow cfg hd).1 t ht) (react_iff hd before g following)) ?_ i
    intro i j type_ a type' a' h1 h2 h3
    obtain ⟨k1, k2⟩ := hc i j type_ a type' a' h1 h2
    obtain ⟨m1, m2, m3, _⟩ := k2 before g following
    rcases h3 with h | h | h | h
    · exact h k1
    · exact m1 h
    · exact m2 h
    · exact m3 h
  have hr (before : List Nat) (g : Nat) (following : List Nat) (i : Nat) :
      Gives d (fun _ => True) (perform substitutionExtension gsub.Type_.read (reverseAct before g following) p t i) := by
    refine gives_perform (C111_reverse cfg hd ht before g following) ?_ i
    intro i j type_ a type' a' h1 h2 h3
    obtain ⟨k1, k2⟩ := hc i j type_ a type' a' h1 h2
    obtain ⟨_, _, _, m4⟩ := k2 before g following
    rcases h3 with h | h
    · exact h k1
    · exact m4 h
  have h1 : ∀ n i a text, Gives d (fun y => ∀ z ∈ y, EveryPair (fun _ => True) z) (touch p t ignored n i a text) := by
    intro n
    induction n with
    | zero => intro i a text; exact .pure (fun z hz => by cases hz)
    | succ n ih =>
      intro i a text
      cases text with
      | nil => exact .pure (fun z hz => by cases hz)
      | cons g following =>
        unfold touch
        split
        · exact .pure (fun z hz => by cases hz)
        · refine (hp _ _ _ i).bind fun x _ => ?_
          rcases x with - | ⟨glyphs, k⟩ | ⟨k, actions⟩
          · exact .pure (fun z hz => by cases hz)
          · exact .pure fun z _ => ⟨all _, all _⟩
          · exact (gives_actAll (A := fun _ => True) (fun i a b _ _ => ih i a b) _ (all _) _ _ _ (all _) (all _)).bind
              fun _ _ => .pure fun z _ => ⟨all _, all _⟩
  have h2 : ∀ i text a, Gives d (fun _ => True) (backward p t (ignored i) i a text) := by
    intro i text
    induction text with
    | nil => intro a; exact .pure trivial
    | cons g following ih =>
      intro a
      unfold backward
      refine (ih _).bind fun out _ => ?_
      split
      · exact .pure trivial
      · refine (hr _ _ _ i).bind fun x _ => ?_
        cases x <;> exact .pure trivial
  obtain ⟨found, e, _⟩ := wanted_found (isTable := Spec.gsub.IsTable) hd ht script language tags
  intro q
  obtain ⟨y, hy, _⟩ := gives_passAll (A := fun _ => True) (d := d) (t := t) (fun i a _ =>
    (gives_forward (fun a b _ _ => h1 n i a b) a.length [] a (all _) (all _)).bind fun out _ q => by
      obtain ⟨y, hy, _⟩ := h2 i out [] q
      exact ⟨y, hy, all y⟩) tags ⟨found, e⟩ (all glyphs) q
  exact ⟨y, hy, trivial⟩

theorem gives_settleText {t : gpos.GlyphPositioning} (ht : Reads (gpos.GlyphPositioning.read cfg) d p t)
    (hc : CompletePositioning cfg d p) (ignored : Nat → Nat → Bool) (mark : Nat → Bool) (n : Nat) (script language : Tag)
    (tags : List Tag) (glyphs : List Nat) :
    Gives d (fun _ => True) (settleText cfg p t ignored mark n script language tags (glyphs.map Item.of)) := by
  have hp (before : List Nat) (base : Option Nat) (g : Nat) (following : List Nat) (i : Nat) :
      Gives d (fun _ => True) (perform positioningExtension (gpos.Type_.read cfg) (respond before base 0 g following) p t i) := by
    have : ∀ type_, Parses (gpos.Type_.read cfg type_) ((response cfg before base 0 g following).wellFormed type_) :=
      fun type_ => inferInstanceAs (Parses (gpos.Type_.read cfg type_) (Spec.gpos.IsTable cfg type_))
    refine gives_perform (E := response cfg before base 0 g following)
      (performs hd ht ((C101_follow cfg hd).2 t ht) (respond_iff hd before base 0 g following)) ?_ i
    intro i j type_ a type' a' h1 h2 h3
    obtain ⟨k1, k2⟩ := hc i j type_ a type' a' h1 h2
    rcases h3 with h | (⟨h, h'⟩ | ⟨h, x, _, h'⟩) | ⟨h, x, _, h'⟩ | ⟨h, x, _, h'⟩ | ⟨h, x, _, h'⟩ | ⟨h, x, _, h'⟩ | ⟨h, h'⟩ | ⟨h, h'⟩
    · exact h k1
    · exact (k2 g 0).1 ⟨h, h'⟩
    · exact (k2 g x).2.1 ⟨h, h'⟩
    · exact (k2 g x).2.2.1 ⟨h, h'⟩
    · exact (k2 g x).2.2.2.1 ⟨h, h'⟩
    · exact (k2 g x).2.2.2.2.1 ⟨h, h'⟩
    · exact (k2 g x).2.2.2.2.2.1 ⟨h, h'⟩
    · exact (k2 g 0).2.2.2.2.2.2.1 ⟨h, h'⟩
    · exact (k2 g 0).2.2.2.2.2.2.2 ⟨h, h'⟩
  have h1 : ∀ n i a text, Every (fun x : Item => x.component = 0) a → Every (fun x : Item => x.component = 0) text →
      Gives d (fun y => ∀ z ∈ y, EveryPair (fun x : Item => x.component = 0) z) (settle cfg p t ignored mark n i a text) := by
    intro n
    induction n with
    | zero => intro i a text _ _; exact .pure (fun z hz => by cases hz)
    | succ n ih =>
      intro i a text ha hx
      cases text with
      | nil => exact .pure (fun z hz => by cases hz)
      | cons x following =>
        have hx0 : x.component = 0 := hx x (by simp)
        have hf : Every (fun x : Item => x.component = 0) following := fun y hy => hx y (by simp [hy])
        unfold settle
        split
        · exact .pure (fun z hz => by cases hz)
        · rw [hx0]
          refine (hp _ _ _ _ i).bind fun r _ => ?_
          cases r with
          | none => exact .pure (fun z hz => by cases hz)
          | some r =>
            have he : ∀ l, (x.add l).component = 0 := fun _ => hx0
            have single : ∀ l, Every (fun x : Item => x.component = 0) [x.add l] := fun l y hy => by
              rw [List.mem_singleton.mp hy]; exact hx0
            refine Gives.bind (P := EveryPair fun x : Item => x.component = 0) ?_ fun y hy => .pure fun z hz => by
              cases hz; exact hy
            cases r with
            | moved first second =>
              refine .pure ?_
              unfold moveSecond
              split
              · exact ⟨single _, hf⟩
              · split
                · exact ⟨single _, hf⟩
                · rename_i pre y post e
                  obtain ⟨k1, k2, k3⟩ := every_split hf (splitAt_append _ _ _ _ _ _ e)
                  refine ⟨.cons (he _) (k1.append fun z hz => ?_), k3⟩
                  rw [List.mem_singleton.mp hz]
                  exact k2
            | joined exit entry => exact .pure ⟨single _, hf⟩
            | onBase own other => exact .pure ⟨single _, hf⟩
            | onMark own other => exact .pure ⟨single _, hf⟩
            | sequence k actions =>
              obtain ⟨m1, m2⟩ := every_window hf (fun y => ignored i y.glyph) (k - 1)
              exact gives_actAll (fun i a b ha hb => ih i a b ha hb) _ ha _ _ _ (.cons hx0 m1) m2
  obtain ⟨found, e, _⟩ := wanted_found (isTable := Spec.gpos.IsTable cfg) hd ht script language tags
  have hg : Every (fun x : Item => x.component = 0) (glyphs.map Item.of) := by
    intro x hx
    obtain ⟨g, _, rfl⟩ := List.mem_map.mp hx
    rfl
  intro q
  obtain ⟨y, hy, _⟩ := gives_passAll (A := fun x : Item => x.component = 0) (d := d) (t := t) (fun i a ha =>
    gives_forward (fun a b ha hb => h1 n i a b ha hb) a.length [] a (fun _ h => by cases h) ha) tags ⟨found, e⟩ hg q
  exact ⟨y, hy, trivial⟩

end

/-- If the tables of a file lack nothing, every text is set, in every script and language, with whatever features: there is neither
an error nor a panic, and there are glyphs in places. -/
theorem C123_set (accept : Tag → Bool) (cfg : Cfg) {d : Data} (hd : Fits d) (h : CompleteFile accept cfg d) (n : Nat)
    (script language : Tag) (tags : List Tag) (glyphs : List Nat) :
    ∃ out, Reads (typeset accept cfg n script language tags glyphs) d 0 out := by
  obtain ⟨h1, h2, h3⟩ := h
  obtain ⟨directory, hn, ho⟩ : ∃ directory, ¬U32 d 0 0x74746366 ∧ IsOffsets accept d 0 directory := by
    rcases h1 with ⟨k1, directory, k2, _⟩ | ⟨_, _, ⟨k1, directory, _, k2, _⟩, _⟩
    · exact ⟨directory, k1, k2⟩
    · exact ⟨directory, k1, k2⟩
  have hf := (C01_one_font accept d 0 hd ⟨[⟨directory⟩]⟩).mpr ⟨hn, ⟨directory⟩, rfl, ho⟩
  obtain ⟨q, e⟩ := id hf
  have k1 : Gives d (fun _ => True) (tableOf cfg ⟨directory⟩ .glyphDefinition (gdef.GlyphDefinition.read cfg)) := by
    intro q
    rcases h1 with h | ⟨p, t, h, h'⟩
    · exact ⟨_, (tableOf_iff hd hf q none).mpr (.inl ⟨h, rfl⟩), trivial⟩
    · exact ⟨_, (tableOf_iff hd hf q (some (p, t))).mpr (.inr ⟨p, t, h, (reads_parses hd).mpr h', rfl⟩), trivial⟩
  have k2 : ∀ definition glyphs, Gives d (fun _ => True) (shapeWith cfg ⟨directory⟩ definition n script language tags glyphs) := by
    intro definition glyphs q
    unfold shapeWith
    rcases h2 with h | ⟨p, t, h, h', hc⟩
    · obtain ⟨k, hk⟩ := (tableOf_iff (r := gsub.GlyphSubstitution.read cfg) hd hf q none).mpr (.inl ⟨h, rfl⟩)
      exact ⟨glyphs, reads_bind_iff.mpr ⟨_, _, hk, reads_pure.mpr rfl⟩, trivial⟩
    · have ht := (reads_parses (r := gsub.GlyphSubstitution.read cfg) hd).mpr h'
      obtain ⟨k, hk⟩ := (tableOf_iff hd hf q (some (p, t))).mpr (.inr ⟨p, t, h, ht, rfl⟩)
      obtain ⟨y, hy, _⟩ := gives_shapeText hd ht hc (ignoring definition t) n script language tags glyphs k
      exact ⟨y, reads_bind_iff.mpr ⟨_, _, hk, hy⟩, trivial⟩
  have k3 : ∀ definition glyphs, Gives d (fun _ => True) (settleWith cfg ⟨directory⟩ definition n script language tags glyphs) := by
    intro definition glyphs q
    unfold settleWith
    rcases h3 with h | ⟨p, t, h, h', hc⟩
    · obtain ⟨k, hk⟩ := (tableOf_iff (r := gpos.GlyphPositioning.read cfg) hd hf q none).mpr (.inl ⟨h, rfl⟩)
      exact ⟨_, reads_bind_iff.mpr ⟨_, _, hk, reads_pure.mpr rfl⟩, trivial⟩
    · have ht := (reads_parses (r := gpos.GlyphPositioning.read cfg) hd).mpr h'
      obtain ⟨k, hk⟩ := (tableOf_iff hd hf q (some (p, t))).mpr (.inr ⟨p, t, h, ht, rfl⟩)
      obtain ⟨y, hy, _⟩ := gives_settleText hd ht hc (ignoring definition t) (marked definition) n script language tags glyphs k
      exact ⟨y, reads_bind_iff.mpr ⟨_, _, hk, hy⟩, trivial⟩
  obtain ⟨y, hy, _⟩ := (k1.bind fun definition _ => (k2 definition glyphs).bind fun glyphs _ => k3 definition glyphs) q
  exact ⟨y, reads_bind_iff.mpr ⟨_, _, e, hy⟩⟩

/-! ## Values -/

/-- There is a value. -/
def Fine {α : Type} (x : Except Err α) : Prop := ∃ y, x = .ok y

section
variable {α β : Type}

theorem Fine.bind {x : Except Err α} {f : α → Except Err β} (h : Fine x) (hf : ∀ y, x = .ok y → Fine (f y)) : Fine (x >>= f) := by
  obtain ⟨y, rfl⟩ := h
  exact hf y rfl

theorem Fine.ok {y : α} : Fine (.ok y) := ⟨y, rfl⟩

theorem Fine.pure {y : α} : Fine (Pure.pure y) := ⟨y, rfl⟩

theorem fine_element {xs : List α} {i : Nat} (h : i < xs.length) : Fine (element xs i) := by
  unfold element
  rw [List.getElem?_eq_getElem h]
  exact .ok

theorem element_mem {xs : List α} {i : Nat} {x : α} (h : element xs i = .ok x) : x ∈ xs := by
  unfold element at h
  split at h
  · rename_i e
    cases h
    exact List.mem_of_getElem? e
  · cases h

theorem fine_entry {c : coverage.Coverage} {entries : List α} (h : NumbersBelow c entries.length) (g : Nat) :
    Fine (entryOf c entries g) := by
  unfold entryOf
  split
  · exact .ok
  · rename_i i e
    obtain ⟨y, hy⟩ := fine_element (h g i e)
    rw [hy]
    exact ⟨_, rfl⟩

theorem fine_classEntry {c : coverage.Coverage} {k : class_.Class} {sets : List (Option α)} (h : ClassesBelow c k sets.length)
    (g : Nat) : Fine (classEntryOf c k sets g) := by
  unfold classEntryOf
  split
  · exact .ok
  · rename_i i e
    exact fine_element (h g i e)

theorem fine_rule {Set Rule : Type} {records : Set → List Rule} {wanted : Rule → β} {entry : Except Err (Option Set)}
    {test : Rule → Bool} (h : Fine entry) : Fine (ruleOf records wanted entry test) := by
  refine h.bind fun y _ => ?_
  cases y <;> exact .pure

end

theorem fine_context {t : context.Context} (h : WholeContext t) (g : Nat) (after : List Nat) : Fine (matchContext t g after) := by
  cases t with
  | format1 t => exact fine_rule (fine_entry h g)
  | format2 t => exact fine_rule (fine_classEntry h g)
  | format3 t => exact .ok

theorem fine_chain {t : context.ChainedContext} (h : WholeChain t) (before : List Nat) (g : Nat) (after : List Nat) :
    Fine (matchChain t before g after) := by
  cases t with
  | format1 t => exact fine_rule (fine_entry h g)
  | format2 t => exact fine_rule (fine_classEntry h g)
  | format3 t => exact .ok

theorem fine_react {x : gsub.Type_} (h : WholeSubstitution x) (before : List Nat) (g : Nat) (following : List Nat) :
    Fine (react before g following x) ∧ Fine (reverseAct before g following x) := by
  cases x with
  | singleSubstitution t =>
    refine ⟨.bind (.bind ?_ fun _ _ => .pure) fun _ _ => .pure, .ok⟩
    cases t with
    | format1 t => exact .ok
    | format2 t => exact fine_entry h g
  | multipleSubstitution t => exact ⟨.bind (.bind (.bind (fine_entry h g) fun _ _ => .pure) fun _ _ => .pure) fun _ _ => .pure, .ok⟩
  | alternateSubstitution t => exact ⟨.bind .ok fun _ _ => .pure, .ok⟩
  | ligatureSubstitution t =>
    refine ⟨.bind (.bind (.bind (fine_entry h g) fun y _ => ?_) fun _ _ => .pure) fun _ _ => .pure, .ok⟩
    cases y <;> exact .pure
  | contextualSubstitution t => exact ⟨(fine_context h g following).bind fun _ _ => .pure, .ok⟩
  | chainedContextualSubstitution t => exact ⟨(fine_chain h before g following).bind fun _ _ => .pure, .ok⟩
  | extensionSubstitution t => exact ⟨.bind .ok fun _ _ => .pure, .ok⟩
  | reverseChainedContextualSubstibution t =>
    refine ⟨.bind .ok fun _ _ => .pure, ?_⟩
    unfold reverseAct matchReverse
    dsimp only
    split
    · exact fine_entry h g
    · exact .ok

theorem fine_anchors {a b : coverage.Coverage} {marks : List gpos.Mark1} {anchor : Nat → Nat → Except Err (Option gpos.Anchor)}
    (h1 : NumbersBelow a marks.length) (h2 : ∀ m n j, indexOf b n = some j → m ∈ marks → Fine (anchor j m.class_id)) (m n : Nat) :
    Fine (anchors a b marks anchor m n) := by
  unfold anchors
  split
  · rename_i i j e1 e2
    exact (fine_element (h1 m i e1)).bind fun y hy => (h2 y n j e2 (element_mem hy)).bind fun _ _ => .pure
  · exact .ok

theorem fine_connect {t : gpos.CursiveAttachment} (h : NumbersBelow t.coverage t.connections.length) (g : Nat) : Fine (connect t g) :=
  (fine_entry h g).bind fun _ _ => .pure

theorem fine_respond {x : gpos.Type_} (h : WholePositioning x) (before : List Nat) (base : Option Nat) (g : Nat)
    (following : List Nat) : Fine (respond before base 0 g following x) := by
  cases x with
  | singleAdjustment t =>
    refine .bind (.bind ?_ fun _ _ => .pure) fun _ _ => .pure
    cases t with
    | format1 t => exact .ok
    | format2 t => exact fine_entry h g
  | pairAdjustment t =>
    unfold respond move
    dsimp only
    split
    · exact .bind .ok fun _ _ => .pure
    · refine .bind ?_ fun _ _ => .pure
      cases t with
      | format1 t =>
        refine (fine_entry h g).bind fun y _ => ?_
        cases y <;> exact .pure
      | format2 t =>
        unfold adjust
        dsimp only
        split
        · exact .pure
        · rename_i i e
          exact (fine_element (h.1 g i e)).bind fun row hr => (fine_element (h.2 row (element_mem hr) _)).bind fun _ _ => .pure
  | cursiveAttachment t =>
    unfold respond
    dsimp only
    split
    · exact .ok
    · obtain ⟨y, hy⟩ := fine_connect h g
      unfold join
      rw [hy]
      split
      · rename_i e; cases e
      · exact .ok
      · exact .ok
      · exact (fine_connect h _).bind fun _ _ => .pure
  | markToBaseAttachment t =>
    unfold respond
    dsimp only
    split
    · exact .ok
    · exact (fine_anchors h.1 (fun m n j e hm => (fine_element (h.2.1 n j e)).bind fun y hy =>
        fine_element (h.2.2 m hm y (element_mem hy))) _ _).bind fun _ _ => .pure
  | markToLigatureAttachment t =>
    unfold respond
    dsimp only
    split
    · exact .ok
    · refine (fine_anchors h.1 (fun m n j e hm => (fine_element (h.2.1 n j e)).bind fun y hy => ?_) _ _).bind fun _ _ => .pure
      obtain ⟨component, e1, e2⟩ := h.2.2 m hm y (element_mem hy)
      refine .bind ⟨component, by unfold element; rw [e1]⟩ fun z hz => ?_
      unfold element at hz
      rw [e1] at hz
      cases hz
      exact fine_element e2
  | markToMarkAttachment t =>
    unfold respond
    dsimp only
    split
    · exact .ok
    · exact (fine_anchors h.1 (fun m n j e hm => (fine_element (h.2.1 n j e)).bind fun y hy =>
        fine_element (h.2.2 m hm y (element_mem hy))) _ _).bind fun _ _ => .pure
  | contextualPositioning t => exact (fine_context h g following).bind fun _ _ => .pure
  | chainedContextualPositioning t => exact (fine_chain h before g following).bind fun _ _ => .pure
  | extensionPositioning t => exact .bind .ok fun _ _ => .pure

theorem Fine.not_error {α : Type} {x : Except Err α} (h : Fine x) : ¬∃ e, x = .error e := by
  obtain ⟨y, rfl⟩ := h
  rintro ⟨e, h⟩
  cases h

/-- A table lacks nothing if whatever its subtables stand for can be read and has enough entries. -/
theorem C123_enough (cfg : Cfg) {d : Data} (hd : Fits d) (p : Nat) :
    ((AllSubtables cfg 7 d p fun type_ a => ∃ x, Reads (gsub.Type_.read type_) d a x ∧ WholeSubstitution x) →
      CompleteSubstitution cfg d p) ∧
    ((AllSubtables cfg 9 d p fun type_ a => ∃ x, Reads (gpos.Type_.read cfg type_) d a x ∧ WholePositioning x) →
      CompletePositioning cfg d p) := by
  constructor
  · intro h i j type_ a type' a' h1 h2
    obtain ⟨x, h3, h4⟩ := h i j type_ a type' a' h1 h2
    have h3 := (reads_parses (S := Spec.gsub.IsTable type') hd).mp h3
    refine ⟨⟨x, h3⟩, fun before g following => ?_⟩
    have k1 := mt (react_iff hd before g following type' a' x h3).2.mpr (fine_react h4 before g following).1.not_error
    refine ⟨fun h => k1 (.inl h), fun h => k1 (.inr (.inl h)), fun h => k1 (.inr (.inr h)), ?_⟩
    rintro ⟨rfl, h⟩
    cases x with
    | reverseChainedContextualSubstibution t =>
      exact (fine_react h4 before g following).2.not_error
        ((C105_reverse hd ((reads_parses hd).mpr h3.2) before g following).2.2.mpr h)
    | _ => exact absurd h3.1 (by decide)
  · intro h i j type_ a type' a' h1 h2
    obtain ⟨x, h3, h4⟩ := h i j type_ a type' a' h1 h2
    have h3 := (reads_parses (S := Spec.gpos.IsTable cfg type') hd).mp h3
    refine ⟨⟨x, h3⟩, fun g h => ?_⟩
    have k := mt (respond_iff hd [h] (some h) 0 g [h] type' a' x h3).2.mpr (fine_respond h4 [h] (some h) g [h]).not_error
    exact ⟨fun m => k (.inl (.inl m)), fun m => k (.inl (.inr ⟨m.1, h, rfl, m.2⟩)), fun m => k (.inr (.inl ⟨m.1, h, rfl, m.2⟩)),
      fun m => k (.inr (.inr (.inl ⟨m.1, h, rfl, m.2⟩))), fun m => k (.inr (.inr (.inr (.inl ⟨m.1, h, rfl, m.2⟩)))),
      fun m => k (.inr (.inr (.inr (.inr (.inl ⟨m.1, h, rfl, m.2⟩))))), fun m => k (.inr (.inr (.inr (.inr (.inr (.inl m)))))),
      fun m => k (.inr (.inr (.inr (.inr (.inr (.inr m))))))⟩

theorem StandsFor.unique {number : Nat} {d : Data} {type_ a type' a' type'' a'' : Nat} (h : StandsFor number d type_ a type' a')
    (h' : StandsFor number d type_ a type'' a'') : type'' = type' ∧ a'' = a' := by
  rcases h with ⟨h1, rfl, rfl⟩ | ⟨h1, o, h2, h3, rfl⟩ <;> rcases h' with ⟨k1, rfl, rfl⟩ | ⟨k1, o', k2, k3, rfl⟩
  · exact ⟨rfl, rfl⟩
  · exact absurd k1 h1
  · exact absurd h1 k1
  · cases U16.unique h2 k2
    cases U32.unique h3 k3
    exact ⟨rfl, rfl⟩

theorem all_subtables {T : Type} {cfg : Cfg} {number : Nat} {extension : T → Option (Nat × Nat)} {readTable : Nat → Reader T}
    {d : Data} {p : Nat} {t : Directory T} {W : T → Prop} (hf : FindsSubtables cfg number extension readTable d p t)
    (hi : Inline extension t) (hw : ∀ record ∈ t.lookups.records, ∀ table ∈ record.tables, W table) :
    AllSubtables cfg number d p fun type_ a => ∃ x, Reads (readTable type_) d a x ∧ W x := by
  intro i j type_ a type' a' h1 h2
  obtain ⟨type'', a'', h3, h4, h5⟩ := (hf i j 0).2 type_ a h1
  obtain ⟨rfl, rfl⟩ := StandsFor.unique h2 h3
  have : subtable extension readTable p t i j d 0 = .ok (none, 0) ∨
      ∃ x, subtable extension readTable p t i j d 0 = .ok (some x, 0) ∧ W x := by
    unfold subtable
    split
    · rename_i o record _ e2
      split
      · rename_i s table _ e4
        rw [hi record (List.mem_of_getElem? e2) table (List.mem_of_getElem? e4)]
        exact .inr ⟨table, rfl, hw record (List.mem_of_getElem? e2) table (List.mem_of_getElem? e4)⟩
      · exact .inl rfl
    · exact .inl rfl
  rcases this with h | ⟨x, h, hx⟩
  · cases e : readTable type'' d a'' with
    | error x =>
      have := (h5 x).mpr e
      rw [h] at this
      cases this
    | ok x =>
      obtain ⟨q, k⟩ := (h4 x.1).mpr ⟨x.2, e⟩
      rw [h] at k
      cases k
  · exact ⟨x, (h4 x).mp ⟨0, h⟩, hx⟩

/-- If the tables that are taken from a file have no extensions and enough entries, the file lacks nothing, and every text can be set
in it. -/
theorem C123_taken (accept : Tag → Bool) (cfg : Cfg) {d : Data} (hd : Fits d) {p₁ p₂ p₃ : Nat}
    {definition : Option gdef.GlyphDefinition} {substitution : Option gsub.GlyphSubstitution}
    {positioning : Option gpos.GlyphPositioning}
    (h1 : Takes accept cfg d p₁ .glyphDefinition (gdef.GlyphDefinition.read cfg) definition)
    (h2 : Takes accept cfg d p₂ .glyphSubstitution (gsub.GlyphSubstitution.read cfg) substitution)
    (h3 : Takes accept cfg d p₃ .glyphPositioning (gpos.GlyphPositioning.read cfg) positioning)
    (hs : ∀ t, substitution = some t → Inline substitutionExtension t ∧
      ∀ record ∈ t.lookups.records, ∀ table ∈ record.tables, WholeSubstitution table)
    (hp : ∀ t, positioning = some t → Inline positioningExtension t ∧
      ∀ record ∈ t.lookups.records, ∀ table ∈ record.tables, WholePositioning table) :
    CompleteFile accept cfg d ∧ ∀ (n : Nat) (script language : Tag) (tags : List Tag) (glyphs : List Nat),
      ∃ out, Reads (typeset accept cfg n script language tags glyphs) d 0 out := by
  have : CompleteFile accept cfg d := by
    refine ⟨?_, ?_, ?_⟩
    · cases definition with
      | none => exact .inl ((C55_absent accept cfg _ hd p₁).mp h1)
      | some t =>
        obtain ⟨a, k1, k2⟩ := ((C55_tables accept cfg hd p₁).2.2.1 t).mp h1
        exact .inr ⟨a, t, k1, k2⟩
    · cases substitution with
      | none => exact .inl ((C55_absent accept cfg _ hd p₂).mp h2)
      | some t =>
        obtain ⟨a, k1, k2⟩ := ((C55_tables accept cfg hd p₂).1 t).mp h2
        exact .inr ⟨a, t, k1, k2, (C123_enough cfg hd a).1 (all_subtables ((C101_follow cfg hd).1 t ((reads_parses hd).mpr k2))
          (hs t rfl).1 (hs t rfl).2)⟩
    · cases positioning with
      | none => exact .inl ((C55_absent accept cfg _ hd p₃).mp h3)
      | some t =>
        obtain ⟨a, k1, k2⟩ := ((C55_tables accept cfg hd p₃).2.1 t).mp h3
        exact .inr ⟨a, t, k1, k2, (C123_enough cfg hd a).2 (all_subtables ((C101_follow cfg hd).2 t ((reads_parses hd).mpr k2))
          (hp t rfl).1 (hp t rfl).2)⟩
  exact ⟨this, fun n script language tags glyphs => C123_set accept cfg hd this n script language tags glyphs⟩

/-! ## Examples -/

theorem numbersBelow_format1 {format count : Nat} {glyphs : List Nat} : NumbersBelow (.format1 ⟨format, count, glyphs⟩) glyphs.length := by
  intro g i h
  exact (List.findIdx?_eq_some_iff_getElem.mp h).1

/-- What is read from the file. -/
def typesettingRead : File :=
  match File.read (· == 0x00010000) typesettingFile 0 with
  | .ok x => x.1
  | .error _ => ⟨[]⟩

theorem takes_typesetting :
    Takes (· == 0x00010000) ⟨false, false, false, false, false, false⟩ typesettingFile 0 .glyphDefinition
      (gdef.GlyphDefinition.read ⟨false, false, false, false, false, false⟩) none ∧
    Takes (· == 0x00010000) ⟨false, false, false, false, false, false⟩ typesettingFile 0 .glyphSubstitution
      (gsub.GlyphSubstitution.read ⟨false, false, false, false, false, false⟩) (some shapingValue) ∧
    Takes (· == 0x00010000) ⟨false, false, false, false, false, false⟩ typesettingFile 0 .glyphPositioning
      (gpos.GlyphPositioning.read ⟨false, false, false, false, false, false⟩) (some positioningValue) := by
  have h : Reads (File.read (· == 0x00010000)) typesettingFile 0 typesettingRead := by decide +kernel
  exact ⟨⟨_, h, by decide +kernel⟩, ⟨_, h, by decide +kernel⟩, ⟨_, h, by decide +kernel⟩⟩

/-- The file of the example of C113 lacks nothing, so any text can be set in it. -/
example : CompleteFile (· == 0x00010000) ⟨false, false, false, false, false, false⟩ typesettingFile := by
  refine (C123_taken _ _ (by decide +kernel) takes_typesetting.1 takes_typesetting.2.1 takes_typesetting.2.2 ?_ ?_).1
  · rintro t ⟨⟩
    refine ⟨by unfold Inline; decide +kernel, ?_⟩
    intro record hr table ht
    simp only [shapingValue, List.mem_cons, List.not_mem_nil, or_false] at hr
    rcases hr with rfl | rfl <;> simp only [List.mem_cons, List.not_mem_nil, or_false] at ht <;> subst ht <;>
      exact numbersBelow_format1
  · rintro t ⟨⟩
    refine ⟨by unfold Inline; decide +kernel, ?_⟩
    intro record hr table ht
    simp only [positioningValue, List.mem_cons, List.not_mem_nil, or_false] at hr
    rcases hr with rfl | rfl <;> simp only [List.mem_cons, List.not_mem_nil, or_false] at ht <;> subst ht
    · exact numbersBelow_format1
    · trivial

end OpenType.Props
