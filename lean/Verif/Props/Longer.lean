import Verif.Spec.Longer
import Verif.Props.Renumber
/-! # C129: text grows only so much -/

namespace OpenType.Props
open OpenType Spec lookup directory context

/-! ## One lookup -/

/-- How many glyphs more there may be after a lookup has come to one glyph. -/
def gain (most asked : Nat) : Nat → Nat
  | 0 => 0
  | n + 1 => max (most - 1) (asked * gain most asked n)

theorem gain_le (most asked n : Nat) : gain most asked n ≤ (most - 1) * (max 1 asked) ^ (n - 1) := by
  have key : ∀ n, gain most asked (n + 1) ≤ (most - 1) * (max 1 asked) ^ n := by
    intro n
    induction n with
    | zero => simp [gain]
    | succ n ih =>
      rw [gain]
      refine Nat.max_le.mpr ⟨Nat.le_mul_of_pos_right _ (Nat.pow_pos (by omega)), ?_⟩
      calc asked * gain most asked (n + 1) ≤ max 1 asked * ((most - 1) * (max 1 asked) ^ n) := Nat.mul_le_mul (by omega) ih
        _ = (most - 1) * (max 1 asked) ^ (n + 1) := by rw [Nat.pow_succ, Nat.mul_left_comm, Nat.mul_comm (max 1 asked)]
  cases n with
  | zero => simp [gain]
  | succ n => exact key n

section
variable {α : Type}

theorem acted_longer {N : Nat → List α → List α → Option (List α × List α) → Prop} {I : α → Prop} {before : List α} {k : Nat}
    (hN : ∀ i before text done rest, N i before text (some (done, rest)) → done.length + rest.length ≤ text.length + k)
    {actions : List Action} {window rest window' rest' : List α} (h : ActedOn N I before actions window rest window' rest') :
    window'.length + rest'.length ≤ window.length + rest.length + actions.length * k := by
  induction h with
  | nil => simp
  | absent _ _ ih => rw [List.length_cons, Nat.add_mul]; omega
  | still _ _ _ ih => rw [List.length_cons, Nat.add_mul]; omega
  | @act action actions window rest pre g post done rest₁ text window' rest' h1 h2 h3 _ ih =>
    obtain ⟨rfl, _, _⟩ := h1
    have := hN _ _ _ _ _ h2
    rw [List.length_take, List.length_drop, h3] at ih
    simp only [List.length_append, List.length_cons, Nat.add_mul] at *
    omega

theorem forward_longer {touched : List α → List α → Option (List α × List α) → Prop} {k : Nat}
    (ht : ∀ before text done rest, touched before text (some (done, rest)) → done.length + rest.length ≤ text.length + k)
    (hl : ∀ before g following done rest, touched before (g :: following) (some (done, rest)) → rest.length ≤ following.length)
    {before text out : List α} (h : Forward touched before text out) : out.length ≤ text.length * (1 + k) := by
  induction h with
  | nil => simp
  | keep _ _ ih =>
    rw [List.length_cons, List.length_cons, Nat.add_mul]
    omega
  | @change before g following done rest out h1 _ ih =>
    have h2 := ht _ _ _ _ h1
    have h3 := hl _ _ _ _ _ h1
    have h4 : rest.length * k ≤ following.length * k := Nat.mul_le_mul_right k h3
    rw [Nat.mul_add] at ih
    rw [List.length_append, List.length_cons, Nat.add_mul, Nat.mul_add]
    rw [List.length_cons] at h2
    omega

theorem below_longer {passed : Nat → List α → List α → Prop} {k : Nat}
    (hp : ∀ i text out, passed i text out → out.length ≤ text.length * k) (hk : 1 ≤ k) {wanted : Nat → Prop} {numbers : List Nat}
    (hw : ∀ i, wanted i → i ∈ numbers) {m : Nat} {text out : List α} (h : Below passed wanted m text out) :
    out.length ≤ text.length * k ^ (numbers.filter (· < m)).length := by
  have mono : ∀ m, (numbers.filter (· < m)).length ≤ (numbers.filter (· < m + 1)).length := by
    intro m
    rw [← List.countP_eq_length_filter, ← List.countP_eq_length_filter]
    exact List.countP_mono_left fun x _ h => by simp at h ⊢; omega
  have strict : ∀ m, m ∈ numbers → (numbers.filter (· < m)).length + 1 ≤ (numbers.filter (· < m + 1)).length := by
    intro m hm
    clear hw mono
    rw [← List.countP_eq_length_filter, ← List.countP_eq_length_filter]
    induction numbers with
    | nil => cases hm
    | cons x xs ih =>
      have mono : xs.countP (fun x => decide (x < m)) ≤ xs.countP (fun x => decide (x < m + 1)) :=
        List.countP_mono_left fun x _ h => by simp at h ⊢; omega
      rw [List.countP_cons, List.countP_cons]
      rcases List.mem_cons.mp hm with rfl | hm
      · simp only [Nat.lt_irrefl, decide_false, Nat.lt_succ_self, decide_true]
        simp
        omega
      · have := ih hm
        by_cases h : x < m
        · simp [h, Nat.lt_succ_of_lt h]; omega
        · simp only [h, decide_false, Bool.false_eq_true, if_false]; omega
  induction h with
  | zero => exact Nat.le_mul_of_pos_right _ (Nat.pow_pos (by omega))
  | skip _ _ ih => exact Nat.le_trans ih (Nat.mul_le_mul_left _ (Nat.pow_le_pow_right (by omega) (mono _)))
  | pass h1 _ h2 ih =>
    refine Nat.le_trans (hp _ _ _ h2) (Nat.le_trans (Nat.mul_le_mul_right k ih) ?_)
    rw [Nat.mul_assoc, ← Nat.pow_succ]
    exact Nat.mul_le_mul_left _ (Nat.pow_le_pow_right (by omega) (strict _ (hw _ h1)))

end

section
variable {cfg : Cfg} {d : Data} {p : Nat} {I : Nat → Nat → Prop} {most asked : Nat}

theorem touched_longer (h : PutsIn cfg d p most asked) : ∀ n i before text done rest,
    Touched cfg d p I n i before text (some (done, rest)) → done.length + rest.length ≤ text.length + gain most asked n := by
  intro n
  induction n with
  | zero => intro i before text done rest h; cases h
  | succ n ih =>
    intro i before text done rest ht
    cases text with
    | nil => cases ht
    | cons g following =>
      unfold Touched at ht
      rcases ht with ⟨_, ht⟩ | ⟨_, _, ht⟩ | ⟨_, glyphs, k, rest₁, k1, k2, ht⟩ | ⟨_, k, actions, window, rest₁, window', rest', k1, k2, k3, ht⟩
      · cases ht
      · cases ht
      · cases ht
        obtain ⟨type_, a, hp, hs⟩ := doneAt_all k1 h
        have h1 := (hp (seen (I i) before) g (seen (I i) following)).1 _ _ hs
        have h2 := without_length k2
        have h3 : most - 1 ≤ gain most asked (n + 1) := Nat.le_max_left _ _
        rw [List.length_cons]
        omega
      · cases ht
        obtain ⟨type_, a, hp, hs⟩ := doneAt_all k1 h
        have h1 : actions.length ≤ asked := by
          obtain ⟨_, h1, h2⟩ := hp (seen (I i) before) g (seen (I i) following)
          rcases hs with ⟨e, hs⟩ | ⟨e, hs⟩
          · exact h1 _ _ e hs
          · exact h2 _ _ e hs
        have h2 := acted_longer (fun i before text done rest => ih i before text done rest) k3
        have h3 := congrArg List.length (Window.append k2)
        rw [List.length_append] at h3
        have h4 : actions.length * gain most asked n ≤ gain most asked (n + 1) :=
          Nat.le_trans (Nat.mul_le_mul_right _ h1) (Nat.le_max_right _ _)
        simp only [List.length_cons] at h2 ⊢
        omega

theorem backward_same {i : Nat} {J : Nat → Prop} {before text out : List Nat} (h : Backward cfg d p J i before text out) :
    out.length = text.length := by
  induction h with
  | nil => rfl
  | ignore _ _ ih => rw [List.length_cons, List.length_cons, ih]
  | keep _ _ _ ih => rw [List.length_cons, List.length_cons, ih]
  | replace _ _ _ ih => rw [List.length_cons, List.length_cons, ih]

theorem becomes_longer (h : PutsIn cfg d p most asked) {n : Nat} {script language : Tag} {tags : List Tag} {numbers : List Nat}
    (hw : ∀ i, Wanted cfg d p script language tags i → i ∈ numbers) {glyphs out : List Nat}
    (hb : Becomes cfg d p I n script language tags glyphs out) : out.length ≤ glyphs.length * factor most asked n ^ numbers.length := by
  obtain ⟨m, _, hb⟩ := hb
  have hf : 1 ≤ factor most asked n := by unfold factor; omega
  refine Nat.le_trans (below_longer (k := factor most asked n) ?_ hf hw hb)
    (Nat.mul_le_mul_left _ (Nat.pow_le_pow_right hf (List.length_filter_le ..)))
  rintro i text out ⟨middle, h1, h2⟩
  rw [backward_same h2]
  refine Nat.le_trans (forward_longer (touched_longer h n i) (fun _ _ _ _ _ => touched_length) h1) (Nat.mul_le_mul_left _ ?_)
  unfold factor
  have := gain_le most asked n
  omega

end

/-! ## Files -/

section
variable {accept : Tag → Bool} {cfg : Cfg} {d : Data}

/-- A text of so many glyphs becomes one of no more than so many times as many: for each of the lookups that are wanted, as many times
as one glyph may become. -/
theorem C129_longer (hd : Fits d) {most asked : Nat} {numbers : List Nat} {script language : Tag} {tags : List Tag}
    (h : ∀ p, TableAt accept cfg d .glyphSubstitution p → PutsIn cfg d p most asked ∧
      ∀ i, Wanted cfg d p script language tags i → i ∈ numbers) {n : Nat} {glyphs : List Nat} {out : List Item}
    (hr : Reads (typeset accept cfg n script language tags glyphs) d 0 out) :
    out.length ≤ glyphs.length * factor most asked n ^ numbers.length := by
  obtain ⟨_, middle, hm, ho⟩ := (C113_typeset accept cfg hd n script language tags glyphs out).mp hr
  have e : out.length = middle.length := by
    rcases ho with ⟨_, rfl⟩ | ⟨p, t, _, _, ho⟩
    · rw [List.length_map]
    · have := congrArg List.length (settled_keeps ho)
      simpa only [List.length_map] using this
  rw [e]
  rcases hm with ⟨_, rfl⟩ | ⟨p, t, hp, _, hm⟩
  · exact Nat.le_mul_of_pos_right _ (Nat.pow_pos (by unfold factor; omega))
  · exact becomes_longer (h p hp).1 (h p hp).2 hm

/-! ## Every file -/

theorem puts_in (p : Nat) : PutsIn cfg d p 65535 65535 := by
  have key : ∀ {q n : Nat} {actions : List Action} {S : Nat → Action → Prop} {r : Nat}, U16 d q n → ArrayOf S 4 r n actions →
      actions.length ≤ 65535 := by
    intro q n actions S r h1 h2
    have := u16_lt' h1
    rw [h2.1]
    omega
  intro i j type_ a type' a' _ _ before g following
  refine ⟨?_, ?_, ?_⟩
  · rintro glyphs n (⟨_, _, x, _, rfl⟩ | ⟨_, _, s, _, n, h1, h2⟩ | ⟨_, x, _, rfl⟩)
    · exact Nat.le_of_ble_eq_true rfl
    · have := u16_lt' h1
      rw [h2.1]
      omega
    · exact Nat.le_of_ble_eq_true rfl
  · rintro n actions _ (⟨_, s, rule, _, ⟨k, ⟨_, _, _, _, _, h⟩, _⟩, e⟩ | ⟨_, _, s, rule, _, _, ⟨k, ⟨_, _, _, _, _, h⟩, _⟩, e⟩ | ⟨_, n, m, _, h1, _, _, h2⟩)
    · cases e
      exact key h.2.1 h.2.2.2.2
    · cases e
      exact key h.2.1 h.2.2.2.2
    · exact key h1 h2
  · rintro n actions _ (⟨_, s, rule, _, ⟨k, ⟨_, _, _, _, _, h⟩, _⟩, e⟩ | ⟨_, _, _, _, s, rule, _, _, _, _, ⟨k, ⟨_, _, _, _, _, h⟩, _⟩, e⟩ | ⟨_, n1, n2, n3, m, _, _, _, h1, _, _, _, _, h2⟩)
    · cases e
      exact key h.2.2.2.2.2.2.2.1 h.2.2.2.2.2.2.2.2
    · cases e
      exact key h.2.2.2.2.2.2.2.1 h.2.2.2.2.2.2.2.2
    · exact key h1 h2

/-- Whatever is in a file, there is a limit to how many times as long a text becomes, and it does not depend on the text. -/
theorem C129_every (hd : Fits d) {n : Nat} {script language : Tag} {tags : List Tag} {glyphs : List Nat} {out : List Item}
    (hr : Reads (typeset accept cfg n script language tags glyphs) d 0 out) :
    out.length ≤ glyphs.length * (1 + 65534 * 65535 ^ (n - 1)) ^ 65535 := by
  have e : 1 + 65534 * 65535 ^ (n - 1) = factor 65535 65535 n := rfl
  rw [e]
  have := C129_longer hd (numbers := List.range 65535) (fun p _ => ⟨puts_in p, ?_⟩) hr
  · rw [List.length_range] at this
    exact this
  · rintro i ⟨_, _, _, _, _, _, _, _, _, _, _, _, _, _, _, _, h1, h2, _⟩
    have := u16_lt' h1
    rw [List.mem_range]
    omega

end

/-! ## Values -/

/-- A subtable puts in as many glyphs as it may, and asks for as many actions. -/
theorem react_putsIn {most asked : Nat} {x : gsub.Type_} (hx : TablePutsIn most asked x) {before : List Nat} {g : Nat}
    {following : List Nat} :
    (∀ glyphs n, react before g following x = .ok (some (.replaced glyphs n)) → glyphs.length ≤ most) ∧
    ∀ n actions, react before g following x = .ok (some (.sequence n actions)) → actions.length ≤ asked := by
  cases x with
  | singleSubstitution t =>
    refine ⟨fun glyphs n h => ?_, fun n actions h => ?_⟩ <;> obtain ⟨z, k, e⟩ := bind_some h <;> clear h <;> cases e
    obtain ⟨w, h, rfl⟩ := bind_some k
    exact hx
  | multipleSubstitution t =>
    refine ⟨fun glyphs n h => ?_, fun n actions h => ?_⟩ <;> obtain ⟨z, k, e⟩ := bind_some h <;> clear h <;> cases e
    obtain ⟨w, h, rfl⟩ := bind_some k
    obtain ⟨v, k', rfl⟩ := bind_some h
    exact hx v (entry_mem k')
  | ligatureSubstitution t =>
    refine ⟨fun glyphs n h => ?_, fun n actions h => ?_⟩ <;> obtain ⟨z, k, e⟩ := bind_some h <;> clear h <;> cases e
    obtain ⟨w, h, rfl⟩ := bind_some k
    exact hx
  | alternateSubstitution t => exact ⟨fun glyphs n h => (by cases h), fun n actions h => (by cases h)⟩
  | contextualSubstitution t =>
    refine ⟨fun glyphs n h => ?_, fun n actions h => ?_⟩ <;> obtain ⟨z, k, e⟩ := bind_some h <;> clear h <;> cases e
    cases t with
    | format1 t =>
      obtain ⟨set, h1, rule, h2, rfl⟩ := ruleOf_mem k
      exact hx set (entry_mem h1) rule h2
    | format2 t =>
      obtain ⟨set, h1, rule, h2, rfl⟩ := ruleOf_mem k
      exact hx _ (classEntry_mem h1) set (by simp) rule h2
    | format3 t =>
      injection k with k
      split at k
      · cases k; exact hx
      · cases k
  | chainedContextualSubstitution t =>
    refine ⟨fun glyphs n h => ?_, fun n actions h => ?_⟩ <;> obtain ⟨z, k, e⟩ := bind_some h <;> clear h <;> cases e
    cases t with
    | format1 t =>
      obtain ⟨set, h1, rule, h2, rfl⟩ := ruleOf_mem k
      exact hx set (entry_mem h1) rule h2
    | format2 t =>
      obtain ⟨set, h1, rule, h2, rfl⟩ := ruleOf_mem k
      exact hx _ (classEntry_mem h1) set (by simp) rule h2
    | format3 t =>
      injection k with k
      split at k
      · cases k; exact hx
      · cases k
  | extensionSubstitution t => exact ⟨fun glyphs n h => (by cases h), fun n actions h => (by cases h)⟩
  | reverseChainedContextualSubstibution t => exact ⟨fun glyphs n h => (by cases h), fun n actions h => (by cases h)⟩

/-- A text becomes no more than so many times as long, according to what the table that was taken from the file may put in and to
how many of its lookups are wanted. -/
theorem C129_taken {accept : Tag → Bool} {cfg : Cfg} {d : Data} (hd : Fits d) {p : Nat} {substitution : Option gsub.GlyphSubstitution}
    (h : Takes accept cfg d p .glyphSubstitution (gsub.GlyphSubstitution.read cfg) substitution) {most asked : Nat}
    {script language : Tag} {tags : List Tag} {numbers : List Nat}
    (hs : ∀ t, substitution = some t → Inline substitutionExtension t ∧
      ∀ record ∈ t.lookups.records, ∀ table ∈ record.tables, TablePutsIn most asked table)
    (hw : ∀ i, WantedOf substitution script language tags i → i ∈ numbers) {n : Nat} {glyphs : List Nat} {out : List Item}
    (hr : Reads (typeset accept cfg n script language tags glyphs) d 0 out) :
    out.length ≤ glyphs.length * factor most asked n ^ numbers.length := by
  refine C129_longer hd (fun a ha => ⟨?_, ?_⟩) hr
  · intro i j type_ b type' b' g1 g2 before g following
    obtain ⟨x, h3, h4⟩ := taken_subtables hd h hs a ha i j type_ b type' b' g1 g2
    have key := react_iff hd before g following type' b' x h3
    have h5 := react_putsIn h4 (before := before) (g := g) (following := following)
    exact ⟨fun glyphs n hy => h5.1 glyphs n ((key.1 (.replaced glyphs n)).mpr hy),
      fun n actions e hy => h5.2 n actions ((key.1 (.sequence n actions)).mpr (.inl ⟨e, hy⟩)),
      fun n actions e hy => h5.2 n actions ((key.1 (.sequence n actions)).mpr (.inr ⟨e, hy⟩))⟩
  · intro i hi
    cases substitution with
    | none =>
      obtain ⟨file, h1, font, h2, h3⟩ := id h
      obtain ⟨_, font', e, _⟩ := (C01_one_font accept d 0 hd file).mp h1
      have e : file = ⟨[font']⟩ := by cases file; simp only at e; rw [e]
      subst e
      obtain ⟨record, ⟨_, _, e, hk, _⟩, _⟩ := (tableAt_iff hd h1 _).mp ha
      exact ((absent_iff hd h1).mp ((C55_absent accept cfg _ hd p).mp h) record (by rw [e]; simp) hk).elim
    | some t =>
      obtain ⟨b, k1, k2⟩ := ((C55_tables accept cfg hd p).1 t).mp h
      cases taken_place hd h ha k1
      obtain ⟨found, e, hf, _⟩ := wanted_found (isTable := Spec.gsub.IsTable) hd
        ((reads_parses (r := gsub.GlyphSubstitution.read cfg) hd).mpr k2) script language tags
      exact hw i ((wanted_any e i).mp ((hf i).mpr hi))

/-! ## An example -/

/-- A table that makes glyph 9 into two of it, by its first lookup; the second lookup asks for the first twice at each glyph 9. Only
the second is wanted. -/
def growingTable : Data := bytes <|
  [0, 1,  0, 0,  0, 10,  0, 30,  0, 44] ++
  [0, 1,  0x6C, 0x61, 0x74, 0x6E,  0, 8] ++ [0, 4,  0, 0] ++ [0, 0,  0xFF, 0xFF,  0, 1,  0, 0] ++
  [0, 1,  0x63, 0x61, 0x6C, 0x74,  0, 8] ++ [0, 0,  0, 1,  0, 1] ++
  [0, 2,  0, 6,  0, 34] ++
  [0, 2,  0, 0,  0, 1,  0, 8] ++ [0, 1,  0, 8,  0, 1,  0, 14] ++ [0, 1,  0, 1,  0, 9] ++ [0, 2,  0, 9,  0, 9] ++
  [0, 5,  0, 0,  0, 1,  0, 8] ++ [0, 3,  0, 1,  0, 2,  0, 16,  0, 0,  0, 0,  0, 0,  0, 0] ++ [0, 1,  0, 1,  0, 9]

def growingFile : Data := fontFile 0x00010000 32 1 0 [(TableType.glyphSubstitution.tag, growingTable)]

def growingRead : File :=
  match File.read (· == 0x00010000) growingFile 0 with
  | .ok x => x.1
  | .error _ => ⟨[]⟩

def growingValue : gsub.GlyphSubstitution :=
  match gsub.GlyphSubstitution.read ⟨false, false, false, false, false, false⟩ growingTable 0 with
  | .ok x => x.1
  | .error _ => sampleGsub

/-- Every text becomes at most three times as long, and some do become that long. -/
example : (∀ glyphs out, Reads (typeset (· == 0x00010000) ⟨false, false, false, false, false, false⟩ 2 0x6C61746E 0x44455520 [0x63616C74] glyphs)
      growingFile 0 out → out.length ≤ glyphs.length * 3 ^ 1) ∧
    Reads (typeset (· == 0x00010000) ⟨false, false, false, false, false, false⟩ 2 0x6C61746E 0x44455520 [0x63616C74] [9, 9])
      growingFile 0 ([9, 9, 9, 9, 9, 9].map Item.of) := by
  have hf : Reads (File.read (· == 0x00010000)) growingFile 0 growingRead := by decide +kernel
  have ht : Takes (· == 0x00010000) ⟨false, false, false, false, false, false⟩ growingFile 0 .glyphSubstitution
      (gsub.GlyphSubstitution.read ⟨false, false, false, false, false, false⟩) (some growingValue) := ⟨_, hf, by decide +kernel⟩
  have h1 : Inline substitutionExtension growingValue := by unfold Inline; decide +kernel
  have h2 : ∀ record ∈ growingValue.lookups.records, ∀ table ∈ record.tables,
      table = .multipleSubstitution ⟨1, 8, 1, [14], .format1 ⟨1, 1, [9]⟩, [⟨2, [9, 9]⟩]⟩ ∨
      table = .contextualSubstitution (.format3 ⟨3, 1, 2, [16], [⟨0, 0⟩, ⟨0, 0⟩], [.format1 ⟨1, 1, [9]⟩]⟩) := by decide +kernel
  have h3 : wantedNumbers growingValue 0x6C61746E 0x44455520 [0x63616C74] = [1] := by decide +kernel
  refine ⟨fun glyphs out hr => ?_, by decide +kernel⟩
  refine C129_taken (most := 2) (asked := 2) (numbers := [1]) (by decide +kernel) ht (fun t e => ?_) (fun i hi => ?_) hr
  · obtain rfl := Option.some.inj e
    refine ⟨h1, fun record hr table hm => ?_⟩
    rcases h2 record hr table hm with rfl | rfl
    · intro s hs
      cases List.mem_singleton.mp hs
      decide
    · exact Nat.le_refl 2
  · rw [← h3]
    exact wantedNumbers_iff.mp hi

end OpenType.Props
