import Verif.Spec.Apart
import Verif.Props.Typeset
import Verif.Props.Follow
import Verif.Props.Safety
/-! # C121: text depends on the tables, wherever they are -/

namespace OpenType.Props
open OpenType Spec lookup directory

/-! ## A program on a tape of its own and on a larger one -/

/-- What the first program gives on the tape `s`, a value or the failure of malformed data, the second gives on the tape `d`,
wherever the tapes are. -/
def Carries (s d : Data) {α : Type} (r r' : Reader α) : Prop :=
  ∀ q q', (∀ x, Reads r s q x → Reads r' d q' x) ∧
    ∀ m, r s q = .error (.malformed m) → r' d q' = .error (.malformed m)

section
variable {s d : Data} {α β : Type}

theorem Carries.pure {a : α} : Carries s d (Pure.pure a) (Pure.pure a) :=
  fun _ _ => ⟨fun _ h => reads_pure.mpr (reads_pure.mp h), fun _ h => (by cases h)⟩

theorem Carries.fail {e : Err} : Carries s d (.fail e : Reader α) (.fail e) :=
  fun _ _ => ⟨fun _ ⟨_, h⟩ => (by cases h), fun _ h => (by cases h; rfl)⟩

theorem Carries.bind {r r' : Reader α} {f f' : α → Reader β} (h : Carries s d r r') (hf : ∀ a, Carries s d (f a) (f' a)) :
    Carries s d (r >>= f) (r' >>= f') := by
  intro q q'
  constructor
  · intro x hx
    obtain ⟨a, m, e, hx⟩ := reads_bind_iff.mp hx
    obtain ⟨m', e'⟩ := (h q q').1 a ⟨m, e⟩
    exact reads_bind_iff.mpr ⟨a, m', e', (hf a m m').1 x hx⟩
  · intro m hm
    cases e : r s q with
    | error x =>
      rw [bind_error e] at hm
      cases hm
      exact bind_error ((h q q').2 m e)
    | ok x =>
      obtain ⟨a, k⟩ := x
      rw [bind_ok e] at hm
      obtain ⟨k', e'⟩ := (h q q').1 a ⟨k, e⟩
      rw [bind_ok e']
      exact (hf a k k').2 m hm

theorem Carries.map {r r' : Reader α} (h : Carries s d r r') (f : α → β) :
    Carries s d (do let a ← r; return f a) (do let a ← r'; return f a) := h.bind fun _ => .pure

end

/-! ## Subtables -/

/-- Extensions are in the data, and their offsets are of 32 bits. -/
theorem extension_within {T : Type} {cfg : Cfg} {number : Nat} {extension : T → Option (Nat × Nat)}
    {readTable : Nat → Reader T} {isTable : Nat → Data → Nat → T → Prop} [∀ t, Parses (readTable t) (isTable t)]
    (he : ∀ type_ d a table, isTable type_ d a table → (type_ ≠ number ∧ extension table = none) ∨
      type_ = number ∧ ∃ type' offset, extension table = some (type', offset) ∧ U16 d (a + 2) type' ∧ U32 d (a + 4) offset)
    {d : Data} {p : Nat} (hd : Fits d) {t : Directory T} (h : Reads (Directory.read cfg readTable) d p t)
    {i j o a type_ offset : Nat} {record : lookup.Record T} {table : T}
    (e1 : t.lookups.offsets[i]? = some o) (e2 : t.lookups.records[i]? = some record)
    (e3 : record.table_offsets[j]? = some a) (e4 : record.tables[j]? = some table)
    (e5 : extension table = some (type_, offset)) : p + t.lookup_offset + o + a < d.length ∧ offset < 4294967296 := by
  have h := (reads_parses (S := IsDirectory cfg isTable) hd).mp h
  obtain ⟨_, _, _, _, _, _, ho, _, _, _, hp, _⟩ := h
  rcases IsPart.listAt (k := 2) ho hp with ⟨b, hb, h1, ⟨h2, h3⟩, h4, h5⟩ | ⟨hn, _⟩
  · obtain ⟨g1, _, _, g4, ⟨g5, g6⟩, _, g7, g8⟩ := h5 i _ _ e1 e2
    have f3 := g8 j _ _ e3 e4
    have hb' : b = p + t.lookup_offset := by
      obtain ⟨o', m1, _, rfl⟩ := hb
      rw [m1.unique (show U16 d (p + 4 + 2 * 2) t.lookup_offset from ho)]
    have hlt := (inferInstance : Parses (readTable record.type_) (isTable record.type_)).bound f3
    rcases he _ _ _ _ f3 with ⟨_, m2⟩ | ⟨_, type', offset', m2, m3, m4⟩
    · rw [m2] at e5; cases e5
    · rw [m2] at e5
      cases e5
      have := m4.lt
      rw [hb'] at hlt
      exact ⟨by omega, by omega⟩
  · rw [hn] at e1
    simp at e1

section
variable {cfg : Cfg} {before s after d : Data} (e : d = before ++ s ++ after) (hd : Fits d) {T : Type} {number : Nat}
  {extension : T → Option (Nat × Nat)} {readTable : Nat → Reader T} {isTable : Nat → Data → Nat → T → Prop}
  [hP : ∀ t, Parses (readTable t) (isTable t)] (hR : ∀ t, Relocatable (readTable t))
  (he : ∀ type_ d a table, isTable type_ d a table → (type_ ≠ number ∧ extension table = none) ∨
      type_ = number ∧ ∃ type' offset, extension table = some (type', offset) ∧ U16 d (a + 2) type' ∧ U32 d (a + 4) offset)
  {t : Directory T} (ht : Reads (Directory.read cfg readTable) s 0 t)
include e hd hP hR he ht

theorem carries_subtable (i j : Nat) :
    Carries s d (subtable extension readTable 0 t i j) (subtable extension readTable before.length t i j) := by
  unfold subtable
  split
  · rename_i o record e1 e2
    split
    · rename_i a table e3 e4
      split
      · rename_i type_ offset e5
        have hs : Fits s := by
          have : d.length = _ := congrArg List.length e
          simp only [List.length_append] at this
          unfold Fits at *
          omega
        obtain ⟨h1, h2⟩ := extension_within he hs ht e1 e2 e3 e4 e5
        have hl : d.length = before.length + s.length + after.length := by rw [e]; simp only [List.length_append]
        have hd' := hd
        unfold Fits at hd'
        intro q q'
        rw [show before.length + t.lookup_offset + o + a = before.length + (0 + t.lookup_offset + o + a) by omega]
        generalize 0 + t.lookup_offset + o + a = b at *
        have hr := hR type_ before s after (b + offset) (e ▸ hd)
        rw [← e, ← Nat.add_assoc] at hr
        unfold Reads
        rw [jumpTake_some (by omega), jumpTake_some (by omega)]
        constructor
        · rintro x ⟨k, hx⟩
          cases ex : readTable type_ s (b + offset) with
          | error err => rw [ex] at hx; cases hx
          | ok y =>
            rw [ex] at hx
            obtain ⟨y, ky⟩ := y
            cases hx
            obtain ⟨k', e'⟩ := hr.1 y ⟨ky, ex⟩
            exact ⟨k', by rw [e']; rfl⟩
        · intro m hm
          cases ex : readTable type_ s (b + offset) with
          | error err =>
            rw [ex] at hm
            cases hm
            rw [hr.2 m ex]
            rfl
          | ok y => rw [ex] at hm; cases hm
      · exact .pure
    · exact .pure
  · exact .pure

theorem carries_firstActing {β : Type} (act : T → Except Err (Option β)) (i : Nat) (js : List Nat) :
    Carries s d (firstActing extension readTable act 0 t i js) (firstActing extension readTable act before.length t i js) := by
  induction js with
  | nil => exact .pure
  | cons j js ih =>
    unfold firstActing
    refine (carries_subtable e hd hR he ht i j).bind fun x => ?_
    cases x with
    | none => exact .pure
    | some x =>
      dsimp only
      split
      · exact .fail
      · exact .pure
      · exact ih

theorem carries_perform {β : Type} (act : T → Except Err (Option β)) (i : Nat) :
    Carries s d (perform extension readTable act 0 t i) (perform extension readTable act before.length t i) :=
  carries_firstActing e hd hR he ht act i _

end

/-! ## Text -/

section
variable {s d : Data} {α : Type}

theorem carries_actAll {nested nested' : Nat → List α → List α → Reader (Option (List α × List α))}
    (h : ∀ i a b, Carries s d (nested i a b) (nested' i a b)) (ignored : α → Bool) (before : List α) (actions : List context.Action) :
    ∀ window rest, Carries s d (actAll nested ignored before actions window rest)
      (actAll nested' ignored before actions window rest) := by
  induction actions with
  | nil => intro window rest; exact .pure
  | cons action actions ih =>
    intro window rest
    unfold actAll
    split
    · exact ih _ _
    · refine (h _ _ _).bind fun x => ?_
      cases x <;> exact ih _ _

theorem carries_forward {touch touch' : List α → List α → Reader (Option (List α × List α))}
    (h : ∀ a b, Carries s d (touch a b) (touch' a b)) (fuel : Nat) :
    ∀ before text, Carries s d (forward touch fuel before text) (forward touch' fuel before text) := by
  induction fuel with
  | zero => intro before text; exact .pure
  | succ fuel ih =>
    intro before text
    cases text with
    | nil => exact .pure
    | cons g following =>
      unfold forward
      refine (h _ _).bind fun x => ?_
      rcases x with - | ⟨done, rest⟩
      · exact (ih _ _).bind fun _ => .pure
      · exact (ih _ _).bind fun _ => .pure

theorem carries_below {pass pass' : Nat → List α → Reader (List α)} (h : ∀ i a, Carries s d (pass i a) (pass' i a))
    (wanted : Nat → Bool) (m : Nat) : ∀ glyphs, Carries s d (below pass wanted m glyphs) (below pass' wanted m glyphs) := by
  induction m with
  | zero => intro glyphs; exact .pure
  | succ m ih =>
    intro glyphs
    unfold below
    refine (ih _).bind fun x => ?_
    split
    · exact h _ _
    · exact .pure

theorem carries_passAll {T : Type} (t : Directory T) {pass pass' : Nat → List α → Reader (List α)}
    (h : ∀ i a, Carries s d (pass i a) (pass' i a)) (script language : Tag) (tags : List Tag) (glyphs : List α) :
    Carries s d (passAll t pass script language tags glyphs) (passAll t pass' script language tags glyphs) := by
  unfold passAll
  split
  · exact .fail
  · exact carries_below h _ _ _

end

section
variable {cfg : Cfg} {before s after d : Data} (e : d = before ++ s ++ after) (hd : Fits d)
include e hd

theorem carries_shapeText {t : gsub.GlyphSubstitution} (ht : Reads (gsub.GlyphSubstitution.read cfg) s 0 t)
    (ignored : Nat → Nat → Bool) (n : Nat) (script language : Tag) (tags : List Tag) (glyphs : List Nat) :
    Carries s d (shapeText 0 t ignored n script language tags glyphs)
      (shapeText before.length t ignored n script language tags glyphs) := by
  have hp {β : Type} (act : gsub.Type_ → Except Err (Option β)) (i : Nat) :=
    carries_perform (isTable := Spec.gsub.IsTable) e hd (fun _ => relocatable (e := False)) substitution_extension ht act i
  have h1 : ∀ n i a text, Carries s d (touch 0 t ignored n i a text) (touch before.length t ignored n i a text) := by
    intro n
    induction n with
    | zero => intro i a text; exact .pure
    | succ n ih =>
      intro i a text
      cases text with
      | nil => exact .pure
      | cons g following =>
        unfold touch
        split
        · exact .pure
        · refine (hp _ i).bind fun x => ?_
          rcases x with - | ⟨glyphs, k⟩ | ⟨k, actions⟩
          · exact .pure
          · exact .pure
          · exact (carries_actAll ih _ _ _ _ _).bind fun _ => .pure
  have h2 : ∀ i text a, Carries s d (backward 0 t (ignored i) i a text) (backward before.length t (ignored i) i a text) := by
    intro i text
    induction text with
    | nil => intro a; exact .pure
    | cons g following ih =>
      intro a
      unfold backward
      refine (ih _).bind fun out => ?_
      split
      · exact .pure
      · refine (hp _ i).bind fun x => ?_
        cases x <;> exact .pure
  exact carries_passAll t (fun i a => (carries_forward (h1 n i) _ _ _).bind fun _ => h2 i _ _) _ _ _ _

theorem carries_settleText {t : gpos.GlyphPositioning} (ht : Reads (gpos.GlyphPositioning.read cfg) s 0 t)
    (ignored : Nat → Nat → Bool) (mark : Nat → Bool) (n : Nat) (script language : Tag) (tags : List Tag) (text : List Item) :
    Carries s d (settleText cfg 0 t ignored mark n script language tags text)
      (settleText cfg before.length t ignored mark n script language tags text) := by
  have hp {β : Type} (act : gpos.Type_ → Except Err (Option β)) (i : Nat) :=
    carries_perform (isTable := Spec.gpos.IsTable cfg) e hd (fun _ => relocatable (e := cfg.overflowChecks = true))
      (positioning_extension cfg) ht act i
  have h1 : ∀ n i a text, Carries s d (settle cfg 0 t ignored mark n i a text) (settle cfg before.length t ignored mark n i a text) := by
    intro n
    induction n with
    | zero => intro i a text; exact .pure
    | succ n ih =>
      intro i a text
      cases text with
      | nil => exact .pure
      | cons g following =>
        unfold settle
        split
        · exact .pure
        · refine (hp _ i).bind fun x => ?_
          cases x with
          | none => exact .pure
          | some r =>
            refine Carries.bind ?_ fun _ => .pure
            cases r with
            | sequence n actions => exact carries_actAll ih _ _ _ _ _
            | _ => exact .pure
  exact carries_passAll t (fun i a => carries_forward (h1 n i) _ _ _) _ _ _ _

end

/-! ## Files -/

section
variable {accept : Tag → Bool} {cfg : Cfg} {d : Data} (hd : Fits d) {font : Font}
  (hf : Reads (File.read accept) d 0 ⟨[font]⟩) {table : TableType} {α : Type} {r : Reader α}
include hd hf

/-- Taking a table is reading it where it is. -/
theorem run_tableOf {a : Nat} (h : TableAt accept cfg d table a) (q : Nat) :
    tableOf cfg font table r d q = match r d a with
      | .ok (t, k) => .ok (some (a, t), k)
      | .error x => .error x := by
  obtain ⟨record, h2, rfl, h3⟩ := (tableAt_iff hd hf _).mp h
  have hp : font.position cfg tableChecksum table = Font.found cfg tableChecksum record := Font.positionIn_first h2
  have ht : record.tag = table.tag := by obtain ⟨_, _, _, h, _⟩ := h2; exact h
  unfold tableOf
  rw [hp, bind_ok (found_passes ((passes_iff ht).mpr ((passes_iff ht).mp h3)))]
  dsimp only
  rw [show (OpenType.position >>= fun p => r >>= fun t => pure (some (p, t))) d record.offset =
    (r >>= fun t => (pure (some (record.offset, t)) : Reader (Option (Nat × α)))) d record.offset from rfl, run_bind_eq]
  cases r d record.offset <;> rfl

theorem run_tableOf_none (h : Absent accept d table) (q : Nat) : tableOf cfg font table r d q = .ok (none, q) := by
  have hp : font.position cfg tableChecksum table = pure none := Font.positionIn_none ((absent_iff hd hf).mp h)
  unfold tableOf
  rw [hp]
  rfl

end

/-- What a program says in one way, another says in another. -/
def Bears {α : Type} (x : Except Err α) (r : Reader α) (d : Data) (q : Nat) : Prop :=
  (∀ y, x = .ok y → Reads r d q y) ∧ ∀ m, x = .error (.malformed m) → r d q = .error (.malformed m)

theorem Bears.bind {α β : Type} {x : Except Err α} {f : α → Except Err β} {r : Reader α} {g : α → Reader β} {d : Data} {q : Nat}
    (h : Bears x r d q) (hf : ∀ a k, x = .ok a → r d q = .ok (a, k) → Bears (f a) (g a) d k) : Bears (x >>= f) (r >>= g) d q := by
  cases x with
  | error e =>
    refine ⟨fun y hy => (by cases hy), fun m hm => ?_⟩
    cases hm
    exact bind_error (h.2 m rfl)
  | ok a =>
    obtain ⟨k, e⟩ := h.1 a rfl
    have := hf a k rfl e
    refine ⟨fun y hy => ?_, fun m hm => ?_⟩
    · exact reads_bind_iff.mpr ⟨a, k, e, this.1 y hy⟩
    · rw [bind_ok e]
      exact this.2 m hm

theorem alone_ok {α : Type} {r : Reader α} {s : Data} {x : α} (h : alone r s = .ok x) : Reads r s 0 x := by
  unfold alone at h
  cases e : r s 0 with
  | error _ => rw [e] at h; cases h
  | ok y =>
    rw [e] at h
    obtain ⟨y, k⟩ := y
    cases h
    exact ⟨k, e⟩

theorem alone_error {α : Type} {r : Reader α} {s : Data} {x : Err} (h : alone r s = .error x) : r s 0 = .error x := by
  unfold alone at h
  cases e : r s 0 with
  | error _ => rw [e] at h; cases h; rfl
  | ok y => rw [e] at h; cases h

section
variable {accept : Tag → Bool} {cfg : Cfg} {d : Data} (hd : Fits d) {font : Font}
  (hf : Reads (File.read accept) d 0 ⟨[font]⟩) {table : TableType} {α β : Type}
include hd hf

/-- A table alone and in the file, and a program that uses it. -/
theorem bears_with {r : Reader α} (hr : Relocatable r) {before s after : Data} (e : d = before ++ s ++ after)
    (ht : TableAt accept cfg d table before.length) {f : α → Reader β} {g : Option (Nat × α) → Reader β}
    (h : ∀ t, Reads r s 0 t → Carries s d (f t) (g (some (before.length, t)))) (q : Nat) :
    Bears (alone (do let t ← r; f t) s) (do let x ← tableOf cfg font table r; g x) d q := by
  have hm := hr before s after 0 (e ▸ hd)
  rw [← e, Nat.add_zero] at hm
  cases er : r s 0 with
  | error x =>
    refine ⟨fun y hy => ?_, fun m h' => ?_⟩
    · obtain ⟨k, hk⟩ := alone_ok hy
      rw [bind_error er] at hk
      cases hk
    · have := alone_error h'
      rw [bind_error er] at this
      cases this
      refine bind_error ?_
      rw [run_tableOf hd hf ht, hm.2 m er]
  | ok x =>
    obtain ⟨t, k⟩ := x
    obtain ⟨k', e'⟩ := hm.1 t ⟨k, er⟩
    have eo : tableOf cfg font table r d q = .ok (some (before.length, t), k') := by rw [run_tableOf hd hf ht, e']
    refine ⟨fun y hy => ?_, fun m h' => ?_⟩
    · obtain ⟨k2, hk⟩ := alone_ok hy
      rw [bind_ok er] at hk
      unfold Reads
      rw [bind_ok eo]
      exact (h t ⟨k, er⟩ k k').1 y ⟨k2, hk⟩
    · have := alone_error h'
      rw [bind_ok er] at this
      rw [bind_ok eo]
      exact (h t ⟨k, er⟩ k k').2 m this

variable {definition definition' : Option (Nat × gdef.GlyphDefinition)} (hi : definition.map (·.2) = definition'.map (·.2))
include hi

omit hd hf in
theorem ignoring_same {T : Type} (t : Directory T) : ignoring definition t = ignoring definition' t := by
  cases definition <;> cases definition'
  · rfl
  · cases hi
  · cases hi
  · injection hi with hi
    funext i g
    unfold ignoring
    dsimp only at hi ⊢
    rw [hi]

omit hd hf in
theorem marked_same : marked definition = marked definition' := by
  cases definition <;> cases definition'
  · rfl
  · cases hi
  · cases hi
  · injection hi with hi
    funext g
    unfold marked
    dsimp only at hi ⊢
    rw [hi]

theorem bears_shape {gsub : Option Data} (h : HasTable accept cfg d .glyphSubstitution gsub) (n : Nat) (script language : Tag)
    (tags : List Tag) (glyphs : List Nat) (q : Nat) :
    Bears (shapeAlone cfg definition n script language tags glyphs gsub)
      (shapeWith cfg font definition' n script language tags glyphs) d q := by
  cases gsub with
  | none =>
    unfold shapeWith
    refine ⟨fun y hy => ?_, fun m hm => (by cases hm)⟩
    cases hy
    exact reads_bind_iff.mpr ⟨_, _, run_tableOf_none hd hf h q, reads_pure.mpr rfl⟩
  | some s =>
    obtain ⟨before, after, e, ht⟩ := h
    refine bears_with hd hf (relocatable (e := False)) e ht (fun t hs => ?_) q
    rw [ignoring_same hi]
    exact carries_shapeText e hd hs _ _ _ _ _ _

theorem bears_settle {gpos : Option Data} (h : HasTable accept cfg d .glyphPositioning gpos) (n : Nat) (script language : Tag)
    (tags : List Tag) (glyphs : List Nat) (q : Nat) :
    Bears (settleAlone cfg definition n script language tags glyphs gpos)
      (settleWith cfg font definition' n script language tags glyphs) d q := by
  cases gpos with
  | none =>
    unfold settleWith
    refine ⟨fun y hy => ?_, fun m hm => (by cases hm)⟩
    cases hy
    exact reads_bind_iff.mpr ⟨_, _, run_tableOf_none hd hf h q, reads_pure.mpr rfl⟩
  | some s =>
    obtain ⟨before, after, e, ht⟩ := h
    refine bears_with hd hf (relocatable (e := cfg.overflowChecks = true)) e ht (fun t hs => ?_) q
    rw [ignoring_same hi, marked_same hi]
    exact carries_settleText e hd hs _ _ _ _ _ _ _

end

/-- Whatever glyphs the tables alone are set to, and whatever failure of malformed data they lead to, is what a file gives that
has these tables: wherever they are in it, and whatever else is. -/
theorem C121_tables (accept : Tag → Bool) (cfg : Cfg) {d : Data} (hd : Fits d) {definition substitution positioning : Option Data}
    (h1 : HasTable accept cfg d .glyphDefinition definition) (h2 : HasTable accept cfg d .glyphSubstitution substitution)
    (h3 : HasTable accept cfg d .glyphPositioning positioning) (n : Nat) (script language : Tag) (tags : List Tag) (glyphs : List Nat) :
    (∀ out, setApart cfg definition substitution positioning n script language tags glyphs = .ok out →
      Reads (typeset accept cfg n script language tags glyphs) d 0 out) ∧
    ∀ m, setApart cfg definition substitution positioning n script language tags glyphs = .error (.malformed m) →
      typeset accept cfg n script language tags glyphs d 0 = .error (.malformed m) := by
  obtain ⟨directory, hn, ho⟩ : ∃ directory, ¬U32 d 0 0x74746366 ∧ IsOffsets accept d 0 directory := by
    cases definition with
    | none => obtain ⟨k1, directory, k2, _⟩ := h1; exact ⟨directory, k1, k2⟩
    | some s => obtain ⟨_, _, _, k1, directory, _, k2, _⟩ := h1; exact ⟨directory, k1, k2⟩
  have hf := (C01_one_font accept d 0 hd ⟨[⟨directory⟩]⟩).mpr ⟨hn, ⟨directory⟩, rfl, ho⟩
  have hf' := hf
  obtain ⟨q, e⟩ := hf'
  suffices h : Bears (setApart cfg definition substitution positioning n script language tags glyphs)
      (typeset accept cfg n script language tags glyphs) d 0 from h
  have key : Bears (setApart cfg definition substitution positioning n script language tags glyphs) (do
      let definition ← tableOf cfg ⟨directory⟩ .glyphDefinition (gdef.GlyphDefinition.read cfg)
      let glyphs ← shapeWith cfg ⟨directory⟩ definition n script language tags glyphs
      settleWith cfg ⟨directory⟩ definition n script language tags glyphs) d q := by
    have rest : ∀ x y k, Option.map (·.2) x = Option.map (·.2) y → Bears (do
          let glyphs ← shapeAlone cfg x n script language tags glyphs substitution
          settleAlone cfg x n script language tags glyphs positioning) (do
          let glyphs ← shapeWith cfg ⟨directory⟩ y n script language tags glyphs
          settleWith cfg ⟨directory⟩ y n script language tags glyphs) d k := fun x y k hi =>
      (bears_shape hd hf hi h2 _ _ _ _ _ _).bind fun _ _ _ _ => bears_settle hd hf hi h3 _ _ _ _ _ _
    unfold setApart
    cases definition with
    | none =>
      unfold Bears Reads
      rw [bind_ok (run_tableOf_none hd hf h1 q)]
      exact rest none none q rfl
    | some s =>
      obtain ⟨before, after, ed, ht⟩ := h1
      have hm := (relocatable (e := cfg.overflowChecks = true) : Relocatable (gdef.GlyphDefinition.read cfg)) before s after 0 (ed ▸ hd)
      rw [← ed, Nat.add_zero] at hm
      cases er : alone (gdef.GlyphDefinition.read cfg) s with
      | error x =>
        simp only [definitionAlone, er]
        refine ⟨fun y hy => (by cases hy), fun m h' => ?_⟩
        cases h'
        refine bind_error ?_
        rw [run_tableOf hd hf ht, hm.2 m (alone_error er)]
      | ok t =>
        obtain ⟨k, ek⟩ := hm.1 t (alone_ok er)
        have eo : tableOf cfg ⟨directory⟩ .glyphDefinition (gdef.GlyphDefinition.read cfg) d q =
          .ok (some (before.length, t), k) := by rw [run_tableOf hd hf ht, ek]
        simp only [definitionAlone, er]
        unfold Bears Reads
        rw [bind_ok eo]
        exact rest (some (0, t)) _ k rfl
  refine ⟨fun y hy => ?_, fun m hm => ?_⟩
  · exact reads_bind_iff.mpr ⟨_, _, e, key.1 y hy⟩
  · unfold typeset
    rw [bind_ok e]
    exact key.2 m hm

/-- Two files that have the same tables set text alike, whatever tables the files have besides and in whatever order, if the
tables suffice. -/
theorem C121_files (accept accept' : Tag → Bool) (cfg : Cfg) {d d' : Data} (hd : Fits d) (hd' : Fits d')
    {definition substitution positioning : Option Data}
    (h : ∀ d₁ accept₁, (d₁ = d ∧ accept₁ = accept) ∨ (d₁ = d' ∧ accept₁ = accept') →
      HasTable accept₁ cfg d₁ .glyphDefinition definition ∧ HasTable accept₁ cfg d₁ .glyphSubstitution substitution ∧
      HasTable accept₁ cfg d₁ .glyphPositioning positioning) (n : Nat) (script language : Tag) (tags : List Tag) (glyphs : List Nat)
    (hs : ∃ out, setApart cfg definition substitution positioning n script language tags glyphs = .ok out) (out : List Item) :
    Reads (typeset accept cfg n script language tags glyphs) d 0 out ↔
      Reads (typeset accept' cfg n script language tags glyphs) d' 0 out := by
  obtain ⟨x, hx⟩ := hs
  obtain ⟨a1, a2, a3⟩ := h d accept (.inl ⟨rfl, rfl⟩)
  obtain ⟨b1, b2, b3⟩ := h d' accept' (.inr ⟨rfl, rfl⟩)
  obtain ⟨q, e⟩ := (C121_tables accept cfg hd a1 a2 a3 n script language tags glyphs).1 x hx
  obtain ⟨q', e'⟩ := (C121_tables accept' cfg hd' b1 b2 b3 n script language tags glyphs).1 x hx
  unfold Reads
  rw [e, e']
  constructor
  · rintro ⟨_, h⟩; cases h; exact ⟨_, rfl⟩
  · rintro ⟨_, h⟩; cases h; exact ⟨_, rfl⟩

theorem bodyOf_none {table : TableType} {tables : List (Tag × Data)} (h : bodyOf table tables = none) :
    ∀ t ∈ tables, t.1 ≠ table.tag := by
  induction tables with
  | nil => simp
  | cons t tables ih =>
    obtain ⟨tag, body⟩ := t
    unfold bodyOf at h
    split at h
    · cases h
    · rename_i hne
      intro t ht
      rcases List.mem_cons.mp ht with rfl | ht
      · exact hne
      · exact ih h t ht

theorem bodyOf_some {table : TableType} {tables : List (Tag × Data)} {body : Data} (h : bodyOf table tables = some body) :
    ∃ before rest, tables = before ++ (table.tag, body) :: rest ∧ ∀ t ∈ before, t.1 ≠ table.tag := by
  induction tables with
  | nil => cases h
  | cons t tables ih =>
    obtain ⟨tag, body'⟩ := t
    unfold bodyOf at h
    split at h
    · rename_i e
      cases h
      exact ⟨[], tables, by rw [e]; rfl, by simp⟩
    · rename_i hne
      obtain ⟨before, rest, e, hb⟩ := ih h
      refine ⟨(tag, body') :: before, rest, by rw [e]; rfl, ?_⟩
      intro t ht
      rcases List.mem_cons.mp ht with rfl | ht
      · exact hne
      · exact hb t ht

/-- A file that was written has the first table with each tag. -/
theorem hasTable_written {accept : Tag → Bool} {version a b c : Nat} {tables : List (Tag × Data)}
    (hw : Writable accept version a b c tables) {after : Data} (hd : Fits (fontFile version a b c tables ++ after)) (cfg : Cfg)
    (table : TableType) : HasTable accept cfg (fontFile version a b c tables ++ after) table (bodyOf table tables) := by
  have ho := C56_opens hw hd
  cases hb : bodyOf table tables with
  | none =>
    refine (absent_iff hd ho).mpr fun record hr => ?_
    obtain ⟨before, body, rest, e, _⟩ := mem_recordsFrom hr
    exact bodyOf_none hb (record.tag, body) (by rw [e]; simp)
  | some body =>
    obtain ⟨before, rest, e, hb⟩ := bodyOf_some hb
    obtain ⟨pre, post, e1, e2⟩ := table_written version a b c before rest table.tag body
    rw [← e] at e1 e2
    have hF : FirstWith table.tag (directoryOf version a b c tables).offsets.records
        ⟨table.tag, checksumOf table.tag body, pre.length, body.length⟩ := by
      refine ⟨recordsFrom (tablesOffset tables) before,
        recordsFrom (pre.length + (pad body).length) rest, ?_, rfl, ?_⟩
      · show recordsFrom (tablesOffset tables) tables = _
        rw [e2]
        generalize tablesOffset tables = o
        rw [e, recordsFrom_append]
        rfl
      · intro other ho
        obtain ⟨b', body', _, e', _⟩ := mem_recordsFrom ho
        exact hb (other.tag, body') (by rw [e']; simp)
    have hs : Stored (fontFile version a b c tables ++ after) pre.length (pad body) := by
      rw [e1]
      intro i x hi
      have := (List.getElem?_eq_some_iff.mp hi).1
      rw [List.append_assoc, List.append_assoc, List.getElem?_append_right (by omega), Nat.add_sub_cancel_left,
        List.getElem?_append_left this]
      exact hi
    refine ⟨pre, List.replicate ((4 - body.length % 4) % 4) 0 ++ post ++ after, ?_,
      (tableAt_iff hd ho _).mpr ⟨_, hF, rfl, .inr ⟨_, checksum_written hs⟩⟩⟩
    rw [e1]; unfold pad; simp only [List.append_assoc]

/-- In a file written from tables, only the first with each of three tags matter: not the format tag, not the numbers nobody
needs, not the other tables, not the order, not what follows the file, and not whether checksums are tested. -/
theorem C121_written {accept : Tag → Bool} {version a b c : Nat} {tables : List (Tag × Data)}
    (hw : Writable accept version a b c tables) {after : Data} (hd : Fits (fontFile version a b c tables ++ after)) (cfg : Cfg)
    (n : Nat) (script language : Tag) (tags : List Tag) (glyphs : List Nat) :
    (∀ out, setApart cfg (bodyOf .glyphDefinition tables) (bodyOf .glyphSubstitution tables) (bodyOf .glyphPositioning tables)
        n script language tags glyphs = .ok out →
      Reads (typeset accept cfg n script language tags glyphs) (fontFile version a b c tables ++ after) 0 out) ∧
    ∀ m, setApart cfg (bodyOf .glyphDefinition tables) (bodyOf .glyphSubstitution tables) (bodyOf .glyphPositioning tables)
        n script language tags glyphs = .error (.malformed m) →
      typeset accept cfg n script language tags glyphs (fontFile version a b c tables ++ after) 0 = .error (.malformed m) :=
  C121_tables accept cfg hd (hasTable_written hw hd cfg _) (hasTable_written hw hd cfg _) (hasTable_written hw hd cfg _)
    n script language tags glyphs

/-- The tables of `typesettingFile` alone, and with others from which a file can be written; and what they give if the first four
bytes of a table are not a version. -/
example :
    setApart ⟨false, false, false, false, false, false⟩ none (some shapingTable) (some positioningTable) 2 0x6C61746E 0x44455520
      [0x6C696761, 0x6B65726E] [9, 3] = .ok [⟨6, 0, []⟩, ⟨3, 0, [.moved (advance 6)]⟩] ∧
    bodyOf .glyphSubstitution [(7, []), (TableType.glyphPositioning.tag, positioningTable),
      (TableType.glyphSubstitution.tag, shapingTable), (TableType.glyphSubstitution.tag, [])] = some shapingTable ∧
    setApart ⟨false, false, false, false, false, false⟩ none (some (shapingTable.set 1 9)) none 2 0x6C61746E 0x44455520
      [0x6C696761] [9, 3] = .error (.malformed ⟨"found an unknown version of the directory table", [9, 0]⟩) ∧
    Writable (· == 0x00010000) 0x00010000 32 1 0 [(7, []), (TableType.glyphPositioning.tag, positioningTable),
      (TableType.glyphSubstitution.tag, shapingTable)] := by
  refine ⟨by decide +kernel, by decide +kernel, by decide +kernel, ⟨by decide, by decide, by decide, ?_, by decide +kernel⟩⟩
  decide +kernel

end OpenType.Props
