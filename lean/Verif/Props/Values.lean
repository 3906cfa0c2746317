import Verif.Spec.Values
import Verif.Props.Apart
/-! # C122: text depends on the values of the tables -/

namespace OpenType.Props
open OpenType Spec lookup directory

/-! ## Programs that do not ask -/

/-- The programs give the same, value or error, wherever their tapes are and whatever is on them. -/
def Agree {α : Type} (r r' : Reader α) : Prop := ∀ d q d' q', (r d q).map (·.1) = (r' d' q').map (·.1)

section
variable {α β : Type}

theorem Agree.pure {a : α} : Agree (Pure.pure a) (Pure.pure a) := fun _ _ _ _ => rfl

theorem Agree.fail {e : Err} : Agree (.fail e : Reader α) (.fail e) := fun _ _ _ _ => rfl

theorem Agree.bind {r r' : Reader α} {f f' : α → Reader β} (h : Agree r r') (hf : ∀ a, Agree (f a) (f' a)) :
    Agree (r >>= f) (r' >>= f') := by
  intro d q d' q'
  have := h d q d' q'
  rw [run_bind_eq, run_bind_eq]
  cases e : r d q with
  | error x =>
    cases e' : r' d' q' with
    | error x' => rw [e, e'] at this; cases this; rfl
    | ok y => rw [e, e'] at this; cases this
  | ok y =>
    obtain ⟨y, k⟩ := y
    cases e' : r' d' q' with
    | error x' => rw [e, e'] at this; cases this
    | ok z =>
      obtain ⟨z, k'⟩ := z
      rw [e, e'] at this
      have : y = z := by injection this
      subst this
      exact hf y d k d' k'

section
variable {T : Type} {extension : T → Option (Nat × Nat)} {readTable : Nat → Reader T} {t : Directory T}
  (ht : Inline extension t) (p p' : Nat)
include ht

theorem agree_subtable (i j : Nat) : Agree (subtable extension readTable p t i j) (subtable extension readTable p' t i j) := by
  unfold subtable
  split
  · rename_i o record _ e2
    split
    · rename_i a table _ e4
      rw [ht record (List.mem_of_getElem? e2) table (List.mem_of_getElem? e4)]
      exact .pure
    · exact .pure
  · exact .pure

theorem agree_perform (act : T → Except Err (Option β)) (i : Nat) :
    Agree (perform extension readTable act p t i) (perform extension readTable act p' t i) := by
  unfold perform
  generalize List.range _ = js
  induction js with
  | nil => exact .pure
  | cons j js ih =>
    unfold firstActing
    refine (agree_subtable ht p p' i j).bind fun x => ?_
    cases x with
    | none => exact .pure
    | some x =>
      dsimp only
      split
      · exact .fail
      · exact .pure
      · exact ih

end

theorem agree_actAll {nested nested' : Nat → List α → List α → Reader (Option (List α × List α))}
    (h : ∀ i a b, Agree (nested i a b) (nested' i a b)) (ignored : α → Bool) (before : List α) (actions : List context.Action) :
    ∀ window rest, Agree (actAll nested ignored before actions window rest)
      (actAll nested' ignored before actions window rest) := by
  induction actions with
  | nil => intro window rest; exact .pure
  | cons action actions ih =>
    intro window rest
    unfold actAll
    split
    · exact ih _ _
    · refine (h _ _ _).bind fun x => ?_
      cases x <;> exact ih _ _

theorem agree_forward {touch touch' : List α → List α → Reader (Option (List α × List α))}
    (h : ∀ a b, Agree (touch a b) (touch' a b)) (fuel : Nat) :
    ∀ before text, Agree (forward touch fuel before text) (forward touch' fuel before text) := by
  induction fuel with
  | zero => intro before text; exact .pure
  | succ fuel ih =>
    intro before text
    cases text with
    | nil => exact .pure
    | cons g following =>
      unfold forward
      refine (h _ _).bind fun x => ?_
      rcases x with - | ⟨done, rest⟩
      · exact (ih _ _).bind fun _ => .pure
      · exact (ih _ _).bind fun _ => .pure

theorem agree_passAll {T : Type} (t : Directory T) {pass pass' : Nat → List α → Reader (List α)}
    (h : ∀ i a, Agree (pass i a) (pass' i a)) (script language : Tag) (tags : List Tag) (glyphs : List α) :
    Agree (passAll t pass script language tags glyphs) (passAll t pass' script language tags glyphs) := by
  unfold passAll
  split
  · exact .fail
  · generalize t.lookups.records.length = m
    induction m with
    | zero => exact .pure
    | succ m ih =>
      unfold below
      refine ih.bind fun x => ?_
      split
      · exact h _ _
      · exact .pure

end

theorem agree_shapeText {t : gsub.GlyphSubstitution} (ht : Inline substitutionExtension t) (p p' : Nat)
    (ignored : Nat → Nat → Bool) (n : Nat) (script language : Tag) (tags : List Tag) (glyphs : List Nat) :
    Agree (shapeText p t ignored n script language tags glyphs) (shapeText p' t ignored n script language tags glyphs) := by
  have h1 : ∀ n i a text, Agree (touch p t ignored n i a text) (touch p' t ignored n i a text) := by
    intro n
    induction n with
    | zero => intro i a text; exact .pure
    | succ n ih =>
      intro i a text
      cases text with
      | nil => exact .pure
      | cons g following =>
        unfold touch
        split
        · exact .pure
        · refine (agree_perform ht p p' _ i).bind fun x => ?_
          rcases x with - | ⟨glyphs, k⟩ | ⟨k, actions⟩
          · exact .pure
          · exact .pure
          · exact (agree_actAll ih _ _ _ _ _).bind fun _ => .pure
  have h2 : ∀ i text a, Agree (backward p t (ignored i) i a text) (backward p' t (ignored i) i a text) := by
    intro i text
    induction text with
    | nil => intro a; exact .pure
    | cons g following ih =>
      intro a
      unfold backward
      refine (ih _).bind fun out => ?_
      split
      · exact .pure
      · refine (agree_perform ht p p' _ i).bind fun x => ?_
        cases x <;> exact .pure
  exact agree_passAll t (fun i a => (agree_forward (h1 n i) _ _ _).bind fun _ => h2 i _ _) _ _ _ _

theorem agree_settleText (cfg : Cfg) {t : gpos.GlyphPositioning} (ht : Inline positioningExtension t) (p p' : Nat)
    (ignored : Nat → Nat → Bool) (mark : Nat → Bool) (n : Nat) (script language : Tag) (tags : List Tag) (text : List Item) :
    Agree (settleText cfg p t ignored mark n script language tags text)
      (settleText cfg p' t ignored mark n script language tags text) := by
  have h1 : ∀ n i a text, Agree (settle cfg p t ignored mark n i a text) (settle cfg p' t ignored mark n i a text) := by
    intro n
    induction n with
    | zero => intro i a text; exact .pure
    | succ n ih =>
      intro i a text
      cases text with
      | nil => exact .pure
      | cons g following =>
        unfold settle
        split
        · exact .pure
        · refine (agree_perform ht p p' _ i).bind fun x => ?_
          cases x with
          | none => exact .pure
          | some r =>
            refine Agree.bind ?_ fun _ => .pure
            cases r with
            | sequence n actions => exact agree_actAll ih _ _ _ _ _
            | _ => exact .pure
  exact agree_passAll t (fun i a => agree_forward (h1 n i) _ _ _) _ _ _ _

/-! ## Files -/

/-- Taking a table from the file is what finding it gives. -/
theorem takes_found {accept : Tag → Bool} {cfg : Cfg} {d : Data} (hd : Fits d) {font : Font}
    (hf : Reads (File.read accept) d 0 ⟨[font]⟩) {table : TableType} {α : Type} {r : Reader α} {t : Option α} {p : Nat}
    (h : Takes accept cfg d p table r t) (q : Nat) :
    ∃ x k, tableOf cfg font table r d q = .ok (x, k) ∧ x.map (·.2) = t := by
  cases t with
  | none => exact ⟨none, q, run_tableOf_none hd hf ((C55_absent accept cfg table hd p).mp h) q, rfl⟩
  | some t =>
    obtain ⟨a, h1, k, e⟩ := (C55_stored (S := fun d q t => Reads r d q t) accept cfg table hd (fun _ _ => Iff.rfl) p t).mp h
    exact ⟨some (a, t), k, by rw [run_tableOf hd hf h1, e], rfl⟩

/-- When tables without extensions are taken from a file, glyphs are set, or fail to be set, as they are with the values alone. -/
theorem C122_values (accept : Tag → Bool) (cfg : Cfg) {d : Data} (hd : Fits d) {p₁ p₂ p₃ : Nat}
    {definition : Option gdef.GlyphDefinition} {substitution : Option gsub.GlyphSubstitution}
    {positioning : Option gpos.GlyphPositioning}
    (h1 : Takes accept cfg d p₁ .glyphDefinition (gdef.GlyphDefinition.read cfg) definition)
    (h2 : Takes accept cfg d p₂ .glyphSubstitution (gsub.GlyphSubstitution.read cfg) substitution)
    (h3 : Takes accept cfg d p₃ .glyphPositioning (gpos.GlyphPositioning.read cfg) positioning)
    (hs : ∀ t, substitution = some t → Inline substitutionExtension t)
    (hp : ∀ t, positioning = some t → Inline positioningExtension t)
    (n : Nat) (script language : Tag) (tags : List Tag) (glyphs : List Nat) :
    alone (typeset accept cfg n script language tags glyphs) d =
      setValues cfg definition substitution positioning n script language tags glyphs := by
  have hf : ∃ font, Reads (File.read accept) d 0 ⟨[font]⟩ := by
    obtain ⟨file, h, _⟩ := h1
    obtain ⟨_, font, e, _⟩ := (C01_one_font accept d 0 hd file).mp h
    exact ⟨font, by rw [← e]; exact h⟩
  obtain ⟨font, hf⟩ := hf
  obtain ⟨q, e⟩ := id hf
  obtain ⟨x, k, e1, g1⟩ := takes_found hd hf h1 q
  unfold alone typeset
  rw [bind_ok e]
  dsimp only
  rw [bind_ok e1]
  have hi : x.map (·.2) = (definition.map fun t => (0, t)).map (·.2) := by
    rw [g1]; cases definition <;> rfl
  have last : ∀ glyphs q, (settleWith cfg font x n script language tags glyphs d q).map (·.1) =
      settleValue cfg (definition.map fun t => (0, t)) n script language tags glyphs positioning := by
    intro glyphs q
    obtain ⟨y, k, e3, g3⟩ := takes_found hd hf h3 q
    unfold settleWith
    rw [bind_ok e3]
    cases y with
    | none =>
      obtain rfl : positioning = none := g3.symm
      rfl
    | some y =>
      obtain ⟨a, t⟩ := y
      obtain rfl : positioning = some t := g3.symm
      dsimp only
      rw [ignoring_same hi, marked_same hi]
      exact agree_settleText cfg (hp t rfl) _ _ _ _ _ _ _ _ _ _ _ _ _
  have first : (shapeWith cfg font x n script language tags glyphs d k).map (·.1) =
      shapeValue (definition.map fun t => (0, t)) n script language tags glyphs substitution := by
    obtain ⟨y, k, e3, g3⟩ := takes_found hd hf h2 k
    unfold shapeWith
    rw [bind_ok e3]
    cases y with
    | none =>
      obtain rfl : substitution = none := g3.symm
      rfl
    | some y =>
      obtain ⟨a, t⟩ := y
      obtain rfl : substitution = some t := g3.symm
      dsimp only
      rw [ignoring_same hi]
      exact agree_shapeText (hs t rfl) _ _ _ _ _ _ _ _ _ _ _ _
  unfold setValues
  dsimp only
  rw [← first, run_bind_eq]
  cases shapeWith cfg font x n script language tags glyphs d k with
  | error x => rfl
  | ok y => exact last _ _

/-- In particular files from which the same values are taken set text alike, whatever their bytes are. -/
theorem C122_files (accept accept' : Tag → Bool) (cfg : Cfg) {d d' : Data} (hd : Fits d) (hd' : Fits d')
    {definition : Option gdef.GlyphDefinition} {substitution : Option gsub.GlyphSubstitution}
    {positioning : Option gpos.GlyphPositioning}
    (h1 : Takes accept cfg d 0 .glyphDefinition (gdef.GlyphDefinition.read cfg) definition)
    (h2 : Takes accept cfg d 0 .glyphSubstitution (gsub.GlyphSubstitution.read cfg) substitution)
    (h3 : Takes accept cfg d 0 .glyphPositioning (gpos.GlyphPositioning.read cfg) positioning)
    (h1' : Takes accept' cfg d' 0 .glyphDefinition (gdef.GlyphDefinition.read cfg) definition)
    (h2' : Takes accept' cfg d' 0 .glyphSubstitution (gsub.GlyphSubstitution.read cfg) substitution)
    (h3' : Takes accept' cfg d' 0 .glyphPositioning (gpos.GlyphPositioning.read cfg) positioning)
    (hs : ∀ t, substitution = some t → Inline substitutionExtension t)
    (hp : ∀ t, positioning = some t → Inline positioningExtension t)
    (n : Nat) (script language : Tag) (tags : List Tag) (glyphs : List Nat) :
    alone (typeset accept cfg n script language tags glyphs) d = alone (typeset accept' cfg n script language tags glyphs) d' := by
  rw [C122_values accept cfg hd h1 h2 h3 hs hp, C122_values accept' cfg hd' h1' h2' h3' hs hp]

/-- A table of a file that was written is taken from it. -/
theorem takes_written {α : Type} {r : Reader α} {valid : α → Prop} {encode : α → List Chunk} {cfg : Cfg} {table : TableType}
    (h : TakesBack cfg table r valid encode) {accept : Tag → Bool} {version a b c : Nat} {tables : List (Tag × Data)}
    (hw : Writable accept version a b c tables) {after : Data} (hd : Fits (fontFile version a b c tables ++ after))
    {t : Option α} (hv : ∀ x, t = some x → valid x ∧ Consistent (encode x))
    (hb : bodyOf table tables = t.map fun x => render (encode x)) (p : Nat) :
    Takes accept cfg (fontFile version a b c tables ++ after) p table r t := by
  cases t with
  | none => exact C56_absent hw (bodyOf_none hb) hd r cfg p
  | some x =>
    obtain ⟨before, rest, rfl, hn⟩ := bodyOf_some hb
    exact h accept version a b c before rest after x p (hv x rfl).1 (hv x rfl).2 hw hn hd

/-- What was written into a font is what text becomes: if the tables of a file are those of valid values whose parts do not clash,
without extensions, then glyphs are set, or fail to be set, as they are with these values, whatever other tables there are, in
whatever order, and whatever follows. -/
theorem C122_written {accept : Tag → Bool} {version a b c : Nat} {tables : List (Tag × Data)}
    (hw : Writable accept version a b c tables) {after : Data} (hd : Fits (fontFile version a b c tables ++ after)) (cfg : Cfg)
    {definition : Option gdef.GlyphDefinition} {substitution : Option gsub.GlyphSubstitution}
    {positioning : Option gpos.GlyphPositioning}
    (v1 : ∀ t, definition = some t → validGlyphDefinitionTaken cfg t ∧ Consistent (gdefEncodingTaken t))
    (v2 : ∀ t, substitution = some t → validDirectory cfg gsub.validTable t ∧ Consistent (directoryEncoding cfg t))
    (v3 : ∀ t, positioning = some t → validDirectory cfg (gpos.validTable cfg) t ∧ Consistent (directoryEncoding cfg t))
    (h1 : bodyOf .glyphDefinition tables = definition.map fun t => render (gdefEncodingTaken t))
    (h2 : bodyOf .glyphSubstitution tables = substitution.map fun t => render (directoryEncoding cfg t))
    (h3 : bodyOf .glyphPositioning tables = positioning.map fun t => render (directoryEncoding cfg t))
    (hs : ∀ t, substitution = some t → Inline substitutionExtension t)
    (hp : ∀ t, positioning = some t → Inline positioningExtension t)
    (n : Nat) (script language : Tag) (tags : List Tag) (glyphs : List Nat) :
    alone (typeset accept cfg n script language tags glyphs) (fontFile version a b c tables ++ after) =
      setValues cfg definition substitution positioning n script language tags glyphs := by
  obtain ⟨k2, k3, k1, _⟩ := C56_values cfg
  exact C122_values accept cfg hd (takes_written k1 hw hd v1 h1 0) (takes_written k2 hw hd v2 h2 0)
    (takes_written k3 hw hd v3 h3 0) hs hp n script language tags glyphs

/-- The table `sampleGsub`, which makes glyph 9 into glyph 6, meets all this, in a file with another table before it. -/
example :
    alone (typeset (· == 0x00010000) ⟨true, false, false, false, true, false⟩ 1 0x6C61746E 0x44455520 [0x6C696761] [3, 9])
      (fontFile 0x00010000 32 1 0 [(7, [1]), (TableType.glyphSubstitution.tag,
        render (directoryEncoding ⟨true, false, false, false, true, false⟩ sampleGsub))] ++ [8, 8]) =
      .ok [⟨3, 0, []⟩, ⟨6, 0, []⟩] := by
  refine (C122_written ⟨by decide, by decide, by decide, by decide +kernel, by decide +kernel⟩ (by decide +kernel) _
    (definition := none) (substitution := some sampleGsub) (positioning := none) (fun _ h => by cases h) ?_ (fun _ h => by cases h)
    (by decide +kernel) (by decide +kernel) (by decide +kernel) ?_ (fun _ h => by cases h) _ _ _ _ _).trans (by decide +kernel)
  · intro t h
    cases h
    exact ⟨(((C48_gsub _).accepts (render (directoryEncoding ⟨true, false, false, false, true, false⟩ sampleGsub))
      0 sampleGsub (by decide +kernel)).mp (by decide +kernel)).1, by decide +kernel⟩
  · intro t h
    cases h
    unfold Inline
    decide +kernel

end OpenType.Props
