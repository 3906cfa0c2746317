import Verif.Props.Typeset
import Verif.Props.Delivery
import Verif.Props.Options
/-! # C117: text is set alike on every tape and in many builds -/

namespace OpenType.Props
open OpenType Spec

/-! ## What is looked up in a table is not the end of the data -/

/-- Not the end of the data. -/
def Sane {α : Type} (x : Except Err α) : Prop := x ≠ .error .eof

theorem Sane.ok {α : Type} {a : α} : Sane (.ok a) := nofun

theorem Sane.pure {α : Type} {a : α} : Sane (Pure.pure a : Except Err α) := nofun

theorem Sane.bind {α β : Type} {x : Except Err α} {f : α → Except Err β} (h : Sane x) (hf : ∀ a, Sane (f a)) :
    Sane (x >>= f) := by
  cases x with
  | ok a => exact hf a
  | error e => exact fun h' => h (by cases h'; rfl)

theorem Sane.map {α β : Type} {x : Except Err α} {f : α → β} (h : Sane x) : Sane (f <$> x) := by
  cases x with
  | ok a => exact nofun
  | error e => exact fun h' => h (by cases h'; rfl)

theorem sane_element {α : Type} (xs : List α) (i : Nat) : Sane (element xs i) := by
  unfold element
  split
  · exact .ok
  · exact nofun

theorem sane_entryOf {α : Type} (c : coverage.Coverage) (entries : List α) (g : Nat) : Sane (entryOf c entries g) := by
  unfold entryOf
  split
  · exact .ok
  · exact (sane_element _ _).map

theorem sane_classEntryOf {α : Type} (c : coverage.Coverage) (k : class_.Class) (sets : List (Option α)) (g : Nat) :
    Sane (classEntryOf c k sets g) := by
  unfold classEntryOf
  split
  · exact .ok
  · exact sane_element _ _

theorem sane_replace (t : gsub.SingleSubstitution) (g : Nat) : Sane (replace t g) := by
  cases t with
  | format1 t => exact .ok
  | format2 t => exact sane_entryOf _ _ _

theorem sane_ligate (t : gsub.LigatureSubstitution) (g : Nat) (following : List Nat) : Sane (ligate t g following) := by
  refine (sane_entryOf _ _ _).bind fun x => ?_
  cases x <;> exact .pure

theorem sane_place (t : gpos.SingleAdjustment) (g : Nat) : Sane (place t g) := by
  cases t with
  | format1 t => exact .ok
  | format2 t => exact sane_entryOf _ _ _

theorem sane_adjust (t : gpos.PairAdjustment) (g h : Nat) : Sane (adjust t g h) := by
  cases t with
  | format1 t =>
    refine (sane_entryOf _ _ _).bind fun x => ?_
    cases x <;> exact .pure
  | format2 t =>
    unfold adjust
    dsimp only
    split
    · exact .pure
    · exact (sane_element _ _).bind fun _ => (sane_element _ _).bind fun _ => .pure

theorem sane_connect (t : gpos.CursiveAttachment) (g : Nat) : Sane (connect t g) :=
  (sane_entryOf _ _ _).bind fun _ => .pure

theorem sane_anchors (a b : coverage.Coverage) (marks : List gpos.Mark1) {anchor : Nat → Nat → Except Err (Option gpos.Anchor)}
    (h : ∀ j k, Sane (anchor j k)) (m n : Nat) : Sane (anchors a b marks anchor m n) := by
  unfold anchors
  split
  · exact (sane_element _ _).bind fun _ => (h _ _).bind fun _ => .pure
  · exact .ok

theorem sane_rule {Set Rule β : Type} (records : Set → List Rule) (wanted : Rule → β) {entry : Except Err (Option Set)}
    (h : Sane entry) (test : Rule → Bool) : Sane (ruleOf records wanted entry test) := by
  refine h.bind fun x => ?_
  cases x <;> exact .pure

theorem sane_context (t : context.Context) (g : Nat) (after : List Nat) : Sane (matchContext t g after) := by
  cases t with
  | format1 t => exact sane_rule _ _ (sane_entryOf _ _ _) _
  | format2 t => exact sane_rule _ _ (sane_classEntryOf _ _ _ _) _
  | format3 t => exact .ok

theorem sane_chain (t : context.ChainedContext) (before : List Nat) (g : Nat) (after : List Nat) :
    Sane (matchChain t before g after) := by
  cases t with
  | format1 t => exact sane_rule _ _ (sane_entryOf _ _ _) _
  | format2 t => exact sane_rule _ _ (sane_classEntryOf _ _ _ _) _
  | format3 t => exact .ok

theorem sane_reverse (before : List Nat) (g : Nat) (after : List Nat) (t : gsub.Type_) : Sane (reverseAct before g after t) := by
  cases t with
  | reverseChainedContextualSubstibution t =>
    unfold reverseAct matchReverse
    dsimp only
    split
    · exact sane_entryOf _ _ _
    · exact .ok
  | _ => exact .ok

theorem sane_react (before : List Nat) (g : Nat) (following : List Nat) (t : gsub.Type_) : Sane (react before g following t) := by
  cases t with
  | singleSubstitution t => exact ((sane_replace t g).bind fun _ => .pure).bind fun _ => .pure
  | multipleSubstitution t => exact (((sane_entryOf _ _ _).bind fun _ => .pure).bind fun _ => .pure).bind fun _ => .pure
  | alternateSubstitution t => exact Sane.ok.bind fun _ => .pure
  | ligatureSubstitution t => exact ((sane_ligate t g following).bind fun _ => .pure).bind fun _ => .pure
  | contextualSubstitution t => exact (sane_context t g following).bind fun _ => .pure
  | chainedContextualSubstitution t => exact (sane_chain t before g following).bind fun _ => .pure
  | extensionSubstitution t => exact Sane.ok.bind fun _ => .pure
  | reverseChainedContextualSubstibution t => exact Sane.ok.bind fun _ => .pure

theorem sane_join (t : gpos.CursiveAttachment) (g h : Nat) : Sane (join t g h) := by
  have h1 := sane_connect t g
  unfold join
  split
  · rename_i e he
    rw [he] at h1
    exact fun h' => h1 (by cases h'; rfl)
  · exact .ok
  · exact .ok
  · exact (sane_connect t h).bind fun _ => .pure

theorem sane_respond (before : List Nat) (base : Option Nat) (component g : Nat) (following : List Nat) (t : gpos.Type_) :
    Sane (respond before base component g following t) := by
  cases t with
  | singleAdjustment t => exact ((sane_place t g).bind fun _ => .pure).bind fun _ => .pure
  | pairAdjustment t =>
    unfold respond move
    dsimp only
    split
    · exact Sane.ok.bind fun _ => .pure
    · exact (sane_adjust t g _).bind fun _ => .pure
  | cursiveAttachment t =>
    unfold respond
    dsimp only
    split
    · exact .ok
    · exact sane_join t g _
  | markToBaseAttachment t =>
    unfold respond
    dsimp only
    split
    · exact .ok
    · exact (sane_anchors _ _ _ (fun _ _ => (sane_element _ _).bind fun _ => sane_element _ _) _ _).bind fun _ => .pure
  | markToLigatureAttachment t =>
    unfold respond
    dsimp only
    split
    · exact .ok
    · exact (sane_anchors _ _ _ (fun _ _ => (sane_element _ _).bind fun _ => (sane_element _ _).bind fun _ =>
        sane_element _ _) _ _).bind fun _ => .pure
  | markToMarkAttachment t =>
    unfold respond
    dsimp only
    split
    · exact .ok
    · exact (sane_anchors _ _ _ (fun _ _ => (sane_element _ _).bind fun _ => sane_element _ _) _ _).bind fun _ => .pure
  | contextualPositioning t => exact (sane_context t g following).bind fun _ => .pure
  | chainedContextualPositioning t => exact (sane_chain t before g following).bind fun _ => .pure
  | extensionPositioning t => exact Sane.ok.bind fun _ => .pure

theorem sane_get {H R : Type} (tagOf : H → Tag) (headers : List H) (records : List R) (tag : Tag) :
    Sane (getByTag tagOf headers records tag) := by
  unfold getByTag
  split
  · exact .ok
  · split
    · exact .ok
    · exact nofun

theorem sane_lookupsFor {T : Type} (t : directory.Directory T) (script language : Tag) : Sane (lookupsFor t script language) := by
  refine (sane_get _ _ _ _).bind fun x => ?_
  cases x with
  | none => exact .pure
  | some s =>
    refine (sane_get _ _ _ _).bind fun y => ?_
    split <;> exact .pure

/-! ## All errors of the tape are passed on -/

instance {T : Type} {extension : T → Option (Nat × Nat)} {readTable : Nat → Reader T} [h : ∀ n, Stops (readTable n)] {p : Nat}
    {t : directory.Directory T} {i j : Nat} : Stops (subtable extension readTable p t i j) := by
  unfold subtable
  split
  · split
    · split <;> infer_instance
    · infer_instance
  · infer_instance

theorem stops_firstActing {T β : Type} {extension : T → Option (Nat × Nat)} {readTable : Nat → Reader T}
    [h : ∀ n, Stops (readTable n)] {act : T → Except Err (Option β)} (ha : ∀ x, Sane (act x)) {p : Nat} {t : directory.Directory T}
    {i : Nat} (js : List Nat) : Stops (firstActing extension readTable act p t i js) := by
  induction js with
  | nil => unfold firstActing; infer_instance
  | cons j js ih =>
    unfold firstActing
    refine @stops_bind _ _ _ _ _ fun x => ?_
    cases x with
    | none => infer_instance
    | some x =>
      have := ha x
      dsimp only
      split
      · rename_i e he
        rw [he] at this
        exact ⟨fun h => this (by rw [h])⟩
      · infer_instance
      · exact ih

theorem stops_perform {T β : Type} {extension : T → Option (Nat × Nat)} {readTable : Nat → Reader T}
    [h : ∀ n, Stops (readTable n)] {act : T → Except Err (Option β)} (ha : ∀ x, Sane (act x)) {p : Nat} {t : directory.Directory T}
    {i : Nat} : Stops (perform extension readTable act p t i) := stops_firstActing ha _

theorem stops_actAll {α : Type} {nested : Nat → List α → List α → Reader (Option (List α × List α))}
    (h : ∀ i a b, Stops (nested i a b)) (ignored : α → Bool) (before : List α) (actions : List context.Action) :
    ∀ window rest, Stops (actAll nested ignored before actions window rest) := by
  induction actions with
  | nil => intro window rest; unfold actAll; infer_instance
  | cons action actions ih =>
    intro window rest
    unfold actAll
    split
    · exact ih _ _
    · refine @stops_bind _ _ _ _ (h _ _ _) fun x => ?_
      cases x <;> exact ih _ _

theorem stops_touch (p : Nat) (t : gsub.GlyphSubstitution) (ignored : Nat → Nat → Bool) (n : Nat) :
    ∀ i before text, Stops (touch p t ignored n i before text) := by
  induction n with
  | zero => intro i before text; unfold touch; infer_instance
  | succ n ih =>
    intro i before text
    cases text with
    | nil => unfold touch; infer_instance
    | cons g following =>
      unfold touch
      split
      · infer_instance
      · refine @stops_bind _ _ _ _ (stops_perform (sane_react _ _ _)) fun x => ?_
        rcases x with - | ⟨glyphs, k⟩ | ⟨k, actions⟩
        · infer_instance
        · infer_instance
        · exact @stops_bind _ _ _ _ (stops_actAll ih _ _ _ _ _) fun _ => inferInstance

theorem stops_forward {α : Type} {touch : List α → List α → Reader (Option (List α × List α))} (h : ∀ a b, Stops (touch a b))
    (fuel : Nat) : ∀ before text, Stops (forward touch fuel before text) := by
  induction fuel with
  | zero => intro before text; unfold forward; infer_instance
  | succ fuel ih =>
    intro before text
    cases text with
    | nil => unfold forward; infer_instance
    | cons g following =>
      unfold forward
      refine @stops_bind _ _ _ _ (h _ _) fun x => ?_
      rcases x with - | ⟨done, rest⟩
      · exact @stops_bind _ _ _ _ (ih _ _) fun _ => inferInstance
      · exact @stops_bind _ _ _ _ (ih _ _) fun _ => inferInstance

theorem stops_backward (p : Nat) (t : gsub.GlyphSubstitution) (ignored : Nat → Bool) (i : Nat) (text : List Nat) :
    ∀ before, Stops (backward p t ignored i before text) := by
  induction text with
  | nil => intro before; unfold backward; infer_instance
  | cons g following ih =>
    intro before
    unfold backward
    refine @stops_bind _ _ _ _ (ih _) fun out => ?_
    split
    · infer_instance
    · refine @stops_bind _ _ _ _ (stops_perform (sane_reverse _ _ _)) fun x => ?_
      cases x <;> infer_instance

theorem stops_below {α : Type} {pass : Nat → List α → Reader (List α)} (h : ∀ i a, Stops (pass i a)) (wanted : Nat → Bool) (m : Nat) :
    ∀ glyphs, Stops (below pass wanted m glyphs) := by
  induction m with
  | zero => intro glyphs; unfold below; infer_instance
  | succ m ih =>
    intro glyphs
    unfold below
    refine @stops_bind _ _ _ _ (ih _) fun x => ?_
    split
    · exact h _ _
    · infer_instance

theorem stops_passAll {T α : Type} (t : directory.Directory T) {pass : Nat → List α → Reader (List α)} (h : ∀ i a, Stops (pass i a))
    (script language : Tag) (tags : List Tag) (glyphs : List α) : Stops (passAll t pass script language tags glyphs) := by
  have := sane_lookupsFor t script language
  unfold passAll
  split
  · rename_i e he
    rw [he] at this
    exact ⟨fun h => this (by rw [h])⟩
  · exact stops_below h _ _ _

instance {p : Nat} {t : gsub.GlyphSubstitution} {ignored : Nat → Nat → Bool} {n : Nat} {script language : Tag} {tags : List Tag}
    {glyphs : List Nat} : Stops (shapeText p t ignored n script language tags glyphs) :=
  stops_passAll t (fun _ _ => @stops_bind _ _ _ _ (stops_forward (stops_touch _ _ _ _ _) _ _ _) fun _ =>
    stops_backward _ _ _ _ _ _) _ _ _ _

theorem stops_conclude {ignored : Item → Bool} {nested : Nat → List Item → List Item → Reader (Option (List Item × List Item))}
    (h : ∀ i a b, Stops (nested i a b)) (before : List Item) (base : Option (Nat × Item)) (x : Item) (following : List Item)
    (r : Response) : Stops (conclude ignored nested before base x following r) := by
  cases r with
  | sequence n actions => exact stops_actAll h _ _ _ _ _
  | _ => unfold conclude; infer_instance

theorem stops_settle (cfg : Cfg) (p : Nat) (t : gpos.GlyphPositioning) (ignored : Nat → Nat → Bool) (mark : Nat → Bool) (n : Nat) :
    ∀ i before text, Stops (settle cfg p t ignored mark n i before text) := by
  induction n with
  | zero => intro i before text; unfold settle; infer_instance
  | succ n ih =>
    intro i before text
    cases text with
    | nil => unfold settle; infer_instance
    | cons g following =>
      unfold settle
      split
      · infer_instance
      · refine @stops_bind _ _ _ _ (stops_perform (sane_respond _ _ _ _ _)) fun x => ?_
        cases x with
        | none => infer_instance
        | some r => exact @stops_bind _ _ _ _ (stops_conclude ih _ _ _ _ _) fun _ => inferInstance

instance {cfg : Cfg} {p : Nat} {t : gpos.GlyphPositioning} {ignored : Nat → Nat → Bool} {mark : Nat → Bool} {n : Nat}
    {script language : Tag} {tags : List Tag} {text : List Item} :
    Stops (settleText cfg p t ignored mark n script language tags text) :=
  stops_passAll t (fun _ _ => stops_forward (stops_settle _ _ _ _ _ _ _) _ _ _) _ _ _ _

instance {α : Type} {cfg : Cfg} {font : Font} {table : TableType} {r : Reader α} [Stops r] : Stops (tableOf cfg font table r) := by
  unfold tableOf
  refine @stops_bind _ _ _ _ inferInstance fun x => ?_
  cases x <;> infer_instance

instance stops_typeset {accept : Tag → Bool} {cfg : Cfg} {n : Nat} {script language : Tag} {tags : List Tag} {glyphs : List Nat} :
    Stops (typeset accept cfg n script language tags glyphs) := by
  unfold typeset
  refine @stops_bind _ _ _ _ inferInstance fun file => ?_
  split
  · infer_instance
  · refine @stops_bind _ _ _ _ inferInstance fun definition => @stops_bind _ _ _ _ ?_ fun glyphs => ?_
    · unfold shapeWith
      refine @stops_bind _ _ _ _ inferInstance fun x => ?_
      rcases x with - | ⟨p, t⟩ <;> infer_instance
    · unfold settleWith
      refine @stops_bind _ _ _ _ inferInstance fun x => ?_
      rcases x with - | ⟨p, t⟩ <;> infer_instance

/-- Setting text, from the opening of the file to the last glyph, survives failures of the tape and the growth of the file. -/
theorem C117_tapes (accept : Tag → Bool) (cfg : Cfg) (n : Nat) (script language : Tag) (tags : List Tag) (glyphs : List Nat) :
    SurvivesFaults (typeset accept cfg n script language tags glyphs) ∧
    SurvivesGrowth (typeset accept cfg n script language tags glyphs) := ⟨survivesFaults, survivesGrowth⟩

/-- In particular, however a source delivers its content, in whatever pieces and with whatever interruptions, glyphs are set as
the bytes tell, or there is an error where they tell nothing. -/
theorem C117_pieces {σ : Type} (source : Source σ) {d : Data} (hd : Fits d) (stands : σ → Nat → Prop)
    (h : Delivers source d d (fun _ => False) stands) (s : σ) (hs : stands s 0) (accept : Tag → Bool) (cfg : Cfg) (n : Nat)
    (script language : Tag) (tags : List Tag) (glyphs : List Nat) (out : List Item) :
    ((typeset accept cfg n script language tags glyphs).exec source.device s).1 = .ok out ↔
      TypesetInto accept cfg d n script language tags glyphs out := by
  rw [C85_reader survivesGrowth source d stands h s 0 hs, ← C113_typeset accept cfg hd]
  unfold Reads
  cases e : typeset accept cfg n script language tags glyphs d 0 with
  | ok x =>
    obtain ⟨a, q⟩ := x
    constructor
    · intro h
      cases h
      exact ⟨q, rfl⟩
    · rintro ⟨q', h⟩
      cases h
      rfl
  | error e => exact ⟨nofun, nofun⟩

/-! ## Builds -/

/-- Whatever the first reader gives, the second gives, and leaves the tape at the same place. -/
def Follows {α : Type} (r r' : Reader α) : Prop := ∀ d p x, r d p = .ok x → r' d p = .ok x

theorem Follows.rfl {α : Type} {r : Reader α} : Follows r r := fun _ _ _ h => h

theorem Follows.bind {α β : Type} {r r' : Reader α} {f f' : α → Reader β} (h : Follows r r') (hf : ∀ a, Follows (f a) (f' a)) :
    Follows (r >>= f) (r' >>= f') := by
  intro d p x hx
  cases e : r d p with
  | error err => rw [bind_error e] at hx; cases hx
  | ok y =>
    obtain ⟨a, q⟩ := y
    rw [bind_ok e] at hx
    rw [bind_ok (h d p _ e)]
    exact hf a d q x hx

/-- Two builds treat incomplete directories, incomplete marks and reserved flags alike, and the second checks no more sums than
the first, neither those of tables nor those in arithmetic. -/
def ChecksLess (cfg cfg' : Cfg) : Prop :=
  cfg.ignoreIncompleteDirectories = cfg'.ignoreIncompleteDirectories ∧ cfg.ignoreIncompleteMarks = cfg'.ignoreIncompleteMarks ∧
    cfg.rejectInvalidFlags = cfg'.rejectInvalidFlags ∧
    (cfg.ignoreInvalidChecksums = true → cfg'.ignoreInvalidChecksums = true) ∧
    (cfg'.overflowChecks = true → cfg.overflowChecks = true)

theorem follows_position {cfg cfg' : Cfg} (h : ChecksLess cfg cfg') (font : Font) (table : TableType) :
    Follows (font.position cfg tableChecksum table) (font.position cfg' tableChecksum table) := by
  obtain ⟨-, -, -, hs, -⟩ := h
  cases e' : cfg'.ignoreInvalidChecksums with
  | true =>
    intro d p x hx
    exact (C06_same_success_given cfg cfg' tableChecksum tableChecksum font table (fun _ : Unit => (pure () : Reader Unit)) () d p
      e').2 _ _ hx
  | false =>
    have e : cfg.ignoreInvalidChecksums = false := by
      cases h : cfg.ignoreInvalidChecksums with
      | true => rw [hs h] at e'; cases e'
      | false => rfl
    have key : font.position cfg tableChecksum table = font.position cfg' tableChecksum table := by
      have : ∀ records, Font.positionIn cfg tableChecksum table.tag records = Font.positionIn cfg' tableChecksum table.tag records := by
        intro records
        induction records with
        | nil => rfl
        | cons x xs ih =>
          unfold Font.positionIn
          rw [e, e', ih]
      exact this _
    rw [key]
    exact .rfl

theorem follows_tableOf {α : Type} {cfg cfg' : Cfg} (h : ChecksLess cfg cfg') (font : Font) (table : TableType) {r r' : Reader α}
    (hr : Follows r r') : Follows (tableOf cfg font table r) (tableOf cfg' font table r') := by
  refine (follows_position h font table).bind fun x => ?_
  cases x with
  | none => exact .rfl
  | some _ => exact Follows.rfl.bind fun _ => hr.bind fun _ => .rfl

theorem follows_gdef {cfg cfg' : Cfg} (h : ChecksLess cfg cfg') :
    Follows (gdef.GlyphDefinition.read cfg) (gdef.GlyphDefinition.read cfg') := by
  obtain ⟨-, -, -, -, ho⟩ := h
  intro d p x hx
  by_cases e : cfg.overflowChecks = cfg'.overflowChecks
  · rw [← (C76_gdef cfg cfg' e).1]
    exact hx
  · have e1 : cfg.overflowChecks = true := by
      cases h : cfg.overflowChecks with
      | true => rfl
      | false =>
        cases h' : cfg'.overflowChecks with
        | true => rw [ho h'] at h; cases h
        | false => rw [h, h'] at e; exact (e rfl).elim
    have e2 : cfg'.overflowChecks = false := by
      cases h' : cfg'.overflowChecks with
      | true => rw [e1, h'] at e; exact (e rfl).elim
      | false => rfl
    rw [(C76_gdef cfg' { cfg with overflowChecks := false } e2).1]
    rw [(C76_gdef cfg { cfg with overflowChecks := true } e1).1] at hx
    rcases (C76_release cfg d p).1 with ⟨m, h⟩ | h
    · rw [h] at hx; cases hx
    · rw [h, hx]

theorem same_settleText {cfg cfg' : Cfg} (h1 : cfg.ignoreIncompleteDirectories = cfg'.ignoreIncompleteDirectories)
    (h2 : cfg.ignoreIncompleteMarks = cfg'.ignoreIncompleteMarks) (h3 : cfg.rejectInvalidFlags = cfg'.rejectInvalidFlags) :
    settleText cfg = settleText cfg' := by
  have e : gpos.Type_.read cfg = gpos.Type_.read cfg' := by
    obtain ⟨a, b, c, d, e, f⟩ := cfg
    obtain ⟨a', b', c', d', e', f'⟩ := cfg'
    cases h1
    cases h2
    cases h3
    rfl
  have key : ∀ p t ignored mark n i before text,
      settle cfg p t ignored mark n i before text = settle cfg' p t ignored mark n i before text := by
    intro p t ignored mark n
    induction n with
    | zero => intro i before text; rfl
    | succ n ih =>
      intro i before text
      have ih' : settle cfg p t ignored mark n = settle cfg' p t ignored mark n := by
        funext i before text
        exact ih i before text
      cases text with
      | nil => rfl
      | cons x following =>
        unfold settle
        rw [e, ih']
  funext p t ignored mark n script language tags text
  unfold settleText
  have : settle cfg p t ignored mark n = settle cfg' p t ignored mark n := by
    funext i before text
    exact key ..
  rw [this]

/-- A build that checks less sets all text that the other sets, and sets it alike. -/
theorem C117_builds {cfg cfg' : Cfg} (h : ChecksLess cfg cfg') (accept : Tag → Bool) (n : Nat) (script language : Tag)
    (tags : List Tag) (glyphs : List Nat) (d : Data) (out : List Item)
    (hr : Reads (typeset accept cfg n script language tags glyphs) d 0 out) :
    Reads (typeset accept cfg' n script language tags glyphs) d 0 out := by
  have key : Follows (typeset accept cfg n script language tags glyphs) (typeset accept cfg' n script language tags glyphs) := by
    refine Follows.rfl.bind fun file => ?_
    split
    · exact .rfl
    · refine (follows_tableOf h _ _ (follows_gdef h)).bind fun definition => Follows.bind ?_ fun glyphs => ?_
      · refine (follows_tableOf h _ _ ?_).bind fun x => .rfl
        rw [C76_gsub cfg cfg' h.1 h.2.2.1]
        exact .rfl
      · refine (follows_tableOf h _ _ ?_).bind fun x => ?_
        · rw [C76_gpos cfg cfg' h.1 h.2.1 h.2.2.1]
          exact .rfl
        · rcases x with - | ⟨p, t⟩
          · exact .rfl
          · dsimp only
            have e := same_settleText h.1 h.2.1 h.2.2.1
            rw [e]
            exact .rfl
  obtain ⟨q, hq⟩ := hr
  exact ⟨q, key d 0 _ hq⟩

/-- The file of the example of C113 byte by byte, with up to two interruptions before each: glyphs 9 and 3 are set as 6 and 3. -/
example :
    ((typeset (· == 0x00010000) ⟨false, false, false, false, false, false⟩ 2 0x6C61746E 0x44455520 [0x6C696761, 0x6B65726E]
      [9, 3]).exec (piecemeal typesettingFile (fun _ => 0) (· % 3)).device (0, 0, 0)).1 =
        .ok [⟨6, 0, []⟩, ⟨3, 0, [.moved (advance 6)]⟩] :=
  (C117_pieces _ (by decide +kernel) _ (C85_piecemeal _ _ _) (0, 0, 0) rfl _ _ _ _ _ _ _ _).mpr
    ((C113_typeset _ _ (by decide +kernel) _ _ _ _ _ _).mp (by decide +kernel))

/-- A build that checks arithmetic and sums, and one that checks neither. -/
theorem checksLess_sample : ChecksLess ⟨false, false, false, false, true, false⟩ ⟨true, false, false, true, false, false⟩ :=
  ⟨rfl, rfl, rfl, nofun, nofun⟩

/-- The first sets the text so too, and hence the second. -/
example :
    Reads (typeset (· == 0x00010000) ⟨true, false, false, true, false, false⟩ 2 0x6C61746E 0x44455520
      [0x6C696761, 0x6B65726E] [9, 3]) typesettingFile 0 [⟨6, 0, []⟩, ⟨3, 0, [.moved (advance 6)]⟩] :=
  have h : Reads (typeset (· == 0x00010000) ⟨false, false, false, false, true, false⟩ 2 0x6C61746E 0x44455520
      [0x6C696761, 0x6B65726E] [9, 3]) typesettingFile 0 [⟨6, 0, []⟩, ⟨3, 0, [.moved (advance 6)]⟩] := by
    decide +kernel
  C117_builds checksLess_sample _ _ _ _ _ _ _ _ h

end OpenType.Props
