import Verif.Spec.Settle
import Verif.Props.Contextual
import Verif.Props.Position
/-! # C115: how text is placed, with contexts and attachments -/

namespace OpenType.Props
open OpenType Spec lookup directory context

/-- A subtable is asked about another glyph, if there is one. -/
theorem target_iff {α : Type} (target : Option Nat) {result : Nat → Except Err (Option α)} {f : α → Response}
    {P : Nat → α → Prop} {Q : Nat → Prop} {answer : Except Err (Option Response)}
    (ha : answer = match target with | none => .ok none | some b => do return (← result b).map f)
    (h : ∀ b, (∀ y, result b = .ok (some y) ↔ P b y) ∧ ((∃ e, result b = .error e) ↔ Q b)) :
    (∀ r, answer = .ok (some r) ↔ ∃ b y, target = some b ∧ P b y ∧ f y = r) ∧
    ((∃ e, answer = .error e) ↔ ∃ b, target = some b ∧ Q b) := by
  subst ha
  cases target with
  | none =>
    exact ⟨fun r => ⟨fun h => (by cases h), fun ⟨_, _, h, _⟩ => (by cases h)⟩,
      ⟨fun ⟨_, h⟩ => (by cases h), fun ⟨_, h, _⟩ => (by cases h)⟩⟩
  | some b =>
    obtain ⟨k1, k2⟩ := map_iff (f := f) (h b).1 (h b).2
    refine ⟨fun r => Iff.trans (k1 r) ⟨?_, ?_⟩, Iff.trans k2 ⟨fun h => ⟨b, rfl, h⟩, ?_⟩⟩
    · rintro ⟨y, h1, h2⟩; exact ⟨b, y, rfl, h1, h2⟩
    · rintro ⟨b', y, h0, h1, h2⟩; cases h0; exact ⟨y, h1, h2⟩
    · rintro ⟨b', h0, h1⟩; cases h0; exact h1

theorem join_iff {d : Data} {a : Nat} (hd : Fits d) {t : gpos.CursiveAttachment} (h : Reads gpos.CursiveAttachment.read d a t)
    (g k : Nat) :
    (∀ r, join t g k = .ok (some r) ↔ ∃ exit entry, JoinedBy d a g k exit entry ∧ Response.joined exit entry = r) ∧
    ((∃ e, join t g k = .error e) ↔ MissingJoint d a g k) := by
  obtain ⟨g1, g2, g3⟩ := C104_cursive hd h g
  obtain ⟨k1, k2, k3⟩ := C104_cursive hd h k
  have left : ∀ {x exit}, ConnectedBy d a g x (some exit) → connect t g = .ok (some (x, some exit)) :=
    fun {x exit} hx => (g1 (x, some exit)).mpr hx
  have right : ∀ {x entry}, ConnectedBy d a k (some entry) x → connect t k = .ok (some (some entry, x)) :=
    fun {x entry} hx => (k1 (some entry, x)).mpr hx
  unfold join JoinedBy MissingJoint
  match hg : connect t g with
  | .error e =>
    refine ⟨fun r => ⟨fun h => (by cases h), ?_⟩, ⟨fun _ => .inl (g3.mp ⟨e, hg⟩), fun _ => ⟨e, rfl⟩⟩⟩
    rintro ⟨_, _, ⟨⟨x, hx⟩, _⟩, _⟩
    rw [left hx] at hg
    cases hg
  | .ok none =>
    refine ⟨fun r => ⟨fun h => (by cases h), ?_⟩, ⟨fun ⟨_, h⟩ => (by cases h), ?_⟩⟩
    · rintro ⟨_, _, ⟨⟨x, hx⟩, _⟩, _⟩
      rw [left hx] at hg
      cases hg
    · rintro (hm | ⟨⟨x, exit, hx⟩, _⟩)
      · obtain ⟨e, he⟩ := g3.mpr hm
        rw [hg] at he; cases he
      · rw [left hx] at hg
        cases hg
  | .ok (some (_, none)) =>
    refine ⟨fun r => ⟨fun h => (by cases h), ?_⟩, ⟨fun ⟨_, h⟩ => (by cases h), ?_⟩⟩
    · rintro ⟨_, _, ⟨⟨x, hx⟩, _⟩, _⟩
      rw [left hx] at hg
      cases hg
    · rintro (hm | ⟨⟨x, exit, hx⟩, _⟩)
      · obtain ⟨e, he⟩ := g3.mpr hm
        rw [hg] at he; cases he
      · rw [left hx] at hg
        cases hg
  | .ok (some (x, some exit)) =>
    have hx := (g1 (x, some exit)).mp hg
    dsimp only
    match hk : connect t k with
    | .error e =>
      refine ⟨fun r => ⟨fun h => (by cases h), ?_⟩, ⟨fun _ => .inr ⟨⟨x, exit, hx⟩, k3.mp ⟨e, hk⟩⟩, fun _ => ⟨e, rfl⟩⟩⟩
      rintro ⟨_, _, ⟨_, x, hx⟩, _⟩
      rw [right hx] at hk
      cases hk
    | .ok c =>
      refine ⟨fun r => ⟨fun h => ?_, ?_⟩, ⟨fun ⟨_, h⟩ => (by cases h), ?_⟩⟩
      · match c, hk, h with
        | some (some entry, y), hk, h =>
          injection h with h
          injection h with h
          exact ⟨exit, entry, ⟨⟨x, hx⟩, y, (k1 (some entry, y)).mp hk⟩, h⟩
      · rintro ⟨exit', entry, ⟨⟨x', hx'⟩, y, hy⟩, rfl⟩
        rw [left hx'] at hg
        rw [right hy] at hk
        cases hg
        cases hk
        rfl
      · rintro (hm | ⟨_, hm⟩)
        · obtain ⟨e, he⟩ := g3.mpr hm
          rw [hg] at he; cases he
        · obtain ⟨e, he⟩ := k3.mpr hm
          rw [hk] at he; cases he

/-- What a subtable wants to be done is what its bytes say. -/
theorem respond_iff {cfg : Cfg} {d : Data} (hd : Fits d) (before : List Nat) (base : Option Nat) (component g : Nat)
    (following : List Nat) (type_ a : Nat) (x : gpos.Type_) (h : Spec.gpos.IsTable cfg type_ d a x) :
    (∀ y, respond before base component g following x = .ok (some y) ↔
      (response cfg before base component g following).does d type_ a y) ∧
    ((∃ e, respond before base component g following x = .error e) ↔
      (response cfg before base component g following).missing d type_ a) := by
  cases x with
  | cursiveAttachment t =>
    obtain ⟨rfl, h⟩ := h
    have hj := join_iff hd ((reads_parses hd).mpr h) g
    cases hh : following.head? with
    | none =>
      have : respond before base component g following (.cursiveAttachment t) = .ok none := by simp only [respond, hh]
      rw [this]
      refine ⟨fun y => ?_, ?_⟩
      · cases y <;> simp [response, MovedBy, hh]
      · simp [response, MissingMove, hh]
    | some k =>
      have : respond before base component g following (.cursiveAttachment t) = join t g k := by simp only [respond, hh]
      rw [this]
      refine ⟨fun y => Iff.trans ((hj k).1 y) ?_, Iff.trans (hj k).2 ?_⟩
      · cases y <;> simp [response, MovedBy, hh]
      · simp [response, MissingMove, hh]
  | markToBaseAttachment t =>
    obtain ⟨rfl, h⟩ := h
    obtain ⟨k1, k2⟩ := target_iff base (f := fun y => Response.onBase y.1 y.2)
      (answer := respond before base component g following (.markToBaseAttachment t)) (by cases base <;> rfl)
      fun b => ⟨(C104_base hd ((reads_parses hd).mpr h) g b).1, (C104_base hd ((reads_parses hd).mpr h) g b).2.2⟩
    refine ⟨fun y => Iff.trans (k1 y) ?_, Iff.trans k2 ?_⟩
    · cases y <;> simp [response, MovedBy]
    · simp [response, MissingMove]
  | markToLigatureAttachment t =>
    obtain ⟨rfl, h⟩ := h
    obtain ⟨k1, k2⟩ := target_iff base (f := fun y => Response.onBase y.1 y.2)
      (answer := respond before base component g following (.markToLigatureAttachment t)) (by cases base <;> rfl)
      fun b => ⟨(C104_ligature hd ((reads_parses hd).mpr h) component g b).1,
        (C104_ligature hd ((reads_parses hd).mpr h) component g b).2.2⟩
    refine ⟨fun y => Iff.trans (k1 y) ?_, Iff.trans k2 ?_⟩
    · cases y <;> simp [response, MovedBy]
    · simp [response, MissingMove]
  | markToMarkAttachment t =>
    obtain ⟨rfl, h⟩ := h
    obtain ⟨k1, k2⟩ := target_iff before.head? (f := fun y => Response.onMark y.1 y.2)
      (answer := respond before base component g following (.markToMarkAttachment t))
      (by cases hb : before.head? <;> simp only [respond, hb])
      fun b => ⟨(C104_mark hd ((reads_parses hd).mpr h) g b).1, (C104_mark hd ((reads_parses hd).mpr h) g b).2.2⟩
    refine ⟨fun y => Iff.trans (k1 y) ?_, Iff.trans k2 ?_⟩
    · cases y <;> simp [response, MovedBy]
    · simp [response, MissingMove]
  | contextualPositioning t =>
    obtain ⟨rfl, h⟩ := h
    obtain ⟨h1, _, h2⟩ := C105_context hd ((reads_parses hd).mpr h) g following
    obtain ⟨k1, k2⟩ := map_iff (f := fun y => Response.sequence y.1 y.2) h1 h2
    refine ⟨fun y => Iff.trans (k1 y) ?_, Iff.trans k2 ?_⟩
    · cases y <;> simp [response, MovedBy]
    · simp [response, MissingMove]
  | chainedContextualPositioning t =>
    obtain ⟨rfl, h⟩ := h
    obtain ⟨h1, _, h2⟩ := C105_chain hd ((reads_parses hd).mpr h) before g following
    obtain ⟨k1, k2⟩ := map_iff (f := fun y => Response.sequence y.1 y.2) h1 h2
    refine ⟨fun y => Iff.trans (k1 y) ?_, Iff.trans k2 ?_⟩
    · cases y <;> simp [response, MovedBy]
    · simp [response, MissingMove]
  | singleAdjustment t =>
    obtain ⟨h1, h2⟩ := move_iff hd g following.head? type_ a _ h
    obtain ⟨k1, k2⟩ := map_iff (f := fun y => Response.moved y.1 y.2) h1 h2
    obtain ⟨rfl, _⟩ := h
    refine ⟨fun y => Iff.trans (k1 y) ?_, Iff.trans k2 ?_⟩
    · cases y <;> simp [response]
    · simp [response]
  | pairAdjustment t =>
    obtain ⟨h1, h2⟩ := move_iff hd g following.head? type_ a _ h
    obtain ⟨k1, k2⟩ := map_iff (f := fun y => Response.moved y.1 y.2) h1 h2
    obtain ⟨rfl, _⟩ := h
    refine ⟨fun y => Iff.trans (k1 y) ?_, Iff.trans k2 ?_⟩
    · cases y <;> simp [response]
    · simp [response]
  | extensionPositioning t =>
    obtain ⟨h1, h2⟩ := move_iff hd g following.head? type_ a _ h
    obtain ⟨k1, k2⟩ := map_iff (f := fun y => Response.moved y.1 y.2) h1 h2
    obtain ⟨rfl, _⟩ := h
    refine ⟨fun y => Iff.trans (k1 y) ?_, Iff.trans k2 ?_⟩
    · cases y <;> simp [response]
    · simp [response]

section
variable {ignored : Item → Bool} {I : Item → Prop} (hI : ∀ x, ignored x = true ↔ I x)
include hI

theorem split_none (text : List Item) (h : splitAt ignored 0 text = none) : ∀ x ∈ text, I x := by
  induction text with
  | nil => intro x hx; cases hx
  | cons y text ih =>
    unfold splitAt at h
    by_cases hy : ignored y = true
    · rw [if_pos hy, Option.map_eq_none_iff] at h
      intro x hx
      cases hx with
      | head => exact (hI y).mp hy
      | tail _ hx => exact ih h x hx
    · rw [if_neg hy] at h
      cases h

theorem split_all {text : List Item} (h : ∀ x ∈ text, I x) : splitAt ignored 0 text = none := by
  cases hs : splitAt ignored 0 text with
  | none => rfl
  | some s =>
    obtain ⟨pre, x, post⟩ := s
    obtain ⟨h1, h2, _⟩ := (split_iff hI ..).mp hs
    exact (h2 (h x (by rw [h1]; simp))).elim

theorem nearest_iff (text : List Item) (y : Option (Nat × Item)) : nearest ignored text = y ↔ Nearest I text y := by
  unfold nearest
  cases hs : splitAt ignored 0 text with
  | none =>
    have ha := split_none hI text hs
    constructor
    · rintro rfl; exact ha
    · intro h
      match y, h with
      | none, _ => rfl
      | some (k, x), ⟨pre, post, h1, _⟩ =>
        rw [(split_iff hI ..).mpr h1] at hs
        cases hs
  | some s =>
    obtain ⟨pre, x, post⟩ := s
    have hp := (split_iff hI ..).mp hs
    constructor
    · rintro rfl; exact ⟨pre, post, hp, rfl⟩
    · intro h
      match y, h with
      | none, h => rw [split_all hI h] at hs; cases hs
      | some (k, x'), ⟨pre', post', h1, h2⟩ =>
        rw [(split_iff hI ..).mpr h1] at hs
        cases hs
        rw [h2]
        rfl

theorem second_iff (second : Option gpos.Single) (following done rest : List Item) :
    moveSecond ignored second following = (done, rest) ↔ Second I second following done rest := by
  unfold moveSecond
  cases second with
  | none =>
    constructor
    · intro h; cases h; exact .none
    · intro h; cases h; rfl
  | some value =>
    dsimp only
    cases hs : splitAt ignored 0 following with
    | none =>
      have ha := split_none hI following hs
      constructor
      · intro h; cases h; exact .absent ha
      · intro h
        cases h with
        | absent _ => rfl
        | moved h1 => rw [(split_iff hI ..).mpr h1] at hs; cases hs
    | some s =>
      obtain ⟨pre, x, post⟩ := s
      have hp := (split_iff hI ..).mp hs
      constructor
      · intro h; cases h; exact .moved hp
      · intro h
        cases h with
        | absent h => rw [split_all hI h] at hs; cases hs
        | moved h1 => rw [(split_iff hI ..).mpr h1] at hs; cases hs; rfl

/-- What a subtable wants is done if the lookups it asks for do what they should. -/
theorem concluded {d : Data} {nested : Nat → List Item → List Item → Reader (Option (List Item × List Item))}
    {N : Nat → List Item → List Item → Option (List Item × List Item) → Prop}
    (hN : ∀ i before text q y, Reads (nested i before text) d q y ↔ N i before text y) (before : List Item)
    (base : Option (Nat × Item)) (x : Item) (following : List Item) (r : Response) (q : Nat) (y : List Item × List Item) :
    Reads (conclude ignored nested before base x following r) d q y ↔ Outcome I N before base x following r y.1 y.2 := by
  obtain ⟨done, rest⟩ := y
  cases r with
  | moved first second =>
    show Reads (pure (_, _)) d q _ ↔ _
    rw [reads_pure]
    constructor
    · intro h
      cases h
      exact .moved ((second_iff hI second following _ _).mp rfl)
    · intro h
      cases h with
      | moved h => rw [(second_iff hI ..).mpr h]
  | joined exit entry =>
    show Reads (pure (_, _)) d q _ ↔ _
    rw [reads_pure]
    constructor
    · intro h
      cases h
      exact .joined ((nearest_iff hI following _).mp rfl)
    · intro h
      cases h with
      | joined h => rw [(nearest_iff hI ..).mpr h]
  | onBase own other =>
    show Reads (pure (_, _)) d q _ ↔ _
    rw [reads_pure]
    constructor
    · intro h
      cases h
      exact .onBase
    · intro h
      cases h
      rfl
  | onMark own other =>
    show Reads (pure (_, _)) d q _ ↔ _
    rw [reads_pure]
    constructor
    · intro h
      cases h
      exact .onMark ((nearest_iff hI before _).mp rfl)
    · intro h
      cases h with
      | onMark h => rw [(nearest_iff hI ..).mpr h]
  | sequence n actions =>
    refine Iff.trans (acted hI hN before actions _ _ q (done, rest)) ⟨fun h => .sequence ((window_iff hI ..).mp rfl) h, ?_⟩
    intro h
    cases h with
    | sequence h1 h2 => rw [(window_iff hI ..).mpr h1]; exact h2

end

section
variable (cfg : Cfg) {d : Data} {p : Nat} (hd : Fits d) {t : gpos.GlyphPositioning}
  (h : Reads (gpos.GlyphPositioning.read cfg) d p t)
include hd h

theorem performs_response (before : List Nat) (base : Option Nat) (component g : Nat) (following : List Nat) :
    Performs cfg 9 positioningExtension (gpos.Type_.read cfg) (response cfg before base component g following)
      (respond before base component g following) d p t :=
  have : ∀ type_, Parses (gpos.Type_.read cfg type_) ((response cfg before base component g following).wellFormed type_) :=
    fun type_ => inferInstanceAs (Parses (gpos.Type_.read cfg type_) (Spec.gpos.IsTable cfg type_))
  performs hd h ((C101_follow cfg hd).2 t h) fun type_ a x hx => respond_iff hd before base component g following type_ a x hx

variable {ignored : Nat → Nat → Bool} {I : Nat → Nat → Prop} (hI : ∀ i g, ignored i g = true ↔ I i g)
  {mark : Nat → Bool} {M : Nat → Prop} (hM : ∀ g, mark g = true ↔ M g)
include hI hM

theorem settled : ∀ (n i : Nat) (before text : List Item) (q : Nat) (y : Option (List Item × List Item)),
    Reads (settle cfg p t ignored mark n i before text) d q y ↔ Settled cfg d p I M n i before text y := by
  intro n
  induction n with
  | zero =>
    intro i before text q y
    show Reads (pure none) d q y ↔ _
    rw [reads_pure]
    exact ⟨fun h => h, fun h => h⟩
  | succ n ih =>
    intro i before text q y
    cases text with
    | nil =>
      show Reads (pure none) d q y ↔ _
      rw [reads_pure]
      exact ⟨fun h => h, fun h => h⟩
    | cons x following =>
      unfold settle Settled
      by_cases hg : ignored i x.glyph = true
      · have hg' := (hI i _).mp hg
        rw [if_pos hg]
        show Reads (pure none) d q y ↔ _
        rw [reads_pure]
        constructor
        · intro h; exact .inl ⟨hg', h⟩
        · rintro (⟨_, h⟩ | ⟨h, _⟩)
          · exact h
          · exact (h hg').elim
      · have hn : ¬I i x.glyph := fun hc => hg ((hI i _).mpr hc)
        have hb := nearest_iff (ignored := fun y => ignored i y.glyph || mark y.glyph) (I := fun y => I i y.glyph ∨ M y.glyph)
          (fun y => by rw [Bool.or_eq_true, hI, hM]) before
        have hc := concluded (ignored := fun y => ignored i y.glyph) (I := fun y => I i y.glyph) (fun y => hI i y.glyph) ih before
        rw [if_neg hg]
        dsimp only
        generalize nearest (fun y => ignored i y.glyph || mark y.glyph) before = base at hb
        have hbase := (hb base).mp rfl
        obtain ⟨k1, k2, _⟩ := performs_response cfg hd h (seen (I i) (before.map Item.glyph)) (base.map (·.2.glyph)) x.component
          x.glyph (seen (I i) (following.map Item.glyph)) i q
        rw [reads_bind_iff, seen_iff (hI i), seen_iff (hI i)]
        constructor
        · rintro ⟨r, q', e, hr⟩
          refine .inr ⟨hn, base, hbase, ?_⟩
          cases r with
          | none => exact .inl ⟨k2.mp ⟨q', e⟩, reads_pure.mp hr⟩
          | some r =>
            obtain ⟨z, q'', e', hr⟩ := reads_bind_iff.mp hr
            exact .inr ⟨r, z.1, z.2, (k1 _).mp ⟨q', e⟩, (hc ..).mp ⟨q'', e'⟩, reads_pure.mp hr⟩
        · rintro (⟨h, _⟩ | ⟨_, base', h0, ⟨h1, rfl⟩ | ⟨r, done, rest, h1, h2, rfl⟩⟩)
          · exact (hn h).elim
          · obtain rfl := (hb base').mpr h0
            obtain ⟨q', e⟩ := k2.mpr h1
            exact ⟨none, q', e, reads_pure.mpr rfl⟩
          · obtain rfl := (hb base').mpr h0
            obtain ⟨q', e⟩ := (k1 _).mpr h1
            obtain ⟨q'', e'⟩ := (hc base x following r q' (done, rest)).mpr h2
            exact ⟨some r, q', e, reads_bind_iff.mpr ⟨_, q'', e', reads_pure.mpr rfl⟩⟩

end

theorem second_length {I : Item → Prop} {second : Option gpos.Single} {following done rest : List Item}
    (h : Second I second following done rest) : rest.length ≤ following.length := by
  cases h with
  | none => exact Nat.le_refl _
  | absent _ => exact Nat.le_refl _
  | moved h =>
    rw [h.1, List.length_append, List.length_cons]
    omega

theorem settled_length {cfg : Cfg} {d : Data} {p : Nat} {I : Nat → Nat → Prop} {M : Nat → Prop} {n i : Nat}
    {before following done rest : List Item} {x : Item}
    (h : Settled cfg d p I M n i before (x :: following) (some (done, rest))) : rest.length ≤ following.length := by
  cases n with
  | zero => cases h
  | succ n =>
    unfold Settled at h
    rcases h with ⟨_, h⟩ | ⟨_, _, _, ⟨_, h⟩ | ⟨r, _, _, _, h, e⟩⟩
    · cases h
    · cases h
    · cases e
      cases h with
      | moved h => exact second_length h
      | joined _ => exact Nat.le_refl _
      | onBase => exact Nat.le_refl _
      | onMark _ => exact Nat.le_refl _
      | sequence h1 h2 => exact Nat.le_trans (acted_length h2) (window_length h1)

/-- What placing text should give, if `ignored` and `mark` tell the program what `I` and `M` say: what the bytes tell, whatever the
script, the language, the features and the glyphs are, however deep calls may be nested, and wherever the tape was before. -/
def SettlesText (cfg : Cfg) (d : Data) (p : Nat) (t : gpos.GlyphPositioning) (ignored : Nat → Nat → Bool) (mark : Nat → Bool)
    (I : Nat → Nat → Prop) (M : Nat → Prop) : Prop :=
  ∀ n script language tags text q out,
    Reads (settleText cfg p t ignored mark n script language tags text) d q out ↔
      SettledInto cfg d p I M n script language tags text out

theorem settlesText (cfg : Cfg) {d : Data} {p : Nat} (hd : Fits d) {t : gpos.GlyphPositioning}
    (h : Reads (gpos.GlyphPositioning.read cfg) d p t) {ignored : Nat → Nat → Bool} {I : Nat → Nat → Prop}
    (hI : ∀ i g, ignored i g = true ↔ I i g) {mark : Nat → Bool} {M : Nat → Prop} (hM : ∀ g, mark g = true ↔ M g) :
    SettlesText cfg d p t ignored mark I M := by
  intro n script language tags text q out
  refine all_passed (fun i text q out => ?_) (wanted_found (isTable := Spec.gpos.IsTable cfg) hd h script language tags) text q out
  exact went_forward (settled cfg hd h hI hM n i) (fun _ _ _ _ _ => settled_length) text.length [] text q out (Nat.le_refl _)

/-- Whatever GPOS table is read from any tape, in every build, text is placed as its bytes tell, if no glyphs are ignored and
none are marks. -/
theorem C115_place (cfg : Cfg) {d : Data} {p : Nat} (hd : Fits d) {t : gpos.GlyphPositioning}
    (h : Reads (gpos.GlyphPositioning.read cfg) d p t) :
    SettlesText cfg d p t (fun _ _ => false) (fun _ => false) (fun _ _ => False) fun _ => False :=
  settlesText cfg hd h (fun _ _ => by simp) fun _ => by simp

/-- Whatever GDEF table and GPOS table are read from any tape, in every build, text is placed as their bytes tell. Marks are the
glyphs that GDEF has in class 3. -/
theorem C115_ignoring (cfg : Cfg) {d : Data} {p q : Nat} (hd : Fits d) {definition : gdef.GlyphDefinition}
    (hdef : Reads (gdef.GlyphDefinition.read cfg) d q definition) {t : gpos.GlyphPositioning}
    (h : Reads (gpos.GlyphPositioning.read cfg) d p t) :
    SettlesText cfg d p t (passedOver definition t) (fun g => classIn definition.glyph_class g == 3) (Ignores cfg d q p)
      fun g => GlyphClass d q g 3 := by
  refine settlesText cfg hd h (fun i g => ?_) fun g => ?_
  · obtain ⟨h1, h2⟩ := (C110_ignored cfg hd hdef).2 t h
    unfold passedOver
    cases hi : t.lookups.records[i]? with
    | none => exact ⟨fun e => (by cases e), fun hc => (h2 i hi g hc).elim⟩
    | some record => exact h1 i record hi g
  · rw [beq_iff_eq]
    exact (C107_classes hd hdef g 3).1

/-- The same from the file on. -/
theorem C115_font (accept : Tag → Bool) (cfg : Cfg) {d : Data} (hd : Fits d) (p p' : Nat) {definition : gdef.GlyphDefinition}
    (hdef : Takes accept cfg d p .glyphDefinition (gdef.GlyphDefinition.read cfg) (some definition)) {t : gpos.GlyphPositioning}
    (h : Takes accept cfg d p' .glyphPositioning (gpos.GlyphPositioning.read cfg) (some t)) :
    ∃ a b, TableAt accept cfg d .glyphDefinition a ∧ TableAt accept cfg d .glyphPositioning b ∧
      SettlesText cfg d b t (passedOver definition t) (fun g => classIn definition.glyph_class g == 3) (Ignores cfg d a b)
        fun g => GlyphClass d a g 3 := by
  obtain ⟨a, h1, h2⟩ := (C55_stored (S := Reads _) accept cfg _ hd (fun _ _ => Iff.rfl) p definition).mp hdef
  obtain ⟨b, h3, h4⟩ := (C55_stored (S := Reads _) accept cfg _ hd (fun _ _ => Iff.rfl) p' t).mp h
  exact ⟨a, b, h1, h3, C115_ignoring cfg hd h2 h4⟩

/-! ## Example -/

/-- A GPOS table with one script, `latn`, one language, the default one, one feature, `mark`, and four lookups, of which the
feature has all but the third. The first attaches glyph 20 to glyph 3. The second is a chained context: at glyph 4, where glyph 3
is next, the third lookup is performed, which has 6 as the advance of glyph 4. The fourth joins glyph 5 to glyph 6. -/
def settlingTable : Data := bytes <|
  [0, 1,  0, 0,  0, 10,  0, 30,  0, 48] ++
  [0, 1,  0x6C, 0x61, 0x74, 0x6E,  0, 8] ++ [0, 4,  0, 0] ++ [0, 0,  0xFF, 0xFF,  0, 1,  0, 0] ++
  [0, 1,  0x6D, 0x61, 0x72, 0x6B,  0, 8] ++ [0, 0,  0, 3,  0, 0,  0, 1,  0, 3] ++
  [0, 4,  0, 10,  0, 64,  0, 102,  0, 124] ++
  [0, 4,  0, 0,  0, 1,  0, 8] ++ [0, 1,  0, 12,  0, 18,  0, 1,  0, 24,  0, 36] ++ [0, 1,  0, 1,  0, 20] ++ [0, 1,  0, 1,  0, 3] ++
    [0, 1,  0, 0,  0, 6] ++ [0, 1,  0, 1,  0, 2] ++ [0, 1,  0, 4] ++ [0, 1,  0, 10,  0, 30] ++
  [0, 8,  0, 0,  0, 1,  0, 8] ++ [0, 3,  0, 0,  0, 1,  0, 18,  0, 1,  0, 24,  0, 1,  0, 0,  0, 2] ++ [0, 1,  0, 1,  0, 4] ++
    [0, 1,  0, 1,  0, 3] ++
  [0, 1,  0, 0,  0, 1,  0, 8] ++ [0, 1,  0, 8,  0, 4,  0, 6] ++ [0, 1,  0, 1,  0, 4] ++
  [0, 3,  0, 0,  0, 1,  0, 8] ++ [0, 1,  0, 14,  0, 2,  0, 0,  0, 22,  0, 28,  0, 0] ++ [0, 1,  0, 2,  0, 5,  0, 6] ++
    [0, 1,  0, 7,  0, 0] ++ [0, 1,  0, 1,  0, 0]

/-- Its text is placed. -/
def settleExample (mark : Nat → Bool) (n : Nat) (glyphs : List Nat) : Reader (List Item) := do
  let t ← gpos.GlyphPositioning.read ⟨false, false, false, false, false, false⟩
  settleText ⟨false, false, false, false, false, false⟩ 0 t (fun _ _ => false) mark n 0x6C61746E 0x44455520 [0x6D61726B]
    (glyphs.map fun g => ⟨g, 0, []⟩)

/-- In the glyphs 4, 3, 20, 20, 5, 6, 4, the first is moved, the marks are attached, and the fifth is joined to the sixth. If
calls may not be nested, the first is not moved. -/
example :
    Reads (settleExample (· == 20) 2 [4, 3, 20, 20, 5, 6, 4]) settlingTable 0
      [⟨4, 0, [.moved (advance 6)]⟩, ⟨3, 0, []⟩,
        ⟨20, 0, [.attached 1 (.format1 ⟨1, 1, 2⟩) (.format1 ⟨1, 10, 30⟩)]⟩,
        ⟨20, 0, [.attached 2 (.format1 ⟨1, 1, 2⟩) (.format1 ⟨1, 10, 30⟩)]⟩,
        ⟨5, 0, [.joined 1 (.format1 ⟨1, 7, 0⟩) (.format1 ⟨1, 1, 0⟩)]⟩, ⟨6, 0, []⟩, ⟨4, 0, []⟩] ∧
    Reads (settleExample (· == 20) 1 [4, 3]) settlingTable 0 [⟨4, 0, []⟩, ⟨3, 0, []⟩] := by
  decide +kernel

end OpenType.Props
