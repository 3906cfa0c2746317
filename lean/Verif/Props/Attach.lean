import Verif.Spec.Attach
import Verif.Props.Adjust
/-! # C104: attachments -/

namespace OpenType.Props
open OpenType Spec coverage

theorem coveredVia_iff {d : Data} {p k o : Nat} {t : Coverage} (ho : U16 d (p + k) o) (h : IsCoverage d (p + o) t) (g i : Nat) :
    indexOf t g = some i ↔ CoveredVia d p k g i := by
  rw [indexOf_iff h]
  constructor
  · intro h; exact ⟨o, ho, h⟩
  · rintro ⟨o', h1, h2⟩; rw [h1.unique ho] at h2; exact h2

theorem optional_unique {d : Data} (hd : Fits d) {s o : Nat} {x y : Option gpos.Anchor}
    (hx : Optional (gpos.IsAnchor d) s o x) (hy : Optional (gpos.IsAnchor d) s o y) : x = y := by
  unfold Optional at hx hy
  cases x with
  | none =>
    cases y with
    | none => rfl
    | some y => exact (hy.1 hx).elim
  | some x =>
    cases y with
    | none => exact (hx.1 hy).elim
    | some y => rw [parses_unique (r := gpos.Anchor.read) hd _ _ _ hx.2 hy.2]

/-- What asking for the connections of a glyph gives: the two anchors the bytes tell. -/
theorem C104_cursive {d : Data} {p : Nat} (hd : Fits d) {t : gpos.CursiveAttachment}
    (h : Reads gpos.CursiveAttachment.read d p t) (g : Nat) :
    (∀ x, connect t g = .ok (some x) ↔ ConnectedBy d p g x.1 x.2) ∧
    (connect t g = .ok none ↔ ∀ i, ¬CoveredIn d p g i) ∧
    ((∃ e, connect t g = .error e) ↔ Missing d p g) := by
  obtain ⟨_, _, h2, h3, ⟨h4, h5⟩, h6⟩ := (reads_parses (S := gpos.IsCursive) hd).mp h
  obtain ⟨k1, k2, k3⟩ := entryOf_iff (entries := t.connections) (coveredIn_iff h2 h6 g)
  have hm : (∃ e, entryOf t.coverage t.connections g = .error e) ↔ Missing d p g := by
    refine k3.trans ⟨?_, ?_⟩
    · rintro ⟨i, hi, hl⟩; exact ⟨i, _, hi, h3, by omega⟩
    · rintro ⟨i, n, hi, hn, hl⟩; rw [hn.unique h3] at hl; exact ⟨i, hi, by omega⟩
  have hs : ∀ x, (∃ c, entryOf t.coverage t.connections g = .ok (some c) ∧ (c.start_anchor, c.end_anchor) = x) ↔
      ConnectedBy d p g x.1 x.2 := by
    intro x
    constructor
    · rintro ⟨c, hc, rfl⟩
      obtain ⟨i, hi, hc⟩ := (k2 c).mp hc
      have hl := (List.getElem?_eq_some_iff.mp hc).1
      obtain ⟨q1, q2, q3, q4⟩ := h5 i c hc
      exact ⟨i, _, _, _, hi, h3, by omega, q1, q2, q3, q4⟩
    · rintro ⟨i, n, a, b, hi, hn, hl, ha, hb, q1, q2⟩
      rw [hn.unique h3] at hl
      have e := List.getElem?_eq_getElem (l := t.connections) (i := i) (by omega)
      obtain ⟨r1, r2, r3, r4⟩ := h5 i _ e
      rw [r1.unique ha] at r3
      rw [r2.unique hb] at r4
      refine ⟨_, (k2 _).mpr ⟨i, hi, e⟩, ?_⟩
      rw [optional_unique hd r3 q1, optional_unique hd r4 q2]
  refine ⟨fun x => Iff.trans ?_ (hs x), Iff.trans ?_ k1, Iff.trans ?_ hm⟩
  · unfold connect
    cases entryOf t.coverage t.connections g with
    | error m => exact ⟨fun e => (by cases e), fun ⟨_, e, _⟩ => (by cases e)⟩
    | ok r =>
      cases r with
      | none => exact ⟨fun e => (by cases e), fun ⟨_, e, _⟩ => (by cases e)⟩
      | some c =>
        constructor
        · intro e
          injection e with e
          injection e with e
          exact ⟨c, rfl, e⟩
        · rintro ⟨c', e, rfl⟩
          injection e with e
          injection e with e
          rw [e]; rfl
  · unfold connect
    cases entryOf t.coverage t.connections g with
    | error m => exact ⟨fun e => (by cases e), fun e => (by cases e)⟩
    | ok r => 
      cases r with
      | none => exact ⟨fun _ => rfl, fun _ => rfl⟩
      | some c => exact ⟨fun e => (by cases e), fun e => (by cases e)⟩
  · unfold connect
    cases entryOf t.coverage t.connections g with
    | error m => exact ⟨fun _ => ⟨m, rfl⟩, fun _ => ⟨m, rfl⟩⟩
    | ok r => exact ⟨fun ⟨_, e⟩ => (by cases e), fun ⟨_, e⟩ => (by cases e)⟩

/-- What is known of the program that finds the anchor of a glyph. -/
def Finds (anchor : Nat → Nat → Except Err (Option gpos.Anchor)) (A : Nat → Nat → Option gpos.Anchor → Prop)
    (B : Nat → Nat → Prop) : Prop :=
  ∀ j k, (∀ x, anchor j k = .ok x ↔ A j k x) ∧ ((∃ e, anchor j k = .error e) ↔ B j k)

theorem except_bind_ok {α β : Type} {r : Except Err α} {f : α → Except Err β} {y : β} :
    (r >>= f) = .ok y ↔ ∃ x, r = .ok x ∧ f x = .ok y := by
  cases r with
  | error e => exact ⟨fun h => (by cases h), fun ⟨_, h, _⟩ => (by cases h)⟩
  | ok x =>
    constructor
    · intro h; exact ⟨x, rfl, h⟩
    · rintro ⟨x', h, h'⟩; injection h with h; rw [← h] at h'; exact h'

theorem except_bind_error {α β : Type} {r : Except Err α} {f : α → Except Err β} :
    (∃ e, (r >>= f) = .error e) ↔ (∃ e, r = .error e) ∨ ∃ x, r = .ok x ∧ ∃ e, f x = .error e := by
  cases r with
  | error e => exact ⟨fun _ => .inl ⟨e, rfl⟩, fun _ => ⟨e, rfl⟩⟩
  | ok x =>
    constructor
    · rintro ⟨e, h⟩; exact .inr ⟨x, rfl, e, h⟩
    · rintro (⟨_, h⟩ | ⟨x', h, e, h'⟩)
      · cases h
      · injection h with h; rw [← h] at h'; exact ⟨e, h'⟩

theorem markIn_iff {cfg : Cfg} {d : Data} {s : Nat} (hd : Fits d) {t : gpos.Mark1s} (h : gpos.IsMark1s cfg d s t) (i k : Nat)
    (x : gpos.Anchor) :
    MarkIn cfg d s i k x ↔ ∃ mark, t.records[i]? = some mark ∧ mark.class_id = k ∧ mark.anchor = x := by
  obtain ⟨h1, h2, h3⟩ := h
  constructor
  · rintro ⟨n, o, hn, hl, hk, ho, hx⟩
    rw [hn.unique h1] at hl
    have e := List.getElem?_eq_getElem (l := t.records) (i := i) (by omega)
    obtain ⟨q1, q2, q3⟩ := h3 i _ e
    refine ⟨_, e, q1.unique hk, ?_⟩
    rw [q2.unique ho] at q3
    unfold gpos.IsMarkAnchor at q3 hx
    split at q3
    · rename_i hc
      rw [if_pos hc] at hx
      rw [q3, hx]
    · rename_i hc
      rw [if_neg hc] at hx
      exact parses_unique (r := gpos.Anchor.read) hd _ _ _ q3 hx
  · rintro ⟨mark, e, rfl, rfl⟩
    have hl := (List.getElem?_eq_some_iff.mp e).1
    obtain ⟨q1, q2, q3⟩ := h3 i _ e
    exact ⟨_, _, h1, by omega, q1, q2, q3⟩

/-- What attaching a mark gives: the two anchors the bytes tell. -/
def Attaches (cfg : Cfg) (A : Nat → Nat → Nat → Nat → Option gpos.Anchor → Prop) (B : Nat → Nat → Nat → Nat → Prop) (d : Data)
    (p m b : Nat) (result : Except Err (Option (gpos.Anchor × gpos.Anchor))) : Prop :=
  (∀ x, result = .ok (some x) ↔ AttachedBy cfg A d p m b x.1 x.2) ∧
  (result = .ok none ↔ ¬MissingAnchor cfg B d p m b ∧ ∀ x : gpos.Anchor × gpos.Anchor, ¬AttachedBy cfg A d p m b x.1 x.2) ∧
  ((∃ e, result = .error e) ↔ MissingAnchor cfg B d p m b)

theorem attaches {cfg : Cfg} {A : Nat → Nat → Nat → Nat → Option gpos.Anchor → Prop} {B : Nat → Nat → Nat → Nat → Prop}
    {d : Data} {p o1 o2 classes o3 o4 : Nat} (hd : Fits d) {c1 c2 : Coverage} {marks : gpos.Mark1s}
    {anchor : Nat → Nat → Except Err (Option gpos.Anchor)} (h1 : U16 d (p + 2) o1) (h2 : U16 d (p + 4) o2)
    (h3 : U16 d (p + 6) classes) (h4 : U16 d (p + 8) o3) (h5 : U16 d (p + 10) o4) (h6 : IsCoverage d (p + o1) c1)
    (h7 : IsCoverage d (p + o2) c2) (h8 : gpos.IsMark1s cfg d (p + o3) marks)
    (h9 : Finds anchor (A (p + o4) classes) (B (p + o4) classes)) (m b : Nat) :
    Attaches cfg A B d p m b (anchors c1 c2 marks.records anchor m b) := by
  have hc1 := coveredVia_iff h1 h6 m
  have hc2 := coveredVia_iff h2 h7 b
  have hs : (∀ x, anchors c1 c2 marks.records anchor m b = .ok (some x) ↔ AttachedBy cfg A d p m b x.1 x.2) ∧
      ((∃ e, anchors c1 c2 marks.records anchor m b = .error e) ↔ MissingAnchor cfg B d p m b) := by
    unfold anchors
    cases e1 : indexOf c1 m with
    | none =>
      have : ∀ i, ¬CoveredVia d p 2 m i := fun i hi => by rw [(hc1 i).mpr hi] at e1; cases e1
      refine ⟨fun x => ⟨fun e => (by cases e), ?_⟩, ⟨fun ⟨_, e⟩ => (by cases e), ?_⟩⟩
      · rintro ⟨i, _, _, _, _, _, hi, _⟩; exact (this i hi).elim
      · rintro ⟨i, _, _, _, _, hi, _⟩; exact (this i hi).elim
    | some i =>
      have hi := (hc1 i).mp e1
      have ui : ∀ i', CoveredVia d p 2 m i' → i' = i := fun i' h => by
        have := (hc1 i').mpr h; rw [e1] at this; injection this with this; exact this.symm
      cases e2 : indexOf c2 b with
      | none =>
        have : ∀ j, ¬CoveredVia d p 4 b j := fun j hj => by rw [(hc2 j).mpr hj] at e2; cases e2
        refine ⟨fun x => ⟨fun e => (by cases e), ?_⟩, ⟨fun ⟨_, e⟩ => (by cases e), ?_⟩⟩
        · rintro ⟨_, j, _, _, _, _, _, hj, _⟩; exact (this j hj).elim
        · rintro ⟨_, j, _, _, _, _, hj, _⟩; exact (this j hj).elim
      | some j =>
        have hj := (hc2 j).mp e2
        have uj : ∀ j', CoveredVia d p 4 b j' → j' = j := fun j' h => by
          have := (hc2 j').mpr h; rw [e2] at this; injection this with this; exact this.symm
        have hm := element_iff marks.records i
        constructor
        · rintro ⟨x, y⟩
          simp only [except_bind_ok, hm.1]
          constructor
          · rintro ⟨mark, hmark, a, ha, e⟩
            injection e with e
            obtain ⟨a', rfl, e'⟩ := Option.map_eq_some_iff.mp e
            injection e' with e3 e4
            exact ⟨i, j, _, _, _, _, hi, hj, h3, h4, h5, (markIn_iff hd h8 i _ x).mpr ⟨mark, hmark, rfl, e3⟩,
              e4 ▸ ((h9 j _).1 _).mp ha⟩
          · rintro ⟨i', j', k, n, o, o', hi', hj', hn, ho, ho', q1, q2⟩
            rw [ui i' hi', ho.unique h4] at q1
            rw [uj j' hj', hn.unique h3, ho'.unique h5] at q2
            obtain ⟨mark, hmark, rfl, rfl⟩ := (markIn_iff hd h8 i _ _).mp q1
            exact ⟨mark, hmark, _, ((h9 j _).1 _).mpr q2, rfl⟩
        · simp only [except_bind_error, hm.1, hm.2]
          constructor
          · rintro (hl | ⟨mark, hmark, ⟨e, he⟩ | ⟨_, _, e, he⟩⟩)
            · exact ⟨i, j, _, _, _, hi, hj, h3, h4, h5, .inl ⟨_, h8.1, by have := h8.2.1; omega⟩⟩
            · exact ⟨i, j, _, _, _, hi, hj, h3, h4, h5, .inr ⟨_, _, (markIn_iff hd h8 i _ _).mpr ⟨mark, hmark, rfl, rfl⟩,
                (h9 j _).2.mp ⟨e, he⟩⟩⟩
            · cases he
          · rintro ⟨i', j', n, o, o', hi', hj', hn, ho, ho', ⟨l, q1, q2⟩ | ⟨k, x, q1, q2⟩⟩
            · rw [ho.unique h4] at q1
              rw [ui i' hi', q1.unique h8.1] at q2
              exact .inl (by have := h8.2.1; omega)
            · rw [ui i' hi', ho.unique h4] at q1
              rw [uj j' hj', hn.unique h3, ho'.unique h5] at q2
              obtain ⟨mark, hmark, rfl, rfl⟩ := (markIn_iff hd h8 i _ _).mp q1
              exact .inr ⟨mark, hmark, .inl ((h9 j _).2.mpr q2)⟩
  exact ⟨hs.1, none_iff hs.1 hs.2, hs.2⟩

/-- The rows of an array of anchors. -/
theorem finds_rows {α : Type} {d : Data} (hd : Fits d) {s n classes : Nat} {records : List α} {row : α → List (Option gpos.Anchor)}
    (h1 : U16 d s n) (h2 : records.length = n)
    (h3 : ∀ (j : Nat) r, records[j]? = some r → ∃ os, U16s d (s + 2 + 2 * classes * j) classes os ∧
      AtOptionalOffsets (gpos.IsAnchor d) s os (row r)) :
    Finds (fun j k => do element (row (← element records j)) k) (AnchorIn d s classes) (NoAnchorIn d s classes) := by
  intro j k
  constructor
  · intro x
    simp only [except_bind_ok, (element_iff _ _).1]
    constructor
    · rintro ⟨r, hr, hx⟩
      obtain ⟨os, ⟨q1, q2⟩, q3, q4⟩ := h3 j r hr
      have hj := (List.getElem?_eq_some_iff.mp hr).1
      have hk := (List.getElem?_eq_some_iff.mp hx).1
      have e := List.getElem?_eq_getElem (l := os) (i := k) (by omega)
      refine ⟨n, _, h1, by omega, by omega, ?_, q4 k _ _ e hx⟩
      have := q2 k _ e
      rw [show s + 2 + 2 * classes * j + 2 * k = s + 2 + 2 * (classes * j + k) by rw [Nat.mul_add, Nat.mul_assoc]; omega] at this
      exact this
    · rintro ⟨n', o, hn, hj, hk, ho, hx⟩
      rw [hn.unique h1] at hj
      have er := List.getElem?_eq_getElem (l := records) (i := j) (by omega)
      obtain ⟨os, ⟨q1, q2⟩, q3, q4⟩ := h3 j _ er
      have e := List.getElem?_eq_getElem (l := os) (i := k) (by omega)
      have e' := List.getElem?_eq_getElem (l := row records[j]) (i := k) (by omega)
      refine ⟨_, er, ?_⟩
      rw [e']
      have := q2 k _ e
      rw [show s + 2 + 2 * classes * j + 2 * k = s + 2 + 2 * (classes * j + k) by rw [Nat.mul_add, Nat.mul_assoc]; omega] at this
      have q := q4 k _ _ e e'
      rw [this.unique ho] at q
      rw [optional_unique hd q hx]
  · simp only [except_bind_error, (element_iff _ _).1, (element_iff _ _).2]
    constructor
    · rintro (hl | ⟨r, hr, hl⟩)
      · exact ⟨n, h1, .inl (by omega)⟩
      · obtain ⟨os, ⟨q1, _⟩, q3, _⟩ := h3 j r hr
        exact ⟨n, h1, .inr (by omega)⟩
    · rintro ⟨n', hn, hl⟩
      rw [hn.unique h1] at hl
      by_cases hj : records.length ≤ j
      · exact .inl hj
      · have er := List.getElem?_eq_getElem (l := records) (i := j) (by omega)
        obtain ⟨os, ⟨q1, _⟩, q3, _⟩ := h3 j _ er
        exact .inr ⟨_, er, by omega⟩

/-- Attaching a mark to a base. -/
theorem C104_base {cfg : Cfg} {d : Data} {p : Nat} (hd : Fits d) {t : gpos.MarkToBaseAttachment}
    (h : Reads (gpos.MarkToBaseAttachment.read cfg) d p t) (m b : Nat) :
    Attaches cfg (AnchorIn d) (NoAnchorIn d) d p m b (attachToBase t m b) := by
  obtain ⟨_, _, h1, h2, h3, h4, h5, h6, h7, h8, h9, h10, h11⟩ := (reads_parses (S := gpos.IsMarkToBase cfg) hd).mp h
  exact attaches hd h1 h2 h3 h4 h5 h6 h7 h8 (finds_rows hd h9 h10 fun j r hr => ⟨_, h11 j r hr⟩) m b

/-- Attaching a mark to another mark. -/
theorem C104_mark {cfg : Cfg} {d : Data} {p : Nat} (hd : Fits d) {t : gpos.MarkToMarkAttachment}
    (h : Reads (gpos.MarkToMarkAttachment.read cfg) d p t) (m b : Nat) :
    Attaches cfg (AnchorIn d) (NoAnchorIn d) d p m b (attachToMark t m b) := by
  obtain ⟨_, _, h1, h2, h3, h4, h5, h6, h7, h8, h9, h10, h11⟩ := (reads_parses (S := gpos.IsMarkToMark cfg) hd).mp h
  exact attaches hd h1 h2 h3 h4 h5 h6 h7 h8 (finds_rows hd h9 h10 fun j r hr => ⟨_, h11 j r hr⟩) m b

/-- Attaching a mark to component `c` of a ligature. -/
theorem C104_ligature {cfg : Cfg} {d : Data} {p : Nat} (hd : Fits d) {t : gpos.MarkToLigatureAttachment}
    (h : Reads (gpos.MarkToLigatureAttachment.read cfg) d p t) (c m l : Nat) :
    Attaches cfg (ComponentIn d c) (NoComponentIn d c) d p m l (attachToLigature t c m l) := by
  obtain ⟨_, _, h1, h2, h3, h4, h5, h6, h7, h8, h9, ⟨h10, h11⟩, h12, h13⟩ :=
    (reads_parses (S := gpos.IsMarkToLigature cfg) hd).mp h
  refine attaches hd h1 h2 h3 h4 h5 h6 h7 h8 ?_ m l
  intro j k
  have rows : ∀ {ligature}, t.ligatures.records[j]? = some ligature → ∃ o, U16 d (p + t.ligatures_offset + 2 + 2 * j) o ∧
      Finds (fun c k => do element (← element ligature.components c).anchors k)
        (AnchorIn d (p + t.ligatures_offset + o) t.mark_class_count)
        (NoAnchorIn d (p + t.ligatures_offset + o) t.mark_class_count) := by
    intro ligature hl
    have hj := (List.getElem?_eq_some_iff.mp hl).1
    have e := List.getElem?_eq_getElem (l := t.ligatures.offsets) (i := j) (by omega)
    obtain ⟨q1, q2, q3⟩ := h13 j _ _ e hl
    exact ⟨_, h11 j _ e, finds_rows hd q1 q2 fun j r hr => ⟨_, q3 j r hr⟩⟩
  constructor
  · intro x
    simp only [except_bind_ok (r := element t.ligatures.records j), (element_iff t.ligatures.records j).1]
    constructor
    · rintro ⟨ligature, hl, hx⟩
      obtain ⟨o, ho, hf⟩ := rows hl
      have hj := (List.getElem?_eq_some_iff.mp hl).1
      exact ⟨_, o, h9, by omega, ho, ((hf c k).1 x).mp hx⟩
    · rintro ⟨n, o, hn, hj, ho, hx⟩
      rw [hn.unique h9] at hj
      have e := List.getElem?_eq_getElem (l := t.ligatures.records) (i := j) (by omega)
      obtain ⟨o', ho', hf⟩ := rows e
      rw [ho.unique ho'] at hx
      exact ⟨_, e, ((hf c k).1 x).mpr hx⟩
  · rw [except_bind_error]
    simp only [(element_iff t.ligatures.records j).1, (element_iff t.ligatures.records j).2]
    constructor
    · rintro (hl | ⟨ligature, hl, hx⟩)
      · exact ⟨_, h9, .inl (by omega)⟩
      · obtain ⟨o, ho, hf⟩ := rows hl
        have hj := (List.getElem?_eq_some_iff.mp hl).1
        exact ⟨_, h9, .inr ⟨by omega, o, ho, (hf c k).2.mp hx⟩⟩
    · rintro ⟨n, hn, hl | ⟨hj, o, ho, hx⟩⟩
      · rw [hn.unique h9] at hl
        exact .inl (by omega)
      · rw [hn.unique h9] at hj
        have e := List.getElem?_eq_getElem (l := t.ligatures.records) (i := j) (by omega)
        obtain ⟨o', ho', hf⟩ := rows e
        rw [ho.unique ho'] at hx
        exact .inr ⟨_, e, (hf c k).2.mpr hx⟩

/-! ## Examples -/

/-- Two classes of marks: mark 3 is of class 1, mark 4 of class 2, which there is not; base 7 has an anchor for class 1 only,
base 8 has none. -/
def attachingTable : Data := bytes <|
  [0, 1,  0, 12,  0, 20,  0, 2,  0, 28,  0, 44] ++ [0, 1, 0, 2, 0, 3, 0, 4] ++ [0, 1, 0, 2, 0, 7, 0, 8] ++
  [0, 2,  0, 1, 0, 10,  0, 2, 0, 10] ++ [0, 1, 0, 5, 0, 6] ++ [0, 2,  0, 0, 0, 10,  0, 0, 0, 0] ++ [0, 1, 0, 8, 0, 9]

def attachingValue : gpos.MarkToBaseAttachment :=
  ⟨1, 12, 20, 2, 28, 44, .format1 ⟨1, 2, [3, 4]⟩, .format1 ⟨1, 2, [7, 8]⟩,
    ⟨2, [⟨1, 10, .format1 ⟨1, 5, 6⟩⟩, ⟨2, 10, .format1 ⟨1, 5, 6⟩⟩]⟩,
    ⟨2, [⟨[0, 10], [none, some (.format1 ⟨1, 8, 9⟩)]⟩, ⟨[0, 0], [none, none]⟩]⟩⟩

example : Reads (gpos.MarkToBaseAttachment.read ⟨false, false, false, false, false, true⟩) attachingTable 0 attachingValue ∧
    attachToBase attachingValue 3 7 = .ok (some (.format1 ⟨1, 5, 6⟩, .format1 ⟨1, 8, 9⟩)) ∧
    attachToBase attachingValue 3 8 = .ok none ∧ attachToBase attachingValue 3 9 = .ok none ∧
    ∃ e, attachToBase attachingValue 4 7 = .error e :=
  ⟨by decide +kernel, by decide +kernel, by decide +kernel, by decide +kernel, _, rfl⟩

/-- The first of these facts, in terms of the bytes. -/
example : AttachedBy ⟨false, false, false, false, false, true⟩ (AnchorIn attachingTable) attachingTable 0 3 7
    (.format1 ⟨1, 5, 6⟩) (.format1 ⟨1, 8, 9⟩) := by
  have anchor : ∀ p x y, Reads gpos.Anchor.read attachingTable p (.format1 ⟨1, x, y⟩) →
      gpos.IsAnchor attachingTable p (.format1 ⟨1, x, y⟩) :=
    fun p x y h => (reads_parses (r := gpos.Anchor.read) (by decide +kernel)).mp h
  refine ⟨0, 0, 1, 2, 28, 44,
    ⟨12, by decide +kernel, .inl ⟨by decide +kernel, 2, by decide +kernel, by omega, by decide +kernel, fun j hj => by omega⟩⟩,
    ⟨20, by decide +kernel, .inl ⟨by decide +kernel, 2, by decide +kernel, by omega, by decide +kernel, fun j hj => by omega⟩⟩,
    by decide +kernel, by decide +kernel, by decide +kernel,
    ⟨2, 10, by decide +kernel, by omega, by decide +kernel, by decide +kernel, ?_⟩,
    ⟨2, 10, by decide +kernel, by omega, by omega, by decide +kernel, by omega, anchor _ _ _ (by decide +kernel)⟩⟩
  rw [gpos.IsMarkAnchor, if_neg (by simp)]
  exact anchor _ _ _ (by decide +kernel)

/-- The same bytes attach a mark to another mark. -/
example : Reads (gpos.MarkToMarkAttachment.read ⟨false, false, false, false, false, true⟩) attachingTable 0
      ⟨1, 12, 20, 2, 28, 44, .format1 ⟨1, 2, [3, 4]⟩, .format1 ⟨1, 2, [7, 8]⟩,
        ⟨2, [⟨1, 10, .format1 ⟨1, 5, 6⟩⟩, ⟨2, 10, .format1 ⟨1, 5, 6⟩⟩]⟩,
        ⟨2, [⟨[0, 10], [none, some (.format1 ⟨1, 8, 9⟩)]⟩, ⟨[0, 0], [none, none]⟩]⟩⟩ := by decide +kernel

/-- A ligature of two components, the second of which has an anchor. -/
def componentsTable : Data := bytes <|
  [0, 1,  0, 12,  0, 18,  0, 1,  0, 24,  0, 36] ++ [0, 1, 0, 1, 0, 3] ++ [0, 1, 0, 1, 0, 7] ++
  [0, 1,  0, 0, 0, 6] ++ [0, 1, 0, 5, 0, 6] ++ [0, 1,  0, 4] ++ [0, 2,  0, 0, 0, 6] ++ [0, 1, 0, 8, 0, 9]

def componentsValue : gpos.MarkToLigatureAttachment :=
  ⟨1, 12, 18, 1, 24, 36, .format1 ⟨1, 1, [3]⟩, .format1 ⟨1, 1, [7]⟩, ⟨1, [⟨0, 6, .format1 ⟨1, 5, 6⟩⟩]⟩,
    ⟨1, [4], [⟨2, [⟨[0], [none]⟩, ⟨[6], [some (.format1 ⟨1, 8, 9⟩)]⟩]⟩]⟩⟩

example : Reads (gpos.MarkToLigatureAttachment.read ⟨false, false, false, false, false, true⟩) componentsTable 0 componentsValue ∧
    attachToLigature componentsValue 1 3 7 = .ok (some (.format1 ⟨1, 5, 6⟩, .format1 ⟨1, 8, 9⟩)) ∧
    attachToLigature componentsValue 0 3 7 = .ok none ∧ ∃ e, attachToLigature componentsValue 2 3 7 = .error e :=
  ⟨by decide +kernel, by decide +kernel, by decide +kernel, _, rfl⟩

/-- A cursive attachment in which glyph 3 is left but not entered. -/
def cursiveTable : Data := bytes <| [0, 1,  0, 10,  0, 1,  0, 0, 0, 16] ++ [0, 1, 0, 1, 0, 3] ++ [0, 1, 0, 5, 0, 6]

def cursiveValue : gpos.CursiveAttachment :=
  ⟨1, 10, 1, [⟨0, 16, none, some (.format1 ⟨1, 5, 6⟩)⟩], .format1 ⟨1, 1, [3]⟩⟩

example : Reads gpos.CursiveAttachment.read cursiveTable 0 cursiveValue ∧
    connect cursiveValue 3 = .ok (some (none, some (.format1 ⟨1, 5, 6⟩))) ∧ connect cursiveValue 4 = .ok none := by
  decide +kernel

end OpenType.Props
