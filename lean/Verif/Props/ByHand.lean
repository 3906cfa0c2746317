import Verif.Props.Changing
import Verif.Props.Cpal
import Verif.Props.Lists
/-! # C94: methods of values that were not read from a file

The fields of the tables are public, so a value may have been put together or changed by the user, or may come from a file that
was written to while it was read (C93). -/

namespace OpenType.Props
open OpenType Spec script feature cpal

/-- The first header with the tag is number `i`. -/
def FoundAt {H : Type} (tagOf : H → Tag) (headers : List H) (tag : Tag) (i : Nat) : Prop :=
  (∃ header, headers[i]? = some header ∧ tagOf header = tag) ∧
    ∀ j < i, ∀ header, headers[j]? = some header → tagOf header ≠ tag

/-- What searching does, however many headers and records there are. -/
def Searches {H R : Type} (tagOf : H → Tag) (headers : List H) (records : List R)
    (get : Tag → Except Err (Option R)) : Prop :=
  ∀ tag,
    (get tag = .ok none ↔ ∀ header ∈ headers, tagOf header ≠ tag) ∧
    (∀ record, get tag = .ok (some record) ↔ ∃ i, FoundAt tagOf headers tag i ∧ records[i]? = some record) ∧
    (∀ m, get tag = .error (.panic m) ↔ m = "index out of bounds" ∧
      ∃ i, FoundAt tagOf headers tag i ∧ records.length ≤ i)

theorem searches {H R : Type} {tagOf : H → Tag} {headers : List H} {records : List R} :
    Searches tagOf headers records (getByTag tagOf headers records) := by
  intro tag
  unfold getByTag
  cases hf : headers.findIdx? (fun header => tagOf header == tag) with
  | none =>
    rw [List.findIdx?_eq_none_iff] at hf
    simp only [beq_eq_false_iff_ne, ne_eq] at hf
    have none : ∀ i, ¬FoundAt tagOf headers tag i := fun i ⟨⟨header, h1, h2⟩, _⟩ => hf header (List.mem_of_getElem? h1) h2
    exact ⟨⟨fun _ => hf, fun _ => rfl⟩, fun record => ⟨nofun, fun ⟨i, h, _⟩ => (none i h).elim⟩,
      fun m => ⟨nofun, fun ⟨_, i, h, _⟩ => (none i h).elim⟩⟩
  | some i =>
    rw [List.findIdx?_eq_some_iff_getElem] at hf
    obtain ⟨hi, ht, hl⟩ := hf
    have ht' : tagOf headers[i] = tag := by simpa using ht
    have first : FoundAt tagOf headers tag i := by
      refine ⟨⟨_, List.getElem?_eq_getElem hi, ht'⟩, fun j hj header hh => ?_⟩
      obtain ⟨hj', rfl⟩ := List.getElem?_eq_some_iff.mp hh
      simpa using hl j hj
    have unique : ∀ k, FoundAt tagOf headers tag k → k = i := by
      intro k hk
      rcases Nat.lt_trichotomy k i with h | h | h
      · obtain ⟨⟨header, h1, h2⟩, _⟩ := hk
        exact (first.2 k h header h1 h2).elim
      · exact h
      · exact (hk.2 i h _ (List.getElem?_eq_getElem hi) ht').elim
    have some_ : ¬∀ header ∈ headers, tagOf header ≠ tag := fun h => h _ (List.getElem_mem hi) ht'
    dsimp only
    cases hr : records[i]? with
    | none =>
      refine ⟨⟨nofun, fun h => (some_ h).elim⟩, fun record => ⟨nofun, ?_⟩, fun m => ⟨?_, ?_⟩⟩
      · rintro ⟨k, hk, hk'⟩
        rw [unique k hk, hr] at hk'
        cases hk'
      · rintro ⟨⟩
        exact ⟨rfl, i, first, List.getElem?_eq_none_iff.mp hr⟩
      · rintro ⟨rfl, _⟩
        rfl
    | some x =>
      refine ⟨⟨nofun, fun h => (some_ h).elim⟩, fun record => ⟨?_, ?_⟩, fun m => ⟨nofun, ?_⟩⟩
      · rintro ⟨⟩
        exact ⟨i, first, hr⟩
      · rintro ⟨k, hk, hk'⟩
        rw [unique k hk, hr] at hk'
        cases hk'
        rfl
      · rintro ⟨_, k, hk, hk'⟩
        rw [unique k hk] at hk'
        have := (List.getElem?_eq_some_iff.mp hr).1
        omega

/-- For every value of the three types, read or not. -/
theorem C94_get :
    (∀ t : Features, Searches (·.tag) t.headers t.records t.get) ∧
    (∀ t : Scripts, Searches (·.tag) t.headers t.records t.get) ∧
    (∀ t : script.Record, Searches (·.tag) t.language_headers t.language_records t.get) :=
  ⟨fun _ => searches, fun _ => searches, fun _ => searches⟩

/-- Searching in what was read from a file that others write to does not panic. -/
theorem C94_changing :
    StandsChange False Features.read (fun t => GetsFirst (·.tag) t.headers t.records t.get) ∧
    StandsChange False Scripts.read (fun t => GetsFirst (·.tag) t.headers t.records t.get ∧
      ∀ record ∈ t.records, GetsFirst (·.tag) record.language_headers record.language_records record.get) := by
  constructor
  · intro σ device E stands ha s p hs
    obtain ⟨h1, h2⟩ := (C93_layout ⟨true, true, true, true, true, true⟩ 1).2.2.2.2.2.2.1 σ device E stands ha s p hs
    exact ⟨fun t ht => getsFirst ((h1 t ht).2.1.trans (h1 t ht).1.symm), h2⟩
  · intro σ device E stands ha s p hs
    obtain ⟨h1, h2⟩ := (C93_layout ⟨true, true, true, true, true, true⟩ 1).2.2.2.2.2.1 σ device E stands ha s p hs
    exact ⟨fun t ht => ⟨getsFirst ((h1 t ht).2.1.trans (h1 t ht).1.symm), fun record hm =>
      have := (h1 t ht).2.2 record hm
      getsFirst (this.2.1.trans this.1.symm)⟩, h2⟩

/-- The numbers in the header of a palette table: how many entries each palette has, how many colors it says there
are, and where each palette begins. -/
def announced (t : ColorPalettes) : Nat × Nat × List Nat :=
  match t.header with
  | .version0 h => (h.entry_count, h.color_count, h.color_indices)
  | .version1 h => (h.entry_count, h.color_count, h.color_indices)

/-- Iterating over any palette table: there are as many palettes as beginnings, not as the table says, and each has the
announced number of entries. An entry is the color that many places after the beginning, if there is one; if not, asking for it
panics. In builds with overflow checks it also panics if the color lies beyond the number of colors that is announced. -/
theorem C94_iter (cfg : Cfg) (t : ColorPalettes) (entries colors : Nat) (starts : List Nat)
    (ht : announced t = (entries, colors, starts)) (he : entries < 65536) (hs : ∀ start ∈ starts, start < 65536) :
    (t.iter cfg).length = starts.length ∧
    ∀ (i start : Nat), starts[i]? = some start → ∃ palette : List (Except Err Color), (t.iter cfg)[i]? = some palette ∧
      palette.length = entries ∧ ∀ j < entries, ∃ item, palette[j]? = some item ∧
        (∀ color, item = .ok color ↔ t.colors[start + j]? = some color ∧ (cfg.overflowChecks = true → start + j < colors)) ∧
        ((∃ m, item = .error (.panic m)) ↔
          t.colors.length ≤ start + j ∨ (cfg.overflowChecks = true ∧ colors ≤ start + j)) := by
  have e : t.iter cfg = starts.map fun start => (List.range entries).map fun j => entry cfg t.colors colors start j := by
    unfold announced at ht
    unfold ColorPalettes.iter
    cases hh : t.header with
    | version0 h => rw [hh] at ht; cases ht; rfl
    | version1 h => rw [hh] at ht; cases ht; rfl
  rw [e]
  refine ⟨List.length_map _, fun i start hi => ⟨_, by rw [List.getElem?_map, hi]; rfl, by simp, fun j hj => ?_⟩⟩
  refine ⟨entry cfg t.colors colors start j, by rw [List.getElem?_map, List.getElem?_range hj]; rfl, ?_⟩
  have hstart := hs start (List.mem_of_getElem? hi)
  have small : ¬2 ^ 32 ≤ start + j := by omega
  unfold entry
  dsimp only
  rw [if_neg small]
  cases hc : cfg.overflowChecks with
  | false =>
    simp only [Bool.false_and, Bool.false_eq_true, if_false, false_implies, and_true, false_and, or_false]
    cases hx : t.colors[start + j]? with
    | none => exact ⟨fun color => ⟨nofun, nofun⟩, fun _ => List.getElem?_eq_none_iff.mp hx, fun _ => ⟨_, rfl⟩⟩
    | some x =>
      have := (List.getElem?_eq_some_iff.mp hx).1
      exact ⟨fun color => ⟨by rintro ⟨⟩; rfl, by rintro ⟨⟩; rfl⟩, nofun, fun h => by omega⟩
  | true =>
    by_cases hlt : start + j < colors
    · simp only [hlt, decide_true, Bool.not_true, Bool.and_false, Bool.false_eq_true, if_false, true_implies, and_true,
        true_and]
      cases hx : t.colors[start + j]? with
      | none =>
        exact ⟨fun color => ⟨nofun, nofun⟩, fun _ => .inl (List.getElem?_eq_none_iff.mp hx), fun _ => ⟨_, rfl⟩⟩
      | some x =>
        have := (List.getElem?_eq_some_iff.mp hx).1
        exact ⟨fun color => ⟨by rintro ⟨⟩; rfl, by rintro ⟨⟩; rfl⟩, nofun, fun h => by omega⟩
    · simp only [hlt, decide_false, Bool.not_false, Bool.and_true, if_true, true_implies, and_false, true_and]
      exact ⟨fun color => ⟨nofun, nofun⟩, fun _ => .inr (by omega), fun _ => ⟨_, rfl⟩⟩

/-- A feature list with two headers of the same tag and one record, made by hand: the tag of the first is found, and
asking for the one whose record is missing panics. -/
example :
    let t : Features := ⟨2, [⟨5, 0⟩, ⟨6, 0⟩, ⟨5, 0⟩], [⟨0, 1, [9], none⟩]⟩
    t.get 5 = .ok (some ⟨0, 1, [9], none⟩) ∧ t.get 7 = .ok none ∧ t.get 6 = .error (.panic "index out of bounds") := by
  decide +kernel

/-- A table with three colors that announces two: what it gives depends on the build. -/
example :
    let t : ColorPalettes := ⟨.version0 ⟨0, 2, 7, 2, 14, [1, 2]⟩, [⟨1, 1, 1, 1⟩, ⟨2, 2, 2, 2⟩, ⟨3, 3, 3, 3⟩]⟩
    announced t = (2, 2, [1, 2]) ∧
    t.iter { defaultCfg with overflowChecks := false } =
      [[.ok ⟨2, 2, 2, 2⟩, .ok ⟨3, 3, 3, 3⟩], [.ok ⟨3, 3, 3, 3⟩, .error (.panic "index out of bounds")]] ∧
    t.iter { defaultCfg with overflowChecks := true } =
      [[.ok ⟨2, 2, 2, 2⟩, .error (.panic "assertion failed: color_index < color_count as usize")],
        [.error (.panic "assertion failed: color_index < color_count as usize"),
          .error (.panic "assertion failed: color_index < color_count as usize")]] := by
  decide +kernel

end OpenType.Props
