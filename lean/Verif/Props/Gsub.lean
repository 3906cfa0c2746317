import Verif.Proof.Gsub
import Verif.Proof.Gpos
import Verif.Props.Faithful
/-! # C22 and C23: substitution lookups, extensions -/

namespace OpenType.Props
open OpenType Spec context

/-! ## C22 -/

/-- A substitution subtable is read as it is stored, under each of the eight types. What is missing from the
property: a reverse chained substitution (type 8) is read so whatever its format, see `C22_violated`. -/
theorem C22_substitution_partial (type_ : Nat) : Faithful (gsub.Type_.read type_) (Spec.gsub.IsTable type_) :=
  faithful

/-- With format 1 the reverse chained substitution is as the specification wants it. -/
theorem C22_reverse_partial {d : Data} {p : Nat} (hd : Fits d) (hf : U16 d p 1) (v : gsub.Type_) :
    Reads (gsub.Type_.read 8) d p v ↔
      ∃ t, v = .reverseChainedContextualSubstibution t ∧ t.format = 1 ∧ Spec.gsub.IsReverse d p t := by
  rw [(C22_substitution_partial 8 d p hd).1]
  unfold Spec.gsub.IsTable
  constructor
  · intro h
    split at h <;> first
      | (have := h.1; omega)
      | exact ⟨_, rfl, h.2.1.unique hf, h.2⟩
  · rintro ⟨t, rfl, _, h⟩
    exact ⟨rfl, h⟩

/-- Every other type is refused, whatever the bytes. -/
theorem C22_other_type (type_ : Nat) (h : ¬(1 ≤ type_ ∧ type_ ≤ 8)) (d : Data) (p : Nat) :
    Refuses (gsub.Type_.read type_ d p) := by
  unfold gsub.Type_.read
  split
  all_goals first
    | exact ⟨_, rfl⟩
    | omega

/-- The format numbers of each type. -/
def gsubFormats : Nat → List Nat
  | 1 => [1, 2]
  | 2 => [1]
  | 3 => [1]
  | 4 => [1]
  | 5 => [1, 2, 3]
  | 6 => [1, 2, 3]
  | 7 => [1]
  | 8 => [1]
  | _ => []

/-- Every other format is an error, except under type 8. -/
theorem C22_other_format_partial {type_ f p : Nat} {d : Data} (hd : Fits d) (ht : type_ ≠ 8) (h : U16 d p f)
    (hf : f ∉ gsubFormats type_) : Fails (gsub.Type_.read type_ d p) := by
  refine (C22_substitution_partial type_).fails hd fun v hv => ?_
  unfold Spec.gsub.IsTable at hv
  split at hv
  all_goals obtain ⟨rfl, hv⟩ := hv
  · unfold Spec.gsub.IsSingle at hv
    split at hv <;> (have := h.unique hv.2.1; simp [gsubFormats] at hf; omega)
  · have := h.unique hv.1; have := hv.2.1; simp [gsubFormats] at hf; omega
  · have := h.unique hv.1; have := hv.2.1; simp [gsubFormats] at hf; omega
  · have := h.unique hv.1; have := hv.2.1; simp [gsubFormats] at hf; omega
  · unfold IsContext at hv
    split at hv <;> (have := h.unique hv.2.1; simp [gsubFormats] at hf; omega)
  · unfold IsChainedContext at hv
    split at hv <;> (have := h.unique hv.2.1; simp [gsubFormats] at hf; omega)
  · have := h.unique hv.1; have := hv.2.1; simp [gsubFormats] at hf; omega
  · exact ht rfl

/-- A reverse chained substitution of format 7. -/
def oddReverse : Data := bytes [0, 7,  0, 10,  0, 0,  0, 0,  0, 0,  0, 1,  0, 0]

/-- The property does not hold of type 8: a format nobody knows is accepted. -/
theorem C22_violated :
    U16 oddReverse 0 7 ∧ 7 ∉ gsubFormats 8 ∧
    Reads (gsub.Type_.read 8) oddReverse 0
      (.reverseChainedContextualSubstibution ⟨7, 10, 0, [], 0, [], 0, [], .format1 ⟨1, 0, []⟩, [], []⟩) := by
  decide +kernel

/-- A ligature substitution: glyph 5 followed by 6 becomes 9. -/
def sampleLigature : Data := bytes <|
  [0, 1,  0, 8,  0, 1,  0, 14] ++ [0, 1,  0, 1,  0, 5] ++ [0, 1,  0, 4] ++ [0, 9,  0, 2,  0, 6]

example : Reads (gsub.Type_.read 4) sampleLigature 0 (.ligatureSubstitution
      ⟨1, 8, 1, [14], .format1 ⟨1, 1, [5]⟩, [⟨1, [4], [⟨9, 2, [6]⟩]⟩]⟩) ∧
    U16 sampleLigature 2 8 ∧ 8 ∉ gsubFormats 4 ∧ Reads (gsub.Type_.read 8)
      (bytes [0, 1,  0, 10,  0, 0,  0, 0,  0, 0,  0, 1,  0, 0]) 0
      (.reverseChainedContextualSubstibution ⟨1, 10, 0, [], 0, [], 0, [], .format1 ⟨1, 0, []⟩, [], []⟩) := by
  decide +kernel

/-! ## C23 -/

/-- An extension is returned as its stored type and offset, both in GSUB and in GPOS. -/
theorem C23_reported (cfg : Cfg) {d : Data} {p : Nat} (hd : Fits d) :
    (∀ v, Reads (gsub.Type_.read 7) d p v ↔
      ∃ t o, v = .extensionSubstitution ⟨1, t, o⟩ ∧ U16 d p 1 ∧ U16 d (p + 2) t ∧ U32 d (p + 4) o) ∧
    (∀ v, Reads (gpos.Type_.read cfg 9) d p v ↔
      ∃ t o, v = .extensionPositioning ⟨1, t, o⟩ ∧ U16 d p 1 ∧ U16 d (p + 2) t ∧ U32 d (p + 4) o) := by
  constructor
  · intro v
    rw [reads_parses hd]
    unfold Spec.gsub.IsTable
    constructor
    · intro h
      split at h <;> first
        | (have := h.1; omega)
        | (rename_i t
           obtain ⟨_, h1, h2, h3, h4⟩ := h
           obtain ⟨f, t, o⟩ := t
           cases h2
           exact ⟨t, o, rfl, h1, h3, h4⟩)
    · rintro ⟨t, o, rfl, h1, h2, h3⟩
      exact ⟨rfl, h1, rfl, h2, h3⟩
  · intro v
    rw [reads_parses hd]
    unfold Spec.gpos.IsTable
    constructor
    · intro h
      split at h <;> first
        | (have := h.1; omega)
        | (rename_i t
           obtain ⟨_, h1, h2, h3, h4⟩ := h
           obtain ⟨f, t, o⟩ := t
           cases h2
           exact ⟨t, o, rfl, h1, h3, h4⟩)
    · rintro ⟨t, o, rfl, h1, h2, h3⟩
      exact ⟨rfl, h1, rfl, h2, h3⟩

/-- The eight bytes at `p` in `d` are the eight bytes at `p'` in `d'`, as far as there are any. -/
def SameEight (d : Data) (p : Nat) (d' : Data) (p' : Nat) : Prop := ∀ i < 8, d[p + i]? = d'[p' + i]?

theorem SameEight.u8 {d d' : Data} {p p' : Nat} (h : SameEight d p d' p') (i : Nat) (hi : i < 8) (n : Nat) :
    U8 d (p + i) n ↔ U8 d' (p' + i) n := by unfold U8; rw [h i hi]

theorem SameEight.u16 {d d' : Data} {p p' : Nat} (h : SameEight d p d' p') (i : Nat) (hi : i + 1 < 8) (n : Nat) :
    U16 d (p + i) n ↔ U16 d' (p' + i) n := by
  unfold U16
  simp only [h.u8 i (by omega), Nat.add_assoc, h.u8 (i + 1) hi]

theorem SameEight.u32 {d d' : Data} {p p' : Nat} (h : SameEight d p d' p') (i : Nat) (hi : i + 3 < 8) (n : Nat) :
    U32 d (p + i) n ↔ U32 d' (p' + i) n := by
  unfold U32
  simp only [h.u16 i (by omega), Nat.add_assoc, h.u16 (i + 2) (by omega)]

theorem fails_iff {α : Type} {r : Reader α} {S P} [Parses r S] [Reloc False r P] {d d' : Data} {p p' : Nat}
    (hd : Fits d) (hd' : Fits d') (h : ∀ v, Reads r d p v ↔ Reads r d' p' v) :
    Fails (r d p) ↔ Fails (r d' p') := by
  have key : ∀ {d : Data} {p : Nat}, Fits d → (Fails (r d p) ↔ ∀ v, ¬Reads r d p v) := by
    intro d p hd
    refine ⟨?_, fun h => ((faithful (r := r)) d p hd).2 fun v hv => h v ((reads_parses hd).mpr hv)⟩
    rintro (h | ⟨m, h⟩) v ⟨q, hq⟩ <;> (rw [h] at hq; cases hq)
  rw [key hd, key hd']
  simp only [h]

/-- What an extension is read as depends on its own eight bytes only: what its offset leads to, and everything
else, is irrelevant. -/
theorem C23_own_bytes (cfg : Cfg) {d d' : Data} {p p' : Nat} (hd : Fits d) (hd' : Fits d')
    (h : SameEight d p d' p') :
    (∀ v, Reads (gsub.Type_.read 7) d p v ↔ Reads (gsub.Type_.read 7) d' p' v) ∧
    (Fails (gsub.Type_.read 7 d p) ↔ Fails (gsub.Type_.read 7 d' p')) ∧
    (∀ v, Reads (gpos.Type_.read cfg 9) d p v ↔ Reads (gpos.Type_.read cfg 9) d' p' v) ∧
    (Fails (gpos.Type_.read cfg 9 d p) ↔ Fails (gpos.Type_.read cfg 9 d' p')) := by
  have h0 := h.u16 0 (by omega) 1
  rw [Nat.add_zero, Nat.add_zero] at h0
  have h1 : ∀ v, Reads (gsub.Type_.read 7) d p v ↔ Reads (gsub.Type_.read 7) d' p' v := by
    intro v
    rw [(C23_reported cfg hd).1, (C23_reported cfg hd').1]
    simp only [h0, h.u16 2 (by omega), h.u32 4 (by omega)]
  have h2 : ∀ v, Reads (gpos.Type_.read cfg 9) d p v ↔ Reads (gpos.Type_.read cfg 9) d' p' v := by
    intro v
    rw [(C23_reported cfg hd).2, (C23_reported cfg hd').2]
    simp only [h0, h.u16 2 (by omega), h.u32 4 (by omega)]
  exact ⟨h1, fails_iff hd hd' h1, h2, fails_iff hd hd' h2⟩

/-- An extension that leads to itself, and one that leads nowhere. -/
example : Reads (gsub.Type_.read 7) (bytes [0, 1, 0, 7, 0, 0, 0, 0]) 0 (.extensionSubstitution ⟨1, 7, 0⟩) ∧
    Reads (gpos.Type_.read ⟨false, false, false, false, false, false⟩ 9)
      (bytes [0, 1, 0, 9, 255, 255, 255, 255]) 0 (.extensionPositioning ⟨1, 9, 4294967295⟩) ∧
    SameEight (bytes [0, 1, 0, 7, 0, 0, 0, 8]) 0 (bytes [3, 0, 1, 0, 7, 0, 0, 0, 8, 5, 5]) 1 := by
  refine ⟨by decide +kernel, by decide +kernel, ?_⟩
  unfold SameEight
  decide +kernel

end OpenType.Props
