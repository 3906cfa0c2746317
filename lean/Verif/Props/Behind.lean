import Verif.Props.Gpos
import Verif.Proof.Font
import Verif.Proof.Cpal
import Verif.Proof.Fvar
import Verif.Proof.Gdef
import Verif.Proof.Gsub
import Verif.Proof.Item
/-! # C78: parts without offsets can be read one after another -/

namespace OpenType.Props
open OpenType Spec

/-- Reading leaves the tape right behind a part, whose size follows from its content. -/
def LeavesBehind {α : Type} (r : Reader α) (size : α → Nat) : Prop :=
  ∀ d p v q, Fits d → r d p = .ok (v, q) → q = p + size v

section
variable {d : Data} {p q : Nat}

theorem run_subUint {a b n : Nat} : subUint a b d p = .ok (n, q) ↔ b ≤ a ∧ n = a - b ∧ q = p := by
  unfold subUint
  split
  · rename_i h; simp only [run_pure, h, true_and]
  · rename_i h; simp only [run_panicked, h, false_and]

theorem run_addUsize {a b n : Nat} : addUsize a b d p = .ok (n, q) ↔ a + b < 2 ^ 32 ∧ n = a + b ∧ q = p := by
  unfold addUsize
  split
  · rename_i h; simp only [run_pure, h, true_and]
  · rename_i h; simp only [run_panicked, h, false_and]

theorem run_mulUsize {a b n : Nat} : mulUsize a b d p = .ok (n, q) ↔ a * b < 2 ^ 32 ∧ n = a * b ∧ q = p := by
  unfold mulUsize
  split
  · rename_i h; simp only [run_pure, h, true_and]
  · rename_i h; simp only [run_panicked, h, false_and]

end

theorem leavesBehind {α : Type} {r : Reader α} {S size} [Fixed r S size] : LeavesBehind r (fun _ => size) :=
  movesBy

/-- Split a successful run into the runs of its steps and add up. -/
macro "behind" f:ident : tactic => `(tactic| (
  intro d p v q hd h
  unfold $f at h
  simp only [run_bind, Fixed.run hd, run_pure, run_raiseIf, run_subUint, run_addUsize, run_mulUsize, ArrayOf] at h
  casesm* ∃ _, _, _ ∧ _
  subst_vars
  first | done | rfl | (simp only [] at *; omega)))

/-- Skip the look at the first word. -/
theorem behind_peek {α β : Type} {r : Reader β} {S k} [Fixed r S k] {f : β → Reader α} {size : α → Nat}
    (h : ∀ b, LeavesBehind (f b) size) : LeavesBehind (peek r >>= f) size := by
  intro d p v q hd h'
  obtain ⟨b, m, h1, h2⟩ := run_bind.mp h'
  obtain ⟨_, rfl⟩ := run_stay.mp h1
  exact h b d m v q hd h2

theorem behind_map {α β : Type} {r : Reader α} {size : α → Nat} {g : α → β} {size' : β → Nat}
    (h : LeavesBehind r size) (hs : ∀ a, size' (g a) = size a) :
    LeavesBehind (do let a ← r; return g a) size' := by
  intro d p v q hd h'
  obtain ⟨a, m, h1, h2⟩ := run_bind.mp h'
  obtain ⟨rfl, rfl⟩ := run_pure.mp h2
  rw [hs]
  exact h d p a _ hd h1

theorem behind_raise {α : Type} {m : Message} {size : α → Nat} : LeavesBehind (raise m) size := by
  intro d p v q _ h
  exact (run_raise.mp h).elim

/-- The size of a coverage. -/
def coverageSize : coverage.Coverage → Nat
  | .format1 t => 4 + 2 * t.glyph_ids.length
  | .format2 t => 4 + 6 * t.records.length

/-- The size of a class definition. -/
def classSize : class_.Class → Nat
  | .format1 t => 6 + 2 * t.indices.length
  | .format2 t => 4 + 6 * t.records.length

/-- The size of a correction. -/
def correctionSize : correction.Correction → Nat
  | .device t => 6 + 2 * t.deltas.length
  | .variation _ => 6

/-- The size of a palette header. -/
def paletteHeaderSize : cpal.Header → Nat
  | .version0 t => 12 + 2 * t.color_indices.length
  | .version1 t => 12 + 2 * t.color_indices.length

/-- The size of a glyph-definition header. -/
def definitionHeaderSize : gdef.Header → Nat
  | .version1 _ => 12
  | .version12 _ => 14
  | .version13 _ => 18

theorem behind_coverage : LeavesBehind coverage.Coverage.read coverageSize := by
  refine behind_peek fun b => ?_
  split
  · exact behind_map (size := fun t => 4 + 2 * t.glyph_ids.length) (by behind coverage.Coverage1.read) fun _ => rfl
  · exact behind_map (size := fun t => 4 + 6 * t.records.length) (by behind coverage.Coverage2.read) fun _ => rfl
  · exact behind_raise

theorem behind_class : LeavesBehind class_.Class.read classSize := by
  refine behind_peek fun b => ?_
  split
  · exact behind_map (size := fun t => 6 + 2 * t.indices.length) (by behind class_.Class1.read) fun _ => rfl
  · exact behind_map (size := fun t => 4 + 6 * t.records.length) (by behind class_.Class2.read) fun _ => rfl
  · exact behind_raise

theorem behind_device : LeavesBehind correction.Device.read (fun t => 6 + 2 * t.deltas.length) := by
  behind correction.Device.read

theorem behind_correction : LeavesBehind correction.Correction.read correctionSize := by
  refine behind_peek fun b => ?_
  dsimp only
  split
  · exact behind_map behind_device fun _ => rfl
  · split
    · exact behind_map (leavesBehind (r := correction.Variation.read)) fun _ => rfl
    · exact behind_raise

theorem behind_palettes : LeavesBehind cpal.Header.read paletteHeaderSize := by
  refine behind_peek fun b => ?_
  split
  · exact behind_map (size := fun t => 12 + 2 * t.color_indices.length) (by behind cpal.Header0.read) fun _ => rfl
  · exact behind_map (size := fun t => 12 + 2 * t.color_indices.length) (by behind cpal.Header1.read) fun _ => rfl
  · exact behind_raise

theorem behind_definition : LeavesBehind gdef.Header.read definitionHeaderSize := by
  refine behind_peek fun b => ?_
  split
  · exact behind_map (size := fun _ => 12) (by behind gdef.Header1.read) fun _ => rfl
  · exact behind_map (size := fun _ => 14) (by behind gdef.Header12.read) fun _ => rfl
  · exact behind_map (size := fun _ => 18) (by behind gdef.Header13.read) fun _ => rfl
  · exact behind_raise

theorem behind_variation (cfg : Cfg) :
    LeavesBehind (item.Record.read cfg) (fun t => 6 + 2 * t.region_indices.length + t.deltas.length) := by
  intro d p v q hd h
  unfold item.Record.read at h
  simp only [run_bind, Fixed.run hd, run_pure, run_mulUsize, ArrayOf] at h
  obtain ⟨_, _, ⟨_, rfl⟩, _, _, ⟨_, rfl⟩, _, _, ⟨_, rfl⟩, _, _, ⟨⟨h1, _⟩, rfl⟩, _, _, ⟨_, rfl⟩, _, _, ⟨_, rfl, rfl⟩, _, _,
    ⟨⟨h3, _⟩, rfl⟩, rfl, rfl⟩ := h
  dsimp only
  omega

/-- A part without offsets is left behind once it has been read, so that what follows it can be read next. -/
theorem C78_behind (cfg : Cfg) (n : Nat) (accept : Tag → Bool) :
    LeavesBehind coverage.Coverage.read coverageSize ∧
    LeavesBehind class_.Class.read classSize ∧
    LeavesBehind correction.Device.read (fun t => 6 + 2 * t.deltas.length) ∧
    LeavesBehind correction.Variation.read (fun _ => 6) ∧
    LeavesBehind correction.Correction.read correctionSize ∧
    LeavesBehind context.Action.read (fun _ => 4) ∧
    LeavesBehind context.Record.read (fun t => 4 + 2 * t.glyph_ids.length + 4 * t.actions.length) ∧
    LeavesBehind context.ClassRecord.read (fun t => 4 + 2 * t.indices.length + 4 * t.actions.length) ∧
    LeavesBehind context.ChainedRecord.read (fun t => 8 + 2 * t.backward_glyph_ids.length +
      2 * t.glyph_ids.length + 2 * t.forward_glyph_ids.length + 4 * t.actions.length) ∧
    LeavesBehind context.ChainedClassRecord.read (fun t => 8 + 2 * t.backward_indices.length +
      2 * t.indices.length + 2 * t.forward_indices.length + 4 * t.actions.length) ∧
    LeavesBehind language.Header.read (fun _ => 6) ∧
    LeavesBehind language.Record.read (fun t => 6 + 2 * t.feature_indices.length) ∧
    LeavesBehind script.Header.read (fun _ => 6) ∧
    LeavesBehind feature.Header.read (fun _ => 6) ∧
    LeavesBehind feature.Variations.read (fun _ => 8) ∧
    LeavesBehind gsub.Alternates.read (fun t => 2 + 2 * t.glyph_ids.length) ∧
    LeavesBehind gsub.Sequence.read (fun t => 2 + 2 * t.glyph_ids.length) ∧
    LeavesBehind gsub.Ligature.read (fun t => 4 + 2 * t.glyph_ids.length) ∧
    LeavesBehind gsub.ExtensionSubstitution.read (fun _ => 8) ∧
    LeavesBehind gpos.ExtensionPositioning.read (fun _ => 8) ∧
    LeavesBehind gdef.Attachment.read (fun t => 2 + 2 * t.indices.length) ∧
    LeavesBehind gdef.Header.read definitionHeaderSize ∧
    LeavesBehind cpal.Color.read (fun _ => 4) ∧
    LeavesBehind cpal.Header.read paletteHeaderSize ∧
    LeavesBehind fvar.Header.read (fun _ => 16) ∧
    LeavesBehind (fvar.AxisRecord.read cfg) (fun _ => 20) ∧
    LeavesBehind (fvar.InstanceRecord.read cfg n) (fun _ => 6 + 4 * n) ∧
    LeavesBehind (item.Record.read cfg) (fun t => 6 + 2 * t.region_indices.length + t.deltas.length) ∧
    LeavesBehind (Font.read accept) (fun t => 12 + 16 * t.offsets.records.length) := by
  refine ⟨behind_coverage, behind_class, behind_device, leavesBehind, behind_correction, leavesBehind,
    ?_, ?_, ?_, ?_, leavesBehind, ?_, leavesBehind, leavesBehind, ?_, ?_, ?_, ?_, ?_, ?_, ?_, behind_definition, leavesBehind,
    behind_palettes, leavesBehind, leavesBehind, ?_, behind_variation cfg, ?_⟩
  · behind context.Record.read
  · behind context.ClassRecord.read
  · behind context.ChainedRecord.read
  · behind context.ChainedClassRecord.read
  · behind language.Record.read
  · behind feature.Variations.read
  · behind gsub.Alternates.read
  · behind gsub.Sequence.read
  · behind gsub.Ligature.read
  · behind gsub.ExtensionSubstitution.read
  · behind gpos.ExtensionPositioning.read
  · behind gdef.Attachment.read
  · intro d p v q hd h
    have := leavesBehind (r := fvar.InstanceRecord.read cfg n) d p v q hd h
    dsimp only at this ⊢
    omega
  · intro d p v q hd h
    unfold Font.read offsets.Offsets.read at h
    simp only [run_bind, Fixed.run hd, run_pure, ArrayOf] at h
    obtain ⟨_, _, ⟨_, _, ⟨_, rfl⟩, _, _, ⟨⟨h1, _⟩, rfl⟩, rfl, rfl⟩, rfl, rfl⟩ := h
    dsimp only
    omega

/-- Two parts in a row: the second is what is stored behind the first. -/
theorem C78_next {α β : Type} {r : Reader α} {size : α → Nat} (h : LeavesBehind r size) (s : Reader β) {d : Data}
    (hd : Fits d) (p : Nat) (a : α) (b : β) :
    Reads (do let a ← r; let b ← s; return (a, b)) d p (a, b) ↔ Reads r d p a ∧ Reads s d (p + size a) b := by
  constructor
  · rintro ⟨q, hq⟩
    obtain ⟨a', m, h1, hq⟩ := run_bind.mp hq
    obtain ⟨b', m', h2, hq⟩ := run_bind.mp hq
    obtain ⟨e, rfl⟩ := run_pure.mp hq
    cases e
    obtain rfl := h d p a m hd h1
    exact ⟨⟨_, h1⟩, _, h2⟩
  · rintro ⟨⟨m, h1⟩, q, h2⟩
    obtain rfl := h d p a m hd h1
    exact ⟨q, run_bind.mpr ⟨a, _, h1, run_bind.mpr ⟨b, q, h2, run_pure.mpr ⟨rfl, rfl⟩⟩⟩⟩

/-- Many parts in a row: each is what is stored behind those before it, and the tape is left behind the last. -/
theorem C78_many {α : Type} {r : Reader α} {size : α → Nat} (h : LeavesBehind r size) {d : Data} (hd : Fits d)
    (p n : Nat) (xs : List α) (q : Nat) :
    takeVec r n d p = .ok (xs, q) ↔ xs.length = n ∧ q = p + (xs.map size).sum ∧
      ∀ i x, xs[i]? = some x → Reads r d (p + ((xs.take i).map size).sum) x := by
  induction n generalizing p xs q with
  | zero =>
    simp only [takeVec, run_pure, List.length_eq_zero_iff]
    constructor
    · rintro ⟨rfl, rfl⟩; simp
    · rintro ⟨rfl, rfl, _⟩; simp
  | succ n ih =>
    simp only [takeVec, run_bind, run_pure]
    constructor
    · rintro ⟨a, m, h1, ys, m', h2, rfl, rfl⟩
      obtain rfl := h d p a m hd h1
      obtain ⟨h3, h4, h5⟩ := (ih _ _ _).mp h2
      refine ⟨by simp [h3], by simp [h4]; omega, ?_⟩
      intro i x hi
      cases i with
      | zero =>
        simp only [List.getElem?_cons_zero, Option.some.injEq] at hi
        subst hi
        exact ⟨_, by simpa using h1⟩
      | succ i =>
        simp only [List.getElem?_cons_succ] at hi
        have := h5 i x hi
        simpa [Nat.add_assoc] using this
    · rintro ⟨h1, rfl, h2⟩
      cases xs with
      | nil => simp at h1
      | cons a ys =>
        obtain ⟨m, h3⟩ := h2 0 a rfl
        simp only [List.take_zero, List.map_nil, List.sum_nil, Nat.add_zero] at h3
        obtain rfl := h d p a m hd h3
        refine ⟨a, _, h3, ys, _, (ih _ _ _).mpr ⟨by simpa using h1, rfl, ?_⟩, rfl, by simp [Nat.add_assoc]⟩
        intro i x hi
        have := h2 (i + 1) x (by simpa using hi)
        simpa [Nat.add_assoc] using this

/-- Two coverages of different formats, one behind the other, and a language behind them. -/
def sampleRow : Data := bytes <|
  [0, 1, 0, 2, 0, 7, 0, 9] ++ [0, 2, 0, 1, 0, 3, 0, 5, 0, 0] ++ [0, 0, 255, 255, 0, 1, 0, 4]

example : takeVec coverage.Coverage.read 2 sampleRow 0 =
    .ok ([.format1 ⟨1, 2, [7, 9]⟩, .format2 ⟨2, 1, [⟨3, 5, 0⟩]⟩], 18) := by decide +kernel

example : Reads (do let a ← takeVec coverage.Coverage.read 2; let b ← language.Record.read; return (a.length, b))
    sampleRow 0 (2, ⟨0, 65535, 1, [4]⟩) := by decide +kernel

/-- A part with offsets is not left behind: the tape is wherever the last offset led. -/
example : ∃ v, gsub.Ligatures.read (bytes [0, 2, 0, 12, 0, 6, 0, 5, 0, 1, 9, 9, 0, 8, 0, 1]) 0 = .ok (v, 10) :=
  ⟨⟨2, [12, 6], [⟨8, 1, []⟩, ⟨5, 1, []⟩]⟩, by decide +kernel⟩

end OpenType.Props
