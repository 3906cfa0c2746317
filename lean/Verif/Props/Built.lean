import Verif.Props.FontFile
import Verif.Spec.Device
/-! # C79: neither the overflow checks nor the width of a `usize` make a difference -/

namespace OpenType.Props
open OpenType

/-- `s` is `r` as built in another way: it performs the same operations on the tape, goes on in the same way whatever
they give (as many bytes as asked for or an error), and returns and reports the same, except that where `r` panics, `s` does something or other. So is a build
without overflow checks, in which sums, differences and products are cut to the width of their type, related to one with
them, and a build for a machine of 64 bits, in which a `usize` overflows later, to one for a machine of 32 bits. -/
inductive Unchecked {α : Type} : Reader α → Reader α → Prop where
  | done (value : α) : Unchecked (.done value) (.done value)
  | fail (error : Err) : Unchecked (.fail error) (.fail error)
  | panic (message : String) (anything : Reader α) : Unchecked (.fail (.panic message)) anything
  | tell {f g : Except Err Nat → Reader α} (h : ∀ x, Unchecked (f x) (g x)) : Unchecked (.tell f) (.tell g)
  | seek (position : Nat) {f g : Except Err Unit → Reader α} (h : ∀ x, Unchecked (f x) (g x)) :
      Unchecked (.seek position f) (.seek position g)
  | fetch (count : Nat) {f g : Except Err (List UInt8) → Reader α}
      (h : ∀ x, (∀ bytes, x = .ok bytes → bytes.length = count) → Unchecked (f x) (g x)) :
      Unchecked (.fetch count f) (.fetch count g)

theorem length_slice {d : Data} {p n : Nat} {bytes : List UInt8} (h : Reader.slice d p n = .ok bytes) :
    bytes.length = n := by
  unfold Reader.slice at h
  split at h
  · cases h
    simp only [List.length_take, List.length_drop]
    omega
  · cases h

theorem Unchecked.same {α : Type} {r s : Reader α} (h : Unchecked r s) {d : Data} {p : Nat}
    (hp : ∀ m, r d p ≠ .error (.panic m)) :
    s d p = r d p ∧ s.operations d p = r.operations d p ∧ s.fetches d p = r.fetches d p := by
  induction h generalizing p with
  | done a => exact ⟨rfl, rfl, rfl⟩
  | fail e => exact ⟨rfl, rfl, rfl⟩
  | panic m s => exact (hp m rfl).elim
  | tell h ih =>
    obtain ⟨h1, h2, h3⟩ := ih (.ok p) (p := p) hp
    exact ⟨h1, congrArg (1 + ·) h2, h3⟩
  | seek q h ih =>
    obtain ⟨h1, h2, h3⟩ := ih (.ok ()) (p := q) hp
    exact ⟨h1, congrArg (1 + ·) h2, h3⟩
  | fetch n h ih =>
    obtain ⟨h1, h2, h3⟩ := ih (Reader.slice d p n) (fun _ => length_slice) (p := p + n) hp
    exact ⟨h1, congrArg (1 + ·) h2, congrArg ((p, n) :: ·) h3⟩

/-- However it is built, the reader gives the same result, leaves the tape at the same place and asks for the same bytes,
on every tape of less than `2^63` bytes and from every position. -/
def SameHoweverBuilt {α : Type} (r : Reader α) : Prop :=
  ∀ s, Unchecked r s → ∀ d p, Fits d →
    s d p = r d p ∧ s.operations d p = r.operations d p ∧ s.fetches d p = r.fetches d p

theorem sameHoweverBuilt {α : Type} {r : Reader α} (h : NeverPanics r) : SameHoweverBuilt r :=
  fun _ hs d p hd => hs.same fun m => h d p m hd

/-- The readers of all tables and parts, those that sum up the counts of variation data aside. -/
theorem C79_built (cfg : Cfg) (n m : Nat) :
    SameHoweverBuilt (coverage.Coverage.read) ∧
    SameHoweverBuilt (class_.Class.read) ∧
    SameHoweverBuilt (correction.Correction.read) ∧
    SameHoweverBuilt (correction.Device.read) ∧
    SameHoweverBuilt (correction.Variation.read) ∧
    SameHoweverBuilt (context.Action.read) ∧
    SameHoweverBuilt (context.Record.read) ∧
    SameHoweverBuilt (context.Records.read) ∧
    SameHoweverBuilt (context.ClassRecord.read) ∧
    SameHoweverBuilt (context.ClassRecords.read) ∧
    SameHoweverBuilt (context.ChainedRecord.read) ∧
    SameHoweverBuilt (context.ChainedRecords.read) ∧
    SameHoweverBuilt (context.ChainedClassRecord.read) ∧
    SameHoweverBuilt (context.ChainedClassRecords.read) ∧
    SameHoweverBuilt (context.Context.read) ∧
    SameHoweverBuilt (context.ChainedContext.read) ∧
    SameHoweverBuilt (language.Record.read) ∧
    SameHoweverBuilt (script.Record.read) ∧
    SameHoweverBuilt (script.Scripts.read) ∧
    SameHoweverBuilt (feature.Record.read) ∧
    SameHoweverBuilt (feature.Features.read) ∧
    SameHoweverBuilt (feature.Variations.read) ∧
    SameHoweverBuilt (lookup.Record.read cfg gsub.Type_.read) ∧
    SameHoweverBuilt (lookup.Record.read cfg (gpos.Type_.read cfg)) ∧
    SameHoweverBuilt (lookup.Lookups.read cfg gsub.Type_.read) ∧
    SameHoweverBuilt (lookup.Lookups.read cfg (gpos.Type_.read cfg)) ∧
    SameHoweverBuilt (gsub.Alternates.read) ∧
    SameHoweverBuilt (gsub.Ligature.read) ∧
    SameHoweverBuilt (gsub.Ligatures.read) ∧
    SameHoweverBuilt (gsub.Sequence.read) ∧
    SameHoweverBuilt (gsub.SingleSubstitution.read) ∧
    SameHoweverBuilt (gsub.MultipleSubstitution.read) ∧
    SameHoweverBuilt (gsub.AlternateSubstitution.read) ∧
    SameHoweverBuilt (gsub.LigatureSubstitution.read) ∧
    SameHoweverBuilt (gsub.ExtensionSubstitution.read) ∧
    SameHoweverBuilt (gsub.ReverseChainedContextualSubstibution.read) ∧
    SameHoweverBuilt (gsub.Type_.read n) ∧
    SameHoweverBuilt (gsub.GlyphSubstitution.read cfg) ∧
    SameHoweverBuilt (gpos.Anchor.read) ∧
    SameHoweverBuilt (gpos.Pair1s.read n m) ∧
    SameHoweverBuilt (gpos.Bases.read n) ∧
    SameHoweverBuilt (gpos.Ligature.read n) ∧
    SameHoweverBuilt (gpos.Ligatures.read n) ∧
    SameHoweverBuilt (gpos.Mark1s.read cfg) ∧
    SameHoweverBuilt (gpos.Mark2s.read n) ∧
    SameHoweverBuilt (gpos.SingleAdjustment.read cfg) ∧
    SameHoweverBuilt (gpos.PairAdjustment.read cfg) ∧
    SameHoweverBuilt (gpos.CursiveAttachment.read) ∧
    SameHoweverBuilt (gpos.MarkToBaseAttachment.read cfg) ∧
    SameHoweverBuilt (gpos.MarkToLigatureAttachment.read cfg) ∧
    SameHoweverBuilt (gpos.MarkToMarkAttachment.read cfg) ∧
    SameHoweverBuilt (gpos.ExtensionPositioning.read) ∧
    SameHoweverBuilt (gpos.Type_.read cfg n) ∧
    SameHoweverBuilt (gpos.GlyphPositioning.read cfg) ∧
    SameHoweverBuilt (gdef.Attachment.read) ∧
    SameHoweverBuilt (gdef.Attachments.read) ∧
    SameHoweverBuilt (gdef.Caret.read) ∧
    SameHoweverBuilt (gdef.Ligature.read) ∧
    SameHoweverBuilt (gdef.Ligatures.read) ∧
    SameHoweverBuilt (gdef.Marks.read) ∧
    SameHoweverBuilt (cpal.Color.read) ∧
    SameHoweverBuilt (cpal.ColorPalettes.read) ∧
    SameHoweverBuilt (fvar.AxisRecord.read cfg) ∧
    SameHoweverBuilt (fvar.InstanceRecord.read cfg n) ∧
    SameHoweverBuilt (fvar.FontVariations.read cfg) := by
  refine ⟨?_, ?_, ?_, ?_, ?_, ?_, ?_, ?_, ?_, ?_, ?_, ?_, ?_, ?_, ?_, ?_, ?_, ?_, ?_, ?_, ?_, ?_, ?_, ?_, ?_, ?_, ?_, ?_, ?_, ?_, ?_, ?_, ?_, ?_, ?_, ?_, ?_, ?_, ?_, ?_, ?_, ?_, ?_, ?_, ?_, ?_, ?_, ?_, ?_, ?_, ?_, ?_, ?_, ?_, ?_, ?_, ?_, ?_, ?_, ?_, ?_, ?_, ?_, ?_, ?_⟩
  all_goals exact sameHoweverBuilt neverPanics

/-- Variation data and glyph definitions, as read by a build in which the sum of two counts of 16 bits wraps. -/
theorem C79_built_release (cfg : Cfg) (h : cfg.overflowChecks = false) :
    SameHoweverBuilt (item.Record.read cfg) ∧
    SameHoweverBuilt (item.Store.read cfg) ∧
    SameHoweverBuilt (gdef.GlyphDefinition.read cfg) := by
  obtain ⟨h1, h2, h3⟩ := C39_no_panic_release_partial cfg h
  exact ⟨sameHoweverBuilt h1, sameHoweverBuilt h2, sameHoweverBuilt h3⟩

/-- The readers that count offsets from an enclosing table. -/
theorem C79_built_based (cfg : Cfg) (b c n m : Nat) (hb : b < 2 ^ 63) :
    SameHoweverBuilt (gpos.Single.read b n) ∧
    SameHoweverBuilt (gpos.Pair1.read b n m) ∧
    SameHoweverBuilt (gpos.Pair2.read b n m) ∧
    SameHoweverBuilt (gpos.Pair2s.read b c n m) ∧
    SameHoweverBuilt (gpos.Base.read b n) ∧
    SameHoweverBuilt (gpos.Component.read b n) ∧
    SameHoweverBuilt (gpos.Connection.read b) ∧
    SameHoweverBuilt (gpos.Mark1.read cfg b) ∧
    SameHoweverBuilt (gpos.Mark2.read b n) := by
  obtain ⟨h1, h2, h3, h4, h5, h6, h7, h8, h9⟩ := C39_no_panic_based_partial cfg b c n m hb
  exact ⟨sameHoweverBuilt h1, sameHoweverBuilt h2, sameHoweverBuilt h3, sameHoweverBuilt h4, sameHoweverBuilt h5,
    sameHoweverBuilt h6, sameHoweverBuilt h7, sameHoweverBuilt h8, sameHoweverBuilt h9⟩

/-- Opening a file, and taking a table whose reader does not panic. -/
theorem C79_font {α : Type} (cfg : Cfg) (accept : Tag → Bool) (font : Font) (table : TableType) {r : Reader α}
    (h : NeverPanics r) : SameHoweverBuilt (File.read accept) ∧ SameHoweverBuilt (font.take cfg tableChecksum table r) :=
  ⟨sameHoweverBuilt (C57_open accept).1,
    sameHoweverBuilt (C57_take h (fun record => (C57_checksum record).1) cfg font table)⟩

/-! ## A release build of two readers -/

theorem Unchecked.refl {α : Type} (r : Reader α) : Unchecked r r := by
  induction r with
  | done a => exact .done a
  | fail e => exact .fail e
  | tell f ih => exact .tell ih
  | seek q f ih => exact .seek q ih
  | fetch n f ih => exact .fetch n fun x _ => ih x

theorem Unchecked.bind {α β : Type} {r s : Reader α} {f g : α → Reader β} (h : Unchecked r s)
    (hf : ∀ a, Unchecked (f a) (g a)) : Unchecked (r >>= f) (s >>= g) := by
  show Unchecked (Reader.bind r f) (Reader.bind s g)
  induction h with
  | done a => exact hf a
  | fail e => exact .fail e
  | panic m s => exact .panic m _
  | tell h ih => exact .tell ih
  | seek q h ih => exact .seek q ih
  | fetch n h ih => exact .fetch n ih

theorem Unchecked.forFrom {α : Type} {f g : Nat → Reader α} (h : ∀ i, Unchecked (f i) (g i)) (i n : Nat) :
    Unchecked (OpenType.forFrom f i n) (OpenType.forFrom g i n) := by
  induction n generalizing i with
  | zero => exact .refl _
  | succ n ih => exact (h i).bind fun _ => (ih (i + 1)).bind fun _ => .refl _

/-- A number that is cut to `bits` bits. -/
def cut (bits n : Nat) : Reader Nat := return n % 2 ^ bits

theorem cut_eq {bits n : Nat} (h : n < 2 ^ bits) : cut bits n = return n := by
  unfold cut; rw [Nat.mod_eq_of_lt h]

theorem addU64_unchecked (a b : Nat) : Unchecked (addU64 a b) (cut 64 (a + b)) := by
  unfold addU64
  split
  · rename_i h; rw [cut_eq h]; exact .refl _
  · exact .panic _ _

theorem mulU64_unchecked (a b : Nat) : Unchecked (mulU64 a b) (cut 64 (a * b)) := by
  unfold mulU64
  split
  · rename_i h; rw [cut_eq h]; exact .refl _
  · exact .panic _ _

theorem addUsize_unchecked (a b : Nat) : Unchecked (addUsize a b) (cut 64 (a + b)) := by
  unfold addUsize
  split
  · rename_i h; rw [cut_eq (by omega)]; exact .refl _
  · exact .panic _ _

theorem mulUsize_unchecked (a b : Nat) : Unchecked (mulUsize a b) (cut 64 (a * b)) := by
  unfold mulUsize
  split
  · rename_i h; rw [cut_eq (by omega)]; exact .refl _
  · exact .panic _ _

/-- A difference that is cut to `bits` bits. -/
def cutSub (bits a b : Nat) : Reader Nat := return (a + 2 ^ bits - b) % 2 ^ bits

theorem subUint_unchecked {bits a b : Nat} (ha : a < 2 ^ bits) : Unchecked (subUint a b) (cutSub bits a b) := by
  unfold subUint
  split
  · rename_i h
    unfold cutSub
    rw [show a + 2 ^ bits - b = (a - b) + 2 ^ bits by omega, Nat.add_mod_right, Nat.mod_eq_of_lt (by omega)]
    exact .refl _
  · exact .panic _ _

theorem unchecked_addUsize {α : Type} {f g : Nat → Reader α} {a b : Nat}
    (h : ∀ n < 2 ^ 64, Unchecked (f n) (g n)) : Unchecked (addUsize a b >>= f) (cut 64 (a + b) >>= g) := by
  unfold addUsize
  split
  · rename_i hs; rw [cut_eq (by omega)]; exact h _ (by omega)
  · exact .panic _ _

/-- `fvar::FontVariations::read` in a build without overflow checks. -/
def releaseVariations (cfg : Cfg) : Reader fvar.FontVariations := do
  let position ← position
  let header ← fvar.Header.read
  let position ← cut 64 (position + header.axis_offset)
  let axis_records ← forFrom (fun i => do
    let offset ← cut 64 (i * header.axis_size)
    let q ← cut 64 (position + offset)
    jump q
    fvar.AxisRecord.read cfg) 0 header.axis_count
  let offset ← cut 64 (header.axis_count * header.axis_size)
  let position ← cut 64 (position + offset)
  let instance_records ← forFrom (fun i => do
    let offset ← cut 64 (i * header.instance_size)
    let q ← cut 64 (position + offset)
    jump q
    fvar.InstanceRecord.read cfg header.axis_count) 0 header.instance_count
  return { header, axis_records, instance_records }

theorem u16_unchecked {α : Type} {f g : Nat → Reader α} (h : ∀ n < 2 ^ 16, Unchecked (f n) (g n)) :
    Unchecked (u16 >>= f) (u16 >>= g) := by
  refine .fetch 2 fun x hx => ?_
  cases x with
  | error e => exact .fail e
  | ok bytes =>
    refine h _ ?_
    match bytes, hx bytes rfl with
    | [a, b], _ =>
      have ha := a.toNat_lt
      have hb := b.toNat_lt
      simp only [bigEndian, List.foldl_cons, List.foldl_nil]
      omega

/-- `correction::Device::read` in a build without overflow checks for a machine of 64 bits. -/
def releaseDevice : Reader correction.Device := do
  let start_size ← u16
  let end_size ← u16
  raiseIf (start_size > end_size) "found a malformed device correction"
  let format ← u16
  raiseIf (format = 0 ∨ format > 3) ⟨"found an unknown format of the device correction", [format]⟩
  let difference ← cutSub 16 end_size start_size
  let count ← cut 64 (difference + 1)
  let bit_count ← cut 64 ((1 <<< format) * count)
  let sum ← cut 64 (bit_count + 16)
  let padded ← cutSub 64 sum (bit_count % 16)
  let short_count := padded >>> 4
  let deltas ← takeVec u16 short_count
  return { start_size, end_size, format, deltas }

/-- The readers of C79 are met by real ones: this is how a device correction is read by such a build. -/
theorem C79_device : Unchecked correction.Device.read releaseDevice ∧
    ∀ d p, Fits d → releaseDevice d p = correction.Device.read d p := by
  have h : Unchecked correction.Device.read releaseDevice := by
    refine (Unchecked.refl _).bind fun _ => u16_unchecked fun b hb => (Unchecked.refl _).bind fun _ =>
      (Unchecked.refl _).bind fun _ => (Unchecked.refl _).bind fun _ => (subUint_unchecked hb).bind fun _ =>
      (addUsize_unchecked _ _).bind fun _ => (mulUsize_unchecked _ _).bind fun _ =>
      unchecked_addUsize fun c hc => (subUint_unchecked hc).bind fun _ => .refl _
  exact ⟨h, fun d p hd => (sameHoweverBuilt neverPanics _ h d p hd).1⟩

/-- The readers of C79 are met by real ones: this is how the variations are read by a build without overflow checks. -/
theorem C79_variations (cfg : Cfg) : Unchecked (fvar.FontVariations.read cfg) (releaseVariations cfg) ∧
    ∀ d p, Fits d → releaseVariations cfg d p = fvar.FontVariations.read cfg d p := by
  have h : Unchecked (fvar.FontVariations.read cfg) (releaseVariations cfg) := by
    refine (Unchecked.refl _).bind fun _ => (Unchecked.refl _).bind fun _ => (addU64_unchecked _ _).bind fun _ => ?_
    refine (Unchecked.forFrom (fun i => ?_) _ _).bind fun _ => ?_
    · exact (mulU64_unchecked _ _).bind fun _ => (addU64_unchecked _ _).bind fun _ => .refl _
    refine (mulU64_unchecked _ _).bind fun _ => (addU64_unchecked _ _).bind fun _ => ?_
    refine (Unchecked.forFrom (fun i => ?_) _ _).bind fun _ => .refl _
    exact (mulU64_unchecked _ _).bind fun _ => (addU64_unchecked _ _).bind fun _ => .refl _
  exact ⟨h, fun d p hd => (sameHoweverBuilt neverPanics _ h d p hd).1⟩

/-- Both builds read five corrections of four bits each, for the sizes 11 to 15, in two words. -/
example : Reads correction.Device.read [0, 11, 0, 15, 0, 2, 0x12, 0x34, 0x50, 0, 0, 7] 0 ⟨11, 15, 2, [0x1234, 0x5000]⟩ ∧
    Reads releaseDevice [0, 11, 0, 15, 0, 2, 0x12, 0x34, 0x50, 0, 0, 7] 0 ⟨11, 15, 2, [0x1234, 0x5000]⟩ := by
  decide +kernel

/-- The builds do differ in a sum that is too large: one panics, and the other goes on with what is left of it. -/
example : addU64 (2 ^ 64 - 1) 2 [] 0 = .error (.panic "attempt to add with overflow") ∧
    cut 64 (2 ^ 64 - 1 + 2) [] 0 = .ok (1, 0) := by decide +kernel

end OpenType.Props
