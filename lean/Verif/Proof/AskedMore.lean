import Verif.Proof.AskedTables
import Verif.Proof.Gpos
/-!
# Which bytes the readers of the tables ask for, continued
-/

namespace OpenType
open OpenType.Spec

instance {cfg : Cfg} : Spans (item.Record.read cfg) bytes := by
  constructor
  intros
  unfold item.Record.read
  repeat' asks_step
  refine track_pure ?_ fun x hx => ?_
  · asks_lengths
    simp only [List.length_nil] at *
    omega
  · simp only [false_or] at hx
    asks_lengths
    simp only [List.length_nil] at *
    omega

instance {cfg : Cfg} : Covers (item.Store.read cfg) := by asks item.Store.read
instance {T : Type} [Encode T] {cfg : Cfg} {readTable : Nat → Reader T} [∀ n, Covers (readTable n)] :
    Covers (lookup.Record.read cfg readTable) := by
  constructor
  intro d p hd
  unfold lookup.Record.read
  repeat' asks_step
  refine track_pure trivial fun x hx => ?_
  rw [covered_encoding]
  rcases hx with hx | hx
  · refine .inl ?_
    have hl : ∀ {a b c : Nat} {os : List Nat} {o : Option Nat} {ts : List T},
        (bytes (⟨a, b, c, os, o, ts⟩ : lookup.Record T)).length = 6 + (os.flatMap enc16).length +
          (encOption enc16 o).length := by
      intro a b c os o ts
      cases o <;> simp [Encode.bytes, enc16s, length_enc16, encOption] <;> omega
    rw [hl]
    asks_lengths
    simp only [false_or] at hx
    omega
  · exact .inr hx

instance {T : Type} [Encode T] {cfg : Cfg} {readTable : Nat → Reader T} [∀ n, Covers (readTable n)] :
    Covers (lookup.Lookups.read cfg readTable) := by asks lookup.Lookups.read
theorem track_part {α : Type} [Encode α] {cfg : Cfg} {base o p : Nat} {r : Reader α} {default : α} {d : Data}
    (hd : Fits d) [Covers r] : Track d (fun _ => False) (directory.part cfg base o r default) p (fun _ _ => True)
      fun a _ x => Covered (placedPart cfg o a) base x := by
  unfold directory.part placedPart
  by_cases h : cfg.ignoreIncompleteDirectories = true
  · rw [if_pos h]
    by_cases ho : o = 0
    · subst ho
      simp only [h, and_self, if_true]
      exact track_bind (track_pure (Q := fun _ _ => True) (G := fun _ _ _ => False) trivial fun _ h => h)
        fun _ _ _ => track_pure trivial fun _ hx => (hx.resolve_left id).elim
    · simp only [ho, and_false, if_false]
      unfold jumpTakeMaybe
      rw [if_pos (by omega)]
      refine track_bind (track_bind (track_jumpTake hd) (Q := fun _ _ => True)
        (G := fun a _ x => ∃ b, a = some b ∧ Covered (placed o b) base x) fun _ _ _ =>
          track_pure trivial fun _ hx => ⟨_, rfl, hx.resolve_left id⟩) fun _ _ _ => track_pure trivial fun x hx => ?_
      obtain ⟨b, rfl, hx'⟩ := hx.resolve_left id
      exact hx'
  · simp only [h]
    exact track_jumpTake hd

instance {major minor : Nat} : Spans (directory.variationOffset major minor)
    (fun o => if (major, minor) = (1, 1) then enc32 o else []) := by
  constructor
  intro d p
  unfold directory.variationOffset
  split
  · exact Spans.track
  · exact track_pure rfl nofun

theorem track_directory {T : Type} [Encode T] {cfg : Cfg} {readTable : Nat → Reader T} [∀ n, Covers (readTable n)]
    {d : Data} {p : Nat} (hd : Fits d) : Track d (fun _ => False) (directory.Directory.read cfg readTable) p
      (fun _ _ => True) fun t _ x => Covered (directoryEncoding cfg t) p x := by
  unfold directory.Directory.read
  refine track_position (track_step fun major _ _ => track_step fun minor _ _ => track_raiseIf fun hv => ?_)
  refine track_step fun _ _ _ => track_step fun _ _ _ => track_step fun _ _ _ => track_step fun o _ _ => ?_
  refine track_bind (track_part hd) fun _ _ _ => track_bind (track_part hd) fun _ _ _ => ?_
  refine track_bind (track_part hd) fun _ _ _ => track_bind (track_jumpTakeMaybe hd) fun _ _ _ => ?_
  refine track_pure trivial fun x hx => ?_
  unfold directoryEncoding
  simp only [covered_cons, covered_append]
  rcases hx with (((hx | hx) | hx) | hx) | hx
  · refine .inl ?_
    unfold directoryBytes
    have hl : (if minor = 1 then enc32 o else []).length = (if (major, minor) = (1, 1) then enc32 o else []).length := by
      rcases Decidable.not_not.mp hv with h | h <;> cases h <;> rfl
    dsimp only
    simp only [List.length_append, hl]
    asks_lengths
    simp only [false_or] at hx
    omega
  · exact .inr (.inl (.inl (.inl hx)))
  · exact .inr (.inl (.inl (.inr hx)))
  · exact .inr (.inl (.inr hx))
  · exact .inr (.inr hx)

theorem track_gdef {cfg : Cfg} {d : Data} {p : Nat} (hd : Fits d) :
    Track d (fun _ => False) (gdef.GlyphDefinition.read cfg) p (fun _ _ => True)
      fun t _ x => Covered (gdefEncodingTaken t) p x := by
  unfold gdef.GlyphDefinition.read
  refine track_position (track_bind (Covers.track hd) fun header _ _ => ?_)
  refine track_bind (track_jumpTakeMaybe hd) fun _ _ _ => track_bind (track_jumpTakeMaybe hd) fun _ _ _ => ?_
  refine track_bind (track_jumpTakeMaybe hd) fun _ _ _ => track_bind (track_jumpTakeMaybe hd) fun _ _ _ => ?_
  refine track_bind (track_jumpTakeMaybe hd) fun _ _ _ => track_bind (track_jumpTakeMaybe hd) fun _ _ _ => ?_
  refine track_pure trivial fun x hx => ?_
  unfold gdefEncodingTaken
  simp only [covered_cons, covered_append]
  rcases hx with ((((((hx | hx) | hx) | hx) | hx) | hx) | hx) | hx
  · exact hx.elim
  · rcases covered_encoding.mp hx with hx | hx
    · exact .inl hx
    · obtain ⟨c, hc, _⟩ := hx
      cases hc
  · refine .inr (.inl (.inl (.inl (.inl (.inl ?_)))))
    cases header <;> exact hx
  · refine .inr (.inl (.inl (.inl (.inl (.inr ?_)))))
    cases header <;> exact hx
  · refine .inr (.inl (.inl (.inl (.inr ?_))))
    cases header <;> exact hx
  · refine .inr (.inl (.inl (.inr ?_)))
    cases header <;> exact hx
  · refine .inr (.inl (.inr ?_))
    cases header <;> exact hx
  · refine .inr (.inr ?_)
    cases header <;> exact hx

/-- The bytes of the header of a color-palette table. -/
def encPaletteHeader : cpal.Header → Data
  | .version0 h => bytes h
  | .version1 h => bytes h

instance : Spans cpal.Header.read encPaletteHeader := by
  constructor
  intro d p
  unfold cpal.Header.read
  refine track_peek fun _ => ?_
  split
  · refine track_step fun h q hq => track_pure hq fun x hx => ?_
    simp only [false_or] at hx
    asks_lengths
    rw [hq]
    simp only [encPaletteHeader, Encode.bytes, List.length_append, length_enc16] at *
    omega
  · refine track_step fun h q hq => track_pure hq fun x hx => ?_
    simp only [false_or] at hx
    asks_lengths
    rw [hq]
    simp only [encPaletteHeader, Encode.bytes, List.length_append, length_enc16] at *
    omega
  · exact track_raise

theorem covered_one {o p x : Nat} {bs : Data} :
    Covered [(o, bs)] p x ↔ p + o ≤ x ∧ x < p + o + bs.length := by
  rw [covered_cons]
  constructor
  · rintro (h | ⟨c, hc, _⟩)
    · exact h
    · cases hc
  · exact .inl

instance : Covers cpal.ColorPalettes.read := by
  constructor
  intro d p hd
  unfold cpal.ColorPalettes.read
  refine track_position (track_step fun h q hq => ?_)
  cases h with
  | version0 h =>
    dsimp only
    refine track_bind (r := jumpTake p h.color_offset (takeVec cpal.Color.read h.color_count))
      (Q' := fun _ _ => True) (G' := fun a _ x => p + h.color_offset ≤ x ∧ x < p + h.color_offset + (bytesAll a).length) ?_
      fun a q _ => track_pure trivial fun x hx => ?_
    · refine track_addU64 (track_jump ?_)
      exact Spans.track.mono (fun _ _ _ => trivial) fun a q hq x hx => hq ▸ hx
    · rw [covered_encoding]
      rcases hx with hx | hx
      · exact .inl (hq ▸ hx.resolve_left id)
      · exact .inr (covered_one.mpr hx)
  | version1 h =>
    dsimp only
    refine track_bind (r := jumpTake p h.color_offset (takeVec cpal.Color.read h.color_count))
      (Q' := fun _ _ => True) (G' := fun a _ x => p + h.color_offset ≤ x ∧ x < p + h.color_offset + (bytesAll a).length) ?_
      fun a q _ => track_pure trivial fun x hx => ?_
    · refine track_addU64 (track_jump ?_)
      exact Spans.track.mono (fun _ _ _ => trivial) fun a q hq x hx => hq ▸ hx
    · rw [covered_encoding]
      rcases hx with hx | hx
      · exact .inl (hq ▸ hx.resolve_left id)
      · exact .inr (covered_one.mpr hx)

instance {cfg : Cfg} : Spans (fvar.AxisRecord.read cfg) bytes := by asks fvar.AxisRecord.read
instance {cfg : Cfg} {axis_count : Nat} : Spans (fvar.InstanceRecord.read cfg axis_count) bytes := by asks fvar.InstanceRecord.read
instance : Spans fvar.Header.read (fun t => enc16 t.major_version ++ enc16 t.minor_version ++ enc16 t.axis_offset ++
    enc16 t.reserved ++ enc16 t.axis_count ++ enc16 t.axis_size ++ enc16 t.instance_count ++ enc16 t.instance_size) := by
  asks fvar.Header.read

theorem track_every {α : Type} [Encode α] {r : Reader α} [Covers r] {base start stride n p : Nat} {d : Data} (hd : Fits d) :
    Track d (fun _ => False) (forFrom (fun i => do
      let offset ← mulU64 i stride
      let q ← addU64 (base + start) offset
      jump q
      r) 0 n) p (fun _ _ => True) fun as _ x => Covered (placedEvery start stride as) base x := by
  refine (track_forFrom (G := fun j a x => Covered (placed (start + stride * j) a) base x) fun j p => ?_).mono
    (fun _ _ _ => trivial) ?_
  · refine track_mulU64 (track_addU64 (track_jump ?_))
    refine (Covers.track hd).mono (fun _ _ _ => trivial) fun a q _ x hx => covered_placed.mpr ?_
    rwa [show base + (start + stride * j) = base + start + j * stride by rw [Nat.mul_comm]; omega]
  · rintro as q _ x ⟨j, a, ha, hx⟩
    rw [Nat.zero_add] at hx
    refine covered_flatMap (b := (a, j)) ?_ hx
    rw [List.mem_zipIdx_iff_getElem?]
    exact ha

instance {cfg : Cfg} : Covers (fvar.FontVariations.read cfg) := by
  constructor
  intro d p hd
  unfold fvar.FontVariations.read
  refine track_position (track_step fun h q hq => track_addU64 ?_)
  refine track_bind (track_every hd) fun _ _ _ => track_mulU64 (track_addU64 ?_)
  rw [Nat.add_assoc p]
  refine track_bind (track_every hd) fun _ _ _ => track_pure trivial fun x hx => ?_
  rw [covered_encoding]
  rcases hx with (hx | hx) | hx
  · exact .inl (hq ▸ hx.resolve_left id)
  · exact .inr (covered_append.mpr (.inl hx))
  · exact .inr (covered_append.mpr (.inr hx))

instance : Spans gpos.Anchor1.read bytes := by asks gpos.Anchor1.read
instance : Spans gpos.Anchor2.read bytes := by asks gpos.Anchor2.read
instance : Covers gpos.Anchor3.read := by asks gpos.Anchor3.read
instance : Covers gpos.Anchor.read := by asks_format gpos.Anchor.read
instance {cfg : Cfg} : Spans (gpos.Flags.read cfg) enc16 := inferInstanceAs (Spans (flagsU16 cfg _) _)
theorem track_takeCorrection {base p : Nat} {o : Option Nat} {d : Data} (hd : Fits d) :
    Track d (fun _ => False) (gpos.takeCorrection base o) p (fun _ _ => True)
      fun a _ x => Covered (placedField o a) base x := by
  unfold gpos.takeCorrection placedField
  split
  · exact track_jumpTakeMaybe hd
  · exact track_pure trivial fun _ hx => hx.elim
theorem fieldI16_eq : fieldI16 = encOption encI16 := by funext o; cases o <;> rfl
theorem field16_eq : field16 = encOption enc16 := by funext o; cases o <;> rfl
instance {position flags : Nat} : SpansFrom position (gpos.Single.read position flags) := by
  constructor
  intro d p hd
  unfold gpos.Single.read
  refine track_step fun _ _ _ => track_step fun _ _ _ => track_step fun _ _ _ => track_step fun _ _ _ => ?_
  refine track_step fun a _ _ => track_step fun b _ _ => track_step fun c _ _ => track_step fun e _ _ => ?_
  refine track_bind (track_stay (G := fun t _ x => Covered (placedField a t.1 ++ placedField b t.2.1 ++
    placedField c t.2.2.1 ++ placedField e t.2.2.2) position x) ?_) fun _ _ _ => ?_
  · unfold gpos.takeCorrections
    refine track_bind (track_takeCorrection hd) fun _ _ _ => ?_
    refine track_bind (track_takeCorrection hd) fun _ _ _ => ?_
    refine track_bind (track_takeCorrection hd) fun _ _ _ => ?_
    refine track_bind (track_takeCorrection hd) fun _ _ _ => ?_
    refine track_pure trivial fun x hx => ?_
    simp only [covered_append]
    simpa only [false_or] using hx
  · refine track_pure ?_ fun x hx => ?_
    · simp only [Encode.bytes, fieldI16_eq, field16_eq, List.length_append]
      omega
    · rcases hx with hx | hx
      · refine .inl ?_
        simp only [false_or] at hx
        omega
      · exact .inr hx
instance {position flags : Nat} : SpansFrom position (gpos.takeValue position flags) := by
  constructor
  intro d p hd
  unfold gpos.takeValue
  split
  · exact track_step_from hd fun _ _ hq => track_pure hq fun _ hx => hx.resolve_left id
  · exact track_pure rfl nofun
instance {position value1_flags value2_flags : Nat} :
    SpansFrom position (gpos.Pair1.read position value1_flags value2_flags) := by
  constructor
  intro d p hd
  unfold gpos.Pair1.read
  refine track_step fun a _ _ => track_step_from hd fun b _ _ => track_step_from hd fun c q hq => ?_
  have hl : (bytes (⟨a, b, c⟩ : gpos.Pair1)).length = (enc16 a).length + (bytes b).length + (bytes c).length := by
    show (enc16 a ++ bytes b ++ bytes c).length = _
    simp only [List.length_append]
  refine track_pure (by omega) fun x hx => ?_
  rw [show parts (⟨a, b, c⟩ : gpos.Pair1) = parts b ++ parts c from rfl, covered_append]
  rcases hx with ((hx | hx) | hx | hx) | hx | hx
  · exact hx.elim
  · exact .inl (by omega)
  · exact .inl (by omega)
  · exact .inr (.inl hx)
  · exact .inl (by omega)
  · exact .inr (.inr hx)
instance {value1_flags value2_flags : Nat} : Covers (gpos.Pair1s.read value1_flags value2_flags) := by asks gpos.Pair1s.read
instance {position value1_flags value2_flags : Nat} :
    SpansFrom position (gpos.Pair2.read position value1_flags value2_flags) := by
  constructor
  intro d p hd
  unfold gpos.Pair2.read
  refine track_step_from hd fun b _ _ => track_step_from hd fun c q hq => ?_
  have hl : (bytes (⟨b, c⟩ : gpos.Pair2)).length = (bytes b).length + (bytes c).length := by
    show (bytes b ++ bytes c).length = _
    simp only [List.length_append]
  refine track_pure (by omega) fun x hx => ?_
  rw [show parts (⟨b, c⟩ : gpos.Pair2) = parts b ++ parts c from rfl, covered_append]
  rcases hx with (hx | hx | hx) | hx | hx
  · exact hx.elim
  · exact .inl (by omega)
  · exact .inr (.inl hx)
  · exact .inl (by omega)
  · exact .inr (.inr hx)
instance {position class2_count value1_flags value2_flags : Nat} : SpansFrom position (gpos.Pair2s.read position class2_count value1_flags value2_flags) := by asks gpos.Pair2s.read
theorem track_stayMaybeN {α : Type} [Encode α] {base n p : Nat} {os : List Nat} {r : Reader α} {d : Data} (hd : Fits d)
    [h : Covers r] : Track d (fun _ => False) (stay (jumpTakeMaybeN base n os r)) p (fun _ q => q = p)
      fun as _ x => Covered (placedOpts os as) base x := track_stay (track_jumpTakeMaybeN hd)
instance {position mark_class_count : Nat} : SpansFrom position (gpos.Base.read position mark_class_count) := by
  constructor
  intro d p hd
  unfold gpos.Base.read
  refine track_step fun a q hq => track_bind (track_stayMaybeN hd) fun b _ hq' => ?_
  subst hq'
  exact track_pure hq fun x hx => hx.imp (·.resolve_left id) id
instance {mark_class_count : Nat} : Covers (gpos.Bases.read mark_class_count) := by asks gpos.Bases.read
instance {position mark_class_count : Nat} : SpansFrom position (gpos.Component.read position mark_class_count) := by
  constructor
  intro d p hd
  unfold gpos.Component.read
  refine track_step fun a q hq => track_bind (track_stayMaybeN hd) fun b _ hq' => ?_
  subst hq'
  exact track_pure hq fun x hx => hx.imp (·.resolve_left id) id
instance {mark_class_count : Nat} : Covers (gpos.Ligature.read mark_class_count) := by asks gpos.Ligature.read
instance {position mark_class_count : Nat} : SpansFrom position (gpos.Mark2.read position mark_class_count) := by
  constructor
  intro d p hd
  unfold gpos.Mark2.read
  refine track_step fun a q hq => track_bind (track_stayMaybeN hd) fun b _ hq' => ?_
  subst hq'
  exact track_pure hq fun x hx => hx.imp (·.resolve_left id) id
instance {mark_class_count : Nat} : Covers (gpos.Mark2s.read mark_class_count) := by asks gpos.Mark2s.read
instance {position : Nat} : SpansFrom position (gpos.Connection.read position) := by
  constructor
  intro d p hd
  unfold gpos.Connection.read
  refine track_step fun a _ _ => track_step fun b _ _ => ?_
  refine track_bind (track_stay (G := fun t _ x => Covered (placedOpt a t.1 ++ placedOpt b t.2) position x) ?_)
    fun _ _ _ => ?_
  · unfold gpos.takeAnchors
    refine track_bind (track_jumpTakeMaybe hd) fun _ _ _ => ?_
    refine track_bind (track_jumpTakeMaybe hd) fun _ _ _ => ?_
    refine track_pure trivial fun x hx => ?_
    simp only [covered_append]
    simpa only [false_or] using hx
  · next hq =>
    subst hq
    refine track_pure (by asks_lengths; omega) fun x hx => ?_
    rcases hx with hx | hx
    · refine .inl ?_
      simp only [false_or] at hx
      omega
    · exact .inr hx
instance {mark_class_count : Nat} : Covers (gpos.Ligatures.read mark_class_count) := by
  constructor
  intro d p hd
  unfold gpos.Ligatures.read
  refine track_position (track_step fun _ _ _ => track_step fun a q hq => ?_)
  refine track_bind (track_stay (G := fun as _ x => Covered (placedAll a as) p x) (track_jumpTakeN hd)) fun b _ hq' => ?_
  subst hq'
  asks_pure
theorem track_anchor {d : Data} {p : Nat} (hd : Fits d) : Track d (fun _ => False) gpos.Anchor.read p
    (fun a _ => a ≠ .format1 ⟨0, 0, 0⟩) fun a _ x => Covered (encoding a) p x := by
  intro a q hr
  refine ⟨?_, (Covers.track hd a q hr).2⟩
  rintro rfl
  have := ((reads_parses hd).mp ⟨q, hr⟩).1
  cases this

/-- The parts of a mark. -/
theorem track_markAnchor {cfg : Cfg} {base o p : Nat} {d : Data} (hd : Fits d) :
    Track d (fun _ => False) (gpos.takeMarkAnchor cfg base o) p (fun _ q => q = p) fun a _ x =>
      Covered (if o = 0 ∧ a = .format1 ⟨0, 0, 0⟩ then [] else placed o a) base x := by
  have hj : ∀ p, Track d (fun _ => False) (jumpTake base o gpos.Anchor.read) p (fun _ _ => True) fun a _ x =>
      Covered (if o = 0 ∧ a = .format1 ⟨0, 0, 0⟩ then [] else placed o a) base x := fun p =>
    track_addU64 (track_jump ((track_anchor hd).mono (fun _ _ _ => trivial) fun a q ha x hx => by
      rw [if_neg fun h => ha h.2]
      exact covered_placed.mpr hx))
  unfold gpos.takeMarkAnchor
  split
  · refine track_bind (track_stay (G := fun a _ x => ∃ b, a = some b ∧
      Covered (if o = 0 ∧ b = .format1 ⟨0, 0, 0⟩ then [] else placed o b) base x) ?_) fun a q hq => track_pure hq fun x hx => ?_
    · unfold jumpTakeMaybe
      split
      · exact track_bind (hj p) fun b q _ => track_pure trivial fun x hx => ⟨b, rfl, hx.resolve_left id⟩
      · exact track_pure trivial nofun
    · obtain ⟨b, rfl, hx'⟩ := hx.resolve_left id
      exact hx'
  · exact track_stay (hj p)

instance {cfg : Cfg} {position : Nat} : SpansFrom position (gpos.Mark1.read cfg position) := by
  constructor
  intro d p hd
  unfold gpos.Mark1.read
  refine track_step fun _ _ _ => track_step fun _ _ _ => track_bind (track_markAnchor hd) fun _ _ hq => ?_
  subst hq
  refine track_pure (by asks_lengths; omega) fun x hx => ?_
  rcases hx with hx | hx
  · refine .inl ?_
    simp only [false_or] at hx
    omega
  · exact .inr hx
instance {cfg : Cfg} : Covers (gpos.Mark1s.read cfg) := by asks gpos.Mark1s.read
instance {cfg : Cfg} : Covers (gpos.SingleAdjustment1.read cfg) := by
  constructor
  intro d p hd
  unfold gpos.SingleAdjustment1.read
  refine track_position (track_step fun a _ _ => track_step fun b _ _ => track_step fun c _ _ => ?_)
  refine track_step_from hd fun e q hq => track_bind (track_jumpTake hd) fun f _ _ => track_pure trivial fun x hx => ?_
  have hl : (bytes (⟨a, b, c, e, f⟩ : gpos.SingleAdjustment1)).length =
      (enc16 a).length + (enc16 b).length + (enc16 c).length + (bytes e).length := by
    show (enc16 a ++ enc16 b ++ enc16 c ++ bytes e).length = _
    simp only [List.length_append]
  rw [covered_encoding, show parts (⟨a, b, c, e, f⟩ : gpos.SingleAdjustment1) = parts e ++ placed b f from rfl, covered_append]
  rcases hx with (hx | hx | hx) | hx
  · refine .inl ?_
    simp only [false_or] at hx
    omega
  · exact .inl (by omega)
  · exact .inr (.inl hx)
  · exact .inr (.inr hx)
instance {cfg : Cfg} : Covers (gpos.SingleAdjustment2.read cfg) := by asks gpos.SingleAdjustment2.read
instance {cfg : Cfg} : Covers (gpos.SingleAdjustment.read cfg) := by asks_format gpos.SingleAdjustment.read
instance {cfg : Cfg} : Covers (gpos.PairAdjustment1.read cfg) := by asks gpos.PairAdjustment1.read
instance {cfg : Cfg} : Covers (gpos.PairAdjustment2.read cfg) := by asks gpos.PairAdjustment2.read
instance {cfg : Cfg} : Covers (gpos.PairAdjustment.read cfg) := by asks_format gpos.PairAdjustment.read
instance : Covers gpos.CursiveAttachment.read := by asks gpos.CursiveAttachment.read
instance {cfg : Cfg} : Covers (gpos.MarkToBaseAttachment.read cfg) := by asks gpos.MarkToBaseAttachment.read
instance {cfg : Cfg} : Covers (gpos.MarkToLigatureAttachment.read cfg) := by asks gpos.MarkToLigatureAttachment.read
instance {cfg : Cfg} : Covers (gpos.MarkToMarkAttachment.read cfg) := by asks gpos.MarkToMarkAttachment.read
instance : Spans gpos.ExtensionPositioning.read bytes := by asks gpos.ExtensionPositioning.read
instance {cfg : Cfg} {type_ : Nat} : Covers (gpos.Type_.read cfg type_) := by asks_format gpos.Type_.read

end OpenType
