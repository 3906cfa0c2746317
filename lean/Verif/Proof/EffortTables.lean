import Verif.Proof.Effort
/-!
# How much work the readers of the tables do, whatever the outcome
-/

namespace OpenType
open Spec

instance : Advances coverage.Record.read := by advances coverage.Record.read
instance : Costs coverage.Record.read 0 3 0 := by costs coverage.Record.read
instance : Costs coverage.Coverage1.read 0 3 1 := by costs coverage.Coverage1.read
instance : Costs coverage.Coverage2.read 0 5 1 := by costs coverage.Coverage2.read
instance : Costs coverage.Coverage.read 0 8 1 := by costs coverage.Coverage.read
instance : Advances class_.Record.read := by advances class_.Record.read
instance : Costs class_.Record.read 0 3 0 := by costs class_.Record.read
instance : Costs class_.Class1.read 0 4 1 := by costs class_.Class1.read
instance : Costs class_.Class2.read 0 5 1 := by costs class_.Class2.read
instance : Costs class_.Class.read 0 8 1 := by costs class_.Class.read
instance : Costs correction.Device.read 0 4 1 := by costs correction.Device.read
instance : Costs correction.Variation.read 0 3 0 := by costs correction.Variation.read

instance : Costs correction.peeked 0 2 0 := by costs correction.peeked
instance : Costs correction.Correction.read 0 8 1 := by costs correction.Correction.read

instance : Advances context.Action.read := by advances context.Action.read
instance : Costs context.Action.read 0 2 0 := by costs context.Action.read
instance : Costs context.Record.read 0 5 1 := by costs context.Record.read
instance : Costs context.Records.read 0 9 2 := by costs context.Records.read
instance : Costs context.ClassRecord.read 0 5 1 := by costs context.ClassRecord.read
instance : Costs context.ClassRecords.read 0 9 2 := by costs context.ClassRecords.read
instance : Costs context.ChainedRecord.read 0 9 1 := by costs context.ChainedRecord.read
instance : Costs context.ChainedRecords.read 0 13 2 := by costs context.ChainedRecords.read
instance : Costs context.ChainedClassRecord.read 0 9 1 := by costs context.ChainedClassRecord.read
instance : Costs context.ChainedClassRecords.read 0 13 2 := by costs context.ChainedClassRecords.read
instance : Costs context.Context1.read 0 24 3 := by costs context.Context1.read
instance : Costs context.Context2.read 0 34 3 := by costs context.Context2.read
instance : Costs context.Context3.read 0 16 2 := by costs context.Context3.read
instance : Costs context.Context.read 0 37 3 := by costs context.Context.read
instance : Costs context.ChainedContext1.read 0 28 3 := by costs context.ChainedContext1.read
instance : Costs context.ChainedContext2.read 0 58 3 := by costs context.ChainedContext2.read
instance : Costs context.ChainedContext3.read 0 38 2 := by costs context.ChainedContext3.read
instance : Costs context.ChainedContext.read 0 61 3 := by costs context.ChainedContext.read
instance {cfg : Cfg} : Costs (item.Record.read cfg) 0 5 1 := by costs item.Record.read
instance {cfg : Cfg} : Costs (item.Store.read cfg) 0 11 2 := by costs item.Store.read
instance : Advances language.Header.read := by advances language.Header.read
instance : Costs language.Header.read 0 2 0 := by costs language.Header.read
instance : Costs language.Record.read 0 4 1 := by costs language.Record.read
instance : Advances script.Header.read := by advances script.Header.read
instance : Costs script.Header.read 0 2 0 := by costs script.Header.read
instance : Costs script.Record.read 0 15 2 := by costs script.Record.read
instance : Costs script.Scripts.read 0 20 3 := by costs script.Scripts.read
instance : Advances feature.Header.read := by advances feature.Header.read
instance : Costs feature.Header.read 0 2 0 := by costs feature.Header.read
instance {position parameter_offset : Nat} : Costs (feature.takeParameters position parameter_offset) 0 2 1 := by costs feature.takeParameters
instance : Costs feature.Record.read 0 6 1 := by costs feature.Record.read
instance : Costs feature.Variations.read 0 3 0 := by costs feature.Variations.read
instance : Costs feature.Features.read 0 11 2 := by costs feature.Features.read

instance {T : Type} {cfg : Cfg} {readTable : Nat → Reader T} {m c k : Nat} [∀ n, Costs (readTable n) m c k] : Costs (lookup.Record.read cfg readTable) m (c + 7) (k + 1) := by costs lookup.Record.read
instance {T : Type} {cfg : Cfg} {readTable : Nat → Reader T} {m c k : Nat} [∀ n, Costs (readTable n) m c k] : Costs (lookup.Lookups.read cfg readTable) m (c + 11) (k + 2) := by costs lookup.Lookups.read

instance {major_version minor_version : Nat} : Costs (directory.variationOffset major_version minor_version) 0 1 0 := by costs directory.variationOffset

instance {α : Type} {cfg : Cfg} {base offset m c k : Nat} {r : Reader α} {default : α} [Costs r m c k] :
    Costs (directory.part cfg base offset r default) m (c + 1) k := by costs directory.part
instance {T : Type} {cfg : Cfg} {readTable : Nat → Reader T} {m c k : Nat} [∀ n, Costs (readTable n) m c k] : Costs (directory.Directory.read cfg readTable) m (c + 56) (max 3 (k + 2)) := by costs directory.Directory.read

instance : Costs gsub.Alternates.read 0 2 1 := by costs gsub.Alternates.read
instance : Costs gsub.Ligature.read 0 3 1 := by costs gsub.Ligature.read
instance : Costs gsub.Ligatures.read 0 7 2 := by costs gsub.Ligatures.read
instance : Costs gsub.Sequence.read 0 2 1 := by costs gsub.Sequence.read
instance : Costs gsub.SingleSubstitution1.read 0 13 1 := by costs gsub.SingleSubstitution1.read
instance : Costs gsub.SingleSubstitution2.read 0 14 1 := by costs gsub.SingleSubstitution2.read
instance : Costs gsub.SingleSubstitution.read 0 17 1 := by costs gsub.SingleSubstitution.read
instance : Costs gsub.MultipleSubstitution.read 0 17 2 := by costs gsub.MultipleSubstitution.read
instance : Costs gsub.AlternateSubstitution.read 0 17 2 := by costs gsub.AlternateSubstitution.read
instance : Costs gsub.LigatureSubstitution.read 0 22 3 := by costs gsub.LigatureSubstitution.read
instance : Costs gsub.ExtensionSubstitution.read 0 3 0 := by costs gsub.ExtensionSubstitution.read
instance : Costs gsub.ReverseChainedContextualSubstibution.read 0 36 2 := by costs gsub.ReverseChainedContextualSubstibution.read
instance {type_ : Nat} : Costs (gsub.Type_.read type_) 0 61 3 := by costs gsub.Type_.read
instance {cfg : Cfg} : Costs (gsub.GlyphSubstitution.read cfg) 0 117 5 := by costs gsub.GlyphSubstitution.read

instance : Costs gdef.Attachment.read 0 2 1 := by costs gdef.Attachment.read
instance : Costs gdef.Attachments.read 0 16 2 := by costs gdef.Attachments.read
instance : Costs gdef.Caret1.read 0 2 0 := by costs gdef.Caret1.read
instance : Costs gdef.Caret2.read 0 2 0 := by costs gdef.Caret2.read
instance : Costs gdef.Caret3.read 0 13 1 := by costs gdef.Caret3.read
instance : Costs gdef.Caret.read 0 16 1 := by costs gdef.Caret.read
instance : Costs gdef.Ligature.read 0 20 2 := by costs gdef.Ligature.read
instance : Costs gdef.Ligatures.read 0 34 3 := by costs gdef.Ligatures.read
instance : Costs gdef.Marks.read 0 13 2 := by costs gdef.Marks.read
instance : Costs gdef.Header1.read 0 6 0 := by costs gdef.Header1.read
instance : Costs gdef.Header12.read 0 7 0 := by costs gdef.Header12.read
instance : Costs gdef.Header13.read 0 8 0 := by costs gdef.Header13.read
instance : Costs gdef.Header.read 0 11 0 := by costs gdef.Header.read
instance {cfg : Cfg} : Costs (gdef.GlyphDefinition.read cfg) 0 108 3 := by costs gdef.GlyphDefinition.read
instance : Advances cpal.Color.read := by advances cpal.Color.read
instance : Costs cpal.Color.read 0 4 0 := by costs cpal.Color.read
instance : Costs cpal.Header0.read 0 6 1 := by costs cpal.Header0.read
instance : Costs cpal.Header1.read 0 6 1 := by costs cpal.Header1.read
instance : Costs cpal.Header.read 0 9 1 := by costs cpal.Header.read
instance : Costs cpal.ColorPalettes.read 0 15 1 := by costs cpal.ColorPalettes.read
instance : Costs fvar.Header.read 0 8 0 := by costs fvar.Header.read
instance {cfg : Cfg} : Costs (fvar.AxisRecord.read cfg) 0 6 0 := by costs fvar.AxisRecord.read
instance {cfg : Cfg} {axis_count : Nat} : Costs (fvar.InstanceRecord.read cfg axis_count) 0 4 1 := by costs fvar.InstanceRecord.read

theorem fvar_counts {d : Data} {p q : Nat} {header : fvar.Header} (h : fvar.Header.read d p = .ok (header, q)) :
    header.axis_count < 65536 ∧ header.instance_count < 65536 := by
  have step : ∀ {α β : Type} {r : Reader α} {f : α → Reader β} {p q : Nat} {v : β}, (r >>= f) d p = .ok (v, q) →
      ∃ x q', r d p = .ok (x, q') ∧ f x d q' = .ok (v, q) := by
    intro α β r f p q v h
    rw [run_bind_eq] at h
    split at h
    · exact ⟨_, _, ‹_›, h⟩
    · cases h
  unfold fvar.Header.read at h
  obtain ⟨_, _, _, h⟩ := step h
  obtain ⟨_, _, _, h⟩ := step h
  obtain ⟨_, _, _, h⟩ := step h
  obtain ⟨_, _, _, h⟩ := step h
  obtain ⟨_, _, h1, h⟩ := step h
  obtain ⟨_, _, _, h⟩ := step h
  obtain ⟨_, _, h2, h⟩ := step h
  obtain ⟨_, _, _, h⟩ := step h
  cases h
  exact ⟨u16_lt h1, u16_lt h2⟩

instance {cfg : Cfg} : Costs (fvar.FontVariations.read cfg) 65536 21 2 := ⟨by
  intro d B hB hm
  unfold fvar.FontVariations.read
  refine effort_known hB (Nat.zero_le _) (by decide) (by decide) fun _ => ?_
  refine effort_bind (Costs.effort hB (Nat.zero_le _)) (by omega) (by decide) (by decide) fun _ header _ h => ?_
  have := fvar_counts h
  refine effort_known hB (Nat.zero_le _) (by decide) (by decide) fun _ => ?_
  refine effort_loop (c' := 7) (k' := 0) (fun _ => ?_) (by omega) (by omega) (by decide) (by decide) fun _ => ?_
  · repeat' effort_step
    all_goals first | omega | decide
  · refine effort_known hB (Nat.zero_le _) (by decide) (by decide) fun _ => ?_
    refine effort_known hB (Nat.zero_le _) (by decide) (by decide) fun _ => ?_
    refine effort_loop (c' := 5) (k' := 1) (fun _ => ?_) (by omega) (by omega) (by decide) (by decide) fun _ =>
      effort_pure
    repeat' effort_step
    all_goals first | omega | decide⟩

instance : Costs gpos.Anchor1.read 0 3 0 := by costs gpos.Anchor1.read
instance : Costs gpos.Anchor2.read 0 4 0 := by costs gpos.Anchor2.read
instance : Costs gpos.Anchor3.read 0 24 1 := by costs gpos.Anchor3.read
instance : Costs gpos.Anchor.read 0 27 1 := by costs gpos.Anchor.read
instance {cfg : Cfg} : Costs (gpos.Flags.read cfg) 0 1 0 := by costs gpos.Flags.read
instance {base : Nat} {offset : Option Nat} : Costs (gpos.takeCorrection base offset) 0 9 1 := by costs gpos.takeCorrection
instance {position : Nat} {a b c e : Option Nat} : Costs (gpos.takeCorrections position a b c e) 0 36 1 := by costs gpos.takeCorrections
instance {position flags : Nat} : Costs (gpos.Single.read position flags) 0 46 1 := by costs gpos.Single.read
instance {position flags : Nat} : Costs (gpos.takeValue position flags) 0 46 1 := by costs gpos.takeValue

instance {position flags : Nat} : Onward (gpos.takeValue position flags) := by
  unfold gpos.takeValue gpos.Single.read
  split <;> infer_instance
instance {position value1_flags value2_flags : Nat} : Advances (gpos.Pair1.read position value1_flags value2_flags) := by advances gpos.Pair1.read
instance {position value1_flags value2_flags : Nat} : Costs (gpos.Pair1.read position value1_flags value2_flags) 0 93 1 := by costs gpos.Pair1.read
instance {value1_flags value2_flags : Nat} : Costs (gpos.Pair1s.read value1_flags value2_flags) 0 95 2 := by costs gpos.Pair1s.read
instance {position value1_flags value2_flags : Nat} : Costs (gpos.Pair2.read position value1_flags value2_flags) 0 92 1 := by costs gpos.Pair2.read

theorem effort_pair2s {position class2_count value1_flags value2_flags B : Nat} {d : Data} (hB : d.length < B)
    (h : class2_count ≤ B) : Effort d B 92 2 (gpos.Pair2s.read position class2_count value1_flags value2_flags) := by
  unfold gpos.Pair2s.read
  exact effort_few hB (Nat.zero_le _) h (by decide) (by decide) fun _ => effort_pure

/-- Rows of equal width: those that are read have their bytes, so that what a byte costs counts once for each byte, and
only the last one can fail. -/
theorem operations_rows {α : Type} {r : Reader α} {d : Data} {w X Y F : Nat}
    (h : ∀ p v q, r d p = .ok (v, q) → q = p + w ∧ (w = 0 ∨ q ≤ d.length) ∧ r.operations d p ≤ X + w * Y)
    (hF : ∀ p, r.operations d p ≤ F) (n p : Nat) :
    (takeVec r n).operations d p ≤ n * X + (d.length - p) * Y + F := by
  induction n generalizing p with
  | zero => exact Nat.zero_le _
  | succ n ih =>
    unfold takeVec
    rw [operations_bind, Nat.add_mul]
    cases e : r d p with
    | error _ =>
      have := hF p
      dsimp only
      omega
    | ok x =>
      obtain ⟨a, q⟩ := x
      obtain ⟨h1, h2, h3⟩ := h _ _ _ e
      have h4 := ih q
      have h5 : (w + (d.length - q)) * Y ≤ (d.length - p) * Y ∨ w = 0 := by
        rcases h2 with h2 | h2
        · exact .inr h2
        · exact .inl (Nat.mul_le_mul_right _ (by omega))
      have h6 : w * Y + (d.length - q) * Y ≤ (d.length - p) * Y := by
        rcases h5 with h5 | h5
        · rwa [Nat.add_mul] at h5
        · subst h5
          rw [h1]
          simp
      dsimp only
      rw [operations_bind]
      split
      · show _ + (_ + 0) ≤ _
        omega
      · omega

theorem words_taken {d : Data} {n p q : Nat} {xs : List Nat} (h : takeVec u16 n d p = .ok (xs, q)) :
    q = p + 2 * n ∧ (n = 0 ∨ q ≤ d.length) ∧ xs.length = n := by
  induction n generalizing p xs with
  | zero =>
    cases h
    simp
  | succ n ih =>
    unfold takeVec at h
    rw [run_bind_eq] at h
    split at h
    · next a q' e =>
      have h0 := Advances.advances _ _ _ _ e
      have h1 : q' = p + 2 := by
        rw [run_u16] at e
        split at e
        · cases e; rfl
        · cases e
      rw [run_bind_eq] at h
      split at h
      · next as q'' e' =>
        cases h
        have h2 := ih e'
        simp only [List.length_cons]
        omega
      · cases h
    · cases h

/-- A row of optional anchors. -/
theorem effort_anchors {d : Data} {B : Nat} (hB : d.length < B) {α : Type} {position count n : Nat} (hn : n ≤ B)
    (f : List Nat → List (Option gpos.Anchor) → α) {r : Reader α}
    (hr : r = (takeVec u16 count >>= fun os => stay (jumpTakeMaybeN position count os gpos.Anchor.read) >>= fun xs =>
      pure (f os xs))) (hm : 65536 ≤ B) : Effort d B 48 2 (takeVec r n) := by
  have hF : Effort d B 31 2 r := by
    rw [hr]
    repeat' effort_step
    all_goals first | omega | decide
  have hA : ∀ (os : List Nat) (p : Nat), os.length = count →
      (stay (jumpTakeMaybeN position count os gpos.Anchor.read)).operations d p ≤ 2 + count * (28 * B) := by
    intro os p ho
    have h1 : ∀ i p, ((index os i >>= fun offset => jumpTakeMaybe position offset gpos.Anchor.read)).operations d p
        ≤ 28 * B := by
      intro i p
      have : Effort d B 28 1 (index os i >>= fun offset => jumpTakeMaybe position offset gpos.Anchor.read) :=
        effort_known hB (Nat.zero_le _) (by decide) (by decide) fun _ =>
          effort_leaf hB (Nat.zero_le _) (by decide) (by decide)
      simpa using this p
    have h2 : ∀ p, (jumpTakeMaybeN position count os gpos.Anchor.read).operations d p ≤ count * (28 * B) :=
      operations_forFrom h1 0 count
    have h3 := h2 p
    unfold stay
    rw [operations_bind]
    show 1 + (_ >>= _ : Reader _).operations d p ≤ _
    rw [operations_bind]
    split
    · rw [operations_bind]
      show 1 + (_ + (1 + 0)) ≤ _
      omega
    · omega
  have hX : ∀ p v q, r d p = .ok (v, q) → q = p + 2 * count ∧ (2 * count = 0 ∨ q ≤ d.length) ∧
      r.operations d p ≤ 2 + 2 * count * (15 * B) := by
    intro p v q e
    rw [hr, run_bind_eq] at e
    split at e
    · next os q' e1 =>
      obtain ⟨h1, h2, h3⟩ := words_taken e1
      rw [run_bind_eq] at e
      split at e
      · next xs q'' e2 =>
        cases e
        have h4 : q = q' := by
          rw [run_stay_eq] at e2
          split at e2
          · cases e2; rfl
          · cases e2
        refine ⟨by omega, by omega, ?_⟩
        rw [hr, operations_bind, e1]
        dsimp only
        rw [operations_bind, e2]
        have h5 := hA os q' h3
        have h6 : (takeVec u16 count).operations d p ≤ count := by
          have := effort_takeVec_few (r := u16) (c := 1) (k := 0) (d := d) (B := count) (n := count)
            (fun p => by simpa using operations_u16 d p) (Nat.le_refl _) p
          simpa using this
        have h7 : count + count * (28 * B) ≤ 2 * count * (15 * B) := by
          have : count * 1 ≤ count * B := Nat.mul_le_mul_left _ (by omega)
          have e1 : 2 * count * (15 * B) = 30 * (count * B) := by
            rw [Nat.mul_assoc, Nat.mul_left_comm count 15 B]
            omega
          have e2 : count * (28 * B) = 28 * (count * B) := Nat.mul_left_comm ..
          omega
        show _ + (_ + 0) ≤ _
        omega
      · cases e
    · cases e
  intro p
  refine Nat.le_trans (operations_rows hX hF n p) ?_
  have h1 : n * 2 ≤ 2 * B ^ 2 := by
    have : B * 1 ≤ B * B := Nat.mul_le_mul_left _ (by omega)
    rw [Nat.pow_two]
    omega
  have h2 : (d.length - p) * (15 * B) ≤ 15 * B ^ 2 := by
    have : (d.length - p) * (15 * B) ≤ B * (15 * B) := Nat.mul_le_mul_right _ (by omega)
    rw [Nat.pow_two, ← Nat.mul_left_comm B 15 B]
    exact this
  omega

instance {position mark_class_count : Nat} : Costs (gpos.Base.read position mark_class_count) 65536 31 2 := by costs gpos.Base.read
instance {mark_class_count : Nat} : Costs (gpos.Bases.read mark_class_count) 65536 50 2 := ⟨by
  intro d B hB hm
  unfold gpos.Bases.read
  refine effort_known hB (Nat.zero_le _) (by decide) (by decide) fun _ => ?_
  refine effort_u16 (by omega) (by decide) fun _ _ => ?_
  refine effort_bind (effort_anchors hB (by omega) gpos.Base.mk rfl hm) (by omega) (by decide) (by decide) fun _ _ _ _ => ?_
  exact effort_pure⟩
instance {position mark_class_count : Nat} : Costs (gpos.Component.read position mark_class_count) 65536 31 2 := by costs gpos.Component.read
instance {position start_anchor_offset end_anchor_offset : Nat} : Costs (gpos.takeAnchors position start_anchor_offset end_anchor_offset) 0 56 1 := by costs gpos.takeAnchors
instance {position : Nat} : Advances (gpos.Connection.read position) := by advances gpos.Connection.read
instance {position : Nat} : Costs (gpos.Connection.read position) 0 60 1 := by costs gpos.Connection.read
instance {mark_class_count : Nat} : Costs (gpos.Ligature.read mark_class_count) 65536 50 2 := ⟨by
  intro d B hB hm
  unfold gpos.Ligature.read
  refine effort_known hB (Nat.zero_le _) (by decide) (by decide) fun _ => ?_
  refine effort_u16 (by omega) (by decide) fun _ _ => ?_
  refine effort_bind (effort_anchors hB (by omega) gpos.Component.mk rfl hm) (by omega) (by decide) (by decide) fun _ _ _ _ => ?_
  exact effort_pure⟩
instance {mark_class_count : Nat} : Costs (gpos.Ligatures.read mark_class_count) 65536 56 3 := by costs gpos.Ligatures.read

instance {cfg : Cfg} {position anchor_offset : Nat} : Onward (gpos.takeMarkAnchor cfg position anchor_offset) := by
  unfold gpos.takeMarkAnchor
  split <;> infer_instance
instance {cfg : Cfg} {position anchor_offset : Nat} : Costs (gpos.takeMarkAnchor cfg position anchor_offset) 0 30 1 := by costs gpos.takeMarkAnchor
instance {cfg : Cfg} {position : Nat} : Advances (gpos.Mark1.read cfg position) := by advances gpos.Mark1.read
instance {cfg : Cfg} {position : Nat} : Costs (gpos.Mark1.read cfg position) 0 32 1 := by costs gpos.Mark1.read
instance {cfg : Cfg} : Costs (gpos.Mark1s.read cfg) 0 34 2 := by costs gpos.Mark1s.read
instance {position mark_class_count : Nat} : Costs (gpos.Mark2.read position mark_class_count) 65536 31 2 := by costs gpos.Mark2.read
instance {mark_class_count : Nat} : Costs (gpos.Mark2s.read mark_class_count) 65536 50 2 := ⟨by
  intro d B hB hm
  unfold gpos.Mark2s.read
  refine effort_known hB (Nat.zero_le _) (by decide) (by decide) fun _ => ?_
  refine effort_u16 (by omega) (by decide) fun _ _ => ?_
  refine effort_bind (effort_anchors hB (by omega) gpos.Mark2.mk rfl hm) (by omega) (by decide) (by decide) fun _ _ _ _ => ?_
  exact effort_pure⟩
instance {cfg : Cfg} : Costs (gpos.SingleAdjustment1.read cfg) 0 59 1 := by costs gpos.SingleAdjustment1.read
instance {cfg : Cfg} : Costs (gpos.SingleAdjustment2.read cfg) 65536 60 2 := by costs gpos.SingleAdjustment2.read
instance {cfg : Cfg} : Costs (gpos.SingleAdjustment.read cfg) 65536 63 2 := by costs gpos.SingleAdjustment.read
instance {cfg : Cfg} : Costs (gpos.PairAdjustment1.read cfg) 0 112 3 := by costs gpos.PairAdjustment1.read

instance {cfg : Cfg} : Costs (gpos.PairAdjustment2.read cfg) 65536 132 3 := ⟨by
  intro d B hB hm
  unfold gpos.PairAdjustment2.read
  refine effort_known hB (Nat.zero_le _) (by decide) (by decide) fun _ => ?_
  refine effort_u16 (by omega) (by decide) fun _ _ => ?_
  refine effort_u16 (by omega) (by decide) fun _ _ => ?_
  refine effort_known hB (Nat.zero_le _) (by decide) (by decide) fun _ => ?_
  refine effort_known hB (Nat.zero_le _) (by decide) (by decide) fun _ => ?_
  refine effort_u16 (by omega) (by decide) fun _ _ => ?_
  refine effort_u16 (by omega) (by decide) fun _ _ => ?_
  refine effort_u16 (by omega) (by decide) fun class1_count h1 => ?_
  refine effort_u16 (by omega) (by decide) fun class2_count h2 => ?_
  refine effort_bind (effort_takeVec_few (effort_pair2s hB (by omega)) (by omega)) (by omega) (by decide) (by decide)
    fun _ _ _ _ => ?_
  repeat' effort_step
  all_goals first | omega | decide⟩

instance {cfg : Cfg} : Costs (gpos.PairAdjustment.read cfg) 65536 135 3 := by costs gpos.PairAdjustment.read
instance : Costs gpos.CursiveAttachment.read 0 73 2 := by costs gpos.CursiveAttachment.read
instance {cfg : Cfg} : Costs (gpos.MarkToBaseAttachment.read cfg) 65536 111 2 := by costs gpos.MarkToBaseAttachment.read
instance {cfg : Cfg} : Costs (gpos.MarkToLigatureAttachment.read cfg) 65536 117 3 := by costs gpos.MarkToLigatureAttachment.read
instance {cfg : Cfg} : Costs (gpos.MarkToMarkAttachment.read cfg) 65536 111 2 := by costs gpos.MarkToMarkAttachment.read
instance : Costs gpos.ExtensionPositioning.read 0 3 0 := by costs gpos.ExtensionPositioning.read
instance {cfg : Cfg} {type_ : Nat} : Costs (gpos.Type_.read cfg type_) 65536 135 3 := by costs gpos.Type_.read
instance {cfg : Cfg} : Costs (gpos.GlyphPositioning.read cfg) 65536 191 5 := by costs gpos.GlyphPositioning.read
instance {accept : Tag → Bool} : Costs (offsets.Header.read accept) 0 5 0 := by costs offsets.Header.read
instance : Advances offsets.Record.read := by advances offsets.Record.read
instance : Costs offsets.Record.read 0 4 0 := by costs offsets.Record.read
instance {accept : Tag → Bool} : Costs (offsets.Offsets.read accept) 0 9 1 := by costs offsets.Offsets.read
instance {accept : Tag → Bool} : Costs (Font.read accept) 0 9 1 := by costs Font.read
instance {accept : Tag → Bool} : Costs (File.read accept) 0 12 1 := by costs File.read

end OpenType
