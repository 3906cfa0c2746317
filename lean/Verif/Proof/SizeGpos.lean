import Verif.Proof.SizeTables
import Verif.Spec.Roomy
import Verif.Proof.Effort
/-! # How much GPOS gives for the work it takes -/

namespace OpenType
open Spec

section
variable {position value1_flags value2_flags class2_count : Nat}

theorem earns_single {position flags : Nat} : Earns 8 0 (gpos.Single.read position flags) (content · + 4) := by
  unfold gpos.Single.read
  repeat' first | refine earns_corrections fun _ _ _ => ?_ | rich_step
  all_goals ((try simp at *) <;> omega)

/-- A cell with a value. -/
theorem rich_pair2 (h : value1_flags ≠ 0 ∨ value2_flags ≠ 0) :
    Rich 8 (gpos.Pair2.read position value1_flags value2_flags) := ⟨by
  unfold gpos.Pair2.read gpos.takeValue
  have := Reader.lawful
  by_cases h1 : value1_flags > 0
  · rw [if_pos h1, bind_assoc]
    refine earns_more earns_single fun a n hn => ?_
    rw [pure_bind]
    by_cases h2 : value2_flags > 0
    · rw [if_pos h2, bind_assoc]
      refine earns_more earns_single fun b m hm => ?_
      rw [pure_bind]
      refine earns_pure ?_
      simp at *
      omega
    · rw [if_neg h2, pure_bind]
      refine earns_pure ?_
      simp at *
      omega
  · rw [if_neg h1, pure_bind]
    rw [if_pos (by omega), bind_assoc]
    refine earns_more earns_single fun b m hm => ?_
    rw [pure_bind]
    refine earns_pure ?_
    simp at *
    omega⟩

/-- A row with cells that have values. -/
theorem fair_pair2s (h : value1_flags ≠ 0 ∨ value2_flags ≠ 0) (hc : class2_count ≠ 0) :
    Fair 8 (gpos.Pair2s.read position class2_count value1_flags value2_flags) := ⟨by
  obtain ⟨n, rfl⟩ := Nat.exists_eq_succ_of_ne_zero hc
  have := Reader.lawful
  have := rich_pair2 (position := position) h
  unfold gpos.Pair2s.read takeVec
  rw [bind_assoc]
  refine earns_rich fun a m hm => ?_
  rw [bind_assoc]
  refine earns_nearly fun as k hk => ?_
  rw [pure_bind]
  refine earns_pure ?_
  simp at *
  omega⟩

end

theorem earns_any {α β : Type} {K s : Nat} {r : Reader α} {f : α → Reader β} {h : β → Nat}
    (hf : ∀ a n, Earns K (s + n) (f a) h) : Earns K s (r >>= f) h :=
  earns_bind (P := fun _ _ => True) (fun _ _ _ _ _ => trivial) fun a n _ => hf a n

theorem room_le {P : Prop} [Decidable P] {a b : Nat} (h : P → a ≤ b) : (if P then a else 0) ≤ b := by
  split
  · exact h ‹_›
  · exact Nat.zero_le _

theorem earns_pairAdjustment2 {cfg : Cfg} : Earns 8 0 (gpos.PairAdjustment2.read cfg)
    (fun t => if HasRoom (.format2 t) then content t + 1 else 0) := by
  unfold gpos.PairAdjustment2.read
  refine earns_position fun position => ?_
  refine earns_asks fun _ _ _ => ?_
  refine earns_asks fun _ _ _ => ?_
  refine earns_asks fun value1_flags _ _ => ?_
  refine earns_asks fun value2_flags _ _ => ?_
  refine earns_asks fun _ _ _ => ?_
  refine earns_asks fun _ _ _ => ?_
  refine earns_asks fun class1_count _ _ => ?_
  refine earns_asks fun class2_count _ _ => ?_
  by_cases h : class1_count = 0 ∨ (class2_count ≠ 0 ∧ (value1_flags ≠ 0 ∨ value2_flags ≠ 0))
  · refine earns_bind (P := fun a n => content a ≤ 1 + n) ?_ fun records _ _ => ?_
    · rcases h with rfl | ⟨h2, h1⟩
      · exact Earns.eq_1 .. ▸ (earns_pure (by simp) : Earns 8 1 _ _)
      · have := fair_pair2s (position := position) h1 h2
        exact Nearly.earns
    · repeat' rich_step
      all_goals ((try simp at *) <;> omega)
  · refine earns_any fun _ _ => earns_any fun _ _ => earns_any fun _ _ => earns_any fun _ _ => earns_pure ?_
    exact room_le fun h' => absurd h' h

theorem earns_pairAdjustment {cfg : Cfg} : Earns 8 0 (gpos.PairAdjustment.read cfg)
    (fun t => if HasRoom t then content t + 1 else 0) := by
  unfold gpos.PairAdjustment.read
  refine earns_peek fun _ => ?_
  split
  · refine earns_rich fun a n hn => earns_pure ?_
    refine room_le fun _ => ?_
    simp
    omega
  · refine earns_bind (P := fun a n => (if HasRoom (.format2 a) then content a + 1 else 0) ≤ n)
      (fun d p a q e => by have := earns_pairAdjustment2 d p a q e; dsimp only at this; omega)
      fun a n hn => earns_pure ?_
    refine room_le fun h => ?_
    rw [if_pos h] at hn
    simp
    omega
  · exact earns_raise

/-- The measure of the subtables that takes no account of matrices without room. -/
abbrev roomyContent : Measured gpos.Type_ := ⟨fun t => if Roomy t then content t else 0⟩

theorem earns_type {cfg : Cfg} {n : Nat} : @Fair _ roomyContent 8 (gpos.Type_.read cfg n) := by
  refine @Fair.mk _ roomyContent _ _ ?_
  show Earns 8 0 _ (fun t => if Roomy t then content t else 0)
  unfold gpos.Type_.read
  split
  case h_2 =>
    refine earns_bind (P := fun a n => (if HasRoom a then content a + 1 else 0) ≤ n)
      (fun d p a q e => by have := earns_pairAdjustment d p a q e; dsimp only at this; omega)
      fun a n hn => earns_pure ?_
    refine room_le fun h => ?_
    rw [if_pos (show HasRoom a from h)] at hn
    simp
    omega
  all_goals first
    | exact earns_raise
    | (refine earns_rich fun a n hn => earns_pure ?_
       refine room_le fun _ => ?_
       simp
       omega)

/-- The content of a list for a measure of the elements. -/
abbrev listContent {α : Type} (m : Measured α) (xs : List α) : Nat := content xs

/-- The content of a lookup for a measure of the subtables. -/
abbrev lookupContent {α : Type} (m : Measured α) (t : lookup.Record α) : Nat := content t

/-- The content of a directory for a measure of the subtables. -/
abbrev directoryContent {α : Type} (m : Measured α) (t : directory.Directory α) : Nat := content t

/-- Two measures that agree on the elements agree on the list. -/
theorem content_list_congr {α : Type} (m m' : Measured α) (xs : List α) (h : ∀ x ∈ xs, m.content x = m'.content x) :
    listContent m xs = listContent m' xs := by
  show 1 + (xs.map m.content).sum = 1 + (xs.map m'.content).sum
  rw [List.map_congr_left h]

theorem content_lookup_congr {α : Type} (m m' : Measured α) (t : lookup.Record α)
    (h : ∀ x ∈ t.tables, m.content x = m'.content x) : lookupContent m t = lookupContent m' t := by
  have := content_list_congr m m' t.tables h
  simp only [lookupContent, listContent, Measured.content] at this ⊢
  rw [this]

theorem content_directory_congr {α : Type} (m m' : Measured α) (t : directory.Directory α)
    (h : ∀ lookup ∈ t.lookups.records, ∀ x ∈ lookup.tables, m.content x = m'.content x) :
    directoryContent m t = directoryContent m' t := by
  have := content_list_congr ⟨lookupContent m⟩ ⟨lookupContent m'⟩ t.lookups.records fun lookup hl =>
    content_lookup_congr m m' lookup (h lookup hl)
  show _ + (content t.lookups.count + content t.lookups.offsets +
      listContent ⟨lookupContent m⟩ t.lookups.records) + content t.variations =
    _ + (content t.lookups.count + content t.lookups.offsets +
      listContent ⟨lookupContent m'⟩ t.lookups.records) + content t.variations
  rw [this]

theorem earns_directory {α : Type} {K : Nat} [Large K] [m : Measured α] {cfg : Cfg} {readTable : Nat → Reader α}
    (h : ∀ n, Fair K (readTable n)) : Earns K 0 (directory.Directory.read cfg readTable) (directoryContent m) :=
  Fair.earns

/-- GPOS without matrices that take up no room. -/
theorem earns_positioning {cfg : Cfg} {d : Data} {p : Nat} {t : gpos.GlyphPositioning} {q : Nat}
    (h : gpos.GlyphPositioning.read cfg d p = .ok (t, q))
    (room : ∀ lookup ∈ t.lookups.records, ∀ table ∈ lookup.tables, Roomy table) :
    content t ≤ 8 * (gpos.GlyphPositioning.read cfg).operations d p := by
  have := @earns_directory _ 8 _ roomyContent cfg _ (fun _ => earns_type) d p t q h
  rw [content_directory_congr roomyContent inferInstance t fun lookup hl table ht =>
    if_pos (room lookup hl table ht)] at this
  rw [Nat.zero_add] at this
  exact this

/-! ## With matrices that take up no room

A cell is at most two parts more, and there are at most `65535 * 65535` cells in a matrix. -/

theorem earns_raised {α : Type} {s : Nat} {K K' : Nat} (hK : K ≤ K') {r : Reader α} {h : α → Nat} (hr : Earns K s r h) :
    Earns K' s r h := fun d p v q e =>
  Nat.le_trans (hr d p v q e) (Nat.add_le_add_left (Nat.mul_le_mul_right _ hK) _)

instance : Large 17179869184 := ⟨by decide⟩

theorem earns_row {α : Type} [Measured α] {K e n : Nat} {r : Reader α} (hr : Earns K e r content) :
    Earns K (1 + n * e) (takeVec r n) content := by
  induction n with
  | zero => exact earns_pure (by simp)
  | succ n ih =>
    refine earns_bind (P := fun a m => content a ≤ e + m) (fun d p a q h => hr d p a q h) fun a m hm => ?_
    refine earns_bind (P := fun a m => content a ≤ 1 + n * e + m) (fun d p a q h => ih d p a q h) fun as k hk => ?_
    refine earns_pure ?_
    rw [content_cons, Nat.succ_mul]
    omega

theorem earns_u16 {β : Type} {K s : Nat} {f : Nat → Reader β} {h : β → Nat}
    (hf : ∀ a n, a < 65536 → K ≤ n → Earns K (s + n) (f a) h) : Earns K s (u16 >>= f) h :=
  earns_bind (P := fun a n => a < 65536 ∧ K ≤ n)
    (fun d p a q e => ⟨u16_lt e, Nat.le_mul_of_pos_right K (Asks.asks (r := u16) d p a q e)⟩)
    fun a n hn => hf a n hn.1 hn.2

theorem earns_pair2 {position value1_flags value2_flags : Nat} :
    Earns 8 2 (gpos.Pair2.read position value1_flags value2_flags) content := by
  unfold gpos.Pair2.read
  (repeat' rich_step); all_goals ((try simp at *) <;> omega)

theorem earns_pair2s {position class2_count value1_flags value2_flags : Nat} (h : class2_count < 65536) :
    Earns 8 131071 (gpos.Pair2s.read position class2_count value1_flags value2_flags) content := by
  unfold gpos.Pair2s.read
  refine earns_bind (P := fun a n => content a ≤ 131071 + n)
    (fun d p a q e => Nat.le_trans (earns_row earns_pair2 d p a q e) (Nat.add_le_add_right (by omega) _))
    fun a n hn => earns_pure hn

theorem earns_matrix {cfg : Cfg} : Earns 8 8589737986 (gpos.PairAdjustment2.read cfg) content := by
  unfold gpos.PairAdjustment2.read
  refine earns_position fun position => ?_
  refine earns_asks fun _ _ _ => ?_
  refine earns_asks fun _ _ _ => ?_
  refine earns_asks fun value1_flags _ _ => ?_
  refine earns_asks fun value2_flags _ _ => ?_
  refine earns_asks fun _ _ _ => ?_
  refine earns_asks fun _ _ _ => ?_
  refine earns_u16 fun class1_count _ h1 _ => ?_
  refine earns_u16 fun class2_count _ h2 _ => ?_
  refine earns_bind (P := fun a n => content a ≤ 8589737986 + n)
    (fun d p a q e => Nat.le_trans (earns_row (earns_pair2s h2) d p a q e) (Nat.add_le_add_right (by omega) _))
    fun records _ _ => ?_
  repeat' rich_step
  all_goals ((try simp at *) <;> omega)

theorem earns_type_any {cfg : Cfg} {n : Nat} : Fair 17179869184 (gpos.Type_.read cfg n) := ⟨by
  unfold gpos.Type_.read
  split
  case h_2 =>
    unfold gpos.PairAdjustment.read
    have := Reader.lawful
    rw [bind_assoc]
    refine earns_peek fun _ => ?_
    split
    · rw [bind_assoc]
      refine earns_bind (P := fun a n => content a ≤ n) (fun d p a q e => ?_) fun a n hn => ?_
      · have : Fair 8 (gpos.PairAdjustment1.read cfg) := inferInstance
        have := earns_raised (K' := 17179869184) (by decide) this.earns d p a q e
        omega
      · rw [pure_bind]
        refine earns_pure ?_
        simp
        omega
    · rw [bind_assoc]
      refine earns_bind (P := fun a n => content a ≤ 8589737986 + n)
        (earns_raised (K' := 17179869184) (by decide) earns_matrix) fun a n hn => ?_
      rw [pure_bind]
      refine earns_pure ?_
      simp
      omega
    · exact earns_fail
  case h_10 => exact earns_raise
  case h_7 => refine earns_rich fun a n hn => earns_pure (by simp; omega)
  case h_8 => refine earns_rich fun a n hn => earns_pure (by simp; omega)
  all_goals
    refine earns_raised (K := 8) (by decide) ?_
    exact earns_rich fun a n hn => earns_pure (by simp; omega)⟩

/-- GPOS with whatever matrices. -/
theorem earns_positioning_any {cfg : Cfg} {d : Data} {p : Nat} {t : gpos.GlyphPositioning} {q : Nat}
    (h : gpos.GlyphPositioning.read cfg d p = .ok (t, q)) :
    content t ≤ 17179869184 * (gpos.GlyphPositioning.read cfg).operations d p := by
  have := earns_directory (fun _ => earns_type_any) d p t q h
  rw [Nat.zero_add] at this
  exact this

end OpenType
