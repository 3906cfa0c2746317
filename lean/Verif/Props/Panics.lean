import Verif.Props.Safety
import Verif.Proof.Gdef
/-! # C39: where exactly a build with overflow checks panics -/

namespace OpenType.Props
open OpenType Spec

/-- The counts of an item variation record at `p`, and the indices of its regions, are there, and the number of the
wide deltas and that of the regions add up to more than a word can hold. -/
def Overflows (d : Data) (p : Nat) : Prop :=
  ∃ items wide regions indices, U16 d p items ∧ U16 d (p + 2) wide ∧ U16 d (p + 4) regions ∧
    U16s d (p + 6) regions indices ∧ 65536 ≤ wide + regions

section
variable {α β : Type} {d : Data} {p : Nat} {m : String}

theorem panics_bind {r : Reader α} {f : α → Reader β} (h : r d p ≠ .error (.panic m)) :
    (r >>= f) d p = .error (.panic m) ↔ ∃ a q, r d p = .ok (a, q) ∧ f a d q = .error (.panic m) := by
  rw [run_bind_eq]
  cases e : r d p with
  | error x =>
    constructor
    · intro hx
      cases hx
      exact absurd e h
    · rintro ⟨_, _, ⟨⟩, _⟩
  | ok x =>
    obtain ⟨a, q⟩ := x
    constructor
    · intro hx
      exact ⟨a, q, rfl, hx⟩
    · rintro ⟨_, _, ⟨⟩, hx⟩
      exact hx

theorem panics_bind_fixed {r : Reader α} {S size} [h : Fixed r S size] {P : α → Prop} [Reloc False r P] {f : α → Reader β}
    (hd : Fits d) :
    (r >>= f) d p = .error (.panic m) ↔ ∃ a, S d p a ∧ f a d (p + size) = .error (.panic m) := by
  rw [panics_bind (neverPanics _ _ _ hd)]
  constructor
  · rintro ⟨a, q, h1, h2⟩
    obtain ⟨h3, rfl⟩ := (h.run hd).mp h1
    exact ⟨a, h3, h2⟩
  · rintro ⟨a, h1, h2⟩
    exact ⟨a, _, (h.run hd).mpr ⟨h1, rfl⟩, h2⟩

theorem panics_jumpTake {r : Reader α} {b o q : Nat} (h : b + o < 2 ^ 64) :
    jumpTake b o r d q = r d (b + o) := by
  unfold jumpTake addU64
  rw [if_pos h]
  rfl

theorem panics_maybe {r : Reader α} {b o q : Nat} (h : b + o < 2 ^ 64) :
    jumpTakeMaybe b o r d q = .error (.panic m) ↔ o ≠ 0 ∧ r d (b + o) = .error (.panic m) := by
  unfold jumpTakeMaybe
  by_cases ho : o > 0
  · rw [if_pos ho, run_bind_eq, panics_jumpTake h]
    cases r d (b + o) with
    | error e => simpa using fun _ => (by omega : o ≠ 0)
    | ok x => exact ⟨fun h => (by cases h), fun h => (by cases h.2)⟩
  · rw [if_neg ho]
    exact ⟨fun h => (by cases h), fun h => absurd h.1 (by omega)⟩

/-- One of the steps of a reader, which jumps to where it reads and does not panic. -/
theorem panics_bind_maybe {r : Reader α} {S} [Parses r S] {P : α → Prop} [Reloc False r P] {f : Option α → Reader β}
    {b o : Nat} (hd : Fits d) (h : b + o < 2 ^ 64) {R : Option α → Prop}
    (hf : ∀ x q, f x d q = .error (.panic m) ↔ R x) :
    (jumpTakeMaybe b o r >>= f) d p = .error (.panic m) ↔ ∃ x, Optional (S d) b o x ∧ R x := by
  rw [panics_bind fun e => neverPanics _ _ _ hd ((panics_maybe h).mp e).2]
  simp only [hf, ← reads_jumpTakeMaybe hd (p := p) (r := r)]
  exact ⟨fun ⟨a, q, h1, h2⟩ => ⟨a, ⟨q, h1⟩, h2⟩, fun ⟨a, ⟨q, h1⟩, h2⟩ => ⟨a, q, h1, h2⟩⟩

/-- A loop over readers that do not look at where the tape is. -/
theorem panics_forFrom {body : Nat → Reader α} {Ok Bad : Nat → Prop} {n : Nat} :
    ∀ {i p : Nat}, (∀ j q, i ≤ j → j < i + n → ((∃ x q', body j d q = .ok (x, q')) ↔ Ok j)) →
      (∀ j q, i ≤ j → j < i + n → (body j d q = .error (.panic m) ↔ Bad j)) →
    (forFrom body i n d p = .error (.panic m) ↔ ∃ k, i ≤ k ∧ k < i + n ∧ (∀ j, i ≤ j → j < k → Ok j) ∧ Bad k) := by
  induction n with
  | zero =>
    intro i p _ _
    exact ⟨fun h => (by cases h), fun ⟨k, h1, h2, _⟩ => absurd h2 (by omega)⟩
  | succ n ih =>
    intro i p hok hbad
    have ih := fun p => ih (i := i + 1) (p := p) (fun j q h1 h2 => hok j q (by omega) (by omega))
      fun j q h1 h2 => hbad j q (by omega) (by omega)
    unfold forFrom
    by_cases hi : body i d p = .error (.panic m)
    · rw [run_bind_eq, hi]
      exact ⟨fun _ => ⟨i, by omega, by omega, fun j _ _ => absurd (by assumption : j < i) (by omega),
        (hbad i p (by omega) (by omega)).mp hi⟩, fun _ => rfl⟩
    · rw [panics_bind hi]
      constructor
      · rintro ⟨x, q, h1, h2⟩
        have hne : forFrom body (i + 1) n d q = .error (.panic m) := by
          rw [run_bind_eq] at h2
          cases e : forFrom body (i + 1) n d q with
          | error e' => rw [e] at h2; exact h2
          | ok y => rw [e] at h2; cases h2
        obtain ⟨k, k1, k2, k3, k4⟩ := (ih q).mp hne
        refine ⟨k, by omega, by omega, fun j j1 j2 => ?_, k4⟩
        rcases Nat.eq_or_lt_of_le j1 with rfl | j1
        · exact (hok i p (by omega) (by omega)).mp ⟨x, q, h1⟩
        · exact k3 j j1 j2
      · rintro ⟨k, k1, k2, k3, k4⟩
        have hk : i ≠ k := by
          rintro rfl
          exact hi ((hbad i p (by omega) (by omega)).mpr k4)
        obtain ⟨x, q, hx⟩ := (hok i p (by omega) (by omega)).mpr (k3 i (by omega) (by omega))
        refine ⟨x, q, hx, ?_⟩
        rw [run_bind_eq, (ih q).mpr ⟨k, by omega, by omega, fun j j1 j2 => k3 j (by omega) j2, k4⟩]

end

/-- Reading an item variation record panics exactly when the build has overflow checks and the sum of the counts
overflows; the message is the one of the addition. -/
theorem C39_record (cfg : Cfg) (d : Data) (p : Nat) (m : String) (hd : Fits d) :
    item.Record.read cfg d p = .error (.panic m) ↔
      cfg.overflowChecks = true ∧ m = "attempt to add with overflow" ∧ Overflows d p := by
  have tail : ∀ n q (f : List Nat → item.Record),
      (takeVec u8 n >>= fun x => pure (f x)) d q ≠ .error (.panic m) := by
    intro n q f e
    obtain ⟨a, _, h⟩ := (panics_bind_fixed hd).mp e
    cases h
  unfold item.Record.read
  rw [panics_bind_fixed hd]
  constructor
  · rintro ⟨items, h1, h⟩
    obtain ⟨wide, h2, h⟩ := (panics_bind_fixed hd).mp h
    obtain ⟨regions, h3, h⟩ := (panics_bind_fixed hd).mp h
    obtain ⟨indices, h4, h⟩ := (panics_bind_fixed hd).mp h
    have l1 := h1.lt
    have l2 := h2.lt
    have l3 := h3.lt
    have fine : ∀ n < 65536, ∀ q, (mulUsize items n >>= fun k => takeVec u8 k >>= fun deltas =>
        (pure ⟨items, wide, regions, indices, deltas⟩ : Reader item.Record)) d q ≠ .error (.panic m) := by
      intro n hn q
      have : items * n < 2 ^ 32 := Nat.lt_of_le_of_lt (Nat.mul_le_mul (Nat.le_of_lt_succ l1) (Nat.le_of_lt_succ hn))
        (by decide)
      unfold mulUsize
      rw [if_pos this]
      exact tail _ _ _
    unfold item.addU16 at h
    by_cases hs : wide + regions < 65536
    · rw [if_pos hs] at h
      exact absurd h (fine _ hs _)
    · rw [if_neg hs] at h
      by_cases hc : cfg.overflowChecks = true
      · rw [if_pos hc] at h
        cases h
        exact ⟨hc, rfl, items, wide, regions, indices, h1, h2, h3, h4, by omega⟩
      · rw [if_neg hc] at h
        exact absurd h (fine _ (Nat.mod_lt _ (by decide)) _)
  · rintro ⟨hc, rfl, items, wide, regions, indices, h1, h2, h3, h4, hs⟩
    refine ⟨items, h1, (panics_bind_fixed hd).mpr ⟨wide, h2, (panics_bind_fixed hd).mpr ⟨regions, h3,
      (panics_bind_fixed hd).mpr ⟨indices, h4, ?_⟩⟩⟩⟩
    unfold item.addU16
    rw [if_neg (by omega), if_pos hc]
    rfl

/-- Reading an item variation store panics exactly when one of its records, all before which can be read, overflows. -/
theorem C39_store (cfg : Cfg) (d : Data) (p : Nat) (m : String) (hd : Fits d) :
    item.Store.read cfg d p = .error (.panic m) ↔
      cfg.overflowChecks = true ∧ m = "attempt to add with overflow" ∧
      ∃ (region count : Nat) (offsets : List Nat) (i o : Nat), U16 d p 1 ∧ U32 d (p + 2) region ∧ U16 d (p + 6) count ∧
        U32s d (p + 8) count offsets ∧ offsets[i]? = some o ∧ Overflows d (p + o) ∧
        ∀ j < i, ∀ o', offsets[j]? = some o' → ∃ t, Reads (item.Record.read cfg) d (p + o') t := by
  have loop : ∀ count offsets, U32s d (p + 8) count offsets → U16 d (p + 6) count → ∀ q,
      (jumpTakeN p count offsets (item.Record.read cfg) d q = .error (.panic m) ↔
        ∃ k, 0 ≤ k ∧ k < 0 + count ∧ (∀ j, 0 ≤ j → j < k → ∀ o', offsets[j]? = some o' →
          ∃ t, Reads (item.Record.read cfg) d (p + o') t) ∧
          ∀ o, offsets[k]? = some o → item.Record.read cfg d (p + o) = .error (.panic m)) := by
    intro count offsets h hcount q
    have hb := hcount.bound
    have at_ : ∀ j q, j < count → ∃ o, offsets[j]? = some o ∧
        (index offsets j >>= fun offset => jumpTake p offset (item.Record.read cfg)) d q =
          item.Record.read cfg d (p + o) := by
      intro j q hj
      have hj' : j < offsets.length := by rw [h.1]; exact hj
      refine ⟨offsets[j], List.getElem?_eq_getElem hj', ?_⟩
      have hl := (h.2 j _ (List.getElem?_eq_getElem hj')).lt
      unfold index
      rw [List.getElem?_eq_getElem hj']
      unfold Fits at hd
      exact panics_jumpTake (by omega)
    refine panics_forFrom (fun j q _ hj => ?_) (fun j q _ hj => ?_)
    · obtain ⟨o, ho, e⟩ := at_ j q (by omega)
      rw [e]
      exact ⟨fun ⟨t, q', h⟩ o' ho' => by rw [ho] at ho'; cases ho'; exact ⟨t, q', h⟩,
        fun h => by obtain ⟨t, q', h⟩ := h o ho; exact ⟨t, q', h⟩⟩
    · obtain ⟨o, ho, e⟩ := at_ j q (by omega)
      rw [e]
      exact ⟨fun h o' ho' => by rw [ho] at ho'; cases ho'; exact h, fun h => h o ho⟩
  have last : ∀ region count offsets q, U32s d (p + 8) count offsets → U16 d (p + 6) count →
      ((jumpTakeN p count offsets (item.Record.read cfg) >>= fun records =>
        (pure ⟨1, region, count, offsets, records⟩ : Reader item.Store)) d q = .error (.panic m) ↔
      jumpTakeN p count offsets (item.Record.read cfg) d q = .error (.panic m)) := by
    intro region count offsets q _ _
    rw [run_bind_eq]
    cases jumpTakeN p count offsets (item.Record.read cfg) d q with
    | error e => simp
    | ok x => exact ⟨fun h => (by cases h), fun h => (by cases h)⟩
  have start : item.Store.read cfg d p = (expectU16 1 >>= fun format => u32 >>= fun region_offset => u16 >>= fun count =>
      takeVec u32 count >>= fun offsets => jumpTakeN p count offsets (item.Record.read cfg) >>= fun records =>
        (pure ⟨format, region_offset, count, offsets, records⟩ : Reader item.Store)) d p := rfl
  rw [start, panics_bind_fixed hd]
  constructor
  · rintro ⟨_, ⟨h1, rfl⟩, h⟩
    obtain ⟨region, h2, h⟩ := (panics_bind_fixed hd).mp h
    obtain ⟨count, h3, h⟩ := (panics_bind_fixed hd).mp h
    obtain ⟨offsets, h4, h⟩ := (panics_bind_fixed hd).mp h
    obtain ⟨i, _, hi, hok, hbad⟩ := (loop count offsets h4 h3 _).mp ((last _ _ _ _ h4 h3).mp h)
    have hi' : i < offsets.length := by rw [h4.1]; omega
    obtain ⟨hc, hm, ho⟩ := (C39_record cfg d _ m hd).mp (hbad _ (List.getElem?_eq_getElem hi'))
    exact ⟨hc, hm, region, count, offsets, i, _, h1, h2, h3, h4, List.getElem?_eq_getElem hi', ho,
      fun j hj => hok j (by omega) hj⟩
  · rintro ⟨hc, hm, region, count, offsets, i, o, h1, h2, h3, h4, hi, ho, hok⟩
    refine ⟨1, ⟨h1, rfl⟩, (panics_bind_fixed hd).mpr ⟨region, h2, (panics_bind_fixed hd).mpr ⟨count, h3,
      (panics_bind_fixed hd).mpr ⟨offsets, h4, (last _ _ _ _ h4 h3).mpr ((loop count offsets h4 h3 _).mpr ?_)⟩⟩⟩⟩
    have := (List.getElem?_eq_some_iff.mp hi).1
    rw [h4.1] at this
    exact ⟨i, by omega, by omega, fun j _ hj => hok j hj, fun o' ho' => by
      rw [hi] at ho'
      cases ho'
      exact (C39_record cfg d _ m hd).mpr ⟨hc, hm, ho⟩⟩

open gdef Spec.gdef in
/-- Reading a glyph definition panics exactly when it has version 1.3 and all else in it can be read, and the item
variation store, where it is looked for, overflows. -/
theorem C39_gdef (cfg : Cfg) (d : Data) (p : Nat) (m : String) (hd : Fits d) :
    GlyphDefinition.read cfg d p = .error (.panic m) ↔
      ∃ header glyph_class attachments ligatures mark_class marks,
        IsGlyphDefinitionBut IsCaretTaken d p
          ⟨.version13 header, glyph_class, attachments, ligatures, mark_class, marks, none⟩ ∧
        header.mark_offset ≠ 0 ∧ item.Store.read cfg d (p + header.mark_offset) = .error (.panic m) := by
  have never : Header.read d p ≠ .error (.panic m) := fun e => by
    have := good_header (e := False) (ext_refl d) hd (p := p)
    unfold Good at this
    rw [e] at this
    exact this.1
  have start : GlyphDefinition.read cfg d p = (Header.read >>= fun header =>
      jumpTakeMaybe p header.glyph_class_offset class_.Class.read >>= fun glyph_class =>
      jumpTakeMaybe p header.attachment_offset Attachments.read >>= fun attachments =>
      jumpTakeMaybe p header.ligature_offset Ligatures.read >>= fun ligatures =>
      jumpTakeMaybe p header.mark_class_offset class_.Class.read >>= fun mark_class =>
      jumpTakeMaybe p header.mark_offset Marks.read >>= fun marks =>
      jumpTakeMaybe p header.variations_offset (item.Store.read cfg) >>= fun variations =>
      pure ⟨header, glyph_class, attachments, ligatures, mark_class, marks, variations⟩) d p := rfl
  have rest : ∀ header : gdef.Header, IsHeader d p header → ∀ q,
      ((jumpTakeMaybe p header.glyph_class_offset class_.Class.read >>= fun glyph_class =>
      jumpTakeMaybe p header.attachment_offset Attachments.read >>= fun attachments =>
      jumpTakeMaybe p header.ligature_offset Ligatures.read >>= fun ligatures =>
      jumpTakeMaybe p header.mark_class_offset class_.Class.read >>= fun mark_class =>
      jumpTakeMaybe p header.mark_offset Marks.read >>= fun marks =>
      jumpTakeMaybe p header.variations_offset (item.Store.read cfg) >>= fun variations =>
      (pure ⟨header, glyph_class, attachments, ligatures, mark_class, marks, variations⟩ :
        Reader GlyphDefinition)) d q = .error (.panic m) ↔
      ∃ a, Optional (IsClass d) p (Spec.gdef.offsets header).1 a ∧
      ∃ b, Optional (IsAttachments d) p (Spec.gdef.offsets header).2.1 b ∧
      ∃ c, Optional (IsLigatures IsCaretTaken d) p (Spec.gdef.offsets header).2.2.1 c ∧
      ∃ e, Optional (IsClass d) p (Spec.gdef.offsets header).2.2.2.1 e ∧
      ∃ f, Optional (IsMarks d) p (Spec.gdef.offsets header).2.2.2.2.1 f ∧
      (storeOffsetTaken header ≠ 0 ∧ item.Store.read cfg d (p + storeOffsetTaken header) = .error (.panic m))) := by
    intro header hh q
    have hb : p < d.length := Parses.bound (r := Header.read) hh
    have e1 : header.glyph_class_offset = (Spec.gdef.offsets header).1 := by cases header <;> rfl
    have e2 : header.attachment_offset = (Spec.gdef.offsets header).2.1 := by cases header <;> rfl
    have e3 : header.ligature_offset = (Spec.gdef.offsets header).2.2.1 := by cases header <;> rfl
    have e4 : header.mark_class_offset = (Spec.gdef.offsets header).2.2.2.1 := by cases header <;> rfl
    have e5 : header.mark_offset = (Spec.gdef.offsets header).2.2.2.2.1 := by cases header <;> rfl
    have e6 : header.variations_offset = storeOffsetTaken header := by cases header <;> rfl
    have small : (Spec.gdef.offsets header).1 < 65536 ∧ (Spec.gdef.offsets header).2.1 < 65536 ∧
        (Spec.gdef.offsets header).2.2.1 < 65536 ∧ (Spec.gdef.offsets header).2.2.2.1 < 65536 ∧
        (Spec.gdef.offsets header).2.2.2.2.1 < 65536 ∧ storeOffsetTaken header < 65536 := by
      cases header with
      | version1 t =>
        obtain ⟨_, _, _, _, h1, h2, h3, h4⟩ := hh
        exact ⟨h1.lt, h2.lt, h3.lt, h4.lt, Nat.zero_lt_succ _, Nat.zero_lt_succ _⟩
      | version12 t =>
        obtain ⟨_, _, _, _, h1, h2, h3, h4, h5⟩ := hh
        exact ⟨h1.lt, h2.lt, h3.lt, h4.lt, h5.lt, Nat.zero_lt_succ _⟩
      | version13 t =>
        obtain ⟨_, _, _, _, h1, h2, h3, h4, h5, _⟩ := hh
        exact ⟨h1.lt, h2.lt, h3.lt, h4.lt, h5.lt, h5.lt⟩
    obtain ⟨s1, s2, s3, s4, s5, s6⟩ := small
    unfold Fits at hd
    rw [e1, e2, e3, e4, e5, e6]
    refine panics_bind_maybe hd (by omega) fun x q => panics_bind_maybe hd (by omega) fun x q =>
      panics_bind_maybe hd (by omega) fun x q => panics_bind_maybe hd (by omega) fun x q =>
      panics_bind_maybe hd (by omega) fun x q => ?_
    rw [← panics_maybe (r := item.Store.read cfg) (q := q) (by omega : p + storeOffsetTaken header < 2 ^ 64),
      run_bind_eq]
    cases jumpTakeMaybe p (storeOffsetTaken header) (item.Store.read cfg) d q with
    | error e => simp
    | ok x => exact ⟨fun h => (by cases h), fun h => (by cases h)⟩
  rw [start, panics_bind never]
  constructor
  · rintro ⟨header, q, h1, h2⟩
    have hh : IsHeader d p header := (reads_parses hd).mp ⟨q, h1⟩
    obtain ⟨a, ha, b, hb, c, hc, e, he, f, hf, h0, hs⟩ := (rest header hh q).mp h2
    cases header with
    | version1 t => exact absurd rfl h0
    | version12 t => exact absurd rfl h0
    | version13 t => exact ⟨t, a, b, c, e, f, ⟨hh, ha, hb, hc, he, hf⟩, h0, hs⟩
  · rintro ⟨t, a, b, c, e, f, ⟨hh, ha, hb, hc, he, hf⟩, h0, hs⟩
    obtain ⟨q, h1⟩ := (reads_parses (r := Header.read) hd).mpr hh
    exact ⟨_, q, h1, (rest _ hh q).mpr ⟨a, ha, b, hb, c, hc, e, he, f, hf, h0, hs⟩⟩

/-- The table of `C39_gdef_panics`: its store is at 18, and the record of the store at 30. -/
example : Overflows panickingGdef 30 :=
  ⟨0, 65535, 1, [0], by decide +kernel, by decide +kernel, by decide +kernel,
    arrayOf_succ.mpr ⟨0, [], rfl, by decide +kernel, arrayOf_zero.mpr rfl⟩, by decide⟩

example : ¬Overflows panickingGdef 18 := by
  rintro ⟨_, wide, regions, _, _, h2, h3, _, h⟩
  have := h2.unique (show U16 panickingGdef 20 0 by decide +kernel)
  have := h3.lt
  omega

end OpenType.Props
