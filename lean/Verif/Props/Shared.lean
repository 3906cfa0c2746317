import Verif.Spec.Shared
import Verif.Props.Changing
/-! # C96: handles that share their position -/

namespace OpenType.Props
open OpenType Spec coverage class_ correction context script feature lookup directory

/-- On a tape of whose answers nothing is known but their form: all that the reader gives satisfies `P`, and it panics only if
`e`, unless the tape itself does. -/
def StandsSharing (e : Prop) {α : Type} (r : Reader α) (P : α → Prop) : Prop :=
  ∀ (σ : Type) (device : Device σ) (E : Err → Prop) (I : σ → Prop), Formed device E I → ∀ s, I s →
    (∀ t, (r.exec device s).1 = .ok t → P t) ∧
    (∀ m, (r.exec device s).1 = .error (.panic m) → e ∨ E (.panic m)) ∧
    I (r.exec device s).2

theorem exec_formed {e : Prop} {α σ : Type} {device : Device σ} {E : Err → Prop} {I : σ → Prop} (h : Formed device E I)
    {r : Reader α} (hr : r.Stops) {s : σ} (hs : I s) {p : Nat} {Q : α → Prop} (hc : Calmly ⟨e, 1⟩ r p Q) :
    (∀ t, (r.exec device s).1 = .ok t → Q t) ∧
    (∀ m, (r.exec device s).1 = .error (.panic m) → e ∨ E (.panic m)) ∧
    I (r.exec device s).2 := by
  induction r generalizing s p with
  | done a => exact ⟨fun _ h => by cases h; exact hc, nofun, hs⟩
  | fail x => exact ⟨nofun, fun m h => by cases h; exact .inl (hc m rfl), hs⟩
  | tell next ih =>
    obtain ⟨h1, h2⟩ := h.tell s hs
    unfold Reader.exec
    cases hx : (device.tell s).1 with
    | ok q =>
      rw [hx] at h2
      exact ih _ (hr.2 _) h1 (hc q (.inr h2) (.inl rfl))
    | error x =>
      rw [hx] at h2
      rw [hr.1 x]
      exact ⟨nofun, fun m h => by cases h; exact .inr h2, h1⟩
  | seek q next ih =>
    obtain ⟨h1, h2⟩ := h.seek s q hs
    unfold Reader.exec
    cases hx : (device.seek s q).1 with
    | ok a => exact ih _ (hr.2 _) h1 hc
    | error x =>
      rw [hr.1 x]
      exact ⟨nofun, fun m h => by cases h; exact .inr (h2 _ hx), h1⟩
  | fetch n next ih =>
    obtain ⟨h1, h2⟩ := h.fetch s n hs
    unfold Reader.exec
    cases hx : (device.fetch s n).1 with
    | ok bytes =>
      rw [hx] at h2
      exact ih _ (hr.2 _) h1 (hc bytes h2 (.inl rfl))
    | error x =>
      rw [hx] at h2
      rw [hr.1 x]
      exact ⟨nofun, fun m h => by cases h; exact .inr h2, h1⟩

theorem standsSharing {e : Prop} {α : Type} {r : Reader α} {P : α → Prop} [h : Calm ⟨e, 1⟩ r P] [hr : Stops r] :
    StandsSharing e r P := fun _ _ _ _ hf _ hs => exec_formed hf hr.stops hs (h.calm 0)

instance {e : Mood} {q : Nat} : Calm e (jump q) (fun _ => True) := ⟨fun _ => trivial⟩

/-- A file whose position others move, and whose content they change, is such a tape. -/
theorem C96_shared (content : Nat → Data) (moved : Nat → Nat → Nat) (h : ∀ t, Fits (content t))
    (hm : ∀ t p, p < 2 ^ 63 → moved t p < 2 ^ 63) :
    Formed (shared content moved) (fun e => e = .eof ∨ e = .malformed "invalid argument") (fun s => s.1 < 2 ^ 63) where
  tell s hs := ⟨hm _ _ hs, hm _ _ hs⟩
  seek s q hs := by
    show (if q < 2 ^ 63 then (Except.ok (), (q, s.2 + 1)) else
      (.error (.malformed "invalid argument"), (s.1, s.2 + 1)) : Except Err Unit × Nat × Nat).2.1 < _ ∧
      ∀ e, (if q < 2 ^ 63 then (Except.ok (), (q, s.2 + 1)) else
      (.error (.malformed "invalid argument"), (s.1, s.2 + 1)) : Except Err Unit × Nat × Nat).1 = .error e → _
    split
    · exact ⟨by assumption, nofun⟩
    · exact ⟨hs, fun _ h => by cases h; exact .inr rfl⟩
  fetch s n hs := by
    have hf : (shared content moved).fetch s n = if n = 0 ∨ moved s.2 s.1 + n ≤ (content s.2).length then
        (.ok (((content s.2).drop (moved s.2 s.1)).take n), (moved s.2 s.1 + n, s.2 + 1))
      else (.error .eof, (moved s.2 s.1, s.2 + 1)) := rfl
    rw [hf]
    have := h s.2
    have := hm s.2 s.1 hs
    unfold Fits at *
    by_cases hn : n = 0 ∨ moved s.2 s.1 + n ≤ (content s.2).length
    · rw [if_pos hn]
      refine ⟨?_, ?_⟩
      · show moved s.2 s.1 + n < 2 ^ 63
        omega
      · show (((content s.2).drop (moved s.2 s.1)).take n).length = n
        rw [List.length_take, List.length_drop]
        omega
    · rw [if_neg hn]
      exact ⟨by assumption, .inl rfl⟩

/-- The tables: whatever they give, all counts in it equal the lengths of the lists they belong to (`Spec/Counts.lean`). They do
not panic, except that the item variation store can if the build has overflow checks (C39). -/
theorem C96_tables (cfg : Cfg) :
    StandsSharing False (gsub.GlyphSubstitution.read cfg) counted ∧
    StandsSharing False (gpos.GlyphPositioning.read cfg) counted ∧
    StandsSharing (cfg.overflowChecks = true) (gdef.GlyphDefinition.read cfg) counted ∧
    StandsSharing False cpal.ColorPalettes.read counted ∧
    StandsSharing False (fvar.FontVariations.read cfg) counted ∧
    StandsSharing (cfg.overflowChecks = true) (item.Store.read cfg) counted :=
  ⟨standsSharing, standsSharing, standsSharing, standsSharing, standsSharing, standsSharing⟩

/-- The parts of the layout tables, taken on their own. -/
theorem C96_layout (cfg : Cfg) (type_ : Nat) :
    StandsSharing False Coverage.read counted ∧ StandsSharing False Class.read counted ∧
    StandsSharing False Correction.read (fun _ => True) ∧ StandsSharing False Context.read counted ∧
    StandsSharing False ChainedContext.read counted ∧ StandsSharing False Scripts.read counted ∧
    StandsSharing False Features.read counted ∧
    StandsSharing False (gsub.Type_.read type_) counted ∧ StandsSharing False (gpos.Type_.read cfg type_) counted :=
  ⟨standsSharing, standsSharing, standsSharing, standsSharing, standsSharing, standsSharing, standsSharing, standsSharing,
    standsSharing⟩

/-- Opening a file gives one font, with as many records of tables as it says. -/
theorem C96_open (accept : Tag → Bool) :
    StandsSharing False (File.read accept) (fun t => ∃ font, t.fonts = [font] ∧
      font.offsets.records.length = font.offsets.header.table_count) := standsSharing

/-- Doing one thing after another. -/
theorem StandsSharing.bind {e : Prop} {α β : Type} {r : Reader α} {f : α → Reader β} {P : α → Prop} {Q : β → Prop}
    (hr : StandsSharing e r P) (hf : ∀ a, P a → StandsSharing e (f a) Q) : StandsSharing e (r >>= f) Q := by
  intro σ device E I h s hs
  obtain ⟨h1, h2, h3⟩ := hr σ device E I h s hs
  rw [exec_bind]
  rcases hx : r.exec device s with ⟨x | a, s'⟩ <;> rw [hx] at h1 h2 h3
  · exact ⟨nofun, fun m hm => by cases hm; exact h2 m rfl, h3⟩
  · exact hf a (h1 a rfl) σ device E I h s' h3

/-- Taking a table of a font, whichever directory was read and whichever reader is used. -/
theorem C96_take {e : Prop} {α : Type} (cfg : Cfg) (font : Font) (table : TableType) {r : Reader α} {P : α → Prop}
    (h : StandsSharing e r P) :
    StandsSharing e (font.take cfg tableChecksum table r) (fun t => ∀ x, t = some x → P x) := by
  refine StandsSharing.bind (P := fun _ => True)
    (standsSharing (r := font.position cfg tableChecksum table)) fun x _ => ?_
  cases x with
  | none => exact fun _ _ _ _ _ _ hs => ⟨fun _ ht => by cases ht; exact nofun, nofun, hs⟩
  | some _ => exact h.bind fun a ha => fun _ _ _ _ _ _ hs =>
      ⟨fun _ ht => by cases ht; rintro _ ⟨⟩; exact ha, nofun, hs⟩

section
variable {W : Type} {α : Nat → Type}

/-- The others have their turns until it is that of `i`. -/
def catchUp (device : Nat → Device W) (i : Nat) :
    List Nat → (∀ j, Reader (α j)) × W → ((∀ j, Reader (α j)) × W) × List Nat
  | [], x => (x, [])
  | j :: schedule, x => if j = i then (x, schedule) else catchUp device i schedule (turn device j x)

/-- The tape as it seems to thread `i`. -/
def around (device : Nat → Device W) (i : Nat) : Device (((∀ j, Reader (α j)) × W) × List Nat) where
  tell s :=
    let x := catchUp device i s.2 s.1
    (((device i).tell x.1.2).1, ((x.1.1, ((device i).tell x.1.2).2), x.2))
  seek s q :=
    let x := catchUp device i s.2 s.1
    (((device i).seek x.1.2 q).1, ((x.1.1, ((device i).seek x.1.2 q).2), x.2))
  fetch s n :=
    let x := catchUp device i s.2 s.1
    (((device i).fetch x.1.2 n).1, ((x.1.1, ((device i).fetch x.1.2 n).2), x.2))

theorem formed_step {β : Type} {device : Device W} {E : Err → Prop} {I : W → Prop} (h : Formed device E I) (r : Reader β)
    {w : W} (hw : I w) : I (r.step device w).2 := by
  cases r with
  | done a => exact hw
  | fail x => exact hw
  | tell next => exact (h.tell w hw).1
  | seek q next => exact (h.seek w q hw).1
  | fetch n next => exact (h.fetch w n hw).1

theorem formed_catchUp {device : Nat → Device W} {E : Err → Prop} {I : W → Prop} (h : ∀ j, Formed (device j) E I) {i : Nat}
    {schedule : List Nat} {x : (∀ j, Reader (α j)) × W} (hx : I x.2) : I (catchUp device i schedule x).1.2 := by
  induction schedule generalizing x with
  | nil => exact hx
  | cons j schedule ih =>
    unfold catchUp
    split
    · exact hx
    · exact ih (formed_step (h j) _ hx)

theorem formed_around {device : Nat → Device W} {E : Err → Prop} {I : W → Prop} (h : ∀ j, Formed (device j) E I) (i : Nat) :
    Formed (around (α := α) device i) E (fun s => I s.1.2) where
  tell _ hs := (h i).tell _ (formed_catchUp h hs)
  seek _ q hs := (h i).seek _ q (formed_catchUp h hs)
  fetch _ n hs := (h i).fetch _ n (formed_catchUp h hs)

theorem turn_other {device : Nat → Device W} {i j : Nat} (hj : j ≠ i) (x : (∀ j, Reader (α j)) × W) :
    (turn device i x).1 j = x.1 j := dif_neg hj

theorem turn_self {device : Nat → Device W} {i : Nat} (x : (∀ j, Reader (α j)) × W) :
    (turn device i x).1 i = ((x.1 i).step (device i) x.2).1 := dif_pos rfl

/-- What a thread gives under a schedule it gives alone, on the tape as it seems to it. -/
theorem exec_around {device : Nat → Device W} {i : Nat} {schedule : List Nat} {x y : (∀ j, Reader (α j)) × W}
    (hw : y.2 = x.2) (hy : ∀ j, j ≠ i → y.1 j = x.1 j) {v : Except Err (α i)}
    (hv : ((turns device schedule x).1 i).result = some v) :
    ((x.1 i).exec (around device i) (y, schedule)).1 = v := by
  induction schedule generalizing x y with
  | nil =>
    change (x.1 i).result = some v at hv
    cases hr : x.1 i <;> rw [hr] at hv <;> cases hv <;> rfl
  | cons j schedule ih =>
    change ((turns device schedule (turn device j x)).1 i).result = some v at hv
    by_cases hj : j = i
    · subst hj
      have key := @ih (turn device j x)
      rw [turn_self] at key
      have hk : ∀ k, k ≠ j → y.1 k = (turn device j x).1 k := fun k hk => (hy k hk).trans (turn_other hk x).symm
      have hc : catchUp device j (j :: schedule) y = (y, schedule) := if_pos rfl
      cases hr : x.1 j with
      | done a => rw [hr] at key; exact key (y := (y.1, (turn device j x).2)) rfl hk hv
      | fail e => rw [hr] at key; exact key (y := (y.1, (turn device j x).2)) rfl hk hv
      | tell next =>
        have := key (y := (y.1, (turn device j x).2)) rfl hk hv
        have e2 : (turn device j x).2 = ((x.1 j).step (device j) x.2).2 := rfl
        rw [e2, hr] at this
        unfold Reader.exec
        show ((next ((device j).tell (catchUp device j (j :: schedule) y).1.2).1).exec _ (((catchUp device j (j :: schedule) y).1.1,
          ((device j).tell (catchUp device j (j :: schedule) y).1.2).2), (catchUp device j (j :: schedule) y).2)).1 = v
        rw [hc, hw]
        exact this
      | seek q next =>
        have := key (y := (y.1, (turn device j x).2)) rfl hk hv
        have e2 : (turn device j x).2 = ((x.1 j).step (device j) x.2).2 := rfl
        rw [e2, hr] at this
        unfold Reader.exec
        show ((next ((device j).seek (catchUp device j (j :: schedule) y).1.2 q).1).exec _ (((catchUp device j (j :: schedule) y).1.1,
          ((device j).seek (catchUp device j (j :: schedule) y).1.2 q).2), (catchUp device j (j :: schedule) y).2)).1 = v
        rw [hc, hw]
        exact this
      | fetch n next =>
        have := key (y := (y.1, (turn device j x).2)) rfl hk hv
        have e2 : (turn device j x).2 = ((x.1 j).step (device j) x.2).2 := rfl
        rw [e2, hr] at this
        unfold Reader.exec
        show ((next ((device j).fetch (catchUp device j (j :: schedule) y).1.2 n).1).exec _ (((catchUp device j (j :: schedule) y).1.1,
          ((device j).fetch (catchUp device j (j :: schedule) y).1.2 n).2), (catchUp device j (j :: schedule) y).2)).1 = v
        rw [hc, hw]
        exact this
    · have e : (turn device j x).1 i = x.1 i := turn_other (Ne.symm hj) x
      have same : turn device j y = (fun k => if h : k = j then h ▸ ((x.1 j).step (device j) x.2).1 else y.1 k,
          (turn device j x).2) := by
        unfold turn
        rw [hy j hj, hw]
      have key := ih (x := turn device j x) (y := turn device j y) (by rw [same]) (fun k hk => by
        rw [same]
        show (if h : k = j then _ else y.1 k) = (if h : k = j then _ else x.1 k)
        split
        · rfl
        · exact hy k hk) hv
      rw [e] at key
      have hc : catchUp device i (j :: schedule) y = catchUp device i schedule (turn device j y) := if_neg hj
      cases hr : x.1 i with
      | done a => rw [hr] at key; exact key
      | fail a => rw [hr] at key; exact key
      | tell next =>
        rw [hr] at key
        unfold Reader.exec at key ⊢
        have : (around device i).tell (y, j :: schedule) = (around device i).tell (turn device j y, schedule) := by
          show (_, _) = (_, _)
          rw [hc]
        rw [this]
        exact key
      | seek q next =>
        rw [hr] at key
        unfold Reader.exec at key ⊢
        have : (around device i).seek (y, j :: schedule) q = (around device i).seek (turn device j y, schedule) q := by
          show (_, _) = (_, _)
          rw [hc]
        rw [this]
        exact key
      | fetch n next =>
        rw [hr] at key
        unfold Reader.exec at key ⊢
        have : (around device i).fetch (y, j :: schedule) n = (around device i).fetch (turn device j y, schedule) n := by
          show (_, _) = (_, _)
          rw [hc]
        rw [this]
        exact key

/-- Threads that read at the same time with handles that may share their position, or anything else: whatever the order in which
they have their turns, all that a thread gives satisfies what the reader promises, and it panics only if the reader may. -/
theorem C96_threads (device : Nat → Device W) (E : Err → Prop) (I : W → Prop) (h : ∀ i, Formed (device i) E I)
    (e : Nat → Prop) (P : ∀ i, α i → Prop) (r : ∀ i, Reader (α i)) (hr : ∀ i, StandsSharing (e i) (r i) (P i)) (w : W)
    (hw : I w) (schedule : List Nat) (i : Nat) :
    (∀ t, ((turns device schedule (r, w)).1 i).result = some (.ok t) → P i t) ∧
    (∀ m, ((turns device schedule (r, w)).1 i).result = some (.error (.panic m)) → e i ∨ E (.panic m)) := by
  obtain ⟨h1, h2, -⟩ := hr i _ (around device i) E _ (formed_around h i) ((r, w), schedule) hw
  exact ⟨fun t ht => h1 t (exec_around rfl (fun _ _ => rfl) ht), fun m hm => h2 m (exec_around rfl (fun _ _ => rfl) hm)⟩

end

/-- Two threads that read the same coverage table with two handles that share their position, three operations each in turn.
The first gets it right. The second gets glyphs from behind the table, though as many as it says. -/
example :
    let d := bytes [0, 1, 0, 2, 0, 7, 0, 8, 0, 9, 0, 10, 0, 11, 0, 12]
    let device := fun _ : Nat => shared (fun _ => d) fun _ p => p
    let result := fun i => ((turns (α := fun _ => Coverage) device (List.replicate 5 [0, 0, 0, 1, 1, 1]).flatten
      (fun _ => jump 0 >>= fun _ => Coverage.read, (0, 0))).1 i).result
    result 0 = some (.ok (.format1 ⟨1, 2, [7, 8]⟩)) ∧ result 1 = some (.ok (.format1 ⟨1, 2, [9, 10]⟩)) := by
  decide +kernel

/-- They meet what is required. -/
example : (∀ _ : Nat, Formed (shared (fun _ => bytes [0, 1, 0, 2, 0, 7, 0, 8, 0, 9, 0, 10, 0, 11, 0, 12]) fun _ p => p)
      (fun e => e = .eof ∨ e = .malformed "invalid argument") (fun s => s.1 < 2 ^ 63)) ∧
    (∀ _ : Nat, StandsSharing False (jump 0 >>= fun _ => Coverage.read) counted) :=
  ⟨fun _ => C96_shared _ _ (fun _ => by decide) (fun _ _ h => h),
    fun _ => StandsSharing.bind (P := fun _ => True) standsSharing fun _ _ => (C96_layout defaultCfg 0).1⟩

end OpenType.Props
