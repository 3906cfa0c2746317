import Verif.Proof.CalmTables
import Verif.Props.Partly
/-! # C93: reading files that others write to

Whatever the tape gives when bytes are asked for (`Spec/Changing.lean`). -/

namespace OpenType.Props
open OpenType Spec coverage class_ correction context script feature lookup directory

/-- On a tape that answers requests with any bytes at all, the same request with other bytes each time, and that may
fail at any time: all that the reader gives satisfies `P`, and it panics only if `e`, unless the tape itself does. The
tape remains one that can be used. -/
def StandsChange (e : Prop) {α : Type} (r : Reader α) (P : α → Prop) : Prop :=
  ∀ (σ : Type) (device : Device σ) (E : Err → Prop) (stands : σ → Nat → Prop), Answers device E stands →
    ∀ s p, stands s p →
      (∀ t, (r.exec device s).1 = .ok t → P t) ∧
      (∀ m, (r.exec device s).1 = .error (.panic m) → e ∨ E (.panic m)) ∧
      ∃ q, stands (r.exec device s).2 q

theorem standsChange {e : Prop} {α : Type} {r : Reader α} {P : α → Prop} [h : Calm ⟨e, 0⟩ r P] [hr : Stops r] :
    StandsChange e r P := by
  intro σ device E stands ha s p hs
  have key := exec_calmly ha hr.stops hs rfl (h.calm p)
  rcases hx : r.exec device s with ⟨_ | _, s'⟩ <;> rw [hx] at key
  · exact ⟨nofun, fun m hm => by cases hm; exact key.1.elim .inr fun h => .inl (h m rfl), key.2⟩
  · exact ⟨fun t ht => by cases ht; exact key.1, nofun, key.2⟩

/-- A file whose content changes over time in whatever way is such a tape; its errors are that the data end. -/
theorem C93_changing (content : Nat → Data) (h : ∀ t, Fits (content t)) :
    Answers (changing content) (fun e => e = .eof) (fun s p => s.1 = p) where
  tell := by
    rintro ⟨_, t⟩ p rfl
    exact ⟨rfl, rfl⟩
  seek := by
    rintro ⟨_, t⟩ p q rfl
    exact rfl
  fetch := by
    rintro ⟨q, t⟩ p n rfl
    have hf : (changing content).fetch (q, t) n = if n = 0 ∨ q + n ≤ (content t).length then
        (.ok (((content t).drop q).take n), (q + n, t + 1)) else (.error .eof, (q, t + 1)) := rfl
    rw [hf]
    by_cases hn : n = 0 ∨ q + n ≤ (content t).length
    · rw [if_pos hn]
      have := h t
      unfold Fits at this
      refine ⟨?_, by omega, rfl⟩
      rw [List.length_take, List.length_drop]
      omega
    · rw [if_neg hn]
      exact ⟨rfl, _, rfl⟩

/-- The tables: whatever they give, all counts in it equal the lengths of the lists they belong to (`Spec/Counts.lean`). They do
not panic, except that the item variation store, which the glyph definition refers to, can if the build has overflow checks
(C39). -/
theorem C93_tables (cfg : Cfg) :
    StandsChange False (gsub.GlyphSubstitution.read cfg) counted ∧
    StandsChange False (gpos.GlyphPositioning.read cfg) counted ∧
    StandsChange (cfg.overflowChecks = true) (gdef.GlyphDefinition.read cfg) counted ∧
    StandsChange False cpal.ColorPalettes.read counted ∧
    StandsChange False (fvar.FontVariations.read cfg) counted ∧
    StandsChange (cfg.overflowChecks = true) (item.Store.read cfg) counted :=
  ⟨standsChange, standsChange, standsChange, standsChange, standsChange, standsChange⟩

/-- The parts of the layout tables, taken on their own. -/
theorem C93_layout (cfg : Cfg) (type_ : Nat) :
    StandsChange False Coverage.read counted ∧ StandsChange False Class.read counted ∧
    StandsChange False Correction.read (fun _ => True) ∧ StandsChange False Context.read counted ∧
    StandsChange False ChainedContext.read counted ∧ StandsChange False Scripts.read counted ∧
    StandsChange False Features.read counted ∧
    StandsChange False (gsub.Type_.read type_) counted ∧ StandsChange False (gpos.Type_.read cfg type_) counted :=
  ⟨standsChange, standsChange, standsChange, standsChange, standsChange, standsChange, standsChange, standsChange,
    standsChange⟩

section
attribute [local irreducible] u16 u32 takeTag takeVec raiseIf stay raise

instance {e : Mood} : Calm e offsets.Record.read (fun _ => True) := by calm offsets.Record.read
instance {e : Mood} {accept : Tag → Bool} : Calm e (offsets.Header.read accept) (fun _ => True) := by
  calm offsets.Header.read
instance {e : Mood} {accept : Tag → Bool} :
    Calm e (offsets.Offsets.read accept) (fun t => t.records.length = t.header.table_count) := by
  calm offsets.Offsets.read
instance {e : Mood} {accept : Tag → Bool} :
    Calm e (Font.read accept) (fun t => t.offsets.records.length = t.offsets.header.table_count) := by
  calm Font.read
instance {e : Mood} {accept : Tag → Bool} : Calm e (File.read accept) (fun t => ∃ font, t.fonts = [font] ∧
    font.offsets.records.length = font.offsets.header.table_count) := by
  constructor
  intro p
  unfold File.read
  refine calm_bind (calm_stay (Calm.calm (r := takeTag))) fun _ _ _ => ?_
  calm_step
  refine calm_bind (Calm.calm _) fun font _ h => calm_pure ⟨font, rfl, h⟩

end

instance {e : Mood} {skip : Nat → Bool} {i n : Nat} : Calm e (sumWords skip i n) (fun _ => True) := by
  induction n generalizing i with
  | zero => exact ⟨fun _ => calm_pure trivial⟩
  | succ n ih =>
    exact ⟨fun _ => calm_bind calm_u32 fun _ _ _ => calm_bind (ih.calm _) fun _ _ _ => calm_pure trivial⟩

instance {e : Mood} {record : offsets.Record} : Calm e (tableChecksum record) (fun _ => True) :=
  ⟨fun _ => calm_stay fun _ => (calm_bind_jump (Calm.calm _))⟩

instance {e : Mood} {cfg : Cfg} {font : Font} {table : TableType} :
    Calm e (font.position cfg tableChecksum table) (fun _ => True) := by
  unfold Font.position
  induction font.offsets.records with
  | nil => exact ⟨fun _ => calm_pure trivial⟩
  | cons record records ih =>
    unfold Font.positionIn
    split
    · split
      · exact ⟨fun _ => calm_bind (Calm.calm _) fun _ _ _ => calm_bind calm_raiseIf fun _ _ _ =>
          calm_bind_jump (calm_pure trivial)⟩
      · exact ⟨fun _ => calm_bind_jump (calm_pure trivial)⟩
    · exact ih

/-- Opening a file gives one font, with as many records of tables as it says. -/
theorem C93_open (accept : Tag → Bool) :
    StandsChange False (File.read accept) (fun t => ∃ font, t.fonts = [font] ∧
      font.offsets.records.length = font.offsets.header.table_count) := standsChange

/-- Taking a table of a font, whichever directory was read and whichever reader is used. -/
theorem C93_take {e : Prop} {α : Type} (cfg : Cfg) (font : Font) (table : TableType) {r : Reader α} {P : α → Prop}
    (h : StandsChange e r P) :
    StandsChange e (font.take cfg tableChecksum table r) (fun t => ∀ x, t = some x → P x) := by
  intro σ device E stands ha s p hs
  obtain ⟨-, h2, q, h3⟩ := standsChange (e := e) (r := font.position cfg tableChecksum table) σ device E stands ha s p hs
  have split := exec_bind (device := device) (r := font.position cfg tableChecksum table) (s := s)
    (f := fun x => match x with
      | some _ => r >>= fun x => pure (some x)
      | none => pure none)
  have : font.take cfg tableChecksum table r = (font.position cfg tableChecksum table >>= fun x => match x with
      | some _ => r >>= fun x => pure (some x)
      | none => pure none) := rfl
  rw [this, split]
  rcases hx : (font.position cfg tableChecksum table).exec device s with ⟨x | _ | _, s'⟩ <;> rw [hx] at h2 h3
  · exact ⟨nofun, fun m hm => by cases hm; exact h2 m rfl, q, h3⟩
  · exact ⟨fun t ht => by cases ht; exact nofun, nofun, q, h3⟩
  · obtain ⟨h4, h5, q', h6⟩ := h σ device E stands ha s' q h3
    dsimp only
    rw [exec_bind]
    rcases hy : r.exec device s' with ⟨y | t, s''⟩ <;> rw [hy] at h4 h5 h6
    · exact ⟨nofun, fun m hm => by cases hm; exact h5 m rfl, q', h6⟩
    · exact ⟨fun t ht => by cases ht; rintro _ ⟨⟩; exact h4 _ rfl, nofun, q', h6⟩

/-- A coverage table in a file that is rewritten after its format is looked at: there are glyphs `7` and `8` in it, and later a
range. What is read is neither of the two, and it is not a coverage table of any file: its format is not the one it has.
Still it has as many glyphs as it says. -/
example :
    let content (t : Nat) := if t < 3 then bytes [0, 1, 0, 2, 0, 7, 0, 8] else bytes [0, 2, 0, 1, 0, 3, 0, 9, 0, 0]
    (Coverage.read.exec (changing content) (0, 0)).1 = .ok (.format1 ⟨2, 1, [3]⟩) ∧
    (Coverage.read.exec (changing content) (0, 3)).1 = .ok (.format2 ⟨2, 1, [⟨3, 9, 0⟩]⟩) ∧
    ∀ d p, Fits d → ¬Reads Coverage.read d p (.format1 ⟨2, 1, [3]⟩) :=
  ⟨by decide +kernel, by decide +kernel, fun _ _ hd h =>
    absurd ((Parses.reads (S := IsCoverage) hd).mp h).1 (by decide : ¬(2 : Nat) = 1)⟩

/-- A file that becomes shorter while the glyphs are read. -/
example : (Coverage.read.exec (changing fun t => if t < 5 then bytes [0, 1, 0, 2, 0, 7, 0, 8] else []) (0, 0)).1 =
    .error .eof := by decide +kernel

/-- Testing checksums does not help: the palettes of C91, where a color changes between the test and the reading. The table
that is read does not have the checksum it should have, and taking it again fails. -/
example :
    let content (t : Nat) := if t < 10 then gappedFont else gappedFont.set 53 9
    let take := gappedDirectory.take defaultCfg tableChecksum .colorPalettes cpal.ColorPalettes.read
    (take.exec (changing content) (28, 0)).1 =
      .ok (some ⟨.version0 ⟨0, 2, 1, 2, 18, [0]⟩, [⟨1, 2, 3, 4⟩, ⟨5, 6, 7, 9⟩]⟩) ∧
    Refuses (take (gappedFont.set 53 9) 28) :=
  ⟨by decide +kernel, ⟨"found a malformed font table with", [TableType.colorPalettes.tag]⟩, by decide +kernel⟩

end OpenType.Props
