import Verif.Props.Changing
import Verif.Props.Growth
import Verif.Props.AskedFont
import Verif.Props.Work
/-! # C95: what others write elsewhere, or at other times, does not matter

A file whose content changes over time (`changing` in `Spec/Changing.lean`), each operation on the tape taking one unit of
it. -/

namespace OpenType.Props
open OpenType Spec coverage class_ correction context script feature lookup directory

/-- For as long as the reading takes, from the time `t` on, the byte at `x` is the one of `d`; be it that there is none. -/
def Kept {α : Type} (content : Nat → Data) (r : Reader α) (d : Data) (p t x : Nat) : Prop :=
  ∀ u, t ≤ u → u < t + r.operations d p → (content u)[x]? = d[x]?

/-- If during the reading no one changes the bytes that it asks for, then it has the outcome that it has on a file that
nobody changes, be it a value or an error, and takes the same time. After a success, the tape stands at the same place, too.
-/
def Undisturbed {α : Type} (r : Reader α) : Prop :=
  ∀ (content : Nat → Data) (d : Data) (p t : Nat),
    (∀ q n, (q, n) ∈ r.fetches d p → ∀ i < n, Kept content r d p t (q + i)) →
    (r.exec (changing content) (p, t)).1 = outcome (r d p) ∧
    (r.exec (changing content) (p, t)).2.2 = t + r.operations d p ∧
    ∀ a q, r d p = .ok (a, q) → (r.exec (changing content) (p, t)).2.1 = q

theorem undisturbed {α : Type} {r : Reader α} [h : Stops r] : Undisturbed r := by
  intro content d p t hk
  have hs := h.stops
  clear h
  show _ = outcome (r.run d p) ∧ _ ∧ ∀ a q, r.run d p = _ → _
  induction r generalizing p t with
  | done a => exact ⟨rfl, rfl, fun _ _ h => by cases h; rfl⟩
  | fail e => exact ⟨rfl, rfl, nofun⟩
  | tell next ih =>
    have := ih (.ok p) p (t + 1) (fun q n hq i hi u h1 h2 => hk q n hq i hi u (by omega) (by
      show u < t + (1 + (next (.ok p)).operations d p); omega)) (hs.2 p)
    refine ⟨this.1, this.2.1.trans ?_, this.2.2⟩
    show _ = t + (1 + (next (.ok p)).operations d p)
    omega
  | seek q next ih =>
    have := ih (.ok ()) q (t + 1) (fun q' n hq i hi u h1 h2 => hk q' n hq i hi u (by omega) (by
      show u < t + (1 + (next (.ok ())).operations d q); omega)) (hs.2 ())
    refine ⟨this.1, this.2.1.trans ?_, this.2.2⟩
    show _ = t + (1 + (next (.ok ())).operations d q)
    omega
  | fetch n next ih =>
    have he : (Reader.fetch n next).operations d p = 1 + (next (Reader.slice d p n)).operations d (p + n) := rfl
    have same : Reader.slice (content t) p n = Reader.slice d p n := slice_agree fun i h1 h2 => by
      have := hk p n (List.mem_cons_self ..) (i - p) (by omega) t (Nat.le_refl _) (by omega)
      rwa [show p + (i - p) = i by omega] at this
    have hf : (changing content).fetch (p, t) n = if n = 0 ∨ p + n ≤ (content t).length then
        (.ok (((content t).drop p).take n), (p + n, t + 1)) else (.error .eof, (p, t + 1)) := rfl
    have hsl : Reader.slice (content t) p n = if n = 0 ∨ p + n ≤ (content t).length then
        .ok (((content t).drop p).take n) else .error .eof := rfl
    show ((next ((changing content).fetch (p, t) n).1).exec _ ((changing content).fetch (p, t) n).2).1 =
      outcome ((next (Reader.slice d p n)).run d (p + n)) ∧
      ((next ((changing content).fetch (p, t) n).1).exec _ ((changing content).fetch (p, t) n).2).2.2 = _ ∧
      ∀ a q, (next (Reader.slice d p n)).run d (p + n) = _ →
        ((next ((changing content).fetch (p, t) n).1).exec _ ((changing content).fetch (p, t) n).2).2.1 = q
    rw [hf]
    by_cases hn : n = 0 ∨ p + n ≤ (content t).length
    · rw [if_pos hn] at hsl ⊢
      rw [← hsl, same]
      rw [same] at hsl
      have hs' : (next (Reader.slice d p n)).Stops := by rw [hsl]; exact hs.2 _
      have := ih (Reader.slice d p n) (p + n) (t + 1) (fun q m hq i hi u h1 h2 =>
        hk q m (List.mem_cons_of_mem _ hq) i hi u (by omega) (by omega)) hs'
      exact ⟨this.1, this.2.1.trans (by omega), this.2.2⟩
    · rw [if_neg hn] at hsl ⊢
      rw [← same, hsl] at he ⊢
      have e : next (.error .eof) = .fail .eof := hs.1 _
      rw [he]
      dsimp only
      rw [e]
      exact ⟨rfl, rfl, nofun⟩

theorem Undisturbed.bind {α β : Type} {r : Reader α} {f : α → Reader β} (hr : Undisturbed r)
    (hf : ∀ a, Undisturbed (f a)) : Undisturbed (r >>= f) := by
  intro content d p t hk
  have ho : (r >>= f).operations d p = r.operations d p + match r d p with
      | .ok (a, q) => (f a).operations d q
      | .error _ => 0 := operations_bind
  unfold Kept at hk
  rw [ho, fetches_bind] at hk
  have ⟨h1, h2, h3⟩ := hr content d p t fun q n hq i hi u hu hu' =>
    hk q n (List.mem_append_left _ hq) i hi u hu (by omega)
  rw [exec_bind, run_bind_eq, ho]
  rcases hx : r.exec (changing content) (p, t) with ⟨x, q', t'⟩
  rw [hx] at h1 h2 h3
  cases hy : r d p with
  | error e =>
    rw [hy] at h1
    cases (h1 : x = .error e)
    exact ⟨rfl, h2, nofun⟩
  | ok v =>
    obtain ⟨a, q⟩ := v
    rw [hy] at h1 hk
    cases (h1 : x = .ok a)
    cases (h3 a q hy : q' = q)
    cases (h2 : t' = _)
    have ⟨h4, h5, h6⟩ := hf a content d q' (t + r.operations d p) fun q n hq i hi u hu hu' =>
      hk q n (List.mem_append_right _ hq) i hi u (by omega) (by dsimp only; omega)
    exact ⟨h4, h5.trans (by simp only; omega), h6⟩

/-- All of the readers of the crate. -/
theorem C95_quiet (cfg : Cfg) (n : Nat) (accept : Tag → Bool) (record : offsets.Record) :
    Undisturbed (File.read accept) ∧ Undisturbed (Font.read accept) ∧ Undisturbed (tableChecksum record) ∧
    Undisturbed (gsub.GlyphSubstitution.read cfg) ∧ Undisturbed (gpos.GlyphPositioning.read cfg) ∧
    Undisturbed (gdef.GlyphDefinition.read cfg) ∧ Undisturbed cpal.ColorPalettes.read ∧
    Undisturbed (fvar.FontVariations.read cfg) ∧ Undisturbed (item.Store.read cfg) ∧
    Undisturbed Coverage.read ∧ Undisturbed Class.read ∧ Undisturbed Correction.read ∧ Undisturbed Context.read ∧
    Undisturbed ChainedContext.read ∧ Undisturbed Scripts.read ∧ Undisturbed Features.read ∧
    Undisturbed feature.Variations.read ∧
    Undisturbed (gsub.Type_.read n) ∧ Undisturbed (gpos.Type_.read cfg n) := by
  refine ⟨?_, ?_, ?_, ?_, ?_, ?_, ?_, ?_, ?_, ?_, ?_, ?_, ?_, ?_, ?_, ?_, ?_, ?_, ?_⟩
  all_goals exact undisturbed

/-- Taking a table with a reader like that, be it one of the crate or not. -/
theorem C95_take {α P : Type} (cfg : Cfg) (font : Font) (table : TableType) :
    Undisturbed (font.position cfg tableChecksum table) ∧
    (∀ r : Reader α, Undisturbed r → Undisturbed (font.take cfg tableChecksum table r)) ∧
    (∀ (r : P → Reader α) (parameter : P), Undisturbed (r parameter) →
      Undisturbed (font.take_given cfg tableChecksum table r parameter)) := by
  have key : ∀ r : Reader α, Undisturbed r → Undisturbed (font.take cfg tableChecksum table r) := by
    intro r hr
    refine .bind undisturbed fun x => ?_
    cases x with
    | none => exact undisturbed
    | some _ => exact .bind hr fun _ => undisturbed
  exact ⟨undisturbed, key, fun r parameter hr => key _ hr⟩

/-- Lookups and directories with subtables of one's own. -/
theorem C95_layout {T : Type} (cfg : Cfg) (readTable : Nat → Reader T) (h : ∀ t, Undisturbed (readTable t)) :
    ForLayout Undisturbed cfg readTable :=
  have hs : Sequential Undisturbed := ⟨fun _ _ => undisturbed, fun h hf => h.bind hf⟩
  ⟨hs.record h, hs.lookups h, hs.directory h⟩

/-- A file that is not changed while it is read, whatever happens before and after. -/
theorem C95_still {α : Type} {r : Reader α} (h : Undisturbed r) (content : Nat → Data) (d : Data) (p t : Nat)
    (hc : ∀ u, t ≤ u → u < t + r.operations d p → content u = d) :
    (r.exec (changing content) (p, t)).1 = outcome (r d p) :=
  (h content d p t fun _ _ _ _ _ u h1 h2 => by rw [hc u h1 h2]).1

/-- If during the reading no one changes the bytes that the value is made of, `encode v` (`Spec/Encode.lean`), then it is this
value that is read, whatever happens to all the others. -/
def OwnBytesMatter {α : Type} (r : Reader α) (encode : α → List Chunk) : Prop :=
  ∀ (content : Nat → Data) (d : Data) (p t : Nat) (v : α), Fits d → Reads r d p v →
    (∀ c ∈ encode v, ∀ i < c.2.length, Kept content r d p t (p + c.1 + i)) →
    (r.exec (changing content) (p, t)).1 = .ok v

theorem Undisturbed.own {α : Type} {r : Reader α} {encode : α → List Chunk} (h : Undisturbed r)
    (ha : AsksForOwnBytes r encode) : OwnBytesMatter r encode := by
  intro content d p t v hd hv hk
  have key := (h content d p t fun q n hq i hi => by
    obtain ⟨c, hc, h1, h2⟩ := (ha d p v hd hv (q + i)).mp ⟨q, n, hq, by omega, by omega⟩
    have := hk c hc (q + i - (p + c.1)) (by omega)
    rwa [show p + c.1 + (q + i - (p + c.1)) = q + i by omega] at this).1
  obtain ⟨q, hv⟩ := hv
  rw [key, hv]
  rfl

/-- The tables. -/
theorem C95_tables (cfg : Cfg) :
    OwnBytesMatter (gsub.GlyphSubstitution.read cfg) (directoryEncoding cfg) ∧
    OwnBytesMatter (gpos.GlyphPositioning.read cfg) (directoryEncoding cfg) ∧
    OwnBytesMatter (gdef.GlyphDefinition.read cfg) gdefEncodingTaken ∧
    OwnBytesMatter cpal.ColorPalettes.read encoding ∧
    OwnBytesMatter (fvar.FontVariations.read cfg) encoding ∧
    OwnBytesMatter (item.Store.read cfg) encoding :=
  have ⟨h1, h2, h3, h4, h5, h6⟩ := C91_tables cfg
  ⟨undisturbed.own h1, undisturbed.own h2, undisturbed.own h3, undisturbed.own h4, undisturbed.own h5, undisturbed.own h6⟩

/-- The parts of the layout tables, taken on their own. -/
theorem C95_parts (cfg : Cfg) (type_ : Nat) :
    OwnBytesMatter Coverage.read encoding ∧ OwnBytesMatter Class.read encoding ∧
    OwnBytesMatter Correction.read encoding ∧ OwnBytesMatter Context.read encoding ∧
    OwnBytesMatter ChainedContext.read encoding ∧ OwnBytesMatter Scripts.read encoding ∧
    OwnBytesMatter Features.read encoding ∧
    OwnBytesMatter (gsub.Type_.read type_) encoding ∧ OwnBytesMatter (gpos.Type_.read cfg type_) encoding :=
  have ⟨h1, h2, h3, h4, h5, h6, h7, h8, h9⟩ := C91_layout cfg type_
  ⟨undisturbed.own h1, undisturbed.own h2, undisturbed.own h3, undisturbed.own h4, undisturbed.own h5, undisturbed.own h6,
    undisturbed.own h7, undisturbed.own h8, undisturbed.own h9⟩

/-- Opening a file: what matters is the directory. -/
theorem C95_open (accept : Tag → Bool) (content : Nat → Data) (d : Data) (p t : Nat) (font : Font)
    (h : Reads (File.read accept) d p ⟨[font]⟩)
    (hk : ∀ i < 12 + 16 * font.offsets.records.length, Kept content (File.read accept) d p t (p + i)) :
    ((File.read accept).exec (changing content) (p, t)).1 = .ok ⟨[font]⟩ := by
  obtain ⟨q, h⟩ := h
  obtain ⟨font', e, ha⟩ := C91_file accept d p q _ h
  cases e
  have key := (undisturbed (r := File.read accept) content d p t fun y n hq i hi => by
    have := (ha (y + i)).mp ⟨y, n, hq, by omega, by omega⟩
    have hx := hk (y + i - p) (by omega)
    rwa [show p + (y + i - p) = y + i by omega] at hx).1
  rw [key, h]
  rfl

/-- Taking a table of a font: what matters are the bytes the table is made of and, if the build tests checksums, the words of
the table. -/
theorem C95_taken {α : Type} (cfg : Cfg) (font : Font) (table : TableType) (record : offsets.Record) {r : Reader α}
    {encode : α → List Chunk} (hr : Undisturbed r) (ha : AsksForOwnBytes r encode) (content : Nat → Data) (d : Data)
    (p t : Nat) (v : α) (hd : Fits d) (hf : FirstWith table.tag font.offsets.records record)
    (h : Reads (font.take cfg tableChecksum table r) d p (some v))
    (hw : cfg.ignoreInvalidChecksums = false → ∀ i < 4 * ((record.size + 3) / 4),
      Kept content (font.take cfg tableChecksum table r) d p t (record.offset + i))
    (hk : ∀ c ∈ encode v, ∀ i < c.2.length,
      Kept content (font.take cfg tableChecksum table r) d p t (record.offset + c.1 + i)) :
    ((font.take cfg tableChecksum table r).exec (changing content) (p, t)).1 = .ok (some v) := by
  have key := ((C95_take (P := Unit) cfg font table).2.1 r hr content d p t fun y n hq i hi => by
    rcases (C91_take cfg font table record ha d p v hd hf h (y + i)).mp ⟨y, n, hq, by omega, by omega⟩ with
      ⟨h1, h2, h3⟩ | ⟨c, hc, h2, h3⟩
    · have hx := hw h1 (y + i - record.offset) (by omega)
      rwa [show record.offset + (y + i - record.offset) = y + i by omega] at hx
    · have hx := hk c hc (y + i - (record.offset + c.1)) (by omega)
      rwa [show record.offset + c.1 + (y + i - (record.offset + c.1)) = y + i by omega] at hx).1
  obtain ⟨q, h⟩ := h
  rw [key, h]
  rfl

/-- The palettes of C91 in a file where, from the time `1` on, the four bytes that nothing refers to are others, and more and
more bytes are appended: reading them takes nineteen operations, and gives what it gives at the time `0`. -/
example :
    let content (t : Nat) := if t = 0 then gappedPalettes else
      ((gappedPalettes.set 14 7).set 17 7) ++ List.replicate t 9
    let v : cpal.ColorPalettes := ⟨.version0 ⟨0, 2, 1, 2, 18, [0]⟩, [⟨1, 2, 3, 4⟩, ⟨5, 6, 7, 8⟩]⟩
    Reads cpal.ColorPalettes.read gappedPalettes 0 v ∧
    (cpal.ColorPalettes.read.exec (changing content) (0, 0)).1 = .ok v ∧
    (∀ c ∈ encoding v, ∀ i < c.2.length, Kept content cpal.ColorPalettes.read gappedPalettes 0 0 (0 + c.1 + i)) := by
  refine ⟨by decide +kernel, by decide +kernel, ?_⟩
  have : ∀ u < cpal.ColorPalettes.read.operations gappedPalettes 0, ∀ c ∈ encoding (α := cpal.ColorPalettes)
      ⟨.version0 ⟨0, 2, 1, 2, 18, [0]⟩, [⟨1, 2, 3, 4⟩, ⟨5, 6, 7, 8⟩]⟩, ∀ i < c.2.length,
      (if u = 0 then gappedPalettes else ((gappedPalettes.set 14 7).set 17 7) ++ List.replicate u 9)[0 + c.1 + i]? =
        gappedPalettes[0 + c.1 + i]? := by decide +kernel
  exact fun c hc i hi u _ h => this u (by omega) c hc i hi

/-- A font whose palettes are taken while the file is rewritten around them: the directory is gone, and so are the two bytes
between this table and a next one. The latter are part of the last word of the table. So it is all the same only for a build
that does not test checksums. -/
example :
    let content (t : Nat) := if t = 0 then gappedFont else
      List.replicate 28 0 ++ (gappedFont.drop 28).take 26 ++ List.replicate 100 1
    let v : cpal.ColorPalettes := ⟨.version0 ⟨0, 2, 1, 2, 18, [0]⟩, [⟨1, 2, 3, 4⟩, ⟨5, 6, 7, 8⟩]⟩
    let take (cfg : Cfg) := gappedDirectory.take cfg tableChecksum .colorPalettes cpal.ColorPalettes.read
    ((take { defaultCfg with ignoreInvalidChecksums := true }).exec (changing content) (28, 0)).1 = .ok (some v) ∧
    Reads (take defaultCfg) gappedFont 28 (some v) ∧
    ((take defaultCfg).exec (changing content) (28, 0)).1 =
      .error (.malformed ⟨"found a malformed font table with", [TableType.colorPalettes.tag]⟩) := by
  decide +kernel

end OpenType.Props
