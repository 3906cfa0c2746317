import Verif.Props.Asked
import Verif.Props.Font
/-! # C91 for files and fonts -/

namespace OpenType.Props
open OpenType Spec offsets

/-- A reader that never goes elsewhere. -/
def Flat {α : Type} : Reader α → Prop
  | .done _ => True
  | .fail _ => True
  | .tell next => ∀ p, Flat (next p)
  | .seek _ _ => False
  | .fetch _ next => ∀ b, Flat (next b)

theorem Flat.bind {α β : Type} {r : Reader α} {f : α → Reader β} (hr : Flat r) (hf : ∀ a, Flat (f a)) :
    Flat (r >>= f) := by
  show Flat (Reader.bind r f)
  induction r with
  | done a => exact hf a
  | fail e => trivial
  | tell next ih => exact fun p => ih p (hr p)
  | seek q next ih => exact hr.elim
  | fetch n next ih => exact fun b => ih b (hr b)

/-- It asks for every byte from where it starts to where it ends. -/
theorem Flat.asked {α : Type} {r : Reader α} (hr : Flat r) {d : Data} {p q : Nat} {a : α} (h : r d p = .ok (a, q)) :
    p ≤ q ∧ ∀ x, Asked r d p x ↔ p ≤ x ∧ x < q := by
  induction r generalizing p with
  | done b =>
    cases h
    refine ⟨Nat.le_refl _, fun x => ⟨?_, fun h => by omega⟩⟩
    rintro ⟨_, _, h, _⟩
    cases h
  | fail e => cases h
  | tell next ih => exact ih _ (hr _) h
  | seek s next ih => exact hr.elim
  | fetch n next ih =>
    obtain ⟨h1, h2⟩ := ih _ (hr _) h
    refine ⟨by omega, fun x => ?_⟩
    have e : Asked (.fetch n next) d p x ↔ (p ≤ x ∧ x < p + n) ∨ Asked (next (Reader.slice d p n)) d (p + n) x := by
      constructor
      · rintro ⟨y, m, hm, hx⟩
        rcases List.mem_cons.mp hm with e | hm
        · cases e
          exact .inl hx
        · exact .inr ⟨y, m, hm, hx⟩
      · rintro (hx | ⟨y, m, hm, hx⟩)
        · exact ⟨p, n, .head _, hx⟩
        · exact ⟨y, m, .tail _ hm, hx⟩
    rw [e, h2]
    omega

theorem flat_fetch {α : Type} {n : Nat} {f : List UInt8 → α} :
    Flat (Reader.fetch n fun bytes => .ofResult (bytes.map f)) := by
  intro b
  cases b <;> trivial

theorem flat_u16 : Flat u16 := flat_fetch
theorem flat_u32 : Flat u32 := flat_fetch

theorem flat_raiseIf {c : Prop} [Decidable c] {m : Message} : Flat (raiseIf c m) := by
  unfold raiseIf
  split <;> trivial

theorem flat_takeVec {α : Type} {r : Reader α} (hr : Flat r) {n : Nat} : Flat (takeVec r n) := by
  induction n with
  | zero => trivial
  | succ n ih => exact hr.bind fun _ => ih.bind fun _ => trivial

theorem flat_font (accept : Tag → Bool) : Flat (Font.read accept) := by
  refine Flat.bind (Flat.bind ?_ fun _ => Flat.bind (flat_takeVec ?_) fun _ => trivial) fun _ => trivial
  · exact flat_u32.bind fun _ => flat_raiseIf.bind fun _ => flat_u16.bind fun _ => flat_u16.bind fun _ =>
      flat_u16.bind fun _ => flat_u16.bind fun _ => trivial
  · exact flat_u32.bind fun _ => flat_u32.bind fun _ => flat_u32.bind fun _ => flat_u32.bind fun _ => trivial

instance {accept : Tag → Bool} : Spans (Header.read accept) fun t => enc32 t.version ++ enc16 t.table_count ++
    enc16 t.search_range ++ enc16 t.entry_selector ++ enc16 t.range_shift := by asks Header.read
instance : Spans Record.read fun t => enc32 t.tag ++ enc32 t.checksum ++ enc32 t.offset ++ enc32 t.size := by
  asks Record.read

theorem font_ends {accept : Tag → Bool} {d : Data} {p q : Nat} {font : Font} (h : Font.read accept d p = .ok (font, q)) :
    q = p + 12 + 16 * font.offsets.records.length := by
  have : Track d (fun _ => False) (Font.read accept) p (fun font q => q = p + 12 + 16 * font.offsets.records.length)
      fun _ _ _ => True := by
    refine track_bind (r := Offsets.read accept) (Q' := fun t q => q = p + 12 + 16 * t.records.length)
      (G' := fun _ _ _ => True) ?_ fun _ _ hq => track_pure hq fun _ _ => trivial
    refine track_step fun _ _ h1 => track_step fun rs _ h2 => track_pure ?_ fun _ _ => trivial
    have e : ∀ rs : List Record, (rs.flatMap fun t : Record => enc32 t.tag ++ enc32 t.checksum ++ enc32 t.offset ++
        enc32 t.size).length = 16 * rs.length := by
      intro rs
      induction rs with
      | nil => rfl
      | cons t rs ih =>
        rw [List.flatMap_cons, List.length_append, ih, List.length_cons]
        simp only [List.length_append, length_enc32]
        omega
    rw [e] at h2
    simp only [List.length_append, length_enc32, length_enc16] at h1
    dsimp only
    omega
  exact (this font q h).1

/-- Reading a font asks for the bytes of the directory, and for no others. -/
theorem C91_font (accept : Tag → Bool) (d : Data) (p q : Nat) (font : Font) (h : Font.read accept d p = .ok (font, q)) (x : Nat) :
    (∃ y n, (y, n) ∈ (Font.read accept).fetches d p ∧ y ≤ x ∧ x < y + n) ↔
      p ≤ x ∧ x < p + 12 + 16 * font.offsets.records.length := by
  rw [← font_ends h]
  exact ((flat_font accept).asked h).2 x

theorem asked_stay {α : Type} {r : Reader α} {d : Data} {p q x : Nat} {a : α} (h : r d p = .ok (a, q)) :
    Asked (stay r) d p x ↔ Asked r d p x := by
  show Asked (r >>= fun a => jump p >>= fun _ => pure a) d p x ↔ _
  rw [asked_bind h, or_iff_left_iff_imp]
  rintro ⟨_, _, h, _⟩
  cases h

theorem ok_bind {α β : Type} {r : Reader α} {f : α → Reader β} {d : Data} {p q : Nat} {b : β}
    (h : (r >>= f) d p = .ok (b, q)) : ∃ a m, r d p = .ok (a, m) ∧ f a d m = .ok (b, q) := by
  rw [run_bind_eq] at h
  cases e : r d p with
  | error e' => rw [e] at h; cases h
  | ok v =>
    obtain ⟨a, m⟩ := v
    rw [e] at h
    exact ⟨a, m, rfl, h⟩

theorem ok_stay {α : Type} {r : Reader α} {d : Data} {p q : Nat} {a : α} (h : stay r d p = .ok (a, q)) :
    q = p ∧ ∃ m, r d p = .ok (a, m) := by
  rw [run_stay_eq] at h
  split at h
  · next m e => cases h; exact ⟨rfl, m, e⟩
  · cases h

theorem ok_raiseIf {c : Prop} [Decidable c] {m : Message} {d : Data} {p q : Nat} {u : Unit}
    (h : raiseIf c m d p = .ok (u, q)) : q = p ∧ ¬c := by
  unfold raiseIf at h
  split at h
  · cases h
  · next hc => cases h; exact ⟨rfl, hc⟩

/-- The same for a file. -/
theorem C91_file (accept : Tag → Bool) (d : Data) (p q : Nat) (file : File) (h : File.read accept d p = .ok (file, q)) :
    ∃ font, file.fonts = [font] ∧ ∀ x, (∃ y n, (y, n) ∈ (File.read accept).fetches d p ∧ y ≤ x ∧ x < y + n) ↔
      p ≤ x ∧ x < p + 12 + 16 * font.offsets.records.length := by
  obtain ⟨tag, m, h1, h2⟩ := ok_bind h
  obtain ⟨u, m', h3, h4⟩ := ok_bind h2
  obtain ⟨font, q', h5, h6⟩ := ok_bind h4
  obtain ⟨e3, _⟩ := ok_raiseIf h3
  obtain ⟨e1, s, h7⟩ := ok_stay h1
  rw [e3] at h3 h5
  rw [e1] at h1 h3 h5
  cases h6
  refine ⟨font, rfl, fun x => ?_⟩
  have ht : Asked (peek takeTag) d p x ↔ p ≤ x ∧ x < p + 4 := by
    have e : s = p + 4 := ((inferInstance : Spans takeTag enc32).track _ _ h7).1
    rw [← e]
    exact (asked_stay h7).trans ((flat_u32.asked h7).2 x)
  show Asked (File.read accept) d p x ↔ _
  unfold File.read
  rw [asked_bind h1, asked_bind h3, asked_bind h5, ht]
  have hf := C91_font accept d p _ font h5 x
  have hn : ∀ {α : Type} {e : Reader α} {p : Nat}, e.fetches d p = [] → ¬Asked e d p x := by
    rintro α e p he ⟨_, _, h, _⟩
    rw [he] at h
    cases h
  have e1 : ¬Asked (raiseIf (tag = tag4 't' 't' 'c' 'f')
      "found a TrueType collection, which is not supported yet") d p x := by
    refine hn ?_
    unfold raiseIf
    split <;> rfl
  have e2 : ¬Asked (pure { fonts := [font] } : Reader File) d q x := hn rfl
  constructor
  · rintro (hx | hx | hx | hx)
    · omega
    · exact (e1 hx).elim
    · exact hf.mp hx
    · exact (e2 hx).elim
  · exact fun hx => .inr (.inr (.inl (hf.mpr hx)))

theorem flat_sumWords {skip : Nat → Bool} {i n : Nat} : Flat (sumWords skip i n) := by
  induction n generalizing i with
  | zero => trivial
  | succ n ih => exact flat_u32.bind fun _ => ih.bind fun _ => trivial

theorem sumWords_ends {skip : Nat → Bool} {i n : Nat} {d : Data} {p : Nat} :
    Track d (fun _ => False) (sumWords skip i n) p (fun _ q => q = p + 4 * n) fun _ _ _ => True := by
  induction n generalizing i p with
  | zero => exact track_pure rfl fun _ _ => trivial
  | succ n ih =>
    refine track_step fun w q hq => track_bind ih fun s m hm => track_pure ?_ fun _ _ => trivial
    simp only [length_enc32] at hq
    omega

/-- Computing a checksum asks for the words of the table. -/
theorem asked_checksum {record : Record} {d : Data} {p q s : Nat} (h : tableChecksum record d p = .ok (s, q)) {x : Nat} :
    Asked (tableChecksum record) d p x ↔ record.offset ≤ x ∧ x < record.offset + 4 * ((record.size + 3) / 4) := by
  obtain ⟨rfl, m, h⟩ := ok_stay h
  rw [tableChecksum, asked_stay h]
  have h' : sumWords (fun i => record.tag == TableType.fontHeader.tag && i == 2) 0 ((record.size + 3) / 4) d record.offset =
    .ok (s, m) := h
  have := (flat_sumWords.asked h').2 x
  rw [(sumWords_ends s m h').1] at this
  exact this

/-- Taking a table asks for the bytes of the table as above and, if the build tests checksums, for the words over
which the checksum is computed. -/
theorem C91_take {α : Type} (cfg : Cfg) (font : Font) (table : TableType) (record : Record) {r : Reader α}
    {encode : α → List Chunk} (hr : AsksForOwnBytes r encode) (d : Data) (p : Nat) (t : α) (hd : Fits d)
    (hf : FirstWith table.tag font.offsets.records record)
    (h : Reads (font.take cfg tableChecksum table r) d p (some t)) (x : Nat) :
    (∃ y n, (y, n) ∈ (font.take cfg tableChecksum table r).fetches d p ∧ y ≤ x ∧ x < y + n) ↔
      (cfg.ignoreInvalidChecksums = false ∧
        record.offset ≤ x ∧ x < record.offset + 4 * ((record.size + 3) / 4)) ∨
      ∃ c ∈ encode t, record.offset + c.1 ≤ x ∧ x < record.offset + c.1 + c.2.length := by
  obtain ⟨q, h⟩ := h
  have hp : Font.position cfg tableChecksum font table = Font.found cfg tableChecksum record := Font.positionIn_first hf
  have hn : ∀ {α : Type} {e : Reader α} {p : Nat}, e.fetches d p = [] → ¬Asked e d p x := by
    rintro α e p he ⟨_, _, h, _⟩
    rw [he] at h
    cases h
  show Asked (Font.take cfg tableChecksum font table r) d p x ↔ _
  unfold Font.take at h ⊢
  rw [hp] at h ⊢
  obtain ⟨o, m, h1, h2⟩ := ok_bind h
  obtain ⟨hc, rfl, rfl⟩ := found_ok h1
  obtain ⟨t', m, h3, h4⟩ := ok_bind h2
  cases h4
  rw [asked_bind h1]
  have e : Asked (r >>= fun x => pure (some x)) d record.offset x ↔ Asked r d record.offset x := by
    rw [asked_bind h3]
    exact or_iff_left (hn rfl)
  dsimp only
  rw [e]
  refine or_congr ?_ (hr d record.offset t hd ⟨_, h3⟩ x)
  unfold Font.found at h1 ⊢
  cases hi : cfg.ignoreInvalidChecksums with
  | true =>
    simp only [hi] at h1 ⊢
    simp only [Bool.true_eq_false, if_false, false_and, iff_false]
    exact hn rfl
  | false =>
    simp only [hi, if_true, true_and] at h1 ⊢
    obtain ⟨s, m, h5, h6⟩ := ok_bind h1
    obtain ⟨u, m', h7, _⟩ := ok_bind h6
    rw [asked_bind h5, asked_checksum h5]
    refine or_iff_left (hn ?_)
    unfold raiseIf
    split <;> rfl

/-- A font with the palettes of `gappedPalettes`. Its table is 26 bytes long, which makes seven words. -/
def gappedFont : Data := bytes [0, 1, 0, 0, 0, 1, 0, 16, 0, 0, 0, 0, 0x43, 0x50, 0x41, 0x4C, 19, 22, 15, 39, 0, 0, 0, 28,
  0, 0, 0, 26] ++ gappedPalettes ++ bytes [0, 0]

/-- Its directory. -/
def gappedDirectory : Font := ⟨⟨⟨65536, 1, 16, 0, 0⟩, [⟨TableType.colorPalettes.tag, 320212775, 28, 26⟩]⟩⟩

example : File.read sampleAccept gappedFont 0 = .ok (⟨[gappedDirectory]⟩, 28) ∧
    (File.read sampleAccept).fetches gappedFont 0 = [(0, 4), (0, 4), (4, 2), (6, 2), (8, 2), (10, 2), (12, 4), (16, 4),
      (20, 4), (24, 4)] ∧
    Reads (gappedDirectory.take defaultCfg tableChecksum .colorPalettes cpal.ColorPalettes.read) gappedFont 28
      (some ⟨.version0 ⟨0, 2, 1, 2, 18, [0]⟩, [⟨1, 2, 3, 4⟩, ⟨5, 6, 7, 8⟩]⟩) ∧
    (gappedDirectory.take defaultCfg tableChecksum .colorPalettes cpal.ColorPalettes.read).fetches gappedFont 28 =
      [(28, 4), (32, 4), (36, 4), (40, 4), (44, 4), (48, 4), (52, 4), (28, 2), (28, 2), (30, 2), (32, 2), (34, 2), (36, 4),
        (40, 2), (46, 1), (47, 1), (48, 1), (49, 1), (50, 1), (51, 1), (52, 1), (53, 1)] := by
  decide +kernel

/-- What it meets: the record is the first of its kind, and the reader asks for its own bytes. -/
example : FirstWith TableType.colorPalettes.tag gappedDirectory.offsets.records ⟨TableType.colorPalettes.tag, 320212775, 28, 26⟩ ∧
    AsksForOwnBytes cpal.ColorPalettes.read encoding :=
  ⟨⟨[], [], rfl, rfl, nofun⟩, (C91_tables defaultCfg).2.2.2.1⟩

end OpenType.Props
