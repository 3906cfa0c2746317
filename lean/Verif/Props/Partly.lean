import Verif.Proof.Partly
import Verif.Proof.DeviceTables
import Verif.Props.AskedFont
/-! # C92: reading from files that are partly at hand

The tape has only some of the bytes of the file, and answers requests for others by an error
(`Spec/Partly.lean`). -/

namespace OpenType.Props
open OpenType Spec coverage class_ correction context script feature lookup directory

/-- Let `t` be what is read at `p` in the complete file. When only the bytes with `here` are at hand, the reader gives
`t` if all the bytes that `t` is made of (`encode t`, `Spec/Encode.lean`) are among them, and otherwise the error of
the tape. Downloading what could not be had after each failure, and reading again, gives `t` after at most as many
failures as the reader makes requests; and then the bytes of `t` are at hand, and nothing else has been downloaded. -/
def DownloadsOwnBytes {α : Type} (r : Reader α) (encode : α → List Chunk) : Prop :=
  ∀ (d : Data) (p : Nat) (t : α), Fits d → Reads r d p t → ∀ (pending : Err) (here : Nat → Bool),
    ((∀ c ∈ encode t, ∀ x, p + c.1 ≤ x → x < p + c.1 + c.2.length → here x = true) →
      (r.exec (partly d here pending) (p, none)).1 = .ok t) ∧
    ((∃ c ∈ encode t, ∃ x, p + c.1 ≤ x ∧ x < p + c.1 + c.2.length ∧ here x = false) →
      (r.exec (partly d here pending) (p, none)).1 = .error pending) ∧
    ∀ rounds, (r.fetches d p).length < rounds →
      ∃ here', r.download d pending p rounds here = some (.ok t, here') ∧
        ∀ x, here' x = true ↔ here x = true ∨ ∃ c ∈ encode t, p + c.1 ≤ x ∧ x < p + c.1 + c.2.length

/-- A reader that stops at errors has been given all it asked for when it gives a value. -/
theorem fetches_possible {α : Type} {r : Reader α} (hr : r.Stops) {d : Data} {p q : Nat} {a : α}
    (h : r d p = .ok (a, q)) : ∀ request ∈ r.fetches d p, possible d request := by
  induction r generalizing p with
  | done b => nofun
  | fail e => nofun
  | tell next ih => exact ih _ (hr.2 p) h
  | seek s next ih => exact ih _ (hr.2 ()) h
  | fetch n next ih =>
    have hd : (next (Reader.slice d p n)) d (p + n) = .ok (a, q) := h
    have hf : (Reader.fetch n next).fetches d p = (p, n) :: (next (Reader.slice d p n)).fetches d (p + n) := rfl
    rw [hf]
    by_cases hn : n = 0 ∨ p + n ≤ d.length
    · intro request hq
      rcases List.mem_cons.mp hq with rfl | hq
      · exact hn
      · have hs : Reader.slice d p n = .ok ((d.drop p).take n) := by unfold Reader.slice; rw [if_pos hn]
        rw [hs] at hd hq
        exact ih _ (hr.2 _) hd request hq
    · have hs : Reader.slice d p n = .error .eof := by unfold Reader.slice; rw [if_neg hn]
      rw [hs, hr.1] at hd
      cases hd

/-- Every reader, on whatever file, whether it succeeds or fails on the complete file: reading while downloading ends
after at most as many failures as the reader makes requests, with the outcome it has on the complete file, and what
has been downloaded are bytes that were asked for. -/
theorem C92_download {α : Type} (r : Reader α) [h : Stops r] (d : Data) (p : Nat) (pending : Err) (here : Nat → Bool)
    (rounds : Nat) (hrounds : (r.fetches d p).length < rounds) :
    ∃ here', r.download d pending p rounds here = some (outcome (r d p), here') ∧
      ∀ x, here' x = true ↔ here x = true ∨ ∃ q n, (q, n) ∈ r.fetches d p ∧ q + n ≤ d.length ∧ q ≤ x ∧ x < q + n := by
  obtain ⟨here', h1, h2⟩ := download_ends h.stops (pending := pending) (here := here)
    (Nat.lt_of_le_of_lt List.countP_le_length hrounds)
  refine ⟨here', ?_, h2⟩
  rw [h1]
  rcases r d p with _ | ⟨_, _⟩ <;> rfl

theorem AsksForOwnBytes.downloads {α : Type} {r : Reader α} {encode : α → List Chunk} (ha : AsksForOwnBytes r encode)
    [h : Stops r] : DownloadsOwnBytes r encode := by
  intro d p t hd ht pending here
  have key := exec_partly h.stops (d := d) (here := here) (pending := pending) (p := p)
  have asks := ha d p t hd ht
  obtain ⟨q, hq⟩ := ht
  have hg : given (r d p) = .ok t := by rw [hq]; rfl
  have hp := fetches_possible h.stops hq
  refine ⟨fun hall => ?_, fun ⟨c, hc, x, h1, h2, h3⟩ => ?_, fun rounds hrounds => ?_⟩
  · rcases key with ⟨_, q', h'⟩ | ⟨⟨y, n⟩, h1, _, h3, _⟩
    · rw [h', hg]
    · have : met here (y, n) = true := met_iff.mpr fun x hx1 hx2 => by
        obtain ⟨c, hc, h4, h5⟩ := (asks x).mp ⟨y, n, h1, hx1, hx2⟩
        exact hall c hc x h4 h5
      rw [this] at h3
      cases h3
  · rcases key with ⟨hm, _⟩ | ⟨_, _, _, _, _, h'⟩
    · obtain ⟨y, n, hy, hy1, hy2⟩ := (asks x).mpr ⟨c, hc, h1, h2⟩
      rw [met_iff.mp (hm _ hy (hp _ hy)) x hy1 hy2] at h3
      cases h3
    · rw [h']
  · obtain ⟨here', h1, h2⟩ := C92_download r d p pending here rounds hrounds
    refine ⟨here', ?_, fun x => (h2 x).trans (or_congr_right ?_)⟩
    · rw [h1, hq]; rfl
    · refine Iff.trans ⟨?_, ?_⟩ (asks x)
      · exact fun ⟨y, n, h1, _, h3⟩ => ⟨y, n, h1, h3⟩
      · rintro ⟨y, n, h1, h3⟩
        refine ⟨y, n, h1, ?_, h3⟩
        have : n = 0 ∨ y + n ≤ d.length := hp _ h1
        omega

/-- The tables. -/
theorem C92_tables (cfg : Cfg) :
    DownloadsOwnBytes (gsub.GlyphSubstitution.read cfg) (directoryEncoding cfg) ∧
    DownloadsOwnBytes (gpos.GlyphPositioning.read cfg) (directoryEncoding cfg) ∧
    DownloadsOwnBytes (gdef.GlyphDefinition.read cfg) gdefEncodingTaken ∧
    DownloadsOwnBytes cpal.ColorPalettes.read encoding ∧
    DownloadsOwnBytes (fvar.FontVariations.read cfg) encoding ∧
    DownloadsOwnBytes (item.Store.read cfg) encoding :=
  have ⟨h1, h2, h3, h4, h5, h6⟩ := C91_tables cfg
  ⟨h1.downloads, h2.downloads, h3.downloads, h4.downloads, h5.downloads, h6.downloads⟩

/-- The parts of the layout tables, taken on their own. -/
theorem C92_layout (cfg : Cfg) (type_ : Nat) :
    DownloadsOwnBytes Coverage.read encoding ∧ DownloadsOwnBytes Class.read encoding ∧
    DownloadsOwnBytes Correction.read encoding ∧ DownloadsOwnBytes Context.read encoding ∧
    DownloadsOwnBytes ChainedContext.read encoding ∧ DownloadsOwnBytes Scripts.read encoding ∧
    DownloadsOwnBytes Features.read encoding ∧
    DownloadsOwnBytes (gsub.Type_.read type_) encoding ∧
    DownloadsOwnBytes (gpos.Type_.read cfg type_) encoding :=
  have ⟨h1, h2, h3, h4, h5, h6, h7, h8, h9⟩ := C91_layout cfg type_
  ⟨h1.downloads, h2.downloads, h3.downloads, h4.downloads, h5.downloads, h6.downloads, h7.downloads, h8.downloads,
    h9.downloads⟩

instance {cfg : Cfg} {font : Font} {table : TableType} : Stops (font.position cfg tableChecksum table) := by
  unfold Font.position
  induction font.offsets.records with
  | nil => unfold Font.positionIn; infer_instance
  | cons record records ih =>
    unfold Font.positionIn
    split
    · split
      · infer_instance
      · infer_instance
    · exact ih

instance {α : Type} {cfg : Cfg} {font : Font} {table : TableType} {r : Reader α} [Stops r] :
    Stops (font.take cfg tableChecksum table r) := by
  unfold Font.take
  refine stops_bind (hf := fun x => ?_)
  cases x <;> infer_instance

/-- Opening a file and taking one table of it: the program of a user. -/
def openAndTake {α : Type} (cfg : Cfg) (accept : Tag → Bool) (table : TableType) (r : Reader α) : Reader (Option α) := do
  let file ← File.read accept
  match file.fonts with
  | font :: _ => font.take cfg tableChecksum table r
  | [] => pure none

instance {α : Type} {cfg : Cfg} {accept : Tag → Bool} {table : TableType} {r : Reader α} [Stops r] :
    Stops (openAndTake cfg accept table r) := by
  have : ∀ file : File, Stops (match file.fonts with
      | font :: _ => font.take cfg tableChecksum table r
      | [] => pure none : Reader (Option α)) := by
    intro file
    split <;> infer_instance
  exact stops_bind (hf := this)

/-- To get one table of a font that is fetched from afar, what is downloaded is the directory of the font, the bytes of
the table as above and, if the build tests checksums, the words over which the checksum is computed; all the other
tables stay where they are. -/
theorem C92_open {α : Type} (cfg : Cfg) (accept : Tag → Bool) (table : TableType) {r : Reader α} [Stops r]
    {encode : α → List Chunk} (hr : AsksForOwnBytes r encode) (d : Data) (p q : Nat) (file : File) (font : Font)
    (record : offsets.Record) (t : α) (hd : Fits d) (hopen : File.read accept d p = .ok (file, q)) (hfont : file.fonts = [font])
    (hf : FirstWith table.tag font.offsets.records record)
    (ht : Reads (font.take cfg tableChecksum table r) d q (some t)) (pending : Err) (rounds : Nat)
    (hrounds : ((openAndTake cfg accept table r).fetches d p).length < rounds) :
    ∃ here', (openAndTake cfg accept table r).download d pending p rounds (fun _ => false) = some (.ok (some t), here') ∧
      ∀ x, here' x = true ↔
        (p ≤ x ∧ x < p + 12 + 16 * font.offsets.records.length) ∨
        (cfg.ignoreInvalidChecksums = false ∧ record.offset ≤ x ∧ x < record.offset + 4 * ((record.size + 3) / 4)) ∨
        ∃ c ∈ encode t, record.offset + c.1 ≤ x ∧ x < record.offset + c.1 + c.2.length := by
  obtain ⟨here', h1, h2⟩ := C92_download (openAndTake cfg accept table r) d p pending (fun _ => false) rounds hrounds
  have ht' := ht
  obtain ⟨m, hm⟩ := ht
  have e : openAndTake cfg accept table r = File.read accept >>= fun file => match file.fonts with
      | font :: _ => font.take cfg tableChecksum table r
      | [] => pure none := rfl
  have hrun : openAndTake cfg accept table r d p = .ok (some t, m) := by
    rw [e, run_bind_eq, hopen]
    dsimp only
    rw [hfont]
    exact hm
  have hp := fetches_possible (inferInstance : Stops (openAndTake cfg accept table r)).stops hrun
  refine ⟨here', by rw [h1, hrun]; rfl, fun x => (h2 x).trans ?_⟩
  have step : (∃ y n, (y, n) ∈ (openAndTake cfg accept table r).fetches d p ∧ y + n ≤ d.length ∧ y ≤ x ∧ x < y + n) ↔
      Asked (openAndTake cfg accept table r) d p x := by
    constructor
    · exact fun ⟨y, n, h1, _, h3⟩ => ⟨y, n, h1, h3⟩
    · rintro ⟨y, n, h1, h3⟩
      refine ⟨y, n, h1, ?_, h3⟩
      have : n = 0 ∨ y + n ≤ d.length := hp _ h1
      omega
  obtain ⟨font', hfont', hx⟩ := C91_file accept d p q file hopen
  rw [hfont] at hfont'
  cases hfont'
  have htake := C91_take cfg font table record hr d q t hd hf ht' x
  rw [step, e, asked_bind hopen]
  rw [hfont]
  simp only [Bool.false_eq_true, false_or]
  exact or_congr (hx x) htake

/-- The font of C91 with 28 bytes of directory and a palette table of 26 bytes, 4 of which nothing refers to. Without
checksums, getting the palettes takes less than 30 rounds, and then the bytes 42 to 45 and the padding are still missing. With
checksums the padding is there, for it is part of the last word. -/
example :
    let final (cfg : Cfg) := (openAndTake cfg sampleAccept .colorPalettes cpal.ColorPalettes.read).download gappedFont
      (.malformed "later") 0 30 fun _ => false
    let missing (cfg : Cfg) := (final cfg).map fun s => (List.range 56).filter fun x => !s.2 x
    (final { defaultCfg with ignoreInvalidChecksums := true }).map (·.1) =
      some (.ok (some ⟨.version0 ⟨0, 2, 1, 2, 18, [0]⟩, [⟨1, 2, 3, 4⟩, ⟨5, 6, 7, 8⟩]⟩)) ∧
    missing { defaultCfg with ignoreInvalidChecksums := true } = some [42, 43, 44, 45, 54, 55] ∧
    (final defaultCfg).map (·.1) =
      some (.ok (some ⟨.version0 ⟨0, 2, 1, 2, 18, [0]⟩, [⟨1, 2, 3, 4⟩, ⟨5, 6, 7, 8⟩]⟩)) ∧
    missing defaultCfg = some [] := by
  decide +kernel

/-- With the byte 20 missing, the palettes of C91 are not read; with the bytes 14 to 17 missing they are. -/
example :
    (cpal.ColorPalettes.read.exec (partly gappedPalettes (fun x => x != 20) (.malformed "later")) (0, none)).1 =
      .error (.malformed "later") ∧
    (cpal.ColorPalettes.read.exec (partly gappedPalettes (fun x => decide (x < 14) || decide (18 ≤ x)) (.malformed "later"))
      (0, none)).1 = .ok ⟨.version0 ⟨0, 2, 1, 2, 18, [0]⟩, [⟨1, 2, 3, 4⟩, ⟨5, 6, 7, 8⟩]⟩ := by
  decide +kernel

end OpenType.Props
