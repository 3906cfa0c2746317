import Verif.Model.Font
import Verif.Spec.Font
import Verif.Proof.Font
import Verif.Proof.Checksum
import Verif.Props.Sample
/-! # C01-C08, C49: files, table directories and table access -/

namespace OpenType.Props
open Spec offsets

/-! ## A sample font -/

/-- One table directory with two records, `GSUB` and `CPAL`, the latter twice. -/
def sampleFont : Data := bytes <|
  [0, 1, 0, 0,  0, 3,  0, 32,  0, 1,  0, 16] ++
  [0x47, 0x53, 0x55, 0x42,  0, 0, 0, 7,  0, 0, 0, 60,  0, 0, 0, 8] ++
  [0x43, 0x50, 0x41, 0x4C,  0, 1, 0, 2,  0, 0, 0, 60,  0, 0, 0, 8] ++
  [0x43, 0x50, 0x41, 0x4C,  9, 9, 9, 9,  9, 9, 9, 9,  9, 9, 9, 9] ++
  [0, 0, 0, 1,  0, 1, 0, 1]

def sampleRecords : List offsets.Record :=
  [⟨TableType.glyphSubstitution.tag, 7, 60, 8⟩, ⟨TableType.colorPalettes.tag, 65538, 60, 8⟩,
    ⟨TableType.colorPalettes.tag, 151587081, 151587081, 151587081⟩]

def sampleDirectory : Font := ⟨⟨⟨65536, 3, 32, 1, 16⟩, sampleRecords⟩⟩

/-- Accepts version 1.0 only. -/
def sampleAccept (tag : Tag) : Bool := tag == 65536

/-- A build with default features and a release profile. -/
def defaultCfg : Cfg := ⟨false, false, false, false, false, false⟩

/-! ## C01 -/

theorem ttcf : tag4 't' 't' 'c' 'f' = 0x74746366 := by decide +kernel

/-- A collection is refused. -/
theorem C01_collection (accept : Tag → Bool) (d : Data) (p : Nat) (hd : Fits d)
    (h : U32 d p 0x74746366) : ∃ message, File.read accept d p = .error (.malformed message) := by
  have h1 : peek takeTag d p = .ok (0x74746366, p) := by
    unfold peek
    rw [run_stay]
    exact ⟨(reads_fixed hd).mpr h, rfl⟩
  unfold File.read
  rw [bind_ok h1, ttcf]
  exact ⟨_, rfl⟩

example : U32 (bytes [0x74, 0x74, 0x63, 0x66, 0, 1]) 0 0x74746366 := by decide +kernel

/-- Otherwise reading succeeds exactly when the bytes at the position are a table directory, and gives one
font, which holds that directory. -/
theorem C01_one_font (accept : Tag → Bool) (d : Data) (p : Nat) (hd : Fits d) (file : File) :
    Reads (File.read accept) d p file ↔
      ¬U32 d p 0x74746366 ∧ ∃ font, file.fonts = [font] ∧ IsOffsets accept d p font.offsets := by
  unfold File.read
  rw [reads_bind_peek hd, ttcf]
  simp only [reads_bind_raiseIf]
  have hf : Reads (Font.read accept >>= fun font => pure { fonts := [font] }) d p file ↔
      ∃ font, file.fonts = [font] ∧ IsOffsets accept d p font.offsets := by
    rw [reads_bind_indep]
    simp only [reads_pure]
    constructor
    · rintro ⟨font, h, rfl⟩
      refine ⟨font, rfl, ?_⟩
      unfold Font.read at h
      rw [reads_bind_indep] at h
      obtain ⟨o, h, h'⟩ := h
      rw [reads_pure] at h'
      subst h'
      exact (reads_offsets hd).mp h
    · rintro ⟨font, h, h'⟩
      refine ⟨font, ?_, by cases file; simp_all⟩
      unfold Font.read
      rw [reads_bind_indep]
      exact ⟨font.offsets, (reads_offsets hd).mpr h', reads_pure.mpr rfl⟩
  rw [hf]
  constructor
  · rintro ⟨tag, ht, hn, font, h⟩
    exact ⟨fun hc => hn (ht.unique hc), font, h⟩
  · rintro ⟨hn, font, h, h'⟩
    exact ⟨_, h'.1, fun hc => hn (hc ▸ h'.1), font, h, h'⟩

example : Reads (File.read sampleAccept) sampleFont 0 ⟨[sampleDirectory]⟩ ∧
    ¬U32 sampleFont 0 0x74746366 := by decide +kernel

/-! ## C02 -/

/-- The font lists exactly the stored records, in order. -/
theorem C02_directory_exact (accept : Tag → Bool) (d : Data) (p : Nat) (hd : Fits d) (file : File)
    (h : Reads (File.read accept) d p file) :
    ∃ font, file.fonts = [font] ∧ U16 d (p + 4) font.offsets.records.length ∧
      ∀ (k : Nat) record, font.offsets.records[k]? = some record →
        U32 d (p + 12 + 16 * k) record.tag ∧ U32 d (p + 12 + 16 * k + 4) record.checksum ∧
        U32 d (p + 12 + 16 * k + 8) record.offset ∧ U32 d (p + 12 + 16 * k + 12) record.size := by
  obtain ⟨_, font, hf, h1, h2, h3, h4, h5, h6, h7, h8⟩ := (C01_one_font accept d p hd file).mp h
  exact ⟨font, hf, h7 ▸ h3, h8⟩

example : Reads (File.read sampleAccept) sampleFont 0 ⟨[sampleDirectory]⟩ := by decide +kernel

/-! ## C03 -/

section
variable {cfg : Cfg} {checksum : offsets.Record → Reader Nat} {font : Font} {table : TableType}

theorem exists_iff : font.exists table = true ↔ ∃ record ∈ font.offsets.records, record.tag = table.tag := by
  simp [Font.exists]

theorem exists_false : font.exists table = false ↔ NoneWith table.tag font.offsets.records := by
  simp [Font.exists, NoneWith]

theorem take_none {α : Type} {r : Reader α} {d : Data} {p : Nat} :
    Reads (Font.take cfg checksum font table r) d p none ↔ font.exists table = false := by
  rw [exists_false]
  unfold Reads
  rcases Font.first_or_none table.tag font.offsets.records with ⟨record, h⟩ | h
  · have hp : Font.position cfg checksum font table = Font.found cfg checksum record :=
      Font.positionIn_first h
    obtain ⟨b, a, e, ht, _⟩ := h
    constructor
    · rintro ⟨q, hq⟩
      rw [Font.take_eq, hp] at hq
      cases hc : Font.found cfg checksum record d p with
      | error e => rw [hc] at hq; cases hq
      | ok x =>
        obtain ⟨o, q'⟩ := x
        cases o with
        | some u =>
          rw [hc] at hq
          dsimp only at hq
          cases hr : r d q' with
          | error e => rw [hr] at hq; cases hq
          | ok y => obtain ⟨y, z⟩ := y; rw [hr] at hq; cases hq
        | none =>
          exfalso
          cases hi : cfg.ignoreInvalidChecksums with
          | true => rw [Font.found_ignore hi] at hc; cases hc
          | false =>
            rw [Font.found_check hi] at hc
            split at hc
            · split at hc <;> cases hc
            · cases hc
    · intro hn
      exact absurd ht (hn record (by rw [e]; simp))
  · have hp : Font.position cfg checksum font table = pure none := Font.positionIn_none h
    constructor
    · intro _; exact h
    · intro _
      exact ⟨p, by rw [Font.take_eq, hp]; rfl⟩

/-- `take` and `take_given` return `Ok(None)` exactly when `exists` says no; then the directory has no record
with the tag. -/
theorem C03_exists_take {α P : Type} (cfg : Cfg) (checksum : offsets.Record → Reader Nat) (font : Font)
    (table : TableType) (r : Reader α) (r' : P → Reader α) (parameter : P) (d : Data) (p : Nat) :
    (font.exists table = false ↔ ∀ record ∈ font.offsets.records, record.tag ≠ table.tag) ∧
    (Reads (font.take cfg checksum table r) d p none ↔ font.exists table = false) ∧
    (Reads (font.take_given cfg checksum table r' parameter) d p none ↔ font.exists table = false) :=
  ⟨exists_false, take_none, by rw [Font.take_given_eq]; exact take_none⟩

example : sampleDirectory.exists .colorPalettes = true ∧ sampleDirectory.exists .names = false := by
  decide

/-! ## C04 -/

/-- The record passes the checksum test on the tape. -/
def Passes (cfg : Cfg) (checksum : offsets.Record → Reader Nat) (record : offsets.Record) (d : Data)
    (p : Nat) : Prop :=
  cfg.ignoreInvalidChecksums = true ∨ Reads (checksum record) d p record.checksum

theorem found_passes {record : offsets.Record} {d : Data} {p : Nat}
    (h : Passes cfg checksum record d p) :
    Font.found cfg checksum record d p = .ok (some (), record.offset) := by
  cases hi : cfg.ignoreInvalidChecksums with
  | true => rw [Font.found_ignore hi]
  | false =>
    rcases h with h | ⟨q, h⟩
    · rw [hi] at h; cases h
    · rw [Font.found_check hi, h]; simp

theorem found_ok {record : offsets.Record} {d : Data} {p q : Nat} {x : Option Unit}
    (h : Font.found cfg checksum record d p = .ok (x, q)) :
    Passes cfg checksum record d p ∧ x = some () ∧ q = record.offset := by
  cases hi : cfg.ignoreInvalidChecksums with
  | true =>
    rw [Font.found_ignore hi] at h
    cases h
    exact ⟨.inl hi, rfl, rfl⟩
  | false =>
    rw [Font.found_check hi] at h
    split at h
    · rename_i n m hc
      split at h
      · rename_i e; cases h; exact ⟨.inr ⟨m, e ▸ hc⟩, rfl, rfl⟩
      · cases h
    · cases h

/-- When the first record with the tag passes the test, `position` leaves the tape at the record's absolute
offset, and `take` and `take_given` give what the reader gives there. -/
theorem C04_first_record {α P : Type} (cfg : Cfg) (checksum : offsets.Record → Reader Nat) (font : Font)
    (table : TableType) (record : offsets.Record) (r : Reader α) (r' : P → Reader α) (parameter : P)
    (d : Data) (p : Nat) (h : FirstWith table.tag font.offsets.records record)
    (hc : Passes cfg checksum record d p) :
    font.position cfg checksum table d p = .ok (some (), record.offset) ∧
    font.take cfg checksum table r d p =
      (match r d record.offset with
      | .ok (x, q) => .ok (some x, q)
      | .error e => .error e) ∧
    font.take_given cfg checksum table r' parameter d p =
      (match r' parameter d record.offset with
      | .ok (x, q) => .ok (some x, q)
      | .error e => .error e) := by
  have hp : Font.position cfg checksum font table d p = .ok (some (), record.offset) := by
    show Font.positionIn cfg checksum table.tag font.offsets.records d p = _
    rw [Font.positionIn_first h]; exact found_passes hc
  refine ⟨hp, ?_, ?_⟩
  · rw [Font.take_eq, hp]; rfl
  · rw [Font.take_given_eq, Font.take_eq, hp]; rfl

/-- Whatever is returned comes from the first record with the tag. -/
theorem C04_only_first {α : Type} (cfg : Cfg) (checksum : offsets.Record → Reader Nat) (font : Font)
    (table : TableType) (r : Reader α) (d : Data) (p : Nat) (x : α)
    (h : Reads (font.take cfg checksum table r) d p (some x)) :
    ∃ record, FirstWith table.tag font.offsets.records record ∧ Passes cfg checksum record d p ∧
      Reads r d record.offset x := by
  obtain ⟨q, h⟩ := h
  rcases Font.first_or_none table.tag font.offsets.records with ⟨record, hf⟩ | hn
  · refine ⟨record, hf, ?_⟩
    have hp : Font.position cfg checksum font table = Font.found cfg checksum record :=
      Font.positionIn_first hf
    rw [Font.take_eq, hp] at h
    cases hc : Font.found cfg checksum record d p with
    | error e => rw [hc] at h; cases h
    | ok y =>
      obtain ⟨o, q'⟩ := y
      obtain ⟨h1, rfl, rfl⟩ := found_ok hc
      refine ⟨h1, ?_⟩
      rw [hc] at h
      dsimp only at h
      cases hr : r d record.offset with
      | error e => rw [hr] at h; cases h
      | ok y => obtain ⟨y, z⟩ := y; rw [hr] at h; cases h; exact ⟨_, hr⟩
  · have := (take_none (cfg := cfg) (checksum := checksum) (r := r) (d := d) (p := p)).mpr
      (exists_false.mpr hn)
    obtain ⟨q', h'⟩ := this
    rw [h] at h'; cases h'

/-- `take_given` is `take` with the reader for the given parameter, so that whatever is said of `take` holds of
`take_given`. -/
theorem C04_given {α P : Type} (cfg : Cfg) (checksum : offsets.Record → Reader Nat) (font : Font)
    (table : TableType) (r' : P → Reader α) (parameter : P) (d : Data) (p : Nat) :
    font.take_given cfg checksum table r' parameter d p = font.take cfg checksum table (r' parameter) d p := by
  rw [Font.take_given_eq]

example : FirstWith TableType.colorPalettes.tag sampleDirectory.offsets.records
    ⟨TableType.colorPalettes.tag, 65538, 60, 8⟩ ∧
    Passes defaultCfg tableChecksum ⟨TableType.colorPalettes.tag, 65538, 60, 8⟩ sampleFont 0 ∧
    sampleDirectory.take defaultCfg tableChecksum .colorPalettes u32 sampleFont 0 = .ok (some 1, 64) :=
  ⟨⟨[⟨TableType.glyphSubstitution.tag, 7, 60, 8⟩], _, rfl, rfl, by decide +kernel⟩,
    .inr (by decide +kernel), by decide +kernel⟩

/-! ## C05 -/

/-- In a build that checks, nothing is returned unless the stored checksum is the computed one. -/
theorem C05_checksum_gate {α P : Type} (cfg : Cfg) (checksum : offsets.Record → Reader Nat) (font : Font)
    (table : TableType) (record : offsets.Record) (r : Reader α) (r' : P → Reader α) (parameter : P)
    (d : Data) (p : Nat) (hi : cfg.ignoreInvalidChecksums = false)
    (h : FirstWith table.tag font.offsets.records record)
    (hc : ¬Reads (checksum record) d p record.checksum) :
    ∃ e, font.position cfg checksum table d p = .error e ∧ font.take cfg checksum table r d p = .error e ∧
      font.take_given cfg checksum table r' parameter d p = .error e := by
  have hp : Font.position cfg checksum font table = Font.found cfg checksum record :=
    Font.positionIn_first h
  cases hf : Font.found cfg checksum record d p with
  | ok x =>
    obtain ⟨h1 | h1, _, _⟩ := found_ok hf
    · rw [hi] at h1; cases h1
    · exact absurd h1 hc
  | error e =>
    refine ⟨e, by rw [hp]; exact hf, ?_, ?_⟩
    · rw [Font.take_eq, hp, hf]
    · rw [Font.take_given_eq, Font.take_eq, hp, hf]

/-- A mismatch is reported as a malformed table, and a failure to compute the checksum is passed on. -/
theorem C05_checksum_errors (cfg : Cfg) (checksum : offsets.Record → Reader Nat) (font : Font)
    (table : TableType) (record : offsets.Record) (d : Data) (p : Nat)
    (hi : cfg.ignoreInvalidChecksums = false) (h : FirstWith table.tag font.offsets.records record) :
    (∀ n q, checksum record d p = .ok (n, q) → n ≠ record.checksum →
      ∃ message, font.position cfg checksum table d p = .error (.malformed message)) ∧
    (∀ e, checksum record d p = .error e → font.position cfg checksum table d p = .error e) := by
  have hp : Font.position cfg checksum font table = Font.found cfg checksum record :=
    Font.positionIn_first h
  rw [hp, Font.found_check hi]
  constructor
  · intro n q hc hn
    exact ⟨_, by rw [hc]; dsimp only; rw [if_neg (Ne.symm hn)]⟩
  · intro e hc; rw [hc]

example : FirstWith TableType.glyphSubstitution.tag sampleDirectory.offsets.records
    ⟨TableType.glyphSubstitution.tag, 7, 60, 8⟩ ∧
    ¬Reads (tableChecksum ⟨TableType.glyphSubstitution.tag, 7, 60, 8⟩) sampleFont 0 7 := by
  exact ⟨⟨[], _, rfl, rfl, by simp⟩, by decide +kernel⟩

/-! ## C06 -/

theorem firstWith_congr {tag : Tag} {records records' : List offsets.Record}
    (h : records.map (fun x => (x.tag, x.offset, x.size)) = records'.map (fun x => (x.tag, x.offset, x.size)))
    {cs cs' : offsets.Record → Reader Nat} {cfg : Cfg} (hi : cfg.ignoreInvalidChecksums = true) :
    Font.positionIn cfg cs tag records = Font.positionIn cfg cs' tag records' := by
  induction records generalizing records' with
  | nil => cases records' with
    | nil => rfl
    | cons => simp at h
  | cons x xs ih =>
    cases records' with
    | nil => simp at h
    | cons y ys =>
      simp only [List.map_cons, List.cons.injEq, Prod.mk.injEq] at h
      obtain ⟨⟨h1, h2, h3⟩, h4⟩ := h
      simp only [Font.positionIn, h1, h2, hi, ih h4]
      rfl

/-- With `ignore-invalid-checksums` neither the stored nor the computed checksums matter. -/
theorem C06_checksums_irrelevant {α P : Type} (cfg : Cfg) (checksum checksum' : offsets.Record → Reader Nat)
    (font font' : Font) (table : TableType) (r : Reader α) (r' : P → Reader α) (parameter : P)
    (hi : cfg.ignoreInvalidChecksums = true)
    (h : font.offsets.records.map (fun x => (x.tag, x.offset, x.size)) =
      font'.offsets.records.map (fun x => (x.tag, x.offset, x.size))) :
    font.position cfg checksum table = font'.position cfg checksum' table ∧
    font.take cfg checksum table r = font'.take cfg checksum' table r ∧
    font.take_given cfg checksum table r' parameter = font'.take_given cfg checksum' table r' parameter := by
  have hp : font.position cfg checksum table = font'.position cfg checksum' table := firstWith_congr h hi
  refine ⟨hp, ?_, ?_⟩
  · unfold Font.take; rw [hp]
  · unfold Font.take_given; rw [hp]

/-- What the checking build returns, the other build returns too. -/
theorem C06_same_success {α : Type} (cfg cfg' : Cfg) (checksum checksum' : offsets.Record → Reader Nat)
    (font : Font) (table : TableType) (r : Reader α) (d : Data) (p : Nat) (x : Option α)
    (hi' : cfg'.ignoreInvalidChecksums = true) (h : Reads (font.take cfg checksum table r) d p x) :
    Reads (font.take cfg' checksum' table r) d p x := by
  cases x with
  | none => exact take_none.mpr (take_none.mp h)
  | some x =>
    obtain ⟨record, hf, _, q, hq⟩ := C04_only_first cfg checksum font table r d p x h
    refine ⟨q, ?_⟩
    have := (C04_first_record cfg' checksum' font table record r (fun _ : Unit => r) () d p hf
      (.inl hi')).2.1
    rw [this, hq]

/-- Likewise for `take_given`, and for `position`, which leaves the tape at the same place. -/
theorem C06_same_success_given {α P : Type} (cfg cfg' : Cfg) (checksum checksum' : offsets.Record → Reader Nat)
    (font : Font) (table : TableType) (r' : P → Reader α) (parameter : P) (d : Data) (p : Nat)
    (hi' : cfg'.ignoreInvalidChecksums = true) :
    (∀ x, Reads (font.take_given cfg checksum table r' parameter) d p x →
      Reads (font.take_given cfg' checksum' table r' parameter) d p x) ∧
    ∀ x q, font.position cfg checksum table d p = .ok (x, q) →
      font.position cfg' checksum' table d p = .ok (x, q) := by
  refine ⟨fun x h => ?_, fun x q h => ?_⟩
  · rw [Font.take_given_eq] at h ⊢
    exact C06_same_success cfg cfg' checksum checksum' font table _ d p x hi' h
  · rcases Font.first_or_none table.tag font.offsets.records with ⟨record, hf⟩ | hn
    · have hp : font.position cfg checksum table = Font.found cfg checksum record := Font.positionIn_first hf
      rw [hp] at h
      obtain ⟨_, rfl, rfl⟩ := found_ok h
      exact (C04_first_record cfg' checksum' font table record (.done ()) (fun _ : Unit => .done ()) () d p hf
        (.inl hi')).1
    · have h1 : ∀ c k, font.position c k table = (.done none : Reader _) := fun c k => Font.positionIn_none hn
      rw [h1] at h ⊢
      exact h

example : sampleDirectory.take { defaultCfg with ignoreInvalidChecksums := true } tableChecksum
    .glyphSubstitution u32 sampleFont 0 = .ok (some 1, 64) ∧
    sampleDirectory.take defaultCfg tableChecksum .glyphSubstitution u32 sampleFont 0 =
      .error (.malformed ⟨"found a malformed font table with", [TableType.glyphSubstitution.tag]⟩) := by decide +kernel

end

/-! ## C07 -/

/-- A call a user can make on a shared tape: read a table with some reader (of any result type), or only go to
its position. -/
inductive Call where
  | take (α : Type) (table : TableType) (r : Reader α)
  | takeGiven (α P : Type) (table : TableType) (r : P → Reader α) (parameter : P)
  | position (table : TableType)

/-- The type of what a call returns. -/
def Call.Value : Call → Type
  | .take α _ _ => Option α
  | .takeGiven α _ _ _ _ => Option α
  | .position _ => Option Unit

/-- Make a call. -/
def Call.run (cfg : Cfg) (checksum : offsets.Record → Reader Nat) (font : Font) :
    (call : Call) → Reader call.Value
  | .take _ table r => font.take cfg checksum table r
  | .takeGiven _ _ table r parameter => font.take_given cfg checksum table r parameter
  | .position table => font.position cfg checksum table

/-- What the caller sees. -/
def outcome {α : Type} : Except Err (α × Nat) → Except Err α
  | .ok (x, _) => .ok x
  | .error e => .error e

/-- `History d p calls outcomes`: making the calls one after another on a tape `d` that stands at `p` may give
the outcomes. After a failed call the tape may stand anywhere. -/
inductive History (cfg : Cfg) (checksum : offsets.Record → Reader Nat) (font : Font) (d : Data) :
    Nat → List ((call : Call) × Except Err call.Value) → Prop where
  | nil (p : Nat) : History cfg checksum font d p []
  | ok (p q : Nat) (call : Call) (x : call.Value) (rest : List ((call : Call) × Except Err call.Value))
      (h : call.run cfg checksum font d p = .ok (x, q)) (hr : History cfg checksum font d q rest) :
      History cfg checksum font d p (⟨call, .ok x⟩ :: rest)
  | error (p q : Nat) (call : Call) (e : Err) (rest : List ((call : Call) × Except Err call.Value))
      (h : call.run cfg checksum font d p = .error e) (hr : History cfg checksum font d q rest) :
      History cfg checksum font d p (⟨call, .error e⟩ :: rest)

/-- The checksum of a table does not depend on where the tape stands. -/
def Anywhere (checksum : offsets.Record → Reader Nat) : Prop :=
  ∀ record d p p', outcome (checksum record d p) = outcome (checksum record d p')

theorem position_anywhere {cfg : Cfg} {checksum : offsets.Record → Reader Nat} (hc : Anywhere checksum)
    (font : Font) (table : TableType) (d : Data) (p p' : Nat) :
    (outcome (font.position cfg checksum table d p) = outcome (font.position cfg checksum table d p')) ∧
    (font.position cfg checksum table d p = font.position cfg checksum table d p' ∨
      Font.position cfg checksum font table = pure none) := by
  rcases Font.first_or_none table.tag font.offsets.records with ⟨record, h⟩ | h
  · have hp : Font.position cfg checksum font table = Font.found cfg checksum record :=
      Font.positionIn_first h
    have : font.position cfg checksum table d p = font.position cfg checksum table d p' := by
      rw [hp]
      cases hi : cfg.ignoreInvalidChecksums with
      | true => rw [Font.found_ignore hi, Font.found_ignore hi]
      | false =>
        rw [Font.found_check hi, Font.found_check hi]
        have := hc record d p p'
        cases h1 : checksum record d p with
        | error e =>
          cases h2 : checksum record d p' with
          | error e' => rw [h1, h2] at this; cases this; rfl
          | ok y => rw [h1, h2] at this; cases this
        | ok x =>
          cases h2 : checksum record d p' with
          | error e' => rw [h1, h2] at this; cases this
          | ok y =>
            obtain ⟨n, q⟩ := x; obtain ⟨m, q'⟩ := y
            rw [h1, h2] at this; cases this; rfl
    exact ⟨by rw [this], .inl this⟩
  · have hp : Font.position cfg checksum font table = pure none := Font.positionIn_none h
    exact ⟨by rw [hp]; rfl, .inr hp⟩

theorem take_anywhere {cfg : Cfg} {checksum : offsets.Record → Reader Nat} (hc : Anywhere checksum)
    {α : Type} (font : Font) (table : TableType) (r : Reader α) (d : Data) (p p' : Nat) :
    outcome (font.take cfg checksum table r d p) = outcome (font.take cfg checksum table r d p') := by
  rcases (position_anywhere (cfg := cfg) hc font table d p p').2 with h | h
  · rw [Font.take_eq, Font.take_eq, h]
  · rw [Font.take_eq, Font.take_eq, h]; rfl

theorem call_anywhere {cfg : Cfg} {checksum : offsets.Record → Reader Nat} (hc : Anywhere checksum)
    (font : Font) (call : Call) (d : Data) (p p' : Nat) :
    outcome (call.run cfg checksum font d p) = outcome (call.run cfg checksum font d p') := by
  cases call with
  | position table => exact (position_anywhere hc font table d p p').1
  | take α table r => exact take_anywhere hc font table r d p p'
  | takeGiven α P table r parameter => exact take_anywhere hc font table (r parameter) d p p'

/-- In any history each call returns what it returns on a freshly opened tape. -/
theorem C07_history_independence (cfg : Cfg) (checksum : offsets.Record → Reader Nat)
    (hc : Anywhere checksum) (font : Font) (d : Data) (p : Nat)
    (history : List ((call : Call) × Except Err call.Value)) (h : History cfg checksum font d p history) :
    ∀ entry ∈ history, entry.2 = outcome (entry.1.run cfg checksum font d 0) := by
  induction h with
  | nil => simp
  | ok p q call x rest h _ ih =>
    intro entry he
    cases he with
    | head =>
      have := call_anywhere (cfg := cfg) hc font call d p 0
      rw [h] at this
      exact this
    | tail _ he => exact ih entry he
  | error p q call e rest h _ ih =>
    intro entry he
    cases he with
    | head =>
      have := call_anywhere (cfg := cfg) hc font call d p 0
      rw [h] at this
      exact this
    | tail _ he => exact ih entry he

/-- The checksum of the OpenType specification qualifies. -/
theorem C07_checksum_anywhere : Anywhere tableChecksum := by
  intro record d p p'
  unfold tableChecksum
  rw [run_stay_eq, run_stay_eq]
  have h : ∀ {α : Type} (r : Reader α) p, (jump record.offset >>= fun _ => r) d p = r d record.offset :=
    fun _ _ => rfl
  rw [h, h]
  split <;> rfl

example : History defaultCfg tableChecksum sampleDirectory sampleFont 5
    [⟨.take Nat .glyphSubstitution u32, .error (.malformed ⟨"found a malformed font table with", [TableType.glyphSubstitution.tag]⟩)⟩,
      ⟨.position .names, .ok none⟩, ⟨.take Nat .colorPalettes u32, .ok (some 1)⟩] :=
  .error 5 99 (.take Nat .glyphSubstitution u32) _ _
    (show sampleDirectory.take defaultCfg tableChecksum .glyphSubstitution u32 sampleFont 5 =
        .error (.malformed ⟨"found a malformed font table with", [TableType.glyphSubstitution.tag]⟩) by decide +kernel)
    (.ok 99 99 (.position .names) _ _
      (show sampleDirectory.position defaultCfg tableChecksum .names sampleFont 99 = .ok (none, _) by
        decide +kernel)
      (.ok 99 64 (.take Nat .colorPalettes u32) _ _
        (show sampleDirectory.take defaultCfg tableChecksum .colorPalettes u32 sampleFont 99 =
          .ok (some 1, _) by decide +kernel) (.nil _)))

/-! ## C08 -/

/-- The provided type with a given tag. -/
def typeOf (tag : Tag) : Option TableType :=
  [TableType.fontSet, .colorPalettes, .glyphDefinition, .glyphPositioning, .glyphSubstitution,
    .windowsMetrics, .characterMapping, .fontVariations, .glyphData, .fontHeader, .horizontalHeader,
    .horizontalMetrics, .glyphMapping, .maximumProfile, .names, .postScript].find? (·.tag == tag)

/-- Different provided types have different tags. -/
theorem C08_distinct_tags (a b : TableType) (ha : Provided a) (hb : Provided b) (h : a.tag = b.tag) : a = b := by
  have key : ∀ t : TableType, Provided t → typeOf t.tag = some t := by
    intro t ht
    cases t <;> first | decide +kernel | exact ht.elim
  have := key a ha
  rw [h, key b hb] at this
  cases this
  rfl

/-- The tag of a type is its name, the highest byte first. -/
theorem tag_of_name (a : TableType) : a.tag = bigEndian (tableName a) := by
  cases a with
  | custom a b c e =>
    simp only [TableType.tag, tableName, bigEndian, List.foldl_cons, List.foldl_nil]
    show @Eq Nat _ _
    omega
  | _ => decide +kernel

/-- Types, be they provided or not, have the same tag exactly when they have the same name. -/
theorem C08_same_name (a b : TableType) : a.tag = b.tag ↔ tableName a = tableName b := by
  have four : ∀ t : TableType, ∃ x y z w, tableName t = [x, y, z, w] := by
    intro t
    cases t <;> exact ⟨_, _, _, _, rfl⟩
  constructor
  · rw [tag_of_name, tag_of_name]
    obtain ⟨x, y, z, w, h⟩ := four a
    obtain ⟨x', y', z', w', h'⟩ := four b
    rw [h, h']
    simp only [bigEndian, List.foldl_cons, List.foldl_nil]
    intro e
    change @Eq Nat _ _ at e
    have := x.toNat_lt; have := y.toNat_lt; have := z.toNat_lt; have := w.toNat_lt
    have := x'.toNat_lt; have := y'.toNat_lt; have := z'.toNat_lt; have := w'.toNat_lt
    have e1 : x = x' := UInt8.toNat_inj.mp (by omega)
    have e2 : y = y' := UInt8.toNat_inj.mp (by omega)
    have e3 : z = z' := UInt8.toNat_inj.mp (by omega)
    have e4 : w = w' := UInt8.toNat_inj.mp (by omega)
    rw [e1, e2, e3, e4]
  · intro h
    rw [tag_of_name, tag_of_name, h]

/-- Asking for one type never decodes the record of another: what is decoded comes from a record with a tag that only types
of the same name have, and no other provided type. -/
theorem C08_no_aliasing {α : Type} (cfg : Cfg) (checksum : offsets.Record → Reader Nat) (font : Font)
    (table : TableType) (r : Reader α) (d : Data) (p : Nat) (x : α)
    (h : Reads (font.take cfg checksum table r) d p (some x)) :
    ∃ record ∈ font.offsets.records, Reads r d record.offset x ∧
      (∀ other : TableType, record.tag = other.tag ↔ tableName other = tableName table) ∧
      (Provided table → ∀ other : TableType, Provided other → (record.tag = other.tag ↔ other = table)) := by
  obtain ⟨record, ⟨b, a, e, ht, _⟩, _, hr⟩ := C04_only_first cfg checksum font table r d p x h
  refine ⟨record, by rw [e]; simp, hr, fun other => ?_, fun hp other ho => ?_⟩
  · rw [ht, C08_same_name]
    exact eq_comm
  · rw [ht]
    exact ⟨fun h => (C08_distinct_tags _ _ hp ho h).symm, fun h => by rw [h]⟩

/-- A table is found under its name, and under no other, also by a type of somebody else's. -/
example : Reads (sampleDirectory.take defaultCfg tableChecksum .colorPalettes u32) sampleFont 0 (some 1) ∧
    Reads (sampleDirectory.take defaultCfg tableChecksum (.custom 0x43 0x50 0x41 0x4C) u32) sampleFont 0 (some 1) ∧
    Reads (sampleDirectory.take defaultCfg tableChecksum (.custom 0x43 0x50 0x41 0x4D) u32) sampleFont 0 none := by
  decide +kernel

/-! ## C49 -/

/-- The checksum of a table: the sum of its words, modulo `2^32`, the third word of `head` excepted. -/
theorem C49_checksum_is_sum (record : offsets.Record) (d : Data) (p n : Nat) :
    Reads (tableChecksum record) d p n ↔
      ∃ words, U32s d record.offset ((record.size + 3) / 4) words ∧
        n = sumBut (fun i => decide (record.tag = 0x68656164 ∧ i = 2)) 0 words % 4294967296 := by
  have hs : skipped record = fun i => decide (record.tag = 0x68656164 ∧ i = 2) := by
    funext i
    unfold skipped
    show (record.tag == 0x68656164 && i == 2) = _
    rw [Bool.decide_and]
    rfl
  unfold Reads
  simp only [run_tableChecksum, hs]
  constructor
  · rintro ⟨_, h, _⟩; exact h
  · intro h; exact ⟨p, h, rfl⟩

/-- If a table passes the test, then after the change of one of its words (other than the adjustment word of
`head`) to any other value a checking build refuses it. -/
theorem C49_damage_detected {α : Type} (cfg : Cfg) (font : Font) (table : TableType)
    (record : offsets.Record) (r : Reader α) (d d' : Data) (p p' k a b : Nat)
    (hi : cfg.ignoreInvalidChecksums = false) (hf : FirstWith table.tag font.offsets.records record)
    (hp : Reads (tableChecksum record) d p record.checksum)
    (hk : k < (record.size + 3) / 4) (hh : ¬(table.tag = 0x68656164 ∧ k = 2))
    (ha : U32 d (record.offset + 4 * k) a) (hb : U32 d' (record.offset + 4 * k) b) (hab : a ≠ b)
    (hsame : ∀ q, q < record.offset + 4 * k ∨ record.offset + 4 * k + 4 ≤ q → d'[q]? = d[q]?) :
    ∃ e, font.take cfg tableChecksum table r d' p' = .error e := by
  obtain ⟨q, hq⟩ := hp
  obtain ⟨⟨ws, hw, hs⟩, rfl⟩ := run_tableChecksum.mp hq
  have hbad : ¬Reads (tableChecksum record) d' p' record.checksum := by
    rintro ⟨q', hq'⟩
    obtain ⟨⟨ws', hw', hs'⟩, _⟩ := run_tableChecksum.mp hq'
    have hl : ws.length = ws'.length := by rw [hw.1, hw'.1]
    have hk1 : k < ws.length := by rw [hw.1]; exact hk
    have hk2 : k < ws'.length := by rw [hw'.1]; exact hk
    have e1 : ws[k]? = some a := by
      rw [List.getElem?_eq_getElem hk1]
      exact congrArg some ((hw.2 k _ (by simp [hk1])).unique ha)
    have e2 : ws'[k]? = some b := by
      rw [List.getElem?_eq_getElem hk2]
      exact congrArg some ((hw'.2 k _ (by simp [hk2])).unique hb)
    have hrest : ∀ j, j ≠ k → ws[j]? = ws'[j]? := by
      intro j hj
      by_cases hj1 : j < ws.length
      · have hj2 : j < ws'.length := by omega
        rw [List.getElem?_eq_getElem hj1, List.getElem?_eq_getElem hj2]
        congr 1
        have h1 := hw.2 j _ (List.getElem?_eq_getElem hj1)
        have h2 := hw'.2 j _ (List.getElem?_eq_getElem hj2)
        refine (u32_congr (d' := d') ?_ h1).unique h2
        intro q hq1 hq2
        refine hsame q ?_
        omega
      · rw [List.getElem?_eq_none (by omega), List.getElem?_eq_none (by omega)]
    have hskip : skipped record (0 + k) = false := by
      unfold skipped
      obtain ⟨_, _, _, ht, _⟩ := hf
      rw [ht, Nat.zero_add]
      by_cases hk2 : k = 2
      · have : table.tag ≠ TableType.fontHeader.tag := fun h => hh ⟨h, hk2⟩
        simp [this]
      · simp [hk2]
    have := sumBut_set hl hskip e1 e2 hrest
    have := ha.lt
    have := hb.lt
    omega
  obtain ⟨e, _, h, _⟩ := C05_checksum_gate cfg tableChecksum font table record r (fun _ : Unit => r) () d' p'
    hi hf hbad
  exact ⟨e, h⟩

example : Reads (tableChecksum ⟨TableType.colorPalettes.tag, 65538, 60, 8⟩) sampleFont 0 65538 ∧
    1 < (8 + 3) / 4 ∧ U32 sampleFont (60 + 4 * 1) 65537 := by decide +kernel

end OpenType.Props
