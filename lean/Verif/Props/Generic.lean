import Verif.Proof.Generic
import Verif.Proof.Effort
import Verif.Props.Lists
import Verif.Props.Safety
import Verif.Props.Ending
import Verif.Props.Flags
/-!
# C82: lookups and directories of subtables of any type

The lookup, the lookup list and the directory are public and generic in the type of the subtables: a user may read
GSUB or GPOS with subtables of their own, any type with a reader that is given the type of the lookup. Here
`readTable` is any such reader; nothing is assumed of it but what is said. -/

namespace OpenType.Props
open OpenType Spec script feature lookup directory

/-- `P` holds of the readers of the lookup, the lookup list and the directory with these subtables. -/
def ForLayout (P : ∀ {α : Type}, Reader α → Prop) {T : Type} (cfg : Cfg) (readTable : Nat → Reader T) : Prop :=
  P (lookup.Record.read cfg readTable) ∧ P (Lookups.read cfg readTable) ∧ P (Directory.read cfg readTable)

/-! ## What is stored -/

theorem Faithful.of_reads {α : Type} {r : Reader α} {S : Data → Nat → α → Prop}
    (h : ∀ {d}, Fits d → ∀ {p v}, Reads r d p v ↔ S d p v) (hp : NeverPanics r) : Faithful r S := fun d p hd =>
  ⟨fun _ => h hd, fun hn => fails_of (fun v hv => hn v ((h hd).mp hv)) fun m => hp d p m hd⟩

theorem Faithful.neverPanics {α : Type} {r : Reader α} {S : Data → Nat → α → Prop} (h : Faithful r S) :
    NeverPanics r := by
  intro d p m hd hm
  refine absurd ((h d p hd).2 fun v hv => ?_) ?_
  · obtain ⟨q, hq⟩ := ((h d p hd).1 v).mpr hv
    rw [hm] at hq
    cases hq
  · rw [hm]
    rintro (h | ⟨_, h⟩) <;> cases h

theorem NeverPanics.good {α : Type} {r : Reader α} (h : NeverPanics r) {d : Data} (hd : Fits d) (p : Nat) :
    Good False d d 0 r r p (fun _ => True) := by
  unfold Good
  rw [Nat.zero_add]
  cases hr : r d p with
  | ok x => exact ⟨by simp, trivial⟩
  | error e =>
    cases e with
    | eof => exact fun _ => rfl
    | malformed m => rfl
    | panic m => exact absurd hr (h d p m hd)

theorem NeverPanics.of_good {α : Type} {r : Reader α} {Q : α → Prop}
    (h : ∀ {d}, Fits d → ∀ p, Good False d d 0 r r p Q) : NeverPanics r := by
  intro d p m hd hm
  have := h hd p
  unfold Good at this
  rw [hm] at this
  exact this.1

theorem ext_self (d : Data) : Ext d d 0 := fun i b h => by rwa [Nat.zero_add]

/-- If the reader of the subtables does not panic, nor do the readers of the lookup, the list and the directory. -/
theorem C82_no_panic {T : Type} (cfg : Cfg) (readTable : Nat → Reader T) (h : ∀ t, NeverPanics (readTable t)) :
    ForLayout NeverPanics cfg readTable :=
  ⟨.of_good fun hd => good_record (ext_self _) hd fun t p => (h t).good hd p,
    .of_good fun hd => good_lookups (ext_self _) hd fun t p => (h t).good hd p,
    .of_good fun hd => good_directory (ext_self _) hd fun t p => (h t).good hd p⟩

/-- If the reader of the subtables is faithful to a layout of theirs, those of the lookup, the list and the directory
are faithful to the layout of the standard with these subtables in it. -/
theorem C82_faithful {T : Type} (cfg : Cfg) (readTable : Nat → Reader T) (isTable : Nat → Data → Nat → T → Prop)
    (h : ∀ t, Faithful (readTable t) (isTable t)) :
    Faithful (lookup.Record.read cfg readTable) (IsLookupRecord cfg isTable) ∧
    Faithful (Lookups.read cfg readTable) (IsLookups cfg isTable) ∧
    Faithful (Directory.read cfg readTable) (IsDirectory cfg isTable) := by
  have h' : ∀ {d}, Fits d → ∀ t p v, Reads (readTable t) d p v ↔ isTable t d p v :=
    fun hd t p v => (h t _ p hd).1 v
  obtain ⟨h1, h2, h3⟩ := C82_no_panic cfg readTable fun t => (h t).neverPanics
  exact ⟨.of_reads (fun hd _ _ => record_reads hd (h' hd)) h1, .of_reads (fun hd _ _ => lookups_reads hd (h' hd)) h2,
    .of_reads (fun hd _ _ => directory_reads h' hd) h3⟩

/-- Whatever the reader of the subtables, a lookup of what was read is the stored one, each of its subtables what the
reader gives at the place that the offsets lead to, for the type stored in the lookup; and its flags answer for the
word stored. -/
theorem C82_lookup {T : Type} (cfg : Cfg) (readTable : Nat → Reader T) {d : Data} {p i : Nat} (hd : Fits d)
    {t : Lookups T} (h : Reads (Lookups.read cfg readTable) d p t) {record : lookup.Record T}
    (hr : t.records[i]? = some record) :
    IsStoredLookup (fun n d p table => Reads (readTable n) d p table) d p i record ∧ AnswersForWord cfg d p i record :=
  have h : IsLookups cfg (fun n d p table => Reads (readTable n) d p table) d p t :=
    (lookups_reads hd fun _ _ _ => Iff.rfl).mp h
  ⟨IsLookups.stored h hr, answers_for_word h hr⟩

/-- Whatever the reader of the subtables, a directory that was read has version 1.0 or 1.1, its feature variations are
the stored ones, tags are looked up in its lists as in C18, and with `ignore-incomplete-directories` a zero offset
gives an empty list. -/
theorem C82_directory {T : Type} (cfg : Cfg) (readTable : Nat → Reader T) {d : Data} {p : Nat} (hd : Fits d)
    {t : Directory T} (h : Reads (Directory.read cfg readTable) d p t) :
    t.major_version = 1 ∧ (t.minor_version = 0 ∨ t.minor_version = 1) ∧ U16 d p t.major_version ∧
    U16 d (p + 2) t.minor_version ∧ HasStoredVariations d p t ∧
    (GetsFirst (·.tag) t.features.headers t.features.records t.features.get ∧
      GetsFirst (·.tag) t.scripts.headers t.scripts.records t.scripts.get ∧
      ∀ record ∈ t.scripts.records,
        GetsFirst (·.tag) record.language_headers record.language_records record.get) ∧
    (cfg.ignoreIncompleteDirectories = true → EmptyAtZero t) := by
  have h : IsDirectory cfg (fun n d p table => Reads (readTable n) d p table) d p t :=
    (directory_reads (fun _ _ _ _ => Iff.rfl) hd).mp h
  exact ⟨h.2.2.1, h.2.2.2.1, h.1, h.2.1, IsDirectory.variations h, IsDirectory.gets h, IsDirectory.empty_at_zero h⟩

/-- Whatever the reader of the subtables, any other version is refused; and when none of the three offsets is zero,
`ignore-incomplete-directories` makes no difference. -/
theorem C82_header {T : Type} (cfg : Cfg) (readTable : Nat → Reader T) {d : Data} {p : Nat} (hd : Fits d) :
    (∀ a b, U16 d p a → U16 d (p + 2) b → ¬(a = 1 ∧ (b = 0 ∨ b = 1)) → Refuses (Directory.read cfg readTable d p)) ∧
    (∀ a b c, U16 d (p + 4) a → U16 d (p + 6) b → U16 d (p + 8) c → 0 < a ∧ 0 < b ∧ 0 < c →
      Directory.read { cfg with ignoreIncompleteDirectories := true } readTable d p =
        Directory.read { cfg with ignoreIncompleteDirectories := false } readTable d p) :=
  ⟨fun _ _ ha hb h => other_version hd ha hb h, fun _ _ _ ha hb hc h => same_directory hd ha hb hc h⟩

/-! ## More bytes, other places -/

/-- What the reader makes of the bytes at `p` it makes of them wherever they are, with anything before and after: the
same value, ending at the same place among the bytes, the same refusal or the same panic; and missing data if data are
missing and nothing follows. -/
def Movable {α : Type} (r : Reader α) : Prop :=
  ∀ before d after p, Fits (before ++ d ++ after) →
    (∀ v q, r d p = .ok (v, q) → r (before ++ d ++ after) (before.length + p) = .ok (v, before.length + q)) ∧
    (∀ m, r d p = .error (.malformed m) →
      r (before ++ d ++ after) (before.length + p) = .error (.malformed m)) ∧
    (∀ m, r d p = .error (.panic m) → r (before ++ d ++ after) (before.length + p) = .error (.panic m)) ∧
    (after = [] → r d p = .error .eof → r (before ++ d ++ after) (before.length + p) = .error .eof)

theorem tight_iff (before d after : Data) : Tight d (before ++ d ++ after) before.length ↔ after = [] := by
  constructor
  · intro h
    have := h d.length (by simp)
    rw [List.getElem?_eq_none_iff] at this
    simp only [List.length_append] at this
    exact List.length_eq_zero_iff.mp (by omega)
  · rintro rfl i hi
    rw [List.getElem?_eq_none_iff] at hi ⊢
    simp only [List.length_append, List.length_nil]
    omega

theorem Movable.good {α : Type} {r : Reader α} (h : Movable r) {before d after : Data}
    (hd : Fits (before ++ d ++ after)) (p : Nat) :
    Good True d (before ++ d ++ after) before.length r r p (fun _ => True) := by
  obtain ⟨h1, h2, h3, h4⟩ := h before d after p hd
  unfold Good
  cases hr : r d p with
  | ok x => exact ⟨h1 x.1 x.2 hr, trivial⟩
  | error e =>
    cases e with
    | eof => exact fun ht => h4 ((tight_iff before d after).mp ht) hr
    | malformed m => exact h2 m hr
    | panic m => exact ⟨trivial, h3 m hr⟩

theorem Movable.of_good {α : Type} {r : Reader α}
    (h : ∀ before d after, Fits (before ++ d ++ after) → ∀ p,
      Good True d (before ++ d ++ after) before.length r r p (fun _ => True)) : Movable r := by
  intro before d after p hd
  have h := h before d after hd p
  unfold Good at h
  refine ⟨fun v q hr => ?_, fun m hr => ?_, fun m hr => ?_, fun ha hr => ?_⟩
  · rw [hr] at h; exact h.1
  · rw [hr] at h; exact h
  · rw [hr] at h; exact h.2
  · rw [hr] at h; exact h ((tight_iff before d after).mpr ha)

/-- If subtables can be moved and followed by anything, so can lookups, lookup lists and directories of them. -/
theorem C82_movable {T : Type} (cfg : Cfg) (readTable : Nat → Reader T) (h : ∀ t, Movable (readTable t)) :
    ForLayout Movable cfg readTable :=
  ⟨.of_good fun before d after hd => good_record (ext_mid before d after) hd fun t p => (h t).good hd p,
    .of_good fun before d after hd => good_lookups (ext_mid before d after) hd fun t p => (h t).good hd p,
    .of_good fun before d after hd => good_directory (ext_mid before d after) hd fun t p => (h t).good hd p⟩

/-! ## The tape -/

/-- If the reader of the subtables survives the failures of the tape, so do those of the lookup, the list and the
directory. -/
theorem C82_faults {T : Type} (cfg : Cfg) (readTable : Nat → Reader T) (h : ∀ t, SurvivesFaults (readTable t)) :
    ForLayout SurvivesFaults cfg readTable :=
  have hs : Sequential SurvivesFaults := ⟨fun _ _ => survivesFaults, fun h hf => h.bind hf⟩
  ⟨hs.record h, hs.lookups h, hs.directory h⟩

/-- If the reader of the subtables reports the end of the data exactly when it asks for bytes that do not exist, so do
those of the lookup, the list and the directory. -/
theorem C82_misses {T : Type} (cfg : Cfg) (readTable : Nat → Reader T) (h : ∀ t, MissesExactly (readTable t)) :
    ForLayout MissesExactly cfg readTable :=
  have hs : Sequential MissesExactly := ⟨fun _ _ => missesExactly, fun h hf => h.bind hf⟩
  ⟨hs.record h, hs.lookups h, hs.directory h⟩

/-- The reader asks for nothing before `b`, and if `m` it ends at `b` or later. -/
def After {α : Type} (b : Nat) (m : Bool) (d : Data) (r : Reader α) (p : Nat) : Prop :=
  (∀ q n, (q, n) ∈ r.fetches d p → b ≤ q) ∧ (m = true → ∀ v q, r d p = .ok (v, q) → b ≤ q)

theorem After.bind {α β : Type} {b : Nat} {m m' : Bool} {d : Data} {r : Reader α} {f : α → Reader β} {p : Nat}
    (h : After b m d r p) (hf : ∀ a q, (m = true → b ≤ q) → After b m' d (f a) q) : After b m' d (r >>= f) p := by
  unfold After
  rw [fetches_bind, run_bind_eq]
  cases hr : r d p with
  | error e => exact ⟨by simpa using h.1, fun _ _ _ h => by cases h⟩
  | ok x =>
    have h' := hf x.1 x.2 fun hm => h.2 hm x.1 x.2 hr
    refine ⟨fun q n hm => ?_, h'.2⟩
    rcases List.mem_append.mp hm with hm | hm
    · exact h.1 q n hm
    · exact h'.1 q n hm

theorem after_step {α : Type} {b : Nat} {d : Data} {r : Reader α} [hf : Forward r] [ho : Onward r] {p : Nat}
    (hp : b ≤ p) : After b true d r p :=
  ⟨fun q n h => Nat.le_trans hp (asksForward d p q n h), fun _ v q h => Nat.le_trans hp (ho.onward d p v q h).1⟩

theorem after_pure {α : Type} {b : Nat} {d : Data} {a : α} {p : Nat} : After b false d (pure a : Reader α) p :=
  ⟨fun _ _ h => (List.not_mem_nil h).elim, fun h => nomatch h⟩

theorem after_jumpTake {α : Type} {b base o : Nat} {d : Data} {r : Reader α} (hr : AsksForward r) (hb : b ≤ base)
    {p : Nat} : After b false d (jumpTake base o r) p := by
  refine ⟨fun q n h => ?_, fun h => by cases h⟩
  unfold jumpTake addU64 at h
  split at h
  · have := hr d (base + o) q n h
    omega
  · cases h

theorem after_jumpTakeMaybe {α : Type} {b base o : Nat} {d : Data} {r : Reader α} (hr : AsksForward r)
    (hb : b ≤ base) {p : Nat} : After b false d (jumpTakeMaybe base o r) p := by
  unfold jumpTakeMaybe
  split
  · exact (after_jumpTake hr hb).bind fun _ _ _ => after_pure
  · exact after_pure

theorem after_jumpTakeN {α : Type} {b base n : Nat} {os : List Nat} {d : Data} {r : Reader α} (hr : AsksForward r)
    (hb : b ≤ base) {p : Nat} : After b false d (jumpTakeN base n os r) p := by
  unfold jumpTakeN
  generalize 0 = i
  induction n generalizing i p with
  | zero => exact after_pure
  | succ n ih =>
    refine After.bind (m := false) ?_ fun _ _ _ => (ih _).bind fun _ _ _ => after_pure
    show After b false d (index os i >>= fun offset => jumpTake base offset r) p
    unfold index
    cases os[i]? with
    | none => exact ⟨fun _ _ h => (List.not_mem_nil h).elim, fun h => nomatch h⟩
    | some o => exact after_jumpTake hr hb

theorem after_part {α : Type} {cfg : Cfg} {b base o : Nat} {d : Data} {r : Reader α} {x : α} (hr : AsksForward r)
    (hb : b ≤ base) {p : Nat} : After b false d (part cfg base o r x) p := by
  unfold part
  split
  · exact (after_jumpTakeMaybe hr hb).bind fun _ _ _ => after_pure
  · exact after_jumpTake hr hb

theorem after_position {β : Type} {d : Data} {f : Nat → Reader β} {p : Nat} (h : After p false d (f p) p) :
    After p false d (position >>= f) p := h

theorem record_forward {T : Type} {cfg : Cfg} {readTable : Nat → Reader T} (h : ∀ t, AsksForward (readTable t)) :
    AsksForward (lookup.Record.read cfg readTable) := by
  intro d p
  refine And.left (b := (false = true → _)) (after_position (d := d) (p := p) ?_)
  refine (after_step (Nat.le_refl p)).bind fun _ _ hq => (after_step (hq rfl)).bind fun _ _ hq =>
    (after_step (hq rfl)).bind fun _ _ hq => (after_step (hq rfl)).bind fun _ _ hq =>
    (after_step (hq rfl)).bind fun _ _ _ => (after_jumpTakeN (h _) (Nat.le_refl p)).bind fun _ _ _ => after_pure

theorem lookups_forward {T : Type} {cfg : Cfg} {readTable : Nat → Reader T} (h : ∀ t, AsksForward (readTable t)) :
    AsksForward (Lookups.read cfg readTable) := by
  intro d p
  refine And.left (b := (false = true → _)) (after_position (d := d) (p := p) ?_)
  exact (after_step (Nat.le_refl p)).bind fun _ _ hq => (after_step (hq rfl)).bind fun _ _ hq =>
    (after_jumpTakeN (record_forward h) (Nat.le_refl p)).bind fun _ _ _ => after_pure

instance {a b : Nat} : Onward (variationOffset a b) := by
  unfold variationOffset
  split <;> infer_instance

/-- If the reader of the subtables asks for nothing before the place it starts at, nor do those of the lookup, the
list and the directory. -/
theorem C82_forward {T : Type} (cfg : Cfg) (readTable : Nat → Reader T) (h : ∀ t, AsksForward (readTable t)) :
    ForLayout AsksForward cfg readTable := by
  refine ⟨record_forward h, lookups_forward h, fun d p => ?_⟩
  refine And.left (b := (false = true → _)) (after_position (d := d) (p := p) ?_)
  exact (after_step (Nat.le_refl p)).bind fun _ _ hq => (after_step (hq rfl)).bind fun _ _ hq =>
    (after_step (hq rfl)).bind fun _ _ hq => (after_step (hq rfl)).bind fun _ _ hq =>
    (after_step (hq rfl)).bind fun _ _ hq => (after_step (hq rfl)).bind fun _ _ hq =>
    (after_step (hq rfl)).bind fun _ _ _ => (after_part asksForward (Nat.le_refl p)).bind fun _ _ _ =>
    (after_part asksForward (Nat.le_refl p)).bind fun _ _ _ =>
    (after_part (lookups_forward h) (Nat.le_refl p)).bind fun _ _ _ =>
    (after_jumpTakeMaybe asksForward (Nat.le_refl p)).bind fun _ _ _ => after_pure

/-! ## Subtables of one type instead of those of another -/

/-- A lookup with other subtables. -/
def mapRecord {T U : Type} (f : Nat → T → U) (record : lookup.Record T) : lookup.Record U :=
  { type_ := record.type_, flags := record.flags, table_count := record.table_count,
    table_offsets := record.table_offsets, mark_filtering_set := record.mark_filtering_set,
    tables := record.tables.map (f record.type_) }

/-- A lookup list with other subtables. -/
def mapLookups {T U : Type} (f : Nat → T → U) (lookups : Lookups T) : Lookups U :=
  { count := lookups.count, offsets := lookups.offsets, records := lookups.records.map (mapRecord f) }

/-- A directory with other subtables. -/
def mapDirectory {T U : Type} (f : Nat → T → U) (t : Directory T) : Directory U :=
  { major_version := t.major_version, minor_version := t.minor_version, script_offset := t.script_offset,
    feature_offset := t.feature_offset, lookup_offset := t.lookup_offset, variation_offset := t.variation_offset,
    scripts := t.scripts, features := t.features, lookups := mapLookups f t.lookups, variations := t.variations }

theorem atOffsets_map {α β : Type} {S : Nat → α → Prop} {S' : Nat → β → Prop} {f : α → β} {b : Nat} {os : List Nat}
    {xs : List α} (h : ∀ p v, S p v → S' p (f v)) (hx : AtOffsets S b os xs) : AtOffsets S' b os (xs.map f) := by
  refine ⟨by rw [List.length_map]; exact hx.1, fun i o x ho hx' => ?_⟩
  rw [List.getElem?_map, Option.map_eq_some_iff] at hx'
  obtain ⟨v, hv, rfl⟩ := hx'
  exact h _ _ (hx.2 i o v ho hv)

section
variable {T U : Type} {cfg : Cfg} {isTable : Nat → Data → Nat → T → Prop} {isTable' : Nat → Data → Nat → U → Prop}
  {f : Nat → T → U} {d : Data}

theorem record_map (h : ∀ n p v, isTable n d p v → isTable' n d p (f n v)) {p : Nat} {t : lookup.Record T}
    (ht : IsLookupRecord cfg isTable d p t) : IsLookupRecord cfg isTable' d p (mapRecord f t) := by
  obtain ⟨h1, h2, h3, h4, h5, h6, h7⟩ := ht
  exact ⟨h1, h2, h3, h4, h5, h6, atOffsets_map (h _) h7⟩

theorem lookups_map (h : ∀ n p v, isTable n d p v → isTable' n d p (f n v)) {p : Nat} {t : Lookups T}
    (ht : IsLookups cfg isTable d p t) : IsLookups cfg isTable' d p (mapLookups f t) := by
  obtain ⟨h1, h2, h3⟩ := ht
  exact ⟨h1, h2, atOffsets_map (fun _ _ => record_map h) h3⟩

theorem directory_map (h : ∀ n p v, isTable n d p v → isTable' n d p (f n v)) {p : Nat} {t : Directory T}
    (ht : IsDirectory cfg isTable d p t) : IsDirectory cfg isTable' d p (mapDirectory f t) := by
  obtain ⟨h1, h2, h3, h4, h5, h6, h7, h8, h9, h10, h11, h12⟩ := ht
  refine ⟨h1, h2, h3, h4, h5, h6, h7, h8, h9, h10, ?_, h12⟩
  unfold IsPart at h11 ⊢
  change if cfg.ignoreIncompleteDirectories = true ∧ t.lookup_offset = 0 then _ else _
  split
  · next hc =>
    rw [if_pos hc] at h11
    show mapLookups f t.lookups = _
    rw [h11]
    rfl
  · next hc =>
    rw [if_neg hc] at h11
    exact lookups_map h h11

end

/-- Whatever two types of subtables: if on some content every subtable that the one reader gives corresponds to one
that the other gives at the same place for the same type, then every lookup, lookup list or directory read with the
one is read with the other, the same but for the corresponding subtables. -/
theorem C82_map {T U : Type} (cfg : Cfg) (readT : Nat → Reader T) (readU : Nat → Reader U) (f : Nat → T → U) {d : Data}
    (hd : Fits d) (h : ∀ n p v, Reads (readT n) d p v → Reads (readU n) d p (f n v)) (p : Nat) :
    (∀ t, Reads (lookup.Record.read cfg readT) d p t → Reads (lookup.Record.read cfg readU) d p (mapRecord f t)) ∧
    (∀ t, Reads (Lookups.read cfg readT) d p t → Reads (Lookups.read cfg readU) d p (mapLookups f t)) ∧
    (∀ t, Reads (Directory.read cfg readT) d p t → Reads (Directory.read cfg readU) d p (mapDirectory f t)) := by
  refine ⟨fun t ht => ?_, fun t ht => ?_, fun t ht => ?_⟩
  · exact (record_reads (isTable := fun n d p v => Reads (readU n) d p v) hd fun _ _ _ => Iff.rfl).mpr (record_map h
      ((record_reads (isTable := fun n d p v => Reads (readT n) d p v) hd fun _ _ _ => Iff.rfl).mp ht))
  · exact (lookups_reads (isTable := fun n d p v => Reads (readU n) d p v) hd fun _ _ _ => Iff.rfl).mpr (lookups_map h
      ((lookups_reads (isTable := fun n d p v => Reads (readT n) d p v) hd fun _ _ _ => Iff.rfl).mp ht))
  · exact (directory_reads (isTable := fun n d p v => Reads (readU n) d p v) (fun _ _ _ _ => Iff.rfl) hd).mpr
      (directory_map h
        ((directory_reads (isTable := fun n d p v => Reads (readT n) d p v) (fun _ _ _ _ => Iff.rfl) hd).mp ht))

/-- In particular, whatever two types of subtables: two directories read at the same place are the same but for their
subtables, of which every lookup has as many. -/
theorem C82_same {T U : Type} (cfg : Cfg) (readT : Nat → Reader T) (readU : Nat → Reader U) {d : Data} (hd : Fits d)
    {p : Nat} {t : Directory T} {u : Directory U} (ht : Reads (Directory.read cfg readT) d p t)
    (hu : Reads (Directory.read cfg readU) d p u) :
    mapDirectory (fun _ _ => ()) t = mapDirectory (fun _ _ => ()) u := by
  have hs : ∀ {V : Type} (readV : Nat → Reader V) n p v, Reads (readV n) d p v →
      Reads ((fun _ => pure () : Nat → Reader Unit) n) d p () := fun _ _ p _ _ => ⟨p, rfl⟩
  obtain ⟨q, h1⟩ := (C82_map cfg readT _ (fun _ _ => ()) hd (hs readT) p).2.2 t ht
  obtain ⟨q', h2⟩ := (C82_map cfg readU _ (fun _ _ => ()) hd (hs readU) p).2.2 u hu
  rw [h1] at h2
  exact congrArg Prod.fst (Except.ok.inj h2)

/-! ## A case -/

/-- Subtables of which only the format is read. -/
def formatOnly (_ : Nat) : Reader Nat := u16

/-- The sample of C19: the formats of its two subtables. -/
example : Reads (Lookups.read ⟨false, false, false, false, false, true⟩ formatOnly) sampleLookups 0
    ⟨1, [4], [⟨1, 16, 2, [12, 18], some 9, [1, 1]⟩]⟩ := by decide +kernel

/-- A GSUB table with no scripts, no features and that lookup list. -/
def sampleLayout : Data := bytes [0, 1,  0, 0,  0, 10,  0, 10,  0, 12,  0, 0] ++ sampleLookups

example : let cfg : Cfg := ⟨false, false, false, false, false, true⟩
    let lookup : List (lookup.Record gsub.Type_) := [⟨1, 16, 2, [12, 18], some 9,
      [.singleSubstitution (.format1 ⟨1, 12, 3, .format1 ⟨1, 1, [70]⟩⟩),
       .singleSubstitution (.format1 ⟨1, 6, 4, .format1 ⟨1, 1, [70]⟩⟩)]⟩]
    let t : Directory gsub.Type_ := ⟨1, 0, 10, 10, 12, 0, ⟨0, [], []⟩, ⟨0, [], []⟩, ⟨1, [4], lookup⟩, none⟩
    Reads (Directory.read cfg gsub.Type_.read) sampleLayout 0 t ∧
    Reads (Directory.read cfg formatOnly) sampleLayout 0 (mapDirectory (fun _ _ => 1) t) := by decide +kernel

/-- The reader of these subtables meets the hypotheses. -/
example (n : Nat) : Faithful (formatOnly n) U16 ∧ NeverPanics (formatOnly n) ∧ Movable (formatOnly n) ∧
    SurvivesFaults (formatOnly n) ∧ MissesExactly (formatOnly n) ∧ AsksForward (formatOnly n) := by
  unfold formatOnly
  have hf : Faithful u16 U16 := faithful
  refine ⟨hf, hf.neverPanics, ?_, survivesFaults, missesExactly, asksForward⟩
  exact .of_good fun before d after hd p => (Reloc.good (ext_mid before d after) hd p).mono fun _ _ => trivial

end OpenType.Props
