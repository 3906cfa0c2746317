import Verif.Spec.Collection
import Verif.Props.FontFile
/-! # C88: the fonts of a collection, one by one -/

namespace OpenType.Props
open OpenType Spec offsets

/-- There is a table directory at `start`, its first record of the table gives the offset, which counts from the
beginning of the file, and, unless the build ignores checksums, the record's checksum is the sum of the words there. -/
def TableFrom (accept : Tag → Bool) (cfg : Cfg) (d : Data) (start : Nat) (table : TableType) (offset : Nat) : Prop :=
  ∃ directory record, IsOffsets accept d start directory ∧
    FirstWith table.tag directory.records record ∧ record.offset = offset ∧
    (cfg.ignoreInvalidChecksums = true ∨
      ∃ words, U32s d offset ((record.size + 3) / 4) words ∧
        record.checksum =
          (if table.tag = 0x68656164 then words.set 2 0 else words).sum % 4294967296)

/-- Reading the font at `start` and taking the table from it, with the tape at `p`, gives `t`. -/
def TakesFrom {α : Type} (accept : Tag → Bool) (cfg : Cfg) (d : Data) (start p : Nat) (table : TableType)
    (r : Reader α) (t : Option α) : Prop :=
  ∃ font, Reads (Font.read accept) d start font ∧ Reads (font.take cfg tableChecksum table r) d p t

/-- A font is read from any place of a file exactly when there is a table directory, and it is that directory. -/
theorem C88_font (accept : Tag → Bool) {d : Data} (hd : Fits d) (start : Nat) (font : Font) :
    Reads (Font.read accept) d start font ↔ IsOffsets accept d start font.offsets := by
  unfold Font.read
  rw [reads_bind_indep]
  constructor
  · rintro ⟨o, h, h'⟩
    rw [reads_pure] at h'
    subst h'
    exact (reads_offsets hd).mp h
  · intro h
    exact ⟨font.offsets, (reads_offsets hd).mpr h, reads_pure.mpr rfl⟩

/-- Taking a table from the font at `start` gives exactly what the file stores at the offset of the table's first
record, counting from the beginning of the file and not from the font. -/
theorem C88_stored {α : Type} {r : Reader α} {S : Data → Nat → α → Prop} (accept : Tag → Bool) (cfg : Cfg)
    (table : TableType) {d : Data} (hd : Fits d) (hf : ∀ q t, Reads r d q t ↔ S d q t) (start p : Nat) (t : α) :
    TakesFrom accept cfg d start p table r (some t) ↔
      ∃ offset, TableFrom accept cfg d start table offset ∧ S d offset t := by
  constructor
  · rintro ⟨font, h1, h2⟩
    obtain ⟨record, g1, g2, g3⟩ := C04_only_first cfg tableChecksum font table r d p t h2
    have ht : record.tag = table.tag := by obtain ⟨_, _, _, h, _⟩ := g1; exact h
    exact ⟨record.offset, ⟨_, record, (C88_font accept hd start font).mp h1, g1, rfl, (passes_iff ht).mp g2⟩,
      (hf _ _).mp g3⟩
  · rintro ⟨_, ⟨directory, record, ho, g1, rfl, g2⟩, g3⟩
    have ht : record.tag = table.tag := by obtain ⟨_, _, _, h, _⟩ := g1; exact h
    refine ⟨⟨directory⟩, (C88_font accept hd start _).mpr ho, ?_⟩
    obtain ⟨q, hq⟩ := (hf _ _).mpr g3
    obtain ⟨_, h, _⟩ := C04_first_record cfg tableChecksum ⟨directory⟩ table record r (fun _ : Unit => r) () d p g1
      ((passes_iff ht).mpr g2)
    rw [hq] at h
    exact ⟨_, h⟩

/-- For the tables the library itself reads. -/
theorem C88_tables (accept : Tag → Bool) (cfg : Cfg) {d : Data} (hd : Fits d) (start p : Nat) :
    (∀ t, TakesFrom accept cfg d start p .glyphSubstitution (gsub.GlyphSubstitution.read cfg) (some t) ↔
      ∃ offset, TableFrom accept cfg d start .glyphSubstitution offset ∧ gsub.IsGlyphSubstitution cfg d offset t) ∧
    (∀ t, TakesFrom accept cfg d start p .glyphPositioning (gpos.GlyphPositioning.read cfg) (some t) ↔
      ∃ offset, TableFrom accept cfg d start .glyphPositioning offset ∧ gpos.IsGlyphPositioning cfg d offset t) ∧
    (∀ t, TakesFrom accept cfg d start p .glyphDefinition (gdef.GlyphDefinition.read cfg) (some t) ↔
      ∃ offset, TableFrom accept cfg d start .glyphDefinition offset ∧ gdef.IsGlyphDefinitionTaken cfg d offset t) ∧
    (∀ t, TakesFrom accept cfg d start p .colorPalettes cpal.ColorPalettes.read (some t) ↔
      ∃ offset, TableFrom accept cfg d start .colorPalettes offset ∧ IsColorPalettes d offset t) ∧
    (∀ t, TakesFrom accept cfg d start p .fontVariations (fvar.FontVariations.read cfg) (some t) ↔
      ∃ offset, TableFrom accept cfg d start .fontVariations offset ∧ IsFontVariations cfg d offset t) :=
  ⟨C88_stored accept cfg _ hd (fun _ _ => reads_parses hd) start p,
    C88_stored accept cfg _ hd (fun _ _ => reads_parses hd) start p,
    C88_stored accept cfg _ hd (fun _ _ => reads_parses hd) start p,
    C88_stored accept cfg _ hd (fun _ _ => reads_parses hd) start p,
    C88_stored accept cfg _ hd (fun _ _ => reads_parses hd) start p⟩

/-- The table is absent exactly when there is a directory at `start` that has no such record. -/
theorem C88_absent {α : Type} {r : Reader α} (accept : Tag → Bool) (cfg : Cfg)
    (table : TableType) {d : Data} (hd : Fits d) (start p : Nat) :
    TakesFrom accept cfg d start p table r none ↔
      ∃ directory, IsOffsets accept d start directory ∧ NoneWith table.tag directory.records := by
  constructor
  · rintro ⟨font, h1, h2⟩
    exact ⟨_, (C88_font accept hd start font).mp h1, exists_false.mp (take_none.mp h2)⟩
  · rintro ⟨directory, ho, h⟩
    exact ⟨⟨directory⟩, (C88_font accept hd start _).mpr ho, take_none.mpr (exists_false.mpr h)⟩

/-- Fonts whose first records of a table are the same share the table: whatever is read with one of them, be it a
value or an error, is read with the other. -/
theorem C88_shared {α : Type} (cfg : Cfg) (checksum : offsets.Record → Reader Nat) (font font' : Font)
    (table : TableType) (record : offsets.Record) (h : FirstWith table.tag font.offsets.records record)
    (h' : FirstWith table.tag font'.offsets.records record) (r : Reader α) :
    font.take cfg checksum table r = font'.take cfg checksum table r := by
  unfold Font.take
  rw [show font.position cfg checksum table = font'.position cfg checksum table from
    (Font.positionIn_first h).trans (Font.positionIn_first h').symm]

/-! ## Collections that were written -/

/-- What a collection is written from. -/
structure Collectable (accept : Tag → Bool) (members : List Member) (pool : List Data) : Prop where
  format : ∀ member ∈ members, member.version < 4294967296 ∧ accept member.version = true
  numbers : ∀ member ∈ members,
    member.searchRange < 65536 ∧ member.entrySelector < 65536 ∧ member.rangeShift < 65536
  count : ∀ member ∈ members, member.tables.length < 65536
  tables : ∀ member ∈ members, ∀ table ∈ member.tables, table.1 < 4294967296 ∧ table.2 < pool.length
  size : (collectionFile members pool).length < 4294967296

theorem encDirectory_length (directory : offsets.Offsets) :
    (encDirectory directory).length = 12 + 16 * directory.records.length := by
  simp only [encDirectory, List.length_append, enc32_length, enc16_length,
    flatMap_length fun r _ => encRecord_length r]

/-- A directory that was written somewhere. -/
theorem offsets_stored {accept : Tag → Bool} {d : Data} {p : Nat} {directory : offsets.Offsets}
    (hs : Stored d p (encDirectory directory)) (hv : directory.header.version < 4294967296)
    (ha : accept directory.header.version = true) (h1 : directory.header.search_range < 65536)
    (h2 : directory.header.entry_selector < 65536) (h3 : directory.header.range_shift < 65536)
    (hn : directory.header.table_count < 65536) (hc : directory.records.length = directory.header.table_count)
    (hr : ∀ r ∈ directory.records,
      r.tag < 4294967296 ∧ r.checksum < 4294967296 ∧ r.offset < 4294967296 ∧ r.size < 4294967296) :
    IsOffsets accept d p directory := by
  unfold encDirectory at hs
  simp only [stored_append, List.length_append, enc32_length, enc16_length] at hs
  obtain ⟨⟨⟨⟨⟨s1, s2⟩, s3⟩, s4⟩, s5⟩, s6⟩ := hs
  exact ⟨at32.mpr ⟨hv, s1⟩, ha, at16.mpr ⟨hn, s2⟩, at16.mpr ⟨h1, s3⟩, at16.mpr ⟨h2, s4⟩, at16.mpr ⟨h3, s5⟩,
    (at_array (d := d) (S := IsOffsetsRecord d) (f := encRecord) (H := fun _ => True) (size := 16)
      (V := fun r => r.tag < 4294967296 ∧ r.checksum < 4294967296 ∧ r.offset < 4294967296 ∧ r.size < 4294967296)
      (fun p x => at_record) fun x _ => encRecord_length x).mpr ⟨hc, hr, s6, fun _ _ => trivial⟩⟩

theorem directories_length (members all : List Member) (pool : List Data) :
    (members.flatMap fun member => encDirectory (memberDirectory all pool member).offsets).length =
      (members.map Member.size).sum := by
  induction members with
  | nil => rfl
  | cons member members ih =>
    rw [List.flatMap_cons, List.length_append, ih, encDirectory_length, List.map_cons, List.sum_cons]
    simp only [memberDirectory, List.length_map, Member.size]

theorem stored_part {β : Type} {d : Data} {p i : Nat} {xs : List β} {f : β → Data} {x : β}
    (h : Stored d p (xs.flatMap f)) (hi : xs[i]? = some x) :
    Stored d (p + ((xs.take i).flatMap f).length) (f x) := by
  have hsplit : xs = xs.take i ++ x :: xs.drop (i + 1) := by
    obtain ⟨hlt, rfl⟩ := List.getElem?_eq_some_iff.mp hi
    rw [← List.drop_eq_getElem_cons hlt, List.take_append_drop]
  rw [hsplit, List.flatMap_append, List.flatMap_cons, stored_append, stored_append] at h
  exact h.2.1

theorem collection_stored (members : List Member) (pool : List Data) (after : Data) :
    Stored (collectionFile members pool ++ after) 0 (enc32 0x74746366) ∧
    (∀ i, i < members.length →
      Stored (collectionFile members pool ++ after) (12 + 4 * i) (enc32 (memberOffset members i))) ∧
    (∀ i member, members[i]? = some member →
      Stored (collectionFile members pool ++ after) (memberOffset members i)
        (encDirectory (memberDirectory members pool member).offsets)) ∧
    (∀ k body, pool[k]? = some body →
      ∃ pre post, collectionFile members pool ++ after = pre ++ pad body ++ post ∧
        pre.length = poolOffset members pool k) := by
  have hs : Stored (collectionFile members pool ++ after) 0 (collectionFile members pool) := by
    intro i x hi
    rw [Nat.zero_add, List.getElem?_append_left (List.getElem?_eq_some_iff.mp hi).1]
    exact hi
  have h4 : ∀ k body, pool[k]? = some body →
      ∃ pre post, collectionFile members pool ++ after = pre ++ pad body ++ post ∧
        pre.length = poolOffset members pool k := by
    intro k body hk
    have hsplit : pool = pool.take k ++ body :: pool.drop (k + 1) := by
      obtain ⟨hlt, rfl⟩ := List.getElem?_eq_some_iff.mp hk
      rw [← List.drop_eq_getElem_cons hlt, List.take_append_drop]
    refine ⟨enc32 0x74746366 ++ enc16 1 ++ enc16 0 ++ enc32 members.length ++
      enc32s ((List.range members.length).map (memberOffset members)) ++
      members.flatMap (fun member => encDirectory (memberDirectory members pool member).offsets) ++
      (pool.take k).flatMap pad, (pool.drop (k + 1)).flatMap pad ++ after, ?_, ?_⟩
    · unfold collectionFile
      conv => lhs; arg 1; arg 2; rw [hsplit]
      rw [List.flatMap_append, List.flatMap_cons]
      simp only [List.append_assoc]
    · simp only [List.length_append, enc32_length, enc16_length, directories_length, enc32s,
        flatMap_length fun n _ => enc32_length n, List.length_map, List.length_range, poolOffset, memberOffset,
        List.take_length]
  refine ⟨?_, ?_, ?_, h4⟩
  all_goals
    generalize collectionFile members pool ++ after = d at hs
    unfold collectionFile at hs
    simp only [stored_append, List.length_append, enc32_length, enc16_length, Nat.zero_add] at hs
    obtain ⟨⟨⟨⟨⟨⟨s1, s2⟩, s3⟩, s4⟩, s5⟩, s6⟩, s7⟩ := hs
  · exact s1
  · intro i hi
    have := stored_part s5 (i := i) (x := memberOffset members i) (by
      rw [List.getElem?_map, List.getElem?_range hi]; rfl)
    rw [flatMap_length fun n _ => enc32_length n, List.length_take, List.length_map, List.length_range,
      Nat.min_eq_left (Nat.le_of_lt hi)] at this
    exact this
  · intro i member hi
    have := stored_part s6 hi
    rw [directories_length] at this
    simp only [enc32s_length, List.length_map, List.length_range] at this
    exact this

/-- `File::read` refuses a collection. -/
theorem C88_refused (accept : Tag → Bool) (members : List Member) (pool : List Data) (after : Data)
    (hd : Fits (collectionFile members pool ++ after)) :
    ∃ message, File.read accept (collectionFile members pool ++ after) 0 = .error (.malformed message) :=
  C01_collection accept _ 0 hd (at32.mpr ⟨by decide, (collection_stored members pool after).1⟩)

/-- But each of its fonts can be read from where the header says it is. -/
theorem C88_opens {accept : Tag → Bool} {members : List Member} {pool : List Data}
    (hw : Collectable accept members pool) {after : Data} (hd : Fits (collectionFile members pool ++ after)) {i : Nat}
    {member : Member} (hi : members[i]? = some member) :
    ∃ start, U32 (collectionFile members pool ++ after) (12 + 4 * i) start ∧
      Reads (Font.read accept) (collectionFile members pool ++ after) start
        (memberDirectory members pool member) := by
  obtain ⟨_, h2, h3, h4⟩ := collection_stored members pool after
  have hm := List.mem_of_getElem? hi
  have hl : memberOffset members i < 4294967296 ∧
      ∀ k body, pool[k]? = some body → poolOffset members pool k + (pad body).length < 4294967296 := by
    obtain ⟨_, _, h3, h4⟩ := collection_stored members pool []
    simp only [List.append_nil] at h3 h4
    have := hw.size
    refine ⟨?_, fun k body hk => ?_⟩
    · have h := h3 i member hi 0 _ (List.getElem?_eq_getElem (by rw [encDirectory_length]; omega))
      have := (List.getElem?_eq_some_iff.mp h).1
      omega
    · obtain ⟨pre, post, e, hp⟩ := h4 k body hk
      rw [e] at this
      simp only [List.length_append] at this
      omega
  have hlt := (List.getElem?_eq_some_iff.mp hi).1
  refine ⟨memberOffset members i, at32.mpr ⟨hl.1, h2 i hlt⟩, (C88_font accept hd _ _).mpr ?_⟩
  obtain ⟨n1, n2, n3⟩ := hw.numbers member hm
  refine offsets_stored (h3 i member hi) (hw.format member hm).1 (hw.format member hm).2 n1 n2 n3 (hw.count member hm)
    (List.length_map _) ?_
  intro r hr
  obtain ⟨table, ht, rfl⟩ := List.mem_map.mp hr
  obtain ⟨t1, t2⟩ := hw.tables member hm table ht
  have hk := hl.2 table.2 _ (List.getElem?_eq_getElem t2)
  have hb := pad_length pool[table.2]
  unfold memberRecord
  dsimp only
  rw [List.getD_eq_getElem?_getD, List.getElem?_eq_getElem t2, Option.getD_some]
  exact ⟨t1, by unfold checksumOf; omega, by omega, by omega⟩

/-- And its tables can be taken: if the reader finds a value wherever the bytes of a table are, then it is what taking
the table from the font gives, whatever other fonts use these bytes, and under whatever tags. -/
theorem C88_takes {accept : Tag → Bool} {members : List Member} {pool : List Data}
    (hw : Collectable accept members pool) {after : Data} (hd : Fits (collectionFile members pool ++ after)) {i : Nat}
    {member : Member} (hi : members[i]? = some member) {table : TableType} {before rest : List (Tag × Nat)} {k : Nat}
    {body : Data} (hm : member.tables = before ++ (table.tag, k) :: rest)
    (hb : ∀ other ∈ before, other.1 ≠ table.tag) (hk : pool[k]? = some body) {α : Type} {r : Reader α} {t : α}
    (hr : ∀ pre post, Fits (pre ++ body ++ post) → Reads r (pre ++ body ++ post) pre.length t)
    (cfg : Cfg) (p : Nat) :
    ∃ start, U32 (collectionFile members pool ++ after) (12 + 4 * i) start ∧
      TakesFrom accept cfg (collectionFile members pool ++ after) start p table r (some t) := by
  obtain ⟨start, h1, h2⟩ := C88_opens hw hd hi
  refine ⟨start, h1, _, h2, ?_⟩
  obtain ⟨_, _, _, h4⟩ := collection_stored members pool after
  obtain ⟨pre, post, e1, e2⟩ := h4 k body hk
  have eb : pool.getD k [] = body := by rw [List.getD_eq_getElem?_getD, hk]; rfl
  have hF : FirstWith table.tag (memberDirectory members pool member).offsets.records
      ⟨table.tag, checksumOf table.tag body, pre.length, body.length⟩ := by
    refine ⟨before.map (memberRecord members pool), rest.map (memberRecord members pool), ?_, rfl, ?_⟩
    · unfold memberDirectory
      dsimp only
      rw [hm, List.map_append, List.map_cons, e2]
      simp only [memberRecord, eb]
    · intro other ho
      obtain ⟨x, hx, rfl⟩ := List.mem_map.mp ho
      exact hb x hx
  have hs : Stored (collectionFile members pool ++ after) pre.length (pad body) := by
    rw [e1]
    intro i x hi
    have := (List.getElem?_eq_some_iff.mp hi).1
    rw [List.append_assoc, List.getElem?_append_right (by omega), Nat.add_sub_cancel_left,
      List.getElem?_append_left this]
    exact hi
  obtain ⟨_, h, _⟩ := C04_first_record cfg tableChecksum (memberDirectory members pool member) table _ r
    (fun _ : Unit => r) () (collectionFile members pool ++ after) p hF (.inr ⟨_, checksum_written hs⟩)
  have e3 : collectionFile members pool ++ after =
      pre ++ body ++ (List.replicate ((4 - body.length % 4) % 4) 0 ++ post) := by
    rw [e1]; unfold pad; simp only [List.append_assoc]
  have hr := hr pre (List.replicate ((4 - body.length % 4) % 4) 0 ++ post) (e3 ▸ hd)
  rw [← e3] at hr
  obtain ⟨q, hq⟩ := hr
  dsimp only at h
  rw [hq] at h
  exact ⟨_, h⟩

/-- In particular a table that its reader reads from a file of its own is read from every font that has it. The reader
has to be one of those of `C41_relocatable`. -/
theorem C88_alone {accept : Tag → Bool} {members : List Member} {pool : List Data}
    (hw : Collectable accept members pool) {after : Data} (hd : Fits (collectionFile members pool ++ after)) {i : Nat}
    {member : Member} (hi : members[i]? = some member) {table : TableType} {before rest : List (Tag × Nat)} {k : Nat}
    {body : Data} (hm : member.tables = before ++ (table.tag, k) :: rest)
    (hb : ∀ other ∈ before, other.1 ≠ table.tag) (hk : pool[k]? = some body) {α : Type} {r : Reader α} {t : α}
    (hr : Relocatable r) (ht : Reads r body 0 t) (cfg : Cfg) (p : Nat) :
    ∃ start, U32 (collectionFile members pool ++ after) (12 + 4 * i) start ∧
      TakesFrom accept cfg (collectionFile members pool ++ after) start p table r (some t) :=
  C88_takes hw hd hi hm hb hk (fun pre post hd => by simpa using (hr pre body post 0 hd).1 t ht) cfg p

/-! ## Fonts inside other files -/

/-- The directory with all offsets increased. -/
def shifted (k : Nat) (directory : Offsets) : Offsets :=
  { directory with records := directory.records.map fun record => { record with offset := k + record.offset } }

theorem shifted_first {k : Nat} {tag : Tag} {directory : Offsets} {record : offsets.Record}
    (h : FirstWith tag directory.records record) :
    FirstWith tag (shifted k directory).records { record with offset := k + record.offset } := by
  obtain ⟨before, rest, e, ht, hb⟩ := h
  refine ⟨_, _, by unfold shifted; dsimp only; rw [e, List.map_append, List.map_cons], ht, fun other ho => ?_⟩
  obtain ⟨x, hx, rfl⟩ := List.mem_map.mp ho
  exact hb x hx

theorem words_moved {d d' : Data} {k o n : Nat} {ws : List Nat} (h : ∀ i, o ≤ i → d'[k + i]? = d[i]?) :
    U32s d' (k + o) n ws ↔ U32s d o n ws := by
  rw [at32s, at32s]
  refine and_congr_right fun _ => and_congr_right fun _ => ?_
  unfold Stored
  simp only [Nat.add_assoc, h _ (Nat.le_add_right o _)]

theorem checksum_moved {d d' : Data} {k : Nat} {record : offsets.Record} {p p' : Nat}
    (h : ∀ i, record.offset ≤ i → d'[k + i]? = d[i]?) :
    conclusion (tableChecksum { record with offset := k + record.offset } d' p') =
      conclusion (tableChecksum record d p) := by
  have key : ∀ s, tableChecksum { record with offset := k + record.offset } d' p' = .ok (s, p') ↔
      tableChecksum record d p = .ok (s, p) := by
    intro s
    rw [run_tableChecksum, run_tableChecksum]
    simp only [words_moved h, and_true]
    rfl
  rcases tableChecksum_cases record d p with ⟨s, e⟩ | e
  · rw [e, (key s).mpr e]
    rfl
  · rcases tableChecksum_cases { record with offset := k + record.offset } d' p' with ⟨s, e'⟩ | e'
    · rw [(key s).mp e'] at e
      cases e
    · rw [e, e']

/-- A font may be put into another file, `k` bytes from its beginning: if the offsets of the directory are increased by
`k` and the file goes on in the same way from the table on, then what is taken is the same, be it a value or an error. The
reader has to be one of those of `C50_depends_on_rest`. -/
theorem C88_embedded {α : Type} {r : Reader α} (hr : DependsOnRest r) (accept : Tag → Bool) (cfg : Cfg)
    (table : TableType) {d d' : Data} (hd : Fits d) (hd' : Fits d') {start k : Nat} {directory : Offsets}
    {record : offsets.Record} (h1 : IsOffsets accept d start directory)
    (h2 : IsOffsets accept d' (k + start) (shifted k directory)) (hf : FirstWith table.tag directory.records record)
    (h3 : ∀ i, record.offset ≤ i → d'[k + i]? = d[i]?) (p p' : Nat) :
    Reads (Font.read accept) d start ⟨directory⟩ ∧ Reads (Font.read accept) d' (k + start) ⟨shifted k directory⟩ ∧
    conclusion (Font.take cfg tableChecksum ⟨shifted k directory⟩ table r d' p') =
      conclusion (Font.take cfg tableChecksum ⟨directory⟩ table r d p) := by
  refine ⟨(C88_font accept hd _ _).mpr h1, (C88_font accept hd' _ _).mpr h2, ?_⟩
  have e1 : Font.position cfg tableChecksum ⟨directory⟩ table = Font.found cfg tableChecksum record :=
    Font.positionIn_first hf
  have e2 : Font.position cfg tableChecksum ⟨shifted k directory⟩ table =
      Font.found cfg tableChecksum { record with offset := k + record.offset } :=
    Font.positionIn_first (shifted_first hf)
  have hr : conclusion (r d' (k + record.offset)) = conclusion (r d record.offset) := by
    refine hr _ _ _ _ hd' hd (List.ext_getElem? fun i => ?_)
    rw [List.getElem?_drop, List.getElem?_drop, Nat.add_assoc, h3 _ (Nat.le_add_right _ _)]
  have hc := checksum_moved (p := p) (p' := p') h3
  rw [Font.take_eq, Font.take_eq, e1, e2]
  have tail : conclusion (match r d' (k + record.offset) with
        | .ok (x, q) => Except.ok (some x, q)
        | .error e => .error e) =
      conclusion (match r d record.offset with
        | .ok (x, q) => Except.ok (some x, q)
        | .error e => .error e) := by
    revert hr
    cases r d' (k + record.offset) <;> cases r d record.offset <;> simp_all [conclusion]
  cases hi : cfg.ignoreInvalidChecksums with
  | true =>
    rw [Font.found_ignore hi, Font.found_ignore hi]
    exact tail
  | false =>
    rw [Font.found_check hi, Font.found_check hi]
    dsimp only
    revert hc
    cases tableChecksum { record with offset := k + record.offset } d' p' with
    | error e =>
      cases tableChecksum record d p with
      | error e' => intro hc; simp_all [conclusion]
      | ok y => intro hc; simp_all [conclusion]
    | ok x =>
      cases tableChecksum record d p with
      | error e' => intro hc; simp_all [conclusion]
      | ok y =>
        obtain ⟨x, _⟩ := x
        obtain ⟨y, _⟩ := y
        intro hc
        obtain rfl : x = y := by simpa [conclusion] using hc
        by_cases hy : record.checksum = x
        · simp only [hy, if_true]
          exact tail
        · simp only [hy, if_false]

/-! ## An example -/

/-- Two fonts; the first has a `head` and palettes, the second two records for palettes, the
first of which is for the same ones. -/
def sampleMembers : List Member :=
  [⟨65536, 32, 1, 0, [(TableType.fontHeader.tag, 1), (TableType.colorPalettes.tag, 0)]⟩,
    ⟨65536, 32, 1, 0, [(TableType.colorPalettes.tag, 0), (TableType.colorPalettes.tag, 1)]⟩]

def samplePool : List Data := [samplePalettes, bytes [0, 0, 0, 1,  0, 0, 0, 2,  9, 9, 9, 9,  3]]

theorem sample_collectable : Collectable sampleAccept sampleMembers samplePool where
  format := by decide +kernel
  numbers := by decide +kernel
  count := by decide +kernel
  tables := by decide +kernel
  size := by decide +kernel

/-- How the file begins: the two directories are at 20 and 64, and the palettes, the first of the tables, at 108. -/
example : (collectionFile sampleMembers samplePool).take 64 = bytes (
    [0x74, 0x74, 0x63, 0x66,  0, 1,  0, 0,  0, 0, 0, 2,  0, 0, 0, 20,  0, 0, 0, 64] ++
    [0, 1, 0, 0,  0, 2,  0, 32,  0, 1,  0, 0] ++
    [0x68, 0x65, 0x61, 0x64,  3, 0, 0, 3,  0, 0, 0, 140,  0, 0, 0, 13] ++
    [0x43, 0x50, 0x41, 0x4C,  30, 36, 15, 42,  0, 0, 0, 108,  0, 0, 0, 30]) := by decide +kernel

/-- The palettes are taken from both fonts. -/
example : ∀ i < 2, ∃ start, U32 (collectionFile sampleMembers samplePool ++ [1]) (12 + 4 * i) start ∧
    TakesFrom sampleAccept defaultCfg (collectionFile sampleMembers samplePool ++ [1]) start 7 .colorPalettes
      cpal.ColorPalettes.read
      (some ⟨.version1 ⟨1, 2, 2, 3, 18, [0, 1]⟩, [⟨1, 2, 3, 4⟩, ⟨5, 6, 7, 8⟩, ⟨9, 10, 11, 12⟩]⟩) := by
  intro i hi
  have hd : Fits (collectionFile sampleMembers samplePool ++ [1]) := by decide +kernel
  obtain rfl | rfl : i = 0 ∨ i = 1 := by omega
  · exact C88_alone (member := sampleMembers[0]) (before := [(TableType.fontHeader.tag, 1)]) (rest := [])
      (k := 0) (body := samplePalettes) sample_collectable hd rfl rfl (by decide +kernel) rfl
      (relocatable (e := False)) (by decide +kernel) _ _
  · exact C88_alone (member := sampleMembers[1]) (before := []) (rest := [(TableType.colorPalettes.tag, 1)])
      (k := 0) (body := samplePalettes) sample_collectable hd rfl rfl (by simp) rfl
      (relocatable (e := False)) (by decide +kernel) _ _

/-- A font with a table of four bytes inside another file: without the increase of its offset something else is taken. -/
example :
    let font : Data := bytes [0, 1, 0, 0,  0, 1,  0, 0,  0, 0,  0, 0,
      0x68, 0x65, 0x61, 0x64,  0, 0, 0, 5,  0, 0, 0, 28,  0, 0, 0, 4,  0, 0, 0, 5]
    let inside : Data := bytes [9, 9, 9, 9,  0, 1, 0, 0,  0, 1,  0, 0,  0, 0,  0, 0,
      0x68, 0x65, 0x61, 0x64,  0, 0, 0, 5,  0, 0, 0, 32,  0, 0, 0, 4,  0, 0, 0, 5]
    let directory : Offsets := ⟨⟨65536, 1, 0, 0, 0⟩, [⟨TableType.fontHeader.tag, 5, 28, 4⟩]⟩
    Reads (Font.read sampleAccept) font 0 ⟨directory⟩ ∧ Reads (Font.read sampleAccept) inside 4 ⟨shifted 4 directory⟩ ∧
    Reads (Font.take defaultCfg tableChecksum ⟨directory⟩ .fontHeader u32) font 3 (some 5) ∧
    Reads (Font.take defaultCfg tableChecksum ⟨shifted 4 directory⟩ .fontHeader u32) inside 3 (some 5) ∧
    ¬Reads (Font.take defaultCfg tableChecksum ⟨directory⟩ .fontHeader u32) inside 3 (some 5) := by
  decide +kernel

end OpenType.Props
