import Verif.Props.Parts
import Verif.Props.Isolation
import Verif.Props.Reach
/-! # C90: edits are local -/

namespace OpenType.Props
open OpenType Spec context script feature lookup directory

/-- On two tapes that have the same bytes where a reader asks for some on the first, it asks for the same and comes to
the same end, value or error. -/
theorem C90_asked {α : Type} (r : Reader α) (d d' : Data) (p : Nat)
    (h : ∀ q n, (q, n) ∈ r.fetches d p → ∀ i < n, d'[q + i]? = d[q + i]?) :
    r d' p = r d p ∧ r.fetches d' p = r.fetches d p := by
  induction r generalizing p with
  | done a => exact ⟨rfl, rfl⟩
  | fail e => exact ⟨rfl, rfl⟩
  | tell next ih => exact ih (.ok p) p h
  | seek q next ih => exact ih (.ok ()) q h
  | fetch n next ih =>
    have e : Reader.slice d' p n = Reader.slice d p n := slice_agree fun i h1 h2 => by
      have := h p n (.head _) (i - p) (by omega)
      rwa [show p + (i - p) = i by omega] at this
    obtain ⟨h1, h2⟩ := ih (Reader.slice d p n) (p + n) fun q m hq => h q m (.tail _ hq)
    constructor
    · show (next (Reader.slice d' p n)).run d' (p + n) = (next (Reader.slice d p n)).run d (p + n)
      rw [e, h1]
    · show (p, n) :: (next (Reader.slice d' p n)).fetches d' (p + n) =
        (p, n) :: (next (Reader.slice d p n)).fetches d (p + n)
      rw [e, h2]

/-- Two tables, of whatever kinds, read from two tapes, such as a font before and after an edit: two parts of the same
type, one of each, that lie at the same place are equal if the bytes the first is read from have not been changed.
Everything else may be different: other parts, the offsets that lead to these, and how many there are. -/
theorem C90_in_place {α β γ : Type} {r : Reader α} {r' : Reader β} [Parts r] [Parts r'] (hr : PartsReadAlone r)
    (hr' : PartsReadAlone r') {d d' : Data} (hd : Fits d) (hd' : Fits d') {p p' : Nat} {t : α} {t' : β}
    (ht : Reads r d p t) (ht' : Reads r' d' p' t') {read : Reader γ} {o o' : Nat} {x x' : γ}
    (hx : ⟨γ, read, o, x⟩ ∈ parts r t) (hx' : ⟨γ, read, o', x'⟩ ∈ parts r' t') (he : p' + o' = p + o)
    (hsame : ∀ q n, (q, n) ∈ read.fetches d (p + o) → ∀ i < n, d'[q + i]? = d[q + i]?) : x' = x := by
  obtain ⟨q, h⟩ : Reads read d (p + o) x := hr d p t hd ht _ hx
  obtain ⟨q', h'⟩ : Reads read d' (p' + o') x' := hr' d' p' t' hd' ht' _ hx'
  rw [he, (C90_asked read d d' (p + o) hsame).1, h] at h'
  cases h'
  rfl

/-- The same if the part was moved, for parts of which is known where all their bytes are, `encode x` (C50): it is
enough that these are found again. -/
theorem C90_moved {α β γ : Type} {r : Reader α} {r' : Reader β} [Parts r] [Parts r'] (hr : PartsReadAlone r)
    (hr' : PartsReadAlone r') {d d' : Data} (hd : Fits d) (hd' : Fits d') {p p' : Nat} {t : α} {t' : β}
    (ht : Reads r d p t) (ht' : Reads r' d' p' t') {read : Reader γ} {encode : γ → List Chunk}
    (hread : DependsOnOwnBytes read encode) {o o' : Nat} {x x' : γ}
    (hx : ⟨γ, read, o, x⟩ ∈ parts r t) (hx' : ⟨γ, read, o', x'⟩ ∈ parts r' t')
    (hsame : ∀ c ∈ encode x, ∀ i < c.2.length, d'[p' + o' + c.1 + i]? = d[p + o + c.1 + i]?) : x' = x := by
  have h : Reads read d (p + o) x := hr d p t hd ht _ hx
  have h' : Reads read d' (p' + o') x' := hr' d' p' t' hd' ht' _ hx'
  obtain ⟨q, h⟩ := hread d d' (p + o) (p' + o') x hd hd' h hsame
  obtain ⟨q', h'⟩ := h'
  rw [h'] at h
  cases h
  rfl

/-- And the part is different if any of its bytes is (C68). -/
theorem C90_changed {α β γ : Type} {r : Reader α} {r' : Reader β} [Parts r] [Parts r'] (hr : PartsReadAlone r)
    (hr' : PartsReadAlone r') {d d' : Data} (hd : Fits d) (hd' : Fits d') {p p' : Nat} {t : α} {t' : β}
    (ht : Reads r d p t) (ht' : Reads r' d' p' t') {read : Reader γ} {encode : γ → List Chunk}
    (hread : NoticesChange read encode) {o o' : Nat} {x x' : γ}
    (hx : ⟨γ, read, o, x⟩ ∈ parts r t) (hx' : ⟨γ, read, o', x'⟩ ∈ parts r' t')
    (hother : ∃ c ∈ encode x, ∃ i < c.2.length, d'[p' + o' + c.1 + i]? ≠ d[p + o + c.1 + i]?) : x' ≠ x := by
  rintro rfl
  have h : Reads read d (p + o) x' := hr d p t hd ht _ hx
  have h' : Reads read d' (p' + o') x' := hr' d' p' t' hd' ht' _ hx'
  exact hread d d' (p + o) (p' + o') x' hd hd' h hother h'

/-- For instance the subtables of GSUB: in two versions of a table, two subtables of lookups of the same type are equal
if and only if the bytes of the one are also where the other is. -/
theorem C90_gsub (cfg : Cfg) {d d' : Data} (hd : Fits d) (hd' : Fits d') {p p' : Nat} {t t' : gsub.GlyphSubstitution}
    (ht : Reads (gsub.GlyphSubstitution.read cfg) d p t) (ht' : Reads (gsub.GlyphSubstitution.read cfg) d' p' t')
    (hn : cfg.ignoreIncompleteDirectories = false) {o o' : Nat} {x x' : lookup.Record gsub.Type_}
    (hx : (o, x) ∈ t.lookups.offsets.zip t.lookups.records) (hx' : (o', x') ∈ t'.lookups.offsets.zip t'.lookups.records)
    (htype : x'.type_ = x.type_) {s s' : Nat} {y y' : gsub.Type_} (hy : (s, y) ∈ x.table_offsets.zip x.tables)
    (hy' : (s', y') ∈ x'.table_offsets.zip x'.tables) :
    y' = y ↔ ∀ c ∈ encoding y, ∀ i < c.2.length,
      d'[p' + (t'.lookup_offset + (o' + s')) + c.1 + i]? = d[p + (t.lookup_offset + (o + s)) + c.1 + i]? := by
  have h := C86_subtable cfg gsub.Type_.read (C86_gsub cfg) hd ht (by simp [hn]) hx hy
  have h' := C86_subtable cfg gsub.Type_.read (C86_gsub cfg) hd' ht' (by simp [hn]) hx' hy'
  rw [htype] at h'
  have rt := (C48_lookup cfg x.type_).1
  constructor
  · rintro rfl
    intro c hc i hi
    exact Decidable.byContradiction fun hne => rt.noticesChange _ _ _ _ _ hd hd' h ⟨c, hc, i, hi, hne⟩ h'
  · intro hs
    obtain ⟨q, h⟩ := rt.dependsOnOwnBytes _ _ _ _ _ hd hd' h hs
    obtain ⟨q', h'⟩ := h'
    rw [h'] at h
    cases h
    rfl

/-- And of GPOS. -/
theorem C90_gpos (cfg : Cfg) {d d' : Data} (hd : Fits d) (hd' : Fits d') {p p' : Nat} {t t' : gpos.GlyphPositioning}
    (ht : Reads (gpos.GlyphPositioning.read cfg) d p t) (ht' : Reads (gpos.GlyphPositioning.read cfg) d' p' t')
    (hn : cfg.ignoreIncompleteDirectories = false) {o o' : Nat} {x x' : lookup.Record gpos.Type_}
    (hx : (o, x) ∈ t.lookups.offsets.zip t.lookups.records) (hx' : (o', x') ∈ t'.lookups.offsets.zip t'.lookups.records)
    (htype : x'.type_ = x.type_) {s s' : Nat} {y y' : gpos.Type_} (hy : (s, y) ∈ x.table_offsets.zip x.tables)
    (hy' : (s', y') ∈ x'.table_offsets.zip x'.tables) :
    y' = y ↔ ∀ c ∈ encoding y, ∀ i < c.2.length,
      d'[p' + (t'.lookup_offset + (o' + s')) + c.1 + i]? = d[p + (t.lookup_offset + (o + s)) + c.1 + i]? := by
  have h := C86_subtable cfg (gpos.Type_.read cfg) (C86_gpos cfg) hd ht (by simp [hn]) hx hy
  have h' := C86_subtable cfg (gpos.Type_.read cfg) (C86_gpos cfg) hd' ht' (by simp [hn]) hx' hy'
  rw [htype] at h'
  have rt := (C48_lookup cfg x.type_).2
  constructor
  · rintro rfl
    intro c hc i hi
    exact Decidable.byContradiction fun hne => rt.noticesChange _ _ _ _ _ hd hd' h ⟨c, hc, i, hi, hne⟩ h'
  · intro hs
    obtain ⟨q, h⟩ := rt.dependsOnOwnBytes _ _ _ _ _ hd hd' h hs
    obtain ⟨q', h'⟩ := h'
    rw [h'] at h
    cases h
    rfl

/-- `partsGsub` after an edit: the first lookup now leads to a subtable of its own, at byte 48, and the shared one now
adds 5. The coverage at byte 42 is as it was, and is used by both. -/
def editedGsub : Data := bytes [0, 1, 0, 0, 0, 10, 0, 12, 0, 14, 0, 0, 0, 0, 0, 2, 0, 6, 0, 14, 0, 1, 0, 0, 0, 1, 0, 28, 0, 1, 0, 1,
  0, 1, 0, 8, 0, 1, 0, 6, 0, 5, 0, 1, 0, 1, 0, 9, 0, 1, 0, 6, 0, 3, 0, 1, 0, 1, 0, 9]

/-- What is read from it. -/
def editedTable : gsub.GlyphSubstitution := ⟨1, 0, 10, 12, 14, 0, ⟨0, [], []⟩, ⟨0, [], []⟩, ⟨2, [6, 14],
  [⟨1, 0, 1, [28], none, [.singleSubstitution (.format1 ⟨1, 6, 3, .format1 ⟨1, 1, [9]⟩⟩)]⟩,
    ⟨1, 1, 1, [8], none, [.singleSubstitution (.format1 ⟨1, 6, 5, .format1 ⟨1, 1, [9]⟩⟩)]⟩]⟩, none⟩

/-- The tables before and after. -/
theorem parts_edited :
    Reads (gsub.GlyphSubstitution.read ⟨false, false, false, false, true, true⟩) partsGsub 0 partsTable ∧
    Reads (gsub.GlyphSubstitution.read ⟨false, false, false, false, true, true⟩) editedGsub 0 editedTable := by
  decide +kernel

/-- The coverage of the second lookup is where it was, and asks for bytes that have not changed. -/
example : ⟨_, coverage.Coverage.read, 42, .format1 ⟨1, 1, [9]⟩⟩ ∈
      parts (gsub.GlyphSubstitution.read ⟨false, false, false, false, true, true⟩) partsTable ∧
    ⟨_, coverage.Coverage.read, 42, .format1 ⟨1, 1, [9]⟩⟩ ∈
      parts (gsub.GlyphSubstitution.read ⟨false, false, false, false, true, true⟩) editedTable ∧
    coverage.Coverage.read.fetches partsGsub 42 = [(42, 2), (42, 2), (44, 2), (46, 2)] ∧
    ∀ i < 6, editedGsub[42 + i]? = partsGsub[42 + i]? := by
  refine ⟨?_, ?_, by decide +kernel, by decide +kernel⟩
  · repeat (first | exact .head _ | refine .tail _ ?_)
  · repeat (first | exact .head _ | refine .tail _ ?_)

/-- The subtable of the first lookup has moved from byte 36 to byte 48, and is the same; that of the second has stayed
and is another. -/
example :
    (∀ c ∈ encoding (gsub.Type_.singleSubstitution (.format1 ⟨1, 6, 3, .format1 ⟨1, 1, [9]⟩⟩)),
      ∀ i < c.2.length, editedGsub[0 + (14 + (6 + 28)) + c.1 + i]? = partsGsub[0 + (14 + (6 + 16)) + c.1 + i]?) ∧
    ¬∀ c ∈ encoding (gsub.Type_.singleSubstitution (.format1 ⟨1, 6, 3, .format1 ⟨1, 1, [9]⟩⟩)),
      ∀ i < c.2.length, editedGsub[0 + (14 + (14 + 8)) + c.1 + i]? = partsGsub[0 + (14 + (14 + 8)) + c.1 + i]? := by
  decide +kernel

end OpenType.Props
