import Verif.Props.Reach
import Verif.Props.Partly
/-! # C87 for fonts: how far opening a file and taking a table of it look -/

namespace OpenType.Props
open OpenType Spec

/-- What taking a table asks for is asked for by the computation of the checksum, in builds that test it, or by the
reader of the table, at the place given in the directory. -/
theorem take_fetches {α : Type} {cfg : Cfg} {font : Font} {table : TableType} {r : Reader α} {record : offsets.Record}
    (hf : FirstWith table.tag font.offsets.records record) {d : Data} {p : Nat} {x : Nat × Nat}
    (hx : x ∈ (font.take cfg tableChecksum table r).fetches d p) :
    (cfg.ignoreInvalidChecksums = false ∧ x ∈ (tableChecksum record).fetches d p) ∨ x ∈ r.fetches d record.offset := by
  have hp : Font.position cfg tableChecksum font table = Font.found cfg tableChecksum record := Font.positionIn_first hf
  unfold Font.take at hx
  rw [hp, fetches_bind, List.mem_append] at hx
  rcases hx with hx | hx
  · left
    unfold Font.found at hx
    cases hc : cfg.ignoreInvalidChecksums with
    | true =>
      rw [if_neg (by rw [hc]; decide)] at hx
      exact nomatch hx
    | false =>
      rw [if_pos hc, fetches_bind, List.mem_append] at hx
      refine ⟨rfl, hx.resolve_right fun hx => ?_⟩
      split at hx
      · unfold raiseIf at hx
        split at hx <;> exact nomatch hx
      · exact nomatch hx
  · right
    have key : ∀ y q, Font.found cfg tableChecksum record d p = .ok (y, q) → y = some () ∧ q = record.offset := by
      intro y q hq
      cases hc : cfg.ignoreInvalidChecksums with
      | true => rw [Font.found_ignore hc] at hq; cases hq; exact ⟨rfl, rfl⟩
      | false =>
        rw [Font.found_check hc] at hq
        split at hq
        · split at hq <;> cases hq
          exact ⟨rfl, rfl⟩
        · cases hq
    split at hx
    · next y q hq =>
      obtain ⟨rfl, rfl⟩ := key y q hq
      rw [fetches_bind, List.mem_append] at hx
      refine hx.resolve_right fun hx => ?_
      split at hx <;> exact nomatch hx
    · exact nomatch hx

theorem sumWords_fetches {skip : Nat → Bool} {i n : Nat} {d : Data} {p q m : Nat}
    (h : (q, m) ∈ (sumWords skip i n).fetches d p) : p ≤ q ∧ q + m ≤ p + 4 * n := by
  induction n generalizing i p with
  | zero => exact nomatch h
  | succ n ih =>
    unfold sumWords at h
    rw [fetches_bind, List.mem_append] at h
    rcases h with h | h
    · obtain ⟨rfl, rfl⟩ : q = p ∧ m = 4 := by
        have : (u32).fetches d p = [(p, 4)] := by
          unfold u32 Reader.fetches
          cases Reader.slice d p 4 <;> rfl
        rw [this] at h
        cases List.mem_singleton.mp h
        exact ⟨rfl, rfl⟩
      omega
    · split at h
      · next w q' hw =>
        have hq : q' = p + 4 := by
          rw [run_u32] at hw
          split at hw <;> cases hw
          rfl
        rw [fetches_bind, List.mem_append] at h
        rcases h with h | h
        · have := ih h
          omega
        · split at h <;> exact nomatch h
      · exact nomatch h

theorem checksum_fetches {record : offsets.Record} {d : Data} {p q m : Nat}
    (h : (q, m) ∈ (tableChecksum record).fetches d p) :
    record.offset ≤ q ∧ q + m ≤ record.offset + 4 * ((record.size + 3) / 4) := by
  unfold tableChecksum stay at h
  rw [fetches_bind] at h
  change _ ∈ Reader.fetches _ d p at h
  rw [fetches_bind, List.mem_append] at h
  rcases h with h | h
  · change _ ∈ (sumWords _ 0 _).fetches d record.offset at h
    exact sumWords_fetches h
  · split at h
    · rw [fetches_bind] at h
      cases h
    · cases h

/-- A range of bytes is all that matters. -/
theorem only {α : Type} {r : Reader α} {d d' : Data} {p a b : Nat}
    (h : ∀ q n, (q, n) ∈ r.fetches d p → 0 < n → a ≤ q ∧ q + n ≤ b) (hd : ∀ i, a ≤ i → i < b → d[i]? = d'[i]?) :
    r d p = r d' p :=
  run_agree fun q n hm => slice_agree fun i hi hi' => by
    have := h q n hm (by omega)
    exact hd i (by omega) (by omega)

/-- When a table is taken, nothing matters but the first `k` bytes from the place that the directory gives for it, `k`
being a window of its reader, and, if the build tests checksums, the words over which the checksum is computed. -/
theorem C87_take {α : Type} (cfg : Cfg) (font : Font) (table : TableType) (record : offsets.Record) (r : Reader α)
    (k k' : Nat) (hr : Window r k) (hf : FirstWith table.tag font.offsets.records record)
    (hk : k ≤ k') (hk' : cfg.ignoreInvalidChecksums = false → 4 * ((record.size + 3) / 4) ≤ k') (d : Data) (p : Nat) :
    (∀ q n, (q, n) ∈ (font.take cfg tableChecksum table r).fetches d p → 0 < n →
      record.offset ≤ q ∧ q + n ≤ record.offset + k') ∧
    ∀ d' : Data, (∀ i, record.offset ≤ i → i < record.offset + k' → d[i]? = d'[i]?) →
      font.take cfg tableChecksum table r d p = font.take cfg tableChecksum table r d' p := by
  have key : ∀ q n, (q, n) ∈ (font.take cfg tableChecksum table r).fetches d p → 0 < n →
      record.offset ≤ q ∧ q + n ≤ record.offset + k' := by
    intro q n hm hn
    rcases take_fetches hf hm with ⟨hc, h⟩ | h
    · have := checksum_fetches h
      have := hk' hc
      omega
    · have := (hr d record.offset).1 q n h hn
      omega
  exact ⟨key, fun d' hd => only key hd⟩

/-- What follows for opening a file and taking a table of it: no byte behind the directory and `2^32 - 1 + k` bytes
matters, `k` being a window of the reader, and at least `2^32` if the build tests checksums. -/
theorem C87_open {α : Type} (cfg : Cfg) (accept : Tag → Bool) (table : TableType) (r : Reader α) (k b : Nat)
    (hr : Window r k) (hk : cfg.ignoreInvalidChecksums = false → 0x100000000 ≤ k) (d : Data) (hd : Fits d) (p : Nat)
    (hb : p + 12 + 0xFFFF * 16 ≤ b ∧ 0xFFFFFFFF + k ≤ b) :
    (∀ q n, (q, n) ∈ (openAndTake cfg accept table r).fetches d p → 0 < n → q + n ≤ b) ∧
    ∀ d' : Data, (∀ i < b, d[i]? = d'[i]?) →
      openAndTake cfg accept table r d p = openAndTake cfg accept table r d' p := by
  have key : ∀ q n, (q, n) ∈ (openAndTake cfg accept table r).fetches d p → 0 < n → q + n ≤ b := by
    intro q n hm hn
    unfold openAndTake at hm
    rw [fetches_bind, List.mem_append] at hm
    rcases hm with hm | hm
    · have := (((C87_window cfg accept).2.2.2.2.2.2.2 d p).1 q n hm hn).2
      omega
    · split at hm
      · next file m hfile =>
        obtain ⟨font, hfont, _, hrecords⟩ := C02_directory_exact accept d p hd file ⟨_, hfile⟩
        rw [hfont] at hm
        dsimp only at hm
        rcases Font.first_or_none table.tag font.offsets.records with ⟨record, hf⟩ | hnone
        · have hmem : record ∈ font.offsets.records := by
            obtain ⟨before, after, h, _⟩ := hf
            rw [h]
            simp
          obtain ⟨i, hi⟩ := List.getElem?_of_mem hmem
          obtain ⟨_, _, ho, hs⟩ := hrecords i record hi
          have ho := ho.lt
          have hs := hs.lt
          have := ((C87_take cfg font table record r k k hr hf (Nat.le_refl _) (fun hc => by have := hk hc; omega) d m).1
            q n hm hn).2
          omega
        · have hp : Font.position cfg tableChecksum font table = pure none := Font.positionIn_none hnone
          unfold Font.take at hm
          rw [hp] at hm
          exact nomatch hm
      · exact nomatch hm
  exact ⟨key, fun d' h => only (a := 0) (fun q n hm hn => ⟨Nat.zero_le _, key q n hm hn⟩) fun i _ hi => h i hi⟩

/-- For the substitutions of a font at the beginning of a file, nothing behind eight gigabytes and six bytes matters. -/
example (cfg : Cfg) (accept : Tag → Bool) (d rest rest' : Data) (hd : d.length = 2 ^ 33 + 6) (hr : Fits (d ++ rest)) :
    openAndTake cfg accept .glyphSubstitution (gsub.GlyphSubstitution.read cfg) (d ++ rest) 0 =
      openAndTake cfg accept .glyphSubstitution (gsub.GlyphSubstitution.read cfg) (d ++ rest') 0 :=
  (C87_open cfg accept .glyphSubstitution _ (0xFFFFFFFF + 8) (2 ^ 33 + 6) (C87_window cfg accept).1
    (fun _ => by decide) _ hr 0 (by decide)).2 _ fun i hi => by
      rw [List.getElem?_append_left (by omega), List.getElem?_append_left (by omega)]

/-- A color is read from four bytes wherever it is, and what else there is does not matter. -/
example : Window cpal.Color.read 4 ∧
    cpal.Color.read (bytes [9, 1, 2, 3, 4]) 1 = cpal.Color.read (bytes [7, 1, 2, 3, 4, 8, 8]) 1 :=
  have h := (C87_other defaultCfg 0).2.2.2.2.2.2.1
  ⟨h, (h _ 1).2 _ fun i h1 h2 => by
    obtain rfl | rfl | rfl | rfl : i = 1 ∨ i = 2 ∨ i = 3 ∨ i = 4 := by omega
    all_goals rfl⟩

/-- Taking four bytes of the palettes looks at the eight bytes of the table, which the checksum is computed from, and no others. -/
example (d' : Data) (h : ∀ i, 60 ≤ i → i < 60 + 8 → sampleFont[i]? = d'[i]?) :
    sampleDirectory.take defaultCfg tableChecksum .colorPalettes cpal.Color.read sampleFont 0 =
      sampleDirectory.take defaultCfg tableChecksum .colorPalettes cpal.Color.read d' 0 :=
  (C87_take defaultCfg sampleDirectory .colorPalettes ⟨TableType.colorPalettes.tag, 65538, 60, 8⟩ cpal.Color.read 4 8
    (C87_other defaultCfg 0).2.2.2.2.2.2.1
    ⟨[⟨TableType.glyphSubstitution.tag, 7, 60, 8⟩], _, rfl, rfl, by decide +kernel⟩ (by decide) (fun _ => by decide) _ _).2 d' h

end OpenType.Props
