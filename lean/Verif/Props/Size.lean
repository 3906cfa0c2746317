import Verif.Proof.SizeGpos
import Verif.Props.Effort
import Verif.Props.Bounds
/-! # C74: what is read is in proportion to the work -/

namespace OpenType.Props
open OpenType Spec

/-- When the reader succeeds, there are at most `c` parts (numbers, vectors, options, variants; see `Spec.content`) in
what it gives for each operation on the tape. -/
def PartsAtMost {α : Type} [Measured α] (c : Nat) (r : Reader α) : Prop :=
  ∀ d p v q, r d p = .ok (v, q) → content v ≤ c * r.operations d p

theorem partsAtMost {α : Type} [Measured α] {K : Nat} {r : Reader α} [h : Fair K r] : PartsAtMost K r :=
  fun d p v q e => by
    have := h.earns d p v q e
    rwa [Nat.zero_add] at this

/-- All tables but GPOS, and their parts: three parts for each operation. -/
theorem C74_parts (cfg : Cfg) (n : Nat) (accept : Tag → Bool) :
    PartsAtMost 3 coverage.Coverage.read ∧
    PartsAtMost 3 class_.Class.read ∧
    PartsAtMost 3 correction.Correction.read ∧
    PartsAtMost 3 context.Context.read ∧
    PartsAtMost 3 context.ChainedContext.read ∧
    PartsAtMost 3 (item.Store.read cfg) ∧
    PartsAtMost 3 script.Scripts.read ∧
    PartsAtMost 3 feature.Features.read ∧
    PartsAtMost 3 (lookup.Lookups.read cfg gsub.Type_.read) ∧
    PartsAtMost 3 (gsub.Type_.read n) ∧
    PartsAtMost 3 (gsub.GlyphSubstitution.read cfg) ∧
    PartsAtMost 3 (gdef.GlyphDefinition.read cfg) ∧
    PartsAtMost 3 cpal.ColorPalettes.read ∧
    PartsAtMost 3 (fvar.FontVariations.read cfg) ∧
    PartsAtMost 3 (offsets.Offsets.read accept) ∧
    PartsAtMost 3 (Font.read accept) ∧
    PartsAtMost 3 (File.read accept) := by
  refine ⟨?_, ?_, ?_, ?_, ?_, ?_, ?_, ?_, ?_, ?_, ?_, ?_, ?_, ?_, ?_, ?_, ?_⟩
  all_goals exact partsAtMost

/-- The subtables of GPOS, but for pair adjustments: eight parts for each operation. -/
theorem C74_positioning (cfg : Cfg) (b n f g : Nat) :
    PartsAtMost 8 gpos.Anchor.read ∧
    PartsAtMost 8 (gpos.Single.read b f) ∧
    PartsAtMost 8 (gpos.Pair1.read b f g) ∧
    PartsAtMost 8 (gpos.Pair1s.read f g) ∧
    PartsAtMost 8 (gpos.SingleAdjustment.read cfg) ∧
    PartsAtMost 8 (gpos.PairAdjustment1.read cfg) ∧
    PartsAtMost 8 gpos.CursiveAttachment.read ∧
    PartsAtMost 8 (gpos.Mark1s.read cfg) ∧
    PartsAtMost 8 (gpos.Bases.read n) ∧
    PartsAtMost 8 (gpos.Ligatures.read n) ∧
    PartsAtMost 8 (gpos.Mark2s.read n) ∧
    PartsAtMost 8 (gpos.MarkToBaseAttachment.read cfg) ∧
    PartsAtMost 8 (gpos.MarkToLigatureAttachment.read cfg) ∧
    PartsAtMost 8 (gpos.MarkToMarkAttachment.read cfg) ∧
    PartsAtMost 8 gpos.ExtensionPositioning.read := by
  refine ⟨?_, ?_, ?_, ?_, ?_, ?_, ?_, ?_, ?_, ?_, ?_, ?_, ?_, ?_, ?_⟩
  all_goals exact partsAtMost

/-- GPOS, when no matrix of pair adjustments has empty rows or empty cells. Missing: those that have, for which
the claim is false (`C74_violated`). -/
theorem C74_gpos_partial (cfg : Cfg) (d : Data) (p : Nat) (t : gpos.GlyphPositioning) (q : Nat)
    (h : gpos.GlyphPositioning.read cfg d p = .ok (t, q))
    (room : ∀ lookup ∈ t.lookups.records, ∀ table ∈ lookup.tables, Roomy table) :
    content t ≤ 8 * (gpos.GlyphPositioning.read cfg).operations d p :=
  earns_positioning h room

/-- GPOS with whatever matrices: at most `2 ^ 34` parts for each operation. -/
theorem C74_gpos (cfg : Cfg) : PartsAtMost (2 ^ 34) (gpos.GlyphPositioning.read cfg) :=
  fun _ _ _ _ => earns_positioning_any

/-- So the value that is read from a file of a certain length is bounded, and how much the bound grows with the length
is known. -/
def SizeAtMost {α : Type} [Measured α] (c b k : Nat) (r : Reader α) : Prop :=
  ∀ d p v q, r d p = .ok (v, q) → content v ≤ c * (d.length + b) ^ k

theorem sizeAtMost {α : Type} [Measured α] {m c b k : Nat} {r : Reader α} (h : PartsAtMost m r)
    (hw : ∀ d p, r.operations d p ≤ c * (d.length + b) ^ k) : SizeAtMost (m * c) b k r := fun d p v q e => by
  rw [Nat.mul_assoc]
  exact Nat.le_trans (h d p v q e) (Nat.mul_le_mul_left m (hw d p))

/-- The size of what is read from a file of a given length. -/
theorem C74_size (cfg : Cfg) (accept : Tag → Bool) :
    SizeAtMost 351 1 5 (gsub.GlyphSubstitution.read cfg) ∧
    SizeAtMost (191 * 2 ^ 34) 65536 5 (gpos.GlyphPositioning.read cfg) ∧
    SizeAtMost 324 1 3 (gdef.GlyphDefinition.read cfg) ∧
    SizeAtMost 45 1 1 cpal.ColorPalettes.read ∧
    SizeAtMost 63 65536 2 (fvar.FontVariations.read cfg) ∧
    SizeAtMost 36 1 1 (File.read accept) :=
  ⟨sizeAtMost (m := 3) (c := 117) partsAtMost workAtMost,
    sizeAtMost (m := 2 ^ 34) (c := 191) (C74_gpos cfg) workAtMostWide,
    sizeAtMost (m := 3) (c := 108) partsAtMost workAtMost, sizeAtMost (m := 3) (c := 15) partsAtMost workAtMost,
    sizeAtMost (m := 3) (c := 21) partsAtMost workAtMostWide, sizeAtMost (m := 3) (c := 12) partsAtMost workAtMost⟩

/-! ## Where it fails -/

/-- A pair adjustment of `m` by `n` classes without values. -/
def bareMatrix (m n : Nat) : Data :=
  bytes [0, 2, 0, 16, 0, 0, 0, 0, 0, 20, 0, 20] ++
    [UInt8.ofNat (m / 256), UInt8.ofNat m, UInt8.ofNat (n / 256), UInt8.ofNat n] ++
    bytes [0, 1, 0, 0, 0, 2, 0, 0]

theorem bare_row {d : Data} {b n p : Nat} : ∀ k, takeVec (gpos.Pair2.read b 0 0) k d p =
      .ok (List.replicate k ⟨none, none⟩, p) ∧ (takeVec (gpos.Pair2.read b 0 0) k).operations d p = 0
  | 0 => ⟨rfl, rfl⟩
  | k + 1 => by
    obtain ⟨h1, h2⟩ := bare_row (d := d) (b := b) (n := n) (p := p) k
    unfold takeVec
    rw [run_bind_eq, operations_bind, show gpos.Pair2.read b 0 0 d p = .ok (⟨none, none⟩, p) from rfl]
    dsimp only
    rw [run_bind_eq, operations_bind, h1, h2]
    exact ⟨rfl, rfl⟩

theorem bare_rows {d : Data} {b n p : Nat} : ∀ k, takeVec (gpos.Pair2s.read b n 0 0) k d p =
      .ok (List.replicate k ⟨List.replicate n ⟨none, none⟩⟩, p) ∧
      (takeVec (gpos.Pair2s.read b n 0 0) k).operations d p = 0
  | 0 => ⟨rfl, rfl⟩
  | k + 1 => by
    obtain ⟨h1, h2⟩ := bare_rows (d := d) (b := b) (n := n) (p := p) k
    obtain ⟨h3, h4⟩ := bare_row (d := d) (b := b) (n := n) (p := p) n
    unfold takeVec
    have h5 : gpos.Pair2s.read b n 0 0 d p = .ok (⟨List.replicate n ⟨none, none⟩⟩, p) := by
      unfold gpos.Pair2s.read
      rw [run_bind_eq, h3]
      rfl
    have h6 : (gpos.Pair2s.read b n 0 0).operations d p = 0 := by
      unfold gpos.Pair2s.read
      rw [operations_bind, h3, h4]
      rfl
    rw [run_bind_eq, operations_bind, h5, h6]
    dsimp only
    rw [run_bind_eq, operations_bind, h1, h2]
    exact ⟨rfl, rfl⟩

/-- On `d` at `p` the reader gives `v`, ends at `q` and takes `n` operations. -/
def Exactly {α : Type} (r : Reader α) (d : Data) (p : Nat) (v : α) (q n : Nat) : Prop :=
  r d p = .ok (v, q) ∧ r.operations d p = n

theorem Exactly.bind {α β : Type} {r : Reader α} {f : α → Reader β} {d : Data} {p q q' n m : Nat} {x : α} {v : β}
    (h : Exactly r d p x q n) (hf : Exactly (f x) d q v q' m) : Exactly (r >>= f) d p v q' (n + m) := by
  refine ⟨by rw [run_bind_eq, h.1]; exact hf.1, ?_⟩
  rw [operations_bind, h.1, h.2]
  exact congrArg _ hf.2

theorem exactly_word {m : Nat} {d : Data} {p : Nat} (hm : m < 65536) (h1 : d[p]? = some (UInt8.ofNat (m / 256)))
    (h2 : d[p + 1]? = some (UInt8.ofNat m)) : Exactly u16 d p m (p + 2) 1 := by
  refine ⟨?_, by unfold u16; rw [operations_fetch]⟩
  rw [run_u16, h1, h2]
  have := split16 hm
  rw [Nat.mul_comm] at this
  dsimp only
  rw [← this]

theorem exactly_pure {α : Type} {v : α} {d : Data} {p : Nat} : Exactly (pure v) d p v p 0 := ⟨rfl, rfl⟩

theorem exactly_jumpTake {α : Type} {r : Reader α} {v : α} {d : Data} {p q n base o : Nat}
    (h : Exactly r d (base + o) v q n) (hb : base + o < 2 ^ 64) : Exactly (jumpTake base o r) d p v q (1 + n) := by
  unfold jumpTake addU64
  rw [if_pos hb]
  have h1 : Exactly (jump (base + o) >>= fun _ => r) d p v q (1 + n) :=
    Exactly.bind (n := 1) (q := base + o) ⟨rfl, rfl⟩ h
  have h2 : Exactly (pure (base + o) >>= fun q => jump q >>= fun _ => r) d p v q (0 + (1 + n)) :=
    exactly_pure.bind h1
  rw [Nat.zero_add] at h2
  exact h2

theorem exactly_peek {α : Type} {r : Reader α} {v : α} {d : Data} {p q n : Nat} (h : Exactly r d p v q n) :
    Exactly (peek r) d p v p (1 + (n + 1)) := by
  unfold peek stay
  refine Exactly.bind (n := 1) (q := p) ⟨rfl, rfl⟩ (h.bind (m := 1) ?_)
  exact Exactly.bind (n := 1) (m := 0) (q := p) ⟨rfl, rfl⟩ exactly_pure

/-- The work is the same whatever the size of the matrix. -/
theorem bare_matrix (cfg : Cfg) (m n : Nat) (hm : m < 65536) (hn : n < 65536) :
    Exactly (gpos.PairAdjustment2.read cfg) (bareMatrix m n) 0
      ⟨2, 16, 0, 0, 20, 20, m, n, List.replicate m ⟨List.replicate n ⟨none, none⟩⟩, .format1 ⟨1, 0, []⟩,
        .format2 ⟨2, 0, []⟩, .format2 ⟨2, 0, []⟩⟩ 24 27 := by
  have hf : ∀ p, Exactly u16 (bareMatrix m n) p 0 (p + 2) 1 → Exactly (gpos.Flags.read cfg) (bareMatrix m n) p 0 (p + 2) 1 := by
    intro p h
    unfold gpos.Flags.read flagsU16
    refine h.bind (m := 0) ?_
    unfold raiseIf
    rw [if_neg (by simp [flag])]
    exact exactly_pure.bind exactly_pure
  have hcov : Exactly coverage.Coverage.read (bareMatrix m n) 16 (.format1 ⟨1, 0, []⟩) 20 5 := by
    unfold coverage.Coverage.read
    refine Exactly.bind (n := 3) (m := 2) (q := 16) (exactly_peek (exactly_word (m := 1) (by decide) rfl rfl)) ?_
    refine Exactly.bind (n := 2) (m := 0) (q := 20) ?_ exactly_pure
    refine Exactly.bind (n := 1) (m := 1) (q := 18) (exactly_word (m := 1) (by decide) rfl rfl) ?_
    refine Exactly.bind (n := 1) (m := 0) (q := 20) (exactly_word (m := 0) (by decide) rfl rfl) ?_
    exact exactly_pure.bind exactly_pure
  have hcl : Exactly class_.Class.read (bareMatrix m n) 20 (.format2 ⟨2, 0, []⟩) 24 5 := by
    unfold class_.Class.read
    refine Exactly.bind (n := 3) (m := 2) (q := 20) (exactly_peek (exactly_word (m := 2) (by decide) rfl rfl)) ?_
    refine Exactly.bind (n := 2) (m := 0) (q := 24) ?_ exactly_pure
    refine Exactly.bind (n := 1) (m := 1) (q := 22) (exactly_word (m := 2) (by decide) rfl rfl) ?_
    refine Exactly.bind (n := 1) (m := 0) (q := 24) (exactly_word (m := 0) (by decide) rfl rfl) ?_
    exact exactly_pure.bind exactly_pure
  unfold gpos.PairAdjustment2.read
  refine Exactly.bind (n := 1) (m := 26) (q := 0) ⟨rfl, rfl⟩ ?_
  refine Exactly.bind (n := 1) (m := 25) (q := 2) (exactly_word (m := 2) (by decide) rfl rfl) ?_
  refine Exactly.bind (n := 1) (m := 24) (q := 4) (exactly_word (m := 16) (by decide) rfl rfl) ?_
  refine Exactly.bind (n := 1) (m := 23) (q := 6) (hf 4 (exactly_word (by decide) rfl rfl)) ?_
  refine Exactly.bind (n := 1) (m := 22) (q := 8) (hf 6 (exactly_word (by decide) rfl rfl)) ?_
  refine Exactly.bind (n := 1) (m := 21) (q := 10) (exactly_word (m := 20) (by decide) rfl rfl) ?_
  refine Exactly.bind (n := 1) (m := 20) (q := 12) (exactly_word (m := 20) (by decide) rfl rfl) ?_
  refine Exactly.bind (n := 1) (m := 19) (q := 14) (exactly_word hm rfl rfl) ?_
  refine Exactly.bind (n := 1) (m := 18) (q := 16) (exactly_word hn rfl rfl) ?_
  refine Exactly.bind (n := 0) (m := 18) (q := 16) (bare_rows m) ?_
  refine Exactly.bind (n := 6) (m := 12) (q := 20) (exactly_jumpTake (base := 0) (o := 16) hcov (by decide)) ?_
  refine Exactly.bind (n := 6) (m := 6) (q := 24) (exactly_jumpTake (base := 0) (o := 20) hcl (by decide)) ?_
  exact Exactly.bind (n := 6) (m := 0) (q := 24) (exactly_jumpTake (base := 0) (o := 20) hcl (by decide)) exactly_pure

theorem content_replicate {α : Type} [Measured α] (x : α) (n : Nat) :
    content (List.replicate n x) = 1 + n * content x := by
  show 1 + ((List.replicate n x).map content).sum = _
  rw [List.map_replicate, List.sum_replicate_nat]

/-- With 24 bytes and 27 operations, which do not depend on `m` and `n`, a pair adjustment gives `m * n` cells. So
there is no number of parts for each operation that is enough, but for those near `2 ^ 34` of `C74_gpos`. -/
theorem C74_violated (cfg : Cfg) (m n : Nat) (hm : m < 65536) (hn : n < 65536) :
    (bareMatrix m n).length = 24 ∧
    (gpos.PairAdjustment2.read cfg).operations (bareMatrix m n) 0 = 27 ∧
    ∃ t q, gpos.PairAdjustment2.read cfg (bareMatrix m n) 0 = .ok (t, q) ∧ 2 * (m * n) ≤ content t := by
  obtain ⟨h1, h2⟩ := bare_matrix cfg m n hm hn
  refine ⟨rfl, h2, _, _, h1, ?_⟩
  have h3 : content (List.replicate m (⟨List.replicate n ⟨none, none⟩⟩ : gpos.Pair2s)) = 1 + m * (1 + n * 2) := by
    rw [content_replicate]
    show 1 + m * content (List.replicate n (⟨none, none⟩ : gpos.Pair2)) = _
    rw [content_replicate]
    rfl
  have h4 : m * (1 + n * 2) = m + 2 * (m * n) := by
    rw [Nat.mul_add, Nat.mul_one, ← Nat.mul_assoc, Nat.mul_comm (m * n)]
  show 2 * (m * n) ≤ content _ + content _ + content _ + content _ + content _ + content _ + content _ + content _ +
    content (List.replicate m (⟨List.replicate n ⟨none, none⟩⟩ : gpos.Pair2s)) + content _ + content _ + content _
  omega

/-- In particular, eight parts are not enough, nor are a hundred million. -/
theorem C74_violated_far (cfg : Cfg) : ¬ PartsAtMost 100000000 (gpos.PairAdjustment2.read cfg) := by
  intro h
  obtain ⟨_, h2, t, q, h3, h4⟩ := C74_violated cfg 65535 65535 (by decide) (by decide)
  have := h _ _ _ _ h3
  omega

/-! ## Concrete cases -/

/-- The positioning table with a pair adjustment of one by one class with a value meets the hypotheses of
`C74_gpos_partial`: there are 63 parts, and 56 operations. -/
example : ∃ t q, gpos.GlyphPositioning.read ⟨true, false, false, false, true, true⟩ samplePairs 0 = .ok (t, q) ∧
    (∀ lookup ∈ t.lookups.records, ∀ table ∈ lookup.tables, Roomy table) ∧ content t = 63 ∧
    (gpos.GlyphPositioning.read ⟨true, false, false, false, true, true⟩).operations samplePairs 0 = 56 := by
  refine ⟨⟨1, 0, 10, 12, 14, 0, ⟨0, [], []⟩, ⟨0, [], []⟩,
    ⟨1, [4], [⟨2, 0, 1, [8], none, [.pairAdjustment (.format2 ⟨2, 18, 4, 0, 22, 22, 1, 1,
      [⟨[⟨some ⟨none, none, some (-5), none, none, none, none, none, none, none, none, none⟩, none⟩]⟩],
      .format1 ⟨1, 0, []⟩, .format2 ⟨2, 0, []⟩, .format2 ⟨2, 0, []⟩⟩)]⟩]⟩, none⟩, 52,
    by decide +kernel, by decide, by decide +kernel, by decide +kernel⟩

end OpenType.Props
