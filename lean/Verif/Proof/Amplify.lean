import Verif.Proof.Work
/-!
# A small file that takes a lot of work

`Does r d p v q n`: on the content `d` at `p` the reader gives `v`, ends at `q`, and takes at least `n` operations.
-/

namespace OpenType
open Spec

/-- See above. -/
def Does {α : Type} (r : Reader α) (d : Data) (p : Nat) (v : α) (q n : Nat) : Prop :=
  r d p = .ok (v, q) ∧ n ≤ r.operations d p

/-- The words, two bytes each, from `p` on begin with `ws`. -/
def WordsAt (d : Data) (p : Nat) (ws : List Nat) : Prop :=
  ∀ i w, ws[i]? = some w → u16 d (p + 2 * i) = .ok (w, p + 2 * i + 2)

section
variable {α β : Type} {d : Data} {p q n : Nat}

theorem WordsAt.head {w : Nat} {ws : List Nat} (h : WordsAt d p (w :: ws)) : Does u16 d p w (p + 2) 1 :=
  ⟨h 0 w rfl, by unfold u16; rw [operations_fetch]; exact Nat.le_refl 1⟩

theorem WordsAt.tail {w : Nat} {ws : List Nat} (h : WordsAt d p (w :: ws)) : WordsAt d (p + 2) ws := by
  intro i x hx
  have := h (i + 1) x (by simpa using hx)
  rw [show p + 2 * (i + 1) = p + 2 + 2 * i by omega] at this
  exact this

theorem WordsAt.drop {n : Nat} {vs ws : List Nat} (h : WordsAt d p (vs ++ ws)) (hn : vs.length = n) :
    WordsAt d (p + 2 * n) ws := by
  intro i x hx
  have := h (n + i) x (by rw [List.getElem?_append_right (by omega)]; simpa [hn] using hx)
  rw [show p + 2 * (n + i) = p + 2 * n + 2 * i by omega] at this
  exact this

theorem Does.bind {r : Reader α} {f : α → Reader β} {x : α} {v : β} {q' m : Nat} (h : Does r d p x q m)
    (hf : Does (f x) d q v q' n) : Does (r >>= f) d p v q' (m + n) := by
  refine ⟨by rw [run_bind_eq, h.1]; exact hf.1, ?_⟩
  rw [operations_bind, h.1]
  have := h.2
  have := hf.2
  dsimp only
  omega

theorem Does.pure {v : α} : Does (pure v) d p v p 0 := ⟨rfl, Nat.le_refl _⟩

theorem Does.less {r : Reader α} {v : α} {m : Nat} (h : Does r d p v q n) (hm : m ≤ n) : Does r d p v q m :=
  ⟨h.1, Nat.le_trans hm h.2⟩

/-- Sequencing when the operations of the second part are enough. -/
theorem Does.skip {r : Reader α} {f : α → Reader β} {x : α} {v : β} {q' m : Nat} (h : Does r d p x q m)
    (hf : Does (f x) d q v q' n) : Does (r >>= f) d p v q' n :=
  (h.bind hf).less (by omega)

/-- Sequencing when the operations of the first part are enough. -/
theorem Does.only {r : Reader α} {f : α → Reader β} {x : α} {v : β} {q' : Nat} (h : Does r d p x q n)
    (hf : Does (f x) d q v q' 0) : Does (r >>= f) d p v q' n :=
  (h.bind hf).less (by omega)

/-- A reader succeeds with at least this many operations. -/
def Runs (r : Reader α) (d : Data) (p n : Nat) : Prop := ∃ v q, Does r d p v q n

theorem Runs.pure {v : α} : Runs (pure v) d p 0 := ⟨v, p, .pure⟩

theorem Does.then {r : Reader α} {f : α → Reader β} {x : α} {m : Nat} (h : Does r d p x q m)
    (hf : Runs (f x) d q n) : Runs (r >>= f) d p n := by
  obtain ⟨v, q', hv⟩ := hf
  exact ⟨v, q', h.skip hv⟩

theorem Does.finally {r : Reader α} {f : α → Reader β} {x : α} (h : Does r d p x q n)
    (hf : Runs (f x) d q 0) : Runs (r >>= f) d p n := by
  obtain ⟨v, q', hv⟩ := hf
  exact ⟨v, q', h.only hv⟩

theorem does_peek {r : Reader α} {v : α} (h : Does r d p v q n) : Does (peek r) d p v p 0 :=
  ⟨by unfold peek; rw [run_stay_eq, h.1], Nat.zero_le _⟩

theorem two_words (x c e : Nat) : (x * 256 + c) * 256 + e = x * 65536 + (c * 256 + e) := by omega

theorem does_u32 {a b : Nat} {ws : List Nat} (h : WordsAt d p (a :: b :: ws)) :
    Does u32 d p (a * 65536 + b) (p + 2 + 2) 1 := by
  refine ⟨?_, by unfold u32; rw [operations_fetch]; exact Nat.le_refl 1⟩
  have ha := h.head.1
  have hb := h.tail.head.1
  rw [run_u16] at ha hb
  rw [run_u32]
  cases h0 : d[p]? <;> cases h1 : d[p + 1]? <;> cases h2 : d[p + 2]? <;> cases h3 : d[p + 2 + 1]? <;>
    simp only [h0, h1, h2, h3, reduceCtorEq, Except.ok.injEq, Prod.mk.injEq, and_true] at ha hb ⊢
  clear h h0 h1 h2 h3
  subst ha hb
  exact two_words _ _ _

theorem does_i16 {w : Nat} {ws : List Nat} (h : WordsAt d p (w :: ws)) : Does i16 d p (signed 16 w) (p + 2) 0 := by
  unfold i16
  refine h.head.skip ?_
  exact .pure

theorem does_q32 {a b : Nat} {ws : List Nat} (h : WordsAt d p (a :: b :: ws)) :
    Does q32 d p (signed 32 (a * 65536 + b)) (p + 2 + 2) 1 := by
  unfold q32
  refine (does_u32 h).only ?_
  exact .pure

theorem does_position : Does position d p p p 0 := ⟨rfl, Nat.zero_le _⟩

theorem does_raiseIf {c : Prop} [Decidable c] {m : Message} (h : ¬c) : Does (raiseIf c m) d p () p 0 := by
  unfold raiseIf
  rw [if_neg h]
  exact .pure

theorem does_subUint {a b : Nat} (h : b ≤ a) : Does (subUint a b) d p (a - b) p 0 := by
  unfold subUint
  rw [if_pos h]
  exact .pure

theorem does_expect {w : Nat} {ws : List Nat} (h : WordsAt d p (w :: ws)) : Does (expectU16 w) d p w (p + 2) 0 := by
  unfold expectU16
  refine h.head.skip ?_
  refine (does_raiseIf (by simp)).skip ?_
  exact .pure

theorem does_flags {cfg : Cfg} {m : Nat} {ws : List Nat} (h : WordsAt d p (0 :: ws)) :
    Does (flagsU16 cfg m) d p 0 (p + 2) 0 := by
  unfold flagsU16
  refine h.head.skip ?_
  refine (does_raiseIf (by simp [flag])).skip ?_
  exact .pure

theorem does_words {ws vs : List Nat} (h : WordsAt d p (ws ++ vs)) :
    Does (takeVec u16 ws.length) d p ws (p + 2 * ws.length) ws.length := by
  induction ws generalizing p with
  | nil => exact .pure
  | cons w ws ih =>
    have h1 : Does (takeVec u16 (ws.length + 1)) d p (w :: ws) (p + 2 + 2 * ws.length) (1 + ws.length) := by
      refine h.head.bind ?_
      refine (ih h.tail).only ?_
      exact .pure
    rw [show p + 2 + 2 * ws.length = p + 2 * (w :: ws).length by simp only [List.length_cons]; omega] at h1
    exact h1.less (by simp only [List.length_cons]; omega)

/-- A number of words that are all the same. -/
theorem does_same {w : Nat} {ws : List Nat} (h : WordsAt d p (List.replicate n w ++ ws)) :
    Does (takeVec u16 n) d p (List.replicate n w) (p + 2 * n) n := by
  simpa using does_words h

theorem does_jumpTake {r : Reader α} {v : α} {base o : Nat} (h : Does r d (base + o) v q n) (hb : base + o < 2 ^ 64) :
    Does (jumpTake base o r) d p v q n := by
  unfold jumpTake addU64
  rw [if_pos hb]
  have h1 : Does (jump (base + o)) d p () (base + o) 1 := ⟨rfl, Nat.le_refl 1⟩
  refine Does.pure.skip ?_
  exact h1.skip h

theorem does_offsets {r : Reader α} {v : α} {base o m : Nat} (h : Does r d (base + o) v q n) (hb : base + o < 2 ^ 64)
    (hm : 0 < m) : Does (jumpTakeN base m (List.replicate m o) r) d p (List.replicate m v) q (m * n) := by
  have key : ∀ k i p, i + k = m →
      Does (forFrom (fun i => do
        let offset ← index (List.replicate m o) i
        jumpTake base offset r) i k) d p (List.replicate k v) (if k = 0 then p else q) (k * n) := by
    intro k
    induction k with
    | zero => exact fun i p _ => (Does.pure (v := [])).less (by omega)
    | succ k ih =>
      intro i p hi
      have h1 : Does (index (List.replicate m o) i) d p o p 0 := by
        unfold index
        rw [List.getElem?_replicate, if_pos (by omega)]
        exact .pure
      have h2 := ih (i + 1) q (by omega)
      rw [show (if k = 0 then q else q) = q by split <;> rfl] at h2
      rw [if_neg (by omega), Nat.add_mul, Nat.add_comm (k * n), Nat.one_mul]
      have h3 : Does (do
          let offset ← index (List.replicate m o) i
          jumpTake base offset r) d p v q n := h1.skip (does_jumpTake h hb)
      refine h3.bind ?_
      refine h2.only ?_
      exact .pure
  have := key m 0 p (by omega)
  rw [if_neg (by omega)] at this
  exact this

end

/-- The two bytes of a number. -/
def word (n : Nat) : List UInt8 := [UInt8.ofNat (n / 256), UInt8.ofNat n]

theorem wordsAt_words {ws : List Nat} (h : ∀ w ∈ ws, w < 65536) : WordsAt (ws.flatMap word) 0 ws := by
  have key : ∀ (pre : List UInt8) (ws : List Nat), (∀ w ∈ ws, w < 65536) →
      WordsAt (pre ++ ws.flatMap word) pre.length ws := by
    intro pre ws
    induction ws generalizing pre with
    | nil => intro _ i w hw; simp at hw
    | cons w ws ih =>
      intro hw i x hx
      have hsplit : pre ++ (w :: ws).flatMap word = (pre ++ word w) ++ ws.flatMap word := by simp
      cases i with
      | zero =>
        simp only [List.getElem?_cons_zero, Option.some.injEq] at hx
        subst hx
        have hlt := hw w (by simp)
        have h0 : (pre ++ (w :: ws).flatMap word)[pre.length]? = some (UInt8.ofNat (w / 256)) := by
          rw [List.getElem?_append_right (Nat.le_refl _)]
          simp [word]
        have h1 : (pre ++ (w :: ws).flatMap word)[pre.length + 1]? = some (UInt8.ofNat w) := by
          rw [List.getElem?_append_right (by omega)]
          simp [word]
        rw [Nat.mul_zero, Nat.add_zero, run_u16, h0, h1]
        simp only [UInt8.toNat_ofNat']
        rw [show w / 256 % 2 ^ 8 * 256 + w % 2 ^ 8 = w by omega]
      | succ i =>
        have := ih (pre ++ word w) (fun x hx => hw x (by simp [hx])) i x (by simpa using hx)
        rw [hsplit]
        rw [show (pre ++ word w).length = pre.length + 2 by simp [word]] at this
        rw [show pre.length + 2 * (i + 1) = pre.length + 2 + 2 * i by omega]
        exact this
  simpa using key [] ws h

/-- A layout table with one script list and one feature list, both empty, and `n` times the same lookup of type `t`,
which has `n` times the same subtable, which has `n` times the same set of records, which has `n` times the same
record, which begins with `a` and `b` and has `n` glyphs. -/
def nested (t a b n : Nat) : List Nat :=
  [1, 0, 10, 10, 12, 0, n] ++ (List.replicate n (2 + 2 * n) ++
    ([t, 0, n] ++ (List.replicate n (6 + 2 * n) ++
      ([1, 6 + 2 * n, n] ++ (List.replicate n (10 + 2 * n) ++
        ([1, 0, n] ++ (List.replicate n (2 + 2 * n) ++ ([a, b] ++ List.replicate n 5))))))))

/-- The set of records in `nested`. -/
def nestedSet (a b n : Nat) : List Nat := n :: (List.replicate n (2 + 2 * n) ++ (a :: b :: List.replicate n 5))

/-- The subtable in `nested`. -/
def nestedTable (a b n : Nat) : List Nat :=
  1 :: (6 + 2 * n) :: n :: (List.replicate n (10 + 2 * n) ++ (1 :: 0 :: nestedSet a b n))

/-- The lookup in `nested`. -/
def nestedLookup (t a b n : Nat) : List Nat :=
  t :: 0 :: n :: (List.replicate n (6 + 2 * n) ++ nestedTable a b n)

section
variable {d : Data} {p n : Nat} {ws : List Nat}

theorem does_ligature (h : WordsAt d p (7 :: (n + 1) :: List.replicate n 5)) :
    Runs gsub.Ligature.read d p n := by
  have h2 : WordsAt d (p + 2 + 2) (List.replicate n 5 ++ []) := by simpa using h.tail.tail
  unfold gsub.Ligature.read
  refine h.head.then ?_
  refine h.tail.head.then ?_
  refine (does_raiseIf (by omega)).then ?_
  refine (does_subUint (by omega)).then ?_
  exact (does_same h2).finally .pure

theorem does_ligatures (hp : p + 10 * n < 2 ^ 60) (hn : 0 < n) (h : WordsAt d p (nestedSet 7 (n + 1) n)) :
    Runs gsub.Ligatures.read d p (n * n) := by
  have h1 := h.tail
  have h2 := h1.drop (n := n) (by simp)
  rw [show p + 2 + 2 * n = p + (2 + 2 * n) by omega] at h2
  obtain ⟨v, q, hv⟩ := does_ligature h2
  unfold gsub.Ligatures.read
  refine does_position.then ?_
  refine h.head.then ?_
  refine (does_same h1).then ?_
  exact (does_offsets hv (by omega) hn).finally .pure

theorem does_rule (h : WordsAt d p ((n + 1) :: 0 :: List.replicate n 5)) : Runs context.Record.read d p n := by
  have h2 : WordsAt d (p + 2 + 2) (List.replicate n 5 ++ []) := by simpa using h.tail.tail
  unfold context.Record.read
  refine h.head.then ?_
  refine h.tail.head.then ?_
  refine (does_raiseIf (by omega)).then ?_
  refine (does_subUint (by omega)).then ?_
  refine (does_same h2).finally ?_
  exact (Does.pure (v := [])).then .pure

theorem does_rules (hp : p + 10 * n < 2 ^ 60) (hn : 0 < n) (h : WordsAt d p (nestedSet (n + 1) 0 n)) :
    Runs context.Records.read d p (n * n) := by
  have h1 := h.tail
  have h2 := h1.drop (n := n) (by simp)
  rw [show p + 2 + 2 * n = p + (2 + 2 * n) by omega] at h2
  obtain ⟨v, q, hv⟩ := does_rule h2
  unfold context.Records.read
  refine does_position.then ?_
  refine h.head.then ?_
  refine (does_same h1).then ?_
  exact (does_offsets hv (by omega) hn).finally .pure

theorem does_coverage (h : WordsAt d p (1 :: 0 :: ws)) : Runs coverage.Coverage.read d p 0 := by
  have h1 : Does (peek u16) d p 1 p 0 := does_peek h.head
  have h2 : Does coverage.Coverage1.read d p ⟨1, 0, []⟩ (p + 2 + 2) 0 := by
    unfold coverage.Coverage1.read
    refine h.head.skip ?_
    refine h.tail.head.skip ?_
    exact (Does.pure (v := [])).skip .pure
  unfold coverage.Coverage.read
  refine h1.then ?_
  exact h2.then .pure

theorem does_substitution (hp : p + 14 * n + 100 < 2 ^ 60) (hn : 0 < n) (h : WordsAt d p (nestedTable 7 (n + 1) n)) :
    Runs (gsub.Type_.read 4) d p (n * (n * n)) := by
  have h1 := h.tail.tail.tail
  have h2 := h1.drop (n := n) (by simp)
  have h3 := h2.tail.tail
  rw [show p + 2 + 2 + 2 + 2 * n + 2 + 2 = p + (10 + 2 * n) by omega] at h3
  rw [show p + 2 + 2 + 2 + 2 * n = p + (6 + 2 * n) by omega] at h2
  obtain ⟨v, q, hv⟩ := does_ligatures (by omega) hn h3
  obtain ⟨w, q', hw⟩ := does_coverage h2
  have key : Runs gsub.LigatureSubstitution.read d p (n * (n * n)) := by
    unfold gsub.LigatureSubstitution.read
    refine does_position.then ?_
    refine (does_expect h).then ?_
    refine h.tail.head.then ?_
    refine h.tail.tail.head.then ?_
    refine (does_same h1).then ?_
    refine (does_jumpTake hw (by omega)).then ?_
    exact (does_offsets hv (by omega) hn).finally .pure
  obtain ⟨v, q, hv⟩ := key
  unfold gsub.Type_.read
  exact hv.finally .pure

theorem does_positioning {cfg : Cfg} (hp : p + 14 * n + 100 < 2 ^ 60) (hn : 0 < n)
    (h : WordsAt d p (nestedTable (n + 1) 0 n)) : Runs (gpos.Type_.read cfg 7) d p (n * (n * n)) := by
  have h1 := h.tail.tail.tail
  have h2 := h1.drop (n := n) (by simp)
  have h3 := h2.tail.tail
  rw [show p + 2 + 2 + 2 + 2 * n + 2 + 2 = p + (10 + 2 * n) by omega] at h3
  rw [show p + 2 + 2 + 2 + 2 * n = p + (6 + 2 * n) by omega] at h2
  obtain ⟨v, q, hv⟩ := does_rules (by omega) hn h3
  obtain ⟨w, q', hw⟩ := does_coverage h2
  have key : Runs context.Context1.read d p (n * (n * n)) := by
    unfold context.Context1.read
    refine does_position.then ?_
    refine h.head.then ?_
    refine h.tail.head.then ?_
    refine h.tail.tail.head.then ?_
    refine (does_same h1).then ?_
    refine (does_jumpTake hw (by omega)).then ?_
    exact (does_offsets hv (by omega) hn).finally .pure
  obtain ⟨v, q, hv⟩ := key
  have h4 : Does (peek u16) d p 1 p 0 := does_peek h.head
  have h5 : Runs context.Context.read d p (n * (n * n)) := by
    unfold context.Context.read
    refine h4.then ?_
    exact hv.finally .pure
  obtain ⟨v, q, hv⟩ := h5
  unfold gpos.Type_.read
  exact hv.finally .pure

section
variable {T : Type} {cfg : Cfg} {readTable : Nat → Reader T} {t a b m : Nat}

theorem does_lookup (hp : p + 18 * n + 200 < 2 ^ 60) (hn : 0 < n)
    (ht : ∀ p, p + 14 * n + 100 < 2 ^ 60 → WordsAt d p (nestedTable a b n) → Runs (readTable t) d p m)
    (h : WordsAt d p (nestedLookup t a b n)) : Runs (lookup.Record.read cfg readTable) d p (n * m) := by
  have h1 := h.tail.tail.tail
  have h2 := h1.drop (n := n) (by simp)
  rw [show p + 2 + 2 + 2 + 2 * n = p + (6 + 2 * n) by omega] at h2
  obtain ⟨v, q, hv⟩ := ht _ (by omega) h2
  unfold lookup.Record.read
  refine does_position.then ?_
  refine h.head.then ?_
  refine (does_flags h.tail).then ?_
  refine h.tail.tail.head.then ?_
  refine (does_same h1).then ?_
  refine (Does.pure (v := none)).then ?_
  exact (does_offsets hv (by omega) hn).finally .pure

theorem does_lookups (hp : p + 22 * n + 300 < 2 ^ 60) (hn : 0 < n)
    (ht : ∀ p, p + 14 * n + 100 < 2 ^ 60 → WordsAt d p (nestedTable a b n) → Runs (readTable t) d p m)
    (h : WordsAt d p (n :: (List.replicate n (2 + 2 * n) ++ nestedLookup t a b n))) :
    Runs (lookup.Lookups.read cfg readTable) d p (n * (n * m)) := by
  have h1 := h.tail
  have h2 := h1.drop (n := n) (by simp)
  rw [show p + 2 + 2 * n = p + (2 + 2 * n) by omega] at h2
  obtain ⟨v, q, hv⟩ := does_lookup (cfg := cfg) (by omega) hn ht h2
  unfold lookup.Lookups.read
  refine does_position.then ?_
  refine h.head.then ?_
  refine (does_same h1).then ?_
  exact (does_offsets hv (by omega) hn).finally .pure
end

theorem does_scripts (h : WordsAt d p (0 :: ws)) : Runs script.Scripts.read d p 0 := by
  unfold script.Scripts.read
  refine does_position.then ?_
  refine h.head.then ?_
  refine (Does.pure (v := [])).then ?_
  exact (Does.pure (v := [])).then .pure

theorem does_features (h : WordsAt d p (0 :: ws)) : Runs feature.Features.read d p 0 := by
  unfold feature.Features.read
  refine does_position.then ?_
  refine h.head.then ?_
  refine (Does.pure (v := [])).then ?_
  exact (Does.pure (v := [])).then .pure

theorem does_part {α : Type} {cfg : Cfg} {r : Reader α} {base o q m : Nat} {default v : α} (h : Does r d (base + o) v q m)
    (ho : 0 < o) (hb : base + o < 2 ^ 64) : Does (directory.part cfg base o r default) d p v q m := by
  unfold directory.part
  split
  · unfold jumpTakeMaybe
    rw [if_pos ho]
    have h1 : Does (do let x ← jumpTake base o r; return some x) d p (some v) q m := (does_jumpTake h hb).only .pure
    exact h1.only .pure
  · exact does_jumpTake h hb

theorem does_nested {T : Type} {cfg : Cfg} {readTable : Nat → Reader T} {t a b m : Nat} (hn : 0 < n) (hp : 10 * n < 2 ^ 50)
    (ht : ∀ p, p + 14 * n + 100 < 2 ^ 60 → WordsAt d p (nestedTable a b n) → Runs (readTable t) d p m)
    (h : WordsAt d 0 (nested t a b n)) : Runs (directory.Directory.read cfg readTable) d 0 (n * (n * m)) := by
  have h5 := h.tail.tail.tail.tail.tail
  obtain ⟨s, qs, hs⟩ := does_scripts h5
  obtain ⟨f, qf, hf⟩ := does_features h5
  obtain ⟨l, ql, hl⟩ := does_lookups (cfg := cfg) (by omega) hn ht h5.tail
  unfold directory.Directory.read
  refine does_position.then ?_
  refine h.head.then ?_
  refine h.tail.head.then ?_
  refine (does_raiseIf (by simp)).then ?_
  refine h.tail.tail.head.then ?_
  refine h.tail.tail.tail.head.then ?_
  refine h.tail.tail.tail.tail.head.then ?_
  refine (Does.pure (v := 0)).then ?_
  refine (does_part hs (by omega) (by omega)).then ?_
  refine (does_part hf (by omega) (by omega)).then ?_
  refine (does_part hl (by omega) (by omega)).finally ?_
  refine (Does.pure (v := none)).then ?_
  exact .pure

/-- A glyph definition with `n` times the same ligature, which has `n` times the same caret, whose correction has
`n + 1` words. -/
def nestedCarets (n : Nat) : List Nat :=
  [1, 0, 0, 0, 12, 0] ++ ([4 + 2 * n, n] ++ (List.replicate n (8 + 2 * n) ++
    ([1, 0, n] ++ (List.replicate n (2 + 2 * n) ++ ([0, 3, 6] ++ ([0, 2 * n - 1, 3] ++ List.replicate (n + 1) 5))))))

theorem does_correction (hn : 0 < n) (hn' : n < 2 ^ 20) (h : WordsAt d p ([0, 2 * n - 1, 3] ++ List.replicate (n + 1) 5)) :
    Runs correction.Correction.read d p n := by
  have h1 : Does (peek correction.peeked) d p (0 * 65536 + (2 * n - 1), 3) p 0 := by
    have h0 : Does correction.peeked d p (0 * 65536 + (2 * n - 1), 3) (p + 2 + 2 + 2) 0 := by
      unfold correction.peeked
      refine (does_u32 h).skip ?_
      refine h.tail.tail.head.skip ?_
      exact .pure
    exact does_peek h0
  have h2 : WordsAt d (p + 2 + 2 + 2) (List.replicate (n + 1) 5 ++ []) := by simpa using h.tail.tail.tail
  have key : Runs correction.Device.read d p n := by
    unfold correction.Device.read
    refine h.head.then ?_
    refine h.tail.head.then ?_
    refine (does_raiseIf (by omega)).then ?_
    refine h.tail.tail.head.then ?_
    refine (does_raiseIf (by omega)).then ?_
    refine (does_subUint (by omega)).then ?_
    have a1 : Does (addUsize (2 * n - 1 - 0) 1) d (p + 2 + 2 + 2) (2 * n) (p + 2 + 2 + 2) 0 := by
      unfold addUsize
      rw [if_pos (by omega), show 2 * n - 1 - 0 + 1 = 2 * n by omega]
      exact .pure
    have a2 : Does (mulUsize (1 <<< 3) (2 * n)) d (p + 2 + 2 + 2) (16 * n) (p + 2 + 2 + 2) 0 := by
      unfold mulUsize
      rw [show 1 <<< 3 * (2 * n) = 16 * n by simp; omega, if_pos (by omega)]
      exact .pure
    have a3 : Does (addUsize (16 * n) 16) d (p + 2 + 2 + 2) (16 * n + 16) (p + 2 + 2 + 2) 0 := by
      unfold addUsize
      rw [if_pos (by omega)]
      exact .pure
    refine a1.then ?_
    refine a2.then ?_
    refine a3.then ?_
    refine (does_subUint (by omega)).then ?_
    rw [show (16 * n + 16 - 16 * n % 16) >>> 4 = n + 1 by rw [Nat.shiftRight_eq_div_pow]; omega]
    exact ((does_same h2).less (Nat.le_succ n)).finally .pure
  obtain ⟨v, q, hv⟩ := key
  unfold correction.Correction.read
  refine h1.then ?_
  dsimp only
  rw [if_pos (by decide)]
  exact hv.finally .pure

theorem does_maybe {α : Type} {r : Reader α} {base o q m : Nat} {v : α} (h : Does r d (base + o) v q m)
    (ho : 0 < o) (hb : base + o < 2 ^ 64) : Does (jumpTakeMaybe base o r) d p (some v) q m := by
  unfold jumpTakeMaybe
  rw [if_pos ho]
  exact (does_jumpTake h hb).only .pure

theorem does_caret (hp : p < 2 ^ 60) (hn : 0 < n) (hn' : n < 2 ^ 20)
    (h : WordsAt d p ([0, 3, 6] ++ ([0, 2 * n - 1, 3] ++ List.replicate (n + 1) 5))) :
    Runs gdef.Caret.read d p n := by
  obtain ⟨v, q, hv⟩ := does_correction hn hn' h.tail.tail.tail
  have key : Runs gdef.Caret3.read d p n := by
    unfold gdef.Caret3.read
    refine does_position.then ?_
    refine h.head.then ?_
    refine (does_i16 h.tail).then ?_
    refine h.tail.tail.head.then ?_
    exact (does_jumpTake (base := p) (o := 6) hv (by omega)).finally .pure
  obtain ⟨w, q, hw⟩ := key
  unfold gdef.Caret.read
  refine (does_peek (does_u32 h)).then ?_
  exact hw.finally .pure

/-- The ligature in `nestedCarets`. -/
def nestedLigature (n : Nat) : List Nat :=
  n :: (List.replicate n (2 + 2 * n) ++ ([0, 3, 6] ++ ([0, 2 * n - 1, 3] ++ List.replicate (n + 1) 5)))

theorem does_carets (hp : p < 2 ^ 59) (hn : 0 < n) (hn' : n < 2 ^ 20) (h : WordsAt d p (nestedLigature n)) :
    Runs gdef.Ligature.read d p (n * n) := by
  have h1 := h.tail
  have h2 := h1.drop (n := n) (by simp)
  rw [show p + 2 + 2 * n = p + (2 + 2 * n) by omega] at h2
  obtain ⟨v, q, hv⟩ := does_caret (by omega) hn hn' h2
  unfold gdef.Ligature.read
  refine does_position.then ?_
  refine h.head.then ?_
  refine (does_same h1).then ?_
  exact (does_offsets hv (by omega) hn).finally .pure

theorem does_definition {cfg : Cfg} (hn : 0 < n) (hn' : n < 2 ^ 20) (h : WordsAt d 0 (nestedCarets n)) :
    Runs (gdef.GlyphDefinition.read cfg) d 0 (n * (n * n)) := by
  have h6 := h.tail.tail.tail.tail.tail.tail
  have h7 : WordsAt d _ (List.replicate n (8 + 2 * n) ++ _) := h6.tail.tail
  have h8 := h7.drop (n := n) (by simp)
  have h9 : WordsAt d (0 + 12 + (8 + 2 * n)) (nestedLigature n) := by
    have := h8.tail.tail
    rw [show 0 + 2 + 2 + 2 + 2 + 2 + 2 + 2 + 2 + 2 * n + 2 + 2 = 0 + 12 + (8 + 2 * n) by omega] at this
    exact this
  rw [show 0 + 2 + 2 + 2 + 2 + 2 + 2 + 2 + 2 + 2 * n = 0 + 12 + (4 + 2 * n) by omega] at h8
  obtain ⟨w, q', hw⟩ := does_coverage h8
  obtain ⟨v, q, hv⟩ := does_carets (by omega) hn hn' h9
  have key : Runs gdef.Ligatures.read d (0 + 12) (n * (n * n)) := by
    unfold gdef.Ligatures.read
    refine does_position.then ?_
    refine h6.head.then ?_
    refine h6.tail.head.then ?_
    refine (does_same h7).then ?_
    refine (does_jumpTake hw (by omega)).then ?_
    exact (does_offsets hv (by omega) hn).finally .pure
  obtain ⟨u, q'', hu⟩ := key
  have head : Does gdef.Header.read d 0 (.version1 ⟨1, 0, 0, 0, 12, 0⟩) (0 + 2 + 2 + 2 + 2 + 2 + 2) 0 := by
    have h1 : Does gdef.Header1.read d 0 ⟨1, 0, 0, 0, 12, 0⟩ (0 + 2 + 2 + 2 + 2 + 2 + 2) 0 := by
      unfold gdef.Header1.read
      refine (does_expect h).skip ?_
      refine (does_expect h.tail).skip ?_
      refine h.tail.tail.head.skip ?_
      refine h.tail.tail.tail.head.skip ?_
      refine h.tail.tail.tail.tail.head.skip ?_
      refine h.tail.tail.tail.tail.tail.head.skip ?_
      exact .pure
    unfold gdef.Header.read
    refine (does_peek (does_u32 h)).skip ?_
    exact h1.skip .pure
  unfold gdef.GlyphDefinition.read
  refine does_position.then ?_
  refine head.then ?_
  refine (Does.pure (v := none)).then ?_
  refine (Does.pure (v := none)).then ?_
  refine (does_maybe (base := 0) (o := 12) hu (by omega) (by omega)).finally ?_
  refine (Does.pure (v := none)).then ?_
  refine (Does.pure (v := none)).then ?_
  exact (Does.pure (v := none)).then .pure

/-- Variations with `n` axes and `n` instances, all of them at the same place. -/
def nestedInstances (n : Nat) : List Nat :=
  [1, 0, 16, 2, n, 0, n, 0] ++ List.replicate (2 * n + 10) 0

theorem does_coordinates {ws : List Nat} (h : WordsAt d p (List.replicate (2 * n) 0 ++ ws)) :
    Does (takeVec q32 n) d p (List.replicate n 0) (p + 4 * n) n := by
  induction n generalizing p with
  | zero => exact .pure
  | succ n ih =>
    rw [show 2 * (n + 1) = 2 * n + 1 + 1 by omega, List.replicate_succ, List.replicate_succ] at h
    have h1 : Does (takeVec q32 (n + 1)) d p (0 :: List.replicate n 0) (p + 2 + 2 + 4 * n) (1 + n) := by
      refine (does_q32 h).bind ?_
      refine (ih h.tail.tail).only ?_
      exact .pure
    rw [show p + 2 + 2 + 4 * n = p + 4 * (n + 1) by omega] at h1
    exact h1.less (by omega)

/-- The same again and again. -/
theorem does_again {α : Type} {body : Nat → Reader α} {v : α} {q m : Nat} (k i : Nat)
    (h : ∀ i p, Does (body i) d p v q m) (hk : 0 < k) :
    Does (forFrom body i k) d p (List.replicate k v) q (k * m) := by
  have key : ∀ k i p, Does (forFrom body i k) d p (List.replicate k v) (if k = 0 then p else q) (k * m) := by
    intro k
    induction k with
    | zero => exact fun i p => (Does.pure (v := [])).less (by omega)
    | succ k ih =>
      intro i p
      have h2 := ih (i + 1) q
      rw [show (if k = 0 then q else q) = q by split <;> rfl] at h2
      rw [if_neg (by omega), Nat.add_mul, Nat.add_comm (k * m), Nat.one_mul]
      refine (h i p).bind ?_
      refine h2.only ?_
      exact .pure
  have := key k i p
  rw [if_neg (by omega)] at this
  exact this

theorem WordsAt.part {m i k : Nat} (h : WordsAt d p (List.replicate m 0)) (hi : i + k ≤ m) :
    WordsAt d (p + 2 * i) (List.replicate k 0) := by
  rw [show m = i + (k + (m - i - k)) by omega, ← List.replicate_append_replicate, ← List.replicate_append_replicate] at h
  have h1 := h.drop (n := i) (by simp)
  intro j w hw
  refine h1 j w ?_
  have hj : j < k := by
    refine Nat.lt_of_not_le fun hj => ?_
    rw [List.getElem?_eq_none (by simp; omega)] at hw
    exact absurd hw (by simp)
  rw [List.getElem?_append_left (by simpa using hj)]
  exact hw

theorem does_axis {cfg : Cfg} (h : WordsAt d p (List.replicate 10 0)) :
    Runs (fvar.AxisRecord.read cfg) d p 0 := by
  unfold fvar.AxisRecord.read takeTag
  refine (does_u32 h).then ?_
  refine (does_q32 h.tail.tail).then ?_
  refine (does_q32 h.tail.tail.tail.tail).then ?_
  refine (does_q32 h.tail.tail.tail.tail.tail.tail).then ?_
  refine (does_flags h.tail.tail.tail.tail.tail.tail.tail.tail).then ?_
  refine h.tail.tail.tail.tail.tail.tail.tail.tail.tail.head.then ?_
  exact .pure

theorem does_instance {cfg : Cfg} (h : WordsAt d p (List.replicate (2 * n + 3) 0)) :
    Runs (fvar.InstanceRecord.read cfg n) d p n := by
  have h1 : WordsAt d p (0 :: 0 :: List.replicate (2 * n + 1) 0) := by
    rw [show 2 * n + 3 = 2 * n + 1 + 1 + 1 by omega, List.replicate_succ, List.replicate_succ] at h
    exact h
  have h2 : WordsAt d (p + 2 + 2) (List.replicate (2 * n) 0 ++ [0]) := by
    have := h1.tail.tail
    rw [← List.replicate_append_replicate] at this
    exact this
  have h3 := h2.drop (n := 2 * n) (by simp)
  rw [show p + 2 + 2 + 2 * (2 * n) = p + 2 + 2 + 4 * n by omega] at h3
  unfold fvar.InstanceRecord.read
  refine h1.head.then ?_
  refine (does_flags h1.tail).then ?_
  refine (does_coordinates h2).finally ?_
  refine h3.head.then ?_
  exact .pure

theorem does_placed {α : Type} {r : Reader α} {v : α} {base size q m : Nat} (h : Does r d base v q m) (hb : base < 2 ^ 64)
    (hs : size = 0) (i : Nat) : Does (do
      let offset ← mulU64 i size
      let q ← addU64 base offset
      jump q
      r) d p v q m := by
  subst hs
  have h1 : Does (mulU64 i 0) d p 0 p 0 := by
    unfold mulU64
    rw [if_pos (by simp), Nat.mul_zero]
    exact .pure
  have h2 : Does (addU64 base 0) d p base p 0 := by
    unfold addU64
    rw [if_pos (by omega)]
    exact .pure
  have h3 : Does (jump base) d p () base 1 := ⟨rfl, Nat.le_refl 1⟩
  refine h1.skip ?_
  refine h2.skip ?_
  exact h3.skip h

theorem does_variations {cfg : Cfg} (hn : 0 < n) (hn' : n < 2 ^ 20) (h : WordsAt d 0 (nestedInstances n)) :
    Runs (fvar.FontVariations.read cfg) d 0 (n * n) := by
  have h8 : WordsAt d 16 (List.replicate (2 * n + 10) 0) := h.tail.tail.tail.tail.tail.tail.tail.tail
  obtain ⟨a, qa, ha⟩ := does_axis (cfg := cfg) (p := 16) (h8.part (i := 0) (by omega))
  obtain ⟨b, qb, hb⟩ := does_instance (cfg := cfg) (n := n) (p := 16) (h8.part (i := 0) (by omega))
  have head : Does fvar.Header.read d 0 ⟨1, 0, 16, 2, n, 0, n, 0⟩ (0 + 2 + 2 + 2 + 2 + 2 + 2 + 2 + 2) 0 := by
    unfold fvar.Header.read
    refine h.head.skip ?_
    refine h.tail.head.skip ?_
    refine h.tail.tail.head.skip ?_
    refine (does_expect h.tail.tail.tail).skip ?_
    refine h.tail.tail.tail.tail.head.skip ?_
    refine h.tail.tail.tail.tail.tail.head.skip ?_
    refine h.tail.tail.tail.tail.tail.tail.head.skip ?_
    refine h.tail.tail.tail.tail.tail.tail.tail.head.skip ?_
    exact .pure
  unfold fvar.FontVariations.read
  refine does_position.then ?_
  refine head.then ?_
  refine (Does.pure (v := 16)).then ?_
  refine (does_again n 0 (fun i p => does_placed ha (by omega) rfl i) hn).then ?_
  have m0 : ∀ p, Does (mulU64 n 0) d p 0 p 0 := by
    intro p
    unfold mulU64
    rw [if_pos (by simp), Nat.mul_zero]
    exact .pure
  refine (m0 _).then ?_
  refine (Does.pure (v := 16)).then ?_
  exact (does_again n 0 (fun i p => does_placed hb (by omega) rfl i) hn).finally .pure

end

theorem length_nested (t a b n : Nat) : (nested t a b n).length = 18 + 5 * n := by simp [nested]; omega

theorem length_nestedCarets (n : Nat) : (nestedCarets n).length = 18 + 3 * n := by simp [nestedCarets]; omega

theorem length_nestedInstances (n : Nat) : (nestedInstances n).length = 18 + 2 * n := by simp [nestedInstances]; omega

theorem length_words (ws : List Nat) : (ws.flatMap word).length = 2 * ws.length := by
  induction ws with
  | nil => rfl
  | cons w ws ih =>
    simp only [List.flatMap_cons, List.length_append, List.length_cons, ih]
    simp only [word, List.length_cons, List.length_nil]
    omega

end OpenType
