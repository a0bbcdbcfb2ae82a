import Verif.C.Lemmas
import Verif.Proof.Words
/-!
# Loops shared by the implementations

Every implementation absorbs, encrypts, decrypts and squeezes with `while` loops of the same shape.
Each lemma takes the effect of one iteration as a hypothesis (`hstep`) and gives the effect of the
whole loop; `E` is the representation of the specification state (identity, bit-interleaved, …).
-/

namespace Ascon.C

open Ascon.Spec
open Ascon.C.Prog (loop)

attribute [local irreducible] perm

variable {τ : Type}

theorem Mem.Holds.lastBlock {mem : Mem} {p : Nat} {A : List Byte} (r : Nat) (h : mem.Holds p A) :
    mem.Holds (p + r * (A.length / r)) (lastBlock r A) := by
  unfold Spec.lastBlock
  apply h.drop
  have := Nat.div_add_mod A.length r
  omega

/-- Absorbing full blocks of `r` bytes. -/
theorem run_absorbLoop (E : State → τ) (r rnd : Nat) (hr : 0 < r)
    {cond : τ × Nat × Nat → Bool} {step : τ × Nat × Nat → Prog (τ × Nat × Nat)}
    (hc : ∀ s p n, cond (s, p, n) = decide (n ≥ r)) {mem : Mem}
    (hstep : ∀ (s : State) (p n : Nat) (M : List Byte), mem.Holds p M → r ≤ M.length →
      run (step (E s, p, n)) mem = some ((E (perm rnd (xorIn s (M.take r))), p + r, n - r), mem))
    (f : Nat) (s : State) (p : Nat) (M : List Byte) (h : mem.Holds p M) (hf : M.length < f) :
    run (loop f cond step (E s, p, M.length)) mem =
      some ((E (absorb rnd s (fullBlocks r M)), p + r * (M.length / r), M.length % r), mem) := by
  induction f generalizing s p M with
  | zero => omega
  | succ f ih =>
    by_cases h16 : r ≤ M.length
    · rw [run_loop_step (by rw [hc]; simpa using h16) (hstep s p _ M h h16), ← List.length_drop (i := r) (l := M),
        ih _ _ _ (h.drop r h16) (by simp; omega), fullBlocks_of_ge r M hr h16]
      have e1 : (List.drop r M).length / r + 1 = M.length / r := by
        rw [List.length_drop, Nat.div_eq_sub_div hr h16]
      have e2 : (List.drop r M).length % r = M.length % r := by
        rw [List.length_drop, Nat.mod_eq_sub_mod h16]
      rw [e2, ← e1]
      simp only [absorb, List.foldl_cons]
      rw [Nat.mul_add, Nat.mul_one, Nat.add_assoc, Nat.add_comm r]
    · rw [run_loop_done (by rw [hc]; simpa using h16), fullBlocks_of_lt r M (by omega)]
      simp only [absorb, List.foldl_nil]
      rw [Nat.mod_eq_of_lt (by omega), Nat.div_eq_of_lt (by omega)]
      rfl

/-- Encrypting full 16-byte blocks; the state tuple is `(s, c, m, mlen)`. -/
theorem run_encryptLoop (E : State → τ)
    {cond : τ × Nat × Nat × Nat → Bool} {step : τ × Nat × Nat × Nat → Prog (τ × Nat × Nat × Nat)}
    (hc : ∀ s c m n, cond (s, c, m, n) = decide (n ≥ 16))
    (hstep : ∀ (mem : Mem) (s : State) (c m n : Nat) (P : List Byte), mem.Holds m P → 16 ≤ P.length →
      mem.Writable c 16 → (c ≤ m ∨ m + P.length ≤ c) →
      run (step (E s, c, m, n)) mem = some ((E (perm 8 (xorIn s (P.take 16))), c + 16, m + 16, n - 16),
        mem.writes c (rate 16 (xorIn s (P.take 16)))))
    (f : Nat) (s : State) (mem : Mem) (c m : Nat) (P : List Byte) (h : mem.Holds m P)
    (hw : mem.Writable c P.length) (ho : c ≤ m ∨ m + P.length ≤ c) (hf : P.length < f) :
    run (loop f cond step (E s, c, m, P.length)) mem =
      some ((E (encBlocks s (fullBlocks 16 P)).1, c + 16 * (P.length / 16), m + 16 * (P.length / 16),
        P.length % 16), mem.writes c (encBlocks s (fullBlocks 16 P)).2) := by
  induction f generalizing s mem c m P with
  | zero => omega
  | succ f ih =>
    by_cases h16 : 16 ≤ P.length
    · have hr : (rate 16 (xorIn s (P.take 16))).length = 16 := length_rate _ _ (by omega)
      rw [run_loop_step (by rw [hc]; simpa using h16)
          (hstep mem s c m _ P h h16 (hw.mono (by omega) (by omega)) ho),
        ← List.length_drop (i := 16) (l := P), ih, fullBlocks_of_ge 16 P (by omega) h16]
      · have e1 : (List.drop 16 P).length / 16 + 1 = P.length / 16 := by simp; omega
        have e2 : (List.drop 16 P).length % 16 = P.length % 16 := by simp; omega
        rw [e2, ← e1]
        simp only [encBlocks]
        rw [writes_append, hr, show ∀ x y : Nat, x + 16 + 16 * y = x + 16 * (y + 1) by omega,
          show ∀ x y : Nat, x + 16 + 16 * y = x + 16 * (y + 1) by omega]
      · apply (h.drop 16 h16).writes_disjoint
        unfold Disjoint; simp only [hr, List.length_drop]; omega
      · exact (hw.mono (by omega) (by simp; omega)).writes
      · simp; omega
      · simp; omega
    · rw [run_loop_done (by rw [hc]; simpa using h16), fullBlocks_of_lt 16 P (by omega)]
      simp only [encBlocks, writes_nil]
      rw [Nat.mod_eq_of_lt (by omega), Nat.div_eq_of_lt (by omega)]
      rfl

/-- Decrypting full 16-byte blocks; the state tuple is `(s, m, c, clen)`. -/
theorem run_decryptLoop (E : State → τ)
    {cond : τ × Nat × Nat × Nat → Bool} {step : τ × Nat × Nat × Nat → Prog (τ × Nat × Nat × Nat)}
    (hc : ∀ s m c n, cond (s, m, c, n) = decide (n ≥ 16))
    (hstep : ∀ (mem : Mem) (s : State) (m c n : Nat) (C : List Byte), mem.Holds c C → 16 ≤ C.length →
      mem.Writable m 16 → (m ≤ c ∨ c + C.length ≤ m) →
      run (step (E s, m, c, n)) mem =
        some ((E (perm 8 (xorIn s (xorBytes (rate 16 s) (C.take 16)))), m + 16, c + 16, n - 16),
        mem.writes m (xorBytes (rate 16 s) (C.take 16))))
    (f : Nat) (s : State) (mem : Mem) (m c : Nat) (C : List Byte) (h : mem.Holds c C)
    (hw : mem.Writable m C.length) (ho : m ≤ c ∨ c + C.length ≤ m) (hf : C.length < f) :
    run (loop f cond step (E s, m, c, C.length)) mem =
      some ((E (decBlocks s (fullBlocks 16 C)).1, m + 16 * (C.length / 16), c + 16 * (C.length / 16),
        C.length % 16), mem.writes m (decBlocks s (fullBlocks 16 C)).2) := by
  induction f generalizing s mem m c C with
  | zero => omega
  | succ f ih =>
    by_cases h16 : 16 ≤ C.length
    · have hr : (xorBytes (rate 16 s) (C.take 16)).length = 16 := by
        rw [length_xorBytes, length_rate _ _ (by omega)]; simp; omega
      rw [run_loop_step (by rw [hc]; simpa using h16)
          (hstep mem s m c _ C h h16 (hw.mono (by omega) (by omega)) ho),
        ← List.length_drop (i := 16) (l := C), ih, fullBlocks_of_ge 16 C (by omega) h16]
      · have e1 : (List.drop 16 C).length / 16 + 1 = C.length / 16 := by simp; omega
        have e2 : (List.drop 16 C).length % 16 = C.length % 16 := by simp; omega
        rw [e2, ← e1]
        simp only [decBlocks]
        rw [writes_append, hr, show ∀ x y : Nat, x + 16 + 16 * y = x + 16 * (y + 1) by omega,
          show ∀ x y : Nat, x + 16 + 16 * y = x + 16 * (y + 1) by omega]
      · apply (h.drop 16 h16).writes_disjoint
        unfold Disjoint; simp only [hr, List.length_drop]; omega
      · exact (hw.mono (by omega) (by simp; omega)).writes
      · simp; omega
      · simp; omega
    · rw [run_loop_done (by rw [hc]; simpa using h16), fullBlocks_of_lt 16 C (by omega)]
      simp only [decBlocks, writes_nil]
      rw [Nat.mod_eq_of_lt (by omega), Nat.div_eq_of_lt (by omega)]
      rfl

/-! ### Squeezing -/

theorem iterPerm_zero (s : State) : iterPerm 0 s = s := by rw [iterPerm]

theorem iterPerm_step (i : Nat) (s : State) : iterPerm (i + 1) s = perm 12 (iterPerm i s) := by rw [iterPerm]

theorem iterPerm_succ (i : Nat) (s : State) : iterPerm (i + 1) s = iterPerm i (perm 12 s) := by
  induction i with
  | zero => rw [iterPerm_step, iterPerm_zero, iterPerm_zero]
  | succ i ih => rw [iterPerm_step, ih, iterPerm_step]

theorem squeeze_of_le (r : Nat) (s : State) (n : Nat) (hr : r ≤ 40) (h : n ≤ r) :
    squeeze r s n = rate n s := by
  unfold squeeze
  have e3 : rate r (iterPerm 0 s) = rate r s := by rw [iterPerm_zero]
  rw [List.range_succ_eq_map, List.map_cons, List.flatten_cons, e3,
    List.take_append_of_le_length (by rw [length_rate r s hr]; omega)]
  unfold rate
  rw [List.take_take, Nat.min_eq_left h]

theorem squeeze_of_ge (r : Nat) (s : State) (n : Nat) (h0 : 0 < r) (hr : r ≤ 40) (h : r ≤ n) :
    squeeze r s n = rate r s ++ squeeze r (perm 12 s) (n - r) := by
  unfold squeeze
  have e : n / r = (n - r) / r + 1 := Nat.div_eq_sub_div h0 h
  rw [e, List.range_succ_eq_map (n := (n - r) / r + 1), List.map_cons, List.flatten_cons, List.map_map]
  have e2 : ((fun i => rate r (iterPerm i s)) ∘ Nat.succ) = fun i => rate r (iterPerm i (perm 12 s)) := by
    funext i; exact congrArg (rate r) (iterPerm_succ i s)
  rw [e2]
  have e3 : rate r (iterPerm 0 s) = rate r s := by rw [iterPerm_zero]
  rw [e3, List.take_append, length_rate r s hr, List.take_of_length_le (by rw [length_rate r s hr]; exact h)]

theorem length_squeeze (r : Nat) (s : State) (n : Nat) (h0 : 0 < r) (hr : r ≤ 40) :
    (squeeze r s n).length = n := by
  induction n using Nat.strongRecOn generalizing s with
  | ind n ih =>
    by_cases h : r ≤ n
    · rw [squeeze_of_ge r s n h0 hr h, List.length_append, length_rate r s hr, ih _ (by omega)]; omega
    · rw [squeeze_of_le r s n hr (by omega), length_rate n s (by omega)]

/-- Squeezing with `while (len > 8)`; the rest (at most 8 bytes) is still to be written. -/
theorem run_squeezeLoop (E : State → τ)
    {cond : τ × Nat × Nat → Bool} {step : τ × Nat × Nat → Prog (τ × Nat × Nat)}
    (hc : ∀ s p n, cond (s, p, n) = decide (n > 8))
    (hstep : ∀ (mem : Mem) (s : State) (p n : Nat), mem.Writable p 8 →
      run (step (E s, p, n)) mem = some ((E (perm 12 s), p + 8, n - 8), mem.writes p (rate 8 s)))
    {α : Type} (k : τ × Nat × Nat → Prog α) (res : α)
    (hk : ∀ (mem : Mem) (s : State) (p n : Nat), mem.Writable p n → n ≤ 8 →
      run (k (E s, p, n)) mem = some (res, mem.writes p (rate n s)))
    (f : Nat) (s : State) (mem : Mem) (p n : Nat) (h : mem.Writable p n) (hf : n < f) :
    run (loop f cond step (E s, p, n) >>= k) mem = some (res, mem.writes p (squeeze 8 s n)) := by
  induction f generalizing s mem p n with
  | zero => omega
  | succ f ih =>
    by_cases h8 : 8 < n
    · rw [run_bind, run_loop_step (by rw [hc]; simpa using h8) (hstep mem s p n (h.mono (by omega) (by omega))),
        ← run_bind, ih _ _ _ _ (h.writes.mono (by omega) (by omega)) (by omega),
        squeeze_of_ge 8 s n (by omega) (by omega) (by omega), writes_append, length_rate 8 s (by omega)]
    · rw [run_bind, run_loop_done (by rw [hc]; simpa using h8)]
      simp only [Option.bind_some]
      rw [hk mem s p n h (by omega), squeeze_of_le 8 s n (by omega) (by omega)]

/-! ### Word-wise absorbing and squeezing (PRF) -/

/-- XOR into word `i` of the state. -/
def xorAt (s : State) (i : Nat) (w : Word) : State :=
  match i with
  | 0 => { s with x0 := s.x0 ^^^ w }
  | 1 => { s with x1 := s.x1 ^^^ w }
  | 2 => { s with x2 := s.x2 ^^^ w }
  | 3 => { s with x3 := s.x3 ^^^ w }
  | _ => { s with x4 := s.x4 ^^^ w }

/-- Word `i` of the state. -/
def wordAt (s : State) (i : Nat) : Word :=
  match i with
  | 0 => s.x0
  | 1 => s.x1
  | 2 => s.x2
  | 3 => s.x3
  | _ => s.x4

theorem padWord_mid (l : List Byte) (r j : Nat) (h1 : j ≤ l.length) (h2 : l.length < j + 8) :
    le64 (((pad r l).drop j).take 8) = le64 (l.drop j) ^^^ ((1 : Word) <<< (8 * (l.length - j))) := by
  unfold pad
  rw [le64_take8, List.drop_append_of_le_length h1, le64_pad_short _ _ (by simp; omega), List.length_drop]

theorem padWord_full (l : List Byte) (r j : Nat) (h : j + 8 ≤ l.length) :
    le64 (((pad r l).drop j).take 8) = le64 ((l.drop j).take 8) := by
  unfold pad
  rw [List.drop_append_of_le_length (by omega), List.take_append_of_le_length (by simp; omega)]

theorem padWord_zero (l : List Byte) (r j : Nat) (h : l.length < j) :
    le64 (((pad r l).drop j).take 8) = 0 := by
  unfold pad
  rw [le64_take8, List.drop_append, List.drop_of_length_le (by omega), List.nil_append,
    show j - l.length = (j - l.length - 1) + 1 by omega, List.drop_succ_cons, List.drop_replicate,
    le64_replicate_zero]

theorem xorIn_32 (s : State) (b : List Byte) (h : b.length = 32) :
    xorIn s b = xorAt (xorAt (xorAt (xorAt s 0 (le64 (b.take 8))) 1 (le64 ((b.drop 8).take 8))) 2
      (le64 ((b.drop 16).take 8))) 3 (le64 (b.drop 24)) := by
  unfold xorIn
  rw [List.drop_of_length_le (by omega : b.length ≤ 32), List.take_of_length_le (l := b.drop 24) (by simp; omega)]
  simp [xorAt, le64]

theorem le64_drop_take (m : List Byte) (j n : Nat) (h : j + 8 ≤ n) :
    le64 (((m.take n).drop j).take 8) = le64 ((m.drop j).take 8) := by
  rw [List.drop_take, List.take_take, Nat.min_eq_left (by omega)]

theorem xorIn_take32 (s : State) (m : List Byte) (h : 32 ≤ m.length) :
    xorIn s (m.take 32) = xorAt (xorAt (xorAt (xorAt s 0 (le64 (m.take 8))) 1 (le64 ((m.drop 8).take 8))) 2
      (le64 ((m.drop 16).take 8))) 3 (le64 ((m.drop 24).take 8)) := by
  rw [xorIn_32 s _ (by simp; omega), le64_drop_take m 8 32 (by omega), le64_drop_take m 16 32 (by omega),
    List.take_take, List.drop_take]
  rfl

theorem xorIn_pad32 (s : State) (l : List Byte) (h : l.length < 32) :
    xorIn s (pad 32 l) =
      if l.length < 8 then xorAt s 0 (le64 l ^^^ (1 : Word) <<< (8 * l.length))
      else if l.length < 16 then xorAt (xorAt s 0 (le64 (l.take 8))) 1
        (le64 (l.drop 8) ^^^ (1 : Word) <<< (8 * (l.length - 8)))
      else if l.length < 24 then xorAt (xorAt (xorAt s 0 (le64 (l.take 8))) 1 (le64 ((l.drop 8).take 8))) 2
        (le64 (l.drop 16) ^^^ (1 : Word) <<< (8 * (l.length - 16)))
      else xorAt (xorAt (xorAt (xorAt s 0 (le64 (l.take 8))) 1 (le64 ((l.drop 8).take 8))) 2
        (le64 ((l.drop 16).take 8))) 3 (le64 (l.drop 24) ^^^ (1 : Word) <<< (8 * (l.length - 24))) := by
  have hl : (pad 32 l).length = 32 := by rw [pad_length 32 l (by omega), Nat.div_eq_of_lt h]
  have h4 : le64 (((pad 32 l).drop 32).take 8) = 0 := padWord_zero l 32 32 h
  have e0 : (pad 32 l).take 8 = ((pad 32 l).drop 0).take 8 := by simp
  unfold xorIn
  rw [h4, e0]
  split
  · rw [padWord_mid l 32 0 (by omega) (by omega), padWord_zero l 32 8 (by omega), padWord_zero l 32 16 (by omega),
      padWord_zero l 32 24 (by omega)]
    simp [xorAt]
  · split
    · rw [padWord_full l 32 0 (by omega), padWord_mid l 32 8 (by omega) (by omega), padWord_zero l 32 16 (by omega),
        padWord_zero l 32 24 (by omega)]
      simp [xorAt]
    · split
      · rw [padWord_full l 32 0 (by omega), padWord_full l 32 8 (by omega), padWord_mid l 32 16 (by omega) (by omega),
          padWord_zero l 32 24 (by omega)]
        simp [xorAt]
      · rw [padWord_full l 32 0 (by omega), padWord_full l 32 8 (by omega), padWord_full l 32 16 (by omega),
          padWord_mid l 32 24 (by omega) (by omega)]
        simp [xorAt]

/-- Absorbing word by word with a word index, permuting after every fourth word; the continuation
`k` adds the last, padded, word. -/
theorem run_prfAbsorbLoop (E : State → τ)
    {cond : τ × Nat × Nat × Nat → Bool} {step : τ × Nat × Nat × Nat → Prog (τ × Nat × Nat × Nat)}
    (hc : ∀ s i p n, cond (s, i, p, n) = decide (n ≥ 8)) {mem : Mem}
    (hstep : ∀ (s : State) (i p n : Nat) (M : List Byte), i < 4 → mem.Holds p M → 8 ≤ M.length →
      run (step (E s, i, p, n)) mem =
        some ((E (if i = 3 then perm 12 (xorAt s i (le64 (M.take 8))) else xorAt s i (le64 (M.take 8))),
          if i = 3 then 0 else i + 1, p + 8, n - 8), mem))
    {α : Type} (k : τ × Nat × Nat × Nat → Prog α) (res : State → α)
    (hk : ∀ (s : State) (i p : Nat) (M : List Byte), i < 4 → mem.Holds p M → M.length < 8 →
      run (k (E s, i, p, M.length)) mem =
        some (res (xorAt s i (le64 M ^^^ (1 : Word) <<< (8 * M.length))), mem))
    (f : Nat) (s : State) (p : Nat) (M : List Byte) (h : mem.Holds p M) (hf : M.length < f) :
    run (loop f cond step (E s, 0, p, M.length) >>= k) mem =
      some (res (xorIn (absorb 12 s (fullBlocks 32 M)) (pad 32 (lastBlock 32 M))), mem) := by
  have one : ∀ (f : Nat) (s : State) (i p : Nat) (M : List Byte), i < 4 → mem.Holds p M → 8 ≤ M.length →
      run (loop (f + 1) cond step (E s, i, p, M.length) >>= k) mem =
      run (loop f cond step (E (if i = 3 then perm 12 (xorAt s i (le64 (M.take 8))) else xorAt s i (le64 (M.take 8))),
          if i = 3 then 0 else i + 1, p + 8, (M.drop 8).length) >>= k) mem := by
    intro f s i p M hi h h8
    rw [run_bind, run_loop_step (by rw [hc]; simpa using h8) (hstep s i p _ M hi h h8), ← run_bind,
      List.length_drop]
  have fin : ∀ (f : Nat) (s : State) (i p : Nat) (M : List Byte), i < 4 → mem.Holds p M → M.length < 8 →
      run (loop (f + 1) cond step (E s, i, p, M.length) >>= k) mem =
      some (res (xorAt s i (le64 M ^^^ (1 : Word) <<< (8 * M.length))), mem) := by
    intro f s i p M hi h h8
    rw [run_bind, run_loop_done (by rw [hc]; simpa using h8)]
    simp only [Option.bind_some]
    exact hk s i p M hi h h8
  induction hn : M.length using Nat.strongRecOn generalizing f s p M with
  | ind n ih =>
    subst hn
    have h8 := fun hh : 8 ≤ M.length => h.drop 8 hh
    have h16 := fun hh : 16 ≤ M.length => (h.drop 8 (by omega)).drop 8 (by simp; omega)
    have h24 := fun hh : 24 ≤ M.length => ((h.drop 8 (by omega)).drop 8 (by simp; omega)).drop 8 (by simp; omega)
    by_cases h32 : 32 ≤ M.length
    · obtain ⟨f, rfl⟩ : ∃ g, f = g + 4 := ⟨f - 4, by omega⟩
      rw [one _ s 0 p M (by omega) h (by omega), one _ _ _ _ _ (by simp) (h8 (by omega)) (by simp; omega),
        one _ _ _ _ _ (by simp) (h16 (by omega)) (by simp; omega),
        one _ _ _ _ _ (by simp) (h24 (by omega)) (by simp; omega)]
      simp only [show ¬ (0 : Nat) = 3 by omega, ↓reduceIte, Nat.zero_add, Nat.reduceAdd, Nat.reduceEqDiff,
        List.drop_drop]
      have := ih (M.drop 32).length (by simp; omega) f
        (perm 12 (xorIn s (M.take 32))) (p + 8 + 8 + 8 + 8) (M.drop 32)
        (by rw [show p + 8 + 8 + 8 + 8 = p + 32 by omega]; exact h.drop 32 h32) (by simp; omega) rfl
      rw [xorIn_take32 s M h32] at this
      rw [fullBlocks_of_ge 32 M (by omega) h32, lastBlock_of_ge 32 M (by omega) h32]
      simp only [absorb, List.foldl_cons] at this ⊢
      rw [xorIn_take32 s M h32]
      simpa using this
    · rw [fullBlocks_of_lt 32 M (by omega), lastBlock_of_lt 32 M (by omega)]
      simp only [absorb, List.foldl_nil]
      rw [xorIn_pad32 s M (by omega)]
      split
      · obtain ⟨f, rfl⟩ : ∃ g, f = g + 1 := ⟨f - 1, by omega⟩
        rw [fin _ s 0 p M (by omega) h (by omega)]
      · split
        · obtain ⟨f, rfl⟩ : ∃ g, f = g + 2 := ⟨f - 2, by omega⟩
          rw [one _ s 0 p M (by omega) h (by omega), fin _ _ _ _ _ (by simp) (h8 (by omega)) (by simp; omega)]
          simp
        · split
          · obtain ⟨f, rfl⟩ : ∃ g, f = g + 3 := ⟨f - 3, by omega⟩
            rw [one _ s 0 p M (by omega) h (by omega), one _ _ _ _ _ (by simp) (h8 (by omega)) (by simp; omega),
              fin _ _ _ _ _ (by simp) (h16 (by omega)) (by simp; omega)]
            simp [Nat.sub_sub]
          · obtain ⟨f, rfl⟩ : ∃ g, f = g + 4 := ⟨f - 4, by omega⟩
            rw [one _ s 0 p M (by omega) h (by omega), one _ _ _ _ _ (by simp) (h8 (by omega)) (by simp; omega),
              one _ _ _ _ _ (by simp) (h16 (by omega)) (by simp; omega),
              fin _ _ _ _ _ (by simp) (h24 (by omega)) (by simp; omega)]
            simp [Nat.sub_sub]

/-- Squeezing word by word with a word index, permuting after every second word. -/
theorem run_prfSqueezeLoop (E : State → τ)
    {cond : τ × Nat × Nat × Nat → Bool} {step : τ × Nat × Nat × Nat → Prog (τ × Nat × Nat × Nat)}
    (hc : ∀ s i p n, cond (s, i, p, n) = decide (n > 8))
    (hstep : ∀ (mem : Mem) (s : State) (i p n : Nat), i < 2 → mem.Writable p 8 →
      run (step (E s, i, p, n)) mem =
        some ((E (if i = 1 then perm 12 s else s), if i = 1 then 0 else i + 1, p + 8, n - 8),
          mem.writes p (bytes64 (wordAt s i))))
    {α : Type} (k : τ × Nat × Nat × Nat → Prog α) (res : α)
    (hk : ∀ (mem : Mem) (s : State) (i p n : Nat), i < 2 → mem.Writable p n → n ≤ 8 →
      run (k (E s, i, p, n)) mem = some (res, mem.writes p ((bytes64 (wordAt s i)).take n)))
    (f : Nat) (s : State) (mem : Mem) (p n : Nat) (h : mem.Writable p n) (hf : n < f) :
    run (loop f cond step (E s, 0, p, n) >>= k) mem = some (res, mem.writes p (squeeze 16 s n)) := by
  have one : ∀ (f : Nat) (mem : Mem) (s : State) (i p n : Nat), i < 2 → mem.Writable p 8 → 8 < n →
      run (loop (f + 1) cond step (E s, i, p, n) >>= k) mem =
      run (loop f cond step (E (if i = 1 then perm 12 s else s), if i = 1 then 0 else i + 1, p + 8, n - 8) >>= k)
        (mem.writes p (bytes64 (wordAt s i))) := by
    intro f mem s i p n hi h h8
    rw [run_bind, run_loop_step (by rw [hc]; simpa using h8) (hstep mem s i p n hi h), ← run_bind]
  have fin : ∀ (f : Nat) (mem : Mem) (s : State) (i p n : Nat), i < 2 → mem.Writable p n → n ≤ 8 →
      run (loop (f + 1) cond step (E s, i, p, n) >>= k) mem =
      some (res, mem.writes p ((bytes64 (wordAt s i)).take n)) := by
    intro f mem s i p n hi h h8
    rw [run_bind, run_loop_done (by rw [hc]; simpa using h8)]
    simp only [Option.bind_some]
    exact hk mem s i p n hi h h8
  induction n using Nat.strongRecOn generalizing f s mem p with
  | ind n ih =>
    by_cases h16 : 16 < n
    · obtain ⟨f, rfl⟩ : ∃ g, f = g + 2 := ⟨f - 2, by omega⟩
      rw [one _ _ s 0 p n (by omega) (h.mono (by omega) (by omega)) (by omega),
        one _ _ _ _ _ _ (by simp) (h.writes.mono (by omega) (by omega)) (by omega)]
      simp only [Nat.zero_ne_one, ↓reduceIte, Nat.zero_add]
      rw [ih (n - 8 - 8) (by omega) _ _ _ _ (h.writes.writes.mono (by omega) (by omega)) (by omega),
        squeeze_of_ge 16 s n (by omega) (by omega) (by omega), rate_16, writes_append, writes_append]
      simp only [List.length_append, length_bytes64, Nat.sub_sub, Nat.add_assoc, wordAt]
    · by_cases h8 : 8 < n
      · obtain ⟨f, rfl⟩ : ∃ g, f = g + 2 := ⟨f - 2, by omega⟩
        rw [one _ _ s 0 p n (by omega) (h.mono (by omega) (by omega)) (by omega),
          fin _ _ _ _ _ _ (by simp) (h.writes.mono (by omega) (by omega)) (by omega),
          squeeze_of_le 16 s n (by omega) (by omega), rate_le16 n s (by omega) (by omega), writes_append]
        simp [length_bytes64, wordAt]
      · obtain ⟨f, rfl⟩ : ∃ g, f = g + 1 := ⟨f - 1, by omega⟩
        rw [fin _ _ s 0 p n (by omega) h (by omega), squeeze_of_le 16 s n (by omega) (by omega),
          rate_le8 n s (by omega)]
        rfl

end Ascon.C
