import Verif.Proof.Loops
import Verif.Spec.AVariants
/-!
# The loops of the "a" variants

As Proof/Loops.lean, with `Ascon-p[8]` between blocks and five words per PRF input block.
-/

namespace Ascon.C

open Ascon.Spec
open Ascon.C.Prog (loop)

attribute [local irreducible] perm

variable {τ : Type}

theorem a_iterPerm_zero (s : State) : A.iterPerm8 0 s = s := by rw [A.iterPerm8]

theorem a_iterPerm_step (i : Nat) (s : State) : A.iterPerm8 (i + 1) s = perm 8 (A.iterPerm8 i s) := by rw [A.iterPerm8]

theorem a_iterPerm_succ (i : Nat) (s : State) : A.iterPerm8 (i + 1) s = A.iterPerm8 i (perm 8 s) := by
  induction i with
  | zero => rw [a_iterPerm_step, a_iterPerm_zero, a_iterPerm_zero]
  | succ i ih => rw [a_iterPerm_step, ih, a_iterPerm_step]

theorem a_squeeze_of_le (r : Nat) (s : State) (n : Nat) (hr : r ≤ 40) (h : n ≤ r) :
    A.squeeze r s n = rate n s := by
  unfold A.squeeze
  have e3 : rate r (A.iterPerm8 0 s) = rate r s := by rw [a_iterPerm_zero]
  rw [List.range_succ_eq_map, List.map_cons, List.flatten_cons, e3,
    List.take_append_of_le_length (by rw [length_rate r s hr]; omega)]
  unfold rate
  rw [List.take_take, Nat.min_eq_left h]

theorem a_squeeze_of_ge (r : Nat) (s : State) (n : Nat) (h0 : 0 < r) (hr : r ≤ 40) (h : r ≤ n) :
    A.squeeze r s n = rate r s ++ A.squeeze r (perm 8 s) (n - r) := by
  unfold A.squeeze
  have e : n / r = (n - r) / r + 1 := Nat.div_eq_sub_div h0 h
  rw [e, List.range_succ_eq_map (n := (n - r) / r + 1), List.map_cons, List.flatten_cons, List.map_map]
  have e2 : ((fun i => rate r (A.iterPerm8 i s)) ∘ Nat.succ) = fun i => rate r (A.iterPerm8 i (perm 8 s)) := by
    funext i; exact congrArg (rate r) (a_iterPerm_succ i s)
  rw [e2]
  have e3 : rate r (A.iterPerm8 0 s) = rate r s := by rw [a_iterPerm_zero]
  rw [e3, List.take_append, length_rate r s hr, List.take_of_length_le (by rw [length_rate r s hr]; exact h)]

theorem a_length_squeeze (r : Nat) (s : State) (n : Nat) (h0 : 0 < r) (hr : r ≤ 40) :
    (A.squeeze r s n).length = n := by
  induction n using Nat.strongRecOn generalizing s with
  | ind n ih =>
    by_cases h : r ≤ n
    · rw [a_squeeze_of_ge r s n h0 hr h, List.length_append, length_rate r s hr, ih _ (by omega)]; omega
    · rw [a_squeeze_of_le r s n hr (by omega), length_rate n s (by omega)]

/-- Squeezing with `while (len > 8)`; the rest (at most 8 bytes) is still to be written. -/
theorem a_run_squeezeLoop (E : State → τ)
    {cond : τ × Nat × Nat → Bool} {step : τ × Nat × Nat → Prog (τ × Nat × Nat)}
    (hc : ∀ s p n, cond (s, p, n) = decide (n > 8))
    (hstep : ∀ (mem : Mem) (s : State) (p n : Nat), mem.Writable p 8 →
      run (step (E s, p, n)) mem = some ((E (perm 8 s), p + 8, n - 8), mem.writes p (rate 8 s)))
    {α : Type} (k : τ × Nat × Nat → Prog α) (res : α)
    (hk : ∀ (mem : Mem) (s : State) (p n : Nat), mem.Writable p n → n ≤ 8 →
      run (k (E s, p, n)) mem = some (res, mem.writes p (rate n s)))
    (f : Nat) (s : State) (mem : Mem) (p n : Nat) (h : mem.Writable p n) (hf : n < f) :
    run (loop f cond step (E s, p, n) >>= k) mem = some (res, mem.writes p (A.squeeze 8 s n)) := by
  induction f generalizing s mem p n with
  | zero => omega
  | succ f ih =>
    by_cases h8 : 8 < n
    · rw [run_bind, run_loop_step (by rw [hc]; simpa using h8) (hstep mem s p n (h.mono (by omega) (by omega))),
        ← run_bind, ih _ _ _ _ (h.writes.mono (by omega) (by omega)) (by omega),
        a_squeeze_of_ge 8 s n (by omega) (by omega) (by omega), writes_append, length_rate 8 s (by omega)]
    · rw [run_bind, run_loop_done (by rw [hc]; simpa using h8)]
      simp only [Option.bind_some]
      rw [hk mem s p n h (by omega), a_squeeze_of_le 8 s n (by omega) (by omega)]

/-! ### Word-wise absorbing, five words -/

theorem xorIn_40 (s : State) (b : List Byte) (h : b.length = 40) :
    xorIn s b = xorAt (xorAt (xorAt (xorAt (xorAt s 0 (le64 (b.take 8))) 1 (le64 ((b.drop 8).take 8))) 2
      (le64 ((b.drop 16).take 8))) 3 (le64 ((b.drop 24).take 8))) 4 (le64 (b.drop 32)) := by
  unfold xorIn
  rw [List.take_of_length_le (l := b.drop 32) (by simp; omega)]
  simp [xorAt]

theorem xorIn_take40 (s : State) (m : List Byte) (h : 40 ≤ m.length) :
    xorIn s (m.take 40) = xorAt (xorAt (xorAt (xorAt (xorAt s 0 (le64 (m.take 8))) 1 (le64 ((m.drop 8).take 8))) 2
      (le64 ((m.drop 16).take 8))) 3 (le64 ((m.drop 24).take 8))) 4 (le64 ((m.drop 32).take 8)) := by
  rw [xorIn_40 s _ (by simp; omega), le64_drop_take m 8 40 (by omega), le64_drop_take m 16 40 (by omega),
    le64_drop_take m 24 40 (by omega), List.take_take, List.drop_take]
  rfl

theorem xorIn_pad40 (s : State) (l : List Byte) (h : l.length < 40) :
    xorIn s (pad 40 l) =
      if l.length < 8 then xorAt s 0 (le64 l ^^^ (1 : Word) <<< (8 * l.length))
      else if l.length < 16 then xorAt (xorAt s 0 (le64 (l.take 8))) 1
        (le64 (l.drop 8) ^^^ (1 : Word) <<< (8 * (l.length - 8)))
      else if l.length < 24 then xorAt (xorAt (xorAt s 0 (le64 (l.take 8))) 1 (le64 ((l.drop 8).take 8))) 2
        (le64 (l.drop 16) ^^^ (1 : Word) <<< (8 * (l.length - 16)))
      else if l.length < 32 then xorAt (xorAt (xorAt (xorAt s 0 (le64 (l.take 8))) 1 (le64 ((l.drop 8).take 8))) 2
        (le64 ((l.drop 16).take 8))) 3 (le64 (l.drop 24) ^^^ (1 : Word) <<< (8 * (l.length - 24)))
      else xorAt (xorAt (xorAt (xorAt (xorAt s 0 (le64 (l.take 8))) 1 (le64 ((l.drop 8).take 8))) 2
        (le64 ((l.drop 16).take 8))) 3 (le64 ((l.drop 24).take 8))) 4
        (le64 (l.drop 32) ^^^ (1 : Word) <<< (8 * (l.length - 32))) := by
  have e0 : (pad 40 l).take 8 = ((pad 40 l).drop 0).take 8 := by simp
  unfold xorIn
  rw [e0]
  split
  · rw [padWord_mid l 40 0 (by omega) (by omega), padWord_zero l 40 8 (by omega), padWord_zero l 40 16 (by omega),
      padWord_zero l 40 24 (by omega), padWord_zero l 40 32 (by omega)]
    simp [xorAt]
  · split
    · rw [padWord_full l 40 0 (by omega), padWord_mid l 40 8 (by omega) (by omega), padWord_zero l 40 16 (by omega),
        padWord_zero l 40 24 (by omega), padWord_zero l 40 32 (by omega)]
      simp [xorAt]
    · split
      · rw [padWord_full l 40 0 (by omega), padWord_full l 40 8 (by omega), padWord_mid l 40 16 (by omega) (by omega),
          padWord_zero l 40 24 (by omega), padWord_zero l 40 32 (by omega)]
        simp [xorAt]
      · split
        · rw [padWord_full l 40 0 (by omega), padWord_full l 40 8 (by omega), padWord_full l 40 16 (by omega),
            padWord_mid l 40 24 (by omega) (by omega), padWord_zero l 40 32 (by omega)]
          simp [xorAt]
        · rw [padWord_full l 40 0 (by omega), padWord_full l 40 8 (by omega), padWord_full l 40 16 (by omega),
            padWord_full l 40 24 (by omega), padWord_mid l 40 32 (by omega) (by omega)]
          simp [xorAt]

/-- Absorbing word by word with a word index, permuting after every fifth word. -/
theorem a_run_prfAbsorbLoop (E : State → τ)
    {cond : τ × Nat × Nat × Nat → Bool} {step : τ × Nat × Nat × Nat → Prog (τ × Nat × Nat × Nat)}
    (hc : ∀ s i p n, cond (s, i, p, n) = decide (n ≥ 8)) {mem : Mem}
    (hstep : ∀ (s : State) (i p n : Nat) (M : List Byte), i < 5 → mem.Holds p M → 8 ≤ M.length →
      run (step (E s, i, p, n)) mem =
        some ((E (if i = 4 then perm 8 (xorAt s i (le64 (M.take 8))) else xorAt s i (le64 (M.take 8))),
          if i = 4 then 0 else i + 1, p + 8, n - 8), mem))
    {α : Type} (k : τ × Nat × Nat × Nat → Prog α) (res : State → α)
    (hk : ∀ (s : State) (i p : Nat) (M : List Byte), i < 5 → mem.Holds p M → M.length < 8 →
      run (k (E s, i, p, M.length)) mem =
        some (res (xorAt s i (le64 M ^^^ (1 : Word) <<< (8 * M.length))), mem))
    (f : Nat) (s : State) (p : Nat) (M : List Byte) (h : mem.Holds p M) (hf : M.length < f) :
    run (loop f cond step (E s, 0, p, M.length) >>= k) mem =
      some (res (xorIn (absorb 8 s (fullBlocks 40 M)) (pad 40 (lastBlock 40 M))), mem) := by
  have one : ∀ (f : Nat) (s : State) (i p : Nat) (M : List Byte), i < 5 → mem.Holds p M → 8 ≤ M.length →
      run (loop (f + 1) cond step (E s, i, p, M.length) >>= k) mem =
      run (loop f cond step (E (if i = 4 then perm 8 (xorAt s i (le64 (M.take 8))) else xorAt s i (le64 (M.take 8))),
          if i = 4 then 0 else i + 1, p + 8, (M.drop 8).length) >>= k) mem := by
    intro f s i p M hi h h8
    rw [run_bind, run_loop_step (by rw [hc]; simpa using h8) (hstep s i p _ M hi h h8), ← run_bind,
      List.length_drop]
  have fin : ∀ (f : Nat) (s : State) (i p : Nat) (M : List Byte), i < 5 → mem.Holds p M → M.length < 8 →
      run (loop (f + 1) cond step (E s, i, p, M.length) >>= k) mem =
      some (res (xorAt s i (le64 M ^^^ (1 : Word) <<< (8 * M.length))), mem) := by
    intro f s i p M hi h h8
    rw [run_bind, run_loop_done (by rw [hc]; simpa using h8)]
    simp only [Option.bind_some]
    exact hk s i p M hi h h8
  induction hn : M.length using Nat.strongRecOn generalizing f s p M with
  | ind n ih =>
    subst hn
    have h8 := fun hh : 8 ≤ M.length => h.drop 8 hh
    have h16 := fun hh : 16 ≤ M.length => (h.drop 8 (by omega)).drop 8 (by simp; omega)
    have h24 := fun hh : 24 ≤ M.length => ((h.drop 8 (by omega)).drop 8 (by simp; omega)).drop 8 (by simp; omega)
    have h32 := fun hh : 32 ≤ M.length =>
      (((h.drop 8 (by omega)).drop 8 (by simp; omega)).drop 8 (by simp; omega)).drop 8 (by simp; omega)
    by_cases h40 : 40 ≤ M.length
    · obtain ⟨f, rfl⟩ : ∃ g, f = g + 5 := ⟨f - 5, by omega⟩
      rw [one _ s 0 p M (by omega) h (by omega), one _ _ _ _ _ (by simp) (h8 (by omega)) (by simp; omega),
        one _ _ _ _ _ (by simp) (h16 (by omega)) (by simp; omega),
        one _ _ _ _ _ (by simp) (h24 (by omega)) (by simp; omega),
        one _ _ _ _ _ (by simp) (h32 (by omega)) (by simp; omega)]
      simp only [show ¬ (0 : Nat) = 4 by omega, ↓reduceIte, Nat.zero_add, Nat.reduceAdd, Nat.reduceEqDiff,
        List.drop_drop]
      have := ih (M.drop 40).length (by simp; omega) f
        (perm 8 (xorIn s (M.take 40))) (p + 8 + 8 + 8 + 8 + 8) (M.drop 40)
        (by rw [show p + 8 + 8 + 8 + 8 + 8 = p + 40 by omega]; exact h.drop 40 h40) (by simp; omega) rfl
      rw [xorIn_take40 s M h40] at this
      rw [fullBlocks_of_ge 40 M (by omega) h40, lastBlock_of_ge 40 M (by omega) h40]
      simp only [absorb, List.foldl_cons] at this ⊢
      rw [xorIn_take40 s M h40]
      simpa using this
    · rw [fullBlocks_of_lt 40 M (by omega), lastBlock_of_lt 40 M (by omega)]
      simp only [absorb, List.foldl_nil]
      rw [xorIn_pad40 s M (by omega)]
      split
      · obtain ⟨f, rfl⟩ : ∃ g, f = g + 1 := ⟨f - 1, by omega⟩
        rw [fin _ s 0 p M (by omega) h (by omega)]
      · split
        · obtain ⟨f, rfl⟩ : ∃ g, f = g + 2 := ⟨f - 2, by omega⟩
          rw [one _ s 0 p M (by omega) h (by omega), fin _ _ _ _ _ (by simp) (h8 (by omega)) (by simp; omega)]
          simp
        · split
          · obtain ⟨f, rfl⟩ : ∃ g, f = g + 3 := ⟨f - 3, by omega⟩
            rw [one _ s 0 p M (by omega) h (by omega), one _ _ _ _ _ (by simp) (h8 (by omega)) (by simp; omega),
              fin _ _ _ _ _ (by simp) (h16 (by omega)) (by simp; omega)]
            simp [Nat.sub_sub]
          · split
            · obtain ⟨f, rfl⟩ : ∃ g, f = g + 4 := ⟨f - 4, by omega⟩
              rw [one _ s 0 p M (by omega) h (by omega), one _ _ _ _ _ (by simp) (h8 (by omega)) (by simp; omega),
                one _ _ _ _ _ (by simp) (h16 (by omega)) (by simp; omega),
                fin _ _ _ _ _ (by simp) (h24 (by omega)) (by simp; omega)]
              simp [Nat.sub_sub]
            · obtain ⟨f, rfl⟩ : ∃ g, f = g + 5 := ⟨f - 5, by omega⟩
              rw [one _ s 0 p M (by omega) h (by omega), one _ _ _ _ _ (by simp) (h8 (by omega)) (by simp; omega),
                one _ _ _ _ _ (by simp) (h16 (by omega)) (by simp; omega),
                one _ _ _ _ _ (by simp) (h24 (by omega)) (by simp; omega),
                fin _ _ _ _ _ (by simp) (h32 (by omega)) (by simp; omega)]
              simp [Nat.sub_sub]

/-- Squeezing word by word with a word index, permuting after every second word. -/
theorem a_run_prfSqueezeLoop (E : State → τ)
    {cond : τ × Nat × Nat × Nat → Bool} {step : τ × Nat × Nat × Nat → Prog (τ × Nat × Nat × Nat)}
    (hc : ∀ s i p n, cond (s, i, p, n) = decide (n > 8))
    (hstep : ∀ (mem : Mem) (s : State) (i p n : Nat), i < 2 → mem.Writable p 8 →
      run (step (E s, i, p, n)) mem =
        some ((E (if i = 1 then perm 8 s else s), if i = 1 then 0 else i + 1, p + 8, n - 8),
          mem.writes p (bytes64 (wordAt s i))))
    {α : Type} (k : τ × Nat × Nat × Nat → Prog α) (res : α)
    (hk : ∀ (mem : Mem) (s : State) (i p n : Nat), i < 2 → mem.Writable p n → n ≤ 8 →
      run (k (E s, i, p, n)) mem = some (res, mem.writes p ((bytes64 (wordAt s i)).take n)))
    (f : Nat) (s : State) (mem : Mem) (p n : Nat) (h : mem.Writable p n) (hf : n < f) :
    run (loop f cond step (E s, 0, p, n) >>= k) mem = some (res, mem.writes p (A.squeeze 16 s n)) := by
  have one : ∀ (f : Nat) (mem : Mem) (s : State) (i p n : Nat), i < 2 → mem.Writable p 8 → 8 < n →
      run (loop (f + 1) cond step (E s, i, p, n) >>= k) mem =
      run (loop f cond step (E (if i = 1 then perm 8 s else s), if i = 1 then 0 else i + 1, p + 8, n - 8) >>= k)
        (mem.writes p (bytes64 (wordAt s i))) := by
    intro f mem s i p n hi h h8
    rw [run_bind, run_loop_step (by rw [hc]; simpa using h8) (hstep mem s i p n hi h), ← run_bind]
  have fin : ∀ (f : Nat) (mem : Mem) (s : State) (i p n : Nat), i < 2 → mem.Writable p n → n ≤ 8 →
      run (loop (f + 1) cond step (E s, i, p, n) >>= k) mem =
      some (res, mem.writes p ((bytes64 (wordAt s i)).take n)) := by
    intro f mem s i p n hi h h8
    rw [run_bind, run_loop_done (by rw [hc]; simpa using h8)]
    simp only [Option.bind_some]
    exact hk mem s i p n hi h h8
  induction n using Nat.strongRecOn generalizing f s mem p with
  | ind n ih =>
    by_cases h16 : 16 < n
    · obtain ⟨f, rfl⟩ : ∃ g, f = g + 2 := ⟨f - 2, by omega⟩
      rw [one _ _ s 0 p n (by omega) (h.mono (by omega) (by omega)) (by omega),
        one _ _ _ _ _ _ (by simp) (h.writes.mono (by omega) (by omega)) (by omega)]
      simp only [Nat.zero_ne_one, ↓reduceIte, Nat.zero_add]
      rw [ih (n - 8 - 8) (by omega) _ _ _ _ (h.writes.writes.mono (by omega) (by omega)) (by omega),
        a_squeeze_of_ge 16 s n (by omega) (by omega) (by omega), rate_16, writes_append, writes_append]
      simp only [List.length_append, length_bytes64, Nat.sub_sub, Nat.add_assoc, wordAt]
    · by_cases h8 : 8 < n
      · obtain ⟨f, rfl⟩ : ∃ g, f = g + 2 := ⟨f - 2, by omega⟩
        rw [one _ _ s 0 p n (by omega) (h.mono (by omega) (by omega)) (by omega),
          fin _ _ _ _ _ _ (by simp) (h.writes.mono (by omega) (by omega)) (by omega),
          a_squeeze_of_le 16 s n (by omega) (by omega), rate_le16 n s (by omega) (by omega), writes_append]
        simp [length_bytes64, wordAt]
      · obtain ⟨f, rfl⟩ : ∃ g, f = g + 1 := ⟨f - 1, by omega⟩
        rw [fin _ _ s 0 p n (by omega) h (by omega), a_squeeze_of_le 16 s n (by omega) (by omega),
          rate_le8 n s (by omega)]
        rfl

end Ascon.C
