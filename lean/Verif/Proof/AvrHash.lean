import Verif.Proof.AvrPerm
import Verif.Proof.Opt8Hash
import Verif.Proof.SpecSponge
/-!
# What the avr directories of Hash256, XOF128, Mac and Prf compute

src/avr/hash.c and src/avr/prf.c place the padding bit in byte `7 - n` of the last word (`n` bytes of data), and prf.c
the domain separation bit in byte 0 of the last word.
-/

namespace Ascon.Avr

open Ascon.C Ascon.Spec Ascon.Opt8
attribute [local irreducible] perm

variable {V : Opt8.Perms}

theorem avrPadAt_lt (n : Nat) (_ : n < 8) : avrPadAt n < 8 := by unfold avrPadAt; omega

/-! ### Hash -/

/-- The state before squeezing. -/
def sponge (iv : Word) (M : List Byte) : State :=
  xorAt (xorAt (absorb 12 (spongeInit iv) (fullBlocks 8 M)) 0 (le64 (lastBlock 8 M))) 0
    ((1 : Word) <<< (8 * (7 - M.length % 8)))

/-- The bytes computed by src/avr/hash.c. -/
def xofWith (iv : Word) (M : List Byte) (n : Nat) : List Byte := squeeze 8 (perm 12 (sponge iv M)) n

theorem run_xof (h : V.Ok) (ivs : State) (iv : Word) (hiv : ivs = spongeInit iv) {mem : Mem} {sp out n inp : Nat}
    {M : List Byte} (hM : mem.Holds inp M) (hw : mem.Writable out n) :
    run (ascon_xof V avrPadAt ivs .little sp out n inp M.length) mem = some (0, mem.writes out (xofWith iv M n)) := by
  unfold ascon_xof
  rw [hiv]
  simp only
  rw [run_bind_of (run_absorb_at h avrPadAt avrPadAt_lt hM), run_bind_of (run_squeeze h hw)]
  rfl

/-- The two tails are absorbed as the same word. -/
theorem tail_word (a b c d : Byte) :
    le64 [a, b, c, d] ^^^ (1 : Word) <<< 24 = le64 [a, b, c ^^^ 1, d ^^^ 1, 0] ^^^ (1 : Word) <<< 16 := by
  rw [show (1 : Word) <<< 24 = le64 [0, 0, 0, 1] by decide, show (1 : Word) <<< 16 = le64 [0, 0, 1] by decide]
  apply BitVec.eq_of_getLsbD_eq
  intro i hi
  simp only [BitVec.getLsbD_xor, getLsbD_le64, decide_eq_true hi, Bool.true_and]
  generalize i % 8 = j
  match i / 8 with
  | 0 => simp
  | 1 => simp
  | 2 =>
    simp only [List.getD_cons_succ, List.getD_cons_zero]
    simp [BitVec.getLsbD_xor]
  | 3 =>
    simp only [List.getD_cons_succ, List.getD_cons_zero]
    simp [BitVec.getLsbD_xor]
  | 4 => simp
  | q + 5 => simp

theorem xorAt_xorAt (s : State) (i : Nat) (v w : Word) : xorAt (xorAt s i v) i w = xorAt s i (v ^^^ w) :=
  Ref.xorAt_xorAt s i v w

theorem sponge_collision (iv : Word) (P : List Byte) (hP : P.length % 8 = 0) (a b c d : Byte) :
    sponge iv (P ++ [a, b, c, d]) = sponge iv (P ++ [a, b, c ^^^ 1, d ^^^ 1, 0]) := by
  unfold sponge
  rw [fullBlocks_append 8 P _ (by omega) hP, fullBlocks_append 8 P _ (by omega) hP, lastBlock_append 8 P _ (by omega) hP,
    lastBlock_append 8 P _ (by omega) hP, fullBlocks_of_lt 8 [a, b, c, d] (by simp), fullBlocks_of_lt 8 [a, b, c ^^^ 1, d ^^^ 1, 0] (by simp),
    lastBlock_of_lt 8 [a, b, c, d] (by simp), lastBlock_of_lt 8 [a, b, c ^^^ 1, d ^^^ 1, 0] (by simp), xorAt_xorAt, xorAt_xorAt,
    show (P ++ [a, b, c, d]).length % 8 = 4 by simp; omega,
    show (P ++ [a, b, c ^^^ 1, d ^^^ 1, 0]).length % 8 = 5 by simp; omega]
  exact congrArg _ (tail_word a b c d)

/-! ### PRF -/

/-- Absorbing whole words, a permutation after every fourth; the state and the next word index. -/
def absWords : State → Nat → List (List Byte) → State × Nat
  | s, i, [] => (s, i)
  | s, i, b :: bs =>
    let t := xorAt s i (le64 b)
    if i = 3 then absWords (perm 12 t) 0 bs else absWords t (i + 1) bs

theorem absWords_lt (bs : List (List Byte)) : ∀ (s : State) (i : Nat), i < 4 → (absWords s i bs).2 < 4 := by
  induction bs with
  | nil => intro s i h; exact h
  | cons b bs ih =>
    intro s i h
    unfold absWords
    simp only
    split
    · exact ih _ _ (by omega)
    · exact ih _ _ (by omega)

/-- The state before squeezing. -/
def prfState (s : State) (M : List Byte) : State :=
  let q := absWords s 0 (fullBlocks 8 M)
  xorAt (xorAt (xorAt q.1 q.2 (le64 (lastBlock 8 M))) q.2 ((1 : Word) <<< (8 * (7 - M.length % 8)))) 4 (at8 DSEP 0)

/-- The bytes computed by src/avr/prf.c. -/
def prfWith (iv : Word) (K M : List Byte) (n : Nat) : List Byte :=
  squeeze 16 (perm 12 (prfState (prfInit iv K) M)) n

theorem run_words (h : V.Ok) {mem : Mem} (f : Nat) : ∀ (s : State) (i p : Nat) (M : List Byte), mem.Holds p M → i < 4 →
    M.length < f →
    run (Prog.loop f (fun (_, _, _, inlen) => decide (inlen ≥ 8)) (prfAbsorbStep V .little) (s, i, p, M.length)) mem =
      some (((absWords s i (fullBlocks 8 M)).1, (absWords s i (fullBlocks 8 M)).2, p + 8 * (M.length / 8), M.length % 8),
        mem) := by
  induction f with
  | zero => intros; omega
  | succ f ih =>
    intro s i p M hM hi hf
    by_cases h8 : 8 ≤ M.length
    · rw [run_loop_step (by simpa using h8) (run_prfAbsorbStep h s i p _ M hi hM h8), ← List.length_drop (i := 8) (l := M),
        fullBlocks_of_ge 8 M (by omega) h8]
      have e1 : (List.drop 8 M).length / 8 + 1 = M.length / 8 := by
        rw [List.length_drop]; omega
      have e2 : (List.drop 8 M).length % 8 = M.length % 8 := by
        rw [List.length_drop]; omega
      by_cases h3 : i = 3
      · subst h3
        rw [if_pos rfl, if_pos rfl, ih _ _ _ _ (hM.drop 8 h8) (by omega) (by simp; omega), e2, ← e1]
        simp only [absWords, if_true]
        rw [Nat.mul_add, Nat.mul_one, Nat.add_assoc, Nat.add_comm 8]
      · rw [if_neg h3, if_neg h3, ih _ _ _ _ (hM.drop 8 h8) (by omega) (by simp; omega), e2, ← e1]
        simp only [absWords, if_neg h3]
        rw [Nat.mul_add, Nat.mul_one, Nat.add_assoc, Nat.add_comm 8]
    · rw [run_loop_done (by simpa using h8), fullBlocks_of_lt 8 M (by omega)]
      simp only [absWords]
      rw [Nat.mod_eq_of_lt (by omega), Nat.div_eq_of_lt (by omega)]
      rfl

theorem run_prfAbsorb (h : V.Ok) {mem : Mem} {s : State} {p : Nat} {M : List Byte} (hM : mem.Holds p M) :
    run (Opt8.prfAbsorb V avrPadAt 0 .little s p M.length) mem = some (prfState s M, mem) := by
  unfold Opt8.prfAbsorb prfState
  rw [run_bind_of (run_words h (M.length + 1) s 0 p M hM (by omega) (by omega))]
  have hi := absWords_lt (fullBlocks 8 M) s 0 (by omega)
  generalize absWords s 0 (fullBlocks 8 M) = q at hi
  obtain ⟨t, i⟩ := q
  simp only at hi ⊢
  have hll := length_lastBlock 8 M
  rw [← hll]
  have h2 := run_pad (s := xorAt t i (le64 (lastBlock 8 M))) (i := i) (j := avrPadAt (lastBlock 8 M).length) (by omega)
    (avrPadAt_lt _ (by omega)) mem
  rw [run_bind_of (run_ABSORB (by omega) (hM.lastBlock 8) (by omega)), run_bind_of h2]
  exact run_xorB (i := 4) (j := 0) (by omega) (by omega) _ _

theorem prf_with_correct (h : V.Ok) (iv : Word) (n : Nat) (hn : 0 < n) :
    PrfCorrectAt .little (prfWith iv) (fun _ outlen => outlen ≤ n) (crypto_prf_with V avrPadAt 0 iv n) := by
  constructor
  · intro mem sp out l inp k K M hk hK hM _ hw hok
    unfold crypto_prf_with
    rw [run_ifc, if_neg (by simp; omega)]
    simp only
    rw [run_bind_of (run_INSERT8 1 (by omega) hk (by omega)), run_bind_of (run_INSERT16 2 (by omega) hk hK)]
    simp only [putWord]
    rw [run_bind_of (h.p12 _ mem), run_bind_of (run_prfAbsorb h hM), run_bind_of (run_prfSqueeze h hw)]
    rfl
  · intro mem sp out l inp inlen k hok
    have hd : decide (n ≠ 0 ∧ l > n) = true := by simp; omega
    unfold crypto_prf_with
    rw [hd]
    exact ⟨rfl, rfl⟩

theorem prfState_collision (s : State) (P : List Byte) (hP : P.length % 8 = 0) (a b c d : Byte) :
    prfState s (P ++ [a, b, c, d]) = prfState s (P ++ [a, b, c ^^^ 1, d ^^^ 1, 0]) := by
  unfold prfState
  rw [fullBlocks_append 8 P _ (by omega) hP, fullBlocks_append 8 P _ (by omega) hP, lastBlock_append 8 P _ (by omega) hP,
    lastBlock_append 8 P _ (by omega) hP, fullBlocks_of_lt 8 [a, b, c, d] (by simp), fullBlocks_of_lt 8 [a, b, c ^^^ 1, d ^^^ 1, 0] (by simp),
    lastBlock_of_lt 8 [a, b, c, d] (by simp), lastBlock_of_lt 8 [a, b, c ^^^ 1, d ^^^ 1, 0] (by simp),
    show (P ++ [a, b, c, d]).length % 8 = 4 by simp; omega,
    show (P ++ [a, b, c ^^^ 1, d ^^^ 1, 0]).length % 8 = 5 by simp; omega]
  simp only [xorAt_xorAt]
  have := tail_word a b c d
  simp only [show 8 * (7 - 4) = 24 from rfl, show 8 * (7 - 5) = 16 from rfl, this]

end Ascon.Avr
