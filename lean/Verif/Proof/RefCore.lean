import Verif.C.Lemmas
import Verif.Model.RefCore
import Verif.Proof.Words
/-!
# The reference word operations and round function meet the specification
-/

namespace Ascon.Ref

open Ascon.C Ascon.Spec
open Ascon.C.Prog (require ifc loop forUp loadB storeB loadN storeN)

/-! ### Byte loads and stores -/

theorem run_loadB {mem : Mem} {a : Nat} {b : Byte} (h : (mem a).byte = some b) :
    run (loadB a) mem = some (b, mem) := by
  simp [loadB, run, h]

theorem run_storeB {mem : Mem} {a : Nat} {b : Byte} (h : (mem a).rw = true) :
    run (storeB a b) mem = some ((), mem.writes a [b]) := by
  simp [storeB, run, h]

theorem run_SETBYTE {mem : Mem} {b : Byte} {i : Nat} (h : i < 8) :
    run (SETBYTE b i) mem = some (b.setWidth 64 <<< (8 * i), mem) := by
  unfold SETBYTE
  rw [require_bind_of (by simp; omega)]; rfl

theorem run_GETBYTE {mem : Mem} {x : Word} {i : Nat} (h : i < 8) :
    run (GETBYTE x i) mem = some ((x >>> (8 * i)).setWidth 8, mem) := by
  unfold GETBYTE
  rw [require_bind_of (by simp; omega)]; rfl

theorem run_LOADBYTES_aux {mem : Mem} (p : Nat) (bs pre : List Byte) (h : mem.Holds (p + pre.length) bs)
    (hl : pre.length + bs.length ≤ 8) :
    run (forUp (fun i x => do
      let b ← loadB (p + i)
      let y ← SETBYTE b i
      pure (x ||| y)) bs.length pre.length (le64 pre)) mem = some (le64 (pre ++ bs), mem) := by
  induction bs generalizing pre with
  | nil => simp [forUp, run]
  | cons b bs ih =>
    rw [holds_cons] at h
    simp only [List.length_cons] at hl
    simp only [List.length_cons, forUp, run]
    have hb : run (do
        let b ← loadB (p + pre.length)
        let y ← SETBYTE b pre.length
        pure (le64 pre ||| y)) mem = some (le64 (pre ++ [b]), mem) := by
      rw [run_bind_of (run_loadB h.1), run_bind_of (run_SETBYTE (by omega)),
        le64_snoc pre b (by omega)]
      rfl
    rw [run_bind_of hb]
    have := ih (pre ++ [b]) (by simpa [Nat.add_assoc] using h.2) (by simp; omega)
    simpa using this

theorem run_LOADBYTES {mem : Mem} {p n : Nat} {bs : List Byte} (h : mem.Holds p bs)
    (hn : n = bs.length) (h8 : n ≤ 8) : run (LOADBYTES p n) mem = some (le64 bs, mem) := by
  subst hn
  exact run_LOADBYTES_aux p bs [] (by simpa using h) (by simpa using h8)

theorem take_succ_bytes64 (x : Word) (i : Nat) (h : i < 8) :
    (bytes64 x).take (i + 1) = (bytes64 x).take i ++ [(x >>> (8 * i)).setWidth 8] := by
  rw [List.take_succ_eq_append_getElem (by simp [length_bytes64]; omega)]
  simp

theorem run_STOREBYTES_aux {mem : Mem} (p : Nat) (x : Word) (n i : Nat) (hw : mem.Writable p (i + n))
    (h8 : i + n ≤ 8) :
    run (forUp (fun i (_ : Unit) => do
      let b ← GETBYTE x i
      storeB (p + i) b) n i ()) (mem.writes p ((bytes64 x).take i)) =
      some ((), mem.writes p ((bytes64 x).take (i + n))) := by
  induction n generalizing i with
  | zero => simp [forUp, run]
  | succ n ih =>
    simp only [forUp, run]
    have hb : run (do
        let b ← GETBYTE x i
        storeB (p + i) b) (mem.writes p ((bytes64 x).take i)) =
          some ((), mem.writes p ((bytes64 x).take (i + 1))) := by
      rw [run_bind_of (run_GETBYTE (by omega)), run_storeB, take_succ_bytes64 x i (by omega),
        writes_append]
      · simp only [List.length_take, length_bytes64]
        rw [Nat.min_eq_left (by omega)]
      · exact hw.writes i (by omega)
    rw [run_bind_of hb]
    have := ih (i + 1) (by rwa [show i + 1 + n = i + (n + 1) by omega]) (by omega)
    rw [this, show i + 1 + n = i + (n + 1) by omega]

theorem run_STOREBYTES {mem : Mem} {p n : Nat} {x : Word} (hw : mem.Writable p n) (h8 : n ≤ 8) :
    run (STOREBYTES p x n) mem = some ((), mem.writes p ((bytes64 x).take n)) := by
  have := run_STOREBYTES_aux p x n 0 (by simpa using hw) (by omega)
  simpa [STOREBYTES, writes_nil] using this

theorem run_STOREBYTES8 {mem : Mem} {p : Nat} {x : Word} (hw : mem.Writable p 8) :
    run (STOREBYTES p x 8) mem = some ((), mem.writes p (bytes64 x)) := by
  rw [run_STOREBYTES hw (by omega), List.take_of_length_le (by simp [length_bytes64])]

/-- Mask that keeps the bytes from `n` on. -/
def highMask (n : Nat) : Word := (BitVec.allOnes 64) <<< (8 * n)

theorem run_CLEARBYTES_aux {mem : Mem} (x : Word) (n i : Nat) (h8 : i + n ≤ 8) :
    run (forUp (fun i x => do
      let y ← SETBYTE 0xff i
      pure (x &&& ~~~y)) n i (x &&& highMask i)) mem =
      some (x &&& highMask (i + n), mem) := by
  induction n generalizing i with
  | zero => simp [forUp, run]
  | succ n ih =>
    simp only [forUp, run]
    have hb : run (do
        let y ← SETBYTE 0xff i
        pure ((x &&& highMask i) &&& ~~~y)) mem = some (x &&& highMask (i + 1), mem) := by
      rw [run_bind_of (run_SETBYTE (by omega))]
      simp only [run_pure', Option.some.injEq, Prod.mk.injEq, and_true]
      apply BitVec.eq_of_getLsbD_eq
      intro j hj
      simp only [highMask, BitVec.getLsbD_and, BitVec.getLsbD_not, BitVec.getLsbD_shiftLeft,
        BitVec.getLsbD_allOnes, BitVec.getLsbD_setWidth, hj, decide_true, Bool.true_and]
      have : BitVec.getLsbD (255 : Byte) (j - 8 * i) = decide (j - 8 * i < 8) := by
        generalize j - 8 * i = q
        by_cases hq : q < 8
        · rw [show (255 : Byte) = BitVec.allOnes 8 by decide, BitVec.getLsbD_allOnes]
        · rw [BitVec.getLsbD_of_ge _ _ (by omega)]; simp [hq]
      rw [this]
      by_cases h1 : j < 8 * i
      · have : j < 8 * (i + 1) := by omega
        simp [h1, this]
      · by_cases h2 : j < 8 * (i + 1)
        · have h3 : j - 8 * i < 8 := by omega
          have h4 : j - 8 * i < 64 := by omega
          simp [h1, h2, h3, h4]
        · have h3 : ¬ j - 8 * i < 8 := by omega
          have h4 : j - 8 * i < 64 := by omega
          have h5 : j - 8 * (i + 1) < 64 := by omega
          simp [h1, h2, h3, h4, h5]
    rw [run_bind_of hb, ih (i + 1) (by omega), show i + 1 + n = i + (n + 1) by omega]

theorem run_CLEARBYTES {mem : Mem} {x : Word} {n : Nat} (h8 : n ≤ 8) :
    run (CLEARBYTES x n) mem = some (x &&& highMask n, mem) := by
  have := run_CLEARBYTES_aux (mem := mem) x n 0 (by omega)
  have h0 : x &&& highMask 0 = x := by
    rw [show highMask 0 = BitVec.allOnes 64 by decide, BitVec.and_allOnes]
  rw [h0, Nat.zero_add] at this
  exact this

/-! ### The round function -/

theorem ROR_eq (x : Word) (n : Nat) (h0 : 0 < n) (h : n < 64) : ROR x n = x.rotateRight n := by
  unfold ROR
  rw [BitVec.rotateRight_def, Nat.mod_eq_of_lt h, Nat.mod_eq_of_lt (by omega : 64 - n < 64)]

/-- Bit-sliced form of the S-box layer (all 32 column values are checked). -/
theorem sbox_bits (b0 b1 b2 b3 b4 : Bool) :
    let n := sbox b0 b1 b2 b3 b4
    let y0 := b0 ^^ b4
    let y4 := b4 ^^ b3
    let y2 := b2 ^^ b1
    let t0 := y0 ^^ (!b1 && y2)
    let t1 := b1 ^^ (!y2 && b3)
    let t2 := y2 ^^ (!b3 && y4)
    let t3 := b3 ^^ (!y4 && y0)
    let t4 := y4 ^^ (!y0 && b1)
    n.testBit 4 = (t0 ^^ t4) ∧ n.testBit 3 = (t1 ^^ t0) ∧ n.testBit 2 = !t2 ∧
      n.testBit 1 = (t3 ^^ t2) ∧ n.testBit 0 = t4 := by
  revert b0 b1 b2 b3 b4; decide

/-- The S-box layer as boolean word operations (ref/round.h:17-31). -/
def sboxWords (s : State) : State :=
  let x0 := s.x0 ^^^ s.x4
  let x4 := s.x4 ^^^ s.x3
  let x2 := s.x2 ^^^ s.x1
  let t0 := x0 ^^^ (~~~s.x1 &&& x2)
  let t1 := s.x1 ^^^ (~~~x2 &&& s.x3)
  let t2 := x2 ^^^ (~~~s.x3 &&& x4)
  let t3 := s.x3 ^^^ (~~~x4 &&& x0)
  let t4 := x4 ^^^ (~~~x0 &&& s.x1)
  { x0 := t0 ^^^ t4, x1 := t1 ^^^ t0, x2 := ~~~t2, x3 := t3 ^^^ t2, x4 := t4 }

theorem subst_eq (s : State) : subst s = sboxWords s := by
  have hb := fun i => sbox_bits (s.x0.getLsbD i) (s.x1.getLsbD i) (s.x2.getLsbD i) (s.x3.getLsbD i)
    (s.x4.getLsbD i)
  simp only [subst, sboxWords]
  ext1
  all_goals
    apply BitVec.eq_of_getLsbD_eq
    intro i hi
    obtain ⟨h0, h1, h2, h3, h4⟩ := hb i
    simp only [getLsbD_wordOfBits, hi, decide_true, Bool.true_and, BitVec.getLsbD_xor,
      BitVec.getLsbD_and, BitVec.getLsbD_not, h0, h1, h2, h3, h4]

theorem ROUND_eq (s : State) (C : Byte) : ROUND s C = Spec.round (C.setWidth 64) s := by
  unfold ROUND Spec.round
  rw [subst_eq]
  simp only [diffuse, sboxWords, addConst]
  ext1 <;> simp only [ROR_eq _ _ (by decide : 0 < 19) (by decide), ROR_eq _ _ (by decide : 0 < 28) (by decide),
    ROR_eq _ _ (by decide : 0 < 61) (by decide), ROR_eq _ _ (by decide : 0 < 39) (by decide),
    ROR_eq _ _ (by decide : 0 < 1) (by decide), ROR_eq _ _ (by decide : 0 < 6) (by decide),
    ROR_eq _ _ (by decide : 0 < 10) (by decide), ROR_eq _ _ (by decide : 0 < 17) (by decide),
    ROR_eq _ _ (by decide : 0 < 7) (by decide), ROR_eq _ _ (by decide : 0 < 41) (by decide)]

theorem P12_eq (s : State) : P12 s = perm 12 s := by
  simp only [P12, ROUND_eq]; rfl

theorem P8_eq (s : State) : P8 s = perm 8 s := by
  simp only [P8, ROUND_eq]; rfl

theorem P6_eq (s : State) : P6 s = perm 6 s := by
  simp only [P6, ROUND_eq]; rfl

theorem iv_eqs : ASCON_128A_IV = ivAead ∧ ASCON_HASH_IV = ivHash ∧ ASCON_XOF_IV = ivXof ∧
    ASCON_CXOF_IV = ivCxof ∧ ASCON_MAC_IV = ivMac ∧ ASCON_PRF_IV = ivPrf ∧
    ASCON_PRFS_IV = ivPrfs 0 := by decide

end Ascon.Ref
