import Verif.Proof.Anf
import Verif.Proof.Rounds
/-!
# One round of Ascon, symbolically

Variable `64 k + j` is bit `j` of state word `k`; variable `320 + j` is bit `j` of the round constant.
-/

namespace Ascon.Asm

open Ascon.C Ascon.Spec

/-- The word with index `k`. -/
def word (s : State) : Nat → Word
  | 0 => s.x0
  | 1 => s.x1
  | 2 => s.x2
  | 3 => s.x3
  | _ => s.x4

/-- The assignment of the variables. -/
def assign (s : State) (c : Word) : Nat := (c ++ s.x4 ++ s.x3 ++ s.x2 ++ s.x1 ++ s.x0).toNat

theorem append_low {n : Nat} (a : BitVec n) (b : Word) (j : Nat) (hj : j < 64) :
    (a ++ b).getLsbD j = b.getLsbD j := by
  rw [BitVec.getLsbD_append, if_pos hj]

theorem append_high {n : Nat} (a : BitVec n) (b : Word) (j : Nat) :
    (a ++ b).getLsbD (64 + j) = a.getLsbD j := by
  rw [BitVec.getLsbD_append, if_neg (by omega), Nat.add_sub_cancel_left]

theorem testBit_assign (s : State) (c : Word) (k j : Nat) (hk : k < 5) (hj : j < 64) :
    (assign s c).testBit (64 * k + j) = (word s k).getLsbD j := by
  have h0 : (assign s c).testBit (64 * k + j) =
    (c ++ s.x4 ++ s.x3 ++ s.x2 ++ s.x1 ++ s.x0).getLsbD (64 * k + j) := rfl
  rw [h0]
  have hk' : k = 0 ∨ k = 1 ∨ k = 2 ∨ k = 3 ∨ k = 4 := by omega
  rcases hk' with rfl | rfl | rfl | rfl | rfl
  · rw [show 64 * 0 + j = j by omega, append_low _ _ _ hj]; rfl
  · rw [show 64 * 1 + j = 64 + j by omega, append_high, append_low _ _ _ hj]; rfl
  · rw [show 64 * 2 + j = 64 + (64 + j) by omega, append_high, append_high, append_low _ _ _ hj]; rfl
  · rw [show 64 * 3 + j = 64 + (64 + (64 + j)) by omega, append_high, append_high, append_high,
      append_low _ _ _ hj]; rfl
  · rw [show 64 * 4 + j = 64 + (64 + (64 + (64 + j))) by omega, append_high, append_high, append_high, append_high,
      append_low _ _ _ hj]; rfl

theorem testBit_assign_c (s : State) (c : Word) (j : Nat) :
    (assign s c).testBit (320 + j) = c.getLsbD j := by
  have h0 : (assign s c).testBit (320 + j) =
    (c ++ s.x4 ++ s.x3 ++ s.x2 ++ s.x1 ++ s.x0).getLsbD (320 + j) := rfl
  rw [h0, show 320 + j = 64 + (64 + (64 + (64 + (64 + j)))) by omega, append_high, append_high, append_high,
    append_high, append_high]

/-- The S-box in algebraic normal form: output bit `k` of a column. -/
def sboxPoly (k : Nat) (a0 a1 a2 a3 a4 : Poly) : Poly :=
  match k with
  | 0 => padd' (pmul a4 a1) (padd' a3 (padd' (pmul a2 a1) (padd' a2 (padd' (pmul a1 a0) (padd' a1 a0)))))
  | 1 => padd' a4 (padd' (pmul a3 a2) (padd' (pmul a3 a1) (padd' a3 (padd' (pmul a2 a1) (padd' a2 (padd' a1 a0))))))
  | 2 => padd' (pmul a4 a3) (padd' a4 (padd' a2 (padd' a1 [0])))
  | 3 => padd' (pmul a4 a0) (padd' a4 (padd' (pmul a3 a0) (padd' a3 (padd' a2 (padd' a1 a0)))))
  | _ => padd' (pmul a4 a1) (padd' a4 (padd' a3 (padd' (pmul a1 a0) a1)))

theorem eval_sboxPoly (V : Nat) (k : Nat) (a0 a1 a2 a3 a4 : Poly) (hk : k < 5) :
    eval V (sboxPoly k a0 a1 a2 a3 a4) =
      (sbox (eval V a0) (eval V a1) (eval V a2) (eval V a3) (eval V a4)).testBit (4 - k) := by
  have one : eval V [0] = true := by simp [eval, evalMono_zero]
  have hk' : k = 0 ∨ k = 1 ∨ k = 2 ∨ k = 3 ∨ k = 4 := by omega
  rcases hk' with rfl | rfl | rfl | rfl | rfl <;>
  · simp only [sboxPoly, eval_padd', eval_pmul, one]
    generalize eval V a0 = b0; generalize eval V a1 = b1; generalize eval V a2 = b2
    generalize eval V a3 = b3; generalize eval V a4 = b4
    revert b0 b1 b2 b3 b4; decide

/-- Word `k` after constant addition and S-box, as 64 polynomials; `cs` are the bits of the constant. -/
def substSym (cs : Sym) (k : Nat) : Sym :=
  (List.range 64).map fun j => sboxPoly k (pvar j) (pvar (64 + j)) (padd' (pvar (128 + j)) (cs.getD j []))
    (pvar (192 + j)) (pvar (256 + j))

/-- Rotation amounts of the diffusion layer. -/
def rotA : Nat → Nat
  | 0 => 19 | 1 => 61 | 2 => 1 | 3 => 10 | _ => 7
def rotB : Nat → Nat
  | 0 => 28 | 1 => 39 | 2 => 6 | 3 => 17 | _ => 41

/-- Word `k` after the round. -/
def roundSym (cs : Sym) (k : Nat) : Sym :=
  let t := substSym cs k
  szip padd' t (szip padd' (sror 64 (rotA k) t) (sror 64 (rotB k) t))

theorem rel_substSym {s : State} {c : Word} {V : Nat} {cs : Sym} {k : Nat} (hk : k < 5)
    (hV : ∀ k j, k < 5 → j < 64 → V.testBit (64 * k + j) = (word s k).getLsbD j)
    (hc : Rel V cs c) (hcl : cs.length = 64) : Rel V (substSym cs k) (word (subst (addConst c s)) k) := by
  constructor
  · simp [substSym]
  · intro j hj
    have hj' : j < 64 := by simpa [substSym] using hj
    have e2 : eval V (cs.getD j []) = c.getLsbD j := by
      rw [← List.getElem_eq_getD (h := by omega)]; exact hc.2 j (by omega)
    have v : ∀ k, k < 5 → eval V (pvar (64 * k + j)) = (word s k).getLsbD j := fun k hk => by
      rw [eval_pvar, hV k j hk hj']
    have v0 := v 0 (by omega); have v1 := v 1 (by omega); have v2 := v 2 (by omega)
    have v3 := v 3 (by omega); have v4 := v 4 (by omega)
    simp only [Nat.mul_zero, Nat.zero_add, Nat.mul_one, Nat.reduceMul] at v0 v1 v2 v3 v4
    simp only [substSym, List.getElem_map, List.getElem_range]
    rw [eval_sboxPoly V k _ _ _ _ _ hk, eval_padd', v0, v1, v2, v3, v4, e2]
    have hk' : k = 0 ∨ k = 1 ∨ k = 2 ∨ k = 3 ∨ k = 4 := by omega
    rcases hk' with rfl | rfl | rfl | rfl | rfl <;>
      simp only [word, subst, addConst, getLsbD_wordOfBits, hj', decide_true, Bool.true_and, BitVec.getLsbD_xor]

theorem rel_roundSym {s : State} {c : Word} {V : Nat} {cs : Sym} {k : Nat} (hk : k < 5)
    (hV : ∀ k j, k < 5 → j < 64 → V.testBit (64 * k + j) = (word s k).getLsbD j)
    (hc : Rel V cs c) (hcl : cs.length = 64) : Rel V (roundSym cs k) (word (round c s) k) := by
  have h := rel_substSym hk hV hc hcl
  have h1 := Rel.bit .xor h (Rel.bit .xor (h.ror (k := rotA k)) (h.ror (k := rotB k)))
  have e : BitOp.fn .xor (word (subst (addConst c s)) k)
      (BitOp.fn .xor ((word (subst (addConst c s)) k).rotateRight (rotA k))
        ((word (subst (addConst c s)) k).rotateRight (rotB k))) = word (round c s) k := by
    have hk' : k = 0 ∨ k = 1 ∨ k = 2 ∨ k = 3 ∨ k = 4 := by omega
    rcases hk' with rfl | rfl | rfl | rfl | rfl <;>
      simp only [BitOp.fn, word, round, diffuse, rotA, rotB, BitVec.xor_assoc]
  rw [e] at h1
  exact h1

end Ascon.Asm
