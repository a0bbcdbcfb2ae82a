import Verif.C.Asm
/-!
# Symbolic execution of register programs

A bit is represented by a polynomial over GF(2): the list of its monomials, a monomial being the bit mask
of its variables.  The symbolic execution of a program is computed by the kernel; `symExec_sound` transfers the
result to every concrete execution.
-/

namespace Ascon.Asm

open Ascon.C

/-- A polynomial over GF(2): list of monomials; a monomial is the mask of the variables in it. -/
abbrev Poly := List Nat

/-- Value of a monomial under the assignment `V` (variable `i` is bit `i` of `V`). -/
def evalMono (V m : Nat) : Bool := Nat.beq (Nat.land m V) m

def eval (V : Nat) : Poly → Bool
  | [] => false
  | m :: p => evalMono V m ^^ eval V p

/-- Sum (merge of sorted lists, equal monomials cancel). -/
def padd : Nat → Poly → Poly → Poly
  | 0, p, q => p ++ q
  | _ + 1, [], q => q
  | _ + 1, a :: p, [] => a :: p
  | f + 1, a :: p, b :: q =>
    bif Nat.beq a b then padd f p q
    else bif Nat.ble a b then a :: padd f p (b :: q) else b :: padd f (a :: p) q

def padd' (p q : Poly) : Poly := padd 1000000 p q

/-- Product with a monomial. -/
def pmulMono (a : Nat) : Poly → Poly
  | [] => []
  | m :: p => padd' [Nat.lor a m] (pmulMono a p)

def pmul : Poly → Poly → Poly
  | [], _ => []
  | a :: p, q => padd' (pmulMono a q) (pmul p q)

def pnot (p : Poly) : Poly := padd' [0] p

theorem eval_append (V : Nat) (p q : Poly) : eval V (p ++ q) = (eval V p ^^ eval V q) := by
  induction p with
  | nil => simp [eval]
  | cons a p ih => simp [eval, ih]

theorem eval_padd (V f : Nat) (p q : Poly) : eval V (padd f p q) = (eval V p ^^ eval V q) := by
  induction f generalizing p q with
  | zero => exact eval_append V p q
  | succ f ih =>
    cases p with
    | nil => simp [padd, eval]
    | cons a p =>
      cases q with
      | nil => simp [padd, eval]
      | cons b q =>
        unfold padd
        cases h1 : Nat.beq a b
        · cases h2 : Nat.ble a b
          · simp only [cond_false, eval, ih]
            generalize evalMono V a = x; generalize evalMono V b = y
            generalize eval V p = z; generalize eval V q = t
            revert x y z t; decide
          · simp only [cond_false, cond_true, eval, ih]
            generalize evalMono V a = x; generalize evalMono V b = y
            generalize eval V p = z; generalize eval V q = t
            revert x y z t; decide
        · have : a = b := Nat.eq_of_beq_eq_true h1
          subst this
          simp only [cond_true, eval, ih]
          generalize evalMono V a = x
          generalize eval V p = z; generalize eval V q = t
          revert x z t; decide

theorem eval_padd' (V : Nat) (p q : Poly) : eval V (padd' p q) = (eval V p ^^ eval V q) := eval_padd V _ p q

theorem evalMono_lor (V a b : Nat) : evalMono V (Nat.lor a b) = (evalMono V a && evalMono V b) := by
  unfold evalMono
  rw [Bool.eq_iff_iff, Bool.and_eq_true, Nat.beq_eq, Nat.beq_eq, Nat.beq_eq]
  show (a ||| b) &&& V = a ||| b ↔ a &&& V = a ∧ b &&& V = b
  constructor
  · intro h
    constructor
    · apply Nat.eq_of_testBit_eq; intro i
      have := congrArg (fun n => n.testBit i) h
      simp only [Nat.testBit_and, Nat.testBit_or] at this ⊢
      revert this
      generalize a.testBit i = x; generalize b.testBit i = y; generalize V.testBit i = z
      revert x y z; decide
    · apply Nat.eq_of_testBit_eq; intro i
      have := congrArg (fun n => n.testBit i) h
      simp only [Nat.testBit_and, Nat.testBit_or] at this ⊢
      revert this
      generalize a.testBit i = x; generalize b.testBit i = y; generalize V.testBit i = z
      revert x y z; decide
  · rintro ⟨h1, h2⟩
    rw [Nat.and_or_distrib_right, h1, h2]

theorem eval_pmulMono (V a : Nat) (p : Poly) : eval V (pmulMono a p) = (evalMono V a && eval V p) := by
  induction p with
  | nil => simp [pmulMono, eval]
  | cons m p ih =>
    rw [pmulMono, eval_padd', ih]
    simp only [eval, evalMono_lor]
    generalize evalMono V a = x; generalize evalMono V m = y; generalize eval V p = z
    revert x y z; decide

theorem eval_pmul (V : Nat) (p q : Poly) : eval V (pmul p q) = (eval V p && eval V q) := by
  induction p with
  | nil => simp [pmul, eval]
  | cons a p ih =>
    rw [pmul, eval_padd', ih, eval_pmulMono]
    simp only [eval]
    generalize evalMono V a = x; generalize eval V p = y; generalize eval V q = z
    revert x y z; decide

theorem evalMono_zero (V : Nat) : evalMono V 0 = true := by
  unfold evalMono; rw [Nat.beq_eq]; exact Nat.zero_and V

theorem eval_pnot (V : Nat) (p : Poly) : eval V (pnot p) = !eval V p := by
  rw [pnot, eval_padd']
  simp [eval, evalMono_zero]

/-- The variable `i`. -/
def pvar (i : Nat) : Poly := [2 ^ i]

theorem eval_pvar (V i : Nat) : eval V (pvar i) = V.testBit i := by
  simp only [pvar, eval, evalMono, Bool.xor_false]
  rw [Bool.eq_iff_iff, Nat.beq_eq]
  show 2 ^ i &&& V = 2 ^ i ↔ _
  constructor
  · intro h
    have := congrArg (fun n => n.testBit i) h
    simpa [Nat.testBit_and, Nat.testBit_two_pow] using this
  · intro h
    apply Nat.eq_of_testBit_eq; intro j
    rw [Nat.testBit_and, Nat.testBit_two_pow]
    by_cases hj : i = j
    · subst hj; simp [h]
    · simp [hj]

def pconst : Bool → Poly
  | true => [0]
  | false => []

theorem eval_pconst (V : Nat) (b : Bool) : eval V (pconst b) = b := by
  cases b <;> simp [pconst, eval, evalMono_zero]

/-! ## Symbolic registers -/

/-- The low bits of a register; a list shorter than the register says nothing about the other bits. -/
abbrev Sym := List Poly

variable {w : Nat}

/-- `b` is described by `s`. -/
def Rel (V : Nat) (s : Sym) (b : BitVec w) : Prop :=
  s.length ≤ w ∧ ∀ j (h : j < s.length), eval V s[j] = b.getLsbD j

theorem Rel.nil (V : Nat) (b : BitVec w) : Rel V [] b := ⟨Nat.zero_le _, fun j h => absurd h (Nat.not_lt_zero _)⟩

def sbits (v : BitVec w) : Sym := (List.range w).map fun i => pconst (Nat.testBit v.toNat i)

theorem Rel.sbits (V : Nat) (v : BitVec w) : Rel V (sbits v) v := by
  constructor
  · simp [Asm.sbits]
  · intro j h
    simp [Asm.sbits, eval_pconst, BitVec.getLsbD]

def szip (f : Poly → Poly → Poly) : Sym → Sym → Sym
  | a :: s, b :: t => f a b :: szip f s t
  | _, _ => []

theorem szip_eq (f : Poly → Poly → Poly) (s t : Sym) : szip f s t = List.zipWith f s t := by
  induction s generalizing t with
  | nil => cases t <;> rfl
  | cons a s ih => cases t with
    | nil => rfl
    | cons b t => simp [szip, ih]

def pop2 : BitOp → Poly → Poly → Poly
  | .and, p, q => pmul p q
  | .or, p, q => padd' (padd' p q) (pmul p q)
  | .xor, p, q => padd' p q
  | .andn, p, q => pmul p (pnot q)
  | .orn, p, q => pnot (pmul (pnot p) q)

theorem Rel.bit {V : Nat} {s t : Sym} {a b : BitVec w} (op : BitOp) (hs : Rel V s a) (ht : Rel V t b) :
    Rel V (szip (pop2 op) s t) (op.fn a b) := by
  rw [szip_eq]
  have hl : (List.zipWith (pop2 op) s t).length = min s.length t.length := List.length_zipWith
  refine ⟨by rw [hl]; exact Nat.le_trans (Nat.min_le_left _ _) hs.1, ?_⟩
  intro j h
  rw [hl] at h
  have h1 : j < s.length := by omega
  have h2 : j < t.length := by omega
  have hw : j < w := by have := hs.1; omega
  rw [List.getElem_zipWith]
  have e1 := hs.2 j h1
  have e2 := ht.2 j h2
  cases op <;> simp only [pop2, BitOp.fn, eval_pmul, eval_padd', eval_pnot, e1, e2, BitVec.getLsbD_and,
    BitVec.getLsbD_or, BitVec.getLsbD_xor, BitVec.getLsbD_not, hw, decide_true, Bool.true_and] <;>
  · generalize a.getLsbD j = x; generalize b.getLsbD j = y
    revert x y; decide

def snot : Sym → Sym
  | [] => []
  | p :: s => pnot p :: snot s

theorem snot_eq (s : Sym) : snot s = s.map pnot := by
  induction s with
  | nil => rfl
  | cons p s ih => simp [snot, ih]

theorem Rel.not {V : Nat} {s : Sym} {a : BitVec w} (hs : Rel V s a) : Rel V (snot s) (~~~a) := by
  rw [snot_eq]
  refine ⟨by simpa using hs.1, ?_⟩
  intro j h
  have h1 : j < s.length := by simpa using h
  have hw : j < w := by have := hs.1; omega
  simp [eval_pnot, hs.2 j h1, hw]

/-- Only use complete descriptions. -/
def full (w : Nat) (s t : Sym) : Sym := bif Nat.beq s.length w then t else []

theorem Rel.full {V : Nat} {s t : Sym} {a : BitVec w} (h : s.length = w → Rel V t a) : Rel V (full w s t) a := by
  unfold Asm.full
  cases hb : Nat.beq s.length w
  · exact Rel.nil V a
  · exact h (Nat.eq_of_beq_eq_true hb)

def slsl (w k : Nat) (s : Sym) : Sym := List.replicate (min k w) [] ++ s.take (w - k)
def slsr (w k : Nat) (s : Sym) : Sym := full w s (s.drop k ++ List.replicate (min k w) [])
def sror (w k : Nat) (s : Sym) : Sym := full w s (s.drop (k % w) ++ s.take (k % w))

theorem Rel.lsl {V k : Nat} {s : Sym} {a : BitVec w} (hs : Rel V s a) : Rel V (slsl w k s) (a <<< k) := by
  unfold slsl
  refine ⟨by simp; omega, ?_⟩
  intro j h
  have h' : j < min k w + min (w - k) s.length := by simpa using h
  have hw : j < w := by omega
  by_cases hj : j < k
  · rw [List.getElem_append_left (by simp; omega)]
    simp [hj, eval]
  · have hkw : k < w := by omega
    rw [List.getElem_append_right (by simp; omega)]
    simp only [List.length_replicate, List.getElem_take]
    rw [hs.2 _ (by omega)]
    simp only [BitVec.getLsbD_shiftLeft, hw, hj, show min k w = k by omega, decide_true, decide_false,
      Bool.not_false, Bool.true_and]

theorem Rel.lsr {V k : Nat} {s : Sym} {a : BitVec w} (hs : Rel V s a) : Rel V (slsr w k s) (a >>> k) := by
  apply Rel.full
  intro hl
  refine ⟨by simp; omega, ?_⟩
  intro j h
  have h' : j < (s.length - k) + min k w := by simpa using h
  by_cases hj : j < s.length - k
  · rw [List.getElem_append_left (by simp; omega)]
    simp only [List.getElem_drop]
    rw [hs.2 _ (by omega)]
    simp
  · rw [List.getElem_append_right (by simp; omega)]
    simp only [List.getElem_replicate, eval, BitVec.getLsbD_ushiftRight]
    rw [BitVec.getLsbD_of_ge _ _ (by omega)]

theorem Rel.ror {V k : Nat} {s : Sym} {a : BitVec w} (hs : Rel V s a) : Rel V (sror w k s) (a.rotateRight k) := by
  apply Rel.full
  intro hl
  refine ⟨by simp; omega, ?_⟩
  intro j h
  have h' : j < (s.length - k % w) + min (k % w) s.length := by simpa using h
  have hw : j < w := by omega
  have hk : k % w < w := Nat.mod_lt _ (by omega)
  rw [BitVec.getLsbD_rotateRight]
  by_cases hj : j < w - k % w
  · rw [List.getElem_append_left (by simp; omega)]
    simp only [List.getElem_drop, hj, decide_true, cond_true]
    rw [hs.2 _ (by omega)]
  · rw [List.getElem_append_right (by simp; omega)]
    simp only [List.getElem_take, List.length_drop, hj, decide_false, cond_false, hw, decide_true, Bool.true_and]
    rw [hs.2 _ (by omega)]
    congr 1; omega

/-- Shift right and insert. -/
def ssri (w k : Nat) (d s : Sym) : Sym := full w s (s.drop k ++ d.drop (w - k))
/-- Shift left and insert. -/
def ssli (w k : Nat) (d s : Sym) : Sym := bif Nat.ble k d.length then d.take k ++ s.take (w - k) else []

theorem Rel.sri {V k : Nat} {d s : Sym} {x a : BitVec w} (hd : Rel V d x) (hs : Rel V s a) :
    Rel V (ssri w k d s) ((x &&& ~~~(BitVec.allOnes w >>> k)) ||| a >>> k) := by
  apply Rel.full
  intro hl
  have hdl := hd.1
  refine ⟨by simp; omega, ?_⟩
  intro j h
  have h' : j < (s.length - k) + (d.length - (w - k)) := by simpa using h
  have hw : j < w := by omega
  simp only [BitVec.getLsbD_or, BitVec.getLsbD_and, BitVec.getLsbD_not, BitVec.getLsbD_ushiftRight,
    BitVec.getLsbD_allOnes, hw, decide_true, Bool.true_and]
  by_cases hj : j < s.length - k
  · rw [List.getElem_append_left (by simp; omega)]
    simp only [List.getElem_drop]
    rw [hs.2 _ (by omega), decide_eq_true (by omega : k + j < w)]
    simp
  · rw [List.getElem_append_right (by simp; omega)]
    simp only [List.getElem_drop, List.length_drop]
    rw [hd.2 _ (by omega), decide_eq_false (by omega : ¬ k + j < w), BitVec.getLsbD_of_ge a (k + j) (by omega)]
    simp only [Bool.not_false, Bool.and_true, Bool.or_false]
    congr 1; omega

theorem Rel.sli {V k : Nat} {d s : Sym} {x a : BitVec w} (hd : Rel V d x) (hs : Rel V s a) :
    Rel V (ssli w k d s) ((x &&& ~~~(BitVec.allOnes w <<< k)) ||| a <<< k) := by
  unfold ssli
  cases hb : Nat.ble k d.length
  · exact Rel.nil V _
  · have hk : k ≤ d.length := Nat.le_of_ble_eq_true hb
    have hdl := hd.1
    refine ⟨by simp; omega, ?_⟩
    intro j h
    have h' : j < min k d.length + min (w - k) s.length := by simpa using h
    have hw : j < w := by omega
    simp only [cond_true, BitVec.getLsbD_or, BitVec.getLsbD_and, BitVec.getLsbD_not, BitVec.getLsbD_shiftLeft,
      BitVec.getLsbD_allOnes, hw, decide_true, Bool.true_and]
    by_cases hj : j < k
    · rw [List.getElem_append_left (by simp; omega)]
      simp only [List.getElem_take, hj, decide_true, Bool.not_true, Bool.false_and, Bool.or_false, Bool.not_false,
        Bool.and_true]
      exact hd.2 _ (by omega)
    · rw [List.getElem_append_right (by simp; omega)]
      simp only [List.getElem_take, List.length_take, hj, decide_false, Bool.not_false, Bool.true_and]
      rw [hs.2 _ (by omega), decide_eq_true (by omega : j - k < w), Nat.min_eq_left hk]
      simp

/-- Funnel shift. -/
def sfsr (w k : Nat) (a b : Sym) : Sym :=
  bif Nat.blt 0 k && Nat.blt k w then full w a (full w b (a.drop k ++ b.take k)) else []

theorem Rel.fsr {V k : Nat} {s t : Sym} {a b : BitVec w} (ha : Rel V s a) (hb : Rel V t b) :
    Rel V (sfsr w k s t) (a >>> k ||| b <<< (w - k)) := by
  unfold sfsr
  cases hk : Nat.blt 0 k && Nat.blt k w
  · exact Rel.nil V _
  · rw [Bool.and_eq_true] at hk
    have h0 : 0 < k := Nat.le_of_ble_eq_true hk.1
    have h1 : k < w := Nat.le_of_ble_eq_true hk.2
    simp only [cond_true]
    apply Rel.full; intro hl
    apply Rel.full; intro hl'
    refine ⟨by simp; omega, ?_⟩
    intro j h
    have h' : j < (s.length - k) + min k t.length := by simpa using h
    have hw : j < w := by omega
    simp only [BitVec.getLsbD_or, BitVec.getLsbD_ushiftRight, BitVec.getLsbD_shiftLeft, hw, decide_true, Bool.true_and]
    by_cases hj : j < w - k
    · rw [List.getElem_append_left (by simp; omega)]
      simp only [List.getElem_drop, hj, decide_true, Bool.not_true, Bool.false_and, Bool.or_false]
      exact ha.2 _ (by omega)
    · rw [List.getElem_append_right (by simp; omega)]
      simp only [List.getElem_take, List.length_drop, hj, decide_false, Bool.not_false, Bool.true_and]
      rw [hb.2 _ (by omega), BitVec.getLsbD_of_ge a (k + j) (by omega)]
      simp only [Bool.false_or]
      congr 1; omega

/-- Value of a register all of whose bits are constant. -/
def toConst : Sym → Option Nat
  | [] => some 0
  | [] :: s => (toConst s).map fun n => 2 * n
  | [0] :: s => (toConst s).map fun n => 2 * n + 1
  | _ :: _ => none

theorem toConst_bits {V : Nat} {s : Sym} {n : Nat} (h : toConst s = some n) :
    n < 2 ^ s.length ∧ ∀ j (hj : j < s.length), eval V s[j] = n.testBit j := by
  induction s generalizing n with
  | nil => simp [toConst] at h; subst h; simp
  | cons p s ih =>
    unfold toConst at h
    split at h
    · rename_i heq; simp at heq
    · rename_i s' heq
      obtain ⟨rfl, rfl⟩ := List.cons.inj heq
      obtain ⟨k, hk, rfl⟩ := Option.map_eq_some_iff.mp h
      obtain ⟨h1, h2⟩ := ih hk
      refine ⟨by simp only [List.length_cons]; rw [Nat.pow_succ]; omega, ?_⟩
      intro j hj
      cases j with
      | zero => simp [eval, Nat.testBit_zero]
      | succ j =>
        simp only [List.getElem_cons_succ]
        rw [h2 j (by simpa using hj), Nat.testBit_succ]; congr 1; omega
    · rename_i s' heq
      obtain ⟨rfl, rfl⟩ := List.cons.inj heq
      obtain ⟨k, hk, rfl⟩ := Option.map_eq_some_iff.mp h
      obtain ⟨h1, h2⟩ := ih hk
      refine ⟨by simp only [List.length_cons]; rw [Nat.pow_succ]; omega, ?_⟩
      intro j hj
      cases j with
      | zero => simp [eval, Nat.testBit_zero, evalMono_zero]
      | succ j =>
        simp only [List.getElem_cons_succ]
        rw [h2 j (by simpa using hj), Nat.testBit_succ]; congr 1; omega
    · exact absurd h (by simp)

/-- Concrete value of a register, if known. -/
def known (w : Nat) (s : Sym) : Option Nat := bif Nat.beq s.length w then toConst s else none

theorem known_sound {V : Nat} {s : Sym} {a : BitVec w} {n : Nat} (hs : Rel V s a) (h : known w s = some n) :
    a.toNat = n := by
  unfold known at h
  cases hb : Nat.beq s.length w <;> rw [hb] at h
  · exact absurd h (by simp)
  · have hl : s.length = w := Nat.eq_of_beq_eq_true hb
    obtain ⟨h1, h2⟩ := toConst_bits (V := V) h
    apply Nat.eq_of_testBit_eq
    intro j
    by_cases hj : j < s.length
    · rw [← h2 j hj, hs.2 j hj]; rfl
    · rw [Nat.testBit_lt_two_pow (Nat.lt_of_lt_of_le h1 (Nat.pow_le_pow_right (by omega) (by omega)))]
      show a.getLsbD j = false
      exact BitVec.getLsbD_of_ge _ _ (by omega)

/-! ## Symbolic machine -/

structure SM where
  r : List Sym
  stk : List Sym
  z : Option Bool

structure SM.Rel (V : Nat) (s : SM) (m : M w) : Prop where
  r : ∀ i, Asm.Rel V (s.r.getD i []) (m.r i)
  stk : s.stk.length = m.stk.length ∧ ∀ i (h : i < s.stk.length) (h' : i < m.stk.length), Asm.Rel V s.stk[i] m.stk[i]
  z : ∀ b, s.z = some b → m.z = b

def setR : List Sym → Nat → Sym → List Sym
  | [], 0, v => [v]
  | [], d + 1, v => [] :: setR [] d v
  | _ :: l, 0, v => v :: l
  | a :: l, d + 1, v => a :: setR l d v

theorem getD_setR (l : List Sym) (d i : Nat) (v : Sym) :
    (setR l d v).getD i [] = if i = d then v else l.getD i [] := by
  induction d generalizing l i with
  | zero => cases l <;> cases i <;> simp [setR]
  | succ d ih =>
    cases l with
    | nil => cases i with
      | zero => simp [setR]
      | succ i => simp only [setR, List.getD_cons_succ, ih]; simp
    | cons a l => cases i with
      | zero => simp [setR]
      | succ i => simp only [setR, List.getD_cons_succ, ih]; simp

def SM.set (s : SM) (d : Nat) (v : Sym) : SM := { s with r := setR s.r d v }

theorem SM.Rel.set {V : Nat} {s : SM} {m : M w} (h : SM.Rel V s m) (d : Nat) {v : Sym} {b : BitVec w}
    (hv : Asm.Rel V v b) : SM.Rel V (s.set d v) (m.set d b) where
  r i := by
    simp only [SM.set, M.set, getD_setR]
    split
    · exact hv
    · exact h.r i
  stk := h.stk
  z := h.z

def sget (s : SM) : Opnd w → Sym
  | .imm v => sbits v
  | .reg r => s.r.getD r []
  | .lsl r k => slsl w k (s.r.getD r [])
  | .lsr r k => slsr w k (s.r.getD r [])
  | .ror r k => sror w k (s.r.getD r [])

theorem SM.Rel.get {V : Nat} {s : SM} {m : M w} (h : SM.Rel V s m) (o : Opnd w) : Asm.Rel V (sget s o) (o.get m) := by
  cases o with
  | imm v => exact Rel.sbits V v
  | reg r => exact h.r r
  | lsl r k => exact (h.r r).lsl
  | lsr r k => exact (h.r r).lsr
  | ror r k => exact (h.r r).ror

/-- Symbolic execution of one instruction; `none` if it cannot be executed symbolically. -/
def symStep (rom : Nat → Option Byte) (s : SM) : Instr w → Option SM
  | .bit op d a b => some (s.set d (szip (pop2 op) (sget s a) (sget s b)))
  | .mov d a => some (s.set d (sget s a))
  | .mvn d a => some (s.set d (snot (sget s a)))
  | .add d a b =>
    match known w (sget s a), known w (sget s b) with
    | some x, some y => some (s.set d (sbits (BitVec.ofNat w (x + y))))
    | _, _ => none
  | .sub d a b =>
    match known w (sget s a), known w (sget s b) with
    | some x, some y => some (s.set d (sbits (BitVec.ofNat w x - BitVec.ofNat w y)))
    | _, _ => none
  | .rorReg d a k =>
    match known w (s.r.getD k []) with
    | some n => some (s.set d (sror w n (s.r.getD a [])))
    | none => none
  | .cmp a b =>
    match known w (sget s a), known w (sget s b) with
    | some x, some y => some { s with z := some (Nat.beq x y) }
    | _, _ => some { s with z := none }
  | .push r => some { s with stk := s.r.getD r [] :: s.stk }
  | .pop r =>
    match s.stk with
    | [] => none
    | v :: t => some ({ s with stk := t }.set r v)
  | .ldrb d a off =>
    match known w (s.r.getD a []) with
    | some n =>
      match rom (n + off) with
      | some b => some (s.set d (sbits (b.setWidth w)))
      | none => none
    | none => none
  | .ldrbPost d a inc =>
    match known w (s.r.getD a []) with
    | some n =>
      match rom n with
      | some b => some ((s.set d (sbits (b.setWidth w))).set a (sbits (BitVec.ofNat w (n + inc))))
      | none => none
    | none => none
  | .sri d a k => some (s.set d (ssri w k (s.r.getD d []) (s.r.getD a [])))
  | .sli d a k => some (s.set d (ssli w k (s.r.getD d []) (s.r.getD a [])))
  | .fsr d a b k => some (s.set d (sfsr w k (s.r.getD a []) (s.r.getD b [])))

theorem symStep_sound {V : Nat} {rom : Nat → Option Byte} {s t : SM} {m : M w} (i : Instr w)
    (h : SM.Rel V s m) (hs : symStep rom s i = some t) :
    ∃ m', step rom m i = some m' ∧ SM.Rel V t m' := by
  cases i with
  | bit op d a b =>
    cases hs
    exact ⟨_, rfl, h.set d (Rel.bit op (h.get a) (h.get b))⟩
  | mov d a =>
    cases hs
    exact ⟨_, rfl, h.set d (h.get a)⟩
  | mvn d a =>
    cases hs
    exact ⟨_, rfl, h.set d (h.get a).not⟩
  | add d a b =>
    simp only [symStep] at hs
    split at hs
    · rename_i x y hx hy
      cases hs
      refine ⟨_, rfl, h.set d ?_⟩
      have ex := known_sound (h.get a) hx
      have ey := known_sound (h.get b) hy
      have : a.get m + b.get m = BitVec.ofNat w (x + y) := by
        apply BitVec.eq_of_toNat_eq; simp [BitVec.toNat_add, ex, ey]
      rw [this]
      exact Rel.sbits V _
    · exact absurd hs (by simp)
  | sub d a b =>
    simp only [symStep] at hs
    split at hs
    · rename_i x y hx hy
      cases hs
      refine ⟨_, rfl, h.set d ?_⟩
      have ex := known_sound (h.get a) hx
      have ey := known_sound (h.get b) hy
      rw [← ex, ← ey, BitVec.ofNat_toNat, BitVec.ofNat_toNat, BitVec.setWidth_eq, BitVec.setWidth_eq]
      exact Rel.sbits V _
    · exact absurd hs (by simp)
  | rorReg d a k =>
    simp only [symStep] at hs
    split at hs
    · rename_i n hn
      cases hs
      refine ⟨_, rfl, h.set d ?_⟩
      rw [known_sound (h.r k) hn]
      exact (h.r a).ror
    · exact absurd hs (by simp)
  | cmp a b =>
    simp only [symStep] at hs
    split at hs
    · rename_i x y hx hy
      cases hs
      refine ⟨_, rfl, h.r, h.stk, ?_⟩
      intro c hc
      cases hc
      have ex := known_sound (h.get a) hx
      have ey := known_sound (h.get b) hy
      show (a.get m == b.get m) = Nat.beq x y
      rw [Bool.eq_iff_iff, Nat.beq_eq, beq_iff_eq, ← ex, ← ey]
      exact BitVec.toNat_inj.symm
    · cases hs
      exact ⟨_, rfl, h.r, h.stk, fun c hc => absurd hc (by simp)⟩
  | push r =>
    cases hs
    refine ⟨_, rfl, h.r, ⟨by simp [h.stk.1], ?_⟩, h.z⟩
    intro i h1 h2
    cases i with
    | zero => exact h.r r
    | succ i => exact h.stk.2 i (by simpa using h1) (by simpa using h2)
  | pop r =>
    obtain ⟨hl, hstk⟩ := h.stk
    simp only [symStep] at hs
    split at hs
    · exact absurd hs (by simp)
    · rename_i v t hv
      cases hs
      cases hm : m.stk with
      | nil => rw [hv, hm] at hl; simp at hl
      | cons b bs =>
        have hsr : SM.Rel V { s with stk := t } { m with stk := bs } := by
          refine ⟨h.r, ⟨by rw [hv, hm] at hl; simpa using hl, ?_⟩, h.z⟩
          intro i h1 h2
          have := hstk (i + 1) (by rw [hv]; simpa using h1) (by rw [hm]; simpa using h2)
          simpa [hv, hm] using this
        refine ⟨({ m with stk := bs } : M w).set r b, by simp only [step, hm], hsr.set r ?_⟩
        have := hstk 0 (by rw [hv]; simp) (by rw [hm]; simp)
        simpa [hv, hm] using this
  | ldrb d a off =>
    simp only [symStep] at hs
    split at hs
    · rename_i n hn
      split at hs
      · rename_i b hb
        cases hs
        refine ⟨_, by simp only [step]; rw [known_sound (h.r a) hn, hb]; rfl, h.set d (Rel.sbits V _)⟩
      · exact absurd hs (by simp)
    · exact absurd hs (by simp)
  | ldrbPost d a inc =>
    simp only [symStep] at hs
    split at hs
    · rename_i n hn
      split at hs
      · rename_i b hb
        cases hs
        have hn' := known_sound (h.r a) hn
        refine ⟨_, by simp only [step]; rw [hn', hb]; rfl, (h.set d (Rel.sbits V _)).set a ?_⟩
        have : m.r a + BitVec.ofNat w inc = BitVec.ofNat w (n + inc) := by
          apply BitVec.eq_of_toNat_eq; simp [BitVec.toNat_add, hn']
        rw [this]
        exact Rel.sbits V _
      · exact absurd hs (by simp)
    · exact absurd hs (by simp)
  | sri d a k =>
    cases hs
    exact ⟨_, rfl, h.set d ((h.r d).sri (h.r a))⟩
  | sli d a k =>
    cases hs
    exact ⟨_, rfl, h.set d ((h.r d).sli (h.r a))⟩
  | fsr d a b k =>
    cases hs
    exact ⟨_, rfl, h.set d (Rel.fsr (h.r a) (h.r b))⟩

def symExec (rom : Nat → Option Byte) : List (Instr w) → SM → Option SM
  | [], s => some s
  | i :: is, s =>
    match symStep rom s i with
    | some s => symExec rom is s
    | none => none

theorem symExec_sound {V : Nat} {rom : Nat → Option Byte} {s t : SM} {m : M w} (is : List (Instr w))
    (h : SM.Rel V s m) (hs : symExec rom is s = some t) :
    ∃ m', exec rom is m = some m' ∧ SM.Rel V t m' := by
  induction is generalizing s m with
  | nil => cases hs; exact ⟨m, rfl, h⟩
  | cons i is ih =>
    simp only [symExec] at hs
    split at hs
    · rename_i s' hs'
      obtain ⟨m1, e1, r1⟩ := symStep_sound i h hs'
      obtain ⟨m2, e2, r2⟩ := ih r1 hs
      exact ⟨m2, by simp only [exec, e1, Option.bind_some, e2], r2⟩
    · exact absurd hs (by simp)

end Ascon.Asm
