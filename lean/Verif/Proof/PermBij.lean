import Verif.Proof.Words
/-!
# The permutation is a bijection
-/

namespace Ascon.Spec

theorem getLsbD_rotateRight64 (x : Word) (r i : Nat) (hi : i < 64) :
    (x.rotateRight r).getLsbD i = x.getLsbD ((i + r) % 64) := by
  rw [BitVec.getLsbD_rotateRight, cond_eq_ite]
  split
  · congr 1; simp at *; omega
  · rw [show (i + r) % 64 = i - (64 - r % 64) by simp at *; omega]
    simp [hi]

/-- `x ⊕ (x ⋙ a) ⊕ (x ⋙ b)` -/
def lin (a b : Nat) (x : Word) : Word := x ^^^ x.rotateRight a ^^^ x.rotateRight b

theorem getLsbD_lin (a b : Nat) (x : Word) (i : Nat) (hi : i < 64) :
    (lin a b x).getLsbD i =
      ((x.getLsbD i ^^ x.getLsbD ((i + a) % 64)) ^^ x.getLsbD ((i + b) % 64)) := by
  unfold lin
  rw [BitVec.getLsbD_xor, BitVec.getLsbD_xor, getLsbD_rotateRight64 _ _ _ hi, getLsbD_rotateRight64 _ _ _ hi]

/-- Squaring in characteristic two. -/
theorem lin_lin (a b : Nat) (x : Word) : lin a b (lin a b x) = lin (2 * a) (2 * b) x := by
  apply BitVec.eq_of_getLsbD_eq
  intro i hi
  have h1 : (i + a) % 64 < 64 := Nat.mod_lt _ (by omega)
  have h2 : (i + b) % 64 < 64 := Nat.mod_lt _ (by omega)
  rw [getLsbD_lin _ _ _ _ hi, getLsbD_lin _ _ _ _ hi, getLsbD_lin _ _ _ _ h1, getLsbD_lin _ _ _ _ h2,
    getLsbD_lin _ _ _ _ hi]
  rw [show ((i + a) % 64 + a) % 64 = (i + 2 * a) % 64 by omega,
    show ((i + a) % 64 + b) % 64 = (i + (a + b)) % 64 by omega,
    show ((i + b) % 64 + a) % 64 = (i + (a + b)) % 64 by omega,
    show ((i + b) % 64 + b) % 64 = (i + 2 * b) % 64 by omega]
  generalize x.getLsbD i = p0
  generalize x.getLsbD ((i + a) % 64) = p1
  generalize x.getLsbD ((i + b) % 64) = p2
  generalize x.getLsbD ((i + 2 * a) % 64) = p3
  generalize x.getLsbD ((i + (a + b)) % 64) = p4
  generalize x.getLsbD ((i + 2 * b) % 64) = p5
  revert p0 p1 p2 p3 p4 p5
  decide

theorem lin_64 (a b : Nat) (x : Word) : lin (64 * a) (64 * b) x = x := by
  apply BitVec.eq_of_getLsbD_eq
  intro i hi
  rw [getLsbD_lin _ _ _ _ hi, show (i + 64 * a) % 64 = i by omega, show (i + 64 * b) % 64 = i by omega]
  cases x.getLsbD i <;> rfl

/-- Inverse of `lin a b`: its 63rd iterate. -/
def linInv (a b : Nat) (x : Word) : Word :=
  lin a b (lin (2 * a) (2 * b) (lin (4 * a) (4 * b) (lin (8 * a) (8 * b) (lin (16 * a) (16 * b)
    (lin (32 * a) (32 * b) x)))))

theorem lin_comm (a b c d : Nat) (x : Word) : lin a b (lin c d x) = lin c d (lin a b x) := by
  apply BitVec.eq_of_getLsbD_eq
  intro i hi
  have h : ∀ r, (i + r) % 64 < 64 := fun r => Nat.mod_lt _ (by omega)
  have e : ∀ r t, ((i + r) % 64 + t) % 64 = (i + (r + t)) % 64 := fun r t => by omega
  simp only [getLsbD_lin _ _ _ _ hi, getLsbD_lin _ _ _ _ (h _), e]
  rw [Nat.add_comm c a, Nat.add_comm c b, Nat.add_comm d a, Nat.add_comm d b]
  generalize x.getLsbD i = p0
  generalize x.getLsbD ((i + a) % 64) = p1
  generalize x.getLsbD ((i + b) % 64) = p2
  generalize x.getLsbD ((i + c) % 64) = p3
  generalize x.getLsbD ((i + d) % 64) = p4
  generalize x.getLsbD ((i + (a + c)) % 64) = p5
  generalize x.getLsbD ((i + (a + d)) % 64) = p6
  generalize x.getLsbD ((i + (b + c)) % 64) = p7
  generalize x.getLsbD ((i + (b + d)) % 64) = p8
  cases p0 <;> cases p1 <;> cases p2 <;> cases p3 <;> cases p4 <;> cases p5 <;> cases p6 <;> cases p7 <;>
    cases p8 <;> rfl

theorem lin_linInv (a b : Nat) (x : Word) : lin a b (linInv a b x) = x := by
  unfold linInv
  have e := fun n (y : Word) => lin_lin (n * a) (n * b) y
  have e1 : ∀ y, lin a b (lin a b y) = lin (2 * a) (2 * b) y := fun y => lin_lin a b y
  have e2 : ∀ y, lin (2 * a) (2 * b) (lin (2 * a) (2 * b) y) = lin (4 * a) (4 * b) y := fun y => by
    rw [lin_lin]; congr 1 <;> omega
  have e3 : ∀ y, lin (4 * a) (4 * b) (lin (4 * a) (4 * b) y) = lin (8 * a) (8 * b) y := fun y => by
    rw [lin_lin]; congr 1 <;> omega
  have e4 : ∀ y, lin (8 * a) (8 * b) (lin (8 * a) (8 * b) y) = lin (16 * a) (16 * b) y := fun y => by
    rw [lin_lin]; congr 1 <;> omega
  have e5 : ∀ y, lin (16 * a) (16 * b) (lin (16 * a) (16 * b) y) = lin (32 * a) (32 * b) y := fun y => by
    rw [lin_lin]; congr 1 <;> omega
  have e6 : ∀ y, lin (32 * a) (32 * b) (lin (32 * a) (32 * b) y) = y := fun y => by
    rw [lin_lin]
    have := lin_64 a b y
    rwa [show 64 * a = 2 * (32 * a) by omega, show 64 * b = 2 * (32 * b) by omega] at this
  rw [e1, e2, e3, e4, e5, e6]

theorem linInv_lin (a b : Nat) (x : Word) : linInv a b (lin a b x) = x := by
  have h := lin_linInv a b x
  unfold linInv at h ⊢
  rw [← lin_comm a b (32 * a), ← lin_comm a b (16 * a), ← lin_comm a b (8 * a), ← lin_comm a b (4 * a),
    ← lin_comm a b (2 * a)]
  exact h

/-- Inverse of the linear layer. -/
def diffuseInv (s : State) : State :=
  { x0 := linInv 19 28 s.x0, x1 := linInv 61 39 s.x1, x2 := linInv 1 6 s.x2, x3 := linInv 10 17 s.x3,
    x4 := linInv 7 41 s.x4 }

theorem diffuse_diffuseInv (s : State) : diffuse (diffuseInv s) = s := by
  have h := fun a b x => lin_linInv a b x
  unfold lin at h
  apply State.ext' <;> simp only [diffuse, diffuseInv, h]

theorem diffuseInv_diffuse (s : State) : diffuseInv (diffuse s) = s := by
  have h := fun a b x => linInv_lin a b x
  unfold lin at h
  apply State.ext' <;> simp only [diffuse, diffuseInv, h]

/-- Inverse S-box table. -/
def sboxInvTable : List Nat :=
  (List.range 32).map fun y => (List.range 32).findIdx fun x => sboxTable.getD x 0 == y

def sboxInv (b0 b1 b2 b3 b4 : Bool) : Nat :=
  sboxInvTable.getD (b0.toNat * 16 + b1.toNat * 8 + b2.toNat * 4 + b3.toNat * 2 + b4.toNat) 0

def substInv (s : State) : State :=
  let col (i : Nat) : Nat :=
    sboxInv (s.x0.getLsbD i) (s.x1.getLsbD i) (s.x2.getLsbD i) (s.x3.getLsbD i) (s.x4.getLsbD i)
  { x0 := wordOfBits fun i => (col i).testBit 4
    x1 := wordOfBits fun i => (col i).testBit 3
    x2 := wordOfBits fun i => (col i).testBit 2
    x3 := wordOfBits fun i => (col i).testBit 1
    x4 := wordOfBits fun i => (col i).testBit 0 }

theorem sbox_sboxInv : ∀ b0 b1 b2 b3 b4 : Bool,
    let y := sboxInv b0 b1 b2 b3 b4
    let z := sbox (y.testBit 4) (y.testBit 3) (y.testBit 2) (y.testBit 1) (y.testBit 0)
    z.testBit 4 = b0 ∧ z.testBit 3 = b1 ∧ z.testBit 2 = b2 ∧ z.testBit 1 = b3 ∧ z.testBit 0 = b4 := by
  decide +kernel

theorem sboxInv_sbox : ∀ b0 b1 b2 b3 b4 : Bool,
    let y := sbox b0 b1 b2 b3 b4
    let z := sboxInv (y.testBit 4) (y.testBit 3) (y.testBit 2) (y.testBit 1) (y.testBit 0)
    z.testBit 4 = b0 ∧ z.testBit 3 = b1 ∧ z.testBit 2 = b2 ∧ z.testBit 1 = b3 ∧ z.testBit 0 = b4 := by
  decide +kernel

theorem subst_substInv (s : State) : subst (substInv s) = s := by
  apply State.ext' <;> apply BitVec.eq_of_getLsbD_eq <;> intro i hi <;>
    simp only [subst, substInv, getLsbD_wordOfBits, hi, decide_true, Bool.true_and]
  all_goals
    have := sbox_sboxInv (s.x0.getLsbD i) (s.x1.getLsbD i) (s.x2.getLsbD i) (s.x3.getLsbD i) (s.x4.getLsbD i)
    simp only at this
    simp only [this]

theorem substInv_subst (s : State) : substInv (subst s) = s := by
  apply State.ext' <;> apply BitVec.eq_of_getLsbD_eq <;> intro i hi <;>
    simp only [subst, substInv, getLsbD_wordOfBits, hi, decide_true, Bool.true_and]
  all_goals
    have := sboxInv_sbox (s.x0.getLsbD i) (s.x1.getLsbD i) (s.x2.getLsbD i) (s.x3.getLsbD i) (s.x4.getLsbD i)
    simp only at this
    simp only [this]

theorem addConst_addConst (c : Word) (s : State) : addConst c (addConst c s) = s := by
  apply State.ext' <;> simp [addConst, BitVec.xor_assoc]

/-- Inverse round. -/
def roundInv (c : Word) (s : State) : State := addConst c (substInv (diffuseInv s))

theorem round_roundInv (c : Word) (s : State) : round c (roundInv c s) = s := by
  unfold round roundInv
  rw [addConst_addConst, subst_substInv, diffuse_diffuseInv]

theorem roundInv_round (c : Word) (s : State) : roundInv c (round c s) = s := by
  unfold round roundInv
  rw [diffuseInv_diffuse, substInv_subst, addConst_addConst]

/-- Inverse permutation: the inverse rounds in reverse order. -/
def permInv (rnd : Nat) (s : State) : State :=
  (roundConsts.drop (16 - rnd)).foldr (fun c s => roundInv c s) s

theorem permInv_perm (rnd : Nat) (s : State) : permInv rnd (perm rnd s) = s := by
  unfold permInv perm
  generalize roundConsts.drop (16 - rnd) = l
  induction l generalizing s with
  | nil => rfl
  | cons c l ih => rw [List.foldl_cons, List.foldr_cons, ih, roundInv_round]

theorem perm_permInv (rnd : Nat) (s : State) : perm rnd (permInv rnd s) = s := by
  unfold permInv perm
  generalize roundConsts.drop (16 - rnd) = l
  induction l generalizing s with
  | nil => rfl
  | cons c l ih => rw [List.foldl_cons, List.foldr_cons, round_roundInv, ih]

theorem perm_injective {rnd : Nat} {s t : State} (h : perm rnd s = perm rnd t) : s = t := by
  rw [← permInv_perm rnd s, h, permInv_perm]

end Ascon.Spec
