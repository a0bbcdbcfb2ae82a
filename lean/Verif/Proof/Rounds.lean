import Verif.Model.Backends
import Verif.Proof.GenCore
import Verif.Proof.PermBij
/-!
# The round functions of the portable implementations compute the Ascon round

For an encoding `enc` of words that permutes the bits, a round function working on encoded words with a
rotation that commutes with `enc` computes the encoding of the specified round.
-/

namespace Ascon.Gen

open Ascon.C Ascon.Spec
open Ascon.C.Prog (require ifc loop)

/-! ### Algebra of rotations -/

theorem rotateRight_xor (x y : Word) (n : Nat) :
    (x ^^^ y).rotateRight n = x.rotateRight n ^^^ y.rotateRight n := by
  apply BitVec.eq_of_getLsbD_eq; intro i hi
  simp only [BitVec.getLsbD_xor, getLsbD_rotateRight64 _ _ _ hi]

theorem rotateRight_not (x : Word) (n : Nat) : (~~~x).rotateRight n = ~~~(x.rotateRight n) := by
  apply BitVec.eq_of_getLsbD_eq; intro i hi
  simp only [BitVec.getLsbD_not, getLsbD_rotateRight64 _ _ _ hi, hi, decide_true, Bool.true_and,
    show (i + n) % 64 < 64 from Nat.mod_lt _ (by omega)]

theorem rotateRight_rotateRight (x : Word) (a b : Nat) :
    (x.rotateRight a).rotateRight b = x.rotateRight (a + b) := by
  apply BitVec.eq_of_getLsbD_eq; intro i hi
  rw [getLsbD_rotateRight64 _ _ _ hi, getLsbD_rotateRight64 _ _ _ (Nat.mod_lt _ (by omega)),
    getLsbD_rotateRight64 _ _ _ hi]
  congr 1
  omega

theorem shift_xor_rotate (x : Word) (n : Nat) (h0 : 0 < n) (h : n < 64) :
    (x >>> n) ^^^ (x <<< (64 - n)) = x.rotateRight n := by
  apply BitVec.eq_of_getLsbD_eq; intro i hi
  rw [getLsbD_rotateRight64 _ _ _ hi, BitVec.getLsbD_xor, BitVec.getLsbD_ushiftRight,
    BitVec.getLsbD_shiftLeft]
  by_cases h1 : i < 64 - n
  · simp [h1, hi, show (i + n) % 64 = n + i by omega]
  · simp [h1, hi, BitVec.getLsbD_of_ge x (n + i) (by omega), show (i + n) % 64 = i - (64 - n) by omega]

theorem not_xor3 (a b c : Word) : ~~~a ^^^ ~~~b ^^^ ~~~c = ~~~(a ^^^ b ^^^ c) := by
  apply BitVec.eq_of_getLsbD_eq; intro i hi
  simp only [BitVec.getLsbD_xor, BitVec.getLsbD_not, hi, decide_true, Bool.true_and]
  cases a.getLsbD i <;> cases b.getLsbD i <;> cases c.getLsbD i <;> rfl

/-- Two rotations at the cost of a shorter one: `x ^ ROR(x ^ ROR(x, d), a)`. -/
theorem lin2 (x : Word) (a d : Nat) : x ^^^ (x ^^^ x.rotateRight d).rotateRight a =
    x ^^^ x.rotateRight a ^^^ x.rotateRight (d + a) := by
  rw [rotateRight_xor, rotateRight_rotateRight, BitVec.xor_assoc]

theorem andn_comm (a b : Word) : a &&& ~~~b = ~~~b &&& a := BitVec.and_comm _ _

theorem andn_absorb (x0 x1 x2 : Word) :
    ~~~(x0 ^^^ (~~~x1 &&& x2)) &&& x1 = ~~~x0 &&& x1 := by
  apply BitVec.eq_of_getLsbD_eq; intro i hi
  simp only [BitVec.getLsbD_xor, BitVec.getLsbD_and, BitVec.getLsbD_not, hi, decide_true, Bool.true_and]
  cases x0.getLsbD i <;> cases x1.getLsbD i <;> cases x2.getLsbD i <;> rfl

theorem xor_right_comm (a b c : Word) : a ^^^ b ^^^ c = a ^^^ c ^^^ b := by
  rw [BitVec.xor_assoc, BitVec.xor_comm b, ← BitVec.xor_assoc]

/-! ### Rounds on plain words -/

theorem ROUND_opt64_plain (s : State) (c : Word) :
    ROUND_opt64 BitVec.rotateRight s c = round c s := by
  unfold ROUND_opt64 Spec.round
  rw [Ref.subst_eq]
  simp only [diffuse, Ref.sboxWords, addConst, rotateRight_not, not_xor3, lin2]
  ext1 <;> try rfl
  exact xor_right_comm _ _ _

/-- The two orders of evaluating the S-box layer agree. -/
theorem ROUND_low_plain (s : State) (c : Word) :
    ROUND_low BitVec.rotateRight s c = round c s := by
  rw [← ROUND_opt64_plain]
  unfold ROUND_opt64 ROUND_low
  simp only [andn_comm, andn_absorb, lin2]

theorem xor_shifts (x : Word) (a b : Nat) (ha : 0 < a) (ha' : a < 64) (hb : 0 < b) (hb' : b < 64) :
    x ^^^ ((x >>> a) ^^^ (x <<< (64 - a)) ^^^ (x >>> b) ^^^ (x <<< (64 - b))) =
      x ^^^ x.rotateRight a ^^^ x.rotateRight b := by
  rw [shift_xor_rotate x a ha ha', BitVec.xor_assoc (x.rotateRight a), shift_xor_rotate x b hb hb',
    BitVec.xor_assoc]

theorem ROUND_opt32_plain (s : State) (c : Word) : ROUND_opt32 s c = round c s := by
  have h0 := fun x => xor_shifts x 19 28 (by decide) (by decide) (by decide) (by decide)
  have h1 := fun x => xor_shifts x 61 39 (by decide) (by decide) (by decide) (by decide)
  have h2 := fun x => xor_shifts x 1 6 (by decide) (by decide) (by decide) (by decide)
  have h3 := fun x => xor_shifts x 10 17 (by decide) (by decide) (by decide) (by decide)
  have h4 := fun x => xor_shifts x 7 41 (by decide) (by decide) (by decide) (by decide)
  simp only [Nat.reduceSub] at h0 h1 h2 h3 h4
  unfold ROUND_opt32 Spec.round
  rw [Ref.subst_eq]
  simp only [diffuse, Ref.sboxWords, addConst, andn_comm, andn_absorb, h0, h1, h2, h3, h4]

/-! ### Rounds on encoded words -/

/-- `enc` permutes the bits of a word. -/
structure BitPerm (enc : Word → Word) (π : Nat → Nat) : Prop where
  lt : ∀ i, i < 64 → π i < 64
  bit : ∀ x i, i < 64 → (enc x).getLsbD i = x.getLsbD (π i)

namespace BitPerm
variable {enc : Word → Word} {π : Nat → Nat}

theorem xor (h : BitPerm enc π) (a b : Word) : enc (a ^^^ b) = enc a ^^^ enc b := by
  apply BitVec.eq_of_getLsbD_eq; intro i hi
  simp only [BitVec.getLsbD_xor, h.bit _ i hi]

theorem and (h : BitPerm enc π) (a b : Word) : enc (a &&& b) = enc a &&& enc b := by
  apply BitVec.eq_of_getLsbD_eq; intro i hi
  simp only [BitVec.getLsbD_and, h.bit _ i hi]

theorem not (h : BitPerm enc π) (a : Word) : enc (~~~a) = ~~~(enc a) := by
  apply BitVec.eq_of_getLsbD_eq; intro i hi
  simp only [BitVec.getLsbD_not, h.bit _ i hi, hi, h.lt i hi]

/-- A linear map whose values on single bits are single bits permutes the bits. -/
theorem of_lin (hl : Lin enc) (hlt : ∀ i : Fin 64, π i.val < 64)
    (h : ∀ j : Fin 64, enc (BitVec.twoPow 64 j.val) = wordOfBits (fun i => decide (π i = j.val))) :
    BitPerm enc π := by
  have hlt' : ∀ i, i < 64 → π i < 64 := fun i hi => hlt ⟨i, hi⟩
  refine ⟨hlt', ?_⟩
  have hg : Lin (fun x : Word => wordOfBits (fun i => x.getLsbD (π i))) := by
    intro a b
    apply BitVec.eq_of_getLsbD_eq; intro i hi
    simp only [BitVec.getLsbD_xor, getLsbD_wordOfBits]
    cases decide (i < 64) <;> rfl
  intro x i hi
  rw [Lin.ext hl hg (fun j => by
    rw [h j]
    apply BitVec.eq_of_getLsbD_eq; intro i hi
    simp only [getLsbD_wordOfBits, BitVec.getLsbD_twoPow, hi, decide_true, Bool.true_and, j.isLt]
    exact decide_eq_decide.mpr eq_comm) x, getLsbD_wordOfBits]
  simp [hi]

end BitPerm

/-- The rotation `ror` on encoded words computes the rotations used by the round functions. -/
def RorOk (enc : Word → Word) (ror : Word → Nat → Word) : Prop :=
  ∀ x, ∀ n ∈ [1, 5, 7, 9, 10, 19, 22, 34, 39], ror (enc x) n = enc (x.rotateRight n)

variable {enc : Word → Word} {π : Nat → Nat} {ror : Word → Nat → Word}

theorem ROUND_opt64_enc (h : BitPerm enc π) (hr : RorOk enc ror) (s : State) (c : Word) :
    ROUND_opt64 ror (encS enc s) (enc c) = encS enc (round c s) := by
  rw [← ROUND_opt64_plain]
  have r1 := fun x => hr x 1 (by decide)
  have r5 := fun x => hr x 5 (by decide)
  have r7 := fun x => hr x 7 (by decide)
  have r9 := fun x => hr x 9 (by decide)
  have r10 := fun x => hr x 10 (by decide)
  have r19 := fun x => hr x 19 (by decide)
  have r22 := fun x => hr x 22 (by decide)
  have r34 := fun x => hr x 34 (by decide)
  have r39 := fun x => hr x 39 (by decide)
  unfold ROUND_opt64 encS
  simp only [Nat.reduceSub, ← h.xor, ← h.and, ← h.not, r1, r5, r7, r9, r10, r19, r22, r34, r39]

theorem ROUND_low_enc (h : BitPerm enc π) (hr : RorOk enc ror) (s : State) (c : Word) :
    ROUND_low ror (encS enc s) (enc c) = encS enc (round c s) := by
  rw [← ROUND_low_plain]
  have r1 := fun x => hr x 1 (by decide)
  have r5 := fun x => hr x 5 (by decide)
  have r7 := fun x => hr x 7 (by decide)
  have r9 := fun x => hr x 9 (by decide)
  have r10 := fun x => hr x 10 (by decide)
  have r19 := fun x => hr x 19 (by decide)
  have r22 := fun x => hr x 22 (by decide)
  have r34 := fun x => hr x 34 (by decide)
  have r39 := fun x => hr x 39 (by decide)
  unfold ROUND_low encS
  simp only [Nat.reduceSub, ← h.xor, ← h.and, ← h.not, r1, r5, r7, r9, r10, r19, r22, r34, r39]

/-! ### Sequences of rounds -/

theorem foldl_enc {R : State → Word → State}
    (hR : ∀ s c, R (encS enc s) (enc c) = encS enc (round c s)) (cs : List Word) (s : State) :
    (cs.map enc).foldl R (encS enc s) = encS enc (cs.foldl (fun s c => round c s) s) := by
  induction cs generalizing s with
  | nil => rfl
  | cons c cs ih => simp only [List.map_cons, List.foldl_cons, hR, ih]

/-- The loop counter values starting from `i` produce the constants `cs`. -/
def Follows (K : Consts) : Int → List Word → Prop
  | _, [] => False
  | i, [c] => K.RC i = some c ∧ i + K.INC = K.END
  | i, c :: c' :: cs => K.RC i = some c ∧ i + K.INC ≠ K.END ∧ Follows K (i + K.INC) (c' :: cs)

instance (K : Consts) : (i : Int) → (cs : List Word) → Decidable (Follows K i cs)
  | _, [] => inferInstanceAs (Decidable False)
  | _, [_] => inferInstanceAs (Decidable (_ ∧ _))
  | i, _ :: c' :: cs =>
    have := instDecidableFollows K (i + K.INC) (c' :: cs)
    inferInstanceAs (Decidable (_ ∧ _ ∧ _))

theorem run_roundLoop {K : Consts} {R : State → Word → State} {i : Int} {cs : List Word}
    (h : Follows K i cs) (f : Nat) (hf : cs.length ≤ f) (s : State) (mem : Mem) :
    run (roundStep K R (i, s) >>= loop f (fun q : Int × State => q.1 != K.END) (roundStep K R)) mem =
      some ((K.END, cs.foldl R s), mem) := by
  induction cs generalizing i f s with
  | nil => exact absurd h (by simp [Follows])
  | cons c cs ih =>
    obtain ⟨f, rfl⟩ : ∃ g, f = g + 1 := ⟨f - 1, by simp at hf; omega⟩
    have hc : K.RC i = some c := by
      cases cs with
      | nil => exact h.1
      | cons => exact h.1
    have hstep : run (roundStep K R (i, s)) mem = some ((i + K.INC, R s c), mem) := by
      simp only [roundStep, hc]; rfl
    rw [run_bind_of hstep]
    cases cs with
    | nil =>
      rw [run_loop_done (by simp [h.2]), h.2]
      rfl
    | cons c' cs =>
      have hne : ((i + K.INC) != K.END) = true := by simpa using h.2.1
      have := ih h.2.2 f (by simpa using hf) (R s c)
      simp only [loop, ifc, hne, if_true, run]
      exact this

theorem run_PROUNDS {K : Consts} {R : State → Word → State} {nr : Nat} {cs : List Word}
    (h : Follows K (K.START nr) cs) (hl : cs.length ≤ 16) (s : State) (mem : Mem) :
    run (PROUNDS K R nr s) mem = some (cs.foldl R s, mem) := by
  have := run_roundLoop (R := R) h 16 hl s mem
  unfold PROUNDS
  rw [← bind_assoc', run_bind_of this]
  rfl

end Ascon.Gen
