import Verif.Proof.Opt8Core
import Verif.Proof.Rounds
import Verif.Proof.Linear
/-!
# The byte-oriented round function of src/opt8/round.h is the Ascon round (little-endian machines)
-/

namespace Ascon.Opt8

open Ascon.C Ascon.Spec
open Ascon.C.Prog (require ifc loop forUp loadB storeB)

/-! ## The rotation -/

theorem getD_xorBytes (a b : List Byte) (h : a.length = b.length) (i : Nat) :
    (xorBytes a b).getD i 0 = a.getD i 0 ^^^ b.getD i 0 := by
  simp only [xorBytes, List.getD_eq_getElem?_getD, List.getElem?_zipWith]
  by_cases hi : i < a.length
  · rw [List.getElem?_eq_getElem hi, List.getElem?_eq_getElem (by omega : i < b.length)]
    rfl
  · rw [List.getElem?_eq_none (by omega), List.getElem?_eq_none (by omega : b.length ≤ i)]
    rfl

theorem set_xorBytes (a b : List Byte) (h : a.length = b.length) (i : Nat) (u v : Byte) :
    (xorBytes a b).set i (u ^^^ v) = xorBytes (a.set i u) (b.set i v) := by
  apply List.ext_getElem
  · simp [h]
  · intro k h1 h2
    simp only [xorBytes, List.getElem_set, List.getElem_zipWith]
    split <;> rfl

theorem byteMul (a : BitVec 16) (x : Nat) (_h : x < 8) : a * ((1 <<< x : Nat) : BitVec 16) = a <<< x := by
  rw [BitVec.shiftLeft_eq_mul_twoPow]
  congr 1

theorem xor4' (a b c d : Byte) : a ^^^ b ^^^ (c ^^^ d) = a ^^^ c ^^^ (b ^^^ d) := xor4 a b c d

theorem length_XMUL (a : List Byte) (br x : Nat) (b : List Byte) (i : Nat) :
    (XMUL a br x b i).length = b.length := by
  simp [XMUL]

theorem XMUL_xor (a a' b b' : List Byte) (br x i : Nat) (hx : x < 8) (ha : a.length = a'.length)
    (hb : b.length = b'.length) :
    XMUL (xorBytes a a') br x (xorBytes b b') i = xorBytes (XMUL a br x b i) (XMUL a' br x b' i) := by
  unfold XMUL
  have hl : ∀ (i : Nat) (u v : Byte), (b.set i u).length = (b'.set i v).length := by intros; simp [hb]
  simp only [byteMul _ _ hx]
  rw [getD_xorBytes a a' ha, BitVec.setWidth_xor, BitVec.shiftLeft_xor_distrib, BitVec.setWidth_xor,
    BitVec.ushiftRight_xor_distrib, BitVec.setWidth_xor, getD_xorBytes b b' hb, xor4', set_xorBytes _ _ hb,
    getD_xorBytes _ _ (hl _ _ _), xor4', set_xorBytes _ _ (hl _ _ _)]

theorem ROR_lin (n : Nat) : Lin (fun x => ROR .little x n) := by
  intro x y
  have hx : (64 - n) &&& 7 < 8 := by
    have := Nat.and_le_right (n := 64 - n) (m := 7)
    omega
  simp only [ROR, repr64, value64]
  rw [bytes64_xor]
  have h0 : bytes64 0 = xorBytes (bytes64 0) (bytes64 0) := by decide
  have key : ∀ (l : List Nat) (b b' : List Byte), b.length = b'.length →
      l.foldl (XMUL (xorBytes (bytes64 x) (bytes64 y)) ((64 - n) >>> 3) ((64 - n) &&& 7)) (xorBytes b b') =
      xorBytes (l.foldl (XMUL (bytes64 x) ((64 - n) >>> 3) ((64 - n) &&& 7)) b)
        (l.foldl (XMUL (bytes64 y) ((64 - n) >>> 3) ((64 - n) &&& 7)) b') ∧
      (l.foldl (XMUL (bytes64 x) ((64 - n) >>> 3) ((64 - n) &&& 7)) b).length =
        (l.foldl (XMUL (bytes64 y) ((64 - n) >>> 3) ((64 - n) &&& 7)) b').length := by
    intro l
    induction l with
    | nil => intro b b' h; exact ⟨rfl, h⟩
    | cons i l ih =>
      intro b b' h
      simp only [List.foldl_cons]
      rw [XMUL_xor _ _ _ _ _ _ _ hx (by simp [length_bytes64]) h]
      exact ih _ _ (by simp [length_XMUL, h])
  have k := key [0, 1, 2, 3, 4, 5, 6, 7] (bytes64 0) (bytes64 0) rfl
  rw [← h0] at k
  rw [k.1]
  exact le64_xorBytes _ _ k.2

theorem rot_lin (n : Nat) : Lin (fun x : Word => x.rotateRight n) := fun x y => Gen.rotateRight_xor x y n

/-- Shift distances used by `LINEAR_LAYER`. -/
theorem ROR_eq (n : Nat) (hn : n ∈ [9, 19, 5, 1, 34, 7, 22, 39, 10]) (x : Word) :
    ROR .little x n = x.rotateRight n := by
  refine Lin.ext (ROR_lin n) (rot_lin n) ?_ x
  have : ∀ n ∈ [9, 19, 5, 1, 34, 7, 22, 39, 10], ∀ i : Fin 64,
      ROR .little (BitVec.twoPow 64 i) n = (BitVec.twoPow 64 i).rotateRight n := by
    decide +kernel
  exact this n hn

/-! ## The substitution layer -/

theorem byteOf_putByte (w : Word) (i j : Nat) (hi : i < 8) (hj : j < 8) (b : Byte) :
    byteOf .little (putByte .little w i b) j = if j = i then b else byteOf .little w j := by
  have hl : ((bytes64 w).set i b).length = 8 := by simp [length_bytes64]
  show (bytes64 (le64 ((bytes64 w).set i b))).getD j 0 = _
  rw [bytes64_le64 _ hl]
  by_cases h : j = i
  · subst h
    simp [List.getD_eq_getElem?_getD, length_bytes64, hi]
  · have : ¬ i = j := fun x => h x.symm
    simp [List.getD_eq_getElem?_getD, h, this, byteOf, repr64]

theorem word_byte_ext {v w : Word} (h : ∀ j < 8, byteOf .little v j = byteOf .little w j) : v = w := by
  apply bytes64_inj
  apply List.ext_getElem
  · simp [length_bytes64]
  · intro i h1 h2
    have := h i (by simpa [length_bytes64] using h1)
    simpa [byteOf, repr64, List.getD_eq_getElem?_getD, h1, h2] using this

theorem byteOf_xor (v w : Word) (j : Nat) (h : j < 8) :
    byteOf .little (v ^^^ w) j = byteOf .little v j ^^^ byteOf .little w j := by
  apply BitVec.eq_of_getLsbD_eq
  intro i hi
  simp only [getLsbD_byteOf _ _ _ h, BitVec.getLsbD_xor, BitVec.getLsbD_and, hi, decide_true, Bool.true_and]
theorem byteOf_and (v w : Word) (j : Nat) (h : j < 8) :
    byteOf .little (v &&& w) j = byteOf .little v j &&& byteOf .little w j := by
  apply BitVec.eq_of_getLsbD_eq
  intro i hi
  simp only [getLsbD_byteOf _ _ _ h, BitVec.getLsbD_xor, BitVec.getLsbD_and, hi, decide_true, Bool.true_and]
theorem byteOf_or (v w : Word) (j : Nat) (h : j < 8) :
    byteOf .little (v ||| w) j = byteOf .little v j ||| byteOf .little w j := by
  apply BitVec.eq_of_getLsbD_eq
  intro i hi
  simp only [getLsbD_byteOf _ _ _ h, BitVec.getLsbD_or, hi, decide_true, Bool.true_and]
theorem byteOf_not (w : Word) (j : Nat) (h : j < 8) :
    byteOf .little (~~~w) j = ~~~(byteOf .little w j) := by
  apply BitVec.eq_of_getLsbD_eq
  intro i hi
  simp only [getLsbD_byteOf _ _ _ h, BitVec.getLsbD_not]
  simp [hi, show 8 * j + i < 64 by omega]

/-- `sliceBytes` on whole words. -/
def sliceWords (b0 b1 b2 b3 b4 : Word) : Word × Word × Word × Word × Word × Word :=
  let t0 := b1 ^^^ b2
  let t1 := b0 ^^^ b4
  let t2 := b3 ^^^ b4
  let b4 := b3 ||| ~~~b4
  let b4 := b4 ^^^ t0
  let b3 := b3 ^^^ b1
  let b3 := b3 ||| t0
  let b3 := b3 ^^^ t1
  let b2 := b2 ^^^ t1
  let b2 := b2 ||| b1
  let b2 := b2 ^^^ t2
  let b1 := b1 &&& ~~~t1
  let b1 := b1 ^^^ t2
  let b0 := b0 ||| t2
  (b0, b1, b2, b3, b4, b0 ^^^ t0)

theorem sliceBytes_eq (s : State) (j : Nat) (h : j < 8) :
    sliceBytes (byteOf .little s.x0 j) (byteOf .little s.x1 j) (byteOf .little s.x2 j) (byteOf .little s.x3 j)
      (byteOf .little s.x4 j) =
    let r := sliceWords s.x0 s.x1 s.x2 s.x3 s.x4
    (byteOf .little r.1 j, byteOf .little r.2.1 j, byteOf .little r.2.2.1 j, byteOf .little r.2.2.2.1 j,
      byteOf .little r.2.2.2.2.1 j, byteOf .little r.2.2.2.2.2 j) := by
  simp only [sliceBytes, sliceWords, byteOf_xor _ _ _ h, byteOf_and _ _ _ h, byteOf_or _ _ _ h, byteOf_not _ _ h]

/-- State of the loop over the byte positions when `k` positions are done. -/
def Sliced (s : State) (k : Nat) (q : State × Word) : Prop :=
  let r := sliceWords s.x0 s.x1 s.x2 s.x3 s.x4
  ∀ j < 8,
    byteOf .little q.1.x0 j = (if j < k then byteOf .little r.1 j else byteOf .little s.x0 j) ∧
    byteOf .little q.1.x1 j = (if j < k then byteOf .little r.2.1 j else byteOf .little s.x1 j) ∧
    byteOf .little q.1.x2 j = (if j < k then byteOf .little r.2.2.1 j else byteOf .little s.x2 j) ∧
    byteOf .little q.1.x3 j = (if j < k then byteOf .little r.2.2.2.1 j else byteOf .little s.x3 j) ∧
    byteOf .little q.1.x4 j = (if j < k then byteOf .little r.2.2.2.2.1 j else byteOf .little s.x4 j) ∧
    (j < k → byteOf .little q.2 j = byteOf .little r.2.2.2.2.2 j)

theorem Sliced.step {s : State} {k : Nat} {q : State × Word} (h : Sliced s k q) (hk : k < 8) :
    Sliced s (k + 1) (NONLINEAR_LAYER .little q k) := by
  intro j hj
  have hq := h j hj
  have hqk := h k hk
  simp only [if_neg (Nat.lt_irrefl k)] at hqk
  have e := sliceBytes_eq s k hk
  simp only [NONLINEAR_LAYER, hqk.1, hqk.2.1, hqk.2.2.1, hqk.2.2.2.1, hqk.2.2.2.2.1, e, byteOf_putByte _ _ _ hk hj]
  by_cases hjk : j = k
  · subst hjk
    simp
  · have h1 : (j < k + 1) = (j < k) := by simp; omega
    simp only [if_neg hjk, h1]
    exact hq

theorem run_slices {s : State} (n k : Nat) (hn : k + n ≤ 8) (q : State × Word) (h : Sliced s k q) (mem : Mem) :
    ∃ q', Sliced s (k + n) q' ∧
      run (forUp (fun i q => pure (NONLINEAR_LAYER .little q i)) n k q) mem = some (q', mem) := by
  induction n generalizing k q with
  | zero => exact ⟨q, h, rfl⟩
  | succ n ih =>
    obtain ⟨q', h1, h2⟩ := ih (k + 1) (by omega) _ (h.step (by omega))
    refine ⟨q', ?_, ?_⟩
    · rw [show k + (n + 1) = k + 1 + n by omega]; exact h1
    · rw [← h2]; rfl

theorem sliceWords_eq (s : State) :
    let r := sliceWords s.x0 s.x1 s.x2 s.x3 s.x4
    subst s = ⟨r.2.2.1, r.2.2.2.1, r.2.2.2.2.1, r.2.2.2.2.2, r.2.1⟩ := by
  rw [Ref.subst_eq]
  simp only [Ref.sboxWords, sliceWords]
  ext1
  all_goals
    apply BitVec.eq_of_getLsbD_eq
    intro i hi
    simp only [BitVec.getLsbD_xor, BitVec.getLsbD_and, BitVec.getLsbD_or, BitVec.getLsbD_not, hi, decide_true,
      Bool.true_and]
    generalize s.x0.getLsbD i = a0, s.x1.getLsbD i = a1, s.x2.getLsbD i = a2, s.x3.getLsbD i = a3,
      s.x4.getLsbD i = a4
    revert a0 a1 a2 a3 a4
    decide

theorem run_ROUND (s : State) (C : Byte) (mem : Mem) :
    run (ROUND .little s C) mem = some (round (C.setWidth 64) s, mem) := by
  have hs : ({ s with x2 := putByte .little s.x2 0 (byteOf .little s.x2 0 ^^^ C) } : State) =
      addConst (C.setWidth 64) s := by
    rw [putByte_little _ _ _ (by omega), ← BitVec.xor_assoc, BitVec.xor_self, BitVec.zero_xor]
    simp [at8, addConst]
  have hR : round (C.setWidth 64) s = diffuse (subst (addConst (C.setWidth 64) s)) := rfl
  unfold ROUND
  simp only [hs]
  rw [hR]
  generalize addConst (C.setWidth 64) s = a at *
  obtain ⟨q, hq, hr⟩ := run_slices 8 0 (by omega) (a, junk.x0) (s := a)
    (fun j _ => ⟨rfl, rfl, rfl, rfl, rfl, fun h => absurd h (by omega)⟩) mem
  rw [run_bind_of hr]
  have e0 := word_byte_ext (fun j hj => by simpa [hj] using (hq j hj).1)
  have e1 := word_byte_ext (fun j hj => by simpa [hj] using (hq j hj).2.1)
  have e2 := word_byte_ext (fun j hj => by simpa [hj] using (hq j hj).2.2.1)
  have e3 := word_byte_ext (fun j hj => by simpa [hj] using (hq j hj).2.2.2.1)
  have e4 := word_byte_ext (fun j hj => by simpa [hj] using (hq j hj).2.2.2.2.1)
  have e5 := word_byte_ext (fun j hj => (hq j hj).2.2.2.2.2 (by omega))
  show some (LINEAR_LAYER .little q.1 q.2, mem) = some (diffuse (subst a), mem)
  rw [sliceWords_eq]
  simp only [LINEAR_LAYER, diffuse, e1, e2, e3, e4, e5, ROR_eq 9 (by decide), ROR_eq 19 (by decide),
    ROR_eq 5 (by decide), ROR_eq 1 (by decide), ROR_eq 34 (by decide), ROR_eq 7 (by decide),
    ROR_eq 22 (by decide), ROR_eq 39 (by decide), ROR_eq 10 (by decide), Nat.reduceSub, Gen.lin2]
  rw [Gen.xor_right_comm (sliceWords a.x0 a.x1 a.x2 a.x3 a.x4).2.2.2.1]

/-- The values of the loop counter, converted to `uint8_t`, starting from `i` are `cs`. -/
def Follows : Int → List Byte → Prop
  | _, [] => False
  | i, [c] => BitVec.ofInt 8 i = c ∧ i + -0x0f = 0x3c
  | i, c :: c' :: cs => BitVec.ofInt 8 i = c ∧ i + -0x0f ≠ 0x3c ∧ Follows (i + -0x0f) (c' :: cs)

instance : (i : Int) → (cs : List Byte) → Decidable (Follows i cs)
  | _, [] => inferInstanceAs (Decidable False)
  | _, [_] => inferInstanceAs (Decidable (_ ∧ _))
  | i, _ :: c' :: cs =>
    have := instDecidableFollows (i + -0x0f) (c' :: cs)
    inferInstanceAs (Decidable (_ ∧ _ ∧ _))

theorem run_roundLoop {i : Int} {cs : List Byte} (h : Follows i cs) (f : Nat) (hf : cs.length ≤ f) (s : State)
    (mem : Mem) :
    run (roundStep .little (i, s) >>= loop f (fun q : Int × State => q.1 != 0x3c) (roundStep .little)) mem =
      some ((0x3c, cs.foldl (fun s c => round (c.setWidth 64) s) s), mem) := by
  induction cs generalizing i f s with
  | nil => exact absurd h (by simp [Follows])
  | cons c cs ih =>
    obtain ⟨f, rfl⟩ : ∃ g, f = g + 1 := ⟨f - 1, by simp at hf; omega⟩
    have hc : BitVec.ofInt 8 i = c := by
      cases cs with
      | nil => exact h.1
      | cons => exact h.1
    have hstep : run (roundStep .little (i, s)) mem = some ((i + -0x0f, round (c.setWidth 64) s), mem) := by
      simp only [roundStep, hc]
      rw [run_bind_of (run_ROUND s c mem)]
      rfl
    rw [run_bind_of hstep]
    cases cs with
    | nil =>
      have hd : run (loop (f + 1) (fun q : Int × State => q.1 != 0x3c) (roundStep .little)
          (i + -0x0f, round (c.setWidth 64) s)) mem = some ((i + -0x0f, round (c.setWidth 64) s), mem) :=
        run_loop_done (by simp only [h.2]; decide)
      rw [hd, h.2, List.foldl_cons, List.foldl_nil]
    | cons c' cs =>
      have hne : ((i + -0x0f) != (0x3c : Int)) = true := by simpa using h.2.1
      have := ih h.2.2 f (by simpa using hf) (round (c.setWidth 64) s)
      have hu : loop (f + 1) (fun q : Int × State => q.1 != 0x3c) (roundStep .little)
          (i + -0x0f, round (c.setWidth 64) s) =
          ifc ((i + -0x0f) != (0x3c : Int)) (roundStep .little (i + -0x0f, round (c.setWidth 64) s) >>=
            loop f (fun q : Int × State => q.1 != 0x3c) (roundStep .little))
            (pure (i + -0x0f, round (c.setWidth 64) s)) := rfl
      rw [hu, run_ifc, hne, if_pos rfl, this]
      simp only [List.foldl_cons]

theorem run_PROUNDS {nr : Nat} {cs : List Byte}
    (h : Follows (((3 + nr) <<< 4 ||| (12 - nr) : Nat) : Int) cs) (hl : cs.length ≤ 16) (s : State) (mem : Mem) :
    run (PROUNDS .little nr s) mem = some (cs.foldl (fun s c => round (c.setWidth 64) s) s, mem) := by
  have := run_roundLoop h 16 hl s mem
  unfold PROUNDS
  rw [← bind_assoc', run_bind_of this]
  rfl

theorem run_PROUNDS12 (s : State) (mem : Mem) : run (PROUNDS .little 12 s) mem = some (perm 12 s, mem) :=
  run_PROUNDS (cs := [0xf0, 0xe1, 0xd2, 0xc3, 0xb4, 0xa5, 0x96, 0x87, 0x78, 0x69, 0x5a, 0x4b]) (by decide)
    (by decide) s mem

theorem run_PROUNDS8 (s : State) (mem : Mem) : run (PROUNDS .little 8 s) mem = some (perm 8 s, mem) :=
  run_PROUNDS (cs := [0xb4, 0xa5, 0x96, 0x87, 0x78, 0x69, 0x5a, 0x4b]) (by decide) (by decide) s mem

theorem run_PROUNDS6 (s : State) (mem : Mem) : run (PROUNDS .little 6 s) mem = some (perm 6 s, mem) :=
  run_PROUNDS (cs := [0x96, 0x87, 0x78, 0x69, 0x5a, 0x4b]) (by decide) (by decide) s mem

/-- The permutations of a directory are those of the standard, on little-endian machines. -/
structure Perms.Ok (V : Perms) : Prop where
  p12 : ∀ s mem, run (V.P12 .little s) mem = some (perm 12 s, mem)
  p8 : ∀ s mem, run (V.P8 .little s) mem = some (perm 8 s, mem)

theorem perms_ok : perms.Ok := ⟨run_PROUNDS12, run_PROUNDS8⟩

end Ascon.Opt8
