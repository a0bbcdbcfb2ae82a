import Verif.Proof.MaskedNRound
import Verif.Proof.MaskedShares
/-!
# generate_shares and combine_shares (shares.c), for both values of `ASCON_EXTERN_BI`
-/

namespace Ascon.MaskedN

open Ascon.Spec Ascon.C
open Ascon.Gen hiding ROR32 ROR64
open Ascon.C.Prog (require ifc loop forUp loadB storeB loadN storeN store64 load64)
open Ascon.Masked

/-- Exclusive or of the (rotated) first `k` random shares of pair `j`. -/
def maskX (bi : Bool) (ρ : Nat → Word) (n j : Nat) : Nat → Word
  | 0 => 0
  | k + 1 => maskX bi ρ n j k ^^^ rotShare bi (k + 1) (ρ (j * (n - 1) + k))

/-- The 64-bit word shared between the rows `2j` and `2j+1` in column `c`, for the data words `W`. -/
def shareWord (bi : Bool) (ρ : Nat → Word) (n : Nat) (W : Nat → Word) (j c : Nat) : Word :=
  if c = 0 then maskX bi ρ n j (n - 1) ^^^ W j else ρ (j * (n - 1) + (c - 1))

/-- The contents of the share array. -/
def shareArr (bi : Bool) (ρ : Nat → Word) (n : Nat) (W : Nat → Word) (r c : Nat) : U32 :=
  halfOf r (shareWord bi ρ n W (r / 2) c)

/-- During the inner loop, before the iteration `d`. -/
def innerArr (bi : Bool) (ρ : Nat → Word) (n j d : Nat) (r c : Nat) : Option U32 :=
  if r < 2 * j then some (shareArr bi ρ n (fun _ => 0) r c)
  else if r / 2 = j then
    if c = 0 then some (halfOf r (maskX bi ρ n j (d - 1)))
    else if c < d then some (halfOf r (ρ (j * (n - 1) + (c - 1))))
    else none
  else none

theorem innerArr_lt {bi : Bool} {ρ : Nat → Word} {n j d r c : Nat} (h : r < 2 * j) :
    innerArr bi ρ n j d r c = some (shareArr bi ρ n (fun _ => 0) r c) := if_pos h

theorem innerArr_0 {bi : Bool} {ρ : Nat → Word} {n j d r : Nat} (h : r / 2 = j) :
    innerArr bi ρ n j d r 0 = some (halfOf r (maskX bi ρ n j (d - 1))) := by
  unfold innerArr; rw [if_neg (by omega), if_pos h, if_pos rfl]

theorem innerArr_pos {bi : Bool} {ρ : Nat → Word} {n j d r c : Nat} (h : r / 2 = j) (hc : 0 < c) (hcd : c < d) :
    innerArr bi ρ n j d r c = some (halfOf r (ρ (j * (n - 1) + (c - 1)))) := by
  unfold innerArr; rw [if_neg (by omega), if_pos h, if_neg (by omega), if_pos hcd]

theorem innerArr_none {bi : Bool} {ρ : Nat → Word} {n j d r c : Nat} (h : ¬ r < 2 * j) (h' : ¬ (r / 2 = j ∧ (c = 0 ∨ c < d))) :
    innerArr bi ρ n j d r c = none := by
  unfold innerArr
  rw [if_neg h]
  by_cases hr : r / 2 = j
  · rw [if_pos hr, if_neg (by omega), if_neg (by omega)]
  · rw [if_neg hr]

theorem run_genShare {bi : Bool} {ρ : Nat → Word} {mem0 mem : Mem} {s n R j d : Nat} (hj : 2 * j + 1 < R) (hd : 1 ≤ d) (hdn : d < n)
    (h : Arr mem0 mem s n R (innerArr bi ρ n j d)) :
    ∃ mem', run (genShare bi .little s n (2 * j) d (ρ (j * (n - 1) + (d - 1)))) mem = some ((), mem') ∧
      Arr mem0 mem' s n R (innerArr bi ρ n j (d + 1)) := by
  obtain ⟨m1, r1, h1⟩ := h.store (r := 2 * j + 0) (c := d) (by omega) hdn (lo (ρ (j * (n - 1) + (d - 1))))
  obtain ⟨m2, r2, h2⟩ := h1.store (r := 2 * j + 1) (c := d) hj hdn (hi (ρ (j * (n - 1) + (d - 1))))
  have l3 := h2.load (r := 2 * j + 0) (c := 0) (by omega) (by omega) (w := lo (maskX bi ρ n j (d - 1))) (by
    rw [upd2_ne (by omega), upd2_ne (by omega), innerArr_0 (by omega), Nat.add_zero, halfOf_even])
  obtain ⟨m4, r4, h4⟩ := h2.store (r := 2 * j + 0) (c := 0) (by omega) (by omega)
    (lo (maskX bi ρ n j (d - 1)) ^^^ lo (rotShare bi d (ρ (j * (n - 1) + (d - 1)))))
  have l5 := h4.load (r := 2 * j + 1) (c := 0) hj (by omega) (w := hi (maskX bi ρ n j (d - 1))) (by
    rw [upd2_ne (by omega), upd2_ne (by omega), upd2_ne (by omega), innerArr_0 (by omega), halfOf_odd])
  obtain ⟨m6, r6, h6⟩ := h4.store (r := 2 * j + 1) (c := 0) hj (by omega)
    (hi (maskX bi ρ n j (d - 1)) ^^^ hi (rotShare bi d (ρ (j * (n - 1) + (d - 1)))))
  refine ⟨m6, ?_, h6.mono ?_⟩
  · unfold genShare
    refine (run_bind_of r1).trans ?_
    refine (run_bind_of r2).trans ?_
    refine (run_bind_of l3).trans ?_
    refine (run_bind_of r4).trans ?_
    refine (run_bind_of l5).trans ?_
    exact r6
  · intro r c w hr hc hw
    have hm : maskX bi ρ n j (d + 1 - 1) = maskX bi ρ n j (d - 1) ^^^ rotShare bi d (ρ (j * (n - 1) + (d - 1))) := by
      obtain ⟨k, rfl⟩ : ∃ k, d = k + 1 := ⟨d - 1, by omega⟩
      rfl
    by_cases hlt : r < 2 * j
    · rw [innerArr_lt hlt] at hw
      rw [upd2_ne (by omega), upd2_ne (by omega), upd2_ne (by omega), upd2_ne (by omega), innerArr_lt hlt, hw]
    · by_cases hrj : r / 2 = j
      · by_cases hc0 : c = 0
        · subst hc0
          rw [innerArr_0 hrj, hm] at hw
          rcases row_cases hrj with rfl | rfl
          · rw [upd2_ne (by omega)]
            rw [halfOf_even, lo_xor] at hw
            rw [← hw]; exact upd2_eq
          · rw [halfOf_odd, hi_xor] at hw
            rw [← hw]; exact upd2_eq
        · by_cases hcd : c = d
          · subst hcd
            rw [innerArr_pos hrj (by omega) (by omega)] at hw
            rcases row_cases hrj with rfl | rfl
            · rw [upd2_ne (by omega), upd2_ne (by omega), upd2_ne (by omega), ← hw, halfOf_even]; exact upd2_eq
            · rw [upd2_ne (by omega), upd2_ne (by omega), ← hw, halfOf_odd]; exact upd2_eq
          · by_cases hcd' : c < d
            · rw [innerArr_pos hrj (by omega) (by omega)] at hw
              rw [upd2_ne (by omega), upd2_ne (by omega), upd2_ne (by omega), upd2_ne (by omega),
                innerArr_pos hrj (by omega) hcd', hw]
            · rw [innerArr_none hlt (by omega)] at hw; simp at hw
      · rw [innerArr_none hlt (by omega)] at hw; simp at hw

/-- Between the iterations of the outer loop. -/
def outerArr (bi : Bool) (ρ : Nat → Word) (n j : Nat) (r c : Nat) : Option U32 :=
  if r < 2 * j then some (shareArr bi ρ n (fun _ => 0) r c) else none

theorem run_genPair {bi : Bool} {ρ : Nat → Word} {mem0 mem : Mem} {s n R j : Nat} (hj : 2 * j + 1 < R) (hn : 1 ≤ n)
    (h : Arr mem0 mem s n R (outerArr bi ρ n j)) :
    ∃ mem', run (genPair bi .little ρ s n j) mem = some ((), mem') ∧ Arr mem0 mem' s n R (outerArr bi ρ n (j + 1)) := by
  obtain ⟨m1, r1, h1⟩ := h.store (r := 2 * j + 0) (c := 0) (by omega) (by omega) 0
  obtain ⟨m2, r2, h2⟩ := h1.store (r := 2 * j + 1) (c := 0) hj (by omega) 0
  have h3 : Arr mem0 m2 s n R (innerArr bi ρ n j 1) := h2.mono (by
    intro r c w hr hc hw
    by_cases hlt : r < 2 * j
    · rw [innerArr_lt hlt] at hw
      rw [upd2_ne (by omega), upd2_ne (by omega), ← hw]
      exact if_pos hlt
    · by_cases hrj : r / 2 = j
      · by_cases hc0 : c = 0
        · subst hc0
          rw [innerArr_0 hrj] at hw
          have : w = 0 := by
            have hw' := Option.some.inj hw
            rw [← hw']; unfold halfOf maskX lo hi; split <;> simp
          subst this
          rcases row_cases hrj with rfl | rfl
          · rw [upd2_ne (by omega)]; exact upd2_eq
          · exact upd2_eq
        · rw [innerArr_none hlt (by omega)] at hw; simp at hw
      · rw [innerArr_none hlt (by omega)] at hw; simp at hw)
  obtain ⟨u, m4, r4, h4⟩ := run_forUp_inv
    (body := fun d (_ : Unit) => genShare bi .little s n (2 * j) d (ρ (j * (n - 1) + (d - 1))))
    (fun d _ mem => Arr mem0 mem s n R (innerArr bi ρ n j d)) (n - 1) 1
    (fun d _ mem hd1 hd2 hI => by
      obtain ⟨m', r', h'⟩ := run_genShare hj hd1 (by omega) hI
      exact ⟨(), m', r', h'⟩) (s := ()) h3
  refine ⟨m4, ?_, h4.mono ?_⟩
  · unfold genPair
    simp only []
    rw [run_bind_of r1, run_bind_of r2]
    exact r4
  · intro r c w hr hc hw
    rw [show 1 + (n - 1) = n by omega]
    unfold outerArr at hw
    by_cases hlt : r < 2 * j
    · rw [if_pos (by omega)] at hw
      rw [innerArr_lt hlt, hw]
    · by_cases hlt' : r < 2 * (j + 1)
      · rw [if_pos hlt'] at hw
        have hrj : r / 2 = j := by omega
        rw [← hw]
        unfold shareArr shareWord
        rw [hrj]
        by_cases hc0 : c = 0
        · subst hc0
          rw [innerArr_0 hrj, if_pos rfl]
          simp
        · rw [innerArr_pos hrj (by omega) hc, if_neg hc0]
      · rw [if_neg hlt'] at hw; simp at hw

theorem run_xorData {bi : Bool} {ρ : Nat → Word} {W : Nat → Word} {mem0 mem : Mem} {s n R k : Nat} (hk : 2 * k + 1 < R) (hn : 1 ≤ n)
    (h : Arr mem0 mem s n R (fun r c => some (shareArr bi ρ n (partW W k) r c))) :
    ∃ mem', run (xorData .little s n k (W k)) mem = some ((), mem') ∧
      Arr mem0 mem' s n R (fun r c => some (shareArr bi ρ n (partW W (k + 1)) r c)) := by
  have hp : partW W k k = 0 := by simp [partW]
  have hx : ∀ y : Word, y ^^^ 0 = y := fun y => BitVec.xor_zero
  have l1 := h.load (r := 2 * k + 0) (c := 0) (by omega) (by omega) (w := lo (maskX bi ρ n k (n - 1))) (by
    simp only [shareArr, shareWord, if_true, Nat.add_zero, show 2 * k / 2 = k by omega, hp, hx]
    rw [halfOf_even])
  obtain ⟨m2, r2, h2⟩ := h.store (r := 2 * k + 0) (c := 0) (by omega) (by omega)
    (lo (maskX bi ρ n k (n - 1)) ^^^ lo (W k))
  have l3 := h2.load (r := 2 * k + 1) (c := 0) hk (by omega) (w := hi (maskX bi ρ n k (n - 1))) (by
    rw [upd2_ne (by omega)]
    simp only [shareArr, shareWord, if_true, show (2 * k + 1) / 2 = k by omega, hp, hx]
    rw [halfOf_odd])
  obtain ⟨m4, r4, h4⟩ := h2.store (r := 2 * k + 1) (c := 0) hk (by omega)
    (hi (maskX bi ρ n k (n - 1)) ^^^ hi (W k))
  refine ⟨m4, ?_, h4.mono ?_⟩
  · unfold xorData
    refine (run_bind_of l1).trans ?_
    refine (run_bind_of r2).trans ?_
    refine (run_bind_of l3).trans ?_
    exact r4
  · intro r c w hr hc hw
    rw [← hw]
    by_cases hrk : r / 2 = k ∧ c = 0
    · obtain ⟨hrk, rfl⟩ := hrk
      have hpk : partW W (k + 1) k = W k := by simp [partW]
      simp only [shareArr, shareWord, hrk, if_true, hpk]
      rcases row_cases hrk with rfl | rfl
      · rw [upd2_ne (by omega), halfOf_even, lo_xor]; exact upd2_eq
      · rw [halfOf_odd, hi_xor]; exact upd2_eq
    · rw [upd2_ne (by omega), upd2_ne (by omega)]
      simp only [shareArr, shareWord]
      by_cases hc0 : c = 0
      · simp only [hc0, if_true, partW]
        have : r / 2 ≠ k := fun h => hrk ⟨h, hc0⟩
        simp only [show (r / 2 < k + 1) = (r / 2 < k) from propext (by omega)]
      · simp only [if_neg hc0]


/-! ### generate_shares -/

theorem run_generate_shares {bi : Bool} {ρ : Nat → Word} {mem : Mem} {s n data : Nat} {D : List Byte} (hn : 1 ≤ n)
    (hw : mem.Writable s (4 * (NUM_WORDS D.length * n))) (hD : mem.Holds data D)
    (hd : Disjoint data D.length s (4 * (NUM_WORDS D.length * n))) :
    ∃ mem', run (generate_shares bi .little ρ s n data D.length) mem = some ((), mem') ∧
      Arr mem mem' s n (NUM_WORDS D.length) (fun r c => some (shareArr bi ρ n (fun j => toExt bi (Masked.wordAt D j)) r c)) := by
  have hR : NUM_WORDS D.length = 2 * ((D.length + 7) / 8) := by unfold NUM_WORDS; omega
  generalize hRR : NUM_WORDS D.length = R at *
  have h0 : Arr mem mem s n R (outerArr bi ρ n 0) := ⟨fun _ _ => rfl, hw, fun r c w _ _ h => by
    unfold outerArr at h; rw [if_neg (by omega)] at h; simp at h⟩
  obtain ⟨u, m1, r1, h1⟩ := run_forUp_inv (body := fun j (_ : Unit) => genPair bi .little ρ s n j)
    (fun j _ mem' => Arr mem mem' s n R (outerArr bi ρ n j)) (R / 2) 0
    (fun j _ mem' _ hj hI => by
      obtain ⟨m', r', h'⟩ := run_genPair (by omega) hn hI
      exact ⟨(), m', r', h'⟩) (s := ()) h0
  have h1' : Arr mem m1 s n R (fun r c => some (shareArr bi ρ n (partW (fun j => toExt bi (Masked.wordAt D j)) 0) r c)) := h1.mono (by
    intro r c w hr hc hw'
    rw [← hw']
    unfold outerArr
    rw [if_pos (by omega)]
    rfl)
  obtain ⟨u2, m2, r2, h2⟩ := run_forUp_inv (body := fun i (_ : Unit) => do
      let x ← load64 .little (data + i * 8)
      let x := U64LE .little x
      xorData .little s n i (toExt bi x))
    (fun i _ mem' => Arr mem mem' s n R (fun r c => some (shareArr bi ρ n (partW (fun j => toExt bi (Masked.wordAt D j)) i) r c))) (D.length / 8) 0
    (fun i _ mem' _ hi hI => by
      obtain ⟨m', r', h'⟩ := run_xorData (W := fun j => toExt bi (Masked.wordAt D j)) (k := i) (by omega) hn hI
      refine ⟨(), m', ?_, h'⟩
      have hl := run_load64_bytes (mem := mem') (p := data + 8 * i) (bs := D.drop (8 * i))
        ((hI.holds hD hd).drop _ (by omega)) (by rw [List.length_drop]; omega)
      rw [Nat.mul_comm] at hl
      refine (run_bind_of hl).trans ?_
      rw [Nat.mul_comm]
      exact r') (s := ()) h1'
  rw [Nat.zero_add] at h2
  unfold generate_shares
  rw [hRR]
  by_cases htail : D.length / 8 * 8 ≠ D.length
  · obtain ⟨u3, m3, r3, h3⟩ := run_forUp_inv (body := fun i (x : Word) => (do
        let b ← loadB (data + i)
        pure (x ^^^ (b.setWidth 64) <<< ((i % 8) * 8)) : Prog Word))
      (fun i x mem' => mem' = m2 ∧ x = le64 ((D.drop (8 * (D.length / 8))).take (i - 8 * (D.length / 8))))
      (D.length - D.length / 8 * 8) (D.length / 8 * 8)
      (fun i x mem' hi1 hi2 hI => by
        obtain ⟨rfl, rfl⟩ := hI
        have hh := h2.holds hD hd i (by omega)
        refine ⟨le64 ((D.drop (8 * (D.length / 8))).take (i - 8 * (D.length / 8))) ^^^
          ((D[i]'(by omega)).setWidth 64) <<< ((i % 8) * 8), mem', ?_, rfl, ?_⟩
        · exact (run_bind_of (show run (loadB (data + i)) mem' = some (D[i]'(by omega), mem') by
            simp only [loadB, run, hh])).trans rfl
        · rw [show i + 1 - 8 * (D.length / 8) = (i - 8 * (D.length / 8)) + 1 by omega,
            List.take_succ_eq_append_getElem (by simp; omega),
            le64_snoc_xor _ _ (by simp; omega)]
          congr 2
          · simp only [List.getElem_drop]
            congr 2; omega
          · simp only [List.length_take, List.length_drop]; omega)
      (s := (0 : Word)) ⟨rfl, by rw [show D.length / 8 * 8 - 8 * (D.length / 8) = 0 by omega]; simp [le64]⟩
    obtain ⟨rfl, h3⟩ := h3
    have hx : u3 = Masked.wordAt D (D.length / 8) := by
      rw [h3]; unfold Masked.wordAt
      rw [List.take_of_length_le]
      simp; omega
    obtain ⟨m4, r4, h4⟩ := run_xorData (W := fun j => toExt bi (Masked.wordAt D j)) (k := D.length / 8) (by omega) hn h2
    refine ⟨m4, ?_, h4.mono ?_⟩
    · rw [run_bind_of r1]
      rw [run_bind_of r2]
      simp only [ifc, run, decide_eq_true htail, if_true]
      rw [run_bind_of r3, hx]
      exact r4
    · intro r c w hr hc hw'
      rw [← hw']
      have : r / 2 < D.length / 8 + 1 := by omega
      simp only [shareArr, shareWord, partW, if_pos this]
  · refine ⟨m2, ?_, h2.mono ?_⟩
    · rw [run_bind_of r1]
      rw [run_bind_of r2]
      simp only [ifc, run, decide_eq_false htail]
      rfl
    · intro r c w hr hc hw'
      rw [← hw']
      have : r / 2 < D.length / 8 := by omega
      simp only [shareArr, shareWord, partW, if_pos this]

/-! ### combine_shares -/

/-- What `combine_shares` computes from the shares of one word. -/
def CW (bi : Bool) : Nat → (Nat → Word) → Word
  | 0, _ => 0
  | d + 1, f => CW bi d f ^^^ rotShare bi d (f d)

/-- A word shared in memory: `f d` is share `d`, its two halves are `4 * n` bytes apart. -/
def HoldsShares (mem : Mem) (n p : Nat) (f : Nat → Word) : Prop :=
  ∀ d, d < n → mem.Holds (p + 4 * d) (repr32 .little (lo (f d))) ∧ mem.Holds (p + 4 * n + 4 * d) (repr32 .little (hi (f d)))

theorem run_combPair {bi : Bool} {mem : Mem} {s n j : Nat} {f : Nat → Word} (h : HoldsShares mem n (s + 8 * (n * j)) f) :
    run (combPair bi .little s n j) mem = some (CW bi n f, mem) := by
  have a0 : ∀ d, idx s ((2 * j + 0) * n + d) = s + 8 * (n * j) + 4 * d := fun d => by
    unfold idx; rw [Nat.add_zero, Nat.mul_assoc, Nat.mul_comm j n]; omega
  have a1 : ∀ d, idx s ((2 * j + 1) * n + d) = s + 8 * (n * j) + 4 * n + 4 * d := fun d => by
    unfold idx; rw [Nat.add_mul, Nat.mul_assoc, Nat.mul_comm j n]; omega
  obtain ⟨x, m, hr, hI⟩ := run_forUp_inv (body := fun d (x : Word) => (do
      let rnd0 ← load32 .little (idx s ((2 * j + 0) * n + d))
      let rnd1 ← load32 .little (idx s ((2 * j + 1) * n + d))
      pure (x ^^^ rotShare bi d (rnd1.setWidth 64 <<< 32 ||| rnd0.setWidth 64)) : Prog Word))
    (fun d x m => m = mem ∧ x = CW bi d f) n 0
    (fun d x m _ hd hI => by
      obtain ⟨rfl, rfl⟩ := hI
      have hh := h d (by omega)
      rw [← a0, ← a1] at hh
      refine ⟨_, m, (run_bind_of (run_load32 hh.1)).trans ((run_bind_of (run_load32 hh.2)).trans rfl), rfl, ?_⟩
      rw [hilo]; rfl)
    (s := (0 : Word)) ⟨rfl, rfl⟩
  obtain ⟨rfl, hx⟩ := hI
  unfold combPair
  rw [hr, hx, Nat.zero_add]

theorem rotShare_0 (bi : Bool) (x : Word) : rotShare bi 0 x = x := by
  unfold rotShare
  cases bi
  · show ROR64 x 0 = x
    exact ROR64_0 x
  · show (ROR32 (hi x) 0).setWidth 64 <<< 32 ||| (ROR32 (lo x) 0).setWidth 64 = x
    rw [ROR32_by0, ROR32_by0, hilo]

/-- The shares made by `generate_shares` combine to the shared word. -/
theorem CW_shareWord (bi : Bool) (ρ : Nat → Word) (n : Nat) (W : Nat → Word) (j : Nat) (hn : 1 ≤ n) :
    CW bi n (shareWord bi ρ n W j) = W j := by
  have : ∀ d, CW bi (d + 1) (shareWord bi ρ n W j) = maskX bi ρ n j (n - 1) ^^^ W j ^^^ maskX bi ρ n j d := by
    intro d
    induction d with
    | zero =>
      show (0 : Word) ^^^ rotShare bi 0 (shareWord bi ρ n W j 0) = _
      rw [rotShare_0]
      simp [shareWord, maskX]
    | succ d ih =>
      show CW bi (d + 1) (shareWord bi ρ n W j) ^^^ rotShare bi (d + 1) (shareWord bi ρ n W j (d + 1)) = _
      rw [ih]
      simp only [shareWord, if_neg (show ¬ d + 1 = 0 by omega), Nat.add_sub_cancel, maskX]
      rw [BitVec.xor_assoc]
  obtain ⟨k, rfl⟩ : ∃ k, n = k + 1 := ⟨n - 1, by omega⟩
  rw [this, Nat.add_sub_cancel, BitVec.xor_comm, ← BitVec.xor_assoc, BitVec.xor_self, BitVec.zero_xor]

theorem run_combine_shares {bi : Bool} {W Y : Nat → Word} (hY : ∀ j, fromExt bi (Y j) = W j) {mem : Mem} {s n data : Nat} {D : List Byte}
    (hw : mem.Writable data D.length)
    (hW : ∀ mem', (∀ a, (a < data ∨ data + D.length ≤ a) → mem' a = mem a) → ∀ j, 8 * j < D.length →
      run (combPair bi .little s n j) mem' = some (Y j, mem'))
    (hD : ∀ j, 8 * j < D.length → (bytes64 (W j)).take (D.length - 8 * j) = (D.drop (8 * j)).take 8) :
    run (combine_shares bi .little data D.length s n) mem = some ((), mem.writes data D) := by
  have hout : ∀ (xs : List Byte), xs.length ≤ D.length →
      ∀ a, (a < data ∨ data + D.length ≤ a) → mem.writes data xs a = mem a := fun xs hx a ha => writes_out (by omega)
  obtain ⟨u1, m1, r1, h1⟩ := run_forUp_inv (body := fun i (_ : Unit) => do
      let x ← combPair bi .little s n i
      let x := U64LE .little (fromExt bi x)
      store64 .little (data + i * 8) x)
    (fun i _ mem' => mem' = mem.writes data (D.take (8 * i))) (D.length / 8) 0
    (fun i _ mem' _ hi hI => by
      subst hI
      refine ⟨(), mem.writes data (D.take (8 * (i + 1))), ?_, rfl⟩
      refine (run_bind_of (hW _ (hout _ (by simp; omega)) i (by omega))).trans ?_
      rw [hY]
      have e : bytes64 (W i) = (D.drop (8 * i)).take 8 := by
        rw [← hD i (by omega), List.take_of_length_le (by rw [length_bytes64]; omega)]
      refine (run_storeN (show (mem.writes data (D.take (8 * i))).Writable (data + i * 8) (bytes64 (W i)).length from by
        rw [length_bytes64]; exact (hw.mono (by omega) (by omega)).writes)).trans ?_
      rw [e, show 8 * (i + 1) = 8 * i + 8 by omega, List.take_add, writes_append, List.length_take,
        Nat.min_eq_left (by omega), Nat.mul_comm i 8])
    (s := ()) (mem := mem) (by simp [writes_nil])
  rw [Nat.zero_add] at h1
  subst h1
  unfold combine_shares
  rw [run_bind_of r1]
  by_cases htail : D.length / 8 * 8 ≠ D.length
  · simp only [ifc, run, decide_eq_true htail, if_true]
    rw [run_bind_of (hW _ (hout _ (by simp; omega)) (D.length / 8) (by omega)), hY]
    have e := hD (D.length / 8) (by omega)
    obtain ⟨u2, m2, r2, h2⟩ := run_forUp_inv
      (body := fun i (_ : Unit) => storeB (data + i) ((U64LE .little (W (D.length / 8)) >>> ((i % 8) * 8)).setWidth 8))
      (fun i _ mem' => mem' = mem.writes data (D.take i)) (D.length - D.length / 8 * 8) (D.length / 8 * 8)
      (fun i _ mem' hi1 hi2 hI => by
        subst hI
        refine ⟨(), mem.writes data (D.take (i + 1)), ?_, rfl⟩
        have hwr : ((mem.writes data (D.take i)) (data + i)).rw = true := hw.writes i (by omega)
        have hv : (U64LE .little (W (D.length / 8)) >>> ((i % 8) * 8)).setWidth 8 = D[i]'(by omega) := by
          show (W (D.length / 8) >>> ((i % 8) * 8)).setWidth 8 = _
          have e2 : ((bytes64 (W (D.length / 8))).take (D.length - 8 * (D.length / 8)))[i % 8]'(by
            rw [List.length_take, length_bytes64]; omega) =
            ((D.drop (8 * (D.length / 8))).take 8)[i % 8]'(by rw [List.length_take, List.length_drop]; omega) := by
            simp only [e]
          rw [List.getElem_take, Masked.getElem_bytes64, List.getElem_take, List.getElem_drop] at e2
          rw [Nat.mul_comm, e2]
          congr 1; omega
        rw [hv, List.take_succ_eq_append_getElem (by omega), writes_append, List.length_take,
          Nat.min_eq_left (by omega)]
        simp only [storeB, run]
        all_goals (split <;> simp_all))
      (s := ()) (by rw [Nat.mul_comm])
    rw [r2, h2]
    congr 3
    rw [show D.length / 8 * 8 + (D.length - D.length / 8 * 8) = D.length by omega, List.take_length]
  · simp only [ifc, run, decide_eq_false htail]
    show some ((), _) = _
    rw [List.take_of_length_le (by omega)]

end Ascon.MaskedN
