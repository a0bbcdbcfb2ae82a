import Verif.Proof.MaskedRound
import Verif.Proof.Loops
/-!
# generate_shares and combine_shares (shares.c)
-/

namespace Ascon.Masked

open Ascon.Spec Ascon.C Ascon.Gen
open Ascon.C.Prog (require ifc loop forUp loadB storeB loadN storeN store64 load64)

/-! ### 32-bit objects -/

@[simp] theorem length_repr32 (e : Endian) (w : U32) : (repr32 e w).length = 4 := by
  cases e <;> simp [repr32]

theorem le32_4 (a b c d : Byte) : le32 [a, b, c, d] =
    a.setWidth 32 ||| (b.setWidth 32 ||| (c.setWidth 32 ||| (d.setWidth 32 ||| 0 <<< 8) <<< 8) <<< 8) <<< 8 := rfl

theorem le32_repr (w : U32) : le32 (repr32 .little w) = w := by
  show le32 [(w >>> 0).setWidth 8, (w >>> 8).setWidth 8, (w >>> 16).setWidth 8, (w >>> 24).setWidth 8] = w
  rw [le32_4]
  apply BitVec.eq_of_getLsbD_eq; intro i hi
  simp only [BitVec.getLsbD_or, BitVec.getLsbD_setWidth, BitVec.getLsbD_shiftLeft, BitVec.getLsbD_ushiftRight, hi,
    decide_true, Bool.true_and]
  have : i < 8 ∨ (8 ≤ i ∧ i < 16) ∨ (16 ≤ i ∧ i < 24) ∨ 24 ≤ i := by omega
  rcases this with h | h | h | h
  · simp [h]
  · simp [show ¬ i < 8 by omega, show i - 8 < 8 by omega, show i - 8 < 32 by omega, show 8 + (i - 8) = i by omega]
  · simp [show ¬ i < 8 by omega, show ¬ i - 8 < 8 by omega, show i - 8 < 32 by omega, show i - 8 - 8 < 8 by omega,
      show i - 8 - 8 < 32 by omega, show 16 + (i - 8 - 8) = i by omega]
  · simp [show ¬ i < 8 by omega, show ¬ i - 8 < 8 by omega, show i - 8 < 32 by omega, show ¬ i - 8 - 8 < 8 by omega,
      show i - 8 - 8 < 32 by omega, show i - 8 - 8 - 8 < 8 by omega, show i - 8 - 8 - 8 < 32 by omega,
      show 24 + (i - 8 - 8 - 8) = i by omega]

theorem value32_repr32 (e : Endian) (w : U32) : value32 e (repr32 e w) = w := by
  cases e
  · exact le32_repr w
  · show le32 ((repr32 .little w).reverse.reverse) = w
    rw [List.reverse_reverse, le32_repr]

theorem run_load32 {e : Endian} {mem : Mem} {p : Nat} {w : U32} (h : mem.Holds p (repr32 e w)) :
    run (load32 e p) mem = some (w, mem) := by
  unfold load32
  rw [run_bind_of (run_loadN' h (by simp)), value32_repr32]; rfl

theorem run_store32 {e : Endian} {mem : Mem} {p : Nat} {w : U32} (h : mem.Writable p 4) :
    run (store32 e p w) mem = some ((), mem.writes p (repr32 e w)) := by
  unfold store32
  rw [run_storeN (by simpa using h)]

/-- Low and high half of a 64-bit word. -/
def lo (x : Word) : U32 := x.setWidth 32
def hi (x : Word) : U32 := (x >>> 32).setWidth 32

theorem lo_xor (x y : Word) : lo (x ^^^ y) = lo x ^^^ lo y := by simp [lo]
theorem hi_xor (x y : Word) : hi (x ^^^ y) = hi x ^^^ hi y := by simp [hi, BitVec.ushiftRight_xor_distrib]

theorem hilo (x : Word) : (hi x).setWidth 64 <<< 32 ||| (lo x).setWidth 64 = x := pk_unpk x

theorem repr64_split (x : Word) : bytes64 x = repr32 .little (lo x) ++ repr32 .little (hi x) := by
  simp only [bytes64, repr32, lo, hi, List.range, List.range.loop, List.map, List.cons_append, List.nil_append]
  have h : ∀ k : Nat, k ≤ 24 → ((x.setWidth 32) >>> k).setWidth 8 = (x >>> k).setWidth 8 := by
    intro k hk
    apply BitVec.eq_of_getLsbD_eq; intro i hi
    simp [hi, show k + i < 32 by omega]
  have h' : ∀ k : Nat, k ≤ 24 → ((x >>> 32).setWidth 32 >>> k).setWidth 8 = (x >>> (32 + k)).setWidth 8 := by
    intro k hk
    apply BitVec.eq_of_getLsbD_eq; intro i hi
    simp [hi, show k + i < 32 by omega, Nat.add_assoc]
  rw [h _ (by omega), h _ (by omega), h _ (by omega), h _ (by omega), h' _ (by omega), h' _ (by omega),
    h' _ (by omega), h' _ (by omega)]

/-! ### Loops with an invariant -/

theorem run_forUp_inv {σ : Type} {body : Nat → σ → Prog σ} (I : Nat → σ → Mem → Prop) (count start : Nat)
    (hstep : ∀ i s mem, start ≤ i → i < start + count → I i s mem →
      ∃ s' mem', run (body i s) mem = some (s', mem') ∧ I (i + 1) s' mem')
    {s : σ} {mem : Mem} (h : I start s mem) :
    ∃ s' mem', run (forUp body count start s) mem = some (s', mem') ∧ I (start + count) s' mem' := by
  induction count generalizing start s mem with
  | zero => exact ⟨s, mem, rfl, h⟩
  | succ n ih =>
    obtain ⟨s', mem', hr, hI⟩ := hstep start s mem (by omega) (by omega) h
    obtain ⟨s'', mem'', hr', hI'⟩ := ih (start + 1)
      (fun i s mem h1 h2 => hstep i s mem (by omega) (by omega)) hI
    refine ⟨s'', mem'', ?_, ?_⟩
    · simp only [forUp, run]
      rw [run_bind_of hr]; exact hr'
    · rw [show start + (n + 1) = start + 1 + n by omega]; exact hI'

/-! ### Two-dimensional arrays of 32-bit words -/

/-- `mem` differs from `mem0` only in the array of `R` rows of `n` words at `s`, which is accessible and holds
the known entries `f`. -/
structure Arr (mem0 mem : Mem) (s n R : Nat) (f : Nat → Nat → Option U32) : Prop where
  out : ∀ a, (a < s ∨ s + 4 * (R * n) ≤ a) → mem a = mem0 a
  wr : mem.Writable s (4 * (R * n))
  val : ∀ r c w, r < R → c < n → f r c = some w → mem.Holds (idx s (r * n + c)) (repr32 .little w)

/-- Set one entry. -/
def upd2 (f : Nat → Nat → Option U32) (r c : Nat) (v : U32) : Nat → Nat → Option U32 :=
  fun r' c' => if r' = r ∧ c' = c then some v else f r' c'

theorem upd2_ne {f : Nat → Nat → Option U32} {r c r' c' : Nat} {v : U32} (h : ¬ (r' = r ∧ c' = c)) :
    upd2 f r c v r' c' = f r' c' := if_neg h

theorem upd2_eq {f : Nat → Nat → Option U32} {r c : Nat} {v : U32} : upd2 f r c v r c = some v := if_pos ⟨rfl, rfl⟩

theorem index_lt {r c R n : Nat} (hr : r < R) (hc : c < n) : r * n + c < R * n := by
  have : (r + 1) * n ≤ R * n := Nat.mul_le_mul_right n hr
  rw [Nat.add_mul, Nat.one_mul] at this
  omega

theorem index_inj {r c r' c' n : Nat} (hc : c < n) (hc' : c' < n) (h : r * n + c = r' * n + c') : r = r' ∧ c = c' := by
  have h1 : (r * n + c) / n = r := by
    rw [Nat.mul_comm, Nat.mul_add_div (by omega), Nat.div_eq_of_lt hc, Nat.add_zero]
  have h2 : (r' * n + c') / n = r' := by
    rw [Nat.mul_comm, Nat.mul_add_div (by omega), Nat.div_eq_of_lt hc', Nat.add_zero]
  have h3 : r = r' := by rw [← h1, ← h2, h]
  subst h3
  exact ⟨rfl, by omega⟩

theorem Arr.store {mem0 mem : Mem} {s n R : Nat} {f : Nat → Nat → Option U32} (h : Arr mem0 mem s n R f)
    {r c : Nat} (hr : r < R) (hc : c < n) (v : U32) :
    ∃ mem', run (store32 .little (idx s (r * n + c)) v) mem = some ((), mem') ∧
      Arr mem0 mem' s n R (upd2 f r c v) := by
  have hlt := index_lt hr hc
  have hw : mem.Writable (idx s (r * n + c)) 4 := h.wr.mono (by unfold idx; omega) (by unfold idx; omega)
  refine ⟨_, run_store32 hw, ?_, h.wr.writes, ?_⟩
  · intro a ha
    rw [writes_out (by rw [length_repr32]; unfold idx; omega)]
    exact h.out a ha
  · intro r' c' w hr' hc' hw'
    unfold upd2 at hw'
    split at hw'
    · rename_i heq
      obtain ⟨rfl, rfl⟩ := heq
      obtain rfl : v = w := by simpa using hw'
      exact holds_writes_self _ _ _
    · rename_i hne
      apply (h.val r' c' w hr' hc' hw').writes_disjoint
      have : r * n + c ≠ r' * n + c' := fun heq => by
        obtain ⟨h1, h2⟩ := index_inj hc hc' heq
        exact hne ⟨h1.symm, h2.symm⟩
      unfold Disjoint idx
      simp only [length_repr32]
      omega

theorem Arr.load {mem0 mem : Mem} {s n R : Nat} {f : Nat → Nat → Option U32} (h : Arr mem0 mem s n R f)
    {r c : Nat} (hr : r < R) (hc : c < n) {w : U32} (hw : f r c = some w) :
    run (load32 .little (idx s (r * n + c))) mem = some (w, mem) := run_load32 (h.val r c w hr hc hw)

theorem Arr.mono {mem0 mem : Mem} {s n R : Nat} {f g : Nat → Nat → Option U32} (h : Arr mem0 mem s n R f)
    (hfg : ∀ r c w, r < R → c < n → g r c = some w → f r c = some w) : Arr mem0 mem s n R g :=
  ⟨h.out, h.wr, fun r c w hr hc hw => h.val r c w hr hc (hfg r c w hr hc hw)⟩

/-- Half `r % 2` of a 64-bit word. -/
def halfOf (r : Nat) (x : Word) : U32 := if r % 2 = 0 then lo x else hi x

/-- Exclusive or of the (rotated) first `k` random shares of pair `j`. -/
def maskX (ρ : Nat → Word) (n j : Nat) : Nat → Word
  | 0 => 0
  | k + 1 => maskX ρ n j k ^^^ ROR64 (ρ (j * (n - 1) + k)) (ROT (2 * ((k + 1 : Nat) : Int)))

/-- Word `j` of a byte string, zero padded. -/
def wordAt (D : List Byte) (j : Nat) : Word := le64 (D.drop (8 * j))

/-- The 64-bit word shared between the rows `2j` and `2j+1` in column `c`, for the data words `W`. -/
def shareWord (ρ : Nat → Word) (n : Nat) (W : Nat → Word) (j c : Nat) : Word :=
  if c = 0 then maskX ρ n j (n - 1) ^^^ W j else ρ (j * (n - 1) + (c - 1))

/-- The contents of the share array. -/
def shareArr (ρ : Nat → Word) (n : Nat) (W : Nat → Word) (r c : Nat) : U32 :=
  halfOf r (shareWord ρ n W (r / 2) c)

/-- During the inner loop, before the iteration `d`. -/
def innerArr (ρ : Nat → Word) (n j d : Nat) (r c : Nat) : Option U32 :=
  if r < 2 * j then some (shareArr ρ n (fun _ => 0) r c)
  else if r / 2 = j then
    if c = 0 then some (halfOf r (maskX ρ n j (d - 1)))
    else if c < d then some (halfOf r (ρ (j * (n - 1) + (c - 1))))
    else none
  else none

theorem halfOf_even (j : Nat) (x : Word) : halfOf (2 * j) x = lo x := by simp [halfOf]
theorem halfOf_odd (j : Nat) (x : Word) : halfOf (2 * j + 1) x = hi x := by
  simp [halfOf, show (2 * j + 1) % 2 = 1 by omega]

theorem row_cases {r j : Nat} (h : r / 2 = j) : r = 2 * j ∨ r = 2 * j + 1 := by omega

theorem innerArr_lt {ρ : Nat → Word} {n j d r c : Nat} (h : r < 2 * j) :
    innerArr ρ n j d r c = some (shareArr ρ n (fun _ => 0) r c) := if_pos h

theorem innerArr_0 {ρ : Nat → Word} {n j d r : Nat} (h : r / 2 = j) :
    innerArr ρ n j d r 0 = some (halfOf r (maskX ρ n j (d - 1))) := by
  unfold innerArr; rw [if_neg (by omega), if_pos h, if_pos rfl]

theorem innerArr_pos {ρ : Nat → Word} {n j d r c : Nat} (h : r / 2 = j) (hc : 0 < c) (hcd : c < d) :
    innerArr ρ n j d r c = some (halfOf r (ρ (j * (n - 1) + (c - 1)))) := by
  unfold innerArr; rw [if_neg (by omega), if_pos h, if_neg (by omega), if_pos hcd]

theorem innerArr_none {ρ : Nat → Word} {n j d r c : Nat} (h : ¬ r < 2 * j) (h' : ¬ (r / 2 = j ∧ (c = 0 ∨ c < d))) :
    innerArr ρ n j d r c = none := by
  unfold innerArr
  rw [if_neg h]
  by_cases hr : r / 2 = j
  · rw [if_pos hr, if_neg (by omega), if_neg (by omega)]
  · rw [if_neg hr]

theorem run_genShare {ρ : Nat → Word} {mem0 mem : Mem} {s n R j d : Nat} (hj : 2 * j + 1 < R) (hd : 1 ≤ d) (hdn : d < n)
    (h : Arr mem0 mem s n R (innerArr ρ n j d)) :
    ∃ mem', run (genShare .little s n (2 * j) d (ρ (j * (n - 1) + (d - 1)))) mem = some ((), mem') ∧
      Arr mem0 mem' s n R (innerArr ρ n j (d + 1)) := by
  obtain ⟨m1, r1, h1⟩ := h.store (r := 2 * j + 0) (c := d) (by omega) hdn (lo (ρ (j * (n - 1) + (d - 1))))
  obtain ⟨m2, r2, h2⟩ := h1.store (r := 2 * j + 1) (c := d) hj hdn (hi (ρ (j * (n - 1) + (d - 1))))
  have l3 := h2.load (r := 2 * j + 0) (c := 0) (by omega) (by omega) (w := lo (maskX ρ n j (d - 1))) (by
    rw [upd2_ne (by omega), upd2_ne (by omega), innerArr_0 (by omega), Nat.add_zero, halfOf_even])
  obtain ⟨m4, r4, h4⟩ := h2.store (r := 2 * j + 0) (c := 0) (by omega) (by omega)
    (lo (maskX ρ n j (d - 1)) ^^^ lo (ROR64 (ρ (j * (n - 1) + (d - 1))) (ROT (2 * d))))
  have l5 := h4.load (r := 2 * j + 1) (c := 0) hj (by omega) (w := hi (maskX ρ n j (d - 1))) (by
    rw [upd2_ne (by omega), upd2_ne (by omega), upd2_ne (by omega), innerArr_0 (by omega), halfOf_odd])
  obtain ⟨m6, r6, h6⟩ := h4.store (r := 2 * j + 1) (c := 0) hj (by omega)
    (hi (maskX ρ n j (d - 1)) ^^^ hi (ROR64 (ρ (j * (n - 1) + (d - 1))) (ROT (2 * d))))
  refine ⟨m6, ?_, h6.mono ?_⟩
  · unfold genShare
    refine (run_bind_of r1).trans ?_
    refine (run_bind_of r2).trans ?_
    refine (run_bind_of l3).trans ?_
    refine (run_bind_of r4).trans ?_
    refine (run_bind_of l5).trans ?_
    exact r6
  · intro r c w hr hc hw
    have hm : maskX ρ n j (d + 1 - 1) = maskX ρ n j (d - 1) ^^^ ROR64 (ρ (j * (n - 1) + (d - 1))) (ROT (2 * d)) := by
      obtain ⟨k, rfl⟩ : ∃ k, d = k + 1 := ⟨d - 1, by omega⟩
      rfl
    by_cases hlt : r < 2 * j
    · rw [innerArr_lt hlt] at hw
      rw [upd2_ne (by omega), upd2_ne (by omega), upd2_ne (by omega), upd2_ne (by omega), innerArr_lt hlt, hw]
    · by_cases hrj : r / 2 = j
      · by_cases hc0 : c = 0
        · subst hc0
          rw [innerArr_0 hrj, hm] at hw
          rcases row_cases hrj with rfl | rfl
          · rw [upd2_ne (by omega)]
            rw [halfOf_even, lo_xor] at hw
            rw [← hw]; exact upd2_eq
          · rw [halfOf_odd, hi_xor] at hw
            rw [← hw]; exact upd2_eq
        · by_cases hcd : c = d
          · subst hcd
            rw [innerArr_pos hrj (by omega) (by omega)] at hw
            rcases row_cases hrj with rfl | rfl
            · rw [upd2_ne (by omega), upd2_ne (by omega), upd2_ne (by omega), ← hw, halfOf_even]; exact upd2_eq
            · rw [upd2_ne (by omega), upd2_ne (by omega), ← hw, halfOf_odd]; exact upd2_eq
          · by_cases hcd' : c < d
            · rw [innerArr_pos hrj (by omega) (by omega)] at hw
              rw [upd2_ne (by omega), upd2_ne (by omega), upd2_ne (by omega), upd2_ne (by omega),
                innerArr_pos hrj (by omega) hcd', hw]
            · rw [innerArr_none hlt (by omega)] at hw; simp at hw
      · rw [innerArr_none hlt (by omega)] at hw; simp at hw

/-- Between the iterations of the outer loop. -/
def outerArr (ρ : Nat → Word) (n j : Nat) (r c : Nat) : Option U32 :=
  if r < 2 * j then some (shareArr ρ n (fun _ => 0) r c) else none

theorem run_genPair {ρ : Nat → Word} {mem0 mem : Mem} {s n R j : Nat} (hj : 2 * j + 1 < R) (hn : 1 ≤ n)
    (h : Arr mem0 mem s n R (outerArr ρ n j)) :
    ∃ mem', run (genPair .little ρ s n j) mem = some ((), mem') ∧ Arr mem0 mem' s n R (outerArr ρ n (j + 1)) := by
  obtain ⟨m1, r1, h1⟩ := h.store (r := 2 * j + 0) (c := 0) (by omega) (by omega) 0
  obtain ⟨m2, r2, h2⟩ := h1.store (r := 2 * j + 1) (c := 0) hj (by omega) 0
  have h3 : Arr mem0 m2 s n R (innerArr ρ n j 1) := h2.mono (by
    intro r c w hr hc hw
    by_cases hlt : r < 2 * j
    · rw [innerArr_lt hlt] at hw
      rw [upd2_ne (by omega), upd2_ne (by omega), ← hw]
      exact if_pos hlt
    · by_cases hrj : r / 2 = j
      · by_cases hc0 : c = 0
        · subst hc0
          rw [innerArr_0 hrj] at hw
          have : w = 0 := by
            have hw' := Option.some.inj hw
            rw [← hw']; unfold halfOf maskX lo hi; split <;> simp
          subst this
          rcases row_cases hrj with rfl | rfl
          · rw [upd2_ne (by omega)]; exact upd2_eq
          · exact upd2_eq
        · rw [innerArr_none hlt (by omega)] at hw; simp at hw
      · rw [innerArr_none hlt (by omega)] at hw; simp at hw)
  obtain ⟨u, m4, r4, h4⟩ := run_forUp_inv
    (body := fun d (_ : Unit) => genShare .little s n (2 * j) d (ρ (j * (n - 1) + (d - 1))))
    (fun d _ mem => Arr mem0 mem s n R (innerArr ρ n j d)) (n - 1) 1
    (fun d _ mem hd1 hd2 hI => by
      obtain ⟨m', r', h'⟩ := run_genShare hj hd1 (by omega) hI
      exact ⟨(), m', r', h'⟩) (s := ()) h3
  refine ⟨m4, ?_, h4.mono ?_⟩
  · unfold genPair
    simp only []
    rw [run_bind_of r1, run_bind_of r2]
    exact r4
  · intro r c w hr hc hw
    rw [show 1 + (n - 1) = n by omega]
    unfold outerArr at hw
    by_cases hlt : r < 2 * j
    · rw [if_pos (by omega)] at hw
      rw [innerArr_lt hlt, hw]
    · by_cases hlt' : r < 2 * (j + 1)
      · rw [if_pos hlt'] at hw
        have hrj : r / 2 = j := by omega
        rw [← hw]
        unfold shareArr shareWord
        rw [hrj]
        by_cases hc0 : c = 0
        · subst hc0
          rw [innerArr_0 hrj, if_pos rfl]
          simp
        · rw [innerArr_pos hrj (by omega) hc, if_neg hc0]
      · rw [if_neg hlt'] at hw; simp at hw

/-- Data words added so far. -/
def partW (W : Nat → Word) (k j : Nat) : Word := if j < k then W j else 0

theorem run_xorData {ρ : Nat → Word} {W : Nat → Word} {mem0 mem : Mem} {s n R k : Nat} (hk : 2 * k + 1 < R) (hn : 1 ≤ n)
    (h : Arr mem0 mem s n R (fun r c => some (shareArr ρ n (partW W k) r c))) :
    ∃ mem', run (xorData .little s n k (W k)) mem = some ((), mem') ∧
      Arr mem0 mem' s n R (fun r c => some (shareArr ρ n (partW W (k + 1)) r c)) := by
  have hp : partW W k k = 0 := by simp [partW]
  have hx : ∀ y : Word, y ^^^ 0 = y := fun y => BitVec.xor_zero
  have l1 := h.load (r := 2 * k + 0) (c := 0) (by omega) (by omega) (w := lo (maskX ρ n k (n - 1))) (by
    simp only [shareArr, shareWord, if_true, Nat.add_zero, show 2 * k / 2 = k by omega, hp, hx]
    rw [halfOf_even])
  obtain ⟨m2, r2, h2⟩ := h.store (r := 2 * k + 0) (c := 0) (by omega) (by omega)
    (lo (maskX ρ n k (n - 1)) ^^^ lo (W k))
  have l3 := h2.load (r := 2 * k + 1) (c := 0) hk (by omega) (w := hi (maskX ρ n k (n - 1))) (by
    rw [upd2_ne (by omega)]
    simp only [shareArr, shareWord, if_true, show (2 * k + 1) / 2 = k by omega, hp, hx]
    rw [halfOf_odd])
  obtain ⟨m4, r4, h4⟩ := h2.store (r := 2 * k + 1) (c := 0) hk (by omega)
    (hi (maskX ρ n k (n - 1)) ^^^ hi (W k))
  refine ⟨m4, ?_, h4.mono ?_⟩
  · unfold xorData
    refine (run_bind_of l1).trans ?_
    refine (run_bind_of r2).trans ?_
    refine (run_bind_of l3).trans ?_
    exact r4
  · intro r c w hr hc hw
    rw [← hw]
    by_cases hrk : r / 2 = k ∧ c = 0
    · obtain ⟨hrk, rfl⟩ := hrk
      have hpk : partW W (k + 1) k = W k := by simp [partW]
      simp only [shareArr, shareWord, hrk, if_true, hpk]
      rcases row_cases hrk with rfl | rfl
      · rw [upd2_ne (by omega), halfOf_even, lo_xor]; exact upd2_eq
      · rw [halfOf_odd, hi_xor]; exact upd2_eq
    · rw [upd2_ne (by omega), upd2_ne (by omega)]
      simp only [shareArr, shareWord]
      by_cases hc0 : c = 0
      · simp only [hc0, if_true, partW]
        have : r / 2 ≠ k := fun h => hrk ⟨h, hc0⟩
        simp only [show (r / 2 < k + 1) = (r / 2 < k) from propext (by omega)]
      · simp only [if_neg hc0]


/-! ### generate_shares -/

theorem holds_of_agree {mem mem' : Mem} {p : Nat} {bs : List Byte} (h : mem.Holds p bs)
    (ha : ∀ a, p ≤ a → a < p + bs.length → mem' a = mem a) : mem'.Holds p bs := fun i hi => by
  rw [ha _ (by omega) (by omega)]; exact h i hi

theorem run_load64_bytes {mem : Mem} {p : Nat} {bs : List Byte} (h : mem.Holds p bs) (h8 : 8 ≤ bs.length) :
    run (load64 .little p) mem = some (le64 bs, mem) := by
  unfold load64
  rw [run_bind_of (run_loadN' (h.take 8) (by simp; omega))]
  show some (le64 (bs.take 8), mem) = _
  rw [le64_take8]

theorem le64_snoc_xor (as : List Byte) (b : Byte) (h : as.length ≤ 8) :
    le64 (as ++ [b]) = le64 as ^^^ (b.setWidth 64 <<< (8 * as.length)) := by
  rw [le64_snoc as b h]
  apply BitVec.eq_of_getLsbD_eq; intro i hi
  rw [BitVec.getLsbD_or, BitVec.getLsbD_xor]
  by_cases hlt : i < 8 * as.length
  · simp [hlt]
  · rw [getLsbD_le64_of_ge as i (by omega)]; simp

theorem Arr.holds {mem0 mem : Mem} {s n R p : Nat} {f : Nat → Nat → Option U32} {bs : List Byte}
    (h : Arr mem0 mem s n R f) (hh : mem0.Holds p bs) (hd : Disjoint p bs.length s (4 * (R * n))) :
    mem.Holds p bs := by
  apply holds_of_agree hh
  intro a h1 h2
  apply h.out
  unfold Disjoint at hd; omega

theorem run_generate_shares {ρ : Nat → Word} {mem : Mem} {s n data : Nat} {D : List Byte} (hn : 1 ≤ n)
    (hw : mem.Writable s (4 * (NUM_WORDS D.length * n))) (hD : mem.Holds data D)
    (hd : Disjoint data D.length s (4 * (NUM_WORDS D.length * n))) :
    ∃ mem', run (generate_shares .little ρ s n data D.length) mem = some ((), mem') ∧
      Arr mem mem' s n (NUM_WORDS D.length) (fun r c => some (shareArr ρ n (wordAt D) r c)) := by
  have hR : NUM_WORDS D.length = 2 * ((D.length + 7) / 8) := by unfold NUM_WORDS; omega
  generalize hRR : NUM_WORDS D.length = R at *
  have h0 : Arr mem mem s n R (outerArr ρ n 0) := ⟨fun _ _ => rfl, hw, fun r c w _ _ h => by
    unfold outerArr at h; rw [if_neg (by omega)] at h; simp at h⟩
  obtain ⟨u, m1, r1, h1⟩ := run_forUp_inv (body := fun j (_ : Unit) => genPair .little ρ s n j)
    (fun j _ mem' => Arr mem mem' s n R (outerArr ρ n j)) (R / 2) 0
    (fun j _ mem' _ hj hI => by
      obtain ⟨m', r', h'⟩ := run_genPair (by omega) hn hI
      exact ⟨(), m', r', h'⟩) (s := ()) h0
  have h1' : Arr mem m1 s n R (fun r c => some (shareArr ρ n (partW (wordAt D) 0) r c)) := h1.mono (by
    intro r c w hr hc hw'
    rw [← hw']
    unfold outerArr
    rw [if_pos (by omega)]
    rfl)
  obtain ⟨u2, m2, r2, h2⟩ := run_forUp_inv (body := fun i (_ : Unit) => do
      let x ← load64 .little (data + i * 8)
      let x := U64LE .little x
      xorData .little s n i x)
    (fun i _ mem' => Arr mem mem' s n R (fun r c => some (shareArr ρ n (partW (wordAt D) i) r c))) (D.length / 8) 0
    (fun i _ mem' _ hi hI => by
      obtain ⟨m', r', h'⟩ := run_xorData (W := wordAt D) (k := i) (by omega) hn hI
      refine ⟨(), m', ?_, h'⟩
      have hl := run_load64_bytes (mem := mem') (p := data + 8 * i) (bs := D.drop (8 * i))
        ((hI.holds hD hd).drop _ (by omega)) (by rw [List.length_drop]; omega)
      rw [Nat.mul_comm] at hl
      refine (run_bind_of hl).trans ?_
      rw [Nat.mul_comm]
      exact r') (s := ()) h1'
  rw [Nat.zero_add] at h2
  unfold generate_shares
  rw [hRR]
  by_cases htail : D.length / 8 * 8 ≠ D.length
  · obtain ⟨u3, m3, r3, h3⟩ := run_forUp_inv (body := fun i (x : Word) => (do
        let b ← loadB (data + i)
        pure (x ^^^ (b.setWidth 64) <<< ((i % 8) * 8)) : Prog Word))
      (fun i x mem' => mem' = m2 ∧ x = le64 ((D.drop (8 * (D.length / 8))).take (i - 8 * (D.length / 8))))
      (D.length - D.length / 8 * 8) (D.length / 8 * 8)
      (fun i x mem' hi1 hi2 hI => by
        obtain ⟨rfl, rfl⟩ := hI
        have hh := h2.holds hD hd i (by omega)
        refine ⟨le64 ((D.drop (8 * (D.length / 8))).take (i - 8 * (D.length / 8))) ^^^
          ((D[i]'(by omega)).setWidth 64) <<< ((i % 8) * 8), mem', ?_, rfl, ?_⟩
        · exact (run_bind_of (show run (loadB (data + i)) mem' = some (D[i]'(by omega), mem') by
            simp only [loadB, run, hh])).trans rfl
        · rw [show i + 1 - 8 * (D.length / 8) = (i - 8 * (D.length / 8)) + 1 by omega,
            List.take_succ_eq_append_getElem (by simp; omega),
            le64_snoc_xor _ _ (by simp; omega)]
          congr 2
          · simp only [List.getElem_drop]
            congr 2; omega
          · simp only [List.length_take, List.length_drop]; omega)
      (s := (0 : Word)) ⟨rfl, by rw [show D.length / 8 * 8 - 8 * (D.length / 8) = 0 by omega]; simp [le64]⟩
    obtain ⟨rfl, h3⟩ := h3
    have hx : u3 = wordAt D (D.length / 8) := by
      rw [h3]; unfold wordAt
      rw [List.take_of_length_le]
      simp; omega
    obtain ⟨m4, r4, h4⟩ := run_xorData (W := wordAt D) (k := D.length / 8) (by omega) hn h2
    refine ⟨m4, ?_, h4.mono ?_⟩
    · rw [run_bind_of r1]
      rw [run_bind_of r2]
      simp only [ifc, run, decide_eq_true htail, if_true]
      rw [run_bind_of r3, hx]
      exact r4
    · intro r c w hr hc hw'
      rw [← hw']
      have : r / 2 < D.length / 8 + 1 := by omega
      simp only [shareArr, shareWord, partW, if_pos this]
  · refine ⟨m2, ?_, h2.mono ?_⟩
    · rw [run_bind_of r1]
      rw [run_bind_of r2]
      simp only [ifc, run, decide_eq_false htail]
      rfl
    · intro r c w hr hc hw'
      rw [← hw']
      have : r / 2 < D.length / 8 := by omega
      simp only [shareArr, shareWord, partW, if_pos this]

/-! ### combine_shares -/

theorem ROR64_0 (x : Word) : ROR64 x 0 = x := by unfold ROR64; simp

theorem run_combPair {ρ : Nat → Word} {W : Nat → Word} {mem0 mem : Mem} {s n R j : Nat} (hj : 2 * j + 1 < R) (hn : 1 ≤ n)
    (h : Arr mem0 mem s n R (fun r c => some (shareArr ρ n W r c))) :
    run (combPair .little s n j) mem = some (W j, mem) := by
  obtain ⟨x, m, hr, hI⟩ := run_forUp_inv (body := fun d (x : Word) => (do
      let rnd0 ← load32 .little (idx s ((2 * j + 0) * n + d))
      let rnd1 ← load32 .little (idx s ((2 * j + 1) * n + d))
      pure (x ^^^ ROR64 (rnd1.setWidth 64 <<< 32 ||| rnd0.setWidth 64) (ROT (2 * d))) : Prog Word))
    (fun d x m => m = mem ∧ x = if d = 0 then 0 else maskX ρ n j (n - 1) ^^^ W j ^^^ maskX ρ n j (d - 1)) n 0
    (fun d x m _ hd hI => by
      obtain ⟨rfl, hx⟩ := hI
      have l0 := h.load (r := 2 * j + 0) (c := d) (by omega) (by omega) rfl
      have l1 := h.load (r := 2 * j + 1) (c := d) hj (by omega) rfl
      refine ⟨_, m, (run_bind_of l0).trans ((run_bind_of l1).trans rfl), rfl, ?_⟩
      have e0 : shareArr ρ n W (2 * j + 0) d = lo (shareWord ρ n W j d) := by
        unfold shareArr; rw [show (2 * j + 0) / 2 = j by omega, Nat.add_zero, halfOf_even]
      have e1 : shareArr ρ n W (2 * j + 1) d = hi (shareWord ρ n W j d) := by
        unfold shareArr; rw [show (2 * j + 1) / 2 = j by omega, halfOf_odd]
      rw [e0, e1, hilo, if_neg (by omega), Nat.add_sub_cancel]
      by_cases hd0 : d = 0
      · subst hd0
        rw [hx, if_pos rfl, show ROT (2 * ((0 : Nat) : Int)) = 0 by decide, ROR64_0]
        simp [shareWord, maskX]
      · rw [hx, if_neg hd0]
        obtain ⟨k, rfl⟩ : ∃ k, d = k + 1 := ⟨d - 1, by omega⟩
        simp only [shareWord, if_neg hd0, Nat.add_sub_cancel, maskX]
        rw [BitVec.xor_assoc])
    (s := (0 : Word)) ⟨rfl, by simp⟩
  obtain ⟨rfl, hx⟩ := hI
  unfold combPair
  rw [hr, hx, Nat.zero_add, if_neg (by omega), BitVec.xor_comm, ← BitVec.xor_assoc, BitVec.xor_self, BitVec.zero_xor]

theorem getElem_bytes64 (w : Word) (i : Nat) (h : i < (bytes64 w).length) :
    (bytes64 w)[i] = (w >>> (8 * i)).setWidth 8 := by
  simp [bytes64]

theorem run_combine_shares {W : Nat → Word} {mem : Mem} {s n data : Nat} {D : List Byte}
    (hw : mem.Writable data D.length)
    (hW : ∀ mem', (∀ a, (a < data ∨ data + D.length ≤ a) → mem' a = mem a) → ∀ j, 8 * j < D.length →
      run (combPair .little s n j) mem' = some (W j, mem'))
    (hD : ∀ j, 8 * j < D.length → (bytes64 (W j)).take (D.length - 8 * j) = (D.drop (8 * j)).take 8) :
    run (combine_shares .little data D.length s n) mem = some ((), mem.writes data D) := by
  have hout : ∀ (xs : List Byte), xs.length ≤ D.length →
      ∀ a, (a < data ∨ data + D.length ≤ a) → mem.writes data xs a = mem a := fun xs hx a ha => writes_out (by omega)
  obtain ⟨u1, m1, r1, h1⟩ := run_forUp_inv (body := fun i (_ : Unit) => do
      let x ← combPair .little s n i
      let x := U64LE .little x
      store64 .little (data + i * 8) x)
    (fun i _ mem' => mem' = mem.writes data (D.take (8 * i))) (D.length / 8) 0
    (fun i _ mem' _ hi hI => by
      subst hI
      refine ⟨(), mem.writes data (D.take (8 * (i + 1))), ?_, rfl⟩
      refine (run_bind_of (hW _ (hout _ (by simp; omega)) i (by omega))).trans ?_
      have e : bytes64 (W i) = (D.drop (8 * i)).take 8 := by
        rw [← hD i (by omega), List.take_of_length_le (by rw [length_bytes64]; omega)]
      refine (run_storeN (show (mem.writes data (D.take (8 * i))).Writable (data + i * 8) (bytes64 (W i)).length from by
        rw [length_bytes64]; exact (hw.mono (by omega) (by omega)).writes)).trans ?_
      rw [e, show 8 * (i + 1) = 8 * i + 8 by omega, List.take_add, writes_append, List.length_take,
        Nat.min_eq_left (by omega), Nat.mul_comm i 8])
    (s := ()) (mem := mem) (by simp [writes_nil])
  rw [Nat.zero_add] at h1
  subst h1
  unfold combine_shares
  rw [run_bind_of r1]
  by_cases htail : D.length / 8 * 8 ≠ D.length
  · simp only [ifc, run, decide_eq_true htail, if_true]
    rw [run_bind_of (hW _ (hout _ (by simp; omega)) (D.length / 8) (by omega))]
    have e := hD (D.length / 8) (by omega)
    obtain ⟨u2, m2, r2, h2⟩ := run_forUp_inv
      (body := fun i (_ : Unit) => storeB (data + i) ((U64LE .little (W (D.length / 8)) >>> ((i % 8) * 8)).setWidth 8))
      (fun i _ mem' => mem' = mem.writes data (D.take i)) (D.length - D.length / 8 * 8) (D.length / 8 * 8)
      (fun i _ mem' hi1 hi2 hI => by
        subst hI
        refine ⟨(), mem.writes data (D.take (i + 1)), ?_, rfl⟩
        have hwr : ((mem.writes data (D.take i)) (data + i)).rw = true := hw.writes i (by omega)
        have hv : (U64LE .little (W (D.length / 8)) >>> ((i % 8) * 8)).setWidth 8 = D[i]'(by omega) := by
          show (W (D.length / 8) >>> ((i % 8) * 8)).setWidth 8 = _
          have e2 : ((bytes64 (W (D.length / 8))).take (D.length - 8 * (D.length / 8)))[i % 8]'(by
            rw [List.length_take, length_bytes64]; omega) =
            ((D.drop (8 * (D.length / 8))).take 8)[i % 8]'(by rw [List.length_take, List.length_drop]; omega) := by
            simp only [e]
          rw [List.getElem_take, getElem_bytes64, List.getElem_take, List.getElem_drop] at e2
          rw [Nat.mul_comm, e2]
          congr 1; omega
        rw [hv, List.take_succ_eq_append_getElem (by omega), writes_append, List.length_take,
          Nat.min_eq_left (by omega)]
        simp only [storeB, run]
        all_goals (split <;> simp_all))
      (s := ()) (by rw [Nat.mul_comm])
    rw [r2, h2]
    congr 3
    rw [show D.length / 8 * 8 + (D.length - D.length / 8 * 8) = D.length by omega, List.take_length]
  · simp only [ifc, run, decide_eq_false htail]
    show some ((), _) = _
    rw [List.take_of_length_le (by omega)]

end Ascon.Masked
