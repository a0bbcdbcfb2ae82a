import Verif.Proof.MaskedNLocal
import Verif.Props.MaskedProbe
import Verif.Props.MaskedNProbe
import Verif.Props.MaskedN
/-!
# C78: one probe anywhere between the first permutation and the tag, with two, three or four shares

protected_bi32_armv6_leveled compiled with the same number of shares (2, 3 or 4) for the key, the associated data, the message and
the ciphertext.  The sharings (`nShare`) and "same distribution" (`SameDist`) are those of C74.
-/

namespace Ascon.Props

open Ascon.Spec Ascon.C Ascon.MaskedN Ascon.MaskedN.Probe
open Ascon.Masked (U32 ROR32 constants)
open Ascon.Masked.Probe (Val)

theorem sameDist_of_SD2 {V : Type} {m : Nat} (h4 : m + 1 ≤ 4) {R : St} {S S' : Val} {p p' : St → V}
    (h : SD2 (m + 1) R S S' p p') :
    SameDist (fun μ : Fin m → Val => p (nShare R S μ)) (fun μ => p' (nShare R S' μ)) := by
  obtain ⟨φ, ψ, h1, h2⟩ := h
  refine ⟨fun μ => masksIn m (φ (nShare R S μ)), fun μ => masksIn m (ψ (nShare R S' μ)), fun μ => ?_, fun μ => ?_, fun μ => ?_⟩
  · obtain ⟨a, b, -⟩ := h1 _ (in_nShare h4 R S μ)
    simp only [nShare_masksIn h4 a, b, masksIn_nShare]
  · obtain ⟨a, b⟩ := h2 _ (in_nShare h4 R S' μ)
    simp only [nShare_masksIn h4 a, b, masksIn_nShare]
  · obtain ⟨a, b, c⟩ := h1 _ (in_nShare h4 R S μ)
    simp only [nShare_masksIn h4 a]
    exact c

/-! ## Any program of such steps -/

/-- Two programs of the same steps (words added, constants added, words masked again, permutations of any number of rounds) with
any two data to add, shared in any way, on the uniform sharings of any two states: any one value that appears has the same
distribution. -/
theorem C78_steps_probe {m : Nat} (h1 : 1 ≤ m) (h3 : m ≤ 3) (R : St) (S S' : Val) (l l' : List Step)
    (hf : ∀ a ∈ l, a.Fits (m + 1)) (hs : l.map Step.shape = l'.map Step.shape) (j : Nat) :
    SameDist (fun μ : Fin m → Val => (steps (m + 1) l (nShare R S μ)).2[j]?)
      (fun μ => (steps (m + 1) l' (nShare R S' μ)).2[j]?) :=
  sameDist_of_SD2 (by omega) ((pair_steps (by omega) (by omega) l l' hf hs).probe R S S' j)

/-- After them the state is again uniformly shared. -/
theorem C78_steps_uniform {m : Nat} (h1 : 1 ≤ m) (h3 : m ≤ 3) (R : St) (l : List Step) (hf : ∀ a ∈ l, a.Fits (m + 1)) :
    ∃ A : Val → Val, ∀ S, ∃ π π' : (Fin m → Val) → Fin m → Val,
      (∀ μ, (steps (m + 1) l (nShare R S μ)).1 = nShare R (A S) (π μ)) ∧ (∀ μ, π' (π μ) = μ) ∧ ∀ μ, π (π' μ) = μ := by
  obtain ⟨A, hA⟩ := (pair_steps (n := m + 1) (by omega) (by omega) l l hf rfl).l.map
  refine ⟨A, fun S => ?_⟩
  obtain ⟨g, g1, g2⟩ := hA R S
  have h4 : m + 1 ≤ 4 := by omega
  refine ⟨fun μ => masksIn m (steps (m + 1) l (nShare R S μ)).1, fun μ => masksIn m (g (nShare R (A S) μ)), fun μ => ?_,
    fun μ => ?_, fun μ => ?_⟩
  · exact (nShare_masksIn h4 (g1 _ (in_nShare h4 R S μ)).1).symm
  · obtain ⟨a, b⟩ := g1 _ (in_nShare h4 R S μ)
    simp only [nShare_masksIn h4 a, b, masksIn_nShare]
  · obtain ⟨a, b⟩ := g2 _ (in_nShare h4 R (A S) μ)
    simp only [nShare_masksIn h4 a, b, masksIn_nShare]

/-! ## The phases of aead.c -/

theorem adBlocks_shape (na : Nat) (W W' : Nat → Nat → Fin 2 → U32) : ∀ (len j : Nat),
    (adBlocks na W j len).map Step.shape = (adBlocks na W' j len).map Step.shape := by
  intro len
  induction len using Nat.strongRecOn with
  | ind len ih =>
    intro j
    rw [adBlocks.eq_1 na W, adBlocks.eq_1 na W']
    by_cases h : len ≥ 16
    · rw [dif_pos h, dif_pos h, List.map_append, List.map_append, ih (len - 16) (by omega)]
      rfl
    · rw [dif_neg h, dif_neg h]
      by_cases h8 : len ≥ 8
      · rw [if_pos h8, if_pos h8]
        by_cases h0 : len - 8 ≠ 0
        · rw [if_pos h0, if_pos h0]; rfl
        · rw [if_neg h0, if_neg h0]; rfl
      · rw [if_neg h8, if_neg h8]
        by_cases h0 : len ≠ 0
        · rw [if_pos h0, if_pos h0]; rfl
        · rw [if_neg h0, if_neg h0]

theorem encSteps_shape (na : Nat) (W W' : Nat → Nat → Fin 2 → U32) : ∀ (len j : Nat),
    (encSteps na W j len).map Step.shape = (encSteps na W' j len).map Step.shape := by
  intro len
  induction len using Nat.strongRecOn with
  | ind len ih =>
    intro j
    rw [encSteps.eq_1 na W, encSteps.eq_1 na W']
    by_cases h : len ≥ 16
    · rw [dif_pos h, dif_pos h, List.map_append, List.map_append, ih (len - 16) (by omega)]
      rfl
    · rw [dif_neg h, dif_neg h]
      by_cases h8 : len ≥ 8
      · rw [if_pos h8, if_pos h8]
        by_cases h0 : len - 8 ≠ 0
        · rw [if_pos h0, if_pos h0]; rfl
        · rw [if_neg h0, if_neg h0]; rfl
      · rw [if_neg h8, if_neg h8]
        by_cases h0 : len ≠ 0
        · rw [if_pos h0, if_pos h0]; rfl
        · rw [if_neg h0, if_neg h0]

theorem adBlocks_fits {n na : Nat} (h : na ≤ n) (W : Nat → Nat → Fin 2 → U32) : ∀ (len j : Nat), ∀ a ∈ adBlocks na W j len, a.Fits n := by
  intro len
  induction len using Nat.strongRecOn with
  | ind len ih =>
    intro j a ha
    rw [adBlocks] at ha
    split at ha
    · rw [List.mem_append] at ha
      rcases ha with ha | ha
      · simp only [List.mem_cons, List.not_mem_nil, or_false] at ha
        rcases ha with rfl | rfl | rfl
        · exact h
        · exact h
        · exact trivial
      · exact ih (len - 16) (by omega) _ a ha
    · split at ha <;> split at ha <;>
        simp only [List.mem_append, List.mem_cons, List.not_mem_nil, or_false] at ha <;>
        (repeat' rcases ha with ha | ha) <;> (try subst ha) <;> first | exact h | exact trivial

theorem encSteps_fits {n na : Nat} (h : na ≤ n) (W : Nat → Nat → Fin 2 → U32) : ∀ (len j : Nat), ∀ a ∈ encSteps na W j len, a.Fits n := by
  intro len
  induction len using Nat.strongRecOn with
  | ind len ih =>
    intro j a ha
    rw [encSteps] at ha
    split at ha
    · rw [List.mem_append] at ha
      rcases ha with ha | ha
      · simp only [List.mem_cons, List.not_mem_nil, or_false] at ha
        rcases ha with rfl | rfl | rfl
        · exact h
        · exact h
        · exact trivial
      · exact ih (len - 16) (by omega) _ a ha
    · split at ha <;> split at ha <;>
        simp only [List.mem_append, List.mem_cons, List.not_mem_nil, or_false] at ha <;>
        (repeat' rcases ha with ha | ha) <;> (try subst ha) <;> first | exact h | exact trivial

/-- `ascon_adata`, `ascon_encrypt` and `ascon_final` with `n` shares: `A j`, `M j` are the (shares of the) words of associated data
and message, `K1`, `K2` those of the key. -/
def encryption (n : Nat) (A M : Nat → Nat → Fin 2 → U32) (K1 K2 : Nat → Fin 2 → U32) (adlen mlen : Nat) : List Step :=
  adSteps n A adlen ++ (encSteps n M 0 mlen ++ finalSteps n K1 K2)

/-- In decryption the state then is compared with the tag, which comes in `nc` shares. -/
def comparison (nk nc : Nat) (K1 K2 t0 t1 : Nat → Fin 2 → U32) : List Step := finalSteps nk K1 K2 ++ xortagSteps nc t0 t1

theorem encryption_shape (n : Nat) (A M A' M' : Nat → Nat → Fin 2 → U32) (K1 K2 K1' K2' : Nat → Fin 2 → U32) (adlen mlen : Nat) :
    (encryption n A M K1 K2 adlen mlen).map Step.shape = (encryption n A' M' K1' K2' adlen mlen).map Step.shape := by
  unfold encryption adSteps
  simp only [List.map_append]
  rw [encSteps_shape n M M']
  by_cases h : adlen ≠ 0
  · rw [if_pos h, if_pos h, adBlocks_shape n A A']; rfl
  · rw [if_neg h, if_neg h]; rfl

theorem encryption_fits (n : Nat) (A M : Nat → Nat → Fin 2 → U32) (K1 K2 : Nat → Fin 2 → U32) (adlen mlen : Nat) :
    ∀ a ∈ encryption n A M K1 K2 adlen mlen, a.Fits n := by
  intro a ha
  unfold encryption adSteps at ha
  rw [List.mem_append, List.mem_append, List.mem_append] at ha
  rcases ha with (ha | ha) | ha | ha
  · split at ha
    · exact adBlocks_fits (Nat.le_refl _) A _ _ a ha
    · cases ha
  · simp only [List.mem_cons, List.not_mem_nil, or_false] at ha
    subst ha; exact trivial
  · exact encSteps_fits (Nat.le_refl _) M _ _ a ha
  · unfold finalSteps at ha
    simp only [List.mem_cons, List.not_mem_nil, or_false] at ha
    rcases ha with rfl | rfl | rfl | rfl | rfl <;> first | exact Nat.le_refl _ | exact trivial

theorem comparison_shape (nk nc : Nat) (K1 K2 t0 t1 K1' K2' t0' t1' : Nat → Fin 2 → U32) :
    (comparison nk nc K1 K2 t0 t1).map Step.shape = (comparison nk nc K1' K2' t0' t1').map Step.shape := by
  unfold comparison finalSteps xortagSteps
  simp only [List.map_append, List.map_cons, List.map_nil, Step.shape]

theorem comparison_fits {n nc : Nat} (hc : nc ≤ n) (K1 K2 t0 t1 : Nat → Fin 2 → U32) : ∀ a ∈ comparison n nc K1 K2 t0 t1, a.Fits n := by
  intro a ha
  unfold comparison finalSteps xortagSteps at ha
  simp only [List.mem_append, List.mem_cons, List.not_mem_nil, or_false] at ha
  rcases ha with (rfl | rfl | rfl | rfl | rfl) | rfl | rfl | rfl | rfl | rfl | rfl | rfl | rfl | rfl | rfl <;>
    first | exact Nat.le_refl _ | exact hc | exact trivial

/-- Encryption from the first associated data to the tag: if the state is uniformly shared at the beginning, then any one value
that appears has a distribution that does not depend on the state, on the associated data, on the message, on the key, or on how
these are shared. -/
theorem C78_encryption_probe {m : Nat} (h1 : 1 ≤ m) (h3 : m ≤ 3) (R : St) (S S' : Val) (A M A' M' : Nat → Nat → Fin 2 → U32)
    (K1 K2 K1' K2' : Nat → Fin 2 → U32) (adlen mlen j : Nat) :
    SameDist (fun μ : Fin m → Val => (steps (m + 1) (encryption (m + 1) A M K1 K2 adlen mlen) (nShare R S μ)).2[j]?)
      (fun μ => (steps (m + 1) (encryption (m + 1) A' M' K1' K2' adlen mlen) (nShare R S' μ)).2[j]?) :=
  C78_steps_probe h1 h3 R S S' _ _ (encryption_fits _ _ _ _ _ _ _) (encryption_shape _ _ _ _ _ _ _ _ _ _ _) j

/-- Decryption from the last permutation to the comparison; the tag may have fewer shares than the state. -/
theorem C78_comparison_probe {m : Nat} (h1 : 1 ≤ m) (h3 : m ≤ 3) {nc : Nat} (hc : nc ≤ m + 1) (R : St) (S S' : Val)
    (K1 K2 t0 t1 K1' K2' t0' t1' : Nat → Fin 2 → U32) (j : Nat) :
    SameDist (fun μ : Fin m → Val => (steps (m + 1) (comparison (m + 1) nc K1 K2 t0 t1) (nShare R S μ)).2[j]?)
      (fun μ => (steps (m + 1) (comparison (m + 1) nc K1' K2' t0' t1') (nShare R S' μ)).2[j]?) :=
  C78_steps_probe h1 h3 R S S' _ _ (comparison_fits hc _ _ _ _) (comparison_shape _ _ _ _ _ _ _ _ _ _) j

/-! ## These are the states of the code -/

/-- The part of `crypto_aead_encrypt_shared` from `ascon_level_adata` to `ascon_final` (crypto_aead_shared.c:18-23), all numbers of
shares being equal: `A j`, `M j`, `K1`, `K2` are what is in the arrays. -/
theorem C78_encryption_states {g : Cfg} (h2 : 2 ≤ g.KEY) (h4 : g.KEY ≤ 4) (hA : g.AD = g.KEY) (hM : g.M = g.KEY) (hC : g.C = g.KEY)
    (ρ1 ρ2 : Nat → Nat → Word) (mem : Mem) (s : MState) (A M : Nat → word_t) (K1 K2 : word_t) (cs ms mlen ads adlen ks : Nat)
    (hw : mem.Writable cs (8 * g.KEY * ((mlen + 7) / 8)))
    (d1 : Disjoint ms (8 * g.KEY * ((mlen + 7) / 8)) cs (8 * g.KEY * ((mlen + 7) / 8)))
    (d2 : Disjoint ks (16 * g.KEY) cs (8 * g.KEY * ((mlen + 7) / 8)))
    (lA : ∀ j, 8 * j < adlen → run (MLOAD g.EXTERN_BI .little (ads + 8 * g.KEY * j) g.KEY) mem = some (A j, mem))
    (lM : ∀ j, 8 * j < mlen → run (MLOAD g.EXTERN_BI .little (ms + 8 * g.KEY * j) g.KEY) mem = some (M j, mem))
    (l1 : run (MLOAD g.EXTERN_BI .little ks g.KEY) mem = some (K1, mem))
    (l2 : run (MLOAD g.EXTERN_BI .little (ks + 8 * g.KEY) g.KEY) mem = some (K2, mem)) :
    ∃ s' mem', run (do
        let s := ascon_level_adata g s
        let s ← ascon_adata g .little s ads adlen
        let s := ascon_level_encdec g ρ1 s
        let s ← ascon_encrypt g .little s cs ms mlen
        let s := ascon_level_final g ρ2 s
        ascon_final g .little s ks) mem = some (s', mem') ∧
      toSt s' = (steps g.KEY (encryption g.KEY (fun j => ofWord (A j)) (fun j => ofWord (M j)) (ofWord K1) (ofWord K2) adlen mlen)
        (toSt s)).1 := by
  obtain ⟨sa, ra, ea⟩ := link_adata (g := g) (by omega) (by omega) .little mem A ads adlen s (by rw [hA]; exact lA)
  rw [hA] at ea
  obtain ⟨se, m1, re, f1, ee⟩ := link_encrypt (g := g) (by omega) (by omega) (by omega) mem M cs ms mlen sa (by rw [hM]; exact hw)
    (by rw [hM]; exact d1) (by rw [hM]; exact lM)
  rw [hM] at ee f1
  have kk : run (MLOAD g.EXTERN_BI .little ks g.KEY) m1 = some (K1, m1) ∧
      run (MLOAD g.EXTERN_BI .little (ks + 8 * g.KEY) g.KEY) m1 = some (K2, m1) := by
    by_cases h0 : 8 * g.KEY * ((mlen + 7) / 8) = 0
    · have : m1 = mem := funext fun a => f1.1 a (by omega)
      rw [this]; exact ⟨l1, l2⟩
    · unfold Disjoint at d2
      exact ⟨keep_word l1 f1 (by omega), keep_word l2 f1 (by omega)⟩
  obtain ⟨sf, rf, ef⟩ := link_final (g := g) h2 h4 .little m1 K1 K2 ks se kk.1 kk.2
  refine ⟨sf, m1, ?_, ?_⟩
  · have z1 : ascon_level_adata g s = s := if_neg (by omega)
    have z2 : ascon_level_encdec g ρ1 sa = sa := if_neg (by omega)
    have z3 : ascon_level_final g ρ2 se = se := if_neg (by omega)
    rw [z1, run_bind_of ra]
    simp only [z2]
    rw [run_bind_of re]
    simp only [z3]
    exact rf
  · unfold encryption
    rw [ef, ee, ea, steps_append, steps_append]

/-- `ascon_final` and `ascon_xortag` (crypto_aead_shared.c:43-44). -/
theorem C78_comparison_states {g : Cfg} (h2 : 2 ≤ g.KEY) (h4 : g.KEY ≤ 4) (e : Endian) (mem : Mem) (s : MState) (K1 K2 t0 t1 : word_t)
    (k t : Nat) (l1 : run (MLOAD g.EXTERN_BI e k g.KEY) mem = some (K1, mem))
    (l2 : run (MLOAD g.EXTERN_BI e (k + 8 * g.KEY) g.KEY) mem = some (K2, mem))
    (l3 : run (MLOAD g.EXTERN_BI e t g.C) mem = some (t0, mem))
    (l4 : run (MLOAD g.EXTERN_BI e (t + 8 * g.C) g.C) mem = some (t1, mem)) :
    ∃ s', run (do let s ← ascon_final g e s k; ascon_xortag g e s t) mem = some (s', mem) ∧
      toSt s' = (steps g.KEY (comparison g.KEY g.C (ofWord K1) (ofWord K2) (ofWord t0) (ofWord t1)) (toSt s)).1 := by
  obtain ⟨s1, r1, e1⟩ := link_final (g := g) h2 h4 e mem K1 K2 k s l1 l2
  obtain ⟨s2, r2, e2⟩ := link_xortag (g := g) h2 h4 e mem t0 t1 t s1 l3 l4
  refine ⟨s2, by rw [run_bind_of r1]; exact r2, ?_⟩
  unfold comparison
  rw [e2, e1, steps_append]

/-! ## The refresh between the phases of a leveled implementation makes the state uniformly shared -/

theorem get_MXOR_high {n d : Nat} (h4 : n ≤ 4) (h0 : d ≠ 0) (a b : word_t) (i : Nat) (hi : i = 0 ∨ i = 1) :
    (MXOR a b n).get d i = if d < n then a.get d i ^^^ b.get d i else a.get d i := by
  have c : n = 0 ∨ n = 1 ∨ n = 2 ∨ n = 3 ∨ n = 4 := by omega
  have n01 : ((0 : Nat) = 0) ≠ ((1 : Nat) = 0) := by simp
  have n10 : ((1 : Nat) = 0) ≠ ((0 : Nat) = 0) := by simp
  by_cases hd : d < n
  · rw [if_pos hd]
    have cd : d = 1 ∨ d = 2 ∨ d = 3 := by omega
    rcases hi with rfl | rfl <;> rcases c with rfl | rfl | rfl | rfl | rfl <;> rcases cd with rfl | rfl | rfl <;>
      first
      | (exfalso; omega)
      | simp (discharger := omega) only [MXOR, ge_iff_le, Nat.le_refl, Nat.reduceLeDiff, if_true, if_false, get_xor_share,
          get_xor_same, get_xor_half _ _ _ n01, get_xor_half _ _ _ n10]
  · rw [if_neg hd]
    rcases c with rfl | rfl | rfl | rfl | rfl <;>
      simp (discharger := omega) only [MXOR, ge_iff_le, Nat.le_refl, Nat.reduceLeDiff, if_true, if_false, get_xor_share]

/-- Share `d ≥ 1` of a word after `MREFRESH(MEXPAND(w, a, n), n)`. -/
theorem get_refresh {a n d : Nat} (h4 : n ≤ 4) (h0 : d ≠ 0) (w : word_t) (r : Nat → Word) (i : Fin 2) :
    (MREFRESH (MEXPAND w a n) r n).get d i.val =
      if d < n then w.get d i.val ^^^ (Masked.unpk (r (d - 1))).get i.val else w.get d i.val := by
  have hi : i.val = 0 ∨ i.val = 1 := by have := i.isLt; omega
  unfold MREFRESH MEXPAND
  rw [get_MXOR_high h4 h0 _ _ _ hi, get_MREMASK _ _ _ _ _ _ hi, if_neg h0, get_MREMASK _ _ _ _ _ _ hi, if_neg h0]
  split
  · unfold MRND word_t.get Masked.unpk
    simp only [if_neg h0]
  · rfl

theorem val_toSt (n : Nat) (s : MState) (k : Fin 6) (i : Fin 2) : val n (toSt s) k i = V n (word s k) i.val := by
  induction n with
  | zero => rfl
  | succ n ih => show val n (toSt s) k i ^^^ _ = V n (word s k) i.val ^^^ _; rw [ih]; rfl

/-- The words delivered by the random number generator: `ρ k j` is the `j`-th for word `k`. -/
def draws {m : Nat} (ρ : Fin 6 → Fin m → Word) : Nat → Nat → Word := fun k j =>
  if h : k < 6 ∧ j < m then ρ ⟨k, h.1⟩ ⟨j, h.2⟩ else 0

theorem levelUp_word {a b : Nat} (hab : b > a) (r : Nat → Nat → Word) (s : MState) (k : Fin 6) :
    word (levelUp a b r s) k = MREFRESH (MEXPAND (word s k) a b) (r k.val) b := by
  unfold levelUp
  rw [if_pos hab]
  revert k
  exact Masked.Probe.six rfl rfl rfl rfl rfl rfl

/-- The masks after the refresh, and the random words that make given masks. -/
def refreshMasks {m : Nat} (s : MState) (ρ : Fin 6 → Fin m → Word) : Fin m → Val := fun e k i =>
  toSt s (e.val + 1) k i ^^^ (Masked.unpk (ρ k e)).get i.val
def refreshWords {m : Nat} (s : MState) (μ : Fin m → Val) : Fin 6 → Fin m → Word := fun k e =>
  Masked.pk ⟨toSt s (e.val + 1) k 0 ^^^ μ e k 0, toSt s (e.val + 1) k 1 ^^^ μ e k 1⟩

theorem refreshWords_masks {m : Nat} (s : MState) (ρ : Fin 6 → Fin m → Word) : refreshWords s (refreshMasks s ρ) = ρ := by
  funext k e
  unfold refreshWords refreshMasks
  simp only [Masked.Probe.xx]
  exact Masked.pk_unpk _

theorem refreshMasks_words {m : Nat} (s : MState) (μ : Fin m → Val) : refreshMasks s (refreshWords s μ) = μ := by
  funext e k i
  unfold refreshWords refreshMasks
  rw [Masked.unpk_pk]
  revert i
  exact Masked.Probe.two (Masked.Probe.xx _ _) (Masked.Probe.xx _ _)

/-- Going up from `a` to more shares: whatever the state was, it is uniformly shared then: the masks run through all masks, each
once, when the words from the random number generator run through all words. -/
theorem C78_refresh {m a : Nat} (h1 : 1 ≤ a) (ha : a ≤ m) (h3 : m ≤ 3) (s : MState) :
    (∀ ρ : Fin 6 → Fin m → Word,
      toSt (levelUp a (m + 1) (draws ρ) s) = nShare (toSt s) (val a (toSt s)) (refreshMasks s ρ)) ∧
    (∀ ρ : Fin 6 → Fin m → Word, refreshWords s (refreshMasks s ρ) = ρ) ∧
    ∀ μ : Fin m → Val, refreshMasks s (refreshWords s μ) = μ := by
  refine ⟨fun ρ => ?_, refreshWords_masks s, refreshMasks_words s⟩
  have hs : ∀ (d : Nat) (h0 : d ≠ 0) (k : Fin 6) (i : Fin 2), toSt (levelUp a (m + 1) (draws ρ) s) d k i =
      if d < m + 1 then toSt s d k i ^^^ (Masked.unpk (draws ρ k.val (d - 1))).get i.val else toSt s d k i := by
    intro d h0 k i
    unfold toSt
    rw [levelUp_word (by omega), get_refresh (by omega) h0]
  have hin : In (m + 1) (toSt s) (val a (toSt s)) (toSt (levelUp a (m + 1) (draws ρ) s)) := by
    refine ⟨?_, fun d hd => ?_⟩
    · funext k i
      rw [val_toSt, val_toSt, levelUp_word (by omega)]
      have e := (PV_MREFRESH (ns := m + 1) ⟨by omega, by omega⟩ (MEXPAND (word s k) a (m + 1)) (draws ρ k.val)).trans
        (PV_MEXPAND (a := a) (b := m + 1) h1 (by omega) (by omega) (word s k))
      have e2 : SV (m + 1) (MREFRESH (MEXPAND (word s k) a (m + 1)) (draws ρ k.val) (m + 1)) = SV a (word s k) := by
        rw [← Masked.unpk_pk (SV (m + 1) _), ← Masked.unpk_pk (SV a _)]
        exact congrArg Masked.unpk e
      unfold SV at e2
      injection e2 with g0 g1
      revert i
      exact Masked.Probe.two g0 g1
    · funext k i
      rw [hs d (by omega), if_neg (by omega)]
  rw [← nShare_masksIn (by omega) hin]
  congr 1
  funext e k i
  unfold masksIn refreshMasks
  have he := e.isLt
  rw [hs _ (by omega), if_pos (by omega)]
  unfold draws
  rw [dif_pos ⟨k.isLt, by show e.val + 1 - 1 < m; omega⟩]
  rfl

theorem nShare_below {m : Nat} (R R' : St) (S : Val) (μ : Fin m → Val) : ∀ d, d < m + 1 → nShare R S μ d = nShare R' S μ d := by
  have hm : ∀ d, d < m + 1 → nMasks R μ d = nMasks R' μ d := by
    intro d hd
    unfold nMasks
    by_cases h0 : d = 0
    · rw [if_pos h0, if_pos h0]
    · rw [if_neg h0, if_neg h0, dif_pos (by omega), dif_pos (by omega)]
  intro d hd
  unfold nShare
  by_cases h0 : d = 0
  · rw [if_pos h0, if_pos h0]
    funext k i
    rw [val_congr fun d hd => congrFun (congrFun (hm d hd) k) i]
  · rw [if_neg h0, if_neg h0, hm d hd]

/-- The refresh, and then any steps: whatever the states before the refresh are, whatever data are added: one value has the same
distribution over the random words of the refresh. -/
theorem C78_refresh_probe {m a a' : Nat} (h1 : 1 ≤ a) (ha : a ≤ m) (h1' : 1 ≤ a') (ha' : a' ≤ m) (h3 : m ≤ 3) (s s' : MState)
    (l l' : List Step) (hf : ∀ x ∈ l, x.Fits (m + 1)) (hs : l.map Step.shape = l'.map Step.shape) (j : Nat) :
    SameDist (fun ρ : Fin 6 → Fin m → Word => (steps (m + 1) l (toSt (levelUp a (m + 1) (draws ρ) s))).2[j]?)
      (fun ρ => (steps (m + 1) l' (toSt (levelUp a' (m + 1) (draws ρ) s'))).2[j]?) := by
  have hf' : ∀ x ∈ l', x.Fits (m + 1) := by
    intro x hx
    obtain ⟨y, hy, e⟩ := List.mem_map.1 (hs ▸ List.mem_map_of_mem (f := Step.shape) hx)
    have := hf y hy
    cases x <;> cases y <;> simp only [Step.shape, reduceCtorEq, Step.absorb.injEq] at e <;>
      first | exact trivial | (unfold Step.Fits at this ⊢; omega)
  simp only [(C78_refresh h1 ha h3 s).1, (C78_refresh h1' ha' h3 s').1]
  have hL : ∀ μ : Fin m → Val, (steps (m + 1) l' (nShare (toSt s') (val a' (toSt s')) μ)).2 =
      (steps (m + 1) l' (nShare (toSt s) (val a' (toSt s')) μ)).2 := fun μ =>
    ((Local.steps (n := m + 1) (by omega) (by omega) hf').go _ _ (nShare_below _ _ _ μ)).1
  simp only [hL]
  exact SameDist.conj (C78_steps_probe (by omega) h3 (toSt s) (val a (toSt s)) (val a' (toSt s')) l l' hf hs j)
    (refreshMasks s) (refreshMasks s') (refreshWords s) (refreshWords s') (refreshWords_masks s) (refreshMasks_words s)
    (refreshWords_masks s') (refreshMasks_words s')

/-- Fewer shares of the message than of the key: whatever the state is after the message, one value in `ascon_final` and
`ascon_xortag` after `ascon_level_final` has a distribution independent of the state, the key, the tag and their sharings. -/
theorem C78_level_final_probe {g : Cfg} (hg : g.Supported) (hk : g.M < g.KEY) (s s' : MState)
    (K1 K2 t0 t1 K1' K2' t0' t1' : Nat → Fin 2 → U32) (j : Nat) :
    SameDist (fun ρ : Fin 6 → Fin (g.KEY - 1) → Word =>
        (steps g.KEY (comparison g.KEY g.C K1 K2 t0 t1) (toSt (ascon_level_final g (draws ρ) s))).2[j]?)
      (fun ρ => (steps g.KEY (comparison g.KEY g.C K1' K2' t0' t1') (toSt (ascon_level_final g (draws ρ) s'))).2[j]?) := by
  obtain ⟨KEY, NPUB, AD, M, C, bi⟩ := g
  unfold Cfg.Supported at hg
  simp only at hg hk
  obtain ⟨m, rfl⟩ : ∃ m, KEY = m + 1 := ⟨KEY - 1, by omega⟩
  unfold ascon_level_final
  simp only [if_pos (show M ≠ m + 1 by omega)]
  refine C78_refresh_probe (m := m) (by omega) (by omega) (by omega) (by omega) (by omega) s s' _ _ (comparison_fits (by omega) _ _ _ _)
    (comparison_shape _ _ _ _ _ _ _ _ _ _) j

/-- Fewer shares of the associated data than of the message: the same for `ascon_encrypt` after `ascon_level_encdec`. -/
theorem C78_level_encrypt_probe {g : Cfg} (hg : g.Supported) (hk : g.AD < g.M) (s s' : MState)
    (W W' : Nat → Nat → Fin 2 → U32) (mlen j : Nat) :
    SameDist (fun ρ : Fin 6 → Fin (g.M - 1) → Word =>
        (steps g.M (encSteps g.M W 0 mlen) (toSt (ascon_level_encdec g (draws ρ) s))).2[j]?)
      (fun ρ => (steps g.M (encSteps g.M W' 0 mlen) (toSt (ascon_level_encdec g (draws ρ) s'))).2[j]?) := by
  obtain ⟨KEY, NPUB, AD, M, C, bi⟩ := g
  unfold Cfg.Supported at hg
  simp only at hg hk
  obtain ⟨m, rfl⟩ : ∃ m, M = m + 1 := ⟨M - 1, by omega⟩
  unfold ascon_level_encdec
  simp only [if_pos (show AD ≠ m + 1 by omega)]
  exact C78_refresh_probe (m := m) (by omega) (by omega) (by omega) (by omega) (by omega) s s' _ _ (encSteps_fits (Nat.le_refl _) _ _ _)
    (encSteps_shape _ _ _ _ _) j

/-- The default configuration and the one with three shares of the key have a refresh there. -/
example : cfgDefault.Supported ∧ cfgDefault.M < cfgDefault.KEY ∧ cfgThree.Supported ∧ cfgThree.M < cfgThree.KEY :=
  ⟨by unfold Cfg.Supported; decide, by decide, by unfold Cfg.Supported; decide, by decide⟩
example : cfgMixed.Supported ∧ cfgMixed.AD < cfgMixed.M := ⟨cfgMixed_supported, by decide⟩

/-! ## Concrete cases -/

/-- A memory in which all loads and stores succeed. -/
def zeroMem : Mem := fun _ => .val 0

theorem zeroMem_load : ∃ w, ∀ p, run (MLOAD cfgFour.EXTERN_BI .little p cfgFour.KEY) zeroMem = some (w, zeroMem) := ⟨_, fun _ => rfl⟩

/-- Four shares of everything: 20 bytes of associated data at 0, 9 bytes of message at 256, its ciphertext at 512, key at 1024. -/
example (ρ1 ρ2 : Nat → Nat → Word) (s : MState) : ∃ s' mem', run (do
        let s := ascon_level_adata cfgFour s
        let s ← ascon_adata cfgFour .little s 0 20
        let s := ascon_level_encdec cfgFour ρ1 s
        let s ← ascon_encrypt cfgFour .little s 512 256 9
        let s := ascon_level_final cfgFour ρ2 s
        ascon_final cfgFour .little s 1024) zeroMem = some (s', mem') := by
  obtain ⟨w, hw⟩ := zeroMem_load
  obtain ⟨s', mem', h, -⟩ := C78_encryption_states (g := cfgFour) (by decide) (by decide) rfl rfl rfl ρ1 ρ2 zeroMem s (fun _ => w)
    (fun _ => w) w w 512 256 9 0 20 1024 (fun _ _ => rfl) (by unfold Disjoint cfgFour; simp) (by unfold Disjoint cfgFour; simp)
    (fun _ _ => hw _) (fun _ _ => hw _) (hw _) (hw _)
  exact ⟨s', mem', h⟩

/-- The comparison: the key at 0, the tag at 512. -/
example (s : MState) : ∃ s', run (do let s ← ascon_final cfgFour .little s 0; ascon_xortag cfgFour .little s 512) zeroMem =
    some (s', zeroMem) := by
  obtain ⟨w, hw⟩ := zeroMem_load
  obtain ⟨s', h, -⟩ := C78_comparison_states (g := cfgFour) (by decide) (by decide) .little zeroMem s w w w w 0 512 (hw _) (hw _)
    (hw _) (hw _)
  exact ⟨s', h⟩

end Ascon.Props
