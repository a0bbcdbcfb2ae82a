import Verif.Proof.MaskedProbeLink
import Verif.Proof.MaskedTop
import Verif.Props.Demo
/-!
# C64: the two-share code resists one probe

protected_bi32_armv6_leveled: while the key is in use (from the sharing of the key to the end of the first permutation,
and from the refreshing of the state to the comparison with the tag), no single intermediate value depends on the key, the
nonce or the state.
-/

namespace Ascon.Props

open Ascon.Spec Ascon.C Ascon.Masked Ascon.Masked.Probe
open Ascon.Gen (interleave32 deinterleave32_interleave32)

/-! ## Masks -/

/-- Same distribution, carried over to another way of choosing the masks. -/
theorem SameDist.conj {R M V : Type} {f g : M → V} (h : SameDist f g) (A B : R → M) (A' B' : M → R)
    (a1 : ∀ r, A' (A r) = r) (a2 : ∀ m, A (A' m) = m) (b1 : ∀ r, B' (B r) = r) (b2 : ∀ m, B (B' m) = m) :
    SameDist (fun r => f (A r)) (fun r => g (B r)) := by
  obtain ⟨φ, ψ, h1, h2, h3⟩ := h
  refine ⟨fun r => B' (φ (A r)), fun r => A' (ψ (B r)), fun r => ?_, fun r => ?_, fun r => ?_⟩
  · simp only [b2, h1, a1]
  · simp only [a2, h2, b1]
  · simp only [b2]; exact h3 _

/-- Masks made from six random words: word `k` from `ρ (σ k)`. -/
def masksOf (σ : Fin 6 → Fin 6) (g : Fin 6 → Word → share_t) (ρ : Fin 6 → Word) : Val :=
  fun k i => (g k (ρ (σ k))).get i.val

def wordsOf (τ : Fin 6 → Fin 6) (g' : Fin 6 → share_t → Word) (m : Val) : Fin 6 → Word :=
  fun j => g' (τ j) ⟨m (τ j) 0, m (τ j) 1⟩

theorem wordsOf_masksOf {σ τ : Fin 6 → Fin 6} {g : Fin 6 → Word → share_t} {g' : Fin 6 → share_t → Word}
    (hσ : ∀ j, σ (τ j) = j) (h : ∀ k w, g' k (g k w) = w) (ρ : Fin 6 → Word) : wordsOf τ g' (masksOf σ g ρ) = ρ := by
  funext j
  show g' (τ j) (g (τ j) (ρ (σ (τ j)))) = ρ j
  rw [h, hσ]

theorem masksOf_wordsOf {σ τ : Fin 6 → Fin 6} {g : Fin 6 → Word → share_t} {g' : Fin 6 → share_t → Word}
    (hτ : ∀ k, τ (σ k) = k) (h : ∀ k s, g k (g' k s) = s) (m : Val) : masksOf σ g (wordsOf τ g' m) = m := by
  funext k i
  show (g k (g' (τ (σ k)) ⟨m (τ (σ k)) 0, m (τ (σ k)) 1⟩)).get i.val = m k i
  rw [hτ, h]
  revert i
  exact two rfl rfl

/-- What `randombytes` delivers. -/
def tape (ρ : Fin 6 → Word) (i : Nat) : Word := if h : i < 6 then ρ ⟨i, h⟩ else 0

/-! ## The permutation -/

/-- `P(s, nr, 2)` on a uniformly shared state: any one value that appears (result, rotated operand or temporary, the `j`-th in
execution order) has a distribution that does not depend on the shared state, for every number of rounds. -/
theorem C64_perm_probe (nr : Nat) (S S' : Val) (j : Nat) :
    SameDist (fun m => (Probe.perm nr (share S m)).2[j]?) (fun m => (Probe.perm nr (share S' m)).2[j]?) :=
  (good_perm nr).probe S S' j

/-- There are 240 such values in each round, so 2880 in the permutation. -/
theorem C64_perm_values (nr : Nat) (s : St) : (Probe.perm nr s).2.length = 240 * nr := by
  have cons : ∀ (f : Op) (l : List Op) (s : St), (seq (f :: l) s).2.length = (f s).2.length + (seq l (f s).1).2.length :=
    fun f l s => List.length_append
  have nil : ∀ s : St, (seq [] s).2.length = 0 := fun _ => rfl
  have h1 : ∀ d k k' i s, (xorInto d k k' i s).2.length = 1 := fun _ _ _ _ _ => rfl
  have h2 : ∀ k i C s, (xorConst k i C s).2.length = 1 := fun _ _ _ _ => rfl
  have h3 : ∀ k i s, (notInto k i s).2.length = 1 := fun _ _ _ => rfl
  have h4 : ∀ dc c da a db b i r s, (eorBicRor dc c da a db b i r s).2.length = 3 := fun _ _ _ _ _ _ _ _ _ => rfl
  have h5 : ∀ dc c da a db b i r s, (eorAndRor dc c da a db b i r s).2.length = 3 := fun _ _ _ _ _ _ _ _ _ => rfl
  have h6 : ∀ k s, (reuse k s).2.length = 8 := fun _ _ => rfl
  have h7 : ∀ d k s, (linearWord d k s).2.length = 8 := fun _ _ _ => rfl
  have hr : ∀ Co Ce s, (Probe.round Co Ce s).2.length = 240 := by
    intro Co Ce s
    simp only [Probe.round, Probe.sbox, affine1, affine2, mxorbic, linear, cons, nil, h1, h2, h3, h4, h5, h6, h7]
  have : ∀ (l : List Op), (∀ f ∈ l, ∀ s, (f s).2.length = 240) → ∀ s, (seq l s).2.length = 240 * l.length := by
    intro l
    induction l with
    | nil => intro _ s; rfl
    | cons f l ih =>
      intro h s
      show ((f s).2 ++ (seq l (f s).1).2).length = _
      rw [List.length_append, h f (List.mem_cons_self ..), ih (fun g hg => h g (List.mem_cons_of_mem _ hg)),
        List.length_cons]
      omega
  unfold Probe.perm rounds
  rw [this _ fun f hf s => ?_, List.length_map, List.length_range]
  obtain ⟨j, -, rfl⟩ := List.mem_map.1 hf
  exact hr _ _ s

/-- The values do contain the state: two of them together give away bits of it (so this is protection against one probe,
and the statement above is not about constants). -/
theorem C64_two_probes_leak (nr : Nat) (S m : Val) : ∃ a b, (Probe.perm (nr + 1) (share S m)).2[1]? = some a ∧
    (Probe.perm (nr + 1) (share S m)).2[4]? = some b ∧
    a ^^^ ROR32 b 5 = S 2 0 ^^^ S 1 0 ^^^ (constants.getD (2 * (12 - (nr + 1))) 0).setWidth 32 := by
  unfold Probe.perm
  rw [rounds_cons]
  generalize (constants.getD (2 * (12 - (nr + 1)) + 1) 0) = Co, (constants.getD (2 * (12 - (nr + 1))) 0) = Ce,
    rounds (12 - (nr + 1) + 1) nr = rest
  have tsnd : ∀ (f g : Op) (s : St), (f.then g s).2 = (f s).2 ++ (g (f s).1).2 := fun f g s => by unfold Op.then; rfl
  have csnd : ∀ (f : Op) (l : List Op) (s : St), (seq (f :: l) s).2 = (f s).2 ++ (seq l (f s).1).2 := fun f l s => by
    rw [seq, tsnd]
  obtain ⟨tl, ht⟩ : ∃ tl, ((Probe.round Co Ce).then rest (share S m)).2 = (xorConst 2 0 (Ce.setWidth 32) (share S m)).2 ++
      ((affine1 0 0 (xorConst 2 0 (Ce.setWidth 32) (share S m)).1).2 ++
      ((affine1 0 1 (affine1 0 0 (xorConst 2 0 (Ce.setWidth 32) (share S m)).1).1).2 ++ tl)) := by
    refine ⟨?_, ?_⟩
    rotate_left
    · unfold Probe.round Probe.sbox
      simp only [tsnd, csnd, List.append_assoc]
      rfl
  rw [ht]
  refine ⟨_, _, rfl, rfl, ?_⟩
  show (S 2 0 ^^^ Masked.ROR32 (m 2 0) 5 ^^^ Ce.setWidth 32) ^^^ (S 1 0 ^^^ Masked.ROR32 (m 1 0) 5) ^^^
    Masked.ROR32 (m 2 0 ^^^ m 1 0) 5 = _
  rw [ROR32_xor _ _ _ (by omega)]
  generalize Masked.ROR32 (m 2 0) 5 = x, Masked.ROR32 (m 1 0) 5 = y, S 2 0 = u, S 1 0 = v, Ce.setWidth 32 = c
  apply BitVec.eq_of_getLsbD_eq; intro j hj
  simp only [BitVec.getLsbD_xor]
  generalize x.getLsbD j = x, y.getLsbD j = y, u.getLsbD j = u, v.getLsbD j = v, c.getLsbD j = c
  revert x y u v c; decide

/-! ## From the key to the first permutation -/

theorem toSt_share (s : MState) : toSt s =
    share (fun k i => (word s k).get 0 i.val ^^^ Masked.ROR32 ((word s k).get 1 i.val) 5) (fun k i => (word s k).get 1 i.val) := by
  refine st_ext ?_ rfl
  funext k i
  exact (xx' _ _).symm

theorem val_of_PV {w : word_t} {x : Word} (h : PV 2 w = x) (i : Fin 2) :
    w.get 0 i.val ^^^ Masked.ROR32 (w.get 1 i.val) 5 = (unpk x).get i.val := by
  rw [← h]
  unfold PV
  rw [unpk_pk]
  revert i
  exact two rfl rfl

/-- The key word `κ` as it is loaded after `generate_shares` has split it with the random word `r`. -/
def keyWord (κ r : Word) : word_t := ⟨unpk (enc (ROR64 r 10 ^^^ κ)), unpk (enc r)⟩

/-- The state before the first permutation, for the random words `ρ 0`, `ρ 1` (key) and `ρ 2` … `ρ 5` (state). -/
def firstState (K N : List Byte) (ρ : Nat → Word) : MState :=
  initState (fun i => ρ (2 + i)) (ldw (N.take 8)) (ldw (N.drop 8)) (keyWord (le64 (K.take 8)) (ρ 0))
    (keyWord (le64 (K.drop 8)) (ρ 1))

/-- The six words of that state without masks, in the order of `ascon_state_t` and bit interleaved. -/
def firstVals (K N : List Byte) : Fin 6 → Word
  | 0 => enc ivAead
  | 1 => enc (le64 (K.take 8))
  | 2 => enc (le64 (K.drop 8))
  | 3 => enc (le64 (N.take 8))
  | 4 => enc (le64 (N.drop 8))
  | 5 => 0

def firstMask : Fin 6 → Word → share_t
  | 1, r => unpk (enc r)
  | 2, r => unpk (enc r)
  | _, r => ⟨ROR32 (unpk r).w0 7, ROR32 (unpk r).w1 7⟩

def firstMask' : Fin 6 → share_t → Word
  | 1, s => interleave32 .little (pk s)
  | 2, s => interleave32 .little (pk s)
  | _, s => pk ⟨ROR32 s.w0 25, ROR32 s.w1 25⟩

def firstSrc : Fin 6 → Fin 6
  | 0 => 3 | 1 => 0 | 2 => 1 | 3 => 4 | 4 => 5 | 5 => 2

def firstSrc' : Fin 6 → Fin 6
  | 3 => 0 | 0 => 1 | 1 => 2 | 4 => 3 | 5 => 4 | 2 => 5

theorem ROR32_25_7 (x : U32) : ROR32 (ROR32 x 25) 7 = x := by
  rw [ROR32_comm _ _ _ (by omega) (by omega), ROR32_7_25]

theorem mask1_inv (w : Word) : interleave32 .little (pk (unpk (enc w))) = w := by
  rw [pk_unpk, dec_enc]

theorem mask2_inv (w : Word) : pk ⟨Masked.ROR32 (Masked.ROR32 (unpk w).w0 7) 25, Masked.ROR32 (Masked.ROR32 (unpk w).w1 7) 25⟩ = w := by
  rw [ROR32_7_25, ROR32_7_25]; exact pk_unpk w

theorem mask1_inv' (s : share_t) : unpk (enc (interleave32 .little (pk s))) = s := by
  rw [show enc (interleave32 .little (pk s)) = pk s from deinterleave32_interleave32 _, unpk_pk]

theorem mask2_inv' (s : share_t) : share_t.mk (Masked.ROR32 (unpk (pk ⟨Masked.ROR32 s.w0 25, Masked.ROR32 s.w1 25⟩)).w0 7)
    (Masked.ROR32 (unpk (pk ⟨Masked.ROR32 s.w0 25, Masked.ROR32 s.w1 25⟩)).w1 7) = s := by
  rw [unpk_pk]
  simp only [ROR32_25_7]

theorem firstMask_inv (k : Fin 6) (w : Word) : firstMask' k (firstMask k w) = w := by
  revert k
  exact six (mask2_inv w) (mask1_inv w) (mask1_inv w) (mask2_inv w) (mask2_inv w) (mask2_inv w)

theorem firstMask_inv' (k : Fin 6) (s : share_t) : firstMask k (firstMask' k s) = s := by
  revert k
  exact six (mask2_inv' s) (mask1_inv' s) (mask1_inv' s) (mask2_inv' s) (mask2_inv' s) (mask2_inv' s)

theorem PV_nonce (D : List Byte) (r : Word) : PV 2 (MXOR (ldw D) (MZERO r) 2) = enc (le64 D) := by
  rw [PV_MXOR2, PV_MZERO, PV2_ldw, xz]

theorem mask_nonce (D : List Byte) (r : Word) (i : Fin 2) : (MXOR (ldw D) (MZERO r) 2).get 1 i.val =
    (share_t.mk (Masked.ROR32 (unpk r).w0 7) (Masked.ROR32 (unpk r).w1 7)).get i.val := by
  have e : MXOR (ldw D) (MZERO r) 2 = ⟨(MXOR (ldw D) (MZERO r) 2).s0,
      ⟨0 ^^^ Masked.ROR32 (unpk r).w0 7, 0 ^^^ Masked.ROR32 (unpk r).w1 7⟩⟩ := rfl
  have z : ∀ x : U32, (0 : U32) ^^^ x = x := fun x => BitVec.zero_xor
  rw [e, z, z]
  revert i
  exact two rfl rfl

theorem mask_zero (r : Word) (i : Fin 2) : (MZERO r).get 1 i.val =
    (share_t.mk (Masked.ROR32 (unpk r).w0 7) (Masked.ROR32 (unpk r).w1 7)).get i.val := by
  revert i
  exact two rfl rfl

theorem mask_iv (r : Word) (i : Fin 2) : (initX0 r).get 1 i.val =
    (share_t.mk (Masked.ROR32 (unpk r).w0 7) (Masked.ROR32 (unpk r).w1 7)).get i.val := by
  revert i
  exact two rfl rfl

theorem mask_key (κ r : Word) (i : Fin 2) : (keyWord κ r).get 1 i.val = (unpk (enc r)).get i.val := by
  revert i
  exact two rfl rfl

theorem firstState_share (K N : List Byte) (ρ : Fin 6 → Word) : toSt (firstState K N (tape ρ)) =
    share (fun k i => (unpk (firstVals K N k)).get i.val) (masksOf firstSrc firstMask ρ) := by
  have t : ∀ i : Fin 6, tape ρ i.val = ρ i := fun i => dif_pos i.isLt
  have w0 : word (firstState K N (tape ρ)) 0 = initX0 (ρ 3) := by rw [← t 3]; rfl
  have w1 : word (firstState K N (tape ρ)) 1 = keyWord (le64 (K.take 8)) (ρ 0) := by rw [← t 0]; rfl
  have w2 : word (firstState K N (tape ρ)) 2 = keyWord (le64 (K.drop 8)) (ρ 1) := by rw [← t 1]; rfl
  have w3 : word (firstState K N (tape ρ)) 3 = MXOR (ldw (N.take 8)) (MZERO (ρ 4)) 2 := by rw [← t 4]; rfl
  have w4 : word (firstState K N (tape ρ)) 4 = MXOR (ldw (N.drop 8)) (MZERO (ρ 5)) 2 := by rw [← t 5]; rfl
  have w5 : word (firstState K N (tape ρ)) 5 = MZERO (ρ 2) := by rw [← t 2]; rfl
  have hS : (fun (k : Fin 6) (i : Fin 2) => (word (firstState K N (tape ρ)) k).get 0 i.val ^^^
      Masked.ROR32 ((word (firstState K N (tape ρ)) k).get 1 i.val) 5) =
        fun k i => (unpk (firstVals K N k)).get i.val := by
    funext k i
    refine val_of_PV ?_ i
    revert k
    refine six ?_ ?_ ?_ ?_ ?_ ?_
    · rw [w0]; exact Masked.PV_initX0 _
    · rw [w1]; exact PV2_shared _ _
    · rw [w2]; exact PV2_shared _ _
    · rw [w3]; exact PV_nonce _ _
    · rw [w4]; exact PV_nonce _ _
    · rw [w5]; exact PV_MZERO _
  have hm : (fun (k : Fin 6) (i : Fin 2) => (word (firstState K N (tape ρ)) k).get 1 i.val) =
      masksOf firstSrc firstMask ρ := by
    funext k i
    revert k
    refine six ?_ ?_ ?_ ?_ ?_ ?_
    · rw [w0]; exact mask_iv _ i
    · rw [w1]; exact mask_key _ _ i
    · rw [w2]; exact mask_key _ _ i
    · rw [w3]; exact mask_nonce _ _ i
    · rw [w4]; exact mask_nonce _ _ i
    · rw [w5]; exact mask_zero _ i
  rw [toSt_share, hS, hm]

/-- From the sharing of the key on, through the whole of the first permutation: whatever the key and the nonce are, any one
value has the same distribution. -/
theorem C64_init_probe (K K' N N' : List Byte) (j : Nat) :
    SameDist (fun ρ => (Probe.perm 12 (toSt (firstState K N (tape ρ)))).2[j]?)
      (fun ρ => (Probe.perm 12 (toSt (firstState K' N' (tape ρ)))).2[j]?) := by
  simp only [firstState_share]
  have h1 : ∀ j, firstSrc (firstSrc' j) = j := by decide
  have h2 : ∀ j, firstSrc' (firstSrc j) = j := by decide
  exact SameDist.conj (C64_perm_probe 12 _ _ j) (masksOf firstSrc firstMask) (masksOf firstSrc firstMask)
    (wordsOf firstSrc' firstMask') (wordsOf firstSrc' firstMask')
    (wordsOf_masksOf h1 firstMask_inv) (masksOf_wordsOf h2 firstMask_inv')
    (wordsOf_masksOf h1 firstMask_inv) (masksOf_wordsOf h2 firstMask_inv')

theorem load_keyWords {ρ : Nat → Word} {mem0 mem mem' : Mem} {s : Nat} {K : List Byte}
    (h : Arr mem0 mem s 2 4 (fun r c => some (shareArr ρ 2 (wordAt K) r c)))
    (ha : ∀ a, s ≤ a → a < s + 32 → mem' a = mem a) :
    run (MLOAD .little s 2) mem' = some (keyWord (le64 (K.take 8)) (ρ 0), mem') ∧
      run (MLOAD .little (s + 16) 2) mem' = some (keyWord (le64 (K.drop 8)) (ρ 1), mem') := by
  have hs : ∀ j, shareWord ρ 2 (wordAt K) j 0 = Masked.ROR64 (ρ j) 10 ^^^ wordAt K j := by
    intro j
    simp only [shareWord, if_true, maskX, Nat.mul_one, Nat.add_zero, Nat.reduceSub, zx]
    rfl
  have hs1 : ∀ j, shareWord ρ 2 (wordAt K) j 1 = ρ j := by
    intro j; simp [shareWord]
  have hv : ∀ r c, r < 4 → c < 2 → mem.Holds (s + 4 * (r * 2 + c)) (repr32 .little (shareArr ρ 2 (wordAt K) r c)) :=
    fun r c hr hc => h.val r c _ hr hc rfl
  have hv' : ∀ r c, r < 4 → c < 2 → mem'.Holds (s + 4 * (r * 2 + c)) (repr32 .little (shareArr ρ 2 (wordAt K) r c)) :=
    fun r c hr hc => holds_of_agree (hv r c hr hc) fun a h1 h2 => ha a (by omega) (by rw [length_repr32] at h2; omega)
  have sa : ∀ r c, shareArr ρ 2 (wordAt K) r c = halfOf r (shareWord ρ 2 (wordAt K) (r / 2) c) := fun _ _ => rfl
  have e0 : wordAt K 0 = le64 (K.take 8) := by
    rw [le64_take8]; rfl
  unfold keyWord
  rw [← e0, show le64 (K.drop 8) = wordAt K 1 from rfl]
  refine ⟨run_MLOAD2 ?_ ?_ ?_ ?_, run_MLOAD2 ?_ ?_ ?_ ?_⟩
  · have := hv' 0 0 (by omega) (by omega); rw [sa, hs] at this; exact this
  · have := hv' 0 1 (by omega) (by omega); rw [sa, hs1] at this; exact this
  · have := hv' 1 0 (by omega) (by omega); rw [sa, hs] at this; exact this
  · have := hv' 1 1 (by omega) (by omega); rw [sa, hs1] at this; exact this
  · have := hv' 2 0 (by omega) (by omega); rw [sa, hs] at this; exact this
  · have := hv' 2 1 (by omega) (by omega); rw [sa, hs1] at this; exact this
  · have := hv' 3 0 (by omega) (by omega); rw [sa, hs] at this; exact this
  · have := hv' 3 1 (by omega) (by omega); rw [sa, hs1] at this; exact this

attribute [local irreducible] Probe.perm

/-- The instrumented code is the code: splitting key and nonce (crypto_aead.c, shares.c) and `ascon_initaead` compute exactly
the state that the instrumented permutation computes from `firstState`, followed by the second key addition. -/
theorem C64_init_states (ρ : Nat → Word) (mem : Mem) (k npub ks ns : Nat) (K N : List Byte) (hK : K.length = 16)
    (hN : N.length = 16) (hk : mem.Holds k K) (hn : mem.Holds npub N) (hks : mem.Writable ks 32) (hns : mem.Writable ns 16)
    (d1 : Disjoint k 16 ks 32) (d2 : Disjoint npub 16 ks 32) (d3 : Disjoint npub 16 ns 16) (d4 : Disjoint ks 32 ns 16) :
    ∃ s' mem', run (do
        generate_shares .little ρ ks 2 k 16
        generate_shares .little ρ ns 1 npub 16
        ascon_initaead .little (fun i => ρ (2 + i)) ks ns) mem = some (s', mem') ∧
      toSt s' = (seq [Probe.perm 12, mxor 3 (ofWord (keyWord (le64 (K.take 8)) (ρ 0))),
        mxor 4 (ofWord (keyWord (le64 (K.drop 8)) (ρ 1)))] (toSt (firstState K N ρ))).1 := by
  obtain ⟨m1, r1, A1⟩ := run_generate_shares (ρ := ρ) (s := ks) (n := 2) (by omega)
    (by rw [hK]; exact hks) hk (by rw [hK]; exact d1)
  rw [hK, show NUM_WORDS 16 = 4 from rfl] at A1
  rw [hK] at r1
  have hw2 : m1.Writable ns 16 := by
    intro i hi
    rw [A1.out _ (by unfold Disjoint at d4; omega)]
    exact hns i hi
  have hn1 : m1.Holds npub N := holds_of_agree hn fun a h1 h2 => A1.out a (by unfold Disjoint at d2; omega)
  obtain ⟨m2, r2, A2⟩ := run_generate_shares (ρ := ρ) (mem := m1) (s := ns) (n := 1) (by omega)
    (by rw [hN]; exact hw2) hn1 (by rw [hN]; exact d3)
  have hns2 : m2.Holds ns (padded N) := holds_of_arr1 A2
  rw [hN, show NUM_WORDS 16 = 4 from rfl] at A2
  rw [hN] at r2
  obtain ⟨l1, l2⟩ := load_keyWords A1 (mem' := m2) fun a h1 h2 => A2.out a (by unfold Disjoint at d4; omega)
  have hp8 : m2.Holds (ns + 8) (padded (N.drop 8)) := padded_holds_drop 1 hns2 (by omega)
  obtain ⟨s', hs', hP⟩ := link_P (nr := 12) (by decide) (by decide) (firstState K N ρ) m2
  refine ⟨⟨s'.x0, s'.x1, s'.x2, MXOR s'.x3 (keyWord (le64 (K.take 8)) (ρ 0)) 2,
    MXOR s'.x4 (keyWord (le64 (K.drop 8)) (ρ 1)) 2, s'.x5⟩, m2, ?_, ?_⟩
  · rw [run_bind_of r1, run_bind_of r2]
    unfold ascon_initaead
    rw [run_bind_of (run_MLOAD1 hns2 (ne_nil_of_le (k := 16) (by omega) (by omega))),
      run_bind_of (run_MLOAD1 hp8 (ne_nil_of_le (k := 8) (by simp; omega) (by omega))),
      run_bind_of l1, run_bind_of l2]
    have e : initState (fun i => ρ (2 + i)) (ldw N) (ldw (N.drop 8)) (keyWord (le64 (K.take 8)) (ρ 0))
        (keyWord (le64 (K.drop 8)) (ρ 1)) = firstState K N ρ := by
      unfold firstState
      rw [show ldw (N.take 8) = ldw N by unfold ldw; rw [le64_take8]]
    rw [e, run_bind_of hP]
    rfl
  · simp only [seq_cons, seq_nil]
    rw [← hs', link_mxor3, link_mxor4]

/-- A concrete call: key at 0, nonce at 16, the share buffers at 200 and 100. -/
example (ρ : Nat → Word) : ∃ s' mem', run (do
    generate_shares .little ρ 200 2 0 16
    generate_shares .little ρ 100 1 16 16
    ascon_initaead .little (fun i => ρ (2 + i)) 200 100) Demo.mem = some (s', mem') := by
  obtain ⟨s', mem', h, -⟩ := C64_init_states ρ Demo.mem 0 16 200 100 Demo.K Demo.N rfl rfl Demo.holdsK Demo.holdsN
    (fun i hi => Demo.out36 i (by omega)) (by unfold Mem.Writable; decide +kernel) (by unfold Disjoint; omega) (by unfold Disjoint; omega)
    (by unfold Disjoint; omega) (by unfold Disjoint; omega)
  exact ⟨s', mem', h⟩

/-! ## From the refreshed state to the comparison of the tag -/

theorem finalState_share (s : MState) (ρ : Fin 6 → Word) : toSt (ascon_level_final (tape ρ) s) =
    share (fun k i => (word s k).s0.get i.val)
      (masksOf id (fun k r => ⟨(word s k).s1.w0 ^^^ (unpk r).w0, (word s k).s1.w1 ^^^ (unpk r).w1⟩) ρ) := by
  have key : ∀ (w : word_t) (r : Word) (i : Fin 2), (MREFRESH (MEXPAND w 1 2) r).get 0 i.val ^^^
      Masked.ROR32 ((MREFRESH (MEXPAND w 1 2) r).get 1 i.val) 5 = w.s0.get i.val := by
    intro w r i
    rw [val_of_PV ((PV_MREFRESH _ r).trans ((PV_MEXPAND12 w).trans (PV1 w))), unpk_pk]
  rw [toSt_share]
  congr 1
  · funext k i
    revert k
    refine six ?_ ?_ ?_ ?_ ?_ ?_ <;> exact key _ _ i
  · funext k i
    revert k i
    refine six (two rfl rfl) (two rfl rfl) (two rfl rfl) (two rfl rfl) (two rfl rfl) (two rfl rfl)

/-- What is done with the state between `ascon_level_final` and the comparison in decryption (encryption: the first part
only): `ascon_final`, then `ascon_xortag`. -/
def finish (K1 K2 t0 t1 : word_t) : Op := (final (ofWord K1) (ofWord K2)).then (xortag (half0 t0) (half0 t1))

attribute [local irreducible] final xortag

/-- From the refreshing of the state on, whatever the state was, whatever the two shares of the key and the received tag are:
any one value has the same distribution. -/
theorem C64_final_probe (s s' : MState) (K1 K2 t0 t1 K1' K2' t0' t1' : word_t) (j : Nat) :
    SameDist (fun ρ => (finish K1 K2 t0 t1 (toSt (ascon_level_final (tape ρ) s))).2[j]?)
      (fun ρ => (finish K1' K2' t0' t1' (toSt (ascon_level_final (tape ρ) s'))).2[j]?) := by
  have hf : Fam (fun θ : word_t × word_t × word_t × word_t =>
      (final (ofWord θ.1) (ofWord θ.2.1)).then (xortag (half0 θ.2.2.1) (half0 θ.2.2.2))) :=
    (fam_final (fun θ : word_t × word_t × word_t × word_t => ofWord θ.1) (fun θ => ofWord θ.2.1)).then
      (fam_xortag (fun θ : word_t × word_t × word_t × word_t => half0 θ.2.2.1) (fun θ => half0 θ.2.2.2))
  simp only [finalState_share, finish]
  have inv : ∀ (s : MState) (k : Fin 6) (r : Word), pk ⟨(word s k).s1.w0 ^^^ ((word s k).s1.w0 ^^^ (unpk r).w0),
      (word s k).s1.w1 ^^^ ((word s k).s1.w1 ^^^ (unpk r).w1)⟩ = r := by
    intro s k r
    rw [xx, xx]
    exact pk_unpk r
  have inv' : ∀ (s : MState) (k : Fin 6) (t : share_t),
      share_t.mk ((word s k).s1.w0 ^^^ (unpk (pk ⟨(word s k).s1.w0 ^^^ t.w0, (word s k).s1.w1 ^^^ t.w1⟩)).w0)
        ((word s k).s1.w1 ^^^ (unpk (pk ⟨(word s k).s1.w0 ^^^ t.w0, (word s k).s1.w1 ^^^ t.w1⟩)).w1) = t := by
    intro s k t
    rw [unpk_pk]
    simp only [xx]
  have hp := hf.probe (K1, K2, t0, t1) (K1', K2', t0', t1') (fun k i => (word s k).s0.get i.val)
    (fun k i => (word s' k).s0.get i.val) j
  exact SameDist.conj hp
    (masksOf id (fun k r => ⟨(word s k).s1.w0 ^^^ (unpk r).w0, (word s k).s1.w1 ^^^ (unpk r).w1⟩))
    (masksOf id (fun k r => ⟨(word s' k).s1.w0 ^^^ (unpk r).w0, (word s' k).s1.w1 ^^^ (unpk r).w1⟩))
    (wordsOf id fun k t => pk ⟨(word s k).s1.w0 ^^^ t.w0, (word s k).s1.w1 ^^^ t.w1⟩)
    (wordsOf id fun k t => pk ⟨(word s' k).s1.w0 ^^^ t.w0, (word s' k).s1.w1 ^^^ t.w1⟩)
    (wordsOf_masksOf (fun _ => rfl) (inv s)) (masksOf_wordsOf (fun _ => rfl) (inv' s))
    (wordsOf_masksOf (fun _ => rfl) (inv s')) (masksOf_wordsOf (fun _ => rfl) (inv' s'))

/-- The instrumented code is the code: `ascon_final` and `ascon_xortag` compute the states of `finish`. -/
theorem C64_final_states (e : Endian) (s : MState) (k t : Nat) (mem : Mem) (K1 K2 t0 t1 : word_t)
    (h1 : run (MLOAD e k 2) mem = some (K1, mem)) (h2 : run (MLOAD e (k + 16) 2) mem = some (K2, mem))
    (h3 : run (MLOAD e t 1) mem = some (t0, mem)) (h4 : run (MLOAD e (t + 8) 1) mem = some (t1, mem)) :
    ∃ s', run (do let s ← ascon_final e s k; ascon_xortag e s t) mem = some (s', mem) ∧
      toSt s' = (finish K1 K2 t0 t1 (toSt s)).1 := by
  obtain ⟨s1, e1, r1⟩ := link_final h1 h2 s
  obtain ⟨s2, e2, r2⟩ := link_xortag h3 h4 s1
  refine ⟨s2, ?_, ?_⟩
  · rw [run_bind_of r1]; exact r2
  · rw [e2, e1]; unfold finish; rw [then_fst]

/-- Words can be loaded: a memory in which the loads succeed. -/
example : ∃ K1 K2 t0 t1 : word_t, run (MLOAD .little 0 2) Demo.mem = some (K1, Demo.mem) ∧
    run (MLOAD .little (0 + 16) 2) Demo.mem = some (K2, Demo.mem) ∧ run (MLOAD .little 100 1) Demo.mem = some (t0, Demo.mem) ∧
    run (MLOAD .little (100 + 8) 1) Demo.mem = some (t1, Demo.mem) := ⟨_, _, _, _, rfl, rfl, rfl, rfl⟩

end Ascon.Props
