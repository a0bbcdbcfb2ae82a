import Verif.Proof.MaskedTop
import Verif.Proof.MaskedCT
import Verif.Proof.MaskedSecrecy
import Verif.Proof.Registry
import Verif.Proof.SpecAead
import Verif.Props.Demo
/-!
# The masked implementation protected_bi32_armv6_leveled (C33, C34, C35, C41)

All theorems are about little-endian targets (ARMv6/ARMv7 in their usual configuration), and hold for every sequence of
random words `ρ` delivered by `randombytes` and every placement `h` of the blocks returned by `malloc`.
-/

namespace Ascon.Masked

open Ascon.Spec Ascon.C Ascon.Gen
open Ascon.C.Prog (load64 loadN)

attribute [local irreducible] perm deinterleave32 interleave32

/-! ## Concrete memories -/

/-- Five blocks at 1000, 1100, … -/
def demoHeap : Heap := ⟨1000, 1100, 1200, 1300, 1400⟩

theorem demoFresh (m : Mem) (hm : ∀ a, 1000 ≤ a → m a = .unalloc) (na nm nc : Nat) (ha : na ≤ 100) (hn : nm ≤ 100) :
    FreshBlocks m [(1000, 32), (1100, 16), (1200, na), (1300, nm), (1400, nc)] := by
  refine ⟨?_, ?_⟩
  · intro b hb i _
    simp only [List.mem_cons, List.not_mem_nil, or_false] at hb
    rcases hb with rfl | rfl | rfl | rfl | rfl <;> exact hm _ (by simp <;> omega)
  · simp [Disjoint]
    try omega

theorem demo_high (a : Nat) (h : 1000 ≤ a) : Demo.memC a = .unalloc := by
  unfold Demo.memC Demo.mem
  have hK : Demo.K.length = 16 := rfl
  have hN : Demo.N.length = 16 := rfl
  have hA : Demo.A.length = 5 := rfl
  have hP : Demo.P.length = 20 := rfl
  have hC : Demo.C.length = 36 := rfl
  rw [writes_out (by omega), writes_out (by omega), writes_out (by omega), writes_out (by omega), writes_out (by omega),
    fill_out (by omega), fill_out (by omega), fill_out (by omega), fill_out (by omega)]
  rfl

theorem demoEnc : EncPre Demo.memC demoHeap 200 300 100 32 16 0 Demo.K Demo.N Demo.A Demo.P where
  key := Demo.decPre.key
  keyLen := rfl
  nonce := Demo.decPre.nonce
  nonceLen := rfl
  adata := Demo.decPre.adata
  adLen := by decide
  msg := by unfold Mem.Holds; decide +kernel
  msgLen := by decide
  out := by unfold Mem.Writable; decide +kernel
  outLen := by unfold Mem.Writable; decide +kernel
  heap := demoFresh _ demo_high _ _ _ (by decide) (by decide)

/-- The length variable and the ciphertext buffer may even overlap the key and the message. -/
example : EncPre Demo.memC demoHeap 100 0 100 32 16 0 Demo.K Demo.N Demo.A Demo.P :=
  { demoEnc with
    out := by unfold Mem.Writable; decide +kernel
    outLen := by unfold Mem.Writable; decide +kernel }

theorem demoDec : DecPre Demo.memC demoHeap 100 300 200 32 16 0 Demo.K Demo.N Demo.A Demo.C where
  key := Demo.decPre.key
  keyLen := rfl
  nonce := Demo.decPre.nonce
  nonceLen := rfl
  adata := Demo.decPre.adata
  adLen := by decide
  ct := Demo.decPre.ct
  ctMin := by decide
  ctLen := by decide
  out := Demo.decPre.out
  outLen := Demo.decPre.outLen
  heap := demoFresh _ demo_high _ _ _ (by decide) (by decide)

/-! ## C33 -/

/-- **C33** For every sequence of random masks, `crypto_aead_encrypt` computes the Ascon-AEAD128 ciphertext and tag,
however the caller's buffers overlap; afterwards all temporary memory has been freed. -/
theorem C33_encrypt_masked_correct : EncCorrectAt .little crypto_aead_encrypt :=
  fun ρ h mem c clen m ad npub k K N A P pre => run_encrypt ρ h mem c clen m ad npub k K N A P pre

/-- A concrete call. -/
example (ρ : Nat → Word) : ∃ mem', run (crypto_aead_encrypt ρ demoHeap .little 200 300 100 Demo.P.length 32 Demo.A.length
    16 0) Demo.memC = some (0, mem') := ⟨_, C33_encrypt_masked_correct ρ demoHeap _ _ _ _ _ _ _ _ _ _ _ demoEnc⟩

/-- Decryption writes the Ascon-AEAD128 candidate plaintext and its length for every sequence of random masks; see C34
for the returned value. -/
theorem C33_decrypt_masked_output : DecBehavesAt .little crypto_aead_decrypt :=
  fun ρ h mem m mlen c ad npub k K N A C pre => run_decrypt ρ h mem m mlen c ad npub k K N A C pre

/-- A concrete call. -/
example (ρ : Nat → Word) : ∃ r mem', run (crypto_aead_decrypt ρ demoHeap .little 100 300 200 Demo.C.length 32
    Demo.A.length 16 0) Demo.memC = some (r, mem') :=
  ⟨_, _, C33_decrypt_masked_output ρ demoHeap _ _ _ _ _ _ _ _ _ _ _ demoDec⟩

theorem xor_self0 (x : Word) : x ^^^ x = 0 := BitVec.xor_self

theorem digest_zero (f : Word → Word → List Bool) {a b : Word} (ha : a = 0) (hb : b = 0) : f a b = f 0 0 := by
  subst ha; subst hb; rfl

theorem tagsMatch32_self (T : List Byte) : tagsMatch32 T T :=
  digest_zero tagDigest (xor_self0 _) (xor_self0 _)

/-- What decryption computes for the ciphertext of `P` with some other tag `T'`. -/
theorem replaced_tag (K N A P T' : List Byte) (hT : T'.length = 16) :
    ctBody ((aeadEncrypt K N A P).take P.length ++ T') = (aeadEncrypt K N A P).take P.length ∧
    ctTag ((aeadEncrypt K N A P).take P.length ++ T') = T' ∧
    aeadCandidate K N A ((aeadEncrypt K N A P).take P.length) = P ∧
    aeadDecTag K N A ((aeadEncrypt K N A P).take P.length) = (aeadEncrypt K N A P).drop P.length := by
  have hl := length_aeadEncrypt K N A P
  have ht : ((aeadEncrypt K N A P).take P.length).length = P.length := by rw [List.length_take]; omega
  refine ⟨?_, ?_, ?_, ?_⟩
  · unfold ctBody
    rw [List.length_append, ht, hT, Nat.add_sub_cancel, List.take_append_of_le_length (by omega),
      List.take_of_length_le (by omega)]
  · unfold ctTag
    rw [List.length_append, ht, hT, Nat.add_sub_cancel, List.drop_append_of_le_length (by omega),
      List.drop_of_length_le (by omega), List.nil_append]
  · rw [take_aeadEncrypt]; unfold aeadCandidate; rw [decBody_encBody]
  · rw [take_aeadEncrypt, drop_aeadEncrypt]; unfold aeadDecTag; rw [decBody_encBody]

/-- Decryption of the ciphertext of `P` with the tag replaced by `T'`. -/
theorem run_decrypt_replaced (ρ : Nat → Word) (h : Heap) (mem : Mem) (m mlen c ad npub k : Nat)
    (K N A P T' : List Byte) (hT : T'.length = 16) (hm : tagsMatch32 T' ((aeadEncrypt K N A P).drop P.length))
    (pre : DecPre mem h m mlen c ad npub k K N A ((aeadEncrypt K N A P).take P.length ++ T')) :
    run (crypto_aead_decrypt ρ h .little m mlen c (P.length + 16) ad A.length npub k) mem =
      some (0, (mem.writes mlen (repr64 .little (BitVec.ofNat 64 P.length))).writes m P) := by
  have r := C33_decrypt_masked_output ρ h mem m mlen c ad npub k K N A _ pre
  obtain ⟨h1, h2, h3, h4⟩ := replaced_tag K N A P T' hT
  have hl : ((aeadEncrypt K N A P).take P.length ++ T').length = P.length + 16 := by
    rw [List.length_append, List.length_take, length_aeadEncrypt, hT]; omega
  have hq : tagsMatch32 (ctTag ((aeadEncrypt K N A P).take P.length ++ T'))
      (aeadDecTag K N A (ctBody ((aeadEncrypt K N A P).take P.length ++ T'))) := by
    rw [h1, h2, h4]; exact hm
  rw [if_pos hq, h1, h3, hl, Nat.add_sub_cancel] at r
  exact r

/-- A genuine ciphertext is accepted and decrypted to its plaintext. -/
theorem C33_decrypt_masked_genuine (ρ : Nat → Word) (h : Heap) (mem : Mem) (m mlen c ad npub k : Nat)
    (K N A P : List Byte) (pre : DecPre mem h m mlen c ad npub k K N A (aeadEncrypt K N A P)) :
    run (crypto_aead_decrypt ρ h .little m mlen c (P.length + 16) ad A.length npub k) mem =
      some (0, (mem.writes mlen (repr64 .little (BitVec.ofNat 64 P.length))).writes m P) := by
  have hl := length_aeadEncrypt K N A P
  refine run_decrypt_replaced ρ h mem m mlen c ad npub k K N A P ((aeadEncrypt K N A P).drop P.length)
    (by rw [List.length_drop]; omega) (tagsMatch32_self _) ?_
  rw [List.take_append_drop]
  exact pre

/-- Its hypothesis can be met: the ciphertext is at 200. -/
theorem demoReceived (C : List Byte) (hC : C.length = 36) :
    DecPre (Demo.mem.writes 200 C) demoHeap 100 300 200 32 16 0 Demo.K Demo.N Demo.A C where
  key := (Demo.holdsK).writes_disjoint (by unfold Disjoint; rw [hC]; decide)
  keyLen := rfl
  nonce := (Demo.holdsN).writes_disjoint (by unfold Disjoint; rw [hC]; decide)
  nonceLen := rfl
  adata := (Demo.holdsA).writes_disjoint (by unfold Disjoint; rw [hC]; decide)
  adLen := by decide
  ct := holds_writes_self _ _ _
  ctMin := by omega
  ctLen := by rw [hC]; decide
  out := Mem.Writable.writes (by rw [hC]; unfold Mem.Writable; decide +kernel)
  outLen := Mem.Writable.writes (by unfold Mem.Writable; decide +kernel)
  heap := demoFresh _ (by
    intro a ha
    rw [writes_out (by omega)]
    have := demo_high a ha
    unfold Demo.memC at this
    rwa [writes_out (by rw [show Demo.C.length = 36 from rfl]; omega)] at this) _ _ _ (by decide) (by rw [hC]; decide)

example : DecPre (Demo.mem.writes 200 (aeadEncrypt Demo.K Demo.N Demo.A Demo.P)) demoHeap 100 300 200 32 16 0 Demo.K
    Demo.N Demo.A (aeadEncrypt Demo.K Demo.N Demo.A Demo.P) :=
  demoReceived _ (length_aeadEncrypt Demo.K Demo.N Demo.A Demo.P)

/-- Inputs shorter than a tag are refused before anything is touched. -/
theorem C33_decrypt_masked_short (ρ : Nat → Word) (h : Heap) (e : Endian) (mem : Mem) (m mlen c clen ad adlen npub k : Nat)
    (hs : clen < 16) : run (crypto_aead_decrypt ρ h e m mlen c clen ad adlen npub k) mem = some (-1, mem) := by
  unfold crypto_aead_decrypt
  rw [run_ifc_pos (decide_eq_true hs)]
  rfl

/-! ## C34 -/

/-- A fixed 16-byte string. -/
def forgeryDelta : List Byte := [0xf6, 0x34, 0xa2, 0x68, 0, 0, 0, 0, 0, 0, 0, 0, 0, 0, 0, 0]

theorem delta_digest : tagDigest 0x68a234f6 0 = tagDigest 0 0 := by decide +kernel

/-- Adding the fixed string is never noticed by the comparison. -/
theorem delta_matches (T : List Byte) (hT : T.length = 16) : tagsMatch32 (xorBytes T forgeryDelta) T := by
  have h1 : le64 ((xorBytes T forgeryDelta).take 8) ^^^ le64 (T.take 8) = 0x68a234f6 := by
    have : (xorBytes T forgeryDelta).take 8 = xorBytes (T.take 8) (forgeryDelta.take 8) := by
      unfold xorBytes; exact List.take_zipWith
    rw [this, le64_xorBytes _ _ (by rw [List.length_take, hT]; rfl),
      show le64 (forgeryDelta.take 8) = 0x68a234f6 by decide]
    generalize le64 (T.take 8) = x
    rw [BitVec.xor_comm, ← BitVec.xor_assoc, BitVec.xor_self, BitVec.zero_xor]
  have h2 : le64 ((xorBytes T forgeryDelta).drop 8) ^^^ le64 (T.drop 8) = 0 := by
    have : (xorBytes T forgeryDelta).drop 8 = xorBytes (T.drop 8) (forgeryDelta.drop 8) := by
      unfold xorBytes; exact List.drop_zipWith
    rw [this, le64_xorBytes _ _ (by rw [List.length_drop, hT]; rfl),
      show le64 (forgeryDelta.drop 8) = 0 by decide]
    generalize le64 (T.drop 8) = x
    rw [BitVec.xor_comm, ← BitVec.xor_assoc, BitVec.xor_self, BitVec.zero_xor]
  unfold tagsMatch32
  rw [h1, h2]
  exact delta_digest

/-- Ascon-AEAD128 rejects a ciphertext whose tag was changed by `forgeryDelta`. -/
theorem forged_rejected (K N A P T C : List Byte) (hE : aeadEncrypt K N A P = C ++ T) (hT : T.length = 16) :
    aeadDecrypt K N A (C ++ xorBytes T forgeryDelta) = none := by
  have hl := length_aeadEncrypt K N A P
  have hlx : (xorBytes T forgeryDelta).length = 16 := by
    unfold xorBytes; rw [List.length_zipWith, hT]; rfl
  have hc : C.length = P.length := by
    rw [hE, List.length_append, hT] at hl; omega
  have hCt : (aeadEncrypt K N A P).take P.length = C := by
    rw [hE, ← hc, List.take_append_of_le_length (Nat.le_refl _), List.take_length]
  have hTd : (aeadEncrypt K N A P).drop P.length = T := by
    rw [hE, ← hc, List.drop_append_of_le_length (Nat.le_refl _), List.drop_length, List.nil_append]
  obtain ⟨h1, h2, h3, h4⟩ := replaced_tag K N A P (xorBytes T forgeryDelta) hlx
  rw [hCt] at h1 h2 h3 h4
  rw [hTd] at h4
  have hne : xorBytes T forgeryDelta ≠ T := by
    intro he
    have := congrArg (fun l => le64 (l.take 8)) he
    have hx : (xorBytes T forgeryDelta).take 8 = xorBytes (T.take 8) (forgeryDelta.take 8) := by
      unfold xorBytes; exact List.take_zipWith
    simp only [hx] at this
    rw [le64_xorBytes _ _ (by rw [List.length_take, hT]; rfl),
      show le64 (forgeryDelta.take 8) = 0x68a234f6 by decide] at this
    have h0 : (0x68a234f6 : Word) = 0 := by
      have := congrArg (fun y => le64 (T.take 8) ^^^ y) this
      simp [← BitVec.xor_assoc] at this
    exact absurd h0 (by decide)
  unfold aeadDecrypt
  unfold ctBody at h1
  unfold ctTag at h2
  rw [if_neg (by rw [List.length_append, hlx]; omega)]
  simp only []
  rw [h1, h2, h4, if_neg hne]

/-- **C34** (negative result) The masked implementation accepts forgeries.  Whatever the key, nonce, associated data,
plaintext and masks are: if the fixed string `forgeryDelta` is added to the tag of a genuine ciphertext, then decryption
returns 0 and releases the plaintext, although Ascon-AEAD128 rejects this ciphertext. -/
theorem C34_masked_accepts_forgery (ρ : Nat → Word) (h : Heap) (mem : Mem) (m mlen c ad npub k : Nat)
    (K N A P T C : List Byte) (hE : aeadEncrypt K N A P = C ++ T) (hT : T.length = 16)
    (pre : DecPre mem h m mlen c ad npub k K N A (C ++ xorBytes T forgeryDelta)) :
    aeadDecrypt K N A (C ++ xorBytes T forgeryDelta) = none ∧
    run (crypto_aead_decrypt ρ h .little m mlen c (C ++ xorBytes T forgeryDelta).length ad A.length npub k) mem =
      some (0, (mem.writes mlen (repr64 .little (BitVec.ofNat 64 P.length))).writes m P) := by
  have hl := length_aeadEncrypt K N A P
  have hlx : (xorBytes T forgeryDelta).length = 16 := by
    unfold xorBytes; rw [List.length_zipWith, hT]; rfl
  have hc : C.length = P.length := by
    rw [hE, List.length_append, hT] at hl; omega
  have hCt : (aeadEncrypt K N A P).take P.length = C := by
    rw [hE, ← hc, List.take_append_of_le_length (Nat.le_refl _), List.take_length]
  have hTd : (aeadEncrypt K N A P).drop P.length = T := by
    rw [hE, ← hc, List.drop_append_of_le_length (Nat.le_refl _), List.drop_length, List.nil_append]
  constructor
  · exact forged_rejected K N A P T C hE hT
  · have r := run_decrypt_replaced ρ h mem m mlen c ad npub k K N A P (xorBytes T forgeryDelta) hlx
      (by rw [hTd]; exact delta_matches T hT) (by rw [hCt]; exact pre)
    rw [List.length_append, hlx, hc]
    exact r

/-- Its hypotheses can be met. -/
example : ∃ C T : List Byte, aeadEncrypt Demo.K Demo.N Demo.A Demo.P = C ++ T ∧ T.length = 16 ∧
    DecPre (Demo.mem.writes 200 (C ++ xorBytes T forgeryDelta)) demoHeap 100 300 200 32 16 0 Demo.K Demo.N Demo.A
      (C ++ xorBytes T forgeryDelta) := by
  have hl := length_aeadEncrypt Demo.K Demo.N Demo.A Demo.P
  rw [show Demo.P.length = 20 from rfl] at hl
  generalize aeadEncrypt Demo.K Demo.N Demo.A Demo.P = E at hl
  refine ⟨E.take 20, E.drop 20, (List.take_append_drop 20 E).symm, by rw [List.length_drop]; omega, demoReceived _ ?_⟩
  rw [List.length_append, List.length_take]
  unfold xorBytes
  rw [List.length_zipWith, List.length_drop, hl]
  decide

/-- What is accepted, exactly: the 32-bit digest of the difference of the two tags decides, whatever the masks. -/
theorem C34_masked_accepts_iff (ρ : Nat → Word) (h : Heap) (mem : Mem) (m mlen c ad npub k : Nat)
    (K N A C : List Byte) (pre : DecPre mem h m mlen c ad npub k K N A C) :
    ∃ mem', run (crypto_aead_decrypt ρ h .little m mlen c C.length ad A.length npub k) mem =
      some (if tagsMatch32 (ctTag C) (aeadDecTag K N A (ctBody C)) then 0 else -1, mem') :=
  ⟨_, C33_decrypt_masked_output ρ h mem m mlen c ad npub k K N A C pre⟩

/-! ## C35 -/

/-- The address of the 32-bit word of share `c` in the row `r` of an array of `n` shares at `s`. -/
def shareAddr (s n r c : Nat) : Nat := s + 4 * (r * n + c)

/-- Share `c` of the `j`-th eight bytes is `x`. -/
def HoldsShare (mem : Mem) (s n j c : Nat) (x : Word) : Prop :=
  mem.Holds (shareAddr s n (2 * j) c) ((bytes64 x).take 4) ∧ mem.Holds (shareAddr s n (2 * j + 1) c) ((bytes64 x).drop 4)

/-- **C35** Splitting data into any number `n` of shares and recombining the shares gives back the data, for all random
masks; nothing but the share array and the output changes. -/
theorem C35_share_roundtrip (ρ : Nat → Word) (mem : Mem) (s n data out : Nat) (D : List Byte) (hn : 1 ≤ n)
    (hw : mem.Writable s (4 * (NUM_WORDS D.length * n))) (hD : mem.Holds data D)
    (hd : Disjoint data D.length s (4 * (NUM_WORDS D.length * n)))
    (hout : mem.Writable out D.length) (ho : Disjoint out D.length s (4 * (NUM_WORDS D.length * n))) :
    ∃ mem', run (generate_shares .little ρ s n data D.length) mem = some ((), mem') ∧
      (∀ a, (a < s ∨ s + 4 * (NUM_WORDS D.length * n) ≤ a) → mem' a = mem a) ∧
      run (combine_shares .little out D.length s n) mem' = some ((), mem'.writes out D) := by
  obtain ⟨mem', r, ha⟩ := run_generate_shares (ρ := ρ) hn hw hD hd
  refine ⟨mem', r, ha.out, ?_⟩
  refine run_combine_shares (W := wordAt D) ?_ ?_ ?_
  · intro i hi
    rw [ha.out _ (by unfold Disjoint at ho; omega)]
    exact hout i hi
  · intro mem'' hag j hj
    have harr : Arr mem'' mem'' s n (NUM_WORDS D.length) (fun r c => some (shareArr ρ n (wordAt D) r c)) := by
      refine ⟨fun _ _ => rfl, ?_, ?_⟩
      · intro i hi
        rw [hag _ (by unfold Disjoint at ho; omega)]
        exact ha.wr i hi
      · intro r c w hr hc hv
        have hlt := index_lt hr hc
        refine holds_of_agree (ha.val r c w hr hc hv) ?_
        intro i hi hi'
        rw [length_repr32] at hi'
        unfold idx at hi hi'
        exact hag _ (by unfold Disjoint at ho; omega)
    exact run_combPair (by unfold NUM_WORDS; omega) hn harr
  · intro j hj
    unfold wordAt
    rw [← le64_take8]
    by_cases h8 : 8 ≤ (D.drop (8 * j)).length
    · rw [bytes64_le64 _ (by rw [List.length_take]; omega)]
      rw [List.length_drop] at h8
      exact List.take_of_length_le (by rw [List.length_take, List.length_drop]; omega)
    · rw [List.length_drop] at h8
      rw [List.take_of_length_le (l := D.drop (8 * j)) (by rw [List.length_drop]; omega),
        take_bytes64_le64 _ _ (by omega) (by rw [List.length_drop]; omega)]
      exact List.take_of_length_le (by rw [List.length_drop]; omega)

theorem holdsShare_of_arr {ρ : Nat → Word} {W : Nat → Word} {mem0 mem : Mem} {s n R : Nat}
    (h : Arr mem0 mem s n R (fun r c => some (shareArr ρ n W r c))) {j c : Nat} (hj : 2 * j + 1 < R) (hc : c < n) :
    HoldsShare mem s n j c (shareWord ρ n W j c) := by
  have h1 := h.val (2 * j) c _ (by omega) hc rfl
  have h2 := h.val (2 * j + 1) c _ hj hc rfl
  unfold shareArr at h1 h2
  rw [halfOf_even, show 2 * j / 2 = j by omega] at h1
  rw [halfOf_odd, show (2 * j + 1) / 2 = j by omega] at h2
  constructor
  · rw [repr64_split, List.take_append_of_le_length (by simp), List.take_of_length_le (by simp)]
    exact h1
  · rw [repr64_split, List.drop_append_of_le_length (by simp), List.drop_of_length_le (by simp), List.nil_append]
    exact h2

theorem HoldsShare.unique {mem : Mem} {s n j c : Nat} {x y : Word} (hx : HoldsShare mem s n j c x)
    (hy : HoldsShare mem s n j c y) : x = y := by
  have h1 := holds_unique hx.1 hy.1 (by simp [length_bytes64])
  have h2 := holds_unique hx.2 hy.2 (by simp [length_bytes64])
  have : bytes64 x = bytes64 y := by
    rw [← List.take_append_drop 4 (bytes64 x), ← List.take_append_drop 4 (bytes64 y), h1, h2]
  rw [← le64_bytes64 x, ← le64_bytes64 y, this]

/-- Any `n - 1` of the `n` shares are independent of the data and uniformly distributed: for all data `D`, if for each
eight bytes one share `c0 j` is left out, then *every* choice `S` of the values of the other shares is obtained from
exactly one sequence of the `pairs * (n - 1)` random words that are used. -/
theorem C35_shares_uniform (mem : Mem) (s n data : Nat) (D : List Byte) (hn : 2 ≤ n)
    (hw : mem.Writable s (4 * (NUM_WORDS D.length * n))) (hD : mem.Holds data D)
    (hd : Disjoint data D.length s (4 * (NUM_WORDS D.length * n)))
    (c0 : Nat → Nat) (hc0 : ∀ j, c0 j < n) (S : Nat → Nat → Word) :
    let observed (ρ : Nat → Word) : Prop := ∃ mem', run (generate_shares .little ρ s n data D.length) mem = some ((), mem') ∧
      ∀ j c, 8 * j < D.length → c < n → c ≠ c0 j → HoldsShare mem' s n j c (S j c)
    ∃ ρ, observed ρ ∧ ∀ ρ', observed ρ' → ∀ i, i < (D.length + 7) / 8 * (n - 1) → ρ' i = ρ i := by
  have key : ∀ ρ, ∃ mem', run (generate_shares .little ρ s n data D.length) mem = some ((), mem') ∧
      ∀ j c, 8 * j < D.length → c < n → HoldsShare mem' s n j c (shareWord ρ n (wordAt D) j c) := by
    intro ρ
    obtain ⟨mem', r, ha⟩ := run_generate_shares (ρ := ρ) (by omega : 1 ≤ n) hw hD hd
    exact ⟨mem', r, fun j c hj hc => holdsShare_of_arr ha (by unfold NUM_WORDS; omega) hc⟩
  intro observed
  refine ⟨solveρ n c0 (wordAt D) S, ?_, ?_⟩
  · obtain ⟨mem', r, h⟩ := key (solveρ n c0 (wordAt D) S)
    refine ⟨mem', r, fun j c hj hc hne => ?_⟩
    have := h j c hj hc
    rwa [solve_ok hn c0 (wordAt D) S j c hc (hc0 j) hne] at this
  · rintro ρ' ⟨mem', r', h'⟩ i hi
    obtain ⟨mem'', r'', h''⟩ := key ρ'
    rw [r'] at r''
    obtain rfl : mem' = mem'' := by simpa using r''
    have hi1 : i % (n - 1) < n - 1 := Nat.mod_lt _ (by omega)
    have hi2 : i / (n - 1) < (D.length + 7) / 8 := (Nat.div_lt_iff_lt_mul (by omega)).mpr hi
    have hii : i / (n - 1) * (n - 1) + i % (n - 1) = i := by
      rw [Nat.mul_comm]; exact Nat.div_add_mod i (n - 1)
    have := solve_unique hn c0 (wordAt D) (ρ := ρ') (ρ' := solveρ n c0 (wordAt D) S) (i / (n - 1)) (hc0 _) (by
      intro c hc hne
      rw [solve_ok hn c0 (wordAt D) S _ c hc (hc0 _) hne]
      exact (h'' _ c (by omega) hc).unique (h' _ c (by omega) hc hne)) (i % (n - 1)) hi1
    rwa [hii] at this

/-- The share `d` of a word. -/
def word_t.share (w : word_t) (d : Bool) : share_t := if d then w.s1 else w.s0

/-- The six words of the masked state. -/
def MState.words (s : MState) : List word_t := [s.x0, s.x1, s.x2, s.x3, s.x4, s.x5]

theorem ROR32_5_27 (x : U32) : ROR32 (ROR32 x 5) 27 = x := by
  rw [ROR32_comm x 5 27 (by decide) (by decide)]; exact ROR32_27_5 x

theorem mk_word (a b : U32) : ∃ r : Word, lo r = a ∧ hi r = b := by
  refine ⟨a.setWidth 64 ||| b.setWidth 64 <<< 32, ?_, ?_⟩
  · unfold lo
    apply BitVec.eq_of_getLsbD_eq; intro i hi
    simp [hi]
  · unfold hi
    apply BitVec.eq_of_getLsbD_eq; intro i hi
    simp [hi, show 32 + i < 64 by omega]

/-- One word: each share takes each value for exactly one random word. -/
theorem refresh_bij (w : word_t) (d : Bool) (T : share_t) :
    ∃ r, (MREFRESH w r).share d = T ∧ ∀ r', (MREFRESH w r').share d = T → r' = r := by
  have e1 : ∀ r, (MREFRESH w r).s1 = ⟨w.s1.w0 ^^^ lo r, w.s1.w1 ^^^ hi r⟩ := fun r => rfl
  have e0 : ∀ r, (MREFRESH w r).s0 = ⟨w.s0.w0 ^^^ ROR32 (lo r) 5, w.s0.w1 ^^^ ROR32 (hi r) 5⟩ := fun r => by
    show share_t.mk (w.s0.w0 ^^^ ROR32 (lo r) 5 ^^^ 0) (w.s0.w1 ^^^ ROR32 (hi r) 5 ^^^ 0) = _
    rw [show ∀ x : U32, x ^^^ 0 = x from fun x => BitVec.xor_zero, show ∀ x : U32, x ^^^ 0 = x from fun x => BitVec.xor_zero]
  have hc : ∀ a b c : U32, a ^^^ b = c ↔ b = a ^^^ c := fun a b c => by
    constructor
    · rintro rfl; rw [← BitVec.xor_assoc, BitVec.xor_self, BitVec.zero_xor]
    · rintro rfl; rw [← BitVec.xor_assoc, BitVec.xor_self, BitVec.zero_xor]
  cases d with
  | true =>
    obtain ⟨r, h1, h2⟩ := mk_word (w.s1.w0 ^^^ T.w0) (w.s1.w1 ^^^ T.w1)
    have key : ∀ r', (MREFRESH w r').share true = T ↔ lo r' = w.s1.w0 ^^^ T.w0 ∧ hi r' = w.s1.w1 ^^^ T.w1 := by
      intro r'
      show (MREFRESH w r').s1 = T ↔ _
      rw [e1, share_t.ext_iff]
      simp only [hc]
    exact ⟨r, (key r).mpr ⟨h1, h2⟩, fun r' h => word_ext (by rw [((key r').mp h).1, h1]) (by rw [((key r').mp h).2, h2])⟩
  | false =>
    obtain ⟨r, h1, h2⟩ := mk_word (ROR32 (w.s0.w0 ^^^ T.w0) 27) (ROR32 (w.s0.w1 ^^^ T.w1) 27)
    have hr : ∀ a b : U32, ROR32 a 5 = b ↔ a = ROR32 b 27 := fun a b =>
      ⟨fun h => by rw [← h, ROR32_5_27], fun h => by rw [h, ROR32_27_5]⟩
    have key : ∀ r', (MREFRESH w r').share false = T ↔
        lo r' = ROR32 (w.s0.w0 ^^^ T.w0) 27 ∧ hi r' = ROR32 (w.s0.w1 ^^^ T.w1) 27 := by
      intro r'
      show (MREFRESH w r').s0 = T ↔ _
      rw [e0, share_t.ext_iff]
      simp only [hc, hr]
    exact ⟨r, (key r).mpr ⟨h1, h2⟩, fun r' h => word_ext (by rw [((key r').mp h).1, h1]) (by rw [((key r').mp h).2, h2])⟩

/-- The same for a fresh sharing of zero. -/
theorem zero_bij (d : Bool) (T : share_t) : ∃ r, (MZERO r).share d = T ∧ ∀ r', (MZERO r').share d = T → r' = r := by
  have h7 : ∀ x : U32, ROR32 (ROR32 x 25) 7 = x := fun x => by
    apply BitVec.eq_of_getLsbD_eq; intro i hi
    rw [getLsbD_ROR32 _ _ _ (by decide) hi, getLsbD_ROR32 _ _ _ (by decide) (by omega)]
    congr 1; omega
  have h7' : ∀ x : U32, ROR32 (ROR32 x 7) 25 = x := fun x => by rw [ROR32_comm x 7 25 (by decide) (by decide), h7]
  have i7 : ∀ a b : U32, ROR32 a 7 = b ↔ a = ROR32 b 25 := fun a b => ⟨fun h => by rw [← h, h7'], fun h => by rw [h, h7]⟩
  have i5 : ∀ a b : U32, ROR32 a 5 = b ↔ a = ROR32 b 27 := fun a b =>
    ⟨fun h => by rw [← h, ROR32_5_27], fun h => by rw [h, ROR32_27_5]⟩
  have z : ∀ x : U32, 0 ^^^ x = x := fun x => BitVec.zero_xor
  have e1 : ∀ r, (MZERO r).s1 = ⟨ROR32 (lo r) 7, ROR32 (hi r) 7⟩ := fun r => rfl
  have e0 : ∀ r, (MZERO r).s0 = ⟨ROR32 (ROR32 (lo r) 7) 5, ROR32 (ROR32 (hi r) 7) 5⟩ := fun r => by
    show share_t.mk (0 ^^^ ROR32 (ROR32 (lo r) 7) 5) (0 ^^^ ROR32 (ROR32 (hi r) 7) 5) = _
    rw [z, z]
  cases d with
  | true =>
    obtain ⟨r, h1, h2⟩ := mk_word (ROR32 T.w0 25) (ROR32 T.w1 25)
    have key : ∀ r', (MZERO r').share true = T ↔ lo r' = ROR32 T.w0 25 ∧ hi r' = ROR32 T.w1 25 := by
      intro r'
      show (MZERO r').s1 = T ↔ _
      rw [e1, share_t.ext_iff]
      simp only [i7]
    exact ⟨r, (key r).mpr ⟨h1, h2⟩, fun r' h => word_ext (by rw [((key r').mp h).1, h1]) (by rw [((key r').mp h).2, h2])⟩
  | false =>
    obtain ⟨r, h1, h2⟩ := mk_word (ROR32 (ROR32 T.w0 27) 25) (ROR32 (ROR32 T.w1 27) 25)
    have key : ∀ r', (MZERO r').share false = T ↔ lo r' = ROR32 (ROR32 T.w0 27) 25 ∧ hi r' = ROR32 (ROR32 T.w1 27) 25 := by
      intro r'
      show (MZERO r').s0 = T ↔ _
      rw [e0, share_t.ext_iff]
      simp only [i7, i5]
    exact ⟨r, (key r).mpr ⟨h1, h2⟩, fun r' h => word_ext (by rw [((key r').mp h).1, h1]) (by rw [((key r').mp h).2, h2])⟩

/-- A bijection in each word gives a bijection of all words. -/
theorem bij_all (f : Nat → Word → share_t) (T : Nat → share_t) (n : Nat)
    (h : ∀ j, ∃ r, f j r = T j ∧ ∀ r', f j r' = T j → r' = r) :
    ∃ ρ : Nat → Word, (∀ j, j < n → f j (ρ j) = T j) ∧ ∀ ρ' : Nat → Word, (∀ j, j < n → f j (ρ' j) = T j) → ∀ j, j < n → ρ' j = ρ j :=
  ⟨fun j => Classical.choose (h j), fun j _ => (Classical.choose_spec (h j)).1,
    fun _ h' j hj => (Classical.choose_spec (h j)).2 _ (h' j hj)⟩

/-- Going back to two shares before the final permutation draws fresh randomness for every word: of the six words, observe one
share each (the share `d j` of word `j`); whatever the state was, every combination `T` of values is obtained from exactly one
choice of the six random words.  (So what is observed is uniformly distributed and independent of the state.) -/
theorem C35_refresh_uniform (s : MState) (d : Nat → Bool) (T : Nat → share_t) :
    let observed (ρ : Nat → Word) : Prop := ∀ j w, (ascon_level_final ρ s).words[j]? = some w → w.share (d j) = T j
    ∃ ρ, observed ρ ∧ ∀ ρ', observed ρ' → ∀ j, j < 6 → ρ' j = ρ j := by
  let W : List word_t := [MEXPAND s.x0 1 2, MEXPAND s.x1 1 2, MEXPAND s.x2 1 2, MEXPAND s.x3 1 2, MEXPAND s.x4 1 2, MEXPAND s.x5 1 2]
  have he : ∀ ρ j, j < 6 → (ascon_level_final ρ s).words[j]? = some (MREFRESH (W.getD j s.x0) (ρ j)) := by
    intro ρ j hj
    match j, hj with
    | 0, _ => rfl
    | 1, _ => rfl
    | 2, _ => rfl
    | 3, _ => rfl
    | 4, _ => rfl
    | 5, _ => rfl
  have hiff : ∀ ρ : Nat → Word, (∀ j w, (ascon_level_final ρ s).words[j]? = some w → w.share (d j) = T j) ↔
      ∀ j, j < 6 → (MREFRESH (W.getD j s.x0) (ρ j)).share (d j) = T j := by
    intro ρ
    constructor
    · exact fun h j hj => h j _ (he ρ j hj)
    · intro h j w hw
      by_cases hj : j < 6
      · rw [he ρ j hj] at hw
        cases hw
        exact h j hj
      · rw [List.getElem?_eq_none (by simp [MState.words]; omega)] at hw
        cases hw
  obtain ⟨ρ, h1, h2⟩ := bij_all (fun j r => (MREFRESH (W.getD j s.x0) r).share (d j)) T 6 (fun j => refresh_bij _ _ _)
  exact ⟨ρ, (hiff ρ).mpr h1, fun ρ' h => h2 ρ' ((hiff ρ').mp h)⟩

theorem share_xor (a b : share_t) (x y : U32) : (⟨a.w0 ^^^ x, a.w1 ^^^ y⟩ : share_t) = b ↔ a = ⟨b.w0 ^^^ x, b.w1 ^^^ y⟩ := by
  have hc : ∀ a b x : U32, a ^^^ x = b ↔ a = b ^^^ x := fun a b x => by
    constructor
    · rintro rfl; rw [BitVec.xor_assoc, BitVec.xor_self, BitVec.xor_zero]
    · rintro rfl; rw [BitVec.xor_assoc, BitVec.xor_self, BitVec.xor_zero]
  rw [share_t.ext_iff, share_t.ext_iff]
  simp only [hc]

/-- The initial state, too, is shared with fresh randomness: of the words that are not key words (`x[0]`, `x[3]`, `x[4]` and the
auxiliary word `x[5]`) observe one share each; for all keys and nonces every combination of values is obtained from exactly one
choice of the four random words. -/
theorem C35_init_uniform (N0 N1 K1 K2 : word_t) (d : Nat → Bool) (T : Nat → share_t) :
    let words (ρ : Nat → Word) : List word_t :=
      [(initState ρ N0 N1 K1 K2).x5, (initState ρ N0 N1 K1 K2).x0, (initState ρ N0 N1 K1 K2).x3, (initState ρ N0 N1 K1 K2).x4]
    let observed (ρ : Nat → Word) : Prop := ∀ j w, (words ρ)[j]? = some w → w.share (d j) = T j
    ∃ ρ, observed ρ ∧ ∀ ρ', observed ρ' → ∀ j, j < 4 → ρ' j = ρ j := by
  intro words
  let f : Nat → Word → share_t := fun j r =>
    ([MZERO r, initX0 r, MXOR N0 (MZERO r) 2, MXOR N1 (MZERO r) 2].getD j (MZERO r)).share (d j)
  have he : ∀ ρ j, j < 4 → ∃ w, (words ρ)[j]? = some w ∧ w.share (d j) = f j (ρ j) := by
    intro ρ j hj
    match j, hj with
    | 0, _ => exact ⟨_, rfl, rfl⟩
    | 1, _ => exact ⟨_, rfl, rfl⟩
    | 2, _ => exact ⟨_, rfl, rfl⟩
    | 3, _ => exact ⟨_, rfl, rfl⟩
  have hiff : ∀ ρ : Nat → Word, (∀ j w, (words ρ)[j]? = some w → w.share (d j) = T j) ↔ ∀ j, j < 4 → f j (ρ j) = T j := by
    intro ρ
    constructor
    · intro h j hj
      obtain ⟨w, h1, h2⟩ := he ρ j hj
      rw [← h2]; exact h j w h1
    · intro h j w hw
      by_cases hj : j < 4
      · obtain ⟨w', h1, h2⟩ := he ρ j hj
        rw [h1] at hw
        cases hw
        rw [h2]; exact h j hj
      · rw [List.getElem?_eq_none (by simp [words]; omega)] at hw
        cases hw
  have hx : ∀ (d : Bool) (x y : U32) (g : Word → word_t) (T : share_t),
      (∀ r, (g r).share d = ⟨((MZERO r).share d).w0 ^^^ x, ((MZERO r).share d).w1 ^^^ y⟩) →
      ∃ r, (g r).share d = T ∧ ∀ r', (g r').share d = T → r' = r := by
    intro d x y g T hg
    obtain ⟨r, h1, h2⟩ := zero_bij d ⟨T.w0 ^^^ x, T.w1 ^^^ y⟩
    refine ⟨r, by rw [hg, share_xor]; exact h1, fun r' h => h2 r' ?_⟩
    rw [hg, share_xor] at h; exact h
  have z : ∀ x : U32, x ^^^ 0 = x := fun x => BitVec.xor_zero
  have hN : ∀ (N : word_t) (d : Bool) (T : share_t), ∃ r, (MXOR N (MZERO r) 2).share d = T ∧ ∀ r', (MXOR N (MZERO r') 2).share d = T → r' = r := by
    intro N d T
    refine hx d (N.share d).w0 (N.share d).w1 (fun r => MXOR N (MZERO r) 2) T fun r => ?_
    cases d
    · show share_t.mk (N.s0.w0 ^^^ (MZERO r).s0.w0) (N.s0.w1 ^^^ (MZERO r).s0.w1) = _
      rw [BitVec.xor_comm N.s0.w0, BitVec.xor_comm N.s0.w1]; rfl
    · show share_t.mk (N.s1.w0 ^^^ (MZERO r).s1.w0) (N.s1.w1 ^^^ (MZERO r).s1.w1) = _
      rw [BitVec.xor_comm N.s1.w0, BitVec.xor_comm N.s1.w1]; rfl
  have hI : ∀ (d : Bool) (T : share_t), ∃ r, (initX0 r).share d = T ∧ ∀ r', (initX0 r').share d = T → r' = r := by
    intro d T
    cases d
    · exact hx false (ASCON_128A_IV.setWidth 32) ((ASCON_128A_IV >>> 32).setWidth 32) initX0 T fun r => rfl
    · refine hx true 0 0 initX0 T fun r => ?_
      rw [z, z]; rfl
  obtain ⟨ρ, h1, h2⟩ := bij_all f T 4 (fun j => by
    match j with
    | 0 => exact zero_bij _ _
    | 1 => exact hI _ _
    | 2 => exact hN N0 _ _
    | 3 => exact hN N1 _ _
    | n + 4 => exact zero_bij _ _)
  exact ⟨ρ, (hiff ρ).mpr h1, fun ρ' h => h2 ρ' ((hiff ρ').mp h)⟩

/-- Hypotheses of C35: two shares of the 16-byte key at 0, in the block at 1000. -/
example : let mem := Demo.mem.fill 1000 32 .uninit
    mem.Writable 1000 (4 * (NUM_WORDS Demo.K.length * 2)) ∧ mem.Holds 0 Demo.K ∧
    Disjoint 0 Demo.K.length 1000 (4 * (NUM_WORDS Demo.K.length * 2)) ∧ mem.Writable 200 Demo.K.length ∧
    Disjoint 200 Demo.K.length 1000 (4 * (NUM_WORDS Demo.K.length * 2)) := by
  refine ⟨?_, ?_, ?_, ?_, ?_⟩
  · unfold Mem.Writable; decide +kernel
  · unfold Mem.Holds; decide +kernel
  · unfold Disjoint; decide
  · unfold Mem.Writable; decide +kernel
  · unfold Disjoint; decide

/-! ## C41 -/

/-- **C41** The addresses and branches of masked encryption depend only on the addresses and lengths: for any two
memories with the same accessible addresses, and any two sequences of masks. -/
theorem C41_masked_encrypt_trace (ρ ρ' : Nat → Word) (h : Heap) (mem mem' : Mem) (c clen m ad npub k : Nat)
    (K N A P K' N' A' P' : List Byte) (hm : SameLayout mem mem')
    (pre : EncPre mem h c clen m ad npub k K N A P) (pre' : EncPre mem' h c clen m ad npub k K' N' A' P')
    (hA : A'.length = A.length) (hP : P'.length = P.length) :
    trace (crypto_aead_encrypt ρ h .little c clen m P.length ad A.length npub k) mem =
      trace (crypto_aead_encrypt ρ' h .little c clen m P.length ad A.length npub k) mem' :=
  encrypt_ct ρ ρ' h mem mem' c clen m ad npub k K N A P K' N' A' P' hm pre pre' hA hP

/-- The same for decryption: not even whether the tag was accepted can be seen. -/
theorem C41_masked_decrypt_trace (ρ ρ' : Nat → Word) (h : Heap) (mem mem' : Mem) (m mlen c ad npub k : Nat)
    (K N A C K' N' A' C' : List Byte) (hm : SameLayout mem mem')
    (pre : DecPre mem h m mlen c ad npub k K N A C) (pre' : DecPre mem' h m mlen c ad npub k K' N' A' C')
    (hA : A'.length = A.length) (hC : C'.length = C.length) :
    trace (crypto_aead_decrypt ρ h .little m mlen c C.length ad A.length npub k) mem =
      trace (crypto_aead_decrypt ρ' h .little m mlen c C.length ad A.length npub k) mem' :=
  decrypt_ct ρ ρ' h mem mem' m mlen c ad npub k K N A C K' N' A' C' hm pre pre' hA hC

theorem demoLayout (C C' : List Byte) (h : C.length = 36) (h' : C'.length = 36) :
    SameLayout (Demo.mem.writes 200 C) (Demo.mem.writes 200 C') := by
  intro a
  by_cases ha : 200 ≤ a ∧ a < 236
  · obtain ⟨i, rfl⟩ : ∃ i, a = 200 + i := ⟨a - 200, by omega⟩
    rw [writes_in (by omega) (by omega), writes_in (by omega) (by omega)]
    rfl
  · rw [writes_out (by omega), writes_out (by omega)]

/-- Two received strings, one genuine and one not, leave the same trace. -/
example (ρ ρ' : Nat → Word) :
    trace (crypto_aead_decrypt ρ demoHeap .little 100 300 200 36 32 Demo.A.length 16 0)
        (Demo.mem.writes 200 (aeadEncrypt Demo.K Demo.N Demo.A Demo.P)) =
      trace (crypto_aead_decrypt ρ' demoHeap .little 100 300 200 36 32 Demo.A.length 16 0) (Demo.mem.writes 200 Demo.C) := by
  have hl : (aeadEncrypt Demo.K Demo.N Demo.A Demo.P).length = 36 := length_aeadEncrypt _ _ _ _
  have hC : Demo.C.length = 36 := rfl
  have := C41_masked_decrypt_trace ρ ρ' demoHeap _ _ 100 300 200 32 16 0 _ _ _ _ _ _ _ _
    (demoLayout _ _ hl hC) (demoReceived _ hl) (demoReceived _ hC) rfl (hC.trans hl.symm)
  rwa [hl] at this

end Ascon.Masked
