import Verif.Proof.MaskedNTop
import Verif.Proof.MaskedNCT
import Verif.Props.Masked
/-!
# The masked implementation with any number of shares (C73)

The theorems hold for every configuration that scripts/test-levels.sh builds (one to four shares of the key, and not more
shares of the other buffers than config.h allows), with and without `ASCON_EXTERN_BI`, for all random words and all
placements of the blocks returned by `malloc`.
-/

namespace Ascon.MaskedN

open Ascon.Spec Ascon.C Ascon.Gen
open Ascon.Masked (Heap FreshBlocks roundUp8 U32 share_t NUM_WORDS)

attribute [local irreducible] perm deinterleave32 interleave32

/-! ## Configurations and concrete memories -/

/-- api.h: two shares of the key. -/
def cfgDefault : Cfg := ⟨2, 1, 1, 1, 1, false⟩
/-- goal_powersca_1st: three shares of the key. -/
def cfgThree : Cfg := ⟨3, 1, 1, 1, 1, false⟩
/-- Different numbers of shares, bit-interleaved buffers. -/
def cfgMixed : Cfg := ⟨4, 2, 1, 3, 2, true⟩
/-- Four shares of everything. -/
def cfgFour : Cfg := ⟨4, 4, 4, 4, 4, true⟩

example : cfgDefault.Supported := by unfold Cfg.Supported; decide
example : cfgThree.Supported := by unfold Cfg.Supported; decide
theorem cfgMixed_supported : cfgMixed.Supported := by unfold Cfg.Supported; decide
example : cfgFour.Supported := by unfold Cfg.Supported; decide
/-- config.h rejects fewer shares of the plaintext than of the ciphertext. -/
example : ¬ (⟨2, 1, 1, 1, 2, false⟩ : Cfg).Supported := by unfold Cfg.Supported; decide

/-- Five blocks at 1000, 1100, … -/
def demoHeapN : Heap := ⟨1000, 1100, 1200, 1300, 1500⟩

theorem demoFreshN (m : Mem) (hm : ∀ a, 1000 ≤ a → m a = .unalloc) (nk nn na nm nc : Nat) (hk : nk ≤ 100) (hn : nn ≤ 100)
    (ha : na ≤ 100) (hM : nm ≤ 200) : FreshBlocks m [(1000, nk), (1100, nn), (1200, na), (1300, nm), (1500, nc)] := by
  refine ⟨?_, ?_⟩
  · intro b hb i _
    simp only [List.mem_cons, List.not_mem_nil, or_false] at hb
    rcases hb with rfl | rfl | rfl | rfl | rfl <;> exact hm _ (by simp <;> omega)
  · simp [Disjoint]
    omega

theorem demoEncN (g : Cfg) (hg : g.Supported) :
    EncPre g Demo.memC demoHeapN 200 300 100 32 16 0 Demo.K Demo.N Demo.A Demo.P := by
  obtain ⟨h1, h2, h3, h4, h5, h6, h7, h8⟩ := hg
  have e1 : roundUp8 Demo.A.length = 8 := by decide
  have e2 : roundUp8 Demo.P.length = 24 := by decide
  exact {
    key := Demo.decPre.key
    keyLen := rfl
    nonce := Demo.decPre.nonce
    nonceLen := rfl
    adata := Demo.decPre.adata
    adLen := by rw [e1]; omega
    msg := Masked.demoEnc.msg
    msgLen := by rw [e2]; omega
    out := Masked.demoEnc.out
    outLen := Masked.demoEnc.outLen
    heap := demoFreshN _ Masked.demo_high _ _ _ _ _ (by omega) (by omega) (by rw [e1]; omega) (by rw [e2]; omega) }

theorem demoReceivedN (g : Cfg) (hg : g.Supported) (D : List Byte) (hD : D.length = 36) :
    DecPre g (Demo.mem.writes 200 D) demoHeapN 100 300 200 32 16 0 Demo.K Demo.N Demo.A D := by
  obtain ⟨h1, h2, h3, h4, h5, h6, h7, h8⟩ := hg
  have p := Masked.demoReceived D hD
  have e1 : roundUp8 Demo.A.length = 8 := by decide
  have e2 : roundUp8 D.length = 40 := by rw [hD]; decide
  have e3 : roundUp8 (D.length - 16) = 24 := by rw [hD]; decide
  exact {
    key := p.key
    keyLen := rfl
    nonce := p.nonce
    nonceLen := rfl
    adata := p.adata
    adLen := by rw [e1]; omega
    ct := p.ct
    ctMin := by omega
    ctLen := by rw [e2]; omega
    out := p.out
    outLen := p.outLen
    heap := demoFreshN _ (by
      intro a ha
      rw [writes_out (by omega)]
      have := Masked.demo_high a ha
      unfold Demo.memC at this
      rwa [writes_out (by rw [show Demo.C.length = 36 from rfl]; omega)] at this) _ _ _ _ _ (by omega) (by omega)
        (by rw [e1]; omega) (by rw [e3]; omega) }

/-! ## The AEAD -/

/-- **C73** For every supported configuration and every sequence of random masks, `crypto_aead_encrypt` computes the
Ascon-AEAD128 ciphertext and tag, however the caller's buffers overlap. -/
theorem C73_encrypt_shares (g : Cfg) (hg : g.Supported) : EncCorrectAt g .little crypto_aead_encrypt :=
  fun σ ρ h mem c clen m ad npub k K N A P pre => run_encrypt hg.ok σ ρ h mem c clen m ad npub k K N A P pre

/-- A concrete call. -/
example (σ ρ : Nat → Nat → Word) : ∃ mem', run (crypto_aead_encrypt cfgMixed σ ρ demoHeapN .little 200 300 100 Demo.P.length 32
    Demo.A.length 16 0) Demo.memC = some (0, mem') :=
  ⟨_, C73_encrypt_shares _ cfgMixed_supported σ ρ _ _ _ _ _ _ _ _ _ _ _ _ (demoEncN _ cfgMixed_supported)⟩

/-- Decryption writes the Ascon-AEAD128 candidate plaintext and its length, and decides by the 32-bit digest of the tags. -/
theorem C73_decrypt_shares (g : Cfg) (hg : g.Supported) : DecBehavesAt g .little crypto_aead_decrypt :=
  fun σ ρ h mem m mlen c ad npub k K N A D pre => run_decrypt hg.ok σ ρ h mem m mlen c ad npub k K N A D pre

/-- A concrete call. -/
example (σ ρ : Nat → Nat → Word) : ∃ r mem', run (crypto_aead_decrypt cfgMixed σ ρ demoHeapN .little 100 300 200 Demo.C.length 32
    Demo.A.length 16 0) (Demo.mem.writes 200 Demo.C) = some (r, mem') :=
  ⟨_, _, C73_decrypt_shares _ cfgMixed_supported σ ρ _ _ _ _ _ _ _ _ _ _ _ _
    (demoReceivedN _ cfgMixed_supported Demo.C (by decide))⟩

theorem run_decrypt_replacedN {g : Cfg} (hg : g.Supported) (σ ρ : Nat → Nat → Word) (h : Heap) (mem : Mem)
    (m mlen c ad npub k : Nat) (K N A P T' : List Byte) (hT : T'.length = 16)
    (hm : tagsMatch32 T' ((aeadEncrypt K N A P).drop P.length))
    (pre : DecPre g mem h m mlen c ad npub k K N A ((aeadEncrypt K N A P).take P.length ++ T')) :
    run (crypto_aead_decrypt g σ ρ h .little m mlen c (P.length + 16) ad A.length npub k) mem =
      some (0, (mem.writes mlen (repr64 .little (BitVec.ofNat 64 P.length))).writes m P) := by
  have r := C73_decrypt_shares g hg σ ρ h mem m mlen c ad npub k K N A _ pre
  obtain ⟨h1, h2, h3, h4⟩ := Masked.replaced_tag K N A P T' hT
  have hl : ((aeadEncrypt K N A P).take P.length ++ T').length = P.length + 16 := by
    rw [List.length_append, List.length_take, length_aeadEncrypt, hT]; omega
  have hq : tagsMatch32 (ctTag ((aeadEncrypt K N A P).take P.length ++ T'))
      (aeadDecTag K N A (ctBody ((aeadEncrypt K N A P).take P.length ++ T'))) := by
    rw [h1, h2, h4]; exact hm
  rw [if_pos hq, h1, h3, hl, Nat.add_sub_cancel] at r
  exact r

/-- A genuine ciphertext is accepted and decrypted to its plaintext. -/
theorem C73_decrypt_shares_genuine (g : Cfg) (hg : g.Supported) (σ ρ : Nat → Nat → Word) (h : Heap) (mem : Mem)
    (m mlen c ad npub k : Nat) (K N A P : List Byte) (pre : DecPre g mem h m mlen c ad npub k K N A (aeadEncrypt K N A P)) :
    run (crypto_aead_decrypt g σ ρ h .little m mlen c (P.length + 16) ad A.length npub k) mem =
      some (0, (mem.writes mlen (repr64 .little (BitVec.ofNat 64 P.length))).writes m P) := by
  have hl := length_aeadEncrypt K N A P
  refine run_decrypt_replacedN hg σ ρ h mem m mlen c ad npub k K N A P ((aeadEncrypt K N A P).drop P.length)
    (by rw [List.length_drop]; omega) (Masked.tagsMatch32_self _) ?_
  rw [List.take_append_drop]
  exact pre

example : DecPre cfgMixed (Demo.mem.writes 200 (aeadEncrypt Demo.K Demo.N Demo.A Demo.P)) demoHeapN 100 300 200 32 16 0 Demo.K
    Demo.N Demo.A (aeadEncrypt Demo.K Demo.N Demo.A Demo.P) :=
  demoReceivedN _ cfgMixed_supported _ (length_aeadEncrypt Demo.K Demo.N Demo.A Demo.P)

/-- Inputs shorter than a tag are refused before anything is touched (for every configuration). -/
theorem C73_decrypt_shares_short (g : Cfg) (σ ρ : Nat → Nat → Word) (h : Heap) (e : Endian) (mem : Mem)
    (m mlen c clen ad adlen npub k : Nat) (hs : clen < 16) :
    run (crypto_aead_decrypt g σ ρ h e m mlen c clen ad adlen npub k) mem = some (-1, mem) := by
  unfold crypto_aead_decrypt
  rw [Masked.run_ifc_pos (decide_eq_true hs)]
  rfl

/-- (Negative result) More shares do not help against C34: in every supported configuration decryption accepts the
ciphertext whose tag was changed by the fixed string `forgeryDelta`. -/
theorem C73_shares_accept_forgery (g : Cfg) (hg : g.Supported) (σ ρ : Nat → Nat → Word) (h : Heap) (mem : Mem)
    (m mlen c ad npub k : Nat) (K N A P T C : List Byte) (hE : aeadEncrypt K N A P = C ++ T) (hT : T.length = 16)
    (pre : DecPre g mem h m mlen c ad npub k K N A (C ++ xorBytes T Masked.forgeryDelta)) :
    aeadDecrypt K N A (C ++ xorBytes T Masked.forgeryDelta) = none ∧
    run (crypto_aead_decrypt g σ ρ h .little m mlen c (C ++ xorBytes T Masked.forgeryDelta).length ad A.length npub k) mem =
      some (0, (mem.writes mlen (repr64 .little (BitVec.ofNat 64 P.length))).writes m P) := by
  have hl := length_aeadEncrypt K N A P
  have hlx : (xorBytes T Masked.forgeryDelta).length = 16 := by
    unfold xorBytes; rw [List.length_zipWith, hT]; rfl
  have hc : C.length = P.length := by
    rw [hE, List.length_append, hT] at hl; omega
  have hCt : (aeadEncrypt K N A P).take P.length = C := by
    rw [hE, ← hc, List.take_append_of_le_length (Nat.le_refl _), List.take_length]
  have hTd : (aeadEncrypt K N A P).drop P.length = T := by
    rw [hE, ← hc, List.drop_append_of_le_length (Nat.le_refl _), List.drop_length, List.nil_append]
  constructor
  · exact Masked.forged_rejected K N A P T C hE hT
  · have r := run_decrypt_replacedN hg σ ρ h mem m mlen c ad npub k K N A P (xorBytes T Masked.forgeryDelta) hlx
      (by rw [hTd]; exact Masked.delta_matches T hT) (by rw [hCt]; exact pre)
    rw [List.length_append, hlx, hc]
    exact r

example : ∃ C T : List Byte, aeadEncrypt Demo.K Demo.N Demo.A Demo.P = C ++ T ∧ T.length = 16 ∧
    DecPre cfgMixed (Demo.mem.writes 200 (C ++ xorBytes T Masked.forgeryDelta)) demoHeapN 100 300 200 32 16 0 Demo.K Demo.N Demo.A
      (C ++ xorBytes T Masked.forgeryDelta) := by
  have hl := length_aeadEncrypt Demo.K Demo.N Demo.A Demo.P
  rw [show Demo.P.length = 20 from rfl] at hl
  generalize aeadEncrypt Demo.K Demo.N Demo.A Demo.P = E at hl
  refine ⟨E.take 20, E.drop 20, (List.take_append_drop 20 E).symm, by rw [List.length_drop]; omega,
    demoReceivedN _ cfgMixed_supported _ ?_⟩
  rw [List.length_append, List.length_take]
  unfold xorBytes
  rw [List.length_zipWith, List.length_drop, hl]
  decide

/-! ## Sharing and the masked permutation -/

/-- Splitting data into up to four shares and recombining them gives back the data, for both representations of shared
buffers and all random masks. -/
theorem C73_share_roundtrip (bi : Bool) (ρ : Nat → Word) (mem : Mem) (s n data out : Nat) (D : List Byte)
    (hn : 1 ≤ n ∧ n ≤ 4) (hw : mem.Writable s (n * roundUp8 D.length)) (hD : mem.Holds data D)
    (hd : Disjoint data D.length s (n * roundUp8 D.length))
    (hout : mem.Writable out D.length) (ho : Disjoint out D.length s (n * roundUp8 D.length)) :
    ∃ mem', run (generate_shares bi .little ρ s n data D.length) mem = some ((), mem') ∧
      (∀ a, (a < s ∨ s + n * roundUp8 D.length ≤ a) → mem' a = mem a) ∧
      run (combine_shares bi .little out D.length s n) mem' = some ((), mem'.writes out D) := by
  rw [sz_round] at hw hd ho ⊢
  obtain ⟨mem', r, fr, sh⟩ := run_gen (bi := bi) (ρ := ρ) hn hw hD hd
  refine ⟨mem', r, fr.1, ?_⟩
  refine run_comb (X := Masked.padded D) hn ?_ (Masked.length_padded D) ?_ ?_ ho
  · intro j hj
    rw [Masked.length_padded] at hj
    have e : Masked.wordAt (Masked.padded D) j = Masked.wordAt D j := by
      show le64 ((Masked.padded D).drop (8 * j)) = le64 (D.drop (8 * j))
      rw [Masked.padded_drop D j (by omega)]
      exact Masked.le64_padded _
    rw [e]
    exact sh j (by omega)
  · unfold Masked.padded
    rw [List.take_append_of_le_length (Nat.le_refl _), List.take_length]
  · intro i hi
    exact fr.2 _ (hout i hi)

/-- Its hypotheses can be met: 20 bytes at 100 in three shares at 1000, recombined at 200. -/
example : ∃ mem : Mem, mem.Writable 1000 (3 * roundUp8 Demo.P.length) ∧ mem.Holds 100 Demo.P ∧
    Disjoint 100 Demo.P.length 1000 (3 * roundUp8 Demo.P.length) ∧ mem.Writable 200 Demo.P.length ∧
    Disjoint 200 Demo.P.length 1000 (3 * roundUp8 Demo.P.length) := by
  refine ⟨Demo.memC.writes 1000 (List.replicate 72 0), ?_, ?_, by unfold Disjoint; decide, ?_, by unfold Disjoint; decide⟩
  · have : 3 * roundUp8 Demo.P.length = (List.replicate 72 (0 : Byte)).length := by decide
    rw [this]
    intro i hi
    rw [writes_in (by omega) (by omega)]; rfl
  · exact Masked.demoEnc.msg.writes_disjoint (by unfold Disjoint; decide)
  · exact Mem.Writable.writes (by unfold Mem.Writable; decide +kernel)

/-- Bit `b` of half `i` of the value that `n` shares represent: the sum of the shares, share `d` rotated by `5 d`. -/
def bitValue (n : Nat) (w : word_t) (i b : Nat) : Bool :=
  (List.range n).foldl (fun x d => x ^^ ((w d).get i).getLsbD ((b + 5 * d) % 32)) false

/-- `n` shares represent a 64-bit word: half 0 has the even bits, half 1 the odd bits. -/
def Represents (n : Nat) (w : word_t) (x : Word) : Prop :=
  ∀ b, b < 32 → x.getLsbD (2 * b) = bitValue n w 0 b ∧ x.getLsbD (2 * b + 1) = bitValue n w 1 b

/-- The masked state represents `t`, with a sharing of zero as sixth word. -/
def RepresentsState (n : Nat) (s : MState) (t : State) : Prop :=
  Represents n s.x0 t.x0 ∧ Represents n s.x1 t.x1 ∧ Represents n s.x2 t.x2 ∧ Represents n s.x3 t.x3 ∧ Represents n s.x4 t.x4 ∧
    Represents n s.x5 0

theorem getLsbD_V {n : Nat} (hn : n ≤ 4) (w : word_t) (i b : Nat) (hb : b < 32) :
    (V n w i).getLsbD b = bitValue n w i b := by
  induction n with
  | zero => simp [V, bitValue]
  | succ n ih =>
    show (V n w i ^^^ Masked.ROR32 (w.get n i) (5 * n)).getLsbD b = _
    rw [BitVec.getLsbD_xor, ih (by omega), Masked.getLsbD_ROR32 _ _ _ (by omega) hb]
    unfold bitValue
    rw [List.range_succ, List.foldl_append]
    rfl

theorem represents_iff {n : Nat} (hn : n ≤ 4) (w : word_t) (x : Word) :
    Represents n w x ↔ PV n w = deinterleave32 .little x := by
  have hd : ∀ i, i < 64 → (deinterleave32 .little x).getLsbD i = x.getLsbD (bi32Pos i) := fun i hi => bi32_perm.bit x i hi
  constructor
  · intro h
    apply BitVec.eq_of_getLsbD_eq
    intro i hi
    rw [hd i hi]
    show (Masked.pk (SV n w)).getLsbD i = _
    rw [Masked.getLsbD_pk _ _ hi]
    unfold bi32Pos
    split
    · rename_i h32
      rw [(h i h32).1]; exact getLsbD_V hn w 0 i h32
    · rename_i h32
      rw [(h (i - 32) (by omega)).2]; exact getLsbD_V hn w 1 (i - 32) (by omega)
  · intro h b hb
    have h0 := congrArg (fun y : Word => y.getLsbD b) h
    have h1 := congrArg (fun y : Word => y.getLsbD (b + 32)) h
    rw [hd _ (by omega)] at h0 h1
    change (Masked.pk (SV n w)).getLsbD _ = _ at h0 h1
    rw [Masked.getLsbD_pk _ _ (by omega)] at h0 h1
    rw [if_pos hb] at h0
    rw [if_neg (by omega), Nat.add_sub_cancel] at h1
    unfold bi32Pos at h0 h1
    rw [if_pos hb] at h0
    rw [if_neg (by omega), Nat.add_sub_cancel] at h1
    exact ⟨h0.symm.trans (getLsbD_V hn w 0 b hb), h1.symm.trans (getLsbD_V hn w 1 b hb)⟩

theorem representsState_iff {n : Nat} (hn : n ≤ 4) (s : MState) (t : State) : RepresentsState n s t ↔ Rel n s t := by
  unfold RepresentsState Rel E encS Z5
  rw [represents_iff hn, represents_iff hn, represents_iff hn, represents_iff hn, represents_iff hn, represents_iff hn,
    PV_zero_iff, show deinterleave32 .little (0 : Word) = 0 from by with_unfolding_all decide +kernel, State.mk.injEq]
  constructor
  · rintro ⟨a, b, c, d, e, f⟩; exact ⟨⟨a, b, c, d, e⟩, f⟩
  · rintro ⟨⟨a, b, c, d, e⟩, f⟩; exact ⟨a, b, c, d, e, f⟩

/-- The masked permutation with one to four shares computes the Ascon permutation on the represented state, for any number
of rounds, and touches no memory. -/
theorem C73_permutation_shares (n nr : Nat) (hn : 1 ≤ n ∧ n ≤ 4) (h0 : 1 ≤ nr) (h12 : nr ≤ 12) (s : MState) (t : State)
    (h : RepresentsState n s t) (mem : Mem) :
    ∃ s', run (P s nr n) mem = some (s', mem) ∧ RepresentsState n s' (perm nr t) := by
  obtain ⟨s', hs, hr⟩ := run_P hn h0 h12 ((representsState_iff hn.2 s t).mp h) mem
  exact ⟨s', hr, (representsState_iff hn.2 _ _).mpr hs⟩

/-- A sharing in three shares of a word with bits 0 and 47 set. -/
def demoWord : word_t := fun d => if d = 0 then ⟨1, 0⟩ else if d = 1 then ⟨0x20, 0⟩ else ⟨0x400, 2⟩
/-- A sharing in three shares of 0. -/
def demoZero : word_t := fun d => if d = 0 then ⟨1, 0⟩ else if d = 1 then ⟨0, 0x20⟩ else ⟨0x400, 0x400⟩

/-- Its hypothesis can be met. -/
example : RepresentsState 3 ⟨demoWord, demoZero, demoWord, demoWord, demoZero, demoZero⟩
    ⟨0x800000000001, 0, 0x800000000001, 0x800000000001, 0⟩ := by
  have h1 : Represents 3 demoWord 0x800000000001 := by unfold Represents; decide +kernel
  have h2 : Represents 3 demoZero 0 := by unfold Represents; decide +kernel
  exact ⟨h1, h2, h1, h1, h2, h2⟩

/-! ## Constant time -/

/-- In every supported configuration the addresses and branches of encryption depend only on the addresses and lengths: for any
two memories with the same accessible addresses, and any two sequences of masks. -/
theorem C73_encrypt_shares_trace (g : Cfg) (hg : g.Supported) (σ σ' ρ ρ' : Nat → Nat → Word) (h : Heap) (mem mem' : Mem)
    (c clen m ad npub k : Nat) (K N A P K' N' A' P' : List Byte) (hm : SameLayout mem mem')
    (pre : EncPre g mem h c clen m ad npub k K N A P) (pre' : EncPre g mem' h c clen m ad npub k K' N' A' P')
    (hA : A'.length = A.length) (hP : P'.length = P.length) :
    trace (crypto_aead_encrypt g σ ρ h .little c clen m P.length ad A.length npub k) mem =
      trace (crypto_aead_encrypt g σ' ρ' h .little c clen m P.length ad A.length npub k) mem' :=
  encrypt_ct hg.ok σ σ' ρ ρ' h mem mem' c clen m ad npub k K N A P K' N' A' P' hm pre pre' hA hP

/-- The same for decryption: not even whether the tag was accepted can be seen. -/
theorem C73_decrypt_shares_trace (g : Cfg) (hg : g.Supported) (σ σ' ρ ρ' : Nat → Nat → Word) (h : Heap) (mem mem' : Mem)
    (m mlen c ad npub k : Nat) (K N A D K' N' A' D' : List Byte) (hm : SameLayout mem mem')
    (pre : DecPre g mem h m mlen c ad npub k K N A D) (pre' : DecPre g mem' h m mlen c ad npub k K' N' A' D')
    (hA : A'.length = A.length) (hD : D'.length = D.length) :
    trace (crypto_aead_decrypt g σ ρ h .little m mlen c D.length ad A.length npub k) mem =
      trace (crypto_aead_decrypt g σ' ρ' h .little m mlen c D.length ad A.length npub k) mem' :=
  decrypt_ct hg.ok σ σ' ρ ρ' h mem mem' m mlen c ad npub k K N A D K' N' A' D' hm pre pre' hA hD

/-- Two received strings, one genuine and one not, leave the same trace. -/
example (σ σ' ρ ρ' : Nat → Nat → Word) :
    trace (crypto_aead_decrypt cfgMixed σ ρ demoHeapN .little 100 300 200 36 32 Demo.A.length 16 0)
        (Demo.mem.writes 200 (aeadEncrypt Demo.K Demo.N Demo.A Demo.P)) =
      trace (crypto_aead_decrypt cfgMixed σ' ρ' demoHeapN .little 100 300 200 36 32 Demo.A.length 16 0)
        (Demo.mem.writes 200 Demo.C) := by
  have hl : (aeadEncrypt Demo.K Demo.N Demo.A Demo.P).length = 36 := length_aeadEncrypt _ _ _ _
  have hC : Demo.C.length = 36 := rfl
  have := C73_decrypt_shares_trace cfgMixed cfgMixed_supported σ σ' ρ ρ' demoHeapN _ _ 100 300 200 32 16 0 _ _ _ _ _ _ _ _
    (Masked.demoLayout _ _ hl hC) (demoReceivedN _ cfgMixed_supported _ hl) (demoReceivedN _ cfgMixed_supported _ hC) rfl
    (hC.trans hl.symm)
  rwa [hl] at this

end Ascon.MaskedN
