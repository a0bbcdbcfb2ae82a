import Verif.Proof.Freed
import Verif.Proof.MaskedNTop
import Verif.Props.MaskedN
/-!
# Secrets in memory that has been given back (C75, negative)

`crypto_aead_encrypt` and `crypto_aead_decrypt` of the masked implementation (crypto_aead.c) give their buffers back with
`free` without erasing them.  When the call has returned, all shares of the key and of the plaintext are still in the heap
blocks, and whoever gets a block recovers the secret with one call of the library's own `combine_shares`; for a rejected
ciphertext the same is true of the candidate plaintext.

The verification functions leave the expected tag in their stack frame, so that a rejected message leaves the tag that would
have been accepted.
-/

namespace Ascon.MaskedN

open Ascon.Spec Ascon.C Ascon.Gen
open Ascon.Masked (Heap FreshBlocks roundUp8 U32 share_t NUM_WORDS)

attribute [local irreducible] perm deinterleave32 interleave32

/-- From a memory `B` the data `D` can be read with one call of `combine_shares` for the `n` shares at `s`, into any buffer
outside the block. -/
def Recovers (bi : Bool) (B : Mem) (s n : Nat) (D : List Byte) : Prop :=
  ∀ out, Disjoint out D.length s (4 * (NUM_WORDS D.length * n)) →
    ∃ mem', run (combine_shares bi .little out D.length s n) (B.fill out D.length .uninit) = some ((), mem') ∧ mem'.Holds out D

theorem recovers_padded {bi : Bool} {B : Mem} {s n : Nat} {X D : List Byte} (hn : Ns n) (h : SH B bi n s X)
    (hl : X.length = 8 * ((D.length + 7) / 8)) (hXD : X.take D.length = D) : Recovers bi B s n D := by
  intro out hd
  rw [sz_words] at hd
  have hsz : sz n X.length = sz n D.length := by unfold sz; rw [hl]; congr 2; omega
  exact ⟨_, run_comb hn (sh_fill h (by rw [hsz]; exact hd)) hl hXD (writable_fill_uninit _ _ _) hd,
    holds_writes_self _ _ _⟩

theorem recovers {bi : Bool} {B : Mem} {s n : Nat} {D : List Byte} (hn : Ns n) (h : SH B bi n s D) : Recovers bi B s n D := by
  refine recovers_padded hn (X := Masked.padded D) ?_ (Masked.length_padded D) ?_
  · intro j hj
    rw [Masked.length_padded] at hj
    have e : Masked.wordAt (Masked.padded D) j = Masked.wordAt D j := by
      show le64 ((Masked.padded D).drop (8 * j)) = le64 (D.drop (8 * j))
      rw [Masked.padded_drop D j (by omega)]
      exact Masked.le64_padded _
    rw [e]
    exact h j (by omega)
  · unfold Masked.padded
    rw [List.take_append_of_le_length (Nat.le_refl _), List.take_length]

/-- One of the blocks that `crypto_aead_encrypt` gives back contains the key. -/
theorem C75_masked_encrypt_frees_key (g : Cfg) (hg : g.Supported) (σ ρ : Nat → Nat → Word) (h : Heap) (mem : Mem)
    (c clen m ad npub k : Nat) (K N A P : List Byte) (pre : EncPre g mem h c clen m ad npub k K N A P) :
    ∃ B ∈ freed (crypto_aead_encrypt g σ ρ h .little c clen m P.length ad A.length npub k) mem,
      Recovers g.EXTERN_BI B h.ks g.KEY K := by
  obtain ⟨_, _, ⟨B, hB, hs⟩, _⟩ := run_encrypt_aux hg.ok σ ρ h mem c clen m ad npub k K N A P pre
  exact ⟨B, hB, recovers hg.ok.K hs⟩

/-- One of the blocks that `crypto_aead_encrypt` gives back contains the plaintext. -/
theorem C75_masked_encrypt_frees_plaintext (g : Cfg) (hg : g.Supported) (σ ρ : Nat → Nat → Word) (h : Heap) (mem : Mem)
    (c clen m ad npub k : Nat) (K N A P : List Byte) (pre : EncPre g mem h c clen m ad npub k K N A P) :
    ∃ B ∈ freed (crypto_aead_encrypt g σ ρ h .little c clen m P.length ad A.length npub k) mem,
      Recovers g.EXTERN_BI B h.ms g.M P := by
  obtain ⟨_, _, _, ⟨B, hB, hs⟩⟩ := run_encrypt_aux hg.ok σ ρ h mem c clen m ad npub k K N A P pre
  exact ⟨B, hB, recovers hg.ok.M hs⟩

/-- One of the blocks that `crypto_aead_decrypt` gives back contains the key. -/
theorem C75_masked_decrypt_frees_key (g : Cfg) (hg : g.Supported) (σ ρ : Nat → Nat → Word) (h : Heap) (mem : Mem)
    (m mlen c ad npub k : Nat) (K N A D : List Byte) (pre : DecPre g mem h m mlen c ad npub k K N A D) :
    ∃ B ∈ freed (crypto_aead_decrypt g σ ρ h .little m mlen c D.length ad A.length npub k) mem,
      Recovers g.EXTERN_BI B h.ks g.KEY K := by
  obtain ⟨_, _, ⟨B, hB, hs⟩, _⟩ := run_decrypt_aux hg.ok σ ρ h mem m mlen c ad npub k K N A D pre
  exact ⟨B, hB, recovers hg.ok.K hs⟩

/-- One of the blocks that `crypto_aead_decrypt` gives back contains the candidate plaintext, whether or not the tag was
accepted. -/
theorem C75_masked_decrypt_frees_candidate (g : Cfg) (hg : g.Supported) (σ ρ : Nat → Nat → Word) (h : Heap) (mem : Mem)
    (m mlen c ad npub k : Nat) (K N A D : List Byte) (pre : DecPre g mem h m mlen c ad npub k K N A D) :
    ∃ B ∈ freed (crypto_aead_decrypt g σ ρ h .little m mlen c D.length ad A.length npub k) mem,
      Recovers g.EXTERN_BI B h.ms g.M (aeadCandidate K N A (ctBody D)) := by
  have hmin := pre.ctMin
  obtain ⟨_, _, _, ⟨X, hl, hX, B, hB, hs⟩⟩ := run_decrypt_aux hg.ok σ ρ h mem m mlen c ad npub k K N A D pre
  have hc : (aeadCandidate K N A (ctBody D)).length = D.length - 16 := by
    rw [← hX, List.length_take, hl]; omega
  exact ⟨B, hB, recovers_padded hg.ok.M hs (by rw [hl, hc]) (by rw [hc]; exact hX)⟩

/-- Concrete calls with four shares of the key. -/
example (σ ρ : Nat → Nat → Word) :
    ∃ B ∈ freed (crypto_aead_encrypt cfgMixed σ ρ demoHeapN .little 200 300 100 Demo.P.length 32 Demo.A.length 16 0) Demo.memC,
      ∃ mem', run (combine_shares true .little 5000 Demo.K.length 1000 4) (B.fill 5000 Demo.K.length .uninit) = some ((), mem') ∧
        mem'.Holds 5000 Demo.K := by
  obtain ⟨B, hB, hr⟩ := C75_masked_encrypt_frees_key cfgMixed cfgMixed_supported σ ρ _ _ _ _ _ _ _ _ _ _ _ _
    (demoEncN _ cfgMixed_supported)
  exact ⟨B, hB, hr 5000 (by unfold Disjoint; decide)⟩

example (σ ρ : Nat → Nat → Word) :
    ∃ B ∈ freed (crypto_aead_decrypt cfgMixed σ ρ demoHeapN .little 100 300 200 Demo.C.length 32 Demo.A.length 16 0)
        (Demo.mem.writes 200 Demo.C), Recovers true B 1300 3 (aeadCandidate Demo.K Demo.N Demo.A (ctBody Demo.C)) :=
  C75_masked_decrypt_frees_candidate cfgMixed cfgMixed_supported σ ρ _ _ _ _ _ _ _ _ _ _ _ _
    (demoReceivedN _ cfgMixed_supported Demo.C (by decide))

end Ascon.MaskedN

namespace Ascon.Impl

open Ascon.Spec Ascon.C

attribute [local irreducible] perm

/-! ## The expected tag in the stack frame -/

/-- `crypto_auth_verify` of asconmacv13: whatever the received tag is, the 16 bytes of the stack frame at `sp` have the correct
tag of the message when the function returns. -/
theorem C75_mac_verify_leaves_tag (i : Auth) (e : Endian) (h : i.runsOn e) : VerifyLeavesAt e mac 16 (fun _ => True) i.macVerify := by
  unfold Auth.runsOn at h
  unfold Auth.macVerify
  cases hc : i.code <;> rw [hc] at h
  case ref => exact Ref.mac_verify_leaves e
  case gen c => exact Gen.mac_verify_leaves (c.ok e h)
  case byte b => simp only [AuthCode.runsOn] at h; subst h; exact Opt8.mac_verify_leaves b.ok

/-- The same for asconprfv13 (64 bytes). -/
theorem C75_prf_verify_leaves_tag (i : Auth) (e : Endian) (h : i.runsOn e) :
    VerifyLeavesAt e (fun K M => Spec.prf K M 64) 64 (fun _ => True) i.prfVerify := by
  unfold Auth.runsOn at h
  unfold Auth.prfVerify
  cases hc : i.code <;> rw [hc] at h
  case ref => exact Ref.prf_verify_leaves e
  case gen c => exact Gen.prf_verify_leaves (c.ok e h)
  case byte b => simp only [AuthCode.runsOn] at h; subst h; exact Opt8.prf_verify_leaves b.ok

/-- The same for asconprfsv13 (messages of at most 16 bytes). -/
theorem C75_prfs_verify_leaves_tag (i : Auth) (e : Endian) (h : i.runsOn e) :
    VerifyLeavesAt e (fun K M => prfShort K M 16) 16 (fun l => l ≤ 16) i.prfsVerify := by
  unfold Auth.runsOn at h
  unfold Auth.prfsVerify
  cases hc : i.code <;> rw [hc] at h
  case ref => exact Ref.prfs_verify_leaves e
  case gen c => exact Gen.prfs_verify_leaves (c.ok e h)
  case byte b => simp only [AuthCode.runsOn] at h; subst h; exact Opt8.prfs_verify_leaves b.ok

/-- A rejected message: `N` is not the tag of the message at 100, the correct tag is left at 1000. -/
example : ∃ B ∈ freed (Auth.macVerify .ref .little 1000 16 100 20 0) Demo.mem, B.Holds 1000 (mac Demo.K Demo.P) :=
  C75_mac_verify_leaves_tag .ref .little trivial Demo.mem 1000 16 100 0 Demo.K Demo.P Demo.N Demo.holdsK rfl Demo.holdsP (by decide)
    Demo.holdsN rfl trivial Demo.stack128
example : Demo.N ≠ mac Demo.K Demo.P := by decide +kernel
example : Demo.mem.Holds 32 Demo.A ∧ Demo.A.length ≤ 16 := ⟨Demo.holdsA, by decide⟩

/-- The AEAD directories whose `crypto_aead_decrypt` compares the tag through a local array `t[16]`. -/
def Aead.localTag : Aead → Bool
  | .ref | .opt64_lowsize | .opt32_lowsize | .bi32_lowsize | .opt64_lowsize_aeadxof | .opt32_lowsize_aeadxof
  | .bi32_lowsize_aeadxof | .armv6_lowsize | .armv6m_lowsize | .armv7m_lowsize | .armv6_lowsize_aeadxof
  | .armv6m_lowsize_aeadxof | .armv7m_lowsize_aeadxof => true
  | _ => false

/-- `crypto_aead_decrypt` of these directories leaves in its stack frame the tag that would have been accepted. -/
theorem C75_aead_decrypt_leaves_tag (i : Aead) (hi : i.localTag = true) (e : Endian) (h : i.runsOn e) : DecLeavesAt e i.decrypt := by
  unfold Aead.runsOn at h
  unfold Aead.decrypt
  have hc : i.code = .ref ∨ ∃ c b, i.code = .low c b := by
    cases i <;> first | exact .inl rfl | exact .inr ⟨_, _, rfl⟩ | exact absurd hi Bool.false_ne_true
  rcases hc with hc | ⟨c, b, hc⟩
  · rw [hc]; exact Ref.dec_leaves e
  · rw [hc] at h ⊢; exact Low.dec_leaves (c.ok e h) b

/-- So after a rejected forgery the frame has what is missing for a successful one: every implementation accepts the same
ciphertext with the 16 bytes left there as tag. -/
theorem C75_aead_decrypt_leaves_forgery (i : Aead) (hi : i.localTag = true) (e : Endian) (h : i.runsOn e)
    (mem : Mem) (sp m mlen nsec c ad npub k : Nat) (K N A C : List Byte) (pre : DecPre mem sp m mlen c ad npub k K N A C) :
    ∃ B ∈ freed (i.decrypt e sp m mlen nsec c C.length ad A.length npub k) mem, ∃ T, B.Holds sp T ∧ T.length = 16 ∧
      ∀ (j : Aead) (e' : Endian), j.runsOn e' → ∀ (mem' : Mem) (sp' m' mlen' nsec' c' ad' npub' k' : Nat),
        DecPre mem' sp' m' mlen' c' ad' npub' k' K N A (ctBody C ++ T) →
        ∃ r, run (j.decrypt e' sp' m' mlen' nsec' c' (ctBody C ++ T).length ad' A.length npub' k') mem' = some (0, r) := by
  obtain ⟨B, hB, hT⟩ := C75_aead_decrypt_leaves_tag i hi e h mem sp m mlen nsec c ad npub k K N A C pre
  have hl : (aeadDecTag K N A (ctBody C)).length = 16 := Ref.length_aeadTag _ _
  refine ⟨B, hB, _, hT, hl, fun j e' hj mem' sp' m' mlen' nsec' c' ad' npub' k' pre' => ?_⟩
  have hr := j.decrypt_correct e' hj mem' sp' m' mlen' nsec' c' ad' npub' k' K N A _ pre'
  have h1 : ctBody (ctBody C ++ aeadDecTag K N A (ctBody C)) = ctBody C := by
    show (ctBody C ++ aeadDecTag K N A (ctBody C)).take _ = _
    rw [List.length_append, hl, Nat.add_sub_cancel, List.take_left']
    rfl
  have h2 : ctTag (ctBody C ++ aeadDecTag K N A (ctBody C)) = aeadDecTag K N A (ctBody C) := by
    show (ctBody C ++ aeadDecTag K N A (ctBody C)).drop _ = _
    rw [List.length_append, hl, Nat.add_sub_cancel, List.drop_left']
    rfl
  rw [h1, h2, if_pos rfl] at hr
  exact ⟨_, hr⟩

example : Aead.localTag .armv7m_lowsize = true ∧ DecPre Demo.memC 1000 100 300 200 32 16 0 Demo.K Demo.N Demo.A Demo.C :=
  ⟨rfl, Demo.decPre⟩

end Ascon.Impl
