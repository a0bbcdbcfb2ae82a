import Verif.C.Shared
import Verif.Proof.RegistryFetch
import Verif.Props.Aead
/-!
# Inputs in shared memory (C66)

`runShared I adv 0 p mem` (C/Shared.lean) runs `p` while another party keeps changing the bytes at the addresses `I`:
the reads of `I` return `adv 0`, `adv 1`, ….  `fetched adv n l` is the string of the fetches `n`, …, `n + l - 1`.
-/

namespace Ascon.Props

open Ascon.C Ascon.Spec Ascon.Impl

attribute [local irreducible] perm

section
variable {α : Type} {segs : List (Nat × Nat)} {sp n : Nat} {p : Prog α} {ws : List Nat}

theorem inSegs_of_mem {p l a : Nat} (h : (p, l) ∈ segs) (ha : p ≤ a ∧ a < p + l) : InSegs segs a = true := by
  unfold InSegs
  rw [List.any_eq_true]
  exact ⟨_, h, decide_eq_true ha⟩

theorem AccOutside.linearize (h : AccOutside sp n p (addrs segs) ws) (adv : Nat → Byte) (mem : Mem) (hs : Separate segs)
    (hst : ∀ s ∈ segs, Disjoint sp n s.1 s.2) (hw : ∀ a ∈ ws, InSegs segs a = false) {r : α} {mem1 : Mem}
    (hrun : run p (mem.refresh (InSegs segs) (assign adv segs 0)) = some (r, mem1)) :
    ∃ mem', runShared (InSegs segs) adv 0 p mem = some (r, mem') ∧ ∀ a, InSegs segs a = false → mem' a = mem1 a := by
  obtain ⟨rs', ws', h1, h2, h3⟩ := h
  have key : ∀ a, InSegs segs a = true → (!decide (sp ≤ a ∧ a < sp + n)) = true := by
    intro a ha
    unfold InSegs at ha
    rw [List.any_eq_true] at ha
    obtain ⟨x, hx1, hx2⟩ := ha
    have hx2 := of_decide_eq_true hx2
    have := hst x hx1
    unfold Disjoint at this
    simp only [Bool.not_eq_true', decide_eq_false_iff_not]
    omega
  refine h1.linearize adv mem hs ?_ (fun a ha => ?_) hrun
  · have : rs'.filter (InSegs segs) = (outside sp n rs').filter (InSegs segs) := by
      unfold outside
      rw [List.filter_filter]
      congr 1
      funext a
      cases hx : InSegs segs a
      · simp
      · rw [key a hx]; rfl
    rw [this, h2, filter_addrs]
  · cases hx : InSegs segs a with
    | false => rfl
    | true =>
      have : a ∈ ws := by
        rw [← h3]
        unfold outside
        rw [List.mem_filter]
        exact ⟨ha, key a hx⟩
      rw [hw a this] at hx
      cases hx

/-- An address of a buffer that overlaps none of the shared ones. -/
theorem not_inSegs {q l a : Nat} (hd : ∀ s ∈ segs, Disjoint s.1 s.2 q l) (ha : q ≤ a ∧ a < q + l) :
    InSegs segs a = false := by
  cases hx : InSegs segs a with
  | false => rfl
  | true =>
    unfold InSegs at hx
    rw [List.any_eq_true] at hx
    obtain ⟨x, hx1, hx2⟩ := hx
    have hx2 := of_decide_eq_true hx2
    have := hd x hx1
    unfold Disjoint at this
    omega

theorem holds_of_eq {mem mem1 : Mem} {q : Nat} {bs : List Byte} (hd : ∀ s ∈ segs, Disjoint s.1 s.2 q bs.length)
    (he : ∀ a, InSegs segs a = false → mem a = mem1 a) (h : mem1.Holds q bs) : mem.Holds q bs := by
  intro i hi
  rw [he _ (not_inSegs hd (by omega))]
  exact h i hi

theorem refresh_not {I : Nat → Bool} {f : Nat → Byte} {mem : Mem} {a : Nat} (h : I a = false) : mem.refresh I f a = mem a := by
  unfold Mem.refresh
  simp [h]

end

/-- The buffers a call of the AEAD functions reads: key, nonce, associated data, and plaintext or ciphertext. -/
def aeadInputs (k npub ad adlen x xlen : Nat) : List (Nat × Nat) := [(k, 16), (npub, 16), (ad, adlen), (x, xlen)]

/-- No two of the input buffers overlap, and neither of the two outputs overlaps an input. -/
structure AeadApart (k npub ad adlen x xlen y ylen z zlen : Nat) : Prop where
  inputs : Separate (aeadInputs k npub ad adlen x xlen)
  out : ∀ s ∈ aeadInputs k npub ad adlen x xlen, Disjoint s.1 s.2 y ylen
  outLen : ∀ s ∈ aeadInputs k npub ad adlen x xlen, Disjoint s.1 s.2 z zlen

theorem aead_holds {adv : Nat → Byte} {mem : Mem} {k npub ad x : Nat} {K N A X : List Byte}
    (hs : Separate (aeadInputs k npub ad A.length x X.length))
    (hK : mem.Holds k K) (hk : K.length = 16) (hN : mem.Holds npub N) (hn : N.length = 16) (hA : mem.Holds ad A)
    (hX : mem.Holds x X) :
    (mem.refresh (InSegs (aeadInputs k npub ad A.length x X.length))
      (assign adv (aeadInputs k npub ad A.length x X.length) 0)).Holds k (fetched adv 0 16) ∧
    (mem.refresh (InSegs (aeadInputs k npub ad A.length x X.length))
      (assign adv (aeadInputs k npub ad A.length x X.length) 0)).Holds npub (fetched adv 16 16) ∧
    (mem.refresh (InSegs (aeadInputs k npub ad A.length x X.length))
      (assign adv (aeadInputs k npub ad A.length x X.length) 0)).Holds ad (fetched adv 32 A.length) ∧
    (mem.refresh (InSegs (aeadInputs k npub ad A.length x X.length))
      (assign adv (aeadInputs k npub ad A.length x X.length) 0)).Holds x (fetched adv (32 + A.length) X.length) := by
  refine ⟨holds_refresh (pre := []) rfl hs hk hK, ?_, ?_, ?_⟩
  · have := holds_refresh (adv := adv) (pre := [(k, 16)]) (post := [(ad, A.length), (x, X.length)]) rfl hs hn hN
    simpa [addrs, aeadInputs] using this
  · have := holds_refresh (adv := adv) (pre := [(k, 16), (npub, 16)]) (post := [(x, X.length)]) rfl hs rfl hA
    simpa [addrs, aeadInputs] using this
  · have := holds_refresh (adv := adv) (pre := [(k, 16), (npub, 16), (ad, A.length)]) (post := []) rfl hs rfl hX
    have he : (addrs [(k, 16), (npub, 16), (ad, A.length)]).length = 32 + A.length := by simp [addrs]; omega
    rw [he] at this
    exact this

/-- **C66, encryption** While `crypto_aead_encrypt` runs, another party may change key, nonce, associated data and plaintext
buffers at will: the call still succeeds, and what it leaves in `c` is the encryption of one message, namely of the bytes it
fetched, under the key, nonce and associated data it fetched; nothing else is written. -/
theorem C66_encrypt_shared_inputs (i : Aead) (e : Endian) (hi : i.runsOn e) (mem : Mem)
    (sp c clen m ad nsec npub k : Nat) (K N A P : List Byte) (h : EncPre mem sp c clen m ad npub k K N A P)
    (hd : AeadApart k npub ad A.length m P.length c (P.length + 16) clen 8) (adv : Nat → Byte) :
    ∃ mem', runShared (InSegs (aeadInputs k npub ad A.length m P.length)) adv 0
        (i.encrypt e sp c clen m P.length ad A.length nsec npub k) mem = some (0, mem') ∧
      mem'.Holds c (aeadEncrypt (fetched adv 0 16) (fetched adv 16 16) (fetched adv 32 A.length)
        (fetched adv (32 + A.length) P.length)) ∧
      mem'.Holds clen (repr64 e (BitVec.ofNat 64 (P.length + 16))) ∧
      ∀ a, ¬ (c ≤ a ∧ a < c + (P.length + 16)) → ¬ (clen ≤ a ∧ a < clen + 8) →
        InSegs (aeadInputs k npub ad A.length m P.length) a = false → mem' a = mem a := by
  let segs := aeadInputs k npub ad A.length m P.length
  let mem0 := mem.refresh (InSegs segs) (assign adv segs 0)
  obtain ⟨h1, h2, h3, h4⟩ := aead_holds (adv := adv) hd.inputs h.key h.keyLen h.nonce h.nonceLen h.adata h.msg
  have dk : Disjoint sp 64 k 16 := h.keyLen ▸ h.stack.disjoint_holds h.key
  have dn : Disjoint sp 64 npub 16 := h.nonceLen ▸ h.stack.disjoint_holds h.nonce
  have da : Disjoint sp 64 ad A.length := h.stack.disjoint_holds h.adata
  have dm : Disjoint sp 64 m P.length := h.stack.disjoint_holds h.msg
  have hpre : EncPre mem0 sp c clen m ad npub k (fetched adv 0 16) (fetched adv 16 16) (fetched adv 32 A.length)
      (fetched adv (32 + A.length) P.length) :=
    ⟨h1, by simp, h2, by simp, h3, by simpa using h.adLen, h4, by simpa using h.msgLen,
      by simpa using writable_refresh h.out, writable_refresh h.outLen, h.sepKey, h.sepNonce, by simpa using h.sepAd,
      by simpa using h.sepMsg, by simpa using h.sepOut, by simpa using h.overlap, free_refresh h.stack⟩
  have hrun := i.encrypt_correct e hi mem0 sp c clen m ad nsec npub k _ _ _ _ hpre
  rw [length_fetched, length_fetched] at hrun
  have hacc := i.encrypt_acc (nsec := nsec) hi dk dn da dm (h.stack.disjoint_writable h.outLen)
    (h.stack.disjoint_writable h.out)
  have hadd : List.range' k 16 ++ List.range' npub 16 ++ List.range' ad A.length ++ List.range' m P.length = addrs segs := by
    simp [segs, aeadInputs, addrs]
  rw [hadd] at hacc
  obtain ⟨mem', hm1, hm2⟩ := AccOutside.linearize hacc adv mem hd.inputs
    (by
      intro s hs
      simp only [segs, aeadInputs, List.mem_cons, List.not_mem_nil, or_false] at hs
      rcases hs with rfl | rfl | rfl | rfl <;> assumption)
    (by
      intro a ha
      rw [List.mem_append, List.mem_range'_1, List.mem_range'_1] at ha
      rcases ha with ha | ha
      · exact not_inSegs hd.outLen ha
      · exact not_inSegs hd.out ha) hrun
  refine ⟨mem', hm1, ?_, ?_, ?_⟩
  · exact holds_of_eq (by rw [length_aeadEncrypt, length_fetched]; exact hd.out) hm2 (encPost_holds e hpre)
  · have := encPost_len e hpre
    rw [length_fetched] at this
    exact holds_of_eq (by rw [Ref.length_repr64]; exact hd.outLen) hm2 this
  · intro a hc hl ha
    rw [hm2 a ha]
    show encPost e mem0 c clen _ _ _ _ a = _
    unfold encPost
    rw [writes_out (by rw [length_aeadEncrypt, length_fetched]; omega), writes_out (by rw [Ref.length_repr64]; omega)]
    exact refresh_not ha

/-- **C66, decryption** While `crypto_aead_decrypt` runs, another party may change key, nonce, associated data and the
received string at will.  The verdict and the plaintext then belong together: there is one string `C'` (the bytes that were
fetched) such that the call accepts exactly if `C'` is authentic, and if it accepts, the plaintext it leaves in `m` is the
decryption of `C'`.  No behaviour of the other party makes it accept one string and decrypt another. -/
theorem C66_decrypt_shared_inputs (i : Aead) (e : Endian) (hi : i.runsOn e) (mem : Mem)
    (sp m mlen nsec c ad npub k : Nat) (K N A C : List Byte) (h : DecPre mem sp m mlen c ad npub k K N A C)
    (hd : AeadApart k npub ad A.length c C.length m (C.length - 16) mlen 8) (adv : Nat → Byte) :
    ∃ r mem', runShared (InSegs (aeadInputs k npub ad A.length c C.length)) adv 0
        (i.decrypt e sp m mlen nsec c C.length ad A.length npub k) mem = some (r, mem') ∧
      (∀ P, aeadDecrypt (fetched adv 0 16) (fetched adv 16 16) (fetched adv 32 A.length)
        (fetched adv (32 + A.length) C.length) = some P → r = 0 ∧ mem'.Holds m P) ∧
      (aeadDecrypt (fetched adv 0 16) (fetched adv 16 16) (fetched adv 32 A.length)
        (fetched adv (32 + A.length) C.length) = none → r = -1) ∧
      (r = 0 → ∃ P, mem'.Holds m P ∧ fetched adv (32 + A.length) C.length =
        aeadEncrypt (fetched adv 0 16) (fetched adv 16 16) (fetched adv 32 A.length) P) ∧
      ∀ a, ¬ (m ≤ a ∧ a < m + (C.length - 16)) → ¬ (mlen ≤ a ∧ a < mlen + 8) →
        InSegs (aeadInputs k npub ad A.length c C.length) a = false → mem' a = mem a := by
  let segs := aeadInputs k npub ad A.length c C.length
  let mem0 := mem.refresh (InSegs segs) (assign adv segs 0)
  obtain ⟨h1, h2, h3, h4⟩ := aead_holds (adv := adv) hd.inputs h.key h.keyLen h.nonce h.nonceLen h.adata h.ct
  have dk : Disjoint sp 64 k 16 := h.keyLen ▸ h.stack.disjoint_holds h.key
  have dn : Disjoint sp 64 npub 16 := h.nonceLen ▸ h.stack.disjoint_holds h.nonce
  have da : Disjoint sp 64 ad A.length := h.stack.disjoint_holds h.adata
  have dm : Disjoint sp 64 c C.length := h.stack.disjoint_holds h.ct
  have hpre : DecPre mem0 sp m mlen c ad npub k (fetched adv 0 16) (fetched adv 16 16) (fetched adv 32 A.length)
      (fetched adv (32 + A.length) C.length) :=
    ⟨h1, by simp, h2, by simp, h3, by simpa using h.adLen, h4, by simpa using h.ctMin, by simpa using h.ctLen,
      by simpa using writable_refresh h.out, writable_refresh h.outLen, h.sepKey, h.sepNonce, by simpa using h.sepAd,
      by simpa using h.sepCt, by simpa using h.sepOut, by simpa using h.overlap, free_refresh h.stack⟩
  have hrun := i.decrypt_correct e hi mem0 sp m mlen nsec c ad npub k _ _ _ _ hpre
  rw [length_fetched, length_fetched] at hrun
  have hacc := i.decrypt_acc (nsec := nsec) hi h.ctMin dk dn da dm (h.stack.disjoint_writable h.outLen)
    (h.stack.disjoint_writable h.out)
  have hadd : List.range' k 16 ++ List.range' npub 16 ++ List.range' ad A.length ++ List.range' c C.length = addrs segs := by
    simp [segs, aeadInputs, addrs]
  rw [hadd] at hacc
  obtain ⟨mem', hm1, hm2⟩ := AccOutside.linearize hacc adv mem hd.inputs
    (by
      intro s hs
      simp only [segs, aeadInputs, List.mem_cons, List.not_mem_nil, or_false] at hs
      rcases hs with rfl | rfl | rfl | rfl <;> assumption)
    (by
      intro a ha
      rw [List.mem_append, List.mem_range'_1, List.mem_range'_1] at ha
      rcases ha with ha | ha
      · exact not_inSegs hd.outLen ha
      · exact not_inSegs hd.out ha) hrun
  have hcand : mem'.Holds m (aeadCandidate (fetched adv 0 16) (fetched adv 16 16) (fetched adv 32 A.length)
      (ctBody (fetched adv (32 + A.length) C.length))) := by
    refine holds_of_eq ?_ hm2 (decPost_holds e)
    rw [length_candidate, length_ctBody hpre.ctMin, length_fetched]
    exact hd.out
  have hfst : ∀ P, aeadDecrypt (fetched adv 0 16) (fetched adv 16 16) (fetched adv 32 A.length)
      (fetched adv (32 + A.length) C.length) = some P →
      ctTag (fetched adv (32 + A.length) C.length) = aeadDecTag (fetched adv 0 16) (fetched adv 16 16)
        (fetched adv 32 A.length) (ctBody (fetched adv (32 + A.length) C.length)) ∧ mem'.Holds m P := by
    intro P hP
    rw [aeadDecrypt_eq hpre.ctMin] at hP
    split at hP
    · rename_i ht
      injection hP with hP
      rw [← hP]
      exact ⟨ht, hcand⟩
    · cases hP
  refine ⟨_, mem', hm1, fun P hP => ?_, fun hP => ?_, fun hr => ?_, ?_⟩
  · obtain ⟨ht, hh⟩ := hfst P hP
    exact ⟨if_pos ht, hh⟩
  · rw [aeadDecrypt_eq hpre.ctMin] at hP
    split at hP
    · cases hP
    · rename_i ht
      exact if_neg ht
  · by_cases ht : ctTag (fetched adv (32 + A.length) C.length) = aeadDecTag (fetched adv 0 16) (fetched adv 16 16)
        (fetched adv 32 A.length) (ctBody (fetched adv (32 + A.length) C.length))
    · refine ⟨_, hcand, (aeadEncrypt_of_aeadDecrypt ?_)⟩
      rw [aeadDecrypt_eq hpre.ctMin, if_pos ht]
    · rw [if_neg ht] at hr
      exact absurd hr (by decide)
  · intro a hm hl ha
    rw [hm2 a ha, decPost_frame e hpre.ctMin (by unfold InRange; rw [length_fetched]; exact hm) hl]
    exact refresh_not ha

example : DecPre Demo.memC 1000 100 300 200 32 16 0 Demo.K Demo.N Demo.A Demo.C ∧
    AeadApart 0 16 32 Demo.A.length 200 Demo.C.length 100 (Demo.C.length - 16) 300 8 ∧
    EncPre Demo.mem 1000 200 300 100 32 16 0 Demo.K Demo.N Demo.A Demo.P ∧
    AeadApart 0 16 32 Demo.A.length 100 Demo.P.length 200 (Demo.P.length + 16) 300 8 := by
  refine ⟨Demo.decPre, ⟨?_, ?_, ?_⟩, Demo.encPre, ⟨?_, ?_, ?_⟩⟩ <;> unfold aeadInputs <;>
    (try unfold Separate) <;> unfold Disjoint <;> decide +kernel

/-! ## Hash, XOF, MAC -/

theorem AccOutside.of_acc {α : Type} {p : Prog α} {rs ws : List Nat} (h : Acc Any1 p rs ws) : AccOutside 0 0 p rs ws := by
  have : ∀ l, outside 0 0 l = l := by
    intro l
    unfold outside
    rw [List.filter_eq_self]
    intro a _
    simp
  exact ⟨rs, ws, h, this _, this _⟩

/-- **C66, hash functions** While `crypto_hash` (Ascon-Hash256, Ascon-XOF128) or `ascon_xof` runs, another party may change
the message: the result is the hash of one message, the bytes that were fetched. -/
theorem C66_hash_shared_input (e : Endian) (mem : Mem) (sp out n inp : Nat) (M : List Byte) (hM : mem.Holds inp M)
    (hl : M.length < 2 ^ 64) (hn : n < 2 ^ 64) (hw : mem.Writable out n) (hs : mem.Free sp 64)
    (hd : Disjoint inp M.length out n) (adv : Nat → Byte) :
    (∀ i : Hash, i.runsOn e → n = 32 → ∃ mem', runShared (InSegs [(inp, M.length)]) adv 0
      (i.hash256 e sp out inp M.length) mem = some (0, mem') ∧ mem'.Holds out (hash256 (fetched adv 0 M.length))) ∧
    (∀ i : HashX, i.runsOn e → n = 64 → ∃ mem', runShared (InSegs [(inp, M.length)]) adv 0
      (i.xof128 e sp out inp M.length) mem = some (0, mem') ∧ mem'.Holds out (xof128 (fetched adv 0 M.length) 64)) ∧
    (∀ i : Xof, i.runsOn e → ∃ mem', runShared (InSegs [(inp, M.length)]) adv 0
      (i.xof128 e sp out n inp M.length) mem = some (0, mem') ∧ mem'.Holds out (xof128 (fetched adv 0 M.length) n)) := by
  have hsep : Separate [(inp, M.length)] := List.pairwise_singleton _ _
  have hh : (mem.refresh (InSegs [(inp, M.length)]) (assign adv [(inp, M.length)] 0)).Holds inp (fetched adv 0 M.length) :=
    holds_refresh (pre := []) rfl hsep rfl hM
  have had : List.range' inp M.length = addrs [(inp, M.length)] := by simp [addrs]
  have hst : ∀ s ∈ [(inp, M.length)], Disjoint 0 0 s.1 s.2 := fun _ _ => .inl rfl
  have hdd : ∀ s ∈ [(inp, M.length)], Disjoint s.1 s.2 out n := by
    intro s hs
    rw [List.mem_singleton] at hs
    subst hs
    exact hd
  have hws : ∀ a ∈ List.range' out n, InSegs [(inp, M.length)] a = false := by
    intro a ha
    rw [List.mem_range'_1] at ha
    exact not_inSegs hdd ha
  have hl' : (fetched adv 0 M.length).length < 2 ^ 64 := by simpa using hl
  refine ⟨fun i hi hn => ?_, fun i hi hn => ?_, fun i hi => ?_⟩
  · subst hn
    have hacc := AccOutside.of_acc (i.hash256_acc (sp := sp) (out := out) (inp := inp) (len := M.length) hi)
    rw [had] at hacc
    have hrun := i.hash256_correct e hi _ sp out inp _ hh hl' (writable_refresh hw) (free_refresh hs)
    rw [length_fetched] at hrun
    obtain ⟨mem', h1, h2⟩ := AccOutside.linearize hacc adv mem hsep hst hws hrun
    refine ⟨mem', h1, holds_of_eq ?_ h2 (holds_writes_self _ _ _)⟩
    rw [show (hash256 (fetched adv 0 M.length)).length = 32 from length_squeeze 8 _ 32 (by omega) (by omega)]
    exact hdd
  · subst hn
    have hacc := AccOutside.of_acc (i.xof128_acc (sp := sp) (out := out) (inp := inp) (len := M.length) hi)
    rw [had] at hacc
    have hrun := i.xof128_correct e hi _ sp out inp _ hh hl' (writable_refresh hw) (free_refresh hs)
    rw [length_fetched] at hrun
    obtain ⟨mem', h1, h2⟩ := AccOutside.linearize hacc adv mem hsep hst hws hrun
    refine ⟨mem', h1, holds_of_eq ?_ h2 (holds_writes_self _ _ _)⟩
    rw [show (xof128 (fetched adv 0 M.length) 64).length = 64 from length_squeeze 8 _ 64 (by omega) (by omega)]
    exact hdd
  · have hacc := AccOutside.of_acc (i.xof128_acc (sp := sp) (out := out) (n := n) (inp := inp) (len := M.length) hi)
    rw [had] at hacc
    have hrun := i.xof128_correct e hi _ sp out n inp _ hh hl' hn (writable_refresh hw) (free_refresh hs)
    rw [length_fetched] at hrun
    obtain ⟨mem', h1, h2⟩ := AccOutside.linearize hacc adv mem hsep hst hws hrun
    refine ⟨mem', h1, holds_of_eq ?_ h2 (holds_writes_self _ _ _)⟩
    rw [show (xof128 (fetched adv 0 M.length) n).length = n from length_squeeze 8 _ n (by omega) (by omega)]
    exact hdd

/-- **C66, Ascon-Mac verification** While `crypto_auth_verify` runs, another party may change key, message and tag: the
verdict is that for the one triple of strings that was fetched. -/
theorem C66_mac_verify_shared_inputs (i : Auth) (e : Endian) (hi : i.runsOn e) (mem : Mem) (sp h inp k : Nat)
    (K M T : List Byte) (hk : mem.Holds k K) (hK : K.length = 16) (hM : mem.Holds inp M) (hl : M.length < 2 ^ 64)
    (hT : mem.Holds h T) (hTl : T.length = 16) (hs : mem.Free sp 128)
    (hd : Separate [(k, 16), (inp, M.length), (h, 16)]) (adv : Nat → Byte) :
    ∃ r mem', runShared (InSegs [(k, 16), (inp, M.length), (h, 16)]) adv 0 (i.macVerify e sp h inp M.length k) mem =
        some (r, mem') ∧
      (r = 0 ↔ fetched adv (16 + M.length) 16 = mac (fetched adv 0 16) (fetched adv 16 M.length)) ∧ (r = 0 ∨ r = -1) ∧
      ∀ a, InSegs [(k, 16), (inp, M.length), (h, 16)] a = false → mem' a = mem a := by
  let segs := [(k, 16), (inp, M.length), (h, 16)]
  have h1 : (mem.refresh (InSegs segs) (assign adv segs 0)).Holds k (fetched adv 0 16) :=
    holds_refresh (pre := []) rfl hd hK hk
  have h2 : (mem.refresh (InSegs segs) (assign adv segs 0)).Holds inp (fetched adv 16 M.length) := by
    have := holds_refresh (adv := adv) (pre := [(k, 16)]) (post := [(h, 16)]) rfl hd rfl hM
    simpa [addrs, segs] using this
  have h3 : (mem.refresh (InSegs segs) (assign adv segs 0)).Holds h (fetched adv (16 + M.length) 16) := by
    have := holds_refresh (adv := adv) (pre := [(k, 16), (inp, M.length)]) (post := []) rfl hd hTl hT
    have he : (addrs [(k, 16), (inp, M.length)]).length = 16 + M.length := by simp [addrs]
    rw [he] at this
    exact this
  have dk : Disjoint sp 128 k 16 := hK ▸ hs.disjoint_holds hk
  have di : Disjoint sp 128 inp M.length := hs.disjoint_holds hM
  have dh : Disjoint sp 128 h 16 := hTl ▸ hs.disjoint_holds hT
  have hacc := (i.verify_acc hi dk di).1 dh
  have had : List.range' k 16 ++ List.range' inp M.length ++ List.range' h 16 = addrs segs := by simp [addrs, segs]
  rw [had] at hacc
  have hrun := i.macVerify_correct e hi _ sp h inp k _ _ _ h1 (by simp) h2 (by simpa using hl) h3 (by simp) trivial
    (free_refresh hs)
  rw [length_fetched] at hrun
  obtain ⟨mem', hm1, hm2⟩ := AccOutside.linearize hacc adv mem hd
    (by
      intro s hs
      simp only [segs, List.mem_cons, List.not_mem_nil, or_false] at hs
      rcases hs with rfl | rfl | rfl <;> assumption) (by simp) hrun
  refine ⟨_, mem', hm1, ?_, ?_, fun a ha => by rw [hm2 a ha]; exact refresh_not ha⟩
  · split <;> simp_all
  · split <;> simp

example : Demo.mem.Holds 0 Demo.K ∧ Demo.mem.Holds 100 Demo.P ∧ Demo.mem.Holds 16 Demo.N ∧ Demo.mem.Writable 200 36 ∧
    Demo.mem.Free 1000 128 ∧ Separate [(0, 16), (100, Demo.P.length), (16, 16)] ∧ Disjoint 100 Demo.P.length 200 32 :=
  ⟨Demo.holdsK, Demo.holdsP, Demo.holdsN, Demo.out36, Demo.stack128,
    by unfold Separate Disjoint; decide +kernel, by unfold Disjoint; decide +kernel⟩

end Ascon.Props
