import Verif.Proof.Registry
import Verif.Proof.SpecAead
import Verif.Props.Demo
/-!
# Byte order, determinism, history (C30, C37)
-/

namespace Ascon.Props

open Ascon.C Ascon.Spec Ascon.Impl

attribute [local irreducible] perm

/-! ## C30 -/

/-- **C30** Implementations that are claimed for both byte orders (ref, opt64, opt32 and their low-size
variants) write the same ciphertext-with-tag and return the same value on little- and big-endian machines. -/
theorem C30_encrypt_endian_independent (i : Aead) (hi : ∀ e, i.runsOn e) (memL memB : Mem)
    (sp c clen m ad nsec npub k sp' c' clen' m' ad' nsec' npub' k' : Nat) (K N A P : List Byte)
    (hL : EncPre memL sp c clen m ad npub k K N A P) (hB : EncPre memB sp' c' clen' m' ad' npub' k' K N A P) :
    ∃ O memL' memB', O.length = P.length + 16 ∧
      run (i.encrypt .little sp c clen m P.length ad A.length nsec npub k) memL = some (0, memL') ∧
      run (i.encrypt .big sp' c' clen' m' P.length ad' A.length nsec' npub' k') memB = some (0, memB') ∧
      memL'.Holds c O ∧ memB'.Holds c' O := by
  refine ⟨aeadEncrypt K N A P, _, _, length_aeadEncrypt K N A P,
    i.encrypt_correct .little (hi _) memL sp c clen m ad nsec npub k K N A P hL,
    i.encrypt_correct .big (hi _) memB sp' c' clen' m' ad' nsec' npub' k' K N A P hB, ?_, ?_⟩ <;>
  exact holds_writes_self _ _ _

/-- **C30, decryption** -/
theorem C30_decrypt_endian_independent (i : Aead) (hi : ∀ e, i.runsOn e) (memL memB : Mem)
    (sp m mlen nsec c ad npub k sp' m' mlen' nsec' c' ad' npub' k' : Nat) (K N A C : List Byte)
    (hL : DecPre memL sp m mlen c ad npub k K N A C) (hB : DecPre memB sp' m' mlen' c' ad' npub' k' K N A C) :
    ∃ r O memL' memB',
      run (i.decrypt .little sp m mlen nsec c C.length ad A.length npub k) memL = some (r, memL') ∧
      run (i.decrypt .big sp' m' mlen' nsec' c' C.length ad' A.length npub' k') memB = some (r, memB') ∧
      memL'.Holds m O ∧ memB'.Holds m' O ∧ O.length = C.length - 16 := by
  refine ⟨_, aeadCandidate K N A (ctBody C), _, _,
    i.decrypt_correct .little (hi _) memL sp m mlen nsec c ad npub k K N A C hL,
    i.decrypt_correct .big (hi _) memB sp' m' mlen' nsec' c' ad' npub' k' K N A C hB, ?_, ?_, ?_⟩
  · exact holds_writes_self _ _ _
  · exact holds_writes_self _ _ _
  · unfold aeadCandidate
    rw [Ref.length_decBody, ctBody, List.length_take]; omega

/-- **C30, hashing** -/
theorem C30_hash_endian_independent (i : Hash) (hi : ∀ e, i.runsOn e) (memL memB : Mem)
    (sp out inp sp' out' inp' : Nat) (M : List Byte)
    (hM : memL.Holds inp M) (hM' : memB.Holds inp' M) (hl : M.length < 2 ^ 64)
    (hw : memL.Writable out 32) (hw' : memB.Writable out' 32) (hs : memL.Free sp 64) (hs' : memB.Free sp' 64) :
    ∃ O memL' memB', O.length = 32 ∧
      run (i.hash256 .little sp out inp M.length) memL = some (0, memL') ∧
      run (i.hash256 .big sp' out' inp' M.length) memB = some (0, memB') ∧
      memL'.Holds out O ∧ memB'.Holds out' O :=
  ⟨hash256 M, _, _, length_squeeze 8 _ 32 (by omega) (by omega),
    i.hash256_correct .little (hi _) memL sp out inp M hM hl hw hs,
    i.hash256_correct .big (hi _) memB sp' out' inp' M hM' hl hw' hs',
    holds_writes_self _ _ _, holds_writes_self _ _ _⟩

/-- **C30, MAC** -/
theorem C30_mac_endian_independent (i : Auth) (hi : ∀ e, i.runsOn e) (memL memB : Mem)
    (sp out inp k sp' out' inp' k' : Nat) (K M : List Byte) (hK : K.length = 16) (hl : M.length < 2 ^ 64)
    (hk : memL.Holds k K) (hk' : memB.Holds k' K) (hM : memL.Holds inp M) (hM' : memB.Holds inp' M)
    (hw : memL.Writable out 16) (hw' : memB.Writable out' 16) :
    ∃ O memL' memB', O.length = 16 ∧
      run (i.macAuth .little sp out inp M.length k) memL = some (0, memL') ∧
      run (i.macAuth .big sp' out' inp' M.length k') memB = some (0, memB') ∧
      memL'.Holds out O ∧ memB'.Holds out' O :=
  ⟨mac K M, _, _, Ref.length_prfWith _ K M 16,
    i.macAuth_correct .little (hi _) memL sp out inp k K M hk hK hM hl hw trivial,
    i.macAuth_correct .big (hi _) memB sp' out' inp' k' K M hk' hK hM' hl hw' trivial,
    holds_writes_self _ _ _, holds_writes_self _ _ _⟩

/-- The hypotheses: these directories run on both byte orders. -/
example : (∀ e, Aead.opt64.runsOn e) ∧ (∀ e, Aead.opt32.runsOn e) ∧ (∀ e, Aead.ref.runsOn e) ∧
    (∀ e, Hash.opt64_lowsize.runsOn e) ∧ (∀ e, Hash.opt32_lowsize.runsOn e) ∧ (∀ e, Auth.opt32.runsOn e) :=
  ⟨fun _ => trivial, fun _ => trivial, fun _ => trivial, fun _ => trivial, fun _ => trivial, fun _ => trivial⟩

/-! ## C37 -/

/-- **C37** Encryption depends on the contents of key, nonce, associated data and message only: two calls, by the
same or different implementations, at different addresses, with different `nsec`, in arbitrarily different
memories (in particular after any history of earlier calls), return the same value, the same length
and the same bytes. -/
theorem C37_encrypt_deterministic (i j : Aead) (e : Endian) (hi : i.runsOn e) (hj : j.runsOn e) (mem1 mem2 : Mem)
    (sp c clen m ad nsec npub k sp' c' clen' m' ad' nsec' npub' k' : Nat) (K N A P : List Byte)
    (h1 : EncPre mem1 sp c clen m ad npub k K N A P) (h2 : EncPre mem2 sp' c' clen' m' ad' npub' k' K N A P) :
    ∃ L O mem1' mem2',
      run (i.encrypt e sp c clen m P.length ad A.length nsec npub k) mem1 = some (0, mem1') ∧
      run (j.encrypt e sp' c' clen' m' P.length ad' A.length nsec' npub' k') mem2 = some (0, mem2') ∧
      mem1'.Holds c O ∧ mem2'.Holds c' O ∧ O.length = P.length + 16 ∧
      mem1'.Holds clen L ∧ mem2'.Holds clen' L ∧ L.length = 8 := by
  have hl := length_aeadEncrypt K N A P
  refine ⟨repr64 e (BitVec.ofNat 64 (P.length + 16)), aeadEncrypt K N A P, _, _,
    i.encrypt_correct e hi mem1 sp c clen m ad nsec npub k K N A P h1,
    j.encrypt_correct e hj mem2 sp' c' clen' m' ad' nsec' npub' k' K N A P h2,
    holds_writes_self _ _ _, holds_writes_self _ _ _, hl, ?_, ?_, Ref.length_repr64 _ _⟩
  · unfold encPost
    refine (holds_writes_self _ _ _).writes_disjoint ?_
    have := h1.sepOut
    unfold Disjoint at *; rw [Ref.length_repr64, hl]; omega
  · unfold encPost
    refine (holds_writes_self _ _ _).writes_disjoint ?_
    have := h2.sepOut
    unfold Disjoint at *; rw [Ref.length_repr64, hl]; omega

/-- **C37, decryption** -/
theorem C37_decrypt_deterministic (i j : Aead) (e : Endian) (hi : i.runsOn e) (hj : j.runsOn e) (mem1 mem2 : Mem)
    (sp m mlen nsec c ad npub k sp' m' mlen' nsec' c' ad' npub' k' : Nat) (K N A C : List Byte)
    (h1 : DecPre mem1 sp m mlen c ad npub k K N A C) (h2 : DecPre mem2 sp' m' mlen' c' ad' npub' k' K N A C) :
    ∃ r L O mem1' mem2',
      run (i.decrypt e sp m mlen nsec c C.length ad A.length npub k) mem1 = some (r, mem1') ∧
      run (j.decrypt e sp' m' mlen' nsec' c' C.length ad' A.length npub' k') mem2 = some (r, mem2') ∧
      mem1'.Holds m O ∧ mem2'.Holds m' O ∧ O.length = C.length - 16 ∧
      mem1'.Holds mlen L ∧ mem2'.Holds mlen' L ∧ L.length = 8 := by
  have hl : (aeadCandidate K N A (ctBody C)).length = C.length - 16 := by
    unfold aeadCandidate
    rw [Ref.length_decBody, ctBody, List.length_take]; omega
  refine ⟨_, repr64 e (BitVec.ofNat 64 (C.length - 16)), aeadCandidate K N A (ctBody C), _, _,
    i.decrypt_correct e hi mem1 sp m mlen nsec c ad npub k K N A C h1,
    j.decrypt_correct e hj mem2 sp' m' mlen' nsec' c' ad' npub' k' K N A C h2,
    holds_writes_self _ _ _, holds_writes_self _ _ _, hl, ?_, ?_, Ref.length_repr64 _ _⟩
  · unfold decPost
    refine (holds_writes_self _ _ _).writes_disjoint ?_
    have := h1.sepOut
    unfold Disjoint at *; rw [Ref.length_repr64, hl]; omega
  · unfold decPost
    refine (holds_writes_self _ _ _).writes_disjoint ?_
    have := h2.sepOut
    unfold Disjoint at *; rw [Ref.length_repr64, hl]; omega

/-- **C37, hash** -/
theorem C37_hash_deterministic (i j : Hash) (e : Endian) (hi : i.runsOn e) (hj : j.runsOn e) (mem1 mem2 : Mem)
    (sp out inp sp' out' inp' : Nat) (M : List Byte)
    (hM : mem1.Holds inp M) (hM' : mem2.Holds inp' M) (hl : M.length < 2 ^ 64)
    (hw : mem1.Writable out 32) (hw' : mem2.Writable out' 32) (hs : mem1.Free sp 64) (hs' : mem2.Free sp' 64) :
    ∃ O mem1' mem2', O.length = 32 ∧
      run (i.hash256 e sp out inp M.length) mem1 = some (0, mem1') ∧
      run (j.hash256 e sp' out' inp' M.length) mem2 = some (0, mem2') ∧
      mem1'.Holds out O ∧ mem2'.Holds out' O :=
  ⟨hash256 M, _, _, length_squeeze 8 _ 32 (by omega) (by omega),
    i.hash256_correct e hi mem1 sp out inp M hM hl hw hs,
    j.hash256_correct e hj mem2 sp' out' inp' M hM' hl hw' hs',
    holds_writes_self _ _ _, holds_writes_self _ _ _⟩

/-- **C37, PRF** -/
theorem C37_prf_deterministic (i j : Auth) (e : Endian) (hi : i.runsOn e) (hj : j.runsOn e) (mem1 mem2 : Mem)
    (sp out n inp k sp' out' inp' k' : Nat) (K M : List Byte) (hK : K.length = 16) (hl : M.length < 2 ^ 64)
    (hn : n ≤ 64)
    (hk : mem1.Holds k K) (hk' : mem2.Holds k' K) (hM : mem1.Holds inp M) (hM' : mem2.Holds inp' M)
    (hw : mem1.Writable out n) (hw' : mem2.Writable out' n) :
    ∃ O mem1' mem2', O.length = n ∧
      run (i.prf e sp out n inp M.length k) mem1 = some (0, mem1') ∧
      run (j.prf e sp' out' n inp' M.length k') mem2 = some (0, mem2') ∧
      mem1'.Holds out O ∧ mem2'.Holds out' O :=
  ⟨prf K M n, _, _, Ref.length_prfWith _ K M n,
    (i.prf_correct e hi).1 mem1 sp out n inp k K M hk hK hM hl hw hn,
    (j.prf_correct e hj).1 mem2 sp' out' n inp' k' K M hk' hK hM' hl hw' hn,
    holds_writes_self _ _ _, holds_writes_self _ _ _⟩

/-- Two different placements of the same data satisfy the hypotheses (out of place and in place). -/
example : EncPre Demo.mem 1000 200 300 100 32 16 0 Demo.K Demo.N Demo.A Demo.P ∧
    EncPre Demo.mem 1000 100 300 100 32 16 0 Demo.K Demo.N Demo.A Demo.P ∧
    DecPre Demo.memC 1000 100 300 200 32 16 0 Demo.K Demo.N Demo.A Demo.C ∧
    DecPre Demo.memC 1000 200 300 200 32 16 0 Demo.K Demo.N Demo.A Demo.C :=
  ⟨Demo.encPre, Demo.encPreInPlace, Demo.decPre, Demo.decPreInPlace⟩

end Ascon.Props
