import Verif.Proof.RegistryFetch
import Verif.Props.Demo
/-!
# One pass over the inputs, one write of the outputs (C65)

`readsOf t` and `writesOf t` (C/Fetch.lean) list the addresses of the reads and writes of a trace in program order, with
repetitions; `outside sp n l` drops the addresses of the callee's own automatic arrays at `[sp, sp + n)`.
-/

namespace Ascon.Props

open Ascon.C Ascon.Spec Ascon.Impl

attribute [local irreducible] perm

/-- **C65, encryption** A call of `crypto_aead_encrypt` reads the 16 bytes of the key, then those of the nonce, then the
associated data from the first byte to the last, then the plaintext from the first byte to the last, every byte once, and
reads nothing else of the caller's memory (in particular nothing it has written); it writes the 8 bytes of `*clen` and
then ciphertext and tag from the first byte to the last, every byte once. -/
theorem C65_encrypt_single_pass (i : Aead) (e : Endian) (hi : i.runsOn e) (mem : Mem)
    (sp c clen m ad nsec npub k : Nat) (K N A P : List Byte) (h : EncPre mem sp c clen m ad npub k K N A P) :
    outside sp 64 (readsOf (trace (i.encrypt e sp c clen m P.length ad A.length nsec npub k) mem)) =
      List.range' k 16 ++ List.range' npub 16 ++ List.range' ad A.length ++ List.range' m P.length ∧
    outside sp 64 (writesOf (trace (i.encrypt e sp c clen m P.length ad A.length nsec npub k) mem)) =
      List.range' clen 8 ++ List.range' c (P.length + 16) :=
  (i.encrypt_acc hi (h.keyLen ▸ h.stack.disjoint_holds h.key) (h.nonceLen ▸ h.stack.disjoint_holds h.nonce)
    (h.stack.disjoint_holds h.adata) (h.stack.disjoint_holds h.msg) (h.stack.disjoint_writable h.outLen)
    (h.stack.disjoint_writable h.out)).sound (i.encrypt_correct e hi mem sp c clen m ad nsec npub k K N A P h)

/-- **C65, decryption** A call of `crypto_aead_decrypt` (at least 16 bytes of ciphertext) reads key, nonce, associated data
and the received string, every byte once and in order, and nothing else; it writes `*mlen` and the plaintext buffer, every
byte once and in order.  So the tag is computed over exactly the ciphertext bytes that were decrypted: there is no second
fetch that could see other bytes. -/
theorem C65_decrypt_single_pass (i : Aead) (e : Endian) (hi : i.runsOn e) (mem : Mem)
    (sp m mlen nsec c ad npub k : Nat) (K N A C : List Byte) (h : DecPre mem sp m mlen c ad npub k K N A C) :
    outside sp 64 (readsOf (trace (i.decrypt e sp m mlen nsec c C.length ad A.length npub k) mem)) =
      List.range' k 16 ++ List.range' npub 16 ++ List.range' ad A.length ++ List.range' c C.length ∧
    outside sp 64 (writesOf (trace (i.decrypt e sp m mlen nsec c C.length ad A.length npub k) mem)) =
      List.range' mlen 8 ++ List.range' m (C.length - 16) :=
  (i.decrypt_acc hi h.ctMin (h.keyLen ▸ h.stack.disjoint_holds h.key) (h.nonceLen ▸ h.stack.disjoint_holds h.nonce)
    (h.stack.disjoint_holds h.adata) (h.stack.disjoint_holds h.ct) (h.stack.disjoint_writable h.outLen)
    (h.stack.disjoint_writable h.out)).sound (i.decrypt_correct e hi mem sp m mlen nsec c ad npub k K N A C h)

example : EncPre Demo.mem 1000 200 300 100 32 16 0 Demo.K Demo.N Demo.A Demo.P ∧
    DecPre Demo.memC 1000 100 300 200 32 16 0 Demo.K Demo.N Demo.A Demo.C ∧ Aead.runsOn .ref .big := 
  ⟨Demo.encPre, Demo.decPre, trivial⟩

/-- **C65, Ascon-Hash256** -/
theorem C65_hash256_single_pass (i : Hash) (e : Endian) (hi : i.runsOn e) (mem : Mem) (sp out inp : Nat) (M : List Byte)
    (hM : mem.Holds inp M) (hl : M.length < 2 ^ 64) (hw : mem.Writable out 32) (hs : mem.Free sp 64) :
    readsOf (trace (i.hash256 e sp out inp M.length) mem) = List.range' inp M.length ∧
    writesOf (trace (i.hash256 e sp out inp M.length) mem) = List.range' out 32 :=
  (i.hash256_acc hi |>.sound mem _ _ (i.hash256_correct e hi mem sp out inp M hM hl hw hs)).2

/-- **C65, Ascon-XOF128**, any output length. -/
theorem C65_xof128_single_pass (i : Xof) (e : Endian) (hi : i.runsOn e) (mem : Mem) (sp out n inp : Nat) (M : List Byte)
    (hM : mem.Holds inp M) (hl : M.length < 2 ^ 64) (hn : n < 2 ^ 64) (hw : mem.Writable out n) (hs : mem.Free sp 64) :
    readsOf (trace (i.xof128 e sp out n inp M.length) mem) = List.range' inp M.length ∧
    writesOf (trace (i.xof128 e sp out n inp M.length) mem) = List.range' out n :=
  (i.xof128_acc hi |>.sound mem _ _ (i.xof128_correct e hi mem sp out n inp M hM hl hn hw hs)).2

/-- **C65, `crypto_hash` of Ascon-XOF128** -/
theorem C65_crypto_hash_xof128_single_pass (i : HashX) (e : Endian) (hi : i.runsOn e) (mem : Mem) (sp out inp : Nat)
    (M : List Byte) (hM : mem.Holds inp M) (hl : M.length < 2 ^ 64) (hw : mem.Writable out 64) (hs : mem.Free sp 64) :
    readsOf (trace (i.xof128 e sp out inp M.length) mem) = List.range' inp M.length ∧
    writesOf (trace (i.xof128 e sp out inp M.length) mem) = List.range' out 64 :=
  (i.xof128_acc hi |>.sound mem _ _ (i.xof128_correct e hi mem sp out inp M hM hl hw hs)).2

/-- **C65, Ascon-CXOF128**: the customization string, then the message. -/
theorem C65_cxof128_single_pass (e : Endian) (mem : Mem) (sp out n inp cs : Nat) (Z M : List Byte)
    (hM : mem.Holds inp M) (hl : M.length < 2 ^ 64) (hZ : mem.Holds cs Z) (hlz : Z.length < 2 ^ 64)
    (hn : n < 2 ^ 64) (hw : mem.Writable out n) (hs : mem.Free sp 64) :
    readsOf (trace (Ref.crypto_cxof e sp out n inp M.length cs Z.length) mem) =
      List.range' cs Z.length ++ List.range' inp M.length ∧
    writesOf (trace (Ref.crypto_cxof e sp out n inp M.length cs Z.length) mem) = List.range' out n :=
  (Ref.acc_cxof e sp out n inp M.length cs Z.length |>.sound mem _ _
    (Ref.cxof_correct e mem sp out n inp cs Z M hM hl hZ hlz hn hw hs)).2

example : Demo.mem.Holds 100 Demo.P ∧ Demo.mem.Holds 32 Demo.A ∧ Demo.mem.Writable 200 36 ∧ Demo.mem.Free 1000 128 ∧
    Hash.runsOn .opt64 .big ∧ Xof.runsOn .opt64 .big ∧ HashX.runsOn .ref .big :=
  ⟨Demo.holdsP, Demo.holdsA, Demo.out36, Demo.stack128, trivial, trivial, trivial⟩

/-- **C65, Ascon-Mac and Ascon-Prf** `crypto_auth` and `crypto_prf` read the key, then the message, every byte once and in
order, and write the output, every byte once and in order. -/
theorem C65_mac_prf_single_pass (i : Auth) (e : Endian) (hi : i.runsOn e) (mem : Mem) (sp out n inp k : Nat)
    (K M : List Byte) (hk : mem.Holds k K) (hK : K.length = 16) (hM : mem.Holds inp M) (hl : M.length < 2 ^ 64)
    (hw : mem.Writable out n) :
    (n ≤ 16 → readsOf (trace (i.macPrf e sp out n inp M.length k) mem) = List.range' k 16 ++ List.range' inp M.length ∧
      writesOf (trace (i.macPrf e sp out n inp M.length k) mem) = List.range' out n) ∧
    (n ≤ 64 → readsOf (trace (i.prf e sp out n inp M.length k) mem) = List.range' k 16 ++ List.range' inp M.length ∧
      writesOf (trace (i.prf e sp out n inp M.length k) mem) = List.range' out n) ∧
    (n = 16 → readsOf (trace (i.macAuth e sp out inp M.length k) mem) = List.range' k 16 ++ List.range' inp M.length ∧
      writesOf (trace (i.macAuth e sp out inp M.length k) mem) = List.range' out n) ∧
    (n = 64 → readsOf (trace (i.prfAuth e sp out inp M.length k) mem) = List.range' k 16 ++ List.range' inp M.length ∧
      writesOf (trace (i.prfAuth e sp out inp M.length k) mem) = List.range' out n) := by
  refine ⟨fun hn => ?_, fun hn => ?_, fun hn => ?_, fun hn => ?_⟩
  · exact ((i.macPrf_acc hi hn).sound mem _ _ ((i.macPrf_correct e hi).1 mem sp out n inp k K M hk hK hM hl hw hn)).2
  · exact ((i.prf_acc hi hn).sound mem _ _ ((i.prf_correct e hi).1 mem sp out n inp k K M hk hK hM hl hw hn)).2
  · subst hn
    rw [i.macAuth_eq]
    exact ((i.macPrf_acc hi (by omega)).sound mem _ _
      ((i.macPrf_correct e hi).1 mem sp out 16 inp k K M hk hK hM hl hw (by omega))).2
  · subst hn
    rw [i.prfAuth_eq]
    exact ((i.prf_acc hi (by omega)).sound mem _ _
      ((i.prf_correct e hi).1 mem sp out 64 inp k K M hk hK hM hl hw (by omega))).2

/-- **C65, Ascon-PrfShort** The same, except in src/opt8/prfs.c, which fetches the 16 bytes of the key a second time, from
the caller's buffer, after the permutation (every other implementation keeps a copy). -/
theorem C65_prfShort_fetches (i : Auth) (e : Endian) (hi : i.runsOn e) (mem : Mem) (sp out n inp k : Nat)
    (K M : List Byte) (hk : mem.Holds k K) (hK : K.length = 16) (hM : mem.Holds inp M) (hl : M.length ≤ 16)
    (hw : mem.Writable out n) (hn : n ≤ 16) :
    (i ≠ .opt8 →
      readsOf (trace (i.prfs e sp out n inp M.length k) mem) = List.range' k 16 ++ List.range' inp M.length) ∧
    (i = .opt8 → readsOf (trace (i.prfs e sp out n inp M.length k) mem) =
      List.range' k 16 ++ List.range' inp M.length ++ List.range' k 16) ∧
    writesOf (trace (i.prfs e sp out n inp M.length k) mem) = List.range' out n ∧
    (n = 16 → i.prfsAuth e sp out inp M.length k = i.prfs e sp out n inp M.length k) := by
  obtain ⟨_, h1, h2⟩ := (i.prfs_acc hi hn hl).sound mem _ _
    ((i.prfs_correct e hi).1 mem sp out n inp k K M hk hK hM (by omega) hw ⟨hl, hn⟩)
  refine ⟨fun ho => ?_, fun ho => ?_, h2, fun hn => by subst hn; exact i.prfsAuth_eq⟩
  · rw [h1, if_neg ho, List.append_nil]
  · rw [h1, if_pos ho]

/-- **C65, verification** `crypto_auth_verify` reads key, message and the received tag, every byte once and in order, and
writes nothing outside of its frame. -/
theorem C65_verify_single_pass (i : Auth) (e : Endian) (hi : i.runsOn e) (mem : Mem) (sp h inp k : Nat)
    (K M T : List Byte) (hk : mem.Holds k K) (hK : K.length = 16) (hM : mem.Holds inp M) (hl : M.length < 2 ^ 64)
    (hT : mem.Holds h T) (hs : mem.Free sp 128) :
    (T.length = 16 → outside sp 128 (readsOf (trace (i.macVerify e sp h inp M.length k) mem)) =
        List.range' k 16 ++ List.range' inp M.length ++ List.range' h 16 ∧
      outside sp 128 (writesOf (trace (i.macVerify e sp h inp M.length k) mem)) = []) ∧
    (T.length = 64 → outside sp 128 (readsOf (trace (i.prfVerify e sp h inp M.length k) mem)) =
        List.range' k 16 ++ List.range' inp M.length ++ List.range' h 64 ∧
      outside sp 128 (writesOf (trace (i.prfVerify e sp h inp M.length k) mem)) = []) ∧
    (T.length = 16 → M.length ≤ 16 → i ≠ .opt8 →
      outside sp 128 (readsOf (trace (i.prfsVerify e sp h inp M.length k) mem)) =
        List.range' k 16 ++ List.range' inp M.length ++ List.range' h 16 ∧
      outside sp 128 (writesOf (trace (i.prfsVerify e sp h inp M.length k) mem)) = []) := by
  have dk : Disjoint sp 128 k 16 := hK ▸ hs.disjoint_holds hk
  have di : Disjoint sp 128 inp M.length := hs.disjoint_holds hM
  refine ⟨fun hn => ?_, fun hn => ?_, fun hn hm ho => ?_⟩
  · exact ((i.verify_acc hi dk di).1 (hn ▸ hs.disjoint_holds hT)).sound
      (i.macVerify_correct e hi mem sp h inp k K M T hk hK hM hl hT hn trivial hs)
  · exact ((i.verify_acc hi dk di).2 (hn ▸ hs.disjoint_holds hT)).sound
      (i.prfVerify_correct e hi mem sp h inp k K M T hk hK hM hl hT hn trivial hs)
  · have := (i.prfsVerify_acc hi hm dk di (hn ▸ hs.disjoint_holds hT)).sound
      (i.prfsVerify_correct e hi mem sp h inp k K M T hk hK hM hl hT hn hm hs)
    rw [if_neg ho, List.append_nil] at this
    exact this

example : Demo.mem.Holds 0 Demo.K ∧ Demo.mem.Holds 32 Demo.A ∧ Demo.A.length ≤ 16 ∧ Demo.mem.Holds 100 Demo.P ∧
    Demo.mem.Writable 200 36 ∧ Demo.mem.Holds 16 Demo.N ∧ Demo.N.length = 16 ∧ Demo.mem.Free 1000 128 ∧
    Auth.runsOn .opt8 .little ∧ Auth.runsOn .ref .big :=
  ⟨Demo.holdsK, Demo.holdsA, by decide, Demo.holdsP, Demo.out36, Demo.holdsN, by decide, Demo.stack128, rfl, trivial⟩

end Ascon.Props
