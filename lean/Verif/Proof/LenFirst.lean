import Verif.Proof.Registry
import Verif.C.LenFirst
/-!
# Every implementation stores the length before it reads anything

The same as the proofs of `EncCorrectAt` and `DecCorrectAt`, without the assumption that the length variable is a separate object.
-/

namespace Ascon.Gen

open Ascon.C Ascon.Spec
open Ascon.C.Prog (require ifc loop forUp loadB storeB loadN storeN store64 load64)

attribute [local irreducible] perm

variable {B : Backend} {e : Endian} {enc : Word → Word}

theorem enc_len (h : B.Ok e enc) : EncLenAt e (crypto_aead_encrypt B) := by
  intro mem sp c clen m ad nsec npub k K N A P h'
  unfold crypto_aead_encrypt encPost
  rw [run_bind_of (Ref.run_store64 h'.outLen)]
  have hk := h'.key
  have hn := h'.nonce
  have ha := h'.adata
  have hm := h'.msg
  unfold lenStored at hk hn ha hm
  have hw : (mem.writes clen (repr64 e (BitVec.ofNat 64 (P.length + 16)))).Writable c (P.length + 16) :=
    h'.out.writes
  have ho := h'.overlap
  generalize mem.writes clen (repr64 e (BitVec.ofNat 64 (P.length + 16))) = mem1 at *
  unfold ascon_aead_encrypt ascon_gettag
  simp only
  rw [run_bind_of (run_loadkey h hk h'.keyLen), run_bind_of (run_initaead h hn h'.nonceLen),
    run_bind_of (run_adata h ha), run_bind_of (run_encrypt h hm (hw.mono (by omega) (by omega)) ho),
    run_bind_of (run_final h _ K)]
  have hlen := Ref.length_encBody (aeadAd A (aeadInit K N)) P
  have e1 : aeadEncrypt K N A P = (encBody (aeadAd A (aeadInit K N)) P).2 ++
      aeadTag K (encBody (aeadAd A (aeadInit K N)) P).1 := rfl
  rw [e1]
  generalize encBody (aeadAd A (aeadInit K N)) P = r at *
  have e2 : aeadTag K r.1 = bytes64 (addKeyLast K (perm 12 (addKeyMid K r.1))).x3 ++
      bytes64 (addKeyLast K (perm 12 (addKeyMid K r.1))).x4 := rfl
  rw [e2]
  generalize addKeyLast K (perm 12 (addKeyMid K r.1)) = t
  have hs3 : ∀ mem : Mem, mem.Writable (c + P.length) 8 →
      run (STOREBYTES B e (c + P.length) (encS enc t).x3 8) mem = some ((), mem.writes (c + P.length) (bytes64 t.x3)) :=
    fun mem hw => run_STORE h hw
  have hs4 : ∀ mem : Mem, mem.Writable (c + P.length + 8) 8 →
      run (STOREBYTES B e (c + P.length + 8) (encS enc t).x4 8) mem =
        some ((), mem.writes (c + P.length + 8) (bytes64 t.x4)) := fun mem hw => run_STORE h hw
  rw [run_bind_of (by
    rw [run_bind_of (hs3 _ (hw.writes.mono (by omega) (by omega))),
      hs4 _ (hw.writes.writes.mono (by omega) (by omega))])]
  rw [writes_append, writes_append, hlen, length_bytes64]
  rfl

theorem dec_len (h : B.Ok e enc) : DecLenAt e (crypto_aead_decrypt B) := by
  intro mem sp m mlen nsec c ad npub k K N A C h'
  unfold crypto_aead_decrypt decPost
  have h16 := h'.ctMin
  rw [run_ifc, if_neg (by simpa using h16), run_bind_of (Ref.run_store64 h'.outLen)]
  have hk := h'.key
  have hn := h'.nonce
  have ha := h'.adata
  have hc := h'.ct
  unfold lenStored at hk hn ha hc
  have hw : (mem.writes mlen (repr64 e (BitVec.ofNat 64 (C.length - 16)))).Writable m (C.length - 16) :=
    h'.out.writes
  have ho := h'.overlap
  generalize mem.writes mlen (repr64 e (BitVec.ofNat 64 (C.length - 16))) = mem1 at *
  have hbl : (ctBody C).length = C.length - 16 := by simp [ctBody]
  have htl : (ctTag C).length = 16 := by simp [ctTag]; omega
  have hcb : mem1.Holds c (ctBody C) := hc.take _
  have hct : mem1.Holds (c + (C.length - 16)) (ctTag C) := hc.drop _ (by omega)
  unfold ascon_aead_decrypt
  simp only
  rw [← hbl] at hw hct ⊢
  rw [run_bind_of (run_loadkey h hk h'.keyLen), run_bind_of (run_initaead h hn h'.nonceLen),
    run_bind_of (run_adata h ha), run_bind_of (run_decrypt h hcb hw (by omega)),
    run_bind_of (run_final h _ K)]
  have hlen := Ref.length_decBody (aeadAd A (aeadInit K N)) (ctBody C)
  have e1 : aeadCandidate K N A (ctBody C) = (decBody (aeadAd A (aeadInit K N)) (ctBody C)).2 := rfl
  have e2 : aeadDecTag K N A (ctBody C) = aeadTag K (decBody (aeadAd A (aeadInit K N)) (ctBody C)).1 := rfl
  rw [e1, e2]
  generalize decBody (aeadAd A (aeadInit K N)) (ctBody C) = r at *
  have hct2 : (mem1.writes m r.2).Holds (c + (ctBody C).length) (ctTag C) := by
    apply hct.writes_disjoint
    unfold Disjoint; rw [hlen]; omega
  rw [run_verify h hct2 htl]
  rfl

end Ascon.Gen

namespace Ascon.Avx512

open Ascon.C Ascon.Spec
open Ascon.C.Prog (require ifc loop forUp loadB storeB loadN storeN store64 load64)

attribute [local irreducible] perm

variable {e : Endian} {y5 y6 y7 : Word}

theorem enc_len (junk : Z) : EncLenAt e (crypto_aead_encrypt junk) := by
  intro mem sp c clen m ad nsec npub k K N A P h'
  unfold crypto_aead_encrypt encPost
  rw [run_bind_of (Ref.run_store64 h'.outLen)]
  have hk := h'.key
  have hn := h'.nonce
  have ha := h'.adata
  have hm := h'.msg
  unfold lenStored at hk hn ha hm
  have hw : (mem.writes clen (repr64 e (BitVec.ofNat 64 (P.length + 16)))).Writable c (P.length + 16) :=
    h'.out.writes
  have ho := h'.overlap
  generalize mem.writes clen (repr64 e (BitVec.ofNat 64 (P.length + 16))) = mem1 at *
  unfold ascon_aead_encrypt Gen.ascon_gettag
  simp only
  rw [run_bind_of (run_loadkey hk h'.keyLen), run_bind_of (run_initaead hn h'.nonceLen),
    run_bind_of (run_adata ha), run_bind_of (run_encrypt hm (hw.mono (by omega) (by omega)) ho)]
  simp only [final_eq]
  have hlen := Ref.length_encBody (aeadAd A (aeadInit K N)) P
  have e1 : aeadEncrypt K N A P = (encBody (aeadAd A (aeadInit K N)) P).2 ++
      aeadTag K (encBody (aeadAd A (aeadInit K N)) P).1 := rfl
  rw [e1]
  generalize encBody (aeadAd A (aeadInit K N)) P = r at *
  have e2 : aeadTag K r.1 = bytes64 (addKeyLast K (perm 12 (addKeyMid K r.1))).x3 ++
      bytes64 (addKeyLast K (perm 12 (addKeyMid K r.1))).x4 := rfl
  rw [e2]
  generalize addKeyLast K (perm 12 (addKeyMid K r.1)) = t
  simp only [emb]
  have hs3 : ∀ mem : Mem, mem.Writable (c + P.length) 8 →
      run (Gen.STOREBYTES Gen.opt64 e (c + P.length) t.x3 8) mem = some ((), mem.writes (c + P.length) (bytes64 t.x3)) :=
    fun mem hw => Gen.run_STORE (ok e) hw
  have hs4 : ∀ mem : Mem, mem.Writable (c + P.length + 8) 8 →
      run (Gen.STOREBYTES Gen.opt64 e (c + P.length + 8) t.x4 8) mem =
        some ((), mem.writes (c + P.length + 8) (bytes64 t.x4)) := fun mem hw => Gen.run_STORE (ok e) hw
  rw [run_bind_of (by
    rw [run_bind_of (hs3 _ (hw.writes.mono (by omega) (by omega))),
      hs4 _ (hw.writes.writes.mono (by omega) (by omega))])]
  rw [writes_append, writes_append, hlen, length_bytes64]
  rfl

theorem dec_len (junk : Z) : DecLenAt e (crypto_aead_decrypt junk) := by
  intro mem sp m mlen nsec c ad npub k K N A C h'
  unfold crypto_aead_decrypt decPost
  have h16 := h'.ctMin
  rw [run_ifc, if_neg (by simpa using h16), run_bind_of (Ref.run_store64 h'.outLen)]
  have hk := h'.key
  have hn := h'.nonce
  have ha := h'.adata
  have hc := h'.ct
  unfold lenStored at hk hn ha hc
  have hw : (mem.writes mlen (repr64 e (BitVec.ofNat 64 (C.length - 16)))).Writable m (C.length - 16) :=
    h'.out.writes
  have ho := h'.overlap
  generalize mem.writes mlen (repr64 e (BitVec.ofNat 64 (C.length - 16))) = mem1 at *
  have hbl : (ctBody C).length = C.length - 16 := by simp [ctBody]
  have htl : (ctTag C).length = 16 := by simp [ctTag]; omega
  have hcb : mem1.Holds c (ctBody C) := hc.take _
  have hct : mem1.Holds (c + (C.length - 16)) (ctTag C) := hc.drop _ (by omega)
  unfold ascon_aead_decrypt
  simp only
  rw [← hbl] at hw hct ⊢
  rw [run_bind_of (run_loadkey hk h'.keyLen), run_bind_of (run_initaead hn h'.nonceLen),
    run_bind_of (run_adata ha), run_bind_of (run_decrypt hcb hw (by omega))]
  simp only [final_eq]
  have hlen := Ref.length_decBody (aeadAd A (aeadInit K N)) (ctBody C)
  have e1 : aeadCandidate K N A (ctBody C) = (decBody (aeadAd A (aeadInit K N)) (ctBody C)).2 := rfl
  have e2 : aeadDecTag K N A (ctBody C) = aeadTag K (decBody (aeadAd A (aeadInit K N)) (ctBody C)).1 := rfl
  rw [e1, e2]
  generalize decBody (aeadAd A (aeadInit K N)) (ctBody C) = r at *
  have hct2 : (mem1.writes m r.2).Holds (c + (ctBody C).length) (ctTag C) := by
    apply hct.writes_disjoint
    unfold Disjoint; rw [hlen]; omega
  have hv := Gen.run_verify (ok e) (s := addKeyLast K (perm 12 (addKeyMid K r.1))) hct2 htl
  rw [encS_id] at hv
  simp only [emb]
  rw [hv]
  rfl

end Ascon.Avx512

namespace Ascon.Opt8

open Ascon.C Ascon.Spec
open Ascon.C.Prog (require ifc loop forUp loadB storeB loadN storeN store64 load64)

attribute [local irreducible] perm

variable {V : Perms}

theorem enc_len (h : V.Ok) : EncLenAt .little (crypto_aead_encrypt V) := by
  intro mem sp c clen m ad nsec npub k K N A P h'
  unfold crypto_aead_encrypt encPost
  rw [run_bind_of (Ref.run_store64 h'.outLen)]
  have hk := h'.key
  have hn := h'.nonce
  have ha := h'.adata
  have hm := h'.msg
  unfold lenStored at hk hn ha hm
  have hw : (mem.writes clen (repr64 .little (BitVec.ofNat 64 (P.length + 16)))).Writable c (P.length + 16) :=
    h'.out.writes
  have ho := h'.overlap
  generalize mem.writes clen (repr64 .little (BitVec.ofNat 64 (P.length + 16))) = mem1 at *
  unfold ascon_aead_encrypt
  simp only
  obtain ⟨key, k0, k1, hkey⟩ := run_loadkey hk h'.keyLen
  rw [run_bind_of hkey, run_bind_of (run_initaead h k0 k1 hn h'.nonceLen),
    run_bind_of (run_adata h ha), run_bind_of (run_encrypt h hm (hw.mono (by omega) (by omega)) ho),
    run_bind_of (run_final h _ key K k0 k1)]
  have hlen := Ref.length_encBody (aeadAd A (aeadInit K N)) P
  have e1 : aeadEncrypt K N A P = (encBody (aeadAd A (aeadInit K N)) P).2 ++
      aeadTag K (encBody (aeadAd A (aeadInit K N)) P).1 := rfl
  rw [e1]
  generalize encBody (aeadAd A (aeadInit K N)) P = r at *
  have e2 : aeadTag K r.1 = bytes64 (addKeyLast K (perm 12 (addKeyMid K r.1))).x3 ++
      bytes64 (addKeyLast K (perm 12 (addKeyMid K r.1))).x4 := rfl
  rw [e2]
  generalize addKeyLast K (perm 12 (addKeyMid K r.1)) = t
  rw [run_bind_of (run_gettag (hw.writes.mono (by omega) (by omega))), writes_append mem1, hlen]
  rfl

theorem dec_len (h : V.Ok) : DecLenAt .little (crypto_aead_decrypt V) := by
  intro mem sp m mlen nsec c ad npub k K N A C h'
  unfold crypto_aead_decrypt decPost
  have h16 := h'.ctMin
  rw [run_ifc, if_neg (by simpa using h16), run_bind_of (Ref.run_store64 h'.outLen)]
  have hk := h'.key
  have hn := h'.nonce
  have ha := h'.adata
  have hc := h'.ct
  unfold lenStored at hk hn ha hc
  have hw : (mem.writes mlen (repr64 .little (BitVec.ofNat 64 (C.length - 16)))).Writable m (C.length - 16) :=
    h'.out.writes
  have ho := h'.overlap
  generalize mem.writes mlen (repr64 .little (BitVec.ofNat 64 (C.length - 16))) = mem1 at *
  have hbl : (ctBody C).length = C.length - 16 := by simp [ctBody]
  have htl : (ctTag C).length = 16 := by simp [ctTag]; omega
  have hcb : mem1.Holds c (ctBody C) := hc.take _
  have hct : mem1.Holds (c + (C.length - 16)) (ctTag C) := hc.drop _ (by omega)
  unfold ascon_aead_decrypt
  simp only
  rw [← hbl] at hw hct ⊢
  obtain ⟨key, k0, k1, hkey⟩ := run_loadkey hk h'.keyLen
  rw [run_bind_of hkey, run_bind_of (run_initaead h k0 k1 hn h'.nonceLen),
    run_bind_of (run_adata h ha), run_bind_of (run_decrypt h hcb hw (by omega)),
    run_bind_of (run_final h _ key K k0 k1)]
  have hlen := Ref.length_decBody (aeadAd A (aeadInit K N)) (ctBody C)
  have e1 : aeadCandidate K N A (ctBody C) = (decBody (aeadAd A (aeadInit K N)) (ctBody C)).2 := rfl
  have e2 : aeadDecTag K N A (ctBody C) = aeadTag K (decBody (aeadAd A (aeadInit K N)) (ctBody C)).1 := rfl
  rw [e1, e2]
  generalize decBody (aeadAd A (aeadInit K N)) (ctBody C) = r at *
  have hct2 : (mem1.writes m r.2).Holds (c + (ctBody C).length) (ctTag C) := by
    apply hct.writes_disjoint
    unfold Disjoint; rw [hlen]; omega
  rw [run_verify hct2 htl]
  rfl

end Ascon.Opt8

namespace Ascon.Opt8

open Ascon.C Ascon.Spec
open Ascon.C.Prog (require ifc loop forUp loadB storeB loadN storeN store64 load64)

attribute [local irreducible] perm

variable {V : Perms}

theorem low_enc_len (h : V.Ok) (cfg : Cfg) (hc : cfg.hasAead = true) :
    EncLenAt .little (low_crypto_aead_encrypt V cfg) := by
  intro mem sp c clen m ad nsec npub k K N A P h'
  unfold low_crypto_aead_encrypt encPost
  rw [run_bind_of (Ref.run_store64 h'.outLen)]
  have hk := h'.key
  have hn := h'.nonce
  have ha := h'.adata
  have hm := h'.msg
  unfold lenStored at hk hn ha hm
  have hw : (mem.writes clen (repr64 .little (BitVec.ofNat 64 (P.length + 16)))).Writable c (P.length + 16) :=
    h'.out.writes
  have ho := h'.overlap
  generalize mem.writes clen (repr64 .little (BitVec.ofNat 64 (P.length + 16))) = mem1 at *
  unfold low_ascon_aead_encrypt
  simp only
  obtain ⟨key, k0, k1, hkey⟩ := run_loadkey hk h'.keyLen
  have hu := run_encrypt (V := V) (s := aeadAd A (aeadInit K N)) h hm (hw.mono (by omega) (by omega)) ho
  rw [← run_update_enc V cfg hc] at hu
  rw [run_bind_of hkey, run_bind_of (run_initaead h k0 k1 hn h'.nonceLen),
    run_bind_of (run_lowAdata h cfg hc ha), run_bind_of hu,
    run_bind_of (run_final h _ key K k0 k1)]
  have hlen := Ref.length_encBody (aeadAd A (aeadInit K N)) P
  have e1 : aeadEncrypt K N A P = (encBody (aeadAd A (aeadInit K N)) P).2 ++
      aeadTag K (encBody (aeadAd A (aeadInit K N)) P).1 := rfl
  rw [e1]
  generalize encBody (aeadAd A (aeadInit K N)) P = r at *
  have e2 : aeadTag K r.1 = bytes64 (addKeyLast K (perm 12 (addKeyMid K r.1))).x3 ++
      bytes64 (addKeyLast K (perm 12 (addKeyMid K r.1))).x4 := rfl
  rw [e2]
  generalize addKeyLast K (perm 12 (addKeyMid K r.1)) = t
  rw [run_bind_of (run_gettag (hw.writes.mono (by omega) (by omega))), writes_append mem1, hlen]
  rfl

theorem low_dec_len (h : V.Ok) (cfg : Cfg) (hcfg : cfg.hasAead = true) :
    DecLenAt .little (low_crypto_aead_decrypt V cfg) := by
  intro mem sp m mlen nsec c ad npub k K N A C h'
  unfold low_crypto_aead_decrypt decPost
  have h16 := h'.ctMin
  rw [run_ifc, if_neg (by simpa using h16), run_bind_of (Ref.run_store64 h'.outLen)]
  have hk := h'.key
  have hn := h'.nonce
  have ha := h'.adata
  have hc := h'.ct
  unfold lenStored at hk hn ha hc
  have hw : (mem.writes mlen (repr64 .little (BitVec.ofNat 64 (C.length - 16)))).Writable m (C.length - 16) :=
    h'.out.writes
  have ho := h'.overlap
  generalize mem.writes mlen (repr64 .little (BitVec.ofNat 64 (C.length - 16))) = mem1 at *
  have hbl : (ctBody C).length = C.length - 16 := by simp [ctBody]
  have htl : (ctTag C).length = 16 := by simp [ctTag]; omega
  have hcb : mem1.Holds c (ctBody C) := hc.take _
  have hct : mem1.Holds (c + (C.length - 16)) (ctTag C) := hc.drop _ (by omega)
  unfold low_ascon_aead_decrypt
  simp only
  rw [← hbl] at hw hct ⊢
  obtain ⟨key, k0, k1, hkey⟩ := run_loadkey hk h'.keyLen
  have hu := run_decrypt (V := V) (s := aeadAd A (aeadInit K N)) h hcb hw (by omega)
  rw [← run_update_dec V cfg hcfg] at hu
  rw [run_bind_of hkey, run_bind_of (run_initaead h k0 k1 hn h'.nonceLen),
    run_bind_of (run_lowAdata h cfg hcfg ha), run_bind_of hu, run_bind_of (run_final h _ key K k0 k1)]
  have hlen := Ref.length_decBody (aeadAd A (aeadInit K N)) (ctBody C)
  have e1 : aeadCandidate K N A (ctBody C) = (decBody (aeadAd A (aeadInit K N)) (ctBody C)).2 := rfl
  have e2 : aeadDecTag K N A (ctBody C) = aeadTag K (decBody (aeadAd A (aeadInit K N)) (ctBody C)).1 := rfl
  rw [e1, e2]
  generalize decBody (aeadAd A (aeadInit K N)) (ctBody C) = r at *
  have hct2 : (mem1.writes m r.2).Holds (c + (ctBody C).length) (ctTag C) := by
    apply hct.writes_disjoint
    unfold Disjoint; rw [hlen]; omega
  rw [run_verify hct2 htl]
  rfl

end Ascon.Opt8

namespace Ascon.Low

open Ascon.Gen
open Ascon.Ref (getX xorX verifyTag run_getX run_xorX)
open Ascon.C Ascon.Spec
open Ascon.C.Prog (require ifc loop forUp loadB storeB loadN storeN store64 load64)

attribute [local irreducible] perm

variable {B : Backend} {e : Endian} {enc : Word → Word}

theorem enc_len (h : B.Ok e enc) (comb : Bool) : EncLenAt e (crypto_aead_encrypt B comb) := by
  intro mem sp c clen m ad nsec npub k K N A P h'
  unfold crypto_aead_encrypt encPost
  rw [run_bind_of (Ref.run_store64 h'.outLen)]
  have hk := h'.key
  have hn := h'.nonce
  have ha := h'.adata
  have hm := h'.msg
  unfold lenStored at hk hn ha hm
  have hw : (mem.writes clen (repr64 e (BitVec.ofNat 64 (P.length + 16)))).Writable c (P.length + 16) :=
    h'.out.writes
  have hst : (mem.writes clen (repr64 e (BitVec.ofNat 64 (P.length + 16)))).Free sp 16 :=
    Ref.Mem.Free.writes' (Ref.Mem.Free.mono' h'.stack (by omega)) (by
      rw [Ref.length_repr64]
      exact (Ref.Mem.Free.mono' h'.stack (by omega : 16 ≤ 64)).disjoint_writable h'.outLen)
  have ho := h'.overlap
  generalize mem.writes clen (repr64 e (BitVec.ofNat 64 (P.length + 16))) = mem1 at *
  unfold ascon_aead
  rw [run_bind_of (run_loadkey h hk h'.keyLen), run_bind_of (run_initaead h hn h'.nonceLen)]
  rw [run_bind_of (run_adPart h comb ha)]
  simp only
  rw [encS_dsep h, run_bind_of (run_update_encrypt h comb _ c m P hm (hw.mono (by omega) (by omega)) ho),
    run_bind_of (run_final h _ K)]
  have hlen := Ref.length_encBody (aeadAd A (aeadInit K N)) P
  have e1 : aeadEncrypt K N A P = (encBody (aeadAd A (aeadInit K N)) P).2 ++
      aeadTag K (encBody (aeadAd A (aeadInit K N)) P).1 := rfl
  rw [e1]
  generalize encBody (aeadAd A (aeadInit K N)) P = r at *
  have e2 : aeadTag K r.1 = bytes64 (addKeyLast K (perm 12 (addKeyMid K r.1))).x3 ++
      bytes64 (addKeyLast K (perm 12 (addKeyMid K r.1))).x4 := rfl
  have htl : (aeadTag K r.1).length = 16 := Ref.length_aeadTag _ _
  generalize aeadTag K r.1 = T at *
  generalize addKeyLast K (perm 12 (addKeyMid K r.1)) = t at *
  have hst2 : (mem1.writes c r.2).Free sp 16 :=
    Ref.Mem.Free.writes' hst (by
      rw [hlen]; exact hst.disjoint_writable (hw.mono (by omega) (by omega)))
  have hw2 : (mem1.writes c r.2).Writable (c + P.length) 16 := hw.writes.mono (by omega) (by omega)
  rw [writes_append, hlen]
  generalize mem1.writes c r.2 = mem2 at *
  have hwsp := writable_fill_uninit mem2 sp 16
  have hd := hst2.disjoint_writable hw2
  rw [run_bind_of Ref.run_alloc, run_bind_of (Ref.run_store64 (hwsp.mono (by omega) (by omega))),
    run_bind_of (Ref.run_store64 (hwsp.writes.mono (by omega) (by omega)))]
  have hw3 : ((mem2.fill sp 16 .uninit).writes sp (repr64 e (B.WORDTOU64 e (encS enc t).x3))).writes (sp + 8)
      (repr64 e (B.WORDTOU64 e (encS enc t).x4)) = (mem2.fill sp 16 .uninit).writes sp T := by
    rw [e2, writes_append, length_bytes64]
    simp only [encS, h.store]
  rw [hw3]
  have hwt : ((mem2.fill sp 16 .uninit).writes sp T).Writable (c + P.length) 16 := by
    apply Mem.Writable.writes
    intro i hi
    unfold Mem.fill
    split
    · simp
    · exact hw2 i hi
  rw [run_bind_of (a := (0 : Int)) (mem' := ((mem2.fill sp 16 .uninit).writes sp T).writes (c + P.length) T) (by
    rw [run_ifc, if_pos (by decide), run_bind_of (run_copyTag _ _ _ T htl (holds_writes_self _ _ _) hwt
      (by unfold Disjoint at *; omega))]
    rfl), run_bind_of Ref.run_free]
  rw [run_pure']
  congr 2
  rw [writes_comm (by unfold Disjoint at *; omega), ← fill_writes_comm (by unfold Disjoint at *; omega)]
  rw [fill_writes_fill (by
    apply Ref.Mem.Free.writes' hst2
    unfold Disjoint at *; omega) (by omega)]

theorem dec_len (h : B.Ok e enc) (comb : Bool) : DecLenAt e (crypto_aead_decrypt B comb) := by
  intro mem sp m mlen nsec c ad npub k K N A C h'
  unfold crypto_aead_decrypt decPost
  have h16 := h'.ctMin
  rw [run_ifc, if_neg (by simpa using h16), run_bind_of (Ref.run_store64 h'.outLen)]
  have hk := h'.key
  have hn := h'.nonce
  have ha := h'.adata
  have hc := h'.ct
  unfold lenStored at hk hn ha hc
  have hw : (mem.writes mlen (repr64 e (BitVec.ofNat 64 (C.length - 16)))).Writable m (C.length - 16) :=
    h'.out.writes
  have hst : (mem.writes mlen (repr64 e (BitVec.ofNat 64 (C.length - 16)))).Free sp 16 :=
    Ref.Mem.Free.writes' (Ref.Mem.Free.mono' h'.stack (by omega)) (by
      rw [Ref.length_repr64]
      exact (Ref.Mem.Free.mono' h'.stack (by omega : 16 ≤ 64)).disjoint_writable h'.outLen)
  have ho := h'.overlap
  generalize mem.writes mlen (repr64 e (BitVec.ofNat 64 (C.length - 16))) = mem1 at *
  have hbl : (ctBody C).length = C.length - 16 := by simp [ctBody]
  have htl : (ctTag C).length = 16 := by simp [ctTag]; omega
  have hcb : mem1.Holds c (ctBody C) := hc.take _
  have hct : mem1.Holds (c + (C.length - 16)) (ctTag C) := hc.drop _ (by omega)
  unfold ascon_aead
  simp only
  rw [← hbl] at hw hct ⊢
  rw [run_bind_of (run_loadkey h hk h'.keyLen), run_bind_of (run_initaead h hn h'.nonceLen),
    run_bind_of (run_adPart h comb ha)]
  rw [encS_dsep h, run_bind_of (run_update_decrypt h comb _ m c _ hcb hw (by omega)),
    run_bind_of (run_final h _ K)]
  have hlen := Ref.length_decBody (aeadAd A (aeadInit K N)) (ctBody C)
  have e1 : aeadCandidate K N A (ctBody C) = (decBody (aeadAd A (aeadInit K N)) (ctBody C)).2 := rfl
  have e2 : aeadDecTag K N A (ctBody C) = aeadTag K (decBody (aeadAd A (aeadInit K N)) (ctBody C)).1 := rfl
  rw [e1, e2]
  generalize decBody (aeadAd A (aeadInit K N)) (ctBody C) = r at *
  have e3 : aeadTag K r.1 = bytes64 (addKeyLast K (perm 12 (addKeyMid K r.1))).x3 ++
      bytes64 (addKeyLast K (perm 12 (addKeyMid K r.1))).x4 := rfl
  have htag : (aeadTag K r.1).length = 16 := Ref.length_aeadTag _ _
  generalize aeadTag K r.1 = T at *
  generalize addKeyLast K (perm 12 (addKeyMid K r.1)) = t at *
  have hct2 : (mem1.writes m r.2).Holds (c + (ctBody C).length) (ctTag C) := by
    apply hct.writes_disjoint
    unfold Disjoint; rw [hlen]; omega
  have hst2 : (mem1.writes m r.2).Free sp 16 :=
    Ref.Mem.Free.writes' hst (by rw [hlen]; exact hst.disjoint_writable hw)
  generalize mem1.writes m r.2 = mem2 at *
  have hwsp := writable_fill_uninit mem2 sp 16
  have hd := hst2.disjoint_holds hct2
  rw [run_bind_of Ref.run_alloc, run_bind_of (Ref.run_store64 (hwsp.mono (by omega) (by omega))),
    run_bind_of (Ref.run_store64 (hwsp.writes.mono (by omega) (by omega)))]
  have hw3 : ((mem2.fill sp 16 .uninit).writes sp (repr64 e (B.WORDTOU64 e (encS enc t).x3))).writes (sp + 8)
      (repr64 e (B.WORDTOU64 e (encS enc t).x4)) = (mem2.fill sp 16 .uninit).writes sp T := by
    rw [e3, writes_append, length_bytes64]
    simp only [encS, h.store]
  rw [hw3]
  have hct3 : ((mem2.fill sp 16 .uninit).writes sp T).Holds (c + (ctBody C).length) (ctTag C) :=
    (hct2.fill hd).writes_disjoint (by rw [htag]; exact hd)
  rw [run_bind_of (by
    rw [run_ifc, if_neg (by decide)]
    exact Ref.run_verifyTag hct3 (holds_writes_self _ _ _) htl htag), run_bind_of Ref.run_free,
    fill_writes_fill hst2 (by omega)]
  rfl

end Ascon.Low

namespace Ascon.Ref

open Ascon.C Ascon.Spec
open Ascon.C.Prog (require ifc loop forUp loadB storeB loadN storeN store64 load64)

attribute [local irreducible] perm



theorem enc_len (e : Endian) : EncLenAt e crypto_aead_encrypt := by
  intro mem sp c clen m ad nsec npub k K N A P h
  unfold crypto_aead_encrypt encPost
  rw [run_bind_of (run_store64 h.outLen)]
  have hk := h.key
  have hn := h.nonce
  have ha := h.adata
  have hm := h.msg
  unfold lenStored at hk hn ha hm
  have hw : (mem.writes clen (repr64 e (BitVec.ofNat 64 (P.length + 16)))).Writable c (P.length + 16) :=
    h.out.writes
  have ho := h.overlap
  generalize mem.writes clen (repr64 e (BitVec.ofNat 64 (P.length + 16))) = mem1 at *
  rw [run_bind_of (run_initAead hk h.keyLen hn h.nonceLen)]
  simp only
  rw [run_bind_of (run_absorbAd ha rfl), run_bind_of run_DSEP, encLoop,
    run_bind_of (run_encLoop_aux _ _ _ c m P hm (hw.mono (by omega) (by omega)) ho (by omega))]
  simp only
  have hS : ({ (if A = [] then aeadInit K N else absorb 8 (aeadInit K N) (fullBlocks 16 (pad 16 A))) with
      x4 := (if A = [] then aeadInit K N else absorb 8 (aeadInit K N) (fullBlocks 16 (pad 16 A))).x4 ^^^
        0x8000000000000000 } : State) = aeadAd A (aeadInit K N) := rfl
  rw [hS]
  unfold aeadEncrypt encBody
  have hlen := length_encBlocks (aeadAd A (aeadInit K N)) (fullBlocks 16 P)
  rw [length_fullBlocks] at hlen
  have hl := Holds.lastBlock 16 hm
  have hll := length_lastBlock 16 P
  rw [← hll]
  generalize encBlocks (aeadAd A (aeadInit K N)) (fullBlocks 16 P) = r at *
  generalize Spec.lastBlock 16 P = l at *
  have hdm := Nat.div_add_mod P.length 16
  have hl2 : (mem1.writes c r.2).Holds (m + 16 * (P.length / 16)) l := by
    apply hl.writes_disjoint
    unfold Disjoint; omega
  rw [run_bind_of (run_encFinal hl2 (by omega) (hw.writes.mono (by omega) (by omega)))]
  simp only
  have hr2 : (rate l.length (xorIn r.1 (pad 16 l))).length = l.length := length_rate _ _ (by omega)
  rw [run_bind_of (run_STOREBYTES8 (hw.writes.writes.mono (by omega) (by omega))),
    run_bind_of (run_STOREBYTES8 (hw.writes.writes.writes.mono (by omega) (by omega)))]
  rw [← finalize_tag K, ← List.append_assoc, writes_append _ _ (_ ++ _ ++ _), writes_append, writes_append]
  simp only [List.length_append, hlen, hr2, length_bytes64, run_pure', Nat.add_assoc]

theorem dec_len (e : Endian) : DecLenAt e crypto_aead_decrypt := by
  intro mem sp m mlen nsec c ad npub k K N A C h
  unfold crypto_aead_decrypt decPost
  have h16 := h.ctMin
  rw [run_ifc, if_neg (by simpa using h16), run_bind_of (run_store64 h.outLen)]
  have hk := h.key
  have hn := h.nonce
  have ha := h.adata
  have hc := h.ct
  unfold lenStored at hk hn ha hc
  have hw : (mem.writes mlen (repr64 e (BitVec.ofNat 64 (C.length - 16)))).Writable m (C.length - 16) :=
    h.out.writes
  have hst : (mem.writes mlen (repr64 e (BitVec.ofNat 64 (C.length - 16)))).Free sp 16 :=
    Mem.Free.writes' (Mem.Free.mono' h.stack (by omega)) (by
      rw [length_repr64]
      exact (Mem.Free.mono' h.stack (by omega : 16 ≤ 64)).disjoint_writable h.outLen)
  have ho := h.overlap
  generalize mem.writes mlen (repr64 e (BitVec.ofNat 64 (C.length - 16))) = mem1 at *
  rw [run_bind_of (run_initAead hk h.keyLen hn h.nonceLen)]
  simp only
  have hbl : (ctBody C).length = C.length - 16 := by simp [ctBody]
  have htl : (ctTag C).length = 16 := by simp [ctTag]; omega
  have hCsplit : C = ctBody C ++ ctTag C := by simp [ctBody, ctTag]
  have hcb : mem1.Holds c (ctBody C) := hc.take _
  have hct : mem1.Holds (c + (C.length - 16)) (ctTag C) := hc.drop _ (by omega)
  rw [run_bind_of (run_absorbAd ha rfl), run_bind_of run_DSEP, decLoop, ← hbl,
    run_bind_of (run_decLoop_aux _ _ _ m c (ctBody C) hcb (by rwa [hbl]) (by omega) (by omega))]
  simp only
  have hS : ({ (if A = [] then aeadInit K N else absorb 8 (aeadInit K N) (fullBlocks 16 (pad 16 A))) with
      x4 := (if A = [] then aeadInit K N else absorb 8 (aeadInit K N) (fullBlocks 16 (pad 16 A))).x4 ^^^
        0x8000000000000000 } : State) = aeadAd A (aeadInit K N) := rfl
  rw [hS]
  have hcand : (aeadCandidate K N A (ctBody C)).length = (ctBody C).length := length_decBody _ _
  have htag : (aeadDecTag K N A (ctBody C)).length = 16 := length_aeadTag _ _
  have hcd : aeadCandidate K N A (ctBody C) =
      (decBlocks (aeadAd A (aeadInit K N)) (fullBlocks 16 (ctBody C))).2 ++
      xorBytes (rate (lastBlock 16 (ctBody C)).length
        (decBlocks (aeadAd A (aeadInit K N)) (fullBlocks 16 (ctBody C))).1) (lastBlock 16 (ctBody C)) := rfl
  have htg : aeadDecTag K N A (ctBody C) = aeadTag K (xorIn
      (decBlocks (aeadAd A (aeadInit K N)) (fullBlocks 16 (ctBody C))).1
      (pad 16 (xorBytes (rate (lastBlock 16 (ctBody C)).length
        (decBlocks (aeadAd A (aeadInit K N)) (fullBlocks 16 (ctBody C))).1) (lastBlock 16 (ctBody C))))) := rfl
  have hlen := length_decBlocks (aeadAd A (aeadInit K N)) (fullBlocks 16 (ctBody C))
    (fun b hb => mem_fullBlocks_length hb)
  rw [length_fullBlocks] at hlen
  have hl := Holds.lastBlock 16 hcb
  have hll := length_lastBlock 16 (ctBody C)
  rw [← hll]
  generalize decBlocks (aeadAd A (aeadInit K N)) (fullBlocks 16 (ctBody C)) = r at *
  generalize Spec.lastBlock 16 (ctBody C) = l at *
  have hdm := Nat.div_add_mod (ctBody C).length 16
  have hl2 : (mem1.writes m r.2).Holds (c + 16 * ((ctBody C).length / 16)) l := by
    apply hl.writes_disjoint
    unfold Disjoint; omega
  rw [run_bind_of (run_decFinal hl2 (by omega) (hw.writes.mono (by omega) (by omega)))]
  simp only
  have hmem : (mem1.writes m r.2).writes (m + 16 * ((ctBody C).length / 16)) (xorBytes (rate l.length r.1) l) =
      mem1.writes m (aeadCandidate K N A (ctBody C)) := by
    rw [hcd, writes_append, hlen]
  rw [hmem]
  have hct2 : (mem1.writes m (aeadCandidate K N A (ctBody C))).Holds (c + (ctBody C).length) (ctTag C) := by
    rw [hbl]
    apply hct.writes_disjoint
    unfold Disjoint; rw [hcand]; omega
  have hst2 : (mem1.writes m (aeadCandidate K N A (ctBody C))).Free sp 16 :=
    Mem.Free.writes' hst (by rw [hcand, hbl]; exact hst.disjoint_writable hw)
  generalize mem1.writes m (aeadCandidate K N A (ctBody C)) = mem2 at *
  have hft := finalize_tag K (xorIn r.1 (pad 16 (xorBytes (rate l.length r.1) l)))
  rw [← htg] at hft
  simp only at hft
  generalize finalize (le64 (K.take 8)) (le64 (K.drop 8)) (xorIn r.1 (pad 16 (xorBytes (rate l.length r.1) l))) = f at *
  have hwsp := writable_fill_uninit mem2 sp 16
  rw [run_bind_of run_alloc, run_bind_of (run_STOREBYTES8 (hwsp.mono (by omega) (by omega))),
    run_bind_of (run_STOREBYTES8 (hwsp.writes.mono (by omega) (by omega)))]
  have hw2 : ((mem2.fill sp 16 .uninit).writes sp (bytes64 f.x3)).writes (sp + 8) (bytes64 f.x4) =
      (mem2.fill sp 16 .uninit).writes sp (aeadDecTag K N A (ctBody C)) := by
    rw [← hft, writes_append, length_bytes64]
  rw [hw2]
  have hd := hst2.disjoint_holds hct2
  have hct3 : ((mem2.fill sp 16 .uninit).writes sp (aeadDecTag K N A (ctBody C))).Holds
      (c + 16 * ((ctBody C).length / 16) + l.length) (ctTag C) := by
    rw [show c + 16 * ((ctBody C).length / 16) + l.length = c + (ctBody C).length by omega]
    exact (hct2.fill hd).writes_disjoint (by rw [htag]; exact hd)
  rw [run_bind_of (run_verifyTag hct3 (holds_writes_self _ _ _) htl htag), run_bind_of run_free,
    fill_writes_fill hst2 (by omega)]
  rfl

end Ascon.Ref

namespace Ascon.Impl

open Ascon.C Ascon.Spec

theorem Aead.encrypt_len (i : Aead) (e : Endian) (h : i.runsOn e) : EncLenAt e i.encrypt := by
  unfold Aead.runsOn at h
  unfold Aead.encrypt
  cases hc : i.code <;> rw [hc] at h <;> simp only [AeadCode.runsOn] at h
  case ref => exact Ref.enc_len e
  case gen c => exact Gen.enc_len (c.ok e h)
  case low c comb => exact Low.enc_len (c.ok e h) comb
  case byte b => subst h; exact Opt8.enc_len b.ok
  case byteLow b comb => subst h; exact Opt8.low_enc_len b.ok _ (aeadCfg comb)
  case avx junk => subst h; exact Avx512.enc_len junk

theorem Aead.decrypt_len (i : Aead) (e : Endian) (h : i.runsOn e) : DecLenAt e i.decrypt := by
  unfold Aead.runsOn at h
  unfold Aead.decrypt
  cases hc : i.code <;> rw [hc] at h <;> simp only [AeadCode.runsOn] at h
  case ref => exact Ref.dec_len e
  case gen c => exact Gen.dec_len (c.ok e h)
  case low c comb => exact Low.dec_len (c.ok e h) comb
  case byte b => subst h; exact Opt8.dec_len b.ok
  case byteLow b comb => subst h; exact Opt8.low_dec_len b.ok _ (aeadCfg comb)
  case avx junk => subst h; exact Avx512.dec_len junk

end Ascon.Impl
