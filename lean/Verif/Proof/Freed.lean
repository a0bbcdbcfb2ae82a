import Verif.C.Freed
import Verif.Proof.Registry
/-!
# What the comparison of a tag leaves in the local tag array

Every `crypto_auth_verify`, and `crypto_aead_decrypt` of the reference and of the lowsize / combined implementations, compute
the expected tag in a local array and compare it with the received one; when the array goes out of scope it has the expected
tag.
-/

namespace Ascon.C

open Ascon.Spec

/-- When the array at `sp` goes out of scope it has the contents `T`. -/
def Leaves {α : Type} (p : Prog α) (mem : Mem) (sp : Nat) (T : List Byte) : Prop := ∃ B ∈ freed p mem, B.Holds sp T

theorem leaves_bind {α β : Type} {p : Prog α} {f : α → Prog β} {mem m : Mem} {a : α} {sp : Nat} {T : List Byte}
    (h : run p mem = some (a, m)) (hB : Leaves (f a) m sp T) : Leaves (p >>= f) mem sp T := by
  obtain ⟨B, hB, hT⟩ := hB
  exact ⟨B, mem_freed_bind h hB, hT⟩

/-- For `crypto_auth_verify`: the tag of the message. -/
def VerifyLeavesAt (e : Endian) (F : List Byte → List Byte → List Byte) (n : Nat) (ok : Nat → Prop) (f : CryptoVerify) : Prop :=
  ∀ (mem : Mem) (sp h inp k : Nat) (K M T : List Byte),
    mem.Holds k K → K.length = 16 → mem.Holds inp M → M.length < 2 ^ 64 → mem.Holds h T → T.length = n →
    ok M.length → mem.Free sp 128 → Leaves (f e sp h inp M.length k) mem sp (F K M)

/-- For `crypto_aead_decrypt`: the tag that would make this nonce, associated data and ciphertext acceptable. -/
def DecLeavesAt (e : Endian) (f : AeadDecrypt) : Prop :=
  ∀ (mem : Mem) (sp m mlen nsec c ad npub k : Nat) (K N A C : List Byte),
    DecPre mem sp m mlen c ad npub k K N A C →
    Leaves (f e sp m mlen nsec c C.length ad A.length npub k) mem sp (aeadDecTag K N A (ctBody C))

end Ascon.C

namespace Ascon.Ref

open Ascon.C Ascon.Spec
open Ascon.C.Prog (ifc)

attribute [local irreducible] perm

/-- Verification: the local tag array still has the computed tag when it goes out of scope. -/
theorem verify_leaves {F : List Byte → List Byte → Nat → List Byte} {ok : Nat → Nat → Prop} {f : CryptoPrf}
    {e : Endian} (hf : PrfCorrectAt e F ok f) {n : Nat} (hn : n ≤ 128) (hlen : ∀ K M, (F K M n).length = n) (sp' : Nat)
    {mem : Mem} {sp h inp k : Nat} {K M T : List Byte}
    (hk : mem.Holds k K) (hK : K.length = 16) (hM : mem.Holds inp M) (hMl : M.length < 2 ^ 64)
    (hT : mem.Holds h T) (hTl : T.length = n) (hok : ok M.length n) (hs : mem.Free sp 128) :
    Leaves (do
      Prog.alloc sp n (.ret ())
      let _ ← f e sp' sp n inp M.length k
      let r ← tagDiff n h sp
      Prog.free sp n (.ret ())
      pure r) mem sp (F K M n) := by
  have hs' : mem.Free sp n := Mem.Free.mono' hs hn
  refine leaves_bind run_alloc ?_
  refine leaves_bind (hf.1 _ sp' sp n inp k K M (hk.fill (hs'.disjoint_holds hk)) hK
    (hM.fill (hs'.disjoint_holds hM)) hMl (writable_fill_uninit _ _ _) hok) ?_
  have hd := hs'.disjoint_holds hT
  have hT' : ((mem.fill sp n .uninit).writes sp (F K M n)).Holds h T :=
    (hT.fill hd).writes_disjoint (by rw [hlen]; exact hd)
  refine leaves_bind (run_tagDiff hT' (holds_writes_self _ _ _) hTl (hlen K M)) ?_
  exact ⟨_, List.mem_cons_self .., holds_only (holds_writes_self _ _ _) (Nat.le_refl _) (by rw [hlen]; exact Nat.le_refl _)⟩

theorem dec_leaves (e : Endian) : DecLeavesAt e crypto_aead_decrypt := by
  intro mem sp m mlen nsec c ad npub k K N A C h
  unfold crypto_aead_decrypt
  have h16 := h.ctMin
  rw [Leaves, freed_ifc_neg (by simpa using h16)]
  refine leaves_bind (run_store64 h.outLen) ?_
  have hsep : ∀ {q : Nat} {bs : List Byte}, mem.Holds q bs → Disjoint mlen 8 q bs.length →
      (mem.writes mlen (repr64 e (BitVec.ofNat 64 (C.length - 16)))).Holds q bs := fun hq hd =>
    hq.writes_disjoint (by rwa [length_repr64])
  have hk := hsep h.key (by rw [h.keyLen]; exact h.sepKey)
  have hn := hsep h.nonce (by rw [h.nonceLen]; exact h.sepNonce)
  have ha := hsep h.adata h.sepAd
  have hc := hsep h.ct h.sepCt
  have hw : (mem.writes mlen (repr64 e (BitVec.ofNat 64 (C.length - 16)))).Writable m (C.length - 16) :=
    h.out.writes
  have hst : (mem.writes mlen (repr64 e (BitVec.ofNat 64 (C.length - 16)))).Free sp 16 :=
    Mem.Free.writes' (Mem.Free.mono' h.stack (by omega)) (by
      rw [length_repr64]
      exact (Mem.Free.mono' h.stack (by omega : 16 ≤ 64)).disjoint_writable h.outLen)
  have ho := h.overlap
  generalize mem.writes mlen (repr64 e (BitVec.ofNat 64 (C.length - 16))) = mem1 at *
  refine leaves_bind (run_initAead hk h.keyLen hn h.nonceLen) ?_
  simp only
  have hbl : (ctBody C).length = C.length - 16 := by simp [ctBody]
  have htl : (ctTag C).length = 16 := by simp [ctTag]; omega
  have hCsplit : C = ctBody C ++ ctTag C := by simp [ctBody, ctTag]
  have hcb : mem1.Holds c (ctBody C) := hc.take _
  have hct : mem1.Holds (c + (C.length - 16)) (ctTag C) := hc.drop _ (by omega)
  refine leaves_bind (run_absorbAd ha rfl) ?_
  refine leaves_bind run_DSEP ?_
  rw [decLoop, ← hbl]
  refine leaves_bind (run_decLoop_aux _ _ _ m c (ctBody C) hcb (by rwa [hbl]) (by omega) (by omega)) ?_
  simp only
  have hS : ({ (if A = [] then aeadInit K N else absorb 8 (aeadInit K N) (fullBlocks 16 (pad 16 A))) with
      x4 := (if A = [] then aeadInit K N else absorb 8 (aeadInit K N) (fullBlocks 16 (pad 16 A))).x4 ^^^
        0x8000000000000000 } : State) = aeadAd A (aeadInit K N) := rfl
  rw [hS]
  have hcand : (aeadCandidate K N A (ctBody C)).length = (ctBody C).length := length_decBody _ _
  have htag : (aeadDecTag K N A (ctBody C)).length = 16 := length_aeadTag _ _
  have hcd : aeadCandidate K N A (ctBody C) =
      (decBlocks (aeadAd A (aeadInit K N)) (fullBlocks 16 (ctBody C))).2 ++
      xorBytes (rate (lastBlock 16 (ctBody C)).length
        (decBlocks (aeadAd A (aeadInit K N)) (fullBlocks 16 (ctBody C))).1) (lastBlock 16 (ctBody C)) := rfl
  have htg : aeadDecTag K N A (ctBody C) = aeadTag K (xorIn
      (decBlocks (aeadAd A (aeadInit K N)) (fullBlocks 16 (ctBody C))).1
      (pad 16 (xorBytes (rate (lastBlock 16 (ctBody C)).length
        (decBlocks (aeadAd A (aeadInit K N)) (fullBlocks 16 (ctBody C))).1) (lastBlock 16 (ctBody C))))) := rfl
  have hlen := length_decBlocks (aeadAd A (aeadInit K N)) (fullBlocks 16 (ctBody C))
    (fun b hb => mem_fullBlocks_length hb)
  rw [length_fullBlocks] at hlen
  have hl := Holds.lastBlock 16 hcb
  have hll := length_lastBlock 16 (ctBody C)
  rw [← hll]
  generalize decBlocks (aeadAd A (aeadInit K N)) (fullBlocks 16 (ctBody C)) = r at *
  generalize Spec.lastBlock 16 (ctBody C) = l at *
  have hdm := Nat.div_add_mod (ctBody C).length 16
  have hl2 : (mem1.writes m r.2).Holds (c + 16 * ((ctBody C).length / 16)) l := by
    apply hl.writes_disjoint
    unfold Disjoint; omega
  refine leaves_bind (run_decFinal hl2 (by omega) (hw.writes.mono (by omega) (by omega))) ?_
  simp only
  have hmem : (mem1.writes m r.2).writes (m + 16 * ((ctBody C).length / 16)) (xorBytes (rate l.length r.1) l) =
      mem1.writes m (aeadCandidate K N A (ctBody C)) := by
    rw [hcd, writes_append, hlen]
  rw [hmem]
  have hct2 : (mem1.writes m (aeadCandidate K N A (ctBody C))).Holds (c + (ctBody C).length) (ctTag C) := by
    rw [hbl]
    apply hct.writes_disjoint
    unfold Disjoint; rw [hcand]; omega
  have hst2 : (mem1.writes m (aeadCandidate K N A (ctBody C))).Free sp 16 :=
    Mem.Free.writes' hst (by rw [hcand, hbl]; exact hst.disjoint_writable hw)
  generalize mem1.writes m (aeadCandidate K N A (ctBody C)) = mem2 at *
  have hft := finalize_tag K (xorIn r.1 (pad 16 (xorBytes (rate l.length r.1) l)))
  rw [← htg] at hft
  simp only at hft
  generalize finalize (le64 (K.take 8)) (le64 (K.drop 8)) (xorIn r.1 (pad 16 (xorBytes (rate l.length r.1) l))) = f at *
  have hwsp := writable_fill_uninit mem2 sp 16
  refine leaves_bind run_alloc ?_
  refine leaves_bind (run_STOREBYTES8 (hwsp.mono (by omega) (by omega))) ?_
  refine leaves_bind (run_STOREBYTES8 (hwsp.writes.mono (by omega) (by omega))) ?_
  have hw2 : ((mem2.fill sp 16 .uninit).writes sp (bytes64 f.x3)).writes (sp + 8) (bytes64 f.x4) =
      (mem2.fill sp 16 .uninit).writes sp (aeadDecTag K N A (ctBody C)) := by
    rw [← hft, writes_append, length_bytes64]
  rw [hw2]
  have hd := hst2.disjoint_holds hct2
  have hct3 : ((mem2.fill sp 16 .uninit).writes sp (aeadDecTag K N A (ctBody C))).Holds
      (c + 16 * ((ctBody C).length / 16) + l.length) (ctTag C) := by
    rw [show c + 16 * ((ctBody C).length / 16) + l.length = c + (ctBody C).length by omega]
    exact (hct2.fill hd).writes_disjoint (by rw [htag]; exact hd)
  refine leaves_bind (run_verifyTag hct3 (holds_writes_self _ _ _) htl htag) ?_
  exact ⟨_, List.mem_cons_self .., holds_only (holds_writes_self _ _ _) (Nat.le_refl _) (by rw [htag]; exact Nat.le_refl _)⟩

end Ascon.Ref

namespace Ascon.Low

open Ascon.C Ascon.Spec Ascon.Gen
open Ascon.C.Prog (ifc)

attribute [local irreducible] perm

variable {B : Backend} {e : Endian} {enc : Word → Word}

theorem dec_leaves (h : B.Ok e enc) (comb : Bool) : DecLeavesAt e (crypto_aead_decrypt B comb) := by
  intro mem sp m mlen nsec c ad npub k K N A C h'
  unfold crypto_aead_decrypt
  have h16 := h'.ctMin
  rw [Leaves, freed_ifc_neg (by simpa using h16)]
  refine leaves_bind (Ref.run_store64 h'.outLen) ?_
  have hsep : ∀ {q : Nat} {bs : List Byte}, mem.Holds q bs → Disjoint mlen 8 q bs.length →
      (mem.writes mlen (repr64 e (BitVec.ofNat 64 (C.length - 16)))).Holds q bs := fun hq hd =>
    hq.writes_disjoint (by rwa [Ref.length_repr64])
  have hk := hsep h'.key (by rw [h'.keyLen]; exact h'.sepKey)
  have hn := hsep h'.nonce (by rw [h'.nonceLen]; exact h'.sepNonce)
  have ha := hsep h'.adata h'.sepAd
  have hc := hsep h'.ct h'.sepCt
  have hw : (mem.writes mlen (repr64 e (BitVec.ofNat 64 (C.length - 16)))).Writable m (C.length - 16) :=
    h'.out.writes
  have hst : (mem.writes mlen (repr64 e (BitVec.ofNat 64 (C.length - 16)))).Free sp 16 :=
    Ref.Mem.Free.writes' (Ref.Mem.Free.mono' h'.stack (by omega)) (by
      rw [Ref.length_repr64]
      exact (Ref.Mem.Free.mono' h'.stack (by omega : 16 ≤ 64)).disjoint_writable h'.outLen)
  have ho := h'.overlap
  generalize mem.writes mlen (repr64 e (BitVec.ofNat 64 (C.length - 16))) = mem1 at *
  have hbl : (ctBody C).length = C.length - 16 := by simp [ctBody]
  have htl : (ctTag C).length = 16 := by simp [ctTag]; omega
  have hcb : mem1.Holds c (ctBody C) := hc.take _
  have hct : mem1.Holds (c + (C.length - 16)) (ctTag C) := hc.drop _ (by omega)
  unfold ascon_aead
  simp only
  rw [← hbl] at hw hct ⊢
  refine leaves_bind (run_loadkey h hk h'.keyLen) ?_
  refine leaves_bind (run_initaead h hn h'.nonceLen) ?_
  refine leaves_bind (run_adPart h comb ha) ?_
  rw [encS_dsep h]
  refine leaves_bind (run_update_decrypt h comb _ m c _ hcb hw (by omega)) ?_
  refine leaves_bind (run_final h _ K) ?_
  have hlen := Ref.length_decBody (aeadAd A (aeadInit K N)) (ctBody C)
  have e2 : aeadDecTag K N A (ctBody C) = aeadTag K (decBody (aeadAd A (aeadInit K N)) (ctBody C)).1 := rfl
  rw [e2]
  generalize decBody (aeadAd A (aeadInit K N)) (ctBody C) = r at *
  have e3 : aeadTag K r.1 = bytes64 (addKeyLast K (perm 12 (addKeyMid K r.1))).x3 ++
      bytes64 (addKeyLast K (perm 12 (addKeyMid K r.1))).x4 := rfl
  have htag : (aeadTag K r.1).length = 16 := Ref.length_aeadTag _ _
  generalize aeadTag K r.1 = T at *
  generalize addKeyLast K (perm 12 (addKeyMid K r.1)) = t at *
  have hct2 : (mem1.writes m r.2).Holds (c + (ctBody C).length) (ctTag C) := by
    apply hct.writes_disjoint
    unfold Disjoint; rw [hlen]; omega
  have hst2 : (mem1.writes m r.2).Free sp 16 :=
    Ref.Mem.Free.writes' hst (by rw [hlen]; exact hst.disjoint_writable hw)
  generalize mem1.writes m r.2 = mem2 at *
  have hwsp := writable_fill_uninit mem2 sp 16
  have hd := hst2.disjoint_holds hct2
  refine leaves_bind Ref.run_alloc ?_
  refine leaves_bind (Ref.run_store64 (hwsp.mono (by omega) (by omega))) ?_
  refine leaves_bind (Ref.run_store64 (hwsp.writes.mono (by omega) (by omega))) ?_
  have hw3 : ((mem2.fill sp 16 .uninit).writes sp (repr64 e (B.WORDTOU64 e (encS enc t).x3))).writes (sp + 8)
      (repr64 e (B.WORDTOU64 e (encS enc t).x4)) = (mem2.fill sp 16 .uninit).writes sp T := by
    rw [e3, writes_append, length_bytes64]
    simp only [encS, h.store]
  rw [hw3]
  have hct3 : ((mem2.fill sp 16 .uninit).writes sp T).Holds (c + (ctBody C).length) (ctTag C) :=
    (hct2.fill hd).writes_disjoint (by rw [htag]; exact hd)
  refine leaves_bind (by
    rw [run_ifc, if_neg (by decide)]
    exact Ref.run_verifyTag hct3 (holds_writes_self _ _ _) htl htag) ?_
  exact ⟨_, List.mem_cons_self .., holds_only (holds_writes_self _ _ _) (Nat.le_refl _) (by rw [htag]; exact Nat.le_refl _)⟩

end Ascon.Low

namespace Ascon.Ref

open Ascon.C Ascon.Spec Ascon.Ref
open Ascon.C.Prog (ifc)

attribute [local irreducible] perm

theorem mac_verify_leaves (e : Endian) :
    VerifyLeavesAt e mac 16 (fun _ => True) mac_crypto_auth_verify := by
  intro mem sp h' inp k K M T hk hK hM hMl hT hTl hok hs
  exact Ref.verify_leaves (Ref.mac_prf_correct e) (by omega) (fun K M => Ref.length_prfWith _ K M 16) (sp + 16)
    hk hK hM hMl hT hTl (by simp) hs

theorem prf_verify_leaves (e : Endian) :
    VerifyLeavesAt e (fun K M => prf K M 64) 64 (fun _ => True) prf_crypto_auth_verify := by
  intro mem sp h' inp k K M T hk hK hM hMl hT hTl hok hs
  exact Ref.verify_leaves (Ref.prf_prf_correct e) (by omega) (fun K M => Ref.length_prfWith _ K M 64) (sp + 64)
    hk hK hM hMl hT hTl (by simp) hs

theorem prfs_verify_leaves (e : Endian) :
    VerifyLeavesAt e (fun K M => prfShort K M 16) 16 (fun l => l ≤ 16) prfs_crypto_auth_verify := by
  intro mem sp h' inp k K M T hk hK hM hMl hT hTl hok hs
  show Leaves (prfs_crypto_auth_verify e sp h' inp M.length k) mem sp _
  unfold prfs_crypto_auth_verify
  rw [Leaves, freed_ifc_neg (by simpa using hok)]
  exact Ref.verify_leaves (Ref.prfs_correct e) (by omega) (fun K M => Ref.length_prfShort K M 16 (by omega)) (sp + 16)
    hk hK hM hMl hT hTl ⟨hok, by omega⟩ hs

end Ascon.Ref

namespace Ascon.Gen

open Ascon.C Ascon.Spec Ascon.Ref
open Ascon.C.Prog (ifc)

attribute [local irreducible] perm

theorem mac_verify_leaves {B : Backend} {e : Endian} {enc : Word → Word} (h : B.Ok e enc) :
    VerifyLeavesAt e mac 16 (fun _ => True) (mac_crypto_auth_verify B) := by
  intro mem sp h' inp k K M T hk hK hM hMl hT hTl hok hs
  exact Ref.verify_leaves (Ascon.Gen.mac_prf_correct h) (by omega) (fun K M => Ref.length_prfWith _ K M 16) (sp + 16)
    hk hK hM hMl hT hTl (by simp) hs

theorem prf_verify_leaves {B : Backend} {e : Endian} {enc : Word → Word} (h : B.Ok e enc) :
    VerifyLeavesAt e (fun K M => prf K M 64) 64 (fun _ => True) (prf_crypto_auth_verify B) := by
  intro mem sp h' inp k K M T hk hK hM hMl hT hTl hok hs
  exact Ref.verify_leaves (Ascon.Gen.prf_prf_correct h) (by omega) (fun K M => Ref.length_prfWith _ K M 64) (sp + 64)
    hk hK hM hMl hT hTl (by simp) hs

theorem prfs_verify_leaves {B : Backend} {e : Endian} {enc : Word → Word} (h : B.Ok e enc) :
    VerifyLeavesAt e (fun K M => prfShort K M 16) 16 (fun l => l ≤ 16) (prfs_crypto_auth_verify B) := by
  intro mem sp h' inp k K M T hk hK hM hMl hT hTl hok hs
  show Leaves (prfs_crypto_auth_verify B e sp h' inp M.length k) mem sp _
  unfold prfs_crypto_auth_verify
  rw [Leaves, freed_ifc_neg (by simpa using hok)]
  exact Ref.verify_leaves (Ascon.Gen.prfs_correct h) (by omega) (fun K M => Ref.length_prfShort K M 16 (by omega)) (sp + 16)
    hk hK hM hMl hT hTl ⟨hok, by omega⟩ hs

end Ascon.Gen

namespace Ascon.Opt8

open Ascon.C Ascon.Spec Ascon.Ref
open Ascon.C.Prog (ifc)

attribute [local irreducible] perm

theorem mac_verify_leaves {V : Perms} (h : V.Ok) :
    VerifyLeavesAt .little mac 16 (fun _ => True) (mac_crypto_auth_verify V opt8PadAt 7) := by
  intro mem sp h' inp k K M T hk hK hM hMl hT hTl hok hs
  exact Ref.verify_leaves (Ascon.Opt8.mac_prf_correct h) (by omega) (fun K M => Ref.length_prfWith _ K M 16) (sp + 16)
    hk hK hM hMl hT hTl (by simp) hs

theorem prf_verify_leaves {V : Perms} (h : V.Ok) :
    VerifyLeavesAt .little (fun K M => prf K M 64) 64 (fun _ => True) (prf_crypto_auth_verify V opt8PadAt 7) := by
  intro mem sp h' inp k K M T hk hK hM hMl hT hTl hok hs
  exact Ref.verify_leaves (Ascon.Opt8.prf_prf_correct h) (by omega) (fun K M => Ref.length_prfWith _ K M 64) (sp + 64)
    hk hK hM hMl hT hTl (by simp) hs

theorem prfs_verify_leaves {V : Perms} (h : V.Ok) :
    VerifyLeavesAt .little (fun K M => prfShort K M 16) 16 (fun l => l ≤ 16) (prfs_crypto_auth_verify V) := by
  intro mem sp h' inp k K M T hk hK hM hMl hT hTl hok hs
  show Leaves (prfs_crypto_auth_verify V .little sp h' inp M.length k) mem sp _
  unfold prfs_crypto_auth_verify
  rw [Leaves, freed_ifc_neg (by simpa using hok)]
  exact Ref.verify_leaves (Ascon.Opt8.prfs_correct h) (by omega) (fun K M => Ref.length_prfShort K M 16 (by omega)) (sp + 16)
    hk hK hM hMl hT hTl ⟨hok, by omega⟩ hs

end Ascon.Opt8
