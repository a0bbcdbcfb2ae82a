import Verif.Proof.AheadTop
/-!
# Decryption into a buffer that starts ahead of the ciphertext: all implementations

The same as the proofs of `DecCorrectAt`, with what is decrypted taken from `aheadDec_loop`.
-/

namespace Ascon.Gen

open Ascon.C Ascon.Spec
open Ascon.C.Prog (require ifc loop forUp loadB storeB loadN storeN store64 load64)
open Ascon.Impl (aheadDec_loop aheadDec_body decAhead_of decAhead_mem)

attribute [local irreducible] perm

variable {B : Backend} {e : Endian} {enc : Word → Word}

theorem run_decrypt_ahead (h : B.Ok e enc) {mem : Mem} {s : State} {c d : Nat} {C : List Byte} (hm : mem.Holds c C)
    (hw : mem.Writable (c + d) C.length) (hd : 16 ≤ d) :
    ∃ C', Fed d C (decBody s C').2 C' ∧ run (ascon_decrypt B e (encS enc s) (c + d) c C.length) mem =
      some (encS enc (decBody s C').1, mem.writes (c + d) (decBody s C').2) :=
  aheadDec_loop (encS enc) (fun s _ => encS enc s) (cond := fun (_, _, _, clen) => decide (clen ≥ 16)) (step := decStep B e)
    (fin := fun (s, m, c, clen) => decFinal B e s m c clen)
    (fun _ _ _ _ => rfl) (fun mem s m c n C a b d f => run_decStep h mem s m c n C a b d f)
    (fun mem t m c l a b d f => run_decFinal h a b d f) mem s c d C hm hw hd

theorem dec_ahead (h : B.Ok e enc) : DecAheadAt e (crypto_aead_decrypt B) := by
  intro mem sp mlen nsec c d ad npub k K N A C h'
  unfold crypto_aead_decrypt
  refine decAhead_of ?_
  have h16 := h'.ctMin
  rw [run_ifc, if_neg (by simpa using h16), run_bind_of (Ref.run_store64 h'.outLen)]
  have hsep : ∀ {q : Nat} {bs : List Byte}, mem.Holds q bs → Disjoint mlen 8 q bs.length →
      (mem.writes mlen (repr64 e (BitVec.ofNat 64 (C.length - 16)))).Holds q bs := fun hq hd =>
    hq.writes_disjoint (by rwa [Ref.length_repr64])
  have hk := hsep h'.key (by rw [h'.keyLen]; exact h'.sepKey)
  have hn := hsep h'.nonce (by rw [h'.nonceLen]; exact h'.sepNonce)
  have ha := hsep h'.adata h'.sepAd
  have hc := hsep h'.ct h'.sepCt
  have hw : (mem.writes mlen (repr64 e (BitVec.ofNat 64 (C.length - 16)))).Writable (c + d) (C.length - 16) :=
    h'.out.writes
  generalize mem.writes mlen (repr64 e (BitVec.ofNat 64 (C.length - 16))) = mem1 at *
  have hbl : (ctBody C).length = C.length - 16 := by simp [ctBody]
  have hcb : mem1.Holds c (ctBody C) := hc.take _
  unfold ascon_aead_decrypt
  simp only
  rw [run_bind_of (run_loadkey h hk h'.keyLen), run_bind_of (run_initaead h hn h'.nonceLen), run_bind_of (run_adata h ha)]
  obtain ⟨B', hF0, hE⟩ := run_decrypt_ahead (s := aeadAd A (aeadInit K N)) h hcb (by rwa [hbl]) h'.ahead
  obtain ⟨C', rfl, hF, hct2⟩ := decAhead_mem h16 h'.ahead hc hF0
  refine ⟨C', hF, ?_⟩
  have htl : (ctTag C').length = 16 := by simp [ctTag, hF.1]; omega
  rw [hbl] at hE
  rw [run_bind_of hE, run_bind_of (run_final h _ K)]
  have hlen := Ref.length_decBody (aeadAd A (aeadInit K N)) (ctBody C')
  have hbl' : (ctBody C').length = C.length - 16 := by simp [ctBody, hF.1]
  have e1 : aeadCandidate K N A (ctBody C') = (decBody (aeadAd A (aeadInit K N)) (ctBody C')).2 := rfl
  have e2 : aeadDecTag K N A (ctBody C') = aeadTag K (decBody (aeadAd A (aeadInit K N)) (ctBody C')).1 := rfl
  rw [e1, e2]
  clear hF hF0 e1 e2
  generalize decBody (aeadAd A (aeadInit K N)) (ctBody C') = r at *
  rw [run_verify h hct2 htl]
  rfl

end Ascon.Gen

namespace Ascon.Avx512

open Ascon.C Ascon.Spec
open Ascon.C.Prog (require ifc loop forUp loadB storeB loadN storeN store64 load64)
open Ascon.Impl (aheadDec_loop aheadDec_body decAhead_of decAhead_mem)

attribute [local irreducible] perm

variable {e : Endian} {y5 y6 y7 : Word}

theorem run_decrypt_ahead {mem : Mem} {s : State} {c d : Nat} {C : List Byte} (hm : mem.Holds c C)
    (hw : mem.Writable (c + d) C.length) (hd : 16 ≤ d) :
    ∃ C', Fed d C (decBody s C').2 C' ∧ run (ascon_decrypt e (emb y5 y6 y7 s) (c + d) c C.length) mem =
      some (emb y5 y6 y7 (decBody s C').1, mem.writes (c + d) (decBody s C').2) :=
  aheadDec_loop (emb y5 y6 y7) (fun s _ => emb y5 y6 y7 s) (cond := fun (_, _, _, clen) => decide (clen ≥ 16)) (step := decStep)
    (fin := fun (s, m, c, clen) => do
      let x ← Gen.decFinal Gen.opt64 e s.s m c clen
      pure { s with s := x })
    (fun _ _ _ _ => rfl) (fun mem s m c n C a b d f => run_decStep mem s m c n C a b d f)
    (fun mem t m c l a b d f => by
      have hf := Gen.run_decFinal (ok e) (t := t) (m := m) a b d f
      rw [encS_id, encS_id] at hf
      simp only [emb]
      rw [run_bind_of hf]
      rfl) mem s c d C hm hw hd

theorem dec_ahead (junk : Z) : DecAheadAt e (crypto_aead_decrypt junk) := by
  intro mem sp mlen nsec c d ad npub k K N A C h'
  unfold crypto_aead_decrypt
  refine decAhead_of ?_
  have h16 := h'.ctMin
  rw [run_ifc, if_neg (by simpa using h16), run_bind_of (Ref.run_store64 h'.outLen)]
  have hsep : ∀ {q : Nat} {bs : List Byte}, mem.Holds q bs → Disjoint mlen 8 q bs.length →
      (mem.writes mlen (repr64 e (BitVec.ofNat 64 (C.length - 16)))).Holds q bs := fun hq hd =>
    hq.writes_disjoint (by rwa [Ref.length_repr64])
  have hk := hsep h'.key (by rw [h'.keyLen]; exact h'.sepKey)
  have hn := hsep h'.nonce (by rw [h'.nonceLen]; exact h'.sepNonce)
  have ha := hsep h'.adata h'.sepAd
  have hc := hsep h'.ct h'.sepCt
  have hw : (mem.writes mlen (repr64 e (BitVec.ofNat 64 (C.length - 16)))).Writable (c + d) (C.length - 16) :=
    h'.out.writes
  generalize mem.writes mlen (repr64 e (BitVec.ofNat 64 (C.length - 16))) = mem1 at *
  have hbl : (ctBody C).length = C.length - 16 := by simp [ctBody]
  have hcb : mem1.Holds c (ctBody C) := hc.take _
  unfold ascon_aead_decrypt
  simp only
  rw [run_bind_of (run_loadkey hk h'.keyLen), run_bind_of (run_initaead hn h'.nonceLen), run_bind_of (run_adata ha)]
  obtain ⟨B', hF0, hE⟩ := run_decrypt_ahead (e := e) (y5 := junk.y5) (y6 := junk.y6) (y7 := junk.y7) (s := aeadAd A (aeadInit K N)) hcb (by rwa [hbl]) h'.ahead
  obtain ⟨C', rfl, hF, hct2⟩ := decAhead_mem h16 h'.ahead hc hF0
  refine ⟨C', hF, ?_⟩
  have htl : (ctTag C').length = 16 := by simp [ctTag, hF.1]; omega
  rw [hbl] at hE
  rw [run_bind_of hE]
  simp only [final_eq]
  have hlen := Ref.length_decBody (aeadAd A (aeadInit K N)) (ctBody C')
  have hbl' : (ctBody C').length = C.length - 16 := by simp [ctBody, hF.1]
  have e1 : aeadCandidate K N A (ctBody C') = (decBody (aeadAd A (aeadInit K N)) (ctBody C')).2 := rfl
  have e2 : aeadDecTag K N A (ctBody C') = aeadTag K (decBody (aeadAd A (aeadInit K N)) (ctBody C')).1 := rfl
  rw [e1, e2]
  clear hF hF0 e1 e2
  generalize decBody (aeadAd A (aeadInit K N)) (ctBody C') = r at *
  have hv := Gen.run_verify (ok e) (s := addKeyLast K (perm 12 (addKeyMid K r.1))) hct2 htl
  rw [encS_id] at hv
  simp only [emb]
  rw [hv]
  rfl

end Ascon.Avx512

namespace Ascon.Opt8

open Ascon.C Ascon.Spec
open Ascon.C.Prog (require ifc loop forUp loadB storeB loadN storeN store64 load64)
open Ascon.Impl (aheadDec_loop aheadDec_body decAhead_of decAhead_mem)

attribute [local irreducible] perm

variable {V : Perms}

theorem run_decrypt_ahead (h : V.Ok) {mem : Mem} {s : State} {c d : Nat} {C : List Byte} (hm : mem.Holds c C)
    (hw : mem.Writable (c + d) C.length) (hd : 16 ≤ d) :
    ∃ C', Fed d C (decBody s C').2 C' ∧ run (ascon_decrypt V .little s (c + d) c C.length) mem =
      some ((decBody s C').1, mem.writes (c + d) (decBody s C').2) :=
  aheadDec_loop id (fun s _ => s) (cond := fun (_, _, _, clen) => decide (clen ≥ 16)) (step := decStep V .little)
    (fin := fun (s, m, c, clen) => decFinal .little s m c clen)
    (fun _ _ _ _ => rfl) (fun mem s m c n C a b d f => run_decStep h mem s m c n C a b d f)
    (fun mem t m c l a b d f => run_decFinal a b d f) mem s c d C hm hw hd

theorem dec_ahead (h : V.Ok) : DecAheadAt .little (crypto_aead_decrypt V) := by
  intro mem sp mlen nsec c d ad npub k K N A C h'
  unfold crypto_aead_decrypt
  refine decAhead_of ?_
  have h16 := h'.ctMin
  rw [run_ifc, if_neg (by simpa using h16), run_bind_of (Ref.run_store64 h'.outLen)]
  have hsep : ∀ {q : Nat} {bs : List Byte}, mem.Holds q bs → Disjoint mlen 8 q bs.length →
      (mem.writes mlen (repr64 .little (BitVec.ofNat 64 (C.length - 16)))).Holds q bs := fun hq hd =>
    hq.writes_disjoint (by rwa [Ref.length_repr64])
  have hk := hsep h'.key (by rw [h'.keyLen]; exact h'.sepKey)
  have hn := hsep h'.nonce (by rw [h'.nonceLen]; exact h'.sepNonce)
  have ha := hsep h'.adata h'.sepAd
  have hc := hsep h'.ct h'.sepCt
  have hw : (mem.writes mlen (repr64 .little (BitVec.ofNat 64 (C.length - 16)))).Writable (c + d) (C.length - 16) :=
    h'.out.writes
  generalize mem.writes mlen (repr64 .little (BitVec.ofNat 64 (C.length - 16))) = mem1 at *
  have hbl : (ctBody C).length = C.length - 16 := by simp [ctBody]
  have hcb : mem1.Holds c (ctBody C) := hc.take _
  unfold ascon_aead_decrypt
  simp only
  obtain ⟨key, k0, k1, hkey⟩ := run_loadkey hk h'.keyLen
  rw [run_bind_of hkey, run_bind_of (run_initaead h k0 k1 hn h'.nonceLen), run_bind_of (run_adata h ha)]
  obtain ⟨B', hF0, hE⟩ := run_decrypt_ahead (s := aeadAd A (aeadInit K N)) h hcb (by rwa [hbl]) h'.ahead
  obtain ⟨C', rfl, hF, hct2⟩ := decAhead_mem h16 h'.ahead hc hF0
  refine ⟨C', hF, ?_⟩
  have htl : (ctTag C').length = 16 := by simp [ctTag, hF.1]; omega
  rw [hbl] at hE
  rw [run_bind_of hE, run_bind_of (run_final h _ key K k0 k1)]
  have hlen := Ref.length_decBody (aeadAd A (aeadInit K N)) (ctBody C')
  have hbl' : (ctBody C').length = C.length - 16 := by simp [ctBody, hF.1]
  have e1 : aeadCandidate K N A (ctBody C') = (decBody (aeadAd A (aeadInit K N)) (ctBody C')).2 := rfl
  have e2 : aeadDecTag K N A (ctBody C') = aeadTag K (decBody (aeadAd A (aeadInit K N)) (ctBody C')).1 := rfl
  rw [e1, e2]
  clear hF hF0 e1 e2
  generalize decBody (aeadAd A (aeadInit K N)) (ctBody C') = r at *
  rw [run_verify hct2 htl]
  rfl

theorem low_dec_ahead (h : V.Ok) (cfg : Cfg) (hcfg : cfg.hasAead = true) : DecAheadAt .little (low_crypto_aead_decrypt V cfg) := by
  intro mem sp mlen nsec c d ad npub k K N A C h'
  unfold low_crypto_aead_decrypt
  refine decAhead_of ?_
  have h16 := h'.ctMin
  rw [run_ifc, if_neg (by simpa using h16), run_bind_of (Ref.run_store64 h'.outLen)]
  have hsep : ∀ {q : Nat} {bs : List Byte}, mem.Holds q bs → Disjoint mlen 8 q bs.length →
      (mem.writes mlen (repr64 .little (BitVec.ofNat 64 (C.length - 16)))).Holds q bs := fun hq hd =>
    hq.writes_disjoint (by rwa [Ref.length_repr64])
  have hk := hsep h'.key (by rw [h'.keyLen]; exact h'.sepKey)
  have hn := hsep h'.nonce (by rw [h'.nonceLen]; exact h'.sepNonce)
  have ha := hsep h'.adata h'.sepAd
  have hc := hsep h'.ct h'.sepCt
  have hw : (mem.writes mlen (repr64 .little (BitVec.ofNat 64 (C.length - 16)))).Writable (c + d) (C.length - 16) :=
    h'.out.writes
  generalize mem.writes mlen (repr64 .little (BitVec.ofNat 64 (C.length - 16))) = mem1 at *
  have hbl : (ctBody C).length = C.length - 16 := by simp [ctBody]
  have hcb : mem1.Holds c (ctBody C) := hc.take _
  unfold low_ascon_aead_decrypt
  simp only
  obtain ⟨key, k0, k1, hkey⟩ := run_loadkey hk h'.keyLen
  rw [run_bind_of hkey, run_bind_of (run_initaead h k0 k1 hn h'.nonceLen), run_bind_of (run_lowAdata h cfg hcfg ha)]
  obtain ⟨B', hF0, hE⟩ := run_decrypt_ahead (s := aeadAd A (aeadInit K N)) h hcb (by rwa [hbl]) h'.ahead
  rw [← run_update_dec V cfg hcfg] at hE
  obtain ⟨C', rfl, hF, hct2⟩ := decAhead_mem h16 h'.ahead hc hF0
  refine ⟨C', hF, ?_⟩
  have htl : (ctTag C').length = 16 := by simp [ctTag, hF.1]; omega
  rw [hbl] at hE
  rw [run_bind_of hE, run_bind_of (run_final h _ key K k0 k1)]
  have hlen := Ref.length_decBody (aeadAd A (aeadInit K N)) (ctBody C')
  have hbl' : (ctBody C').length = C.length - 16 := by simp [ctBody, hF.1]
  have e1 : aeadCandidate K N A (ctBody C') = (decBody (aeadAd A (aeadInit K N)) (ctBody C')).2 := rfl
  have e2 : aeadDecTag K N A (ctBody C') = aeadTag K (decBody (aeadAd A (aeadInit K N)) (ctBody C')).1 := rfl
  rw [e1, e2]
  clear hF hF0 e1 e2
  generalize decBody (aeadAd A (aeadInit K N)) (ctBody C') = r at *
  rw [run_verify hct2 htl]
  rfl

end Ascon.Opt8

namespace Ascon.Low

open Ascon.Gen
open Ascon.Ref (getX xorX verifyTag run_getX run_xorX)
open Ascon.C Ascon.Spec
open Ascon.C.Prog (require ifc loop forUp loadB storeB loadN storeN store64 load64)
open Ascon.Impl (aheadDec_loop aheadDec_body decAhead_of decAhead_mem)

attribute [local irreducible] perm

variable {B : Backend} {e : Endian} {enc : Word → Word}

theorem run_update_decrypt_ahead (h : B.Ok e enc) (comb : Bool) {mem : Mem} (s : State) {c d : Nat} {C : List Byte}
    (hm : mem.Holds c C) (hw : mem.Writable (c + d) C.length) (hd : 16 ≤ d) :
    ∃ C', Fed d C (decBody s C').2 C' ∧ run (ascon_update B e comb (encS enc s) (c + d) c C.length ASCON_DECRYPT) mem =
      some (encS enc (decBody s C').1, mem.writes (c + d) (decBody s C').2) := by
  unfold ascon_update
  rw [run_bind_of (run_nrRate_aead comb ASCON_DECRYPT rfl mem)]
  simp only
  refine aheadDec_body (fun (x : Nat × Word) s m c n => loop x.1 (fun (_, _, _, _, _, len) => decide (len ≥ 8))
    (updStep B e comb ASCON_DECRYPT 8 16) (encS enc s, 0, x.2, m, c, n) >>= updFinal B e comb ASCON_DECRYPT) (fun x n => n < x.1)
    (fun s _ => encS enc s) ?_ ?_ (C.length + 1, 0) mem s c d C (Nat.lt_succ_self _) hm hw hd
  · rintro ⟨f, tmp⟩ mem s m c C hf hc h16 hw hcm
    simp only at hf
    obtain ⟨f, rfl⟩ : ∃ g, f = g + 2 := ⟨f - 2, by omega⟩
    refine ⟨(f, enc (le64 ((C.drop 8).take 8))), by simp only; omega, ?_⟩
    simp only
    have hd : (mem.writes m (bytes64 (wordAt s 0 ^^^ le64 (C.take 8)))).Holds (c + 8) ((C.take 16).drop 8) := by
      apply ((hc.take 16).drop 8 (by simp; omega)).writes_disjoint
      unfold Disjoint; simp only [length_bytes64, List.length_drop, List.length_take]; omega
    have e8 : ((C.take 16).drop 8).take 8 = (C.drop 8).take 8 := by
      rw [List.drop_take, List.take_take]; rfl
    rw [run_bind, run_loop_step (by simp; omega)
      (run_decStep h comb s 0 tmp m c _ C (by omega) hc (by omega) (hw.mono (by omega) (by omega)))]
    simp only [Nat.zero_ne_one, ↓reduceIte]
    rw [run_loop_step (by simp; omega) (run_decStep h comb _ 1 _ _ _ _ ((C.take 16).drop 8) (by omega) hd
      (by simp; omega) (hw.writes.mono (by omega) (by omega))), ← run_bind]
    simp only [↓reduceIte]
    rw [e8]
    have hmem : ((mem.writes m (bytes64 (wordAt s 0 ^^^ le64 (C.take 8)))).writes (m + 8)
        (bytes64 (wordAt (setAt s 0 (le64 (C.take 8))) 1 ^^^ le64 ((C.drop 8).take 8)))) =
        mem.writes m (xorBytes (rate 16 s) (C.take 16)) := by
      rw [xorBytes_rate16 s C h16, writes_append, length_bytes64]; rfl
    rw [hmem]
    rw [xorIn_dec16 s C h16]
    simp only [Nat.sub_sub, Nat.add_assoc]
  · rintro ⟨f, tmp⟩ mem s m c C hf hc h16 hw hcm
    simp only at hf ⊢
    have hd : 8 ≤ C.length →
        (mem.writes m (bytes64 (wordAt s 0 ^^^ le64 (C.take 8)))).Holds (c + 8) (C.drop 8) := by
      intro h8
      apply (hc.drop 8 (by omega)).writes_disjoint
      unfold Disjoint; simp only [length_bytes64, List.length_drop]; omega
    rw [decBody_of_lt s C (by omega)]
    simp only
    have hpl : (xorBytes (rate C.length s) C).length = C.length := by
      rw [length_xorBytes, length_rate _ _ (by omega)]; omega
    rw [xorIn_pad16 s _ (by omega), hpl]
    split
    · obtain ⟨f, rfl⟩ : ∃ g, f = g + 1 := ⟨f - 1, by omega⟩
      rw [run_bind, run_loop_done (by simp; omega)]
      simp only [Option.bind_some]
      rw [run_decFinal h comb s 0 tmp m c C (by omega) hc (by omega) hw, rate_le8 _ _ (by omega)]
      rfl
    · obtain ⟨f, rfl⟩ : ∃ g, f = g + 2 := ⟨f - 2, by omega⟩
      rw [run_bind, run_loop_step (by simp; omega)
        (run_decStep h comb s 0 tmp m c _ C (by omega) hc (by omega) (hw.mono (by omega) (by omega))),
        run_loop_done (by simp; omega)]
      simp only [Nat.zero_ne_one, ↓reduceIte, Option.bind_some]
      have hx : xorBytes (rate C.length s) C = bytes64 (s.x0 ^^^ le64 (C.take 8)) ++
          xorBytes ((bytes64 s.x1).take (C.length - 8)) (C.drop 8) := by
        rw [rate_le16 _ _ (by omega) (by omega), bytes64_xor, bytes64_le64 _ (by simp; omega)]
        conv => lhs; rw [← List.take_append_drop 8 C]
        simp only [xorBytes]
        rw [List.zipWith_append (by simp [length_bytes64]; omega), List.take_append_drop 8 C]
      rw [← List.length_drop, run_decFinal h comb _ 1 _ _ _ _ (by omega) (hd (by omega)) (by simp; omega)
        (hw.writes.mono (by omega) (by simp; omega)), hx, take8_bytes64_append, drop8_bytes64_append,
        le64_bytes64, writes_append, length_bytes64]
      simp only [xorAt, setAt, wordAt, List.length_drop, ← BitVec.xor_assoc, BitVec.xor_self, BitVec.zero_xor]

theorem dec_ahead (h : B.Ok e enc) (comb : Bool) : DecAheadAt e (crypto_aead_decrypt B comb) := by
  intro mem sp mlen nsec c d ad npub k K N A C h'
  unfold crypto_aead_decrypt
  refine decAhead_of ?_
  have h16 := h'.ctMin
  rw [run_ifc, if_neg (by simpa using h16), run_bind_of (Ref.run_store64 h'.outLen)]
  have hsep : ∀ {q : Nat} {bs : List Byte}, mem.Holds q bs → Disjoint mlen 8 q bs.length →
      (mem.writes mlen (repr64 e (BitVec.ofNat 64 (C.length - 16)))).Holds q bs := fun hq hd =>
    hq.writes_disjoint (by rwa [Ref.length_repr64])
  have hk := hsep h'.key (by rw [h'.keyLen]; exact h'.sepKey)
  have hn := hsep h'.nonce (by rw [h'.nonceLen]; exact h'.sepNonce)
  have ha := hsep h'.adata h'.sepAd
  have hc := hsep h'.ct h'.sepCt
  have hw : (mem.writes mlen (repr64 e (BitVec.ofNat 64 (C.length - 16)))).Writable (c + d) (C.length - 16) :=
    h'.out.writes
  have hst : (mem.writes mlen (repr64 e (BitVec.ofNat 64 (C.length - 16)))).Free sp 16 :=
    Ref.Mem.Free.writes' (Ref.Mem.Free.mono' h'.stack (by omega)) (by
      rw [Ref.length_repr64]
      exact (Ref.Mem.Free.mono' h'.stack (by omega : 16 ≤ 64)).disjoint_writable h'.outLen)
  generalize mem.writes mlen (repr64 e (BitVec.ofNat 64 (C.length - 16))) = mem1 at *
  have hbl : (ctBody C).length = C.length - 16 := by simp [ctBody]
  have hcb : mem1.Holds c (ctBody C) := hc.take _
  unfold ascon_aead
  simp only
  rw [run_bind_of (run_loadkey h hk h'.keyLen), run_bind_of (run_initaead h hn h'.nonceLen),
    run_bind_of (run_adPart h comb ha)]
  rw [encS_dsep h]
  obtain ⟨B', hF0, hE⟩ := run_update_decrypt_ahead h comb (aeadAd A (aeadInit K N)) hcb (by rwa [hbl]) h'.ahead
  obtain ⟨C', rfl, hF, hct2⟩ := decAhead_mem h16 h'.ahead hc hF0
  refine ⟨C', hF, ?_⟩
  have htl : (ctTag C').length = 16 := by simp [ctTag, hF.1]; omega
  rw [hbl] at hE
  rw [run_bind_of hE, run_bind_of (run_final h _ K)]
  have hlen := Ref.length_decBody (aeadAd A (aeadInit K N)) (ctBody C')
  have hbl' : (ctBody C').length = C.length - 16 := by simp [ctBody, hF.1]
  have e1 : aeadCandidate K N A (ctBody C') = (decBody (aeadAd A (aeadInit K N)) (ctBody C')).2 := rfl
  have e2 : aeadDecTag K N A (ctBody C') = aeadTag K (decBody (aeadAd A (aeadInit K N)) (ctBody C')).1 := rfl
  rw [e1, e2]
  clear hF hF0 e1 e2
  generalize decBody (aeadAd A (aeadInit K N)) (ctBody C') = r at *
  have e3 : aeadTag K r.1 = bytes64 (addKeyLast K (perm 12 (addKeyMid K r.1))).x3 ++
      bytes64 (addKeyLast K (perm 12 (addKeyMid K r.1))).x4 := rfl
  have htag : (aeadTag K r.1).length = 16 := Ref.length_aeadTag _ _
  generalize aeadTag K r.1 = T at *
  generalize addKeyLast K (perm 12 (addKeyMid K r.1)) = t at *
  have hst2 : (mem1.writes (c + d) r.2).Free sp 16 :=
    Ref.Mem.Free.writes' hst (by rw [hlen, hbl']; exact hst.disjoint_writable hw)
  generalize mem1.writes (c + d) r.2 = mem2 at *
  have hwsp := writable_fill_uninit mem2 sp 16
  have hdj := hst2.disjoint_holds hct2
  rw [run_bind_of Ref.run_alloc, run_bind_of (Ref.run_store64 (hwsp.mono (by omega) (by omega))),
    run_bind_of (Ref.run_store64 (hwsp.writes.mono (by omega) (by omega)))]
  have hw3 : ((mem2.fill sp 16 .uninit).writes sp (repr64 e (B.WORDTOU64 e (encS enc t).x3))).writes (sp + 8)
      (repr64 e (B.WORDTOU64 e (encS enc t).x4)) = (mem2.fill sp 16 .uninit).writes sp T := by
    rw [e3, writes_append, length_bytes64]
    simp only [encS, h.store]
  rw [hw3]
  have hct3 : ((mem2.fill sp 16 .uninit).writes sp T).Holds (c + (C.length - 16)) (ctTag C') :=
    (hct2.fill hdj).writes_disjoint (by rw [htag]; exact hdj)
  rw [run_bind_of (by
    rw [run_ifc, if_neg (by decide)]
    exact Ref.run_verifyTag hct3 (holds_writes_self _ _ _) htl htag), run_bind_of Ref.run_free,
    fill_writes_fill hst2 (by omega)]
  rfl

end Ascon.Low

namespace Ascon.Ref

open Ascon.C Ascon.Spec
open Ascon.C.Prog (require ifc loop forUp loadB storeB loadN storeN store64 load64)
open Ascon.Impl (aheadDec_loop aheadDec_body decAhead_of decAhead_mem)

attribute [local irreducible] perm

theorem dec_ahead (e : Endian) : DecAheadAt e crypto_aead_decrypt := by
  intro mem sp mlen nsec c d ad npub k K N A C h'
  unfold crypto_aead_decrypt
  refine decAhead_of ?_
  have h16 := h'.ctMin
  rw [run_ifc, if_neg (by simpa using h16), run_bind_of (Ref.run_store64 h'.outLen)]
  have hsep : ∀ {q : Nat} {bs : List Byte}, mem.Holds q bs → Disjoint mlen 8 q bs.length →
      (mem.writes mlen (repr64 e (BitVec.ofNat 64 (C.length - 16)))).Holds q bs := fun hq hd =>
    hq.writes_disjoint (by rwa [Ref.length_repr64])
  have hk := hsep h'.key (by rw [h'.keyLen]; exact h'.sepKey)
  have hn := hsep h'.nonce (by rw [h'.nonceLen]; exact h'.sepNonce)
  have ha := hsep h'.adata h'.sepAd
  have hc := hsep h'.ct h'.sepCt
  have hw : (mem.writes mlen (repr64 e (BitVec.ofNat 64 (C.length - 16)))).Writable (c + d) (C.length - 16) :=
    h'.out.writes
  have hst : (mem.writes mlen (repr64 e (BitVec.ofNat 64 (C.length - 16)))).Free sp 16 :=
    Ref.Mem.Free.writes' (Ref.Mem.Free.mono' h'.stack (by omega)) (by
      rw [Ref.length_repr64]
      exact (Ref.Mem.Free.mono' h'.stack (by omega : 16 ≤ 64)).disjoint_writable h'.outLen)
  generalize mem.writes mlen (repr64 e (BitVec.ofNat 64 (C.length - 16))) = mem1 at *
  have hbl : (ctBody C).length = C.length - 16 := by simp [ctBody]
  have hcb : mem1.Holds c (ctBody C) := hc.take _
  rw [run_bind_of (run_initAead hk h'.keyLen hn h'.nonceLen)]
  simp only
  rw [run_bind_of (run_absorbAd ha rfl), run_bind_of run_DSEP]
  have hS : ({ (if A = [] then aeadInit K N else absorb 8 (aeadInit K N) (fullBlocks 16 (pad 16 A))) with
      x4 := (if A = [] then aeadInit K N else absorb 8 (aeadInit K N) (fullBlocks 16 (pad 16 A))).x4 ^^^
        0x8000000000000000 } : State) = aeadAd A (aeadInit K N) := rfl
  rw [hS]
  obtain ⟨B', hF0, hE⟩ := aheadDec_loop (fun s => s) (fun s c => (s, c)) (cond := fun (_, _, _, clen) => decide (clen ≥ 16))
    (step := decStep) (fin := fun (s, m, c, clen) => decFinal s m c clen)
    (fun _ _ _ _ => rfl) (fun mem s m c n C a b d _ => run_decStep a b d)
    (fun mem t m c l a b d _ => run_decFinal a b d) mem1 (aeadAd A (aeadInit K N)) c d (ctBody C) hcb (by rwa [hbl]) h'.ahead
  obtain ⟨C', rfl, hF, hct2⟩ := decAhead_mem h16 h'.ahead hc hF0
  refine ⟨C', hF, ?_⟩
  have htl : (ctTag C').length = 16 := by simp [ctTag, hF.1]; omega
  rw [hbl] at hE
  have hE2 : ∀ {α : Type} (k : State × Nat → Prog α), run (decLoop (aeadAd A (aeadInit K N)) (c + d) c (C.length - 16) >>=
      fun x => decFinal x.1 x.2.1 x.2.2.1 x.2.2.2 >>= k) mem1 =
      run (k ((decBody (aeadAd A (aeadInit K N)) (ctBody C')).1, c + (C.length - 16)))
        (mem1.writes (c + d) (decBody (aeadAd A (aeadInit K N)) (ctBody C')).2) := by
    intro α k
    unfold decLoop
    rw [run_bind] at hE ⊢
    generalize run (loop _ _ _ _) mem1 = o at *
    cases o with
    | none => cases hE
    | some o =>
      simp only [Option.bind_some] at hE ⊢
      rw [run_bind_of hE]
  refine (hE2 _).trans ?_
  simp only
  have htag : (aeadDecTag K N A (ctBody C')).length = 16 := length_aeadTag _ _
  have hbl' : (ctBody C').length = C.length - 16 := by simp [ctBody, hF.1]
  have hcand : (aeadCandidate K N A (ctBody C')).length = C.length - 16 := (length_decBody _ _).trans hbl'
  have e1 : (decBody (aeadAd A (aeadInit K N)) (ctBody C')).2 = aeadCandidate K N A (ctBody C') := rfl
  have hft := finalize_tag K (decBody (aeadAd A (aeadInit K N)) (ctBody C')).1
  have e2 : aeadTag K (decBody (aeadAd A (aeadInit K N)) (ctBody C')).1 = aeadDecTag K N A (ctBody C') := rfl
  rw [e1] at hct2 ⊢
  rw [e2] at hft
  have hst2 : (mem1.writes (c + d) (aeadCandidate K N A (ctBody C'))).Free sp 16 :=
    Mem.Free.writes' hst (by rw [hcand]; exact hst.disjoint_writable hw)
  generalize mem1.writes (c + d) (aeadCandidate K N A (ctBody C')) = mem2 at *
  simp only at hft
  generalize finalize (le64 (K.take 8)) (le64 (K.drop 8)) (decBody (aeadAd A (aeadInit K N)) (ctBody C')).1 = f at *
  have hwsp := writable_fill_uninit mem2 sp 16
  rw [run_bind_of run_alloc, run_bind_of (run_STOREBYTES8 (hwsp.mono (by omega) (by omega))),
    run_bind_of (run_STOREBYTES8 (hwsp.writes.mono (by omega) (by omega)))]
  have hw2 : ((mem2.fill sp 16 .uninit).writes sp (bytes64 f.x3)).writes (sp + 8) (bytes64 f.x4) =
      (mem2.fill sp 16 .uninit).writes sp (aeadDecTag K N A (ctBody C')) := by
    rw [← hft, writes_append, length_bytes64]
  rw [hw2]
  have hdj := hst2.disjoint_holds hct2
  have hct3 : ((mem2.fill sp 16 .uninit).writes sp (aeadDecTag K N A (ctBody C'))).Holds (c + (C.length - 16)) (ctTag C') :=
    (hct2.fill hdj).writes_disjoint (by rw [htag]; exact hdj)
  rw [run_bind_of (run_verifyTag hct3 (holds_writes_self _ _ _) htl htag), run_bind_of run_free,
    fill_writes_fill hst2 (by omega)]
  rfl

end Ascon.Ref

namespace Ascon.Impl

open Ascon.C Ascon.Spec

theorem Aead.decrypt_ahead (i : Aead) (e : Endian) (h : i.runsOn e) : DecAheadAt e i.decrypt := by
  unfold Aead.runsOn at h
  unfold Aead.decrypt
  cases hc : i.code <;> rw [hc] at h <;> simp only [AeadCode.runsOn] at h
  case ref => exact Ref.dec_ahead e
  case gen c => exact Gen.dec_ahead (c.ok e h)
  case low c comb => exact Low.dec_ahead (c.ok e h) comb
  case byte b => subst h; exact Opt8.dec_ahead b.ok
  case byteLow b comb => subst h; exact Opt8.low_dec_ahead b.ok _ (aeadCfg comb)
  case avx junk => subst h; exact Avx512.dec_ahead junk

end Ascon.Impl
