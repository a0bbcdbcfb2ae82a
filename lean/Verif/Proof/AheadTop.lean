import Verif.Proof.Ahead
/-!
# Encryption into a buffer that starts ahead of the message: all implementations

The same as the proofs of `EncCorrectAt`, with what is encrypted taken from `ahead_loop`.
-/

namespace Ascon.Gen

open Ascon.C Ascon.Spec
open Ascon.C.Prog (require ifc loop forUp loadB storeB loadN storeN store64 load64)
open Ascon.Impl (ahead_loop ahead_body encAhead_of)

attribute [local irreducible] perm

variable {B : Backend} {e : Endian} {enc : Word → Word}

theorem run_encrypt_ahead (h : B.Ok e enc) {mem : Mem} {s : State} {m d : Nat} {P : List Byte} (hm : mem.Holds m P)
    (hw : mem.Writable (m + d) P.length) (hd : 16 ≤ d) :
    ∃ P', Fed d P (encBody s P').2 P' ∧ run (ascon_encrypt B e (encS enc s) (m + d) m P.length) mem =
      some (encS enc (encBody s P').1, mem.writes (m + d) (encBody s P').2) :=
  ahead_loop (encS enc) (fun s _ => encS enc s) (cond := fun (_, _, _, mlen) => decide (mlen ≥ 16)) (step := encStep B e)
    (fin := fun (s, c, m, mlen) => encFinal B e s c m mlen)
    (fun _ _ _ _ => rfl) (fun mem s c m n P a b d f => run_encStep h mem s c m n P a b d f)
    (fun mem t c m l a b d f => run_encFinal h a b d f) mem s m d P hm hw hd

theorem enc_ahead (h : B.Ok e enc) : EncAheadAt e (crypto_aead_encrypt B) := by
  intro mem sp clen m d ad nsec npub k K N A P h'
  refine encAhead_of h'.ahead ?_
  unfold crypto_aead_encrypt
  rw [run_bind_of (Ref.run_store64 h'.outLen)]
  have hsep : ∀ {q : Nat} {bs : List Byte}, mem.Holds q bs → Disjoint clen 8 q bs.length →
      (mem.writes clen (repr64 e (BitVec.ofNat 64 (P.length + 16)))).Holds q bs := fun hq hd =>
    hq.writes_disjoint (by rwa [Ref.length_repr64])
  have hk := hsep h'.key (by rw [h'.keyLen]; exact h'.sepKey)
  have hn := hsep h'.nonce (by rw [h'.nonceLen]; exact h'.sepNonce)
  have ha := hsep h'.adata h'.sepAd
  have hm := hsep h'.msg h'.sepMsg
  have hw : (mem.writes clen (repr64 e (BitVec.ofNat 64 (P.length + 16)))).Writable (m + d) (P.length + 16) :=
    h'.out.writes
  generalize mem.writes clen (repr64 e (BitVec.ofNat 64 (P.length + 16))) = mem1 at *
  unfold ascon_aead_encrypt ascon_gettag
  simp only
  rw [run_bind_of (run_loadkey h hk h'.keyLen), run_bind_of (run_initaead h hn h'.nonceLen),
    run_bind_of (run_adata h ha)]
  obtain ⟨P', hF, hE⟩ := run_encrypt_ahead (s := aeadAd A (aeadInit K N)) h hm (hw.mono (by omega) (by omega)) h'.ahead
  have hPl := hF.1
  refine ⟨P', hF, ?_⟩
  clear hF hm hsep
  rw [← hPl] at hw hE ⊢
  rw [run_bind_of hE, run_bind_of (run_final h _ K)]
  have hlen := Ref.length_encBody (aeadAd A (aeadInit K N)) P'
  have e1 : aeadEncrypt K N A P' = (encBody (aeadAd A (aeadInit K N)) P').2 ++
      aeadTag K (encBody (aeadAd A (aeadInit K N)) P').1 := rfl
  rw [e1]
  generalize encBody (aeadAd A (aeadInit K N)) P' = r at *
  have e2 : aeadTag K r.1 = bytes64 (addKeyLast K (perm 12 (addKeyMid K r.1))).x3 ++
      bytes64 (addKeyLast K (perm 12 (addKeyMid K r.1))).x4 := rfl
  rw [e2]
  generalize addKeyLast K (perm 12 (addKeyMid K r.1)) = t
  have hs3 : ∀ mem : Mem, mem.Writable (m + d + P'.length) 8 →
      run (STOREBYTES B e (m + d + P'.length) (encS enc t).x3 8) mem = some ((), mem.writes (m + d + P'.length) (bytes64 t.x3)) :=
    fun mem hw => run_STORE h hw
  have hs4 : ∀ mem : Mem, mem.Writable (m + d + P'.length + 8) 8 →
      run (STOREBYTES B e (m + d + P'.length + 8) (encS enc t).x4 8) mem =
        some ((), mem.writes (m + d + P'.length + 8) (bytes64 t.x4)) := fun mem hw => run_STORE h hw
  rw [run_bind_of (by
    rw [run_bind_of (hs3 _ (hw.writes.mono (by omega) (by omega))),
      hs4 _ (hw.writes.writes.mono (by omega) (by omega))])]
  rw [writes_append, writes_append, hlen, length_bytes64]
  rfl

end Ascon.Gen

namespace Ascon.Avx512

open Ascon.C Ascon.Spec
open Ascon.C.Prog (require ifc loop forUp loadB storeB loadN storeN store64 load64)
open Ascon.Impl (ahead_loop ahead_body encAhead_of)

attribute [local irreducible] perm

variable {e : Endian} {y5 y6 y7 : Word}

theorem run_encrypt_ahead {mem : Mem} {s : State} {m d : Nat} {P : List Byte} (hm : mem.Holds m P)
    (hw : mem.Writable (m + d) P.length) (hd : 16 ≤ d) :
    ∃ P', Fed d P (encBody s P').2 P' ∧ run (ascon_encrypt e (emb y5 y6 y7 s) (m + d) m P.length) mem =
      some (emb y5 y6 y7 (encBody s P').1, mem.writes (m + d) (encBody s P').2) :=
  ahead_loop (emb y5 y6 y7) (fun s _ => emb y5 y6 y7 s) (cond := fun (_, _, _, mlen) => decide (mlen ≥ 16)) (step := encStep)
    (fin := fun (s, c, m, mlen) => do
      let x ← Gen.encFinal Gen.opt64 e s.s c m mlen
      pure { s with s := x })
    (fun _ _ _ _ => rfl) (fun mem s c m n P a b d f => run_encStep mem s c m n P a b d f)
    (fun mem t c m l a b d f => by
      have hf := Gen.run_encFinal (ok e) (t := t) (c := c) a b d f
      rw [encS_id, encS_id] at hf
      simp only [emb]
      rw [run_bind_of hf]
      rfl) mem s m d P hm hw hd

theorem enc_ahead (junk : Z) : EncAheadAt e (crypto_aead_encrypt junk) := by
  intro mem sp clen m d ad nsec npub k K N A P h'
  refine encAhead_of h'.ahead ?_
  unfold crypto_aead_encrypt
  rw [run_bind_of (Ref.run_store64 h'.outLen)]
  have hsep : ∀ {q : Nat} {bs : List Byte}, mem.Holds q bs → Disjoint clen 8 q bs.length →
      (mem.writes clen (repr64 e (BitVec.ofNat 64 (P.length + 16)))).Holds q bs := fun hq hd =>
    hq.writes_disjoint (by rwa [Ref.length_repr64])
  have hk := hsep h'.key (by rw [h'.keyLen]; exact h'.sepKey)
  have hn := hsep h'.nonce (by rw [h'.nonceLen]; exact h'.sepNonce)
  have ha := hsep h'.adata h'.sepAd
  have hm := hsep h'.msg h'.sepMsg
  have hw : (mem.writes clen (repr64 e (BitVec.ofNat 64 (P.length + 16)))).Writable (m + d) (P.length + 16) :=
    h'.out.writes
  generalize mem.writes clen (repr64 e (BitVec.ofNat 64 (P.length + 16))) = mem1 at *
  unfold ascon_aead_encrypt Gen.ascon_gettag
  simp only
  rw [run_bind_of (run_loadkey hk h'.keyLen), run_bind_of (run_initaead hn h'.nonceLen), run_bind_of (run_adata ha)]
  obtain ⟨P', hF, hE⟩ := run_encrypt_ahead (e := e) (y5 := junk.y5) (y6 := junk.y6) (y7 := junk.y7)
    (s := aeadAd A (aeadInit K N)) hm (hw.mono (by omega) (by omega)) h'.ahead
  have hPl := hF.1
  refine ⟨P', hF, ?_⟩
  clear hF hm hsep
  rw [← hPl] at hw hE ⊢
  rw [run_bind_of hE]
  simp only [final_eq]
  have hlen := Ref.length_encBody (aeadAd A (aeadInit K N)) P'
  have e1 : aeadEncrypt K N A P' = (encBody (aeadAd A (aeadInit K N)) P').2 ++
      aeadTag K (encBody (aeadAd A (aeadInit K N)) P').1 := rfl
  rw [e1]
  generalize encBody (aeadAd A (aeadInit K N)) P' = r at *
  have e2 : aeadTag K r.1 = bytes64 (addKeyLast K (perm 12 (addKeyMid K r.1))).x3 ++
      bytes64 (addKeyLast K (perm 12 (addKeyMid K r.1))).x4 := rfl
  rw [e2]
  generalize addKeyLast K (perm 12 (addKeyMid K r.1)) = t
  simp only [emb]
  have hs3 : ∀ mem : Mem, mem.Writable (m + d + P'.length) 8 →
      run (Gen.STOREBYTES Gen.opt64 e (m + d + P'.length) t.x3 8) mem = some ((), mem.writes (m + d + P'.length) (bytes64 t.x3)) :=
    fun mem hw => Gen.run_STORE (ok e) hw
  have hs4 : ∀ mem : Mem, mem.Writable (m + d + P'.length + 8) 8 →
      run (Gen.STOREBYTES Gen.opt64 e (m + d + P'.length + 8) t.x4 8) mem =
        some ((), mem.writes (m + d + P'.length + 8) (bytes64 t.x4)) := fun mem hw => Gen.run_STORE (ok e) hw
  rw [run_bind_of (by
    rw [run_bind_of (hs3 _ (hw.writes.mono (by omega) (by omega))),
      hs4 _ (hw.writes.writes.mono (by omega) (by omega))])]
  rw [writes_append, writes_append, hlen, length_bytes64]
  rfl

end Ascon.Avx512

namespace Ascon.Opt8

open Ascon.C Ascon.Spec
open Ascon.C.Prog (require ifc loop forUp loadB storeB loadN storeN store64 load64)
open Ascon.Impl (ahead_loop ahead_body encAhead_of)

attribute [local irreducible] perm

variable {V : Perms}

theorem run_encrypt_ahead (h : V.Ok) {mem : Mem} {s : State} {m d : Nat} {P : List Byte} (hm : mem.Holds m P)
    (hw : mem.Writable (m + d) P.length) (hd : 16 ≤ d) :
    ∃ P', Fed d P (encBody s P').2 P' ∧ run (ascon_encrypt V .little s (m + d) m P.length) mem =
      some ((encBody s P').1, mem.writes (m + d) (encBody s P').2) :=
  ahead_loop id (fun s _ => s) (cond := fun (_, _, _, mlen) => decide (mlen ≥ 16)) (step := encStep V .little)
    (fin := fun (s, c, m, mlen) => encFinal .little s c m mlen)
    (fun _ _ _ _ => rfl) (fun mem s c m n P a b d f => run_encStep h mem s c m n P a b d f)
    (fun mem t c m l a b d f => run_encFinal a b d f) mem s m d P hm hw hd

theorem enc_ahead (h : V.Ok) : EncAheadAt .little (crypto_aead_encrypt V) := by
  intro mem sp clen m d ad nsec npub k K N A P h'
  refine encAhead_of h'.ahead ?_
  unfold crypto_aead_encrypt
  rw [run_bind_of (Ref.run_store64 h'.outLen)]
  have hsep : ∀ {q : Nat} {bs : List Byte}, mem.Holds q bs → Disjoint clen 8 q bs.length →
      (mem.writes clen (repr64 .little (BitVec.ofNat 64 (P.length + 16)))).Holds q bs := fun hq hd =>
    hq.writes_disjoint (by rwa [Ref.length_repr64])
  have hk := hsep h'.key (by rw [h'.keyLen]; exact h'.sepKey)
  have hn := hsep h'.nonce (by rw [h'.nonceLen]; exact h'.sepNonce)
  have ha := hsep h'.adata h'.sepAd
  have hm := hsep h'.msg h'.sepMsg
  have hw : (mem.writes clen (repr64 .little (BitVec.ofNat 64 (P.length + 16)))).Writable (m + d) (P.length + 16) :=
    h'.out.writes
  generalize mem.writes clen (repr64 .little (BitVec.ofNat 64 (P.length + 16))) = mem1 at *
  unfold ascon_aead_encrypt
  simp only
  obtain ⟨key, k0, k1, hkey⟩ := run_loadkey hk h'.keyLen
  rw [run_bind_of hkey, run_bind_of (run_initaead h k0 k1 hn h'.nonceLen), run_bind_of (run_adata h ha)]
  obtain ⟨P', hF, hE⟩ := run_encrypt_ahead (s := aeadAd A (aeadInit K N)) h hm (hw.mono (by omega) (by omega)) h'.ahead
  have hPl := hF.1
  refine ⟨P', hF, ?_⟩
  clear hF hm hsep
  rw [← hPl] at hw hE ⊢
  rw [run_bind_of hE, run_bind_of (run_final h _ key K k0 k1)]
  have hlen := Ref.length_encBody (aeadAd A (aeadInit K N)) P'
  have e1 : aeadEncrypt K N A P' = (encBody (aeadAd A (aeadInit K N)) P').2 ++
      aeadTag K (encBody (aeadAd A (aeadInit K N)) P').1 := rfl
  rw [e1]
  generalize encBody (aeadAd A (aeadInit K N)) P' = r at *
  have e2 : aeadTag K r.1 = bytes64 (addKeyLast K (perm 12 (addKeyMid K r.1))).x3 ++
      bytes64 (addKeyLast K (perm 12 (addKeyMid K r.1))).x4 := rfl
  rw [e2]
  generalize addKeyLast K (perm 12 (addKeyMid K r.1)) = t
  rw [run_bind_of (run_gettag (hw.writes.mono (by omega) (by omega))), writes_append mem1, hlen]
  rfl

theorem low_enc_ahead (h : V.Ok) (cfg : Cfg) (hc : cfg.hasAead = true) : EncAheadAt .little (low_crypto_aead_encrypt V cfg) := by
  intro mem sp clen m d ad nsec npub k K N A P h'
  refine encAhead_of h'.ahead ?_
  unfold low_crypto_aead_encrypt
  rw [run_bind_of (Ref.run_store64 h'.outLen)]
  have hsep : ∀ {q : Nat} {bs : List Byte}, mem.Holds q bs → Disjoint clen 8 q bs.length →
      (mem.writes clen (repr64 .little (BitVec.ofNat 64 (P.length + 16)))).Holds q bs := fun hq hd =>
    hq.writes_disjoint (by rwa [Ref.length_repr64])
  have hk := hsep h'.key (by rw [h'.keyLen]; exact h'.sepKey)
  have hn := hsep h'.nonce (by rw [h'.nonceLen]; exact h'.sepNonce)
  have ha := hsep h'.adata h'.sepAd
  have hm := hsep h'.msg h'.sepMsg
  have hw : (mem.writes clen (repr64 .little (BitVec.ofNat 64 (P.length + 16)))).Writable (m + d) (P.length + 16) :=
    h'.out.writes
  generalize mem.writes clen (repr64 .little (BitVec.ofNat 64 (P.length + 16))) = mem1 at *
  unfold low_ascon_aead_encrypt
  simp only
  obtain ⟨key, k0, k1, hkey⟩ := run_loadkey hk h'.keyLen
  rw [run_bind_of hkey, run_bind_of (run_initaead h k0 k1 hn h'.nonceLen), run_bind_of (run_lowAdata h cfg hc ha)]
  obtain ⟨P', hF, hE⟩ := run_encrypt_ahead (s := aeadAd A (aeadInit K N)) h hm (hw.mono (by omega) (by omega)) h'.ahead
  rw [← run_update_enc V cfg hc] at hE
  have hPl := hF.1
  refine ⟨P', hF, ?_⟩
  clear hF hm hsep
  rw [← hPl] at hw hE ⊢
  rw [run_bind_of hE, run_bind_of (run_final h _ key K k0 k1)]
  have hlen := Ref.length_encBody (aeadAd A (aeadInit K N)) P'
  have e1 : aeadEncrypt K N A P' = (encBody (aeadAd A (aeadInit K N)) P').2 ++
      aeadTag K (encBody (aeadAd A (aeadInit K N)) P').1 := rfl
  rw [e1]
  generalize encBody (aeadAd A (aeadInit K N)) P' = r at *
  have e2 : aeadTag K r.1 = bytes64 (addKeyLast K (perm 12 (addKeyMid K r.1))).x3 ++
      bytes64 (addKeyLast K (perm 12 (addKeyMid K r.1))).x4 := rfl
  rw [e2]
  generalize addKeyLast K (perm 12 (addKeyMid K r.1)) = t
  rw [run_bind_of (run_gettag (hw.writes.mono (by omega) (by omega))), writes_append mem1, hlen]
  rfl

end Ascon.Opt8

namespace Ascon.Low

open Ascon.Gen
open Ascon.Ref (getX xorX verifyTag run_getX run_xorX)
open Ascon.C Ascon.Spec
open Ascon.C.Prog (require ifc loop forUp loadB storeB loadN storeN store64 load64)
open Ascon.Impl (ahead_loop ahead_body encAhead_of)

attribute [local irreducible] perm

variable {B : Backend} {e : Endian} {enc : Word → Word}

theorem run_update_encrypt_ahead (h : B.Ok e enc) (comb : Bool) {mem : Mem} (s : State) {m d : Nat} {P : List Byte}
    (hm : mem.Holds m P) (hw : mem.Writable (m + d) P.length) (hd : 16 ≤ d) :
    ∃ P', Fed d P (encBody s P').2 P' ∧ run (ascon_update B e comb (encS enc s) (m + d) m P.length ASCON_ENCRYPT) mem =
      some (encS enc (encBody s P').1, mem.writes (m + d) (encBody s P').2) := by
  unfold ascon_update
  rw [run_bind_of (run_nrRate_aead comb ASCON_ENCRYPT rfl mem)]
  simp only
  refine ahead_body (fun (x : Nat × Word) s c m n => loop x.1 (fun (_, _, _, _, _, len) => decide (len ≥ 8))
    (updStep B e comb ASCON_ENCRYPT 8 16) (encS enc s, 0, x.2, c, m, n) >>= updFinal B e comb ASCON_ENCRYPT) (fun x n => n < x.1)
    (fun s _ => encS enc s) ?_ ?_ (P.length + 1, 0) mem s m d P (Nat.lt_succ_self _) hm hw hd
  · rintro ⟨f, tmp⟩ mem s c m P hf hm h16 hw hcm
    simp only at hf
    obtain ⟨f, rfl⟩ : ∃ g, f = g + 2 := ⟨f - 2, by omega⟩
    refine ⟨(f, enc (le64 ((P.drop 8).take 8))), by simp only; omega, ?_⟩
    simp only
    have hd : (mem.writes c (bytes64 (wordAt (xorAt s 0 (le64 (P.take 8))) 0))).Holds (m + 8) ((P.take 16).drop 8) := by
      apply ((hm.take 16).drop 8 (by simp; omega)).writes_disjoint
      unfold Disjoint; simp only [length_bytes64, List.length_drop, List.length_take]; omega
    rw [run_bind, run_loop_step (by simp; omega)
      (run_encStep h comb s 0 tmp c m _ P (by omega) hm (by omega) (hw.mono (by omega) (by omega)))]
    simp only [Nat.zero_ne_one, ↓reduceIte]
    rw [run_loop_step (by simp; omega) (run_encStep h comb _ 1 _ _ _ _ ((P.take 16).drop 8) (by omega) hd (by simp; omega)
      (hw.writes.mono (by omega) (by omega))), ← run_bind]
    simp only [↓reduceIte]
    have e8 : ((P.take 16).drop 8).take 8 = (P.drop 8).take 8 := by
      rw [List.drop_take, List.take_take]; rfl
    rw [e8]
    have hw16 : bytes64 (wordAt (xorAt s 0 (le64 (P.take 8))) 0) ++
        bytes64 (wordAt (xorAt (xorAt s 0 (le64 (P.take 8))) 1 (le64 ((P.drop 8).take 8))) 1) =
        rate 16 (xorIn s (P.take 16)) := by
      rw [xorIn_take16 s P h16, rate_16]; rfl
    have hmem : ((mem.writes c (bytes64 (wordAt (xorAt s 0 (le64 (P.take 8))) 0))).writes (c + 8)
        (bytes64 (wordAt (xorAt (xorAt s 0 (le64 (P.take 8))) 1 (le64 ((P.drop 8).take 8))) 1))) =
        mem.writes c (rate 16 (xorIn s (P.take 16))) := by
      rw [← hw16, writes_append, length_bytes64]
    rw [hmem, xorIn_take16 s P h16]
    simp only [Nat.sub_sub, Nat.add_assoc]
  · rintro ⟨f, tmp⟩ mem s c m P hf hm h16 hw hcm
    simp only at hf ⊢
    rw [encBody_of_lt s P (by omega)]
    simp only
    rw [xorIn_pad16 s P (by omega)]
    split
    · obtain ⟨f, rfl⟩ : ∃ g, f = g + 1 := ⟨f - 1, by omega⟩
      rw [run_bind, run_loop_done (by simp; omega)]
      simp only [Option.bind_some]
      rw [run_encFinal h comb s 0 tmp c m P (by omega) hm (by omega) hw, rate_le8 _ _ (by omega)]
      simp only [xorAt]
      rw [← BitVec.xor_assoc, take_bytes64_xor_pad _ _ (by omega)]
      rfl
    · obtain ⟨f, rfl⟩ : ∃ g, f = g + 2 := ⟨f - 2, by omega⟩
      have hd : (mem.writes c (bytes64 (wordAt (xorAt s 0 (le64 (P.take 8))) 0))).Holds (m + 8) (P.drop 8) := by
        apply (hm.drop 8 (by omega)).writes_disjoint
        unfold Disjoint; simp only [length_bytes64, List.length_drop]; omega
      rw [run_bind, run_loop_step (by simp; omega)
        (run_encStep h comb s 0 tmp c m _ P (by omega) hm (by omega) (hw.mono (by omega) (by omega))),
        run_loop_done (by simp; omega)]
      simp only [Nat.zero_ne_one, ↓reduceIte, Option.bind_some]
      rw [← List.length_drop, run_encFinal h comb _ 1 _ _ _ _ (by omega) hd (by simp; omega)
        (hw.writes.mono (by omega) (by simp; omega)), rate_le16 _ _ (by omega) (by omega), writes_append,
        length_bytes64]
      simp only [xorAt, wordAt, List.length_drop]
      rw [← BitVec.xor_assoc s.x1, take_bytes64_xor_pad _ _ (by omega)]

theorem enc_ahead (h : B.Ok e enc) (comb : Bool) : EncAheadAt e (crypto_aead_encrypt B comb) := by
  intro mem sp clen m d ad nsec npub k K N A P h'
  refine encAhead_of h'.ahead ?_
  unfold crypto_aead_encrypt
  rw [run_bind_of (Ref.run_store64 h'.outLen)]
  have hsep : ∀ {q : Nat} {bs : List Byte}, mem.Holds q bs → Disjoint clen 8 q bs.length →
      (mem.writes clen (repr64 e (BitVec.ofNat 64 (P.length + 16)))).Holds q bs := fun hq hd =>
    hq.writes_disjoint (by rwa [Ref.length_repr64])
  have hk := hsep h'.key (by rw [h'.keyLen]; exact h'.sepKey)
  have hn := hsep h'.nonce (by rw [h'.nonceLen]; exact h'.sepNonce)
  have ha := hsep h'.adata h'.sepAd
  have hm := hsep h'.msg h'.sepMsg
  have hw : (mem.writes clen (repr64 e (BitVec.ofNat 64 (P.length + 16)))).Writable (m + d) (P.length + 16) :=
    h'.out.writes
  have hst : (mem.writes clen (repr64 e (BitVec.ofNat 64 (P.length + 16)))).Free sp 16 :=
    Ref.Mem.Free.writes' (Ref.Mem.Free.mono' h'.stack (by omega)) (by
      rw [Ref.length_repr64]
      exact (Ref.Mem.Free.mono' h'.stack (by omega : 16 ≤ 64)).disjoint_writable h'.outLen)
  generalize mem.writes clen (repr64 e (BitVec.ofNat 64 (P.length + 16))) = mem1 at *
  unfold ascon_aead
  rw [run_bind_of (run_loadkey h hk h'.keyLen), run_bind_of (run_initaead h hn h'.nonceLen)]
  rw [run_bind_of (run_adPart h comb ha)]
  simp only
  rw [encS_dsep h]
  obtain ⟨P', hF, hE⟩ := run_update_encrypt_ahead h comb (aeadAd A (aeadInit K N)) hm (hw.mono (by omega) (by omega)) h'.ahead
  have hPl := hF.1
  refine ⟨P', hF, ?_⟩
  clear hF hm hsep
  rw [← hPl] at hw hE ⊢
  rw [run_bind_of hE, run_bind_of (run_final h _ K)]
  have hlen := Ref.length_encBody (aeadAd A (aeadInit K N)) P'
  have e1 : aeadEncrypt K N A P' = (encBody (aeadAd A (aeadInit K N)) P').2 ++
      aeadTag K (encBody (aeadAd A (aeadInit K N)) P').1 := rfl
  rw [e1]
  generalize encBody (aeadAd A (aeadInit K N)) P' = r at *
  have e2 : aeadTag K r.1 = bytes64 (addKeyLast K (perm 12 (addKeyMid K r.1))).x3 ++
      bytes64 (addKeyLast K (perm 12 (addKeyMid K r.1))).x4 := rfl
  have htl : (aeadTag K r.1).length = 16 := Ref.length_aeadTag _ _
  generalize aeadTag K r.1 = T at *
  generalize addKeyLast K (perm 12 (addKeyMid K r.1)) = t at *
  have hst2 : (mem1.writes (m + d) r.2).Free sp 16 :=
    Ref.Mem.Free.writes' hst (by
      rw [hlen]; exact hst.disjoint_writable (hw.mono (by omega) (by omega)))
  have hw2 : (mem1.writes (m + d) r.2).Writable (m + d + P'.length) 16 := hw.writes.mono (by omega) (by omega)
  rw [writes_append, hlen]
  generalize mem1.writes (m + d) r.2 = mem2 at *
  have hwsp := writable_fill_uninit mem2 sp 16
  have hd := hst2.disjoint_writable hw2
  rw [run_bind_of Ref.run_alloc, run_bind_of (Ref.run_store64 (hwsp.mono (by omega) (by omega))),
    run_bind_of (Ref.run_store64 (hwsp.writes.mono (by omega) (by omega)))]
  have hw3 : ((mem2.fill sp 16 .uninit).writes sp (repr64 e (B.WORDTOU64 e (encS enc t).x3))).writes (sp + 8)
      (repr64 e (B.WORDTOU64 e (encS enc t).x4)) = (mem2.fill sp 16 .uninit).writes sp T := by
    rw [e2, writes_append, length_bytes64]
    simp only [encS, h.store]
  rw [hw3]
  have hwt : ((mem2.fill sp 16 .uninit).writes sp T).Writable (m + d + P'.length) 16 := by
    apply Mem.Writable.writes
    intro i hi
    unfold Mem.fill
    split
    · simp
    · exact hw2 i hi
  rw [run_bind_of (a := (0 : Int)) (mem' := ((mem2.fill sp 16 .uninit).writes sp T).writes (m + d + P'.length) T) (by
    rw [run_ifc, if_pos (by decide), run_bind_of (run_copyTag _ _ _ T htl (holds_writes_self _ _ _) hwt
      (by unfold Disjoint at *; omega))]
    rfl), run_bind_of Ref.run_free]
  rw [run_pure']
  congr 2
  rw [writes_comm (by unfold Disjoint at *; omega), ← fill_writes_comm (by unfold Disjoint at *; omega)]
  rw [fill_writes_fill (by
    apply Ref.Mem.Free.writes' hst2
    unfold Disjoint at *; omega) (by omega)]

end Ascon.Low

namespace Ascon.Ref

open Ascon.C Ascon.Spec
open Ascon.C.Prog (require ifc loop forUp loadB storeB loadN storeN store64 load64)
open Ascon.Impl (ahead_loop ahead_body encAhead_of)

attribute [local irreducible] perm

theorem enc_ahead (e : Endian) : EncAheadAt e crypto_aead_encrypt := by
  intro mem sp clen m d ad nsec npub k K N A P h'
  refine encAhead_of h'.ahead ?_
  unfold crypto_aead_encrypt
  rw [run_bind_of (Ref.run_store64 h'.outLen)]
  have hsep : ∀ {q : Nat} {bs : List Byte}, mem.Holds q bs → Disjoint clen 8 q bs.length →
      (mem.writes clen (repr64 e (BitVec.ofNat 64 (P.length + 16)))).Holds q bs := fun hq hd =>
    hq.writes_disjoint (by rwa [Ref.length_repr64])
  have hk := hsep h'.key (by rw [h'.keyLen]; exact h'.sepKey)
  have hn := hsep h'.nonce (by rw [h'.nonceLen]; exact h'.sepNonce)
  have ha := hsep h'.adata h'.sepAd
  have hm := hsep h'.msg h'.sepMsg
  have hw : (mem.writes clen (repr64 e (BitVec.ofNat 64 (P.length + 16)))).Writable (m + d) (P.length + 16) :=
    h'.out.writes
  generalize mem.writes clen (repr64 e (BitVec.ofNat 64 (P.length + 16))) = mem1 at *
  rw [run_bind_of (run_initAead hk h'.keyLen hn h'.nonceLen)]
  simp only
  rw [run_bind_of (run_absorbAd ha rfl), run_bind_of run_DSEP]
  have hS : ({ (if A = [] then aeadInit K N else absorb 8 (aeadInit K N) (fullBlocks 16 (pad 16 A))) with
      x4 := (if A = [] then aeadInit K N else absorb 8 (aeadInit K N) (fullBlocks 16 (pad 16 A))).x4 ^^^
        0x8000000000000000 } : State) = aeadAd A (aeadInit K N) := rfl
  rw [hS]
  obtain ⟨P', hF, hE⟩ := ahead_loop (fun s => s) (fun s c => (s, c)) (cond := fun (_, _, _, mlen) => decide (mlen ≥ 16))
    (step := encStep) (fin := fun (s, c, m, mlen) => encFinal s c m mlen)
    (fun _ _ _ _ => rfl) (fun mem s c m n P a b d _ => run_encStep a b d)
    (fun mem t c m l a b d _ => run_encFinal a b d) mem1 (aeadAd A (aeadInit K N)) m d P hm (hw.mono (by omega) (by omega)) h'.ahead
  have hPl := hF.1
  refine ⟨P', hF, ?_⟩
  clear hF hm hsep
  rw [← hPl] at hw hE ⊢
  have hE2 : ∀ {α : Type} (k : State × Nat → Prog α), run (encLoop (aeadAd A (aeadInit K N)) (m + d) m P'.length >>=
      fun x => encFinal x.1 x.2.1 x.2.2.1 x.2.2.2 >>= k) mem1 =
      run (k ((encBody (aeadAd A (aeadInit K N)) P').1, m + d + P'.length)) (mem1.writes (m + d) (encBody (aeadAd A (aeadInit K N)) P').2) := by
    intro α k
    unfold encLoop
    rw [run_bind] at hE ⊢
    generalize run (loop _ _ _ _) mem1 = o at *
    cases o with
    | none => cases hE
    | some o =>
      simp only [Option.bind_some] at hE ⊢
      rw [run_bind_of hE]
  refine (hE2 _).trans ?_
  simp only
  have hlen := Ref.length_encBody (aeadAd A (aeadInit K N)) P'
  have e1 : aeadEncrypt K N A P' = (encBody (aeadAd A (aeadInit K N)) P').2 ++
      aeadTag K (encBody (aeadAd A (aeadInit K N)) P').1 := rfl
  rw [e1]
  generalize encBody (aeadAd A (aeadInit K N)) P' = r at *
  have e2 : aeadTag K r.1 = bytes64 (addKeyLast K (perm 12 (addKeyMid K r.1))).x3 ++
      bytes64 (addKeyLast K (perm 12 (addKeyMid K r.1))).x4 := rfl
  rw [run_bind_of (run_STOREBYTES8 (hw.writes.mono (by omega) (by omega))),
    run_bind_of (run_STOREBYTES8 (hw.writes.writes.mono (by omega) (by omega)))]
  rw [← finalize_tag K, writes_append, writes_append]
  simp only [hlen, length_bytes64, run_pure', Nat.add_assoc]

end Ascon.Ref

namespace Ascon.Impl

open Ascon.C Ascon.Spec

theorem Aead.encrypt_ahead (i : Aead) (e : Endian) (h : i.runsOn e) : EncAheadAt e i.encrypt := by
  unfold Aead.runsOn at h
  unfold Aead.encrypt
  cases hc : i.code <;> rw [hc] at h <;> simp only [AeadCode.runsOn] at h
  case ref => exact Ref.enc_ahead e
  case gen c => exact Gen.enc_ahead (c.ok e h)
  case low c comb => exact Low.enc_ahead (c.ok e h) comb
  case byte b => subst h; exact Opt8.enc_ahead b.ok
  case byteLow b comb => subst h; exact Opt8.low_enc_ahead b.ok _ (aeadCfg comb)
  case avx junk => subst h; exact Avx512.enc_ahead junk

end Ascon.Impl
