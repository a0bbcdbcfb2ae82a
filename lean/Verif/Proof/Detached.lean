import Verif.C.Detached
import Verif.Model.Detached
import Verif.Proof.Registry
/-!
# Proofs about the interface with a separate tag
-/

open Ascon Ascon.Spec Ascon.C Ascon.C.Prog

attribute [local irreducible] perm

namespace Ascon

theorem ctBody_enc (K N A P : List Byte) :
    ctBody (aeadEncrypt K N A P) = (encBody (aeadAd A (aeadInit K N)) P).2 := by
  have h : (aeadEncrypt K N A P).length = P.length + 16 := length_aeadEncrypt K N A P
  unfold ctBody
  rw [h, Nat.add_sub_cancel, take_aeadEncrypt]

theorem ctTag_enc (K N A P : List Byte) :
    ctTag (aeadEncrypt K N A P) = aeadTag K (encBody (aeadAd A (aeadInit K N)) P).1 := by
  have h : (aeadEncrypt K N A P).length = P.length + 16 := length_aeadEncrypt K N A P
  unfold ctTag
  rw [h, Nat.add_sub_cancel, drop_aeadEncrypt]

theorem aeadTag_eq (K : List Byte) (s : State) : aeadTag K s =
    bytes64 (addKeyLast K (perm 12 (addKeyMid K s))).x3 ++ bytes64 (addKeyLast K (perm 12 (addKeyMid K s))).x4 := rfl

/-- A detached encryption function behaves as specified on byte order `e`. -/
def DetEncCorrectAt (e : Endian) (f : Endian → (t c m mlen ad adlen npub k : Nat) → Prog Int) : Prop :=
  ∀ mem t c m ad npub k K N A P, DetEncPre mem t c m ad npub k K N A P →
    run (f e t c m P.length ad A.length npub k) mem = some (0, detEncPost mem t c K N A P)

/-- A detached decryption function behaves as specified on byte order `e`. -/
def DetDecCorrectAt (e : Endian) (f : Endian → (m t c clen ad adlen npub k : Nat) → Prog Int) : Prop :=
  ∀ mem m t c ad npub k K N A B T, DetDecPre mem m t c ad npub k K N A B T →
    run (f e m t c B.length ad A.length npub k) mem =
      some (if T = aeadDecTag K N A B then 0 else -1, mem.writes m (aeadCandidate K N A B))

end Ascon

namespace Ascon.Gen

variable {B : Backend} {e : Endian} {enc : Word → Word}

theorem run_gettag (h : B.Ok e enc) {mem : Mem} {s : State} {t : Nat} (hw : mem.Writable t 16) :
    run (ascon_gettag B e (encS enc s) t) mem = some ((), mem.writes t (bytes64 s.x3 ++ bytes64 s.x4)) := by
  unfold ascon_gettag
  have hs3 : run (STOREBYTES B e t (encS enc s).x3 8) mem = some ((), mem.writes t (bytes64 s.x3)) :=
    run_STORE h (hw.mono (by omega) (by omega))
  have hs4 : run (STOREBYTES B e (t + 8) (encS enc s).x4 8) (mem.writes t (bytes64 s.x3)) =
      some ((), (mem.writes t (bytes64 s.x3)).writes (t + 8) (bytes64 s.x4)) :=
    run_STORE h (hw.writes.mono (by omega) (by omega))
  rw [run_bind_of hs3, hs4, writes_append, length_bytes64]

theorem det_enc (h : B.Ok e enc) : DetEncCorrectAt e (ascon_aead_encrypt B) := by
  intro mem t c m ad npub k K N A P h'
  unfold ascon_aead_encrypt detEncPost
  rw [run_bind_of (run_loadkey h h'.key h'.keyLen), run_bind_of (run_initaead h h'.nonce h'.nonceLen),
    run_bind_of (run_adata h h'.adata), run_bind_of (run_encrypt h h'.msg h'.out h'.overlap),
    run_bind_of (run_final h _ K), run_bind_of (run_gettag h h'.tag.writes), ctBody_enc, ctTag_enc, aeadTag_eq]
  rfl

theorem det_dec (h : B.Ok e enc) : DetDecCorrectAt e (ascon_aead_decrypt B) := by
  intro mem m t c ad npub k K N A C T h'
  unfold ascon_aead_decrypt
  rw [run_bind_of (run_loadkey h h'.key h'.keyLen), run_bind_of (run_initaead h h'.nonce h'.nonceLen),
    run_bind_of (run_adata h h'.adata), run_bind_of (run_decrypt h h'.ct h'.out h'.overlap),
    run_bind_of (run_final h _ K)]
  have hlen := Ref.length_decBody (aeadAd A (aeadInit K N)) C
  have ht : (mem.writes m (decBody (aeadAd A (aeadInit K N)) C).2).Holds t T :=
    h'.tag.writes_disjoint (by rw [hlen, h'.tagLen]; exact h'.sepTag)
  rw [run_verify h ht h'.tagLen]
  rw [aeadDecTag, aeadCandidate, aeadTag_eq]

theorem sim_det_enc (h : B.CT e) (t c m mlen ad adlen npub k : Nat) :
    Sim Any (ascon_aead_encrypt B e t c m mlen ad adlen npub k) (ascon_aead_encrypt B e t c m mlen ad adlen npub k) := by
  unfold ascon_aead_encrypt
  refine Sim.bind (sim_loadkey k) fun _ _ _ => ?_
  refine Sim.bind (sim_initaead h _ _ npub) fun _ _ _ => ?_
  refine Sim.bind (sim_adata h _ _ _ _) fun _ _ _ => ?_
  refine Sim.bind (sim_encrypt h _ _ _ _ _) fun _ _ _ => ?_
  refine Sim.bind (sim_final h _ _ _ _) fun _ _ _ => ?_
  refine Sim.bind (R := Any) ?_ fun _ _ _ => Sim.pure trivial
  unfold ascon_gettag
  gct_seq

theorem sim_det_dec (h : B.CT e) (m t c clen ad adlen npub k : Nat) :
    Sim Any (ascon_aead_decrypt B e m t c clen ad adlen npub k) (ascon_aead_decrypt B e m t c clen ad adlen npub k) := by
  unfold ascon_aead_decrypt
  refine Sim.bind (sim_loadkey k) fun _ _ _ => ?_
  refine Sim.bind (sim_initaead h _ _ npub) fun _ _ _ => ?_
  refine Sim.bind (sim_adata h _ _ _ _) fun _ _ _ => ?_
  refine Sim.bind (sim_decrypt h _ _ _ _ _) fun _ _ _ => ?_
  refine Sim.bind (sim_final h _ _ _ _) fun _ _ _ => ?_
  unfold ascon_verify
  gct_seq

end Ascon.Gen

namespace Ascon.Opt8

variable {V : Perms}

theorem det_enc (h : V.Ok) : DetEncCorrectAt .little (ascon_aead_encrypt V) := by
  intro mem t c m ad npub k K N A P h'
  unfold ascon_aead_encrypt detEncPost
  obtain ⟨key, k0, k1, hkey⟩ := run_loadkey h'.key h'.keyLen
  rw [run_bind_of hkey, run_bind_of (run_initaead h k0 k1 h'.nonce h'.nonceLen),
    run_bind_of (run_adata h h'.adata), run_bind_of (run_encrypt h h'.msg h'.out h'.overlap),
    run_bind_of (run_final h _ key K k0 k1), run_bind_of (run_gettag h'.tag.writes), ctBody_enc, ctTag_enc, aeadTag_eq]
  rfl

theorem det_dec (h : V.Ok) : DetDecCorrectAt .little (ascon_aead_decrypt V) := by
  intro mem m t c ad npub k K N A C T h'
  unfold ascon_aead_decrypt
  obtain ⟨key, k0, k1, hkey⟩ := run_loadkey h'.key h'.keyLen
  rw [run_bind_of hkey, run_bind_of (run_initaead h k0 k1 h'.nonce h'.nonceLen),
    run_bind_of (run_adata h h'.adata), run_bind_of (run_decrypt h h'.ct h'.out h'.overlap),
    run_bind_of (run_final h _ key K k0 k1)]
  have hlen := Ref.length_decBody (aeadAd A (aeadInit K N)) C
  have ht : (mem.writes m (decBody (aeadAd A (aeadInit K N)) C).2).Holds t T :=
    h'.tag.writes_disjoint (by rw [hlen, h'.tagLen]; exact h'.sepTag)
  rw [run_verify ht h'.tagLen]
  rw [aeadDecTag, aeadCandidate, aeadTag_eq]

theorem low_det_enc (h : V.Ok) (cfg : Cfg) (hc : cfg.hasAead = true) :
    DetEncCorrectAt .little (low_ascon_aead_encrypt V cfg) := by
  intro mem t c m ad npub k K N A P h'
  unfold low_ascon_aead_encrypt detEncPost
  obtain ⟨key, k0, k1, hkey⟩ := run_loadkey h'.key h'.keyLen
  have hu := run_encrypt (V := V) (s := aeadAd A (aeadInit K N)) h h'.msg h'.out h'.overlap
  rw [← run_update_enc V cfg hc] at hu
  rw [run_bind_of hkey, run_bind_of (run_initaead h k0 k1 h'.nonce h'.nonceLen),
    run_bind_of (run_lowAdata h cfg hc h'.adata), run_bind_of hu,
    run_bind_of (run_final h _ key K k0 k1), run_bind_of (run_gettag h'.tag.writes), ctBody_enc, ctTag_enc, aeadTag_eq]
  rfl

theorem low_det_dec (h : V.Ok) (cfg : Cfg) (hc : cfg.hasAead = true) :
    DetDecCorrectAt .little (low_ascon_aead_decrypt V cfg) := by
  intro mem m t c ad npub k K N A C T h'
  unfold low_ascon_aead_decrypt
  obtain ⟨key, k0, k1, hkey⟩ := run_loadkey h'.key h'.keyLen
  have hu := run_decrypt (V := V) (s := aeadAd A (aeadInit K N)) h h'.ct h'.out h'.overlap
  rw [← run_update_dec V cfg hc] at hu
  rw [run_bind_of hkey, run_bind_of (run_initaead h k0 k1 h'.nonce h'.nonceLen),
    run_bind_of (run_lowAdata h cfg hc h'.adata), run_bind_of hu,
    run_bind_of (run_final h _ key K k0 k1)]
  have hlen := Ref.length_decBody (aeadAd A (aeadInit K N)) C
  have ht : (mem.writes m (decBody (aeadAd A (aeadInit K N)) C).2).Holds t T :=
    h'.tag.writes_disjoint (by rw [hlen, h'.tagLen]; exact h'.sepTag)
  rw [run_verify ht h'.tagLen]
  rw [aeadDecTag, aeadCandidate, aeadTag_eq]

variable {e : Endian}

theorem sim_det_enc (h : V.CT e) (t c m mlen ad adlen npub k : Nat) :
    Sim Any (ascon_aead_encrypt V e t c m mlen ad adlen npub k) (ascon_aead_encrypt V e t c m mlen ad adlen npub k) := by
  unfold ascon_aead_encrypt
  refine Sim.bind (sim_loadkey k) fun _ _ _ => ?_
  refine Sim.bind (sim_initaead h _ _ npub) fun _ _ _ => ?_
  refine Sim.bind (sim_adata h _ _ _ _) fun _ _ _ => ?_
  refine Sim.bind (sim_encrypt h _ _ _ _ _) fun _ _ _ => ?_
  refine Sim.bind (sim_final h _ _ _ _) fun _ _ _ => ?_
  exact Sim.bind (sim_gettag _ _ _) fun _ _ _ => Sim.pure trivial

theorem sim_det_dec (h : V.CT e) (m t c clen ad adlen npub k : Nat) :
    Sim Any (ascon_aead_decrypt V e m t c clen ad adlen npub k) (ascon_aead_decrypt V e m t c clen ad adlen npub k) := by
  unfold ascon_aead_decrypt
  refine Sim.bind (sim_loadkey k) fun _ _ _ => ?_
  refine Sim.bind (sim_initaead h _ _ npub) fun _ _ _ => ?_
  refine Sim.bind (sim_adata h _ _ _ _) fun _ _ _ => ?_
  refine Sim.bind (sim_decrypt h _ _ _ _ _) fun _ _ _ => ?_
  refine Sim.bind (sim_final h _ _ _ _) fun _ _ _ => ?_
  exact sim_verify _ _ _

theorem sim_low_det_enc (h : V.CT e) (cfg : Cfg) (t c m mlen ad adlen npub k : Nat) :
    Sim Any (low_ascon_aead_encrypt V cfg e t c m mlen ad adlen npub k)
      (low_ascon_aead_encrypt V cfg e t c m mlen ad adlen npub k) := by
  unfold low_ascon_aead_encrypt
  refine Sim.bind (sim_loadkey k) fun _ _ _ => ?_
  refine Sim.bind (sim_initaead h _ _ npub) fun _ _ _ => ?_
  refine Sim.bind (sim_lowAdata h _ _ _ _ _) fun _ _ _ => ?_
  refine Sim.bind (sim_update h _ _ _ _ _ _ _) fun _ _ _ => ?_
  refine Sim.bind (sim_final h _ _ _ _) fun _ _ _ => ?_
  exact Sim.bind (sim_gettag _ _ _) fun _ _ _ => Sim.pure trivial

theorem sim_low_det_dec (h : V.CT e) (cfg : Cfg) (m t c clen ad adlen npub k : Nat) :
    Sim Any (low_ascon_aead_decrypt V cfg e m t c clen ad adlen npub k)
      (low_ascon_aead_decrypt V cfg e m t c clen ad adlen npub k) := by
  unfold low_ascon_aead_decrypt
  refine Sim.bind (sim_loadkey k) fun _ _ _ => ?_
  refine Sim.bind (sim_initaead h _ _ npub) fun _ _ _ => ?_
  refine Sim.bind (sim_lowAdata h _ _ _ _ _) fun _ _ _ => ?_
  refine Sim.bind (sim_update h _ _ _ _ _ _ _) fun _ _ _ => ?_
  refine Sim.bind (sim_final h _ _ _ _) fun _ _ _ => ?_
  exact sim_verify _ _ _

end Ascon.Opt8

namespace Ascon.Avx512

variable {e : Endian}

theorem det_enc (junk : Z) : DetEncCorrectAt e (ascon_aead_encrypt junk) := by
  intro mem t c m ad npub k K N A P h'
  unfold ascon_aead_encrypt detEncPost
  rw [run_bind_of (run_loadkey h'.key h'.keyLen), run_bind_of (run_initaead h'.nonce h'.nonceLen),
    run_bind_of (run_adata h'.adata), run_bind_of (run_encrypt h'.msg h'.out h'.overlap)]
  simp only [final_eq]
  have hg := Gen.run_gettag (ok e)
    (s := addKeyLast K (perm 12 (addKeyMid K (encBody (aeadAd A (aeadInit K N)) P).1)))
    (h'.tag.writes (q := c) (bs := (encBody (aeadAd A (aeadInit K N)) P).2))
  rw [encS_id] at hg
  simp only [emb]
  rw [run_bind_of hg, ctBody_enc, ctTag_enc, aeadTag_eq]
  rfl

theorem det_dec (junk : Z) : DetDecCorrectAt e (ascon_aead_decrypt junk) := by
  intro mem m t c ad npub k K N A C T h'
  unfold ascon_aead_decrypt
  rw [run_bind_of (run_loadkey h'.key h'.keyLen), run_bind_of (run_initaead h'.nonce h'.nonceLen),
    run_bind_of (run_adata h'.adata), run_bind_of (run_decrypt h'.ct h'.out h'.overlap)]
  simp only [final_eq]
  have hlen := Ref.length_decBody (aeadAd A (aeadInit K N)) C
  have ht : (mem.writes m (decBody (aeadAd A (aeadInit K N)) C).2).Holds t T :=
    h'.tag.writes_disjoint (by rw [hlen, h'.tagLen]; exact h'.sepTag)
  have hv := Gen.run_verify (ok e)
    (s := addKeyLast K (perm 12 (addKeyMid K (decBody (aeadAd A (aeadInit K N)) C).1))) ht h'.tagLen
  rw [encS_id] at hv
  simp only [emb]
  rw [hv]
  rw [aeadDecTag, aeadCandidate, aeadTag_eq]

theorem sim_det_enc (junk : Z) (t c m mlen ad adlen npub k : Nat) :
    Sim Any (ascon_aead_encrypt junk e t c m mlen ad adlen npub k)
      (ascon_aead_encrypt junk e t c m mlen ad adlen npub k) := by
  unfold ascon_aead_encrypt
  refine Sim.bind (Gen.sim_loadkey k) fun _ _ _ => ?_
  refine Sim.bind (sim_initaead junk _ _ npub) fun _ _ _ => ?_
  refine Sim.bind (sim_adata _ _ _ _) fun _ _ _ => ?_
  refine Sim.bind (sim_encrypt _ _ _ _ _) fun _ _ _ => ?_
  refine Sim.bind (R := Any) ?_ fun _ _ _ => Sim.pure trivial
  unfold Gen.ascon_gettag
  act_seq

theorem sim_det_dec (junk : Z) (m t c clen ad adlen npub k : Nat) :
    Sim Any (ascon_aead_decrypt junk e m t c clen ad adlen npub k)
      (ascon_aead_decrypt junk e m t c clen ad adlen npub k) := by
  unfold ascon_aead_decrypt
  refine Sim.bind (Gen.sim_loadkey k) fun _ _ _ => ?_
  refine Sim.bind (sim_initaead junk _ _ npub) fun _ _ _ => ?_
  refine Sim.bind (sim_adata _ _ _ _) fun _ _ _ => ?_
  refine Sim.bind (sim_decrypt _ _ _ _ _) fun _ _ _ => ?_
  unfold Gen.ascon_verify
  act_seq

end Ascon.Avx512

namespace Ascon.Impl

theorem DetCode.encrypt_correct (i : DetCode) (e : Endian) (h : i.runsOn e) : DetEncCorrectAt e i.encrypt := by
  cases i
  case gen c => exact Gen.det_enc (c.ok e h)
  case byte b => simp only [DetCode.runsOn] at h; subst h; exact Opt8.det_enc b.ok
  case byteLow b comb => simp only [DetCode.runsOn] at h; subst h; exact Opt8.low_det_enc b.ok _ (aeadCfg comb)
  case avx junk => exact Avx512.det_enc junk

theorem DetCode.decrypt_correct (i : DetCode) (e : Endian) (h : i.runsOn e) : DetDecCorrectAt e i.decrypt := by
  cases i
  case gen c => exact Gen.det_dec (c.ok e h)
  case byte b => simp only [DetCode.runsOn] at h; subst h; exact Opt8.det_dec b.ok
  case byteLow b comb => simp only [DetCode.runsOn] at h; subst h; exact Opt8.low_det_dec b.ok _ (aeadCfg comb)
  case avx junk => exact Avx512.det_dec junk

theorem DetCode.encrypt_ct (i : DetCode) (e : Endian) (t c m mlen ad adlen npub k : Nat) :
    ConstTime (i.encrypt e t c m mlen ad adlen npub k) := by
  cases i
  case gen b => exact (Gen.sim_det_enc (b.ct e) t c m mlen ad adlen npub k).constTime
  case byte b => exact (Opt8.sim_det_enc (b.ct e) t c m mlen ad adlen npub k).constTime
  case byteLow b comb => exact (Opt8.sim_low_det_enc (b.ct e) _ t c m mlen ad adlen npub k).constTime
  case avx junk => exact (Avx512.sim_det_enc junk t c m mlen ad adlen npub k).constTime

theorem DetCode.decrypt_ct (i : DetCode) (e : Endian) (m t c clen ad adlen npub k : Nat) :
    ConstTime (i.decrypt e m t c clen ad adlen npub k) := by
  cases i
  case gen b => exact (Gen.sim_det_dec (b.ct e) m t c clen ad adlen npub k).constTime
  case byte b => exact (Opt8.sim_det_dec (b.ct e) m t c clen ad adlen npub k).constTime
  case byteLow b comb => exact (Opt8.sim_low_det_dec (b.ct e) _ m t c clen ad adlen npub k).constTime
  case avx junk => exact (Avx512.sim_det_dec junk m t c clen ad adlen npub k).constTime

end Ascon.Impl
