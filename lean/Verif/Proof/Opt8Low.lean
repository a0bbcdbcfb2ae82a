import Verif.Proof.Opt8Hash
/-!
# src/opt8_lowsize meets its contracts on little-endian machines

`ascon_update` in each of its modes behaves like the corresponding function of src/opt8.
-/

namespace Ascon.Opt8

open Ascon.C Ascon.Spec
open Ascon.C.Prog (require ifc loop forUp loadB storeB loadN storeN store64 load64)

attribute [local irreducible] perm

variable {V : Perms}

theorem run_when_pos {c : Bool} {s : State} {t : Prog State} {mem : Mem} (h : c = true) :
    run (when c s t) mem = run t mem := by
  unfold when; rw [run_ifc, if_pos h]

theorem run_when_neg {c : Bool} {s : State} {t : Prog State} {mem : Mem} (h : c = false) :
    run (when c s t) mem = some (s, mem) := by
  unfold when; rw [run_ifc, if_neg (by simp [h])]; rfl

theorem run_whenU_pos {c : Bool} {t : Prog Unit} {mem : Mem} (h : c = true) :
    run (whenU c t) mem = run t mem := by
  unfold whenU; rw [run_ifc, if_pos h]

theorem run_whenU_neg {c : Bool} {t : Prog Unit} {mem : Mem} (h : c = false) :
    run (whenU c t) mem = some ((), mem) := by
  unfold whenU; rw [run_ifc, if_neg (by simp [h])]; rfl

/-- Loops whose bodies have the same effect have the same effect. -/
theorem run_loop_congr {σ : Type} {cond : σ → Bool} {b b' : σ → Prog σ}
    (hb : ∀ q mem, run (b q) mem = run (b' q) mem) (f : Nat) (q : σ) (mem : Mem) :
    run (loop f cond b q) mem = run (loop f cond b' q) mem := by
  induction f generalizing q mem with
  | zero => rfl
  | succ f ih =>
    unfold loop
    rw [run_ifc, run_ifc]
    split
    · rw [run_bind, run_bind, hb]
      cases run (b' q) mem with
      | none => rfl
      | some r => exact ih _ _
    · rfl

/-- A loop that follows another one under a projection of its state. -/
theorem run_loop_proj {σ τ : Type} (π : σ → τ) {cond : σ → Bool} {cond' : τ → Bool} {b : σ → Prog σ} {b' : τ → Prog τ}
    (hc : ∀ q, cond q = cond' (π q))
    (hb : ∀ q mem r mem', run (b' (π q)) mem = some (r, mem') →
      ∃ q', π q' = r ∧ run (b q) mem = some (q', mem'))
    (f : Nat) (q : σ) (mem mem' : Mem) (r : τ) (h : run (loop f cond' b' (π q)) mem = some (r, mem')) :
    ∃ q', π q' = r ∧ run (loop f cond b q) mem = some (q', mem') := by
  induction f generalizing q mem with
  | zero => exact absurd h (by simp [loop, run])
  | succ f ih =>
    unfold loop at h ⊢
    rw [run_ifc] at h ⊢
    rw [hc]
    split at h
    · rename_i hcond
      rw [if_pos hcond, run_bind]
      rw [run_bind] at h
      cases hr : run (b' (π q)) mem with
      | none => rw [hr] at h; exact absurd h (by simp)
      | some x =>
        obtain ⟨q1, hq1, hrun⟩ := hb q mem x.1 x.2 hr
        rw [hr] at h
        rw [hrun]
        simp only [Option.bind_some] at h ⊢
        rw [← hq1] at h
        exact ih q1 x.2 h
    · rename_i hcond
      rw [if_neg hcond]
      have h' := Option.some.inj h
      exact ⟨q, congrArg Prod.fst h', congrArg (fun x => some (q, x)) (congrArg Prod.snd h')⟩

theorem run_nrRate_aead (cfg : Cfg) (hc : cfg.hasAead = true) (mode : Nat) (hm : mode &&& 8 = 0) (mem : Mem) :
    run (nrRate cfg mode) mem = some ((8, 16), mem) := by
  cases cfg with
  | aead => rfl
  | hash => exact absurd hc (by decide)
  | comb =>
    have : ((mode &&& ASCON_HASH) != 0) = false := by simp [ASCON_HASH, hm]
    simp only [nrRate, this]
    rfl

theorem run_nrRate_hash (cfg : Cfg) (hc : cfg.hasHash = true) (mode : Nat) (hm : mode &&& 8 = 8) (mem : Mem) :
    run (nrRate cfg mode) mem = some ((12, 8), mem) := by
  cases cfg with
  | aead => exact absurd hc (by decide)
  | hash => rfl
  | comb =>
    have : ((mode &&& ASCON_HASH) != 0) = true := by simp [ASCON_HASH, hm]
    simp only [nrRate, this]
    rfl

/-! ### Associated data -/

theorem run_updStep_ad (V : Perms) (cfg : Cfg) (hc : cfg.hasAead = true) (e : Endian) (s : State) (c m n : Nat) (mem : Mem) :
    run (updStep V cfg 1 8 16 e (s, c, m, n)) mem =
      (run (adStep V e (s, m, n)) mem).map (fun r => ((r.1.1, c + 16, r.1.2.1, r.1.2.2), r.2)) := by
  unfold updStep adStep
  simp only [hc, if_true, permNr]
  cases cfg.hasHash <;> simp [run_bind, when, whenU, run_ifc, Function.comp_def]

theorem run_updFinal_ad (cfg : Cfg) (hc : cfg.hasAead = true) (e : Endian) (s : State) (c m n : Nat) (mem : Mem) :
    run (updFinal cfg 1 e (s, c, m, n)) mem = run (adFinal e s m n) mem := by
  unfold updFinal adFinal
  simp only [hc, if_true]
  by_cases h8 : n ≥ 8 <;> cases cfg.hasHash <;> simp [run_bind, when, whenU, run_ifc, h8, Option.bind_assoc]

theorem run_updStep_enc (V : Perms) (cfg : Cfg) (hc : cfg.hasAead = true) (e : Endian) (q : State × Nat × Nat × Nat)
    (mem : Mem) : run (updStep V cfg 3 8 16 e q) mem = run (encStep V e q) mem := by
  unfold updStep encStep
  simp only [hc, if_true, permNr]
  cases cfg.hasHash <;> simp [run_bind, when, whenU, run_ifc]

theorem run_updFinal_enc (cfg : Cfg) (hc : cfg.hasAead = true) (e : Endian) (s : State) (c m n : Nat) (mem : Mem) :
    run (updFinal cfg 3 e (s, c, m, n)) mem = run (encFinal e s c m n) mem := by
  unfold updFinal encFinal
  simp only [hc, if_true]
  by_cases h8 : n ≥ 8 <;> cases cfg.hasHash <;> simp [run_bind, when, whenU, run_ifc, h8, Option.bind_assoc]

theorem run_updStep_dec (V : Perms) (cfg : Cfg) (hc : cfg.hasAead = true) (e : Endian) (q : State × Nat × Nat × Nat)
    (mem : Mem) : run (updStep V cfg 7 8 16 e q) mem = run (decStep V e q) mem := by
  unfold updStep decStep
  simp only [hc, if_true, permNr]
  cases cfg.hasHash <;> simp [run_bind, when, whenU, run_ifc]

theorem run_updFinal_dec (cfg : Cfg) (hc : cfg.hasAead = true) (e : Endian) (s : State) (c m n : Nat) (mem : Mem) :
    run (updFinal cfg 7 e (s, c, m, n)) mem = run (decFinal e s c m n) mem := by
  unfold updFinal decFinal
  simp only [hc, if_true]
  by_cases h8 : n ≥ 8 <;> cases cfg.hasHash <;> simp [run_bind, when, whenU, run_ifc, h8, Option.bind_assoc]

theorem run_update_enc (V : Perms) (cfg : Cfg) (hc : cfg.hasAead = true) (e : Endian) (s : State) (c m n : Nat)
    (mem : Mem) : run (ascon_update V cfg e s c m n ASCON_ENCRYPT) mem = run (ascon_encrypt V e s c m n) mem := by
  rw [show ASCON_ENCRYPT = 3 from rfl]
  unfold ascon_update ascon_encrypt
  rw [run_bind_of (run_nrRate_aead cfg hc _ (by decide) mem), run_bind, run_bind]
  simp only
  rw [run_loop_congr (fun q mem => run_updStep_enc V cfg hc e q mem)]
  congr 1
  funext r
  exact run_updFinal_enc cfg hc e _ _ _ _ _

theorem run_update_dec (V : Perms) (cfg : Cfg) (hc : cfg.hasAead = true) (e : Endian) (s : State) (m c n : Nat)
    (mem : Mem) : run (ascon_update V cfg e s m c n ASCON_DECRYPT) mem = run (ascon_decrypt V e s m c n) mem := by
  rw [show ASCON_DECRYPT = 7 from rfl]
  unfold ascon_update ascon_decrypt
  rw [run_bind_of (run_nrRate_aead cfg hc _ (by decide) mem), run_bind, run_bind]
  simp only
  rw [run_loop_congr (fun q mem => run_updStep_dec V cfg hc e q mem)]
  congr 1
  funext r
  exact run_updFinal_dec cfg hc e _ _ _ _ _

theorem run_lowAdata (h : V.Ok) (cfg : Cfg) (hc : cfg.hasAead = true) {mem : Mem} {s : State} {ad : Nat}
    {A : List Byte} (ha : mem.Holds ad A) :
    run (lowAdata V cfg .little s ad A.length) mem = some (aeadAd A s, mem) := by
  unfold lowAdata aeadAd
  have key : run (ifc (decide (A.length ≠ 0))
      (do
        let s ← ascon_update V cfg .little s 0 ad A.length ASCON_ABSORB
        V.P8 .little s)
      (pure s)) mem =
      some ((if A = [] then s else absorb 8 s (fullBlocks 16 (pad 16 A))), mem) := by
    rw [run_ifc]
    by_cases h0 : A = []
    · simp [h0]
    · have : A.length ≠ 0 := by simpa using h0
      rw [if_pos (by simpa using this), if_neg h0]
      have hl := run_absorbLoop id 16 8 (by omega)
        (cond := fun (_, _, adlen) => decide (adlen ≥ 16)) (step := adStep V .little) (fun _ _ _ => rfl) (mem := mem)
        (fun s p n M hM h16 => run_adStep h s p n M hM h16) (A.length + 1) s ad A ha (by omega)
      simp only [id] at hl
      obtain ⟨q, hq, hrun⟩ := run_loop_proj (fun q : State × Nat × Nat × Nat => (q.1, q.2.2.1, q.2.2.2))
        (cond := fun x => decide (x.2.2.2 ≥ 16)) (b := updStep V cfg 1 8 16 .little)
        (fun _ => rfl)
        (fun q mem r mem' hr => ⟨(r.1, q.2.1 + 16, r.2.1, r.2.2), rfl, by
          have := run_updStep_ad V cfg hc .little q.1 q.2.1 q.2.2.1 q.2.2.2 mem
          rw [hr] at this
          exact this⟩) _ (s, 0, ad, A.length) mem mem _ hl
      obtain ⟨s', c', m', n'⟩ := q
      simp only [Prod.mk.injEq] at hq
      obtain ⟨rfl, rfl, rfl⟩ := hq
      have hb := ha.lastBlock 16
      have hll := length_lastBlock 16 A
      rw [fullBlocks_pad 16 A (by omega)]
      simp only [absorb, List.foldl_append, List.foldl_cons, List.foldl_nil]
      have hu : run (ascon_update V cfg .little s 0 ad A.length ASCON_ABSORB) mem =
          some (xorIn (absorb 8 s (fullBlocks 16 A)) (pad 16 (lastBlock 16 A)), mem) := by
        rw [show ASCON_ABSORB = 1 from rfl]
        unfold ascon_update
        rw [run_bind_of (run_nrRate_aead cfg hc _ (by decide) mem)]
        simp only
        rw [run_bind_of hrun, run_updFinal_ad cfg hc, ← hll,
          run_adFinal _ _ _ hb (by omega)]
      rw [run_bind_of hu, h.p8]
      rfl
  rw [run_bind_of key]
  generalize (if A = [] then s else _) = t
  rw [run_dsep]

/-! ### Top level of the AEAD -/

theorem low_enc_correct (h : V.Ok) (cfg : Cfg) (hc : cfg.hasAead = true) :
    EncCorrectAt .little (low_crypto_aead_encrypt V cfg) := by
  intro mem sp c clen m ad nsec npub k K N A P h'
  unfold low_crypto_aead_encrypt encPost
  rw [run_bind_of (Ref.run_store64 h'.outLen)]
  have hsep : ∀ {q : Nat} {bs : List Byte}, mem.Holds q bs → Disjoint clen 8 q bs.length →
      (mem.writes clen (repr64 .little (BitVec.ofNat 64 (P.length + 16)))).Holds q bs := fun hq hd =>
    hq.writes_disjoint (by rwa [Ref.length_repr64])
  have hk := hsep h'.key (by rw [h'.keyLen]; exact h'.sepKey)
  have hn := hsep h'.nonce (by rw [h'.nonceLen]; exact h'.sepNonce)
  have ha := hsep h'.adata h'.sepAd
  have hm := hsep h'.msg h'.sepMsg
  have hw : (mem.writes clen (repr64 .little (BitVec.ofNat 64 (P.length + 16)))).Writable c (P.length + 16) :=
    h'.out.writes
  have ho := h'.overlap
  generalize mem.writes clen (repr64 .little (BitVec.ofNat 64 (P.length + 16))) = mem1 at *
  unfold low_ascon_aead_encrypt
  simp only
  obtain ⟨key, k0, k1, hkey⟩ := run_loadkey hk h'.keyLen
  have hu := run_encrypt (V := V) (s := aeadAd A (aeadInit K N)) h hm (hw.mono (by omega) (by omega)) ho
  rw [← run_update_enc V cfg hc] at hu
  rw [run_bind_of hkey, run_bind_of (run_initaead h k0 k1 hn h'.nonceLen),
    run_bind_of (run_lowAdata h cfg hc ha), run_bind_of hu,
    run_bind_of (run_final h _ key K k0 k1)]
  have hlen := Ref.length_encBody (aeadAd A (aeadInit K N)) P
  have e1 : aeadEncrypt K N A P = (encBody (aeadAd A (aeadInit K N)) P).2 ++
      aeadTag K (encBody (aeadAd A (aeadInit K N)) P).1 := rfl
  rw [e1]
  generalize encBody (aeadAd A (aeadInit K N)) P = r at *
  have e2 : aeadTag K r.1 = bytes64 (addKeyLast K (perm 12 (addKeyMid K r.1))).x3 ++
      bytes64 (addKeyLast K (perm 12 (addKeyMid K r.1))).x4 := rfl
  rw [e2]
  generalize addKeyLast K (perm 12 (addKeyMid K r.1)) = t
  rw [run_bind_of (run_gettag (hw.writes.mono (by omega) (by omega))), writes_append mem1, hlen]
  rfl

theorem low_dec_correct (h : V.Ok) (cfg : Cfg) (hcfg : cfg.hasAead = true) :
    DecCorrectAt .little (low_crypto_aead_decrypt V cfg) := by
  intro mem sp m mlen nsec c ad npub k K N A C h'
  unfold low_crypto_aead_decrypt decPost
  have h16 := h'.ctMin
  rw [run_ifc, if_neg (by simpa using h16), run_bind_of (Ref.run_store64 h'.outLen)]
  have hsep : ∀ {q : Nat} {bs : List Byte}, mem.Holds q bs → Disjoint mlen 8 q bs.length →
      (mem.writes mlen (repr64 .little (BitVec.ofNat 64 (C.length - 16)))).Holds q bs := fun hq hd =>
    hq.writes_disjoint (by rwa [Ref.length_repr64])
  have hk := hsep h'.key (by rw [h'.keyLen]; exact h'.sepKey)
  have hn := hsep h'.nonce (by rw [h'.nonceLen]; exact h'.sepNonce)
  have ha := hsep h'.adata h'.sepAd
  have hc := hsep h'.ct h'.sepCt
  have hw : (mem.writes mlen (repr64 .little (BitVec.ofNat 64 (C.length - 16)))).Writable m (C.length - 16) :=
    h'.out.writes
  have ho := h'.overlap
  generalize mem.writes mlen (repr64 .little (BitVec.ofNat 64 (C.length - 16))) = mem1 at *
  have hbl : (ctBody C).length = C.length - 16 := by simp [ctBody]
  have htl : (ctTag C).length = 16 := by simp [ctTag]; omega
  have hcb : mem1.Holds c (ctBody C) := hc.take _
  have hct : mem1.Holds (c + (C.length - 16)) (ctTag C) := hc.drop _ (by omega)
  unfold low_ascon_aead_decrypt
  simp only
  rw [← hbl] at hw hct ⊢
  obtain ⟨key, k0, k1, hkey⟩ := run_loadkey hk h'.keyLen
  have hu := run_decrypt (V := V) (s := aeadAd A (aeadInit K N)) h hcb hw (by omega)
  rw [← run_update_dec V cfg hcfg] at hu
  rw [run_bind_of hkey, run_bind_of (run_initaead h k0 k1 hn h'.nonceLen),
    run_bind_of (run_lowAdata h cfg hcfg ha), run_bind_of hu, run_bind_of (run_final h _ key K k0 k1)]
  have hlen := Ref.length_decBody (aeadAd A (aeadInit K N)) (ctBody C)
  have e1 : aeadCandidate K N A (ctBody C) = (decBody (aeadAd A (aeadInit K N)) (ctBody C)).2 := rfl
  have e2 : aeadDecTag K N A (ctBody C) = aeadTag K (decBody (aeadAd A (aeadInit K N)) (ctBody C)).1 := rfl
  rw [e1, e2]
  generalize decBody (aeadAd A (aeadInit K N)) (ctBody C) = r at *
  have hct2 : (mem1.writes m r.2).Holds (c + (ctBody C).length) (ctTag C) := by
    apply hct.writes_disjoint
    unfold Disjoint; rw [hlen]; omega
  rw [run_verify hct2 htl]
  rfl

theorem low_dec_short (V : Perms) (cfg : Cfg) : DecShort (low_crypto_aead_decrypt V cfg) := by
  intro e mem sp m mlen nsec c clen ad adlen npub k h
  constructor
  · unfold low_crypto_aead_decrypt
    rw [run_ifc, if_pos (by simpa using h)]; rfl
  · simp only [low_crypto_aead_decrypt, Prog.ifc, decide_eq_true h]
    rfl

/-! ### Hashing -/

theorem run_updStep_habs (V : Perms) (cfg : Cfg) (hc : cfg.hasHash = true) (e : Endian) (s : State) (c m n : Nat)
    (mem : Mem) :
    run (updStep V cfg 9 12 8 e (s, c, m, n)) mem =
      (run (hashAbsorbStep V e (s, m, n)) mem).map (fun r => ((r.1.1, c + 8, r.1.2.1, r.1.2.2), r.2)) := by
  unfold updStep hashAbsorbStep
  simp only [hc, if_true, permNr]
  cases cfg.hasAead <;> simp [run_bind, when, whenU, run_ifc, Function.comp_def]

theorem run_updFinal_habs (cfg : Cfg) (hc : cfg.hasHash = true) (e : Endian) (s : State) (c m n : Nat) (hn : n < 8)
    (mem : Mem) :
    run (updFinal cfg 9 e (s, c, m, n)) mem = run (do
      let s ← ABSORB e s 0 m n
      xorB e s n PAD) mem := by
  unfold updFinal
  simp only [hc, if_true]
  have h8 : ¬ n ≥ 8 := by omega
  cases cfg.hasAead <;> simp [run_bind, when, whenU, run_ifc, h8]

theorem run_update_habs (h : V.Ok) (cfg : Cfg) (hc : cfg.hasHash = true) {mem : Mem} {s : State} {p : Nat}
    {M : List Byte} (hM : mem.Holds p M) :
    run (ascon_update V cfg .little s 0 p M.length (ASCON_HASH ||| ASCON_ABSORB)) mem =
      some (xorIn (absorb 12 s (fullBlocks 8 M)) (pad 8 (lastBlock 8 M)), mem) := by
  rw [show ASCON_HASH ||| ASCON_ABSORB = 9 from rfl, ← run_absorb h hM]
  have hl := run_absorbLoop id 8 12 (by omega)
    (cond := fun (_, _, len) => decide (len ≥ 8)) (step := hashAbsorbStep V .little) (fun _ _ _ => rfl) (mem := mem)
    (fun s p n M hM h8 => run_hashAbsorbStep h s p n M hM h8)
    (M.length + 1) s p M hM (by omega)
  simp only [id] at hl
  obtain ⟨q, hq, hrun⟩ := run_loop_proj (fun q : State × Nat × Nat × Nat => (q.1, q.2.2.1, q.2.2.2))
    (cond := fun x => decide (x.2.2.2 ≥ 8)) (b := updStep V cfg 9 12 8 .little)
    (fun _ => rfl)
    (fun q mem r mem' hr => ⟨(r.1, q.2.1 + 8, r.2.1, r.2.2), rfl, by
      have := run_updStep_habs V cfg hc .little q.1 q.2.1 q.2.2.1 q.2.2.2 mem
      rw [hr] at this
      exact this⟩) _ (s, 0, p, M.length) mem mem _ hl
  obtain ⟨s', c', m', n'⟩ := q
  simp only [Prod.mk.injEq] at hq
  obtain ⟨rfl, rfl, rfl⟩ := hq
  unfold ascon_update ascon_absorb
  rw [run_bind_of (run_nrRate_hash cfg hc _ (by decide) mem)]
  simp only
  rw [run_bind_of hrun, run_bind_of hl, run_updFinal_habs cfg hc _ _ _ _ _ (by omega)]
  rfl

theorem run_updStep_hsq (h : V.Ok) (cfg : Cfg) (hc : cfg.hasHash = true) (s : State) (c m n : Nat) (mem : Mem)
    (hw : mem.Writable c 8) :
    run (updStep V cfg 10 12 8 .little (s, c, m, n)) mem =
      some (((if n = 8 then s else perm 12 s), c + 8, m + 8, n - 8), mem.writes c (rate 8 s)) := by
  have h1 := run_SQUEEZE (s := s) (i := 0) (by omega) hw (by omega)
  rw [List.take_of_length_le (i := 8) (by simp [length_bytes64]), Nat.mul_zero] at h1
  have h1' : run (SQUEEZE .little c s 0 8) mem = some ((), mem.writes c (rate 8 s)) := by rw [h1, rate_8]; rfl
  unfold updStep
  simp only [hc, if_true, permNr]
  by_cases hn : n = 8
  · cases cfg.hasAead <;> simp [run_bind, when, whenU, run_ifc, h1', hn]
  · cases cfg.hasAead <;> simp [run_bind, when, whenU, run_ifc, h1', hn, h.p12]

theorem run_updFinal_hsq (cfg : Cfg) (hc : cfg.hasHash = true) (s : State) (c m n : Nat) (hn : n < 8) (mem : Mem)
    (hw : mem.Writable c n) :
    ∃ s', run (updFinal cfg 10 .little (s, c, m, n)) mem = some (s', mem.writes c (rate n s)) := by
  have h1 := run_SQUEEZE (s := s) (i := 0) (by omega) hw (by omega)
  rw [Nat.mul_zero] at h1
  have h1' : run (SQUEEZE .little c s 0 n) mem = some ((), mem.writes c (rate n s)) := by
    rw [h1, rate_le8 _ _ (by omega)]; rfl
  have h2 := run_pad (s := s) (i := 0) (j := n) (by omega) hn (mem.writes c (rate n s))
  rw [Nat.mul_zero, Nat.zero_add] at h2
  unfold updFinal
  simp only [hc, if_true]
  have h8 : ¬ n ≥ 8 := by omega
  cases cfg.hasAead <;> simp [run_bind, when, whenU, run_ifc, h8, h1', h2]

theorem run_update_hsq (h : V.Ok) (cfg : Cfg) (hc : cfg.hasHash = true) {mem : Mem} {s : State} {p n : Nat}
    (hw : mem.Writable p n) :
    ∃ s', run (ascon_update V cfg .little s p 0 n (ASCON_HASH ||| ASCON_SQUEEZE)) mem =
      some (s', mem.writes p (squeeze 8 s n)) := by
  rw [show ASCON_HASH ||| ASCON_SQUEEZE = 10 from rfl]
  unfold ascon_update
  rw [run_bind_of (run_nrRate_hash cfg hc _ (by decide) mem)]
  simp only
  have key : ∀ (f : Nat) (s : State) (mem : Mem) (p m n : Nat), mem.Writable p n → n < f →
      ∃ s', run (loop f (fun x : State × Nat × Nat × Nat => decide (x.2.2.2 ≥ 8)) (updStep V cfg 10 12 8 .little)
        (s, p, m, n) >>= updFinal cfg 10 .little) mem = some (s', mem.writes p (squeeze 8 s n)) := by
    intro f
    induction f with
    | zero => intros; omega
    | succ f ih =>
      intro s mem p m n hw hf
      by_cases h8 : 8 ≤ n
      · rw [run_bind, run_loop_step (by simpa using h8)
          (run_updStep_hsq h cfg hc s p m n mem (hw.mono (by omega) (by omega))), ← run_bind]
        obtain ⟨s', hs'⟩ := ih (if n = 8 then s else perm 12 s) (mem.writes p (rate 8 s)) (p + 8) (m + 8) (n - 8)
          (hw.writes.mono (by omega) (by omega)) (by omega)
        refine ⟨s', ?_⟩
        rw [hs', squeeze_of_ge 8 s n (by omega) (by omega) h8, writes_append, length_rate 8 s (by omega)]
        by_cases hn : n = 8
        · subst hn
          rw [squeeze_of_le 8 _ _ (by omega) (by omega), squeeze_of_le 8 _ _ (by omega) (by omega),
            Nat.sub_self, rate_le8 0 _ (by omega), rate_le8 0 _ (by omega), List.take_zero, List.take_zero]
        · rw [if_neg hn]
      · rw [run_bind, run_loop_done (by simpa using h8)]
        simp only [Option.bind_some]
        obtain ⟨s', hs'⟩ := run_updFinal_hsq cfg hc s p m n (by omega) mem hw
        exact ⟨s', by rw [hs', squeeze_of_le 8 _ _ (by omega) (by omega)]⟩
  exact key _ _ _ _ _ _ hw (by omega)

theorem low_xof_with_correct (h : V.Ok) (cfg : Cfg) (hc : cfg.hasHash = true) (ivs : State) (iv : Word)
    (hiv : ivs = spongeInit iv) :
    XofCorrectAt .little (fun m n => squeeze 8 (absorb 12 (spongeInit iv) (fullBlocks 8 (pad 8 m))) n)
      (low_ascon_xof V cfg ivs) := by
  intro mem sp out n inp M hM _ _ hw _
  unfold low_ascon_xof
  rw [hiv]
  simp only
  rw [run_bind_of (run_update_habs h cfg hc hM), run_bind_of (h.p12 _ _), ← Gen.absorb_pad8]
  generalize absorb 12 (spongeInit iv) (fullBlocks 8 (pad 8 M)) = t
  obtain ⟨s', hs'⟩ := run_update_hsq (s := t) h cfg hc hw
  rw [run_bind_of hs']
  rfl

theorem low_xof_xof128_correct (h : V.Ok) (cfg : Cfg) (hc : cfg.hasHash = true) :
    XofCorrectAt .little xof128 (low_ascon_xof_xof128 V cfg) :=
  low_xof_with_correct h cfg hc _ _ xof_ivs

theorem low_hash256_correct (h : V.Ok) : HashCorrectAt .little hash256 32 (low_crypto_hash_hash256 V) :=
  fun mem sp out inp M hM hMl hw hs =>
    low_xof_with_correct h .hash rfl _ _ hash_ivs mem sp out 32 inp M hM hMl (by omega) hw hs

theorem low_xof128_correct (h : V.Ok) (cfg : Cfg) (hc : cfg.hasHash = true) :
    HashCorrectAt .little (fun m => xof128 m 64) 64 (low_crypto_hash_xof128 V cfg) :=
  fun mem sp out inp M hM hMl hw hs =>
    low_xof_xof128_correct h cfg hc mem sp out 64 inp M hM hMl (by omega) hw hs

end Ascon.Opt8
