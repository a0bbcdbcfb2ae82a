import Verif.Proof.Neon
import Verif.Proof.GenAead
import Verif.C.Contracts
/-!
# crypto_aead_encrypt and crypto_aead_decrypt of neon
-/

namespace Ascon.Neon

open Ascon.C Ascon.Asm Ascon.Spec Ascon.Gen
open Ascon.C.Prog (require ifc loop loadN storeN store64)

attribute [local irreducible] Spec.perm roundBody P8ROUNDS P12ROUNDS perm

/-- Not by `rfl`, so that `simp` does not leave the kernel to compare evaluated states. -/
theorem encS_id' (s : State) : encS (fun w => w) s = s := by
  cases s
  simp [encS]

theorem enc_correct {mem : Mem} {fuel : Nat} {regs : Nat → Word} {sp c clen m ad npub k : Nat} {K N A P : List Byte}
    (h' : EncPre mem sp c clen m ad npub k K N A P) (hfa : A.length < fuel) (hfp : P.length < fuel)
    (hla : A.length < 2 ^ 32) (hlp : P.length < 2 ^ 32) (haa : 16 ≤ A.length → ad % 4 = 0)
    (hap : 16 ≤ P.length → m % 4 = 0 ∧ c % 4 = 0) :
    run (crypto_aead_encrypt fuel .little regs c clen m P.length ad A.length npub k) mem =
      some (0, encPost .little mem c clen K N A P) := by
  have h := backend_ok .little
  unfold crypto_aead_encrypt encPost
  rw [run_bind_of (Ref.run_store64 h'.outLen)]
  have hsep : ∀ {q : Nat} {bs : List Byte}, mem.Holds q bs → Disjoint clen 8 q bs.length →
      (mem.writes clen (repr64 .little (BitVec.ofNat 64 (P.length + 16)))).Holds q bs := fun hq hd =>
    hq.writes_disjoint (by rwa [Ref.length_repr64])
  have hk := hsep h'.key (by rw [h'.keyLen]; exact h'.sepKey)
  have hn := hsep h'.nonce (by rw [h'.nonceLen]; exact h'.sepNonce)
  have ha := hsep h'.adata h'.sepAd
  have hm := hsep h'.msg h'.sepMsg
  have hw : (mem.writes clen (repr64 .little (BitVec.ofNat 64 (P.length + 16)))).Writable c (P.length + 16) :=
    h'.out.writes
  have ho := h'.overlap
  generalize mem.writes clen (repr64 .little (BitVec.ofNat 64 (P.length + 16))) = mem1 at *
  unfold ascon_aead_encrypt ascon_gettag
  simp only
  have hinit := run_initaead h (K := K) hn h'.nonceLen
  have hfin := fun s mem => run_final h (mem := mem) s K
  have hld := run_loadkey h hk h'.keyLen
  simp only [encS_id'] at hinit hfin hld
  rw [run_bind_of hld, run_bind_of hinit,
    run_bind_of (run_adata ha hfa hla haa), run_bind_of (run_encrypt hm (hw.mono (by omega) (by omega)) ho hfp hlp hap),
    run_bind_of (hfin _ _)]
  have hlen := Ref.length_encBody (aeadAd A (aeadInit K N)) P
  have e1 : aeadEncrypt K N A P = (encBody (aeadAd A (aeadInit K N)) P).2 ++
      aeadTag K (encBody (aeadAd A (aeadInit K N)) P).1 := rfl
  rw [e1]
  generalize encBody (aeadAd A (aeadInit K N)) P = r at *
  have e2 : aeadTag K r.1 = bytes64 (addKeyLast K (Spec.perm 12 (addKeyMid K r.1))).x3 ++
      bytes64 (addKeyLast K (Spec.perm 12 (addKeyMid K r.1))).x4 := rfl
  rw [e2]
  generalize addKeyLast K (Spec.perm 12 (addKeyMid K r.1)) = t
  have hs3 : ∀ mem : Mem, mem.Writable (c + P.length) 8 →
      run (STOREBYTES backend .little (c + P.length) t.x3 8) mem = some ((), mem.writes (c + P.length) (bytes64 t.x3)) :=
    fun mem hw => run_STORE h hw
  have hs4 : ∀ mem : Mem, mem.Writable (c + P.length + 8) 8 →
      run (STOREBYTES backend .little (c + P.length + 8) t.x4 8) mem =
        some ((), mem.writes (c + P.length + 8) (bytes64 t.x4)) := fun mem hw => run_STORE h hw
  rw [run_bind_of (by
    rw [run_bind_of (hs3 _ (hw.writes.mono (by omega) (by omega))),
      hs4 _ (hw.writes.writes.mono (by omega) (by omega))])]
  rw [writes_append, writes_append, hlen, length_bytes64]
  rfl

theorem dec_correct {mem : Mem} {fuel : Nat} {regs : Nat → Word} {sp m mlen c ad npub k : Nat} {K N A C : List Byte}
    (h' : DecPre mem sp m mlen c ad npub k K N A C) (hfa : A.length < fuel) (hfc : C.length < fuel)
    (hla : A.length < 2 ^ 32) (hlc : C.length - 16 < 2 ^ 32) (haa : 16 ≤ A.length → ad % 4 = 0)
    (hac : 32 ≤ C.length → c % 4 = 0 ∧ m % 4 = 0) :
    run (crypto_aead_decrypt fuel .little regs m mlen c C.length ad A.length npub k) mem =
      some (if ctTag C = aeadDecTag K N A (ctBody C) then 0 else -1, decPost .little mem m mlen K N A C) := by
  have h := backend_ok .little
  unfold crypto_aead_decrypt decPost
  have h16 := h'.ctMin
  rw [run_ifc, if_neg (by simpa using h16), run_bind_of (Ref.run_store64 h'.outLen)]
  have hsep : ∀ {q : Nat} {bs : List Byte}, mem.Holds q bs → Disjoint mlen 8 q bs.length →
      (mem.writes mlen (repr64 .little (BitVec.ofNat 64 (C.length - 16)))).Holds q bs := fun hq hd =>
    hq.writes_disjoint (by rwa [Ref.length_repr64])
  have hk := hsep h'.key (by rw [h'.keyLen]; exact h'.sepKey)
  have hn := hsep h'.nonce (by rw [h'.nonceLen]; exact h'.sepNonce)
  have ha := hsep h'.adata h'.sepAd
  have hc := hsep h'.ct h'.sepCt
  have hw : (mem.writes mlen (repr64 .little (BitVec.ofNat 64 (C.length - 16)))).Writable m (C.length - 16) :=
    h'.out.writes
  have ho := h'.overlap
  generalize mem.writes mlen (repr64 .little (BitVec.ofNat 64 (C.length - 16))) = mem1 at *
  have hbl : (ctBody C).length = C.length - 16 := by simp [ctBody]
  have htl : (ctTag C).length = 16 := by simp [ctTag]; omega
  have hcb : mem1.Holds c (ctBody C) := hc.take _
  have hct : mem1.Holds (c + (C.length - 16)) (ctTag C) := hc.drop _ (by omega)
  unfold ascon_aead_decrypt
  simp only
  have hinit := run_initaead h (K := K) hn h'.nonceLen
  have hfin := fun s mem => run_final h (mem := mem) s K
  have hld := run_loadkey h hk h'.keyLen
  simp only [encS_id'] at hinit hfin hld
  rw [← hbl] at hw hct ⊢
  rw [run_bind_of hld, run_bind_of hinit,
    run_bind_of (run_adata ha hfa hla haa),
    run_bind_of (run_decrypt hcb hw (by omega) (by omega) (by omega) (by omega)),
    run_bind_of (hfin _ _)]
  have hlen := Ref.length_decBody (aeadAd A (aeadInit K N)) (ctBody C)
  have e1 : aeadCandidate K N A (ctBody C) = (decBody (aeadAd A (aeadInit K N)) (ctBody C)).2 := rfl
  have e2 : aeadDecTag K N A (ctBody C) = aeadTag K (decBody (aeadAd A (aeadInit K N)) (ctBody C)).1 := rfl
  rw [e1, e2]
  generalize decBody (aeadAd A (aeadInit K N)) (ctBody C) = r at *
  have hct2 : (mem1.writes m r.2).Holds (c + (ctBody C).length) (ctTag C) := by
    apply hct.writes_disjoint
    unfold Disjoint; rw [hlen]; omega
  have hv := fun s => run_verify h (s := s) hct2 htl
  simp only [encS_id'] at hv
  rw [hv]
  rfl

theorem dec_short {mem : Mem} {fuel : Nat} {regs : Nat → Word} {e : Endian} {m mlen c clen ad adlen npub k : Nat}
    (h : clen < 16) : run (crypto_aead_decrypt fuel e regs m mlen c clen ad adlen npub k) mem = some (-1, mem) := by
  unfold crypto_aead_decrypt
  rw [run_ifc, if_pos (by simpa using h)]; rfl

/-! ## Failures -/

theorem run_bind_none {α β} {p : Prog α} {f : α → Prog β} {mem : Mem} (h : run p mem = none) :
    run (p >>= f) mem = none := by rw [run_bind, h]; rfl

/-- If the rest fails from every intermediate state the whole fails. -/
theorem run_bind_all_none {α β} {p : Prog α} {f : α → Prog β} {mem : Mem} (h : ∀ a mem', run (f a) mem' = none) :
    run (p >>= f) mem = none := by
  rw [run_bind]
  cases run p mem with
  | none => rfl
  | some r => exact h r.1 r.2

theorem loop_none {σ} {cond : σ → Bool} {body : σ → Prog σ} (I : σ → Prop) (hc : ∀ s, I s → cond s = true)
    (hb : ∀ s mem s' mem', I s → run (body s) mem = some (s', mem') → I s') (fuel : Nat) (s : σ) (hs : I s) (mem : Mem) :
    run (loop fuel cond body s) mem = none := by
  induction fuel generalizing s mem with
  | zero => rfl
  | succ f ih =>
    cases hr : run (body s) mem with
    | none =>
      unfold loop
      rw [run_ifc, hc s hs, if_pos rfl]
      exact run_bind_none hr
    | some r =>
      rw [Ascon.C.run_loop_step (hc s hs) hr]
      exact ih r.1 (hb s mem r.1 r.2 hs hr) r.2

theorem run_bind_some {α β} {p : Prog α} {f : α → Prog β} {mem : Mem} {r : β × Mem} (h : run (p >>= f) mem = some r) :
    ∃ a mem', run p mem = some (a, mem') ∧ run (f a) mem' = some r := by
  rw [run_bind] at h
  cases hp : run p mem with
  | none => rw [hp] at h; exact absurd h (by simp)
  | some q => rw [hp] at h; exact ⟨q.1, q.2, rfl, h⟩

theorem bhi_start' (n : Nat) (h : n < 2 ^ 64) : (Len.start n).bhi = decide (16 ≤ n) := by
  by_cases h32 : n < 2 ^ 32
  · exact bhi_start n h32
  · rw [stuck_bhi (stuck_start n (by omega) h), decide_eq_true (by omega)]

theorem loop_body_none {σ} {cond : σ → Bool} {body : σ → Prog σ} {s : σ} {mem : Mem} (fuel : Nat) (hc : cond s = true)
    (hb : run (body s) mem = none) : run (loop fuel cond body s) mem = none := by
  cases fuel with
  | zero => rfl
  | succ f =>
    unfold loop
    rw [run_ifc, hc, if_pos rfl]
    exact run_bind_none hb

theorem vldm_unaligned {e : Endian} {p : Nat} {mem : Mem} (h : p % 4 ≠ 0) : run (vldm e p) mem = none := by
  unfold vldm
  apply run_bind_none
  unfold require
  rw [if_neg (by simpa using h)]
  rfl

theorem vstm_unaligned {e : Endian} {p : Nat} {a b : Word} {mem : Mem} (h : p % 4 ≠ 0) :
    run (vstm e p a b) mem = none := by
  unfold vstm
  apply run_bind_none
  unfold require
  rw [if_neg (by simpa using h)]
  rfl

/-- The associated data loop fails on an unaligned buffer, and does not end for 2^32 bytes or more. -/
theorem adata_none {fuel : Nat} {e : Endian} {regs : Nat → Word} {s : State} {ad adlen : Nat} {mem : Mem}
    (h64 : adlen < 2 ^ 64) (h : (16 ≤ adlen ∧ ad % 4 ≠ 0) ∨ 2 ^ 32 ≤ adlen) :
    run (ascon_adata fuel e regs s ad adlen) mem = none := by
  unfold ascon_adata
  apply run_bind_none
  rw [run_ifc, if_pos (decide_eq_true (by omega))]
  apply run_bind_none
  unfold AD
  apply run_bind_none
  rcases h with ⟨h1, h2⟩ | h
  · apply loop_body_none
    · show (Len.start _).bhi = _
      rw [bhi_start' _ h64, decide_eq_true h1]
    · unfold adStep
      exact run_bind_none (vldm_unaligned h2)
  · apply loop_none (fun x : M 64 × Nat × Len => Stuck x.2.2)
    · rintro ⟨a, b, l⟩ hl
      exact stuck_bhi hl
    · rintro ⟨a, b, l⟩ mem1 s' mem2 hl hr
      unfold adStep at hr
      obtain ⟨x, m1, _, hr⟩ := run_bind_some hr
      obtain ⟨y, m2, _, hr⟩ := run_bind_some hr
      rw [run_pure'] at hr
      injection hr with hr; injection hr with hr _
      rw [← hr]
      exact stuck_next hl
    · exact stuck_start _ h h64

theorem encrypt_none {fuel : Nat} {e : Endian} {regs : Nat → Word} {s : State} {c m mlen : Nat} {mem : Mem}
    (h64 : mlen < 2 ^ 64) (h : (16 ≤ mlen ∧ (m % 4 ≠ 0 ∨ c % 4 ≠ 0)) ∨ 2 ^ 32 ≤ mlen) :
    run (ascon_encrypt fuel e regs s c m mlen) mem = none := by
  unfold ascon_encrypt
  apply run_bind_none
  unfold PT
  apply run_bind_none
  rcases h with ⟨h1, h2⟩ | h
  · apply loop_body_none
    · show (Len.start _).bhi = _
      rw [bhi_start' _ h64, decide_eq_true h1]
    · unfold ptStep
      rcases h2 with h2 | h2
      · exact run_bind_none (vldm_unaligned h2)
      · exact run_bind_all_none fun _ _ => run_bind_all_none fun _ _ => run_bind_none (vstm_unaligned h2)
  · apply loop_none (fun x : M 64 × Nat × Nat × Len => Stuck x.2.2.2)
    · rintro ⟨a, b, b', l⟩ hl
      exact stuck_bhi hl
    · rintro ⟨a, b, b', l⟩ mem1 s' mem2 hl hr
      unfold ptStep at hr
      obtain ⟨x, m1, _, hr⟩ := run_bind_some hr
      obtain ⟨y, m2, _, hr⟩ := run_bind_some hr
      obtain ⟨z, m3, _, hr⟩ := run_bind_some hr
      obtain ⟨u, m4, _, hr⟩ := run_bind_some hr
      rw [run_pure'] at hr
      injection hr with hr; injection hr with hr _
      rw [← hr]
      exact stuck_next hl
    · exact stuck_start _ h h64

theorem decrypt_none {fuel : Nat} {e : Endian} {regs : Nat → Word} {s : State} {m c clen : Nat} {mem : Mem}
    (h64 : clen < 2 ^ 64) (h : (16 ≤ clen ∧ (c % 4 ≠ 0 ∨ m % 4 ≠ 0)) ∨ 2 ^ 32 ≤ clen) :
    run (ascon_decrypt fuel e regs s m c clen) mem = none := by
  unfold ascon_decrypt
  apply run_bind_none
  unfold CT
  apply run_bind_none
  rcases h with ⟨h1, h2⟩ | h
  · apply loop_body_none
    · show (Len.start _).bhi = _
      rw [bhi_start' _ h64, decide_eq_true h1]
    · unfold ctStep
      rcases h2 with h2 | h2
      · exact run_bind_none (vldm_unaligned h2)
      · exact run_bind_all_none fun _ _ => run_bind_all_none fun _ _ => run_bind_none (vstm_unaligned h2)
  · apply loop_none (fun x : M 64 × Nat × Nat × Len => Stuck x.2.2.2)
    · rintro ⟨a, b, b', l⟩ hl
      exact stuck_bhi hl
    · rintro ⟨a, b, b', l⟩ mem1 s' mem2 hl hr
      unfold ctStep at hr
      obtain ⟨x, m1, _, hr⟩ := run_bind_some hr
      obtain ⟨y, m2, _, hr⟩ := run_bind_some hr
      obtain ⟨z, m3, _, hr⟩ := run_bind_some hr
      obtain ⟨u, m4, _, hr⟩ := run_bind_some hr
      rw [run_pure'] at hr
      injection hr with hr; injection hr with hr _
      rw [← hr]
      exact stuck_next hl
    · exact stuck_start _ h h64

theorem enc_none {fuel : Nat} {e : Endian} {regs : Nat → Word} {c clen m mlen ad adlen npub k : Nat} {mem : Mem}
    (ha : adlen < 2 ^ 64) (hm : mlen < 2 ^ 64)
    (h : ((16 ≤ adlen ∧ ad % 4 ≠ 0) ∨ 2 ^ 32 ≤ adlen) ∨ ((16 ≤ mlen ∧ (m % 4 ≠ 0 ∨ c % 4 ≠ 0)) ∨ 2 ^ 32 ≤ mlen)) :
    run (crypto_aead_encrypt fuel e regs c clen m mlen ad adlen npub k) mem = none := by
  unfold crypto_aead_encrypt
  refine run_bind_all_none fun _ _ => ?_
  unfold ascon_aead_encrypt
  refine run_bind_all_none fun _ _ => run_bind_all_none fun _ _ => ?_
  rcases h with h | h
  · exact run_bind_none (adata_none ha h)
  · exact run_bind_all_none fun _ _ => run_bind_none (encrypt_none hm h)

theorem dec_none {fuel : Nat} {e : Endian} {regs : Nat → Word} {m mlen c clen ad adlen npub k : Nat} {mem : Mem}
    (ha : adlen < 2 ^ 64) (hm : clen < 2 ^ 64) (h16 : 16 ≤ clen)
    (h : ((16 ≤ adlen ∧ ad % 4 ≠ 0) ∨ 2 ^ 32 ≤ adlen) ∨
      ((16 ≤ clen - 16 ∧ (c % 4 ≠ 0 ∨ m % 4 ≠ 0)) ∨ 2 ^ 32 ≤ clen - 16)) :
    run (crypto_aead_decrypt fuel e regs m mlen c clen ad adlen npub k) mem = none := by
  unfold crypto_aead_decrypt
  rw [run_ifc, if_neg (by simpa using h16)]
  refine run_bind_all_none fun _ _ => ?_
  unfold ascon_aead_decrypt
  refine run_bind_all_none fun _ _ => run_bind_all_none fun _ _ => ?_
  rcases h with h | h
  · exact run_bind_none (adata_none ha h)
  · exact run_bind_all_none fun _ _ => run_bind_none (decrypt_none (by omega) h)

end Ascon.Neon
