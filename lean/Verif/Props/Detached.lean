import Verif.Proof.Detached
import Verif.Props.Demo
/-!
# C68: the interface with a separate tag

`ascon_aead_encrypt` and `ascon_aead_decrypt` (src/ascon.h:39-44) for every directory that exports them.
-/

namespace Ascon.Props

open Ascon Ascon.Spec Ascon.C Ascon.C.Prog Ascon.Impl

attribute [local irreducible] perm

theorem det_accept_iff (K N A B T : List Byte) (hT : T.length = 16) :
    T = aeadDecTag K N A B ↔ ∃ P, B ++ T = aeadEncrypt K N A P := by
  constructor
  · intro h
    refine ⟨aeadCandidate K N A B, ?_⟩
    apply aeadEncrypt_of_aeadDecrypt
    unfold aeadDecrypt
    have hl : (B ++ T).length - 16 = B.length := by simp [hT]
    rw [if_neg (by simp [hT])]
    simp only [hl, List.take_left', List.drop_left']
    rw [if_pos h]
  · rintro ⟨P, h⟩
    have hl := congrArg List.length h
    rw [length_aeadEncrypt, List.length_append, hT] at hl
    have hd := congrArg (List.drop P.length) h
    have ht := congrArg (List.take P.length) h
    have hPB : P.length = B.length := by omega
    rw [hPB, List.drop_left' rfl, ← hPB, drop_aeadEncrypt] at hd
    rw [hPB, List.take_left' rfl, ← hPB, take_aeadEncrypt] at ht
    rw [hd, ht, aeadDecTag, decBody_encBody]

/-- **C68, encryption** `ascon_aead_encrypt(t, c, m, mlen, ad, adlen, npub, k)` returns 0, writes the first `mlen` bytes
of the Ascon-AEAD128 ciphertext at `c`, its last 16 bytes (the tag) at `t`, and nothing else.  `t` may lie anywhere, even
in the message, the associated data, the nonce or the key: it is written last. -/
theorem C68_encrypt (i : DetCode) (e : Endian) (hi : i.runsOn e) (mem : Mem) (t c m ad npub k : Nat)
    (K N A P : List Byte) (h : DetEncPre mem t c m ad npub k K N A P) :
    ∃ mem', run (i.encrypt e t c m P.length ad A.length npub k) mem = some (0, mem') ∧
      mem'.Holds t ((aeadEncrypt K N A P).drop P.length) ∧
      (Disjoint t 16 c P.length → mem'.Holds c ((aeadEncrypt K N A P).take P.length)) ∧
      ∀ a, ¬ (c ≤ a ∧ a < c + P.length) → ¬ (t ≤ a ∧ a < t + 16) → mem' a = mem a := by
  have hl := length_aeadEncrypt K N A P
  have hb : ctBody (aeadEncrypt K N A P) = (aeadEncrypt K N A P).take P.length := by
    unfold ctBody; rw [hl, Nat.add_sub_cancel]
  have ht : ctTag (aeadEncrypt K N A P) = (aeadEncrypt K N A P).drop P.length := by
    unfold ctTag; rw [hl, Nat.add_sub_cancel]
  have l1 : ((aeadEncrypt K N A P).take P.length).length = P.length := by simp [hl]
  have l2 : ((aeadEncrypt K N A P).drop P.length).length = 16 := by simp [hl]
  refine ⟨_, i.encrypt_correct e hi mem t c m ad npub k K N A P h, ?_, ?_, ?_⟩
  · unfold detEncPost; rw [ht]; exact holds_writes_self _ _ _
  · intro hd
    unfold detEncPost; rw [ht, hb]
    exact (holds_writes_self _ _ _).writes_disjoint (by rw [l1, l2]; exact hd)
  · intro a h1 h2
    unfold detEncPost; rw [ht, hb, writes_out (by rw [l2]; omega), writes_out (by rw [l1]; omega)]

/-- **C68, decryption** `ascon_aead_decrypt(m, t, c, clen, ad, adlen, npub, k)`, with the `clen` ciphertext bytes `B`
(any number, also 0) at `c` and the tag `T` at `t`: returns 0 if `B ‖ T` is a genuine ciphertext, and then the plaintext is
at `m`; returns -1 otherwise.  Only `m[0..clen)` is written. -/
theorem C68_decrypt (i : DetCode) (e : Endian) (hi : i.runsOn e) (mem : Mem) (m t c ad npub k : Nat)
    (K N A B T : List Byte) (h : DetDecPre mem m t c ad npub k K N A B T) :
    ∃ r mem', run (i.decrypt e m t c B.length ad A.length npub k) mem = some (r, mem') ∧
      (∀ P, B ++ T = aeadEncrypt K N A P → r = 0 ∧ mem'.Holds m P) ∧
      ((¬ ∃ P, B ++ T = aeadEncrypt K N A P) → r = -1) ∧
      ∀ a, ¬ (m ≤ a ∧ a < m + B.length) → mem' a = mem a := by
  have hiff := det_accept_iff K N A B T h.tagLen
  have hlen : (aeadCandidate K N A B).length = B.length := Ref.length_decBody _ _
  refine ⟨_, _, i.decrypt_correct e hi mem m t c ad npub k K N A B T h, ?_, ?_, ?_⟩
  · intro P hP
    have hl := congrArg List.length hP
    rw [length_aeadEncrypt, List.length_append, h.tagLen] at hl
    have ht := congrArg (List.take P.length) hP
    have hPB : P.length = B.length := by omega
    rw [hPB, List.take_left' rfl, ← hPB, take_aeadEncrypt] at ht
    refine ⟨if_pos (hiff.mpr ⟨P, hP⟩), ?_⟩
    have : aeadCandidate K N A B = P := by rw [ht, aeadCandidate, decBody_encBody]
    rw [this]
    exact holds_writes_self _ _ _
  · intro hn
    exact if_neg fun h' => hn (hiff.mp h')
  · intro a ha
    exact writes_out (by rw [hlen]; omega)

/-- **C68, round trip** Encrypt with `i` (ciphertext at `c`, tag at `t`), decrypt with `j` into `m2`: 0 and the message,
whatever the two implementations. -/
theorem C68_round_trip (i j : DetCode) (e : Endian) (hi : i.runsOn e) (hj : j.runsOn e) (mem : Mem)
    (t c m ad npub k m2 : Nat) (K N A P : List Byte) (h : DetEncPre mem t c m ad npub k K N A P)
    (tc : Disjoint t 16 c P.length)
    (ck : Disjoint c P.length k 16) (cn : Disjoint c P.length npub 16) (ca : Disjoint c P.length ad A.length)
    (tk : Disjoint t 16 k 16) (tn : Disjoint t 16 npub 16) (ta : Disjoint t 16 ad A.length)
    (w2 : mem.Writable m2 P.length) (ov : m2 ≤ c ∨ c + P.length ≤ m2) (mt : Disjoint m2 P.length t 16) :
    ∃ mem1 mem2, run (i.encrypt e t c m P.length ad A.length npub k) mem = some (0, mem1) ∧
      run (j.decrypt e m2 t c P.length ad A.length npub k) mem1 = some (0, mem2) ∧ mem2.Holds m2 P := by
  have hl := length_aeadEncrypt K N A P
  have hb : ctBody (aeadEncrypt K N A P) = (aeadEncrypt K N A P).take P.length := by
    unfold ctBody; rw [hl, Nat.add_sub_cancel]
  have ht : ctTag (aeadEncrypt K N A P) = (aeadEncrypt K N A P).drop P.length := by
    unfold ctTag; rw [hl, Nat.add_sub_cancel]
  have l1 : ((aeadEncrypt K N A P).take P.length).length = P.length := by simp [hl]
  have l2 : ((aeadEncrypt K N A P).drop P.length).length = 16 := by simp [hl]
  have keep : ∀ {p : Nat} {bs : List Byte}, mem.Holds p bs → Disjoint c P.length p bs.length →
      Disjoint t 16 p bs.length → (detEncPost mem t c K N A P).Holds p bs := by
    intro p bs hp h1 h2
    unfold detEncPost
    rw [hb, ht]
    exact (hp.writes_disjoint (by rwa [l1])).writes_disjoint (by rwa [l2])
  have pre : DetDecPre (detEncPost mem t c K N A P) m2 t c ad npub k K N A
      ((aeadEncrypt K N A P).take P.length) ((aeadEncrypt K N A P).drop P.length) := by
    refine ⟨keep h.key (by rwa [h.keyLen]) (by rwa [h.keyLen]), h.keyLen,
      keep h.nonce (by rwa [h.nonceLen]) (by rwa [h.nonceLen]), h.nonceLen, keep h.adata ca ta, h.adLen, ?_,
      by rw [l1]; exact h.msgLen, ?_, l2, ?_, by rwa [l1], by rwa [l1]⟩
    · unfold detEncPost
      rw [ht, hb]
      exact (holds_writes_self _ _ _).writes_disjoint (by rw [l1, l2]; exact tc)
    · unfold detEncPost
      rw [ht]; exact holds_writes_self _ _ _
    · rw [l1]; exact w2.writes.writes
  obtain ⟨r, mem2, hr, h0, _, _⟩ := C68_decrypt j e hj _ m2 t c ad npub k K N A _ _ pre
  obtain ⟨rfl, hP⟩ := h0 P (List.take_append_drop _ _)
  rw [l1] at hr
  exact ⟨_, mem2, i.encrypt_correct e hi mem t c m ad npub k K N A P h, hr, hP⟩

/-- **C68, relation to `crypto_aead_encrypt`** With the tag pointer right behind the ciphertext, the interface with a
separate tag writes what `crypto_aead_encrypt` of any implementation writes at `c` for the same inputs. -/
theorem C68_same_bytes_as_attached (i : DetCode) (j : Aead) (e : Endian) (hi : i.runsOn e) (hj : j.runsOn e) (mem : Mem)
    (sp c clen m ad nsec npub k : Nat) (K N A P : List Byte) (h : EncPre mem sp c clen m ad npub k K N A P)
    (hlen : P.length < 2 ^ 64) :
    ∃ mem1 mem2, run (i.encrypt e (c + P.length) c m P.length ad A.length npub k) mem = some (0, mem1) ∧
      run (j.encrypt e sp c clen m P.length ad A.length nsec npub k) mem = some (0, mem2) ∧
      ∀ a, c ≤ a → a < c + P.length + 16 → mem1 a = mem2 a := by
  have hl := length_aeadEncrypt K N A P
  have pre : DetEncPre mem (c + P.length) c m ad npub k K N A P :=
    ⟨h.key, h.keyLen, h.nonce, h.nonceLen, h.adata, h.adLen, h.msg, hlen, h.out.mono (by omega) (by omega),
      h.out.mono (by omega) (by omega), h.overlap⟩
  refine ⟨_, _, i.encrypt_correct e hi mem _ c m ad npub k K N A P pre,
    j.encrypt_correct e hj mem sp c clen m ad nsec npub k K N A P h, ?_⟩
  intro a h1 h2
  have hb : (ctBody (aeadEncrypt K N A P)).length = P.length := by simp [ctBody, hl]
  have hsplit : aeadEncrypt K N A P = ctBody (aeadEncrypt K N A P) ++ ctTag (aeadEncrypt K N A P) := by
    unfold ctBody ctTag; rw [List.take_append_drop]
  have e1 : detEncPost mem (c + P.length) c K N A P = mem.writes c (aeadEncrypt K N A P) := by
    have h3 : ∀ x y : List Byte, mem.writes c (x ++ y) = (mem.writes c x).writes (c + x.length) y :=
      fun x y => writes_append _ _ _ _
    have h4 := h3 (ctBody (aeadEncrypt K N A P)) (ctTag (aeadEncrypt K N A P))
    rw [hb, ← hsplit] at h4
    rw [h4, detEncPost]
  rw [e1]
  unfold encPost
  rw [writes_in h1 (by rw [hl]; omega), writes_in h1 (by rw [hl]; omega)]

/-- **C68, constant time** The addresses, sizes and branches of both functions depend on the arguments only. -/
theorem C68_constant_time (i : DetCode) (e : Endian) (t c m n ad adlen npub k : Nat) :
    ConstTime (i.encrypt e t c m n ad adlen npub k) ∧ ConstTime (i.decrypt e m t c n ad adlen npub k) :=
  ⟨i.encrypt_ct e t c m n ad adlen npub k, i.decrypt_ct e m t c n ad adlen npub k⟩

/-- Concrete cases: tag elsewhere; tag over the nonce; received ciphertext without any plaintext bytes. -/
example : DetEncPre Demo.mem 220 200 100 32 16 0 Demo.K Demo.N Demo.A Demo.P := by
  constructor <;> first | decide +kernel | (unfold Mem.Holds; decide +kernel) | (unfold Mem.Writable; decide +kernel)

example : DetEncPre Demo.mem 16 100 100 32 16 0 Demo.K Demo.N Demo.A Demo.P := by
  constructor <;> first | decide +kernel | (unfold Mem.Holds; decide +kernel) | (unfold Mem.Writable; decide +kernel)

example : DetDecPre Demo.memC 100 220 200 32 16 0 Demo.K Demo.N Demo.A (Demo.C.take 20) (Demo.C.drop 20) := by
  constructor <;> first | decide +kernel | (unfold Mem.Holds; decide +kernel) | (unfold Mem.Writable; decide +kernel) |
    (unfold Disjoint; decide +kernel)

example : DetDecPre Demo.memC 5000 220 6000 32 16 0 Demo.K Demo.N Demo.A [] (Demo.C.drop 20) := by
  constructor <;> first | decide +kernel | (unfold Mem.Holds; decide +kernel) | (unfold Mem.Writable; decide +kernel) |
    (unfold Disjoint; decide +kernel)

example : ∃ mem1 mem2,
    run (DetCode.encrypt (.gen .bi32) .little 220 200 100 20 32 5 16 0) Demo.mem = some (0, mem1) ∧
    run (DetCode.decrypt (.byteLow .avr false) .little 200 220 200 20 32 5 16 0) mem1 = some (0, mem2) ∧
    mem2.Holds 200 Demo.P := by
  refine C68_round_trip (.gen .bi32) (.byteLow .avr false) .little rfl rfl Demo.mem 220 200 100 32 16 0 200
    Demo.K Demo.N Demo.A Demo.P ?_ ?_ ?_ ?_ ?_ ?_ ?_ ?_ ?_ ?_ ?_
  · constructor <;> first | decide +kernel | (unfold Mem.Holds; decide +kernel) | (unfold Mem.Writable; decide +kernel)
  all_goals first | (unfold Disjoint; decide +kernel) | (unfold Mem.Writable; decide +kernel) | decide +kernel

end Ascon.Props
