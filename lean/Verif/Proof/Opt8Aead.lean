import Verif.Proof.Opt8Perm
import Verif.Proof.GenAead
/-!
# src/opt8/aead.c meets its contract on little-endian machines
-/

namespace Ascon.Opt8

open Ascon.C Ascon.Spec
open Ascon.C.Prog (require ifc loop forUp loadB storeB loadN storeN store64 load64)

attribute [local irreducible] perm

variable {V : Perms}

/-! ### Whole words -/

theorem run_ABSORB8 {mem : Mem} {s : State} {d : Nat} {bs : List Byte} (i : Nat) (hi : i < 5)
    (hd : mem.Holds d bs) (h8 : 8 ≤ bs.length) :
    run (ABSORB .little s (8 * i) d 8) mem = some (xorAt s i (le64 (bs.take 8)), mem) := by
  have := run_ABSORB (s := s) hi (hd.take 8) (by simp; omega)
  rwa [show (bs.take 8).length = 8 by simp; omega] at this

theorem run_INSERT8 {mem : Mem} {s : State} {d : Nat} {bs : List Byte} (i : Nat) (hi : i < 5)
    (hd : mem.Holds d bs) (h8 : 8 ≤ bs.length) :
    run (INSERT .little s (8 * i) d 8) mem = some (putWord s i (le64 (bs.take 8)), mem) :=
  run_INSERT hi (hd.take 8) (by simp; omega)

theorem run_INSERT16 {mem : Mem} {s : State} {d : Nat} {bs : List Byte} (i : Nat) (hi : i < 5)
    (hd : mem.Holds d bs) (h8 : bs.length = 16) :
    run (INSERT .little s (8 * i) (d + 8) 8) mem = some (putWord s i (le64 (bs.drop 8)), mem) :=
  run_INSERT hi (hd.drop 8 (by omega)) (by simp; omega)

theorem run_ENCRYPT8 {mem : Mem} {s : State} {c m : Nat} {bs : List Byte} (i : Nat) (hi : i < 5)
    (hm : mem.Holds m bs) (h8 : 8 ≤ bs.length) (hw : mem.Writable c 8) (ho : c ≤ m ∨ m + bs.length ≤ c) :
    run (ENCRYPT .little s (8 * i) c m 8) mem =
      some (xorAt s i (le64 (bs.take 8)), mem.writes c (bytes64 (wordAt s i ^^^ le64 (bs.take 8)))) := by
  have hl : (bs.take 8).length = 8 := by simp; omega
  have := run_ENCRYPT (s := s) (c := c) hi (hm.take 8) (by rw [hl]; exact hw) (by omega) (by omega)
  rw [hl] at this
  rwa [List.take_of_length_le (i := 8) (l := bytes64 _) (by simp [length_bytes64])] at this

theorem run_DECRYPT8 {mem : Mem} {s : State} {m c : Nat} {bs : List Byte} (i : Nat) (hi : i < 5)
    (hc : mem.Holds c bs) (h8 : 8 ≤ bs.length) (hw : mem.Writable m 8) (ho : m ≤ c ∨ c + bs.length ≤ m) :
    run (DECRYPT .little s (8 * i) m c 8) mem =
      some (putWord s i (le64 (bs.take 8)), mem.writes m (bytes64 (wordAt s i ^^^ le64 (bs.take 8)))) := by
  have hl : (bs.take 8).length = 8 := by simp; omega
  have := run_DECRYPT (s := s) (m := m) hi (hc.take 8) (by rw [hl]; exact hw) (by omega) (by omega)
  rw [hl] at this
  have e1 : xorBytes ((bytes64 (wordAt s i)).take 8) (bs.take 8) = bytes64 (wordAt s i ^^^ le64 (bs.take 8)) := by
    rw [List.take_of_length_le (i := 8) (by simp [length_bytes64]), bytes64_xor, bytes64_le64 _ hl]
  rw [e1, le64_bytes64, ← putWord_xor, wordOf_eq, ← BitVec.xor_assoc, BitVec.xor_self, BitVec.zero_xor] at this
  exact this

/-! ### Initialization and associated data -/

theorem run_loadkey {mem : Mem} {k : Nat} {K : List Byte} (hk : mem.Holds k K) (hK : K.length = 16) :
    ∃ key : State, key.x0 = le64 (K.take 8) ∧ key.x1 = le64 (K.drop 8) ∧
      run (ascon_loadkey .little k) mem = some (key, mem) := by
  unfold ascon_loadkey
  refine ⟨putWord (putWord junk 0 (le64 (K.take 8))) 1 (le64 (K.drop 8)), rfl, rfl, ?_⟩
  rw [run_bind_of (run_INSERT8 0 (by omega) hk (by omega))]
  exact run_INSERT16 1 (by omega) hk hK

theorem xorAt_keyLast (t : State) (K : List Byte) :
    xorAt (xorAt t 3 (le64 (K.take 8))) (3 + 1) (le64 (K.drop 8)) = addKeyLast K t := rfl

theorem xorAt_keyMid (t : State) (K : List Byte) :
    xorAt (xorAt t 2 (le64 (K.take 8))) (2 + 1) (le64 (K.drop 8)) = addKeyMid K t := rfl

theorem run_initaead (h : V.Ok) {mem : Mem} {npub : Nat} {key : State} {K N : List Byte}
    (hk0 : key.x0 = le64 (K.take 8)) (hk1 : key.x1 = le64 (K.drop 8))
    (hn : mem.Holds npub N) (hN : N.length = 16) :
    run (ascon_initaead V .little key npub) mem = some (aeadInit K N, mem) := by
  unfold ascon_initaead
  simp only
  rw [run_bind_of (run_INSERT8 3 (by omega) hn (by omega)), run_bind_of (run_INSERT16 4 (by omega) hn hN)]
  have e : putWord (putWord { x0 := ASCON_128A_IV, x1 := key.x0, x2 := key.x1, x3 := junk.x3, x4 := junk.x4 } 3
      (le64 (N.take 8))) 4 (le64 (N.drop 8)) =
      ⟨ivAead, le64 (K.take 8), le64 (K.drop 8), le64 (N.take 8), le64 (N.drop 8)⟩ := by
    rw [hk0, hk1]; rfl
  have ea : aeadInit K N = addKeyLast K (perm 12
    ⟨ivAead, le64 (K.take 8), le64 (K.drop 8), le64 (N.take 8), le64 (N.drop 8)⟩) := rfl
  rw [e, ea]
  generalize (⟨ivAead, le64 (K.take 8), le64 (K.drop 8), le64 (N.take 8), le64 (N.drop 8)⟩ : State) = q
  rw [run_bind_of (h.p12 q mem)]
  generalize perm 12 q = t
  rw [run_memxor (i := 3) (by omega), hk0, hk1, xorAt_keyLast]

theorem run_adStep (h : V.Ok) {mem : Mem} (s : State) (ad n : Nat) (A : List Byte)
    (ha : mem.Holds ad A) (h16 : 16 ≤ A.length) :
    run (adStep V .little (s, ad, n)) mem =
      some ((perm 8 (xorIn s (A.take 16)), ad + 16, n - 16), mem) := by
  unfold adStep
  simp only
  rw [run_bind_of (run_ABSORB8 0 (by omega) ha (by omega)),
    run_bind_of (run_ABSORB8 1 (by omega) (ha.drop 8 (by omega)) (by simp; omega))]
  have hx : xorIn s (A.take 16) = xorAt (xorAt s 0 (le64 (A.take 8))) 1 (le64 ((A.drop 8).take 8)) := by
    rw [xorIn_of_le16 _ _ (by simp; omega), List.take_take, List.drop_take]
    rfl
  rw [← hx, run_bind_of (h.p8 _ _)]
  rfl

theorem run_adFinal {mem : Mem} (t : State) (p : Nat) (l : List Byte) (hl : mem.Holds p l)
    (h16 : l.length < 16) :
    run (adFinal .little t p l.length) mem = some (xorIn t (pad 16 l), mem) := by
  unfold adFinal
  by_cases h8 : 8 ≤ l.length
  · rw [run_bind, run_ifc, if_pos (by simpa using h8), run_bind_of (run_ABSORB8 0 (by omega) hl h8)]
    simp only [run_pure', Option.bind_some]
    have := run_ABSORB (s := xorAt t 0 (le64 (l.take 8))) (i := 1) (by omega) (hl.drop 8 h8) (by simp; omega)
    rw [List.length_drop] at this
    rw [run_bind_of this, run_pad (by omega) (by omega), xorIn_pad16_ge8 t l h8 h16]
    rfl
  · rw [run_bind, run_ifc, if_neg (by simpa using h8)]
    simp only [run_pure', Option.bind_some]
    have := run_ABSORB (s := t) (i := 0) (by omega) hl (by omega)
    rw [run_bind_of this, run_pad (by omega) (by omega), xorIn_pad16_lt8 t l (by omega)]
    rfl

theorem run_adata (h : V.Ok) {mem : Mem} {s : State} {ad : Nat} {A : List Byte} (ha : mem.Holds ad A) :
    run (ascon_adata V .little s ad A.length) mem = some (aeadAd A s, mem) := by
  unfold ascon_adata aeadAd
  have key : run (ifc (decide (A.length ≠ 0))
      (do
        let (s, ad, adlen) ←
          loop (A.length + 1) (fun (_, _, adlen) => decide (adlen ≥ 16)) (adStep V .little) (s, ad, A.length)
        let s ← adFinal .little s ad adlen
        V.P8 .little s)
      (pure s)) mem =
      some ((if A = [] then s else absorb 8 s (fullBlocks 16 (pad 16 A))), mem) := by
    rw [run_ifc]
    by_cases h0 : A = []
    · simp [h0]
    · have : A.length ≠ 0 := by simpa using h0
      rw [if_pos (by simpa using this), if_neg h0]
      have hl := run_absorbLoop id 16 8 (by omega)
        (cond := fun (_, _, adlen) => decide (adlen ≥ 16)) (step := adStep V .little) (fun _ _ _ => rfl) (mem := mem)
        (fun s p n M hM h16 => run_adStep h s p n M hM h16) (A.length + 1) s ad A ha (by omega)
      simp only [id] at hl
      rw [run_bind_of hl]
      simp only
      have hb := ha.lastBlock 16
      have hll := length_lastBlock 16 A
      rw [fullBlocks_pad 16 A (by omega), ← hll]
      simp only [absorb, List.foldl_append, List.foldl_cons, List.foldl_nil]
      rw [run_bind_of (run_adFinal _ _ _ hb (by omega)), h.p8]
  rw [run_bind_of key]
  generalize (if A = [] then s else _) = t
  rw [run_dsep]

/-! ### Encryption -/

theorem run_encStep (h : V.Ok) (mem : Mem) (s : State) (c m n : Nat) (P : List Byte)
    (hm : mem.Holds m P) (h16 : 16 ≤ P.length) (hw : mem.Writable c 16) (ho : c ≤ m ∨ m + P.length ≤ c) :
    run (encStep V .little (s, c, m, n)) mem =
      some ((perm 8 (xorIn s (P.take 16)), c + 16, m + 16, n - 16),
        mem.writes c (rate 16 (xorIn s (P.take 16)))) := by
  unfold encStep
  simp only
  rw [run_bind_of (run_ENCRYPT8 0 (by omega) hm (by omega) (hw.mono (by omega) (by omega)) ho)]
  have hm8 : (mem.writes c (bytes64 (wordAt s 0 ^^^ le64 (P.take 8)))).Holds (m + 8) (P.drop 8) := by
    apply (hm.drop 8 (by omega)).writes_disjoint
    unfold Disjoint; simp only [length_bytes64, List.length_drop]; omega
  rw [run_bind_of (run_ENCRYPT8 1 (by omega) hm8 (by simp; omega) (hw.writes.mono (by omega) (by omega))
    (by simp; omega))]
  have hx : xorIn s (P.take 16) = xorAt (xorAt s 0 (le64 (P.take 8))) 1 (le64 ((P.drop 8).take 8)) := by
    rw [xorIn_of_le16 _ _ (by simp; omega), List.take_take, List.drop_take]
    rfl
  rw [← hx, run_bind_of (h.p8 _ _), rate_16, writes_append, length_bytes64, hx]
  rfl

theorem run_encFinal {mem : Mem} {t : State} {c p : Nat} {l : List Byte} (hl : mem.Holds p l)
    (h16 : l.length < 16) (hw : mem.Writable c l.length) (ho : c ≤ p ∨ p + l.length ≤ c) :
    run (encFinal .little t c p l.length) mem =
      some (xorIn t (pad 16 l), mem.writes c (rate l.length (xorIn t (pad 16 l)))) := by
  unfold encFinal
  by_cases h8 : 8 ≤ l.length
  · rw [run_bind, run_ifc, if_pos (by simpa using h8), run_bind_of (run_ENCRYPT8 0 (by omega) hl h8
      (hw.mono (by omega) (by omega)) ho)]
    simp only [run_pure', Option.bind_some]
    have hl8 : (mem.writes c (bytes64 (wordAt t 0 ^^^ le64 (l.take 8)))).Holds (p + 8) (l.drop 8) := by
      apply (hl.drop 8 (by omega)).writes_disjoint
      unfold Disjoint; simp only [length_bytes64, List.length_drop]; omega
    have hd : (l.drop 8).length = l.length - 8 := by simp
    have := run_ENCRYPT (s := xorAt t 0 (le64 (l.take 8))) (i := 1) (c := c + 8) (by omega) hl8
      (hw.writes.mono (by omega) (by omega)) (by omega) (by omega)
    rw [hd] at this
    rw [run_bind_of this, run_pad (by omega) (by omega), xorIn_pad16_ge8 t l h8 h16,
      rate_le16 _ _ h8 (by omega), writes_append, length_bytes64, take_bytes64_xor_pad _ _ (by omega)]
    rfl
  · rw [run_bind, run_ifc, if_neg (by simpa using h8)]
    simp only [run_pure', Option.bind_some]
    have := run_ENCRYPT (s := t) (i := 0) (by omega) hl hw ho (by omega)
    rw [run_bind_of this, run_pad (by omega) (by omega), xorIn_pad16_lt8 t l (by omega),
      rate_le8 _ _ (by omega), take_bytes64_xor_pad _ _ (by omega)]
    rfl

theorem run_encrypt (h : V.Ok) {mem : Mem} {s : State} {c m : Nat} {P : List Byte} (hm : mem.Holds m P)
    (hw : mem.Writable c P.length) (ho : c ≤ m ∨ m + P.length ≤ c) :
    run (ascon_encrypt V .little s c m P.length) mem = some ((encBody s P).1, mem.writes c (encBody s P).2) := by
  unfold ascon_encrypt
  have hl := run_encryptLoop id (cond := fun (_, _, _, mlen) => decide (mlen ≥ 16)) (step := encStep V .little)
    (fun _ _ _ _ => rfl) (fun mem s c m n P a b d f => run_encStep h mem s c m n P a b d f)
    (P.length + 1) s mem c m P hm hw ho (by omega)
  simp only [id] at hl
  rw [run_bind_of hl]
  simp only
  have hlen := Ref.length_encBlocks s (fullBlocks 16 P)
  rw [Ref.length_fullBlocks] at hlen
  have hb := hm.lastBlock 16
  have hll := length_lastBlock 16 P
  have hdm := Nat.div_add_mod P.length 16
  rw [← hll]
  have hb2 : (mem.writes c (encBlocks s (fullBlocks 16 P)).2).Holds (m + 16 * (P.length / 16)) (lastBlock 16 P) := by
    apply hb.writes_disjoint
    unfold Disjoint; omega
  rw [run_encFinal hb2 (by omega) (hw.writes.mono (by omega) (by omega)) (by omega)]
  unfold encBody
  simp only
  rw [writes_append, hlen]

/-! ### Decryption -/

theorem run_decStep (h : V.Ok) (mem : Mem) (s : State) (m c n : Nat) (C : List Byte)
    (hc : mem.Holds c C) (h16 : 16 ≤ C.length) (hw : mem.Writable m 16) (ho : m ≤ c ∨ c + C.length ≤ m) :
    run (decStep V .little (s, m, c, n)) mem =
      some ((perm 8 (xorIn s (xorBytes (rate 16 s) (C.take 16))), m + 16, c + 16, n - 16),
        mem.writes m (xorBytes (rate 16 s) (C.take 16))) := by
  unfold decStep
  simp only
  rw [run_bind_of (run_DECRYPT8 0 (by omega) hc (by omega) (hw.mono (by omega) (by omega)) ho)]
  have hc8 : (mem.writes m (bytes64 (wordAt s 0 ^^^ le64 (C.take 8)))).Holds (c + 8) (C.drop 8) := by
    apply (hc.drop 8 (by omega)).writes_disjoint
    unfold Disjoint; simp only [length_bytes64, List.length_drop]; omega
  rw [run_bind_of (run_DECRYPT8 1 (by omega) hc8 (by simp; omega) (hw.writes.mono (by omega) (by omega))
    (by simp; omega))]
  have hx : xorBytes (rate 16 s) (C.take 16) =
      bytes64 (s.x0 ^^^ le64 (C.take 8)) ++ bytes64 (s.x1 ^^^ le64 ((C.drop 8).take 8)) := by
    rw [rate_16, bytes64_xor, bytes64_xor, bytes64_le64 _ (by simp; omega), bytes64_le64 _ (by simp; omega)]
    rw [show C.take 16 = C.take 8 ++ (C.drop 8).take 8 by rw [← List.take_add]]
    simp only [xorBytes]
    rw [List.zipWith_append (by simp [length_bytes64]; omega)]
  have hy : xorIn s (xorBytes (rate 16 s) (C.take 16)) =
      putWord (putWord s 0 (le64 (C.take 8))) 1 (le64 ((C.drop 8).take 8)) := by
    rw [hx, xorIn_of_le16 _ _ (by simp [length_bytes64]), take8_bytes64_append, drop8_bytes64_append,
      le64_bytes64, le64_bytes64]
    simp only [← BitVec.xor_assoc, BitVec.xor_self, BitVec.zero_xor, putWord]
  rw [← hy, run_bind_of (h.p8 _ _), hx, writes_append, length_bytes64]
  rfl

theorem run_decFinal {mem : Mem} {t : State} {m p : Nat} {l : List Byte} (hl : mem.Holds p l)
    (h16 : l.length < 16) (hw : mem.Writable m l.length) (ho : m ≤ p ∨ p + l.length ≤ m) :
    run (decFinal .little t m p l.length) mem =
      some (xorIn t (pad 16 (xorBytes (rate l.length t) l)),
        mem.writes m (xorBytes (rate l.length t) l)) := by
  unfold decFinal
  have hpl : (xorBytes (rate l.length t) l).length = l.length := by
    rw [length_xorBytes, length_rate _ _ (by omega)]; omega
  by_cases h8 : 8 ≤ l.length
  · rw [run_bind, run_ifc, if_pos (by simpa using h8), run_bind_of (run_DECRYPT8 0 (by omega) hl h8
      (hw.mono (by omega) (by omega)) ho)]
    simp only [run_pure', Option.bind_some]
    have hl8 : (mem.writes m (bytes64 (wordAt t 0 ^^^ le64 (l.take 8)))).Holds (p + 8) (l.drop 8) := by
      apply (hl.drop 8 (by omega)).writes_disjoint
      unfold Disjoint; simp only [length_bytes64, List.length_drop]; omega
    have hd : (l.drop 8).length = l.length - 8 := by simp
    have hx : xorBytes (rate l.length t) l =
        bytes64 (t.x0 ^^^ le64 (l.take 8)) ++ xorBytes ((bytes64 t.x1).take (l.length - 8)) (l.drop 8) := by
      rw [rate_le16 _ _ h8 (by omega), bytes64_xor, bytes64_le64 _ (by simp; omega)]
      conv => lhs; rw [← List.take_append_drop 8 l]
      simp only [xorBytes]
      rw [List.zipWith_append (by simp [length_bytes64]; omega), List.take_append_drop 8 l]
    have hpad := xorIn_pad16_ge8 t (xorBytes (rate l.length t) l) (by omega) (by omega)
    rw [hpl] at hpad
    have := run_DECRYPT (s := putWord t 0 (le64 (l.take 8))) (i := 1) (m := m + 8) (by omega) hl8
      (hw.writes.mono (by omega) (by omega)) (by omega) (by omega)
    rw [hd] at this
    have e2 : t.x0 ^^^ (t.x0 ^^^ le64 (l.take 8)) = le64 (l.take 8) := by
      rw [← BitVec.xor_assoc, BitVec.xor_self, BitVec.zero_xor]
    rw [run_bind_of this, run_pad (by omega) (by omega), hpad, hx, writes_append, length_bytes64,
      take8_bytes64_append, drop8_bytes64_append, le64_bytes64, e2]
    rfl
  · rw [run_bind, run_ifc, if_neg (by simpa using h8)]
    simp only [run_pure', Option.bind_some]
    have hpad := xorIn_pad16_lt8 t (xorBytes (rate l.length t) l) (by omega)
    rw [hpl] at hpad
    have := run_DECRYPT (s := t) (i := 0) (by omega) hl hw ho (by omega)
    rw [run_bind_of this, run_pad (by omega) (by omega), hpad, rate_le8 _ _ (by omega)]
    rfl

theorem run_decrypt (h : V.Ok) {mem : Mem} {s : State} {m c : Nat} {C : List Byte} (hc : mem.Holds c C)
    (hw : mem.Writable m C.length) (ho : m ≤ c ∨ c + C.length ≤ m) :
    run (ascon_decrypt V .little s m c C.length) mem = some ((decBody s C).1, mem.writes m (decBody s C).2) := by
  unfold ascon_decrypt
  have hl := run_decryptLoop id (cond := fun (_, _, _, clen) => decide (clen ≥ 16)) (step := decStep V .little)
    (fun _ _ _ _ => rfl) (fun mem s m c n C a b d f => run_decStep h mem s m c n C a b d f)
    (C.length + 1) s mem m c C hc hw ho (by omega)
  simp only [id] at hl
  rw [run_bind_of hl]
  simp only
  have hlen := Ref.length_decBlocks s (fullBlocks 16 C) (fun b hb => mem_fullBlocks_length hb)
  rw [Ref.length_fullBlocks] at hlen
  have hb := hc.lastBlock 16
  have hll := length_lastBlock 16 C
  have hdm := Nat.div_add_mod C.length 16
  rw [← hll]
  have hb2 : (mem.writes m (decBlocks s (fullBlocks 16 C)).2).Holds (c + 16 * (C.length / 16)) (lastBlock 16 C) := by
    apply hb.writes_disjoint
    unfold Disjoint; omega
  rw [run_decFinal hb2 (by omega) (hw.writes.mono (by omega) (by omega)) (by omega)]
  unfold decBody
  simp only
  rw [writes_append, hlen]

/-! ### Finalization -/

theorem run_final (h : V.Ok) {mem : Mem} (s key : State) (K : List Byte)
    (hk0 : key.x0 = le64 (K.take 8)) (hk1 : key.x1 = le64 (K.drop 8)) :
    run (ascon_final V .little s key) mem = some (addKeyLast K (perm 12 (addKeyMid K s)), mem) := by
  unfold ascon_final
  rw [run_bind_of (run_memxor (i := 2) (by omega)), hk0, hk1]
  rw [xorAt_keyMid, run_bind_of (h.p12 _ _)]
  generalize perm 12 _ = t
  rw [run_memxor (i := 3) (by omega), hk0, hk1, xorAt_keyLast]

theorem run_gettag {mem : Mem} {s : State} {t : Nat} (hw : mem.Writable t 16) :
    run (ascon_gettag .little s t) mem = some ((), mem.writes t (bytes64 s.x3 ++ bytes64 s.x4)) := by
  unfold ascon_gettag
  rw [run_bind_of (run_SQUEEZE (i := 3) (by omega) (hw.mono (by omega) (by omega)) (by omega)),
    run_SQUEEZE (i := 4) (by omega) (hw.writes.mono (by omega) (by omega)) (by omega), writes_append, length_bytes64,
    List.take_of_length_le (i := 8) (by simp [length_bytes64]),
    List.take_of_length_le (i := 8) (by simp [length_bytes64])]
  rfl

theorem verify_int (r : Byte) :
    (((((r.setWidth 32 - 1 : BitVec 32).sshiftRight 8) &&& 1) - 1 : BitVec 32).toInt) = if r = 0 then 0 else -1 := by
  revert r
  decide +kernel

theorem run_verify {mem : Mem} {s : State} {t : Nat} {T : List Byte} (ht : mem.Holds t T)
    (hT : T.length = 16) :
    run (ascon_verify .little s t) mem =
      some (if T = bytes64 s.x3 ++ bytes64 s.x4 then 0 else -1, mem) := by
  unfold ascon_verify
  simp only
  rw [run_bind_of (run_VERIFY (i := 3) (by omega) (ht.take 8) (by simp; omega)),
    run_bind_of (run_VERIFY (i := 4) (by omega) (ht.drop 8 (by omega)) (by simp; omega))]
  rw [run_pure', verify_int]
  have hz : ((0 : Byte) ||| orBytes 0 (bytes64 (wordAt s 3)) (T.take 8) |||
      orBytes 0 (bytes64 (wordAt s 4)) (T.drop 8) = 0) ↔ T = bytes64 s.x3 ++ bytes64 s.x4 := by
    have h0 : ∀ a : Byte, (0 : Byte) ||| a = a := fun a => BitVec.zero_or
    rw [h0]
    have ho : ∀ a b : Byte, a ||| b = 0 ↔ a = 0 ∧ b = 0 := fun a b => by
      simpa using BitVec.or_eq_zero_iff (x := a) (y := b)
    rw [ho, orBytes_eq_zero _ _ (by simp [length_bytes64]; omega), orBytes_eq_zero _ _ (by simp [length_bytes64]; omega)]
    constructor
    · rintro ⟨⟨_, h3⟩, ⟨_, h4⟩⟩
      rw [← List.take_append_drop 8 T, ← h3, ← h4]
      rfl
    · rintro rfl
      rw [take8_bytes64_append, drop8_bytes64_append]
      exact ⟨⟨rfl, rfl⟩, ⟨rfl, rfl⟩⟩
  simp only [hz]

theorem enc_correct (h : V.Ok) : EncCorrectAt .little (crypto_aead_encrypt V) := by
  intro mem sp c clen m ad nsec npub k K N A P h'
  unfold crypto_aead_encrypt encPost
  rw [run_bind_of (Ref.run_store64 h'.outLen)]
  have hsep : ∀ {q : Nat} {bs : List Byte}, mem.Holds q bs → Disjoint clen 8 q bs.length →
      (mem.writes clen (repr64 .little (BitVec.ofNat 64 (P.length + 16)))).Holds q bs := fun hq hd =>
    hq.writes_disjoint (by rwa [Ref.length_repr64])
  have hk := hsep h'.key (by rw [h'.keyLen]; exact h'.sepKey)
  have hn := hsep h'.nonce (by rw [h'.nonceLen]; exact h'.sepNonce)
  have ha := hsep h'.adata h'.sepAd
  have hm := hsep h'.msg h'.sepMsg
  have hw : (mem.writes clen (repr64 .little (BitVec.ofNat 64 (P.length + 16)))).Writable c (P.length + 16) :=
    h'.out.writes
  have ho := h'.overlap
  generalize mem.writes clen (repr64 .little (BitVec.ofNat 64 (P.length + 16))) = mem1 at *
  unfold ascon_aead_encrypt
  simp only
  obtain ⟨key, k0, k1, hkey⟩ := run_loadkey hk h'.keyLen
  rw [run_bind_of hkey, run_bind_of (run_initaead h k0 k1 hn h'.nonceLen),
    run_bind_of (run_adata h ha), run_bind_of (run_encrypt h hm (hw.mono (by omega) (by omega)) ho),
    run_bind_of (run_final h _ key K k0 k1)]
  have hlen := Ref.length_encBody (aeadAd A (aeadInit K N)) P
  have e1 : aeadEncrypt K N A P = (encBody (aeadAd A (aeadInit K N)) P).2 ++
      aeadTag K (encBody (aeadAd A (aeadInit K N)) P).1 := rfl
  rw [e1]
  generalize encBody (aeadAd A (aeadInit K N)) P = r at *
  have e2 : aeadTag K r.1 = bytes64 (addKeyLast K (perm 12 (addKeyMid K r.1))).x3 ++
      bytes64 (addKeyLast K (perm 12 (addKeyMid K r.1))).x4 := rfl
  rw [e2]
  generalize addKeyLast K (perm 12 (addKeyMid K r.1)) = t
  rw [run_bind_of (run_gettag (hw.writes.mono (by omega) (by omega))), writes_append mem1, hlen]
  rfl

theorem dec_correct (h : V.Ok) : DecCorrectAt .little (crypto_aead_decrypt V) := by
  intro mem sp m mlen nsec c ad npub k K N A C h'
  unfold crypto_aead_decrypt decPost
  have h16 := h'.ctMin
  rw [run_ifc, if_neg (by simpa using h16), run_bind_of (Ref.run_store64 h'.outLen)]
  have hsep : ∀ {q : Nat} {bs : List Byte}, mem.Holds q bs → Disjoint mlen 8 q bs.length →
      (mem.writes mlen (repr64 .little (BitVec.ofNat 64 (C.length - 16)))).Holds q bs := fun hq hd =>
    hq.writes_disjoint (by rwa [Ref.length_repr64])
  have hk := hsep h'.key (by rw [h'.keyLen]; exact h'.sepKey)
  have hn := hsep h'.nonce (by rw [h'.nonceLen]; exact h'.sepNonce)
  have ha := hsep h'.adata h'.sepAd
  have hc := hsep h'.ct h'.sepCt
  have hw : (mem.writes mlen (repr64 .little (BitVec.ofNat 64 (C.length - 16)))).Writable m (C.length - 16) :=
    h'.out.writes
  have ho := h'.overlap
  generalize mem.writes mlen (repr64 .little (BitVec.ofNat 64 (C.length - 16))) = mem1 at *
  have hbl : (ctBody C).length = C.length - 16 := by simp [ctBody]
  have htl : (ctTag C).length = 16 := by simp [ctTag]; omega
  have hcb : mem1.Holds c (ctBody C) := hc.take _
  have hct : mem1.Holds (c + (C.length - 16)) (ctTag C) := hc.drop _ (by omega)
  unfold ascon_aead_decrypt
  simp only
  rw [← hbl] at hw hct ⊢
  obtain ⟨key, k0, k1, hkey⟩ := run_loadkey hk h'.keyLen
  rw [run_bind_of hkey, run_bind_of (run_initaead h k0 k1 hn h'.nonceLen),
    run_bind_of (run_adata h ha), run_bind_of (run_decrypt h hcb hw (by omega)),
    run_bind_of (run_final h _ key K k0 k1)]
  have hlen := Ref.length_decBody (aeadAd A (aeadInit K N)) (ctBody C)
  have e1 : aeadCandidate K N A (ctBody C) = (decBody (aeadAd A (aeadInit K N)) (ctBody C)).2 := rfl
  have e2 : aeadDecTag K N A (ctBody C) = aeadTag K (decBody (aeadAd A (aeadInit K N)) (ctBody C)).1 := rfl
  rw [e1, e2]
  generalize decBody (aeadAd A (aeadInit K N)) (ctBody C) = r at *
  have hct2 : (mem1.writes m r.2).Holds (c + (ctBody C).length) (ctTag C) := by
    apply hct.writes_disjoint
    unfold Disjoint; rw [hlen]; omega
  rw [run_verify hct2 htl]
  rfl

theorem dec_short (V : Perms) : DecShort (crypto_aead_decrypt V) := by
  intro e mem sp m mlen nsec c clen ad adlen npub k h
  constructor
  · unfold crypto_aead_decrypt
    rw [run_ifc, if_pos (by simpa using h)]; rfl
  · simp only [crypto_aead_decrypt, Prog.ifc, decide_eq_true h]
    rfl

end Ascon.Opt8
