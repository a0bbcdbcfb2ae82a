import Verif.Model.GenAead
import Verif.Proof.GenCore
/-!
# src/aead.c meets its contract over every correct backend
-/

namespace Ascon.Gen

open Ascon.C Ascon.Spec
open Ascon.C.Prog (require ifc loop forUp loadB storeB loadN storeN store64 load64)

attribute [local irreducible] perm

variable {B : Backend} {e : Endian} {enc : Word → Word}

theorem run_loadkey (h : B.Ok e enc) {mem : Mem} {k : Nat} {K : List Byte} (hk : mem.Holds k K)
    (hK : K.length = 16) :
    run (ascon_loadkey B e k) mem = some ((enc (le64 (K.take 8)), enc (le64 (K.drop 8))), mem) := by
  unfold ascon_loadkey
  have e1 : (K.drop 8).take 8 = K.drop 8 := List.take_of_length_le (by simp; omega)
  rw [run_bind_of (run_LOAD h hk (by omega)), run_bind_of (run_LOAD' h hk (by omega)), e1]
  rfl

theorem run_initaead (h : B.Ok e enc) {mem : Mem} {npub : Nat} {K N : List Byte}
    (hn : mem.Holds npub N) (hN : N.length = 16) :
    run (ascon_initaead B e (enc (le64 (K.take 8)), enc (le64 (K.drop 8))) npub) mem =
      some (encS enc (aeadInit K N), mem) := by
  unfold ascon_initaead
  have e2 : (N.drop 8).take 8 = N.drop 8 := List.take_of_length_le (by simp; omega)
  rw [run_bind_of (run_LOAD h hn (by omega)), run_bind_of (run_LOAD' h hn (by omega)), e2, h.aead]
  simp only
  have := h.p12 ⟨ivAead, le64 (K.take 8), le64 (K.drop 8), le64 (N.take 8), le64 (N.drop 8)⟩ mem
  rw [run_bind_of (by exact this)]
  simp only [run_pure', aeadInit, addKeyLast]
  generalize perm 12 _ = t
  simp only [encS, h.xor]

theorem run_adStep (h : B.Ok e enc) {mem : Mem} (s : State) (ad n : Nat) (A : List Byte)
    (ha : mem.Holds ad A) (h16 : 16 ≤ A.length) :
    run (adStep B e (encS enc s, ad, n)) mem =
      some ((encS enc (perm 8 (xorIn s (A.take 16))), ad + 16, n - 16), mem) := by
  unfold adStep
  simp only
  rw [run_bind_of (run_LOAD h ha (by omega)), run_bind_of (run_LOAD' h ha (by omega))]
  have hx : xorIn s (A.take 16) =
      { s with x0 := s.x0 ^^^ le64 (A.take 8), x1 := s.x1 ^^^ le64 ((A.drop 8).take 8) } := by
    rw [xorIn_of_le16 _ _ (by simp; omega), List.take_take, List.drop_take]
    rfl
  have := h.p8 (xorIn s (A.take 16)) mem
  rw [hx] at this ⊢
  simp only [encS, h.xor] at this ⊢
  rw [run_bind_of this]
  rfl

/-- The two cases of a final block: `px = &s->x[0]` with fewer than 8 bytes left, or `px = &s->x[1]`. -/
theorem run_adFinal (h : B.Ok e enc) {mem : Mem} (t : State) (p : Nat) (l : List Byte)
    (hl : mem.Holds p l) (h16 : l.length < 16) :
    run (adFinal B e (encS enc t) p l.length) mem = some (encS enc (xorIn t (pad 16 l)), mem) := by
  unfold adFinal
  by_cases h8 : 8 ≤ l.length
  · rw [run_bind, run_ifc, if_pos (by simpa using h8), run_bind_of (run_LOAD h hl h8)]
    simp only [run_pure', Option.bind_some]
    rw [run_bind_of (h.pad _ (by omega) mem), run_ifc, xorIn_pad16_ge8 t l h8 h16]
    by_cases h0 : l.length = 8
    · rw [if_neg (by simp; omega), List.drop_of_length_le (l := l) (by omega)]
      simp [xorP, encS, h.xor, le64_nil]
    · rw [if_pos (by simp; omega),
        run_bind_of (run_LOADBYTES h (hl.drop 8 h8) (by simp) (by omega))]
      simp only [xorP, encS, h.xor, if_true, run_pure']
      rw [BitVec.xor_assoc (enc t.x1), BitVec.xor_assoc (enc t.x1), BitVec.xor_comm (enc ((1 : Word) <<< _))]
  · rw [run_bind, run_ifc, if_neg (by simpa using h8)]
    simp only [run_pure', Option.bind_some]
    rw [run_bind_of (h.pad _ (by omega) mem), run_ifc, xorIn_pad16_lt8 t l (by omega)]
    by_cases h0 : l.length = 0
    · have : l = [] := by simpa using h0
      subst this
      simp [xorP, encS, h.xor, le64_nil]
    · rw [if_pos (decide_eq_true h0), run_bind_of (run_LOADBYTES h hl rfl (by omega))]
      simp only [xorP, encS, h.xor, run_pure', Bool.false_eq_true, if_false]
      rw [BitVec.xor_assoc (enc t.x0), BitVec.xor_assoc (enc t.x0), BitVec.xor_comm (enc ((1 : Word) <<< _))]

theorem run_adata (h : B.Ok e enc) {mem : Mem} {s : State} {ad : Nat} {A : List Byte}
    (ha : mem.Holds ad A) :
    run (ascon_adata B e (encS enc s) ad A.length) mem = some (encS enc (aeadAd A s), mem) := by
  unfold ascon_adata aeadAd
  have key : run (ifc (decide (A.length ≠ 0))
      (do
        let (s, ad, adlen) ←
          loop (A.length + 1) (fun (_, _, adlen) => decide (adlen ≥ 16)) (adStep B e) (encS enc s, ad, A.length)
        let s ← adFinal B e s ad adlen
        B.P8 e s)
      (pure (encS enc s))) mem =
      some (encS enc (if A = [] then s else absorb 8 s (fullBlocks 16 (pad 16 A))), mem) := by
    rw [run_ifc]
    by_cases h0 : A = []
    · simp [h0]
    · have : A.length ≠ 0 := by simpa using h0
      rw [if_pos (by simpa using this), if_neg h0]
      have hl := run_absorbLoop (encS enc) 16 8 (by omega)
        (cond := fun (_, _, adlen) => decide (adlen ≥ 16)) (step := adStep B e) (fun _ _ _ => rfl) (mem := mem)
        (fun s p n M hM h16 => run_adStep h s p n M hM h16) (A.length + 1) s ad A ha (by omega)
      rw [run_bind_of hl]
      simp only
      have hb := ha.lastBlock 16
      have hll := length_lastBlock 16 A
      rw [fullBlocks_pad 16 A (by omega), ← hll]
      simp only [absorb, List.foldl_append, List.foldl_cons, List.foldl_nil]
      rw [run_bind_of (run_adFinal h _ _ _ hb (by omega)), h.p8]
  rw [run_bind_of key]
  simp only [run_pure', h.dsep]
  generalize (if A = [] then s else _) = t
  simp only [encS, h.xor]

theorem run_encStep (h : B.Ok e enc) (mem : Mem) (s : State) (c m n : Nat) (P : List Byte)
    (hm : mem.Holds m P) (h16 : 16 ≤ P.length) (hw : mem.Writable c 16) (ho : c ≤ m ∨ m + P.length ≤ c) :
    run (encStep B e (encS enc s, c, m, n)) mem =
      some ((encS enc (perm 8 (xorIn s (P.take 16))), c + 16, m + 16, n - 16),
        mem.writes c (rate 16 (xorIn s (P.take 16)))) := by
  unfold encStep
  simp only
  rw [run_bind_of (run_LOAD h hm (by omega))]
  have e0 : (encS enc s).x0 ^^^ enc (le64 (P.take 8)) = enc (s.x0 ^^^ le64 (P.take 8)) := (h.xor _ _).symm
  have e1 : (encS enc s).x1 ^^^ enc (le64 ((P.drop 8).take 8)) = enc (s.x1 ^^^ le64 ((P.drop 8).take 8)) :=
    (h.xor _ _).symm
  rw [e0, run_bind_of (run_STORE h (hw.mono (by omega) (by omega)))]
  have hm8 : (mem.writes c (bytes64 (s.x0 ^^^ le64 (P.take 8)))).Holds (m + 8) (P.drop 8) := by
    apply (hm.drop 8 (by omega)).writes_disjoint
    unfold Disjoint; simp only [length_bytes64, List.length_drop]; omega
  rw [run_bind_of (run_LOAD h hm8 (by simp; omega)), e1,
    run_bind_of (run_STORE h (hw.writes.mono (by omega) (by omega)))]
  have hx : xorIn s (P.take 16) =
      { s with x0 := s.x0 ^^^ le64 (P.take 8), x1 := s.x1 ^^^ le64 ((P.drop 8).take 8) } := by
    rw [xorIn_of_le16 _ _ (by simp; omega), List.take_take, List.drop_take]
    rfl
  have hp := fun mem => h.p8 (xorIn s (P.take 16)) mem
  rw [hx] at hp ⊢
  simp only [encS] at hp ⊢
  rw [run_bind_of (hp _), rate_16, writes_append, length_bytes64]
  rfl

theorem run_encFinal (h : B.Ok e enc) {mem : Mem} {t : State} {c p : Nat} {l : List Byte} (hl : mem.Holds p l)
    (h16 : l.length < 16) (hw : mem.Writable c l.length) (ho : c ≤ p ∨ p + l.length ≤ c) :
    run (encFinal B e (encS enc t) c p l.length) mem =
      some (encS enc (xorIn t (pad 16 l)), mem.writes c (rate l.length (xorIn t (pad 16 l)))) := by
  unfold encFinal
  by_cases h8 : 8 ≤ l.length
  · have e0 : (encS enc t).x0 ^^^ enc (le64 (l.take 8)) = enc (t.x0 ^^^ le64 (l.take 8)) := (h.xor _ _).symm
    rw [run_bind, run_ifc, if_pos (by simpa using h8), run_bind_of (run_LOAD h hl h8), e0,
      run_bind_of (run_STORE h (hw.mono (by omega) (by omega)))]
    simp only [run_pure', Option.bind_some]
    have hl8 : (mem.writes c (bytes64 (t.x0 ^^^ le64 (l.take 8)))).Holds (p + 8) (l.drop 8) := by
      apply (hl.drop 8 (by omega)).writes_disjoint
      unfold Disjoint; simp only [length_bytes64, List.length_drop]; omega
    rw [run_bind_of (h.pad _ (by omega) _), run_ifc, xorIn_pad16_ge8 t l h8 h16,
      rate_le16 _ _ h8 (by omega), writes_append, length_bytes64]
    by_cases h0 : l.length = 8
    · rw [if_neg (by simp; omega), List.drop_of_length_le (l := l) (by omega)]
      simp [xorP, encS, h.xor, le64_nil, h0, writes_nil]
    · rw [if_pos (by simp; omega),
        run_bind_of (run_LOADBYTES h hl8 (by simp) (by omega))]
      have e1 : getP (xorP (xorP { encS enc t with x0 := enc (t.x0 ^^^ le64 (l.take 8)) } true
          (enc ((1 : Word) <<< (8 * (l.length - 8))))) true (enc (le64 (l.drop 8)))) true =
          enc (t.x1 ^^^ le64 (l.drop 8) ^^^ (1 : Word) <<< (8 * (l.length - 8))) := by
        simp only [getP, xorP, if_true, encS, h.xor]
        rw [BitVec.xor_assoc (enc t.x1), BitVec.xor_assoc (enc t.x1), BitVec.xor_comm (enc ((1 : Word) <<< _))]
      simp only
      rw [e1, run_bind_of (run_STOREBYTES h (hw.writes.mono (by omega) (by omega)) (by omega))]
      simp only [xorP, encS, if_true, run_pure', h.xor]
      rw [BitVec.xor_assoc (enc t.x1), BitVec.xor_assoc (enc t.x1), BitVec.xor_comm (enc ((1 : Word) <<< _))]
  · rw [run_bind, run_ifc, if_neg (by simpa using h8)]
    simp only [run_pure', Option.bind_some]
    rw [run_bind_of (h.pad _ (by omega) mem), run_ifc, xorIn_pad16_lt8 t l (by omega),
      rate_le8 _ _ (by omega)]
    by_cases h0 : l.length = 0
    · have : l = [] := by simpa using h0
      subst this
      simp [xorP, encS, h.xor, le64_nil, writes_nil]
    · rw [if_pos (decide_eq_true h0), run_bind_of (run_LOADBYTES h hl rfl (by omega))]
      have e1 : getP (xorP (xorP (encS enc t) false
          (enc ((1 : Word) <<< (8 * l.length)))) false (enc (le64 l))) false =
          enc (t.x0 ^^^ le64 l ^^^ (1 : Word) <<< (8 * l.length)) := by
        simp only [getP, xorP, Bool.false_eq_true, if_false, encS, h.xor]
        rw [BitVec.xor_assoc (enc t.x0), BitVec.xor_assoc (enc t.x0), BitVec.xor_comm (enc ((1 : Word) <<< _))]
      simp only
      rw [e1, run_bind_of (run_STOREBYTES h hw (by omega))]
      simp only [xorP, encS, Bool.false_eq_true, if_false, run_pure', h.xor]
      rw [BitVec.xor_assoc (enc t.x0), BitVec.xor_assoc (enc t.x0), BitVec.xor_comm (enc ((1 : Word) <<< _))]

theorem run_encrypt (h : B.Ok e enc) {mem : Mem} {s : State} {c m : Nat} {P : List Byte} (hm : mem.Holds m P)
    (hw : mem.Writable c P.length) (ho : c ≤ m ∨ m + P.length ≤ c) :
    run (ascon_encrypt B e (encS enc s) c m P.length) mem =
      some (encS enc (encBody s P).1, mem.writes c (encBody s P).2) := by
  unfold ascon_encrypt
  have hl := run_encryptLoop (encS enc) (cond := fun (_, _, _, mlen) => decide (mlen ≥ 16)) (step := encStep B e)
    (fun _ _ _ _ => rfl) (fun mem s c m n P a b d f => run_encStep h mem s c m n P a b d f)
    (P.length + 1) s mem c m P hm hw ho (by omega)
  rw [run_bind_of hl]
  simp only
  have hlen := Ref.length_encBlocks s (fullBlocks 16 P)
  rw [Ref.length_fullBlocks] at hlen
  have hb := hm.lastBlock 16
  have hll := length_lastBlock 16 P
  have hdm := Nat.div_add_mod P.length 16
  rw [← hll]
  have hb2 : (mem.writes c (encBlocks s (fullBlocks 16 P)).2).Holds (m + 16 * (P.length / 16)) (lastBlock 16 P) := by
    apply hb.writes_disjoint
    unfold Disjoint; omega
  rw [run_encFinal h hb2 (by omega) (hw.writes.mono (by omega) (by omega)) (by omega)]
  unfold encBody
  simp only
  rw [writes_append, hlen]

/-! ### Decryption -/

theorem run_decStep (h : B.Ok e enc) (mem : Mem) (s : State) (m c n : Nat) (C : List Byte)
    (hc : mem.Holds c C) (h16 : 16 ≤ C.length) (hw : mem.Writable m 16) (ho : m ≤ c ∨ c + C.length ≤ m) :
    run (decStep B e (encS enc s, m, c, n)) mem =
      some ((encS enc (perm 8 (xorIn s (xorBytes (rate 16 s) (C.take 16)))), m + 16, c + 16, n - 16),
        mem.writes m (xorBytes (rate 16 s) (C.take 16))) := by
  unfold decStep
  simp only
  rw [run_bind_of (run_LOAD h hc (by omega))]
  have e0 : (encS enc s).x0 ^^^ enc (le64 (C.take 8)) = enc (s.x0 ^^^ le64 (C.take 8)) := (h.xor _ _).symm
  have e1 : (encS enc s).x1 ^^^ enc (le64 ((C.drop 8).take 8)) = enc (s.x1 ^^^ le64 ((C.drop 8).take 8)) :=
    (h.xor _ _).symm
  rw [e0, run_bind_of (run_STORE h (hw.mono (by omega) (by omega)))]
  have hc8 : (mem.writes m (bytes64 (s.x0 ^^^ le64 (C.take 8)))).Holds (c + 8) (C.drop 8) := by
    apply (hc.drop 8 (by omega)).writes_disjoint
    unfold Disjoint; simp only [length_bytes64, List.length_drop]; omega
  rw [run_bind_of (run_LOAD h hc8 (by simp; omega)), e1,
    run_bind_of (run_STORE h (hw.writes.mono (by omega) (by omega)))]
  have hx : xorBytes (rate 16 s) (C.take 16) =
      bytes64 (s.x0 ^^^ le64 (C.take 8)) ++ bytes64 (s.x1 ^^^ le64 ((C.drop 8).take 8)) := by
    rw [rate_16, bytes64_xor, bytes64_xor, bytes64_le64 _ (by simp; omega), bytes64_le64 _ (by simp; omega)]
    rw [show C.take 16 = C.take 8 ++ (C.drop 8).take 8 by rw [← List.take_add]]
    simp only [xorBytes]
    rw [List.zipWith_append (by simp [length_bytes64]; omega)]
  have hy : xorIn s (xorBytes (rate 16 s) (C.take 16)) =
      { s with x0 := le64 (C.take 8), x1 := le64 ((C.drop 8).take 8) } := by
    rw [hx, xorIn_of_le16 _ _ (by simp [length_bytes64]), take8_bytes64_append, drop8_bytes64_append,
      le64_bytes64, le64_bytes64]
    simp only [← BitVec.xor_assoc, BitVec.xor_self, BitVec.zero_xor]
  have hp := fun mem => h.p8 (xorIn s (xorBytes (rate 16 s) (C.take 16))) mem
  rw [hy] at hp ⊢
  simp only [encS] at hp ⊢
  rw [run_bind_of (hp _), hx, writes_append, length_bytes64]
  rfl

/-- `CLEAR(x ^ PAD(n) ^ c, n) ^ c` keeps the high bytes (with the padding bit) and replaces the low ones. -/
theorem clear_xor_eq (x : Word) (l : List Byte) (h : l.length < 8) :
    ((x ^^^ (1 : Word) <<< (8 * l.length) ^^^ le64 l) &&& Ref.highMask l.length) ^^^ le64 l =
      x ^^^ le64 (xorBytes ((bytes64 x).take l.length) l) ^^^ (1 : Word) <<< (8 * l.length) := by
  rw [← Ref.clear_or_eq x l (by omega)]
  apply BitVec.eq_of_getLsbD_eq
  intro i hi
  simp only [Ref.highMask, BitVec.getLsbD_or, BitVec.getLsbD_and, BitVec.getLsbD_shiftLeft,
    BitVec.getLsbD_allOnes, BitVec.getLsbD_xor, hi, decide_true, Bool.true_and]
  by_cases h1 : i < 8 * l.length
  · simp [h1]
  · rw [getLsbD_le64_of_ge l i (by omega)]
    have : i - 8 * l.length < 64 := by omega
    simp [h1, this]

theorem run_decFinal (h : B.Ok e enc) {mem : Mem} {t : State} {m p : Nat} {l : List Byte} (hl : mem.Holds p l)
    (h16 : l.length < 16) (hw : mem.Writable m l.length) (ho : m ≤ p ∨ p + l.length ≤ m) :
    run (decFinal B e (encS enc t) m p l.length) mem =
      some (encS enc (xorIn t (pad 16 (xorBytes (rate l.length t) l))),
        mem.writes m (xorBytes (rate l.length t) l)) := by
  unfold decFinal
  have hpl : (xorBytes (rate l.length t) l).length = l.length := by
    rw [length_xorBytes, length_rate _ _ (by omega)]; omega
  by_cases h8 : 8 ≤ l.length
  · have e0 : (encS enc t).x0 ^^^ enc (le64 (l.take 8)) = enc (t.x0 ^^^ le64 (l.take 8)) := (h.xor _ _).symm
    rw [run_bind, run_ifc, if_pos (by simpa using h8), run_bind_of (run_LOAD h hl h8), e0,
      run_bind_of (run_STORE h (hw.mono (by omega) (by omega)))]
    simp only [run_pure', Option.bind_some]
    have hl8 : (mem.writes m (bytes64 (t.x0 ^^^ le64 (l.take 8)))).Holds (p + 8) (l.drop 8) := by
      apply (hl.drop 8 (by omega)).writes_disjoint
      unfold Disjoint; simp only [length_bytes64, List.length_drop]; omega
    have hx : xorBytes (rate l.length t) l =
        bytes64 (t.x0 ^^^ le64 (l.take 8)) ++ xorBytes ((bytes64 t.x1).take (l.length - 8)) (l.drop 8) := by
      rw [rate_le16 _ _ h8 (by omega), bytes64_xor, bytes64_le64 _ (by simp; omega)]
      conv => lhs; rw [← List.take_append_drop 8 l]
      simp only [xorBytes]
      rw [List.zipWith_append (by simp [length_bytes64]; omega), List.take_append_drop 8 l]
    have hpad := xorIn_pad16_ge8 t (xorBytes (rate l.length t) l) (by omega) (by omega)
    rw [hpl] at hpad
    rw [run_bind_of (h.pad _ (by omega) _), run_ifc, hpad, hx, writes_append, length_bytes64,
      take8_bytes64_append, drop8_bytes64_append, le64_bytes64]
    have e2 : t.x0 ^^^ (t.x0 ^^^ le64 (l.take 8)) = le64 (l.take 8) := by
      rw [← BitVec.xor_assoc, BitVec.xor_self, BitVec.zero_xor]
    rw [e2]
    by_cases h0 : l.length = 8
    · rw [if_neg (by simp; omega), List.drop_of_length_le (l := l) (by omega)]
      simp [xorP, encS, h.xor, le64_nil, h0, writes_nil, xorBytes]
    · rw [if_pos (by simp; omega),
        run_bind_of (run_LOADBYTES h hl8 (by simp) (by omega))]
      have e1 : getP (xorP (xorP { encS enc t with x0 := enc (le64 (l.take 8)) } true
          (enc ((1 : Word) <<< (8 * (l.length - 8))))) true (enc (le64 (l.drop 8)))) true =
          enc (t.x1 ^^^ (1 : Word) <<< (8 * (l.length - 8)) ^^^ le64 (l.drop 8)) := by
        simp only [getP, xorP, if_true, encS, h.xor]
      have hd : (l.drop 8).length = l.length - 8 := by simp
      have hst : (bytes64 (t.x1 ^^^ (1 : Word) <<< (8 * (l.length - 8)) ^^^ le64 (l.drop 8))).take (l.length - 8) =
          xorBytes ((bytes64 t.x1).take (l.length - 8)) (l.drop 8) := by
        have h1 := Ref.take_bytes64_xor_le64 t.x1 (l.drop 8) (by omega)
        rw [hd] at h1
        rw [BitVec.xor_assoc, BitVec.xor_comm ((1 : Word) <<< _), ← BitVec.xor_assoc,
          take_bytes64_xor_pad _ _ (by omega), h1]
      have hcl := clear_xor_eq t.x1 (l.drop 8) (by omega)
      rw [hd] at hcl
      rw [e1, run_bind_of (run_STOREBYTES h (hw.writes.mono (by omega) (by omega)) (by omega)),
        run_bind_of (h.clear _ _ (by omega) _), hst]
      simp only [run_pure', xorP, setP, if_true, encS]
      rw [← h.xor, hcl]
  · rw [run_bind, run_ifc, if_neg (by simpa using h8)]
    simp only [run_pure', Option.bind_some]
    have hpad := xorIn_pad16_lt8 t (xorBytes (rate l.length t) l) (by omega)
    rw [hpl] at hpad
    rw [run_bind_of (h.pad _ (by omega) mem), run_ifc, hpad, rate_le8 _ _ (by omega)]
    by_cases h0 : l.length = 0
    · have : l = [] := by simpa using h0
      subst this
      simp [xorP, encS, h.xor, le64_nil, writes_nil, xorBytes]
    · rw [if_pos (decide_eq_true h0), run_bind_of (run_LOADBYTES h hl rfl (by omega))]
      have e1 : getP (xorP (xorP (encS enc t) false
          (enc ((1 : Word) <<< (8 * l.length)))) false (enc (le64 l))) false =
          enc (t.x0 ^^^ (1 : Word) <<< (8 * l.length) ^^^ le64 l) := by
        simp only [getP, xorP, Bool.false_eq_true, if_false, encS, h.xor]
      have hst : (bytes64 (t.x0 ^^^ (1 : Word) <<< (8 * l.length) ^^^ le64 l)).take l.length =
          xorBytes ((bytes64 t.x0).take l.length) l := by
        rw [BitVec.xor_assoc, BitVec.xor_comm ((1 : Word) <<< _), ← BitVec.xor_assoc,
          take_bytes64_xor_pad _ _ (by omega), Ref.take_bytes64_xor_le64 t.x0 l (by omega)]
      rw [e1, run_bind_of (run_STOREBYTES h hw (by omega)),
        run_bind_of (h.clear _ _ (by omega) _), hst]
      simp only [run_pure', xorP, setP, Bool.false_eq_true, if_false, encS]
      rw [← h.xor, clear_xor_eq t.x0 l (by omega)]

theorem run_decrypt (h : B.Ok e enc) {mem : Mem} {s : State} {m c : Nat} {C : List Byte} (hc : mem.Holds c C)
    (hw : mem.Writable m C.length) (ho : m ≤ c ∨ c + C.length ≤ m) :
    run (ascon_decrypt B e (encS enc s) m c C.length) mem =
      some (encS enc (decBody s C).1, mem.writes m (decBody s C).2) := by
  unfold ascon_decrypt
  have hl := run_decryptLoop (encS enc) (cond := fun (_, _, _, clen) => decide (clen ≥ 16)) (step := decStep B e)
    (fun _ _ _ _ => rfl) (fun mem s m c n C a b d f => run_decStep h mem s m c n C a b d f)
    (C.length + 1) s mem m c C hc hw ho (by omega)
  rw [run_bind_of hl]
  simp only
  have hlen := Ref.length_decBlocks s (fullBlocks 16 C) (fun b hb => mem_fullBlocks_length hb)
  rw [Ref.length_fullBlocks] at hlen
  have hb := hc.lastBlock 16
  have hll := length_lastBlock 16 C
  have hdm := Nat.div_add_mod C.length 16
  rw [← hll]
  have hb2 : (mem.writes m (decBlocks s (fullBlocks 16 C)).2).Holds (c + 16 * (C.length / 16)) (lastBlock 16 C) := by
    apply hb.writes_disjoint
    unfold Disjoint; omega
  rw [run_decFinal h hb2 (by omega) (hw.writes.mono (by omega) (by omega)) (by omega)]
  unfold decBody
  simp only
  rw [writes_append, hlen]

theorem run_final (h : B.Ok e enc) {mem : Mem} (s : State) (K : List Byte) :
    run (ascon_final B e (encS enc s) (enc (le64 (K.take 8)), enc (le64 (K.drop 8)))) mem =
      some (encS enc (addKeyLast K (perm 12 (addKeyMid K s))), mem) := by
  unfold ascon_final
  have e1 : ({ encS enc s with
      x2 := (encS enc s).x2 ^^^ enc (le64 (K.take 8))
      x3 := (encS enc s).x3 ^^^ enc (le64 (K.drop 8)) } : State) = encS enc (addKeyMid K s) := by
    simp only [addKeyMid, encS, h.xor]
  have e2 : ∀ t : State, ({ encS enc t with
      x3 := (encS enc t).x3 ^^^ enc (le64 (K.take 8))
      x4 := (encS enc t).x4 ^^^ enc (le64 (K.drop 8)) } : State) = encS enc (addKeyLast K t) := by
    intro t; simp only [addKeyLast, encS, h.xor]
  have h1 := h.p12 (addKeyMid K s) mem
  rw [← e1] at h1
  rw [run_bind_of h1]
  exact congrArg (fun t => some (t, mem)) (e2 _)

theorem enc_correct (h : B.Ok e enc) : EncCorrectAt e (crypto_aead_encrypt B) := by
  intro mem sp c clen m ad nsec npub k K N A P h'
  unfold crypto_aead_encrypt encPost
  rw [run_bind_of (Ref.run_store64 h'.outLen)]
  have hsep : ∀ {q : Nat} {bs : List Byte}, mem.Holds q bs → Disjoint clen 8 q bs.length →
      (mem.writes clen (repr64 e (BitVec.ofNat 64 (P.length + 16)))).Holds q bs := fun hq hd =>
    hq.writes_disjoint (by rwa [Ref.length_repr64])
  have hk := hsep h'.key (by rw [h'.keyLen]; exact h'.sepKey)
  have hn := hsep h'.nonce (by rw [h'.nonceLen]; exact h'.sepNonce)
  have ha := hsep h'.adata h'.sepAd
  have hm := hsep h'.msg h'.sepMsg
  have hw : (mem.writes clen (repr64 e (BitVec.ofNat 64 (P.length + 16)))).Writable c (P.length + 16) :=
    h'.out.writes
  have ho := h'.overlap
  generalize mem.writes clen (repr64 e (BitVec.ofNat 64 (P.length + 16))) = mem1 at *
  unfold ascon_aead_encrypt ascon_gettag
  simp only
  rw [run_bind_of (run_loadkey h hk h'.keyLen), run_bind_of (run_initaead h hn h'.nonceLen),
    run_bind_of (run_adata h ha), run_bind_of (run_encrypt h hm (hw.mono (by omega) (by omega)) ho),
    run_bind_of (run_final h _ K)]
  have hlen := Ref.length_encBody (aeadAd A (aeadInit K N)) P
  have e1 : aeadEncrypt K N A P = (encBody (aeadAd A (aeadInit K N)) P).2 ++
      aeadTag K (encBody (aeadAd A (aeadInit K N)) P).1 := rfl
  rw [e1]
  generalize encBody (aeadAd A (aeadInit K N)) P = r at *
  have e2 : aeadTag K r.1 = bytes64 (addKeyLast K (perm 12 (addKeyMid K r.1))).x3 ++
      bytes64 (addKeyLast K (perm 12 (addKeyMid K r.1))).x4 := rfl
  rw [e2]
  generalize addKeyLast K (perm 12 (addKeyMid K r.1)) = t
  have hs3 : ∀ mem : Mem, mem.Writable (c + P.length) 8 →
      run (STOREBYTES B e (c + P.length) (encS enc t).x3 8) mem = some ((), mem.writes (c + P.length) (bytes64 t.x3)) :=
    fun mem hw => run_STORE h hw
  have hs4 : ∀ mem : Mem, mem.Writable (c + P.length + 8) 8 →
      run (STOREBYTES B e (c + P.length + 8) (encS enc t).x4 8) mem =
        some ((), mem.writes (c + P.length + 8) (bytes64 t.x4)) := fun mem hw => run_STORE h hw
  rw [run_bind_of (by
    rw [run_bind_of (hs3 _ (hw.writes.mono (by omega) (by omega))),
      hs4 _ (hw.writes.writes.mono (by omega) (by omega))])]
  rw [writes_append, writes_append, hlen, length_bytes64]
  rfl

theorem xor_eq_zero_iff' (h : B.Ok e enc) (a b : Word) : enc a ^^^ enc b = 0 ↔ a = b := by
  rw [← h.xor]
  constructor
  · intro h0
    exact BitVec.xor_eq_zero_iff.mp (h.zero _ h0)
  · rintro rfl
    rw [BitVec.xor_self]; exact h.enc0

theorem run_verify (h : B.Ok e enc) {mem : Mem} {s : State} {t : Nat} {T : List Byte} (ht : mem.Holds t T)
    (hT : T.length = 16) :
    run (ascon_verify B e (encS enc s) t) mem =
      some (if T = bytes64 s.x3 ++ bytes64 s.x4 then 0 else -1, mem) := by
  unfold ascon_verify
  have e2 : (T.drop 8).take 8 = T.drop 8 := List.take_of_length_le (by simp; omega)
  have h1 : run (LOADBYTES B e t 8) mem = some (enc (le64 (T.take 8)), mem) := run_LOAD h ht (by omega)
  have h2 : run (LOADBYTES B e (t + 8) 8) mem = some (enc (le64 ((T.drop 8).take 8)), mem) :=
    run_LOAD' h ht (by omega)
  rw [run_bind_of h1, run_bind_of h2, e2]
  simp only [run_pure', NOTZERO_eq, encS]
  have hiff : (enc s.x3 ^^^ enc (le64 (T.take 8)) = 0 ∧ enc s.x4 ^^^ enc (le64 (T.drop 8)) = 0) ↔
      T = bytes64 s.x3 ++ bytes64 s.x4 := by
    rw [xor_eq_zero_iff' h, xor_eq_zero_iff' h]
    constructor
    · rintro ⟨h3, h4⟩
      rw [h3, h4, bytes64_le64 _ (by simp; omega), bytes64_le64 _ (by simp; omega), List.take_append_drop]
    · rintro rfl
      rw [take8_bytes64_append, drop8_bytes64_append, le64_bytes64, le64_bytes64]
      exact ⟨rfl, rfl⟩
  simp only [hiff]

theorem dec_correct (h : B.Ok e enc) : DecCorrectAt e (crypto_aead_decrypt B) := by
  intro mem sp m mlen nsec c ad npub k K N A C h'
  unfold crypto_aead_decrypt decPost
  have h16 := h'.ctMin
  rw [run_ifc, if_neg (by simpa using h16), run_bind_of (Ref.run_store64 h'.outLen)]
  have hsep : ∀ {q : Nat} {bs : List Byte}, mem.Holds q bs → Disjoint mlen 8 q bs.length →
      (mem.writes mlen (repr64 e (BitVec.ofNat 64 (C.length - 16)))).Holds q bs := fun hq hd =>
    hq.writes_disjoint (by rwa [Ref.length_repr64])
  have hk := hsep h'.key (by rw [h'.keyLen]; exact h'.sepKey)
  have hn := hsep h'.nonce (by rw [h'.nonceLen]; exact h'.sepNonce)
  have ha := hsep h'.adata h'.sepAd
  have hc := hsep h'.ct h'.sepCt
  have hw : (mem.writes mlen (repr64 e (BitVec.ofNat 64 (C.length - 16)))).Writable m (C.length - 16) :=
    h'.out.writes
  have ho := h'.overlap
  generalize mem.writes mlen (repr64 e (BitVec.ofNat 64 (C.length - 16))) = mem1 at *
  have hbl : (ctBody C).length = C.length - 16 := by simp [ctBody]
  have htl : (ctTag C).length = 16 := by simp [ctTag]; omega
  have hcb : mem1.Holds c (ctBody C) := hc.take _
  have hct : mem1.Holds (c + (C.length - 16)) (ctTag C) := hc.drop _ (by omega)
  unfold ascon_aead_decrypt
  simp only
  rw [← hbl] at hw hct ⊢
  rw [run_bind_of (run_loadkey h hk h'.keyLen), run_bind_of (run_initaead h hn h'.nonceLen),
    run_bind_of (run_adata h ha), run_bind_of (run_decrypt h hcb hw (by omega)),
    run_bind_of (run_final h _ K)]
  have hlen := Ref.length_decBody (aeadAd A (aeadInit K N)) (ctBody C)
  have e1 : aeadCandidate K N A (ctBody C) = (decBody (aeadAd A (aeadInit K N)) (ctBody C)).2 := rfl
  have e2 : aeadDecTag K N A (ctBody C) = aeadTag K (decBody (aeadAd A (aeadInit K N)) (ctBody C)).1 := rfl
  rw [e1, e2]
  generalize decBody (aeadAd A (aeadInit K N)) (ctBody C) = r at *
  have hct2 : (mem1.writes m r.2).Holds (c + (ctBody C).length) (ctTag C) := by
    apply hct.writes_disjoint
    unfold Disjoint; rw [hlen]; omega
  rw [run_verify h hct2 htl]
  rfl

theorem dec_short (B : Backend) : DecShort (crypto_aead_decrypt B) := by
  intro e mem sp m mlen nsec c clen ad adlen npub k h
  constructor
  · unfold crypto_aead_decrypt
    rw [run_ifc, if_pos (by simpa using h)]; rfl
  · simp only [crypto_aead_decrypt, Prog.ifc, decide_eq_true h]
    rfl

end Ascon.Gen
