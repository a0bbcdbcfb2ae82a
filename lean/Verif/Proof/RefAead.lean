import Verif.C.Contracts
import Verif.Model.RefAead
import Verif.Proof.RefCore
/-!
# crypto_aead/asconaead128/ref/aead.c meets its contract
-/

namespace Ascon.Ref

open Ascon.C Ascon.Spec
open Ascon.C.Prog (require ifc loop forUp loadB storeB loadN storeN store64 load64)

theorem run_PAD {mem : Mem} {i : Nat} (h : i < 8) :
    run (PAD i) mem = some ((1 : Word) <<< (8 * i), mem) := by
  rw [PAD, run_SETBYTE h]; rfl

theorem run_DSEP {mem : Mem} : run DSEP mem = some (0x8000000000000000, mem) := by
  rw [DSEP, run_SETBYTE (by omega)]; rfl

theorem run_load8 {mem : Mem} {p : Nat} {bs : List Byte} (h : mem.Holds p bs) (h8 : 8 ≤ bs.length) :
    run (LOADBYTES p 8) mem = some (le64 (bs.take 8), mem) :=
  run_LOADBYTES (h.take 8) (by simp; omega) (by omega)

theorem run_load8' {mem : Mem} {p o : Nat} {bs : List Byte} (h : mem.Holds p bs) (h8 : o + 8 ≤ bs.length) :
    run (LOADBYTES (p + o) 8) mem = some (le64 ((bs.drop o).take 8), mem) :=
  run_load8 (h.drop o (by omega)) (by simp; omega)

/-! ### Associated data -/

theorem run_adStep {mem : Mem} {s : State} {ad : Nat} {A : List Byte} {n : Nat} (h : mem.Holds ad A)
    (h16 : 16 ≤ A.length) :
    run (adStep (s, ad, n)) mem = some ((perm 8 (xorIn s (A.take 16)), ad + 16, n - 16), mem) := by
  unfold adStep
  rw [run_bind_of (run_load8 h (by omega)), run_bind_of (run_load8' h (by omega))]
  simp only [P8_eq, run_pure']
  rw [xorIn_of_le16 _ _ (by simp; omega), List.take_take, List.drop_take]
  rfl

theorem run_adLoop_aux {mem : Mem} (s : State) (ad f : Nat) (A : List Byte) (h : mem.Holds ad A)
    (hf : A.length < f) :
    run (loop f (fun (_, _, adlen) => decide (adlen ≥ 16)) adStep (s, ad, A.length)) mem =
      some ((absorb 8 s (fullBlocks 16 A), ad + 16 * (A.length / 16), A.length % 16), mem) := by
  induction f generalizing s ad A with
  | zero => omega
  | succ f ih =>
    by_cases h16 : 16 ≤ A.length
    · rw [run_loop_step (by simpa using h16) (run_adStep h h16), ← List.length_drop (i := 16) (l := A),
        ih _ _ _ (h.drop 16 h16) (by simp; omega), fullBlocks_of_ge 16 A (by omega) h16]
      have e1 : (List.drop 16 A).length / 16 + 1 = A.length / 16 := by simp; omega
      have e2 : (List.drop 16 A).length % 16 = A.length % 16 := by simp; omega
      rw [e2, ← e1]
      simp only [absorb, List.foldl_cons]
      congr 3
      congr 1
      omega
    · rw [run_loop_done (by simpa using h16), fullBlocks_of_lt 16 A (by omega)]
      simp only [absorb, List.foldl_nil]
      congr 3
      rw [Nat.mod_eq_of_lt (by omega)]
      congr 1; omega

theorem Holds.lastBlock {mem : Mem} {p : Nat} {A : List Byte} (r : Nat) (h : mem.Holds p A) :
    mem.Holds (p + r * (A.length / r)) (lastBlock r A) := by
  unfold Spec.lastBlock
  apply h.drop
  have := Nat.div_add_mod A.length r
  omega

theorem run_absorbAd {mem : Mem} {s : State} {ad n : Nat} {A : List Byte} (h : mem.Holds ad A)
    (hn : n = A.length) :
    run (absorbAd s ad n) mem =
      some (if A = [] then s else absorb 8 s (fullBlocks 16 (pad 16 A)), mem) := by
  subst hn
  unfold absorbAd
  rw [run_ifc]
  by_cases h0 : A = []
  · simp [h0]
  · have : A.length ≠ 0 := by simpa using h0
    rw [if_pos (by simpa using this), if_neg h0, adLoop, run_bind_of (run_adLoop_aux s ad _ A h (by omega))]
    simp only
    rw [fullBlocks_pad 16 A (by omega)]
    have hl := Holds.lastBlock 16 h
    have hll := length_lastBlock 16 A
    rw [← hll]
    generalize Spec.lastBlock 16 A = l at *
    generalize ad + 16 * (A.length / 16) = p at *
    simp only [absorb, List.foldl_append, List.foldl_cons, List.foldl_nil]
    generalize List.foldl _ s _ = t
    have hl16 : l.length < 16 := by rw [hll]; omega
    by_cases h8 : 8 ≤ l.length
    · have hb : run (ifc (decide (l.length ≥ 8))
          (do
            let w ← LOADBYTES p 8
            let s := { t with x0 := t.x0 ^^^ w }
            let w ← LOADBYTES (p + 8) (l.length - 8)
            let s := { s with x1 := s.x1 ^^^ w }
            let p ← PAD (l.length - 8)
            let s := { s with x1 := s.x1 ^^^ p }
            pure s)
          (do
            let w ← LOADBYTES p l.length
            let s := { t with x0 := t.x0 ^^^ w }
            let p ← PAD l.length
            let s := { s with x0 := s.x0 ^^^ p }
            pure s)) mem = some (xorIn t (pad 16 l), mem) := by
        rw [run_ifc, if_pos (by simpa using h8), run_bind_of (run_load8 hl h8),
          run_bind_of (run_LOADBYTES (hl.drop 8 h8) (by simp) (by omega)),
          run_bind_of (run_PAD (by omega)), xorIn_pad16_ge8 t l h8 hl16]
        rfl
      rw [run_bind_of hb]; simp only [P8_eq]; rfl
    · have hb : run (ifc (decide (l.length ≥ 8))
          (do
            let w ← LOADBYTES p 8
            let s := { t with x0 := t.x0 ^^^ w }
            let w ← LOADBYTES (p + 8) (l.length - 8)
            let s := { s with x1 := s.x1 ^^^ w }
            let p ← PAD (l.length - 8)
            let s := { s with x1 := s.x1 ^^^ p }
            pure s)
          (do
            let w ← LOADBYTES p l.length
            let s := { t with x0 := t.x0 ^^^ w }
            let p ← PAD l.length
            let s := { s with x0 := s.x0 ^^^ p }
            pure s)) mem = some (xorIn t (pad 16 l), mem) := by
        rw [run_ifc, if_neg (by simpa using h8),
          run_bind_of (run_LOADBYTES hl rfl (by omega)),
          run_bind_of (run_PAD (by omega)), xorIn_pad16_lt8 t l (by omega)]
        rfl
      rw [run_bind_of hb]; simp only [P8_eq]; rfl

theorem run_initAead {mem : Mem} {npub k : Nat} {K N : List Byte} (hk : mem.Holds k K)
    (hK : K.length = 16) (hn : mem.Holds npub N) (hN : N.length = 16) :
    run (initAead npub k) mem = some ((le64 (K.take 8), le64 (K.drop 8), aeadInit K N), mem) := by
  unfold initAead
  have e1 : (K.drop 8).take 8 = K.drop 8 := List.take_of_length_le (by simp; omega)
  have e2 : (N.drop 8).take 8 = N.drop 8 := List.take_of_length_le (by simp; omega)
  rw [run_bind_of (run_load8 hk (by omega)), run_bind_of (run_load8' hk (by omega)),
    run_bind_of (run_load8 hn (by omega)), run_bind_of (run_load8' hn (by omega)), e1, e2]
  simp only [P12_eq, run_pure']
  rfl

/-! ### Plaintext -/

theorem run_encStep {mem : Mem} {s : State} {c m n : Nat} {P : List Byte} (h : mem.Holds m P)
    (h16 : 16 ≤ P.length) (hw : mem.Writable c 16) :
    run (encStep (s, c, m, n)) mem =
      some ((perm 8 (xorIn s (P.take 16)), c + 16, m + 16, n - 16),
        mem.writes c (rate 16 (xorIn s (P.take 16)))) := by
  unfold encStep
  rw [run_bind_of (run_load8 h (by omega)), run_bind_of (run_load8' h (by omega)),
    run_bind_of (run_STOREBYTES8 (hw.mono (by omega) (by omega))),
    run_bind_of (run_STOREBYTES8 (hw.writes.mono (by omega) (by omega)))]
  simp only [P8_eq, run_pure']
  rw [xorIn_of_le16 _ _ (by simp; omega), List.take_take, List.drop_take, rate_16,
    writes_append, length_bytes64]
  rfl

theorem run_encLoop_aux (f : Nat) (s : State) (mem : Mem) (c m : Nat) (P : List Byte) (h : mem.Holds m P)
    (hw : mem.Writable c P.length) (ho : c ≤ m ∨ m + P.length ≤ c) (hf : P.length < f) :
    run (loop f (fun (_, _, _, mlen) => decide (mlen ≥ 16)) encStep (s, c, m, P.length)) mem =
      some (((encBlocks s (fullBlocks 16 P)).1, c + 16 * (P.length / 16), m + 16 * (P.length / 16),
        P.length % 16), mem.writes c (encBlocks s (fullBlocks 16 P)).2) := by
  induction f generalizing s mem c m P with
  | zero => omega
  | succ f ih =>
    by_cases h16 : 16 ≤ P.length
    · have hr : (rate 16 (xorIn s (P.take 16))).length = 16 := length_rate _ _ (by omega)
      rw [run_loop_step (by simpa using h16) (run_encStep h h16 (hw.mono (by omega) (by omega))),
        ← List.length_drop (i := 16) (l := P), ih, fullBlocks_of_ge 16 P (by omega) h16]
      · have e1 : (List.drop 16 P).length / 16 + 1 = P.length / 16 := by simp; omega
        have e2 : (List.drop 16 P).length % 16 = P.length % 16 := by simp; omega
        rw [e2, ← e1]
        simp only [encBlocks]
        rw [writes_append, hr]
        congr 4
        · omega
        · congr 1; omega
      · apply (h.drop 16 h16).writes_disjoint
        unfold Disjoint; simp only [hr, List.length_drop]; omega
      · exact (hw.mono (by omega) (by simp; omega)).writes
      · simp; omega
      · simp; omega
    · rw [run_loop_done (by simpa using h16), fullBlocks_of_lt 16 P (by omega)]
      simp only [encBlocks, writes_nil]
      rw [Nat.mod_eq_of_lt (by omega), Nat.div_eq_of_lt (by omega)]
      rfl

theorem run_encFinal {mem : Mem} {t : State} {c p : Nat} {l : List Byte} (hl : mem.Holds p l)
    (h16 : l.length < 16) (hw : mem.Writable c l.length) :
    run (encFinal t c p l.length) mem =
      some ((xorIn t (pad 16 l), c + l.length), mem.writes c (rate l.length (xorIn t (pad 16 l)))) := by
  unfold encFinal
  by_cases h8 : 8 ≤ l.length
  · rw [run_bind, run_ifc, if_pos (by simpa using h8), run_bind_of (run_load8 hl h8),
      run_bind_of (run_LOADBYTES (hl.drop 8 h8) (by simp) (by omega)),
      run_bind_of (run_STOREBYTES8 (hw.mono (by omega) (by omega))),
      run_bind_of (run_STOREBYTES (hw.writes.mono (by omega) (by omega)) (by omega)),
      run_bind_of (run_PAD (by omega))]
    simp only [run_pure', Option.bind_some]
    rw [rate_le16 _ _ h8 (by omega), writes_append, length_bytes64, xorIn_pad16_ge8 t l h8 h16,
      take_bytes64_xor_pad _ _ (by omega)]
  · rw [run_bind, run_ifc, if_neg (by simpa using h8),
      run_bind_of (run_LOADBYTES hl rfl (by omega)),
      run_bind_of (run_STOREBYTES hw (by omega)), run_bind_of (run_PAD (by omega))]
    simp only [run_pure', Option.bind_some]
    rw [rate_le8 _ _ (by omega), xorIn_pad16_lt8 t l (by omega), take_bytes64_xor_pad _ _ (by omega)]

/-- `encBlocks` output length. -/
theorem length_encBlocks (s : State) (bs : List (List Byte)) :
    (encBlocks s bs).2.length = 16 * bs.length := by
  induction bs generalizing s with
  | nil => rfl
  | cons b bs ih =>
    simp only [encBlocks, List.length_append, ih, length_rate 16 _ (by omega), List.length_cons]
    omega

theorem length_fullBlocks (r : Nat) (m : List Byte) : (fullBlocks r m).length = m.length / r := by
  simp [fullBlocks]

theorem finalize_tag (K : List Byte) (s : State) :
    let f := finalize (le64 (K.take 8)) (le64 (K.drop 8)) s
    bytes64 f.x3 ++ bytes64 f.x4 = aeadTag K s := by
  simp only [finalize, P12_eq, aeadTag, addKeyLast, addKeyMid]

theorem length_repr64 (e : Endian) (w : Word) : (repr64 e w).length = 8 := by
  cases e <;> simp [repr64, length_bytes64]

theorem run_store64 {e : Endian} {p : Nat} {w : Word} {mem : Mem} (h : mem.Writable p 8) :
    run (store64 e p w) mem = some ((), mem.writes p (repr64 e w)) :=
  run_storeN (by rwa [length_repr64])

theorem length_aeadTag (K : List Byte) (s : State) : (aeadTag K s).length = 16 := by
  simp [aeadTag, length_bytes64]

theorem length_encBody (s : State) (P : List Byte) : (encBody s P).2.length = P.length := by
  simp only [encBody, List.length_append, length_encBlocks, length_fullBlocks]
  rw [length_rate _ _ (by have := length_lastBlock 16 P; omega), length_lastBlock]
  omega

theorem enc_correct : EncCorrect crypto_aead_encrypt := by
  intro e mem sp c clen m ad nsec npub k K N A P h
  unfold crypto_aead_encrypt encPost
  rw [run_bind_of (run_store64 h.outLen)]
  have hsep : ∀ {q : Nat} {bs : List Byte}, mem.Holds q bs → Disjoint clen 8 q bs.length →
      (mem.writes clen (repr64 e (BitVec.ofNat 64 (P.length + 16)))).Holds q bs := fun hq hd =>
    hq.writes_disjoint (by rwa [length_repr64])
  have hk := hsep h.key (by rw [h.keyLen]; exact h.sepKey)
  have hn := hsep h.nonce (by rw [h.nonceLen]; exact h.sepNonce)
  have ha := hsep h.adata h.sepAd
  have hm := hsep h.msg h.sepMsg
  have hw : (mem.writes clen (repr64 e (BitVec.ofNat 64 (P.length + 16)))).Writable c (P.length + 16) :=
    h.out.writes
  have ho := h.overlap
  generalize mem.writes clen (repr64 e (BitVec.ofNat 64 (P.length + 16))) = mem1 at *
  rw [run_bind_of (run_initAead hk h.keyLen hn h.nonceLen)]
  simp only
  rw [run_bind_of (run_absorbAd ha rfl), run_bind_of run_DSEP, encLoop,
    run_bind_of (run_encLoop_aux _ _ _ c m P hm (hw.mono (by omega) (by omega)) ho (by omega))]
  simp only
  have hS : ({ (if A = [] then aeadInit K N else absorb 8 (aeadInit K N) (fullBlocks 16 (pad 16 A))) with
      x4 := (if A = [] then aeadInit K N else absorb 8 (aeadInit K N) (fullBlocks 16 (pad 16 A))).x4 ^^^
        0x8000000000000000 } : State) = aeadAd A (aeadInit K N) := rfl
  rw [hS]
  unfold aeadEncrypt encBody
  have hlen := length_encBlocks (aeadAd A (aeadInit K N)) (fullBlocks 16 P)
  rw [length_fullBlocks] at hlen
  have hl := Holds.lastBlock 16 hm
  have hll := length_lastBlock 16 P
  rw [← hll]
  generalize encBlocks (aeadAd A (aeadInit K N)) (fullBlocks 16 P) = r at *
  generalize Spec.lastBlock 16 P = l at *
  have hdm := Nat.div_add_mod P.length 16
  have hl2 : (mem1.writes c r.2).Holds (m + 16 * (P.length / 16)) l := by
    apply hl.writes_disjoint
    unfold Disjoint; omega
  rw [run_bind_of (run_encFinal hl2 (by omega) (hw.writes.mono (by omega) (by omega)))]
  simp only
  have hr2 : (rate l.length (xorIn r.1 (pad 16 l))).length = l.length := length_rate _ _ (by omega)
  rw [run_bind_of (run_STOREBYTES8 (hw.writes.writes.mono (by omega) (by omega))),
    run_bind_of (run_STOREBYTES8 (hw.writes.writes.writes.mono (by omega) (by omega)))]
  rw [← finalize_tag K, ← List.append_assoc, writes_append _ _ (_ ++ _ ++ _), writes_append, writes_append]
  simp only [List.length_append, hlen, hr2, length_bytes64, run_pure', Nat.add_assoc]

/-! ### Ciphertext -/

theorem run_decStep {mem : Mem} {s : State} {m c n : Nat} {C : List Byte} (h : mem.Holds c C)
    (h16 : 16 ≤ C.length) (hw : mem.Writable m 16) :
    run (decStep (s, m, c, n)) mem =
      some ((perm 8 (xorIn s (xorBytes (rate 16 s) (C.take 16))), m + 16, c + 16, n - 16),
        mem.writes m (xorBytes (rate 16 s) (C.take 16))) := by
  unfold decStep
  rw [run_bind_of (run_load8 h (by omega)), run_bind_of (run_load8' h (by omega)),
    run_bind_of (run_STOREBYTES8 (hw.mono (by omega) (by omega))),
    run_bind_of (run_STOREBYTES8 (hw.writes.mono (by omega) (by omega)))]
  have hx : xorBytes (rate 16 s) (C.take 16) =
      bytes64 (s.x0 ^^^ le64 (C.take 8)) ++ bytes64 (s.x1 ^^^ le64 ((C.drop 8).take 8)) := by
    rw [rate_16, bytes64_xor, bytes64_xor, bytes64_le64 _ (by simp; omega), bytes64_le64 _ (by simp; omega)]
    rw [show C.take 16 = C.take 8 ++ (C.drop 8).take 8 by rw [← List.take_add]]
    simp only [xorBytes]
    rw [List.zipWith_append (by simp [length_bytes64]; omega)]
  simp only [P8_eq, run_pure']
  rw [hx, writes_append, length_bytes64, xorIn_of_le16 _ _ (by simp [length_bytes64])]
  rw [take8_bytes64_append, drop8_bytes64_append, le64_bytes64, le64_bytes64]
  simp only [← BitVec.xor_assoc, BitVec.xor_self, BitVec.zero_xor]

theorem run_decLoop_aux (f : Nat) (s : State) (mem : Mem) (m c : Nat) (C : List Byte) (h : mem.Holds c C)
    (hw : mem.Writable m C.length) (ho : m ≤ c ∨ c + C.length ≤ m) (hf : C.length < f) :
    run (loop f (fun (_, _, _, clen) => decide (clen ≥ 16)) decStep (s, m, c, C.length)) mem =
      some (((decBlocks s (fullBlocks 16 C)).1, m + 16 * (C.length / 16), c + 16 * (C.length / 16),
        C.length % 16), mem.writes m (decBlocks s (fullBlocks 16 C)).2) := by
  induction f generalizing s mem m c C with
  | zero => omega
  | succ f ih =>
    by_cases h16 : 16 ≤ C.length
    · have hr : (xorBytes (rate 16 s) (C.take 16)).length = 16 := by
        rw [length_xorBytes, length_rate _ _ (by omega)]; simp; omega
      rw [run_loop_step (by simpa using h16) (run_decStep h h16 (hw.mono (by omega) (by omega))),
        ← List.length_drop (i := 16) (l := C), ih, fullBlocks_of_ge 16 C (by omega) h16]
      · have e1 : (List.drop 16 C).length / 16 + 1 = C.length / 16 := by simp; omega
        have e2 : (List.drop 16 C).length % 16 = C.length % 16 := by simp; omega
        rw [e2, ← e1]
        simp only [decBlocks]
        rw [writes_append, hr]
        congr 4
        · omega
        · congr 1; omega
      · apply (h.drop 16 h16).writes_disjoint
        unfold Disjoint; simp only [hr, List.length_drop]; omega
      · exact (hw.mono (by omega) (by simp; omega)).writes
      · simp; omega
      · simp; omega
    · rw [run_loop_done (by simpa using h16), fullBlocks_of_lt 16 C (by omega)]
      simp only [decBlocks, writes_nil]
      rw [Nat.mod_eq_of_lt (by omega), Nat.div_eq_of_lt (by omega)]
      rfl

/-- Replacing the low bytes by ciphertext bytes is the same as adding the plaintext. -/
theorem clear_or_eq (x : Word) (l : List Byte) (h : l.length ≤ 8) :
    (x &&& highMask l.length) ||| le64 l = x ^^^ le64 (xorBytes ((bytes64 x).take l.length) l) := by
  apply BitVec.eq_of_getLsbD_eq
  intro i hi
  simp only [highMask, BitVec.getLsbD_or, BitVec.getLsbD_and, BitVec.getLsbD_shiftLeft,
    BitVec.getLsbD_allOnes, BitVec.getLsbD_xor, hi, decide_true, Bool.true_and]
  by_cases h1 : i < 8 * l.length
  · rw [getLsbD_le64, getLsbD_le64]
    have h2 : i / 8 < l.length := by omega
    have h3 : i / 8 < (xorBytes ((bytes64 x).take l.length) l).length := by
      simp [length_bytes64]; omega
    rw [List.getD_eq_getElem?_getD, List.getElem?_eq_getElem h2, List.getD_eq_getElem?_getD,
      List.getElem?_eq_getElem h3]
    simp only [Option.getD_some, h1, xorBytes, List.getElem_zipWith, List.getElem_take]
    rw [BitVec.getLsbD_xor, getLsbD_bytes64]
    have e : 8 * (i / 8) + i % 8 = i := by omega
    have e2 : i % 8 < 8 := by omega
    simp [e, e2, hi]
  · rw [getLsbD_le64_of_ge l i (by omega), getLsbD_le64_of_ge _ i (by simp [length_bytes64]; omega)]
    have : i - 8 * l.length < 64 := by omega
    simp [h1, this]

theorem take_bytes64_xor_le64 (x : Word) (l : List Byte) (h : l.length ≤ 8) :
    (bytes64 (x ^^^ le64 l)).take l.length = xorBytes ((bytes64 x).take l.length) l := by
  rw [bytes64_xor, xorBytes_take, take_bytes64_le64 l _ h (Nat.le_refl _), List.take_length]

theorem run_decFinal {mem : Mem} {t : State} {m p : Nat} {l : List Byte} (hl : mem.Holds p l)
    (h16 : l.length < 16) (hw : mem.Writable m l.length) :
    run (decFinal t m p l.length) mem =
      some ((xorIn t (pad 16 (xorBytes (rate l.length t) l)), p + l.length),
        mem.writes m (xorBytes (rate l.length t) l)) := by
  unfold decFinal
  have hpl : (xorBytes (rate l.length t) l).length = l.length := by
    rw [length_xorBytes, length_rate _ _ (by omega)]; omega
  by_cases h8 : 8 ≤ l.length
  · rw [run_bind, run_ifc, if_pos (by simpa using h8), run_bind_of (run_load8 hl h8),
      run_bind_of (run_LOADBYTES (hl.drop 8 h8) (by simp) (by omega)),
      run_bind_of (run_STOREBYTES8 (hw.mono (by omega) (by omega))),
      run_bind_of (run_STOREBYTES (hw.writes.mono (by omega) (by omega)) (by omega)),
      run_bind_of (run_CLEARBYTES (by omega)),
      run_bind_of (run_PAD (by omega))]
    simp only [run_pure', Option.bind_some]
    have hd : (l.drop 8).length = l.length - 8 := by simp
    have hx : xorBytes (rate l.length t) l =
        bytes64 (t.x0 ^^^ le64 (l.take 8)) ++ xorBytes ((bytes64 t.x1).take (l.length - 8)) (l.drop 8) := by
      rw [rate_le16 _ _ h8 (by omega), bytes64_xor, bytes64_le64 _ (by simp; omega)]
      conv => lhs; rw [← List.take_append_drop 8 l]
      simp only [xorBytes]
      rw [List.zipWith_append (by simp [length_bytes64]; omega), List.take_append_drop 8 l]
    have hpad := xorIn_pad16_ge8 t (xorBytes (rate l.length t) l) (by omega) (by omega)
    rw [hpl] at hpad
    rw [hpad, hx, writes_append, length_bytes64]
    rw [take8_bytes64_append, drop8_bytes64_append, le64_bytes64]
    have hco := clear_or_eq t.x1 (l.drop 8) (by omega)
    have htk := take_bytes64_xor_le64 t.x1 (l.drop 8) (by omega)
    rw [hd] at hco htk
    rw [htk, ← hco]
    simp only [← BitVec.xor_assoc, BitVec.xor_self, BitVec.zero_xor]
  · rw [run_bind, run_ifc, if_neg (by simpa using h8),
      run_bind_of (run_LOADBYTES hl rfl (by omega)),
      run_bind_of (run_STOREBYTES hw (by omega)),
      run_bind_of (run_CLEARBYTES (by omega)), run_bind_of (run_PAD (by omega))]
    simp only [run_pure', Option.bind_some]
    have hpad := xorIn_pad16_lt8 t (xorBytes (rate l.length t) l) (by omega)
    rw [hpl] at hpad
    rw [hpad, rate_le8 _ _ (by omega), clear_or_eq _ _ (by omega), take_bytes64_xor_le64 _ _ (by omega)]

/-! ### Tag comparison -/

/-- OR of all byte differences. -/
def orDiff : List Byte → List Byte → BitVec 32
  | a :: as, b :: bs => (a ^^^ b).setWidth 32 ||| orDiff as bs
  | _, _ => 0

theorem run_orLoop {mem : Mem} (c t : Nat) (as bs : List Byte) (i : Nat) (r : BitVec 32)
    (ha : mem.Holds (c + i) as) (hb : mem.Holds (t + i) bs) (hl : as.length = bs.length) :
    run (forUp (fun i (result : BitVec 32) => do
      let a ← loadB (c + i)
      let b ← loadB (t + i)
      pure (result ||| (a ^^^ b).setWidth 32)) as.length i r) mem = some (r ||| orDiff as bs, mem) := by
  induction as generalizing bs i r with
  | nil => simp [forUp, run, orDiff]
  | cons a as ih =>
    cases bs with
    | nil => simp at hl
    | cons b bs =>
      rw [holds_cons] at ha hb
      simp only [List.length_cons, forUp, run]
      rw [run_bind, run_bind_of (run_loadB ha.1), run_bind_of (run_loadB hb.1)]
      simp only [run_pure', Option.bind_some]
      rw [ih bs (i + 1) _ (by simpa [Nat.add_assoc] using ha.2) (by simpa [Nat.add_assoc] using hb.2)
        (by simpa using hl)]
      simp only [orDiff, BitVec.or_assoc]

theorem orDiff_lt (as bs : List Byte) : (orDiff as bs).toNat < 256 := by
  fun_induction orDiff as bs with
  | case1 a as b bs ih =>
    rw [BitVec.toNat_or, BitVec.toNat_setWidth]
    apply Nat.or_lt_two_pow (n := 8)
    · have := (a ^^^ b).isLt
      rw [Nat.mod_eq_of_lt (by omega)]; exact this
    · exact ih
  | case2 => decide

theorem orDiff_eq_zero (as bs : List Byte) (hl : as.length = bs.length) :
    orDiff as bs = 0 ↔ as = bs := by
  induction as generalizing bs with
  | nil => cases bs <;> simp_all [orDiff]
  | cons a as ih =>
    cases bs with
    | nil => simp at hl
    | cons b bs =>
      simp only [orDiff, List.cons.injEq]
      rw [← ih bs (by simpa using hl)]
      constructor
      · intro h
        have h1 : (a ^^^ b).setWidth 32 = 0#32 := by
          apply BitVec.eq_of_getLsbD_eq; intro i hi
          have := congrArg (fun x => x.getLsbD i) h
          simp only [BitVec.getLsbD_or] at this
          have h0 : (0 : BitVec 32).getLsbD i = false := by simp
          rw [h0] at this
          have := (Bool.or_eq_false_iff.mp this).1
          rw [this]; simp
        have h2 : orDiff as bs = 0 := by
          rw [h1] at h; simpa using h
        refine ⟨?_, h2⟩
        have h3 : a ^^^ b = 0#8 := by
          have := congrArg BitVec.toNat h1
          rw [BitVec.toNat_setWidth, Nat.mod_eq_of_lt (by have := (a ^^^ b).isLt; omega)] at this
          exact BitVec.eq_of_toNat_eq (by simpa using this)
        exact BitVec.xor_eq_zero_iff.mp h3
      · rintro ⟨rfl, h⟩
        rw [h]; simp

/-- `(((r - 1) >> 8) & 1) - 1` is 0 for 0 and -1 for 1..255. -/
theorem result_eq (r : BitVec 32) (h : r.toNat < 256) :
    ((((r - 1).sshiftRight 8) &&& 1) - 1).toInt = if r = 0 then 0 else -1 := by
  have : ∀ n : Fin 256, ((((BitVec.ofNat 32 n.val - 1).sshiftRight 8) &&& 1) - 1).toInt =
      if BitVec.ofNat 32 n.val = 0 then 0 else -1 := by decide +kernel
  have := this ⟨r.toNat, h⟩
  simpa using this

theorem run_verifyTag {mem : Mem} {c t : Nat} {T T' : List Byte} (hc : mem.Holds c T)
    (ht : mem.Holds t T') (hl : T.length = 16) (hl' : T'.length = 16) :
    run (verifyTag c t) mem = some (if T = T' then 0 else -1, mem) := by
  unfold verifyTag
  have := run_orLoop c t T T' 0 0 (by simpa using hc) (by simpa using ht) (by omega)
  rw [hl] at this
  rw [run_bind_of this]
  simp only [run_pure']
  rw [show (0 : BitVec 32) ||| orDiff T T' = orDiff T T' by simp, result_eq _ (orDiff_lt T T')]
  simp only [orDiff_eq_zero T T' (by omega)]

theorem length_decBlocks (s : State) (bs : List (List Byte)) (h : ∀ b ∈ bs, b.length = 16) :
    (decBlocks s bs).2.length = 16 * bs.length := by
  induction bs generalizing s with
  | nil => rfl
  | cons b bs ih =>
    simp only [decBlocks, List.length_append, ih _ (fun b hb => h b (List.mem_cons_of_mem _ hb)),
      length_xorBytes, length_rate 16 _ (by omega), List.length_cons, h b List.mem_cons_self]
    omega

theorem length_decBody (s : State) (C : List Byte) : (decBody s C).2.length = C.length := by
  simp only [decBody, List.length_append, length_decBlocks _ _ (fun b hb => mem_fullBlocks_length hb),
    length_fullBlocks, length_xorBytes]
  rw [length_rate _ _ (by have := length_lastBlock 16 C; omega), length_lastBlock]
  omega

theorem run_alloc {mem : Mem} {p n : Nat} :
    run (.alloc p n (.ret ()) : Prog Unit) mem = some ((), mem.fill p n .uninit) := rfl

theorem run_free {mem : Mem} {p n : Nat} :
    run (.free p n (.ret ()) : Prog Unit) mem = some ((), mem.fill p n .unalloc) := rfl

theorem Mem.Free.mono' {mem : Mem} {p n k : Nat} (h : mem.Free p n) (hk : k ≤ n) : mem.Free p k :=
  fun i hi => h i (by omega)

theorem Mem.Free.writes' {mem : Mem} {p n q : Nat} {bs : List Byte} (h : mem.Free p n)
    (hd : Disjoint p n q bs.length) : (mem.writes q bs).Free p n := by
  intro i hi
  unfold Disjoint at hd
  rw [writes_out (by omega)]
  exact h i hi

theorem dec_correct : DecCorrect crypto_aead_decrypt := by
  intro e mem sp m mlen nsec c ad npub k K N A C h
  unfold crypto_aead_decrypt decPost
  have h16 := h.ctMin
  rw [run_ifc, if_neg (by simpa using h16), run_bind_of (run_store64 h.outLen)]
  have hsep : ∀ {q : Nat} {bs : List Byte}, mem.Holds q bs → Disjoint mlen 8 q bs.length →
      (mem.writes mlen (repr64 e (BitVec.ofNat 64 (C.length - 16)))).Holds q bs := fun hq hd =>
    hq.writes_disjoint (by rwa [length_repr64])
  have hk := hsep h.key (by rw [h.keyLen]; exact h.sepKey)
  have hn := hsep h.nonce (by rw [h.nonceLen]; exact h.sepNonce)
  have ha := hsep h.adata h.sepAd
  have hc := hsep h.ct h.sepCt
  have hw : (mem.writes mlen (repr64 e (BitVec.ofNat 64 (C.length - 16)))).Writable m (C.length - 16) :=
    h.out.writes
  have hst : (mem.writes mlen (repr64 e (BitVec.ofNat 64 (C.length - 16)))).Free sp 16 :=
    Mem.Free.writes' (Mem.Free.mono' h.stack (by omega)) (by
      rw [length_repr64]
      exact (Mem.Free.mono' h.stack (by omega : 16 ≤ 64)).disjoint_writable h.outLen)
  have ho := h.overlap
  generalize mem.writes mlen (repr64 e (BitVec.ofNat 64 (C.length - 16))) = mem1 at *
  rw [run_bind_of (run_initAead hk h.keyLen hn h.nonceLen)]
  simp only
  have hbl : (ctBody C).length = C.length - 16 := by simp [ctBody]
  have htl : (ctTag C).length = 16 := by simp [ctTag]; omega
  have hCsplit : C = ctBody C ++ ctTag C := by simp [ctBody, ctTag]
  have hcb : mem1.Holds c (ctBody C) := hc.take _
  have hct : mem1.Holds (c + (C.length - 16)) (ctTag C) := hc.drop _ (by omega)
  rw [run_bind_of (run_absorbAd ha rfl), run_bind_of run_DSEP, decLoop, ← hbl,
    run_bind_of (run_decLoop_aux _ _ _ m c (ctBody C) hcb (by rwa [hbl]) (by omega) (by omega))]
  simp only
  have hS : ({ (if A = [] then aeadInit K N else absorb 8 (aeadInit K N) (fullBlocks 16 (pad 16 A))) with
      x4 := (if A = [] then aeadInit K N else absorb 8 (aeadInit K N) (fullBlocks 16 (pad 16 A))).x4 ^^^
        0x8000000000000000 } : State) = aeadAd A (aeadInit K N) := rfl
  rw [hS]
  have hcand : (aeadCandidate K N A (ctBody C)).length = (ctBody C).length := length_decBody _ _
  have htag : (aeadDecTag K N A (ctBody C)).length = 16 := length_aeadTag _ _
  have hcd : aeadCandidate K N A (ctBody C) =
      (decBlocks (aeadAd A (aeadInit K N)) (fullBlocks 16 (ctBody C))).2 ++
      xorBytes (rate (lastBlock 16 (ctBody C)).length
        (decBlocks (aeadAd A (aeadInit K N)) (fullBlocks 16 (ctBody C))).1) (lastBlock 16 (ctBody C)) := rfl
  have htg : aeadDecTag K N A (ctBody C) = aeadTag K (xorIn
      (decBlocks (aeadAd A (aeadInit K N)) (fullBlocks 16 (ctBody C))).1
      (pad 16 (xorBytes (rate (lastBlock 16 (ctBody C)).length
        (decBlocks (aeadAd A (aeadInit K N)) (fullBlocks 16 (ctBody C))).1) (lastBlock 16 (ctBody C))))) := rfl
  have hlen := length_decBlocks (aeadAd A (aeadInit K N)) (fullBlocks 16 (ctBody C))
    (fun b hb => mem_fullBlocks_length hb)
  rw [length_fullBlocks] at hlen
  have hl := Holds.lastBlock 16 hcb
  have hll := length_lastBlock 16 (ctBody C)
  rw [← hll]
  generalize decBlocks (aeadAd A (aeadInit K N)) (fullBlocks 16 (ctBody C)) = r at *
  generalize Spec.lastBlock 16 (ctBody C) = l at *
  have hdm := Nat.div_add_mod (ctBody C).length 16
  have hl2 : (mem1.writes m r.2).Holds (c + 16 * ((ctBody C).length / 16)) l := by
    apply hl.writes_disjoint
    unfold Disjoint; omega
  rw [run_bind_of (run_decFinal hl2 (by omega) (hw.writes.mono (by omega) (by omega)))]
  simp only
  have hmem : (mem1.writes m r.2).writes (m + 16 * ((ctBody C).length / 16)) (xorBytes (rate l.length r.1) l) =
      mem1.writes m (aeadCandidate K N A (ctBody C)) := by
    rw [hcd, writes_append, hlen]
  rw [hmem]
  have hct2 : (mem1.writes m (aeadCandidate K N A (ctBody C))).Holds (c + (ctBody C).length) (ctTag C) := by
    rw [hbl]
    apply hct.writes_disjoint
    unfold Disjoint; rw [hcand]; omega
  have hst2 : (mem1.writes m (aeadCandidate K N A (ctBody C))).Free sp 16 :=
    Mem.Free.writes' hst (by rw [hcand, hbl]; exact hst.disjoint_writable hw)
  generalize mem1.writes m (aeadCandidate K N A (ctBody C)) = mem2 at *
  have hft := finalize_tag K (xorIn r.1 (pad 16 (xorBytes (rate l.length r.1) l)))
  rw [← htg] at hft
  simp only at hft
  generalize finalize (le64 (K.take 8)) (le64 (K.drop 8)) (xorIn r.1 (pad 16 (xorBytes (rate l.length r.1) l))) = f at *
  have hwsp := writable_fill_uninit mem2 sp 16
  rw [run_bind_of run_alloc, run_bind_of (run_STOREBYTES8 (hwsp.mono (by omega) (by omega))),
    run_bind_of (run_STOREBYTES8 (hwsp.writes.mono (by omega) (by omega)))]
  have hw2 : ((mem2.fill sp 16 .uninit).writes sp (bytes64 f.x3)).writes (sp + 8) (bytes64 f.x4) =
      (mem2.fill sp 16 .uninit).writes sp (aeadDecTag K N A (ctBody C)) := by
    rw [← hft, writes_append, length_bytes64]
  rw [hw2]
  have hd := hst2.disjoint_holds hct2
  have hct3 : ((mem2.fill sp 16 .uninit).writes sp (aeadDecTag K N A (ctBody C))).Holds
      (c + 16 * ((ctBody C).length / 16) + l.length) (ctTag C) := by
    rw [show c + 16 * ((ctBody C).length / 16) + l.length = c + (ctBody C).length by omega]
    exact (hct2.fill hd).writes_disjoint (by rw [htag]; exact hd)
  rw [run_bind_of (run_verifyTag hct3 (holds_writes_self _ _ _) htl htag), run_bind_of run_free,
    fill_writes_fill hst2 (by omega)]
  rfl

theorem dec_short : DecShort crypto_aead_decrypt := by
  intro e mem sp m mlen nsec c clen ad adlen npub k h
  constructor
  · unfold crypto_aead_decrypt
    rw [run_ifc, if_pos (by simpa using h)]; rfl
  · simp only [crypto_aead_decrypt, Prog.ifc, decide_eq_true h]
    rfl

end Ascon.Ref
