import Verif.Model.LowAead
import Verif.Proof.GenAead
import Verif.Proof.GenHash
import Verif.Proof.SpecAead
/-!
# src/lowsize and src/combined meet their contracts over every correct backend
-/

namespace Ascon.Low

open Ascon.C Ascon.Spec Ascon.Gen
open Ascon.C.Prog (require ifc loop forUp loadB storeB loadN storeN store64 load64)
open Ascon.Ref (getX xorX verifyTag run_getX run_xorX)

attribute [local irreducible] perm

variable {B : Backend} {e : Endian} {enc : Word → Word}

/-- Replace word `i` of the state. -/
def setAt (s : State) (i : Nat) (w : Word) : State :=
  match i with
  | 0 => { s with x0 := w }
  | 1 => { s with x1 := w }
  | 2 => { s with x2 := w }
  | 3 => { s with x3 := w }
  | _ => { s with x4 := w }

theorem run_setX {mem : Mem} {s : State} {i : Nat} {w : Word} (h : i < 5) :
    run (setX s i w) mem = some (setAt s i w, mem) := by
  have : i = 0 ∨ i = 1 ∨ i = 2 ∨ i = 3 ∨ i = 4 := by omega
  rcases this with rfl | rfl | rfl | rfl | rfl <;> rfl

theorem setAt_encS (s : State) (i : Nat) (w : Word) :
    setAt (encS enc s) i (enc w) = encS enc (setAt s i w) := by
  match i with
  | 0 | 1 | 2 | 3 | _ + 4 => simp only [setAt, encS]

theorem wordAt_xorAt (s : State) (i : Nat) (w : Word) : wordAt (xorAt s i w) i = wordAt s i ^^^ w := by
  match i with
  | 0 | 1 | 2 | 3 | _ + 4 => rfl

theorem setAt_xorAt (s : State) (i : Nat) (v w : Word) : setAt (xorAt s i v) i w = setAt s i w := by
  match i with
  | 0 | 1 | 2 | 3 | _ + 4 => rfl

theorem run_nrRate_aead (comb : Bool) (mode : Nat) (hm : has mode ASCON_HASH = false) (mem : Mem) :
    run (nrRate comb mode) mem = some ((8, 16), mem) := by
  cases comb <;> simp [nrRate, hm, run_bind]

theorem run_nrRate_hash (mode : Nat) (hm : has mode ASCON_HASH = true) (mem : Mem) :
    run (nrRate true mode) mem = some ((12, 8), mem) := by
  simp [nrRate, hm, run_bind]

theorem ifAbsorb_run {α : Type} (comb : Bool) (mode : Nat) (hm : has mode ASCON_ABSORB = true) (t f : Prog α)
    (mem : Mem) : run (ifAbsorb comb mode t f) mem = run t mem := by
  cases comb <;> simp [ifAbsorb, hm]

/-! ### The index and the permutation after a full word -/

/-- Lines 51-55 in the AEAD (`nr = 8`, `rate = 16`). -/
theorem run_advance (h : B.Ok e enc) {α : Type} (s : State) (i : Nat) (hi : i < 2) (mem : Mem)
    (k : Nat → State → Prog α) :
    run (do
      let i ← ifc (decide (i + 1 = 16 / 8)) (pure 0) (pure (i + 1))
      let s ← ifc (decide (i = 0)) (permNr B e 8 (encS enc s)) (pure (encS enc s))
      k i s) mem =
    run (k (if i = 1 then 0 else 1) (encS enc (if i = 1 then perm 8 s else s))) mem := by
  have : i = 0 ∨ i = 1 := by omega
  rcases this with rfl | rfl
  · rw [run_bind, run_ifc]; simp [run_bind, run_ifc]
  · rw [run_bind, run_ifc]
    simp only [Nat.reduceAdd, Nat.reduceDiv, decide_true, if_true, run_pure', Option.bind_some, run_bind,
      run_ifc, permNr, Nat.reduceEqDiff, if_false, h.p8]

/-! ### Absorbing associated data -/

theorem run_absStep (h : B.Ok e enc) (comb : Bool) {mem : Mem} (s : State) (i : Nat) (tmp : Word) (out p n : Nat)
    (M : List Byte) (hi : i < 2) (hM : mem.Holds p M) (h8 : 8 ≤ M.length) :
    run (updStep B e comb ASCON_ABSORB 8 16 (encS enc s, i, tmp, out, p, n)) mem =
      some ((encS enc (if i = 1 then perm 8 (xorAt s i (le64 (M.take 8))) else xorAt s i (le64 (M.take 8))),
        if i = 1 then 0 else 1, enc (le64 (M.take 8)), out + 8, p + 8, n - 8), mem) := by
  unfold updStep
  simp only
  rw [run_bind, ifAbsorb_run _ _ rfl, run_bind_of (run_LOAD h hM h8), run_bind_of (run_xorX (by omega)),
    xorAt_encS h]
  simp only [run_pure', Option.bind_some]
  rw [run_bind, run_ifc, if_neg (by decide)]
  simp only [run_pure', Option.bind_some]
  rw [run_bind, run_ifc, if_neg (by decide)]
  simp only [run_pure', Option.bind_some]
  rw [run_advance h _ i hi]
  rfl

theorem run_absFinal (h : B.Ok e enc) (comb : Bool) {mem : Mem} (s : State) (i : Nat) (tmp : Word) (out p : Nat)
    (M : List Byte) (hi : i < 2) (hM : mem.Holds p M) (h8 : M.length < 8) :
    run (updFinal B e comb ASCON_ABSORB (encS enc s, i, tmp, out, p, M.length)) mem =
      some (encS enc (xorAt s i (le64 M ^^^ (1 : Word) <<< (8 * M.length))), mem) := by
  unfold updFinal
  simp only
  rw [run_bind, ifAbsorb_run _ _ rfl, run_bind_of (run_LOADBYTES h hM rfl (by omega)),
    run_bind_of (run_xorX (by omega)), xorAt_encS h]
  simp only [run_pure', Option.bind_some]
  rw [run_bind, run_ifc, if_neg (by decide)]
  simp only [run_pure', Option.bind_some]
  rw [run_bind, run_ifc, if_neg (by decide)]
  simp only [run_pure', Option.bind_some]
  rw [run_bind_of (h.pad _ h8 mem), run_xorX (by omega), xorAt_encS h]
  have : i = 0 ∨ i = 1 := by omega
  rcases this with rfl | rfl <;> simp only [xorAt, BitVec.xor_assoc]

theorem xorIn_take16 (s : State) (P : List Byte) (h : 16 ≤ P.length) :
    xorIn s (P.take 16) = xorAt (xorAt s 0 (le64 (P.take 8))) 1 (le64 ((P.drop 8).take 8)) := by
  rw [xorIn_of_le16 _ _ (by simp; omega), List.take_take, List.drop_take]
  rfl

theorem xorIn_pad16 (s : State) (l : List Byte) (h : l.length < 16) :
    xorIn s (pad 16 l) =
      if l.length < 8 then xorAt s 0 (le64 l ^^^ (1 : Word) <<< (8 * l.length))
      else xorAt (xorAt s 0 (le64 (l.take 8))) 1 (le64 (l.drop 8) ^^^ (1 : Word) <<< (8 * (l.length - 8))) := by
  split
  · rw [xorIn_pad16_lt8 s l (by omega)]; simp only [xorAt, BitVec.xor_assoc]
  · rw [xorIn_pad16_ge8 s l (by omega) h]; simp only [xorAt, BitVec.xor_assoc]

theorem run_update_absorb (h : B.Ok e enc) (comb : Bool) {mem : Mem} (s : State) (out p : Nat) (M : List Byte)
    (hM : mem.Holds p M) :
    run (ascon_update B e comb (encS enc s) out p M.length ASCON_ABSORB) mem =
      some (encS enc (xorIn (absorb 8 s (fullBlocks 16 M)) (pad 16 (lastBlock 16 M))), mem) := by
  unfold ascon_update
  rw [run_bind_of (run_nrRate_aead comb ASCON_ABSORB rfl mem)]
  simp only
  suffices ∀ (f : Nat) (s : State) (tmp : Word) (out p : Nat) (M : List Byte), mem.Holds p M → M.length < f →
      run (loop f (fun (_, _, _, _, _, len) => decide (len ≥ 8)) (updStep B e comb ASCON_ABSORB 8 16)
        (encS enc s, 0, tmp, out, p, M.length) >>= updFinal B e comb ASCON_ABSORB) mem =
      some (encS enc (xorIn (absorb 8 s (fullBlocks 16 M)) (pad 16 (lastBlock 16 M))), mem) from
    this _ s 0 out p M hM (by omega)
  intro f s tmp out p M hM hf
  induction hn : M.length using Nat.strongRecOn generalizing f s tmp out p M with
  | ind n ih =>
    subst hn
    by_cases h16 : 16 ≤ M.length
    · obtain ⟨f, rfl⟩ : ∃ g, f = g + 2 := ⟨f - 2, by omega⟩
      have hd := hM.drop 8 (by omega)
      rw [run_bind, run_loop_step (by simp; omega) (run_absStep h comb s 0 tmp out p _ M (by omega) hM (by omega))]
      simp only [Nat.zero_ne_one, ↓reduceIte]
      rw [run_loop_step (by simp; omega) (run_absStep h comb _ 1 _ _ _ _ (M.drop 8) (by omega) hd (by simp; omega)),
        ← run_bind]
      simp only [↓reduceIte]
      have := ih (M.drop 16).length (by simp; omega) f (perm 8 (xorIn s (M.take 16)))
        (enc (le64 ((M.drop 8).take 8))) (out + 8 + 8) (p + 8 + 8)
        (M.drop 16) (hM.drop 16 h16) (by simp; omega) rfl
      rw [fullBlocks_of_ge 16 M (by omega) h16, lastBlock_of_ge 16 M (by omega) h16]
      simp only [absorb, List.foldl_cons] at this ⊢
      rw [xorIn_take16 s M h16] at this ⊢
      rw [← this]
      simp [Nat.sub_sub]
    · rw [fullBlocks_of_lt 16 M (by omega), lastBlock_of_lt 16 M (by omega)]
      simp only [absorb, List.foldl_nil]
      rw [xorIn_pad16 s M (by omega)]
      split
      · obtain ⟨f, rfl⟩ : ∃ g, f = g + 1 := ⟨f - 1, by omega⟩
        rw [run_bind, run_loop_done (by simp; omega)]
        simp only [Option.bind_some]
        rw [run_absFinal h comb s 0 tmp out p M (by omega) hM (by omega)]
      · obtain ⟨f, rfl⟩ : ∃ g, f = g + 2 := ⟨f - 2, by omega⟩
        have hd := hM.drop 8 (by omega)
        rw [run_bind, run_loop_step (by simp; omega) (run_absStep h comb s 0 tmp out p _ M (by omega) hM (by omega)),
          run_loop_done (by simp; omega)]
        simp only [Nat.zero_ne_one, ↓reduceIte, Option.bind_some]
        rw [← List.length_drop, run_absFinal h comb _ 1 _ _ _ _ (by omega) hd (by simp; omega)]

/-! ### Encrypting -/

theorem run_encStep (h : B.Ok e enc) (comb : Bool) {mem : Mem} (s : State) (i : Nat) (tmp : Word) (c m n : Nat)
    (M : List Byte) (hi : i < 2) (hM : mem.Holds m M) (h8 : 8 ≤ M.length) (hw : mem.Writable c 8) :
    run (updStep B e comb ASCON_ENCRYPT 8 16 (encS enc s, i, tmp, c, m, n)) mem =
      some ((encS enc (if i = 1 then perm 8 (xorAt s i (le64 (M.take 8))) else xorAt s i (le64 (M.take 8))),
        if i = 1 then 0 else 1, enc (le64 (M.take 8)), c + 8, m + 8, n - 8),
        mem.writes c (bytes64 (wordAt (xorAt s i (le64 (M.take 8))) i))) := by
  unfold updStep
  simp only
  rw [run_bind, ifAbsorb_run _ _ rfl, run_bind_of (run_LOAD h hM h8), run_bind_of (run_xorX (by omega)),
    xorAt_encS h]
  simp only [run_pure', Option.bind_some]
  rw [run_bind, run_ifc, if_pos (by decide), run_bind_of (run_getX (by omega)), wordAt_encS, run_STORE h hw]
  simp only [Option.bind_some]
  rw [run_bind, run_ifc, if_neg (by decide)]
  simp only [run_pure', Option.bind_some]
  rw [run_advance h _ i hi]
  rfl

theorem run_encFinal (h : B.Ok e enc) (comb : Bool) {mem : Mem} (s : State) (i : Nat) (tmp : Word) (c m : Nat)
    (M : List Byte) (hi : i < 2) (hM : mem.Holds m M) (h8 : M.length < 8) (hw : mem.Writable c M.length) :
    run (updFinal B e comb ASCON_ENCRYPT (encS enc s, i, tmp, c, m, M.length)) mem =
      some (encS enc (xorAt s i (le64 M ^^^ (1 : Word) <<< (8 * M.length))),
        mem.writes c ((bytes64 (wordAt s i ^^^ le64 M)).take M.length)) := by
  unfold updFinal
  simp only
  rw [run_bind, ifAbsorb_run _ _ rfl, run_bind_of (run_LOADBYTES h hM rfl (by omega)),
    run_bind_of (run_xorX (by omega)), xorAt_encS h]
  simp only [run_pure', Option.bind_some]
  rw [run_bind, run_ifc, if_pos (by decide), run_bind_of (run_getX (by omega)), wordAt_encS,
    run_STOREBYTES h hw (by omega)]
  simp only [Option.bind_some]
  rw [run_bind, run_ifc, if_neg (by decide)]
  simp only [run_pure', Option.bind_some]
  rw [run_bind_of (h.pad _ h8 _), run_xorX (by omega), xorAt_encS h, wordAt_xorAt]
  have : i = 0 ∨ i = 1 := by omega
  rcases this with rfl | rfl <;> simp only [xorAt, BitVec.xor_assoc]

theorem run_update_encrypt (h : B.Ok e enc) (comb : Bool) {mem : Mem} (s : State) (c m : Nat) (P : List Byte)
    (hm : mem.Holds m P) (hw : mem.Writable c P.length) (ho : c ≤ m ∨ m + P.length ≤ c) :
    run (ascon_update B e comb (encS enc s) c m P.length ASCON_ENCRYPT) mem =
      some (encS enc (encBody s P).1, mem.writes c (encBody s P).2) := by
  unfold ascon_update
  rw [run_bind_of (run_nrRate_aead comb ASCON_ENCRYPT rfl mem)]
  simp only
  suffices ∀ (f : Nat) (mem : Mem) (s : State) (tmp : Word) (c m : Nat) (P : List Byte), mem.Holds m P →
      mem.Writable c P.length → (c ≤ m ∨ m + P.length ≤ c) → P.length < f →
      run (loop f (fun (_, _, _, _, _, len) => decide (len ≥ 8)) (updStep B e comb ASCON_ENCRYPT 8 16)
        (encS enc s, 0, tmp, c, m, P.length) >>= updFinal B e comb ASCON_ENCRYPT) mem =
      some (encS enc (encBody s P).1, mem.writes c (encBody s P).2) from
    this _ mem s 0 c m P hm hw ho (by omega)
  clear ho hw hm
  intro f mem s tmp c m P hm hw ho hf
  induction hn : P.length using Nat.strongRecOn generalizing f mem s tmp c m P with
  | ind n ih =>
    subst hn
    by_cases h16 : 16 ≤ P.length
    · obtain ⟨f, rfl⟩ : ∃ g, f = g + 2 := ⟨f - 2, by omega⟩
      have hd : (mem.writes c (bytes64 (wordAt (xorAt s 0 (le64 (P.take 8))) 0))).Holds (m + 8) (P.drop 8) := by
        apply (hm.drop 8 (by omega)).writes_disjoint
        unfold Disjoint; simp only [length_bytes64, List.length_drop]; omega
      rw [run_bind, run_loop_step (by simp; omega)
        (run_encStep h comb s 0 tmp c m _ P (by omega) hm (by omega) (hw.mono (by omega) (by omega)))]
      simp only [Nat.zero_ne_one, ↓reduceIte]
      rw [run_loop_step (by simp; omega) (run_encStep h comb _ 1 _ _ _ _ (P.drop 8) (by omega) hd (by simp; omega)
        (hw.writes.mono (by omega) (by omega))), ← run_bind]
      simp only [↓reduceIte]
      have hw16 : bytes64 (wordAt (xorAt s 0 (le64 (P.take 8))) 0) ++
          bytes64 (wordAt (xorAt (xorAt s 0 (le64 (P.take 8))) 1 (le64 ((P.drop 8).take 8))) 1) =
          rate 16 (xorIn s (P.take 16)) := by
        rw [xorIn_take16 s P h16, rate_16]; rfl
      have hmem : ((mem.writes c (bytes64 (wordAt (xorAt s 0 (le64 (P.take 8))) 0))).writes (c + 8)
          (bytes64 (wordAt (xorAt (xorAt s 0 (le64 (P.take 8))) 1 (le64 ((P.drop 8).take 8))) 1))) =
          mem.writes c (rate 16 (xorIn s (P.take 16))) := by
        rw [← hw16, writes_append, length_bytes64]
      rw [hmem]
      have hr : (rate 16 (xorIn s (P.take 16))).length = 16 := length_rate 16 _ (by omega)
      have := ih (P.drop 16).length (by simp; omega) f (mem.writes c (rate 16 (xorIn s (P.take 16))))
        (perm 8 (xorIn s (P.take 16)))
        (enc (le64 ((P.drop 8).take 8))) (c + 8 + 8) (m + 8 + 8)
        (P.drop 16) (by
          apply (hm.drop 16 h16).writes_disjoint
          unfold Disjoint; rw [hr]; simp only [List.length_drop]; omega)
        (hw.writes.mono (by omega) (by simp; omega)) (by simp; omega) (by simp; omega) rfl
      rw [encBody_of_ge s P h16]
      simp only
      rw [writes_append, hr]
      rw [xorIn_take16 s P h16] at this ⊢
      rw [show c + 16 = c + 8 + 8 by omega, ← this]
      simp [Nat.sub_sub]
    · rw [encBody_of_lt s P (by omega)]
      simp only
      rw [xorIn_pad16 s P (by omega)]
      split
      · obtain ⟨f, rfl⟩ : ∃ g, f = g + 1 := ⟨f - 1, by omega⟩
        rw [run_bind, run_loop_done (by simp; omega)]
        simp only [Option.bind_some]
        rw [run_encFinal h comb s 0 tmp c m P (by omega) hm (by omega) hw, rate_le8 _ _ (by omega)]
        simp only [xorAt]
        rw [← BitVec.xor_assoc, take_bytes64_xor_pad _ _ (by omega)]
        rfl
      · obtain ⟨f, rfl⟩ : ∃ g, f = g + 2 := ⟨f - 2, by omega⟩
        have hd : (mem.writes c (bytes64 (wordAt (xorAt s 0 (le64 (P.take 8))) 0))).Holds (m + 8) (P.drop 8) := by
          apply (hm.drop 8 (by omega)).writes_disjoint
          unfold Disjoint; simp only [length_bytes64, List.length_drop]; omega
        rw [run_bind, run_loop_step (by simp; omega)
          (run_encStep h comb s 0 tmp c m _ P (by omega) hm (by omega) (hw.mono (by omega) (by omega))),
          run_loop_done (by simp; omega)]
        simp only [Nat.zero_ne_one, ↓reduceIte, Option.bind_some]
        rw [← List.length_drop, run_encFinal h comb _ 1 _ _ _ _ (by omega) hd (by simp; omega)
          (hw.writes.mono (by omega) (by simp; omega)), rate_le16 _ _ (by omega) (by omega), writes_append,
          length_bytes64]
        simp only [xorAt, wordAt, List.length_drop]
        rw [← BitVec.xor_assoc s.x1, take_bytes64_xor_pad _ _ (by omega)]

/-! ### Decrypting -/

theorem run_decStep (h : B.Ok e enc) (comb : Bool) {mem : Mem} (s : State) (i : Nat) (tmp : Word) (m c n : Nat)
    (C : List Byte) (hi : i < 2) (hC : mem.Holds c C) (h8 : 8 ≤ C.length) (hw : mem.Writable m 8) :
    run (updStep B e comb ASCON_DECRYPT 8 16 (encS enc s, i, tmp, m, c, n)) mem =
      some ((encS enc (if i = 1 then perm 8 (setAt s i (le64 (C.take 8))) else setAt s i (le64 (C.take 8))),
        if i = 1 then 0 else 1, enc (le64 (C.take 8)), m + 8, c + 8, n - 8),
        mem.writes m (bytes64 (wordAt s i ^^^ le64 (C.take 8)))) := by
  unfold updStep
  simp only
  rw [run_bind, ifAbsorb_run _ _ rfl, run_bind_of (run_LOAD h hC h8), run_bind_of (run_xorX (by omega)),
    xorAt_encS h]
  simp only [run_pure', Option.bind_some]
  rw [run_bind, run_ifc, if_pos (by decide), run_bind_of (run_getX (by omega)), wordAt_encS, run_STORE h hw]
  simp only [Option.bind_some]
  rw [run_bind, run_ifc, if_pos (by decide), run_setX (by omega), setAt_encS, setAt_xorAt, wordAt_xorAt]
  simp only [Option.bind_some]
  rw [run_advance h _ i hi]
  rfl

/-- `CLEAR(x ^ c, n) ^ c ^ PAD(n)` keeps the high bytes and replaces the low ones. -/
theorem clear_xor_pad_eq (x : Word) (l : List Byte) (h : l.length < 8) :
    ((x ^^^ le64 l) &&& Ref.highMask l.length) ^^^ le64 l ^^^ (1 : Word) <<< (8 * l.length) =
      x ^^^ le64 (xorBytes ((bytes64 x).take l.length) l) ^^^ (1 : Word) <<< (8 * l.length) := by
  congr 1
  rw [← Ref.clear_or_eq x l (by omega)]
  apply BitVec.eq_of_getLsbD_eq
  intro i hi
  simp only [Ref.highMask, BitVec.getLsbD_or, BitVec.getLsbD_and, BitVec.getLsbD_shiftLeft,
    BitVec.getLsbD_allOnes, BitVec.getLsbD_xor, hi, decide_true, Bool.true_and]
  by_cases h1 : i < 8 * l.length
  · simp [h1]
  · rw [getLsbD_le64_of_ge l i (by omega)]
    have : i - 8 * l.length < 64 := by omega
    simp [h1, this]

theorem run_decFinal (h : B.Ok e enc) (comb : Bool) {mem : Mem} (s : State) (i : Nat) (tmp : Word) (m c : Nat)
    (C : List Byte) (hi : i < 2) (hC : mem.Holds c C) (h8 : C.length < 8) (hw : mem.Writable m C.length) :
    run (updFinal B e comb ASCON_DECRYPT (encS enc s, i, tmp, m, c, C.length)) mem =
      some (encS enc (xorAt s i (le64 (xorBytes ((bytes64 (wordAt s i)).take C.length) C) ^^^
          (1 : Word) <<< (8 * C.length))),
        mem.writes m (xorBytes ((bytes64 (wordAt s i)).take C.length) C)) := by
  unfold updFinal
  simp only
  rw [run_bind, ifAbsorb_run _ _ rfl, run_bind_of (run_LOADBYTES h hC rfl (by omega)),
    run_bind_of (run_xorX (by omega)), xorAt_encS h]
  simp only [run_pure', Option.bind_some]
  rw [run_bind, run_ifc, if_pos (by decide), run_bind_of (run_getX (by omega)), wordAt_encS,
    run_STOREBYTES h hw (by omega)]
  simp only [Option.bind_some]
  rw [run_bind, run_ifc, if_pos (by decide), run_bind_of (run_getX (by omega)), wordAt_encS,
    run_bind_of (h.clear _ _ h8 _), run_bind_of (run_setX (by omega)), setAt_encS, run_xorX (by omega),
    xorAt_encS h]
  simp only [Option.bind_some]
  rw [run_bind_of (h.pad _ h8 _), run_xorX (by omega), xorAt_encS h, wordAt_xorAt,
    Ref.take_bytes64_xor_le64 _ _ (by omega)]
  have hcl := fun x => clear_xor_pad_eq x C h8
  have : i = 0 ∨ i = 1 := by omega
  rcases this with rfl | rfl <;> simp only [xorAt, setAt, wordAt, hcl, BitVec.xor_assoc]

theorem xorBytes_rate16 (s : State) (C : List Byte) (h : 16 ≤ C.length) :
    xorBytes (rate 16 s) (C.take 16) =
      bytes64 (s.x0 ^^^ le64 (C.take 8)) ++ bytes64 (s.x1 ^^^ le64 ((C.drop 8).take 8)) := by
  rw [rate_16, bytes64_xor, bytes64_xor, bytes64_le64 _ (by simp; omega), bytes64_le64 _ (by simp; omega)]
  rw [show C.take 16 = C.take 8 ++ (C.drop 8).take 8 by rw [← List.take_add]]
  simp only [xorBytes]
  rw [List.zipWith_append (by simp [length_bytes64]; omega)]

theorem xorIn_dec16 (s : State) (C : List Byte) (h : 16 ≤ C.length) :
    xorIn s (xorBytes (rate 16 s) (C.take 16)) =
      setAt (setAt s 0 (le64 (C.take 8))) 1 (le64 ((C.drop 8).take 8)) := by
  rw [xorBytes_rate16 s C h, xorIn_of_le16 _ _ (by simp [length_bytes64]), take8_bytes64_append,
    drop8_bytes64_append, le64_bytes64, le64_bytes64]
  simp only [← BitVec.xor_assoc, BitVec.xor_self, BitVec.zero_xor, setAt]

theorem run_update_decrypt (h : B.Ok e enc) (comb : Bool) {mem : Mem} (s : State) (m c : Nat) (C : List Byte)
    (hc : mem.Holds c C) (hw : mem.Writable m C.length) (ho : m ≤ c ∨ c + C.length ≤ m) :
    run (ascon_update B e comb (encS enc s) m c C.length ASCON_DECRYPT) mem =
      some (encS enc (decBody s C).1, mem.writes m (decBody s C).2) := by
  unfold ascon_update
  rw [run_bind_of (run_nrRate_aead comb ASCON_DECRYPT rfl mem)]
  simp only
  suffices ∀ (f : Nat) (mem : Mem) (s : State) (tmp : Word) (m c : Nat) (C : List Byte), mem.Holds c C →
      mem.Writable m C.length → (m ≤ c ∨ c + C.length ≤ m) → C.length < f →
      run (loop f (fun (_, _, _, _, _, len) => decide (len ≥ 8)) (updStep B e comb ASCON_DECRYPT 8 16)
        (encS enc s, 0, tmp, m, c, C.length) >>= updFinal B e comb ASCON_DECRYPT) mem =
      some (encS enc (decBody s C).1, mem.writes m (decBody s C).2) from
    this _ mem s 0 m c C hc hw ho (by omega)
  clear ho hw hc
  intro f mem s tmp m c C hc hw ho hf
  induction hn : C.length using Nat.strongRecOn generalizing f mem s tmp m c C with
  | ind n ih =>
    subst hn
    have hd : 8 ≤ C.length →
        (mem.writes m (bytes64 (wordAt s 0 ^^^ le64 (C.take 8)))).Holds (c + 8) (C.drop 8) := by
      intro h8
      apply (hc.drop 8 (by omega)).writes_disjoint
      unfold Disjoint; simp only [length_bytes64, List.length_drop]; omega
    by_cases h16 : 16 ≤ C.length
    · obtain ⟨f, rfl⟩ : ∃ g, f = g + 2 := ⟨f - 2, by omega⟩
      rw [run_bind, run_loop_step (by simp; omega)
        (run_decStep h comb s 0 tmp m c _ C (by omega) hc (by omega) (hw.mono (by omega) (by omega)))]
      simp only [Nat.zero_ne_one, ↓reduceIte]
      rw [run_loop_step (by simp; omega) (run_decStep h comb _ 1 _ _ _ _ (C.drop 8) (by omega) (hd (by omega))
        (by simp; omega) (hw.writes.mono (by omega) (by omega))), ← run_bind]
      simp only [↓reduceIte]
      have hmem : ((mem.writes m (bytes64 (wordAt s 0 ^^^ le64 (C.take 8)))).writes (m + 8)
          (bytes64 (wordAt (setAt s 0 (le64 (C.take 8))) 1 ^^^ le64 ((C.drop 8).take 8)))) =
          mem.writes m (xorBytes (rate 16 s) (C.take 16)) := by
        rw [xorBytes_rate16 s C h16, writes_append, length_bytes64]; rfl
      rw [hmem]
      have hr : (xorBytes (rate 16 s) (C.take 16)).length = 16 := by
        rw [length_xorBytes, length_rate 16 _ (by omega)]; simp; omega
      have := ih (C.drop 16).length (by simp; omega) f (mem.writes m (xorBytes (rate 16 s) (C.take 16)))
        (perm 8 (xorIn s (xorBytes (rate 16 s) (C.take 16))))
        (enc (le64 ((C.drop 8).take 8))) (m + 8 + 8) (c + 8 + 8)
        (C.drop 16) (by
          apply (hc.drop 16 h16).writes_disjoint
          unfold Disjoint; rw [hr]; simp only [List.length_drop]; omega)
        (hw.writes.mono (by omega) (by simp; omega)) (by simp; omega) (by simp; omega) rfl
      rw [decBody_of_ge s C h16]
      simp only
      rw [writes_append, hr]
      rw [xorIn_dec16 s C h16] at this ⊢
      rw [show m + 16 = m + 8 + 8 by omega, ← this]
      simp [Nat.sub_sub]
    · rw [decBody_of_lt s C (by omega)]
      simp only
      have hpl : (xorBytes (rate C.length s) C).length = C.length := by
        rw [length_xorBytes, length_rate _ _ (by omega)]; omega
      rw [xorIn_pad16 s _ (by omega), hpl]
      split
      · obtain ⟨f, rfl⟩ : ∃ g, f = g + 1 := ⟨f - 1, by omega⟩
        rw [run_bind, run_loop_done (by simp; omega)]
        simp only [Option.bind_some]
        rw [run_decFinal h comb s 0 tmp m c C (by omega) hc (by omega) hw, rate_le8 _ _ (by omega)]
        rfl
      · obtain ⟨f, rfl⟩ : ∃ g, f = g + 2 := ⟨f - 2, by omega⟩
        rw [run_bind, run_loop_step (by simp; omega)
          (run_decStep h comb s 0 tmp m c _ C (by omega) hc (by omega) (hw.mono (by omega) (by omega))),
          run_loop_done (by simp; omega)]
        simp only [Nat.zero_ne_one, ↓reduceIte, Option.bind_some]
        have hx : xorBytes (rate C.length s) C = bytes64 (s.x0 ^^^ le64 (C.take 8)) ++
            xorBytes ((bytes64 s.x1).take (C.length - 8)) (C.drop 8) := by
          rw [rate_le16 _ _ (by omega) (by omega), bytes64_xor, bytes64_le64 _ (by simp; omega)]
          conv => lhs; rw [← List.take_append_drop 8 C]
          simp only [xorBytes]
          rw [List.zipWith_append (by simp [length_bytes64]; omega), List.take_append_drop 8 C]
        rw [← List.length_drop, run_decFinal h comb _ 1 _ _ _ _ (by omega) (hd (by omega)) (by simp; omega)
          (hw.writes.mono (by omega) (by simp; omega)), hx, take8_bytes64_append, drop8_bytes64_append,
          le64_bytes64, writes_append, length_bytes64]
        simp only [xorAt, setAt, wordAt, List.length_drop, ← BitVec.xor_assoc, BitVec.xor_self, BitVec.zero_xor]

/-! ### Hashing with the combined build -/

/-- Lines 51-55 for the hash modes (`nr = 12`, `rate = 8`): permute after every word. -/
theorem run_advance_hash (h : B.Ok e enc) {α : Type} (s : State) (mem : Mem) (k : Nat → State → Prog α) :
    run (do
      let i ← ifc (decide (0 + 1 = 8 / 8)) (pure 0) (pure (0 + 1))
      let s ← ifc (decide (i = 0)) (permNr B e 12 (encS enc s)) (pure (encS enc s))
      k i s) mem =
    run (k 0 (encS enc (perm 12 s))) mem := by
  rw [run_bind, run_ifc]
  simp only [Nat.reduceAdd, Nat.reduceDiv, decide_true, if_true, run_pure', Option.bind_some, run_bind,
      run_ifc, permNr, h.p12]

theorem run_update_hash_absorb (h : B.Ok e enc) {mem : Mem} (s : State) (out p : Nat) (M : List Byte)
    (hM : mem.Holds p M) :
    run (ascon_update B e true (encS enc s) out p M.length (ASCON_HASH ||| ASCON_ABSORB)) mem =
      some (encS enc (xorIn (absorb 12 s (fullBlocks 8 M)) (pad 8 (lastBlock 8 M))), mem) := by
  unfold ascon_update
  rw [run_bind_of (run_nrRate_hash (ASCON_HASH ||| ASCON_ABSORB) rfl mem)]
  simp only
  suffices ∀ (f : Nat) (s : State) (tmp : Word) (out p : Nat) (M : List Byte), mem.Holds p M → M.length < f →
      run (loop f (fun (_, _, _, _, _, len) => decide (len ≥ 8))
        (updStep B e true (ASCON_HASH ||| ASCON_ABSORB) 12 8)
        (encS enc s, 0, tmp, out, p, M.length) >>= updFinal B e true (ASCON_HASH ||| ASCON_ABSORB)) mem =
      some (encS enc (xorIn (absorb 12 s (fullBlocks 8 M)) (pad 8 (lastBlock 8 M))), mem) from
    this _ s 0 out p M hM (by omega)
  intro f s tmp out p M hM hf
  induction hn : M.length using Nat.strongRecOn generalizing f s tmp out p M with
  | ind n ih =>
    subst hn
    obtain ⟨f, rfl⟩ : ∃ g, f = g + 1 := ⟨f - 1, by omega⟩
    by_cases h8 : 8 ≤ M.length
    · have step : run (updStep B e true (ASCON_HASH ||| ASCON_ABSORB) 12 8
          (encS enc s, 0, tmp, out, p, M.length)) mem =
          some ((encS enc (perm 12 (xorAt s 0 (le64 (M.take 8)))), 0, enc (le64 (M.take 8)), out + 8, p + 8,
            M.length - 8), mem) := by
        unfold updStep
        simp only
        rw [run_bind, ifAbsorb_run _ _ rfl, run_bind_of (run_LOAD h hM h8), run_bind_of (run_xorX (by omega)),
          xorAt_encS h]
        simp only [run_pure', Option.bind_some]
        rw [run_bind, run_ifc, if_neg (by decide)]
        simp only [run_pure', Option.bind_some]
        rw [run_bind, run_ifc, if_neg (by decide)]
        simp only [run_pure', Option.bind_some]
        exact run_advance_hash h _ mem (fun i s => pure (s, i, enc (le64 (M.take 8)), out + 8, p + 8, M.length - 8))
      rw [run_bind, run_loop_step (by simp; omega) step, ← run_bind]
      have := ih (M.drop 8).length (by simp; omega) f (perm 12 (xorIn s (M.take 8)))
        (enc (le64 (M.take 8))) (out + 8) (p + 8) (M.drop 8) (hM.drop 8 h8) (by simp; omega) rfl
      rw [fullBlocks_of_ge 8 M (by omega) h8, lastBlock_of_ge 8 M (by omega) h8]
      simp only [absorb, List.foldl_cons] at this ⊢
      rw [← this, xorIn_of_le8 s _ (by simp; omega)]
      simp [xorAt]
    · rw [fullBlocks_of_lt 8 M (by omega), lastBlock_of_lt 8 M (by omega)]
      simp only [absorb, List.foldl_nil]
      rw [run_bind, run_loop_done (by simp; omega)]
      simp only [Option.bind_some]
      unfold updFinal
      simp only
      rw [run_bind, ifAbsorb_run _ _ rfl, run_bind_of (run_LOADBYTES h hM rfl (by omega)),
        run_bind_of (run_xorX (by omega)), xorAt_encS h]
      simp only [run_pure', Option.bind_some]
      rw [run_bind, run_ifc, if_neg (by decide)]
      simp only [run_pure', Option.bind_some]
      rw [run_bind, run_ifc, if_neg (by decide)]
      simp only [run_pure', Option.bind_some]
      rw [run_bind_of (h.pad _ (by omega) mem), run_xorX (by omega), xorAt_encS h, Ref.xorIn_pad8 _ _ (by omega)]
      simp only [xorAt, BitVec.xor_assoc]

theorem run_update_hash_squeeze (h : B.Ok e enc) {mem : Mem} (s : State) (out p n : Nat)
    (hw : mem.Writable out n) :
    ∃ s', run (ascon_update B e true (encS enc s) out p n (ASCON_HASH ||| ASCON_SQUEEZE)) mem =
      some (s', mem.writes out (squeeze 8 s n)) := by
  unfold ascon_update
  rw [run_bind_of (run_nrRate_hash (ASCON_HASH ||| ASCON_SQUEEZE) rfl mem)]
  simp only
  suffices ∀ (f : Nat) (mem : Mem) (s : State) (tmp : Word) (out p n : Nat), mem.Writable out n → n < f →
      ∃ s', run (loop f (fun (_, _, _, _, _, len) => decide (len ≥ 8))
        (updStep B e true (ASCON_HASH ||| ASCON_SQUEEZE) 12 8)
        (encS enc s, 0, tmp, out, p, n) >>= updFinal B e true (ASCON_HASH ||| ASCON_SQUEEZE)) mem =
      some (s', mem.writes out (squeeze 8 s n)) from
    this _ mem s 0 out p n hw (by omega)
  clear hw
  intro f mem s tmp out p n hw hf
  induction n using Nat.strongRecOn generalizing f mem s tmp out p with
  | ind n ih =>
    obtain ⟨f, rfl⟩ : ∃ g, f = g + 1 := ⟨f - 1, by omega⟩
    by_cases h8 : 8 ≤ n
    · have step : run (updStep B e true (ASCON_HASH ||| ASCON_SQUEEZE) 12 8
          (encS enc s, 0, tmp, out, p, n)) mem =
          some ((encS enc (perm 12 s), 0, tmp, out + 8, p + 8, n - 8), mem.writes out (rate 8 s)) := by
        unfold updStep
        simp only
        rw [run_bind, ifAbsorb, if_pos rfl, run_ifc, if_neg (by decide)]
        simp only [run_pure', Option.bind_some]
        rw [run_bind, run_ifc, if_pos (by decide), run_bind_of (run_getX (by omega)), wordAt_encS,
          run_STORE h (hw.mono (by omega) (by omega))]
        simp only [Option.bind_some]
        rw [run_bind, run_ifc, if_neg (by decide)]
        simp only [run_pure', Option.bind_some]
        rw [rate_8]
        exact run_advance_hash h _ _ (fun i s => pure (s, i, tmp, out + 8, p + 8, n - 8))
      rw [run_bind, run_loop_step (by simp; omega) step, ← run_bind]
      obtain ⟨s', hs'⟩ := ih (n - 8) (by omega) f (mem.writes out (rate 8 s)) (perm 12 s) tmp (out + 8) (p + 8)
        (hw.writes.mono (by omega) (by omega)) (by omega)
      refine ⟨s', ?_⟩
      rw [hs', squeeze_of_ge 8 s n (by omega) (by omega) h8, writes_append, length_rate 8 s (by omega)]
    · rw [run_bind, run_loop_done (by simp; omega)]
      simp only [Option.bind_some]
      unfold updFinal
      simp only
      rw [run_bind, ifAbsorb, if_pos rfl, run_ifc, if_neg (by decide)]
      simp only [run_pure', Option.bind_some]
      rw [run_bind, run_ifc, if_pos (by decide), run_bind_of (run_getX (by omega)), wordAt_encS,
        run_STOREBYTES h hw (by omega)]
      simp only [Option.bind_some]
      rw [run_bind, run_ifc, if_neg (by decide)]
      simp only [run_pure', Option.bind_some]
      rw [run_bind_of (h.pad _ (by omega) _), run_xorX (by omega), squeeze_of_le 8 s n (by omega) (by omega),
        rate_le8 n s (by omega)]
      exact ⟨_, rfl⟩

theorem xof_correct (h : B.Ok e enc) : XofCorrectAt e xof128 (ascon_xof B) := by
  intro mem sp out n inp M hM _ _ hw _
  unfold ascon_xof
  rw [h.xof]
  simp only
  rw [run_bind_of (run_update_hash_absorb h _ 0 inp M hM), run_bind_of (h.p12 _ mem), ← absorb_pad8]
  obtain ⟨s', hs'⟩ := run_update_hash_squeeze h (absorb 12 (spongeInit ivXof) (fullBlocks 8 (pad 8 M))) out 0 n hw
  rw [run_bind_of hs']
  rfl

theorem hash_correct (h : B.Ok e enc) : HashCorrectAt e (fun m => xof128 m 64) 64 (crypto_hash B) :=
  fun mem sp out inp M hM hMl hw hs => xof_correct h mem sp out 64 inp M hM hMl (by omega) hw hs

/-! ### The AEAD interface -/

theorem run_copyLoop (tag t : Nat) (i : Nat) (mem : Mem) (T : List Byte) (hT : mem.Holds (t + i) T)
    (hw : mem.Writable (tag + i) T.length) (hd : Disjoint (tag + i) T.length (t + i) T.length) :
    run (forUp (fun i (_ : Unit) => do
      let b ← loadB (t + i)
      storeB (tag + i) b) T.length i ()) mem = some ((), mem.writes (tag + i) T) := by
  induction T generalizing i mem with
  | nil => simp [forUp, run, writes_nil]
  | cons b bs ih =>
    rw [holds_cons] at hT
    obtain ⟨h0, hT⟩ := hT
    have hw0 : (mem (tag + i)).rw = true := hw 0 (by simp)
    have hb : run (do
        let b ← loadB (t + i)
        storeB (tag + i) b) mem = some ((), mem.writes (tag + i) [b]) := by
      show run (Prog.load (t + i) fun b => (Prog.ret b).bind fun b => storeB (tag + i) b) mem = _
      simp only [run, h0]
      show run (storeB (tag + i) b) mem = _
      unfold storeB run
      rw [if_pos hw0]; rfl
    rw [List.length_cons, forUp]
    show run ((_ : Prog Unit) >>= _) mem = _
    rw [run_bind_of hb]
    have hd' : bs.length = 0 ∨ tag + i + 1 ≤ t + i ∨ t + i + 1 ≤ tag + i := by
      simp only [Disjoint, List.length_cons] at hd
      omega
    rw [ih (i + 1) _ (by
      have := hT
      apply Mem.Holds.writes_disjoint this
      simp only [Disjoint, List.length_cons, List.length_nil] at hd ⊢
      omega) (hw.writes.mono (by omega) (by simp; omega)) (by
      simp only [Disjoint, List.length_cons] at hd ⊢
      omega)]
    rw [writes_cons (bs := bs), Nat.add_assoc]

theorem run_copyTag (tag t : Nat) (mem : Mem) (T : List Byte) (hl : T.length = 16) (hT : mem.Holds t T)
    (hw : mem.Writable tag 16) (hd : Disjoint tag 16 t 16) :
    run (copyTag tag t) mem = some ((), mem.writes tag T) := by
  unfold copyTag
  have := run_copyLoop tag t 0 mem T hT (by rw [hl]; exact hw) (by rw [hl]; exact hd)
  rw [hl] at this
  exact this

theorem run_adPart (h : B.Ok e enc) (comb : Bool) {mem : Mem} {s : State} {ad : Nat} {A : List Byte}
    (ha : mem.Holds ad A) :
    run (ifc (decide (A.length ≠ 0))
        (do
          let s ← ascon_update B e comb (encS enc s) 0 ad A.length ASCON_ABSORB
          B.P8 e s)
        (pure (encS enc s))) mem =
      some (encS enc (if A = [] then s else absorb 8 s (fullBlocks 16 (pad 16 A))), mem) := by
  rw [run_ifc]
  by_cases h0 : A = []
  · simp [h0]
  · have : A.length ≠ 0 := by simpa using h0
    rw [if_pos (by simpa using this), if_neg h0, run_bind_of (run_update_absorb h comb s 0 ad A ha), h.p8,
      fullBlocks_pad 16 A (by omega)]
    simp only [absorb, List.foldl_append, List.foldl_cons, List.foldl_nil]

theorem encS_dsep (h : B.Ok e enc) (A : List Byte) (s : State) :
    ({ encS enc (if A = [] then s else absorb 8 s (fullBlocks 16 (pad 16 A))) with
      x4 := (encS enc (if A = [] then s else absorb 8 s (fullBlocks 16 (pad 16 A)))).x4 ^^^ B.DSEP } : State) =
    encS enc (aeadAd A s) := by
  simp only [h.dsep, aeadAd]
  generalize (if A = [] then s else _) = t
  simp only [encS, h.xor]

theorem enc_correct (h : B.Ok e enc) (comb : Bool) : EncCorrectAt e (crypto_aead_encrypt B comb) := by
  intro mem sp c clen m ad nsec npub k K N A P h'
  unfold crypto_aead_encrypt encPost
  rw [run_bind_of (Ref.run_store64 h'.outLen)]
  have hsep : ∀ {q : Nat} {bs : List Byte}, mem.Holds q bs → Disjoint clen 8 q bs.length →
      (mem.writes clen (repr64 e (BitVec.ofNat 64 (P.length + 16)))).Holds q bs := fun hq hd =>
    hq.writes_disjoint (by rwa [Ref.length_repr64])
  have hk := hsep h'.key (by rw [h'.keyLen]; exact h'.sepKey)
  have hn := hsep h'.nonce (by rw [h'.nonceLen]; exact h'.sepNonce)
  have ha := hsep h'.adata h'.sepAd
  have hm := hsep h'.msg h'.sepMsg
  have hw : (mem.writes clen (repr64 e (BitVec.ofNat 64 (P.length + 16)))).Writable c (P.length + 16) :=
    h'.out.writes
  have hst : (mem.writes clen (repr64 e (BitVec.ofNat 64 (P.length + 16)))).Free sp 16 :=
    Ref.Mem.Free.writes' (Ref.Mem.Free.mono' h'.stack (by omega)) (by
      rw [Ref.length_repr64]
      exact (Ref.Mem.Free.mono' h'.stack (by omega : 16 ≤ 64)).disjoint_writable h'.outLen)
  have ho := h'.overlap
  generalize mem.writes clen (repr64 e (BitVec.ofNat 64 (P.length + 16))) = mem1 at *
  unfold ascon_aead
  rw [run_bind_of (run_loadkey h hk h'.keyLen), run_bind_of (run_initaead h hn h'.nonceLen)]
  rw [run_bind_of (run_adPart h comb ha)]
  simp only
  rw [encS_dsep h, run_bind_of (run_update_encrypt h comb _ c m P hm (hw.mono (by omega) (by omega)) ho),
    run_bind_of (run_final h _ K)]
  have hlen := Ref.length_encBody (aeadAd A (aeadInit K N)) P
  have e1 : aeadEncrypt K N A P = (encBody (aeadAd A (aeadInit K N)) P).2 ++
      aeadTag K (encBody (aeadAd A (aeadInit K N)) P).1 := rfl
  rw [e1]
  generalize encBody (aeadAd A (aeadInit K N)) P = r at *
  have e2 : aeadTag K r.1 = bytes64 (addKeyLast K (perm 12 (addKeyMid K r.1))).x3 ++
      bytes64 (addKeyLast K (perm 12 (addKeyMid K r.1))).x4 := rfl
  have htl : (aeadTag K r.1).length = 16 := Ref.length_aeadTag _ _
  generalize aeadTag K r.1 = T at *
  generalize addKeyLast K (perm 12 (addKeyMid K r.1)) = t at *
  have hst2 : (mem1.writes c r.2).Free sp 16 :=
    Ref.Mem.Free.writes' hst (by
      rw [hlen]; exact hst.disjoint_writable (hw.mono (by omega) (by omega)))
  have hw2 : (mem1.writes c r.2).Writable (c + P.length) 16 := hw.writes.mono (by omega) (by omega)
  rw [writes_append, hlen]
  generalize mem1.writes c r.2 = mem2 at *
  have hwsp := writable_fill_uninit mem2 sp 16
  have hd := hst2.disjoint_writable hw2
  rw [run_bind_of Ref.run_alloc, run_bind_of (Ref.run_store64 (hwsp.mono (by omega) (by omega))),
    run_bind_of (Ref.run_store64 (hwsp.writes.mono (by omega) (by omega)))]
  have hw3 : ((mem2.fill sp 16 .uninit).writes sp (repr64 e (B.WORDTOU64 e (encS enc t).x3))).writes (sp + 8)
      (repr64 e (B.WORDTOU64 e (encS enc t).x4)) = (mem2.fill sp 16 .uninit).writes sp T := by
    rw [e2, writes_append, length_bytes64]
    simp only [encS, h.store]
  rw [hw3]
  have hwt : ((mem2.fill sp 16 .uninit).writes sp T).Writable (c + P.length) 16 := by
    apply Mem.Writable.writes
    intro i hi
    unfold Mem.fill
    split
    · simp
    · exact hw2 i hi
  rw [run_bind_of (a := (0 : Int)) (mem' := ((mem2.fill sp 16 .uninit).writes sp T).writes (c + P.length) T) (by
    rw [run_ifc, if_pos (by decide), run_bind_of (run_copyTag _ _ _ T htl (holds_writes_self _ _ _) hwt
      (by unfold Disjoint at *; omega))]
    rfl), run_bind_of Ref.run_free]
  rw [run_pure']
  congr 2
  rw [writes_comm (by unfold Disjoint at *; omega), ← fill_writes_comm (by unfold Disjoint at *; omega)]
  rw [fill_writes_fill (by
    apply Ref.Mem.Free.writes' hst2
    unfold Disjoint at *; omega) (by omega)]

theorem dec_correct (h : B.Ok e enc) (comb : Bool) : DecCorrectAt e (crypto_aead_decrypt B comb) := by
  intro mem sp m mlen nsec c ad npub k K N A C h'
  unfold crypto_aead_decrypt decPost
  have h16 := h'.ctMin
  rw [run_ifc, if_neg (by simpa using h16), run_bind_of (Ref.run_store64 h'.outLen)]
  have hsep : ∀ {q : Nat} {bs : List Byte}, mem.Holds q bs → Disjoint mlen 8 q bs.length →
      (mem.writes mlen (repr64 e (BitVec.ofNat 64 (C.length - 16)))).Holds q bs := fun hq hd =>
    hq.writes_disjoint (by rwa [Ref.length_repr64])
  have hk := hsep h'.key (by rw [h'.keyLen]; exact h'.sepKey)
  have hn := hsep h'.nonce (by rw [h'.nonceLen]; exact h'.sepNonce)
  have ha := hsep h'.adata h'.sepAd
  have hc := hsep h'.ct h'.sepCt
  have hw : (mem.writes mlen (repr64 e (BitVec.ofNat 64 (C.length - 16)))).Writable m (C.length - 16) :=
    h'.out.writes
  have hst : (mem.writes mlen (repr64 e (BitVec.ofNat 64 (C.length - 16)))).Free sp 16 :=
    Ref.Mem.Free.writes' (Ref.Mem.Free.mono' h'.stack (by omega)) (by
      rw [Ref.length_repr64]
      exact (Ref.Mem.Free.mono' h'.stack (by omega : 16 ≤ 64)).disjoint_writable h'.outLen)
  have ho := h'.overlap
  generalize mem.writes mlen (repr64 e (BitVec.ofNat 64 (C.length - 16))) = mem1 at *
  have hbl : (ctBody C).length = C.length - 16 := by simp [ctBody]
  have htl : (ctTag C).length = 16 := by simp [ctTag]; omega
  have hcb : mem1.Holds c (ctBody C) := hc.take _
  have hct : mem1.Holds (c + (C.length - 16)) (ctTag C) := hc.drop _ (by omega)
  unfold ascon_aead
  simp only
  rw [← hbl] at hw hct ⊢
  rw [run_bind_of (run_loadkey h hk h'.keyLen), run_bind_of (run_initaead h hn h'.nonceLen),
    run_bind_of (run_adPart h comb ha)]
  rw [encS_dsep h, run_bind_of (run_update_decrypt h comb _ m c _ hcb hw (by omega)),
    run_bind_of (run_final h _ K)]
  have hlen := Ref.length_decBody (aeadAd A (aeadInit K N)) (ctBody C)
  have e1 : aeadCandidate K N A (ctBody C) = (decBody (aeadAd A (aeadInit K N)) (ctBody C)).2 := rfl
  have e2 : aeadDecTag K N A (ctBody C) = aeadTag K (decBody (aeadAd A (aeadInit K N)) (ctBody C)).1 := rfl
  rw [e1, e2]
  generalize decBody (aeadAd A (aeadInit K N)) (ctBody C) = r at *
  have e3 : aeadTag K r.1 = bytes64 (addKeyLast K (perm 12 (addKeyMid K r.1))).x3 ++
      bytes64 (addKeyLast K (perm 12 (addKeyMid K r.1))).x4 := rfl
  have htag : (aeadTag K r.1).length = 16 := Ref.length_aeadTag _ _
  generalize aeadTag K r.1 = T at *
  generalize addKeyLast K (perm 12 (addKeyMid K r.1)) = t at *
  have hct2 : (mem1.writes m r.2).Holds (c + (ctBody C).length) (ctTag C) := by
    apply hct.writes_disjoint
    unfold Disjoint; rw [hlen]; omega
  have hst2 : (mem1.writes m r.2).Free sp 16 :=
    Ref.Mem.Free.writes' hst (by rw [hlen]; exact hst.disjoint_writable hw)
  generalize mem1.writes m r.2 = mem2 at *
  have hwsp := writable_fill_uninit mem2 sp 16
  have hd := hst2.disjoint_holds hct2
  rw [run_bind_of Ref.run_alloc, run_bind_of (Ref.run_store64 (hwsp.mono (by omega) (by omega))),
    run_bind_of (Ref.run_store64 (hwsp.writes.mono (by omega) (by omega)))]
  have hw3 : ((mem2.fill sp 16 .uninit).writes sp (repr64 e (B.WORDTOU64 e (encS enc t).x3))).writes (sp + 8)
      (repr64 e (B.WORDTOU64 e (encS enc t).x4)) = (mem2.fill sp 16 .uninit).writes sp T := by
    rw [e3, writes_append, length_bytes64]
    simp only [encS, h.store]
  rw [hw3]
  have hct3 : ((mem2.fill sp 16 .uninit).writes sp T).Holds (c + (ctBody C).length) (ctTag C) :=
    (hct2.fill hd).writes_disjoint (by rw [htag]; exact hd)
  rw [run_bind_of (by
    rw [run_ifc, if_neg (by decide)]
    exact Ref.run_verifyTag hct3 (holds_writes_self _ _ _) htl htag), run_bind_of Ref.run_free,
    fill_writes_fill hst2 (by omega)]
  rfl

theorem dec_short (B : Backend) (comb : Bool) : DecShort (crypto_aead_decrypt B comb) := by
  intro e mem sp m mlen nsec c clen ad adlen npub k h
  constructor
  · unfold crypto_aead_decrypt
    rw [run_ifc, if_pos (by simpa using h)]; rfl
  · simp only [crypto_aead_decrypt, Prog.ifc, decide_eq_true h]
    rfl

end Ascon.Low
