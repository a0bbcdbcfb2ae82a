import Verif.C.VariantContracts
import Verif.Model.GenVar
import Verif.Proof.GenAead
import Verif.Proof.GenCT
import Verif.Proof.SpecVariants
/-!
# The rate-8 configurations of src/aead.c meet their contract over every correct backend
-/

namespace Ascon.C

open Ascon.Spec
open Ascon.C.Prog (loop)

attribute [local irreducible] perm

variable {τ : Type}

theorem length_vEncBlocks {V : Variant} (hl : V.r ≤ 40) (s : State) (bs : List (List Byte)) :
    (V.encBlocks s bs).2.length = V.r * bs.length := by
  induction bs generalizing s with
  | nil => rfl
  | cons b bs ih =>
    simp only [Variant.encBlocks, List.length_append, ih, length_rate V.r _ hl, List.length_cons, Nat.mul_add, Nat.mul_one]
    omega

theorem length_vDecBlocks {V : Variant} (hl : V.r ≤ 40) (s : State) (bs : List (List Byte)) (h : ∀ b ∈ bs, b.length = V.r) :
    (V.decBlocks s bs).2.length = V.r * bs.length := by
  induction bs generalizing s with
  | nil => rfl
  | cons b bs ih =>
    simp only [Variant.decBlocks, List.length_append, ih _ (fun b hb => h b (List.mem_cons_of_mem _ hb)),
      length_xorBytes, length_rate V.r _ hl, List.length_cons, h b List.mem_cons_self, Nat.mul_add, Nat.mul_one,
      Nat.min_self]
    omega

/-- Encrypting full blocks of `V.r` bytes. -/
theorem run_vEncryptLoop (V : Variant) (h0 : 0 < V.r) (hl : V.r ≤ 40) (E : State → τ)
    {cond : τ × Nat × Nat × Nat → Bool} {step : τ × Nat × Nat × Nat → Prog (τ × Nat × Nat × Nat)}
    (hc : ∀ s c m n, cond (s, c, m, n) = decide (n ≥ V.r))
    (hstep : ∀ (mem : Mem) (s : State) (c m n : Nat) (P : List Byte), mem.Holds m P → V.r ≤ P.length →
      mem.Writable c V.r →
      run (step (E s, c, m, n)) mem = some ((E (perm V.b (xorIn s (P.take V.r))), c + V.r, m + V.r, n - V.r),
        mem.writes c (rate V.r (xorIn s (P.take V.r)))))
    (f : Nat) (s : State) (mem : Mem) (c m : Nat) (P : List Byte) (h : mem.Holds m P)
    (hw : mem.Writable c P.length) (ho : c ≤ m ∨ m + P.length ≤ c) (hf : P.length < f) :
    run (loop f cond step (E s, c, m, P.length)) mem =
      some ((E (V.encBlocks s (fullBlocks V.r P)).1, c + V.r * (P.length / V.r), m + V.r * (P.length / V.r),
        P.length % V.r), mem.writes c (V.encBlocks s (fullBlocks V.r P)).2) := by
  induction f generalizing s mem c m P with
  | zero => omega
  | succ f ih =>
    by_cases h16 : V.r ≤ P.length
    · have hr : (rate V.r (xorIn s (P.take V.r))).length = V.r := length_rate _ _ hl
      rw [run_loop_step (by rw [hc]; simpa using h16)
          (hstep mem s c m _ P h h16 (hw.mono (by omega) (by omega))),
        ← List.length_drop (i := V.r) (l := P), ih, fullBlocks_of_ge V.r P h0 h16]
      · have e1 : (List.drop V.r P).length / V.r + 1 = P.length / V.r := by
          rw [List.length_drop, Nat.div_eq_sub_div h0 h16]
        have e2 : (List.drop V.r P).length % V.r = P.length % V.r := by
          rw [List.length_drop, Nat.mod_eq_sub_mod h16]
        have e3 : ∀ x y : Nat, x + V.r + V.r * y = x + V.r * (y + 1) := by
          intro x y; rw [Nat.mul_add, Nat.mul_one]; omega
        rw [e2, ← e1]
        simp only [Variant.encBlocks]
        rw [writes_append, hr, e3, e3]
      · apply (h.drop V.r h16).writes_disjoint
        unfold Disjoint; simp only [hr, List.length_drop]; omega
      · exact (hw.mono (by omega) (by simp; omega)).writes
      · simp; omega
      · simp; omega
    · rw [run_loop_done (by rw [hc]; simpa using h16), fullBlocks_of_lt V.r P (by omega)]
      simp only [Variant.encBlocks, writes_nil]
      rw [Nat.mod_eq_of_lt (by omega), Nat.div_eq_of_lt (by omega)]
      rfl

/-- Decrypting full blocks of `V.r` bytes. -/
theorem run_vDecryptLoop (V : Variant) (h0 : 0 < V.r) (hl : V.r ≤ 40) (E : State → τ)
    {cond : τ × Nat × Nat × Nat → Bool} {step : τ × Nat × Nat × Nat → Prog (τ × Nat × Nat × Nat)}
    (hc : ∀ s m c n, cond (s, m, c, n) = decide (n ≥ V.r))
    (hstep : ∀ (mem : Mem) (s : State) (m c n : Nat) (C : List Byte), mem.Holds c C → V.r ≤ C.length →
      mem.Writable m V.r →
      run (step (E s, m, c, n)) mem =
        some ((E (perm V.b (xorIn s (xorBytes (rate V.r s) (C.take V.r)))), m + V.r, c + V.r, n - V.r),
        mem.writes m (xorBytes (rate V.r s) (C.take V.r))))
    (f : Nat) (s : State) (mem : Mem) (m c : Nat) (C : List Byte) (h : mem.Holds c C)
    (hw : mem.Writable m C.length) (ho : m ≤ c ∨ c + C.length ≤ m) (hf : C.length < f) :
    run (loop f cond step (E s, m, c, C.length)) mem =
      some ((E (V.decBlocks s (fullBlocks V.r C)).1, m + V.r * (C.length / V.r), c + V.r * (C.length / V.r),
        C.length % V.r), mem.writes m (V.decBlocks s (fullBlocks V.r C)).2) := by
  induction f generalizing s mem m c C with
  | zero => omega
  | succ f ih =>
    by_cases h16 : V.r ≤ C.length
    · have hr : (xorBytes (rate V.r s) (C.take V.r)).length = V.r := by
        rw [length_xorBytes, length_rate _ _ hl]; simp; omega
      rw [run_loop_step (by rw [hc]; simpa using h16)
          (hstep mem s m c _ C h h16 (hw.mono (by omega) (by omega))),
        ← List.length_drop (i := V.r) (l := C), ih, fullBlocks_of_ge V.r C h0 h16]
      · have e1 : (List.drop V.r C).length / V.r + 1 = C.length / V.r := by
          rw [List.length_drop, Nat.div_eq_sub_div h0 h16]
        have e2 : (List.drop V.r C).length % V.r = C.length % V.r := by
          rw [List.length_drop, Nat.mod_eq_sub_mod h16]
        have e3 : ∀ x y : Nat, x + V.r + V.r * y = x + V.r * (y + 1) := by
          intro x y; rw [Nat.mul_add, Nat.mul_one]; omega
        rw [e2, ← e1]
        simp only [Variant.decBlocks]
        rw [writes_append, hr, e3, e3]
      · apply (h.drop V.r h16).writes_disjoint
        unfold Disjoint; simp only [hr, List.length_drop]; omega
      · exact (hw.mono (by omega) (by simp; omega)).writes
      · simp; omega
      · simp; omega
    · rw [run_loop_done (by rw [hc]; simpa using h16), fullBlocks_of_lt V.r C (by omega)]
      simp only [Variant.decBlocks, writes_nil]
      rw [Nat.mod_eq_of_lt (by omega), Nat.div_eq_of_lt (by omega)]
      rfl

end Ascon.C

namespace Ascon.Gen

open Ascon.C Ascon.Spec
open Ascon.C.Prog (require ifc loop forUp loadB storeB loadN storeN store64 load64)

attribute [local irreducible] perm

/-- The parameter set of a key length. -/
def KeyCfg.spec : KeyCfg → Variant
  | .k16 => ascon128
  | .k20 => ascon80pq

/-- A correct backend for the rate-8 configurations. -/
structure VBackend.Ok (V : VBackend) (e : Endian) (enc : Word → Word) : Prop where
  base : V.B.Ok e enc
  p6 : ∀ s mem, run (V.P6 e (encS enc s)) mem = some (encS enc (perm 6 s), mem)
  rot : ∀ a b, V.KEYROT e (enc a) (enc b) = enc (b <<< 32 ||| a >>> 32)
  iv128 : V.ASCON_128_IV = enc 0x00000800806c0001
  iv80 : ∀ w : Word, enc (w <<< 32) ||| V.ASCON_80PQ_IV = enc (w <<< 32 ||| 0x806c0800)

variable {V : VBackend} {e : Endian} {enc : Word → Word}

/-- The key words the code computes from the key bytes. -/
def keyOf (enc : Word → Word) : KeyCfg → List Byte → Key
  | .k16, K => ⟨enc (le64 (K.take 8)), enc (le64 (K.drop 8)), 0⟩
  | .k20, K => ⟨enc (le64 (K.take 4) <<< 32), enc (le64 ((K.drop 4).take 8)), enc (le64 (K.drop 12))⟩

theorem shl_or_zero (w : Word) : w <<< 32 ||| (0 : Word) >>> 32 = w <<< 32 := by simp

theorem shr_or_zero (w : Word) : (0 : Word) <<< 32 ||| w >>> 32 = w >>> 32 := by simp

theorem zero_xor' (w : Word) : (0 : Word) ^^^ w = w := by simp

theorem run_vloadkey (h : V.Ok e enc) (q : KeyCfg) {mem : Mem} {k : Nat} {K : List Byte} (hk : mem.Holds k K)
    (hK : K.length = q.spec.keyLen) :
    run (v_loadkey V q e k) mem = some (keyOf enc q K, mem) := by
  cases q with
  | k16 =>
    have hK' : K.length = 16 := hK
    unfold v_loadkey
    have e1 : (K.drop 8).take 8 = K.drop 8 := List.take_of_length_le (by simp; omega)
    simp only
    rw [run_bind_of (run_LOAD h.base hk (by omega)), run_bind_of (run_LOAD' h.base hk (by omega)), e1]
    rfl
  | k20 =>
    have hK' : K.length = 20 := hK
    unfold v_loadkey
    simp only
    have h1 : run (LOADBYTES V.B e (k + 4) 8) mem = some (enc (le64 ((K.drop 4).take 8)), mem) :=
      run_LOAD' h.base hk (by omega)
    have h2 : run (LOADBYTES V.B e (k + 12) 8) mem = some (enc (le64 ((K.drop 12).take 8)), mem) :=
      run_LOAD' h.base hk (by omega)
    have e1 : (K.drop 12).take 8 = K.drop 12 := List.take_of_length_le (by simp; omega)
    have e2 : V.KEYROT e 0 (enc (le64 (K.take 4))) = enc (le64 (K.take 4) <<< 32) := by
      have := h.rot 0 (le64 (K.take 4))
      rw [h.base.enc0, shl_or_zero] at this
      exact this
    rw [run_bind_of (run_LOADBYTES h.base (hk.take 4) (by simp; omega) (by omega)), run_bind_of h1, run_bind_of h2, e1, e2]
    rfl

/-! ### The byte-level specification in words -/

theorem drop_zeros_append (n j : Nat) (K : List Byte) :
    (List.replicate n (0 : Byte) ++ K).drop j = List.replicate (n - j) 0 ++ K.drop (j - n) := by
  rw [List.drop_append, List.drop_replicate, List.length_replicate]

theorem le64_zeros_append (n : Nat) (K : List Byte) (h : n ≤ 8) :
    le64 (List.replicate n 0 ++ K) = le64 K <<< (8 * n) := by
  rw [le64_append _ _ (by simpa using h), le64_replicate_zero, List.length_replicate]
  simp

theorem le64_zeros8_append (n : Nat) (K : List Byte) (h : 8 ≤ n) : le64 (List.replicate n 0 ++ K) = 0 := by
  rw [← le64_take8, List.take_append_of_le_length (by simpa using h), List.take_replicate, le64_replicate_zero]

theorem addKeyEnd16 (K : List Byte) (hK : K.length = 16) (s : State) :
    Variant.addKeyEnd K s = { s with x3 := s.x3 ^^^ le64 (K.take 8), x4 := s.x4 ^^^ le64 (K.drop 8) } := by
  unfold Variant.addKeyEnd Variant.xorAtByte xorIn
  simp only [hK, Nat.reduceSub, le64_take8, drop_zeros_append, List.replicate_zero, List.nil_append, List.drop_zero]
  rw [le64_zeros8_append _ _ (by omega), le64_zeros8_append _ _ (by omega), le64_zeros8_append _ _ (by omega)]
  simp

theorem addKeyEnd20 (K : List Byte) (hK : K.length = 20) (s : State) :
    Variant.addKeyEnd K s = { s with
      x2 := s.x2 ^^^ le64 (K.take 4) <<< 32
      x3 := s.x3 ^^^ le64 ((K.drop 4).take 8)
      x4 := s.x4 ^^^ le64 (K.drop 12) } := by
  unfold Variant.addKeyEnd Variant.xorAtByte xorIn
  simp only [hK, Nat.reduceSub, le64_take8, drop_zeros_append, List.replicate_zero, List.nil_append, List.drop_zero]
  rw [le64_zeros8_append _ _ (by omega), le64_zeros8_append _ _ (by omega), le64_zeros_append _ _ (by omega)]
  have e : le64 K <<< (8 * 4) = le64 (K.take 4) <<< 32 := by
    conv => lhs; rw [← List.take_append_drop 4 K, le64_append _ _ (by simp; omega)]
    apply BitVec.eq_of_getLsbD_eq
    intro i hi
    simp only [BitVec.getLsbD_shiftLeft, BitVec.getLsbD_or, hi, decide_true, Bool.true_and, List.length_take, hK]
    by_cases h : i < 32
    · simp [h]
    · have h1 : i - 32 < 32 := by omega
      simp [h, h1]
  rw [e]
  simp

theorem xorAt8_16 (K : List Byte) (hK : K.length = 16) (s : State) :
    Variant.xorAtByte 8 K s = { s with x1 := s.x1 ^^^ le64 (K.take 8), x2 := s.x2 ^^^ le64 (K.drop 8) } := by
  unfold Variant.xorAtByte xorIn
  simp only [Nat.reduceSub, le64_take8, drop_zeros_append, List.replicate_zero, List.nil_append, List.drop_zero]
  rw [le64_zeros8_append _ _ (by omega), List.drop_of_length_le (l := K) (i := 16) (by omega),
    List.drop_of_length_le (l := K) (i := 24) (by omega)]
  simp [le64_nil]

/-- `KEYROT` on adjacent key words: the eight bytes across their boundary. -/
theorem rot_bytes (A B : List Byte) (hA : A.length = 4) :
    le64 B <<< 32 ||| (le64 A <<< 32) >>> 32 = le64 (A ++ B) := by
  rw [le64_append _ _ (by omega), hA]
  apply BitVec.eq_of_getLsbD_eq
  intro i hi
  simp only [BitVec.getLsbD_shiftLeft, BitVec.getLsbD_or, BitVec.getLsbD_ushiftRight, hi, decide_true, Bool.true_and]
  by_cases h : i < 32
  · have h2 : ¬ 32 + i < 32 := by omega
    have h3 : 32 + i < 64 := by omega
    simp [h, h3]
  · have h3 : ¬ 32 + i < 64 := by omega
    have h4 := getLsbD_le64_of_ge A i (by omega)
    simp [h, h3, h4]

theorem rot_bytes' (A B C : List Byte) (hA : A.length = 4) (hB : B.length = 4) :
    le64 C <<< 32 ||| le64 (A ++ B) >>> 32 = le64 (B ++ C) := by
  rw [le64_append _ _ (by omega), le64_append _ _ (by omega), hA, hB]
  apply BitVec.eq_of_getLsbD_eq
  intro i hi
  simp only [BitVec.getLsbD_shiftLeft, BitVec.getLsbD_or, BitVec.getLsbD_ushiftRight, hi, decide_true, Bool.true_and]
  have h1 := getLsbD_le64_of_ge A (32 + i) (by omega)
  rw [h1]
  by_cases h : i < 32
  · have h3 : 32 + i < 64 := by omega
    have h5 : ¬ 32 + i < 32 := by omega
    simp [h, h3, h5]
  · have h3 : ¬ 32 + i < 64 := by omega
    have h4 := getLsbD_le64_of_ge B i (by omega)
    simp [h, h3, h4]

theorem final1_eq (h : V.Ok e enc) (q : KeyCfg) (K : List Byte) (hK : K.length = q.spec.keyLen) (s : State) :
    v_final1 V q e (encS enc s) (keyOf enc q K) = encS enc (Variant.xorAtByte q.spec.r K s) := by
  cases q with
  | k16 =>
    show _ = encS enc (Variant.xorAtByte 8 K s)
    rw [xorAt8_16 K hK]
    simp only [v_final1, keyOf, encS, h.base.xor]
  | k20 =>
    have hK' : K.length = 20 := hK
    show _ = encS enc (Variant.xorAtByte 8 K s)
    have r1 : V.KEYROT e (enc (le64 (K.take 4) <<< 32)) (enc (le64 ((K.drop 4).take 8))) = enc (le64 K) := by
      rw [h.rot, rot_bytes _ _ (by simp; omega)]
      congr 1
      rw [show K.take 4 ++ (K.drop 4).take 8 = K.take 12 by rw [← List.take_add]]
      rw [← le64_take8, List.take_take, Nat.min_eq_left (by omega), le64_take8]
    have r2 : V.KEYROT e (enc (le64 ((K.drop 4).take 8))) (enc (le64 (K.drop 12))) = enc (le64 (K.drop 8)) := by
      rw [h.rot]
      congr 1
      have e1 : (K.drop 4).take 8 = (K.drop 4).take 4 ++ (K.drop 8).take 4 := by
        rw [show K.drop 8 = (K.drop 4).drop 4 by rw [List.drop_drop], ← List.take_add]
      have e2 : K.drop 8 = (K.drop 8).take 4 ++ K.drop 12 := by
        rw [show K.drop 12 = (K.drop 8).drop 4 by rw [List.drop_drop], List.take_append_drop]
      rw [e1, rot_bytes' _ _ _ (by simp; omega) (by simp; omega), ← e2]
    have r3 : V.KEYROT e (enc (le64 (K.drop 12))) 0 = enc (le64 (K.drop 16)) := by
      have := h.rot (le64 (K.drop 12)) 0
      rw [h.base.enc0, shr_or_zero] at this
      rw [this]
      congr 1
      have e1 : K.drop 12 = (K.drop 12).take 4 ++ K.drop 16 := by
        rw [show K.drop 16 = (K.drop 12).drop 4 by rw [List.drop_drop], List.take_append_drop]
      have := rot_bytes' ((K.drop 12).take 4) (K.drop 16) [] (by simp; omega) (by simp; omega)
      rw [← e1, List.append_nil, le64_nil, shr_or_zero] at this
      exact this
    unfold Variant.xorAtByte xorIn
    simp only [Nat.reduceSub, le64_take8, drop_zeros_append, List.replicate_zero, List.nil_append, List.drop_zero]
    rw [le64_zeros8_append _ _ (by omega), List.drop_of_length_le (l := K) (i := 24) (by omega)]
    simp only [v_final1, keyOf, encS, r1, r2, r3, h.base.xor, le64_nil, h.base.enc0]
    simp

theorem run_vinit (h : V.Ok e enc) (q : KeyCfg) {mem : Mem} {npub : Nat} {K N : List Byte}
    (hK : K.length = q.spec.keyLen) (hn : mem.Holds npub N) (hN : N.length = 16) :
    run (v_initaead V q e (keyOf enc q K) npub) mem = some (encS enc (q.spec.init K N), mem) := by
  have e2 : (N.drop 8).take 8 = N.drop 8 := List.take_of_length_le (by simp; omega)
  have hp := fun s => h.base.p12 s mem
  cases q with
  | k16 =>
    have hK' : K.length = 16 := hK
    have hs : Variant.ofBytes (ascon128.iv ++ K ++ N) =
        ⟨0x00000800806c0001, le64 (K.take 8), le64 (K.drop 8), le64 (N.take 8), le64 (N.drop 8)⟩ := by
      have hiv : ascon128.iv.length = 8 := rfl
      have a1 : (ascon128.iv ++ (K ++ N)).drop 8 = K ++ N := by
        rw [List.drop_append_of_le_length (by omega), List.drop_of_length_le (by omega), List.nil_append]
      have a2 : (ascon128.iv ++ (K ++ N)).drop 16 = K.drop 8 ++ N := by
        rw [show (16 : Nat) = 8 + 8 by rfl, ← List.drop_drop, a1, List.drop_append_of_le_length (by omega)]
      have a3 : (ascon128.iv ++ (K ++ N)).drop 24 = N := by
        rw [show (24 : Nat) = 16 + 8 by rfl, ← List.drop_drop, a2, List.drop_append_of_le_length (by simp; omega),
          List.drop_of_length_le (l := K.drop 8) (by simp; omega), List.nil_append]
      have a4 : (ascon128.iv ++ (K ++ N)).drop 32 = N.drop 8 := by
        rw [show (32 : Nat) = 24 + 8 by rfl, ← List.drop_drop, a3]
      unfold Variant.ofBytes xorIn
      rw [List.append_assoc, a1, a2, a3, a4, List.take_append_of_le_length (by omega),
        List.take_append_of_le_length (l₁ := K) (by omega),
        List.take_append_of_le_length (l₁ := K.drop 8) (by simp; omega),
        List.take_of_length_le (l := K.drop 8) (by simp; omega), List.take_of_length_le (l := N.drop 8) (by simp; omega)]
      simp only [zero_xor']
      rw [show le64 (ascon128.iv.take 8) = 0x00000800806c0001 by decide]
    show _ = some (encS enc (Variant.addKeyEnd K (perm 12 (Variant.ofBytes (ascon128.iv ++ K ++ N)))), mem)
    rw [hs, addKeyEnd16 K hK']
    unfold v_initaead
    simp only [keyOf]
    rw [run_bind_of (run_LOAD h.base hn (by omega)), run_bind_of (run_LOAD' h.base hn (by omega)), e2, h.iv128]
    have := hp ⟨0x00000800806c0001, le64 (K.take 8), le64 (K.drop 8), le64 (N.take 8), le64 (N.drop 8)⟩
    rw [run_bind_of (by exact this)]
    generalize perm 12 _ = t
    simp only [run_pure', encS, h.base.xor]
  | k20 =>
    have hK' : K.length = 20 := hK
    have hs : Variant.ofBytes (ascon80pq.iv ++ K ++ N) =
        ⟨le64 (K.take 4) <<< 32 ||| 0x806c0800, le64 ((K.drop 4).take 8), le64 (K.drop 12), le64 (N.take 8),
          le64 (N.drop 8)⟩ := by
      have hiv : ascon80pq.iv.length = 4 := rfl
      have a0 : (ascon80pq.iv ++ (K ++ N)).take 8 = ascon80pq.iv ++ K.take 4 := by
        rw [List.take_append, List.take_of_length_le (by omega), hiv, List.take_append_of_le_length (by omega)]
      have a1 : (ascon80pq.iv ++ (K ++ N)).drop 8 = K.drop 4 ++ N := by
        rw [List.drop_append, List.drop_of_length_le (by omega), List.nil_append, hiv,
          List.drop_append_of_le_length (by omega)]
      have a2 : (ascon80pq.iv ++ (K ++ N)).drop 16 = K.drop 12 ++ N := by
        rw [show (16 : Nat) = 8 + 8 by rfl, ← List.drop_drop, a1, List.drop_append_of_le_length (by simp; omega), List.drop_drop]
      have a3 : (ascon80pq.iv ++ (K ++ N)).drop 24 = N := by
        rw [show (24 : Nat) = 16 + 8 by rfl, ← List.drop_drop, a2, List.drop_append_of_le_length (by simp; omega),
          List.drop_of_length_le (l := K.drop 12) (by simp; omega), List.nil_append]
      have a4 : (ascon80pq.iv ++ (K ++ N)).drop 32 = N.drop 8 := by
        rw [show (32 : Nat) = 24 + 8 by rfl, ← List.drop_drop, a3]
      have a5 : le64 ascon80pq.iv = 0x806c0800 := by decide
      unfold Variant.ofBytes xorIn
      rw [List.append_assoc, a0, a1, a2, a3, a4,
        List.take_append_of_le_length (l₁ := K.drop 4) (by simp; omega),
        List.take_append_of_le_length (l₁ := K.drop 12) (by simp; omega),
        List.take_of_length_le (l := K.drop 12) (by simp; omega), List.take_of_length_le (l := N.drop 8) (by simp; omega),
        le64_append _ _ (by omega), a5, hiv]
      simp only [zero_xor']
      rw [BitVec.or_comm]
    show _ = some (encS enc (Variant.addKeyEnd K (perm 12 (Variant.ofBytes (ascon80pq.iv ++ K ++ N)))), mem)
    rw [hs, addKeyEnd20 K hK']
    unfold v_initaead
    simp only [keyOf]
    rw [run_bind_of (run_LOAD h.base hn (by omega)), run_bind_of (run_LOAD' h.base hn (by omega)), e2, h.iv80]
    have := hp ⟨le64 (K.take 4) <<< 32 ||| 0x806c0800, le64 ((K.drop 4).take 8), le64 (K.drop 12), le64 (N.take 8),
      le64 (N.drop 8)⟩
    rw [run_bind_of (by exact this)]
    generalize perm 12 _ = t
    simp only [run_pure', encS, h.base.xor]

/-! ### Associated data -/

theorem xorIn_take8 (s : State) (A : List Byte) (h : 8 ≤ A.length) :
    xorIn s (A.take 8) = { s with x0 := s.x0 ^^^ le64 (A.take 8) } := xorIn_of_le8 _ _ (by simp; omega)

theorem xorIn_pad8 (s : State) (l : List Byte) (h : l.length < 8) :
    xorIn s (pad 8 l) = { s with x0 := s.x0 ^^^ le64 l ^^^ ((1 : Word) <<< (8 * l.length)) } := by
  rw [xorIn_of_le8 _ _ (by rw [pad_length 8 l (by omega)]; omega)]
  unfold pad
  rw [le64_pad_short _ _ h, BitVec.xor_assoc]

theorem run_vadStep (h : V.Ok e enc) {mem : Mem} (s : State) (ad n : Nat) (A : List Byte)
    (ha : mem.Holds ad A) (h8 : 8 ≤ A.length) :
    run (v_adStep V e (encS enc s, ad, n)) mem =
      some ((encS enc (perm 6 (xorIn s (A.take 8))), ad + 8, n - 8), mem) := by
  unfold v_adStep
  simp only
  rw [run_bind_of (run_LOAD h.base ha (by omega))]
  have := h.p6 (xorIn s (A.take 8)) mem
  rw [xorIn_take8 s A h8] at this ⊢
  simp only [encS, h.base.xor] at this ⊢
  rw [run_bind_of this]
  rfl

theorem run_vadFinal (h : V.Ok e enc) {mem : Mem} (t : State) (p : Nat) (l : List Byte)
    (hl : mem.Holds p l) (h8 : l.length < 8) :
    run (v_adFinal V e (encS enc t) p l.length) mem = some (encS enc (xorIn t (pad 8 l)), mem) := by
  unfold v_adFinal
  rw [run_bind_of (h.base.pad _ h8 mem), run_ifc, xorIn_pad8 t l h8]
  by_cases h0 : l.length = 0
  · have : l = [] := by simpa using h0
    subst this
    simp [encS, h.base.xor, le64_nil]
  · rw [if_pos (decide_eq_true h0), run_bind_of (run_LOADBYTES h.base hl rfl (by omega))]
    simp only [encS, h.base.xor, run_pure']
    rw [BitVec.xor_assoc (enc t.x0), BitVec.xor_assoc (enc t.x0), BitVec.xor_comm (enc ((1 : Word) <<< _))]

theorem q_r (q : KeyCfg) : q.spec.r = 8 := by cases q <;> rfl
theorem q_b (q : KeyCfg) : q.spec.b = 6 := by cases q <;> rfl
theorem q_ok (q : KeyCfg) : q.spec.Ok := by cases q <;> exact ⟨by decide, by decide⟩

theorem xorDsep (t : State) : Variant.xorAtByte 39 [0x80] t = { t with x4 := t.x4 ^^^ 0x8000000000000000 } := by
  unfold Variant.xorAtByte xorIn
  simp only [Nat.reduceSub, le64_take8, drop_zeros_append, List.drop_zero]
  rw [le64_zeros8_append _ _ (by omega), le64_zeros8_append _ _ (by omega), le64_zeros8_append _ _ (by omega),
    le64_zeros8_append _ _ (by omega), show le64 (List.replicate 7 0 ++ [0x80]) = 0x8000000000000000 by decide]
  simp

theorem run_vadata (h : V.Ok e enc) (q : KeyCfg) {mem : Mem} {s : State} {ad : Nat} {A : List Byte}
    (ha : mem.Holds ad A) :
    run (v_adata V e (encS enc s) ad A.length) mem = some (encS enc (q.spec.ad A s), mem) := by
  unfold v_adata Variant.ad
  rw [q_r, q_b]
  have key : run (ifc (decide (A.length ≠ 0))
      (do
        let (s, ad, adlen) ←
          loop (A.length + 1) (fun (_, _, adlen) => decide (adlen ≥ 8)) (v_adStep V e) (encS enc s, ad, A.length)
        let s ← v_adFinal V e s ad adlen
        V.P6 e s)
      (pure (encS enc s))) mem =
      some (encS enc (if A = [] then s else absorb 6 s (fullBlocks 8 (pad 8 A))), mem) := by
    rw [run_ifc]
    by_cases h0 : A = []
    · simp [h0]
    · have : A.length ≠ 0 := by simpa using h0
      rw [if_pos (by simpa using this), if_neg h0]
      have hl := run_absorbLoop (encS enc) 8 6 (by omega)
        (cond := fun (_, _, adlen) => decide (adlen ≥ 8)) (step := v_adStep V e) (fun _ _ _ => rfl) (mem := mem)
        (fun s p n M hM h8 => run_vadStep h s p n M hM h8) (A.length + 1) s ad A ha (by omega)
      rw [run_bind_of hl]
      simp only
      have hb := ha.lastBlock 8
      have hll := length_lastBlock 8 A
      rw [fullBlocks_pad 8 A (by omega), ← hll]
      simp only [absorb, List.foldl_append, List.foldl_cons, List.foldl_nil]
      rw [run_bind_of (run_vadFinal h _ _ _ hb (by omega)), h.p6]
  rw [run_bind_of key]
  simp only [run_pure', h.base.dsep, xorDsep]
  generalize (if A = [] then s else _) = t
  simp only [encS, h.base.xor]

/-! ### Encryption -/

theorem run_vencStep (h : V.Ok e enc) (mem : Mem) (s : State) (c m n : Nat) (P : List Byte)
    (hm : mem.Holds m P) (h8 : 8 ≤ P.length) (hw : mem.Writable c 8) :
    run (v_encStep V e (encS enc s, c, m, n)) mem =
      some ((encS enc (perm 6 (xorIn s (P.take 8))), c + 8, m + 8, n - 8),
        mem.writes c (rate 8 (xorIn s (P.take 8)))) := by
  unfold v_encStep
  simp only
  rw [run_bind_of (run_LOAD h.base hm (by omega))]
  have e0 : (encS enc s).x0 ^^^ enc (le64 (P.take 8)) = enc (s.x0 ^^^ le64 (P.take 8)) := (h.base.xor _ _).symm
  rw [e0, run_bind_of (run_STORE h.base hw)]
  have hp := fun mem => h.p6 (xorIn s (P.take 8)) mem
  rw [rate_8, xorIn_take8 s P h8] at *
  simp only [encS] at hp ⊢
  rw [run_bind_of (hp _)]
  rfl

theorem run_vencFinal (h : V.Ok e enc) {mem : Mem} {t : State} {c p : Nat} {l : List Byte} (hl : mem.Holds p l)
    (h8 : l.length < 8) (hw : mem.Writable c l.length) :
    run (v_encFinal V e (encS enc t) c p l.length) mem =
      some (encS enc (xorIn t (pad 8 l)), mem.writes c (rate l.length (xorIn t (pad 8 l)))) := by
  unfold v_encFinal
  rw [run_bind_of (h.base.pad _ h8 mem), run_ifc, xorIn_pad8 t l h8, rate_le8 _ _ (by omega)]
  by_cases h0 : l.length = 0
  · have : l = [] := by simpa using h0
    subst this
    simp [encS, h.base.xor, le64_nil, writes_nil]
  · rw [if_pos (decide_eq_true h0), run_bind_of (run_LOADBYTES h.base hl rfl (by omega))]
    have e1 : enc t.x0 ^^^ enc ((1 : Word) <<< (8 * l.length)) ^^^ enc (le64 l) =
        enc (t.x0 ^^^ le64 l ^^^ (1 : Word) <<< (8 * l.length)) := by
      simp only [h.base.xor]
      rw [BitVec.xor_assoc (enc t.x0), BitVec.xor_assoc (enc t.x0), BitVec.xor_comm (enc ((1 : Word) <<< _))]
    simp only [encS]
    rw [e1, run_bind_of (run_STOREBYTES h.base hw (by omega))]
    rfl

theorem run_vencrypt (h : V.Ok e enc) (q : KeyCfg) {mem : Mem} {s : State} {c m : Nat} {P : List Byte}
    (hm : mem.Holds m P) (hw : mem.Writable c P.length) (ho : c ≤ m ∨ m + P.length ≤ c) :
    run (v_encrypt V e (encS enc s) c m P.length) mem =
      some (encS enc (q.spec.encBody s P).1, mem.writes c (q.spec.encBody s P).2) := by
  unfold v_encrypt
  have hl := run_vEncryptLoop q.spec (q_ok q).pos (q_ok q).le (encS enc)
    (cond := fun (_, _, _, mlen) => decide (mlen ≥ 8)) (step := v_encStep V e)
    (fun _ _ _ _ => by rw [q_r]) (fun mem s c m n P a b d => by
      rw [q_r] at b d ⊢; rw [q_b]; exact run_vencStep h mem s c m n P a b d)
    (P.length + 1) s mem c m P hm hw ho (by omega)
  have hlen := length_vEncBlocks (q_ok q).le s (fullBlocks q.spec.r P)
  rw [Ref.length_fullBlocks] at hlen
  rw [run_bind_of hl]
  unfold Variant.encBody
  simp only
  generalize q.spec.encBlocks s (fullBlocks q.spec.r P) = t at *
  rw [q_r] at *
  have hb := hm.lastBlock 8
  have hll := length_lastBlock 8 P
  have hdm := Nat.div_add_mod P.length 8
  rw [← hll]
  have hb2 : (mem.writes c t.2).Holds (m + 8 * (P.length / 8)) (lastBlock 8 P) := by
    apply hb.writes_disjoint
    unfold Disjoint; omega
  rw [run_vencFinal h hb2 (by omega) (hw.writes.mono (by omega) (by omega)), writes_append, hlen]

/-! ### Decryption -/

theorem run_vdecStep (h : V.Ok e enc) (mem : Mem) (s : State) (m c n : Nat) (C : List Byte)
    (hc : mem.Holds c C) (h8 : 8 ≤ C.length) (hw : mem.Writable m 8) :
    run (v_decStep V e (encS enc s, m, c, n)) mem =
      some ((encS enc (perm 6 (xorIn s (xorBytes (rate 8 s) (C.take 8)))), m + 8, c + 8, n - 8),
        mem.writes m (xorBytes (rate 8 s) (C.take 8))) := by
  unfold v_decStep
  simp only
  rw [run_bind_of (run_LOAD h.base hc (by omega))]
  have e0 : (encS enc s).x0 ^^^ enc (le64 (C.take 8)) = enc (s.x0 ^^^ le64 (C.take 8)) := (h.base.xor _ _).symm
  rw [e0, run_bind_of (run_STORE h.base hw)]
  have hx : xorBytes (rate 8 s) (C.take 8) = bytes64 (s.x0 ^^^ le64 (C.take 8)) := by
    rw [rate_8, bytes64_xor, bytes64_le64 _ (by simp; omega)]
  have hy : xorIn s (bytes64 (s.x0 ^^^ le64 (C.take 8))) = { s with x0 := le64 (C.take 8) } := by
    rw [xorIn_of_le8 _ _ (by simp [length_bytes64]), le64_bytes64]
    simp only [← BitVec.xor_assoc, BitVec.xor_self, BitVec.zero_xor]
  have hp := fun mem => h.p6 (xorIn s (bytes64 (s.x0 ^^^ le64 (C.take 8)))) mem
  rw [hx]
  rw [hy] at hp ⊢
  simp only [encS] at hp ⊢
  rw [run_bind_of (hp _)]
  rfl

theorem run_vdecFinal (h : V.Ok e enc) {mem : Mem} {t : State} {m p : Nat} {l : List Byte} (hl : mem.Holds p l)
    (h8 : l.length < 8) (hw : mem.Writable m l.length) :
    run (v_decFinal V e (encS enc t) m p l.length) mem =
      some (encS enc (xorIn t (pad 8 (xorBytes (rate l.length t) l))),
        mem.writes m (xorBytes (rate l.length t) l)) := by
  unfold v_decFinal
  have hpl : (xorBytes (rate l.length t) l).length = l.length := by
    rw [length_xorBytes, length_rate _ _ (by omega)]; omega
  have hpad := xorIn_pad8 t (xorBytes (rate l.length t) l) (by omega)
  rw [hpl] at hpad
  rw [run_bind_of (h.base.pad _ (by omega) mem), run_ifc, hpad, rate_le8 _ _ (by omega)]
  by_cases h0 : l.length = 0
  · have : l = [] := by simpa using h0
    subst this
    simp [encS, h.base.xor, le64_nil, writes_nil, xorBytes]
  · rw [if_pos (decide_eq_true h0), run_bind_of (run_LOADBYTES h.base hl rfl (by omega))]
    have e1 : enc t.x0 ^^^ enc ((1 : Word) <<< (8 * l.length)) ^^^ enc (le64 l) =
        enc (t.x0 ^^^ (1 : Word) <<< (8 * l.length) ^^^ le64 l) := by
      simp only [h.base.xor]
    have hst : (bytes64 (t.x0 ^^^ (1 : Word) <<< (8 * l.length) ^^^ le64 l)).take l.length =
        xorBytes ((bytes64 t.x0).take l.length) l := by
      rw [BitVec.xor_assoc, BitVec.xor_comm ((1 : Word) <<< _), ← BitVec.xor_assoc,
        take_bytes64_xor_pad _ _ (by omega), Ref.take_bytes64_xor_le64 t.x0 l (by omega)]
    simp only [encS]
    rw [e1, run_bind_of (run_STOREBYTES h.base hw (by omega)),
      run_bind_of (h.base.clear _ _ (by omega) _), hst]
    simp only [run_pure']
    rw [← h.base.xor, clear_xor_eq t.x0 l (by omega)]

theorem run_vdecrypt (h : V.Ok e enc) (q : KeyCfg) {mem : Mem} {s : State} {m c : Nat} {C : List Byte}
    (hc : mem.Holds c C) (hw : mem.Writable m C.length) (ho : m ≤ c ∨ c + C.length ≤ m) :
    run (v_decrypt V e (encS enc s) m c C.length) mem =
      some (encS enc (q.spec.decBody s C).1, mem.writes m (q.spec.decBody s C).2) := by
  unfold v_decrypt
  have hl := run_vDecryptLoop q.spec (q_ok q).pos (q_ok q).le (encS enc)
    (cond := fun (_, _, _, clen) => decide (clen ≥ 8)) (step := v_decStep V e)
    (fun _ _ _ _ => by rw [q_r]) (fun mem s m c n C a b d => by
      rw [q_r] at b d ⊢; rw [q_b]; exact run_vdecStep h mem s m c n C a b d)
    (C.length + 1) s mem m c C hc hw ho (by omega)
  have hlen := length_vDecBlocks (q_ok q).le s (fullBlocks q.spec.r C) (fun b hb => mem_fullBlocks_length hb)
  rw [Ref.length_fullBlocks] at hlen
  rw [run_bind_of hl]
  unfold Variant.decBody
  simp only
  generalize q.spec.decBlocks s (fullBlocks q.spec.r C) = t at *
  rw [q_r] at *
  have hb := hc.lastBlock 8
  have hll := length_lastBlock 8 C
  have hdm := Nat.div_add_mod C.length 8
  rw [← hll]
  have hb2 : (mem.writes m t.2).Holds (c + 8 * (C.length / 8)) (lastBlock 8 C) := by
    apply hb.writes_disjoint
    unfold Disjoint; omega
  rw [run_vdecFinal h hb2 (by omega) (hw.writes.mono (by omega) (by omega)), writes_append, hlen]

/-! ### Finalisation and the public functions -/

theorem drop24_stateBytes (s : State) : (stateBytes s).drop 24 = bytes64 s.x3 ++ bytes64 s.x4 := by
  have h : stateBytes s = (bytes64 s.x0 ++ bytes64 s.x1 ++ bytes64 s.x2) ++ (bytes64 s.x3 ++ bytes64 s.x4) := by
    simp [stateBytes]
  rw [h, List.drop_append_of_le_length (by simp [length_bytes64]), List.drop_of_length_le (by simp [length_bytes64]),
    List.nil_append]

/-- After `ascon_final` the last two words are the tag. -/
theorem run_vfinal (h : V.Ok e enc) (q : KeyCfg) {mem : Mem} (s : State) (K : List Byte)
    (hK : K.length = q.spec.keyLen) :
    ∃ t : State, run (v_final V q e (encS enc s) (keyOf enc q K)) mem = some (encS enc t, mem) ∧
      q.spec.tag K s = bytes64 t.x3 ++ bytes64 t.x4 := by
  have hp := h.base.p12 (Variant.xorAtByte q.spec.r K s) mem
  unfold v_final Variant.tag
  rw [final1_eq h q K hK, run_bind_of hp, drop24_stateBytes]
  generalize perm 12 _ = u
  cases q with
  | k16 =>
    refine ⟨Variant.addKeyEnd K u, ?_, rfl⟩
    rw [addKeyEnd16 K hK]
    simp only [run_pure', keyOf, encS, h.base.xor]
  | k20 =>
    refine ⟨{ Variant.addKeyEnd K u with x2 := u.x2 }, ?_, rfl⟩
    rw [addKeyEnd20 K hK]
    simp only [run_pure', keyOf, encS, h.base.xor]

theorem v_enc_correct (h : V.Ok e enc) (q : KeyCfg) : VEncCorrectAt q.spec e (v_crypto_aead_encrypt V q) := by
  intro mem sp c clen m ad nsec npub k K N A P h'
  unfold v_crypto_aead_encrypt
  rw [run_bind_of (Ref.run_store64 h'.outLen)]
  have hsep : ∀ {q : Nat} {bs : List Byte}, mem.Holds q bs → Disjoint clen 8 q bs.length →
      (mem.writes clen (repr64 e (BitVec.ofNat 64 (P.length + 16)))).Holds q bs := fun hq hd =>
    hq.writes_disjoint (by rwa [Ref.length_repr64])
  have hk := hsep h'.key (by rw [h'.keyLen]; exact h'.sepKey)
  have hn := hsep h'.nonce (by rw [h'.nonceLen]; exact h'.sepNonce)
  have ha := hsep h'.adata h'.sepAd
  have hm := hsep h'.msg h'.sepMsg
  have hw : (mem.writes clen (repr64 e (BitVec.ofNat 64 (P.length + 16)))).Writable c (P.length + 16) :=
    h'.out.writes
  have ho := h'.overlap
  generalize mem.writes clen (repr64 e (BitVec.ofNat 64 (P.length + 16))) = mem1 at *
  have hlen := Variant.length_encBody (q_ok q) (q.spec.ad A (q.spec.init K N)) P
  have e1 : q.spec.encrypt K N A P = (q.spec.encBody (q.spec.ad A (q.spec.init K N)) P).2 ++
      q.spec.tag K (q.spec.encBody (q.spec.ad A (q.spec.init K N)) P).1 := rfl
  have henc := run_vencrypt h q (s := q.spec.ad A (q.spec.init K N)) hm (hw.mono (by omega) (by omega)) ho
  rw [e1]
  generalize q.spec.encBody (q.spec.ad A (q.spec.init K N)) P = r at *
  unfold v_aead_encrypt ascon_gettag
  simp only
  obtain ⟨t, hf, e2⟩ := run_vfinal (mem := mem1.writes c r.2) h q r.1 K h'.keyLen
  rw [run_bind_of (run_vloadkey h q hk h'.keyLen), run_bind_of (run_vinit h q h'.keyLen hn h'.nonceLen),
    run_bind_of (run_vadata h q ha), run_bind_of henc, run_bind_of hf, e2]
  have hs3 : ∀ mem : Mem, mem.Writable (c + P.length) 8 →
      run (STOREBYTES V.B e (c + P.length) (encS enc t).x3 8) mem = some ((), mem.writes (c + P.length) (bytes64 t.x3)) :=
    fun mem hw => run_STORE h.base hw
  have hs4 : ∀ mem : Mem, mem.Writable (c + P.length + 8) 8 →
      run (STOREBYTES V.B e (c + P.length + 8) (encS enc t).x4 8) mem =
        some ((), mem.writes (c + P.length + 8) (bytes64 t.x4)) := fun mem hw => run_STORE h.base hw
  rw [run_bind_of (by
    rw [run_bind_of (hs3 _ (hw.writes.mono (by omega) (by omega))),
      hs4 _ (hw.writes.writes.mono (by omega) (by omega))])]
  rw [writes_append, writes_append, hlen, length_bytes64]
  rfl

theorem v_dec_correct (h : V.Ok e enc) (q : KeyCfg) : VDecCorrectAt q.spec e (v_crypto_aead_decrypt V q) := by
  intro mem sp m mlen nsec c ad npub k K N A C h'
  unfold v_crypto_aead_decrypt
  have h16 := h'.ctMin
  rw [run_ifc, if_neg (by simpa using h16), run_bind_of (Ref.run_store64 h'.outLen)]
  have hsep : ∀ {q : Nat} {bs : List Byte}, mem.Holds q bs → Disjoint mlen 8 q bs.length →
      (mem.writes mlen (repr64 e (BitVec.ofNat 64 (C.length - 16)))).Holds q bs := fun hq hd =>
    hq.writes_disjoint (by rwa [Ref.length_repr64])
  have hk := hsep h'.key (by rw [h'.keyLen]; exact h'.sepKey)
  have hn := hsep h'.nonce (by rw [h'.nonceLen]; exact h'.sepNonce)
  have ha := hsep h'.adata h'.sepAd
  have hc := hsep h'.ct h'.sepCt
  have hw : (mem.writes mlen (repr64 e (BitVec.ofNat 64 (C.length - 16)))).Writable m (C.length - 16) :=
    h'.out.writes
  have ho := h'.overlap
  generalize mem.writes mlen (repr64 e (BitVec.ofNat 64 (C.length - 16))) = mem1 at *
  have hbl : (ctBody C).length = C.length - 16 := by simp [ctBody]
  have htl : (ctTag C).length = 16 := by simp [ctTag]; omega
  have hcb : mem1.Holds c (ctBody C) := hc.take _
  have hct : mem1.Holds (c + (C.length - 16)) (ctTag C) := hc.drop _ (by omega)
  unfold v_aead_decrypt
  simp only
  rw [← hbl] at hw hct ⊢
  have hlen := Variant.length_decBody (q_ok q) (q.spec.ad A (q.spec.init K N)) (ctBody C)
  have hdec := run_vdecrypt h q (s := q.spec.ad A (q.spec.init K N)) hcb hw (by omega)
  have e1 : q.spec.candidate K N A (ctBody C) = (q.spec.decBody (q.spec.ad A (q.spec.init K N)) (ctBody C)).2 := rfl
  have e2 : q.spec.decTag K N A (ctBody C) = q.spec.tag K (q.spec.decBody (q.spec.ad A (q.spec.init K N)) (ctBody C)).1 := rfl
  rw [e1, e2]
  generalize q.spec.decBody (q.spec.ad A (q.spec.init K N)) (ctBody C) = r at *
  obtain ⟨t, hf, e3⟩ := run_vfinal (mem := mem1.writes m r.2) h q r.1 K h'.keyLen
  rw [run_bind_of (run_vloadkey h q hk h'.keyLen), run_bind_of (run_vinit h q h'.keyLen hn h'.nonceLen),
    run_bind_of (run_vadata h q ha), run_bind_of hdec, run_bind_of hf, e3]
  have hct2 : (mem1.writes m r.2).Holds (c + (ctBody C).length) (ctTag C) := by
    apply hct.writes_disjoint
    unfold Disjoint; rw [hlen]; omega
  rw [run_verify h.base hct2 htl]

theorem v_dec_short (V : VBackend) (q : KeyCfg) : DecShort (v_crypto_aead_decrypt V q) := by
  intro e mem sp m mlen nsec c clen ad adlen npub k h
  constructor
  · unfold v_crypto_aead_decrypt
    rw [run_ifc, if_pos (by simpa using h)]; rfl
  · simp only [v_crypto_aead_decrypt, Prog.ifc, decide_eq_true h]
    rfl

end Ascon.Gen
