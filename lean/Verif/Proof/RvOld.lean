import Verif.Proof.RvCodec
import Verif.Proof.Rv32i
/-!
# Common parts of the proofs about asm_rv32b, asm_fsr_rv32b and asm_bi32_rv32b
-/

namespace Ascon.Rv

open Ascon.C Ascon.Spec Ascon.Asm
open Ascon.Masked (U32 repr32 le32 le32_repr)
open Impl (set_ne set_eq ofNat_add)

/-- Two words in memory order in the temporary registers. -/
def Raw (w0 w1 : Word) (m : Regs) : Prop :=
  m.r t3 = chunk 32 0 w0 ∧ m.r t4 = chunk 32 1 w0 ∧ m.r t5 = chunk 32 0 w1 ∧ m.r t6 = chunk 32 1 w1

/-- Two words in the representation of the state in the temporary registers. -/
def InT (enc : Word → Word) (x y : Word) (m : Regs) : Prop :=
  m.r t3 = chunk 32 1 (enc x) ∧ m.r t4 = chunk 32 0 (enc x) ∧ m.r t5 = chunk 32 1 (enc y) ∧ m.r t6 = chunk 32 0 (enc y)

/-- Reading a block from memory. -/
theorem load_goes {code : List Ins} {base : U32} {pc a p : Nat} {m : Regs} {mem : Mem} {b : List Byte}
    (f0 : code[pc]? = some (.lw t3 a 0)) (f1 : code[pc + 1]? = some (.lw t4 a 4)) (f2 : code[pc + 2]? = some (.lw t5 a 8))
    (f3 : code[pc + 3]? = some (.lw t6 a 12)) (ha' : a ≠ t3 ∧ a ≠ t4 ∧ a ≠ t5) (ha : m.r a = BitVec.ofNat 32 p)
    (hal : p % 4 = 0) (hp : p + 16 ≤ 2 ^ 32) (hb : mem.Holds p b) (hbl : b.length = 16) :
    Goes code base pc m mem fun t pc' m' mem' => t = Rv32i.block p ∧ pc' = pc + 4 ∧ Raw (le64 (b.take 8)) (le64 (b.drop 8)) m' ∧
      (∀ r, (r < 13 ∨ 17 ≤ r) → m'.r r = m.r r) ∧ m'.stk = m.stk ∧ mem' = mem := by
  obtain ⟨b0, b1, b2, b3⟩ := holds_block hb hbl
  obtain ⟨h1, h2, h3⟩ := ha'
  refine .lwAt f0 ha (by omega) (by omega) b0 (.lwAt f1 (p := p) (by rw [set_ne h1]; exact ha) (by omega) (by omega) b1
    (.lwAt f2 (p := p) (by rw [set_ne h2, set_ne h1]; exact ha) (by omega) (by omega) b2
    (.lwAt f3 (p := p) (by rw [set_ne h3, set_ne h2, set_ne h1]; exact ha) (by omega) (by omega) b3
    (.done ⟨?_, rfl, ?_, ?_, rfl, rfl⟩))))
  · simp only [Rv32i.block, List.append_assoc, Nat.add_zero, List.append_nil]
  · unfold Raw; simp (disch := decide) only [set_eq, set_ne, and_self]
  · intro r hr
    rw [set_ne (by show r ≠ 16; omega), set_ne (by show r ≠ 15; omega), set_ne (by show r ≠ 14; omega), set_ne (by show r ≠ 13; omega)]

theorem writes_pad12 (mem : Mem) (p : Nat) (l : List Byte) (hl : l.length < 16) :
    ((mem.writes p (List.replicate 16 0)).writes p l).writes (p + l.length) [0x80] = mem.writes p (Variant.v12.pad l) := by
  rw [Rv32i.writes_over _ _ _ _ (by simp; omega), writes_append,
    Rv32i.writes_over _ _ _ _ (by simp; omega), ← writes_append]
  congr 1
  show _ = l ++ 0x80 :: List.replicate (15 - l.length) 0
  congr 1
  simp only [List.drop_replicate, List.length_singleton, List.singleton_append]
  congr 2; omega

/-- The rate in memory order. -/
theorem v12_rate (s : State) : Variant.v12.rate s = bytes64 (rv s.x0) ++ bytes64 (rv s.x1) := by
  rw [bytes64_rv, bytes64_rv]; rfl

/-- A funnel shift by less than a word. -/
theorem funnel_bits (w v k : U32) (n : Nat) (hk : k.toNat % 64 = n) (hn : n < 32) :
    funnel w v k = w >>> n ||| v <<< (32 - n) := by
  unfold funnel
  rw [hk]
  apply BitVec.eq_of_getLsbD_eq
  intro i hi
  rw [BitVec.getLsbD_setWidth, BitVec.getLsbD_rotateRight, Nat.mod_eq_of_lt (show n < 64 by omega)]
  simp only [show i < 64 - n by omega, if_true, decide_true, BitVec.getLsbD_or, BitVec.getLsbD_shiftLeft, BitVec.getLsbD_setWidth,
    BitVec.getLsbD_ushiftRight, show n + i < 64 by omega, Bool.true_and, hi]
  by_cases h : n + i < 32
  · simp [h, show i < 32 - n by omega]
  · simp only [decide_eq_false h, decide_eq_false (show ¬ i < 32 - n by omega), Bool.not_false, Bool.true_and,
      BitVec.getLsbD_of_ge w (n + i) (by omega), Bool.or_false, Bool.false_or]
    rw [show n + i - 32 = i - (32 - n) by omega]
    simp; omega

theorem funnel_shift (w v : U32) (ip : Nat) :
    funnel w v ((BitVec.ofNat 32 ip &&& (3 : U32)) <<< 3) = w >>> (8 * (ip % 4)) ||| v <<< (32 - 8 * (ip % 4)) := by
  have hlt : ip % 4 < 4 := Nat.mod_lt _ (by decide)
  refine funnel_bits _ _ _ _ ?_ (by omega)
  rw [and_3]
  generalize ip % 4 = k at *
  have : k = 0 ∨ k = 1 ∨ k = 2 ∨ k = 3 := by omega
  rcases this with rfl | rfl | rfl | rfl <;> decide
end Ascon.Rv
