import Verif.Proof.NeonPerm
import Verif.Proof.GenAead
/-!
# The NEON mode code
-/

namespace Ascon.Neon

open Ascon.C Ascon.Asm Ascon.Spec Ascon.Gen
open Ascon.C.Prog (require ifc loop loadN storeN store64)

attribute [local irreducible] Spec.perm roundBody P8ROUNDS

/-! ## The length in two registers -/

theorem start_small (n : Nat) (h : n < 2 ^ 32) : Len.start n = ⟨0, BitVec.ofNat 32 n, decide (15 ≤ n), n == 15⟩ := by
  unfold Len.start cmpLen
  have h0 : n / 2 ^ 32 = 0 := Nat.div_eq_of_lt h
  have h1 : (BitVec.ofNat 32 n).toNat = n := by rw [BitVec.toNat_ofNat]; exact Nat.mod_eq_of_lt h
  have h2 : (BitVec.ofNat 32 n == 15) = (n == 15) := by
    rw [Bool.eq_iff_iff, beq_iff_eq, beq_iff_eq, ← BitVec.toNat_inj, h1]; rfl
  rw [h0, if_pos (by rfl), h1, h2]
  rfl

theorem bhi_start (n : Nat) (h : n < 2 ^ 32) : (Len.start n).bhi = decide (16 ≤ n) := by
  rw [start_small n h, Bool.eq_iff_iff]
  simp only [Len.bhi, Bool.and_eq_true, decide_eq_true_eq, Bool.not_eq_true', beq_eq_false_iff_ne]
  omega

theorem next_start (n : Nat) (h : n < 2 ^ 32) (h16 : 16 ≤ n) : (Len.start n).next = Len.start (n - 16) := by
  rw [start_small n h]
  unfold Len.next
  simp only
  rw [if_pos (by simpa using (by omega : 15 ≤ n))]
  unfold Len.start
  have e0 : (n - 16) / 2 ^ 32 = 0 := Nat.div_eq_of_lt (by omega)
  rw [e0]
  have : BitVec.ofNat 32 n - 16 = BitVec.ofNat 32 (n - 16) := by
    apply BitVec.eq_of_toNat_eq
    rw [BitVec.toNat_sub, BitVec.toNat_ofNat, BitVec.toNat_ofNat]
    show (2 ^ 32 - 16 + n % 2 ^ 32) % 2 ^ 32 = _
    omega
  rw [this]
  rfl

theorem value_start (n : Nat) (h : n < 2 ^ 32) : (Len.start n).value = n := by
  rw [start_small n h]
  unfold Len.value
  simp only
  have : (0 : BitVec 32).setWidth 64 <<< 32 ||| (BitVec.ofNat 32 n).setWidth 64 = BitVec.ofNat 64 n := by
    have h0 : ((0 : BitVec 32).setWidth 64 <<< 32 : Word) = 0 := by decide
    rw [h0]
    apply BitVec.eq_of_toNat_eq
    simp
    omega
  rw [this, BitVec.toNat_ofNat]
  omega

/-- With a non-zero upper half the loop condition stays true: the upper half never changes. -/
def Stuck (l : Len) : Prop := l.hi ≠ 0 ∧ l.c = true ∧ l.z = false

theorem stuck_bhi {l : Len} (h : Stuck l) : l.bhi = true := by
  unfold Len.bhi; rw [h.2.1, h.2.2]; rfl

theorem stuck_cmpLen {hi lo : BitVec 32} (h : hi ≠ 0) : Stuck (cmpLen hi lo) := by
  unfold cmpLen
  rw [if_neg (by simpa using h)]
  exact ⟨h, rfl, rfl⟩

theorem stuck_next {l : Len} (h : Stuck l) : Stuck l.next := by
  unfold Len.next
  rw [h.2.1, if_pos rfl]
  exact stuck_cmpLen (by simpa using h.1)

theorem stuck_start (n : Nat) (h1 : 2 ^ 32 ≤ n) (h2 : n < 2 ^ 64) : Stuck (Len.start n) := by
  apply stuck_cmpLen
  intro h
  have := congrArg BitVec.toNat h
  rw [BitVec.toNat_ofNat] at this
  have h3 : n / 2 ^ 32 < 2 ^ 32 := by omega
  rw [Nat.mod_eq_of_lt h3] at this
  have h4 : n / 2 ^ 32 = 0 := this
  omega

/-! ## Steps -/

theorem run_vldm {mem : Mem} {p : Nat} {M : List Byte} (h : mem.Holds p M) (h16 : 16 ≤ M.length) (ha : p % 4 = 0) :
    run (vldm .little p) mem = some ((le64 (M.take 8), le64 ((M.drop 8).take 8)), mem) := by
  unfold vldm
  have h1 : mem.Holds p (M.take 8) := h.take 8
  have h2 : mem.Holds (p + 8) ((M.drop 8).take 8) := (h.drop 8 (by omega)).take 8
  rw [run_bind_of (run_require (by simpa using ha)), run_bind_of (run_loadN' h1 (by simp; omega)),
    run_bind_of (run_loadN' h2 (by simp; omega))]
  rfl

theorem run_vstm {mem : Mem} {p : Nat} {a b : Word} (h : mem.Writable p 16) (ha : p % 4 = 0) :
    run (vstm .little p a b) mem = some ((), mem.writes p (bytes64 a ++ bytes64 b)) := by
  unfold vstm
  rw [run_bind_of (run_require (by simpa using ha)),
    run_bind_of (run_storeN (bs := repr64 .little a) (h.mono (by omega) (by rw [Ref.length_repr64]; omega))),
    run_storeN (bs := repr64 .little b) (h.writes.mono (by omega) (by rw [Ref.length_repr64]; omega)), writes_append,
    length_bytes64]
  rfl

/-- `veor q0, q0, q8` -/
def xorQ8 (m : M 64) : M 64 := (m.set 0 (m.r 0 ^^^ m.r 16)).set 1 (m.r 1 ^^^ m.r 17)

theorem exec_veorq (m : M 64) : exec (fun _ => none) (veorq 0 0 8) m = some (xorQ8 m) := rfl

theorem exec_veorq8 (m : M 64) : exec (fun _ => none) (veorq 8 0 13) m =
    some ((m.set 16 (m.r 0 ^^^ m.r 26)).set 17 (m.r 1 ^^^ m.r 27)) := rfl

theorem storeD_xorQ8 (m : M 64) (a b : Word) :
    storeD (xorQ8 ((m.set 16 a).set 17 b)) = { storeD m with x0 := m.r 0 ^^^ a, x1 := m.r 1 ^^^ b } := rfl

theorem xorIn16 (s : State) (P : List Byte) (h16 : 16 ≤ P.length) : xorIn s (P.take 16) =
    { s with x0 := s.x0 ^^^ le64 (P.take 8), x1 := s.x1 ^^^ le64 ((P.drop 8).take 8) } := by
  rw [xorIn_of_le16 _ _ (by simp; omega), List.take_take, List.drop_take]
  rfl

theorem run_block {mem : Mem} {code : List (Instr 64)} {m m' : M 64} (h : exec (fun _ => none) code m = some m') :
    run (block code m) mem = some (m', mem) := by
  unfold block
  rw [h]
  rfl

theorem exec_append_of {code1 code2 : List (Instr 64)} {m m1 m2 : M 64} (h1 : exec (fun _ => none) code1 m = some m1)
    (h2 : exec (fun _ => none) code2 m1 = some m2) : exec (fun _ => none) (code1 ++ code2) m = some m2 := by
  rw [exec_append, h1, Option.bind_some, h2]

theorem run_adStep {mem : Mem} {mm : M 64} {ad : Nat} {len : Len} {A : List Byte} (hs : mm.stk = [])
    (h : mem.Holds ad A) (h16 : 16 ≤ A.length) (ha : ad % 4 = 0) :
    ∃ mm', run (adStep .little (mm, ad, len)) mem = some ((mm', ad + 16, len.next), mem) ∧ mm'.stk = [] ∧
      storeD mm' = Spec.perm 8 (xorIn (storeD mm) (A.take 16)) := by
  obtain ⟨m', h1, h2, h3⟩ := exec_P8 (m := xorQ8 ((mm.set 16 (le64 (A.take 8))).set 17 (le64 ((A.drop 8).take 8)))) hs
  refine ⟨m', ?_, h2, ?_⟩
  · unfold adStep
    simp only
    rw [run_bind_of (run_vldm h h16 ha)]
    simp only
    rw [run_bind_of (run_block (exec_append_of (exec_veorq _) h1))]
    simp only [run_pure']
  · rw [h3, storeD_xorQ8, xorIn16 _ _ h16]
    rfl

theorem run_ptStep {mem : Mem} {mm : M 64} {c m : Nat} {len : Len} {P : List Byte} (hs : mm.stk = [])
    (h : mem.Holds m P) (h16 : 16 ≤ P.length) (hw : mem.Writable c 16) (ha : m % 4 = 0) (hc : c % 4 = 0) :
    ∃ mm', run (ptStep .little (mm, c, m, len)) mem = some ((mm', c + 16, m + 16, len.next),
        mem.writes c (rate 16 (xorIn (storeD mm) (P.take 16)))) ∧ mm'.stk = [] ∧
      storeD mm' = Spec.perm 8 (xorIn (storeD mm) (P.take 16)) := by
  obtain ⟨m', h1, h2, h3⟩ := exec_P8 (m := xorQ8 ((mm.set 16 (le64 (P.take 8))).set 17 (le64 ((P.drop 8).take 8)))) hs
  refine ⟨m', ?_, h2, ?_⟩
  · unfold ptStep
    simp only
    rw [run_bind_of (run_vldm h h16 ha)]
    simp only
    rw [run_bind_of (run_block (exec_veorq _)), run_bind_of (run_vstm hw hc), run_bind_of (run_block h1), rate_16,
      xorIn16 _ _ h16]
    simp only [run_pure']
    rfl
  · rw [h3, storeD_xorQ8, xorIn16 _ _ h16]
    rfl

theorem dec16 (s : State) (C : List Byte) (h16 : 16 ≤ C.length) :
    xorBytes (rate 16 s) (C.take 16) =
      bytes64 (s.x0 ^^^ le64 (C.take 8)) ++ bytes64 (s.x1 ^^^ le64 ((C.drop 8).take 8)) ∧
    xorIn s (xorBytes (rate 16 s) (C.take 16)) =
      { s with x0 := le64 (C.take 8), x1 := le64 ((C.drop 8).take 8) } := by
  have hx : xorBytes (rate 16 s) (C.take 16) =
      bytes64 (s.x0 ^^^ le64 (C.take 8)) ++ bytes64 (s.x1 ^^^ le64 ((C.drop 8).take 8)) := by
    rw [rate_16, bytes64_xor, bytes64_xor, bytes64_le64 _ (by simp; omega), bytes64_le64 _ (by simp; omega)]
    rw [show C.take 16 = C.take 8 ++ (C.drop 8).take 8 by rw [← List.take_add]]
    simp only [xorBytes]
    rw [List.zipWith_append (by simp [length_bytes64]; omega)]
  refine ⟨hx, ?_⟩
  rw [hx, xorIn_of_le16 _ _ (by simp [length_bytes64]), take8_bytes64_append, drop8_bytes64_append,
    le64_bytes64, le64_bytes64]
  simp only [← BitVec.xor_assoc, BitVec.xor_self, BitVec.zero_xor]

/-- Machine state of the ciphertext loop before the permutation. -/
def ctM (m : M 64) (a b : Word) : M 64 :=
  (((((m.set 26 a).set 27 b).set 16 (m.r 0 ^^^ a)).set 17 (m.r 1 ^^^ b)).set 0 a).set 1 b

theorem exec_movs (m1 : M 64) : exec (fun _ => none) [.mov 0 (.reg 26), .mov 1 (.reg 27)] m1 =
    some ((m1.set 0 (m1.r 26)).set 1 (m1.r 27)) := rfl

theorem run_ctStep {mem : Mem} {mm : M 64} {m c : Nat} {len : Len} {C : List Byte} (hs : mm.stk = [])
    (h : mem.Holds c C) (h16 : 16 ≤ C.length) (hw : mem.Writable m 16) (ha : c % 4 = 0) (hc : m % 4 = 0) :
    ∃ mm', run (ctStep .little (mm, m, c, len)) mem = some ((mm', m + 16, c + 16, len.next),
        mem.writes m (xorBytes (rate 16 (storeD mm)) (C.take 16))) ∧ mm'.stk = [] ∧
      storeD mm' = Spec.perm 8 (xorIn (storeD mm) (xorBytes (rate 16 (storeD mm)) (C.take 16))) := by
  obtain ⟨m', h1, h2, h3⟩ := exec_P8 (m := ctM mm (le64 (C.take 8)) (le64 ((C.drop 8).take 8))) hs
  refine ⟨m', ?_, h2, ?_⟩
  · unfold ctStep
    simp only
    rw [run_bind_of (run_vldm h h16 ha)]
    simp only
    rw [run_bind_of (run_block (exec_veorq8 _)), run_bind_of (run_vstm hw hc),
      run_bind_of (run_block (exec_append_of (exec_movs _) (m2 := m') ?_)), (dec16 (storeD mm) C h16).1]
    · simp only [run_pure']
      rfl
    · rw [← h1]
      rfl
  · rw [h3, (dec16 (storeD mm) C h16).2]
    rfl

/-! ## Loops -/

theorem run_AD {mem : Mem} (fuel : Nat) (mm : M 64) (ad : Nat) (A : List Byte) (hs : mm.stk = []) (h : mem.Holds ad A)
    (hf : A.length < fuel) (hl : A.length < 2 ^ 32) (ha : 16 ≤ A.length → ad % 4 = 0) :
    ∃ mm', run (loop fuel (fun (_, _, len) => len.bhi) (adStep .little) (mm, ad, Len.start A.length)) mem =
        some ((mm', ad + 16 * (A.length / 16), Len.start (A.length % 16)), mem) ∧
      storeD mm' = absorb 8 (storeD mm) (fullBlocks 16 A) := by
  induction fuel generalizing mm ad A with
  | zero => omega
  | succ f ih =>
    by_cases h16 : 16 ≤ A.length
    · obtain ⟨m1, r1, s1, t1⟩ := run_adStep (len := Len.start A.length) hs h h16 (ha h16)
      rw [next_start _ hl h16, ← List.length_drop (i := 16) (l := A)] at r1
      obtain ⟨m2, r2, t2⟩ := ih m1 (ad + 16) (A.drop 16) s1 (h.drop 16 h16) (by simp; omega) (by simp; omega)
        (fun _ => by have := ha h16; omega)
      refine ⟨m2, ?_, ?_⟩
      · rw [Ascon.C.run_loop_step (by show (Len.start _).bhi = _; rw [bhi_start _ hl]; exact decide_eq_true h16) r1, r2]
        have e1 : (List.drop 16 A).length / 16 + 1 = A.length / 16 := by simp; omega
        have e2 : (List.drop 16 A).length % 16 = A.length % 16 := by simp; omega
        rw [e2, ← e1, Nat.mul_add, Nat.mul_one, Nat.add_assoc, Nat.add_comm 16]
      · rw [t2, t1, fullBlocks_of_ge 16 A (by omega) h16]
        rfl
    · refine ⟨mm, ?_, ?_⟩
      · rw [Ascon.C.run_loop_done (by show (Len.start _).bhi = _; rw [bhi_start _ hl]; exact decide_eq_false h16), Nat.mod_eq_of_lt (by omega),
          Nat.div_eq_of_lt (by omega)]
        rfl
      · rw [fullBlocks_of_lt 16 A (by omega)]; rfl

theorem run_PT (fuel : Nat) (mem : Mem) (mm : M 64) (c m : Nat) (P : List Byte) (hs : mm.stk = []) (h : mem.Holds m P)
    (hw : mem.Writable c P.length) (ho : c ≤ m ∨ m + P.length ≤ c)
    (hf : P.length < fuel) (hl : P.length < 2 ^ 32) (ha : 16 ≤ P.length → m % 4 = 0 ∧ c % 4 = 0) :
    ∃ mm', run (loop fuel (fun (_, _, _, len) => len.bhi) (ptStep .little) (mm, c, m, Len.start P.length)) mem =
        some ((mm', c + 16 * (P.length / 16), m + 16 * (P.length / 16), Len.start (P.length % 16)),
          mem.writes c (encBlocks (storeD mm) (fullBlocks 16 P)).2) ∧
      storeD mm' = (encBlocks (storeD mm) (fullBlocks 16 P)).1 := by
  induction fuel generalizing mem mm c m P with
  | zero => omega
  | succ f ih =>
    by_cases h16 : 16 ≤ P.length
    · obtain ⟨m1, r1, s1, t1⟩ := run_ptStep (len := Len.start P.length) hs h h16 (hw.mono (by omega) (by omega))
        (ha h16).1 (ha h16).2
      have hr : (rate 16 (xorIn (storeD mm) (P.take 16))).length = 16 := length_rate _ _ (by omega)
      rw [next_start _ hl h16, ← List.length_drop (i := 16) (l := P)] at r1
      obtain ⟨m2, r2, t2⟩ := ih (mem.writes c (rate 16 (xorIn (storeD mm) (P.take 16)))) m1 (c + 16) (m + 16) (P.drop 16) s1
        (by
          apply (h.drop 16 h16).writes_disjoint
          unfold Disjoint; simp only [hr, List.length_drop]; omega)
        (hw.mono (by omega) (by simp; omega)).writes (by simp; omega) (by simp; omega) (by simp; omega)
        (fun _ => by have := ha h16; omega)
      refine ⟨m2, ?_, ?_⟩
      · rw [Ascon.C.run_loop_step (by show (Len.start _).bhi = _; rw [bhi_start _ hl]; exact decide_eq_true h16) r1, r2,
          fullBlocks_of_ge 16 P (by omega) h16, t1]
        have e1 : (List.drop 16 P).length / 16 + 1 = P.length / 16 := by simp; omega
        have e2 : (List.drop 16 P).length % 16 = P.length % 16 := by simp; omega
        rw [e2, ← e1]
        simp only [encBlocks]
        rw [writes_append, hr, show ∀ x y : Nat, x + 16 + 16 * y = x + 16 * (y + 1) by omega,
          show ∀ x y : Nat, x + 16 + 16 * y = x + 16 * (y + 1) by omega]
      · rw [t2, t1, fullBlocks_of_ge 16 P (by omega) h16]
        rfl
    · refine ⟨mm, ?_, ?_⟩
      · rw [Ascon.C.run_loop_done (by show (Len.start _).bhi = _; rw [bhi_start _ hl]; exact decide_eq_false h16), Nat.mod_eq_of_lt (by omega),
          Nat.div_eq_of_lt (by omega), fullBlocks_of_lt 16 P (by omega)]
        simp only [encBlocks, writes_nil]
        rfl
      · rw [fullBlocks_of_lt 16 P (by omega)]; rfl

theorem run_CT (fuel : Nat) (mem : Mem) (mm : M 64) (m c : Nat) (C : List Byte) (hs : mm.stk = []) (h : mem.Holds c C)
    (hw : mem.Writable m C.length) (ho : m ≤ c ∨ c + C.length ≤ m)
    (hf : C.length < fuel) (hl : C.length < 2 ^ 32) (ha : 16 ≤ C.length → c % 4 = 0 ∧ m % 4 = 0) :
    ∃ mm', run (loop fuel (fun (_, _, _, len) => len.bhi) (ctStep .little) (mm, m, c, Len.start C.length)) mem =
        some ((mm', m + 16 * (C.length / 16), c + 16 * (C.length / 16), Len.start (C.length % 16)),
          mem.writes m (decBlocks (storeD mm) (fullBlocks 16 C)).2) ∧
      storeD mm' = (decBlocks (storeD mm) (fullBlocks 16 C)).1 := by
  induction fuel generalizing mem mm m c C with
  | zero => omega
  | succ f ih =>
    by_cases h16 : 16 ≤ C.length
    · obtain ⟨m1, r1, s1, t1⟩ := run_ctStep (len := Len.start C.length) hs h h16 (hw.mono (by omega) (by omega))
        (ha h16).1 (ha h16).2
      have hr : (xorBytes (rate 16 (storeD mm)) (C.take 16)).length = 16 := by
        rw [length_xorBytes, length_rate _ _ (by omega)]; simp; omega
      rw [next_start _ hl h16, ← List.length_drop (i := 16) (l := C)] at r1
      obtain ⟨m2, r2, t2⟩ := ih (mem.writes m (xorBytes (rate 16 (storeD mm)) (C.take 16))) m1 (m + 16) (c + 16)
        (C.drop 16) s1
        (by
          apply (h.drop 16 h16).writes_disjoint
          unfold Disjoint; simp only [hr, List.length_drop]; omega)
        (hw.mono (by omega) (by simp; omega)).writes (by simp; omega) (by simp; omega) (by simp; omega)
        (fun _ => by have := ha h16; omega)
      refine ⟨m2, ?_, ?_⟩
      · rw [Ascon.C.run_loop_step (by show (Len.start _).bhi = _; rw [bhi_start _ hl]; exact decide_eq_true h16) r1, r2,
          fullBlocks_of_ge 16 C (by omega) h16, t1]
        have e1 : (List.drop 16 C).length / 16 + 1 = C.length / 16 := by simp; omega
        have e2 : (List.drop 16 C).length % 16 = C.length % 16 := by simp; omega
        rw [e2, ← e1]
        simp only [decBlocks]
        rw [writes_append, hr, show ∀ x y : Nat, x + 16 + 16 * y = x + 16 * (y + 1) by omega,
          show ∀ x y : Nat, x + 16 + 16 * y = x + 16 * (y + 1) by omega]
      · rw [t2, t1, fullBlocks_of_ge 16 C (by omega) h16]
        rfl
    · refine ⟨mm, ?_, ?_⟩
      · rw [Ascon.C.run_loop_done (by show (Len.start _).bhi = _; rw [bhi_start _ hl]; exact decide_eq_false h16), Nat.mod_eq_of_lt (by omega),
          Nat.div_eq_of_lt (by omega), fullBlocks_of_lt 16 C (by omega)]
        simp only [decBlocks, writes_nil]
        rfl
      · rw [fullBlocks_of_lt 16 C (by omega)]; rfl

/-! ## Functions -/

theorem encS_id (s : State) : encS (fun w => w) s = s := rfl

theorem run_adata {mem : Mem} {fuel : Nat} {regs : Nat → Word} {s : State} {ad : Nat} {A : List Byte} (ha : mem.Holds ad A)
    (hf : A.length < fuel) (hl : A.length < 2 ^ 32) (hal : 16 ≤ A.length → ad % 4 = 0) :
    run (ascon_adata fuel .little regs s ad A.length) mem = some (aeadAd A s, mem) := by
  have h := backend_ok .little
  unfold ascon_adata aeadAd
  have key : run (ifc (decide (A.length ≠ 0))
      (do
        let (s, ad, adlen) ← AD fuel .little regs s ad A.length
        let s ← adFinal backend .little s ad adlen
        backend.P8 .little s)
      (pure s)) mem =
      some ((if A = [] then s else absorb 8 s (fullBlocks 16 (pad 16 A))), mem) := by
    rw [run_ifc]
    by_cases h0 : A = []
    · simp [h0]
    · have : A.length ≠ 0 := by simpa using h0
      rw [if_pos (by simpa using this), if_neg h0]
      obtain ⟨m', r, t⟩ := run_AD (mem := mem) fuel (loadD regs s) ad A rfl ha hf hl hal
      rw [storeD_loadD] at t
      have hA : run (AD fuel .little regs s ad A.length) mem =
          some ((absorb 8 s (fullBlocks 16 A), ad + 16 * (A.length / 16), A.length % 16), mem) := by
        unfold AD
        rw [run_bind_of r]
        simp only [run_pure']
        rw [t, value_start _ (by omega)]
      rw [run_bind_of hA]
      simp only
      have hb := ha.lastBlock 16
      have hll := length_lastBlock 16 A
      rw [fullBlocks_pad 16 A (by omega), ← hll]
      simp only [absorb, List.foldl_append, List.foldl_cons, List.foldl_nil]
      have h1 := fun t => run_adFinal h t _ _ hb (by omega)
      simp only [encS_id] at h1
      have h2 := fun s => h.p8 s mem
      simp only [encS_id] at h2
      rw [run_bind_of (h1 _), h2]
  rw [run_bind_of key]
  simp only [run_pure', h.dsep]

theorem run_encrypt {mem : Mem} {fuel : Nat} {regs : Nat → Word} {s : State} {c m : Nat} {P : List Byte} (hm : mem.Holds m P)
    (hw : mem.Writable c P.length) (ho : c ≤ m ∨ m + P.length ≤ c) (hf : P.length < fuel) (hl : P.length < 2 ^ 32)
    (hal : 16 ≤ P.length → m % 4 = 0 ∧ c % 4 = 0) :
    run (ascon_encrypt fuel .little regs s c m P.length) mem =
      some ((encBody s P).1, mem.writes c (encBody s P).2) := by
  have h := backend_ok .little
  obtain ⟨m', r, t⟩ := run_PT fuel mem (loadD regs s) c m P rfl hm hw ho hf hl hal
  rw [storeD_loadD] at t r
  have hP : run (PT fuel .little regs s c m P.length) mem =
      some (((encBlocks s (fullBlocks 16 P)).1, c + 16 * (P.length / 16), m + 16 * (P.length / 16), P.length % 16),
        mem.writes c (encBlocks s (fullBlocks 16 P)).2) := by
    unfold PT
    rw [run_bind_of r]
    simp only [run_pure']
    rw [t, value_start _ (by omega)]
  unfold ascon_encrypt
  rw [run_bind_of hP]
  simp only
  have hlen := Ref.length_encBlocks s (fullBlocks 16 P)
  rw [Ref.length_fullBlocks] at hlen
  have hb := hm.lastBlock 16
  have hll := length_lastBlock 16 P
  have hdm := Nat.div_add_mod P.length 16
  rw [← hll]
  have hb2 : (mem.writes c (encBlocks s (fullBlocks 16 P)).2).Holds (m + 16 * (P.length / 16)) (lastBlock 16 P) := by
    apply hb.writes_disjoint
    unfold Disjoint; omega
  have h1 := fun t => run_encFinal h (t := t) (c := c + 16 * (P.length / 16)) hb2 (by omega)
    (hw.writes.mono (by omega) (by omega)) (by omega)
  simp only [encS_id] at h1
  rw [h1]
  unfold encBody
  simp only
  rw [writes_append, hlen]

theorem run_decrypt {mem : Mem} {fuel : Nat} {regs : Nat → Word} {s : State} {m c : Nat} {C : List Byte} (hc : mem.Holds c C)
    (hw : mem.Writable m C.length) (ho : m ≤ c ∨ c + C.length ≤ m) (hf : C.length < fuel) (hl : C.length < 2 ^ 32)
    (hal : 16 ≤ C.length → c % 4 = 0 ∧ m % 4 = 0) :
    run (ascon_decrypt fuel .little regs s m c C.length) mem =
      some ((decBody s C).1, mem.writes m (decBody s C).2) := by
  have h := backend_ok .little
  obtain ⟨m', r, t⟩ := run_CT fuel mem (loadD regs s) m c C rfl hc hw ho hf hl hal
  rw [storeD_loadD] at t r
  have hP : run (CT fuel .little regs s m c C.length) mem =
      some (((decBlocks s (fullBlocks 16 C)).1, m + 16 * (C.length / 16), c + 16 * (C.length / 16), C.length % 16),
        mem.writes m (decBlocks s (fullBlocks 16 C)).2) := by
    unfold CT
    rw [run_bind_of r]
    simp only [run_pure']
    rw [t, value_start _ (by omega)]
  unfold ascon_decrypt
  rw [run_bind_of hP]
  simp only
  have hlen := Ref.length_decBlocks s (fullBlocks 16 C) (fun b hb => mem_fullBlocks_length hb)
  rw [Ref.length_fullBlocks] at hlen
  have hb := hc.lastBlock 16
  have hll := length_lastBlock 16 C
  have hdm := Nat.div_add_mod C.length 16
  rw [← hll]
  have hb2 : (mem.writes m (decBlocks s (fullBlocks 16 C)).2).Holds (c + 16 * (C.length / 16)) (lastBlock 16 C) := by
    apply hb.writes_disjoint
    unfold Disjoint; omega
  have h1 := fun t => run_decFinal h (t := t) (m := m + 16 * (C.length / 16)) hb2 (by omega)
    (hw.writes.mono (by omega) (by omega)) (by omega)
  simp only [encS_id] at h1
  rw [h1]
  unfold decBody
  simp only
  rw [writes_append, hlen]

end Ascon.Neon
