import Verif.Proof.MaskedShares
import Verif.Proof.SpecAead
/-!
# The masked AEAD (aead.c of protected_bi32_armv6_leveled) on shared buffers
-/

namespace Ascon.Masked

open Ascon.Spec Ascon.C Ascon.Gen
open Ascon.C.Prog (require ifc loop forUp loadB storeB loadN storeN store64 load64)

attribute [local irreducible] perm deinterleave32 interleave32

theorem zx (x : Word) : (0 : Word) ^^^ x = x := BitVec.zero_xor
theorem xz (x : Word) : x ^^^ (0 : Word) = x := BitVec.xor_zero
theorem xz32 (x : U32) : x ^^^ (0 : U32) = x := BitVec.xor_zero

/-- The bit-interleaved form of a word. -/
abbrev enc : Word → Word := deinterleave32 .little

theorem enc_xor (a b : Word) : enc (a ^^^ b) = enc a ^^^ enc b := bi32_perm.xor a b
theorem enc_and (a b : Word) : enc (a &&& b) = enc a &&& enc b := bi32_perm.and a b

/-- The value of a shared word. -/
def PV (ns : Nat) (w : word_t) : Word := pk (SV ns w)

theorem PV1 (w : word_t) : PV 1 w = pk w.s0 := rfl

theorem PV2 (w : word_t) : PV 2 w = pk w.s0 ^^^ pk ⟨ROR32 w.s1.w0 5, ROR32 w.s1.w1 5⟩ := by
  rw [← pk_xor]; rfl

theorem rel_iff {ns : Nat} {s : MState} {t : State} : Rel ns s t ↔
    (PV ns s.x0 = enc t.x0 ∧ PV ns s.x1 = enc t.x1 ∧ PV ns s.x2 = enc t.x2 ∧ PV ns s.x3 = enc t.x3 ∧
      PV ns s.x4 = enc t.x4) ∧ Z5 ns s := by
  unfold Rel E encS PV
  constructor
  · rintro ⟨h, hz⟩
    simp only [State.mk.injEq] at h
    exact ⟨h, hz⟩
  · rintro ⟨⟨h0, h1, h2, h3, h4⟩, hz⟩
    exact ⟨by rw [h0, h1, h2, h3, h4], hz⟩

theorem PV_MXOR1 (a b : word_t) : PV 1 (MXOR a b 1) = PV 1 a ^^^ PV 1 b := by
  rw [PV1, PV1, PV1, ← pk_xor]; rfl

theorem PV_MXOR2 (a b : word_t) : PV 2 (MXOR a b 2) = PV 2 a ^^^ PV 2 b := by
  simp only [PV, SV, V, MXOR, word_t.get, share_t.get, ge_iff_le, if_neg (show ¬ (2 = 1) by decide),
    if_neg (show ¬ (1 = 0) by decide), if_true, show (1 ≤ 2) = True by simp, Nat.le_refl]
  rw [← pk_xor]
  simp only [ROR32_xor _ _ 5 (by decide), xor4]

/-- Adding an unshared word to a shared one. -/
theorem PV_MXOR21 (a b : word_t) : PV 2 (MXOR a b 1) = PV 2 a ^^^ PV 1 b := by
  rw [PV2, PV2, PV1]
  show pk ⟨a.s0.w0 ^^^ b.s0.w0, a.s0.w1 ^^^ b.s0.w1⟩ ^^^ pk ⟨ROR32 a.s1.w0 5, ROR32 a.s1.w1 5⟩ = _
  rw [pk_xor, BitVec.xor_assoc, BitVec.xor_assoc, BitVec.xor_comm (pk b.s0)]

theorem PV_MREDUCE21 (w : word_t) : PV 1 (MREDUCE w 2 1) = PV 2 w := by
  rw [PV1, PV2, ← pk_xor]
  simp [MREDUCE, MREMASK, rot1]

theorem PV_MEXPAND12 (w : word_t) : PV 2 (MEXPAND w 1 2) = PV 1 w := by
  rw [PV1, PV2, ← pk_xor]
  simp [MEXPAND, MREMASK, rot1, BitVec.xor_assoc]

theorem MREDUCE11 (w : word_t) : MREDUCE w 1 1 = w := rfl
theorem MEXPAND11 (w : word_t) : MEXPAND w 1 1 = w := rfl

theorem PV_MREFRESH (w : word_t) (r : Word) : PV 2 (MREFRESH w r) = PV 2 w := by
  unfold MREFRESH
  simp only []
  rw [PV_MXOR2, PV2 (MRND r), PV2 (MREMASK _ _ 2 1), PV2 w]
  simp only [MREMASK, MRND, rot1, ge_iff_le, Nat.le_refl, show (1 < 2) = True by simp, and_self, if_true]
  rw [pk_xor' (w.s0.w0), show pk ⟨0, 0⟩ = 0 by decide]
  rw [show pk ⟨w.s0.w0, w.s0.w1⟩ = pk w.s0 from rfl]
  generalize pk (⟨ROR32 _ 5, ROR32 _ 5⟩ : share_t) = x
  generalize pk (⟨ROR32 _ 5, ROR32 _ 5⟩ : share_t) = y
  rw [zx, BitVec.xor_assoc, BitVec.xor_assoc, BitVec.xor_comm y, ← BitVec.xor_assoc x, BitVec.xor_self,
    BitVec.zero_xor]

theorem pk00 : pk ⟨0, 0⟩ = 0 := by decide

theorem PV_zero_iff {ns : Nat} {w : word_t} : (V ns w 0 = 0 ∧ V ns w 1 = 0) ↔ PV ns w = 0 := by
  constructor
  · rintro ⟨h0, h1⟩
    unfold PV SV; rw [h0, h1]; exact pk00
  · intro h
    have : SV ns w = ⟨0, 0⟩ := by
      rw [← unpk_pk (SV ns w)]
      show unpk (PV ns w) = _
      rw [h]; decide
    unfold SV at this
    injection this with h0 h1
    exact ⟨h0, h1⟩

theorem PV_MREUSE0 {ns : Nat} (hns : ns = 1 ∨ ns = 2) (w : word_t) : PV ns (MREUSE w 0 ns) = 0 :=
  PV_zero_iff.1 ⟨V_MREUSE0 hns w 0, V_MREUSE0 hns w 1⟩

theorem PV_MZERO (r : Word) : PV 2 (MZERO r) = 0 := by
  have : MZERO r = MREUSE (MRND r) 0 2 := rfl
  rw [this, PV_MREUSE0 (Or.inr rfl)]

/-- Adding a constant to the first share. -/
theorem PV_add0 (ns : Nat) (w : word_t) (a b : U32) :
    PV ns { w with s0 := ⟨w.s0.w0 ^^^ a, w.s0.w1 ^^^ b⟩ } = PV ns w ^^^ pk ⟨a, b⟩ := by
  unfold PV
  rw [← pk_xor]
  congr 1
  unfold SV V
  by_cases h : ns = 1
  · simp [h, word_t.get, share_t.get]
  · simp only [if_neg h, word_t.get, share_t.get, if_true, if_neg (show ¬ (1 = 0) by decide)]
    congr 1 <;> (rw [BitVec.xor_assoc, BitVec.xor_assoc, BitVec.xor_comm (_ : U32) (ROR32 _ _)])

/-! ### Loading and storing unshared words -/

/-- A byte string, zero padded to a multiple of 8 bytes. -/
def padded (D : List Byte) : List Byte := D ++ List.replicate (8 * ((D.length + 7) / 8) - D.length) 0

theorem length_padded (D : List Byte) : (padded D).length = 8 * ((D.length + 7) / 8) := by
  simp [padded]; omega

theorem le64_padded (D : List Byte) : le64 (padded D) = le64 D := le64_append_zeros D _

theorem padded_drop (D : List Byte) (k : Nat) (h : 8 * k ≤ D.length) :
    (padded D).drop (8 * k) = padded (D.drop (8 * k)) := by
  unfold padded
  rw [List.drop_append_of_le_length h, List.length_drop]
  congr 2; omega

theorem padded_mult8 (D : List Byte) (h : D.length % 8 = 0) : padded D = D := by
  unfold padded
  rw [show 8 * ((D.length + 7) / 8) - D.length = 0 by omega]; simp

/-- The word loaded from unshared bytes. -/
def ldw (D : List Byte) : word_t := ⟨unpk (enc (le64 D)), ⟨0, 0⟩⟩

theorem PV1_ldw (D : List Byte) : PV 1 (ldw D) = enc (le64 D) := pk_unpk _

theorem PV2_ldw (D : List Byte) : PV 2 (ldw D) = enc (le64 D) := by
  rw [PV2]
  show pk (unpk _) ^^^ pk ⟨ROR32 0 5, ROR32 0 5⟩ = _
  rw [ROR32_zero, pk_unpk, pk00, xz]

theorem run_LOADSHARE {mem : Mem} {p ns : Nat} {x : Word} (h0 : mem.Holds p (repr32 .little (lo x)))
    (h1 : mem.Holds (p + 4 * ns) (repr32 .little (hi x))) :
    run (LOADSHARE .little p ns) mem = some (unpk (enc x), mem) := by
  unfold LOADSHARE
  rw [run_bind_of (run_load32 h0), run_bind_of (run_load32 h1)]
  simp only [hilo]
  rfl

theorem run_MLOAD1 {mem : Mem} {p : Nat} {D : List Byte} (h : mem.Holds p (padded D)) (hD : D ≠ []) :
    run (MLOAD .little p 1) mem = some (ldw D, mem) := by
  have hl : 0 < D.length := List.length_pos_iff.2 hD
  have hh := h.take 8
  have e : (padded D).take 8 = bytes64 (le64 D) := by
    rw [← le64_padded, ← le64_take8, bytes64_le64]
    rw [List.length_take, length_padded]; omega
  rw [e, repr64_split, holds_append, length_repr32] at hh
  unfold MLOAD
  simp only [ge_iff_le, Nat.le_refl, if_true, if_neg (show ¬ 2 ≤ 1 by decide)]
  refine (run_bind_of (a := ldw D) ?_).trans rfl
  exact (run_bind_of (run_LOADSHARE hh.1 hh.2)).trans rfl

theorem run_MSTORE1 {mem : Mem} {p : Nat} (w : word_t) (h : mem.Writable p 8) :
    run (MSTORE .little p w 1) mem = some ((), mem.writes p (bytes64 (interleave32 .little (PV 1 w)))) := by
  unfold MSTORE
  simp only [ge_iff_le, Nat.le_refl, if_true, if_neg (show ¬ 2 ≤ 1 by decide)]
  refine (run_bind_of (a := ()) (mem' := mem.writes p (bytes64 (interleave32 .little (PV 1 w)))) ?_).trans rfl
  unfold STORESHARE
  simp only []
  rw [repr64_split, writes_append, length_repr32]
  refine (run_bind_of (run_store32 (h.mono (by omega) (by omega)))).trans ?_
  exact run_store32 (h.writes.mono (by omega) (by omega))

theorem dec_enc (x : Word) : interleave32 .little (enc x) = x := interleave32_deinterleave32 x

/-! ### Associated data -/

theorem rel_xor01 {s : MState} {t : State} (h : Rel 1 s t) {w0 w1 : word_t} {a b : Word} (h0 : PV 1 w0 = enc a)
    (h1 : PV 1 w1 = enc b) : Rel 1 { s with x0 := MXOR s.x0 w0 1, x1 := MXOR s.x1 w1 1 }
      { t with x0 := t.x0 ^^^ a, x1 := t.x1 ^^^ b } := by
  obtain ⟨⟨e0, e1, e2, e3, e4⟩, hz⟩ := rel_iff.1 h
  refine rel_iff.2 ⟨⟨?_, ?_, e2, e3, e4⟩, hz⟩
  · simp only [PV_MXOR1, e0, h0, enc_xor]
  · simp only [PV_MXOR1, e1, h1, enc_xor]

theorem rel_xor0 {s : MState} {t : State} (h : Rel 1 s t) {w0 : word_t} {a : Word} (h0 : PV 1 w0 = enc a) :
    Rel 1 { s with x0 := MXOR s.x0 w0 1 } { t with x0 := t.x0 ^^^ a } := by
  obtain ⟨⟨e0, e1, e2, e3, e4⟩, hz⟩ := rel_iff.1 h
  refine rel_iff.2 ⟨⟨?_, e1, e2, e3, e4⟩, hz⟩
  simp only [PV_MXOR1, e0, h0, enc_xor]

theorem xorIn_take16 (t : State) (D : List Byte) (h : 16 ≤ D.length) :
    xorIn t (D.take 16) = { t with x0 := t.x0 ^^^ le64 D, x1 := t.x1 ^^^ le64 (D.drop 8) } := by
  rw [xorIn_of_le16 _ _ (by simp; omega), List.take_take, Nat.min_eq_left (by omega), le64_take8, List.drop_take,
    le64_take8]

theorem ne_nil_of_le {D : List Byte} {k : Nat} (h : k ≤ D.length) (hk : 0 < k) : D ≠ [] := by
  intro he; subst he; simp at h; omega

theorem run_adStep {mem : Mem} {s : MState} {t : State} (h : Rel 1 s t) {p n : Nat} {D : List Byte}
    (hp : mem.Holds p (padded D)) (h16 : 16 ≤ D.length) :
    ∃ s', Rel 1 s' (perm 8 (xorIn t (D.take 16))) ∧
      run (adStep .little (s, p, n)) mem = some ((s', p + 16, n - 16), mem) := by
  have hp8 : mem.Holds (p + 8) (padded (D.drop 8)) := by
    rw [show 8 = 8 * 1 from rfl, ← padded_drop D 1 (by omega)]
    exact hp.drop _ (by rw [length_padded]; omega)
  obtain ⟨s', hs', hr⟩ := run_P (ns := 1) (nr := 8) (Or.inl rfl) (by decide) (by decide)
    (rel_xor01 h (PV1_ldw D) (PV1_ldw (D.drop 8))) mem
  refine ⟨s', ?_, ?_⟩
  · rw [xorIn_take16 t D h16]; exact hs'
  · unfold adStep
    refine (run_bind_of (run_MLOAD1 hp (ne_nil_of_le h16 (by omega)))).trans ?_
    refine (run_bind_of (run_MLOAD1 hp8 (ne_nil_of_le (k := 8) (by simp; omega) (by omega)))).trans ?_
    exact (run_bind_of hr).trans rfl

theorem padded_holds_drop {mem : Mem} {p : Nat} {D : List Byte} (k : Nat) (hp : mem.Holds p (padded D))
    (h : 8 * k ≤ D.length) : mem.Holds (p + 8 * k) (padded (D.drop (8 * k))) := by
  rw [← padded_drop D k h]
  exact hp.drop _ (by rw [length_padded]; omega)

theorem run_adLoop {mem : Mem} (f : Nat) {s : MState} {t : State} (h : Rel 1 s t) {p : Nat} {D : List Byte}
    (hp : mem.Holds p (padded D)) (hf : D.length < f) :
    ∃ s', Rel 1 s' (absorb 8 t (fullBlocks 16 D)) ∧
      run (loop f (fun (_, _, adlen) => decide (adlen ≥ 16)) (adStep .little) (s, p, D.length)) mem =
        some ((s', p + 16 * (D.length / 16), D.length % 16), mem) := by
  induction f generalizing s t p D with
  | zero => omega
  | succ f ih =>
    by_cases h16 : 16 ≤ D.length
    · obtain ⟨s1, hs1, hr1⟩ := run_adStep (n := D.length) h hp h16
      obtain ⟨s2, hs2, hr2⟩ := ih hs1 (padded_holds_drop 2 hp h16) (by simp; omega)
      refine ⟨s2, ?_, ?_⟩
      · rw [fullBlocks_of_ge 16 D (by omega) h16]; exact hs2
      · rw [run_loop_step (by simpa using h16) hr1, ← List.length_drop (i := 16) (l := D)]
        rw [show 16 = 8 * 2 from rfl] at *
        rw [hr2]
        simp only [List.length_drop]
        rw [show p + 8 * 2 + 8 * 2 * ((D.length - 8 * 2) / (8 * 2)) = p + 8 * 2 * (D.length / (8 * 2)) by omega,
          show (D.length - 8 * 2) % (8 * 2) = D.length % (8 * 2) by omega]
    · refine ⟨s, ?_, ?_⟩
      · rw [fullBlocks_of_lt 16 D (by omega)]; exact h
      · rw [run_loop_done (by simpa using h16), Nat.mod_eq_of_lt (by omega), Nat.div_eq_of_lt (by omega)]
        rfl

theorem pad_table : ∀ n : Fin 8, pk ⟨(0x01 : U32) <<< (n.val * 4), 0⟩ = enc ((1 : Word) <<< (8 * n.val)) := by
  decide +kernel

theorem setX_getX (s : MState) (i : Nat) (w : word_t) : (s.setX i w).getX i = w := by
  unfold MState.setX MState.getX; split <;> simp_all

/-- XOR into word 0 or 1 -/
def xorS (t : State) (i : Nat) (a : Word) : State :=
  if i = 0 then { t with x0 := t.x0 ^^^ a } else { t with x1 := t.x1 ^^^ a }

theorem rel_setX {s : MState} {t : State} (h : Rel 1 s t) {i : Nat} {w : word_t} {t' : State}
    (hw : PV 1 w = enc (if i = 0 then t'.x0 else t'.x1))
    (ht : t' = if i = 0 then { t with x0 := t'.x0 } else { t with x1 := t'.x1 }) : Rel 1 (s.setX i w) t' := by
  obtain ⟨⟨e0, e1, e2, e3, e4⟩, hz⟩ := rel_iff.1 h
  by_cases hi : i = 0
  · rw [if_pos hi] at ht hw
    rw [ht]
    unfold MState.setX
    rw [if_pos hi]
    exact rel_iff.2 ⟨⟨hw, e1, e2, e3, e4⟩, hz⟩
  · rw [if_neg hi] at ht hw
    rw [ht]
    unfold MState.setX
    rw [if_neg hi]
    exact rel_iff.2 ⟨⟨e0, hw, e2, e3, e4⟩, hz⟩

theorem rel_getX {s : MState} {t : State} (h : Rel 1 s t) (i : Nat) :
    PV 1 (s.getX i) = enc (if i = 0 then t.x0 else t.x1) := by
  obtain ⟨⟨e0, e1, e2, e3, e4⟩, hz⟩ := rel_iff.1 h
  unfold MState.getX
  by_cases hi : i = 0
  · rw [if_pos hi, if_pos hi]; exact e0
  · rw [if_neg hi, if_neg hi]; exact e1

theorem rel_xorX {s : MState} {t : State} (h : Rel 1 s t) (i : Nat) {w : word_t} {a : Word} (hw : PV 1 w = enc a) :
    Rel 1 (s.setX i (MXOR (s.getX i) w 1)) (xorS t i a) := by
  apply rel_setX h
  · rw [PV_MXOR1, rel_getX h i, hw, ← enc_xor]
    unfold xorS; split <;> rfl
  · unfold xorS; split <;> rfl

theorem run_xorPad {mem : Mem} {s : MState} {t : State} (h : Rel 1 s t) {i n : Nat} (hn : n < 8) :
    ∃ s', Rel 1 s' (xorS t i ((1 : Word) <<< (8 * n))) ∧ run (xorPad s i n) mem = some (s', mem) := by
  obtain ⟨⟨e0, e1, e2, e3, e4⟩, hz⟩ := rel_iff.1 h
  have ht := pad_table ⟨n, hn⟩
  have hx : ∀ w : word_t, ∀ x : Word, PV 1 w = enc x →
      PV 1 { w with s0 := { w.s0 with w0 := w.s0.w0 ^^^ (0x01 : U32) <<< (n * 4) } } =
        enc (x ^^^ (1 : Word) <<< (8 * n)) := by
    intro w x hw
    have := PV_add0 1 w ((0x01 : U32) <<< (n * 4)) 0
    rw [xz32] at this
    rw [this, ht, hw, enc_xor]
  unfold xorPad xorS
  rw [require_bind_of (by simpa using (by omega : n * 4 < 31))]
  simp only []
  by_cases hi : i = 0
  · rw [if_pos hi, if_pos hi]
    refine ⟨_, ?_, rfl⟩
    exact rel_iff.2 ⟨⟨hx _ _ e0, e1, e2, e3, e4⟩, hz⟩
  · rw [if_neg hi, if_neg hi]
    refine ⟨_, ?_, rfl⟩
    exact rel_iff.2 ⟨⟨e0, hx _ _ e1, e2, e3, e4⟩, hz⟩


theorem run_ifc_pos {α : Type} {c : Bool} {p q : Prog α} {mem : Mem} (h : c = true) : run (ifc c p q) mem = run p mem := by
  simp [ifc, run, h]

theorem run_ifc_neg {α : Type} {c : Bool} {p q : Prog α} {mem : Mem} (h : c = false) : run (ifc c p q) mem = run q mem := by
  simp [ifc, run, h]

theorem xorIn_pad_xorS_lt (t : State) (l : List Byte) (h : l.length < 8) :
    xorIn t (pad 16 l) = xorS (xorS t 0 ((1 : Word) <<< (8 * l.length))) 0 (le64 l) := by
  rw [xorIn_pad16_lt8 t l h]
  simp only [xorS, if_true]
  congr 1
  rw [BitVec.xor_assoc, BitVec.xor_assoc, BitVec.xor_comm (le64 l)]

theorem xorIn_pad_xorS_ge (t : State) (l : List Byte) (h8 : 8 ≤ l.length) (h : l.length < 16) :
    xorIn t (pad 16 l) = xorS (xorS { t with x0 := t.x0 ^^^ le64 l } 1 ((1 : Word) <<< (8 * (l.drop 8).length))) 1
      (le64 (l.drop 8)) := by
  rw [xorIn_pad16_ge8 t l h8 h]
  simp only [xorS, if_neg (show ¬ (1 = 0) by decide), le64_take8, List.length_drop]
  congr 1
  rw [BitVec.xor_assoc, BitVec.xor_assoc, BitVec.xor_comm (le64 _)]

theorem xorS_zero (t : State) (i : Nat) : xorS t i 0 = t := by
  unfold xorS; split <;> simp

/-- The common tail of associated data processing: padding, then the remaining (fewer than 8) bytes. -/
theorem run_adTail {mem : Mem} {s : MState} {t : State} (h : Rel 1 s t) {i p n : Nat} {l : List Byte} (hn : n = l.length)
    (hp : mem.Holds p (padded l)) (h8 : l.length < 8) :
    ∃ s', Rel 1 s' (perm 8 (xorS (xorS t i ((1 : Word) <<< (8 * l.length))) i (le64 l))) ∧
      run (do
        let s ← xorPad s i n
        let s ← ifc (decide (n ≠ 0))
          (do
            let as ← MLOAD .little p 1
            pure (s.setX i (MXOR (s.getX i) as 1)))
          (pure s)
        P s 8 1) mem = some (s', mem) := by
  subst hn
  obtain ⟨s1, hs1, hr1⟩ := run_xorPad (mem := mem) (i := i) h h8
  by_cases h0 : l = []
  · subst h0
    obtain ⟨s2, hs2, hr2⟩ := run_P (ns := 1) (nr := 8) (Or.inl rfl) (by decide) (by decide) hs1 mem
    refine ⟨s2, ?_, ?_⟩
    · rw [le64_nil, xorS_zero]; exact hs2
    · refine (run_bind_of hr1).trans ?_
      refine (run_bind_of (a := s1) (mem' := mem) ?_).trans hr2
      rw [run_ifc_neg (by simp)]; rfl
  · obtain ⟨s2, hs2, hr2⟩ := run_P (ns := 1) (nr := 8) (Or.inl rfl) (by decide) (by decide)
      (rel_xorX hs1 i (PV1_ldw l)) mem
    refine ⟨s2, hs2, ?_⟩
    refine (run_bind_of hr1).trans ?_
    refine (run_bind_of (mem' := mem) ?_).trans hr2
    rw [run_ifc_pos (by simpa using h0)]
    exact (run_bind_of (run_MLOAD1 hp h0)).trans rfl

theorem run_adFinal {mem : Mem} {s : MState} {t : State} (h : Rel 1 s t) {p : Nat} {l : List Byte}
    (hp : mem.Holds p (padded l)) (h16 : l.length < 16) :
    ∃ s', Rel 1 s' (perm 8 (xorIn t (pad 16 l))) ∧
      run (adFinal .little (s, p, l.length)) mem = some (s', mem) := by
  unfold adFinal
  by_cases h8 : 8 ≤ l.length
  · have h1 := rel_xor0 h (PV1_ldw l)
    have hp8 : mem.Holds (p + 8) (padded (l.drop 8)) := padded_holds_drop 1 hp h8
    obtain ⟨s', hs', hr⟩ := run_adTail h1 (i := 1) (n := l.length - 8) (by simp) hp8 (by simp; omega)
    refine ⟨s', ?_, ?_⟩
    · rw [xorIn_pad_xorS_ge t l h8 h16]; exact hs'
    · refine (run_bind_of (a := ({ s with x0 := MXOR s.x0 (ldw l) 1 }, 1, p + 8, l.length - 8)) (mem' := mem)
        ?_).trans ?_
      rotate_left
      · exact hr
      rw [run_ifc_pos (by simpa using h8)]
      exact (run_bind_of (run_MLOAD1 hp (ne_nil_of_le h8 (by omega)))).trans rfl
  · obtain ⟨s', hs', hr⟩ := run_adTail h (i := 0) rfl hp (by omega)
    refine ⟨s', ?_, ?_⟩
    · rw [xorIn_pad_xorS_lt t l (by omega)]; exact hs'
    · refine (run_bind_of (a := (s, 0, p, l.length)) (mem' := mem) ?_).trans hr
      rw [run_ifc_neg (by simpa using h8)]; rfl

theorem dsep_ok : pk ⟨0, 0x80000000⟩ = enc 0x8000000000000000 := by decide +kernel

theorem padded_lastBlock {mem : Mem} {p : Nat} {D : List Byte} (hp : mem.Holds p (padded D)) :
    mem.Holds (p + 16 * (D.length / 16)) (padded (lastBlock 16 D)) := by
  have := padded_holds_drop (2 * (D.length / 16)) hp (by omega)
  rw [show 8 * (2 * (D.length / 16)) = 16 * (D.length / 16) by omega] at this
  exact this

theorem run_ascon_adata {mem : Mem} {s : MState} {t : State} (h : Rel 1 s t) {p : Nat} {A : List Byte}
    (hp : mem.Holds p (padded A)) :
    ∃ s', Rel 1 s' (aeadAd A t) ∧ run (ascon_adata .little s p A.length) mem = some (s', mem) := by
  have hx : ∀ {s : MState} {t : State}, Rel 1 s t →
      Rel 1 { s with x4 := { s.x4 with s0 := { s.x4.s0 with w1 := s.x4.s0.w1 ^^^ 0x80000000 } } }
        { t with x4 := t.x4 ^^^ 0x8000000000000000 } := by
    intro s t h
    obtain ⟨⟨e0, e1, e2, e3, e4⟩, hz⟩ := rel_iff.1 h
    refine rel_iff.2 ⟨⟨e0, e1, e2, e3, ?_⟩, hz⟩
    have := PV_add0 1 s.x4 0 0x80000000
    rw [xz32] at this
    rw [enc_xor, ← dsep_ok, ← e4, ← this]
  unfold ascon_adata aeadAd
  by_cases hA : A = []
  · subst hA
    refine ⟨_, hx h, ?_⟩
    refine (run_bind_of (a := s) (mem' := mem) ?_).trans rfl
    rw [run_ifc_neg (by simp)]; rfl
  · obtain ⟨s1, hs1, hr1⟩ := run_adLoop (A.length + 1) h hp (by omega)
    obtain ⟨s2, hs2, hr2⟩ := run_adFinal hs1 (padded_lastBlock hp) (by rw [length_lastBlock]; omega)
    refine ⟨{ s2 with x4 := { s2.x4 with s0 := { s2.x4.s0 with w1 := s2.x4.s0.w1 ^^^ 0x80000000 } } }, ?_, ?_⟩
    · rw [if_neg hA, fullBlocks_pad 16 A (by omega)]
      unfold absorb
      rw [List.foldl_append]
      exact hx hs2
    · refine (run_bind_of (a := s2) (mem' := mem) ?_).trans rfl
      rw [run_ifc_pos (by simpa using hA)]
      refine (run_bind_of hr1).trans ?_
      rw [length_lastBlock] at hr2
      exact hr2

/-! ### Plaintext -/

theorem rate16_take (t : State) (D : List Byte) (h : 16 ≤ D.length) :
    rate 16 (xorIn t (D.take 16)) = bytes64 (t.x0 ^^^ le64 D) ++ bytes64 (t.x1 ^^^ le64 (D.drop 8)) := by
  rw [rate_16, xorIn_take16 t D h]

theorem run_encStep {mem : Mem} {s : MState} {t : State} (h : Rel 1 s t) {c p n : Nat} {D : List Byte}
    (hp : mem.Holds p (padded D)) (h16 : 16 ≤ D.length) (hw : mem.Writable c 16)
    (hd : Disjoint c 16 p (padded D).length) :
    ∃ s', Rel 1 s' (perm 8 (xorIn t (D.take 16))) ∧
      run (encStep .little (s, c, p, n)) mem =
        some ((s', c + 16, p + 16, n - 16), mem.writes c (rate 16 (xorIn t (D.take 16)))) := by
  have hp8 : mem.Holds (p + 8) (padded (D.drop 8)) := padded_holds_drop 1 hp (by omega)
  have hr01 := rel_xor01 h (PV1_ldw D) (PV1_ldw (D.drop 8))
  obtain ⟨s', hs', hr⟩ := run_P (ns := 1) (nr := 8) (Or.inl rfl) (by decide) (by decide)
    hr01 (mem.writes c (rate 16 (xorIn t (D.take 16))))
  refine ⟨s', ?_, ?_⟩
  · rw [xorIn_take16 t D h16]; exact hs'
  · obtain ⟨⟨e0, e1, -⟩, -⟩ := rel_iff.1 hr01
    rw [rate16_take t D h16, writes_append, length_bytes64] at hr ⊢
    unfold encStep
    refine (run_bind_of (run_MLOAD1 hp (ne_nil_of_le h16 (by omega)))).trans ?_
    refine (run_bind_of (run_MSTORE1 _ (hw.mono (by omega) (by omega)))).trans ?_
    have e0' : PV 1 (MREDUCE (MXOR s.x0 (ldw D) 1) 1 1) = enc (t.x0 ^^^ le64 D) := e0
    have e1' : PV 1 (MREDUCE (MXOR s.x1 (ldw (D.drop 8)) 1) 1 1) = enc (t.x1 ^^^ le64 (D.drop 8)) := e1
    rw [e0', dec_enc]
    have hp8' : (mem.writes c (bytes64 (t.x0 ^^^ le64 D))).Holds (p + 8) (padded (D.drop 8)) := by
      apply hp8.writes_disjoint
      unfold Disjoint at *
      rw [length_bytes64]
      have := length_padded D
      have := length_padded (D.drop 8)
      rw [List.length_drop] at this
      omega
    refine (run_bind_of (run_MLOAD1 hp8' (ne_nil_of_le (k := 8) (by simp; omega) (by omega)))).trans ?_
    refine (run_bind_of (run_MSTORE1 _ (hw.writes.mono (by omega) (by omega)))).trans ?_
    rw [e1', dec_enc]
    exact (run_bind_of hr).trans rfl

theorem run_encLoop (f : Nat) {mem : Mem} {s : MState} {t : State} (h : Rel 1 s t) {c p : Nat} {D : List Byte}
    (hp : mem.Holds p (padded D)) (hw : mem.Writable c (padded D).length)
    (hd : Disjoint c (padded D).length p (padded D).length) (hf : D.length < f) :
    ∃ s', Rel 1 s' (encBlocks t (fullBlocks 16 D)).1 ∧
      run (loop f (fun (_, _, _, mlen) => decide (mlen ≥ 16)) (encStep .little) (s, c, p, D.length)) mem =
        some ((s', c + 16 * (D.length / 16), p + 16 * (D.length / 16), D.length % 16),
          mem.writes c (encBlocks t (fullBlocks 16 D)).2) := by
  induction f generalizing mem s t c p D with
  | zero => omega
  | succ f ih =>
    have hlp := length_padded D
    by_cases h16 : 16 ≤ D.length
    · have hld := length_padded (D.drop 16)
      rw [List.length_drop] at hld
      have hd' : Disjoint c 16 p (padded D).length := by unfold Disjoint at *; omega
      obtain ⟨s1, hs1, hr1⟩ := run_encStep (n := D.length) h hp h16 (hw.mono (by omega) (by omega)) hd'
      have hr16 : (rate 16 (xorIn t (D.take 16))).length = 16 := length_rate _ _ (by omega)
      obtain ⟨s2, hs2, hr2⟩ := ih (mem := mem.writes c (rate 16 (xorIn t (D.take 16)))) (c := c + 16) (p := p + 16)
        (D := D.drop 16) hs1 (Mem.Holds.writes_disjoint (bs := padded (D.drop 16)) (padded_holds_drop 2 hp h16) (by unfold Disjoint at *; omega))
        (hw.writes.mono (by omega) (by omega)) (by unfold Disjoint at *; omega) (by simp; omega)
      refine ⟨s2, ?_, ?_⟩
      · rw [fullBlocks_of_ge 16 D (by omega) h16]; exact hs2
      · rw [run_loop_step (by simpa using h16) hr1, ← List.length_drop (i := 16) (l := D), hr2,
          fullBlocks_of_ge 16 D (by omega) h16]
        simp only [List.length_drop, encBlocks]
        rw [show c + 16 + 16 * ((D.length - 16) / 16) = c + 16 * (D.length / 16) by omega,
          show p + 16 + 16 * ((D.length - 16) / 16) = p + 16 * (D.length / 16) by omega,
          show (D.length - 16) % 16 = D.length % 16 by omega, writes_append, hr16]
    · refine ⟨s, ?_, ?_⟩
      · rw [fullBlocks_of_lt 16 D (by omega)]; exact h
      · rw [run_loop_done (by simpa using h16), fullBlocks_of_lt 16 D (by omega), Nat.mod_eq_of_lt (by omega),
          Nat.div_eq_of_lt (by omega)]
        simp only [encBlocks, writes_nil]
        rfl


/-- Word 0 or 1 of the state. -/
def wordS (t : State) (i : Nat) : Word := if i = 0 then t.x0 else t.x1

/-- The common tail of encryption. -/
theorem run_encTail {mem : Mem} {s : MState} {t : State} (h : Rel 1 s t) {i c p n : Nat} {l : List Byte} (hn : n = l.length)
    (hp : mem.Holds p (padded l)) (h8 : l.length < 8) (hw : mem.Writable c (padded l).length) :
    ∃ s' X, Rel 1 s' (xorS (xorS t i ((1 : Word) <<< (8 * l.length))) i (le64 l)) ∧
      X.length = (padded l).length ∧
      X.take l.length = (bytes64 (wordS (xorS (xorS t i ((1 : Word) <<< (8 * l.length))) i (le64 l)) i)).take l.length ∧
      run (do
        let s ← xorPad s i n
        ifc (decide (n ≠ 0))
          (do
            let ms ← MLOAD .little p 1
            let s := s.setX i (MXOR (s.getX i) ms 1)
            let cx := MREDUCE (s.getX i) 1 1
            MSTORE .little c cx 1
            pure s)
          (pure s)) mem = some (s', mem.writes c X) := by
  subst hn
  obtain ⟨s1, hs1, hr1⟩ := run_xorPad (mem := mem) (i := i) h h8
  by_cases h0 : l = []
  · subst h0
    refine ⟨s1, [], ?_, rfl, rfl, ?_⟩
    · rw [le64_nil, xorS_zero]; exact hs1
    · refine (run_bind_of hr1).trans ?_
      rw [run_ifc_neg (by simp), writes_nil]; rfl
  · have hpos : 0 < l.length := List.length_pos_iff.2 h0
    have hs2 := rel_xorX hs1 i (PV1_ldw l)
    have e := rel_getX hs2 i
    rw [length_padded] at hw
    refine ⟨_, _, hs2, ?_, rfl, ?_⟩
    · rw [length_bytes64, length_padded]; omega
    · refine (run_bind_of hr1).trans ?_
      rw [run_ifc_pos (by simpa using h0)]
      refine (run_bind_of (run_MLOAD1 hp h0)).trans ?_
      refine (run_bind_of (run_MSTORE1 _ (hw.mono (by omega) (by omega)))).trans ?_
      rw [MREDUCE11, e, dec_enc]
      rfl

theorem wordS_0 (t : State) (n : Nat) (h : n ≤ 8) : (bytes64 (wordS t 0)).take n = rate n t := by
  rw [rate_le8 n t h]; rfl

theorem run_encFinal {mem : Mem} {s : MState} {t : State} (h : Rel 1 s t) {c p : Nat} {l : List Byte}
    (hp : mem.Holds p (padded l)) (h16 : l.length < 16) (hw : mem.Writable c (padded l).length)
    (hd : Disjoint c (padded l).length p (padded l).length) :
    ∃ s' X, Rel 1 s' (xorIn t (pad 16 l)) ∧ X.length = (padded l).length ∧
      X.take l.length = rate l.length (xorIn t (pad 16 l)) ∧
      run (encFinal .little (s, c, p, l.length)) mem = some (s', mem.writes c X) := by
  unfold encFinal
  have hlp := length_padded l
  by_cases h8 : 8 ≤ l.length
  · have h1 := rel_xor0 h (PV1_ldw l)
    have e0 : PV 1 (MREDUCE (MXOR s.x0 (ldw l) 1) 1 1) = enc (t.x0 ^^^ le64 l) := (rel_iff.1 h1).1.1
    have hp8 : mem.Holds (p + 8) (padded (l.drop 8)) := padded_holds_drop 1 hp h8
    have hld := length_padded (l.drop 8)
    rw [List.length_drop] at hld
    obtain ⟨s', X, hs', hX, hX', hr⟩ := run_encTail (mem := mem.writes c (bytes64 (t.x0 ^^^ le64 l))) (c := c + 8) h1
      (i := 1) (n := l.length - 8) (by simp)
      (hp8.writes_disjoint (by rw [length_bytes64]; unfold Disjoint at *; omega)) (by simp; omega)
      (hw.writes.mono (by omega) (by omega))
    refine ⟨s', bytes64 (t.x0 ^^^ le64 l) ++ X, ?_, ?_, ?_, ?_⟩
    · rw [xorIn_pad_xorS_ge t l h8 h16]; exact hs'
    · rw [List.length_append, length_bytes64]; omega
    · rw [rate_le16 _ _ h8 (by omega), xorIn_pad_xorS_ge t l h8 h16, List.take_append,
        List.take_of_length_le (by rw [length_bytes64]; omega), length_bytes64]
      rw [List.length_drop] at hX'
      rw [hX', List.length_drop]
      rfl
    · rw [writes_append, length_bytes64]
      refine (run_bind_of (a := ({ s with x0 := MXOR s.x0 (ldw l) 1 }, 1, c + 8, p + 8, l.length - 8))
        (mem' := mem.writes c (bytes64 (t.x0 ^^^ le64 l))) ?_).trans ?_
      rotate_left
      · exact hr
      rw [run_ifc_pos (by simpa using h8)]
      refine (run_bind_of (run_MLOAD1 hp (ne_nil_of_le h8 (by omega)))).trans ?_
      refine (run_bind_of (run_MSTORE1 _ (hw.mono (by omega) (by omega)))).trans ?_
      rw [e0, dec_enc]
      rfl
  · obtain ⟨s', X, hs', hX, hX', hr⟩ := run_encTail h (c := c) (i := 0) rfl hp (by omega) hw
    refine ⟨s', X, ?_, hX, ?_, ?_⟩
    · rw [xorIn_pad_xorS_lt t l (by omega)]; exact hs'
    · rw [hX', wordS_0 _ _ (by omega), xorIn_pad_xorS_lt t l (by omega)]
    · refine (run_bind_of (a := (s, 0, c, p, l.length)) (mem' := mem) ?_).trans hr
      rw [run_ifc_neg (by simpa using h8)]; rfl

theorem run_ascon_encrypt {mem : Mem} {s : MState} {t : State} (h : Rel 1 s t) {c p : Nat} {D : List Byte}
    (hp : mem.Holds p (padded D)) (hw : mem.Writable c (padded D).length)
    (hd : Disjoint c (padded D).length p (padded D).length) :
    ∃ s' X, Rel 1 s' (encBody t D).1 ∧ X.length = (padded D).length ∧ X.take D.length = (encBody t D).2 ∧
      run (ascon_encrypt .little s c p D.length) mem = some (s', mem.writes c X) := by
  obtain ⟨s1, hs1, hr1⟩ := run_encLoop (D.length + 1) h hp hw hd (by omega)
  have hlen := Ref.length_encBlocks t (fullBlocks 16 D)
  rw [Ref.length_fullBlocks] at hlen
  have hll := length_lastBlock 16 D
  have hlp := length_padded D
  have hll' := length_padded (lastBlock 16 D)
  obtain ⟨s2, X, hs2, hX, hX', hr2⟩ := run_encFinal (mem := mem.writes c (encBlocks t (fullBlocks 16 D)).2)
    (c := c + 16 * (D.length / 16)) (p := p + 16 * (D.length / 16)) hs1
    ((padded_lastBlock hp).writes_disjoint (by unfold Disjoint at *; omega)) (by omega)
    (hw.writes.mono (by omega) (by omega)) (by unfold Disjoint at *; omega)
  refine ⟨s2, (encBlocks t (fullBlocks 16 D)).2 ++ X, hs2, ?_, ?_, ?_⟩
  · rw [List.length_append]; omega
  · unfold encBody
    simp only []
    rw [List.take_append, List.take_of_length_le (by omega), ← hX']
    congr 2; omega
  · unfold ascon_encrypt
    refine (run_bind_of hr1).trans ?_
    rw [writes_append, hlen, ← hll]
    exact hr2

/-! ### Ciphertext -/

theorem rel_set0 {s : MState} {t : State} (h : Rel 1 s t) {w : word_t} {a : Word} (hw : PV 1 w = enc a) :
    Rel 1 { s with x0 := w } { t with x0 := a } := by
  obtain ⟨⟨e0, e1, e2, e3, e4⟩, hz⟩ := rel_iff.1 h
  exact rel_iff.2 ⟨⟨hw, e1, e2, e3, e4⟩, hz⟩

theorem rel_set01 {s : MState} {t : State} (h : Rel 1 s t) {w w' : word_t} {a b : Word} (hw : PV 1 w = enc a)
    (hw' : PV 1 w' = enc b) : Rel 1 { s with x0 := w, x1 := w' } { t with x0 := a, x1 := b } := by
  obtain ⟨⟨e0, e1, e2, e3, e4⟩, hz⟩ := rel_iff.1 h
  exact rel_iff.2 ⟨⟨hw, hw', e2, e3, e4⟩, hz⟩

theorem xorBytes_take16 (t : State) (C : List Byte) (h : 16 ≤ C.length) :
    xorBytes (rate 16 t) (C.take 16) = bytes64 (t.x0 ^^^ le64 C) ++ bytes64 (t.x1 ^^^ le64 (C.drop 8)) := by
  rw [rate_16, bytes64_xor, bytes64_xor, ← le64_take8 C, ← le64_take8 (C.drop 8), bytes64_le64 _ (by simp; omega),
    bytes64_le64 _ (by simp; omega)]
  rw [show C.take 16 = C.take 8 ++ (C.drop 8).take 8 by rw [← List.take_add]]
  simp only [xorBytes]
  rw [List.zipWith_append (by simp [length_bytes64]; omega)]

theorem xorIn_dec16 (t : State) (C : List Byte) (h : 16 ≤ C.length) :
    xorIn t (xorBytes (rate 16 t) (C.take 16)) = { t with x0 := le64 C, x1 := le64 (C.drop 8) } := by
  rw [xorBytes_take16 t C h, xorIn_of_le16 _ _ (by simp [length_bytes64]), take8_bytes64_append, drop8_bytes64_append,
    le64_bytes64, le64_bytes64]
  simp only [← BitVec.xor_assoc, BitVec.xor_self, BitVec.zero_xor]

theorem run_decStep {mem : Mem} {s : MState} {t : State} (h : Rel 1 s t) {m p n : Nat} {C : List Byte}
    (hp : mem.Holds p (padded C)) (h16 : 16 ≤ C.length) (hw : mem.Writable m 16)
    (hd : Disjoint m 16 p (padded C).length) :
    ∃ s', Rel 1 s' (perm 8 (xorIn t (xorBytes (rate 16 t) (C.take 16)))) ∧
      run (decStep .little (s, m, p, n)) mem =
        some ((s', m + 16, p + 16, n - 16), mem.writes m (xorBytes (rate 16 t) (C.take 16))) := by
  have hp8 : mem.Holds (p + 8) (padded (C.drop 8)) := padded_holds_drop 1 hp (by omega)
  obtain ⟨⟨e0, e1, -⟩, -⟩ := rel_iff.1 (rel_xor01 h (PV1_ldw C) (PV1_ldw (C.drop 8)))
  obtain ⟨s', hs', hr⟩ := run_P (ns := 1) (nr := 8) (Or.inl rfl) (by decide) (by decide)
    (rel_set01 h (PV1_ldw C) (PV1_ldw (C.drop 8))) (mem.writes m (xorBytes (rate 16 t) (C.take 16)))
  refine ⟨s', ?_, ?_⟩
  · rw [xorIn_dec16 t C h16]; exact hs'
  · rw [xorBytes_take16 t C h16, writes_append, length_bytes64] at hr ⊢
    unfold decStep
    refine (run_bind_of (run_MLOAD1 hp (ne_nil_of_le h16 (by omega)))).trans ?_
    refine (run_bind_of (run_MSTORE1 _ (hw.mono (by omega) (by omega)))).trans ?_
    have e0' : PV 1 (MXOR s.x0 (ldw C) 1) = enc (t.x0 ^^^ le64 C) := e0
    have e1' : PV 1 (MXOR s.x1 (ldw (C.drop 8)) 1) = enc (t.x1 ^^^ le64 (C.drop 8)) := e1
    rw [e0', dec_enc]
    have hp8' : (mem.writes m (bytes64 (t.x0 ^^^ le64 C))).Holds (p + 8) (padded (C.drop 8)) := by
      apply hp8.writes_disjoint
      unfold Disjoint at *
      rw [length_bytes64]
      have := length_padded C
      have := length_padded (C.drop 8)
      rw [List.length_drop] at this
      omega
    refine (run_bind_of (run_MLOAD1 hp8' (ne_nil_of_le (k := 8) (by simp; omega) (by omega)))).trans ?_
    refine (run_bind_of (run_MSTORE1 _ (hw.writes.mono (by omega) (by omega)))).trans ?_
    rw [e1', dec_enc]
    exact (run_bind_of hr).trans rfl

theorem run_decLoop (f : Nat) {mem : Mem} {s : MState} {t : State} (h : Rel 1 s t) {m p : Nat} {C : List Byte}
    (hp : mem.Holds p (padded C)) (hw : mem.Writable m (padded C).length)
    (hd : Disjoint m (padded C).length p (padded C).length) (hf : C.length < f) :
    ∃ s', Rel 1 s' (decBlocks t (fullBlocks 16 C)).1 ∧
      run (loop f (fun (_, _, _, clen) => decide (clen ≥ 16)) (decStep .little) (s, m, p, C.length)) mem =
        some ((s', m + 16 * (C.length / 16), p + 16 * (C.length / 16), C.length % 16),
          mem.writes m (decBlocks t (fullBlocks 16 C)).2) := by
  induction f generalizing mem s t m p C with
  | zero => omega
  | succ f ih =>
    have hlp := length_padded C
    by_cases h16 : 16 ≤ C.length
    · have hld := length_padded (C.drop 16)
      rw [List.length_drop] at hld
      have hd' : Disjoint m 16 p (padded C).length := by unfold Disjoint at *; omega
      obtain ⟨s1, hs1, hr1⟩ := run_decStep (n := C.length) h hp h16 (hw.mono (by omega) (by omega)) hd'
      have hr16 : (xorBytes (rate 16 t) (C.take 16)).length = 16 := by
        rw [length_xorBytes, length_rate _ _ (by omega)]; simp; omega
      obtain ⟨s2, hs2, hr2⟩ := ih (mem := mem.writes m (xorBytes (rate 16 t) (C.take 16))) (m := m + 16) (p := p + 16)
        (C := C.drop 16) hs1 (Mem.Holds.writes_disjoint (bs := padded (C.drop 16)) (padded_holds_drop 2 hp h16) (by unfold Disjoint at *; omega))
        (hw.writes.mono (by omega) (by omega)) (by unfold Disjoint at *; omega) (by simp; omega)
      refine ⟨s2, ?_, ?_⟩
      · rw [fullBlocks_of_ge 16 C (by omega) h16]; exact hs2
      · rw [run_loop_step (by simpa using h16) hr1, ← List.length_drop (i := 16) (l := C), hr2,
          fullBlocks_of_ge 16 C (by omega) h16]
        simp only [List.length_drop, decBlocks]
        rw [show m + 16 + 16 * ((C.length - 16) / 16) = m + 16 * (C.length / 16) by omega,
          show p + 16 + 16 * ((C.length - 16) / 16) = p + 16 * (C.length / 16) by omega,
          show (C.length - 16) % 16 = C.length % 16 by omega, writes_append, hr16]
    · refine ⟨s, ?_, ?_⟩
      · rw [fullBlocks_of_lt 16 C (by omega)]; exact h
      · rw [run_loop_done (by simpa using h16), fullBlocks_of_lt 16 C (by omega), Nat.mod_eq_of_lt (by omega),
          Nat.div_eq_of_lt (by omega)]
        simp only [decBlocks, writes_nil]
        rfl


theorem mask_table : ∀ n : Fin 8, pk ⟨(0xffffffff : U32) <<< (n.val * 4), (0xffffffff : U32) <<< (n.val * 4)⟩ =
    enc (BitVec.allOnes 64 <<< (8 * n.val)) := by
  decide +kernel

theorem PV_MXORAND1 (c a b : word_t) : PV 1 (MXORAND c a b 1) = PV 1 c ^^^ (PV 1 a &&& PV 1 b) := by
  have hV : ∀ i, i < 2 → V 1 (MXORAND c a b 1) i = V 1 c i ^^^ (V 1 a i &&& V 1 b i) := by
    intro i hi
    unfold MXORAND
    simp only []
    have hb : ∀ j, j = 0 ∨ j = 1 → V 1 (⟨⟨~~~b.s0.w0, ~~~b.s0.w1⟩, b.s1⟩ : word_t) j = ~~~(V 1 b j) := by
      rintro j (rfl | rfl) <;> rfl
    have : i = 0 ∨ i = 1 := by omega
    rcases this with rfl | rfl
    · rw [V_MXORBIC_other 1 (i := 1) (j := 0) (by simp), V_MXORBIC (Or.inl rfl), hb 0 (Or.inl rfl), BitVec.not_not]
    · rw [V_MXORBIC (Or.inl rfl), V_MXORBIC_other 1 (i := 0) (j := 1) (by simp), hb 1 (Or.inr rfl), BitVec.not_not]
  unfold PV SV
  rw [hV 0 (by decide), hV 1 (by decide), pk_xor', pk_and']

theorem run_MMASK {mem : Mem} {w : word_t} (hz : PV 1 w = 0) {n : Nat} (hn : n < 8) :
    ∃ w', PV 1 w' = enc (BitVec.allOnes 64 <<< (8 * n)) ∧ run (MMASK w n) mem = some (w', mem) := by
  refine ⟨{ w with s0 := ⟨w.s0.w0 ^^^ (0xffffffff : U32) <<< (n * 4), w.s0.w1 ^^^ (0xffffffff : U32) <<< (n * 4)⟩ }, ?_, ?_⟩
  · rw [PV_add0, hz, zx]
    exact mask_table ⟨n, hn⟩
  · unfold MMASK
    rw [require_bind_of (by simpa using (by omega : n * 4 < 32))]
    rfl

/-- The low `n` bytes of a word. -/
theorem getLsbD_le64_take (S : Word) (n i : Nat) (hn : n ≤ 8) :
    (le64 ((bytes64 S).take n)).getLsbD i = (decide (i < 8 * n) && S.getLsbD i) := by
  by_cases h : i < 8 * n
  · have hi : i < 64 := by omega
    rw [getLsbD_le64, List.getD_eq_getElem?_getD, List.getElem?_take, if_pos (by omega),
      ← List.getD_eq_getElem?_getD, ← getLsbD_le64, le64_bytes64]
    simp [h]
  · rw [getLsbD_le64_of_ge _ _ (by simp [length_bytes64]; omega)]; simp [h]

theorem decWord (S : Word) (l : List Byte) (h : l.length < 8) :
    le64 l ^^^ ((BitVec.allOnes 64 <<< (8 * l.length)) &&& (S ^^^ (1 : Word) <<< (8 * l.length) ^^^ le64 l)) =
      S ^^^ (1 : Word) <<< (8 * l.length) ^^^ le64 (xorBytes ((bytes64 S).take l.length) l) := by
  rw [le64_xorBytes _ _ (by simp [length_bytes64]; omega)]
  apply BitVec.eq_of_getLsbD_eq; intro i hi
  simp only [BitVec.getLsbD_xor, BitVec.getLsbD_and, BitVec.getLsbD_shiftLeft, BitVec.getLsbD_allOnes,
    getLsbD_le64_take S _ i (by omega : l.length ≤ 8), hi, decide_true, Bool.true_and]
  by_cases hlt : i < 8 * l.length
  · simp [hlt]
  · rw [getLsbD_le64_of_ge l i (by omega)]
    simp [hlt, show i - 8 * l.length < 64 by omega]

theorem take_bytes64_dec (S : Word) (l : List Byte) (h : l.length < 8) :
    (bytes64 (S ^^^ (1 : Word) <<< (8 * l.length) ^^^ le64 l)).take l.length =
      xorBytes ((bytes64 S).take l.length) l := by
  rw [BitVec.xor_assoc, BitVec.xor_comm _ (le64 l), ← BitVec.xor_assoc, take_bytes64_xor_pad _ _ (by omega),
    bytes64_xor, xorBytes_take]
  congr 1
  exact (take_bytes64_le64 l l.length (by omega) (Nat.le_refl _)).trans (List.take_length)

theorem xorS_x5 (t : State) (i : Nat) (a b : Word) : xorS (xorS t i a) i b = xorS t i (a ^^^ b) := by
  unfold xorS; by_cases h : i = 0
  · simp [h, BitVec.xor_assoc]
  · simp [h, BitVec.xor_assoc]

theorem wordS_xorS (t : State) (i : Nat) (a : Word) : wordS (xorS t i a) i = wordS t i ^^^ a := by
  unfold wordS xorS; by_cases h : i = 0 <;> simp [h]

theorem setX_x5 (s : MState) (i : Nat) (w : word_t) : (s.setX i w).x5 = s.x5 := by
  unfold MState.setX; split <;> rfl

/-- The common tail of decryption. -/
theorem run_decTail {mem : Mem} {s : MState} {t : State} (h : Rel 1 s t) {i m p n : Nat} {l : List Byte} (hn : n = l.length)
    (hp : mem.Holds p (padded l)) (h8 : l.length < 8) (hw : mem.Writable m (padded l).length) :
    ∃ s' X, Rel 1 s' (xorS (xorS t i ((1 : Word) <<< (8 * l.length))) i
        (le64 (xorBytes ((bytes64 (wordS t i)).take l.length) l))) ∧
      X.length = (padded l).length ∧
      X.take l.length = xorBytes ((bytes64 (wordS t i)).take l.length) l ∧
      run (do
        let s ← xorPad s i n
        ifc (decide (n ≠ 0))
          (do
            let cx ← MLOAD .little p 1
            let s := s.setX i (MXOR (s.getX i) cx 1)
            MSTORE .little m (s.getX i) 1
            let mask ← MMASK s.x5 n
            let cx := MEXPAND cx 1 1
            let s := s.setX i (MXORAND cx mask (s.getX i) 1)
            pure { s with x5 := MREUSE s.x5 0 1 })
          (pure s)) mem = some (s', mem.writes m X) := by
  subst hn
  obtain ⟨s1, hs1, hr1⟩ := run_xorPad (mem := mem) (i := i) h h8
  by_cases h0 : l = []
  · subst h0
    refine ⟨s1, [], ?_, rfl, by simp [xorBytes], ?_⟩
    · rw [show le64 (xorBytes ((bytes64 (wordS t i)).take ([] : List Byte).length) []) = 0 by simp [xorBytes, le64],
        xorS_zero]
      exact hs1
    · refine (run_bind_of hr1).trans ?_
      rw [run_ifc_neg (by simp), writes_nil]; rfl
  · have hpos : 0 < l.length := List.length_pos_iff.2 h0
    have hs2 := rel_xorX hs1 i (PV1_ldw l)
    have e : PV 1 ((s1.setX i (MXOR (s1.getX i) (ldw l) 1)).getX i) =
        enc (wordS t i ^^^ (1 : Word) <<< (8 * l.length) ^^^ le64 l) := by
      have := rel_getX hs2 i
      rw [show (if i = 0 then (xorS (xorS t i ((1 : Word) <<< (8 * l.length))) i (le64 l)).x0 else
        (xorS (xorS t i ((1 : Word) <<< (8 * l.length))) i (le64 l)).x1) =
        wordS (xorS (xorS t i ((1 : Word) <<< (8 * l.length))) i (le64 l)) i from rfl, wordS_xorS, wordS_xorS] at this
      exact this
    rw [length_padded] at hw
    obtain ⟨w', hw', hrw⟩ := run_MMASK (mem := mem.writes m (bytes64 (wordS t i ^^^ (1 : Word) <<< (8 * l.length) ^^^ le64 l)))
      (w := (s1.setX i (MXOR (s1.getX i) (ldw l) 1)).x5) (PV_zero_iff.1 hs2.2) h8
    have hfin : Rel 1 ((s1.setX i (MXOR (s1.getX i) (ldw l) 1)).setX i
        (MXORAND (ldw l) w' ((s1.setX i (MXOR (s1.getX i) (ldw l) 1)).getX i) 1))
        (xorS (xorS t i ((1 : Word) <<< (8 * l.length))) i
        (le64 (xorBytes ((bytes64 (wordS t i)).take l.length) l))) := by
      apply rel_setX hs2
      · rw [PV_MXORAND1, hw', e, PV1_ldw, ← enc_and, ← enc_xor, decWord _ l h8]
        rw [show (if i = 0 then (xorS (xorS t i ((1 : Word) <<< (8 * l.length))) i
          (le64 (xorBytes ((bytes64 (wordS t i)).take l.length) l))).x0 else
          (xorS (xorS t i ((1 : Word) <<< (8 * l.length))) i
            (le64 (xorBytes ((bytes64 (wordS t i)).take l.length) l))).x1) =
          wordS (xorS (xorS t i ((1 : Word) <<< (8 * l.length))) i
            (le64 (xorBytes ((bytes64 (wordS t i)).take l.length) l))) i from rfl, wordS_xorS, wordS_xorS]
      · unfold xorS; by_cases hi : i = 0 <;> simp [hi]
    refine ⟨{ ((s1.setX i (MXOR (s1.getX i) (ldw l) 1)).setX i
        (MXORAND (ldw l) w' ((s1.setX i (MXOR (s1.getX i) (ldw l) 1)).getX i) 1)) with
        x5 := MREUSE ((s1.setX i (MXOR (s1.getX i) (ldw l) 1)).setX i
          (MXORAND (ldw l) w' ((s1.setX i (MXOR (s1.getX i) (ldw l) 1)).getX i) 1)).x5 0 1 }, _, ?_, ?_, take_bytes64_dec _ l h8, ?_⟩
    · obtain ⟨hh, hz⟩ := rel_iff.1 hfin
      exact rel_iff.2 ⟨hh, ⟨V_MREUSE0 (Or.inl rfl) _ 0, V_MREUSE0 (Or.inl rfl) _ 1⟩⟩
    · rw [length_bytes64, length_padded]; omega
    · refine (run_bind_of hr1).trans ?_
      rw [run_ifc_pos (by simpa using h0)]
      refine (run_bind_of (run_MLOAD1 hp h0)).trans ?_
      refine (run_bind_of (run_MSTORE1 _ (hw.mono (by omega) (by omega)))).trans ?_
      rw [e, dec_enc]
      exact (run_bind_of hrw).trans rfl


theorem xorIn_dec_ge (t : State) (l : List Byte) (h8 : 8 ≤ l.length) (h : l.length < 16) :
    xorBytes (rate l.length t) l =
      bytes64 (t.x0 ^^^ le64 l) ++ xorBytes ((bytes64 t.x1).take (l.drop 8).length) (l.drop 8) := by
  rw [rate_le16 _ _ h8 (by omega), List.length_drop, bytes64_xor, ← le64_take8 l, bytes64_le64 _ (by simp; omega)]
  rw [show xorBytes (bytes64 t.x0 ++ List.take (l.length - 8) (bytes64 t.x1)) l =
    xorBytes (bytes64 t.x0 ++ List.take (l.length - 8) (bytes64 t.x1)) (l.take 8 ++ l.drop 8) by rw [List.take_append_drop]]
  simp only [xorBytes]
  rw [List.zipWith_append (by simp [length_bytes64]; omega)]

theorem run_decFinal {mem : Mem} {s : MState} {t : State} (h : Rel 1 s t) {m p : Nat} {l : List Byte}
    (hp : mem.Holds p (padded l)) (h16 : l.length < 16) (hw : mem.Writable m (padded l).length)
    (hd : Disjoint m (padded l).length p (padded l).length) :
    ∃ s' X, Rel 1 s' (xorIn t (pad 16 (xorBytes (rate l.length t) l))) ∧ X.length = (padded l).length ∧
      X.take l.length = xorBytes (rate l.length t) l ∧
      run (decFinal .little (s, m, p, l.length)) mem = some (s', mem.writes m X) := by
  unfold decFinal
  have hlp := length_padded l
  have hlx : (xorBytes (rate l.length t) l).length = l.length := by
    rw [length_xorBytes, length_rate _ _ (by omega)]; omega
  by_cases h8 : 8 ≤ l.length
  · have e0 : PV 1 (MXOR s.x0 (ldw l) 1) = enc (t.x0 ^^^ le64 l) := (rel_iff.1 (rel_xor0 h (PV1_ldw l))).1.1
    have h1 := rel_set0 h (PV1_ldw l)
    have hp8 : mem.Holds (p + 8) (padded (l.drop 8)) := padded_holds_drop 1 hp h8
    have hld := length_padded (l.drop 8)
    rw [List.length_drop] at hld
    obtain ⟨s', X, hs', hX, hX', hr⟩ := run_decTail (mem := mem.writes m (bytes64 (t.x0 ^^^ le64 l))) (m := m + 8) h1
      (i := 1) (n := l.length - 8) (by simp)
      (hp8.writes_disjoint (by rw [length_bytes64]; unfold Disjoint at *; omega)) (by simp; omega)
      (hw.writes.mono (by omega) (by omega))
    refine ⟨s', bytes64 (t.x0 ^^^ le64 l) ++ X, ?_, ?_, ?_, ?_⟩
    · rw [xorIn_pad_xorS_ge t _ (by omega) (by omega), xorIn_dec_ge t l h8 h16, drop8_bytes64_append,
        ← le64_take8 (_ ++ _), take8_bytes64_append, le64_bytes64, ← BitVec.xor_assoc, BitVec.xor_self, BitVec.zero_xor]
      have hl2 : (xorBytes ((bytes64 t.x1).take (l.drop 8).length) (l.drop 8)).length = (l.drop 8).length := by
        rw [length_xorBytes, List.length_take, length_bytes64, List.length_drop]; omega
      rw [hl2]
      exact hs'
    · rw [List.length_append, length_bytes64]; omega
    · rw [xorIn_dec_ge t l h8 h16, List.take_append, List.take_of_length_le (by rw [length_bytes64]; omega),
        length_bytes64]
      rw [List.length_drop] at hX'
      rw [hX', List.length_drop]
      rfl
    · rw [writes_append, length_bytes64]
      refine (run_bind_of (a := ({ s with x0 := ldw l }, 1, m + 8, p + 8, l.length - 8))
        (mem' := mem.writes m (bytes64 (t.x0 ^^^ le64 l))) ?_).trans ?_
      rotate_left
      · exact hr
      rw [run_ifc_pos (by simpa using h8)]
      refine (run_bind_of (run_MLOAD1 hp (ne_nil_of_le h8 (by omega)))).trans ?_
      refine (run_bind_of (run_MSTORE1 _ (hw.mono (by omega) (by omega)))).trans ?_
      rw [e0, dec_enc]
      rfl
  · obtain ⟨s', X, hs', hX, hX', hr⟩ := run_decTail h (m := m) (i := 0) rfl hp (by omega) hw
    rw [wordS_0 t _ (by omega)] at hs' hX'
    refine ⟨s', X, ?_, hX, hX', ?_⟩
    · rw [xorIn_pad_xorS_lt t _ (by omega), hlx]; exact hs'
    · refine (run_bind_of (a := (s, 0, m, p, l.length)) (mem' := mem) ?_).trans hr
      rw [run_ifc_neg (by simpa using h8)]; rfl

theorem length_decBlocks (s : State) (bs : List (List Byte)) (h : ∀ b ∈ bs, b.length = 16) :
    (decBlocks s bs).2.length = 16 * bs.length := by
  induction bs generalizing s with
  | nil => rfl
  | cons b bs ih =>
    simp only [decBlocks, List.length_append, List.length_cons]
    rw [ih _ (fun c hc => h c (List.mem_cons_of_mem _ hc)), length_xorBytes, length_rate 16 _ (by omega),
      h b List.mem_cons_self]
    omega

theorem run_ascon_decrypt {mem : Mem} {s : MState} {t : State} (h : Rel 1 s t) {m p : Nat} {C : List Byte}
    (hp : mem.Holds p (padded C)) (hw : mem.Writable m (padded C).length)
    (hd : Disjoint m (padded C).length p (padded C).length) :
    ∃ s' X, Rel 1 s' (decBody t C).1 ∧ X.length = (padded C).length ∧ X.take C.length = (decBody t C).2 ∧
      run (ascon_decrypt .little s m p C.length) mem = some (s', mem.writes m X) := by
  obtain ⟨s1, hs1, hr1⟩ := run_decLoop (C.length + 1) h hp hw hd (by omega)
  have hlen := length_decBlocks t (fullBlocks 16 C) (fun b hb => mem_fullBlocks_length hb)
  rw [Ref.length_fullBlocks] at hlen
  have hll := length_lastBlock 16 C
  have hlp := length_padded C
  have hll' := length_padded (lastBlock 16 C)
  obtain ⟨s2, X, hs2, hX, hX', hr2⟩ := run_decFinal (mem := mem.writes m (decBlocks t (fullBlocks 16 C)).2)
    (m := m + 16 * (C.length / 16)) (p := p + 16 * (C.length / 16)) hs1
    ((padded_lastBlock hp).writes_disjoint (by unfold Disjoint at *; omega)) (by omega)
    (hw.writes.mono (by omega) (by omega)) (by unfold Disjoint at *; omega)
  refine ⟨s2, (decBlocks t (fullBlocks 16 C)).2 ++ X, hs2, ?_, ?_, ?_⟩
  · rw [List.length_append]; omega
  · unfold decBody
    simp only []
    rw [List.take_append, List.take_of_length_le (by omega), ← hX']
    congr 2; omega
  · unfold ascon_decrypt
    refine (run_bind_of hr1).trans ?_
    rw [writes_append, hlen, ← hll]
    exact hr2

/-! ### Key words -/

/-- The two shares of word `j` of the key are where `generate_shares` puts them. -/
def KeyAt (mem : Mem) (k : Nat) (K : List Byte) : Prop :=
  ∃ w1 w2 : word_t, PV 2 w1 = enc (le64 (K.take 8)) ∧ PV 2 w2 = enc (le64 (K.drop 8)) ∧
    ∀ mem', (∀ a, k ≤ a → a < k + 32 → mem' a = mem a) →
      run (MLOAD .little k 2) mem' = some (w1, mem') ∧ run (MLOAD .little (k + 16) 2) mem' = some (w2, mem')

theorem KeyAt.agree {mem mem' : Mem} {k : Nat} {K : List Byte} (h : KeyAt mem k K)
    (ha : ∀ a, k ≤ a → a < k + 32 → mem' a = mem a) : KeyAt mem' k K := by
  obtain ⟨w1, w2, h1, h2, hr⟩ := h
  exact ⟨w1, w2, h1, h2, fun m hm => hr m fun a x y => (hm a x y).trans (ha a x y)⟩

theorem iv_ok : pk ⟨ASCON_128A_IV.setWidth 32, (ASCON_128A_IV >>> 32).setWidth 32⟩ = enc ivAead := by decide +kernel

theorem rel_addKeyLast {s : MState} {t : State} (h : Rel 2 s t) {w1 w2 : word_t} {K : List Byte}
    (h1 : PV 2 w1 = enc (le64 (K.take 8))) (h2 : PV 2 w2 = enc (le64 (K.drop 8))) :
    Rel 2 { s with x3 := MXOR s.x3 w1 2, x4 := MXOR s.x4 w2 2 } (addKeyLast K t) := by
  obtain ⟨⟨e0, e1, e2, e3, e4⟩, hz⟩ := rel_iff.1 h
  refine rel_iff.2 ⟨⟨e0, e1, e2, ?_, ?_⟩, hz⟩
  · simp only [PV_MXOR2, e3, h1, addKeyLast, enc_xor]
  · simp only [PV_MXOR2, e4, h2, addKeyLast, enc_xor]

theorem rel_addKeyMid {s : MState} {t : State} (h : Rel 2 s t) {w1 w2 : word_t} {K : List Byte}
    (h1 : PV 2 w1 = enc (le64 (K.take 8))) (h2 : PV 2 w2 = enc (le64 (K.drop 8))) :
    Rel 2 { s with x2 := MXOR s.x2 w1 2, x3 := MXOR s.x3 w2 2 } (addKeyMid K t) := by
  obtain ⟨⟨e0, e1, e2, e3, e4⟩, hz⟩ := rel_iff.1 h
  refine rel_iff.2 ⟨⟨e0, e1, ?_, ?_, e4⟩, hz⟩
  · simp only [PV_MXOR2, e2, h1, addKeyMid, enc_xor]
  · simp only [PV_MXOR2, e3, h2, addKeyMid, enc_xor]

theorem PV_seq_add0 (w : word_t) (a b : U32) (hi : pk ⟨a, b⟩ = enc ivAead) (hz : PV 2 w = 0) :
    PV 2 (let x0 := w
      let x0 := { x0 with s0 := { x0.s0 with w0 := x0.s0.w0 ^^^ a } }
      let x0 := { x0 with s0 := { x0.s0 with w1 := x0.s0.w1 ^^^ b } }
      x0) = enc ivAead := by
  rw [← hi, ← zx (pk _), ← hz]
  exact PV_add0 2 w a b

theorem PV_initX0 (r : Word) : PV 2 (initX0 r) = enc ivAead := PV_seq_add0 (MZERO r) _ _ iv_ok (PV_MZERO r)

theorem rel_initState {ρ : Nat → Word} {w1 w2 : word_t} {K N : List Byte} (h1 : PV 2 w1 = enc (le64 (K.take 8)))
    (h2 : PV 2 w2 = enc (le64 (K.drop 8))) : Rel 2 (initState ρ (ldw N) (ldw (N.drop 8)) w1 w2)
      { x0 := ivAead, x1 := le64 (K.take 8), x2 := le64 (K.drop 8), x3 := le64 (N.take 8), x4 := le64 (N.drop 8) } := by
  refine rel_iff.2 ⟨⟨PV_initX0 _, h1, h2, ?_, ?_⟩, PV_zero_iff.2 (PV_MZERO _)⟩
  · simp only [initState, PV_MXOR2, PV_MZERO, PV2_ldw, xz, le64_take8]
  · simp only [initState, PV_MXOR2, PV_MZERO, PV2_ldw, xz]

theorem run_ascon_initaead {ρ : Nat → Word} {mem : Mem} {k n : Nat} {K N : List Byte} (hk : KeyAt mem k K)
    (hn : mem.Holds n N) (hN : N.length = 16) :
    ∃ s, Rel 2 s (aeadInit K N) ∧ run (ascon_initaead .little ρ k n) mem = some (s, mem) := by
  obtain ⟨w1, w2, h1, h2, hr⟩ := hk
  obtain ⟨r1, r2⟩ := hr mem (fun _ _ _ => rfl)
  have hp : padded N = N := padded_mult8 N (by omega)
  rw [← hp] at hn
  have hp8 : mem.Holds (n + 8) (padded (N.drop 8)) := padded_holds_drop 1 hn (by omega)
  obtain ⟨s', hs', hrP⟩ := run_P (ns := 2) (nr := 12) (Or.inr rfl) (by decide) (by decide)
    (rel_initState (ρ := ρ) (N := N) h1 h2) mem
  unfold aeadInit
  generalize perm 12 _ = t at *
  refine ⟨{ s' with x3 := MXOR s'.x3 w1 2, x4 := MXOR s'.x4 w2 2 }, rel_addKeyLast hs' h1 h2, ?_⟩
  unfold ascon_initaead
  rw [run_bind_of (run_MLOAD1 hn (ne_nil_of_le (k := 16) (by omega) (by omega))),
    run_bind_of (run_MLOAD1 hp8 (ne_nil_of_le (k := 8) (by simp; omega) (by omega))),
    run_bind_of r1, run_bind_of r2, run_bind_of hrP]
  rfl

theorem rel_level_adata {s : MState} {t : State} (h : Rel 2 s t) : Rel 1 (ascon_level_adata s) t := by
  obtain ⟨⟨e0, e1, e2, e3, e4⟩, hz⟩ := rel_iff.1 h
  refine rel_iff.2 ⟨⟨?_, ?_, ?_, ?_, ?_⟩, PV_zero_iff.2 ?_⟩
  · rw [← e0]; exact PV_MREDUCE21 _
  · rw [← e1]; exact PV_MREDUCE21 _
  · rw [← e2]; exact PV_MREDUCE21 _
  · rw [← e3]; exact PV_MREDUCE21 _
  · rw [← e4]; exact PV_MREDUCE21 _
  · exact (PV_MREDUCE21 _).trans (PV_zero_iff.1 hz)

theorem PV_level (w : word_t) (r : Word) : PV 2 (MREFRESH (MEXPAND w 1 2) r) = PV 1 w := by
  rw [PV_MREFRESH, PV_MEXPAND12]

theorem rel_level_final {s : MState} {t : State} (ρ : Nat → Word) (h : Rel 1 s t) : Rel 2 (ascon_level_final ρ s) t := by
  obtain ⟨⟨e0, e1, e2, e3, e4⟩, hz⟩ := rel_iff.1 h
  refine rel_iff.2 ⟨⟨?_, ?_, ?_, ?_, ?_⟩, PV_zero_iff.2 ?_⟩
  · rw [← e0]; exact PV_level _ _
  · rw [← e1]; exact PV_level _ _
  · rw [← e2]; exact PV_level _ _
  · rw [← e3]; exact PV_level _ _
  · rw [← e4]; exact PV_level _ _
  · exact (PV_level _ _).trans (PV_zero_iff.1 hz)

/-- The state after finalisation. -/
def finState (K : List Byte) (t : State) : State := addKeyLast K (perm 12 (addKeyMid K t))

theorem run_ascon_final {mem : Mem} {s : MState} {t : State} (h : Rel 2 s t) {k : Nat} {K : List Byte}
    (hk : KeyAt mem k K) :
    ∃ s', Rel 2 s' (finState K t) ∧ run (ascon_final .little s k) mem = some (s', mem) := by
  obtain ⟨w1, w2, h1, h2, hr⟩ := hk
  obtain ⟨r1, r2⟩ := hr mem (fun _ _ _ => rfl)
  obtain ⟨s', hs', hrP⟩ := run_P (ns := 2) (nr := 12) (Or.inr rfl) (by decide) (by decide) (rel_addKeyMid h h1 h2) mem
  refine ⟨{ s' with x3 := MXOR s'.x3 w1 2, x4 := MXOR s'.x4 w2 2 }, rel_addKeyLast hs' h1 h2, ?_⟩
  unfold ascon_final
  refine (run_bind_of r1).trans ?_
  refine (run_bind_of r2).trans ?_
  exact (run_bind_of hrP).trans rfl

theorem run_ascon_settag {mem : Mem} {s : MState} {t : State} {K : List Byte} (h : Rel 2 s (finState K t)) {p : Nat}
    (hw : mem.Writable p 16) :
    run (ascon_settag .little s p) mem = some ((), mem.writes p (aeadTag K t)) := by
  obtain ⟨⟨e0, e1, e2, e3, e4⟩, hz⟩ := rel_iff.1 h
  unfold ascon_settag
  refine (run_bind_of (run_MSTORE1 _ (hw.mono (by omega) (by omega)))).trans ?_
  refine (run_MSTORE1 _ (hw.writes.mono (by omega) (by omega))).trans ?_
  have e3' : PV 1 (MREDUCE s.x3 2 1) = enc (finState K t).x3 := by rw [PV_MREDUCE21, e3]
  have e4' : PV 1 (MREDUCE s.x4 2 1) = enc (finState K t).x4 := by rw [PV_MREDUCE21, e4]
  rw [e3', e4', dec_enc, dec_enc]
  unfold aeadTag
  rw [writes_append, length_bytes64]
  rfl

/-- The state that the tag comparison permutes: all zero but for the difference of the tags. -/
def tagDiff (t : State) (T : List Byte) : State :=
  ⟨0, 0, 0, t.x3 ^^^ le64 (T.take 8), t.x4 ^^^ le64 (T.drop 8)⟩

theorem enc_zero : enc 0 = 0 := by decide +kernel

theorem run_ascon_xortag {mem : Mem} {s : MState} {t : State} (h : Rel 2 s t) {p : Nat} {T : List Byte}
    (hp : mem.Holds p T) (hT : T.length = 16) :
    ∃ s', (PV 2 s'.x3 = enc (perm 8 (tagDiff t T)).x3 ^^^ pk ⟨0xc7c72006, 0xc3bfab9c⟩ ∧
      PV 2 s'.x4 = enc (perm 8 (tagDiff t T)).x4 ^^^ pk ⟨0x18213f82, 0x0653ed71⟩) ∧
      run (ascon_xortag .little s p) mem = some (s', mem) := by
  obtain ⟨⟨e0, e1, e2, e3, e4⟩, hz⟩ := rel_iff.1 h
  have hpd : padded T = T := padded_mult8 T (by omega)
  rw [← hpd] at hp
  have hp8 : mem.Holds (p + 8) (padded (T.drop 8)) := padded_holds_drop 1 hp (by omega)
  have hrel : Rel 2 ⟨MREUSE s.x0 0 2, MREUSE s.x1 0 2, MREUSE s.x2 0 2, MXOR s.x3 (ldw T) 1, MXOR s.x4 (ldw (T.drop 8)) 1,
      s.x5⟩ (tagDiff t T) := by
    refine rel_iff.2 ⟨⟨?_, ?_, ?_, ?_, ?_⟩, hz⟩
    · exact (PV_MREUSE0 (Or.inr rfl) _).trans enc_zero.symm
    · exact (PV_MREUSE0 (Or.inr rfl) _).trans enc_zero.symm
    · exact (PV_MREUSE0 (Or.inr rfl) _).trans enc_zero.symm
    · simp only [PV_MXOR21, e3, PV1_ldw, tagDiff, enc_xor, le64_take8]
    · simp only [PV_MXOR21, e4, PV1_ldw, tagDiff, enc_xor]
  obtain ⟨s', hs', hrP⟩ := run_P (ns := 2) (nr := 8) (Or.inr rfl) (by decide) (by decide) hrel mem
  obtain ⟨⟨-, -, -, f3, f4⟩, -⟩ := rel_iff.1 hs'
  refine ⟨{ s' with
      x3 := { s'.x3 with s0 := ⟨s'.x3.s0.w0 ^^^ 0xc7c72006, s'.x3.s0.w1 ^^^ 0xc3bfab9c⟩ }
      x4 := { s'.x4 with s0 := ⟨s'.x4.s0.w0 ^^^ 0x18213f82, s'.x4.s0.w1 ^^^ 0x0653ed71⟩ } }, ⟨?_, ?_⟩, ?_⟩
  · rw [← f3]; exact PV_add0 _ _ _ _
  · rw [← f4]; exact PV_add0 _ _ _ _
  · unfold ascon_xortag
    refine (run_bind_of (run_MLOAD1 hp (ne_nil_of_le (k := 16) (by omega) (by omega)))).trans ?_
    refine (run_bind_of (run_MLOAD1 hp8 (ne_nil_of_le (k := 8) (by simp; omega) (by omega)))).trans ?_
    exact (run_bind_of hrP).trans rfl

end Ascon.Masked
