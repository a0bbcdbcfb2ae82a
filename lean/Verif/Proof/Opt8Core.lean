import Verif.Model.Opt8
import Verif.Proof.Loops
import Verif.Proof.RefCore
import Verif.Proof.RefHash
/-!
# The byte loops of src/opt8/word.h on a little-endian machine
-/

namespace Ascon.Opt8

open Ascon.C Ascon.Spec
open Ascon.C.Prog (require ifc loop forUp loadB storeB loadN storeN store64 load64)

attribute [local irreducible] perm

/-! ### Single bytes -/

/-- The byte `b` at position `j` of a word. -/
def at8 (b : Byte) (j : Nat) : Word := b.setWidth 64 <<< (8 * j)

theorem byteOf_little (w : Word) (j : Nat) (h : j < 8) : byteOf .little w j = (w >>> (8 * j)).setWidth 8 := by
  have hl : j < (bytes64 w).length := by rw [length_bytes64]; exact h
  simp [byteOf, repr64, List.getD_eq_getElem?_getD, hl]

theorem getLsbD_byteOf (w : Word) (j i : Nat) (h : j < 8) :
    (byteOf .little w j).getLsbD i = (decide (i < 8) && w.getLsbD (8 * j + i)) := by
  rw [byteOf_little w j h]
  simp

theorem putByte_little (w : Word) (j : Nat) (b : Byte) (h : j < 8) :
    putByte .little w j b = w ^^^ at8 (byteOf .little w j ^^^ b) j := by
  have hl : j < (bytes64 w).length := by rw [length_bytes64]; exact h
  apply BitVec.eq_of_getLsbD_eq
  intro i hi
  unfold putByte at8 value64 repr64
  rw [getLsbD_le64]
  simp only [BitVec.getLsbD_xor, BitVec.getLsbD_shiftLeft, BitVec.getLsbD_setWidth, getLsbD_byteOf w j _ h,
    List.getD_eq_getElem?_getD, List.getElem?_set]
  have hi8 : i / 8 < (bytes64 w).length := by rw [length_bytes64]; omega
  by_cases hj : j = i / 8
  · subst hj
    have e1 : ¬ i < 8 * (i / 8) := by omega
    have e2 : i - 8 * (i / 8) = i % 8 := by omega
    have e3 : i % 8 < 8 := by omega
    have e4 : 8 * (i / 8) + i % 8 = i := by omega
    have e5 : i % 8 < 64 := by omega
    simp [hi, e1, e2, e3, e4, e5, hi8]
  · have hx : (decide (i < 64) && !decide (i < 8 * j) && (decide (i - 8 * j < 64) &&
        (decide (i - 8 * j < 8) && w.getLsbD (8 * j + (i - 8 * j)) ^^ b.getLsbD (i - 8 * j)))) = false := by
      by_cases h1 : i < 8 * j
      · simp [h1]
      · have h2 : ¬ (i - 8 * j < 8) := by omega
        rw [BitVec.getLsbD_of_ge b (i - 8 * j) (by omega)]
        simp [h2]
    rw [hx]
    have e4 : 8 * (i / 8) + i % 8 = i := by omega
    have e3 : i % 8 < 8 := by omega
    simp [hj, hi8, hi, e3, e4]

theorem wordOf_eq (s : State) (i : Nat) : wordOf s i = wordAt s i := by
  match i with
  | 0 | 1 | 2 | 3 | _ + 4 => rfl

theorem putWord_xor (s : State) (i : Nat) (w : Word) : putWord s i (wordOf s i ^^^ w) = xorAt s i w := by
  match i with
  | 0 | 1 | 2 | 3 | _ + 4 => rfl

theorem wordAt_xorAt (s : State) (i : Nat) (w : Word) : wordAt (xorAt s i w) i = wordAt s i ^^^ w := by
  match i with
  | 0 | 1 | 2 | 3 | _ + 4 => rfl

theorem xorAt_zero (s : State) (i : Nat) : xorAt s i 0#64 = s := by
  match i with
  | 0 | 1 | 2 | 3 | _ + 4 => simp [xorAt]

theorem run_getB {s : State} {i j : Nat} (hi : i < 5) (hj : j < 8) (mem : Mem) :
    run (getB .little s (8 * i + j)) mem = some (byteOf .little (wordAt s i) j, mem) := by
  have e1 : (8 * i + j) / 8 = i := by omega
  have e2 : (8 * i + j) % 8 = j := by omega
  unfold getB
  rw [require_bind_of (by simp; omega), e1, e2, wordOf_eq]
  rfl

theorem run_setB {s : State} {i j : Nat} (hi : i < 5) (hj : j < 8) (b : Byte) (mem : Mem) :
    run (setB .little s (8 * i + j) b) mem =
      some (xorAt s i (at8 (byteOf .little (wordAt s i) j ^^^ b) j), mem) := by
  have e1 : (8 * i + j) / 8 = i := by omega
  have e2 : (8 * i + j) % 8 = j := by omega
  unfold setB
  rw [require_bind_of (by simp; omega), e1, e2, putByte_little _ _ _ hj, putWord_xor, wordOf_eq]
  rfl

theorem run_xorB {s : State} {i j : Nat} (hi : i < 5) (hj : j < 8) (b : Byte) (mem : Mem) :
    run (xorB .little s (8 * i + j) b) mem = some (xorAt s i (at8 b j), mem) := by
  unfold xorB
  rw [run_bind_of (run_getB hi hj mem), run_setB hi hj, ← BitVec.xor_assoc, BitVec.xor_self, BitVec.zero_xor]

/-- `s->b[i][n] ^= PAD()` -/
theorem run_pad {s : State} {i j : Nat} (hi : i < 5) (hj : j < 8) (mem : Mem) :
    run (xorB .little s (8 * i + j) PAD) mem = some (xorAt s i ((1 : Word) <<< (8 * j)), mem) :=
  run_xorB hi hj _ _

theorem run_dsep {s : State} (mem : Mem) :
    run (xorB .little s 39 DSEP) mem = some ({ s with x4 := s.x4 ^^^ 0x8000000000000000 }, mem) :=
  run_xorB (i := 4) (j := 7) (by omega) (by omega) _ _

/-! ### Lists of bytes inside one word -/

/-- The word whose bytes from position `j` on are `bs`. -/
def atWord (bs : List Byte) (j : Nat) : Word := le64 bs <<< (8 * j)

theorem atWord_nil (j : Nat) : atWord [] j = 0#64 := by simp [atWord, le64]

theorem atWord_zero (bs : List Byte) : atWord bs 0 = le64 bs := by simp [atWord]

theorem atWord_cons (b : Byte) (bs : List Byte) (j : Nat) :
    atWord (b :: bs) j = at8 b j ^^^ atWord bs (j + 1) := by
  apply BitVec.eq_of_getLsbD_eq
  intro i hi
  simp only [atWord, at8, le64, BitVec.getLsbD_shiftLeft, BitVec.getLsbD_xor, BitVec.getLsbD_or,
    BitVec.getLsbD_setWidth]
  by_cases h1 : i < 8 * j
  · have h2 : i < 8 * (j + 1) := by omega
    simp [h1, h2]
  · by_cases h2 : i < 8 * (j + 1)
    · have h3 : i - 8 * j < 8 := by omega
      simp [h1, h2, h3]
    · have h3 : ¬ i - 8 * j < 8 := by omega
      have h4 : i - 8 * j - 8 = i - 8 * (j + 1) := by omega
      rw [BitVec.getLsbD_of_ge b (i - 8 * j) (by omega)]
      have h5 : i - 8 * j < 64 := by omega
      simp [h1, h2, h3, h4, hi, h5]

/-- Bytes `j, j+1, …` of a word. -/
def bytesFrom (w : Word) (j : Nat) : List Byte := (bytes64 w).drop j

theorem bytesFrom_cons (w : Word) (j : Nat) (h : j < 8) :
    bytesFrom w j = byteOf .little w j :: bytesFrom w (j + 1) := by
  have hl : j < (bytes64 w).length := by rw [length_bytes64]; exact h
  unfold bytesFrom
  rw [List.drop_eq_getElem_cons hl, byteOf_little w j h]
  simp

theorem length_bytesFrom (w : Word) (j : Nat) : (bytesFrom w j).length = 8 - j := by
  simp [bytesFrom, length_bytes64]

/-- Changing earlier bytes does not change the later ones. -/
theorem bytesFrom_at8 (w : Word) (b : Byte) (j : Nat) :
    bytesFrom (w ^^^ at8 b j) (j + 1) = bytesFrom w (j + 1) := by
  apply List.ext_getElem (by simp [length_bytesFrom])
  intro k h1 h2
  rw [length_bytesFrom] at h1
  apply BitVec.eq_of_getLsbD_eq
  intro i hi
  simp only [bytesFrom, List.getElem_drop, getElem_bytes64, BitVec.getLsbD_setWidth, BitVec.getLsbD_ushiftRight,
    BitVec.getLsbD_xor, at8, BitVec.getLsbD_shiftLeft]
  rw [BitVec.getLsbD_of_ge b _ (by omega)]
  simp

/-- Changing later bytes does not change this one. -/
theorem byteOf_atWord (w : Word) (bs : List Byte) (j : Nat) (h : j < 8) :
    byteOf .little (w ^^^ atWord bs (j + 1)) j = byteOf .little w j := by
  apply BitVec.eq_of_getLsbD_eq
  intro i hi
  rw [getLsbD_byteOf _ _ _ h, getLsbD_byteOf _ _ _ h]
  simp only [BitVec.getLsbD_xor, atWord, BitVec.getLsbD_shiftLeft]
  have : 8 * j + i < 8 * (j + 1) := by omega
  simp [this]

/-! ### The loops -/

theorem run_absorbBytes {mem : Mem} {i : Nat} (hi : i < 5) (bs : List Byte) :
    ∀ (f : Nat) (s : State) (j d : Nat), mem.Holds d bs → j + bs.length ≤ 8 → bs.length < f →
    run (loop f (fun (_, _, _, n) => decide (n > 0)) (absorbByte .little) (s, 8 * i + j, d, bs.length)) mem =
      some ((xorAt s i (atWord bs j), 8 * i + j + bs.length, d + bs.length, 0), mem) := by
  induction bs with
  | nil =>
    intro f s j d _ _ hf
    obtain ⟨f, rfl⟩ : ∃ g, f = g + 1 := ⟨f - 1, by simp at hf; omega⟩
    rw [run_loop_done (by simp), atWord_nil, xorAt_zero]
    rfl
  | cons b bs ih =>
    intro f s j d hd hj hf
    simp only [List.length_cons] at hj hf
    obtain ⟨f, rfl⟩ : ∃ g, f = g + 1 := ⟨f - 1, by omega⟩
    rw [holds_cons] at hd
    have hs : run (absorbByte .little (s, 8 * i + j, d, (b :: bs).length)) mem =
        some ((xorAt s i (at8 b j), 8 * i + (j + 1), d + 1, bs.length), mem) := by
      unfold absorbByte
      simp only
      rw [run_bind_of (Ref.run_loadB hd.1), run_bind_of (run_xorB hi (by omega) b mem)]
      simp [Nat.add_assoc]
    rw [run_loop_step (by simp) hs, ih f _ (j + 1) (d + 1) hd.2 (by omega) (by omega), Ref.xorAt_xorAt,
      ← atWord_cons]
    simp only [List.length_cons]
    simp only [Nat.add_assoc, Nat.add_comm 1]

theorem run_ABSORB {mem : Mem} {s : State} {i d : Nat} {bs : List Byte} (hi : i < 5) (hd : mem.Holds d bs)
    (h8 : bs.length ≤ 8) :
    run (ABSORB .little s (8 * i) d bs.length) mem = some (xorAt s i (le64 bs), mem) := by
  unfold ABSORB
  have := run_absorbBytes hi bs (bs.length + 1) s 0 d hd (by omega) (by omega)
  simp only [Nat.add_zero, atWord_zero] at this
  rw [run_bind_of this]
  rfl

theorem run_memxorBytes {mem : Mem} {key : State} {i a : Nat} (hi : i < 5) (ha : a < 5) (r : Nat) :
    ∀ (m f : Nat) (s : State) (j : Nat), j + m = 8 →
    run (loop (f + m) (fun (_, _, _, n) => decide (n > 0)) (memxorByte .little key)
      (s, 8 * i + j, 8 * a + j, m + r)) mem =
    run (loop f (fun (_, _, _, n) => decide (n > 0)) (memxorByte .little key)
      (xorAt s i (atWord (bytesFrom (wordAt key a) j) j), 8 * (i + 1), 8 * (a + 1), r)) mem := by
  intro m
  induction m with
  | zero =>
    intro f s j hj
    have : j = 8 := by omega
    subst this
    rw [show bytesFrom (wordAt key a) 8 = [] from List.drop_of_length_le (by simp [length_bytes64]), atWord_nil,
      xorAt_zero]
    simp [Nat.mul_add]
  | succ m ih =>
    intro f s j hj
    have hs : run (memxorByte .little key (s, 8 * i + j, 8 * a + j, m + 1 + r)) mem =
        some ((xorAt s i (at8 (byteOf .little (wordAt key a) j) j), 8 * i + (j + 1), 8 * a + (j + 1), m + r), mem) := by
      unfold memxorByte
      simp only
      rw [run_bind_of (run_getB ha (by omega) mem), run_bind_of (run_xorB hi (by omega) _ mem)]
      have : m + 1 + r - 1 = m + r := by omega
      rw [this]
      simp only [run_pure', Nat.add_assoc]
    rw [show f + (m + 1) = (f + m) + 1 by omega, run_loop_step (by simp; omega) hs, ih f _ (j + 1) (by omega),
      Ref.xorAt_xorAt, ← atWord_cons, ← bytesFrom_cons _ _ (by omega)]

/-- `memxor(s->b[i], key->b[0], 16)` -/
theorem run_memxor {mem : Mem} {s key : State} {i : Nat} (hi : i < 4) :
    run (memxor .little s key (8 * i) 0 16) mem =
      some (xorAt (xorAt s i key.x0) (i + 1) key.x1, mem) := by
  unfold memxor
  have h1 := run_memxorBytes (mem := mem) (key := key) (i := i) (a := 0) (by omega) (by omega) 8 8 9 s 0 (by omega)
  have h2 := run_memxorBytes (mem := mem) (key := key) (i := i + 1) (a := 1) (by omega) (by omega) 0 8 1
    (xorAt s i (atWord (bytesFrom (wordAt key 0) 0) 0)) 0 (by omega)
  have h3 : ∀ (t : State) (p q : Nat), run (loop 1 (fun (_, _, _, n) => decide (n > 0)) (memxorByte .little key)
      (t, p, q, 0)) mem = some ((t, p, q, 0), mem) := fun t p q => by
    rw [run_loop_done (by simp)]
  have e : ∀ w : Word, le64 (bytesFrom w 0) = w := fun w => le64_bytes64 w
  simp only [Nat.add_zero, Nat.mul_zero, Nat.zero_add, atWord_zero, e] at h1 h2
  rw [run_bind, h1, h2, h3]
  rfl

theorem run_insertBytes {mem : Mem} {i : Nat} (hi : i < 5) (bs : List Byte) :
    ∀ (f : Nat) (s : State) (j d : Nat), mem.Holds d bs → j + bs.length ≤ 8 → bs.length < f →
    run (loop f (fun (_, _, _, n) => decide (n > 0)) (insertByte .little) (s, 8 * i + j, d, bs.length)) mem =
      some ((xorAt s i (atWord (xorBytes (bytesFrom (wordAt s i) j) bs) j), 8 * i + j + bs.length,
        d + bs.length, 0), mem) := by
  induction bs with
  | nil =>
    intro f s j d _ _ hf
    obtain ⟨f, rfl⟩ : ∃ g, f = g + 1 := ⟨f - 1, by simp at hf; omega⟩
    rw [run_loop_done (by simp), show xorBytes (bytesFrom (wordAt s i) j) [] = [] by simp [xorBytes], atWord_nil,
      xorAt_zero]
    rfl
  | cons b bs ih =>
    intro f s j d hd hj hf
    simp only [List.length_cons] at hj hf
    obtain ⟨f, rfl⟩ : ∃ g, f = g + 1 := ⟨f - 1, by omega⟩
    rw [holds_cons] at hd
    have hs : run (insertByte .little (s, 8 * i + j, d, (b :: bs).length)) mem =
        some ((xorAt s i (at8 (byteOf .little (wordAt s i) j ^^^ b) j), 8 * i + (j + 1), d + 1, bs.length), mem) := by
      unfold insertByte
      simp only
      rw [run_bind_of (Ref.run_loadB hd.1), run_bind_of (run_setB hi (by omega) b mem)]
      simp [Nat.add_assoc]
    rw [run_loop_step (by simp) hs, ih f _ (j + 1) (d + 1) hd.2 (by omega) (by omega), Ref.xorAt_xorAt,
      wordAt_xorAt, bytesFrom_at8, bytesFrom_cons (wordAt s i) j (by omega)]
    simp only [List.length_cons, xorBytes, List.zipWith_cons_cons, atWord_cons]
    simp only [Nat.add_assoc, Nat.add_comm 1]

/-- `INSERT(s->b[i], d, 8)` replaces the word. -/
theorem run_INSERT {mem : Mem} {s : State} {i d : Nat} {bs : List Byte} (hi : i < 5) (hd : mem.Holds d bs)
    (h8 : bs.length = 8) :
    run (INSERT .little s (8 * i) d 8) mem = some (putWord s i (le64 bs), mem) := by
  unfold INSERT
  have := run_insertBytes hi bs 9 s 0 d hd (by omega) (by omega)
  simp only [Nat.add_zero, atWord_zero, h8] at this
  rw [run_bind_of this]
  simp only [run_pure']
  rw [show bytesFrom (wordAt s i) 0 = bytes64 (wordAt s i) from rfl,
    le64_xorBytes _ _ (by rw [length_bytes64, h8]), le64_bytes64, ← putWord_xor, wordOf_eq, ← BitVec.xor_assoc,
    BitVec.xor_self, BitVec.zero_xor]

theorem run_squeezeBytes {s : State} {i : Nat} (hi : i < 5) (n : Nat) :
    ∀ (f : Nat) (mem : Mem) (j d : Nat), mem.Writable d n → j + n ≤ 8 → n < f →
    run (loop f (fun (_, _, n) => decide (n > 0)) (squeezeByte .little s) (d, 8 * i + j, n)) mem =
      some ((d + n, 8 * i + j + n, 0), mem.writes d ((bytesFrom (wordAt s i) j).take n)) := by
  induction n with
  | zero =>
    intro f mem j d _ _ hf
    obtain ⟨f, rfl⟩ : ∃ g, f = g + 1 := ⟨f - 1, by omega⟩
    rw [run_loop_done (by simp), List.take_zero, writes_nil]
    rfl
  | succ n ih =>
    intro f mem j d hd hj hf
    obtain ⟨f, rfl⟩ : ∃ g, f = g + 1 := ⟨f - 1, by omega⟩
    have hs : run (squeezeByte .little s (d, 8 * i + j, n + 1)) mem =
        some ((d + 1, 8 * i + (j + 1), n), mem.writes d [byteOf .little (wordAt s i) j]) := by
      unfold squeezeByte
      simp only
      rw [run_bind_of (run_getB hi (by omega) mem), run_bind_of (Ref.run_storeB (a := d) (hd 0 (by omega)))]
      simp [Nat.add_assoc]
    rw [run_loop_step (by simp) hs, ih f _ (j + 1) (d + 1) (hd.writes.mono (by omega) (by omega)) (by omega) (by omega),
      bytesFrom_cons (wordAt s i) j (by omega), List.take_succ_cons, writes_cons mem _ _ (List.take _ _)]
    simp only [Nat.add_assoc, Nat.add_comm 1]

theorem run_SQUEEZE {mem : Mem} {s : State} {i d n : Nat} (hi : i < 5) (hw : mem.Writable d n) (h8 : n ≤ 8) :
    run (SQUEEZE .little d s (8 * i) n) mem = some ((), mem.writes d ((bytes64 (wordAt s i)).take n)) := by
  unfold SQUEEZE
  have := run_squeezeBytes (s := s) hi n (n + 1) mem 0 d hw (by omega) (by omega)
  simp only [Nat.add_zero] at this
  rw [run_bind_of this]
  rfl

theorem run_encryptBytes {i : Nat} (hi : i < 5) (bs : List Byte) :
    ∀ (f : Nat) (mem : Mem) (s : State) (j c m : Nat), mem.Holds m bs → mem.Writable c bs.length →
      (c ≤ m ∨ m + bs.length ≤ c) → j + bs.length ≤ 8 → bs.length < f →
    run (loop f (fun (_, _, _, _, n) => decide (n > 0)) (encryptByte .little) (s, 8 * i + j, c, m, bs.length)) mem =
      some ((xorAt s i (atWord bs j), 8 * i + j + bs.length, c + bs.length, m + bs.length, 0),
        mem.writes c ((bytesFrom (wordAt s i ^^^ atWord bs j) j).take bs.length)) := by
  induction bs with
  | nil =>
    intro f mem s j c m _ _ _ _ hf
    obtain ⟨f, rfl⟩ : ∃ g, f = g + 1 := ⟨f - 1, by simp at hf; omega⟩
    rw [run_loop_done (by simp), atWord_nil, xorAt_zero]
    simp [writes_nil]
  | cons b bs ih =>
    intro f mem s j c m hm hw ho hj hf
    simp only [List.length_cons] at hj hf hw ho
    obtain ⟨f, rfl⟩ : ∃ g, f = g + 1 := ⟨f - 1, by omega⟩
    rw [holds_cons] at hm
    have hs : run (encryptByte .little (s, 8 * i + j, c, m, (b :: bs).length)) mem =
        some ((xorAt s i (at8 b j), 8 * i + (j + 1), c + 1, m + 1, bs.length),
          mem.writes c [byteOf .little (wordAt s i ^^^ at8 b j) j]) := by
      unfold encryptByte
      simp only
      rw [run_bind_of (Ref.run_loadB hm.1), run_bind_of (run_xorB hi (by omega) b mem),
        run_bind_of (run_getB hi (by omega) mem), run_bind_of (Ref.run_storeB (a := c) (hw 0 (by omega))), wordAt_xorAt]
      simp [Nat.add_assoc]
    have hm2 : (mem.writes c [byteOf .little (wordAt s i ^^^ at8 b j) j]).Holds (m + 1) bs := by
      apply hm.2.writes_disjoint
      unfold Disjoint; simp only [List.length_cons, List.length_nil]; omega
    rw [run_loop_step (by simp) hs, ih f _ _ (j + 1) (c + 1) (m + 1) hm2 (hw.writes.mono (by omega) (by omega))
      (by omega) (by omega) (by omega), Ref.xorAt_xorAt, wordAt_xorAt, ← atWord_cons, BitVec.xor_assoc,
      ← atWord_cons, bytesFrom_cons (wordAt s i ^^^ atWord (b :: bs) j) j (by omega), List.length_cons,
      List.take_succ_cons, writes_cons mem _ _ (List.take _ _)]
    have e1 : byteOf .little (wordAt s i ^^^ atWord (b :: bs) j) j = byteOf .little (wordAt s i ^^^ at8 b j) j := by
      rw [atWord_cons, ← BitVec.xor_assoc, byteOf_atWord _ _ _ (by omega)]
    rw [e1]
    simp only [Nat.add_assoc, Nat.add_comm 1]

theorem run_ENCRYPT {mem : Mem} {s : State} {i c m : Nat} {bs : List Byte} (hi : i < 5) (hm : mem.Holds m bs)
    (hw : mem.Writable c bs.length) (ho : c ≤ m ∨ m + bs.length ≤ c) (h8 : bs.length ≤ 8) :
    run (ENCRYPT .little s (8 * i) c m bs.length) mem =
      some (xorAt s i (le64 bs), mem.writes c ((bytes64 (wordAt s i ^^^ le64 bs)).take bs.length)) := by
  unfold ENCRYPT
  have := run_encryptBytes hi bs (bs.length + 1) mem s 0 c m hm hw ho (by omega) (by omega)
  simp only [Nat.add_zero, atWord_zero] at this
  rw [run_bind_of this]
  rfl

theorem run_decryptBytes {i : Nat} (hi : i < 5) (bs : List Byte) :
    ∀ (f : Nat) (mem : Mem) (s : State) (j m c : Nat), mem.Holds c bs → mem.Writable m bs.length →
      (m ≤ c ∨ c + bs.length ≤ m) → j + bs.length ≤ 8 → bs.length < f →
    run (loop f (fun (_, _, _, _, n) => decide (n > 0)) (decryptByte .little) (s, 8 * i + j, m, c, bs.length)) mem =
      some ((xorAt s i (atWord (xorBytes (bytesFrom (wordAt s i) j) bs) j), 8 * i + j + bs.length,
        m + bs.length, c + bs.length, 0),
        mem.writes m (xorBytes (bytesFrom (wordAt s i) j) bs)) := by
  induction bs with
  | nil =>
    intro f mem s j m c _ _ _ _ hf
    obtain ⟨f, rfl⟩ : ∃ g, f = g + 1 := ⟨f - 1, by simp at hf; omega⟩
    rw [run_loop_done (by simp), show xorBytes (bytesFrom (wordAt s i) j) [] = [] by simp [xorBytes], atWord_nil,
      xorAt_zero]
    simp [writes_nil]
  | cons b bs ih =>
    intro f mem s j m c hc hw ho hj hf
    simp only [List.length_cons] at hj hf hw ho
    obtain ⟨f, rfl⟩ : ∃ g, f = g + 1 := ⟨f - 1, by omega⟩
    rw [holds_cons] at hc
    have hs : run (decryptByte .little (s, 8 * i + j, m, c, (b :: bs).length)) mem =
        some ((xorAt s i (at8 (byteOf .little (wordAt s i) j ^^^ b) j), 8 * i + (j + 1), m + 1, c + 1, bs.length),
          mem.writes m [byteOf .little (wordAt s i) j ^^^ b]) := by
      unfold decryptByte
      simp only
      rw [run_bind_of (Ref.run_loadB hc.1), run_bind_of (run_getB hi (by omega) mem),
        run_bind_of (Ref.run_storeB (a := m) (hw 0 (by omega))), run_bind_of (run_setB hi (by omega) b _)]
      simp [Nat.add_assoc]
    have hc2 : (mem.writes m [byteOf .little (wordAt s i) j ^^^ b]).Holds (c + 1) bs := by
      apply hc.2.writes_disjoint
      unfold Disjoint; simp only [List.length_cons, List.length_nil]; omega
    rw [run_loop_step (by simp) hs, ih f _ _ (j + 1) (m + 1) (c + 1) hc2 (hw.writes.mono (by omega) (by omega))
      (by omega) (by omega) (by omega), Ref.xorAt_xorAt, wordAt_xorAt, bytesFrom_at8,
      bytesFrom_cons (wordAt s i) j (by omega)]
    simp only [List.length_cons, xorBytes, List.zipWith_cons_cons, atWord_cons]
    rw [writes_cons mem _ _ (List.zipWith _ _ _)]
    simp only [Nat.add_assoc, Nat.add_comm 1]

theorem run_DECRYPT {mem : Mem} {s : State} {i m c : Nat} {bs : List Byte} (hi : i < 5) (hc : mem.Holds c bs)
    (hw : mem.Writable m bs.length) (ho : m ≤ c ∨ c + bs.length ≤ m) (h8 : bs.length ≤ 8) :
    run (DECRYPT .little s (8 * i) m c bs.length) mem =
      some (xorAt s i (le64 (xorBytes ((bytes64 (wordAt s i)).take bs.length) bs)),
        mem.writes m (xorBytes ((bytes64 (wordAt s i)).take bs.length) bs)) := by
  unfold DECRYPT
  have := run_decryptBytes hi bs (bs.length + 1) mem s 0 m c hc hw ho (by omega) (by omega)
  have e1 : xorBytes (bytesFrom (wordAt s i) 0) bs = xorBytes ((bytes64 (wordAt s i)).take bs.length) bs := by
    simp only [bytesFrom, List.drop_zero, xorBytes]
    conv => lhs; rw [← List.take_append_drop bs.length (bytes64 (wordAt s i)),
      ← List.append_nil bs]
    rw [List.zipWith_append (by simp [length_bytes64]; omega)]
    simp
  simp only [Nat.add_zero, atWord_zero, e1] at this
  rw [run_bind_of this]
  rfl

/-- The accumulated difference of two byte strings. -/
def orBytes (r : Byte) (as bs : List Byte) : Byte := (List.zipWith (· ^^^ ·) as bs).foldl (· ||| ·) r

theorem orBytes_eq_zero (as bs : List Byte) (h : as.length = bs.length) (r : Byte) :
    orBytes r as bs = 0 ↔ r = 0 ∧ as = bs := by
  induction as generalizing bs r with
  | nil =>
    have : bs = [] := by simpa using h.symm
    subst this
    simp [orBytes]
  | cons a as ih =>
    obtain ⟨b, bs, rfl⟩ : ∃ b cs, bs = b :: cs := by
      cases bs with
      | nil => simp at h
      | cons b cs => exact ⟨b, cs, rfl⟩
    have := ih bs (by simpa using h) (r ||| (a ^^^ b))
    simp only [orBytes, List.zipWith_cons_cons, List.foldl_cons] at this ⊢
    rw [this, List.cons.injEq]
    have h0 : r ||| (a ^^^ b) = 0 ↔ r = 0 ∧ a = b := by
      rw [← BitVec.xor_eq_zero_iff (x := a)]
      exact BitVec.or_eq_zero_iff
    rw [h0, and_assoc]

theorem run_verifyBytes {mem : Mem} {s : State} {i : Nat} (hi : i < 5) (bs : List Byte) :
    ∀ (f : Nat) (r : Byte) (j d : Nat), mem.Holds d bs → j + bs.length ≤ 8 → bs.length < f →
    run (loop f (fun (_, _, _, n) => decide (n > 0)) (verifyByte .little s) (r, 8 * i + j, d, bs.length)) mem =
      some ((orBytes r (bytesFrom (wordAt s i) j) bs, 8 * i + j + bs.length, d + bs.length, 0), mem) := by
  induction bs with
  | nil =>
    intro f r j d _ _ hf
    obtain ⟨f, rfl⟩ : ∃ g, f = g + 1 := ⟨f - 1, by simp at hf; omega⟩
    rw [run_loop_done (by simp)]
    simp [orBytes]
  | cons b bs ih =>
    intro f r j d hd hj hf
    simp only [List.length_cons] at hj hf
    obtain ⟨f, rfl⟩ : ∃ g, f = g + 1 := ⟨f - 1, by omega⟩
    rw [holds_cons] at hd
    have hs : run (verifyByte .little s (r, 8 * i + j, d, (b :: bs).length)) mem =
        some ((r ||| (byteOf .little (wordAt s i) j ^^^ b), 8 * i + (j + 1), d + 1, bs.length), mem) := by
      unfold verifyByte
      simp only
      rw [run_bind_of (run_getB hi (by omega) mem), run_bind_of (Ref.run_loadB hd.1)]
      simp [Nat.add_assoc]
    rw [run_loop_step (by simp) hs, ih f _ (j + 1) (d + 1) hd.2 (by omega) (by omega),
      bytesFrom_cons (wordAt s i) j (by omega)]
    simp only [List.length_cons, orBytes, List.zipWith_cons_cons, List.foldl_cons]
    simp only [Nat.add_assoc, Nat.add_comm 1]

theorem run_VERIFY {mem : Mem} {s : State} {i d : Nat} {bs : List Byte} (hi : i < 5) (hd : mem.Holds d bs)
    (h8 : bs.length = 8) :
    run (VERIFY .little s (8 * i) d 8) mem = some (orBytes 0 (bytes64 (wordAt s i)) bs, mem) := by
  unfold VERIFY
  have := run_verifyBytes (s := s) hi bs 9 0 0 d hd (by omega) (by omega)
  simp only [Nat.add_zero, h8] at this
  rw [run_bind_of this]
  rfl

end Ascon.Opt8
