import Verif.C.Contracts
import Verif.C.Sim
import Verif.Model.GenCore
import Verif.Proof.Linear
import Verif.Proof.Loops
import Verif.Proof.RefAead
/-!
# Correct word backends

`Backend.Ok B e enc`: the backend `B` on a target of byte order `e` works on words encoded by the
(XOR-linear, injective) map `enc`.  Everything the mode files need follows from these facts.
-/

namespace Ascon.Gen

open Ascon.C Ascon.Spec
open Ascon.C.Prog (require ifc loop forUp loadB storeB loadN storeN store64 load64)

attribute [local irreducible] perm

/-- Encoding of the state, word by word. -/
def encS (enc : Word → Word) (s : State) : State :=
  ⟨enc s.x0, enc s.x1, enc s.x2, enc s.x3, enc s.x4⟩

structure Backend.Ok (B : Backend) (e : Endian) (enc : Word → Word) : Prop where
  xor : ∀ a b, enc (a ^^^ b) = enc a ^^^ enc b
  zero : ∀ a, enc a = 0 → a = 0
  load : ∀ bs : List Byte, bs.length = 8 → B.U64TOWORD e (value64 e bs) = enc (le64 bs)
  store : ∀ w, repr64 e (B.WORDTOU64 e (enc w)) = bytes64 w
  pad : ∀ i, i < 8 → ∀ mem, run (B.PAD i) mem = some (enc ((1 : Word) <<< (8 * i)), mem)
  dsep : B.DSEP = enc 0x8000000000000000
  clear : ∀ w n, n < 8 → ∀ mem,
    run (B.CLEAR (enc w) n) mem = some (enc (w &&& Ref.highMask n), mem)
  mlen : ∀ n, n ≤ 16 → B.ASCON_PRFS_IV ^^^ B.PRFS_MLEN (BitVec.ofNat 64 n) = enc (ivPrfs n)
  p12 : ∀ s mem, run (B.P12 e (encS enc s)) mem = some (encS enc (perm 12 s), mem)
  p8 : ∀ s mem, run (B.P8 e (encS enc s)) mem = some (encS enc (perm 8 s), mem)
  aead : B.ASCON_128A_IV = enc ivAead
  hash : B.ASCON_HASH_IVS = encS enc (spongeInit ivHash)
  xof : B.ASCON_XOF_IVS = encS enc (spongeInit ivXof)
  mac : B.ASCON_MAC_IV = enc ivMac
  prf : B.ASCON_PRF_IV = enc ivPrf

/-- Statements of a backend that are executed the same way for all secrets. -/
structure Backend.CT (B : Backend) (e : Endian) : Prop where
  pad : ∀ i, Sim Any (B.PAD i) (B.PAD i)
  clear : ∀ v w n, Sim Any (B.CLEAR v n) (B.CLEAR w n)
  p12 : ∀ s t, Sim Any (B.P12 e s) (B.P12 e t)
  p8 : ∀ s t, Sim Any (B.P8 e s) (B.P8 e t)

variable {B : Backend} {e : Endian} {enc : Word → Word}

theorem Backend.Ok.enc0 (h : B.Ok e enc) : enc 0 = 0 := by
  have := h.xor 0 0
  simpa using this

theorem run_require {c : Bool} {mem : Mem} (h : c = true) : run (require c) mem = some ((), mem) := by
  subst h; rfl

theorem run_LOADBYTES (h : B.Ok e enc) {mem : Mem} {p n : Nat} {bs : List Byte} (hp : mem.Holds p bs)
    (hn : n = bs.length) (h8 : n ≤ 8) : run (LOADBYTES B e p n) mem = some (enc (le64 bs), mem) := by
  unfold LOADBYTES
  rw [run_bind_of (run_require (by simpa using h8)), run_bind_of (run_loadN' hp hn)]
  simp only [run_pure']
  rw [h.load _ (by simp; omega), le64_append_zeros]

theorem run_LOAD (h : B.Ok e enc) {mem : Mem} {p : Nat} {bs : List Byte} (hp : mem.Holds p bs)
    (h8 : 8 ≤ bs.length) : run (LOAD B e p 8) mem = some (enc (le64 (bs.take 8)), mem) :=
  run_LOADBYTES h (hp.take 8) (by simp; omega) (by omega)

theorem run_LOAD' (h : B.Ok e enc) {mem : Mem} {p o : Nat} {bs : List Byte} (hp : mem.Holds p bs)
    (h8 : o + 8 ≤ bs.length) :
    run (LOAD B e (p + o) 8) mem = some (enc (le64 ((bs.drop o).take 8)), mem) :=
  run_LOAD h (hp.drop o (by omega)) (by simp; omega)

theorem run_STOREBYTES (h : B.Ok e enc) {mem : Mem} {p n : Nat} {w : Word} (hw : mem.Writable p n)
    (h8 : n ≤ 8) :
    run (STOREBYTES B e p (enc w) n) mem = some ((), mem.writes p ((bytes64 w).take n)) := by
  unfold STOREBYTES
  rw [run_bind_of (run_require (by simpa using h8)), h.store,
    run_storeN (by simpa [length_bytes64, Nat.min_eq_left h8] using hw)]

theorem run_STORE (h : B.Ok e enc) {mem : Mem} {p : Nat} {w : Word} (hw : mem.Writable p 8) :
    run (STORE B e p (enc w) 8) mem = some ((), mem.writes p (bytes64 w)) := by
  unfold STORE
  rw [run_STOREBYTES h hw (by omega), List.take_of_length_le (by simp [length_bytes64])]

/-- The result of `NOTZERO`. -/
theorem NOTZERO_eq (a b : Word) : NOTZERO a b = if a = 0 ∧ b = 0 then 0 else -1 := by
  unfold NOTZERO
  simp only
  generalize hr : (a ||| b) = r
  have h0 : (a = 0 ∧ b = 0) ↔ r = 0 := by
    subst hr
    constructor
    · rintro ⟨rfl, rfl⟩; rfl
    · intro h
      constructor
      · apply BitVec.eq_of_getLsbD_eq; intro i hi
        have := congrArg (fun x => x.getLsbD i) h
        simp only [BitVec.getLsbD_or] at this
        have h0 : (0 : Word).getLsbD i = false := by simp
        rw [h0] at this ⊢
        exact (Bool.or_eq_false_iff.mp this).1
      · apply BitVec.eq_of_getLsbD_eq; intro i hi
        have := congrArg (fun x => x.getLsbD i) h
        simp only [BitVec.getLsbD_or] at this
        have h0 : (0 : Word).getLsbD i = false := by simp
        rw [h0] at this ⊢
        exact (Bool.or_eq_false_iff.mp this).2
  simp only [h0]
  generalize hq : (r ||| r >>> 32 ||| (r ||| r >>> 32) >>> 16 |||
    (r ||| r >>> 32 ||| (r ||| r >>> 32) >>> 16) >>> 8) &&& 0xff = q
  have hq0 : q = 0 ↔ r = 0 := by
    subst hq
    constructor
    · intro h
      apply BitVec.eq_of_getLsbD_eq; intro i hi
      have hb := congrArg (fun x => x.getLsbD (i % 8)) h
      simp only [BitVec.getLsbD_and, BitVec.getLsbD_or, BitVec.getLsbD_ushiftRight] at hb
      have hm : (255 : Word).getLsbD (i % 8) = true := by
        have : ∀ j : Fin 8, (255 : Word).getLsbD j.val = true := by decide
        exact this ⟨i % 8, by omega⟩
      have hz : (0 : Word).getLsbD (i % 8) = false := by simp
      have hz' : (0 : Word).getLsbD i = false := by simp
      rw [hm, hz] at hb
      rw [hz']
      simp only [Bool.and_true, Bool.or_eq_false_iff] at hb
      have hi8 : i = i % 8 ∨ i = 32 + i % 8 ∨ i = 16 + i % 8 ∨ i = 32 + (16 + i % 8) ∨ i = 8 + i % 8 ∨
        i = 32 + (8 + i % 8) ∨ i = 16 + (8 + i % 8) ∨ i = 32 + (16 + (8 + i % 8)) := by omega
      obtain ⟨⟨⟨h1, h2⟩, h3, h4⟩, ⟨h5, h6⟩, h7, h8⟩ := hb
      rcases hi8 with h | h | h | h | h | h | h | h <;> rw [h] <;> assumption
    · rintro rfl; rfl
  have hlt : q.toNat < 256 := by
    subst hq
    rw [BitVec.toNat_and]
    exact Nat.lt_of_le_of_lt Nat.and_le_right (by decide)
  have hs : q.setWidth 32 = 0 ↔ q = 0 := by
    constructor
    · intro h
      have := congrArg BitVec.toNat h
      rw [BitVec.toNat_setWidth, Nat.mod_eq_of_lt (by omega)] at this
      exact BitVec.eq_of_toNat_eq (by simpa using this)
    · rintro rfl; rfl
  rw [Ref.result_eq _ (by rw [BitVec.toNat_setWidth, Nat.mod_eq_of_lt (by omega)]; exact hlt)]
  simp only [hs, hq0]

/-! ### `U64LE` -/

theorem U64LE_big_xor (x : Word) : U64LE .big x =
    ((0x00000000000000FF &&& x) <<< 56) ^^^
    ((0x000000000000FF00 &&& x) <<< 40) ^^^
    ((0x0000000000FF0000 &&& x) <<< 24) ^^^
    ((0x00000000FF000000 &&& x) <<< 8) ^^^
    ((0x000000FF00000000 &&& x) >>> 8) ^^^
    ((0x0000FF0000000000 &&& x) >>> 24) ^^^
    ((0x00FF000000000000 &&& x) >>> 40) ^^^
    ((0xFF00000000000000 &&& x) >>> 56) := by
  unfold U64LE
  have w0 := (Within.and_left x 0x00000000000000FF).shl 56
  have w1 := (Within.and_left x 0x000000000000FF00).shl 40
  have w2 := (Within.and_left x 0x0000000000FF0000).shl 24
  have w3 := (Within.and_left x 0x00000000FF000000).shl 8
  have w4 := (Within.and_left x 0x000000FF00000000).shr 8
  have w5 := (Within.and_left x 0x0000FF0000000000).shr 24
  have w6 := (Within.and_left x 0x00FF000000000000).shr 40
  have w7 := (Within.and_left x 0xFF00000000000000).shr 56
  simp only
  rw [or_eq_xor (((((((w0.or w1).or w2).or w3).or w4).or w5).or w6)) w7 (by decide),
    or_eq_xor ((((((w0.or w1).or w2).or w3).or w4).or w5)) w6 (by decide),
    or_eq_xor (((((w0.or w1).or w2).or w3).or w4)) w5 (by decide),
    or_eq_xor ((((w0.or w1).or w2).or w3)) w4 (by decide),
    or_eq_xor (((w0.or w1).or w2)) w3 (by decide),
    or_eq_xor ((w0.or w1)) w2 (by decide),
    or_eq_xor w0 w1 (by decide)]

theorem U64LE_lin (e : Endian) : Lin (U64LE e) := by
  cases e with
  | little => exact Lin.id
  | big =>
    have := (((((((((Lin.id (n := 64)).and' 0x00000000000000FF).shl 56).xor
      ((Lin.id.and' 0x000000000000FF00).shl 40)).xor
      ((Lin.id.and' 0x0000000000FF0000).shl 24)).xor
      ((Lin.id.and' 0x00000000FF000000).shl 8)).xor
      ((Lin.id.and' 0x000000FF00000000).shr 8)).xor
      ((Lin.id.and' 0x0000FF0000000000).shr 24)).xor
      ((Lin.id.and' 0x00FF000000000000).shr 40)).xor
      ((Lin.id.and' 0xFF00000000000000).shr 56)
    intro a b
    rw [U64LE_big_xor, U64LE_big_xor, U64LE_big_xor]
    exact this a b

/-- `U64LE` on a big-endian machine reverses the bytes. -/
theorem U64LE_big (x : Word) : U64LE .big x = le64 (bytes64 x).reverse :=
  Lin.ext (U64LE_lin .big) Lin.bytes_rev (by decide +kernel) x

/-- Reading eight bytes and applying `U64LE` gives the little-endian value on both kinds of machine. -/
theorem U64LE_value64 (e : Endian) (bs : List Byte) (h : bs.length = 8) :
    U64LE e (value64 e bs) = le64 bs := by
  cases e with
  | little => rfl
  | big =>
    rw [U64LE_big, value64, bytes64_le64 _ (by simpa using h), List.reverse_reverse]

theorem repr64_U64LE (e : Endian) (w : Word) : repr64 e (U64LE e w) = bytes64 w := by
  cases e with
  | little => rfl
  | big =>
    rw [U64LE_big, repr64, bytes64_le64 _ (by simp [length_bytes64]), List.reverse_reverse]

end Ascon.Gen
