import Verif.Proof.Esp32
/-!
# The duplex construction of the RISC-V code, over a codec of words

The four RISC-V files share one structure; they differ in how eight bytes form a word (`ld`, `st`), in the initial value, in
the padding byte and in the domain separation constant.  This file describes what the code computes in these terms, and shows
that with the little-endian codec of SP 800-232 it is Ascon-AEAD128.
-/

namespace Ascon.Rv

open Ascon.C Ascon.Spec Ascon.Gen

attribute [local irreducible] perm

/-- How a variant reads and writes words, and its constants. -/
structure Variant where
  ld : List Byte → Word
  st : Word → List Byte
  iv : Word
  padB : Byte
  sep : Word

structure Variant.Ok (V : Variant) : Prop where
  len : ∀ w, (V.st w).length = 8
  ld_st : ∀ w, V.ld (V.st w) = w
  st_ld : ∀ b : List Byte, b.length = 8 → V.st (V.ld b) = b
  st_xor : ∀ a b, V.st (a ^^^ b) = xorBytes (V.st a) (V.st b)

namespace Variant
variable (V : Variant)

/-- XOR 16 bytes into the rate. -/
def xorIn (s : State) (b : List Byte) : State :=
  { s with x0 := s.x0 ^^^ V.ld (b.take 8), x1 := s.x1 ^^^ V.ld (b.drop 8) }
/-- Replace the rate. -/
def setIn (s : State) (b : List Byte) : State := { s with x0 := V.ld (b.take 8), x1 := V.ld (b.drop 8) }
/-- The 16 bytes of the rate. -/
def rate (s : State) : List Byte := V.st s.x0 ++ V.st s.x1
/-- A partial block, padded. -/
def pad (l : List Byte) : List Byte := l ++ V.padB :: List.replicate (15 - l.length) 0

end Variant

/-- The argument `mode`. -/
inductive Mode where
  | ad | enc | dec
deriving DecidableEq

/-- Its value in the register (after sign extension). -/
def Mode.val : Mode → BitVec 32
  | .ad => 0
  | .enc => 1
  | .dec => -1

namespace Variant
variable (V : Variant)

/-- State after a complete block, before the permutation. -/
def stepS (md : Mode) (s : State) (b : List Byte) : State := if md = .dec then V.setIn s b else V.xorIn s b

/-- State after the last block `l`, where `l'` is what the block reads as after the output has been written. -/
def finS (md : Mode) (s : State) (l l' : List Byte) : State :=
  if md = .dec then V.setIn s (l' ++ (V.rate (V.xorIn s (V.pad l))).drop l.length) else V.xorIn s (V.pad l)

/-- Output for the last block. -/
def finO (s : State) (l : List Byte) : List Byte := (V.rate (V.xorIn s (V.pad l))).take l.length

/-- All complete blocks: state and output. -/
def blocks (md : Mode) : State → List (List Byte) → State × List Byte
  | s, [] => (s, [])
  | s, b :: bs =>
    let r := blocks md (perm 8 (V.stepS md s b)) bs
    (r.1, V.rate (V.xorIn s b) ++ r.2)

/-- `ascon_duplex` on the input `M`, whose last partial block reads as `l'` in the end. -/
def duplex (md : Mode) (s : State) (M l' : List Byte) : State × List Byte :=
  let r := V.blocks md s (fullBlocks 16 M)
  (V.finS md r.1 (lastBlock 16 M) l', r.2 ++ V.finO r.1 (lastBlock 16 M))

/-- Initialisation. -/
def init (K0 K1 N0 N1 : Word) : State :=
  let s := perm 12 ⟨V.iv, K0, K1, N0, N1⟩
  { s with x3 := s.x3 ^^^ K0, x4 := s.x4 ^^^ K1 }

/-- Associated data. -/
def absorbA (s : State) (A : List Byte) : State :=
  let s := if A = [] then s else perm 8 (V.duplex .ad s A (lastBlock 16 A)).1
  { s with x4 := s.x4 ^^^ V.sep }

/-- Finalisation. -/
def final (K0 K1 : Word) (s : State) : State :=
  let s := perm 12 { s with x2 := s.x2 ^^^ K0, x3 := s.x3 ^^^ K1 }
  { s with x3 := s.x3 ^^^ K0, x4 := s.x4 ^^^ K1 }

/-- Everything before the last call of `ascon_duplex`. -/
def start (K N A : List Byte) : State :=
  V.absorbA (V.init (V.ld (K.take 8)) (V.ld (K.drop 8)) (V.ld (N.take 8)) (V.ld (N.drop 8))) A

/-- The tag for the state after the message. -/
def tag (K : List Byte) (s : State) : List Byte :=
  let s := final (V.ld (K.take 8)) (V.ld (K.drop 8)) s
  V.st s.x3 ++ V.st s.x4

/-- What encryption writes. -/
def encrypt (K N A P : List Byte) : List Byte :=
  let r := V.duplex .enc (V.start K N A) P (lastBlock 16 P)
  r.2 ++ V.tag K r.1

/-- What decryption writes, and the state after it. -/
def decrypt (K N A C : List Byte) : State × List Byte := V.duplex .dec (V.start K N A) C (lastBlock 16 C)

variable {V}

theorem length_rate (h : V.Ok) (s : State) : (V.rate s).length = 16 := by
  unfold rate; rw [List.length_append, h.len, h.len]

theorem length_pad (l : List Byte) (hl : l.length < 16) : (V.pad l).length = 16 := by
  unfold pad; simp; omega

theorem length_finO (h : V.Ok) (s : State) (l : List Byte) (hl : l.length < 16) : (V.finO s l).length = l.length := by
  unfold finO; rw [List.length_take, length_rate h]; omega

theorem duplex_of_ge (md : Mode) (s : State) (M l' : List Byte) (hM : 16 ≤ M.length) :
    V.duplex md s M l' = ((V.duplex md (perm 8 (V.stepS md s (M.take 16))) (M.drop 16) l').1,
      V.rate (V.xorIn s (M.take 16)) ++ (V.duplex md (perm 8 (V.stepS md s (M.take 16))) (M.drop 16) l').2) := by
  unfold duplex
  rw [fullBlocks_of_ge 16 M (by omega) hM, lastBlock_of_ge 16 M (by omega) hM]
  simp only [blocks, List.append_assoc]

theorem duplex_of_lt (md : Mode) (s : State) (M l' : List Byte) (hM : M.length < 16) :
    V.duplex md s M l' = (V.finS md s M l', V.finO s M) := by
  unfold duplex
  rw [fullBlocks_of_lt 16 M (by omega), lastBlock_of_lt 16 M (by omega)]
  simp only [blocks, List.nil_append]

theorem length_duplex (h : V.Ok) (md : Mode) (s : State) (M l' : List Byte) :
    (V.duplex md s M l').2.length = M.length := by
  induction hn : M.length using Nat.strongRecOn generalizing s M with
  | ind n ih =>
    subst hn
    by_cases h16 : 16 ≤ M.length
    · rw [duplex_of_ge md s M l' h16]
      simp only
      rw [List.length_append, length_rate h, ih (M.drop 16).length (by simp; omega) _ _ rfl]
      simp; omega
    · rw [duplex_of_lt md s M l' (by omega)]
      exact length_finO h s M (by omega)

/-! ### With the codec of SP 800-232 -/

/-- SP 800-232. -/
def std : Variant := ⟨le64, bytes64, ivAead, 1, 0x8000000000000000⟩

theorem std_ok : std.Ok where
  len w := length_bytes64 w
  ld_st := le64_bytes64
  st_ld := bytes64_le64
  st_xor a b := bytes64_xor a b

theorem std_xorIn (s : State) (b : List Byte) (hb : b.length = 16) : std.xorIn s b = Spec.xorIn s b :=
  (xorIn_of_le16 s b (by omega)).symm

theorem std_rate (s : State) : std.rate s = Spec.rate 16 s := (rate_16 s).symm

theorem std_pad (l : List Byte) (hl : l.length < 16) : std.pad l = Spec.pad 16 l := by
  unfold pad Spec.pad
  rw [Nat.mod_eq_of_lt hl]
  rfl

theorem std_setIn (s : State) (b : List Byte) (hb : b.length = 16) :
    std.setIn s b = Spec.xorIn s (xorBytes (Spec.rate 16 s) b) := Esp32.setRate s b hb

theorem std_finO (s : State) (l : List Byte) (hl : l.length < 16) :
    std.finO s l = Spec.rate l.length (Spec.xorIn s (Spec.pad 16 l)) := by
  unfold finO
  rw [std_pad l hl, std_xorIn _ _ (length_pad16 l hl), std_rate]
  unfold Spec.rate
  rw [List.take_take, Nat.min_eq_left (by omega)]

theorem std_ad (s : State) (A : List Byte) (l' : List Byte) :
    (std.duplex .ad s A l').1 = Spec.xorIn (absorb 8 s (fullBlocks 16 A)) (Spec.pad 16 (lastBlock 16 A)) := by
  induction hn : A.length using Nat.strongRecOn generalizing s A with
  | ind n ih =>
    subst hn
    by_cases h16 : 16 ≤ A.length
    · rw [duplex_of_ge _ s A l' h16, fullBlocks_of_ge 16 A (by omega) h16, lastBlock_of_ge 16 A (by omega) h16]
      simp only
      rw [ih (A.drop 16).length (by simp; omega) _ _ rfl]
      have e : std.stepS .ad s (A.take 16) = Spec.xorIn s (A.take 16) := by
        rw [← std_xorIn _ _ (by simp; omega)]; rfl
      rw [e]
      rfl
    · rw [duplex_of_lt _ s A l' (by omega), fullBlocks_of_lt 16 A (by omega), lastBlock_of_lt 16 A (by omega)]
      show std.xorIn s (std.pad A) = _
      rw [std_pad A (by omega), std_xorIn _ _ (length_pad16 A (by omega))]
      rfl

theorem std_enc (s : State) (P l' : List Byte) : std.duplex .enc s P l' = encBody s P := by
  induction hn : P.length using Nat.strongRecOn generalizing s P with
  | ind n ih =>
    subst hn
    by_cases h16 : 16 ≤ P.length
    · rw [duplex_of_ge _ s P l' h16, encBody_of_ge s P h16, ih (P.drop 16).length (by simp; omega) _ _ rfl]
      have e : std.stepS .enc s (P.take 16) = Spec.xorIn s (P.take 16) := by
        rw [← std_xorIn _ _ (by simp; omega)]; rfl
      rw [e, std_xorIn _ _ (by simp; omega), std_rate]
    · rw [duplex_of_lt _ s P l' (by omega), encBody_of_lt s P (by omega), std_finO s P (by omega)]
      have : std.finS .enc s P l' = Spec.xorIn s (Spec.pad 16 P) := by
        show std.xorIn s (std.pad P) = _
        rw [std_pad P (by omega), std_xorIn _ _ (length_pad16 P (by omega))]
      rw [this]

theorem std_dec (s : State) (C : List Byte) : std.duplex .dec s C (lastBlock 16 C) = decBody s C := by
  induction hn : C.length using Nat.strongRecOn generalizing s C with
  | ind n ih =>
    subst hn
    by_cases h16 : 16 ≤ C.length
    · rw [duplex_of_ge _ s C _ h16, decBody_of_ge s C h16, lastBlock_of_ge 16 C (by omega) h16,
        ih (C.drop 16).length (by simp; omega) _ _ rfl]
      have hl : (C.take 16).length = 16 := by simp; omega
      have e : std.stepS .dec s (C.take 16) = Spec.xorIn s (xorBytes (Spec.rate 16 s) (C.take 16)) :=
        std_setIn s _ hl
      rw [e, std_xorIn _ _ hl, std_rate, rate_xorIn16 s _ 16 hl (by omega), List.take_of_length_le (l := C.take 16) (by omega)]
    · have h : C.length < 16 := by omega
      rw [duplex_of_lt _ s C _ h, decBody_of_lt s C h, lastBlock_of_lt 16 C h, std_finO s C h,
        rate_xorIn_pad s C h]
      have hL : (xorBytes (Spec.rate 16 s) (Spec.pad 16 (xorBytes (Spec.rate C.length s) C))).length = 16 := by
        rw [length_xorBytes, Spec.length_rate _ _ (by omega), length_pad16 _ (by
          rw [length_xorBytes, Spec.length_rate _ _ (by omega)]; omega)]; rfl
      have : std.finS .dec s C C = Spec.xorIn s (Spec.pad 16 (xorBytes (Spec.rate C.length s) C)) := by
        show std.setIn s (C ++ (std.rate (std.xorIn s (std.pad C))).drop C.length) = _
        rw [std_pad C h, std_xorIn _ _ (length_pad16 C h), std_rate, Esp32.dec_tail s C h, std_setIn _ _ hL,
          xorBytes_self_cancel _ _ (by rw [Spec.length_rate _ _ (by omega), length_pad16 _ (by
            rw [length_xorBytes, Spec.length_rate _ _ (by omega)]; omega)]; exact Nat.le_refl 16)]
      rw [this]

theorem std_init (K N : List Byte) :
    std.init (le64 (K.take 8)) (le64 (K.drop 8)) (le64 (N.take 8)) (le64 (N.drop 8)) = aeadInit K N := rfl

theorem std_absorbA (s : State) (A : List Byte) : std.absorbA s A = aeadAd A s := by
  have h1 : ∀ q : State, q = (if A = [] then s else absorb 8 s (fullBlocks 16 (Spec.pad 16 A))) →
      aeadAd A s = { q with x4 := q.x4 ^^^ 0x8000000000000000 } := by
    intro q h; subst h; rfl
  have h2 : ∀ q : State, q = (if A = [] then s else perm 8 (std.duplex .ad s A (lastBlock 16 A)).1) →
      std.absorbA s A = { q with x4 := q.x4 ^^^ 0x8000000000000000 } := by
    intro q h; subst h; rfl
  rw [h1 _ rfl, h2 (if A = [] then s else absorb 8 s (fullBlocks 16 (Spec.pad 16 A))) ?_]
  split
  · rfl
  · rw [std_ad, fullBlocks_pad 16 A (by omega)]
    simp only [absorb, List.foldl_append, List.foldl_cons, List.foldl_nil]

theorem std_start (K N A : List Byte) : std.start K N A = aeadAd A (aeadInit K N) := by
  unfold start
  rw [std_absorbA]
  exact congrArg (aeadAd A) (std_init K N)

theorem std_tag (K : List Byte) (s : State) : std.tag K s = aeadTag K s := by
  have e : final (le64 (K.take 8)) (le64 (K.drop 8)) s = addKeyLast K (perm 12 (addKeyMid K s)) := rfl
  have e1 : std.tag K s = bytes64 (final (le64 (K.take 8)) (le64 (K.drop 8)) s).x3 ++
    bytes64 (final (le64 (K.take 8)) (le64 (K.drop 8)) s).x4 := rfl
  rw [e1, e]
  rfl

theorem std_encrypt (K N A P : List Byte) : std.encrypt K N A P = aeadEncrypt K N A P := by
  unfold encrypt
  rw [std_start, std_enc]
  simp only
  rw [std_tag]
  rfl

theorem std_decrypt (K N A C : List Byte) : std.decrypt K N A C = decBody (aeadAd A (aeadInit K N)) C := by
  unfold decrypt
  rw [std_start, std_dec]

end Variant
end Ascon.Rv
