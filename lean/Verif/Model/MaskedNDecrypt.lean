import Verif.Model.MaskedNSteps
/-!
# The masked decryption, with every intermediate value made visible

`ascon_decrypt` (aead.c:124-169) with as many shares of the ciphertext as of the message, for all lengths.
-/

namespace Ascon.MaskedN.Probe

open Ascon.Masked (U32 ROR32)
open Ascon.Masked.Probe (Val)

/-- Shares that are loaded are seen. -/
def load (n : Nat) (b : Nat → Fin 2 → U32) : Op := fun s => (s, (List.range n).flatMap fun d => [b d 0, b d 1])

/-- `s.x[k] = cx` for the `n` shares -/
def setWord (n : Nat) (k : Fin 6) (b : Nat → Fin 2 → U32) : Op := fun s =>
  (fun d k' i => if k' = k ∧ d < n then b d i else s d k' i, [])

/-- aead.c:130-134 `cx = MLOAD(c, n); s->x[k] = MXOR(s->x[k], cx, n); MSTORE(m, s->x[k], n); s->x[k] = MEXPAND(cx, n, n);` -/
def replaceWord (n : Nat) (k : Fin 6) (b : Nat → Fin 2 → U32) : Op := seq [load n b, mxor n k b, setWord n k b]

/-- The sharing of `C` with `m + 1` shares and the masks `ν`: share `d ≥ 1` is the mask number `d`, share 0 is
`C ⊕ ror(share 1, 5) ⊕ ror(share 2, 10) ⊕ …`. -/
def wordShare {m : Nat} (C : Fin 2 → U32) (ν : Fin m → Fin 2 → U32) (d : Nat) (i : Fin 2) : U32 :=
  let mask (d : Nat) : U32 := if h : d < m then ν ⟨d, h⟩ i else 0
  if d = 0 then C i ^^^ ((if 1 ≤ m then ROR32 (mask 0) 5 else 0) ^^^ (if 2 ≤ m then ROR32 (mask 1) 10 else 0) ^^^
    (if 3 ≤ m then ROR32 (mask 2) 15 else 0))
  else mask (d - 1)

/-- word.h:40-50 `s.x[k] = MXOR(s.x[k], s.x[k'], n)` -/
def addWord (n : Nat) (k k' : Fin 6) : Op :=
  seq [when (n ≥ 1) (seq [xorInto 0 k k' 0, xorInto 0 k k' 1]), when (n ≥ 2) (seq [xorInto 1 k k' 0, xorInto 1 k k' 1]),
    when (n ≥ 3) (seq [xorInto 2 k k' 0, xorInto 2 k k' 1]), when (n ≥ 4) (seq [xorInto 3 k k' 0, xorInto 3 k k' 1])]

/-- aead.c:159-166 on a state that holds `cx` in the place of word 2: `s.x[k] = MXOR(s.x[k], cx, n); mask = MMASK(s.x[5], clen);
cx = MXORAND(cx, mask, s.x[k], n); s.x[5] = MREUSE(s.x[5], 0, n)`, where `x` is `0xffffffff << (clen * 4)` (word.h:99-105, 163-168).
The code adds `x` to a copy of `s.x[5]`; here it is added in place: `MREUSE` overwrites the share to which it is added. -/
def andMask (n : Nat) (k : Fin 6) (x : U32) : Op :=
  seq [addWord n k 2, xorConst 5 0 x, xorConst 5 1 x, notInto k 0, notInto k 1, mxorbic n 2 5 k 0, mxorbic n 2 5 k 1, reuse n 5]

/-- aead.c:157-167, the last word of fewer than 8 bytes: the result of `MXORAND` takes the place of `s.x[k]`; word 2 is as before. -/
def partWord (n : Nat) (k : Fin 6) (x : U32) (b : Nat → Fin 2 → U32) : Op := fun s =>
  let r := andMask n k x (setWord n 2 b s).1
  (fun d k' i => if d < n then (if k' = k then r.1 d 2 i else if k' = 2 then s d 2 i else r.1 d k' i) else s d k' i,
    (load n b s).2 ++ r.2)

inductive DStep where
  /-- a ciphertext word with the value `C` takes the place of `s.x[k]` -/
  | cipher (k : Fin 6) (C : Fin 2 → U32)
  /-- a last ciphertext word with the value `C`, of which the part with zeros in `x` takes the place of that of `s.x[k]` -/
  | part (k : Fin 6) (C : Fin 2 → U32) (x : U32)
  /-- any step of Model/MaskedNSteps -/
  | step (a : Step)

/-- How many ciphertext words a program takes. -/
def ciphers : List DStep → Nat
  | [] => 0
  | .cipher _ _ :: l => ciphers l + 1
  | .part _ _ _ :: l => ciphers l + 1
  | .step _ :: l => ciphers l

/-- The program; `τ j` are the masks of the `j`-th ciphertext word that it takes. -/
def dsteps (m : Nat) : (l : List DStep) → (τ : Nat → Fin m → Fin 2 → U32) → Op
  | [], _ => seq []
  | .cipher k C :: l, τ => (replaceWord (m + 1) k (wordShare C (τ 0))).then (dsteps m l fun j => τ (j + 1))
  | .part k C x :: l, τ => (partWord (m + 1) k x (wordShare C (τ 0))).then (dsteps m l fun j => τ (j + 1))
  | .step a :: l, τ => (a.op (m + 1)).then (dsteps m l τ)

/-- aead.c:146-169 for fewer than 16 bytes; `W j` is the value of the `j`-th word of the ciphertext. -/
def decLast (W : Nat → Fin 2 → U32) (j clen : Nat) : List DStep :=
  if clen ≥ 8 then
    [.cipher 0 (W j), .step (.const 1 0 ((0x01 : U32) <<< ((clen - 8) * 4)))] ++
      (if clen - 8 ≠ 0 then [.part 1 (W (j + 1)) ((0xffffffff : U32) <<< ((clen - 8) * 4))] else [])
  else
    [.step (.const 0 0 ((0x01 : U32) <<< (clen * 4)))] ++
      (if clen ≠ 0 then [.part 0 (W j) ((0xffffffff : U32) <<< (clen * 4))] else [])

/-- aead.c:124-169 for `clen` bytes of ciphertext -/
def decSteps (W : Nat → Fin 2 → U32) : (j clen : Nat) → List DStep
  | j, clen =>
    if _h : clen ≥ 16 then [.cipher 0 (W j), .cipher 1 (W (j + 1)), .step (.perm 8)] ++ decSteps W (j + 2) (clen - 16)
    else decLast W j clen
  termination_by _ clen => clen

end Ascon.MaskedN.Probe
