import Verif.Model.MaskedNProbe
/-!
# The masked code around the permutation, with every intermediate value made visible

`ascon_adata`, `ascon_encrypt`, `ascon_final` and `ascon_xortag` of aead.c as lists of steps: data are added to words of the state, constants are
added, words are masked again, and the permutation is applied.
-/

namespace Ascon.MaskedN.Probe

open Ascon.Masked (U32 ROR32 ROT constants)
open Ascon.Masked.Probe (Val)

/-- `s.x[k].s[d].w[i] ^= v` -/
def xorShare (d : Nat) (k : Fin 6) (i : Fin 2) (v : U32) : Op := fun s =>
  let w := s d k i ^^^ v
  (put s d k i w, [w])

/-- word.h:40-50 `s.x[k] = MXOR(s.x[k], b, ns)`, where `b.s[d].w[i]` is `b d i` -/
def mxor (ns : Nat) (k : Fin 6) (b : Nat → Fin 2 → U32) : Op :=
  seq [when (ns ≥ 1) (xorShare 0 k 0 (b 0 0)), when (ns ≥ 1) (xorShare 0 k 1 (b 0 1)), when (ns ≥ 2) (xorShare 1 k 0 (b 1 0)),
    when (ns ≥ 2) (xorShare 1 k 1 (b 1 1)), when (ns ≥ 3) (xorShare 2 k 0 (b 2 0)), when (ns ≥ 3) (xorShare 2 k 1 (b 2 1)),
    when (ns ≥ 4) (xorShare 3 k 0 (b 3 0)), when (ns ≥ 4) (xorShare 3 k 1 (b 3 1))]

inductive Step where
  /-- `s.x[k] = MXOR(s.x[k], b, ns)` -/
  | absorb (ns : Nat) (k : Fin 6) (b : Nat → Fin 2 → U32)
  /-- `s.x[k].s[0].w[i] ^= C` -/
  | const (k : Fin 6) (i : Fin 2) (C : U32)
  /-- `s.x[k] = MREUSE(s.x[k], 0, n)` -/
  | reuse (k : Fin 6)
  /-- `P(s, nr, n)` -/
  | perm (nr : Nat)

/-- The step for a state with `n` shares. -/
def Step.op (n : Nat) : Step → Op
  | .absorb ns k b => mxor ns k b
  | .const k i C => xorConst k i C
  | .reuse k => Probe.reuse n k
  | .perm nr => Probe.perm n nr

def steps (n : Nat) (l : List Step) : Op := seq (l.map (Step.op n))

/-- The step without the data that it adds. -/
def Step.shape : Step → Step
  | .absorb ns k _ => .absorb ns k fun _ _ => 0
  | .const k i _ => .const k i 0
  | .reuse k => .reuse k
  | .perm nr => .perm nr

/-- Data have at most as many shares as the state. -/
def Step.Fits (n : Nat) : Step → Prop
  | .absorb ns _ _ => ns ≤ n
  | _ => True

/-- aead.c:41-77 for `adlen` bytes of associated data with `na` shares; `W j` is the `j`-th word. -/
def adBlocks (na : Nat) (W : Nat → Nat → Fin 2 → U32) : (j adlen : Nat) → List Step
  | j, adlen =>
    if _h : adlen ≥ 16 then [.absorb na 0 (W j), .absorb na 1 (W (j + 1)), .perm 8] ++ adBlocks na W (j + 2) (adlen - 16)
    else if adlen ≥ 8 then
      [.absorb na 0 (W j), .const 1 0 ((0x01 : U32) <<< ((adlen - 8) * 4))] ++
        (if adlen - 8 ≠ 0 then [.absorb na 1 (W (j + 1))] else []) ++ [.perm 8]
    else
      [.const 0 0 ((0x01 : U32) <<< (adlen * 4))] ++ (if adlen ≠ 0 then [.absorb na 0 (W j)] else []) ++ [.perm 8]
  termination_by _ adlen => adlen

/-- aead.c:41-78 -/
def adSteps (na : Nat) (W : Nat → Nat → Fin 2 → U32) (adlen : Nat) : List Step :=
  (if adlen ≠ 0 then adBlocks na W 0 adlen else []) ++ [.const 4 1 0x80000000]

/-- aead.c:80-122 for `mlen` bytes of message with `nm` shares (and as many shares of the ciphertext) -/
def encSteps (nm : Nat) (W : Nat → Nat → Fin 2 → U32) : (j mlen : Nat) → List Step
  | j, mlen =>
    if _h : mlen ≥ 16 then [.absorb nm 0 (W j), .absorb nm 1 (W (j + 1)), .perm 8] ++ encSteps nm W (j + 2) (mlen - 16)
    else if mlen ≥ 8 then
      [.absorb nm 0 (W j), .const 1 0 ((0x01 : U32) <<< ((mlen - 8) * 4))] ++
        (if mlen - 8 ≠ 0 then [.absorb nm 1 (W (j + 1))] else [])
    else
      [.const 0 0 ((0x01 : U32) <<< (mlen * 4))] ++ (if mlen ≠ 0 then [.absorb nm 0 (W j)] else [])
  termination_by _ mlen => mlen

/-- aead.c:171-194, the key with `nk` shares -/
def finalSteps (nk : Nat) (K1 K2 : Nat → Fin 2 → U32) : List Step :=
  [.absorb nk 2 K1, .absorb nk 3 K2, .perm 12, .absorb nk 3 K1, .absorb nk 4 K2]

/-- aead.c:219-238, the tag with `nc` shares -/
def xortagSteps (nc : Nat) (t0 t1 : Nat → Fin 2 → U32) : List Step :=
  [.reuse 0, .reuse 1, .reuse 2, .absorb nc 3 t0, .absorb nc 4 t1, .perm 8, .const 3 0 0xc7c72006, .const 3 1 0xc3bfab9c,
    .const 4 0 0x18213f82, .const 4 1 0x0653ed71]

end Ascon.MaskedN.Probe
