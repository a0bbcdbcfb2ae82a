import Verif.Spec.Perm
import Verif.C.Prog
/-!
# Model of the reference implementation: words, round function, constants

Sources: /repo/crypto_aead/asconaead128/ref/{word.h,round.h,permutations.h,constants.h}
(the same files are used in every other `ref` directory).
-/

namespace Ascon.Ref

open Ascon.C
open Ascon.C.Prog (require ifc loop forUp loadB storeB loadN storeN)

/-- ref/word.h:10 `SETBYTE(b,i) ((uint64_t)(b) << (8*(i)))`; undefined for `i ≥ 8`. -/
def SETBYTE (b : Byte) (i : Nat) : Prog Word := do
  require (8 * i < 64)
  pure (b.setWidth 64 <<< (8 * i))

/-- ref/word.h:7 `GETBYTE(x,i) ((uint8_t)((uint64_t)(x) >> (8*(i))))`; undefined for `i ≥ 8`. -/
def GETBYTE (x : Word) (i : Nat) : Prog Byte := do
  require (8 * i < 64)
  pure ((x >>> (8 * i)).setWidth 8)

/-- ref/word.h:13 `PAD(i) SETBYTE(0x01, i)` -/
def PAD (i : Nat) : Prog Word := SETBYTE 0x01 i

/-- ref/word.h:16 `DSEP() SETBYTE(0x80, 7)` -/
def DSEP : Prog Word := SETBYTE 0x80 7

/-- ref/word.h:19-24 -/
def LOADBYTES (bytes n : Nat) : Prog Word :=
  forUp (fun i x => do
    let b ← loadB (bytes + i)
    let y ← SETBYTE b i
    pure (x ||| y)) n 0 0

/-- ref/word.h:27-30 -/
def STOREBYTES (bytes : Nat) (x : Word) (n : Nat) : Prog Unit :=
  forUp (fun i _ => do
    let b ← GETBYTE x i
    storeB (bytes + i) b) n 0 ()

/-- ref/word.h:33-37 -/
def CLEARBYTES (x : Word) (n : Nat) : Prog Word :=
  forUp (fun i x => do
    let y ← SETBYTE 0xff i
    pure (x &&& ~~~y)) n 0 x

/-- ref/round.h:8-10 `x >> n | x << (-n & 63)` (only used with literals `0 < n < 64`). -/
def ROR (x : Word) (n : Nat) : Word := x >>> n ||| x <<< ((64 - n) % 64)

/-- ref/round.h:12-40.  The C code updates `s` in place; here the successive values
are shadowing `let`s in the order of the assignments. -/
def ROUND (s : State) (C : Byte) : State :=
  let x0 := s.x0
  let x1 := s.x1
  let x2 := s.x2
  let x3 := s.x3
  let x4 := s.x4
  -- addition of round constant
  let x2 := x2 ^^^ C.setWidth 64
  -- substitution layer
  let x0 := x0 ^^^ x4
  let x4 := x4 ^^^ x3
  let x2 := x2 ^^^ x1
  let t0 := x0 ^^^ (~~~x1 &&& x2)
  let t1 := x1 ^^^ (~~~x2 &&& x3)
  let t2 := x2 ^^^ (~~~x3 &&& x4)
  let t3 := x3 ^^^ (~~~x4 &&& x0)
  let t4 := x4 ^^^ (~~~x0 &&& x1)
  let t1 := t1 ^^^ t0
  let t0 := t0 ^^^ t4
  let t3 := t3 ^^^ t2
  let t2 := ~~~t2
  -- linear diffusion layer
  { x0 := t0 ^^^ ROR t0 19 ^^^ ROR t0 28
    x1 := t1 ^^^ ROR t1 61 ^^^ ROR t1 39
    x2 := t2 ^^^ ROR t2 1 ^^^ ROR t2 6
    x3 := t3 ^^^ ROR t3 10 ^^^ ROR t3 17
    x4 := t4 ^^^ ROR t4 7 ^^^ ROR t4 41 }

/-- ref/permutations.h:11-24 -/
def P12 (s : State) : State :=
  let s := ROUND s 0xf0
  let s := ROUND s 0xe1
  let s := ROUND s 0xd2
  let s := ROUND s 0xc3
  let s := ROUND s 0xb4
  let s := ROUND s 0xa5
  let s := ROUND s 0x96
  let s := ROUND s 0x87
  let s := ROUND s 0x78
  let s := ROUND s 0x69
  let s := ROUND s 0x5a
  let s := ROUND s 0x4b
  s

/-- ref/permutations.h:26-35 -/
def P8 (s : State) : State :=
  let s := ROUND s 0xb4
  let s := ROUND s 0xa5
  let s := ROUND s 0x96
  let s := ROUND s 0x87
  let s := ROUND s 0x78
  let s := ROUND s 0x69
  let s := ROUND s 0x5a
  let s := ROUND s 0x4b
  s

/-- ref/permutations.h:37-44 -/
def P6 (s : State) : State :=
  let s := ROUND s 0x96
  let s := ROUND s 0x87
  let s := ROUND s 0x78
  let s := ROUND s 0x69
  let s := ROUND s 0x5a
  let s := ROUND s 0x4b
  s

/-! ### Initial values, ref/constants.h:6-31 and 40-124 -/

/-- ref/constants.h:40-45 -/
def ASCON_128A_IV : Word :=
  ((1 : Word) <<< 0) ||| ((12 : Word) <<< 16) ||| ((8 : Word) <<< 20) |||
    ((16 * 8 : Word) <<< 24) ||| ((16 : Word) <<< 40)

/-- ref/constants.h:53-58 -/
def ASCON_HASH_IV : Word :=
  ((2 : Word) <<< 0) ||| ((12 : Word) <<< 16) ||| ((12 : Word) <<< 20) |||
    ((32 * 8 : Word) <<< 24) ||| ((8 : Word) <<< 40)

/-- ref/constants.h:67-71 -/
def ASCON_XOF_IV : Word :=
  ((3 : Word) <<< 0) ||| ((12 : Word) <<< 16) ||| ((12 : Word) <<< 20) ||| ((8 : Word) <<< 40)

/-- ref/constants.h:79-83 -/
def ASCON_CXOF_IV : Word :=
  ((4 : Word) <<< 0) ||| ((12 : Word) <<< 16) ||| ((12 : Word) <<< 20) ||| ((8 : Word) <<< 40)

/-- ref/constants.h:91-97 -/
def ASCON_MAC_IV : Word :=
  ((5 : Word) <<< 0) ||| ((12 : Word) <<< 16) ||| ((12 : Word) <<< 20) |||
    ((16 * 8 : Word) <<< 24) ||| ((32 : Word) <<< 40) ||| ((16 : Word) <<< 48)

/-- ref/constants.h:107-112 -/
def ASCON_PRF_IV : Word :=
  ((6 : Word) <<< 0) ||| ((12 : Word) <<< 16) ||| ((12 : Word) <<< 20) |||
    ((32 : Word) <<< 40) ||| ((16 : Word) <<< 48)

/-- ref/constants.h:121-124 -/
def ASCON_PRFS_IV : Word :=
  ((7 : Word) <<< 0) ||| ((12 : Word) <<< 16) ||| ((16 * 8 : Word) <<< 24)

end Ascon.Ref
