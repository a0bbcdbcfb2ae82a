import Verif.Model.Rounds
/-!
# Word backends of the portable optimized implementations

word.h, interleave.h and constants.h of the 64-bit (opt64, opt32 and their low-size variants), the
32-bit interleaved (bi32, bi32_lowreg, bi32_lowsize) and the 8-bit interleaved (bi8) implementations.
-/

namespace Ascon.Gen

open Ascon.C
open Ascon.C.Prog (require ifc loop)

/-! ## src/word.h and src/constants.h -/

/-- src/word.h:21 `x >> n | x << (-n & 63)` -/
def ROR64 (x : Word) (n : Nat) : Word := x >>> n ||| x <<< ((64 - n) % 64)

/-- src/word.h:35 `0x01ull << (8 * i)`, undefined if the shift amount is 64 or more. -/
def optPAD (i : Nat) : Prog Word := do
  require (8 * i < 64)
  pure ((0x01 : Word) <<< (8 * i))

/-- src/word.h:41-45 `w & (~0ull << (8 * n))` -/
def optCLEAR (w : Word) (n : Nat) : Prog Word := do
  require (8 * n < 64)
  let mask : Word := (~~~(0 : Word)) <<< (8 * n)
  pure (w &&& mask)

/-- The headers src/word.h and src/constants.h:33-66, with a permutation. -/
def optBackend (P12 P8 : Endian → State → Prog State) : Backend where
  U64TOWORD := U64LE                                -- word.h:16
  WORDTOU64 := U64LE                                -- word.h:17
  PAD := optPAD
  DSEP := (0x80 : Word) <<< 56                      -- word.h:37
  CLEAR := optCLEAR
  PRFS_MLEN := fun len => len <<< 51                -- word.h:39
  P12 := P12
  P8 := P8
  ASCON_128A_IV := 0x00001000808c0001
  ASCON_HASH_IVS := ⟨0x9b1e5494e934d681, 0x4bc3a01e333751d2, 0xae65396c6b34b81a, 0x3c7fd4a4d56a4db3,
    0x1a5c464906c5976d⟩
  ASCON_XOF_IVS := ⟨0xda82ce768d9447eb, 0xcc7ce6c75f1ef969, 0xe7508fd780085631, 0x0ee0ea53416b58cc,
    0xe0547524db6f0bde⟩
  ASCON_MAC_IV := 0x0010200080cc0005
  ASCON_PRF_IV := 0x0010200000cc0006
  ASCON_PRFS_IV := 0x00000000800c0007

/-- opt64: src/opt64/round.h, unrolled (src/config.h). -/
def opt64 : Backend := optBackend
  (fun _ => P12ROUNDS optConsts (ROUND_opt64 ROR64)) (fun _ => P8ROUNDS optConsts (ROUND_opt64 ROR64))

/-- opt64_lowsize: src/opt64_lowsize/round.h, loops (src/lowsize/config.h). -/
def opt64_lowsize : Backend := optBackend
  (fun _ => PROUNDS optConsts (ROUND_low ROR64) 12) (fun _ => PROUNDS optConsts (ROUND_low ROR64) 8)

/-- opt32: src/opt32/round.h, unrolled (src/config.h). -/
def opt32 : Backend := optBackend
  (fun _ => P12ROUNDS optConsts ROUND_opt32) (fun _ => P8ROUNDS optConsts ROUND_opt32)

/-- opt32_lowsize: src/opt32_lowsize/round.h, loops (src/lowsize/config.h). -/
def opt32_lowsize : Backend := optBackend
  (fun _ => PROUNDS optConsts ROUND_opt32 12) (fun _ => PROUNDS optConsts ROUND_opt32 8)

/-! ## src/bi32 -/

/-- The step `t = (x ^ (x >> k)) & m, x ^= t ^ (t << k)` of interleave.h. -/
def swapStep (m : BitVec 32) (k : Nat) (x : BitVec 32) : BitVec 32 :=
  let t := (x ^^^ (x >>> k)) &&& m
  x ^^^ (t ^^^ (t <<< k))

/-- src/bi32/interleave.h:24-31, with `B[3]` from src/bi32/interleave.c:5
(`{0x22222222, 0x0c0c0c0c, 0x00f000f0}`). -/
def deinterleave16 (x : BitVec 32) : BitVec 32 :=
  let x := swapStep 0x22222222 1 x
  let x := swapStep 0x0c0c0c0c 2 x
  let x := swapStep 0x00f000f0 4 x
  let x := swapStep 0xff00 8 x
  x

/-- src/bi32/interleave.h:33-40 -/
def interleave16 (x : BitVec 32) : BitVec 32 :=
  let x := swapStep 0xff00 8 x
  let x := swapStep 0x00f000f0 4 x
  let x := swapStep 0x0c0c0c0c 2 x
  let x := swapStep 0x22222222 1 x
  x

/-- src/bi32/interleave.h:43-53 -/
def deinterleave32 (e : Endian) (x : Word) : Word :=
  let x := U64LE e x
  let hi : BitVec 32 := (x >>> 32).setWidth 32
  let lo : BitVec 32 := x.setWidth 32
  let t0 := deinterleave16 lo
  let t1 := deinterleave16 hi
  let ev := (t1 <<< 16) ||| (t0 &&& (0x0000FFFF : BitVec 32))
  let od := (t1 &&& (0xFFFF0000 : BitVec 32)) ||| (t0 >>> 16)
  od.setWidth 64 <<< 32 ||| ev.setWidth 64

/-- src/bi32/interleave.h:56-65 -/
def interleave32 (e : Endian) (x : Word) : Word :=
  let ev : BitVec 32 := x.setWidth 32
  let od : BitVec 32 := (x >>> 32).setWidth 32
  let t0 := (od <<< 16) ||| (ev &&& (0x0000FFFF : BitVec 32))
  let t1 := (od &&& (0xFFFF0000 : BitVec 32)) ||| (ev >>> 16)
  let lo := interleave16 t0
  let hi := interleave16 t1
  U64LE e (hi.setWidth 64 <<< 32 ||| lo.setWidth 64)

/-- Reading `w[0]` of the union `word_t` (src/bi32/word.h:23-27) after writing `x`. -/
def unionW0 : Endian → Word → BitVec 32
  | .little, x => x.setWidth 32
  | .big, x => (x >>> 32).setWidth 32

/-- Reading `w[1]` of the union `word_t` after writing `x`. -/
def unionW1 : Endian → Word → BitVec 32
  | .little, x => (x >>> 32).setWidth 32
  | .big, x => x.setWidth 32

/-- Reading `x` of the union `word_t` after writing `w[0]` and `w[1]`. -/
def unionX : Endian → BitVec 32 → BitVec 32 → Word
  | .little, w0, w1 => w1.setWidth 64 <<< 32 ||| w0.setWidth 64
  | .big, w0, w1 => w0.setWidth 64 <<< 32 ||| w1.setWidth 64

/-- src/bi32/word.h:29-31 `x >> n | x << (-n & 31)` -/
def ROR32 (x : BitVec 32) (n : Nat) : BitVec 32 := x >>> n ||| x <<< ((32 - n) % 32)

/-- src/bi32/word.h:33-38 -/
def bi32ROR (e : Endian) (x : Word) (n : Nat) : Word :=
  let b0 := if n % 2 ≠ 0 then ROR32 (unionW1 e x) ((n - 1) / 2) else ROR32 (unionW0 e x) (n / 2)
  let b1 := if n % 2 ≠ 0 then ROR32 (unionW0 e x) ((n + 1) / 2) else ROR32 (unionW1 e x) (n / 2)
  unionX e b0 b1

/-- src/bi32/word.h:71 `(uint32_t)0x01 << (4 * i)`, undefined if the shift amount is 32 or more. -/
def bi32PAD (i : Nat) : Prog Word := do
  require (4 * i < 32)
  pure (((0x01 : BitVec 32) <<< (4 * i)).setWidth 64)

/-- src/bi32/word.h:83-87 `uint32_t mask = 0xffffffffull << (4 * n);
return w & ((uint64_t)mask << 32 | mask);` -/
def bi32CLEAR (w : Word) (n : Nat) : Prog Word := do
  require (4 * n < 64)
  let mask : BitVec 32 := ((0xffffffff : Word) <<< (4 * n)).setWidth 32
  pure (w &&& (mask.setWidth 64 <<< 32 ||| mask.setWidth 64))

/-- The headers src/bi32/{word.h,interleave.h,constants.h} with `ASCON_EXTERN_BI = 0` (the default of
all config.h files), with a permutation. -/
def bi32Backend (P12 P8 : Endian → State → Prog State) : Backend where
  U64TOWORD := deinterleave32                       -- word.h:16, interleave.h:12 / interleave.c
  WORDTOU64 := interleave32                         -- word.h:17, interleave.h:13 / interleave.c
  PAD := bi32PAD
  DSEP := (0x80 : Word) <<< 56                      -- word.h:73
  CLEAR := bi32CLEAR
  PRFS_MLEN := fun len =>                           -- word.h:75-81
    ((len &&& 0x01) <<< 57) ||| ((len &&& 0x02) <<< 25) ||| ((len &&& 0x04) <<< 56) |||
    ((len &&& 0x08) <<< 24) ||| ((len &&& 0x10) <<< 55)
  P12 := P12
  P8 := P8
  ASCON_128A_IV := 0x00008a0000400201               -- src/bi32/constants.h:33-66
  ASCON_HASH_IVS := ⟨0xb308e49856e696e1, 0x39c35509990657dc, 0xf46674e32b5a9644, 0x678c872d6fe2f8b5,
    0x321218964ea92b7b⟩
  ASCON_XOF_IVS := ⟨0xb9b5a81fc0ae36b9, 0xa6d933e6aeabf6d9, 0xd0b98214bc3f00e5, 0x3cf1072a288d99ca,
    0xc044b73b8ef2db1e⟩
  ASCON_MAC_IV := 0x00408a0004000a03
  ASCON_PRF_IV := 0x00400a0104000a02
  ASCON_PRFS_IV := 0x0000820100000203

/-- bi32: src/bi32/round.h, unrolled (src/bi32/config.h). -/
def bi32 : Backend := bi32Backend
  (fun e => P12ROUNDS bi32Consts (ROUND_opt64 (bi32ROR e)))
  (fun e => P8ROUNDS bi32Consts (ROUND_opt64 (bi32ROR e)))

/-- bi32_lowreg, and the words and permutation of bi32_lowsize: src/bi32_lowreg/round.h, loops
(src/bi32_lowreg/config.h, src/bi32_lowsize/config.h). -/
def bi32_lowreg : Backend := bi32Backend
  (fun e => PROUNDS bi32Consts (ROUND_low (bi32ROR e)) 12)
  (fun e => PROUNDS bi32Consts (ROUND_low (bi32ROR e)) 8)

/-! ## src/bi8 -/

/-- One assignment of `interleave8`:
`x = (x & k) | ((x & m) << r) | ((x >> r) & m)` -/
def swapStep8 (k m : Word) (r : Nat) (x : Word) : Word :=
  (x &&& k) ||| ((x &&& m) <<< r) ||| ((x >>> r) &&& m)

/-- src/bi8/interleave.h:27-35 -/
def interleave8 (x : Word) : Word :=
  let x := swapStep8 0xaa55aa55aa55aa55 0x00aa00aa00aa00aa 7 x
  let x := swapStep8 0xcccc3333cccc3333 0x0000cccc0000cccc 14 x
  let x := swapStep8 0xf0f0f0f00f0f0f0f 0x00000000f0f0f0f0 28 x
  x

/-- src/bi8/word.h:22 `a >> n | a << (8 - n)`, computed in `int` and converted to `uint8_t`. -/
def ROR8 (a : Byte) (n : Nat) : Byte :=
  (a.setWidth 32 >>> n ||| a.setWidth 32 <<< (8 - n)).setWidth 8

/-- src/bi8/word.h:24-35: `b.b[j] = ROR8(a.b[(n + j) & 0x7], (n + j) >> 3)` for `j = 0 … 7`, the bytes
being those of the object representation of the 64-bit word. -/
def bi8ROR (e : Endian) (x : Word) (n : Nat) : Word :=
  let a := repr64 e x
  value64 e ((List.range 8).map fun j => ROR8 (a.getD ((n + j) % 8) 0) ((n + j) / 8))

/-- src/bi8/word.h:58 `(uint8_t)0x01 << i`, computed in `int` (32 bits). -/
def bi8PAD (i : Nat) : Prog Word := do
  require (i < 31)
  pure (((0x01 : BitVec 32) <<< i).setWidth 64)

/-- src/bi8/word.h:70-84: `uint8_t m = 0xff << n` (`int`; overflows for `n > 23`), all bytes of the
mask equal `m`. -/
def bi8CLEAR (w : Word) (n : Nat) : Prog Word := do
  require (n < 24)
  let m : Byte := ((0xff : BitVec 32) <<< n).setWidth 8
  let mask : Word := value64 .little [m, m, m, m, m, m, m, m]
  pure (w &&& mask)

/-- The headers src/bi8/{word.h,interleave.h,constants.h}, with a permutation. -/
def bi8Backend (P12 P8 : Endian → State → Prog State) : Backend where
  U64TOWORD := fun e x => interleave8 (U64LE e x)   -- word.h:17
  WORDTOU64 := fun e x => U64LE e (interleave8 x)   -- word.h:18
  PAD := bi8PAD
  DSEP := (0x80 : Word) <<< 56                      -- word.h:60
  CLEAR := bi8CLEAR
  PRFS_MLEN := fun len =>                           -- word.h:62-68
    ((len &&& 0x01) <<< 30) ||| ((len &&& 0x02) <<< 37) ||| ((len &&& 0x04) <<< 44) |||
    ((len &&& 0x08) <<< 51) ||| ((len &&& 0x10) <<< 58)
  P12 := P12
  P8 := P8
  ASCON_128A_IV := 0x0c00002004040001               -- src/bi8/constants.h:33-66
  ASCON_HASH_IVS := ⟨0x9b2a0cf6c876c289, 0x61c32c1f9014ddce, 0x8258fe27bbd48968, 0x396ed5e9c6fa454b,
    0x067501c2d16faa17⟩
  ASCON_XOF_IVS := ⟨0xedb31194a93ef30b, 0xb2fb634ecffc3c1b, 0xb8d2815324b2b2b1, 0x617f6412a781b41c,
    0x89edb4690f750f2e⟩
  ASCON_MAC_IV := 0x0c04204004050001
  ASCON_PRF_IV := 0x0404204004050100
  ASCON_PRFS_IV := 0x0800000004050101

/-- bi8: src/bi8/round.h, loops (src/bi8/config.h). -/
def bi8 : Backend := bi8Backend
  (fun e => PROUNDS bi8Consts (ROUND_low (bi8ROR e)) 12)
  (fun e => PROUNDS bi8Consts (ROUND_low (bi8ROR e)) 8)

end Ascon.Gen
