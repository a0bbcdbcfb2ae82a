import Verif.Spec.Perm
import Verif.C.Prog
/-!
# The optimized C code: words

The implementations opt64, opt64_lowsize, opt32, opt32_lowsize, bi32, bi32_lowreg, bi8, armv6, … are built
from the common mode files /repo/src/{aead.c,hash.c,prf.c,prfs.c} and a directory specific `word.h`,
`constants.h` and `round.h`.  A `Backend` collects what the mode files take from those headers; the mode
files are modelled once, over an arbitrary backend (GenAead, GenHash, GenPrf).
-/

namespace Ascon.Gen

open Ascon.C
open Ascon.C.Prog (require ifc loop forUp loadB storeB loadN storeN store64 load64)

/-- What the mode files use from word.h, constants.h, permutations.h and round.h. -/
structure Backend where
  /-- `U64TOWORD`: from the `uint64_t` object that received the bytes to the working representation. -/
  U64TOWORD : Endian → Word → Word
  /-- `WORDTOU64` -/
  WORDTOU64 : Endian → Word → Word
  /-- `PAD(i)` -/
  PAD : Nat → Prog Word
  /-- `DSEP()` -/
  DSEP : Word
  /-- `CLEAR(w, n)` -/
  CLEAR : Word → Nat → Prog Word
  /-- `PRFS_MLEN(len)` -/
  PRFS_MLEN : Word → Word
  /-- `P(s, 12)` -/
  P12 : Endian → State → Prog State
  /-- `P(s, 8)` -/
  P8 : Endian → State → Prog State
  ASCON_128A_IV : Word
  ASCON_HASH_IVS : State
  ASCON_XOF_IVS : State
  ASCON_MAC_IV : Word
  ASCON_PRF_IV : Word
  ASCON_PRFS_IV : Word

/-- src/word.h:52-56 (also src/bi32/word.h:101-105, src/bi8/word.h:95-99): `uint64_t x = 0;
memcpy(&x, bytes, n); return U64TOWORD(x);`.  `memcpy` fills the first `n` bytes of the object
representation; `n > 8` would overflow `x`.  The C parameter `n` has type `int`; all callers pass values
below 9, so the conversion from `uint64_t` does not change it. -/
def LOADBYTES (B : Backend) (e : Endian) (bytes n : Nat) : Prog Word := do
  require (n ≤ 8)
  let bs ← loadN bytes n
  pure (B.U64TOWORD e (value64 e (bs ++ List.replicate (8 - n) 0)))

/-- src/word.h:58-61 (also src/bi32/word.h:107-110, src/bi8/word.h:101-104):
`uint64_t x = WORDTOU64(w); memcpy(bytes, &x, n);` -/
def STOREBYTES (B : Backend) (e : Endian) (bytes : Nat) (w : Word) (n : Nat) : Prog Unit := do
  require (n ≤ 8)
  storeN bytes ((repr64 e (B.WORDTOU64 e w)).take n)

/-- src/word.h:18 `#define LOAD(b, n) LOADBYTES(b, n)` -/
def LOAD (B : Backend) (e : Endian) (b n : Nat) : Prog Word := LOADBYTES B e b n

/-- src/word.h:19 `#define STORE(b, w, n) STOREBYTES(b, w, n)` -/
def STORE (B : Backend) (e : Endian) (b : Nat) (w : Word) (n : Nat) : Prog Unit := STOREBYTES B e b w n

/-- src/word.h:27-33, src/bi32/word.h:48-54, src/bi8/word.h:52-58 (identical):
`return ((((int)(result & 0xff) - 1) >> 8) & 1) - 1`, 32-bit `int` with arithmetic right shift. -/
def NOTZERO (a b : Word) : Int :=
  let result := a ||| b
  let result := result ||| result >>> 32
  let result := result ||| result >>> 16
  let result := result ||| result >>> 8
  (((((result &&& 0xff).setWidth 32 - 1 : BitVec 32).sshiftRight 8) &&& 1) - 1 : BitVec 32).toInt

/-- src/lendian.h:16 and 21-29: `U64LE` is the identity on little-endian machines and a byte swap on
big-endian machines. -/
def U64LE : Endian → Word → Word
  | .little, x => x
  | .big, x =>
    ((0x00000000000000FF &&& x) <<< 56) |||
    ((0x000000000000FF00 &&& x) <<< 40) |||
    ((0x0000000000FF0000 &&& x) <<< 24) |||
    ((0x00000000FF000000 &&& x) <<< 8) |||
    ((0x000000FF00000000 &&& x) >>> 8) |||
    ((0x0000FF0000000000 &&& x) >>> 24) |||
    ((0x00FF000000000000 &&& x) >>> 40) |||
    ((0xFF00000000000000 &&& x) >>> 56)

end Ascon.Gen
