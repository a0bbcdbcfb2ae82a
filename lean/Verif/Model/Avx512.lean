import Verif.Model.GenAead
import Verif.Model.GenHash
import Verif.Model.Backends
/-!
# Model of src/avx512: the state in one 512-bit register

The directories avx512 keep the state in a union of an `__m512i z` (eight 64-bit lanes) with `uint64_t x[5]`; the lanes 5, 6
and 7 are padding, uninitialised in aead.c.  Permutation, full blocks of associated data, plaintext, ciphertext, message and
digest go through AVX-512 intrinsics, the rest of the text is that of src/aead.c and src/hash.c with src/word.h and
src/constants.h (avx512/word.h and avx512/constants.h are the same files as those of opt64).  The model therefore uses the
definitions of `Gen` with the opt64 backend for the parts that access `s->x[i]` only.

The x86 is little-endian; the byte order parameter exists for uniformity of the signatures.
-/

namespace Ascon.Avx512

open Ascon.C Ascon.Spec
open Ascon.C.Prog (require ifc loop loadB storeB loadN storeN store64)

/-! ## The intrinsics -/

/-- `__m512i`: lane `i < 8` is a 64-bit word, lane 0 at the lowest address. -/
abbrev V := Nat → Word

/-- `_mm512_set_epi64(e7, ..., e0)` -/
def set_epi64 (e7 e6 e5 e4 e3 e2 e1 e0 : Word) : V
  | 0 => e0 | 1 => e1 | 2 => e2 | 3 => e3 | 4 => e4 | 5 => e5 | 6 => e6 | _ => e7

/-- `_mm512_permutexvar_epi64(idx, a)`: the low three bits of an index lane select the lane. -/
def permutexvar (idx a : V) : V := fun i => a ((idx i).toNat % 8)

/-- `_mm512_maskz_permutexvar_epi64(k, idx, a)` -/
def maskz_permutexvar (k : BitVec 8) (idx a : V) : V := fun i => if k.getLsbD i then a ((idx i).toNat % 8) else 0

/-- One term of the truth table: all ones where the bits of `a`, `b`, `c` are the three bits of `n`. -/
def minterm (a b c : Word) (n : Nat) : Word :=
  (if n.testBit 2 then a else ~~~a) &&& (if n.testBit 1 then b else ~~~b) &&& (if n.testBit 0 then c else ~~~c)

/-- `vpternlogq` on one lane: bit `4*a + 2*b + c` of the immediate, for every bit position. -/
def tern (a b c : Word) (imm : BitVec 8) : Word :=
  ((List.range 8).filter fun n => imm.getLsbD n).foldl (fun r n => r ||| minterm a b c n) 0

/-- `_mm512_ternarylogic_epi64(a, b, c, imm)` -/
def ternarylogic (a b c : V) (imm : BitVec 8) : V := fun i => tern (a i) (b i) (c i) imm

/-- `_mm512_rorv_epi64(a, count)` -/
def rorv (a count : V) : V := fun i => (a i).rotateRight ((count i).toNat % 64)

/-- `_mm512_xor_epi64(a, b)` -/
def xor_epi64 (a b : V) : V := fun i => a i ^^^ b i

/-- The 64 bytes of a register. -/
def toBytes (a : V) : List Byte := (List.range 8).flatMap fun i => bytes64 (a i)

/-- The register with the given 64 bytes. -/
def ofBytes (bs : List Byte) : V := fun i => le64 ((bs.drop (8 * i)).take 8)

/-- The bytes `i, ..., i + n - 1` of `_mm512_maskz_loadu_epi8(mask, p)`: memory is accessed only where the mask bit is
set, the other bytes are zero. -/
def maskzLoad (mask : BitVec 64) (p : Nat) : (i n : Nat) → Prog (List Byte)
  | _, 0 => .ret []
  | i, n + 1 =>
    if mask.getLsbD i then .load (p + i) fun b => maskzLoad mask p (i + 1) n >>= fun bs => .ret (b :: bs)
    else maskzLoad mask p (i + 1) n >>= fun bs => .ret (0 :: bs)

/-- `_mm512_maskz_loadu_epi8(mask, p)` -/
def maskz_loadu_epi8 (mask : BitVec 64) (p : Nat) : Prog V := do
  let bs ← maskzLoad mask p 0 64
  pure (ofBytes bs)

/-- Stores of `_mm512_mask_storeu_epi8`: only the bytes whose mask bit is set are written. -/
def maskStore (mask : BitVec 64) (p : Nat) : Nat → List Byte → Prog Unit
  | _, [] => .ret ()
  | i, b :: bs => if mask.getLsbD i then .store (p + i) b (maskStore mask p (i + 1) bs) else maskStore mask p (i + 1) bs

/-- `_mm512_mask_storeu_epi8(p, mask, a)` -/
def mask_storeu_epi8 (p : Nat) (mask : BitVec 64) (a : V) : Prog Unit := maskStore mask p 0 (toBytes a)

/-- `_mm512_mask_blend_epi8(mask, a, b)`: bytes of `b` where the mask bit is set, else of `a`. -/
def mask_blend_epi8 (mask : BitVec 64) (a b : V) : V :=
  ofBytes ((List.range 64).map fun i => if mask.getLsbD i then (toBytes b).getD i 0 else (toBytes a).getD i 0)

/-! ## src/avx512/ascon.h -/

/-- src/avx512/ascon.h:10-15: `x[0]`, ..., `x[4]` are the lanes 0 to 4. -/
structure Z where
  s : State
  y5 : Word
  y6 : Word
  y7 : Word
deriving DecidableEq, Repr

/-- `s->z` -/
def Z.z (t : Z) : V
  | 0 => t.s.x0 | 1 => t.s.x1 | 2 => t.s.x2 | 3 => t.s.x3 | 4 => t.s.x4 | 5 => t.y5 | 6 => t.y6 | _ => t.y7

/-- `s->z = v` -/
def Z.of (v : V) : Z := ⟨⟨v 0, v 1, v 2, v 3, v 4⟩, v 5, v 6, v 7⟩

/-! ## src/avx512/round.h, permutations.h -/

/-- src/avx512/round.h:10-38 -/
def ROUND (s : Z) (C : Byte) : Z :=
  let x : Word := 0
  let mxor1 : BitVec 8 := 0x15
  let mxor2 : BitVec 8 := 0x0b
  let pxor1 := set_epi64 x x x 3 x 1 x 4
  let pxor2 := set_epi64 x x x x 2 x 0 4
  let rc := set_epi64 x x x 0 0 (C.setWidth 64) 0 0
  let neg := set_epi64 x x x 0 0 (~~~(0 : Word)) 0 0
  let pchi1 := set_epi64 x x x 0 4 3 2 1
  let pchi2 := set_epi64 x x x 1 0 4 3 2
  let rot1 := set_epi64 x x x 7 10 1 61 19
  let rot2 := set_epi64 x x x 41 17 6 39 28
  /- round constant + s-box layer -/
  let t0 := maskz_permutexvar mxor1 pxor1 s.z
  let t0 := ternarylogic s.z t0 rc 0x96
  /- keccak s-box start -/
  let t1 := permutexvar pchi1 t0
  let t2 := permutexvar pchi2 t0
  let t0 := ternarylogic t0 t1 t2 0xd2
  /- keccak s-box end -/
  let t1 := maskz_permutexvar mxor2 pxor2 t0
  let t0 := ternarylogic t0 t1 neg 0x96
  /- linear layer -/
  let t1 := rorv t0 rot1
  let t2 := rorv t0 rot2
  .of (ternarylogic t0 t1 t2 0x96)

/-- src/avx512/constants.h: RC0, ..., RCb -/
def RCs : List Byte := [0xf0, 0xe1, 0xd2, 0xc3, 0xb4, 0xa5, 0x96, 0x87, 0x78, 0x69, 0x5a, 0x4b]

/-- permutations.h:13-26 (`P12ROUNDS`, used because config.h sets ASCON_INLINE_PERM and ASCON_UNROLL_LOOPS) -/
def P12 (s : Z) : Z := RCs.foldl ROUND s

/-- permutations.h:28-37 (`P8ROUNDS`) -/
def P8 (s : Z) : Z := (RCs.drop 4).foldl ROUND s

/-- permutations.h:39-46 (`P6ROUNDS`) -/
def P6 (s : Z) : Z := (RCs.drop 6).foldl ROUND s

/-! ## src/avx512/aead.c -/

/-- `const int mask = 0xffff` (ASCON_AEAD_RATE == 16), converted to `__mmask64`. -/
def mask16 : BitVec 64 := 0xffff

/-- src/avx512/aead.c:25-50; `junk` is the contents of the uninitialised object `s`. -/
def ascon_initaead (e : Endian) (junk : Z) (key : Word × Word) (npub : Nat) : Prog Z := do
  let n0 ← Gen.LOAD Gen.opt64 e npub 8
  let n1 ← Gen.LOAD Gen.opt64 e (npub + 8) 8
  let s : Z := { junk with s := { x0 := 0x00001000808c0001, x1 := key.1, x2 := key.2, x3 := n0, x4 := n1 } }
  let s := P12 s
  let s := { s with s := { s.s with x3 := s.s.x3 ^^^ key.1 } }
  let s := { s with s := { s.s with x4 := s.s.x4 ^^^ key.2 } }
  pure s

/-- src/avx512/aead.c:58-66: body of the associated-data loop. -/
def adStep : Z × Nat × Nat → Prog (Z × Nat × Nat) := fun (s, ad, adlen) => do
  let t ← maskz_loadu_epi8 mask16 ad
  let s := Z.of (xor_epi64 s.z t)
  let s := P8 s
  pure (s, ad + 16, adlen - 16)

/-- src/avx512/aead.c:52-83; lines 67-76 are src/aead.c:65-75. -/
def ascon_adata (e : Endian) (s : Z) (ad adlen : Nat) : Prog Z := do
  let s ← ifc (decide (adlen ≠ 0))
    (do
      let (s, ad, adlen) ← loop (adlen + 1) (fun (_, _, adlen) => decide (adlen ≥ 16)) adStep (s, ad, adlen)
      let x ← Gen.adFinal Gen.opt64 e s.s ad adlen
      let s := { s with s := x }
      pure (P8 s))
    (pure s)
  pure { s with s := { s.s with x4 := s.s.x4 ^^^ Gen.opt64.DSEP } }

/-- src/avx512/aead.c:90-100: body of the plaintext loop. -/
def encStep : Z × Nat × Nat × Nat → Prog (Z × Nat × Nat × Nat) := fun (s, c, m, mlen) => do
  let t ← maskz_loadu_epi8 mask16 m
  let s := Z.of (xor_epi64 s.z t)
  mask_storeu_epi8 c mask16 s.z
  let s := P8 s
  pure (s, c + 16, m + 16, mlen - 16)

/-- src/avx512/aead.c:85-117; lines 101-116 are src/aead.c:100-115. -/
def ascon_encrypt (e : Endian) (s : Z) (c m mlen : Nat) : Prog Z := do
  let (s, c, m, mlen) ← loop (mlen + 1) (fun (_, _, _, mlen) => decide (mlen ≥ 16)) encStep (s, c, m, mlen)
  let x ← Gen.encFinal Gen.opt64 e s.s c m mlen
  pure { s with s := x }

/-- src/avx512/aead.c:124-135: body of the ciphertext loop. -/
def decStep : Z × Nat × Nat × Nat → Prog (Z × Nat × Nat × Nat) := fun (s, m, c, clen) => do
  let t ← maskz_loadu_epi8 mask16 c
  let s := Z.of (xor_epi64 s.z t)
  mask_storeu_epi8 m mask16 s.z
  let s := Z.of (mask_blend_epi8 mask16 s.z t)
  let s := P8 s
  pure (s, m + 16, c + 16, clen - 16)

/-- src/avx512/aead.c:119-157; lines 136-156 are src/aead.c:140-159. -/
def ascon_decrypt (e : Endian) (s : Z) (m c clen : Nat) : Prog Z := do
  let (s, m, c, clen) ← loop (clen + 1) (fun (_, _, _, clen) => decide (clen ≥ 16)) decStep (s, m, c, clen)
  let x ← Gen.decFinal Gen.opt64 e s.s m c clen
  pure { s with s := x }

/-- src/avx512/aead.c:159-184 -/
def ascon_final (s : Z) (key : Word × Word) : Z :=
  let s := { s with s := { s.s with x2 := s.s.x2 ^^^ key.1 } }
  let s := { s with s := { s.s with x3 := s.s.x3 ^^^ key.2 } }
  let s := P12 s
  let s := { s with s := { s.s with x3 := s.s.x3 ^^^ key.1 } }
  { s with s := { s.s with x4 := s.s.x4 ^^^ key.2 } }

/-- src/avx512/aead.c:198-210 -/
def ascon_aead_encrypt (junk : Z) (e : Endian) (t c m mlen ad adlen npub k : Nat) : Prog Int := do
  let key ← Gen.ascon_loadkey Gen.opt64 e k
  let s ← ascon_initaead e junk key npub
  let s ← ascon_adata e s ad adlen
  let s ← ascon_encrypt e s c m mlen
  let s := ascon_final s key
  Gen.ascon_gettag Gen.opt64 e s.s t
  pure 0

/-- src/avx512/aead.c:212-223 -/
def ascon_aead_decrypt (junk : Z) (e : Endian) (m t c clen ad adlen npub k : Nat) : Prog Int := do
  let key ← Gen.ascon_loadkey Gen.opt64 e k
  let s ← ascon_initaead e junk key npub
  let s ← ascon_adata e s ad adlen
  let s ← ascon_decrypt e s m c clen
  let s := ascon_final s key
  Gen.ascon_verify Gen.opt64 e s.s t

/-- src/avx512/aead.c:225-245 -/
def crypto_aead_encrypt (junk : Z) (e : Endian) (_sp c clen m mlen ad adlen _nsec npub k : Nat) : Prog Int := do
  store64 e clen (BitVec.ofNat 64 (mlen + 16))
  let t := c + mlen
  ascon_aead_encrypt junk e t c m mlen ad adlen npub k

/-- src/avx512/aead.c:247-268 (`*mlen` is read back in the C code, as in src/aead.c) -/
def crypto_aead_decrypt (junk : Z) (e : Endian) (_sp m mlen _nsec c clen ad adlen npub k : Nat) : Prog Int :=
  ifc (decide (clen < 16)) (pure (-1)) (do
    store64 e mlen (BitVec.ofNat 64 (clen - 16))
    let t := c + (clen - 16)
    ascon_aead_decrypt junk e m t c (clen - 16) ad adlen npub k)

/-! ## src/avx512/hash.c -/

/-- src/avx512/hash.c:39-47: body of the absorbing loop. -/
def hashAbsorbStep : Z × Nat × Nat → Prog (Z × Nat × Nat) := fun (s, inp, inlen) => do
  let t ← maskz_loadu_epi8 0xff inp
  let s := Z.of (xor_epi64 s.z t)
  let s := P12 s
  pure (s, inp + 8, inlen - 8)

/-- src/avx512/hash.c:36-52 -/
def ascon_absorb (e : Endian) (s : Z) (inp inlen : Nat) : Prog Z := do
  let (s, inp, inlen) ← loop (inlen + 1) (fun (_, _, inlen) => decide (inlen ≥ 8)) hashAbsorbStep (s, inp, inlen)
  let w ← Gen.LOADBYTES Gen.opt64 e inp inlen
  let s := { s with s := { s.s with x0 := s.s.x0 ^^^ w } }
  let p ← Gen.opt64.PAD inlen
  let s := { s with s := { s.s with x0 := s.s.x0 ^^^ p } }
  pure s

/-- src/avx512/hash.c:58-64: body of the squeezing loop. -/
def hashSqueezeStep : Z × Nat × Nat → Prog (Z × Nat × Nat) := fun (s, out, outlen) => do
  mask_storeu_epi8 out 0xff s.z
  let s := P12 s
  pure (s, out + 8, outlen - 8)

/-- src/avx512/hash.c:54-68 -/
def ascon_squeeze (e : Endian) (s : Z) (out outlen : Nat) : Prog Unit := do
  let s := P12 s
  let (s, out, outlen) ← loop (outlen + 1) (fun (_, _, outlen) => decide (outlen > 8)) hashSqueezeStep (s, out, outlen)
  Gen.STOREBYTES Gen.opt64 e out s.s.x0 outlen

/-- src/avx512/hash.c:70-79; `(ascon_state_t){{IV(0), ..., IV(4)}}` initialises the first member `z`, so the lanes 5 to 7
are zero. -/
def ascon_xof (ivs : State) (e : Endian) (_sp out outlen inp inlen : Nat) : Prog Int := do
  let s : Z := ⟨ivs, 0, 0, 0⟩
  let s ← ascon_absorb e s inp inlen
  ascon_squeeze e s out outlen
  pure 0

/-- src/avx512/hash.c:81-84 in asconhash256 (CRYPTO_BYTES = 32) -/
def crypto_hash_hash256 (e : Endian) (sp out inp len : Nat) : Prog Int :=
  ascon_xof Gen.opt64.ASCON_HASH_IVS e sp out 32 inp len

/-- `ascon_xof` in asconxof128 -/
def ascon_xof_xof128 (e : Endian) (sp out outlen inp len : Nat) : Prog Int :=
  ascon_xof Gen.opt64.ASCON_XOF_IVS e sp out outlen inp len

/-- src/avx512/hash.c:81-84 in asconxof128 (CRYPTO_BYTES = 64) -/
def crypto_hash_xof128 (e : Endian) (sp out inp len : Nat) : Prog Int :=
  ascon_xof Gen.opt64.ASCON_XOF_IVS e sp out 64 inp len

end Ascon.Avx512
