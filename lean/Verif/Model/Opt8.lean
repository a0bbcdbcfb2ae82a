import Verif.Model.Rounds
import Verif.Model.Backends
import Verif.Model.RefPrf
/-!
# Model of the byte-oriented code: src/opt8, src/opt8_lowsize and the C files of src/avr

The directories opt8, opt8_lowsize, avr and avr_lowsize access the sponge state byte by byte through the
union `ascon_state_t` (src/opt8/ascon.h:9-13) whose words hold the standard (not interleaved)
representation.  A pointer `s->b[i] + j` is modelled as the byte position `8*i + j` of the state; reading and
writing a byte goes through the object representation of the word, so it depends on the byte order.
The word.h, constants.h and ascon.h of the four families are the same text in every directory.

The permutation `P` is a parameter (`Perms`): opt8 and opt8_lowsize compile src/opt8/round.h (modelled
here), avr and avr_lowsize link the assembly file permutations.S.

Simplifications: only the branches for `ASCON_AEAD_RATE == 16`, `CRYPTO_KEYBYTES == 16` and 12 hash/PRF
rounds are compiled in this repository; `*mlen` is not read back in `crypto_aead_decrypt`; a disjunction or
conjunction of comparisons is one branch event; the fixed-length `memcpy` between local objects copies the
words.
-/

namespace Ascon.Opt8

open Ascon.C
open Ascon.C.Prog (require ifc loop forUp loadB storeB loadN storeN store64 load64)

/-- `P(s, 12)` and `P(s, 8)` of the directory. -/
structure Perms where
  P12 : Endian → State → Prog State
  P8 : Endian → State → Prog State

instance : Inhabited State := ⟨⟨0, 0, 0, 0, 0⟩⟩

/-- The contents of an automatic object before it is written: unknown words. -/
opaque junk : State

/-! ## Bytes of the state -/

/-- `s.x[i]` -/
def wordOf (s : State) (i : Nat) : Word :=
  match i with
  | 0 => s.x0
  | 1 => s.x1
  | 2 => s.x2
  | 3 => s.x3
  | _ => s.x4

/-- `s.x[i] = w` -/
def putWord (s : State) (i : Nat) (w : Word) : State :=
  match i with
  | 0 => { s with x0 := w }
  | 1 => { s with x1 := w }
  | 2 => { s with x2 := w }
  | 3 => { s with x3 := w }
  | _ => { s with x4 := w }

/-- Byte `j < 8` of the object representation of a word. -/
def byteOf (e : Endian) (w : Word) (j : Nat) : Byte := (repr64 e w).getD j 0

/-- The word with byte `j < 8` of its object representation replaced. -/
def putByte (e : Endian) (w : Word) (j : Nat) (b : Byte) : Word := value64 e ((repr64 e w).set j b)

/-- `((uint8_t*)s)[p]`, i.e. `s->b[p / 8][p % 8]` (src/opt8/ascon.h:9-13) -/
def getB (e : Endian) (s : State) (p : Nat) : Prog Byte := do
  require (p < 40)
  pure (byteOf e (wordOf s (p / 8)) (p % 8))

/-- `((uint8_t*)s)[p] = b` -/
def setB (e : Endian) (s : State) (p : Nat) (b : Byte) : Prog State := do
  require (p < 40)
  pure (putWord s (p / 8) (putByte e (wordOf s (p / 8)) (p % 8) b))

/-- `((uint8_t*)s)[p] ^= b` -/
def xorB (e : Endian) (s : State) (p : Nat) (b : Byte) : Prog State := do
  let o ← getB e s p
  setB e s p (o ^^^ b)

/-! ## src/opt8/word.h -/

/-- src/opt8/word.h:64 -/
def PAD : Byte := 0x01

/-- src/opt8/word.h:66 -/
def DSEP : Byte := 0x80

/-- src/opt8/word.h:68 `len << 51` -/
def PRFS_MLEN (len : Word) : Word := len <<< 51

/-- Body of the loop of `memxor`. -/
def memxorByte (e : Endian) (key : State) : State × Nat × Nat × Nat → Prog (State × Nat × Nat × Nat) :=
  fun (s, dst, src, n) => do
    let b ← getB e key src
    let s ← xorB e s dst b
    pure (s, dst + 1, src + 1, n - 1)

/-- src/opt8/word.h:92-97, with source and destination both local objects: `dst` a position in the state,
`src` a position in the key (a `State` of which the first two words are used). -/
def memxor (e : Endian) (s key : State) (dst src n : Nat) : Prog State := do
  let r ← loop (n + 1) (fun (_, _, _, n) => decide (n > 0))
    (memxorByte e key) (s, dst, src, n)
  pure r.1

/-- Body of the loop of `INSERT`. -/
def insertByte (e : Endian) : State × Nat × Nat × Nat → Prog (State × Nat × Nat × Nat) :=
  fun (s, p, d, n) => do
    let b ← loadB d
    let s ← setB e s p b
    pure (s, p + 1, d + 1, n - 1)

/-- src/opt8/word.h:99-104 `*s++ = *d++` -/
def INSERT (e : Endian) (s : State) (p d n : Nat) : Prog State := do
  let r ← loop (n + 1) (fun (_, _, _, n) => decide (n > 0))
    (insertByte e) (s, p, d, n)
  pure r.1

/-- Body of the loop of `SQUEEZE`. -/
def squeezeByte (e : Endian) (s : State) : Nat × Nat × Nat → Prog (Nat × Nat × Nat) :=
  fun (d, p, n) => do
    let b ← getB e s p
    storeB d b
    pure (d + 1, p + 1, n - 1)

/-- src/opt8/word.h:106-111 `*d++ = *s++` -/
def SQUEEZE (e : Endian) (d : Nat) (s : State) (p n : Nat) : Prog Unit := do
  let _ ← loop (n + 1) (fun (_, _, n) => decide (n > 0))
    (squeezeByte e s) (d, p, n)
  pure ()

/-- Body of the loop of `ABSORB`. -/
def absorbByte (e : Endian) : State × Nat × Nat × Nat → Prog (State × Nat × Nat × Nat) :=
  fun (s, p, d, n) => do
    let b ← loadB d
    let s ← xorB e s p b
    pure (s, p + 1, d + 1, n - 1)

/-- src/opt8/word.h:113-118 `*s++ ^= *d++` -/
def ABSORB (e : Endian) (s : State) (p d n : Nat) : Prog State := do
  let r ← loop (n + 1) (fun (_, _, _, n) => decide (n > 0))
    (absorbByte e) (s, p, d, n)
  pure r.1

/-- Body of the loop of `ENCRYPT`. -/
def encryptByte (e : Endian) : State × Nat × Nat × Nat × Nat → Prog (State × Nat × Nat × Nat × Nat) :=
  fun (s, p, c, m, n) => do
    let b ← loadB m
    let s ← xorB e s p b
    let o ← getB e s p
    storeB c o
    pure (s, p + 1, c + 1, m + 1, n - 1)

/-- src/opt8/word.h:120-125 `*c++ = (*s++ ^= *m++)` -/
def ENCRYPT (e : Endian) (s : State) (p c m n : Nat) : Prog State := do
  let r ← loop (n + 1) (fun (_, _, _, _, n) => decide (n > 0))
    (encryptByte e) (s, p, c, m, n)
  pure r.1

/-- Body of the loop of `DECRYPT`. -/
def decryptByte (e : Endian) : State × Nat × Nat × Nat × Nat → Prog (State × Nat × Nat × Nat × Nat) :=
  fun (s, p, m, c, n) => do
    let t ← loadB c
    let o ← getB e s p
    storeB m (o ^^^ t)
    let s ← setB e s p t
    pure (s, p + 1, m + 1, c + 1, n - 1)

/-- src/opt8/word.h:127-134 `t = *c++; *m++ = *s ^ t; *s++ = t` -/
def DECRYPT (e : Endian) (s : State) (p m c n : Nat) : Prog State := do
  let r ← loop (n + 1) (fun (_, _, _, _, n) => decide (n > 0))
    (decryptByte e) (s, p, m, c, n)
  pure r.1

/-- Body of the loop of `VERIFY`. -/
def verifyByte (e : Endian) (s : State) : Byte × Nat × Nat × Nat → Prog (Byte × Nat × Nat × Nat) :=
  fun (r, p, d, n) => do
    let o ← getB e s p
    let b ← loadB d
    pure (r ||| (o ^^^ b), p + 1, d + 1, n - 1)

/-- src/opt8/word.h:136-143 `r |= *s++ ^ *d++` -/
def VERIFY (e : Endian) (s : State) (p d n : Nat) : Prog Byte := do
  let r ← loop (n + 1) (fun (_, _, _, n) => decide (n > 0))
    (verifyByte e s) ((0 : Byte), p, d, n)
  pure r.1

/-! ## src/opt8/round.h -/

/-- One `XMUL(i, x)` of src/opt8/word.h:21-26 on the two byte arrays. -/
def XMUL (a : List Byte) (byte_rol x : Nat) (b : List Byte) (i : Nat) : List Byte :=
  let tmp : BitVec 16 := (a.getD i 0).setWidth 16 * (1 <<< x)
  let j := (byte_rol + i) &&& 7
  let b := b.set j (b.getD j 0 ^^^ tmp.setWidth 8)
  let j := (byte_rol + i + 1) &&& 7
  b.set j (b.getD j 0 ^^^ (tmp >>> 8).setWidth 8)

/-- src/opt8/word.h:28-42 -/
def ROR (e : Endian) (x : Word) (n : Nat) : Word :=
  let a := repr64 e x
  let b := repr64 e 0
  let bit_rol := (64 - n) &&& 7
  let byte_rol := (64 - n) >>> 3
  value64 e ([0, 1, 2, 3, 4, 5, 6, 7].foldl (XMUL a byte_rol bit_rol) b)

/-- src/opt8/round.h:10-22 -/
def LINEAR_LAYER (e : Endian) (s : State) (xtemp : Word) : State :=
  let temp := s.x2 ^^^ ROR e s.x2 (28 - 19)
  let s := { s with x0 := s.x2 ^^^ ROR e temp 19 }
  let temp := s.x4 ^^^ ROR e s.x4 (6 - 1)
  let s := { s with x2 := s.x4 ^^^ ROR e temp 1 }
  let temp := s.x1 ^^^ ROR e s.x1 (41 - 7)
  let s := { s with x4 := s.x1 ^^^ ROR e temp 7 }
  let temp := s.x3 ^^^ ROR e s.x3 (61 - 39)
  let s := { s with x1 := s.x3 ^^^ ROR e temp 39 }
  let temp := xtemp ^^^ ROR e xtemp (17 - 10)
  { s with x3 := xtemp ^^^ ROR e temp 10 }

/-- src/opt8/round.h:24-46 on the bytes `b[0][pos] … b[4][pos]`; the sixth result is `xtemp.b[pos]`. -/
def sliceBytes (b0 b1 b2 b3 b4 : Byte) : Byte × Byte × Byte × Byte × Byte × Byte :=
  let t0 := b1 ^^^ b2
  let t1 := b0 ^^^ b4
  let t2 := b3 ^^^ b4
  let b4 := b3 ||| ~~~b4
  let b4 := b4 ^^^ t0
  let b3 := b3 ^^^ b1
  let b3 := b3 ||| t0
  let b3 := b3 ^^^ t1
  let b2 := b2 ^^^ t1
  let b2 := b2 ||| b1
  let b2 := b2 ^^^ t2
  let b1 := b1 &&& ~~~t1
  let b1 := b1 ^^^ t2
  let b0 := b0 ||| t2
  (b0, b1, b2, b3, b4, b0 ^^^ t0)

/-- src/opt8/round.h:24-46: the bytes at position `pos` of the five words and of `xtemp`. -/
def NONLINEAR_LAYER (e : Endian) (q : State × Word) (pos : Nat) : State × Word :=
  let s := q.1
  let r := sliceBytes (byteOf e s.x0 pos) (byteOf e s.x1 pos) (byteOf e s.x2 pos) (byteOf e s.x3 pos)
    (byteOf e s.x4 pos)
  ({ x0 := putByte e s.x0 pos r.1, x1 := putByte e s.x1 pos r.2.1, x2 := putByte e s.x2 pos r.2.2.1,
     x3 := putByte e s.x3 pos r.2.2.2.1, x4 := putByte e s.x4 pos r.2.2.2.2.1 },
   putByte e q.2 pos r.2.2.2.2.2)

/-- src/opt8/round.h:48-58 -/
def ROUND (e : Endian) (s : State) (C : Byte) : Prog State := do
  let s := { s with x2 := putByte e s.x2 0 (byteOf e s.x2 0 ^^^ C) }
  let q ← forUp (fun i q => pure (NONLINEAR_LAYER e q i)) 8 0 (s, junk.x0)
  pure (LINEAR_LAYER e q.1 q.2)

/-- One iteration of `PROUNDS`: `ROUND(s, RC(i)); i += INC;` (`RC(i)` converted to `uint8_t`). -/
def roundStep (e : Endian) (q : Int × State) : Prog (Int × State) := do
  let s ← ROUND e q.2 (BitVec.ofInt 8 q.1)
  pure (q.1 + -0x0f, s)

/-- src/opt8/round.h:60-66, src/opt8/constants.h:87-91; more than 16 iterations count as
non-termination. -/
def PROUNDS (e : Endian) (nr : Nat) (s : State) : Prog State := do
  let q ← roundStep e ((((3 + nr) <<< 4 ||| (12 - nr) : Nat) : Int), s)
  let q ← loop 16 (fun q : Int × State => q.1 != 0x3c) (roundStep e) q
  pure q.2

/-- src/opt8/permutations.c:28 (`ASCON_INLINE_PERM 0`, `ASCON_UNROLL_LOOPS 0` in src/opt8/config.h) -/
def perms : Perms where
  P12 := fun e => PROUNDS e 12
  P8 := fun e => PROUNDS e 8

/-! ## Constants -/

/-- src/opt8/constants.h:34 (the file is the same text as src/constants.h) -/
def ASCON_128A_IV : Word := 0x00001000808c0001
/-- src/opt8/constants.h:44 -/
def ASCON_MAC_IV : Word := 0x0010200080cc0005
/-- src/opt8/constants.h:46 -/
def ASCON_PRF_IV : Word := 0x0010200000cc0006
/-- src/opt8/constants.h:48 -/
def ASCON_PRFS_IV : Word := 0x00000000800c0007
/-- src/opt8/constants.h:50-54 -/
def ASCON_HASH_IVS : State :=
  ⟨0x9b1e5494e934d681, 0x4bc3a01e333751d2, 0xae65396c6b34b81a, 0x3c7fd4a4d56a4db3, 0x1a5c464906c5976d⟩
/-- src/opt8/constants.h:62-66 -/
def ASCON_XOF_IVS : State :=
  ⟨0xda82ce768d9447eb, 0xcc7ce6c75f1ef969, 0xe7508fd780085631, 0x0ee0ea53416b58cc, 0xe0547524db6f0bde⟩

/-! ## src/opt8/aead.c (the same text as src/avr/aead.c) -/

/-- src/opt8/aead.c:14-23; the key is a `State` of which the first two words are used. -/
def ascon_loadkey (e : Endian) (k : Nat) : Prog State := do
  let key ← INSERT e junk 0 k 8
  INSERT e key 8 (k + 8) 8

/-- src/opt8/aead.c:25-45 -/
def ascon_initaead (V : Perms) (e : Endian) (key : State) (npub : Nat) : Prog State := do
  let s := junk
  let s := { s with x0 := ASCON_128A_IV }
  let s := { s with x1 := key.x0, x2 := key.x1 }
  let s ← INSERT e s 24 npub 8
  let s ← INSERT e s 32 (npub + 8) 8
  let s ← V.P12 e s
  memxor e s key 24 0 16

/-- src/opt8/aead.c:52-59: body of the associated-data loop. -/
def adStep (V : Perms) (e : Endian) : State × Nat × Nat → Prog (State × Nat × Nat) :=
  fun (s, ad, adlen) => do
    let s ← ABSORB e s 0 ad 8
    let s ← ABSORB e s 8 (ad + 8) 8
    let s ← V.P8 e s
    pure (s, ad + 16, adlen - 16)

/-- src/opt8/aead.c:61-69: final associated-data block, up to the permutation. -/
def adFinal (e : Endian) (s : State) (ad adlen : Nat) : Prog State := do
  let (s, i, ad, adlen) ← ifc (decide (adlen ≥ 8))
    (do
      let s ← ABSORB e s 0 ad 8
      pure (s, 1, ad + 8, adlen - 8))
    (pure (s, 0, ad, adlen))
  let s ← ABSORB e s (8 * i) ad adlen
  xorB e s (8 * i + adlen) PAD

/-- src/opt8/aead.c:47-76 -/
def ascon_adata (V : Perms) (e : Endian) (s : State) (ad adlen : Nat) : Prog State := do
  let s ← ifc (decide (adlen ≠ 0))
    (do
      let (s, ad, adlen) ←
        loop (adlen + 1) (fun (_, _, adlen) => decide (adlen ≥ 16)) (adStep V e) (s, ad, adlen)
      let s ← adFinal e s ad adlen
      V.P8 e s)
    (pure s)
  xorB e s 39 DSEP

/-- src/opt8/aead.c:82-90 -/
def encStep (V : Perms) (e : Endian) : State × Nat × Nat × Nat → Prog (State × Nat × Nat × Nat) :=
  fun (s, c, m, mlen) => do
    let s ← ENCRYPT e s 0 c m 8
    let s ← ENCRYPT e s 8 (c + 8) (m + 8) 8
    let s ← V.P8 e s
    pure (s, c + 16, m + 16, mlen - 16)

/-- src/opt8/aead.c:92-101 -/
def encFinal (e : Endian) (s : State) (c m mlen : Nat) : Prog State := do
  let (s, i, m, c, mlen) ← ifc (decide (mlen ≥ 8))
    (do
      let s ← ENCRYPT e s 0 c m 8
      pure (s, 1, m + 8, c + 8, mlen - 8))
    (pure (s, 0, m, c, mlen))
  let s ← ENCRYPT e s (8 * i) c m mlen
  xorB e s (8 * i + mlen) PAD

/-- src/opt8/aead.c:78-103 -/
def ascon_encrypt (V : Perms) (e : Endian) (s : State) (c m mlen : Nat) : Prog State := do
  let (s, c, m, mlen) ←
    loop (mlen + 1) (fun (_, _, _, mlen) => decide (mlen ≥ 16)) (encStep V e) (s, c, m, mlen)
  encFinal e s c m mlen

/-- src/opt8/aead.c:109-117 -/
def decStep (V : Perms) (e : Endian) : State × Nat × Nat × Nat → Prog (State × Nat × Nat × Nat) :=
  fun (s, m, c, clen) => do
    let s ← DECRYPT e s 0 m c 8
    let s ← DECRYPT e s 8 (m + 8) (c + 8) 8
    let s ← V.P8 e s
    pure (s, m + 16, c + 16, clen - 16)

/-- src/opt8/aead.c:119-128 -/
def decFinal (e : Endian) (s : State) (m c clen : Nat) : Prog State := do
  let (s, i, m, c, clen) ← ifc (decide (clen ≥ 8))
    (do
      let s ← DECRYPT e s 0 m c 8
      pure (s, 1, m + 8, c + 8, clen - 8))
    (pure (s, 0, m, c, clen))
  let s ← DECRYPT e s (8 * i) m c clen
  xorB e s (8 * i + clen) PAD

/-- src/opt8/aead.c:105-130 -/
def ascon_decrypt (V : Perms) (e : Endian) (s : State) (m c clen : Nat) : Prog State := do
  let (s, m, c, clen) ←
    loop (clen + 1) (fun (_, _, _, clen) => decide (clen ≥ 16)) (decStep V e) (s, m, c, clen)
  decFinal e s m c clen

/-- src/opt8/aead.c:132-148 -/
def ascon_final (V : Perms) (e : Endian) (s key : State) : Prog State := do
  let s ← memxor e s key 16 0 16
  let s ← V.P12 e s
  memxor e s key 24 0 16

/-- src/opt8/aead.c:150-153 -/
def ascon_gettag (e : Endian) (s : State) (t : Nat) : Prog Unit := do
  SQUEEZE e t s 24 8
  SQUEEZE e (t + 8) s 32 8

/-- src/opt8/aead.c:155-161: `((((int)r - 1) >> 8) & 1) - 1` -/
def ascon_verify (e : Endian) (s : State) (t : Nat) : Prog Int := do
  let r : Byte := 0
  let v ← VERIFY e s 24 t 8
  let r := r ||| v
  let v ← VERIFY e s 32 (t + 8) 8
  let r := r ||| v
  pure (((((r.setWidth 32 - 1 : BitVec 32).sshiftRight 8) &&& 1) - 1 : BitVec 32).toInt)

/-- src/opt8/aead.c:163-175 -/
def ascon_aead_encrypt (V : Perms) (e : Endian) (t c m mlen ad adlen npub k : Nat) : Prog Int := do
  let key ← ascon_loadkey e k
  let s ← ascon_initaead V e key npub
  let s ← ascon_adata V e s ad adlen
  let s ← ascon_encrypt V e s c m mlen
  let s ← ascon_final V e s key
  ascon_gettag e s t
  pure 0

/-- src/opt8/aead.c:177-188 -/
def ascon_aead_decrypt (V : Perms) (e : Endian) (m t c clen ad adlen npub k : Nat) : Prog Int := do
  let key ← ascon_loadkey e k
  let s ← ascon_initaead V e key npub
  let s ← ascon_adata V e s ad adlen
  let s ← ascon_decrypt V e s m c clen
  let s ← ascon_final V e s key
  ascon_verify e s t

/-- src/opt8/aead.c:190-210 -/
def crypto_aead_encrypt (V : Perms) (e : Endian) (_sp c clen m mlen ad adlen _nsec npub k : Nat) :
    Prog Int := do
  store64 e clen (BitVec.ofNat 64 (mlen + 16))
  let t := c + mlen
  ascon_aead_encrypt V e t c m mlen ad adlen npub k

/-- src/opt8/aead.c:212-233 -/
def crypto_aead_decrypt (V : Perms) (e : Endian) (_sp m mlen _nsec c clen ad adlen npub k : Nat) :
    Prog Int :=
  ifc (decide (clen < 16)) (pure (-1)) (do
    store64 e mlen (BitVec.ofNat 64 (clen - 16))
    let t := c + (clen - 16)
    ascon_aead_decrypt V e m t c (clen - 16) ad adlen npub k)

/-! ## src/opt8/hash.c and src/avr/hash.c

The two files differ in line 48 only: `s->b[0][inlen] ^= PAD()` in opt8, `s->b[0][7 - inlen] ^= PAD()` in
avr.  The parameter `padAt` is the index expression. -/

/-- The index expression of src/opt8/hash.c:48. -/
def opt8PadAt (inlen : Nat) : Nat := inlen

/-- The index expression of src/avr/hash.c:48. -/
def avrPadAt (inlen : Nat) : Nat := 7 - inlen

/-- src/opt8/hash.c:39-45 -/
def hashAbsorbStep (V : Perms) (e : Endian) : State × Nat × Nat → Prog (State × Nat × Nat) :=
  fun (s, inp, inlen) => do
    let s ← ABSORB e s 0 inp 8
    let s ← V.P12 e s
    pure (s, inp + 8, inlen - 8)

/-- src/opt8/hash.c:36-50, src/avr/hash.c:36-50 -/
def ascon_absorb (V : Perms) (padAt : Nat → Nat) (e : Endian) (s : State) (inp inlen : Nat) : Prog State := do
  let (s, inp, inlen) ←
    loop (inlen + 1) (fun (_, _, inlen) => decide (inlen ≥ 8)) (hashAbsorbStep V e) (s, inp, inlen)
  let s ← ABSORB e s 0 inp inlen
  xorB e s (padAt inlen) PAD

/-- src/opt8/hash.c:56-62 -/
def hashSqueezeStep (V : Perms) (e : Endian) : State × Nat × Nat → Prog (State × Nat × Nat) :=
  fun (s, out, outlen) => do
    SQUEEZE e out s 0 8
    let s ← V.P12 e s
    pure (s, out + 8, outlen - 8)

/-- src/opt8/hash.c:52-66 -/
def ascon_squeeze (V : Perms) (e : Endian) (s : State) (out outlen : Nat) : Prog Unit := do
  let s ← V.P12 e s
  let (s, out, outlen) ←
    loop (outlen + 1) (fun (_, _, outlen) => decide (outlen > 8)) (hashSqueezeStep V e) (s, out, outlen)
  SQUEEZE e out s 0 outlen

/-- src/opt8/hash.c:68-77 (`ascon_inithash`: lines 24-34, not `ASCON_PRINT_STATE`) -/
def ascon_xof (V : Perms) (padAt : Nat → Nat) (ivs : State) (e : Endian) (_sp out outlen inp inlen : Nat) :
    Prog Int := do
  let s := ivs
  let s ← ascon_absorb V padAt e s inp inlen
  ascon_squeeze V e s out outlen
  pure 0

/-- src/opt8/hash.c:79-82 in asconhash256 (CRYPTO_BYTES = 32) -/
def crypto_hash_hash256 (V : Perms) (padAt : Nat → Nat) (e : Endian) (sp out inp len : Nat) : Prog Int :=
  ascon_xof V padAt ASCON_HASH_IVS e sp out 32 inp len

/-- `ascon_xof` in asconxof128 -/
def ascon_xof_xof128 (V : Perms) (padAt : Nat → Nat) (e : Endian) (sp out outlen inp len : Nat) : Prog Int :=
  ascon_xof V padAt ASCON_XOF_IVS e sp out outlen inp len

/-- src/opt8/hash.c:79-82 in asconxof128 (CRYPTO_BYTES = 64) -/
def crypto_hash_xof128 (V : Perms) (padAt : Nat → Nat) (e : Endian) (sp out inp len : Nat) : Prog Int :=
  ascon_xof V padAt ASCON_XOF_IVS e sp out 64 inp len

/-! ## src/opt8/prf.c and src/avr/prf.c

The two files differ in the index of the padding bit (`inlen` / `7 - inlen`) and in the position of the
domain separation (`s.b[4][7]` / `s.b[4][0]`); src/avr/prf.c:20-22 also loads the key words once more into
two unused variables, which the model leaves out. -/

/-- src/opt8/prf.c:39-46 (ir = 32) -/
def prfAbsorbStep (V : Perms) (e : Endian) : State × Nat × Nat × Nat → Prog (State × Nat × Nat × Nat) :=
  fun (s, i, inp, inlen) => do
    let s ← ABSORB e s (8 * i) inp 8
    let i := i + 1
    let i ← ifc (decide (i = 32 / 8)) (pure 0) (pure i)
    let s ← ifc (decide (i = 0)) (V.P12 e s) (pure s)
    pure (s, i, inp + 8, inlen - 8)

/-- src/opt8/prf.c:37-52, src/avr/prf.c:40-55 -/
def prfAbsorb (V : Perms) (padAt : Nat → Nat) (dsepAt : Nat) (e : Endian) (s : State) (inp inlen : Nat) :
    Prog State := do
  let (s, i, inp, inlen) ←
    loop (inlen + 1) (fun (_, _, _, inlen) => decide (inlen ≥ 8)) (prfAbsorbStep V e) (s, 0, inp, inlen)
  let s ← ABSORB e s (8 * i) inp inlen
  let s ← xorB e s (8 * i + padAt inlen) PAD
  xorB e s (8 * 4 + dsepAt) DSEP

/-- src/opt8/prf.c:59-66 (or = 16) -/
def prfSqueezeStep (V : Perms) (e : Endian) : State × Nat × Nat × Nat → Prog (State × Nat × Nat × Nat) :=
  fun (s, i, out, outlen) => do
    SQUEEZE e out s (8 * i) 8
    let i := i + 1
    let i ← ifc (decide (i = 16 / 8)) (pure 0) (pure i)
    let s ← ifc (decide (i = 0)) (V.P12 e s) (pure s)
    pure (s, i, out + 8, outlen - 8)

/-- src/opt8/prf.c:56-68 -/
def prfSqueeze (V : Perms) (e : Endian) (s : State) (out outlen : Nat) : Prog Unit := do
  let s ← V.P12 e s
  let (s, i, out, outlen) ←
    loop (outlen + 1) (fun (_, _, _, outlen) => decide (outlen > 8)) (prfSqueezeStep V e) (s, 0, out, outlen)
  SQUEEZE e out s (8 * i) outlen

/-- src/opt8/prf.c:10-73, for `CRYPTO_BYTES = n` and the IV selected in lines 22-25 -/
def crypto_prf_with (V : Perms) (padAt : Nat → Nat) (dsepAt : Nat) (iv : Word) (n : Nat) (e : Endian)
    (_sp out outlen inp inlen k : Nat) : Prog Int :=
  ifc (decide (n ≠ 0 ∧ outlen > n)) (pure (-1)) (do
    let s := junk
    let s := { s with x0 := iv }
    let s ← INSERT e s 8 k 8
    let s ← INSERT e s 16 (k + 8) 8
    let s := { s with x3 := 0 }
    let s := { s with x4 := 0 }
    let s ← V.P12 e s
    let s ← prfAbsorb V padAt dsepAt e s inp inlen
    prfSqueeze V e s out outlen
    pure 0)

/-- asconmacv13 -/
def mac_crypto_prf (V : Perms) (padAt : Nat → Nat) (dsepAt : Nat) := crypto_prf_with V padAt dsepAt ASCON_MAC_IV 16

/-- asconprfv13 -/
def prf_crypto_prf (V : Perms) (padAt : Nat → Nat) (dsepAt : Nat) := crypto_prf_with V padAt dsepAt ASCON_PRF_IV 64

/-- src/opt8/prf.c:75-78 in asconmacv13 (CRYPTO_BYTES = 16) -/
def mac_crypto_auth (V : Perms) (padAt : Nat → Nat) (dsepAt : Nat) (e : Endian) (sp out inp len k : Nat) : Prog Int :=
  mac_crypto_prf V padAt dsepAt e sp out 16 inp len k

/-- src/opt8/prf.c:75-78 in asconprfv13 (CRYPTO_BYTES = 64) -/
def prf_crypto_auth (V : Perms) (padAt : Nat → Nat) (dsepAt : Nat) (e : Endian) (sp out inp len k : Nat) : Prog Int :=
  prf_crypto_prf V padAt dsepAt e sp out 64 inp len k

/-- src/opt8/prf.c:80-88: `uint8_t tag[n]` lives at `sp`; the comparison (lines 86-87) is
statement by statement that of ref/prf.c. -/
def verify_with (f : Endian → Nat → Nat → Nat → Nat → Nat → Nat → Prog Int) (n : Nat)
    (e : Endian) (sp h inp len k : Nat) : Prog Int := do
  .alloc sp n (.ret ())
  let _ ← f e (sp + n) sp n inp len k
  let r ← Ref.tagDiff n h sp
  .free sp n (.ret ())
  pure r

/-- asconmacv13 -/
def mac_crypto_auth_verify (V : Perms) (padAt : Nat → Nat) (dsepAt : Nat) := verify_with (mac_crypto_prf V padAt dsepAt) 16

/-- asconprfv13 -/
def prf_crypto_auth_verify (V : Perms) (padAt : Nat → Nat) (dsepAt : Nat) := verify_with (prf_crypto_prf V padAt dsepAt) 64

/-! ## src/opt8/prfs.c (src/avr/prfs.c differs in a comment only) -/

/-- src/opt8/prfs.c:10-48 -/
def prfs_crypto_prf (V : Perms) (e : Endian) (_sp out outlen inp inlen k : Nat) : Prog Int :=
  ifc (decide (inlen > 16 ∨ outlen > 16 ∨ outlen > 16)) (pure (-1)) (do
    let s := junk
    let s := { s with x0 := ASCON_PRFS_IV ^^^ PRFS_MLEN (BitVec.ofNat 64 inlen) }
    let s ← INSERT e s 8 k 8
    let s ← INSERT e s 16 (k + 8) 8
    let s := { s with x3 := 0 }
    let s := { s with x4 := 0 }
    let s ← ifc (decide (inlen > 8))
      (do
        let s ← ABSORB e s 24 inp 8
        ABSORB e s 32 (inp + 8) (inlen - 8))
      (ifc (decide (inlen ≠ 0)) (ABSORB e s 24 inp inlen) (pure s))
    let s ← V.P12 e s
    let s ← ABSORB e s 24 k 8
    let s ← ABSORB e s 32 (k + 8) 8
    ifc (decide (outlen > 8))
      (do
        SQUEEZE e out s 24 8
        SQUEEZE e (out + 8) s 32 (outlen - 8))
      (ifc (decide (outlen ≠ 0)) (SQUEEZE e out s 24 outlen) (pure ()))
    pure 0)

/-- src/opt8/prfs.c:50-53 (CRYPTO_BYTES = 16) -/
def prfs_crypto_auth (V : Perms) (e : Endian) (sp out inp len k : Nat) : Prog Int :=
  prfs_crypto_prf V e sp out 16 inp len k

/-- src/opt8/prfs.c:55-64 -/
def prfs_crypto_auth_verify (V : Perms) (e : Endian) (sp h inp len k : Nat) : Prog Int :=
  ifc (decide (len > 16)) (pure (-1)) (verify_with (prfs_crypto_prf V) 16 e sp h inp len k)

/-! ## src/opt8_lowsize (the avr_lowsize directories contain the same text) -/

/-- Which of `ASCON_AEAD_RATE` (`hasAead`) and `ASCON_HASH_ROUNDS` (`hasHash`) the api.h of the directory
defines: crypto_aead/asconaead128, crypto_hash/{asconhash256,asconxof128},
crypto_aead_hash/asconaeadxof128. -/
inductive Cfg where
  | aead
  | hash
  | comb
deriving DecidableEq, Repr

def Cfg.hasAead : Cfg → Bool
  | .hash => false
  | _ => true

def Cfg.hasHash : Cfg → Bool
  | .aead => false
  | _ => true

/-- src/opt8_lowsize/ascon.h: the mode values. -/
def ASCON_ABSORB : Nat := 0x1
def ASCON_SQUEEZE : Nat := 0x2
def ASCON_INSERT : Nat := 0x4
def ASCON_HASH : Nat := 0x8
def ASCON_ENCRYPT : Nat := ASCON_ABSORB ||| ASCON_SQUEEZE
def ASCON_DECRYPT : Nat := ASCON_ABSORB ||| ASCON_SQUEEZE ||| ASCON_INSERT

/-- src/opt8_lowsize/update.c:16-26: `(nr, rate)` -/
def nrRate (cfg : Cfg) (mode : Nat) : Prog (Nat × Nat) :=
  match cfg with
  | .aead => pure (8, 16)
  | .hash => pure (12, 8)
  | .comb => do
    let nr ← ifc ((mode &&& ASCON_HASH) != 0) (pure 12) (pure 8)
    let rate ← ifc ((mode &&& ASCON_HASH) != 0) (pure 8) (pure 16)
    pure (nr, rate)

/-- `P(s, nr)` -/
def permNr (V : Perms) (e : Endian) (nr : Nat) (s : State) : Prog State :=
  if nr = 12 then V.P12 e s else V.P8 e s

/-- `if (c) s' = t` -/
def when (c : Bool) (s : State) (t : Prog State) : Prog State := ifc c t (pure s)

/-- `if (c) t` -/
def whenU (c : Bool) (t : Prog Unit) : Prog Unit := ifc c t (pure ())

/-- src/opt8_lowsize/update.c:28-52: body of the loop (s, c, m, mlen). -/
def updStep (V : Perms) (cfg : Cfg) (mode nr rate : Nat) (e : Endian) :
    State × Nat × Nat × Nat → Prog (State × Nat × Nat × Nat) :=
  fun (s, c, m, mlen) => do
    let s ← when (decide (mode = 1 ∨ mode = 9)) s (ABSORB e s 0 m 8)
    if cfg.hasHash then
      whenU (decide (mode = 2 ∨ mode = 10)) (SQUEEZE e c s 0 8)
    let s ←
      if cfg.hasAead then do
        let s ← when (decide (mode = 3)) s (ENCRYPT e s 0 c m 8)
        let s ← when (decide (mode = 7)) s (DECRYPT e s 0 c m 8)
        let s ← when (decide (mode = 1)) s (ABSORB e s 8 (m + 8) 8)
        let s ← when (decide (mode = 3)) s (ENCRYPT e s 8 (c + 8) (m + 8) 8)
        when (decide (mode = 7)) s (DECRYPT e s 8 (c + 8) (m + 8) 8)
      else pure s
    let s ←
      if cfg.hasHash then when (! decide (mode = 10 ∧ mlen = rate)) s (permNr V e nr s)
      else permNr V e nr s
    pure (s, c + rate, m + rate, mlen - rate)

/-- src/opt8_lowsize/update.c:53-75: the final block. -/
def updFinal (cfg : Cfg) (mode : Nat) (e : Endian) : State × Nat × Nat × Nat → Prog State :=
  fun (s, c, m, mlen) => do
    let (s, i, c, m, mlen) ←
      if cfg.hasAead then do
        let (s, i, c, m, mlen) ← ifc (decide (mlen ≥ 8))
          (do
            let s ← when (decide (mode = 1)) s (ABSORB e s 0 m 8)
            let s ← when (decide (mode = 3)) s (ENCRYPT e s 0 c m 8)
            let s ← when (decide (mode = 7)) s (DECRYPT e s 0 c m 8)
            pure (s, 1, c + 8, m + 8, mlen - 8))
          (pure (s, 0, c, m, mlen))
        let s ← when (decide (mode = 3)) s (ENCRYPT e s (8 * i) c m mlen)
        let s ← when (decide (mode = 7)) s (DECRYPT e s (8 * i) c m mlen)
        pure (s, i, c, m, mlen)
      else pure (s, 0, c, m, mlen)
    let s ← when (decide (mode = 1 ∨ mode = 9)) s (ABSORB e s (8 * i) m mlen)
    if cfg.hasHash then
      whenU (decide (mode = 2 ∨ mode = 10)) (SQUEEZE e c s 0 mlen)
    xorB e s (8 * i + mlen) PAD

/-- src/opt8_lowsize/update.c:14-76 -/
def ascon_update (V : Perms) (cfg : Cfg) (e : Endian) (s : State) (c m mlen mode : Nat) : Prog State := do
  let (nr, rate) ← nrRate cfg mode
  let r ← loop (mlen + 1) (fun (_, _, _, mlen) => decide (mlen ≥ rate)) (updStep V cfg mode nr rate e)
    (s, c, m, mlen)
  updFinal cfg mode e r

/-- src/opt8_lowsize/aead.c:86-91 and 106-111 -/
def lowAdata (V : Perms) (cfg : Cfg) (e : Endian) (s : State) (ad adlen : Nat) : Prog State := do
  let s ← ifc (decide (adlen ≠ 0))
    (do
      let s ← ascon_update V cfg e s 0 ad adlen ASCON_ABSORB
      V.P8 e s)
    (pure s)
  xorB e s 39 DSEP

/-- src/opt8_lowsize/aead.c:78-96 (`ascon_loadkey`, `ascon_initaead`, `ascon_final`, `ascon_gettag`,
`ascon_verify`, lines 14-76, are the same text as in src/opt8/aead.c) -/
def low_ascon_aead_encrypt (V : Perms) (cfg : Cfg) (e : Endian) (t c m mlen ad adlen npub k : Nat) : Prog Int := do
  let key ← ascon_loadkey e k
  let s ← ascon_initaead V e key npub
  let s ← lowAdata V cfg e s ad adlen
  let s ← ascon_update V cfg e s c m mlen ASCON_ENCRYPT
  let s ← ascon_final V e s key
  ascon_gettag e s t
  pure 0

/-- src/opt8_lowsize/aead.c:98-115 -/
def low_ascon_aead_decrypt (V : Perms) (cfg : Cfg) (e : Endian) (m t c clen ad adlen npub k : Nat) : Prog Int := do
  let key ← ascon_loadkey e k
  let s ← ascon_initaead V e key npub
  let s ← lowAdata V cfg e s ad adlen
  let s ← ascon_update V cfg e s m c clen ASCON_DECRYPT
  let s ← ascon_final V e s key
  ascon_verify e s t

/-- src/opt8_lowsize/aead.c:117-137 -/
def low_crypto_aead_encrypt (V : Perms) (cfg : Cfg) (e : Endian)
    (_sp c clen m mlen ad adlen _nsec npub k : Nat) : Prog Int := do
  store64 e clen (BitVec.ofNat 64 (mlen + 16))
  let t := c + mlen
  low_ascon_aead_encrypt V cfg e t c m mlen ad adlen npub k

/-- src/opt8_lowsize/aead.c:139-160 -/
def low_crypto_aead_decrypt (V : Perms) (cfg : Cfg) (e : Endian)
    (_sp m mlen _nsec c clen ad adlen npub k : Nat) : Prog Int :=
  ifc (decide (clen < 16)) (pure (-1)) (do
    store64 e mlen (BitVec.ofNat 64 (clen - 16))
    let t := c + (clen - 16)
    low_ascon_aead_decrypt V cfg e m t c (clen - 16) ad adlen npub k)

/-- src/opt8_lowsize/hash.c:29-40 (`ascon_inithash`: lines 17-27) -/
def low_ascon_xof (V : Perms) (cfg : Cfg) (ivs : State) (e : Endian) (_sp out outlen inp inlen : Nat) :
    Prog Int := do
  let s := ivs
  let s ← ascon_update V cfg e s 0 inp inlen (ASCON_HASH ||| ASCON_ABSORB)
  let s ← V.P12 e s
  let _ ← ascon_update V cfg e s out 0 outlen (ASCON_HASH ||| ASCON_SQUEEZE)
  pure 0

/-- src/opt8_lowsize/hash.c:42-45 in asconhash256 (CRYPTO_BYTES = 32) -/
def low_crypto_hash_hash256 (V : Perms) (e : Endian) (sp out inp len : Nat) : Prog Int :=
  low_ascon_xof V .hash ASCON_HASH_IVS e sp out 32 inp len

/-- `ascon_xof` in asconxof128 (`cfg = hash`) and asconaeadxof128 (`cfg = comb`) -/
def low_ascon_xof_xof128 (V : Perms) (cfg : Cfg) (e : Endian) (sp out outlen inp len : Nat) : Prog Int :=
  low_ascon_xof V cfg ASCON_XOF_IVS e sp out outlen inp len

/-- src/opt8_lowsize/hash.c:42-45 in asconxof128 and asconaeadxof128 (CRYPTO_BYTES = 64) -/
def low_crypto_hash_xof128 (V : Perms) (cfg : Cfg) (e : Endian) (sp out inp len : Nat) : Prog Int :=
  low_ascon_xof V cfg ASCON_XOF_IVS e sp out 64 inp len

end Ascon.Opt8
