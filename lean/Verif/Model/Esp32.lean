import Verif.Model.Masked
import Verif.Model.RefAead
import Verif.Model.GenCore
import Verif.C.Contracts
/-!
# Model of the implementation esp32 (src/esp32/*)

The copies in crypto_aead/asconaead128/esp32, crypto_aead_hash/asconaeadxof128/esp32 (AEAD and XOF) and
crypto_hash/{asconhash256,asconxof128}/esp32 are identical up to api.h.  Only the branches for
`ASCON_AEAD_RATE == 16`, `CRYPTO_KEYBYTES == 16` and `ASCON_HASH_ROUNDS == 12` are compiled.

* `unsigned long` has `lw` bits (a parameter: 32 on ILP32 and LLP64 targets, 64 on LP64 targets); the conversion of a
  length from `unsigned long long` is reduction modulo `2^lw`.
* `uint32x2_t` is a union of `uint64_t x` and two `uint32_t` (`l` at the lower address): modelled by `x`; the parts are
  computed from it according to the byte order.
* The local `tmp` accessed as `uint8_t* bytes` is modelled by the list of its bytes.  `ascon_state_t s` of the callers
  lives in a Lean variable.
* Accesses through `(uint32_t*)p` are undefined unless the address is a multiple of `al`, the alignment of `uint32_t`
  (a parameter; C17 6.3.2.3p7, 6.5.3.2p4).  `al = 1` is a target without alignment requirement.
* `out += 16` on a null pointer (associated data) just adds numbers.
-/

namespace Ascon.Esp32

open Ascon.C
open Ascon.C.Prog (require ifc loop forUp loadB storeB loadN storeN store64 load64)
open Ascon.Masked (U32 load32 store32)
open Ascon.Gen (U64LE)

/-- Conversion to `unsigned long`. -/
def ulong (lw n : Nat) : Nat := n % 2 ^ lw

/-! ## ascon.h -/

/-- ascon.h:6-12 `w.l` (the four bytes at the lower address) -/
def lPart : Endian → Word → U32
  | .little, x => x.setWidth 32
  | .big, x => (x >>> 32).setWidth 32

/-- ascon.h:6-12 `w.h` -/
def hPart : Endian → Word → U32
  | .little, x => (x >>> 32).setWidth 32
  | .big, x => x.setWidth 32

/-- ascon.h:6-12 the union with the given parts -/
def union : Endian → (l h : U32) → Word
  | .little, l, h => h.setWidth 64 <<< 32 ||| l.setWidth 64
  | .big, l, h => l.setWidth 64 <<< 32 ||| h.setWidth 64

/-- `d.h ^= t.h; d.l ^= t.l;` -/
def xorParts (e : Endian) (d t : Word) : Word := union e (lPart e d ^^^ lPart e t) (hPart e d ^^^ hPart e t)

/-- `((uint32_t*)p)[0]` for a `p` of any alignment -/
def load32A (al : Nat) (e : Endian) (p : Nat) : Prog U32 := do
  require (decide (p % al = 0))
  load32 e p

/-- `((uint32_t*)p)[0] = w` -/
def store32A (al : Nat) (e : Endian) (p : Nat) (w : U32) : Prog Unit := do
  require (decide (p % al = 0))
  store32 e p w

/-- `t.l = ((uint32_t*)p)[0]; t.h = ((uint32_t*)p)[1]; t.x = U64LE(t.x);` -/
def loadPair (al : Nat) (e : Endian) (p : Nat) : Prog Word := do
  let l ← load32A al e p
  let h ← load32A al e (p + 4)
  pure (U64LE e (union e l h))

/-- `t = w; t.x = U64LE(t.x); ((uint32_t*)p)[0] = t.l; ((uint32_t*)p)[1] = t.h;` -/
def storePair (al : Nat) (e : Endian) (p : Nat) (w : Word) : Prog Unit := do
  let t := U64LE e w
  store32A al e p (lPart e t)
  store32A al e (p + 4) (hPart e t)

/-! ## permutations.c -/

/-- permutations.c:9-31; the new values of `x0 … x4` (`r0` becomes `x0`; `t0`, `t1`, `t2` are temporaries). -/
def SBOX (x0 x1 x2 x3 x4 : U32) : U32 × U32 × U32 × U32 × U32 :=
  let t1 := x0 ^^^ x4
  let t2 := x3 ^^^ x4
  let t0 : U32 := -1
  let x4 := x4 ^^^ t0
  let t0 := x1 ^^^ x2
  let x4 := x4 ||| x3
  let x4 := x4 ^^^ t0
  let x3 := x3 ^^^ x1
  let x3 := x3 ||| t0
  let x3 := x3 ^^^ t1
  let x2 := x2 ^^^ t1
  let x2 := x2 ||| x1
  let x2 := x2 ^^^ t2
  let x0 := x0 ||| t2
  let x0 := x0 ^^^ t0
  let t0 : U32 := -1
  let t1 := t1 ^^^ t0
  let x1 := x1 &&& t1
  let x1 := x1 ^^^ t2
  (x0, x1, x2, x3, x4)

/-- permutations.c:33-36 `SRC(o, h, l, amt)`: the new value of `o` -/
def SRC (h l : U32) (amt : Nat) : U32 := ((h.setWidth 64 <<< 32 ||| l.setWidth 64) >>> amt).setWidth 32

/-- permutations.c:38-48: the new values of `(dl, dh)`.  The macro also overwrites `sh`, which is the operand `h1` or
`l1` of the last `SRC` and is not used again before it is assigned. -/
def LINEAR (sl sh sl0 sh0 : U32) (r0 : Nat) (sl1 sh1 : U32) (r1 : Nat) : U32 × U32 :=
  let dl := SRC sh0 sl0 r0
  let dh := SRC sl0 sh0 r0
  let dl := dl ^^^ sl
  let dh := dh ^^^ sh
  let t0 := SRC sh1 sl1 r1
  let sh := SRC sl1 sh1 r1
  let dl := dl ^^^ t0
  let dh := dh ^^^ sh
  (dl, dh)

/-- The ten local variables of `P` (permutations.c:59-63). -/
structure Regs where
  x0h : U32
  x0l : U32
  x1h : U32
  x1l : U32
  x2h : U32
  x2l : U32
  x3h : U32
  x3l : U32
  x4h : U32
  x4l : U32

/-- permutations.c:69-78: one round.  In the first `SBOX`, `r0` and `t1` are both `t0l`; in the second, `r0` and `t0` are
both `t0h` and `t1` is `x0l` (no longer needed): in both, `r0` is assigned last. -/
def roundBody (r : Regs) (rnd : U32) : Regs :=
  let x2l := r.x2l ^^^ rnd
  let (x0l, x1l, x2l, x3l, x4l) := SBOX r.x0l r.x1l x2l r.x3l r.x4l
  let t0l := x0l
  let (x0h, x1h, x2h, x3h, x4h) := SBOX r.x0h r.x1h r.x2h r.x3h r.x4h
  let t0h := x0h
  let (x0l, x0h) := LINEAR x2l x2h x2l x2h 19 x2l x2h 28
  let (x2l, x2h) := LINEAR x4l x4h x4l x4h 1 x4l x4h 6
  let (x4l, x4h) := LINEAR x1l x1h x1l x1h 7 x1h x1l 9
  let (x1l, x1h) := LINEAR x3l x3h x3h x3l 29 x3h x3l 7
  let (x3l, x3h) := LINEAR t0l t0h t0l t0h 10 t0l t0h 17
  { x0h, x0l, x1h, x1l, x2h, x2l, x3h, x3l, x4h, x4l }

/-- permutations.c:50-56 (`lo`, `hi`) and 59-63: `hi` and `lo` are the two halves of the word, for either byte order. -/
def loPart (e : Endian) (x : Word) : U32 := match e with | .little => lPart .little x | .big => hPart .big x
def hiPart (e : Endian) (x : Word) : U32 := match e with | .little => hPart .little x | .big => lPart .big x
/-- `w.hi = h; w.lo = l;` -/
def setParts (e : Endian) (h l : U32) : Word := match e with | .little => union .little l h | .big => union .big h l

/-- permutations.c:59-63 -/
def loadRegs (e : Endian) (s : State) : Regs :=
  ⟨hiPart e s.x0, loPart e s.x0, hiPart e s.x1, loPart e s.x1, hiPart e s.x2, loPart e s.x2, hiPart e s.x3,
    loPart e s.x3, hiPart e s.x4, loPart e s.x4⟩

/-- permutations.c:98-107 -/
def storeRegs (e : Endian) (r : Regs) : State :=
  ⟨setParts e r.x0h r.x0l, setParts e r.x1h r.x1l, setParts e r.x2h r.x2l, setParts e r.x3h r.x3l,
    setParts e r.x4h r.x4l⟩

/-- permutations.c:58-108; the loop body is executed at most 12 times (`rnd` starts at 0xf0). -/
def P (e : Endian) (s : State) (round_const : Byte) : Prog State := do
  let r ← loop 20 (fun q : Regs × U32 => decide (0x4b ≤ q.2.toNat))
    (fun q => pure (roundBody q.1 q.2, q.2 - 15)) (loadRegs e s, round_const.setWidth 32)
  pure (storeRegs e r.1)

/-- core.c:8, hash.c:23 -/
def PA_START_ROUND : Byte := 0xf0
/-- core.c:13 (ASCON_AEAD_RATE == 16) -/
def PB_START_ROUND : Byte := 0xb4

/-! ## core.c -/

/-- core.h:8-10 -/
inductive Mode where
  | AD
  | ENC
  | DEC
deriving DecidableEq

/-- core.c:24-66: body of the loop; the state is `(s, out, in, len)`. -/
def duplexStep (al : Nat) (e : Endian) (mode : Mode) : State × Nat × Nat × Nat → Prog (State × Nat × Nat × Nat) :=
  fun (s, out, inp, len) => do
    let t0 ← loadPair al e inp
    let s := { s with x0 := xorParts e s.x0 t0 }
    let t1 ← loadPair al e (inp + 8)
    let s := { s with x1 := xorParts e s.x1 t1 }
    ifc (decide (mode ≠ .AD))
      (do
        storePair al e out s.x0
        storePair al e (out + 8) s.x1)
      (pure ())
    let s ← ifc (decide (mode = .DEC)) (pure { s with x0 := t0, x1 := t1 }) (pure s)
    let s ← P e s PB_START_ROUND
    pure (s, out + 16, inp + 16, len - 16)

/-- `memcpy(bytes, src, n)` for the bytes `bs` read from `src`. -/
def overwrite (bytes bs : List Byte) : List Byte := bs ++ bytes.drop bs.length

/-- core.c:68-103: `bytes` are the 16 bytes of `tmp`. -/
def duplexFinal (e : Endian) (mode : Mode) : State × Nat × Nat × Nat → Prog State :=
  fun (s, out, inp, len) => do
    let bytes : List Byte := List.replicate 16 0
    let bs ← loadN inp len
    let bytes := overwrite bytes bs
    require (decide (len < 16))
    let bytes := bytes.set len (bytes.getD len 0 ^^^ 0x01)
    let t0 := U64LE e (value64 e (bytes.take 8))
    let s := { s with x0 := xorParts e s.x0 t0 }
    let t1 := U64LE e (value64 e (bytes.drop 8))
    let s := { s with x1 := xorParts e s.x1 t1 }
    let bytes ← ifc (decide (mode ≠ .AD))
      (do
        let bytes := repr64 e (U64LE e s.x0) ++ repr64 e (U64LE e s.x1)
        storeN out (bytes.take len)
        pure bytes)
      (pure (repr64 e t0 ++ repr64 e t1))
    ifc (decide (mode = .DEC))
      (do
        let bs ← loadN inp len
        let bytes := overwrite bytes bs
        let t0 := U64LE e (value64 e (bytes.take 8))
        let t1 := U64LE e (value64 e (bytes.drop 8))
        pure { s with x0 := t0, x1 := t1 })
      (pure s)

/-- core.c:16-107; `len` is `unsigned long`. -/
def ascon_duplex (al : Nat) (e : Endian) (s : State) (out inp len : Nat) (mode : Mode) : Prog State := do
  let r ← loop (len + 1) (fun (_, _, _, len) => decide (len ≥ 16)) (duplexStep al e mode) (s, out, inp, len)
  duplexFinal e mode r

/-- constants.h: ASCON_128A_IV -/
def ASCON_128A_IV : Word := 0x00001000808c0001

/-- core.c:109-249; `tlen` and `adlen` are `unsigned long long`. -/
def ascon_core (al : Nat) (e : Endian) (lw out inp tlen ad adlen npub k : Nat) (mode : Mode) : Prog State := do
  let K0 ← loadPair al e k
  let K1 ← loadPair al e (k + 8)
  let N0 ← loadPair al e npub
  let N1 ← loadPair al e (npub + 8)
  let s : State := ⟨ASCON_128A_IV, union e (lPart e K0) (hPart e K0), union e (lPart e K1) (hPart e K1),
    union e (lPart e N0) (hPart e N0), union e (lPart e N1) (hPart e N1)⟩
  let s ← P e s PA_START_ROUND
  let s := { s with x3 := xorParts e s.x3 K0 }
  let s := { s with x4 := xorParts e s.x4 K1 }
  let s ← ifc (decide (adlen ≠ 0))
    (do
      let s ← ascon_duplex al e s 0 ad (ulong lw adlen) .AD
      P e s PB_START_ROUND)
    (pure s)
  let s := { s with x4 := s.x4 ^^^ 0x8000000000000000 }
  let s ← ascon_duplex al e s out inp (ulong lw tlen) mode
  let s := { s with x2 := xorParts e s.x2 K0 }
  let s := { s with x3 := xorParts e s.x3 K1 }
  let s ← P e s PA_START_ROUND
  let s := { s with x3 := xorParts e s.x3 K0 }
  let s := { s with x4 := xorParts e s.x4 K1 }
  pure { s with x3 := U64LE e s.x3, x4 := U64LE e s.x4 }

/-! ## encrypt.c, decrypt.c -/

/-- `*(s.b[3] + i)` for `0 ≤ i < 16`: bytes of the object representation of `x[3]`, `x[4]`. -/
def tagByte (e : Endian) (s : State) (i : Nat) : Byte := (repr64 e s.x3 ++ repr64 e s.x4).getD i 0

/-- encrypt.c:4-31 -/
def crypto_aead_encrypt (al lw : Nat) (e : Endian) (_sp c clen m mlen ad adlen _nsec npub k : Nat) : Prog Int := do
  store64 e clen (BitVec.ofNat 64 (mlen + 16))
  let s ← ascon_core al e lw c m mlen ad adlen npub k .ENC
  forUp (fun i (_ : Unit) => storeB (c + (mlen + i)) (tagByte e s i)) 16 0 ()
  pure 0

/-- decrypt.c:4-38; `result` is an `int`. -/
def crypto_aead_decrypt (al lw : Nat) (e : Endian) (_sp m mlen _nsec c clen ad adlen npub k : Nat) : Prog Int :=
  ifc (decide (clen < 16))
    (do
      store64 e mlen 0
      pure (-1))
    (do
      store64 e mlen (BitVec.ofNat 64 (clen - 16))
      let ml ← load64 e mlen
      let s ← ascon_core al e lw m c ml.toNat ad adlen npub k .DEC
      let result ← forUp (fun i (result : U32) => do
        let ml ← load64 e mlen
        let b ← loadB (c + (ml.toNat + i))
        pure (result ||| (b.setWidth 32 ^^^ (tagByte e s i).setWidth 32))) 16 0 0
      pure ((((result - 1).sshiftRight 8) &&& 1) - 1).toInt)

/-! ## hash.c -/

/-- hash.c:44-56: body of the loop; `(s, in, len)`. -/
def absorbStep (al : Nat) (e : Endian) : State × Nat × Nat → Prog (State × Nat × Nat) := fun (s, inp, len) => do
  let tmp ← loadPair al e inp
  let s := { s with x0 := xorParts e s.x0 tmp }
  let s ← P e s PA_START_ROUND
  pure (s, inp + 8, len - 8)

/-- hash.c:58-66 -/
def absorbFinal (e : Endian) : State × Nat × Nat → Prog State := fun (s, inp, len) => do
  let bs ← loadN inp len
  let bytes := overwrite (List.replicate 8 0) bs
  require (decide (len < 8))
  let bytes := bytes.set len (bytes.getD len 0 ^^^ 0x01)
  let tmp := U64LE e (value64 e bytes)
  pure { s with x0 := xorParts e s.x0 tmp }

/-- hash.c:71-82: body of the loop; `(s, out, len)`. -/
def squeezeStep (al : Nat) (e : Endian) : State × Nat × Nat → Prog (State × Nat × Nat) := fun (s, out, len) => do
  storePair al e out s.x0
  let s ← P e s PA_START_ROUND
  pure (s, out + 8, len - 8)

/-- hash.c:25-90 for the initial state `iv` and `CRYPTO_BYTES = n` (PB_START_ROUND = PA_START_ROUND = 0xf0). -/
def crypto_hash (iv : State) (n al lw : Nat) (e : Endian) (_sp out inp inlen : Nat) : Prog Int := do
  let len := ulong lw inlen
  let r ← loop (len + 1) (fun (_, _, len) => decide (len ≥ 8)) (absorbStep al e) (iv, inp, len)
  let s ← absorbFinal e r
  let s ← P e s PA_START_ROUND
  let r ← loop (n + 1) (fun (_, _, len) => decide (len > 8)) (squeezeStep al e) (s, out, n)
  let bytes := repr64 e (U64LE e r.1.x0)
  storeN r.2.1 (bytes.take r.2.2)
  pure 0

/-- hash.c:10-11, 40 with constants.h: ASCON_HASH_IV0 … ASCON_HASH_IV4; api.h: CRYPTO_BYTES = 32 -/
def hash256 : (al lw : Nat) → CryptoHash :=
  crypto_hash ⟨0x9b1e5494e934d681, 0x4bc3a01e333751d2, 0xae65396c6b34b81a, 0x3c7fd4a4d56a4db3, 0x1a5c464906c5976d⟩ 32

/-- hash.c:16-17, 40 with constants.h: ASCON_XOF_IV0 … ASCON_XOF_IV4; api.h: CRYPTO_BYTES = 64 -/
def xof128 : (al lw : Nat) → CryptoHash :=
  crypto_hash ⟨0xda82ce768d9447eb, 0xcc7ce6c75f1ef969, 0xe7508fd780085631, 0x0ee0ea53416b58cc, 0xe0547524db6f0bde⟩ 64

end Ascon.Esp32
