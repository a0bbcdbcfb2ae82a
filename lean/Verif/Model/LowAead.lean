import Verif.Model.GenAead
import Verif.Model.GenHash
import Verif.Model.GenPrf
import Verif.Model.RefAead
/-!
# Model of src/lowsize/{aead.c,update.c,crypto_aead.c} and src/combined/hash.c over a word backend

The copies in crypto_aead/asconaead128/*_lowsize (AEAD only) and in
crypto_aead_hash/asconaeadxof128/*_lowsize (AEAD and XOF) are these files.  The two builds differ in
`ASCON_HASH_BYTES`, which is defined only in the second one: parameter `comb`.  Only the branches for
`ASCON_AEAD_RATE == 16` and `CRYPTO_KEYBYTES == 16` are compiled.
`ascon_loadkey`, `ascon_initaead`, `ascon_final` of lowsize/aead.c are, for these parameters, statement by
statement those of src/aead.c and are reused.  As in `GenAead`, `*mlen` is not read back.
Pointers are advanced past null pointers by the C code (`in += 8` with `in == 0`, `out += 8` with `out == 0`
when the pointer is not used); the model just adds numbers.
-/

namespace Ascon.Low

open Ascon.C Ascon.Gen
open Ascon.C.Prog (require ifc loop forUp loadB storeB loadN storeN store64 load64)
open Ascon.Ref (getX xorX verifyTag)

/-- src/lowsize/ascon.h:26-31 -/
def ASCON_ABSORB : Nat := 0x1
def ASCON_SQUEEZE : Nat := 0x2
def ASCON_INSERT : Nat := 0x4
def ASCON_HASH : Nat := 0x8
def ASCON_ENCRYPT : Nat := ASCON_ABSORB ||| ASCON_SQUEEZE
def ASCON_DECRYPT : Nat := ASCON_ABSORB ||| ASCON_SQUEEZE ||| ASCON_INSERT

/-- `mode & bit` as a condition. -/
def has (mode bit : Nat) : Bool := (mode &&& bit) != 0

/-- `s->x[i] = w` -/
def setX (s : State) (i : Nat) (w : Word) : Prog State :=
  match i with
  | 0 => pure { s with x0 := w }
  | 1 => pure { s with x1 := w }
  | 2 => pure { s with x2 := w }
  | 3 => pure { s with x3 := w }
  | 4 => pure { s with x4 := w }
  | _ => .ub

/-- `P(s, nr)` with `nr` one of the two values of src/lowsize/update.c:17. -/
def permNr (B : Backend) (e : Endian) (nr : Nat) (s : State) : Prog State :=
  if nr = 12 then B.P12 e s else B.P8 e s

/-- src/lowsize/update.c:16-22: `(nr, rate)`. -/
def nrRate (comb : Bool) (mode : Nat) : Prog (Nat × Nat) :=
  if comb then do
    let nr ← ifc (has mode ASCON_HASH) (pure 12) (pure 8)
    let rate ← ifc (has mode ASCON_HASH) (pure 8) (pure 16)
    pure (nr, rate)
  else pure (8, 16)

/-- src/lowsize/update.c:32-34 and 61-63: the test is only compiled into the combined build. -/
def ifAbsorb {α : Type} (comb : Bool) (mode : Nat) (t f : Prog α) : Prog α :=
  if comb then ifc (has mode ASCON_ABSORB) t f else t

/-- src/lowsize/update.c:31-58: body of the loop (s, i, tmp, out, in, len). -/
def updStep (B : Backend) (e : Endian) (comb : Bool) (mode nr rate : Nat) :
    State × Nat × Word × Nat × Nat × Nat → Prog (State × Nat × Word × Nat × Nat × Nat) :=
  fun (s, i, tmp, out, inp, len) => do
    let (s, tmp) ← ifAbsorb comb mode
      (do
        let tmp ← LOAD B e inp 8
        let s ← xorX s i tmp
        pure (s, tmp))
      (pure (s, tmp))
    ifc (has mode ASCON_SQUEEZE)
      (do
        let w ← getX s i
        STORE B e out w 8)
      (pure ())
    let s ← ifc (has mode ASCON_INSERT) (setX s i tmp) (pure s)
    let i := i + 1
    let i ← ifc (decide (i = rate / 8)) (pure 0) (pure i)
    let s ← ifc (decide (i = 0)) (permNr B e nr s) (pure s)
    pure (s, i, tmp, out + 8, inp + 8, len - 8)

/-- src/lowsize/update.c:60-75: the last, incomplete word. -/
def updFinal (B : Backend) (e : Endian) (comb : Bool) (mode : Nat) :
    State × Nat × Word × Nat × Nat × Nat → Prog State :=
  fun (s, i, tmp, out, inp, len) => do
    let (s, tmp) ← ifAbsorb comb mode
      (do
        let tmp ← LOADBYTES B e inp len
        let s ← xorX s i tmp
        pure (s, tmp))
      (pure (s, tmp))
    ifc (has mode ASCON_SQUEEZE)
      (do
        let w ← getX s i
        STOREBYTES B e out w len)
      (pure ())
    let s ← ifc (has mode ASCON_INSERT)
      (do
        let w ← getX s i
        let w ← B.CLEAR w len
        let s ← setX s i w
        xorX s i tmp)
      (pure s)
    let p ← B.PAD len
    xorX s i p

/-- src/lowsize/update.c:14-76 -/
def ascon_update (B : Backend) (e : Endian) (comb : Bool) (s : State) (out inp len mode : Nat) :
    Prog State := do
  let (nr, rate) ← nrRate comb mode
  let r ← loop (len + 1) (fun (_, _, _, _, _, len) => decide (len ≥ 8)) (updStep B e comb mode nr rate)
    (s, 0, 0, out, inp, len)
  updFinal B e comb mode r

/-- src/lowsize/aead.c:106 `for (int i = 0; i < CRYPTO_ABYTES; ++i) tag[i] = t[i];` -/
def copyTag (tag t : Nat) : Prog Unit :=
  forUp (fun i (_ : Unit) => do
    let b ← loadB (t + i)
    storeB (tag + i) b) 16 0 ()

/-- src/lowsize/aead.c:77-113; `sp` is the address of `uint8_t t[16]`.  `((uint64_t*)t)[i] = …` stores the
object representation of the word (the alignment of `t` is not modelled). -/
def ascon_aead (B : Backend) (e : Endian) (comb : Bool)
    (sp tag out inp inlen ad adlen npub k mode : Nat) : Prog Int := do
  let key ← ascon_loadkey B e k
  let s ← ascon_initaead B e key npub
  let s ← ifc (decide (adlen ≠ 0))
    (do
      let s ← ascon_update B e comb s 0 ad adlen ASCON_ABSORB
      B.P8 e s)
    (pure s)
  let s := { s with x4 := s.x4 ^^^ B.DSEP }
  let s ← ascon_update B e comb s out inp inlen mode
  let s ← ascon_final B e s key
  .alloc sp 16 (.ret ())
  store64 e sp (B.WORDTOU64 e s.x3)
  store64 e (sp + 8) (B.WORDTOU64 e s.x4)
  let result ← ifc (decide (mode = ASCON_ENCRYPT))
    (do
      copyTag tag sp
      pure 0)
    (verifyTag tag sp)
  .free sp 16 (.ret ())
  pure result

/-- src/lowsize/crypto_aead.c:12-32 -/
def crypto_aead_encrypt (B : Backend) (comb : Bool) (e : Endian)
    (sp c clen m mlen ad adlen _nsec npub k : Nat) : Prog Int := do
  store64 e clen (BitVec.ofNat 64 (mlen + 16))
  let t := c + mlen
  ascon_aead B e comb sp t c m mlen ad adlen npub k ASCON_ENCRYPT

/-- src/lowsize/crypto_aead.c:34-55 -/
def crypto_aead_decrypt (B : Backend) (comb : Bool) (e : Endian)
    (sp m mlen _nsec c clen ad adlen npub k : Nat) : Prog Int :=
  ifc (decide (clen < 16)) (pure (-1)) (do
    store64 e mlen (BitVec.ofNat 64 (clen - 16))
    let t := c + (clen - 16)
    ascon_aead B e comb sp t m c (clen - 16) ad adlen npub k ASCON_DECRYPT)

/-- src/combined/hash.c:29-40 (`ascon_inithash`: lines 17-27).  ASCON_HASH_BYTES = 0 in asconaeadxof128:
the XOF constants. -/
def ascon_xof (B : Backend) (e : Endian) (_sp out outlen inp inlen : Nat) : Prog Int := do
  let s := B.ASCON_XOF_IVS
  let s ← ascon_update B e true s 0 inp inlen (ASCON_HASH ||| ASCON_ABSORB)
  let s ← B.P12 e s
  let _ ← ascon_update B e true s out 0 outlen (ASCON_HASH ||| ASCON_SQUEEZE)
  pure 0

/-- src/combined/hash.c:42-45, CRYPTO_BYTES = 64. -/
def crypto_hash (B : Backend) (e : Endian) (sp out inp len : Nat) : Prog Int :=
  ascon_xof B e sp out 64 inp len

end Ascon.Low
