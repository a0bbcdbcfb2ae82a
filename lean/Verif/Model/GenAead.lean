import Verif.Model.GenCore
/-!
# Model of src/aead.c (rate 16, 128-bit key) over an arbitrary word backend

The copies crypto_aead/asconaead128/<impl>/aead.c of the implementations opt64, opt64_lowsize, opt32,
opt32_lowsize, bi32, bi32_lowreg, bi32_armv6, …, armv6, …, bi8 are this file.  Only the branches for
`ASCON_AEAD_RATE == 16` and `CRYPTO_KEYBYTES == 16` are compiled in this repository.
`*mlen` in `crypto_aead_decrypt` is read back from memory in the C code (lines 258-267); as `mlen` must not
overlap the other arguments the model uses the value just stored.
-/

namespace Ascon.Gen

open Ascon.C
open Ascon.C.Prog (require ifc loop forUp loadB storeB loadN storeN store64 load64)

/-- `*px ^= w` where `px` is `&s->x[0]` (`hi = false`) or `&s->x[1]` (`hi = true`). -/
def xorP (s : State) (hi : Bool) (w : Word) : State :=
  if hi then { s with x1 := s.x1 ^^^ w } else { s with x0 := s.x0 ^^^ w }

/-- `*px` -/
def getP (s : State) (hi : Bool) : Word := if hi then s.x1 else s.x0

/-- `*px = w` -/
def setP (s : State) (hi : Bool) (w : Word) : State :=
  if hi then { s with x1 := w } else { s with x0 := w }

/-- src/aead.c:14-23 (CRYPTO_KEYBYTES == 16) -/
def ascon_loadkey (B : Backend) (e : Endian) (k : Nat) : Prog (Word × Word) := do
  let k0 ← LOAD B e k 8
  let k1 ← LOAD B e (k + 8) 8
  pure (k0, k1)

/-- src/aead.c:25-50 (ASCON_AEAD_RATE == 16, CRYPTO_KEYBYTES == 16) -/
def ascon_initaead (B : Backend) (e : Endian) (key : Word × Word) (npub : Nat) : Prog State := do
  let n0 ← LOAD B e npub 8
  let n1 ← LOAD B e (npub + 8) 8
  let s : State := { x0 := B.ASCON_128A_IV, x1 := key.1, x2 := key.2, x3 := n0, x4 := n1 }
  let s ← B.P12 e s
  let s := { s with x3 := s.x3 ^^^ key.1 }
  let s := { s with x4 := s.x4 ^^^ key.2 }
  pure s

/-- src/aead.c:57-64: body of the associated-data loop. -/
def adStep (B : Backend) (e : Endian) : State × Nat × Nat → Prog (State × Nat × Nat) :=
  fun (s, ad, adlen) => do
    let w ← LOAD B e ad 8
    let s := { s with x0 := s.x0 ^^^ w }
    let w ← LOAD B e (ad + 8) 8
    let s := { s with x1 := s.x1 ^^^ w }
    let s ← B.P8 e s
    pure (s, ad + 16, adlen - 16)

/-- src/aead.c:65-75: final associated data block, up to the permutation. -/
def adFinal (B : Backend) (e : Endian) (s : State) (ad adlen : Nat) : Prog State := do
  let (s, px, ad, adlen) ← ifc (decide (adlen ≥ 8))
    (do
      let w ← LOAD B e ad 8
      let s := { s with x0 := s.x0 ^^^ w }
      pure (s, true, ad + 8, adlen - 8))
    (pure (s, false, ad, adlen))
  let p ← B.PAD adlen
  let s := xorP s px p
  ifc (decide (adlen ≠ 0))
    (do
      let w ← LOADBYTES B e ad adlen
      pure (xorP s px w))
    (pure s)

/-- src/aead.c:52-81 -/
def ascon_adata (B : Backend) (e : Endian) (s : State) (ad adlen : Nat) : Prog State := do
  let s ← ifc (decide (adlen ≠ 0))
    (do
      let (s, ad, adlen) ←
        loop (adlen + 1) (fun (_, _, adlen) => decide (adlen ≥ 16)) (adStep B e) (s, ad, adlen)
      let s ← adFinal B e s ad adlen
      B.P8 e s)
    (pure s)
  pure { s with x4 := s.x4 ^^^ B.DSEP }

/-- src/aead.c:88-98: body of the plaintext loop. -/
def encStep (B : Backend) (e : Endian) : State × Nat × Nat × Nat → Prog (State × Nat × Nat × Nat) :=
  fun (s, c, m, mlen) => do
    let w ← LOAD B e m 8
    let s := { s with x0 := s.x0 ^^^ w }
    STORE B e c s.x0 8
    let w ← LOAD B e (m + 8) 8
    let s := { s with x1 := s.x1 ^^^ w }
    STORE B e (c + 8) s.x1 8
    let s ← B.P8 e s
    pure (s, c + 16, m + 16, mlen - 16)

/-- src/aead.c:100-115: final plaintext block. -/
def encFinal (B : Backend) (e : Endian) (s : State) (c m mlen : Nat) : Prog State := do
  let (s, px, m, c, mlen) ← ifc (decide (mlen ≥ 8))
    (do
      let w ← LOAD B e m 8
      let s := { s with x0 := s.x0 ^^^ w }
      STORE B e c s.x0 8
      pure (s, true, m + 8, c + 8, mlen - 8))
    (pure (s, false, m, c, mlen))
  let p ← B.PAD mlen
  let s := xorP s px p
  ifc (decide (mlen ≠ 0))
    (do
      let w ← LOADBYTES B e m mlen
      let s := xorP s px w
      STOREBYTES B e c (getP s px) mlen
      pure s)
    (pure s)

/-- src/aead.c:83-116 -/
def ascon_encrypt (B : Backend) (e : Endian) (s : State) (c m mlen : Nat) : Prog State := do
  let (s, c, m, mlen) ←
    loop (mlen + 1) (fun (_, _, _, mlen) => decide (mlen ≥ 16)) (encStep B e) (s, c, m, mlen)
  encFinal B e s c m mlen

/-- src/aead.c:123-137: body of the ciphertext loop. -/
def decStep (B : Backend) (e : Endian) : State × Nat × Nat × Nat → Prog (State × Nat × Nat × Nat) :=
  fun (s, m, c, clen) => do
    let cx ← LOAD B e c 8
    let s := { s with x0 := s.x0 ^^^ cx }
    STORE B e m s.x0 8
    let s := { s with x0 := cx }
    let cx ← LOAD B e (c + 8) 8
    let s := { s with x1 := s.x1 ^^^ cx }
    STORE B e (m + 8) s.x1 8
    let s := { s with x1 := cx }
    let s ← B.P8 e s
    pure (s, m + 16, c + 16, clen - 16)

/-- src/aead.c:140-159: final ciphertext block. -/
def decFinal (B : Backend) (e : Endian) (s : State) (m c clen : Nat) : Prog State := do
  let (s, px, m, c, clen) ← ifc (decide (clen ≥ 8))
    (do
      let cx ← LOAD B e c 8
      let s := { s with x0 := s.x0 ^^^ cx }
      STORE B e m s.x0 8
      let s := { s with x0 := cx }
      pure (s, true, m + 8, c + 8, clen - 8))
    (pure (s, false, m, c, clen))
  let p ← B.PAD clen
  let s := xorP s px p
  ifc (decide (clen ≠ 0))
    (do
      let cx ← LOADBYTES B e c clen
      let s := xorP s px cx
      STOREBYTES B e m (getP s px) clen
      let w ← B.CLEAR (getP s px) clen
      let s := setP s px w
      let s := xorP s px cx
      pure s)
    (pure s)

/-- src/aead.c:118-160 -/
def ascon_decrypt (B : Backend) (e : Endian) (s : State) (m c clen : Nat) : Prog State := do
  let (s, m, c, clen) ←
    loop (clen + 1) (fun (_, _, _, clen) => decide (clen ≥ 16)) (decStep B e) (s, m, c, clen)
  decFinal B e s m c clen

/-- src/aead.c:162-186 (ASCON_AEAD_RATE == 16, CRYPTO_KEYBYTES == 16) -/
def ascon_final (B : Backend) (e : Endian) (s : State) (key : Word × Word) : Prog State := do
  let s := { s with x2 := s.x2 ^^^ key.1 }
  let s := { s with x3 := s.x3 ^^^ key.2 }
  let s ← B.P12 e s
  let s := { s with x3 := s.x3 ^^^ key.1 }
  let s := { s with x4 := s.x4 ^^^ key.2 }
  pure s

/-- src/aead.c:188-191 -/
def ascon_gettag (B : Backend) (e : Endian) (s : State) (t : Nat) : Prog Unit := do
  STOREBYTES B e t s.x3 8
  STOREBYTES B e (t + 8) s.x4 8

/-- src/aead.c:193-198 -/
def ascon_verify (B : Backend) (e : Endian) (s : State) (t : Nat) : Prog Int := do
  let w ← LOADBYTES B e t 8
  let s := { s with x3 := s.x3 ^^^ w }
  let w ← LOADBYTES B e (t + 8) 8
  let s := { s with x4 := s.x4 ^^^ w }
  pure (NOTZERO s.x3 s.x4)

/-- src/aead.c:200-212 -/
def ascon_aead_encrypt (B : Backend) (e : Endian) (t c m mlen ad adlen npub k : Nat) : Prog Int := do
  let key ← ascon_loadkey B e k
  let s ← ascon_initaead B e key npub
  let s ← ascon_adata B e s ad adlen
  let s ← ascon_encrypt B e s c m mlen
  let s ← ascon_final B e s key
  ascon_gettag B e s t
  pure 0

/-- src/aead.c:214-225 -/
def ascon_aead_decrypt (B : Backend) (e : Endian) (m t c clen ad adlen npub k : Nat) : Prog Int := do
  let key ← ascon_loadkey B e k
  let s ← ascon_initaead B e key npub
  let s ← ascon_adata B e s ad adlen
  let s ← ascon_decrypt B e s m c clen
  let s ← ascon_final B e s key
  ascon_verify B e s t

/-- src/aead.c:227-247 -/
def crypto_aead_encrypt (B : Backend) (e : Endian) (_sp c clen m mlen ad adlen _nsec npub k : Nat) :
    Prog Int := do
  store64 e clen (BitVec.ofNat 64 (mlen + 16))
  let t := c + mlen
  ascon_aead_encrypt B e t c m mlen ad adlen npub k

/-- src/aead.c:249-270 -/
def crypto_aead_decrypt (B : Backend) (e : Endian) (_sp m mlen _nsec c clen ad adlen npub k : Nat) :
    Prog Int :=
  ifc (decide (clen < 16)) (pure (-1)) (do
    store64 e mlen (BitVec.ofNat 64 (clen - 16))
    let t := c + (clen - 16)
    ascon_aead_decrypt B e m t c (clen - 16) ad adlen npub k)

end Ascon.Gen
