import Verif.Model.Registry
/-!
# The other compile-time configurations of src/aead.c

src/aead.c is written for three parameter sets, selected by `ASCON_AEAD_RATE` and `CRYPTO_KEYBYTES` of api.h.
Model/GenAead.lean models rate 16 with a 16-byte key (what all directories of the repository set); this file models the two
others: rate 8 with a 16-byte key (Ascon-128) and rate 8 with a 20-byte key (Ascon-80pq).  They take the additional
`P(s, 6)`, `KEYROT`, `ASCON_128_IV` and `ASCON_80PQ_IV` from the backend headers.
-/

namespace Ascon.Gen

open Ascon.C
open Ascon.C.Prog (require ifc loop forUp loadB storeB loadN storeN store64 load64)

/-- `CRYPTO_KEYBYTES` of a rate-8 configuration: 16 or 20. -/
inductive KeyCfg where
  | k16 | k20
deriving DecidableEq, Repr

def KeyCfg.bytes : KeyCfg → Nat
  | .k16 => 16
  | .k20 => 20

/-- What the rate-8 configurations use from the headers, besides `Backend`. -/
structure VBackend where
  B : Backend
  /-- `P(s, 6)` -/
  P6 : Endian → State → Prog State
  /-- `KEYROT(hi2lo, lo2hi)` -/
  KEYROT : Endian → Word → Word → Word
  ASCON_128_IV : Word
  ASCON_80PQ_IV : Word

/-- `ascon_key_t`: `ASCON_KEYWORDS = (CRYPTO_KEYBYTES + 7) / 8` words; `x2` does not exist for 16-byte keys
(src/ascon.h:17-23). -/
structure Key where
  x0 : Word
  x1 : Word
  x2 : Word

/-- src/aead.c:14-23 -/
def v_loadkey (V : VBackend) (q : KeyCfg) (e : Endian) (k : Nat) : Prog Key :=
  match q with
  | .k16 => do
    let k0 ← LOAD V.B e k 8
    let k1 ← LOAD V.B e (k + 8) 8
    pure ⟨k0, k1, 0⟩
  | .k20 => do
    let w ← LOADBYTES V.B e k 4
    let k0 := V.KEYROT e 0 w
    let k1 ← LOADBYTES V.B e (k + 4) 8
    let k2 ← LOADBYTES V.B e (k + 12) 8
    pure ⟨k0, k1, k2⟩

/-- src/aead.c:25-50, `ASCON_AEAD_RATE == 8` -/
def v_initaead (V : VBackend) (q : KeyCfg) (e : Endian) (key : Key) (npub : Nat) : Prog State := do
  let x0 := match q with
    | .k16 => V.ASCON_128_IV
    | .k20 => key.x0 ||| V.ASCON_80PQ_IV
  let x1 := match q with
    | .k16 => key.x0
    | .k20 => key.x1
  let x2 := match q with
    | .k16 => key.x1
    | .k20 => key.x2
  let n0 ← LOAD V.B e npub 8
  let n1 ← LOAD V.B e (npub + 8) 8
  let s ← V.B.P12 e ⟨x0, x1, x2, n0, n1⟩
  pure (match q with
    | .k16 => { s with x3 := s.x3 ^^^ key.x0, x4 := s.x4 ^^^ key.x1 }
    | .k20 => { s with x2 := s.x2 ^^^ key.x0, x3 := s.x3 ^^^ key.x1, x4 := s.x4 ^^^ key.x2 })

/-- src/aead.c:57-64, `ASCON_AEAD_RATE == 8` -/
def v_adStep (V : VBackend) (e : Endian) : State × Nat × Nat → Prog (State × Nat × Nat) :=
  fun (s, ad, adlen) => do
    let w ← LOAD V.B e ad 8
    let s := { s with x0 := s.x0 ^^^ w }
    let s ← V.P6 e s
    pure (s, ad + 8, adlen - 8)

/-- src/aead.c:66-74, `ASCON_AEAD_RATE == 8` (`px` stays `&s->x[0]`) -/
def v_adFinal (V : VBackend) (e : Endian) (s : State) (ad adlen : Nat) : Prog State := do
  let p ← V.B.PAD adlen
  let s := { s with x0 := s.x0 ^^^ p }
  ifc (decide (adlen ≠ 0))
    (do
      let w ← LOADBYTES V.B e ad adlen
      pure { s with x0 := s.x0 ^^^ w })
    (pure s)

/-- src/aead.c:52-81 -/
def v_adata (V : VBackend) (e : Endian) (s : State) (ad adlen : Nat) : Prog State := do
  let s ← ifc (decide (adlen ≠ 0))
    (do
      let (s, ad, adlen) ←
        loop (adlen + 1) (fun (_, _, adlen) => decide (adlen ≥ 8)) (v_adStep V e) (s, ad, adlen)
      let s ← v_adFinal V e s ad adlen
      V.P6 e s)
    (pure s)
  pure { s with x4 := s.x4 ^^^ V.B.DSEP }

/-- src/aead.c:87-98 -/
def v_encStep (V : VBackend) (e : Endian) : State × Nat × Nat × Nat → Prog (State × Nat × Nat × Nat) :=
  fun (s, c, m, mlen) => do
    let w ← LOAD V.B e m 8
    let s := { s with x0 := s.x0 ^^^ w }
    STORE V.B e c s.x0 8
    let s ← V.P6 e s
    pure (s, c + 8, m + 8, mlen - 8)

/-- src/aead.c:100-114 -/
def v_encFinal (V : VBackend) (e : Endian) (s : State) (c m mlen : Nat) : Prog State := do
  let p ← V.B.PAD mlen
  let s := { s with x0 := s.x0 ^^^ p }
  ifc (decide (mlen ≠ 0))
    (do
      let w ← LOADBYTES V.B e m mlen
      let s := { s with x0 := s.x0 ^^^ w }
      STOREBYTES V.B e c s.x0 mlen
      pure s)
    (pure s)

/-- src/aead.c:83-116 -/
def v_encrypt (V : VBackend) (e : Endian) (s : State) (c m mlen : Nat) : Prog State := do
  let (s, c, m, mlen) ←
    loop (mlen + 1) (fun (_, _, _, mlen) => decide (mlen ≥ 8)) (v_encStep V e) (s, c, m, mlen)
  v_encFinal V e s c m mlen

/-- src/aead.c:122-137 -/
def v_decStep (V : VBackend) (e : Endian) : State × Nat × Nat × Nat → Prog (State × Nat × Nat × Nat) :=
  fun (s, m, c, clen) => do
    let cx ← LOAD V.B e c 8
    let s := { s with x0 := s.x0 ^^^ cx }
    STORE V.B e m s.x0 8
    let s := { s with x0 := cx }
    let s ← V.P6 e s
    pure (s, m + 8, c + 8, clen - 8)

/-- src/aead.c:139-158 -/
def v_decFinal (V : VBackend) (e : Endian) (s : State) (m c clen : Nat) : Prog State := do
  let p ← V.B.PAD clen
  let s := { s with x0 := s.x0 ^^^ p }
  ifc (decide (clen ≠ 0))
    (do
      let cx ← LOADBYTES V.B e c clen
      let s := { s with x0 := s.x0 ^^^ cx }
      STOREBYTES V.B e m s.x0 clen
      let w ← V.B.CLEAR s.x0 clen
      let s := { s with x0 := w }
      pure { s with x0 := s.x0 ^^^ cx })
    (pure s)

/-- src/aead.c:118-160 -/
def v_decrypt (V : VBackend) (e : Endian) (s : State) (m c clen : Nat) : Prog State := do
  let (s, m, c, clen) ←
    loop (clen + 1) (fun (_, _, _, clen) => decide (clen ≥ 8)) (v_decStep V e) (s, m, c, clen)
  v_decFinal V e s m c clen

/-- src/aead.c:162-171: the key addition before the last permutation, `ASCON_AEAD_RATE == 8` -/
def v_final1 (V : VBackend) (q : KeyCfg) (e : Endian) (s : State) (key : Key) : State :=
  match q with
  | .k16 => { s with x1 := s.x1 ^^^ key.x0, x2 := s.x2 ^^^ key.x1 }
  | .k20 =>
    { s with
      x1 := s.x1 ^^^ V.KEYROT e key.x0 key.x1
      x2 := s.x2 ^^^ V.KEYROT e key.x1 key.x2
      x3 := s.x3 ^^^ V.KEYROT e key.x2 0 }

/-- src/aead.c:162-186 -/
def v_final (V : VBackend) (q : KeyCfg) (e : Endian) (s : State) (key : Key) : Prog State := do
  let s ← V.B.P12 e (v_final1 V q e s key)
  pure (match q with
    | .k16 => { s with x3 := s.x3 ^^^ key.x0, x4 := s.x4 ^^^ key.x1 }
    | .k20 => { s with x3 := s.x3 ^^^ key.x1, x4 := s.x4 ^^^ key.x2 })

/-- src/aead.c:200-212 (`ascon_gettag` is independent of the configuration) -/
def v_aead_encrypt (V : VBackend) (q : KeyCfg) (e : Endian) (t c m mlen ad adlen npub k : Nat) : Prog Int := do
  let key ← v_loadkey V q e k
  let s ← v_initaead V q e key npub
  let s ← v_adata V e s ad adlen
  let s ← v_encrypt V e s c m mlen
  let s ← v_final V q e s key
  ascon_gettag V.B e s t
  pure 0

/-- src/aead.c:214-225 (`ascon_verify` is independent of the configuration) -/
def v_aead_decrypt (V : VBackend) (q : KeyCfg) (e : Endian) (m t c clen ad adlen npub k : Nat) : Prog Int := do
  let key ← v_loadkey V q e k
  let s ← v_initaead V q e key npub
  let s ← v_adata V e s ad adlen
  let s ← v_decrypt V e s m c clen
  let s ← v_final V q e s key
  ascon_verify V.B e s t

/-- src/aead.c:227-247 -/
def v_crypto_aead_encrypt (V : VBackend) (q : KeyCfg) (e : Endian)
    (_sp c clen m mlen ad adlen _nsec npub k : Nat) : Prog Int := do
  store64 e clen (BitVec.ofNat 64 (mlen + 16))
  let t := c + mlen
  v_aead_encrypt V q e t c m mlen ad adlen npub k

/-- src/aead.c:249-270 -/
def v_crypto_aead_decrypt (V : VBackend) (q : KeyCfg) (e : Endian)
    (_sp m mlen _nsec c clen ad adlen npub k : Nat) : Prog Int :=
  ifc (decide (clen < 16)) (pure (-1)) (do
    store64 e mlen (BitVec.ofNat 64 (clen - 16))
    let t := c + (clen - 16)
    v_aead_decrypt V q e m t c (clen - 16) ad adlen npub k)

/-! ## The headers -/

/-- src/word.h:23-25 -/
def optKEYROT (_ : Endian) (hi2lo lo2hi : Word) : Word := lo2hi <<< 32 ||| hi2lo >>> 32

/-- src/bi32/word.h:40-45 -/
def bi32KEYROT (e : Endian) (hi2lo lo2hi : Word) : Word :=
  let w0 := unionW0 e lo2hi <<< 16 ||| unionW0 e hi2lo >>> 16
  let w1 := unionW1 e lo2hi <<< 16 ||| unionW1 e hi2lo >>> 16
  unionX e w0 w1

/-- One line of src/bi8/word.h:39-46: `w.b[i] = a.b[i] << 4 | b.b[i] >> 4`, computed in `int` and converted to
`uint8_t`. -/
def keyrot8 (a b : Byte) : Byte := (a.setWidth 32 <<< 4 ||| b.setWidth 32 >>> 4).setWidth 8

/-- src/bi8/word.h:37-48: the eight bytes of the object representation. -/
def bi8KEYROT (e : Endian) (hi2lo lo2hi : Word) : Word :=
  let a := repr64 e lo2hi
  let b := repr64 e hi2lo
  value64 e ((List.range 8).map fun i => keyrot8 (a.getD i 0) (b.getD i 0))

end Ascon.Gen

namespace Ascon.Impl

open Ascon.C

/-- The three families of word.h and constants.h (src, src/bi32, src/bi8). -/
inductive Family where
  | opt | bi32 | bi8

def Core.family : Core → Family
  | .opt64 | .opt64_lowsize | .opt32 | .opt32_lowsize
  | .armv6 | .armv6_lowsize | .armv6m | .armv6m_lowsize | .armv7m | .armv7m_small | .neon => .opt
  | .bi32 | .bi32_lowreg | .bi32_armv6 | .bi32_armv6m | .bi32_armv7m | .bi32_armv7m_small => .bi32
  | .bi8 => .bi8

/-- src/aead.c compiled with the headers and the permutation of `c`: `P(s, 6)` is `Perm.P6` (permutations.h, round.h of
the directory), `KEYROT` and the initial values (constants.h:33 and 35) those of the family. -/
def Core.vbackend (c : Core) : Gen.VBackend :=
  match c.family with
  | .opt => ⟨c.backend, (Perm.core c).P6, Gen.optKEYROT, 0x00000800806c0001, 0x00000000806c0800⟩
  | .bi32 => ⟨c.backend, (Perm.core c).P6, Gen.bi32KEYROT, 0x0020860000000a01, 0x0000862000000a00⟩
  | .bi8 => ⟨c.backend, (Perm.core c).P6, Gen.bi8KEYROT, 0x0804040024040001, 0x0804040006040000⟩

end Ascon.Impl
