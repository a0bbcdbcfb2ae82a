import Verif.Model.LowAead
import Verif.Model.Registry
/-!
# src/lowsize/aead.c with the alignment of the tag array

`uint8_t t[16]` has no alignment requirement, but lines 102-103 write it through a pointer to `uint64_t`.  Here `al` is the
alignment requirement of `uint64_t` on the target (C17 6.3.2.3p7: converting a pointer that is not correctly aligned is
undefined; in practice, the store instruction faults), and `sp` is where the compiler puts `t`.  `al = 1` is a target without
requirement.
-/

namespace Ascon.Low

open Ascon.C Ascon.Gen
open Ascon.C.Prog (require ifc store64)

/-- `((uint64_t*)t)[i] = w`, src/lowsize/aead.c:102-103 -/
def store64A (al : Nat) (e : Endian) (p : Nat) (w : Word) : Prog Unit := do
  require (decide (p % al = 0))
  store64 e p w

/-- src/lowsize/aead.c:77-113 -/
def ascon_aeadA (al : Nat) (B : Backend) (e : Endian) (comb : Bool)
    (sp tag out inp inlen ad adlen npub k mode : Nat) : Prog Int := do
  let key ← ascon_loadkey B e k
  let s ← ascon_initaead B e key npub
  let s ← ifc (decide (adlen ≠ 0))
    (do
      let s ← ascon_update B e comb s 0 ad adlen ASCON_ABSORB
      B.P8 e s)
    (pure s)
  let s := { s with x4 := s.x4 ^^^ B.DSEP }
  let s ← ascon_update B e comb s out inp inlen mode
  let s ← ascon_final B e s key
  .alloc sp 16 (.ret ())
  store64A al e sp (B.WORDTOU64 e s.x3)
  store64A al e (sp + 8) (B.WORDTOU64 e s.x4)
  let result ← ifc (decide (mode = ASCON_ENCRYPT))
    (do
      copyTag tag sp
      pure 0)
    (Ref.verifyTag tag sp)
  .free sp 16 (.ret ())
  pure result

/-- src/lowsize/crypto_aead.c:12-32 -/
def crypto_aead_encryptA (al : Nat) (B : Backend) (comb : Bool) (e : Endian)
    (sp c clen m mlen ad adlen _nsec npub k : Nat) : Prog Int := do
  store64 e clen (BitVec.ofNat 64 (mlen + 16))
  let t := c + mlen
  ascon_aeadA al B e comb sp t c m mlen ad adlen npub k ASCON_ENCRYPT

/-- src/lowsize/crypto_aead.c:34-55 -/
def crypto_aead_decryptA (al : Nat) (B : Backend) (comb : Bool) (e : Endian)
    (sp m mlen _nsec c clen ad adlen npub k : Nat) : Prog Int :=
  ifc (decide (clen < 16)) (pure (-1)) (do
    store64 e mlen (BitVec.ofNat 64 (clen - 16))
    let t := c + (clen - 16)
    ascon_aeadA al B e comb sp t m c (clen - 16) ad adlen npub k ASCON_DECRYPT)

end Ascon.Low

namespace Ascon.Impl

open Ascon.C

/-- The directories asconaead128/<name> and asconaeadxof128/<name> (`comb`) that compile src/lowsize. -/
inductive LowAead where
  | opt64_lowsize | opt32_lowsize | bi32_lowsize | armv6_lowsize | armv6m_lowsize | armv7m_lowsize
deriving DecidableEq, Repr

def LowAead.core : LowAead → Core
  | .opt64_lowsize => .opt64_lowsize
  | .opt32_lowsize => .opt32_lowsize
  | .bi32_lowsize => .bi32_lowreg
  | .armv6_lowsize => .armv6_lowsize
  | .armv6m_lowsize => .armv6m_lowsize
  | .armv7m_lowsize => .armv7m_small

def LowAead.encryptA (i : LowAead) (comb : Bool) (al : Nat) : AeadEncrypt := Low.crypto_aead_encryptA al i.core.backend comb
def LowAead.decryptA (i : LowAead) (comb : Bool) (al : Nat) : AeadDecrypt := Low.crypto_aead_decryptA al i.core.backend comb

end Ascon.Impl
