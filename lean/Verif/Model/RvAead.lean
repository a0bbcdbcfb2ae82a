import Verif.Model.Rv
/-!
# encrypt.c and decrypt.c of the RISC-V implementations

The four directories asm_rv32i, asm_rv32b, asm_fsr_rv32b and asm_bi32_rv32b of crypto_aead/asconaead128 contain the same
encrypt.c and decrypt.c, which call `ascon_core` of ascon.S.

Simplifications: the C compiler's own use of the stack is not modelled; `regs` are the contents of all registers at the
call of `ascon_core`, except for the argument registers.  Pointers and lengths are natural numbers in the C part and are
converted to registers by reduction modulo 2^32 (for the lengths this is the conversion of `unsigned long long` to the
parameter type `unsigned int`).  `fuel` bounds the number of instructions; theorems say that every sufficiently large
value gives the same result.
-/

namespace Ascon.Rv

open Ascon.C Ascon.Spec
open Ascon.C.Prog (require ifc store64 load64)
open Ascon.Masked (U32)

/-- The argument registers of the standard calling convention; the last argument is an `unsigned char`. -/
def setArgs (m : Regs) (out inp inlen ad adlen np k : Nat) (mode : Byte) : Regs :=
  (((((((m.set a0 (BitVec.ofNat 32 out)).set a1 (BitVec.ofNat 32 inp)).set a2 (BitVec.ofNat 32 inlen)).set a3
    (BitVec.ofNat 32 ad)).set a4 (BitVec.ofNat 32 adlen)).set a5 (BitVec.ofNat 32 np)).set a6 (BitVec.ofNat 32 k)).set a7
    (mode.setWidth 32)

/-- A call of `ascon_core` (ascon.h:3-6) at position `entry` of `code`, loaded at address `base`; the result is the
register contents after the return to the address in `ra`. -/
def ascon_core (code : List Ins) (entry : Nat) (base : U32) (regs : Regs) (fuel : Nat)
    (out inp inlen ad adlen np k : Nat) (mode : Byte) : Prog Regs :=
  go code base fuel entry (setArgs regs out inp inlen ad adlen np k mode) >>= fun r => do
    require (r.1 == regs.r ra)
    pure r.2

/-- encrypt.c:3-12 -/
def crypto_aead_encrypt (code : List Ins) (entry : Nat) (base : U32) (regs : Regs) (fuel : Nat)
    (c clen m mlen ad adlen npub k : Nat) : Prog Int := do
  store64 .little clen (BitVec.ofNat 64 (mlen + 16))
  let r ← ascon_core code entry base regs fuel c m mlen ad adlen npub k 1
  pure (r.r a0).toInt

/-- decrypt.c:3-18 -/
def crypto_aead_decrypt (code : List Ins) (entry : Nat) (base : U32) (regs : Regs) (fuel : Nat)
    (m mlen c clen ad adlen npub k : Nat) : Prog Int :=
  ifc (decide (clen < 16))
    (do
      store64 .little mlen 0
      pure (-1))
    (do
      store64 .little mlen (BitVec.ofNat 64 (clen - 16))
      let ml ← load64 .little mlen
      let r ← ascon_core code entry base regs fuel m c ml.toNat ad adlen npub k (-1)
      pure (r.r a0).toInt)

end Ascon.Rv
