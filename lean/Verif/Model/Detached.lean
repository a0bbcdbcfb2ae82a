import Verif.Model.Registry
/-!
# The implementations that export the interface with a separate tag

src/ascon.h:39-44, src/avx512/ascon.h:41-46; defined in src/aead.c:200-225, src/opt8/aead.c:163-188,
src/avr/aead.c:163-188, src/opt8_lowsize/aead.c:78-115, src/avx512/aead.c:197-222.
(src/neon has it too; not listed here because of its alignment requirements, see C44-C46.)
-/

namespace Ascon.Impl

open Ascon.C

/-- Which code defines `ascon_aead_encrypt` and `ascon_aead_decrypt`; see `AeadCode`. -/
inductive DetCode where
  | gen (c : Core)
  | byte (b : ByteCore)
  | byteLow (b : ByteCore) (comb : Bool)
  | avx (junk : Avx512.Z)

/-- `ascon_aead_encrypt(t, c, m, mlen, ad, adlen, npub, k)` -/
def DetCode.encrypt : DetCode → Endian → (t c m mlen ad adlen npub k : Nat) → Prog Int
  | .gen c => Gen.ascon_aead_encrypt c.backend
  | .byte b => Opt8.ascon_aead_encrypt b.perms
  | .byteLow b comb => Opt8.low_ascon_aead_encrypt b.perms (if comb then .comb else .aead)
  | .avx junk => Avx512.ascon_aead_encrypt junk

/-- `ascon_aead_decrypt(m, t, c, clen, ad, adlen, npub, k)` -/
def DetCode.decrypt : DetCode → Endian → (m t c clen ad adlen npub k : Nat) → Prog Int
  | .gen c => Gen.ascon_aead_decrypt c.backend
  | .byte b => Opt8.ascon_aead_decrypt b.perms
  | .byteLow b comb => Opt8.low_ascon_aead_decrypt b.perms (if comb then .comb else .aead)
  | .avx junk => Avx512.ascon_aead_decrypt junk

/-- The byte orders the code supports, as for `AeadCode`. -/
def DetCode.runsOn : DetCode → Endian → Prop
  | .gen c, e => c.runsOn e
  | .byte _, e | .byteLow _ _, e | .avx _, e => e = .little

end Ascon.Impl
