import Verif.Model.MaskedN
/-!
# crypto_aead.c with the size that `malloc` is really asked for, and with allocations that fail

`malloc` takes a `size_t`, but the sizes are computed with 64-bit integers (`unsigned long long alen`): on a target whose `size_t`
has `lw` bits (32 on ARMv6) the argument is reduced modulo `2^lw`.  A failing allocation returns a null pointer, an address at
which nothing may be written; `fail i` says whether the `i`-th one fails.  crypto_aead.c does not look at the results.
-/

namespace Ascon.MaskedN

open Ascon.Spec Ascon.C Ascon.Gen
open Ascon.Masked (Heap malloc mfree NUM_WORDS)
open Ascon.C.Prog (require ifc loop forUp loadB storeB loadN storeN store64 load64)

/-- How many bytes an allocation of `n` bytes obtains. -/
def got (lw : Nat) (fail : Bool) (n : Nat) : Nat := if fail then 0 else n % 2 ^ lw

/-- crypto_aead.c:28-32, 67-71 -/
def mallocS (lw : Nat) (fail : Bool) (p n : Nat) : Prog Unit := malloc p (got lw fail n)

/-- crypto_aead.c:42-46, 81-85; `free(NULL)` does nothing -/
def mfreeS (lw : Nat) (fail : Bool) (p n : Nat) : Prog Unit := mfree p (got lw fail n)

/-- crypto_aead.c:16-51 with shares.c:24-36 (`generate_shares_encrypt`) and 54-60 (`combine_shares_encrypt`). -/
def crypto_aead_encryptS (lw : Nat) (fail : Nat → Bool) (g : Cfg) (σ ρ : Nat → Nat → Word) (h : Heap) (e : Endian)
    (c clen m mlen a alen npub k : Nat) : Prog Int := do
  mallocS lw (fail 0) h.ks (4 * (NUM_WORDS 16 * g.KEY))
  mallocS lw (fail 1) h.ns (4 * (NUM_WORDS 16 * g.NPUB))
  mallocS lw (fail 2) h.as (4 * (NUM_WORDS alen * g.AD))
  mallocS lw (fail 3) h.ms (4 * (NUM_WORDS mlen * g.M))
  mallocS lw (fail 4) h.cs (4 * (NUM_WORDS (mlen + 16) * g.C))
  generate_shares g.EXTERN_BI e (σ 0) h.ks g.KEY k 16
  generate_shares g.EXTERN_BI e (σ 1) h.ns g.NPUB npub 16
  generate_shares g.EXTERN_BI e (σ 2) h.as g.AD a alen
  generate_shares g.EXTERN_BI e (σ 3) h.ms g.M m mlen
  let _ ← crypto_aead_encrypt_shared g e ρ h.cs clen h.ms mlen h.as alen h.ns h.ks
  let cl ← load64 e clen
  let ml := (cl - 16).toNat
  combine_shares g.EXTERN_BI e c ml h.cs g.C
  combine_shares g.EXTERN_BI e (c + ml) 16 (h.cs + 4 * (NUM_WORDS ml * g.C)) g.C
  mfreeS lw (fail 0) h.ks (4 * (NUM_WORDS 16 * g.KEY))
  mfreeS lw (fail 1) h.ns (4 * (NUM_WORDS 16 * g.NPUB))
  mfreeS lw (fail 2) h.as (4 * (NUM_WORDS alen * g.AD))
  mfreeS lw (fail 3) h.ms (4 * (NUM_WORDS mlen * g.M))
  mfreeS lw (fail 4) h.cs (4 * (NUM_WORDS (mlen + 16) * g.C))
  pure 0

/-- crypto_aead.c:53-90 with shares.c:38-52 (`generate_shares_decrypt`) and 62-66 (`combine_shares_decrypt`). -/
def crypto_aead_decryptS (lw : Nat) (fail : Nat → Bool) (g : Cfg) (σ ρ : Nat → Nat → Word) (h : Heap) (e : Endian)
    (m mlen c clen a alen npub k : Nat) : Prog Int :=
  ifc (decide (clen < 16)) (pure (-1)) (do
    mallocS lw (fail 0) h.ks (4 * (NUM_WORDS 16 * g.KEY))
    mallocS lw (fail 1) h.ns (4 * (NUM_WORDS 16 * g.NPUB))
    mallocS lw (fail 2) h.as (4 * (NUM_WORDS alen * g.AD))
    mallocS lw (fail 3) h.ms (4 * (NUM_WORDS (clen - 16) * g.M))
    mallocS lw (fail 4) h.cs (4 * (NUM_WORDS clen * g.C))
    generate_shares g.EXTERN_BI e (σ 0) h.ks g.KEY k 16
    generate_shares g.EXTERN_BI e (σ 1) h.ns g.NPUB npub 16
    generate_shares g.EXTERN_BI e (σ 2) h.as g.AD a alen
    generate_shares g.EXTERN_BI e (σ 3) h.cs g.C c (clen - 16)
    generate_shares g.EXTERN_BI e (σ 4) (h.cs + 4 * (NUM_WORDS (clen - 16) * g.C)) g.C (c + (clen - 16)) 16
    let result ← crypto_aead_decrypt_shared g e ρ h.ms mlen h.cs clen h.as alen h.ns h.ks
    let ml ← load64 e mlen
    combine_shares g.EXTERN_BI e m ml.toNat h.ms g.M
    mfreeS lw (fail 0) h.ks (4 * (NUM_WORDS 16 * g.KEY))
    mfreeS lw (fail 1) h.ns (4 * (NUM_WORDS 16 * g.NPUB))
    mfreeS lw (fail 2) h.as (4 * (NUM_WORDS alen * g.AD))
    mfreeS lw (fail 3) h.ms (4 * (NUM_WORDS (clen - 16) * g.M))
    mfreeS lw (fail 4) h.cs (4 * (NUM_WORDS clen * g.C))
    pure result)

end Ascon.MaskedN
