import Verif.C.Contracts
import Verif.Model.RefAead
import Verif.Model.RefHash
import Verif.Model.RefPrf
import Verif.Model.GenAead
import Verif.Model.GenHash
import Verif.Model.GenPrf
import Verif.Model.Backends
import Verif.Model.LowAead
import Verif.Model.ArmPerm
import Verif.Model.Neon
import Verif.Model.Opt8
import Verif.Model.Avr
import Verif.Model.Avx512
/-!
# The modelled implementation directories

One constructor per implementation directory; the property theorems range over these types.
`runsOn e` says on which byte orders the directory is claimed to work (the bit-interleaved code accesses
the halves of a 64-bit word through a union and is only right on little-endian machines, see C31).
-/

namespace Ascon.Impl

open Ascon.C

/-- The word backends: word.h, constants.h, round.h and permutations.h of a directory (see
Verif/Model/Backends.lean for the files each one stands for). -/
inductive Core where
  | opt64 | opt64_lowsize | opt32 | opt32_lowsize | bi32 | bi32_lowreg | bi8
  | armv6 | armv6_lowsize | armv6m | armv6m_lowsize | armv7m | armv7m_small
  | bi32_armv6 | bi32_armv6m | bi32_armv7m | bi32_armv7m_small | neon
deriving DecidableEq, Repr

def Core.backend : Core → Gen.Backend
  | .opt64 => Gen.opt64
  | .opt64_lowsize => Gen.opt64_lowsize
  | .opt32 => Gen.opt32
  | .opt32_lowsize => Gen.opt32_lowsize
  | .bi32 => Gen.bi32
  | .bi32_lowreg => Gen.bi32_lowreg
  | .bi8 => Gen.bi8
  | .armv6 => Arm.armv6
  | .armv6_lowsize => Arm.armv6_lowsize
  | .armv6m => Arm.armv6m
  | .armv6m_lowsize => Arm.armv6m_lowsize
  | .armv7m => Arm.armv7m
  | .armv7m_small => Arm.armv7m_small
  | .bi32_armv6 => Arm.bi32_armv6
  | .bi32_armv6m => Arm.bi32_armv6m
  | .bi32_armv7m => Arm.bi32_armv7m
  | .bi32_armv7m_small => Arm.bi32_armv7m_small
  | .neon => Neon.backend

/-- The word representation: position of the 64 bits of a state word. -/
def Core.enc : Core → Word → Word
  | .opt64 | .opt64_lowsize | .opt32 | .opt32_lowsize
  | .armv6 | .armv6_lowsize | .armv6m | .armv6m_lowsize | .armv7m | .armv7m_small | .neon => fun w => w
  | .bi32 | .bi32_lowreg | .bi32_armv6 | .bi32_armv6m | .bi32_armv7m | .bi32_armv7m_small => Gen.deinterleave32 .little
  | .bi8 => Gen.interleave8

def Core.runsOn : Core → Endian → Prop
  | .opt64, _ | .opt64_lowsize, _ | .opt32, _ | .opt32_lowsize, _ | .neon, _ => True
  | _, e => e = .little

/-- The permutations of the byte-oriented code: src/opt8/round.h and src/avr/permutations.S. -/
inductive ByteCore where
  | opt8 | avr
deriving DecidableEq, Repr

def ByteCore.perms : ByteCore → Opt8.Perms
  | .opt8 => Opt8.perms
  | .avr => Avr.perms

/-- The mode code a directory of /repo/crypto_aead/asconaead128 or
/repo/crypto_aead_hash/asconaeadxof128 compiles: ref/aead.c, src/aead.c with a word backend, src/lowsize/{aead,update,crypto_aead}.c with a word backend (`comb` = the AEAD+XOF build), src/opt8/aead.c,
src/opt8_lowsize/{aead,update}.c, or src/avx512/aead.c, which leaves the padding lanes of its state uninitialised:
`junk` is what they happen to hold. -/
inductive AeadCode where
  | ref
  | gen (c : Core)
  | low (c : Core) (comb : Bool)
  | byte (b : ByteCore)
  | byteLow (b : ByteCore) (comb : Bool)
  | avx (junk : Avx512.Z)

def AeadCode.encrypt : AeadCode → AeadEncrypt
  | .ref => Ref.crypto_aead_encrypt
  | .gen c => Gen.crypto_aead_encrypt c.backend
  | .low c comb => Low.crypto_aead_encrypt c.backend comb
  | .byte b => Opt8.crypto_aead_encrypt b.perms
  | .byteLow b comb => Opt8.low_crypto_aead_encrypt b.perms (if comb then .comb else .aead)
  | .avx junk => Avx512.crypto_aead_encrypt junk

def AeadCode.decrypt : AeadCode → AeadDecrypt
  | .ref => Ref.crypto_aead_decrypt
  | .gen c => Gen.crypto_aead_decrypt c.backend
  | .low c comb => Low.crypto_aead_decrypt c.backend comb
  | .byte b => Opt8.crypto_aead_decrypt b.perms
  | .byteLow b comb => Opt8.low_crypto_aead_decrypt b.perms (if comb then .comb else .aead)
  | .avx junk => Avx512.crypto_aead_decrypt junk

def AeadCode.runsOn : AeadCode → Endian → Prop
  | .ref, _ => True
  | .gen c, e | .low c _, e => c.runsOn e
  | .byte _, e | .byteLow _ _, e | .avx _, e => e = .little

/-- Directories /repo/crypto_aead/asconaead128/<name>; the same files are used again in
/repo/crypto_aead_hash/asconaeadxof128/<name>, except that the `lowsize` code is compiled with the
hash modes there: these are the constructors `<name>_aeadxof`.  The argument of `avx512` is the initial contents of the state object, which
the code does not initialise: the theorems hold for all of them. -/
inductive Aead where
  | ref | opt64 | opt32 | bi32 | bi32_lowreg | bi8
  | opt64_lowsize | opt32_lowsize | bi32_lowsize
  | opt64_lowsize_aeadxof | opt32_lowsize_aeadxof | bi32_lowsize_aeadxof
  | armv6 | armv6m | armv7m | armv7m_small | bi32_armv6 | bi32_armv6m | bi32_armv7m | bi32_armv7m_small
  | armv6_lowsize | armv6m_lowsize | armv7m_lowsize
  | armv6_lowsize_aeadxof | armv6m_lowsize_aeadxof | armv7m_lowsize_aeadxof
  | opt8 | opt8_lowsize | opt8_lowsize_aeadxof
  | avr | avr_lowsize | avr_lowsize_aeadxof
  | avx512 (junk : Avx512.Z)
deriving DecidableEq, Repr

/-- Which files the directory consists of (symbolic links into /repo/src and own headers). -/
def Aead.code : Aead → AeadCode
  | .ref => .ref
  | .opt64 => .gen .opt64
  | .opt32 => .gen .opt32
  | .bi32 => .gen .bi32
  | .bi32_lowreg => .gen .bi32_lowreg
  | .bi8 => .gen .bi8
  | .opt64_lowsize => .low .opt64_lowsize false
  | .opt32_lowsize => .low .opt32_lowsize false
  | .bi32_lowsize => .low .bi32_lowreg false
  | .opt64_lowsize_aeadxof => .low .opt64_lowsize true
  | .opt32_lowsize_aeadxof => .low .opt32_lowsize true
  | .bi32_lowsize_aeadxof => .low .bi32_lowreg true
  | .armv6 => .gen .armv6
  | .armv6m => .gen .armv6m
  | .armv7m => .gen .armv7m
  | .armv7m_small => .gen .armv7m_small
  | .bi32_armv6 => .gen .bi32_armv6
  | .bi32_armv6m => .gen .bi32_armv6m
  | .bi32_armv7m => .gen .bi32_armv7m
  | .bi32_armv7m_small => .gen .bi32_armv7m_small
  | .armv6_lowsize => .low .armv6_lowsize false
  | .armv6m_lowsize => .low .armv6m_lowsize false
  | .armv7m_lowsize => .low .armv7m_small false
  | .armv6_lowsize_aeadxof => .low .armv6_lowsize true
  | .armv6m_lowsize_aeadxof => .low .armv6m_lowsize true
  | .armv7m_lowsize_aeadxof => .low .armv7m_small true
  | .opt8 => .byte .opt8
  | .opt8_lowsize => .byteLow .opt8 false
  | .opt8_lowsize_aeadxof => .byteLow .opt8 true
  | .avr => .byte .avr
  | .avr_lowsize => .byteLow .avr false
  | .avr_lowsize_aeadxof => .byteLow .avr true
  | .avx512 junk => .avx junk

/-- `crypto_aead_encrypt` of the directory. -/
def Aead.encrypt (i : Aead) : AeadEncrypt := i.code.encrypt
/-- `crypto_aead_decrypt` of the directory. -/
def Aead.decrypt (i : Aead) : AeadDecrypt := i.code.decrypt
def Aead.runsOn (i : Aead) (e : Endian) : Prop := i.code.runsOn e

/-- Directories /repo/crypto_hash/{asconhash256,asconxof128}/<name>. -/
inductive Hash where
  | ref | opt64 | opt64_lowsize | opt32 | opt32_lowsize | bi32 | bi32_lowreg | bi32_lowsize | bi8
  | armv6 | armv6_lowsize | armv6m | armv6m_lowsize | armv7m | armv7m_lowsize | armv7m_small
  | bi32_armv6 | bi32_armv6m | bi32_armv7m | bi32_armv7m_small | neon
  | opt8 | opt8_lowsize
  | avr_lowsize
  | avx512
deriving DecidableEq, Repr

/-- The hash code of a directory: ref/hash.c, src/hash.c with a word backend, src/opt8/hash.c,
src/opt8_lowsize/{hash,update}.c, or src/avx512/hash.c. -/
inductive HashCode where
  | ref
  | gen (c : Core)
  | byte (b : ByteCore)
  | byteLow (b : ByteCore)
  | avx

def HashCode.runsOn : HashCode → Endian → Prop
  | .ref, _ => True
  | .gen c, e => c.runsOn e
  | .byte _, e | .byteLow _, e | .avx, e => e = .little

/-- The files of the directory. -/
def Hash.code : Hash → HashCode
  | .ref => .ref
  | .opt64 => .gen .opt64
  | .opt64_lowsize => .gen .opt64_lowsize
  | .opt32 => .gen .opt32
  | .opt32_lowsize => .gen .opt32_lowsize
  | .bi32 => .gen .bi32
  | .bi32_lowreg => .gen .bi32_lowreg
  | .bi32_lowsize => .gen .bi32_lowreg
  | .bi8 => .gen .bi8
  | .armv6 => .gen .armv6
  | .armv6m => .gen .armv6m
  | .armv7m => .gen .armv7m
  | .armv7m_small => .gen .armv7m_small
  | .bi32_armv6 => .gen .bi32_armv6
  | .bi32_armv6m => .gen .bi32_armv6m
  | .bi32_armv7m => .gen .bi32_armv7m
  | .bi32_armv7m_small => .gen .bi32_armv7m_small
  | .armv6_lowsize => .gen .armv6_lowsize
  | .armv6m_lowsize => .gen .armv6m_lowsize
  | .armv7m_lowsize => .gen .armv7m_small
  | .neon => .gen .neon
  | .opt8 => .byte .opt8
  | .opt8_lowsize => .byteLow .opt8
  | .avr_lowsize => .byteLow .avr
  | .avx512 => .avx

/-- `crypto_hash` with the constants of asconhash256. -/
def HashCode.hash256 : HashCode → CryptoHash
  | .ref => Ref.crypto_hash_hash256
  | .gen c => Gen.crypto_hash_hash256 c.backend
  | .byte b => Opt8.crypto_hash_hash256 b.perms Opt8.opt8PadAt
  | .byteLow b => Opt8.low_crypto_hash_hash256 b.perms
  | .avx => Avx512.crypto_hash_hash256

/-- `crypto_hash` of /repo/crypto_hash/asconhash256/<name>. -/
def Hash.hash256 (i : Hash) : CryptoHash := i.code.hash256

def Hash.runsOn (i : Hash) (e : Endian) : Prop := i.code.runsOn e

/-- The directories that define `ascon_xof` with a variable output length:
/repo/crypto_hash/asconxof128/<name> (src/hash.c) and the `lowsize` directories
/repo/crypto_aead_hash/asconaeadxof128/<name> (src/lowsize/hash.c), `<name>_aeadxof`. -/
inductive Xof where
  | opt64 | opt64_lowsize | opt32 | opt32_lowsize | bi32 | bi32_lowreg | bi32_lowsize | bi8
  | opt64_lowsize_aeadxof | opt32_lowsize_aeadxof | bi32_lowsize_aeadxof
  | armv6 | armv6_lowsize | armv6m | armv6m_lowsize | armv7m | armv7m_lowsize | armv7m_small
  | bi32_armv6 | bi32_armv6m | bi32_armv7m | bi32_armv7m_small
  | armv6_lowsize_aeadxof | armv6m_lowsize_aeadxof | armv7m_lowsize_aeadxof | neon
  | opt8 | opt8_lowsize | opt8_lowsize_aeadxof
  | avr_lowsize | avr_lowsize_aeadxof
  | avx512
deriving DecidableEq, Repr

/-- The XOF code of a directory: src/hash.c or src/lowsize/hash.c with a word backend, src/opt8/hash.c,
src/opt8_lowsize/{hash,update}.c (`comb` = the AEAD+XOF build), or src/avx512/hash.c. -/
inductive XofCode where
  | gen (c : Core)
  | low (c : Core)
  | byte (b : ByteCore)
  | byteLow (b : ByteCore) (comb : Bool)
  | avx

/-- The files of the directory. -/
def Xof.code : Xof → XofCode
  | .opt64 => .gen .opt64
  | .opt64_lowsize => .gen .opt64_lowsize
  | .opt32 => .gen .opt32
  | .opt32_lowsize => .gen .opt32_lowsize
  | .bi32 => .gen .bi32
  | .bi32_lowreg => .gen .bi32_lowreg
  | .bi32_lowsize => .gen .bi32_lowreg
  | .bi8 => .gen .bi8
  | .opt64_lowsize_aeadxof => .low .opt64_lowsize
  | .opt32_lowsize_aeadxof => .low .opt32_lowsize
  | .bi32_lowsize_aeadxof => .low .bi32_lowreg
  | .armv6 => .gen .armv6
  | .armv6m => .gen .armv6m
  | .armv7m => .gen .armv7m
  | .armv7m_small => .gen .armv7m_small
  | .bi32_armv6 => .gen .bi32_armv6
  | .bi32_armv6m => .gen .bi32_armv6m
  | .bi32_armv7m => .gen .bi32_armv7m
  | .bi32_armv7m_small => .gen .bi32_armv7m_small
  | .armv6_lowsize => .gen .armv6_lowsize
  | .armv6m_lowsize => .gen .armv6m_lowsize
  | .armv7m_lowsize => .gen .armv7m_small
  | .armv6_lowsize_aeadxof => .low .armv6_lowsize
  | .armv6m_lowsize_aeadxof => .low .armv6m_lowsize
  | .armv7m_lowsize_aeadxof => .low .armv7m_small
  | .neon => .gen .neon
  | .opt8 => .byte .opt8
  | .opt8_lowsize => .byteLow .opt8 false
  | .opt8_lowsize_aeadxof => .byteLow .opt8 true
  | .avr_lowsize => .byteLow .avr false
  | .avr_lowsize_aeadxof => .byteLow .avr true
  | .avx512 => .avx

/-- `ascon_xof` with the constants of asconxof128. -/
def XofCode.xof128 : XofCode → AsconXof
  | .gen c => Gen.ascon_xof_xof128 c.backend
  | .low c => Low.ascon_xof c.backend
  | .byte b => Opt8.ascon_xof_xof128 b.perms Opt8.opt8PadAt
  | .byteLow b comb => Opt8.low_ascon_xof_xof128 b.perms (if comb then .comb else .hash)
  | .avx => Avx512.ascon_xof_xof128

/-- `crypto_hash` with the constants of asconxof128. -/
def XofCode.hash : XofCode → CryptoHash
  | .gen c => Gen.crypto_hash_xof128 c.backend
  | .low c => Low.crypto_hash c.backend
  | .byte b => Opt8.crypto_hash_xof128 b.perms Opt8.opt8PadAt
  | .byteLow b comb => Opt8.low_crypto_hash_xof128 b.perms (if comb then .comb else .hash)
  | .avx => Avx512.crypto_hash_xof128

def XofCode.runsOn : XofCode → Endian → Prop
  | .gen c, e | .low c, e => c.runsOn e
  | .byte _, e | .byteLow _ _, e | .avx, e => e = .little

/-- `ascon_xof` of the directory. -/
def Xof.xof128 (i : Xof) : AsconXof := i.code.xof128

def Xof.runsOn (i : Xof) (e : Endian) : Prop := i.code.runsOn e

/-- The directories whose `crypto_hash` is Ascon-XOF128 with 64 bytes of output: ref/hash.c, or one of
the directories of `Xof`. -/
inductive HashX where
  | ref
  | dir (i : Xof)
deriving DecidableEq, Repr

/-- `crypto_hash` of the directory. -/
def HashX.xof128 : HashX → CryptoHash
  | .ref => Ref.crypto_hash_xof128
  | .dir i => i.code.hash

def HashX.runsOn : HashX → Endian → Prop
  | .ref, _ => True
  | .dir i, e => i.runsOn e

/-- Directories /repo/crypto_auth/{asconmacv13,asconprfv13,asconprfsv13}/<name>. -/
inductive Auth where
  | ref | opt64 | opt32 | bi32 | bi32_lowreg | bi8
  | armv6 | armv6m | armv7m | armv7m_small | bi32_armv6 | bi32_armv6m | bi32_armv7m | bi32_armv7m_small
  | opt8
deriving DecidableEq, Repr

/-- The code of a directory: ref, src/{prf,prfs}.c with a word backend, or src/opt8/{prf,prfs}.c. -/
inductive AuthCode where
  | ref
  | gen (B : Core)
  | byte (b : ByteCore)

/-- The files of the directory. -/
def Auth.code : Auth → AuthCode
  | .ref => .ref
  | .opt64 => .gen .opt64
  | .opt32 => .gen .opt32
  | .bi32 => .gen .bi32
  | .bi32_lowreg => .gen .bi32_lowreg
  | .bi8 => .gen .bi8
  | .armv6 => .gen .armv6
  | .armv6m => .gen .armv6m
  | .armv7m => .gen .armv7m
  | .armv7m_small => .gen .armv7m_small
  | .bi32_armv6 => .gen .bi32_armv6
  | .bi32_armv6m => .gen .bi32_armv6m
  | .bi32_armv7m => .gen .bi32_armv7m
  | .bi32_armv7m_small => .gen .bi32_armv7m_small
  | .opt8 => .byte .opt8

/-- Choice by the kind of code. -/
def AuthCode.elim {α : Type} (c : AuthCode) (ref : α) (gen : Gen.Backend → α)
    (byte : Opt8.Perms → (Nat → Nat) → Nat → α) : α :=
  match c with
  | .ref => ref
  | .gen c => gen c.backend
  | .byte b => byte b.perms Opt8.opt8PadAt 7

/-- `crypto_auth` of asconmacv13. -/
def Auth.macAuth (i : Auth) : CryptoAuth := i.code.elim Ref.mac_crypto_auth Gen.mac_crypto_auth Opt8.mac_crypto_auth
/-- `crypto_auth_verify` of asconmacv13. -/
def Auth.macVerify (i : Auth) : CryptoVerify :=
  i.code.elim Ref.mac_crypto_auth_verify Gen.mac_crypto_auth_verify Opt8.mac_crypto_auth_verify
/-- `crypto_prf` of asconmacv13. -/
def Auth.macPrf (i : Auth) : CryptoPrf := i.code.elim Ref.mac_crypto_prf Gen.mac_crypto_prf Opt8.mac_crypto_prf
/-- `crypto_auth` of asconprfv13. -/
def Auth.prfAuth (i : Auth) : CryptoAuth := i.code.elim Ref.prf_crypto_auth Gen.prf_crypto_auth Opt8.prf_crypto_auth
/-- `crypto_auth_verify` of asconprfv13. -/
def Auth.prfVerify (i : Auth) : CryptoVerify :=
  i.code.elim Ref.prf_crypto_auth_verify Gen.prf_crypto_auth_verify Opt8.prf_crypto_auth_verify
/-- `crypto_prf` of asconprfv13. -/
def Auth.prf (i : Auth) : CryptoPrf := i.code.elim Ref.prf_crypto_prf Gen.prf_crypto_prf Opt8.prf_crypto_prf
/-- `crypto_auth` of asconprfsv13. -/
def Auth.prfsAuth (i : Auth) : CryptoAuth := i.code.elim Ref.prfs_crypto_auth Gen.prfs_crypto_auth fun V _ _ => Opt8.prfs_crypto_auth V
/-- `crypto_auth_verify` of asconprfsv13. -/
def Auth.prfsVerify (i : Auth) : CryptoVerify :=
  i.code.elim Ref.prfs_crypto_auth_verify Gen.prfs_crypto_auth_verify fun V _ _ => Opt8.prfs_crypto_auth_verify V
/-- `crypto_prf` of asconprfsv13. -/
def Auth.prfs (i : Auth) : CryptoPrf := i.code.elim Ref.prfs_crypto_prf Gen.prfs_crypto_prf fun V _ _ => Opt8.prfs_crypto_prf V

def AuthCode.runsOn : AuthCode → Endian → Prop
  | .ref, _ => True
  | .gen c, e => c.runsOn e
  | .byte _, e => e = .little

def Auth.runsOn (i : Auth) (e : Endian) : Prop := i.code.runsOn e

/-- The implementations of the permutation (`P(s, nr)` of permutations.h with the round.h of the
directory).  The arguments of `avx512` are the contents of the three padding lanes. -/
inductive Perm where
  | ref
  | core (c : Core)
  | byte (b : ByteCore)
  | avx512 (y5 y6 y7 : Word)
deriving DecidableEq, Repr

/-- `P(s, 12)` -/
def Perm.P12 : Perm → Endian → State → Prog State
  | .ref, _, s => .ret (Ref.P12 s)
  | .core c, e, s => c.backend.P12 e s
  | .byte b, e, s => b.perms.P12 e s
  | .avx512 y5 y6 y7, _, s => .ret (Avx512.P12 ⟨s, y5, y6, y7⟩).s

/-- `P(s, 8)` -/
def Perm.P8 : Perm → Endian → State → Prog State
  | .ref, _, s => .ret (Ref.P8 s)
  | .core c, e, s => c.backend.P8 e s
  | .byte b, e, s => b.perms.P8 e s
  | .avx512 y5 y6 y7, _, s => .ret (Avx512.P8 ⟨s, y5, y6, y7⟩).s

/-- `P(s, 6)` (src/permutations.h:43-50 and 97-104; not called by the modes in this repository) -/
def Perm.P6 : Perm → Endian → State → Prog State
  | .ref, _, s => .ret (Ref.P6 s)
  | .core .opt64, _, s => Gen.P6ROUNDS Gen.optConsts (Gen.ROUND_opt64 Gen.ROR64) s
  | .core .opt64_lowsize, _, s => Gen.PROUNDS Gen.optConsts (Gen.ROUND_low Gen.ROR64) 6 s
  | .core .opt32, _, s => Gen.P6ROUNDS Gen.optConsts Gen.ROUND_opt32 s
  | .core .opt32_lowsize, _, s => Gen.PROUNDS Gen.optConsts Gen.ROUND_opt32 6 s
  | .core .bi32, e, s => Gen.P6ROUNDS Gen.bi32Consts (Gen.ROUND_opt64 (Gen.bi32ROR e)) s
  | .core .bi32_lowreg, e, s => Gen.PROUNDS Gen.bi32Consts (Gen.ROUND_low (Gen.bi32ROR e)) 6 s
  | .core .bi8, e, s => Gen.PROUNDS Gen.bi8Consts (Gen.ROUND_low (Gen.bi8ROR e)) 6 s
  | .core .armv6, e, s => Arm.armv6_P 6 e s
  | .core .armv6_lowsize, e, s => Arm.armv6_lowsize_P 6 e s
  | .core .armv6m, e, s => Arm.armv6m_P 6 e s
  | .core .armv6m_lowsize, e, s => Arm.armv6m_lowsize_P 6 e s
  | .core .armv7m, e, s => Arm.armv7m_P 6 e s
  | .core .armv7m_small, e, s => Arm.armv7m_small_P 6 e s
  | .core .bi32_armv6, e, s => Arm.bi32_armv6_P 6 e s
  | .core .bi32_armv6m, e, s => Arm.bi32_armv6m_P 6 e s
  | .core .bi32_armv7m, e, s => Arm.bi32_armv7m_P 6 e s
  | .core .bi32_armv7m_small, e, s => Arm.bi32_armv7m_small_P 6 e s
  | .core .neon, e, s => Neon.P6 e s
  | .byte .opt8, e, s => Opt8.PROUNDS e 6 s
  | .byte .avr, e, s => Avr.avr_P 6 e s
  | .avx512 y5 y6 y7, _, s => .ret (Avx512.P6 ⟨s, y5, y6, y7⟩).s

def Perm.enc : Perm → Word → Word
  | .ref => fun w => w
  | .core c => c.enc
  | .byte _ | .avx512 .. => fun w => w

def Perm.runsOn : Perm → Endian → Prop
  | .ref, _ => True
  | .core c, e => c.runsOn e
  | .byte _, e | .avx512 .., e => e = .little

end Ascon.Impl
