import Verif.C.Ahead
import Verif.C.Asm
import Verif.C.Contracts
import Verif.C.Detached
import Verif.C.Fetch
import Verif.C.Footprint
import Verif.C.Freed
import Verif.C.Keeps
import Verif.C.Lemmas
import Verif.C.LenFirst
import Verif.C.MaskedContracts
import Verif.C.MaskedNContracts
import Verif.C.Place
import Verif.C.Prog
import Verif.C.Shared
import Verif.C.Sim
import Verif.C.Threads
import Verif.C.VariantContracts
import Verif.Model.Arm
import Verif.Model.ArmCode
import Verif.Model.ArmLowCode
import Verif.Model.ArmPerm
import Verif.Model.ArmPlace
import Verif.Model.Avr
import Verif.Model.Avx512
import Verif.Model.Backends
import Verif.Model.Constants
import Verif.Model.Detached
import Verif.Model.Esp32
import Verif.Model.GenA
import Verif.Model.GenAead
import Verif.Model.GenCore
import Verif.Model.GenHash
import Verif.Model.GenPrf
import Verif.Model.GenVar
import Verif.Model.LowAead
import Verif.Model.LowAlign
import Verif.Model.Masked
import Verif.Model.MaskedN
import Verif.Model.MaskedNAlloc
import Verif.Model.MaskedNDecrypt
import Verif.Model.MaskedNProbe
import Verif.Model.MaskedNSteps
import Verif.Model.MaskedProbe
import Verif.Model.Neon
import Verif.Model.Opt8
import Verif.Model.RefAead
import Verif.Model.RefCore
import Verif.Model.RefHash
import Verif.Model.RefPrf
import Verif.Model.Registry
import Verif.Model.Rounds
import Verif.Model.Rv
import Verif.Model.RvAead
import Verif.Model.RvCode
import Verif.Model.Xt
import Verif.Model.XtCode
import Verif.Proof.Ahead
import Verif.Proof.AheadDec
import Verif.Proof.AheadTop
import Verif.Proof.Anf
import Verif.Proof.AnfRound
import Verif.Proof.ArmBackends
import Verif.Proof.ArmCheckBi
import Verif.Proof.ArmCheckOpt
import Verif.Proof.ArmLow
import Verif.Proof.ArmPerm
import Verif.Proof.ArmPlace
import Verif.Proof.AsmRound
import Verif.Proof.AvrHash
import Verif.Proof.AvrPerm
import Verif.Proof.AvrRound
import Verif.Proof.AvrSym
import Verif.Proof.Avx512
import Verif.Proof.Avx512CT
import Verif.Proof.Avx512Fetch
import Verif.Proof.Backends
import Verif.Proof.Detached
import Verif.Proof.Esp32
import Verif.Proof.Esp32Align
import Verif.Proof.Esp32CT
import Verif.Proof.Esp32Perm
import Verif.Proof.Esp32Top
import Verif.Proof.Freed
import Verif.Proof.GenA
import Verif.Proof.GenAead
import Verif.Proof.GenCT
import Verif.Proof.GenCore
import Verif.Proof.GenFetch
import Verif.Proof.GenHash
import Verif.Proof.GenVar
import Verif.Proof.GenVarBackends
import Verif.Proof.GenVarCT
import Verif.Proof.LenFirst
import Verif.Proof.Linear
import Verif.Proof.Loops
import Verif.Proof.LoopsA
import Verif.Proof.LowAead
import Verif.Proof.LowCT
import Verif.Proof.LowFetch
import Verif.Proof.MaskedAead
import Verif.Proof.MaskedCT
import Verif.Proof.MaskedNAead
import Verif.Proof.MaskedNAlloc
import Verif.Proof.MaskedNCT
import Verif.Proof.MaskedNDec
import Verif.Proof.MaskedNLocal
import Verif.Proof.MaskedNMem
import Verif.Proof.MaskedNProbe
import Verif.Proof.MaskedNProbeGate
import Verif.Proof.MaskedNProbeLink
import Verif.Proof.MaskedNRound
import Verif.Proof.MaskedNShares
import Verif.Proof.MaskedNSteps
import Verif.Proof.MaskedNTop
import Verif.Proof.MaskedProbe
import Verif.Proof.MaskedProbeFinal
import Verif.Proof.MaskedProbeLink
import Verif.Proof.MaskedRound
import Verif.Proof.MaskedSecrecy
import Verif.Proof.MaskedShares
import Verif.Proof.MaskedTop
import Verif.Proof.Neon
import Verif.Proof.NeonCT
import Verif.Proof.NeonPerm
import Verif.Proof.NeonTop
import Verif.Proof.Opt8Aead
import Verif.Proof.Opt8CT
import Verif.Proof.Opt8Core
import Verif.Proof.Opt8Fetch
import Verif.Proof.Opt8Hash
import Verif.Proof.Opt8Low
import Verif.Proof.Opt8LowFetch
import Verif.Proof.Opt8Perm
import Verif.Proof.PermBij
import Verif.Proof.Place
import Verif.Proof.RefAead
import Verif.Proof.RefAeadCT
import Verif.Proof.RefCore
import Verif.Proof.RefFetch
import Verif.Proof.RefHash
import Verif.Proof.RefHashCT
import Verif.Proof.Registry
import Verif.Proof.RegistryFetch
import Verif.Proof.Rounds
import Verif.Proof.Rv32b
import Verif.Proof.Rv32i
import Verif.Proof.RvBi32
import Verif.Proof.RvBiPerm
import Verif.Proof.RvCodec
import Verif.Proof.RvCore
import Verif.Proof.RvFault
import Verif.Proof.RvFsr
import Verif.Proof.RvImpl
import Verif.Proof.RvLogic
import Verif.Proof.RvOld
import Verif.Proof.RvOldTop
import Verif.Proof.RvPerm
import Verif.Proof.RvRules
import Verif.Proof.RvSpec
import Verif.Proof.RvStd
import Verif.Proof.RvTop
import Verif.Proof.RvUnaligned
import Verif.Proof.RvV12
import Verif.Proof.SpecAead
import Verif.Proof.SpecSponge
import Verif.Proof.SpecVariants
import Verif.Proof.Words
import Verif.Proof.XtAead
import Verif.Proof.XtCore
import Verif.Proof.XtFrame
import Verif.Proof.XtHash
import Verif.Proof.XtPerm
import Verif.Proof.XtTop
import Verif.Props.AVariants
import Verif.Props.Aead
import Verif.Props.Ahead
import Verif.Props.AheadDec
import Verif.Props.ArmPlace
import Verif.Props.Auth
import Verif.Props.Avr
import Verif.Props.Demo
import Verif.Props.Detached
import Verif.Props.Esp32
import Verif.Props.Esp32Align
import Verif.Props.Fetch
import Verif.Props.Freed
import Verif.Props.Hash
import Verif.Props.Interop
import Verif.Props.LenFirst
import Verif.Props.LowAlign
import Verif.Props.Masked
import Verif.Props.MaskedN
import Verif.Props.MaskedNAlloc
import Verif.Props.MaskedNCipher
import Verif.Props.MaskedNDecrypt
import Verif.Props.MaskedNProbe
import Verif.Props.MaskedNSteps
import Verif.Props.MaskedProbe
import Verif.Props.Misc
import Verif.Props.Neon
import Verif.Props.NonceReuse
import Verif.Props.Perm
import Verif.Props.Rv
import Verif.Props.RvFault
import Verif.Props.RvOld
import Verif.Props.Shared
import Verif.Props.Shift
import Verif.Props.Threads
import Verif.Props.Variants
import Verif.Props.XtAead
import Verif.Props.XtHash
import Verif.Spec.AVariants
import Verif.Spec.Ascon128a
import Verif.Spec.AsconHash12
import Verif.Spec.Bytes
import Verif.Spec.FoldTag
import Verif.Spec.MaskedTag
import Verif.Spec.Modes
import Verif.Spec.Perm
import Verif.Spec.Probing
import Verif.Spec.Variants
import Verif.Test.Kat
import Verif.Test.Kat128a
import Verif.Test.KatHash12
