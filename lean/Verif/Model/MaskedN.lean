import Verif.Model.Masked
/-!
# protected_bi32_armv6_leveled with any supported number of shares

Model/Masked.lean has the code that api.h selects (two shares of the key, everything else unshared).  This file has the code
for every configuration config.h accepts: `NUM_SHARES_KEY`, `_NPUB`, `_AD`, `_M`, `_C` between 1 and 4 (permutations.c has
`P1` … `P4`), among them the 3-share configuration of the file goal_powersca_1st, and both values of `ASCON_EXTERN_BI`.
`ASCON_AEAD_RATE = 16`, `ASCON_ROR_SHARES = 5`, `ASCON_PB_ROUNDS = 8` as in api.h and config.h.

A `word_t` is a function from share numbers to shares; the C struct has `NUM_SHARES_KEY` of them and the code accesses only
shares below its `ns`, so what the function is elsewhere does not matter (`MRND` leaves arbitrary values there, which are
uninitialised in C).  `randombytes`, `malloc` and the asm.h macros are as in Model/Masked.lean: `ρ i j` is the `j`-th 64-bit word that
the `i`-th call of `randombytes` delivers.
-/

namespace Ascon.MaskedN

open Ascon.C
open Ascon.Gen hiding ROR32 ROR64
open Ascon.C.Prog (require ifc loop forUp loadB storeB loadN storeN store64 load64)
open Ascon.Masked (U32 share_t ROR32 ROR64 ROT EOR_BIC_ROR EOR_AND_ROR load32 store32 TOBI FROMBI linWord constants
  ASCON_128A_IV NUM_WORDS idx Heap malloc mfree)

/-- api.h:13-31 and config.h:7-9: the parameters that may be given to the compiler. -/
structure Cfg where
  KEY : Nat
  NPUB : Nat
  AD : Nat
  M : Nat
  C : Nat
  EXTERN_BI : Bool

/-- config.h:21-35 (the `#error` conditions) and permutations.c (at most four shares). -/
def Cfg.Supported (g : Cfg) : Prop :=
  1 ≤ g.C ∧ g.C ≤ g.M ∧ 1 ≤ g.AD ∧ g.AD ≤ g.M ∧ g.M ≤ g.KEY ∧ 1 ≤ g.NPUB ∧ g.NPUB ≤ g.KEY ∧ g.KEY ≤ 4

/-! ## word.h -/

/-- word.h:17-19 -/
abbrev word_t := Nat → share_t

/-- `w.s[d].w[i]` -/
def word_t.get (w : word_t) (d i : Nat) : U32 := (w d).get i
/-- `w.s[d].w[i] = v` -/
def word_t.set (w : word_t) (d i : Nat) (v : U32) : word_t := fun d' => if d' = d then (w d).set i v else w d'

/-- `w.s[d].w[i] ^= v` -/
def word_t.xor (w : word_t) (d i : Nat) (v : U32) : word_t := word_t.set w d i (word_t.get w d i ^^^ v)

/-- word.h:40-50 -/
def MXOR (a b : word_t) (ns : Nat) : word_t :=
  let a := if ns ≥ 1 then word_t.xor a 0 0 (word_t.get b 0 0) else a
  let a := if ns ≥ 1 then word_t.xor a 0 1 (word_t.get b 0 1) else a
  let a := if ns ≥ 2 then word_t.xor a 1 0 (word_t.get b 1 0) else a
  let a := if ns ≥ 2 then word_t.xor a 1 1 (word_t.get b 1 1) else a
  let a := if ns ≥ 3 then word_t.xor a 2 0 (word_t.get b 2 0) else a
  let a := if ns ≥ 3 then word_t.xor a 2 1 (word_t.get b 2 1) else a
  let a := if ns ≥ 4 then word_t.xor a 3 0 (word_t.get b 3 0) else a
  let a := if ns ≥ 4 then word_t.xor a 3 1 (word_t.get b 3 1) else a
  a

/-- asm.h:46-53 `EOR_ORR_ROR(ce, ae, be, imm, tmp)`: the new value of `ce`. -/
def EOR_ORR_ROR (ce ae be : U32) (imm : Int) : U32 := (ae ||| ROR32 be (ROT imm)) ^^^ ce

/-- `EOR_BIC_ROR(c.s[d].w[i], x, y, imm, tmp)` -/
def bic (c : word_t) (d i : Nat) (x y : U32) (imm : Int) : word_t := word_t.set c d i (EOR_BIC_ROR (word_t.get c d i) x y imm)
/-- `EOR_AND_ROR(c.s[d].w[i], x, y, imm, tmp)` -/
def and (c : word_t) (d i : Nat) (x y : U32) (imm : Int) : word_t := word_t.set c d i (EOR_AND_ROR (word_t.get c d i) x y imm)
/-- `EOR_ORR_ROR(c.s[d].w[i], x, y, imm, tmp)` -/
def orr (c : word_t) (d i : Nat) (x y : U32) (imm : Int) : word_t := word_t.set c d i (EOR_ORR_ROR (word_t.get c d i) x y imm)

/-- word.h:54-56, `ns == 1` -/
def MXORBIC1 (c a b : word_t) (i : Nat) : word_t :=
  bic c 0 i (a.get 0 i) (b.get 0 i) 0

/-- word.h:57-64, `ns == 2` -/
def MXORBIC2 (c a b : word_t) (i : Nat) : word_t :=
  let c := bic c 0 i (a.get 0 i) (b.get 0 i) 0
  let c := bic c 1 i (a.get 1 i) (b.get 0 i) (0 - 1)
  let c := and c 1 i (a.get 1 i) (b.get 1 i) 0
  let c := and c 0 i (a.get 0 i) (b.get 1 i) (1 - 0)
  c

/-- word.h:65-75, `ns == 3` -/
def MXORBIC3 (c a b : word_t) (i : Nat) : word_t :=
  let c := and c 0 i (b.get 0 i) (a.get 1 i) (1 - 0)
  let c := bic c 0 i (a.get 0 i) (b.get 0 i) 0
  let c := and c 0 i (b.get 0 i) (a.get 2 i) (2 - 0)
  let c := and c 1 i (b.get 1 i) (a.get 2 i) (2 - 1)
  let c := bic c 1 i (a.get 1 i) (b.get 1 i) 0
  let c := and c 1 i (b.get 1 i) (a.get 0 i) (0 - 1)
  let c := bic c 2 i (b.get 2 i) (a.get 0 i) (0 - 2)
  let c := orr c 2 i (a.get 2 i) (b.get 2 i) 0
  let c := and c 2 i (b.get 2 i) (a.get 1 i) (1 - 2)
  c

/-- word.h:76-93, `ns == 4` -/
def MXORBIC4 (c a b : word_t) (i : Nat) : word_t :=
  let c := bic c 0 i (a.get 0 i) (b.get 0 i) 0
  let c := bic c 1 i (a.get 1 i) (b.get 0 i) (0 - 1)
  let c := bic c 2 i (a.get 2 i) (b.get 0 i) (0 - 2)
  let c := bic c 3 i (a.get 3 i) (b.get 0 i) (0 - 3)
  let c := and c 1 i (a.get 1 i) (b.get 1 i) 0
  let c := and c 2 i (a.get 2 i) (b.get 1 i) (1 - 2)
  let c := and c 3 i (a.get 3 i) (b.get 1 i) (1 - 3)
  let c := and c 0 i (a.get 0 i) (b.get 1 i) (1 - 0)
  let c := and c 2 i (a.get 2 i) (b.get 2 i) 0
  let c := and c 3 i (a.get 3 i) (b.get 2 i) (2 - 3)
  let c := and c 0 i (a.get 0 i) (b.get 2 i) (2 - 0)
  let c := and c 1 i (a.get 1 i) (b.get 2 i) (2 - 1)
  let c := and c 3 i (a.get 3 i) (b.get 3 i) 0
  let c := and c 0 i (a.get 0 i) (b.get 3 i) (3 - 0)
  let c := and c 1 i (a.get 1 i) (b.get 3 i) (3 - 1)
  let c := and c 2 i (a.get 2 i) (b.get 3 i) (3 - 2)
  c

/-- word.h:52-97 -/
def MXORBIC (c a b : word_t) (i ns : Nat) : word_t :=
  if ns = 1 then MXORBIC1 c a b i
  else if ns = 2 then MXORBIC2 c a b i
  else if ns = 3 then MXORBIC3 c a b i
  else if ns = 4 then MXORBIC4 c a b i
  else c

/-- word.h:99-105 -/
def MXORAND (c a b : word_t) (ns : Nat) : word_t :=
  let b := word_t.set b 0 0 (~~~(word_t.get b 0 0))
  let b := word_t.set b 0 1 (~~~(word_t.get b 0 1))
  let c := MXORBIC c a b 0 ns
  let c := MXORBIC c a b 1 ns
  c

/-- word.h:107-112: `randombytes((uint8_t*)&(w.s[1].w[0]), (ns - 1) * 8)`; `r j` is the `j`-th 64-bit word delivered
(for `j ≥ ns - 1` the uninitialised rest of `w`). -/
def MRND (r : Nat → Word) : word_t :=
  fun d => if d = 0 then ⟨0, 0⟩ else ⟨(r (d - 1)).setWidth 32, (r (d - 1) >>> 32).setWidth 32⟩

/-- `w.s[d].w[i] = ROR32(w.s[d].w[i], n)` -/
def rorShare (w : word_t) (d i n : Nat) : word_t := word_t.set w d i (ROR32 (word_t.get w d i) n)

/-- word.h:114-122 -/
def MMIX (w : word_t) (ns : Nat) : word_t :=
  let w := if ns ≥ 2 then rorShare w 1 0 7 else w
  let w := if ns ≥ 2 then rorShare w 1 1 7 else w
  let w := if ns ≥ 3 then rorShare w 2 0 13 else w
  let w := if ns ≥ 3 then rorShare w 2 1 13 else w
  let w := if ns ≥ 4 then rorShare w 3 0 29 else w
  let w := if ns ≥ 4 then rorShare w 3 1 29 else w
  w

/-- word.h:124-132 -/
def MREMASK (w r : word_t) (nsi nso : Nat) : word_t :=
  let w := if nsi ≥ 2 ∧ nso < 2 then word_t.xor w 0 0 (ROR32 (word_t.get r 1 0) (ROT 1)) else w
  let w := if nsi ≥ 2 ∧ nso < 2 then word_t.xor w 0 1 (ROR32 (word_t.get r 1 1) (ROT 1)) else w
  let w := if nsi ≥ 3 ∧ nso < 3 then word_t.xor w 0 0 (ROR32 (word_t.get r 2 0) (ROT 2)) else w
  let w := if nsi ≥ 3 ∧ nso < 3 then word_t.xor w 0 1 (ROR32 (word_t.get r 2 1) (ROT 2)) else w
  let w := if nsi ≥ 4 ∧ nso < 4 then word_t.xor w 0 0 (ROR32 (word_t.get r 3 0) (ROT 3)) else w
  let w := if nsi ≥ 4 ∧ nso < 4 then word_t.xor w 0 1 (ROR32 (word_t.get r 3 1) (ROT 3)) else w
  w

/-- word.h:134-136 -/
def MREDUCE (w : word_t) (nsi nso : Nat) : word_t := MREMASK w w nsi nso

/-- word.h:138-140 -/
def MEXPAND (w : word_t) (nsi nso : Nat) : word_t := MREMASK w w nso nsi

/-- word.h:142-148 -/
def MREUSE (w : word_t) (val : Word) (ns : Nat) : word_t :=
  let w := word_t.set w 0 0 (val.setWidth 32)
  let w := word_t.set w 0 1 ((val >>> 32).setWidth 32)
  let w := MMIX w ns
  let w := MREMASK w w ns 1
  w

/-- word.h:150-155 -/
def MZERO (r : Nat → Word) (ns : Nat) : word_t :=
  let w := MRND r
  let w := MMIX w ns
  let w := MREMASK w w ns 1
  w

/-- word.h:157-161 -/
def MREFRESH (w : word_t) (r : Nat → Word) (ns : Nat) : word_t :=
  let r := MRND r
  let w := MREMASK w r ns 1
  MXOR w r ns

/-- word.h:163-168 -/
def MMASK (w : word_t) (n : Nat) : Prog word_t := do
  require (n * 4 < 32)
  let mask : U32 := (0xffffffff : U32) <<< (n * 4)
  let w := word_t.xor w 0 0 mask
  let w := word_t.xor w 0 1 mask
  pure w

/-- word.h:170-183 -/
def LOADSHARE (bi : Bool) (e : Endian) (data ns : Nat) : Prog share_t := do
  let lo ← load32 e data
  let hi ← load32 e (data + 4 * ns)
  if bi then pure ⟨lo, hi⟩
  else
    let tmp := TOBI (hi.setWidth 64 <<< 32 ||| lo.setWidth 64)
    pure ⟨tmp.setWidth 32, (tmp >>> 32).setWidth 32⟩

/-- word.h:185-196 -/
def STORESHARE (bi : Bool) (e : Endian) (data : Nat) (s : share_t) (ns : Nat) : Prog Unit := do
  let tmp := FROMBI (s.w1.setWidth 64 <<< 32 ||| s.w0.setWidth 64)
  let lo : U32 := if bi then s.w0 else tmp.setWidth 32
  let hi : U32 := if bi then s.w1 else (tmp >>> 32).setWidth 32
  store32 e data lo
  store32 e (data + 4 * ns) hi

/-- `w.s[d] = s` -/
def word_t.setShare (w : word_t) (d : Nat) (s : share_t) : word_t := fun d' => if d' = d then s else w d'

/-- word.h:198-205; `word_t w = {0}` -/
def MLOAD (bi : Bool) (e : Endian) (data ns : Nat) : Prog word_t := do
  let w : word_t := fun _ => ⟨0, 0⟩
  let w ← if ns ≥ 1 then (do let s ← LOADSHARE bi e data ns; pure (word_t.setShare w 0 s)) else pure w
  let w ← if ns ≥ 2 then (do let s ← LOADSHARE bi e (data + 4) ns; pure (word_t.setShare w 1 s)) else pure w
  let w ← if ns ≥ 3 then (do let s ← LOADSHARE bi e (data + 8) ns; pure (word_t.setShare w 2 s)) else pure w
  let w ← if ns ≥ 4 then (do let s ← LOADSHARE bi e (data + 12) ns; pure (word_t.setShare w 3 s)) else pure w
  pure w

/-- word.h:207-212 -/
def MSTORE (bi : Bool) (e : Endian) (data : Nat) (w : word_t) (ns : Nat) : Prog Unit := do
  if ns ≥ 1 then STORESHARE bi e data (w 0) ns else pure ()
  if ns ≥ 2 then STORESHARE bi e (data + 4) (w 1) ns else pure ()
  if ns ≥ 3 then STORESHARE bi e (data + 8) (w 2) ns else pure ()
  if ns ≥ 4 then STORESHARE bi e (data + 12) (w 3) ns else pure ()

/-! ## round.h, permutations.h -/

/-- ascon.h:9-11 -/
structure MState where
  x0 : word_t
  x1 : word_t
  x2 : word_t
  x3 : word_t
  x4 : word_t
  x5 : word_t

/-- round.h:8-13 -/
def AFFINE1 (s : MState) (i d : Nat) : MState :=
  let s := { s with x2 := s.x2.xor d i (s.x1.get d i) }
  let s := { s with x0 := s.x0.xor d i (s.x4.get d i) }
  let s := { s with x4 := s.x4.xor d i (s.x3.get d i) }
  s

/-- round.h:15-21 -/
def AFFINE2 (s : MState) (i d : Nat) : MState :=
  let s := { s with x2 := s.x2.xor d i (s.x5.get d i) }
  let s := { s with x1 := s.x1.xor d i (s.x0.get d i) }
  let s := { s with x0 := s.x0.xor d i (s.x4.get d i) }
  let s := { s with x3 := s.x3.xor d i (s.x2.get d i) }
  s

/-- round.h:24-28: affine layer 1 -/
def affine1 (s : MState) (i ns : Nat) : MState :=
  let s := if ns ≥ 1 then AFFINE1 s i 0 else s
  let s := if ns ≥ 2 then AFFINE1 s i 1 else s
  let s := if ns ≥ 3 then AFFINE1 s i 2 else s
  let s := if ns ≥ 4 then AFFINE1 s i 3 else s
  s

/-- round.h:36-41: affine layer 2 -/
def affine2 (s : MState) (i ns : Nat) : MState :=
  let s := if ns ≥ 1 then AFFINE2 s i 0 else s
  let s := { s with x2 := s.x2.set 0 i (~~~(s.x2.get 0 i)) }
  let s := if ns ≥ 2 then AFFINE2 s i 1 else s
  let s := if ns ≥ 3 then AFFINE2 s i 2 else s
  let s := if ns ≥ 4 then AFFINE2 s i 3 else s
  s

/-- round.h:23-43 -/
def SBOX (s : MState) (i ns : Nat) : MState :=
  let s := affine1 s i ns
  let s := { s with x5 := MXORBIC s.x5 s.x4 s.x3 i ns }
  let s := { s with x4 := MXORBIC s.x4 s.x1 s.x0 i ns }
  let s := { s with x1 := MXORBIC s.x1 s.x3 s.x2 i ns }
  let s := { s with x3 := MXORBIC s.x3 s.x0 s.x4 i ns }
  let s := { s with x0 := MXORBIC s.x0 s.x2 s.x1 i ns }
  affine2 s i ns

/-- `w.s[d] = f(w.s[d])` -/
def word_t.onShare (w : word_t) (d : Nat) (f : share_t → share_t) : word_t := word_t.setShare w d (f (w d))

/-- round.h:45-69 (`linWord` of Model/Masked.lean is one word of it) -/
def LINEAR (s : MState) (d : Nat) : MState :=
  { s with
    x0 := s.x0.onShare d fun w => linWord w 1 4 5 1 9 10
    x1 := s.x1.onShare d fun w => linWord w 0 11 11 1 19 20
    x2 := s.x2.onShare d fun w => linWord w 1 2 3 1 0 1
    x3 := s.x3.onShare d fun w => linWord w 1 3 4 0 5 5
    x4 := s.x4.onShare d fun w => linWord w 0 17 17 1 3 4 }

/-- round.h:79-83: linear layer -/
def linear (s : MState) (ns : Nat) : MState :=
  let s := if ns ≥ 4 then LINEAR s 3 else s
  let s := if ns ≥ 3 then LINEAR s 2 else s
  let s := if ns ≥ 2 then LINEAR s 1 else s
  let s := if ns ≥ 1 then LINEAR s 0 else s
  s

/-- round.h:71-86 -/
def ROUND_ (s : MState) (C_o C_e : Byte) (ns : Nat) : MState :=
  let s := { s with x2 := s.x2.xor 0 0 (C_e.setWidth 32) }
  let s := SBOX s 0 ns
  let s := { s with x2 := s.x2.xor 0 1 (C_o.setWidth 32) }
  let s := SBOX s 1 ns
  let s := { s with x5 := MREUSE s.x5 0 ns }
  linear s ns

/-- One iteration of round.h:94-97 -/
def roundStep (ns : Nat) (q : Nat × MState) : Prog (Nat × MState) := do
  require (2 * q.1 + 1 < 24)
  pure (q.1 + 1, ROUND_ q.2 (constants.getD (2 * q.1 + 1) 0) (constants.getD (2 * q.1) 0) ns)

/-- round.h:92-98; permutations.h:11-16: `P(s, nr, ns)` calls `P1` … `P4`, which are `PROUNDS` with `ns = 1` … `4`; for other
`ns` it does nothing. -/
def P (s : MState) (nr ns : Nat) : Prog MState :=
  if ns = 1 ∨ ns = 2 ∨ ns = 3 ∨ ns = 4 then do
    let q ← roundStep ns (12 - nr, s)
    let q ← loop 16 (fun q : Nat × MState => decide (q.1 ≠ 12)) (roundStep ns) q
    pure q.2
  else pure s

/-! ## aead.c -/

/-- aead.c:13-17 -/
def initX0 (g : Cfg) (r : Nat → Word) : word_t :=
  let x0 := MZERO r g.KEY
  let x0 := word_t.xor x0 0 0 (ASCON_128A_IV.setWidth 32)
  let x0 := word_t.xor x0 0 1 ((ASCON_128A_IV >>> 32).setWidth 32)
  x0

/-- aead.c:22-28: the word for the nonce half `N` -/
def initN (g : Cfg) (r : Nat → Word) (N : word_t) : word_t :=
  if g.KEY = g.NPUB then N else MXOR N (MZERO r g.KEY) g.KEY

/-- aead.c:7-39.  The pointer `n + 2` to `mask_npub_uint32_t` is `8 * NUM_SHARES_NPUB` bytes on.  Calls `ρ 0` … `ρ 3`. -/
def ascon_initaead (g : Cfg) (e : Endian) (ρ : Nat → Nat → Word) (k n : Nat) : Prog MState := do
  let N0 ← MLOAD g.EXTERN_BI e n g.NPUB
  let N1 ← MLOAD g.EXTERN_BI e (n + 8 * g.NPUB) g.NPUB
  let K1 ← MLOAD g.EXTERN_BI e k g.KEY
  let K2 ← MLOAD g.EXTERN_BI e (k + 8 * g.KEY) g.KEY
  let s ← P ⟨initX0 g (ρ 1), K1, K2, initN g (ρ 2) N0, initN g (ρ 3) N1, MZERO (ρ 0) g.KEY⟩ 12 g.KEY
  let s := { s with x3 := MXOR s.x3 K1 g.KEY }
  let s := { s with x4 := MXOR s.x4 K2 g.KEY }
  pure s

/-- `s->x[i]`, for `i = 0` or `i = 1` -/
def MState.getX (s : MState) (i : Nat) : word_t := if i = 0 then s.x0 else s.x1
/-- `s->x[i] = w`, for `i = 0` or `i = 1` -/
def MState.setX (s : MState) (i : Nat) (w : word_t) : MState :=
  if i = 0 then { s with x0 := w } else { s with x1 := w }

/-- `s->x[i].s[0].w[0] ^= 0x01 << (len * 4)` -/
def xorPad (s : MState) (i len : Nat) : Prog MState := do
  require (len * 4 < 31)
  let p : U32 := (0x01 : U32) <<< (len * 4)
  pure (s.setX i (word_t.xor (s.getX i) 0 0 p))

/-- aead.c:46-57: body of the loop. -/
def adStep (g : Cfg) (e : Endian) : MState × Nat × Nat → Prog (MState × Nat × Nat) := fun (s, ad, adlen) => do
  let as ← MLOAD g.EXTERN_BI e ad g.AD
  let s := { s with x0 := MXOR s.x0 as g.AD }
  let as ← MLOAD g.EXTERN_BI e (ad + 8 * g.AD) g.AD
  let s := { s with x1 := MXOR s.x1 as g.AD }
  let s ← P s 8 g.AD
  pure (s, ad + 16 * g.AD, adlen - 16)

/-- aead.c:58-73 -/
def adFinal (g : Cfg) (e : Endian) : MState × Nat × Nat → Prog MState := fun (s, ad, adlen) => do
  let (s, i, ad, adlen) ← ifc (decide (adlen ≥ 8))
    (do
      let as ← MLOAD g.EXTERN_BI e ad g.AD
      let s := { s with x0 := MXOR s.x0 as g.AD }
      pure (s, 1, ad + 8 * g.AD, adlen - 8))
    (pure (s, 0, ad, adlen))
  let s ← xorPad s i adlen
  let s ← ifc (decide (adlen ≠ 0))
    (do
      let as ← MLOAD g.EXTERN_BI e ad g.AD
      pure (s.setX i (MXOR (s.getX i) as g.AD)))
    (pure s)
  P s 8 g.AD

/-- aead.c:41-78 -/
def ascon_adata (g : Cfg) (e : Endian) (s : MState) (ad adlen : Nat) : Prog MState := do
  let s ← ifc (decide (adlen ≠ 0))
    (do
      let r ← loop (adlen + 1) (fun (_, _, adlen) => decide (adlen ≥ 16)) (adStep g e) (s, ad, adlen)
      adFinal g e r)
    (pure s)
  pure { s with x4 := s.x4.xor 0 1 0x80000000 }

/-- aead.c:85-101: body of the loop. -/
def encStep (g : Cfg) (e : Endian) : MState × Nat × Nat × Nat → Prog (MState × Nat × Nat × Nat) :=
  fun (s, c, m, mlen) => do
    let ms ← MLOAD g.EXTERN_BI e m g.M
    let s := { s with x0 := MXOR s.x0 ms g.M }
    let cx := MREDUCE s.x0 g.M g.C
    MSTORE g.EXTERN_BI e c cx g.C
    let ms ← MLOAD g.EXTERN_BI e (m + 8 * g.M) g.M
    let s := { s with x1 := MXOR s.x1 ms g.M }
    let cx := MREDUCE s.x1 g.M g.C
    MSTORE g.EXTERN_BI e (c + 8 * g.C) cx g.C
    let s ← P s 8 g.M
    pure (s, c + 16 * g.C, m + 16 * g.M, mlen - 16)

/-- aead.c:102-121 -/
def encFinal (g : Cfg) (e : Endian) : MState × Nat × Nat × Nat → Prog MState := fun (s, c, m, mlen) => do
  let (s, i, c, m, mlen) ← ifc (decide (mlen ≥ 8))
    (do
      let ms ← MLOAD g.EXTERN_BI e m g.M
      let s := { s with x0 := MXOR s.x0 ms g.M }
      let cx := MREDUCE s.x0 g.M g.C
      MSTORE g.EXTERN_BI e c cx g.C
      pure (s, 1, c + 8 * g.C, m + 8 * g.M, mlen - 8))
    (pure (s, 0, c, m, mlen))
  let s ← xorPad s i mlen
  ifc (decide (mlen ≠ 0))
    (do
      let ms ← MLOAD g.EXTERN_BI e m g.M
      let s := s.setX i (MXOR (s.getX i) ms g.M)
      let cx := MREDUCE (s.getX i) g.M g.C
      MSTORE g.EXTERN_BI e c cx g.C
      pure s)
    (pure s)

/-- aead.c:80-122 -/
def ascon_encrypt (g : Cfg) (e : Endian) (s : MState) (c m mlen : Nat) : Prog MState := do
  let r ← loop (mlen + 1) (fun (_, _, _, mlen) => decide (mlen ≥ 16)) (encStep g e) (s, c, m, mlen)
  encFinal g e r

/-- aead.c:129-145: body of the loop. -/
def decStep (g : Cfg) (e : Endian) : MState × Nat × Nat × Nat → Prog (MState × Nat × Nat × Nat) :=
  fun (s, m, c, clen) => do
    let cx ← MLOAD g.EXTERN_BI e c g.C
    let s := { s with x0 := MXOR s.x0 cx g.C }
    MSTORE g.EXTERN_BI e m s.x0 g.M
    let s := { s with x0 := MEXPAND cx g.C g.M }
    let cx ← MLOAD g.EXTERN_BI e (c + 8 * g.C) g.C
    let s := { s with x1 := MXOR s.x1 cx g.C }
    MSTORE g.EXTERN_BI e (m + 8 * g.M) s.x1 g.M
    let s := { s with x1 := MEXPAND cx g.C g.M }
    let s ← P s 8 g.M
    pure (s, m + 16 * g.M, c + 16 * g.C, clen - 16)

/-- aead.c:146-169 -/
def decFinal (g : Cfg) (e : Endian) : MState × Nat × Nat × Nat → Prog MState := fun (s, m, c, clen) => do
  let (s, i, m, c, clen) ← ifc (decide (clen ≥ 8))
    (do
      let cx ← MLOAD g.EXTERN_BI e c g.C
      let s := { s with x0 := MXOR s.x0 cx g.C }
      MSTORE g.EXTERN_BI e m s.x0 g.M
      let s := { s with x0 := MEXPAND cx g.C g.M }
      pure (s, 1, m + 8 * g.M, c + 8 * g.C, clen - 8))
    (pure (s, 0, m, c, clen))
  let s ← xorPad s i clen
  ifc (decide (clen ≠ 0))
    (do
      let cx ← MLOAD g.EXTERN_BI e c g.C
      let s := s.setX i (MXOR (s.getX i) cx g.C)
      MSTORE g.EXTERN_BI e m (s.getX i) g.M
      let mask ← MMASK s.x5 clen
      let cx := MEXPAND cx g.C g.M
      let s := s.setX i (MXORAND cx mask (s.getX i) g.M)
      pure { s with x5 := MREUSE s.x5 0 g.M })
    (pure s)

/-- aead.c:124-169 -/
def ascon_decrypt (g : Cfg) (e : Endian) (s : MState) (m c clen : Nat) : Prog MState := do
  let r ← loop (clen + 1) (fun (_, _, _, clen) => decide (clen ≥ 16)) (decStep g e) (s, m, c, clen)
  decFinal g e r

/-- aead.c:171-194 -/
def ascon_final (g : Cfg) (e : Endian) (s : MState) (k : Nat) : Prog MState := do
  let K1 ← MLOAD g.EXTERN_BI e k g.KEY
  let K2 ← MLOAD g.EXTERN_BI e (k + 8 * g.KEY) g.KEY
  let s := { s with x2 := MXOR s.x2 K1 g.KEY }
  let s := { s with x3 := MXOR s.x3 K2 g.KEY }
  let s ← P s 12 g.KEY
  let s := { s with x3 := MXOR s.x3 K1 g.KEY }
  let s := { s with x4 := MXOR s.x4 K2 g.KEY }
  pure s

/-- aead.c:196-201 -/
def ascon_settag (g : Cfg) (e : Endian) (s : MState) (t : Nat) : Prog Unit := do
  let s := { s with x3 := MREDUCE s.x3 g.KEY g.C }
  let s := { s with x4 := MREDUCE s.x4 g.KEY g.C }
  MSTORE g.EXTERN_BI e t s.x3 g.C
  MSTORE g.EXTERN_BI e (t + 8 * g.C) s.x4 g.C

/-- aead.c:219-238 with the constants for `ASCON_PB_ROUNDS == 8`. -/
def ascon_xortag (g : Cfg) (e : Endian) (s : MState) (t : Nat) : Prog MState := do
  let s := { s with x0 := MREUSE s.x0 0 g.KEY }
  let s := { s with x1 := MREUSE s.x1 0 g.KEY }
  let s := { s with x2 := MREUSE s.x2 0 g.KEY }
  let t0 ← MLOAD g.EXTERN_BI e t g.C
  let s := { s with x3 := MXOR s.x3 t0 g.C }
  let t1 ← MLOAD g.EXTERN_BI e (t + 8 * g.C) g.C
  let s := { s with x4 := MXOR s.x4 t1 g.C }
  let s ← P s 8 g.KEY
  let s := { s with x3 := s.x3.xor 0 0 0xc7c72006 }
  let s := { s with x3 := s.x3.xor 0 1 0xc3bfab9c }
  let s := { s with x4 := s.x4.xor 0 0 0x18213f82 }
  let s := { s with x4 := s.x4.xor 0 1 0x0653ed71 }
  pure s

/-- aead.c:240-249 -/
def ascon_iszero (g : Cfg) (s : MState) : Int :=
  let x3 := MREDUCE s.x3 g.KEY 1
  let x4 := MREDUCE s.x4 g.KEY 1
  let result := word_t.get x3 0 0 ^^^ word_t.get x3 0 1
  let result := result ^^^ (word_t.get x4 0 0 ^^^ word_t.get x4 0 1)
  let result := result ||| result >>> 16
  let result := result ||| result >>> 8
  (((((result &&& 0xff) - 1).sshiftRight 8) &&& 1) - 1).toInt

/-- aead.c:252-259, and the test in crypto_aead_shared.c:18, 38 -/
def ascon_level_adata (g : Cfg) (s : MState) : MState :=
  if g.KEY ≠ g.AD then
    ⟨MREDUCE s.x0 g.KEY g.AD, MREDUCE s.x1 g.KEY g.AD, MREDUCE s.x2 g.KEY g.AD, MREDUCE s.x3 g.KEY g.AD,
      MREDUCE s.x4 g.KEY g.AD, MREDUCE s.x5 g.KEY g.AD⟩
  else s

/-- aead.c:263-278 and 282-297: from `a` to `b` shares; calls `ρ 0` … `ρ 5`. -/
def levelUp (a b : Nat) (ρ : Nat → Nat → Word) (s : MState) : MState :=
  let s : MState :=
    ⟨MEXPAND s.x0 a b, MEXPAND s.x1 a b, MEXPAND s.x2 a b, MEXPAND s.x3 a b, MEXPAND s.x4 a b, MEXPAND s.x5 a b⟩
  if b > a then
    ⟨MREFRESH s.x0 (ρ 0) b, MREFRESH s.x1 (ρ 1) b, MREFRESH s.x2 (ρ 2) b, MREFRESH s.x3 (ρ 3) b, MREFRESH s.x4 (ρ 4) b,
      MREFRESH s.x5 (ρ 5) b⟩
  else s

/-- aead.c:262-279, and the test in crypto_aead_shared.c:20, 40 -/
def ascon_level_encdec (g : Cfg) (ρ : Nat → Nat → Word) (s : MState) : MState :=
  if g.AD ≠ g.M then levelUp g.AD g.M ρ s else s

/-- aead.c:281-298, and the test in crypto_aead_shared.c:22, 42 -/
def ascon_level_final (g : Cfg) (ρ : Nat → Nat → Word) (s : MState) : MState :=
  if g.M ≠ g.KEY then levelUp g.M g.KEY ρ s else s

/-! ## crypto_aead_shared.c -/

/-- crypto_aead_shared.c:7-26; calls `ρ 0` … `ρ 15`. -/
def crypto_aead_encrypt_shared (g : Cfg) (e : Endian) (ρ : Nat → Nat → Word) (cs clen ms mlen ads adlen npubs ks : Nat) :
    Prog Int := do
  store64 e clen (BitVec.ofNat 64 (mlen + 16))
  let s ← ascon_initaead g e ρ ks npubs
  let s := ascon_level_adata g s
  let s ← ascon_adata g e s ads adlen
  let s := ascon_level_encdec g (fun i => ρ (4 + i)) s
  let s ← ascon_encrypt g e s cs ms mlen
  let s := ascon_level_final g (fun i => ρ (10 + i)) s
  let s ← ascon_final g e s ks
  ascon_settag g e s (cs + 4 * (NUM_WORDS mlen * g.C))
  pure 0

/-- crypto_aead_shared.c:28-47 (`*mlen` is not read back: it has just been written) -/
def crypto_aead_decrypt_shared (g : Cfg) (e : Endian) (ρ : Nat → Nat → Word) (ms mlen cs clen ads adlen npubs ks : Nat) :
    Prog Int := do
  store64 e mlen (BitVec.ofNat 64 (clen - 16))
  let s ← ascon_initaead g e ρ ks npubs
  let s := ascon_level_adata g s
  let s ← ascon_adata g e s ads adlen
  let s := ascon_level_encdec g (fun i => ρ (4 + i)) s
  let s ← ascon_decrypt g e s ms cs (clen - 16)
  let s := ascon_level_final g (fun i => ρ (10 + i)) s
  let s ← ascon_final g e s ks
  let s ← ascon_xortag g e s (cs + 4 * (NUM_WORDS (clen - 16) * g.C))
  pure (ascon_iszero g s)

/-! ## shares.c -/

/-- shares.c:74-90: the rotated random word, in the representation of the shares. -/
def rotShare (bi : Bool) (d : Nat) (r : Word) : Word :=
  if bi then (ROR32 ((r >>> 32).setWidth 32) (ROT d)).setWidth 64 <<< 32 ||| (ROR32 (r.setWidth 32) (ROT d)).setWidth 64
  else ROR64 r (ROT (2 * d))

/-- shares.c:77-90: the body of the inner loop for one `d`; `r` is what `randombytes` delivers. -/
def genShare (bi : Bool) (e : Endian) (s n i d : Nat) (r : Word) : Prog Unit := do
  store32 e (idx s ((i + 0) * n + d)) (r.setWidth 32)
  store32 e (idx s ((i + 1) * n + d)) ((r >>> 32).setWidth 32)
  let r := rotShare bi d r
  let a ← load32 e (idx s ((i + 0) * n + 0))
  store32 e (idx s ((i + 0) * n + 0)) (a ^^^ r.setWidth 32)
  let b ← load32 e (idx s ((i + 1) * n + 0))
  store32 e (idx s ((i + 1) * n + 0)) (b ^^^ (r >>> 32).setWidth 32)

/-- shares.c:73-92: the body of the outer loop for `i = 2 * j`; `ρ` are the random words of this call. -/
def genPair (bi : Bool) (e : Endian) (ρ : Nat → Word) (s n j : Nat) : Prog Unit := do
  let i := 2 * j
  store32 e (idx s ((i + 0) * n + 0)) 0
  store32 e (idx s ((i + 1) * n + 0)) 0
  forUp (fun d (_ : Unit) => genShare bi e s n i d (ρ (j * (n - 1) + (d - 1)))) (n - 1) 1 ()

/-- `s[(2 * j + 0) * n + 0] ^= (uint32_t)x; s[(2 * j + 1) * n + 0] ^= (uint32_t)(x >> 32);`
(shares.c:100-101 and 113-114) -/
def xorData (e : Endian) (s n j : Nat) (x : Word) : Prog Unit := do
  let a ← load32 e (idx s ((2 * j + 0) * n + 0))
  store32 e (idx s ((2 * j + 0) * n + 0)) (a ^^^ x.setWidth 32)
  let b ← load32 e (idx s ((2 * j + 1) * n + 0))
  store32 e (idx s ((2 * j + 1) * n + 0)) (b ^^^ (x >>> 32).setWidth 32)

/-- shares.c:97-99, 110-112: `x = TOBI(x)` if `ASCON_EXTERN_BI` -/
def toExt (bi : Bool) (x : Word) : Word := if bi then TOBI x else x

/-- shares.c:138-140, 155-157: `x = FROMBI(x)` if `ASCON_EXTERN_BI` -/
def fromExt (bi : Bool) (x : Word) : Word := if bi then FROMBI x else x

/-- shares.c:69-117 -/
def generate_shares (bi : Bool) (e : Endian) (ρ : Nat → Word) (s n data len : Nat) : Prog Unit := do
  forUp (fun j (_ : Unit) => genPair bi e ρ s n j) (NUM_WORDS len / 2) 0 ()
  forUp (fun i (_ : Unit) => do
    let x ← load64 e (data + i * 8)
    let x := U64LE e x
    xorData e s n i (toExt bi x)) (len / 8) 0 ()
  ifc (decide (len / 8 * 8 ≠ len))
    (do
      let x ← forUp (fun i (x : Word) => do
        let b ← loadB (data + i)
        pure (x ^^^ (b.setWidth 64) <<< ((i % 8) * 8))) (len - len / 8 * 8) (len / 8 * 8) 0
      let x := U64LE e x
      xorData e s n (len / 8) (toExt bi x))
    (pure ())

/-- shares.c:126-137 and 146-154 -/
def combPair (bi : Bool) (e : Endian) (s n j : Nat) : Prog Word :=
  forUp (fun d (x : Word) => do
    let rnd0 ← load32 e (idx s ((2 * j + 0) * n + d))
    let rnd1 ← load32 e (idx s ((2 * j + 1) * n + d))
    pure (x ^^^ rotShare bi d (rnd1.setWidth 64 <<< 32 ||| rnd0.setWidth 64))) n 0 0

/-- shares.c:119-159 -/
def combine_shares (bi : Bool) (e : Endian) (data len s n : Nat) : Prog Unit := do
  forUp (fun i (_ : Unit) => do
    let x ← combPair bi e s n i
    let x := U64LE e (fromExt bi x)
    store64 e (data + i * 8) x) (len / 8) 0 ()
  ifc (decide (len / 8 * 8 ≠ len))
    (do
      let x ← combPair bi e s n (len / 8)
      let x := U64LE e (fromExt bi x)
      forUp (fun i (_ : Unit) => storeB (data + i) ((x >>> ((i % 8) * 8)).setWidth 8))
        (len - len / 8 * 8) (len / 8 * 8) ())
    (pure ())

/-! ## crypto_aead.c -/

/-- crypto_aead.c:16-51 with shares.c:24-36 (`generate_shares_encrypt`) and 54-60 (`combine_shares_encrypt`).  `σ i` are the random words
of the `i`-th call of `generate_shares`, `ρ` those of `crypto_aead_encrypt_shared`. -/
def crypto_aead_encrypt (g : Cfg) (σ ρ : Nat → Nat → Word) (h : Heap) (e : Endian)
    (c clen m mlen a alen npub k : Nat) : Prog Int := do
  malloc h.ks (4 * (NUM_WORDS 16 * g.KEY))
  malloc h.ns (4 * (NUM_WORDS 16 * g.NPUB))
  malloc h.as (4 * (NUM_WORDS alen * g.AD))
  malloc h.ms (4 * (NUM_WORDS mlen * g.M))
  malloc h.cs (4 * (NUM_WORDS (mlen + 16) * g.C))
  generate_shares g.EXTERN_BI e (σ 0) h.ks g.KEY k 16
  generate_shares g.EXTERN_BI e (σ 1) h.ns g.NPUB npub 16
  generate_shares g.EXTERN_BI e (σ 2) h.as g.AD a alen
  generate_shares g.EXTERN_BI e (σ 3) h.ms g.M m mlen
  let _ ← crypto_aead_encrypt_shared g e ρ h.cs clen h.ms mlen h.as alen h.ns h.ks
  let cl ← load64 e clen
  let ml := (cl - 16).toNat
  combine_shares g.EXTERN_BI e c ml h.cs g.C
  combine_shares g.EXTERN_BI e (c + ml) 16 (h.cs + 4 * (NUM_WORDS ml * g.C)) g.C
  mfree h.ks (4 * (NUM_WORDS 16 * g.KEY))
  mfree h.ns (4 * (NUM_WORDS 16 * g.NPUB))
  mfree h.as (4 * (NUM_WORDS alen * g.AD))
  mfree h.ms (4 * (NUM_WORDS mlen * g.M))
  mfree h.cs (4 * (NUM_WORDS (mlen + 16) * g.C))
  pure 0

/-- crypto_aead.c:53-90 with shares.c:38-52 (`generate_shares_decrypt`) and 62-66 (`combine_shares_decrypt`). -/
def crypto_aead_decrypt (g : Cfg) (σ ρ : Nat → Nat → Word) (h : Heap) (e : Endian)
    (m mlen c clen a alen npub k : Nat) : Prog Int :=
  ifc (decide (clen < 16)) (pure (-1)) (do
    malloc h.ks (4 * (NUM_WORDS 16 * g.KEY))
    malloc h.ns (4 * (NUM_WORDS 16 * g.NPUB))
    malloc h.as (4 * (NUM_WORDS alen * g.AD))
    malloc h.ms (4 * (NUM_WORDS (clen - 16) * g.M))
    malloc h.cs (4 * (NUM_WORDS clen * g.C))
    generate_shares g.EXTERN_BI e (σ 0) h.ks g.KEY k 16
    generate_shares g.EXTERN_BI e (σ 1) h.ns g.NPUB npub 16
    generate_shares g.EXTERN_BI e (σ 2) h.as g.AD a alen
    generate_shares g.EXTERN_BI e (σ 3) h.cs g.C c (clen - 16)
    generate_shares g.EXTERN_BI e (σ 4) (h.cs + 4 * (NUM_WORDS (clen - 16) * g.C)) g.C (c + (clen - 16)) 16
    let result ← crypto_aead_decrypt_shared g e ρ h.ms mlen h.cs clen h.as alen h.ns h.ks
    let ml ← load64 e mlen
    combine_shares g.EXTERN_BI e m ml.toNat h.ms g.M
    mfree h.ks (4 * (NUM_WORDS 16 * g.KEY))
    mfree h.ns (4 * (NUM_WORDS 16 * g.NPUB))
    mfree h.as (4 * (NUM_WORDS alen * g.AD))
    mfree h.ms (4 * (NUM_WORDS (clen - 16) * g.M))
    mfree h.cs (4 * (NUM_WORDS clen * g.C))
    pure result)

end Ascon.MaskedN
