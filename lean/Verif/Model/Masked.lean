import Verif.Model.Backends
/-!
# Model of crypto_aead/asconaead128/protected_bi32_armv6_leveled

First-order masked, bit-interleaved implementation.  api.h fixes `NUM_SHARES_KEY = 2`,
`NUM_SHARES_M = NUM_SHARES_C = NUM_SHARES_AD = NUM_SHARES_NPUB = 1`, `ASCON_ROR_SHARES = 5` and
`ASCON_AEAD_RATE = 16`, config.h `ASCON_EXTERN_BI = 0`; only the code compiled under these values is modelled
(`word_t` has two shares, so the statements guarded by `ns >= 3` cannot be reached).

* `randombytes` is an external function: the bytes it delivers are a parameter `ρ : Nat → Word` (`ρ i` is the
  little-endian value of the eight bytes of the `i`-th call).  Theorems quantify over all `ρ`.
* `malloc` is modelled as always succeeding; the addresses it returns are parameters (`Heap`).  `free` makes the
  block inaccessible.
* The inline assembly macros of asm.h (`EOR_BIC_ROR`, `EOR_AND_ROR`, `LDR`, `STR`) are modelled by the value
  they compute (`ce ^= ae & ~ror(be, n)` etc.); `CLEAR()` only overwrites a register and is left out, as are
  `printstate`/`print`/`printbytes`, which expand to nothing.
-/

namespace Ascon.Masked

open Ascon.C Ascon.Gen
open Ascon.C.Prog (require ifc loop forUp loadB storeB loadN storeN store64 load64)

abbrev U32 := BitVec 32

/-! ## word.h -/

/-- word.h:13-15 `typedef struct { uint32_t w[2]; } share_t;` -/
@[ext] structure share_t where
  w0 : U32
  w1 : U32
deriving DecidableEq

/-- word.h:17-19 `typedef struct { share_t s[NUM_SHARES_KEY]; } word_t;` -/
@[ext] structure word_t where
  s0 : share_t
  s1 : share_t
deriving DecidableEq

/-- `s.w[i]` -/
def share_t.get (s : share_t) (i : Nat) : U32 := if i = 0 then s.w0 else s.w1
/-- `s.w[i] = v` -/
def share_t.set (s : share_t) (i : Nat) (v : U32) : share_t :=
  if i = 0 then { s with w0 := v } else { s with w1 := v }
/-- `w.s[d].w[i]` -/
def word_t.get (w : word_t) (d i : Nat) : U32 := if d = 0 then w.s0.get i else w.s1.get i
/-- `w.s[d].w[i] = v` -/
def word_t.set (w : word_t) (d i : Nat) (v : U32) : word_t :=
  if d = 0 then { w with s0 := w.s0.set i v } else { w with s1 := w.s1.set i v }

/-- word.h:24-26 and shares.c:11-13 -/
def ROR32 (x : U32) (n : Nat) : U32 := x >>> n ||| x <<< ((32 - n) % 32)

/-- word.h:36-38 and shares.c:15-17 -/
def ROR64 (x : Word) (n : Nat) : Word := x >>> n ||| x <<< ((64 - n) % 64)

/-- shares.h:9 `#define ROT(i) (((i) * (ASCON_ROR_SHARES)) & 31)`, for `int i`, possibly negative. -/
def ROT (i : Int) : Nat := ((i * 5) % 32).toNat

/-- word.h:40-50 -/
def MXOR (a b : word_t) (ns : Nat) : word_t :=
  let a := if ns ≥ 1 then { a with s0 := { a.s0 with w0 := a.s0.w0 ^^^ b.s0.w0 } } else a
  let a := if ns ≥ 1 then { a with s0 := { a.s0 with w1 := a.s0.w1 ^^^ b.s0.w1 } } else a
  let a := if ns ≥ 2 then { a with s1 := { a.s1 with w0 := a.s1.w0 ^^^ b.s1.w0 } } else a
  let a := if ns ≥ 2 then { a with s1 := { a.s1 with w1 := a.s1.w1 ^^^ b.s1.w1 } } else a
  a

/-- asm.h:37-44 `EOR_BIC_ROR(ce, ae, be, imm, tmp)`: the new value of `ce`. -/
def EOR_BIC_ROR (ce ae be : U32) (imm : Int) : U32 := (ae &&& ~~~(ROR32 be (ROT imm))) ^^^ ce

/-- asm.h:28-35 `EOR_AND_ROR(ce, ae, be, imm, tmp)`: the new value of `ce`. -/
def EOR_AND_ROR (ce ae be : U32) (imm : Int) : U32 := (ae &&& ROR32 be (ROT imm)) ^^^ ce

/-- word.h:52-97 -/
def MXORBIC (c a b : word_t) (i ns : Nat) : word_t :=
  let c := if ns = 1 then c.set 0 i (EOR_BIC_ROR (c.get 0 i) (a.get 0 i) (b.get 0 i) 0) else c
  if ns = 2 then
    let c := c.set 0 i (EOR_BIC_ROR (c.get 0 i) (a.get 0 i) (b.get 0 i) 0)
    let c := c.set 1 i (EOR_BIC_ROR (c.get 1 i) (a.get 1 i) (b.get 0 i) (0 - 1))
    let c := c.set 1 i (EOR_AND_ROR (c.get 1 i) (a.get 1 i) (b.get 1 i) 0)
    let c := c.set 0 i (EOR_AND_ROR (c.get 0 i) (a.get 0 i) (b.get 1 i) (1 - 0))
    c
  else c

/-- word.h:99-105 -/
def MXORAND (c a b : word_t) (ns : Nat) : word_t :=
  let b := { b with s0 := { b.s0 with w0 := ~~~b.s0.w0 } }
  let b := { b with s0 := { b.s0 with w1 := ~~~b.s0.w1 } }
  let c := MXORBIC c a b 0 ns
  let c := MXORBIC c a b 1 ns
  c

/-- word.h:107-112 for `ns = 2`: `r` are the eight bytes delivered by `randombytes`. -/
def MRND (r : Word) : word_t :=
  { s0 := ⟨0, 0⟩, s1 := ⟨r.setWidth 32, (r >>> 32).setWidth 32⟩ }

/-- word.h:114-122 -/
def MMIX (w : word_t) (ns : Nat) : word_t :=
  let w := if ns ≥ 2 then { w with s1 := { w.s1 with w0 := ROR32 w.s1.w0 7 } } else w
  let w := if ns ≥ 2 then { w with s1 := { w.s1 with w1 := ROR32 w.s1.w1 7 } } else w
  w

/-- word.h:124-132 -/
def MREMASK (w r : word_t) (nsi nso : Nat) : word_t :=
  let w := if nsi ≥ 2 ∧ nso < 2 then
    { w with s0 := { w.s0 with w0 := w.s0.w0 ^^^ ROR32 r.s1.w0 (ROT 1) } } else w
  let w := if nsi ≥ 2 ∧ nso < 2 then
    { w with s0 := { w.s0 with w1 := w.s0.w1 ^^^ ROR32 r.s1.w1 (ROT 1) } } else w
  w

/-- word.h:134-136 -/
def MREDUCE (w : word_t) (nsi nso : Nat) : word_t := MREMASK w w nsi nso

/-- word.h:138-140 -/
def MEXPAND (w : word_t) (nsi nso : Nat) : word_t := MREMASK w w nso nsi

/-- word.h:142-148 -/
def MREUSE (w : word_t) (val : Word) (ns : Nat) : word_t :=
  let w := { w with s0 := { w.s0 with w0 := val.setWidth 32 } }
  let w := { w with s0 := { w.s0 with w1 := (val >>> 32).setWidth 32 } }
  let w := MMIX w ns
  let w := MREMASK w w ns 1
  w

/-- word.h:150-155 for `ns = 2` -/
def MZERO (r : Word) : word_t :=
  let w := MRND r
  let w := MMIX w 2
  let w := MREMASK w w 2 1
  w

/-- word.h:157-161 for `ns = 2` -/
def MREFRESH (w : word_t) (r : Word) : word_t :=
  let r := MRND r
  let w := MREMASK w r 2 1
  MXOR w r 2

/-- word.h:163-168; `0xffffffff << (n * 4)` needs a shift amount below 32. -/
def MMASK (w : word_t) (n : Nat) : Prog word_t := do
  require (n * 4 < 32)
  let mask : U32 := (0xffffffff : U32) <<< (n * 4)
  let w := { w with s0 := { w.s0 with w0 := w.s0.w0 ^^^ mask } }
  let w := { w with s0 := { w.s0 with w1 := w.s0.w1 ^^^ mask } }
  pure w

/-! ## Memory: `uint32_t` objects -/

/-- Object representation of a `uint32_t`. -/
def repr32 : Endian → U32 → List Byte
  | .little, w => (List.range 4).map fun i => (w >>> (8 * i)).setWidth 8
  | .big, w => ((List.range 4).map fun i => (w >>> (8 * i)).setWidth 8).reverse

/-- Value of four bytes, least significant first. -/
def le32 : List Byte → U32
  | [] => 0
  | b :: bs => b.setWidth 32 ||| (le32 bs <<< 8)

/-- Value of the object representation of a `uint32_t`. -/
def value32 : Endian → List Byte → U32
  | .little, bs => le32 bs
  | .big, bs => le32 bs.reverse

/-- `*p = w` for `uint32_t* p` -/
def store32 (e : Endian) (p : Nat) (w : U32) : Prog Unit := storeN p (repr32 e w)

/-- `*p` for `uint32_t* p` -/
def load32 (e : Endian) (p : Nat) : Prog U32 := loadN p 4 >>= fun bs => .ret (value32 e bs)

/-- interleave.h:43-53 / interleave.c:5 (no byte order conversion, unlike src/bi32/interleave.h) -/
def TOBI (x : Word) : Word := deinterleave32 .little x

/-- interleave.h:56-66 / interleave.c:6 -/
def FROMBI (x : Word) : Word := interleave32 .little x

/-- word.h:170-183; `BD` is interleave.h:9-14, `LDR` asm.h:8-9. -/
def LOADSHARE (e : Endian) (data ns : Nat) : Prog share_t := do
  let lo ← load32 e data
  let hi ← load32 e (data + 4 * ns)
  let tmp := TOBI (hi.setWidth 64 <<< 32 ||| lo.setWidth 64)
  pure ⟨tmp.setWidth 32, (tmp >>> 32).setWidth 32⟩

/-- word.h:185-196; `BI` is interleave.h:16-21, `STR` asm.h:11-13. -/
def STORESHARE (e : Endian) (data : Nat) (s : share_t) (ns : Nat) : Prog Unit := do
  let tmp := FROMBI (s.w1.setWidth 64 <<< 32 ||| s.w0.setWidth 64)
  let lo : U32 := tmp.setWidth 32
  let hi : U32 := (tmp >>> 32).setWidth 32
  store32 e data lo
  store32 e (data + 4 * ns) hi

/-- word.h:198-205 (`ns` is a compile-time constant, so the tests are not in the trace) -/
def MLOAD (e : Endian) (data ns : Nat) : Prog word_t := do
  let w : word_t := ⟨⟨0, 0⟩, ⟨0, 0⟩⟩
  let w ← if ns ≥ 1 then (do let s ← LOADSHARE e data ns; pure { w with s0 := s }) else pure w
  let w ← if ns ≥ 2 then (do let s ← LOADSHARE e (data + 4) ns; pure { w with s1 := s }) else pure w
  pure w

/-- word.h:207-212 -/
def MSTORE (e : Endian) (data : Nat) (w : word_t) (ns : Nat) : Prog Unit := do
  if ns ≥ 1 then STORESHARE e data w.s0 ns else pure ()
  if ns ≥ 2 then STORESHARE e (data + 4) w.s1 ns else pure ()

/-! ## round.h, permutations.h -/

/-- ascon.h:9-11 `typedef struct { word_t x[6]; } ascon_state_t;` -/
structure MState where
  x0 : word_t
  x1 : word_t
  x2 : word_t
  x3 : word_t
  x4 : word_t
  x5 : word_t
deriving DecidableEq

/-- round.h:8-13 -/
def AFFINE1 (s : MState) (i d : Nat) : MState :=
  let s := { s with x2 := s.x2.set d i (s.x2.get d i ^^^ s.x1.get d i) }
  let s := { s with x0 := s.x0.set d i (s.x0.get d i ^^^ s.x4.get d i) }
  let s := { s with x4 := s.x4.set d i (s.x4.get d i ^^^ s.x3.get d i) }
  s

/-- round.h:15-21 -/
def AFFINE2 (s : MState) (i d : Nat) : MState :=
  let s := { s with x2 := s.x2.set d i (s.x2.get d i ^^^ s.x5.get d i) }
  let s := { s with x1 := s.x1.set d i (s.x1.get d i ^^^ s.x0.get d i) }
  let s := { s with x0 := s.x0.set d i (s.x0.get d i ^^^ s.x4.get d i) }
  let s := { s with x3 := s.x3.set d i (s.x3.get d i ^^^ s.x2.get d i) }
  s

/-- round.h:23-43 -/
def SBOX (s : MState) (i ns : Nat) : MState :=
  let s := if ns ≥ 1 then AFFINE1 s i 0 else s
  let s := if ns ≥ 2 then AFFINE1 s i 1 else s
  let s := { s with x5 := MXORBIC s.x5 s.x4 s.x3 i ns }
  let s := { s with x4 := MXORBIC s.x4 s.x1 s.x0 i ns }
  let s := { s with x1 := MXORBIC s.x1 s.x3 s.x2 i ns }
  let s := { s with x3 := MXORBIC s.x3 s.x0 s.x4 i ns }
  let s := { s with x0 := MXORBIC s.x0 s.x2 s.x1 i ns }
  let s := if ns ≥ 1 then AFFINE2 s i 0 else s
  let s := { s with x2 := s.x2.set 0 i (~~~(s.x2.get 0 i)) }
  let s := if ns ≥ 2 then AFFINE2 s i 1 else s
  s

/-- round.h:45-69, one word: `t.w[0] = w[0] ^ ROR32(w[p], a0)`, `t.w[1] = w[1] ^ ROR32(w[1-p], a1)`, then
`w[0] ^= ROR32(t.w[q], b0)`, `w[1] ^= ROR32(t.w[1-q], b1)`. -/
def linWord (w : share_t) (p a0 a1 q b0 b1 : Nat) : share_t :=
  let t : share_t := ⟨w.w0 ^^^ ROR32 (w.get p) a0, w.w1 ^^^ ROR32 (w.get (1 - p)) a1⟩
  ⟨w.w0 ^^^ ROR32 (t.get q) b0, w.w1 ^^^ ROR32 (t.get (1 - q)) b1⟩

/-- `w.s[d] = f(w.s[d])` -/
def word_t.onShare (w : word_t) (d : Nat) (f : share_t → share_t) : word_t :=
  if d = 0 then { w with s0 := f w.s0 } else { w with s1 := f w.s1 }

/-- round.h:45-69.  The five words do not interact; the C code first computes all `t`, then updates. -/
def LINEAR (s : MState) (d : Nat) : MState :=
  { s with
    x0 := s.x0.onShare d fun w => linWord w 1 4 5 1 9 10
    x1 := s.x1.onShare d fun w => linWord w 0 11 11 1 19 20
    x2 := s.x2.onShare d fun w => linWord w 1 2 3 1 0 1
    x3 := s.x3.onShare d fun w => linWord w 1 3 4 0 5 5
    x4 := s.x4.onShare d fun w => linWord w 0 17 17 1 3 4 }

/-- round.h:71-86 -/
def ROUND_ (s : MState) (C_o C_e : Byte) (ns : Nat) : MState :=
  let s := { s with x2 := s.x2.set 0 0 (s.x2.get 0 0 ^^^ C_e.setWidth 32) }
  let s := SBOX s 0 ns
  let s := { s with x2 := s.x2.set 0 1 (s.x2.get 0 1 ^^^ C_o.setWidth 32) }
  let s := SBOX s 1 ns
  let s := { s with x5 := MREUSE s.x5 0 ns }
  let s := if ns ≥ 2 then LINEAR s 1 else s
  let s := if ns ≥ 1 then LINEAR s 0 else s
  s

/-- constants.c:3-5 -/
def constants : List Byte :=
  [0xc, 0xc, 0x9, 0xc, 0xc, 0x9, 0x9, 0x9, 0x6, 0xc, 0x3, 0xc, 0x6, 0x9, 0x3, 0x9, 0xc, 0x6, 0x9, 0x6, 0xc, 0x3,
   0x9, 0x3]

/-- One iteration of round.h:94-97: `ROUND_(s, constants[2*i+1], constants[2*i+0], ns); i += 1;`
(constants.h:87-91); reading outside of the table is undefined. -/
def roundStep (ns : Nat) (q : Nat × MState) : Prog (Nat × MState) := do
  require (2 * q.1 + 1 < 24)
  pure (q.1 + 1, ROUND_ q.2 (constants.getD (2 * q.1 + 1) 0) (constants.getD (2 * q.1) 0) ns)

/-- round.h:92-98 `int i = START(nr); do … while (i != END);` (`START(n) = 12 - n`, `END = 12`), and
permutations.h:11-16, permutations.c: `P(s, nr, ns)` calls `P1`/`P2`, which are `PROUNDS` with `ns = 1, 2`. -/
def P (s : MState) (nr ns : Nat) : Prog MState := do
  let q ← roundStep ns (12 - nr, s)
  let q ← loop 16 (fun q : Nat × MState => decide (q.1 ≠ 12)) (roundStep ns) q
  pure q.2

/-! ## aead.c -/

/-- constants.h:34 -/
def ASCON_128A_IV : Word := 0x00008a0000400201

/-- aead.c:9-13: `s->x[0]` set to zero in shared form, then the initialisation vector added to share 0. -/
def initX0 (r : Word) : word_t :=
  let x0 := MZERO r
  let x0 := { x0 with s0 := { x0.s0 with w0 := x0.s0.w0 ^^^ ASCON_128A_IV.setWidth 32 } }
  let x0 := { x0 with s0 := { x0.s0 with w1 := x0.s0.w1 ^^^ (ASCON_128A_IV >>> 32).setWidth 32 } }
  x0

/-- aead.c:9-29: the initial state, from the loaded nonce and key words. -/
def initState (ρ : Nat → Word) (N0 N1 K1 K2 : word_t) : MState :=
  ⟨initX0 (ρ 1), K1, K2, MXOR N0 (MZERO (ρ 2)) 2, MXOR N1 (MZERO (ρ 3)) 2, MZERO (ρ 0)⟩

/-- aead.c:7-40.  `ρ 0` … `ρ 3` are consumed (the C compiler may evaluate the calls in another order; `ρ` is
arbitrary). -/
def ascon_initaead (e : Endian) (ρ : Nat → Word) (k n : Nat) : Prog MState := do
  let N0 ← MLOAD e n 1
  let N1 ← MLOAD e (n + 8) 1
  let K1 ← MLOAD e k 2
  let K2 ← MLOAD e (k + 16) 2
  let s ← P (initState ρ N0 N1 K1 K2) 12 2
  let s := { s with x3 := MXOR s.x3 K1 2 }
  let s := { s with x4 := MXOR s.x4 K2 2 }
  pure s

/-- `s->x[i].s[0].w[0] ^= 0x01 << (len * 4)` for `i = 0` or `i = 1` (a shift of an `int`). -/
def xorPad (s : MState) (i len : Nat) : Prog MState := do
  require (len * 4 < 31)
  let p : U32 := (0x01 : U32) <<< (len * 4)
  if i = 0 then pure { s with x0 := { s.x0 with s0 := { s.x0.s0 with w0 := s.x0.s0.w0 ^^^ p } } }
  else pure { s with x1 := { s.x1 with s0 := { s.x1.s0 with w0 := s.x1.s0.w0 ^^^ p } } }

/-- `s->x[i]`, for `i = 0` or `i = 1` -/
def MState.getX (s : MState) (i : Nat) : word_t := if i = 0 then s.x0 else s.x1
/-- `s->x[i] = w`, for `i = 0` or `i = 1` -/
def MState.setX (s : MState) (i : Nat) (w : word_t) : MState :=
  if i = 0 then { s with x0 := w } else { s with x1 := w }

/-- aead.c:48-58: body of the loop. -/
def adStep (e : Endian) : MState × Nat × Nat → Prog (MState × Nat × Nat) := fun (s, ad, adlen) => do
  let as ← MLOAD e ad 1
  let s := { s with x0 := MXOR s.x0 as 1 }
  let as ← MLOAD e (ad + 8) 1
  let s := { s with x1 := MXOR s.x1 as 1 }
  let s ← P s 8 1
  pure (s, ad + 16, adlen - 16)

/-- aead.c:60-74 -/
def adFinal (e : Endian) : MState × Nat × Nat → Prog MState := fun (s, ad, adlen) => do
  let (s, i, ad, adlen) ← ifc (decide (adlen ≥ 8))
    (do
      let as ← MLOAD e ad 1
      let s := { s with x0 := MXOR s.x0 as 1 }
      pure (s, 1, ad + 8, adlen - 8))
    (pure (s, 0, ad, adlen))
  let s ← xorPad s i adlen
  let s ← ifc (decide (adlen ≠ 0))
    (do
      let as ← MLOAD e ad 1
      pure (s.setX i (MXOR (s.getX i) as 1)))
    (pure s)
  P s 8 1

/-- aead.c:42-78 -/
def ascon_adata (e : Endian) (s : MState) (ad adlen : Nat) : Prog MState := do
  let s ← ifc (decide (adlen ≠ 0))
    (do
      let r ← loop (adlen + 1) (fun (_, _, adlen) => decide (adlen ≥ 16)) (adStep e) (s, ad, adlen)
      adFinal e r)
    (pure s)
  pure { s with x4 := { s.x4 with s0 := { s.x4.s0 with w1 := s.x4.s0.w1 ^^^ 0x80000000 } } }

/-- aead.c:86-102: body of the loop. -/
def encStep (e : Endian) : MState × Nat × Nat × Nat → Prog (MState × Nat × Nat × Nat) :=
  fun (s, c, m, mlen) => do
    let ms ← MLOAD e m 1
    let s := { s with x0 := MXOR s.x0 ms 1 }
    let cx := MREDUCE s.x0 1 1
    MSTORE e c cx 1
    let ms ← MLOAD e (m + 8) 1
    let s := { s with x1 := MXOR s.x1 ms 1 }
    let cx := MREDUCE s.x1 1 1
    MSTORE e (c + 8) cx 1
    let s ← P s 8 1
    pure (s, c + 16, m + 16, mlen - 16)

/-- aead.c:104-121 -/
def encFinal (e : Endian) : MState × Nat × Nat × Nat → Prog MState := fun (s, c, m, mlen) => do
  let (s, i, c, m, mlen) ← ifc (decide (mlen ≥ 8))
    (do
      let ms ← MLOAD e m 1
      let s := { s with x0 := MXOR s.x0 ms 1 }
      let cx := MREDUCE s.x0 1 1
      MSTORE e c cx 1
      pure (s, 1, c + 8, m + 8, mlen - 8))
    (pure (s, 0, c, m, mlen))
  let s ← xorPad s i mlen
  ifc (decide (mlen ≠ 0))
    (do
      let ms ← MLOAD e m 1
      let s := s.setX i (MXOR (s.getX i) ms 1)
      let cx := MREDUCE (s.getX i) 1 1
      MSTORE e c cx 1
      pure s)
    (pure s)

/-- aead.c:80-121 -/
def ascon_encrypt (e : Endian) (s : MState) (c m mlen : Nat) : Prog MState := do
  let r ← loop (mlen + 1) (fun (_, _, _, mlen) => decide (mlen ≥ 16)) (encStep e) (s, c, m, mlen)
  encFinal e r

/-- aead.c:129-145: body of the loop. -/
def decStep (e : Endian) : MState × Nat × Nat × Nat → Prog (MState × Nat × Nat × Nat) :=
  fun (s, m, c, clen) => do
    let cx ← MLOAD e c 1
    let s := { s with x0 := MXOR s.x0 cx 1 }
    MSTORE e m s.x0 1
    let s := { s with x0 := MEXPAND cx 1 1 }
    let cx ← MLOAD e (c + 8) 1
    let s := { s with x1 := MXOR s.x1 cx 1 }
    MSTORE e (m + 8) s.x1 1
    let s := { s with x1 := MEXPAND cx 1 1 }
    let s ← P s 8 1
    pure (s, m + 16, c + 16, clen - 16)

/-- aead.c:147-171 -/
def decFinal (e : Endian) : MState × Nat × Nat × Nat → Prog MState := fun (s, m, c, clen) => do
  let (s, i, m, c, clen) ← ifc (decide (clen ≥ 8))
    (do
      let cx ← MLOAD e c 1
      let s := { s with x0 := MXOR s.x0 cx 1 }
      MSTORE e m s.x0 1
      let s := { s with x0 := MEXPAND cx 1 1 }
      pure (s, 1, m + 8, c + 8, clen - 8))
    (pure (s, 0, m, c, clen))
  let s ← xorPad s i clen
  ifc (decide (clen ≠ 0))
    (do
      let cx ← MLOAD e c 1
      let s := s.setX i (MXOR (s.getX i) cx 1)
      MSTORE e m (s.getX i) 1
      let mask ← MMASK s.x5 clen
      let cx := MEXPAND cx 1 1
      let s := s.setX i (MXORAND cx mask (s.getX i) 1)
      pure { s with x5 := MREUSE s.x5 0 1 })
    (pure s)

/-- aead.c:123-171 -/
def ascon_decrypt (e : Endian) (s : MState) (m c clen : Nat) : Prog MState := do
  let r ← loop (clen + 1) (fun (_, _, _, clen) => decide (clen ≥ 16)) (decStep e) (s, m, c, clen)
  decFinal e r

/-- aead.c:173-198 -/
def ascon_final (e : Endian) (s : MState) (k : Nat) : Prog MState := do
  let K1 ← MLOAD e k 2
  let K2 ← MLOAD e (k + 16) 2
  let s := { s with x2 := MXOR s.x2 K1 2 }
  let s := { s with x3 := MXOR s.x3 K2 2 }
  let s ← P s 12 2
  let s := { s with x3 := MXOR s.x3 K1 2 }
  let s := { s with x4 := MXOR s.x4 K2 2 }
  pure s

/-- aead.c:200-205 -/
def ascon_settag (e : Endian) (s : MState) (t : Nat) : Prog Unit := do
  let s := { s with x3 := MREDUCE s.x3 2 1 }
  let s := { s with x4 := MREDUCE s.x4 2 1 }
  MSTORE e t s.x3 1
  MSTORE e (t + 8) s.x4 1

/-- aead.c:223-241 with the constants of line 220 (`ASCON_PB_ROUNDS == 8`). -/
def ascon_xortag (e : Endian) (s : MState) (t : Nat) : Prog MState := do
  let s := { s with x0 := MREUSE s.x0 0 2 }
  let s := { s with x1 := MREUSE s.x1 0 2 }
  let s := { s with x2 := MREUSE s.x2 0 2 }
  let t0 ← MLOAD e t 1
  let s := { s with x3 := MXOR s.x3 t0 1 }
  let t1 ← MLOAD e (t + 8) 1
  let s := { s with x4 := MXOR s.x4 t1 1 }
  let s ← P s 8 2
  let s := { s with x3 := { s.x3 with s0 := { s.x3.s0 with w0 := s.x3.s0.w0 ^^^ 0xc7c72006 } } }
  let s := { s with x3 := { s.x3 with s0 := { s.x3.s0 with w1 := s.x3.s0.w1 ^^^ 0xc3bfab9c } } }
  let s := { s with x4 := { s.x4 with s0 := { s.x4.s0 with w0 := s.x4.s0.w0 ^^^ 0x18213f82 } } }
  let s := { s with x4 := { s.x4 with s0 := { s.x4.s0 with w1 := s.x4.s0.w1 ^^^ 0x0653ed71 } } }
  pure s

/-- aead.c:243-252; the last line is evaluated in `int`. -/
def ascon_iszero (s : MState) : Int :=
  let x3 := MREDUCE s.x3 2 1
  let x4 := MREDUCE s.x4 2 1
  let result := x3.s0.w0 ^^^ x3.s0.w1
  let result := result ^^^ (x4.s0.w0 ^^^ x4.s0.w1)
  let result := result ||| result >>> 16
  let result := result ||| result >>> 8
  (((((result &&& 0xff) - 1).sshiftRight 8) &&& 1) - 1).toInt

/-- aead.c:254-263 -/
def ascon_level_adata (s : MState) : MState :=
  ⟨MREDUCE s.x0 2 1, MREDUCE s.x1 2 1, MREDUCE s.x2 2 1, MREDUCE s.x3 2 1, MREDUCE s.x4 2 1, MREDUCE s.x5 2 1⟩

/-- aead.c:283-299; consumes `ρ 0` … `ρ 5`. -/
def ascon_level_final (ρ : Nat → Word) (s : MState) : MState :=
  let s : MState :=
    ⟨MEXPAND s.x0 1 2, MEXPAND s.x1 1 2, MEXPAND s.x2 1 2, MEXPAND s.x3 1 2, MEXPAND s.x4 1 2, MEXPAND s.x5 1 2⟩
  ⟨MREFRESH s.x0 (ρ 0), MREFRESH s.x1 (ρ 1), MREFRESH s.x2 (ρ 2), MREFRESH s.x3 (ρ 3), MREFRESH s.x4 (ρ 4),
    MREFRESH s.x5 (ρ 5)⟩

/-! ## crypto_aead_shared.c -/

/-- shares.h:8 `#define NUM_WORDS(len) ((((len) + 7) / 8) * 2)` (for lengths below `2^64 - 7`) -/
def NUM_WORDS (len : Nat) : Nat := ((len + 7) / 8) * 2

/-- crypto_aead_shared.c:9-26; consumes `ρ 0` … `ρ 9`. -/
def crypto_aead_encrypt_shared (e : Endian) (ρ : Nat → Word) (cs clen ms mlen ads adlen npubs ks : Nat) :
    Prog Int := do
  store64 e clen (BitVec.ofNat 64 (mlen + 16))
  let s ← ascon_initaead e ρ ks npubs
  let s := ascon_level_adata s
  let s ← ascon_adata e s ads adlen
  let s ← ascon_encrypt e s cs ms mlen
  let s := ascon_level_final (fun i => ρ (4 + i)) s
  let s ← ascon_final e s ks
  ascon_settag e s (cs + 4 * NUM_WORDS mlen)
  pure 0

/-- crypto_aead_shared.c:28-47 (`*mlen` is not read back: it has just been written) -/
def crypto_aead_decrypt_shared (e : Endian) (ρ : Nat → Word) (ms mlen cs clen ads adlen npubs ks : Nat) :
    Prog Int := do
  store64 e mlen (BitVec.ofNat 64 (clen - 16))
  let s ← ascon_initaead e ρ ks npubs
  let s := ascon_level_adata s
  let s ← ascon_adata e s ads adlen
  let s ← ascon_decrypt e s ms cs (clen - 16)
  let s := ascon_level_final (fun i => ρ (4 + i)) s
  let s ← ascon_final e s ks
  let s ← ascon_xortag e s (cs + 4 * NUM_WORDS (clen - 16))
  pure (ascon_iszero s)

/-! ## shares.c -/

/-- The address of `s[i]` for `uint32_t* s`. -/
def idx (s i : Nat) : Nat := s + 4 * i

/-- shares.c:73-92: the body of the inner loop for one `d`; `r` is what `randombytes` delivers. -/
def genShare (e : Endian) (s n i d : Nat) (r : Word) : Prog Unit := do
  store32 e (idx s ((i + 0) * n + d)) (r.setWidth 32)
  store32 e (idx s ((i + 1) * n + d)) ((r >>> 32).setWidth 32)
  let r := ROR64 r (ROT (2 * d))
  let a ← load32 e (idx s ((i + 0) * n + 0))
  store32 e (idx s ((i + 0) * n + 0)) (a ^^^ r.setWidth 32)
  let b ← load32 e (idx s ((i + 1) * n + 0))
  store32 e (idx s ((i + 1) * n + 0)) (b ^^^ (r >>> 32).setWidth 32)

/-- shares.c:73-92: the body of the outer loop for `i = 2 * j`; `ρ` starts at the first value for this pair. -/
def genPair (e : Endian) (ρ : Nat → Word) (s n j : Nat) : Prog Unit := do
  let i := 2 * j
  store32 e (idx s ((i + 0) * n + 0)) 0
  store32 e (idx s ((i + 1) * n + 0)) 0
  forUp (fun d (_ : Unit) => genShare e s n i d (ρ (j * (n - 1) + (d - 1)))) (n - 1) 1 ()

/-- `s[(2 * j + 0) * n + 0] ^= (uint32_t)x; s[(2 * j + 1) * n + 0] ^= (uint32_t)(x >> 32);`
(shares.c:101-102 and 114-115) -/
def xorData (e : Endian) (s n j : Nat) (x : Word) : Prog Unit := do
  let a ← load32 e (idx s ((2 * j + 0) * n + 0))
  store32 e (idx s ((2 * j + 0) * n + 0)) (a ^^^ x.setWidth 32)
  let b ← load32 e (idx s ((2 * j + 1) * n + 0))
  store32 e (idx s ((2 * j + 1) * n + 0)) (b ^^^ (x >>> 32).setWidth 32)

/-- shares.c:69-117 -/
def generate_shares (e : Endian) (ρ : Nat → Word) (s n data len : Nat) : Prog Unit := do
  forUp (fun j (_ : Unit) => genPair e ρ s n j) (NUM_WORDS len / 2) 0 ()
  forUp (fun i (_ : Unit) => do
    let x ← load64 e (data + i * 8)
    let x := U64LE e x
    xorData e s n i x) (len / 8) 0 ()
  ifc (decide (len / 8 * 8 ≠ len))
    (do
      let x ← forUp (fun i (x : Word) => do
        let b ← loadB (data + i)
        pure (x ^^^ (b.setWidth 64) <<< ((i % 8) * 8))) (len - len / 8 * 8) (len / 8 * 8) 0
      let x := U64LE e x
      xorData e s n (len / 8) x)
    (pure ())

/-- shares.c:126-137 and 146-153: `x ^= ROR64((uint64_t)rnd1 << 32 | rnd0, ROT(2 * d))` for all `d`. -/
def combPair (e : Endian) (s n j : Nat) : Prog Word :=
  forUp (fun d (x : Word) => do
    let rnd0 ← load32 e (idx s ((2 * j + 0) * n + d))
    let rnd1 ← load32 e (idx s ((2 * j + 1) * n + d))
    pure (x ^^^ ROR64 (rnd1.setWidth 64 <<< 32 ||| rnd0.setWidth 64) (ROT (2 * d)))) n 0 0

/-- shares.c:119-159 -/
def combine_shares (e : Endian) (data len s n : Nat) : Prog Unit := do
  forUp (fun i (_ : Unit) => do
    let x ← combPair e s n i
    let x := U64LE e x
    store64 e (data + i * 8) x) (len / 8) 0 ()
  ifc (decide (len / 8 * 8 ≠ len))
    (do
      let x ← combPair e s n (len / 8)
      let x := U64LE e x
      forUp (fun i (_ : Unit) => storeB (data + i) ((x >>> ((i % 8) * 8)).setWidth 8))
        (len - len / 8 * 8) (len / 8 * 8) ())
    (pure ())

/-! ## crypto_aead.c -/

/-- The blocks returned by the five calls of `malloc`. -/
structure Heap where
  ks : Nat
  ns : Nat
  as : Nat
  ms : Nat
  cs : Nat

/-- `malloc(n)` (crypto_aead.c:28-32, 67-71) returning `p` -/
def malloc (p n : Nat) : Prog Unit := .alloc p n (.ret ())

/-- `free(p)` of a block of `n` bytes -/
def mfree (p n : Nat) : Prog Unit := .free p n (.ret ())

/-- crypto_aead.c:16-51 with shares.c:24-36 (`generate_shares_encrypt`) and 54-60 (`combine_shares_encrypt`). -/
def crypto_aead_encrypt (ρ : Nat → Word) (h : Heap) (e : Endian)
    (c clen m mlen a alen npub k : Nat) : Prog Int := do
  malloc h.ks (8 * NUM_WORDS 16)
  malloc h.ns (4 * NUM_WORDS 16)
  malloc h.as (4 * NUM_WORDS alen)
  malloc h.ms (4 * NUM_WORDS mlen)
  malloc h.cs (4 * NUM_WORDS (mlen + 16))
  generate_shares e ρ h.ks 2 k 16
  generate_shares e ρ h.ns 1 npub 16
  generate_shares e ρ h.as 1 a alen
  generate_shares e ρ h.ms 1 m mlen
  let _ ← crypto_aead_encrypt_shared e (fun i => ρ (2 + i)) h.cs clen h.ms mlen h.as alen h.ns h.ks
  let cl ← load64 e clen
  let ml := (cl - 16).toNat
  combine_shares e c ml h.cs 1
  combine_shares e (c + ml) 16 (h.cs + 4 * NUM_WORDS ml) 1
  mfree h.ks (8 * NUM_WORDS 16)
  mfree h.ns (4 * NUM_WORDS 16)
  mfree h.as (4 * NUM_WORDS alen)
  mfree h.ms (4 * NUM_WORDS mlen)
  mfree h.cs (4 * NUM_WORDS (mlen + 16))
  pure 0

/-- crypto_aead.c:53-90 with shares.c:38-52 (`generate_shares_decrypt`) and 62-66 (`combine_shares_decrypt`). -/
def crypto_aead_decrypt (ρ : Nat → Word) (h : Heap) (e : Endian)
    (m mlen c clen a alen npub k : Nat) : Prog Int :=
  ifc (decide (clen < 16)) (pure (-1)) (do
    malloc h.ks (8 * NUM_WORDS 16)
    malloc h.ns (4 * NUM_WORDS 16)
    malloc h.as (4 * NUM_WORDS alen)
    malloc h.ms (4 * NUM_WORDS (clen - 16))
    malloc h.cs (4 * NUM_WORDS clen)
    generate_shares e ρ h.ks 2 k 16
    generate_shares e ρ h.ns 1 npub 16
    generate_shares e ρ h.as 1 a alen
    generate_shares e ρ h.cs 1 c (clen - 16)
    generate_shares e ρ (h.cs + 4 * NUM_WORDS (clen - 16)) 1 (c + (clen - 16)) 16
    let result ← crypto_aead_decrypt_shared e (fun i => ρ (2 + i)) h.ms mlen h.cs clen h.as alen h.ns h.ks
    let ml ← load64 e mlen
    combine_shares e m ml.toNat h.ms 1
    mfree h.ks (8 * NUM_WORDS 16)
    mfree h.ns (4 * NUM_WORDS 16)
    mfree h.as (4 * NUM_WORDS alen)
    mfree h.ms (4 * NUM_WORDS (clen - 16))
    mfree h.cs (4 * NUM_WORDS clen)
    pure result)

end Ascon.Masked
