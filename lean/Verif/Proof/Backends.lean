import Verif.Proof.Rounds
/-!
# The portable backends are correct (`Backend.Ok`) and constant-time (`Backend.CT`)
-/

namespace Ascon.Gen

open Ascon.C Ascon.Spec
open Ascon.C.Prog (require ifc loop)

variable {P12 P8 : Endian → State → Prog State} {e : Endian}

theorem encS_id (s : State) : encS (fun w => w) s = s := rfl

/-- The permutation computes the specified one on encoded states. -/
def PermOk (enc : Word → Word) (n : Nat) (P : State → Prog State) : Prop :=
  ∀ s mem, run (P (encS enc s)) mem = some (encS enc (perm n s), mem)

theorem spongeInit_eq (iv : Word) : spongeInit iv = Ref.P12 ⟨iv, 0, 0, 0, 0⟩ := by
  rw [Ref.P12_eq]; rfl

/-- The precomputed initial state of Ascon-Hash256 (src/constants.h:50-54). -/
theorem hash_ivs : spongeInit ivHash = ⟨0x9b1e5494e934d681, 0x4bc3a01e333751d2, 0xae65396c6b34b81a,
    0x3c7fd4a4d56a4db3, 0x1a5c464906c5976d⟩ := by
  rw [spongeInit_eq]; decide +kernel

/-- The precomputed initial state of Ascon-XOF128 (src/constants.h:62-66). -/
theorem xof_ivs : spongeInit ivXof = ⟨0xda82ce768d9447eb, 0xcc7ce6c75f1ef969, 0xe7508fd780085631,
    0x0ee0ea53416b58cc, 0xe0547524db6f0bde⟩ := by
  rw [spongeInit_eq]; decide +kernel

/-! ### 64-bit words -/

theorem optBackend_ok (h12 : PermOk (fun w => w) 12 (P12 e)) (h8 : PermOk (fun w => w) 8 (P8 e)) :
    (optBackend P12 P8).Ok e (fun w => w) where
  xor := fun _ _ => rfl
  zero := fun _ h => h
  load := fun bs h => U64LE_value64 e bs h
  store := fun w => repr64_U64LE e w
  pad := fun i hi mem => by
    show run (optPAD i) mem = _
    unfold optPAD
    rw [require_bind_of (by simp; omega)]; rfl
  dsep := by simp only [optBackend]; decide
  clear := fun w n h mem => by
    show run (optCLEAR w n) mem = _
    unfold optCLEAR
    rw [require_bind_of (by simp; omega)]
    simp only [run_pure']
    rw [show (~~~(0 : Word)) = BitVec.allOnes 64 by decide]
    rfl
  mlen := fun n hn => by
    have : ∀ n : Fin 17, (0x00000000800c0007 : Word) ^^^ BitVec.ofNat 64 n.val <<< 51 = ivPrfs n.val := by
      decide +kernel
    exact this ⟨n, by omega⟩
  p12 := h12
  p8 := h8
  aead := rfl
  hash := hash_ivs.symm
  xof := xof_ivs.symm
  mac := rfl
  prf := rfl

theorem sim_optPAD (i : Nat) : Sim Any (optPAD i) (optPAD i) :=
  Sim.bind Sim.require fun _ _ _ => Sim.pure trivial

theorem sim_optCLEAR (v w : Word) (n : Nat) : Sim Any (optCLEAR v n) (optCLEAR w n) :=
  Sim.bind Sim.require fun _ _ _ => Sim.pure trivial

/-- The permutation is executed the same way for all states. -/
def PermCT (P : State → Prog State) : Prop := ∀ s t, Sim Any (P s) (P t)

theorem optBackend_ct (h12 : PermCT (P12 e)) (h8 : PermCT (P8 e)) : (optBackend P12 P8).CT e where
  pad := sim_optPAD
  clear := sim_optCLEAR
  p12 := h12
  p8 := h8

/-! ### Sequences of rounds -/

/-- A round function computes the specified round on encoded states and constants. -/
def RoundOk (enc : Word → Word) (R : State → Word → State) : Prop :=
  ∀ s c, R (encS enc s) (enc c) = encS enc (round c s)

theorem P12ROUNDS_ok {K : Consts} {enc : Word → Word} {R : State → Word → State} (h : RoundOk enc R)
    (hK : K.RCs = (roundConsts.drop 4).map enc) : PermOk enc 12 (P12ROUNDS K R) := by
  intro s mem
  unfold P12ROUNDS
  rw [hK, foldl_enc h]; rfl

theorem P8ROUNDS_ok {K : Consts} {enc : Word → Word} {R : State → Word → State} (h : RoundOk enc R)
    (hK : K.RCs = (roundConsts.drop 4).map enc) : PermOk enc 8 (P8ROUNDS K R) := by
  intro s mem
  unfold P8ROUNDS
  rw [hK, ← List.map_drop, foldl_enc h]; rfl

theorem P6ROUNDS_ok {K : Consts} {enc : Word → Word} {R : State → Word → State} (h : RoundOk enc R)
    (hK : K.RCs = (roundConsts.drop 4).map enc) : PermOk enc 6 (P6ROUNDS K R) := by
  intro s mem
  unfold P6ROUNDS
  rw [hK, ← List.map_drop, foldl_enc h]; rfl

theorem PROUNDS_ok {K : Consts} {enc : Word → Word} {R : State → Word → State} (h : RoundOk enc R)
    (n : Nat) (_hn : n ≤ 16) (hK : Follows K (K.START n) ((roundConsts.drop (16 - n)).map enc)) :
    PermOk enc n (PROUNDS K R n) := by
  intro s mem
  rw [run_PROUNDS hK (by simp [roundConsts])]
  rw [foldl_enc h]; rfl

theorem P12ROUNDS_ct {K : Consts} {R : State → Word → State} : PermCT (P12ROUNDS K R) :=
  fun _ _ => Sim.pure trivial
theorem P8ROUNDS_ct {K : Consts} {R : State → Word → State} : PermCT (P8ROUNDS K R) :=
  fun _ _ => Sim.pure trivial

theorem roundStep_ct {K : Consts} {R : State → Word → State} (i : Int) (s t : State) :
    Sim (fun a b : Int × State => a.1 = b.1) (roundStep K R (i, s)) (roundStep K R (i, t)) := by
  unfold roundStep
  simp only
  cases K.RC i with
  | none => exact .ub
  | some c => exact .ret rfl

theorem PROUNDS_ct {K : Consts} {R : State → Word → State} {n : Nat} : PermCT (PROUNDS K R n) := by
  intro s t
  refine Sim.bind (roundStep_ct _ s t) fun a b h => ?_
  refine Sim.bind (Sim.loop (R := fun a b : Int × State => a.1 = b.1) ?_ ?_ _ h) fun _ _ _ => Sim.pure trivial
  · intro a b h; simp only [h]
  · rintro ⟨i, s⟩ ⟨j, t⟩ h
    cases h
    exact roundStep_ct i s t

theorem round_opt64_ok : RoundOk (fun w => w) (ROUND_opt64 ROR64) := fun s c =>
  ROUND_opt64_enc (π := fun i => i) ⟨fun _ h => h, fun _ _ _ => rfl⟩
    (fun x n hn => Ref.ROR_eq x n (by revert n; decide) (by revert n; decide)) s c

theorem round_low64_ok : RoundOk (fun w => w) (ROUND_low ROR64) := fun s c =>
  ROUND_low_enc (π := fun i => i) ⟨fun _ h => h, fun _ _ _ => rfl⟩
    (fun x n hn => Ref.ROR_eq x n (by revert n; decide) (by revert n; decide)) s c

theorem round_opt32_ok : RoundOk (fun w => w) ROUND_opt32 := fun s c => ROUND_opt32_plain s c

theorem opt64_ok (e : Endian) : opt64.Ok e (fun w => w) :=
  optBackend_ok (P12ROUNDS_ok round_opt64_ok (by decide)) (P8ROUNDS_ok round_opt64_ok (by decide))

theorem opt64_ct (e : Endian) : opt64.CT e := optBackend_ct P12ROUNDS_ct P8ROUNDS_ct

theorem opt64_lowsize_ok (e : Endian) : opt64_lowsize.Ok e (fun w => w) :=
  optBackend_ok (PROUNDS_ok round_low64_ok 12 (by decide) (by decide))
    (PROUNDS_ok round_low64_ok 8 (by decide) (by decide))

theorem opt64_lowsize_ct (e : Endian) : opt64_lowsize.CT e := optBackend_ct PROUNDS_ct PROUNDS_ct

theorem opt32_ok (e : Endian) : opt32.Ok e (fun w => w) :=
  optBackend_ok (P12ROUNDS_ok round_opt32_ok (by decide)) (P8ROUNDS_ok round_opt32_ok (by decide))

theorem opt32_ct (e : Endian) : opt32.CT e := optBackend_ct P12ROUNDS_ct P8ROUNDS_ct

theorem opt32_lowsize_ok (e : Endian) : opt32_lowsize.Ok e (fun w => w) :=
  optBackend_ok (PROUNDS_ok round_opt32_ok 12 (by decide) (by decide))
    (PROUNDS_ok round_opt32_ok 8 (by decide) (by decide))

theorem opt32_lowsize_ct (e : Endian) : opt32_lowsize.CT e := optBackend_ct PROUNDS_ct PROUNDS_ct

/-! ### 32-bit interleaved words -/

theorem Lin.swapStep (m : BitVec 32) (k : Nat) : Lin (swapStep m k) := by
  have h : Lin (fun x : BitVec 32 => (x ^^^ (x >>> k)) &&& m) := (Lin.id.xor (Lin.id.shr k)).and m
  exact Lin.id.xor (h.xor (h.shl k))

theorem Lin.deinterleave16 : Lin deinterleave16 :=
  (Lin.swapStep _ _).comp ((Lin.swapStep _ _).comp ((Lin.swapStep _ _).comp (Lin.swapStep _ _)))

theorem Lin.interleave16 : Lin interleave16 :=
  (Lin.swapStep _ _).comp ((Lin.swapStep _ _).comp ((Lin.swapStep _ _).comp (Lin.swapStep _ _)))

/-- The two halves of a 64-bit word do not overlap. -/
theorem halves_xor (h l : BitVec 32) :
    h.setWidth 64 <<< 32 ||| l.setWidth 64 = h.setWidth 64 <<< 32 ^^^ l.setWidth 64 :=
  or_eq_xor (((Within.all h).setWidth 64).shl 32) ((Within.all l).setWidth 64) (by decide)

theorem Lin.halves {f g : Word → BitVec 32} (hf : Lin f) (hg : Lin g) :
    Lin (fun x => (f x).setWidth 64 <<< 32 ||| (g x).setWidth 64) := by
  intro a b
  show _ = _
  simp only [halves_xor]
  exact ((hf.setWidth 64).shl 32).xor (hg.setWidth 64) a b

theorem quarters1 (t0 t1 : BitVec 32) :
    (t1 <<< 16) ||| (t0 &&& (0x0000FFFF : BitVec 32)) = (t1 <<< 16) ^^^ (t0 &&& (0x0000FFFF : BitVec 32)) :=
  or_eq_xor ((Within.all t1).shl 16) (Within.and_right t0 _) (by decide)

theorem quarters2 (t0 t1 : BitVec 32) :
    (t1 &&& (0xFFFF0000 : BitVec 32)) ||| (t0 >>> 16) = (t1 &&& (0xFFFF0000 : BitVec 32)) ^^^ (t0 >>> 16) :=
  or_eq_xor (Within.and_right t1 _) ((Within.all t0).shr 16) (by decide)

theorem Lin.quarters1 {f g : Word → BitVec 32} (hf : Lin f) (hg : Lin g) :
    Lin (fun x => (f x <<< 16) ||| (g x &&& (0x0000FFFF : BitVec 32))) := by
  intro a b
  show _ ||| _ = (_ ||| _) ^^^ (_ ||| _)
  rw [Gen.quarters1, Gen.quarters1, Gen.quarters1]
  exact (hf.shl 16).xor (hg.and _) a b

theorem Lin.quarters2 {f g : Word → BitVec 32} (hf : Lin f) (hg : Lin g) :
    Lin (fun x => (f x &&& (0xFFFF0000 : BitVec 32)) ||| (g x >>> 16)) := by
  intro a b
  show _ ||| _ = (_ ||| _) ^^^ (_ ||| _)
  rw [Gen.quarters2, Gen.quarters2, Gen.quarters2]
  exact (hf.and _).xor (hg.shr 16) a b

theorem Lin.deinterleave32 (e : Endian) : Lin (deinterleave32 e) := by
  have hx := U64LE_lin e
  have h1 : Lin (fun x : Word => Gen.deinterleave16 ((U64LE e x >>> 32).setWidth 32)) :=
    Lin.deinterleave16.comp ((hx.shr 32).setWidth 32)
  have h0 : Lin (fun x : Word => Gen.deinterleave16 ((U64LE e x).setWidth 32)) :=
    Lin.deinterleave16.comp (hx.setWidth 32)
  exact Lin.halves (Lin.quarters2 h1 h0) (Lin.quarters1 h1 h0)

theorem Lin.interleave32 (e : Endian) : Lin (interleave32 e) := by
  have he : Lin (fun x : Word => x.setWidth 32) := Lin.id.setWidth 32
  have ho : Lin (fun x : Word => (x >>> 32).setWidth 32) := (Lin.id.shr 32).setWidth 32
  exact (U64LE_lin e).comp (Lin.halves (Lin.interleave16.comp (Lin.quarters2 ho he))
    (Lin.interleave16.comp (Lin.quarters1 ho he)))

/-- Position in the plain word of bit `i` of the 32-bit interleaved form: the even bits are in the low
half, the odd bits in the high half. -/
def bi32Pos (i : Nat) : Nat := if i < 32 then 2 * i else 2 * (i - 32) + 1

theorem bi32_perm : BitPerm (deinterleave32 .little) bi32Pos :=
  BitPerm.of_lin (Lin.deinterleave32 .little) (by decide) (by decide +kernel)

theorem interleave32_deinterleave32 (w : Word) :
    interleave32 .little (deinterleave32 .little w) = w :=
  Lin.ext ((Lin.interleave32 .little).comp (Lin.deinterleave32 .little)) Lin.id (by decide +kernel) w

theorem deinterleave32_interleave32 (w : Word) :
    deinterleave32 .little (interleave32 .little w) = w :=
  Lin.ext ((Lin.deinterleave32 .little).comp (Lin.interleave32 .little)) Lin.id (by decide +kernel) w

theorem deinterleave32_endian (e : Endian) (w : Word) :
    deinterleave32 e w = deinterleave32 .little (U64LE e w) := rfl

theorem interleave32_endian (e : Endian) (w : Word) :
    interleave32 e w = U64LE e (interleave32 .little w) := rfl

theorem ror32_xor (x : BitVec 32) (n : Nat) (h : n < 32) (h0 : 0 < n) :
    ROR32 x n = x >>> n ^^^ x <<< (32 - n) := by
  unfold ROR32
  rw [Nat.mod_eq_of_lt (by omega : 32 - n < 32)]
  apply BitVec.eq_of_getLsbD_eq; intro i hi
  rw [BitVec.getLsbD_or, BitVec.getLsbD_xor, BitVec.getLsbD_ushiftRight, BitVec.getLsbD_shiftLeft]
  by_cases h1 : i < 32 - n
  · simp [h1]
  · simp [BitVec.getLsbD_of_ge x (n + i) (by omega)]

theorem Lin.ROR32 {f : Word → BitVec 32} (hf : Lin f) (n : Nat) (h : n < 32) :
    Lin (fun x => ROR32 (f x) n) := by
  rcases Nat.eq_zero_or_pos n with rfl | h0
  · intro a b
    have : ∀ y, Gen.ROR32 y 0 = y := by intro y; simp [Gen.ROR32]
    simp only [this]
    exact hf a b
  · intro a b
    simp only [ror32_xor _ n h h0]
    exact (hf.shr n).xor (hf.shl (32 - n)) a b

theorem Lin.bi32ROR (n : Nat) (h : n < 63) : Lin (fun x => bi32ROR .little x n) := by
  have he : Lin (fun x : Word => x.setWidth 32) := Lin.id.setWidth 32
  have ho : Lin (fun x : Word => (x >>> 32).setWidth 32) := (Lin.id.shr 32).setWidth 32
  unfold Gen.bi32ROR unionW0 unionW1 unionX
  simp only
  by_cases hn : n % 2 ≠ 0
  · simp only [if_pos hn]
    exact Lin.halves (Lin.ROR32 he _ (by omega)) (Lin.ROR32 ho _ (by omega))
  · simp only [if_neg hn]
    exact Lin.halves (Lin.ROR32 ho _ (by omega)) (Lin.ROR32 he _ (by omega))

theorem rotateRight_lin (n : Nat) : Lin (fun x : Word => x.rotateRight n) :=
  fun a b => rotateRight_xor a b n

theorem bi32_ror : RorOk (deinterleave32 .little) (bi32ROR .little) := by
  intro x n hn
  have hlt : n < 63 := by revert n; decide
  have hd := Lin.deinterleave32 .little
  refine Lin.ext ((Lin.bi32ROR n hlt).comp hd) (hd.comp (rotateRight_lin n)) ?_ x
  revert n; decide +kernel

theorem bi32Backend_ok (h12 : PermOk (deinterleave32 .little) 12 (P12 e))
    (h8 : PermOk (deinterleave32 .little) 8 (P8 e)) :
    (bi32Backend P12 P8).Ok e (deinterleave32 .little) where
  xor := bi32_perm.xor
  zero := fun a h => by
    have := congrArg (interleave32 .little) h
    rw [interleave32_deinterleave32] at this
    rw [this]; decide
  load := fun bs h => by
    show deinterleave32 e (value64 e bs) = _
    rw [deinterleave32_endian, U64LE_value64 e bs h]
  store := fun w => by
    show repr64 e (interleave32 e (deinterleave32 .little w)) = _
    rw [interleave32_endian, interleave32_deinterleave32, repr64_U64LE]
  pad := fun i hi mem => by
    show run (bi32PAD i) mem = _
    unfold bi32PAD
    rw [require_bind_of (by simp; omega)]
    have : ∀ i : Fin 8, ((0x01 : BitVec 32) <<< (4 * i.val)).setWidth 64 =
      deinterleave32 .little ((1 : Word) <<< (8 * i.val)) := by decide +kernel
    simp only [run_pure']
    rw [this ⟨i, hi⟩]
  dsep := by simp only [bi32Backend]; decide +kernel
  clear := fun w n h mem => by
    show run (bi32CLEAR (deinterleave32 .little w) n) mem = _
    unfold bi32CLEAR
    rw [require_bind_of (by simp; omega)]
    simp only [run_pure']
    rw [bi32_perm.and]
    have : ∀ n : Fin 8, (((0xffffffff : Word) <<< (4 * n.val)).setWidth 32).setWidth 64 <<< 32 |||
        (((0xffffffff : Word) <<< (4 * n.val)).setWidth 32).setWidth 64 =
      deinterleave32 .little (Ref.highMask n.val) := by decide +kernel
    rw [this ⟨n, h⟩]
  mlen := fun n hn => by
    have : ∀ n : Fin 17, (0x0000820100000203 : Word) ^^^ (bi32Backend P12 P8).PRFS_MLEN (BitVec.ofNat 64 n.val) =
        deinterleave32 .little (ivPrfs n.val) := by
      simp only [bi32Backend]
      decide +kernel
    exact this ⟨n, by omega⟩
  p12 := h12
  p8 := h8
  aead := by show (_ : Word) = _; simp only [bi32Backend]; decide +kernel
  hash := by rw [hash_ivs]; simp only [bi32Backend, encS]; decide +kernel
  xof := by rw [xof_ivs]; simp only [bi32Backend, encS]; decide +kernel
  mac := by simp only [bi32Backend]; decide +kernel
  prf := by simp only [bi32Backend]; decide +kernel

theorem bi32Backend_ct (h12 : PermCT (P12 e)) (h8 : PermCT (P8 e)) : (bi32Backend P12 P8).CT e where
  pad := fun _ => Sim.bind Sim.require fun _ _ _ => Sim.pure trivial
  clear := fun _ _ _ => Sim.bind Sim.require fun _ _ _ => Sim.pure trivial
  p12 := h12
  p8 := h8

theorem round_bi32_ok : RoundOk (deinterleave32 .little) (ROUND_opt64 (bi32ROR .little)) :=
  fun s c => ROUND_opt64_enc bi32_perm bi32_ror s c

theorem round_bi32_low_ok : RoundOk (deinterleave32 .little) (ROUND_low (bi32ROR .little)) :=
  fun s c => ROUND_low_enc bi32_perm bi32_ror s c

theorem bi32_ok : bi32.Ok .little (deinterleave32 .little) :=
  bi32Backend_ok (P12ROUNDS_ok round_bi32_ok (by decide +kernel)) (P8ROUNDS_ok round_bi32_ok (by decide +kernel))

theorem bi32_ct (e : Endian) : bi32.CT e := bi32Backend_ct P12ROUNDS_ct P8ROUNDS_ct

theorem bi32_lowreg_ok : bi32_lowreg.Ok .little (deinterleave32 .little) :=
  bi32Backend_ok (PROUNDS_ok round_bi32_low_ok 12 (by decide) (by decide +kernel))
    (PROUNDS_ok round_bi32_low_ok 8 (by decide) (by decide +kernel))

theorem bi32_lowreg_ct (e : Endian) : bi32_lowreg.CT e := bi32Backend_ct PROUNDS_ct PROUNDS_ct

/-! ### 8-bit interleaved words -/

theorem swapStep8_xor (k m : Word) (r : Nat) (x : Word) (h1 : k &&& m <<< r = 0)
    (h2 : (k ||| m <<< r) &&& m = 0) :
    swapStep8 k m r x = (x &&& k) ^^^ ((x &&& m) <<< r) ^^^ ((x >>> r) &&& m) := by
  unfold swapStep8
  have w0 := Within.and_right x k
  have w1 := (Within.and_right x m).shl r
  have w2 := Within.and_right (x >>> r) m
  rw [or_eq_xor (w0.or w1) w2 h2, or_eq_xor w0 w1 h1]

theorem Lin.swapStep8 (k m : Word) (r : Nat) (h1 : k &&& m <<< r = 0)
    (h2 : (k ||| m <<< r) &&& m = 0) : Lin (swapStep8 k m r) := by
  intro a b
  simp only [swapStep8_xor k m r _ h1 h2]
  exact ((Lin.id.and k).xor ((Lin.id.and m).shl r)).xor ((Lin.id.shr r).and m) a b

theorem Lin.interleave8 : Lin interleave8 :=
  (Lin.swapStep8 _ _ _ (by decide) (by decide)).comp ((Lin.swapStep8 _ _ _ (by decide) (by decide)).comp
    (Lin.swapStep8 _ _ _ (by decide) (by decide)))

/-- Position in the plain word of bit `i` of the 8-bit interleaved form. -/
def bi8Pos (i : Nat) : Nat := 8 * (i % 8) + i / 8

theorem bi8_perm : BitPerm interleave8 bi8Pos :=
  BitPerm.of_lin Lin.interleave8 (by decide) (by decide +kernel)

/-- The 8-bit interleaving is its own inverse. -/
theorem interleave8_interleave8 (w : Word) : interleave8 (interleave8 w) = w :=
  Lin.ext (Lin.interleave8.comp Lin.interleave8) Lin.id (by decide +kernel) w

theorem ROR8_lin (n : Nat) (hn : n ≤ 8) : Lin (fun a : Byte => ROR8 a n) := by
  have h : ∀ a : Byte, ROR8 a n = ((a.setWidth 32 >>> n) ^^^ (a.setWidth 32 <<< (8 - n)) : BitVec 32).setWidth 8 := by
    intro a
    unfold ROR8
    congr 1
    apply BitVec.eq_of_getLsbD_eq; intro i hi
    simp only [BitVec.getLsbD_or, BitVec.getLsbD_xor, BitVec.getLsbD_ushiftRight, BitVec.getLsbD_shiftLeft,
      BitVec.getLsbD_setWidth]
    by_cases h1 : i < 8 - n
    · simp [h1]
    · simp [BitVec.getLsbD_of_ge a (n + i) (by omega)]
  intro a b
  simp only [h]
  exact (((Lin.id.setWidth 32).shr n).xor ((Lin.id.setWidth 32).shl (8 - n))).setWidth 8 a b

theorem bi8ROR_lin (n : Nat) (hn : n ≤ 56) : Lin (fun x => bi8ROR .little x n) := by
  intro a b
  show value64 .little _ = value64 .little _ ^^^ value64 .little _
  simp only [value64, repr64]
  rw [← le64_xorBytes _ _ (by simp)]
  congr 1
  rw [xorBytes, List.zipWith_map, List.zipWith_self]
  apply List.map_congr_left
  intro j hj
  rw [← ROR8_lin _ (by have := List.mem_range.mp hj; omega) _ _]
  congr 1
  have hl : (n + j) % 8 < 8 := Nat.mod_lt _ (by omega)
  rw [bytes64_xor, xorBytes]
  simp [List.getD_eq_getElem?_getD, length_bytes64, hl]

theorem bi8_ror : RorOk interleave8 (bi8ROR .little) := by
  intro x n hn
  have hlt : n ≤ 56 := by revert n; decide
  refine Lin.ext ((bi8ROR_lin n hlt).comp Lin.interleave8) (Lin.interleave8.comp (rotateRight_lin n)) ?_ x
  revert n; decide +kernel

theorem bi8Backend_ok (h12 : PermOk interleave8 12 (P12 e)) (h8 : PermOk interleave8 8 (P8 e)) :
    (bi8Backend P12 P8).Ok e interleave8 where
  xor := bi8_perm.xor
  zero := fun a h => by
    have := congrArg interleave8 h
    rw [interleave8_interleave8] at this
    rw [this]; decide
  load := fun bs h => by
    show interleave8 (U64LE e (value64 e bs)) = _
    rw [U64LE_value64 e bs h]
  store := fun w => by
    show repr64 e (U64LE e (interleave8 (interleave8 w))) = _
    rw [interleave8_interleave8, repr64_U64LE]
  pad := fun i hi mem => by
    show run (bi8PAD i) mem = _
    unfold bi8PAD
    rw [require_bind_of (by simp; omega)]
    have : ∀ i : Fin 8, ((0x01 : BitVec 32) <<< i.val).setWidth 64 =
      interleave8 ((1 : Word) <<< (8 * i.val)) := by decide +kernel
    simp only [run_pure']
    rw [this ⟨i, hi⟩]
  dsep := by simp only [bi8Backend]; decide +kernel
  clear := fun w n h mem => by
    show run (bi8CLEAR (interleave8 w) n) mem = _
    unfold bi8CLEAR
    rw [require_bind_of (by simp; omega)]
    simp only [run_pure']
    rw [bi8_perm.and]
    have : ∀ n : Fin 8, let m : Byte := ((0xff : BitVec 32) <<< n.val).setWidth 8
        value64 .little [m, m, m, m, m, m, m, m] = interleave8 (Ref.highMask n.val) := by decide +kernel
    rw [this ⟨n, h⟩]
  mlen := fun n hn => by
    have : ∀ n : Fin 17, (0x0800000004050101 : Word) ^^^ (bi8Backend P12 P8).PRFS_MLEN (BitVec.ofNat 64 n.val) =
        interleave8 (ivPrfs n.val) := by
      simp only [bi8Backend]
      decide +kernel
    exact this ⟨n, by omega⟩
  p12 := h12
  p8 := h8
  aead := by simp only [bi8Backend]; decide +kernel
  hash := by rw [hash_ivs]; simp only [bi8Backend, encS]; decide +kernel
  xof := by rw [xof_ivs]; simp only [bi8Backend, encS]; decide +kernel
  mac := by simp only [bi8Backend]; decide +kernel
  prf := by simp only [bi8Backend]; decide +kernel

theorem bi8Backend_ct (h12 : PermCT (P12 e)) (h8 : PermCT (P8 e)) : (bi8Backend P12 P8).CT e where
  pad := fun _ => Sim.bind Sim.require fun _ _ _ => Sim.pure trivial
  clear := fun _ _ _ => Sim.bind Sim.require fun _ _ _ => Sim.pure trivial
  p12 := h12
  p8 := h8

theorem round_bi8_ok : RoundOk interleave8 (ROUND_low (bi8ROR .little)) :=
  fun s c => ROUND_low_enc bi8_perm bi8_ror s c

theorem bi8_ok : bi8.Ok .little interleave8 :=
  bi8Backend_ok (PROUNDS_ok round_bi8_ok 12 (by decide) (by decide +kernel))
    (PROUNDS_ok round_bi8_ok 8 (by decide) (by decide +kernel))

theorem bi8_ct (e : Endian) : bi8.CT e := bi8Backend_ct PROUNDS_ct PROUNDS_ct

end Ascon.Gen
