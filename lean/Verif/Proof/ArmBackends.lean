import Verif.Proof.ArmCheckOpt
import Verif.Proof.ArmCheckBi
/-!
# The ARM backends are correct (little endian) and constant-time
-/

namespace Ascon.Arm

open Ascon.C Ascon.Spec Ascon.Asm Ascon.Gen

theorem optRC (i : Nat) (hi : i < 12) : optConsts.RCs.getD i 0 = (fun w : Word => w) (rc i) := by
  have : ∀ i : Fin 12, optConsts.RCs.getD i.val 0 = rc i.val := by decide
  exact this ⟨i, hi⟩

theorem bi32RC (i : Nat) (hi : i < 12) : bi32Consts.RCs.getD i 0 = deinterleave32 .little (rc i) := by
  have : ∀ i : Fin 12, bi32Consts.RCs.getD i.val 0 = deinterleave32 .little (rc i.val) := by decide +kernel
  exact this ⟨i, hi⟩

theorem optUnrolled_ok {inl : Bool} {r5 r : List (Instr 32)} (h5 : okBlock r5 rotσ = true) (h : okBlock r idσ = true)
    (nr : Nat) (hn : nr = 12 ∨ nr = 8 ∨ nr = 6) :
    PermOk (fun w => w) nr (unrolled inl r5 r immOpt optConsts nr .little) :=
  unrolled_ok (dec := fun w => w) (fun _ => rfl) (fun _ => rfl) optRC
    (fun s i hi => okBlock5_sound h5 s (rc i) (rc_lt i hi)) (fun s i hi => okBlock_sound h s (rc i) (rc_lt i hi)) nr hn

theorem optUnrolled_ct {inl : Bool} {r5 r : List (Instr 32)} (h5 : okBlock r5 rotσ = true) (h : okBlock r idσ = true)
    (e : Endian) (nr : Nat) (hn : nr = 12 ∨ nr = 8 ∨ nr = 6) : PermCT (unrolled inl r5 r immOpt optConsts nr e) :=
  unrolled_ct (enc := fun w => w) (dec := fun w => w) (fun _ => rfl) optRC
    (fun s i hi => okBlock5_sound h5 s (rc i) (rc_lt i hi)) (fun s i hi => okBlock_sound h s (rc i) (rc_lt i hi)) e nr hn

theorem biUnrolled_ok {inl : Bool} {r5 r : List (Instr 32)} (h5 : okBlockBi r5 rotσ = true) (h : okBlockBi r idσ = true)
    (nr : Nat) (hn : nr = 12 ∨ nr = 8 ∨ nr = 6) :
    PermOk (deinterleave32 .little) nr (unrolled inl r5 r immBi32 bi32Consts nr .little) :=
  unrolled_ok interleave32_deinterleave32 deinterleave32_interleave32 bi32RC
    (fun s i _ => okBlockBi5_sound h5 s (rc i)) (fun s i _ => okBlockBi_sound h s (rc i)) nr hn

theorem biUnrolled_ct {inl : Bool} {r5 r : List (Instr 32)} (h5 : okBlockBi r5 rotσ = true) (h : okBlockBi r idσ = true)
    (e : Endian) (nr : Nat) (hn : nr = 12 ∨ nr = 8 ∨ nr = 6) : PermCT (unrolled inl r5 r immBi32 bi32Consts nr e) :=
  unrolled_ct deinterleave32_interleave32 bi32RC
    (fun s i _ => okBlockBi5_sound h5 s (rc i)) (fun s i _ => okBlockBi_sound h s (rc i)) e nr hn

theorem armv6_P_ok (nr : Nat) (hn : nr = 12 ∨ nr = 8 ∨ nr = 6) : PermOk (fun w => w) nr (armv6_P nr .little) :=
  optUnrolled_ok check_armv6_ROUND5 check_armv6_ROUND nr hn
theorem armv7m_P_ok (nr : Nat) (hn : nr = 12 ∨ nr = 8 ∨ nr = 6) : PermOk (fun w => w) nr (armv7m_P nr .little) :=
  optUnrolled_ok check_armv7m_ROUND5 check_armv7m_ROUND nr hn
theorem bi32_armv6_P_ok (nr : Nat) (hn : nr = 12 ∨ nr = 8 ∨ nr = 6) :
    PermOk (deinterleave32 .little) nr (bi32_armv6_P nr .little) :=
  biUnrolled_ok check_bi32_armv6_ROUND5 check_bi32_armv6_ROUND nr hn
theorem bi32_armv7m_P_ok (nr : Nat) (hn : nr = 12 ∨ nr = 8 ∨ nr = 6) :
    PermOk (deinterleave32 .little) nr (bi32_armv7m_P nr .little) :=
  biUnrolled_ok check_bi32_armv7m_ROUND5 check_bi32_armv7m_ROUND nr hn

theorem initLoop_C (nr : Nat) (h : nr ≤ 12) : initLoop nr C = BitVec.ofNat 32 (60 + 15 * nr) := by
  have : ∀ n : Fin 13, initLoop n.val C = BitVec.ofNat 32 (60 + 15 * n.val) := by decide
  exact this ⟨nr, by omega⟩
theorem initLoopArmv6m_C (nr : Nat) (h : nr ≤ 12) : initLoopArmv6m nr tmp1 = BitVec.ofNat 32 (60 + 15 * nr) := by
  have : ∀ n : Fin 13, initLoopArmv6m n.val tmp1 = BitVec.ofNat 32 (60 + 15 * n.val) := by decide
  exact this ⟨nr, by omega⟩
theorem initLoopBi32_C (nr : Nat) (h : nr ≤ 12) : initLoopBi32 nr C = BitVec.ofNat 32 (24 - 2 * nr) := by
  have : ∀ n : Fin 13, initLoopBi32 n.val C = BitVec.ofNat 32 (24 - 2 * n.val) := by decide
  exact this ⟨nr, by omega⟩
theorem initLoopBi32Armv6m_C (nr : Nat) (h : nr ≤ 12) : initLoopBi32Armv6m nr tmp1 = BitVec.ofNat 32 (24 - 2 * nr) := by
  have : ∀ n : Fin 13, initLoopBi32Armv6m n.val tmp1 = BitVec.ofNat 32 (24 - 2 * n.val) := by decide
  exact this ⟨nr, by omega⟩

theorem armv6_loop (nr : Nat) (h0 : 0 < nr) (h : nr ≤ 12) :
    LoopOk (fun w => w) (fun _ => none) armv6_ROUND_LOOP nr (initLoop nr) :=
  optLoop_ok (by decide) (by rfl) check_armv6_LOOP nr h0 h _ (initLoop_C nr h)
theorem armv7m_loop (nr : Nat) (h0 : 0 < nr) (h : nr ≤ 12) :
    LoopOk (fun w => w) (fun _ => none) armv7m_ROUND_LOOP nr (initLoop nr) :=
  optLoop_ok (by decide) (by rfl) check_armv7m_LOOP nr h0 h _ (initLoop_C nr h)
theorem armv6m_loop (nr : Nat) (h0 : 0 < nr) (h : nr ≤ 12) :
    LoopOk (fun w => w) (fun _ => none) armv6m_ROUND_LOOP nr (initLoopArmv6m nr) :=
  optLoop_ok (by decide) (by rfl) check_armv6m_LOOP nr h0 h _ (initLoopArmv6m_C nr h)
theorem bi32_armv7m_loop (nr : Nat) (h0 : 0 < nr) (h : nr ≤ 12) :
    LoopOk (deinterleave32 .little) bi32Rom bi32_armv7m_ROUND_LOOP nr (initLoopBi32 nr) :=
  biLoop_ok (by decide) (by decide) check_bi32_armv7m_LOOP nr h0 h _ (initLoopBi32_C nr h) rfl
theorem bi32_armv6m_loop (nr : Nat) (h0 : 0 < nr) (h : nr ≤ 12) :
    LoopOk (deinterleave32 .little) bi32Rom bi32_armv6m_ROUND_LOOP nr (initLoopBi32Armv6m nr) :=
  biLoop_ok (by decide) (by decide) check_bi32_armv6m_LOOP nr h0 h _ (initLoopBi32Armv6m_C nr h) rfl

theorem armv6_ok : armv6.Ok .little (fun w => w) := optBackend_ok (armv6_P_ok 12 (by omega)) (armv6_P_ok 8 (by omega))
theorem armv7m_ok : armv7m.Ok .little (fun w => w) := optBackend_ok (armv7m_P_ok 12 (by omega)) (armv7m_P_ok 8 (by omega))
theorem bi32_armv6_ok : bi32_armv6.Ok .little (deinterleave32 .little) :=
  bi32Backend_ok (bi32_armv6_P_ok 12 (by omega)) (bi32_armv6_P_ok 8 (by omega))
theorem bi32_armv7m_ok : bi32_armv7m.Ok .little (deinterleave32 .little) :=
  bi32Backend_ok (bi32_armv7m_P_ok 12 (by omega)) (bi32_armv7m_P_ok 8 (by omega))
theorem armv6_lowsize_ok : armv6_lowsize.Ok .little (fun w => w) :=
  optBackend_ok (roundLoop_ok (armv6_loop 12 (by omega) (by omega))) (roundLoop_ok (armv6_loop 8 (by omega) (by omega)))
theorem armv6m_ok : armv6m.Ok .little (fun w => w) :=
  optBackend_ok (roundLoop_ok (armv6m_loop 12 (by omega) (by omega))) (roundLoop_ok (armv6m_loop 8 (by omega) (by omega)))
theorem armv7m_small_ok : armv7m_small.Ok .little (fun w => w) :=
  optBackend_ok (roundLoop_ok (armv7m_loop 12 (by omega) (by omega))) (roundLoop_ok (armv7m_loop 8 (by omega) (by omega)))
theorem bi32_armv6m_ok : bi32_armv6m.Ok .little (deinterleave32 .little) :=
  bi32Backend_ok (roundLoop_ok (bi32_armv6m_loop 12 (by omega) (by omega)))
    (roundLoop_ok (bi32_armv6m_loop 8 (by omega) (by omega)))
theorem bi32_armv7m_small_ok : bi32_armv7m_small.Ok .little (deinterleave32 .little) :=
  bi32Backend_ok (roundLoop_ok (bi32_armv7m_loop 12 (by omega) (by omega)))
    (roundLoop_ok (bi32_armv7m_loop 8 (by omega) (by omega)))

theorem armv6_ct (e : Endian) : armv6.CT e :=
  optBackend_ct (optUnrolled_ct check_armv6_ROUND5 check_armv6_ROUND e 12 (by omega))
    (optUnrolled_ct check_armv6_ROUND5 check_armv6_ROUND e 8 (by omega))
theorem armv7m_ct (e : Endian) : armv7m.CT e :=
  optBackend_ct (optUnrolled_ct check_armv7m_ROUND5 check_armv7m_ROUND e 12 (by omega))
    (optUnrolled_ct check_armv7m_ROUND5 check_armv7m_ROUND e 8 (by omega))
theorem bi32_armv6_ct (e : Endian) : bi32_armv6.CT e :=
  bi32Backend_ct (biUnrolled_ct check_bi32_armv6_ROUND5 check_bi32_armv6_ROUND e 12 (by omega))
    (biUnrolled_ct check_bi32_armv6_ROUND5 check_bi32_armv6_ROUND e 8 (by omega))
theorem bi32_armv7m_ct (e : Endian) : bi32_armv7m.CT e :=
  bi32Backend_ct (biUnrolled_ct check_bi32_armv7m_ROUND5 check_bi32_armv7m_ROUND e 12 (by omega))
    (biUnrolled_ct check_bi32_armv7m_ROUND5 check_bi32_armv7m_ROUND e 8 (by omega))

theorem optLoop_ct {body : List (Instr 32)} {n : Nat} {init : Nat → BitVec 32}
    (h : LoopOk (fun w => w) (fun _ => none) body n init) (e : Endian) : PermCT (roundLoop e (fun _ => none) body init) :=
  roundLoop_ct (enc := fun w => w) (dec := fun w => w) (fun _ => rfl) h e
theorem biLoop_ct {body : List (Instr 32)} {n : Nat} {init : Nat → BitVec 32}
    (h : LoopOk (deinterleave32 .little) bi32Rom body n init) (e : Endian) : PermCT (roundLoop e bi32Rom body init) :=
  roundLoop_ct deinterleave32_interleave32 h e

theorem armv6_lowsize_ct (e : Endian) : armv6_lowsize.CT e :=
  optBackend_ct (optLoop_ct (armv6_loop 12 (by omega) (by omega)) e) (optLoop_ct (armv6_loop 8 (by omega) (by omega)) e)
theorem armv6m_ct (e : Endian) : armv6m.CT e :=
  optBackend_ct (optLoop_ct (armv6m_loop 12 (by omega) (by omega)) e) (optLoop_ct (armv6m_loop 8 (by omega) (by omega)) e)
theorem armv7m_small_ct (e : Endian) : armv7m_small.CT e :=
  optBackend_ct (optLoop_ct (armv7m_loop 12 (by omega) (by omega)) e) (optLoop_ct (armv7m_loop 8 (by omega) (by omega)) e)
theorem bi32_armv6m_ct (e : Endian) : bi32_armv6m.CT e :=
  bi32Backend_ct (biLoop_ct (bi32_armv6m_loop 12 (by omega) (by omega)) e)
    (biLoop_ct (bi32_armv6m_loop 8 (by omega) (by omega)) e)
theorem bi32_armv7m_small_ct (e : Endian) : bi32_armv7m_small.CT e :=
  bi32Backend_ct (biLoop_ct (bi32_armv7m_loop 12 (by omega) (by omega)) e)
    (biLoop_ct (bi32_armv7m_loop 8 (by omega) (by omega)) e)

end Ascon.Arm
