import Verif.Proof.RvImpl
/-!
# `ascon_core` of the RISC-V files

Composition of the parts listed in `Impl.Ok`.
-/

namespace Ascon.Rv

open Ascon.C Ascon.Spec Ascon.Asm
open Ascon.Masked (U32 repr32)

attribute [local irreducible] perm

/-- The memories agree outside of the stack frame. -/
def Out (S : Nat) (mem mem' : Mem) : Prop := ∀ a, a < S ∨ S + 80 ≤ a → mem' a = mem a

theorem Out.refl {S : Nat} {mem : Mem} : Out S mem mem := fun _ _ => rfl
theorem Out.trans {S : Nat} {a b c : Mem} (h : Out S a b) (h' : Out S b c) : Out S a c :=
  fun x hx => (h' x hx).trans (h x hx)

theorem Out.inside {S p : Nat} {mem : Mem} {bs : List Byte} (h1 : S ≤ p) (h2 : p + bs.length ≤ S + 80) :
    Out S mem (mem.writes p bs) := fun a ha => writes_out (by omega)

theorem Out.writes {S p : Nat} {a b : Mem} {bs : List Byte} (h : Out S a b) : Out S (a.writes p bs) (b.writes p bs) := by
  intro x hx
  by_cases hp : p ≤ x ∧ x < p + bs.length
  · rw [writes_in hp.1 hp.2, writes_in hp.1 hp.2]
  · rw [writes_out (by omega), writes_out (by omega)]; exact h x hx

theorem Out.holds {S p : Nat} {a b : Mem} {bs : List Byte} (h : Out S a b) (hb : a.Holds p bs)
    (hd : Disjoint S 80 p bs.length) : b.Holds p bs := by
  intro i hi
  rw [h (p + i) (by unfold Disjoint at hd; omega)]
  exact hb i hi

theorem Out.writable {S p n : Nat} {a b : Mem} (h : Out S a b) (hb : a.Writable p n)
    (hd : Disjoint S 80 p n) : b.Writable p n := by
  intro i hi
  rw [h (p + i) (by unfold Disjoint at hd; omega)]
  exact hb i hi

/-- The callee-saved registers `v` are in the frame. -/
def Saved (S : Nat) (v : Nat → U32) (mem : Mem) : Prop := ∀ p ∈ saved, mem.Holds (S + p.2) (repr32 .little (v p.1))

theorem saved_pos : ∀ p ∈ saved, 28 ≤ p.2 ∧ p.2 ≤ 76 := by decide

theorem Saved.writes {S : Nat} {v : Nat → U32} {mem : Mem} {q : Nat} {bs : List Byte} (h : Saved S v mem)
    (hd : Disjoint q bs.length (S + 28) 52) : Saved S v (mem.writes q bs) := fun p hp =>
  (h p hp).writes_disjoint (by
    have := saved_pos p hp
    have hl : (repr32 .little (v p.1)).length = 4 := rfl
    rw [hl]; unfold Disjoint at hd ⊢; omega)

namespace Impl

variable {I : Impl} {base : U32}

/-- Events of `ascon_core` up to the tag. -/
def coreT (I : Impl) (md : Mode) (op ip n ap an np kp S : Nat) : List Event :=
  I.proT S np kp ++ (if an = 0 then [.branch true] else I.ad1T S ++ I.duplexT .ad ap op S an ++ I.ad2T S) ++
    I.duplexT md ip op S n ++ I.finalT ++ [.branch (decide (md = .enc))]

/-- The arguments of `ascon_core` on the machine. -/
structure Args (I : Impl) (md : Mode) (m : Regs) (mem : Mem) (op ip : Nat) (M : List Byte) (ap : Nat) (A : List Byte)
    (np : Nat) (N : List Byte) (kp : Nat) (K : List Byte) (S : Nat) : Prop where
  stk : m.stk = []
  mode : md ≠ .ad
  modeR : (m.r a7).setWidth 8 = (md.val.setWidth 8 : Byte)
  optr : m.r a0 = BitVec.ofNat 32 op
  opAl : 16 ≤ M.length → op % 4 = 0
  opEnd : op + M.length ≤ 2 ^ 32
  opW : mem.Writable op M.length
  iptr : m.r a1 = BitVec.ofNat 32 ip
  ipAl : 16 ≤ M.length → ip % 4 = 0
  ipEnd : ip + M.length ≤ 2 ^ 32
  ipH : mem.Holds ip M
  ilen : m.r a2 = BitVec.ofNat 32 M.length
  ilt : M.length < 2 ^ 31
  over : op ≤ ip ∨ ip + M.length ≤ op
  aptr : m.r a3 = BitVec.ofNat 32 ap
  apAl : 16 ≤ A.length → ap % 4 = 0
  apEnd : ap + A.length ≤ 2 ^ 32
  apH : mem.Holds ap A
  alen : m.r a4 = BitVec.ofNat 32 A.length
  alt : A.length < 2 ^ 31
  nptr : m.r a5 = BitVec.ofNat 32 np
  npAl : np % 4 = 0
  npEnd : np + 16 ≤ 2 ^ 32
  npH : mem.Holds np N
  npL : N.length = 16
  kptr : m.r a6 = BitVec.ofNat 32 kp
  kpAl : kp % 4 = 0
  kpEnd : kp + 16 ≤ 2 ^ 32
  kpH : mem.Holds kp K
  kpL : K.length = 16
  spR : m.r sp = BitVec.ofNat 32 (S + 80)
  spAl : S % 4 = 0
  spEnd : S + 80 < 2 ^ 32
  spW : mem.Writable S 80
  dO : Disjoint S 80 op M.length
  dI : Disjoint S 80 ip M.length
  dA : Disjoint S 80 ap A.length
  dN : Disjoint S 80 np 16
  dK : Disjoint S 80 kp 16
  rom : mem.Holds I.rc I.rom
  dR : Disjoint S 80 I.rc I.rom.length
  dOR : Disjoint op M.length I.rc I.rom.length

variable {md : Mode} {m : Regs} {mem : Mem} {op ip : Nat} {M : List Byte} {ap : Nat} {A : List Byte}
    {np : Nat} {N : List Byte} {kp : Nat} {K : List Byte} {S : Nat} {l' : List Byte}

/-- The part of the arguments that initialisation and the associated data need. -/
structure Start (I : Impl) (md : Mode) (m : Regs) (mem : Mem) (ap : Nat) (A : List Byte)
    (np : Nat) (N : List Byte) (kp : Nat) (K : List Byte) (S : Nat) : Prop where
  stk : m.stk = []
  modeR : (m.r a7).setWidth 8 = (md.val.setWidth 8 : Byte)
  aptr : m.r a3 = BitVec.ofNat 32 ap
  apAl : 16 ≤ A.length → ap % 4 = 0
  apEnd : ap + A.length ≤ 2 ^ 32
  apH : mem.Holds ap A
  alen : m.r a4 = BitVec.ofNat 32 A.length
  alt : A.length < 2 ^ 31
  nptr : m.r a5 = BitVec.ofNat 32 np
  npAl : np % 4 = 0
  npEnd : np + 16 ≤ 2 ^ 32
  npH : mem.Holds np N
  npL : N.length = 16
  kptr : m.r a6 = BitVec.ofNat 32 kp
  kpAl : kp % 4 = 0
  kpEnd : kp + 16 ≤ 2 ^ 32
  kpH : mem.Holds kp K
  kpL : K.length = 16
  spR : m.r sp = BitVec.ofNat 32 (S + 80)
  spAl : S % 4 = 0
  spEnd : S + 80 < 2 ^ 32
  spW : mem.Writable S 80
  dA : Disjoint S 80 ap A.length
  dN : Disjoint S 80 np 16
  dK : Disjoint S 80 kp 16
  rom : mem.Holds I.rc I.rom
  dR : Disjoint S 80 I.rc I.rom.length

theorem Args.start {I : Impl} (h : I.Args md m mem op ip M ap A np N kp K S) : I.Start md m mem ap A np N kp K S :=
  ⟨h.stk, h.modeR, h.aptr, h.apAl, h.apEnd, h.apH, h.alen, h.alt, h.nptr, h.npAl, h.npEnd, h.npH, h.npL, h.kptr, h.kpAl,
    h.kpEnd, h.kpH, h.kpL, h.spR, h.spAl, h.spEnd, h.spW, h.dA, h.dN, h.dK, h.rom, h.dR⟩

/-- Initialisation and associated data. -/
theorem core_start0 (ok : I.Ok) (h : I.Start md m mem ap A np N kp K S) (op : Nat) :
    Goes I.code base I.Lcore m mem fun t pc' m' mem' =>
      t = I.proT S np kp ++ (if A.length = 0 then [.branch true] else I.ad1T S ++ I.duplexT .ad ap op S A.length ++ I.ad2T S) ∧
      pc' = I.Ldup ∧ I.St (I.V.start K N A) m' ∧
      I.KeyIn (I.V.ld (K.take 8)) (I.V.ld (K.drop 8)) m' ∧ m'.r sp = BitVec.ofNat 32 S ∧ m'.r a7 = md.val ∧
      m'.r a0 = m.r a0 ∧ m'.r a3 = m.r a1 ∧ m'.r a4 = m.r a2 ∧
      m'.r ra = at_ base I.Lfin ∧ Out S mem mem' ∧ Saved S m.r mem' ∧ mem'.Writable S 80 := by
  refine (ok.pro base m mem md S np kp K N h.stk h.spR h.spAl h.spEnd h.spW h.nptr h.npAl h.npEnd h.npH h.npL h.dN h.kptr
    h.kpAl h.kpEnd h.kpH h.kpL h.dK h.rom h.dR h.modeR).cut ?_
  rintro t pc' m1 mem1 ⟨rfl, rfl, hst, hkey, hsp, ha7, hsame, hout, hsav, hw⟩
  have hout : Out S mem mem1 := hout
  have h0 : m1.r a0 = m.r a0 := hsame a0 (by decide)
  have h1 : m1.r a1 = m.r a1 := hsame a1 (by decide)
  have h2 : m1.r a2 = m.r a2 := hsame a2 (by decide)
  have h3 : m1.r a3 = BitVec.ofNat 32 ap := (hsame a3 (by decide)).trans h.aptr
  have h4 : m1.r a4 = BitVec.ofNat 32 A.length := (hsame a4 (by decide)).trans h.alen
  have hstart : ∀ q : State, q = (if A = [] then
        I.V.init (I.V.ld (K.take 8)) (I.V.ld (K.drop 8)) (I.V.ld (N.take 8)) (I.V.ld (N.drop 8)) else
        perm 8 (I.V.duplex .ad (I.V.init (I.V.ld (K.take 8)) (I.V.ld (K.drop 8)) (I.V.ld (N.take 8)) (I.V.ld (N.drop 8))) A
          (lastBlock 16 A)).1) →
      I.V.start K N A = { q with x4 := q.x4 ^^^ I.V.sep } := by
    intro q hq; subst hq; rfl
  by_cases hA : A.length = 0
  · have hA' : A = [] := List.eq_nil_of_length_eq_zero hA
    rw [if_pos hA]
    refine (ok.ad0 base m1 mem1 (by rw [h4, hA]; rfl)).cut ?_
    rintro t pc' m2 mem2 ⟨rfl, rfl, rfl, rfl⟩
    refine (ok.skip base m2 mem2 _ hst).mono ?_
    rintro t pc' m3 mem3 ⟨rfl, rfl, hst3, ha3, ha4, hra, hs3, rfl⟩
    refine ⟨by simp, rfl, ?_, ?_, (hs3 sp (by decide)).trans hsp, (hs3 a7 (by decide)).trans ha7,
      (hs3 a0 (by decide)).trans h0, ha3.trans h1, ha4.trans h2, hra, hout, hsav, hw⟩
    · rw [hstart _ (if_pos hA').symm]; exact hst3
    · exact ⟨(hs3 s11 (by decide)).trans hkey.1, (hs3 s10 (by decide)).trans hkey.2.1, (hs3 a6 (by decide)).trans hkey.2.2.1,
        (hs3 a5 (by decide)).trans hkey.2.2.2⟩
  · have hA' : A ≠ [] := fun e => hA (by rw [e]; rfl)
    rw [if_neg hA]
    refine (ok.ad1 base m1 mem1 S ?_ hsp h.spAl h.spEnd hw).cut ?_
    · rw [h4]
      intro e
      have := congrArg BitVec.toNat e
      rw [BitVec.toNat_ofNat, Nat.mod_eq_of_lt (by have := h.alt; omega)] at this
      exact hA this
    rintro t pc' m2 mem2 ⟨rfl, rfl, rfl, rfl⟩
    refine ok.entry base _ _ _ ?_
    have hl0 : (repr32 .little (m1.r a0)).length = 4 := rfl
    have hl7 : (repr32 .little (m1.r a7)).length = 4 := rfl
    have hout2 : Out S mem ((mem1.writes (S + 20) (repr32 .little (m1.r a0))).writes (S + 24) (repr32 .little (m1.r a7))) :=
      hout.trans ((Out.inside (by omega) (by omega)).trans (Out.inside (by omega) (by omega)))
    have hsav2 : Saved S m.r
        ((mem1.writes (S + 20) (repr32 .little (m1.r a0))).writes (S + 24) (repr32 .little (m1.r a7))) :=
      Saved.writes (Saved.writes hsav (by unfold Disjoint; omega)) (by unfold Disjoint; omega)
    have hS80 := h.spEnd
    have hdA := h.dA
    refine (duplex_goes ok .ad A ((m1.set a7 0).set ra (at_ base I.Lad2)) _ (lastBlock 16 A) ap op S I.Lad2
      (s := I.V.init (I.V.ld (K.take 8)) (I.V.ld (K.drop 8)) (I.V.ld (N.take 8)) (I.V.ld (N.drop 8))) ?_
      (by rw [set_ne (by decide), set_eq]; rfl) (by rw [set_ne (by decide), set_ne (by decide)]; exact h3) h.apAl h.apEnd
      (by rw [set_ne (by decide), set_ne (by decide)]; exact h4) h.alt (hout2.holds h.apH h.dA) (hout2.holds h.rom h.dR)
      (by rw [set_ne (by decide), set_ne (by decide)]; exact hsp) h.spAl (by omega)
      ((hw.writes.writes).mono (by omega) (by omega)) (by unfold Disjoint at hdA ⊢; omega)
      (fun he => absurd rfl he) (fun he => absurd he (by decide)) set_eq ok.pos.1).cut ?_
    · refine ⟨fun k j hk hj => ?_, hst.2⟩
      rw [set_ne (by show 2 * k + j ≠ 28; omega), set_ne (by show 2 * k + j ≠ 26; omega)]
      exact hst.1 k j hk hj
    rintro t pc' m3 mem3 ⟨rfl, rfl, ⟨tmp, htl, rfl⟩, hst3, -, -, hs3⟩
    rw [if_pos rfl]
    have hout3 := hout2.trans (Out.inside (S := S) (p := S) (bs := tmp) (Nat.le_refl _) (by omega))
    have hsp3 : m3.r sp = BitVec.ofNat 32 S := by
      rw [hs3 sp (by decide), set_ne (by decide), set_ne (by decide)]; exact hsp
    refine (ok.ad2 base m3 _ _ S (m1.r a0) (m1.r a7) hst3 hsp3 h.spAl h.spEnd ?_ ?_ (hout3.holds h.rom h.dR)).cut ?_
    · refine ((holds_writes_self _ _ _).writes_disjoint ?_).writes_disjoint ?_
      · unfold Disjoint; omega
      · unfold Disjoint; omega
    · refine (holds_writes_self _ _ _).writes_disjoint ?_
      unfold Disjoint; omega
    rintro t pc' m4 mem4 ⟨rfl, rfl, hst4, ha0, ha7', hs4, rfl⟩
    refine (ok.skip base m4 _ _ hst4).mono ?_
    rintro t pc' m5 mem5 ⟨rfl, rfl, hst5, ha3, ha4, hra, hs5, rfl⟩
    have h1' : m4.r a1 = m.r a1 := by
      rw [hs4 a1 (by decide), hs3 a1 (by decide), set_ne (by decide), set_ne (by decide)]; exact h1
    have h2' : m4.r a2 = m.r a2 := by
      rw [hs4 a2 (by decide), hs3 a2 (by decide), set_ne (by decide), set_ne (by decide)]; exact h2
    have hk : ∀ r, r ∈ [s10, s11, a5, a6] → m5.r r = m1.r r := by
      intro r hr
      rw [hs5 r (by revert hr; revert r; decide), hs4 r (by revert hr; revert r; decide),
        hs3 r (by revert hr; revert r; decide), set_ne (by revert hr; revert r; decide), set_ne (by revert hr; revert r; decide)]
    refine ⟨by simp, rfl, ?_, ?_, ?_, ?_, ?_, ha3.trans h1', ha4.trans h2', hra, hout3, ?_, hw.writes.writes.writes⟩
    · rw [hstart _ (if_neg hA').symm]; exact hst5
    · exact ⟨(hk s11 (by decide)).trans hkey.1, (hk s10 (by decide)).trans hkey.2.1, (hk a6 (by decide)).trans hkey.2.2.1,
        (hk a5 (by decide)).trans hkey.2.2.2⟩
    · rw [hs5 sp (by decide), hs4 sp (by decide)]; exact hsp3
    · rw [hs5 a7 (by decide), ha7', ha7]
    · rw [hs5 a0 (by decide), ha0, h0]
    · exact Saved.writes hsav2 (by unfold Disjoint; omega)

/-- Initialisation and associated data. -/
theorem core_start (ok : I.Ok) (h : I.Args md m mem op ip M ap A np N kp K S) :
    Goes I.code base I.Lcore m mem fun t pc' m' mem' =>
      t = I.proT S np kp ++ (if A.length = 0 then [.branch true] else I.ad1T S ++ I.duplexT .ad ap op S A.length ++ I.ad2T S) ∧
      pc' = I.Ldup ∧ I.St (I.V.start K N A) m' ∧
      I.KeyIn (I.V.ld (K.take 8)) (I.V.ld (K.drop 8)) m' ∧ m'.r sp = BitVec.ofNat 32 S ∧ m'.r a7 = md.val ∧
      m'.r a0 = BitVec.ofNat 32 op ∧ m'.r a3 = BitVec.ofNat 32 ip ∧ m'.r a4 = BitVec.ofNat 32 M.length ∧
      m'.r ra = at_ base I.Lfin ∧ Out S mem mem' ∧ Saved S m.r mem' ∧ mem'.Writable S 80 := by
  refine (core_start0 ok h.start op).mono ?_
  rintro t pc' m' mem' ⟨h1, h2, h3, h4, h5, h6, h7, h8, h9, h10⟩
  exact ⟨h1, h2, h3, h4, h5, h6, h7.trans h.optr, h8.trans h.iptr, h9.trans h.ilen, h10⟩

/-- Everything up to the tag. -/
theorem core_body (ok : I.Ok) (h : I.Args md m mem op ip M ap A np N kp K S)
    (hdec : md = .dec → (mem.writes op (I.V.duplex md (I.V.start K N A) M l').2).Holds (ip + M.length / 16 * 16) l' ∧
      l'.length = M.length % 16) :
    Goes I.code base I.Lcore m mem fun t pc' m' mem' =>
      t = I.coreT md op ip M.length ap A.length np kp S ∧ pc' = (if md = .enc then I.Lenc else I.Ldec) ∧
      I.St (Variant.final (I.V.ld (K.take 8)) (I.V.ld (K.drop 8)) (I.V.duplex md (I.V.start K N A) M l').1) m' ∧
      m'.r sp = BitVec.ofNat 32 S ∧ m'.r a0 = BitVec.ofNat 32 (op + M.length) ∧ m'.r a3 = BitVec.ofNat 32 (ip + M.length) ∧
      Out S (mem.writes op (I.V.duplex md (I.V.start K N A) M l').2) mem' ∧ Saved S m.r mem' := by
  refine (core_start ok h).cut ?_
  rintro t pc' m1 mem1 ⟨rfl, rfl, hst, hkey, hsp, ha7, ha0, ha3, ha4, hra, hout, hsav, hw⟩
  refine ok.entry base _ _ _ ?_
  have hS80 := h.spEnd
  have hdI := h.dI
  have hdO := h.dO
  have hol : (I.V.duplex md (I.V.start K N A) M l').2.length = M.length := Variant.length_duplex ok.vok md _ M l'
  refine (duplex_goes ok md M m1 mem1 _ l' ip op S I.Lfin hst ha7 ha3 h.ipAl h.ipEnd ha4 h.ilt (hout.holds h.ipH h.dI)
    (hout.holds h.rom h.dR) hsp h.spAl (by omega) (hw.mono (by omega) (by omega)) (by unfold Disjoint at hdI ⊢; omega)
    (fun _ => ⟨ha0, h.opAl, h.opEnd, hout.writable h.opW h.dO, by unfold Disjoint at hdO ⊢; omega, h.dOR, h.over⟩)
    ?_ hra ok.pos.2).cut ?_
  · intro hd
    obtain ⟨h1, h2⟩ := hdec hd
    refine ⟨?_, h2⟩
    refine (Out.writes hout).holds h1 ?_
    rw [h2]; unfold Disjoint at hdI ⊢; omega
  rintro t pc' m2 mem2 ⟨rfl, rfl, ⟨tmp, htl, rfl⟩, hst2, ha0', ha3', hs2⟩
  rw [if_neg h.mode]
  have hout2 : Out S (mem.writes op (I.V.duplex md (I.V.start K N A) M l').2)
      ((mem1.writes op (I.V.duplex md (I.V.start K N A) M l').2).writes S tmp) :=
    (Out.writes hout).trans (Out.inside (Nat.le_refl _) (by omega))
  have hr2 : (mem.writes op (I.V.duplex md (I.V.start K N A) M l').2).Holds I.rc I.rom :=
    h.rom.writes_disjoint (by rw [hol]; exact h.dOR)
  refine (ok.final base m2 _ md _ _ _ hst2 (hkey.same hs2) (hout2.holds hr2 h.dR) ((hs2 a7 (by decide)).trans ha7) h.mode).mono ?_
  rintro t pc' m3 mem3 ⟨rfl, rfl, hst3, hs3, rfl⟩
  refine ⟨by simp only [coreT, List.append_assoc], rfl, hst3, ?_, ?_, ?_, hout2, ?_⟩
  · rw [hs3 sp (by decide), hs2 sp (by decide)]; exact hsp
  · rw [hs3 a0 (by decide), ha0', ha0, ofNat_add]
  · rw [hs3 a3 (by decide), ha3']
  · refine Saved.writes (Saved.writes hsav ?_) (by unfold Disjoint; omega)
    rw [hol]; unfold Disjoint at hdO ⊢; omega

/-- The end of `ascon_core`: return address, callee-saved registers. -/
theorem core_epi (ok : I.Ok) {m m0 : Regs} {mem : Mem} {S : Nat} (hsp : m.r sp = BitVec.ofNat 32 S) (hS : S % 4 = 0)
    (hS80 : S + 80 < 2 ^ 32) (hsav : Saved S m0.r mem) (hsp0 : m0.r sp = BitVec.ofNat 32 (S + 80)) :
    Goes I.code base I.Lret m mem fun t pc' m' mem' => t = I.epiT S ∧ pc' = I.Lexit ∧ m'.r a0 = m.r a0 ∧
      Same [ra, sp, s0, s1, s2, s3, s4, s5, s6, s7, s8, s9, s10, s11] m0 m' ∧ mem' = mem := by
  refine (ok.epi base m mem S m0.r hsp hS hS80 hsav).mono ?_
  rintro t pc' m' mem' ⟨rfl, rfl, h0, h1, h2, rfl⟩
  refine ⟨rfl, rfl, h0, ?_, rfl⟩
  intro r hr
  by_cases hr' : r = sp
  · subst hr'; rw [h1, hsp0]
  · have : ∃ p ∈ saved, p.1 = r := by revert hr' hr; revert r; decide
    obtain ⟨p, hp, rfl⟩ := this
    exact h2 p hp

/-- `ascon_core` for encryption. -/
theorem core_enc (ok : I.Ok) (h : I.Args .enc m mem op ip M ap A np N kp K S) (hend : op + M.length + 16 ≤ 2 ^ 32)
    (hw : mem.Writable op (M.length + 16)) (hd : Disjoint S 80 op (M.length + 16)) :
    Goes I.code base I.Lcore m mem fun t pc' m' mem' =>
      t = I.coreT .enc op ip M.length ap A.length np kp S ++ I.tagT (op + M.length) ++ I.epiT S ∧ pc' = I.Lexit ∧
      m'.r a0 = 0 ∧ Same [ra, sp, s0, s1, s2, s3, s4, s5, s6, s7, s8, s9, s10, s11] m m' ∧
      Out S (mem.writes op (I.V.encrypt K N A M)) mem' := by
  refine (core_body (l' := lastBlock 16 M) ok h (fun e => absurd e (by decide))).cut ?_
  rintro t pc' m1 mem1 ⟨rfl, rfl, hst, hsp, ha0, ha3, hout, hsav⟩
  rw [if_pos rfl]
  have hol : (I.V.duplex .enc (I.V.start K N A) M (lastBlock 16 M)).2.length = M.length := Variant.length_duplex ok.vok _ _ M _
  have hw1 : mem1.Writable (op + M.length) 16 :=
    hout.writable (hw.writes.mono (by omega) (by omega)) (by unfold Disjoint at hd ⊢; omega)
  refine (ok.tagEnc base m1 mem1 _ _ hst ha0 (by omega) hw1).cut ?_
  rintro t pc' m2 mem2 ⟨rfl, rfl, h0, hsp2, rfl⟩
  have htl : ∀ a b, (I.V.st a ++ I.V.st b).length = 16 := fun a b => by
    rw [List.length_append, ok.vok.len, ok.vok.len]
  refine (core_epi ok (hsp2.trans hsp) h.spAl h.spEnd
    (Saved.writes hsav (by rw [htl]; unfold Disjoint at hd ⊢; omega)) h.spR).mono ?_
  rintro t pc' m3 mem3 ⟨rfl, rfl, h0', hs, rfl⟩
  refine ⟨by simp only [List.append_assoc], rfl, h0'.trans h0, hs, ?_⟩
  unfold Variant.encrypt
  simp only
  rw [writes_append, hol]
  exact Out.writes hout

/-- `ascon_core` for decryption. -/
theorem core_dec (ok : I.Ok) (h : I.Args .dec m mem op ip M ap A np N kp K S) (hip : ip % 4 = 0) {T : List Byte} (hT : T.length = 16)
    (hend : ip + M.length + 20 ≤ 2 ^ 32)
    (hl' : (mem.writes op (I.V.duplex .dec (I.V.start K N A) M l').2).Holds (ip + M.length / 16 * 16) l' ∧
      l'.length = M.length % 16)
    (hTm : (mem.writes op (I.V.duplex .dec (I.V.start K N A) M l').2).Holds (ip + M.length) T)
    (hd : Disjoint S 80 ip (M.length + 16))
    (hpast : M.length % 4 ≠ 0 → ∀ j, j < 4 - M.length % 4 → (ip + M.length + 16 + j < S ∨ S + 80 ≤ ip + M.length + 16 + j) ∧
      ∃ b, (mem (ip + M.length + 16 + j)).byte = some b) :
    Goes I.code base I.Lcore m mem fun t pc' m' mem' =>
      let r := I.V.duplex .dec (I.V.start K N A) M l'
      let s := Variant.final (I.V.ld (K.take 8)) (I.V.ld (K.drop 8)) r.1
      let good := I.diff (s.x3 ^^^ I.V.ld (T.take 8)) (s.x4 ^^^ I.V.ld (T.drop 8)) = 0
      t = I.coreT .dec op ip M.length ap A.length np kp S ++ readTagT (ip + M.length) ++ [.branch (decide good)] ++ I.epiT S ∧
      pc' = I.Lexit ∧
      m'.r a0 = (if good then 0 else -1) ∧ Same [ra, sp, s0, s1, s2, s3, s4, s5, s6, s7, s8, s9, s10, s11] m m' ∧
      Out S (mem.writes op r.2) mem' := by
  refine (core_body ok h (fun _ => hl')).cut ?_
  rintro t pc' m1 mem1 ⟨rfl, rfl, hst, hsp, ha0, ha3, hout, hsav⟩
  rw [if_neg (by decide)]
  have hol : (I.V.duplex .dec (I.V.start K N A) M l').2.length = M.length := Variant.length_duplex ok.vok _ _ M _
  refine (ok.tagDec base m1 mem1 _ (ip + M.length) T hst ha3 hend (hout.holds hTm ?_) hT ?_).cut ?_
  · rw [hT]; unfold Disjoint at hd ⊢; omega
  · intro hne a h1 h2
    have hval : ∀ a b, (mem a).byte = some b → ∃ b, (mem.writes op (I.V.duplex .dec (I.V.start K N A) M l').2 a).byte = some b := by
      intro a b hb
      by_cases hp : op ≤ a ∧ a < op + (I.V.duplex .dec (I.V.start K N A) M l').2.length
      · exact ⟨_, by rw [writes_in hp.1 hp.2]; rfl⟩
      · exact ⟨b, by rw [writes_out (by omega)]; exact hb⟩
    have hM : ip + M.length - (ip + M.length) / 4 * 4 = M.length % 4 := by omega
    by_cases hc1 : a < ip + M.length
    · have hb := h.ipH (a - ip) (by omega)
      rw [show ip + (a - ip) = a by omega] at hb
      rw [hout a (by unfold Disjoint at hd; omega)]
      exact hval a _ hb
    · by_cases hc2 : a < ip + M.length + 16
      · have hb := hTm (a - (ip + M.length)) (by omega)
        rw [show ip + M.length + (a - (ip + M.length)) = a by omega] at hb
        rw [hout a (by unfold Disjoint at hd; omega)]
        exact ⟨_, hb⟩
      · obtain ⟨hd', b, hb⟩ := hpast (by omega) (a - (ip + M.length + 16)) (by omega)
        rw [show ip + M.length + 16 + (a - (ip + M.length + 16)) = a by omega] at hb hd'
        rw [hout a hd']
        exact hval a b hb
  rintro t pc' m2 mem2 ⟨rfl, rfl, h0, hsp2, rfl⟩
  refine (core_epi ok (hsp2.trans hsp) h.spAl h.spEnd hsav h.spR).mono ?_
  rintro t pc' m3 mem3 ⟨rfl, rfl, h0', hs, rfl⟩
  exact ⟨by simp only [List.append_assoc], rfl, h0'.trans h0, hs, hout⟩

end Impl
end Ascon.Rv
