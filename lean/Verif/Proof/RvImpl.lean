import Verif.Proof.RvLogic
import Verif.Proof.RvSpec
/-!
# The common structure of the RISC-V files

`Impl.Ok` lists what the straight-line parts of a file do; from this follows what `ascon_duplex` and `ascon_core` do.
-/

namespace Ascon.Rv

open Ascon.C Ascon.Spec Ascon.Asm
open Ascon.Masked (U32 repr32)

attribute [local irreducible] perm

/-- A translated file: code, positions of labels, codec, and the events of its parts. -/
structure Impl where
  code : List Ins
  V : Variant
  /-- how the words of the state are held in pairs of registers -/
  enc : Word → Word
  /-- address and contents of the data section -/
  rc : Nat
  rom : List Byte
  Ldup : Nat
  Lcond : Nat
  Lloop : Nat
  Lend : Nat
  Lcore : Nat
  /-- after initialisation -/
  Lad : Nat
  /-- after the first call of `ascon_duplex` -/
  Lad2 : Nat
  Lskip : Nat
  /-- after the second call of `ascon_duplex` -/
  Lfin : Nat
  Lenc : Nat
  Ldec : Nat
  Lret : Nat
  Lexit : Nat
  stepT : Mode → Nat → Nat → List Event
  finT : Mode → Nat → Nat → Nat → Nat → List Event
  proT : Nat → Nat → Nat → List Event
  ad1T : Nat → List Event
  ad2T : Nat → List Event
  finalT : List Event
  tagT : Nat → List Event
  epiT : Nat → List Event

/-- The registers `rs` have the same values. -/
def Same (rs : List Nat) (m m' : Regs) : Prop := ∀ r ∈ rs, m'.r r = m.r r

theorem Same.refl (rs : List Nat) (m : Regs) : Same rs m m := fun _ _ => rfl
theorem Same.trans {rs : List Nat} {a b c : Regs} (h : Same rs a b) (h' : Same rs b c) : Same rs a c :=
  fun r hr => (h' r hr).trans (h r hr)
theorem Same.mono {rs rs' : List Nat} {a b : Regs} (h : Same rs a b) (hs : ∀ r ∈ rs', r ∈ rs) : Same rs' a b :=
  fun r hr => h r (hs r hr)

/-- Registers preserved by `ascon_duplex`: key, `a1`, `a2`, mode, stack pointer, return address. -/
abbrev keepD : List Nat := [s10, s11, a1, a2, a5, a6, a7, sp, ra]

/-- The callee-saved registers and their places in the stack frame. -/
def saved : List (Nat × Nat) :=
  [(ra, 76), (s0, 72), (s1, 68), (s2, 64), (s3, 60), (s4, 56), (s5, 52), (s6, 48), (s7, 44), (s8, 40), (s9, 36), (s10, 32),
    (s11, 28)]

namespace Impl

/-- The registers hold the state `s`. -/
def St (I : Impl) (s : State) (m : Regs) : Prop := Loaded 2 I.enc s m ∧ m.stk = []

/-- The registers hold the key. -/
def KeyIn (I : Impl) (K0 K1 : Word) (m : Regs) : Prop :=
  m.r s11 = chunk 32 0 (I.enc K0) ∧ m.r s10 = chunk 32 1 (I.enc K0) ∧ m.r a6 = chunk 32 0 (I.enc K1) ∧
    m.r a5 = chunk 32 1 (I.enc K1)

theorem KeyIn.same {I : Impl} {K0 K1 : Word} {m m' : Regs} (h : I.KeyIn K0 K1 m) (hs : Same keepD m m') :
    I.KeyIn K0 K1 m' :=
  ⟨(hs s11 (by decide)).trans h.1, (hs s10 (by decide)).trans h.2.1, (hs a6 (by decide)).trans h.2.2.1,
    (hs a5 (by decide)).trans h.2.2.2⟩

/-- The quantity that decryption compares with zero. -/
def diff (I : Impl) (d0 d1 : Word) : U32 :=
  chunk 32 1 (I.enc d0) ^^^ chunk 32 0 (I.enc d0) ^^^ chunk 32 1 (I.enc d1) ^^^ chunk 32 0 (I.enc d1)

/-- Events of reading the received tag at `ip`. -/
def readTagT (ip : Nat) : List Event :=
  reads (ip / 4 * 4) 4 ++ reads (ip / 4 * 4 + 4) 4 ++ reads (ip / 4 * 4 + 8) 4 ++ reads (ip / 4 * 4 + 12) 4 ++
    (if ip % 4 = 0 then [.branch true] else .branch false :: reads (ip / 4 * 4 + 16) 4)

/-- What the parts of the file do. -/
structure Ok (I : Impl) : Prop where
  vok : I.V.Ok
  size : 4 * I.code.length < 2 ^ 32
  pos : I.Lad2 < I.code.length ∧ I.Lfin < I.code.length
  exit : I.code[I.Lexit]? = some (.jalr ra)
  entry : ∀ base (m : Regs) (mem : Mem) (Q : Post), Goes I.code base I.Lcond m mem Q → Goes I.code base I.Ldup m mem Q
  cond : ∀ base (m : Regs) (mem : Mem) (n : Nat), m.r a4 = BitVec.ofNat 32 n → n < 2 ^ 31 →
    Goes I.code base I.Lcond m mem fun t pc' m' mem' => t = [.branch (decide (16 ≤ n))] ∧
      pc' = (if 16 ≤ n then I.Lloop else I.Lend) ∧ m' = m.set t0 16 ∧ mem' = mem
  step : ∀ base (m : Regs) (mem : Mem) (md : Mode) (s : State) (b : List Byte) (ip op : Nat), I.St s m → m.r a7 = md.val → m.r a3 = BitVec.ofNat 32 ip → ip % 4 = 0 →
    ip + 16 ≤ 2 ^ 32 → mem.Holds ip b → b.length = 16 → mem.Holds I.rc I.rom →
    (md ≠ .ad → m.r a0 = BitVec.ofNat 32 op ∧ op % 4 = 0 ∧ op + 16 ≤ 2 ^ 32 ∧ mem.Writable op 16 ∧
      Disjoint op 16 I.rc I.rom.length) →
    Goes I.code base I.Lloop m mem fun t pc' m' mem' => t = I.stepT md ip op ∧ pc' = I.Lcond ∧
      mem' = (if md = .ad then mem else mem.writes op (I.V.rate (I.V.xorIn s b))) ∧
      I.St (perm 8 (I.V.stepS md s b)) m' ∧ m'.r a0 = m.r a0 + 16 ∧ m'.r a3 = m.r a3 + 16 ∧ m'.r a4 = m.r a4 - 16 ∧
      Same keepD m m'
  fin : ∀ base (m : Regs) (mem : Mem) (md : Mode) (s : State) (l l' : List Byte) (ip op S r : Nat), I.St s m → m.r a7 = md.val → m.r a3 = BitVec.ofNat 32 ip →
    ip + l.length ≤ 2 ^ 32 → m.r a4 = BitVec.ofNat 32 l.length → l.length < 16 → mem.Holds ip l →
    m.r sp = BitVec.ofNat 32 S → S % 4 = 0 → S + 16 ≤ 2 ^ 32 → mem.Writable S 16 → Disjoint S 16 ip l.length →
    (md ≠ .ad → m.r a0 = BitVec.ofNat 32 op ∧ op + l.length ≤ 2 ^ 32 ∧ mem.Writable op l.length ∧
      Disjoint S 16 op l.length) →
    (md = .dec → (mem.writes op (I.V.finO s l)).Holds ip l' ∧ l'.length = l.length) →
    m.r ra = at_ base r → r < I.code.length →
    Goes I.code base I.Lend m mem fun t pc' m' mem' => t = I.finT md ip op S l.length ∧ pc' = r ∧
      (∃ tmp : List Byte, tmp.length = 16 ∧
        mem' = (if md = .ad then mem else mem.writes op (I.V.finO s l)).writes S tmp) ∧
      I.St (I.V.finS md s l l') m' ∧ m'.r a0 = m.r a0 + m.r a4 ∧ m'.r a3 = m.r a3 + m.r a4 ∧ Same keepD m m'
  pro : ∀ base (m : Regs) (mem : Mem) (md : Mode) (S np kp : Nat) (K N : List Byte), m.stk = [] → m.r sp = BitVec.ofNat 32 (S + 80) → S % 4 = 0 →
    S + 80 < 2 ^ 32 → mem.Writable S 80 → m.r a5 = BitVec.ofNat 32 np → np % 4 = 0 → np + 16 ≤ 2 ^ 32 →
    mem.Holds np N → N.length = 16 → Disjoint S 80 np 16 → m.r a6 = BitVec.ofNat 32 kp → kp % 4 = 0 →
    kp + 16 ≤ 2 ^ 32 → mem.Holds kp K → K.length = 16 → Disjoint S 80 kp 16 → mem.Holds I.rc I.rom →
    Disjoint S 80 I.rc I.rom.length → (m.r a7).setWidth 8 = (md.val.setWidth 8 : Byte) →
    Goes I.code base I.Lcore m mem fun t pc' m' mem' => t = I.proT S np kp ∧ pc' = I.Lad ∧
      I.St (I.V.init (I.V.ld (K.take 8)) (I.V.ld (K.drop 8)) (I.V.ld (N.take 8)) (I.V.ld (N.drop 8))) m' ∧
      I.KeyIn (I.V.ld (K.take 8)) (I.V.ld (K.drop 8)) m' ∧ m'.r sp = BitVec.ofNat 32 S ∧ m'.r a7 = md.val ∧
      Same [a0, a1, a2, a3, a4] m m' ∧ (∀ a, a < S ∨ S + 80 ≤ a → mem' a = mem a) ∧
      (∀ p ∈ saved, mem'.Holds (S + p.2) (repr32 .little (m.r p.1))) ∧ mem'.Writable S 80
  ad0 : ∀ base (m : Regs) (mem : Mem), m.r a4 = 0 →
    Goes I.code base I.Lad m mem fun t pc' m' mem' => t = [.branch true] ∧ pc' = I.Lskip ∧ m' = m ∧ mem' = mem
  ad1 : ∀ base (m : Regs) (mem : Mem) (S : Nat), m.r a4 ≠ 0 → m.r sp = BitVec.ofNat 32 S → S % 4 = 0 → S + 80 < 2 ^ 32 →
    mem.Writable S 80 →
    Goes I.code base I.Lad m mem fun t pc' m' mem' => t = I.ad1T S ∧ pc' = I.Ldup ∧
      m' = (m.set a7 0).set ra (at_ base I.Lad2) ∧
      mem' = (mem.writes (S + 20) (repr32 .little (m.r a0))).writes (S + 24) (repr32 .little (m.r a7))
  ad2 : ∀ base (m : Regs) (mem : Mem) (s : State) (S : Nat) (v0 v7 : U32), I.St s m → m.r sp = BitVec.ofNat 32 S → S % 4 = 0 → S + 80 < 2 ^ 32 →
    mem.Holds (S + 20) (repr32 .little v0) → mem.Holds (S + 24) (repr32 .little v7) → mem.Holds I.rc I.rom →
    Goes I.code base I.Lad2 m mem fun t pc' m' mem' => t = I.ad2T S ∧ pc' = I.Lskip ∧ I.St (perm 8 s) m' ∧
      m'.r a0 = v0 ∧ m'.r a7 = v7 ∧ Same [s10, s11, a1, a2, a5, a6, sp] m m' ∧ mem' = mem
  skip : ∀ base (m : Regs) (mem : Mem) (s : State), I.St s m →
    Goes I.code base I.Lskip m mem fun t pc' m' mem' => t = [] ∧ pc' = I.Ldup ∧
      I.St { s with x4 := s.x4 ^^^ I.V.sep } m' ∧ m'.r a3 = m.r a1 ∧ m'.r a4 = m.r a2 ∧ m'.r ra = at_ base I.Lfin ∧
      Same [s10, s11, a0, a1, a2, a5, a6, a7, sp] m m' ∧ mem' = mem
  final : ∀ base (m : Regs) (mem : Mem) (md : Mode) (s : State) (K0 K1 : Word), I.St s m → I.KeyIn K0 K1 m → mem.Holds I.rc I.rom → m.r a7 = md.val →
    md ≠ .ad →
    Goes I.code base I.Lfin m mem fun t pc' m' mem' => t = I.finalT ++ [.branch (decide (md = .enc))] ∧
      pc' = (if md = .enc then I.Lenc else I.Ldec) ∧ I.St (Variant.final K0 K1 s) m' ∧ Same [a0, a3, sp] m m' ∧ mem' = mem
  tagEnc : ∀ base (m : Regs) (mem : Mem) (s : State) (op : Nat), I.St s m → m.r a0 = BitVec.ofNat 32 op → op + 16 ≤ 2 ^ 32 → mem.Writable op 16 →
    Goes I.code base I.Lenc m mem fun t pc' m' mem' => t = I.tagT op ∧ pc' = I.Lret ∧ m'.r a0 = 0 ∧ m'.r sp = m.r sp ∧
      mem' = mem.writes op (I.V.st s.x3 ++ I.V.st s.x4)
  tagDec : ∀ base (m : Regs) (mem : Mem) (s : State) (ip : Nat) (T : List Byte), I.St s m → m.r a3 = BitVec.ofNat 32 ip → ip + 20 ≤ 2 ^ 32 → mem.Holds ip T →
    T.length = 16 → (ip % 4 ≠ 0 → ∀ a, ip / 4 * 4 ≤ a → a < ip / 4 * 4 + 20 → ∃ b, (mem a).byte = some b) →
    Goes I.code base I.Ldec m mem fun t pc' m' mem' =>
      t = readTagT ip ++ [.branch (decide (I.diff (s.x3 ^^^ I.V.ld (T.take 8)) (s.x4 ^^^ I.V.ld (T.drop 8)) = 0))] ∧
      pc' = I.Lret ∧
      m'.r a0 = (if I.diff (s.x3 ^^^ I.V.ld (T.take 8)) (s.x4 ^^^ I.V.ld (T.drop 8)) = 0 then 0 else -1) ∧
      m'.r sp = m.r sp ∧ mem' = mem
  epi : ∀ base (m : Regs) (mem : Mem) (S : Nat) (v : Nat → U32), m.r sp = BitVec.ofNat 32 S → S % 4 = 0 → S + 80 < 2 ^ 32 →
    (∀ p ∈ saved, mem.Holds (S + p.2) (repr32 .little (v p.1))) →
    Goes I.code base I.Lret m mem fun t pc' m' mem' => t = I.epiT S ∧ pc' = I.Lexit ∧ m'.r a0 = m.r a0 ∧
      m'.r sp = BitVec.ofNat 32 (S + 80) ∧ (∀ p ∈ saved, m'.r p.1 = v p.1) ∧ mem' = mem

variable {I : Impl} {base : U32}

theorem St.setT0 {s : State} {m : Regs} {v : U32} (h : I.St s m) : I.St s (m.set t0 v) := by
  refine ⟨fun k j hk hj => ?_, h.2⟩
  have hne : 2 * k + j ≠ t0 := by show 2 * k + j ≠ 11; omega
  show (if 2 * k + j = t0 then v else m.r (2 * k + j)) = _
  rw [if_neg hne]; exact h.1 k j hk hj

theorem set_ne {m : Regs} {d r : Nat} {v : U32} (h : r ≠ d) : (m.set d v).r r = m.r r := by
  show (if r = d then v else m.r r) = _; rw [if_neg h]

theorem set_eq {m : Regs} {d : Nat} {v : U32} : (m.set d v).r d = v := by
  show (if d = d then v else m.r d) = _; rw [if_pos rfl]

/-- Events of `ascon_duplex`. -/
def duplexT (I : Impl) (md : Mode) (ip op S n : Nat) : List Event :=
  if h : 16 ≤ n then .branch true :: (I.stepT md ip op ++ duplexT I md (ip + 16) (op + 16) S (n - 16))
  else .branch false :: I.finT md ip op S n
termination_by n
decreasing_by omega

theorem ofNat_add (a b : Nat) : BitVec.ofNat 32 a + BitVec.ofNat 32 b = BitVec.ofNat 32 (a + b) := by
  rw [BitVec.ofNat_add]

theorem ofNat_sub16 (n : Nat) (h : 16 ≤ n) : BitVec.ofNat 32 n - 16 = BitVec.ofNat 32 (n - 16) := by
  have : BitVec.ofNat 32 n = BitVec.ofNat 32 (n - 16) + BitVec.ofNat 32 16 := by
    rw [ofNat_add]; congr 1; omega
  rw [this]; exact BitVec.add_sub_cancel _ _

/-- `ascon_duplex` from `.LDcond` on. -/
theorem duplex_goes (ok : I.Ok) (md : Mode) (M : List Byte) : ∀ (m : Regs) (mem : Mem) (s : State) (l' : List Byte)
    (ip op S r : Nat), I.St s m → m.r a7 = md.val → m.r a3 = BitVec.ofNat 32 ip → (16 ≤ M.length → ip % 4 = 0) → ip + M.length ≤ 2 ^ 32 →
    m.r a4 = BitVec.ofNat 32 M.length → M.length < 2 ^ 31 → mem.Holds ip M → mem.Holds I.rc I.rom →
    m.r sp = BitVec.ofNat 32 S → S % 4 = 0 → S + 16 ≤ 2 ^ 32 → mem.Writable S 16 → Disjoint S 16 ip M.length →
    (md ≠ .ad → m.r a0 = BitVec.ofNat 32 op ∧ (16 ≤ M.length → op % 4 = 0) ∧ op + M.length ≤ 2 ^ 32 ∧ mem.Writable op M.length ∧
      Disjoint S 16 op M.length ∧ Disjoint op M.length I.rc I.rom.length ∧ (op ≤ ip ∨ ip + M.length ≤ op)) →
    (md = .dec → (mem.writes op (I.V.duplex md s M l').2).Holds (ip + M.length / 16 * 16) l' ∧
      l'.length = M.length % 16) →
    m.r ra = at_ base r → r < I.code.length →
    Goes I.code base I.Lcond m mem fun t pc' m' mem' => t = duplexT I md ip op S M.length ∧ pc' = r ∧
      (∃ tmp : List Byte, tmp.length = 16 ∧
        mem' = (if md = .ad then mem else mem.writes op (I.V.duplex md s M l').2).writes S tmp) ∧
      I.St (I.V.duplex md s M l').1 m' ∧ m'.r a0 = m.r a0 + BitVec.ofNat 32 M.length ∧
      m'.r a3 = BitVec.ofNat 32 (ip + M.length) ∧ Same keepD m m' := by
  induction hn : M.length using Nat.strongRecOn generalizing M with
  | ind n ih =>
    subst hn
    intro m mem s l' ip op S r hst hmd ha3 hal hip ha4 hlen hM hrom hsp hS hS16 hSw hSip hout hdec hra hr
    refine (ok.cond base m mem M.length ha4 hlen).cut ?_
    rintro t pc' m1 mem1 ⟨rfl, rfl, rfl, rfl⟩
    by_cases h16 : 16 ≤ M.length
    · rw [if_pos h16, decide_eq_true h16]
      have hl16 : (M.take 16).length = 16 := by simp; omega
      refine (ok.step base (m.set t0 16) mem1 md s (M.take 16) ip op hst.setT0 (by rw [set_ne (by decide)]; exact hmd)
        (by rw [set_ne (by decide)]; exact ha3) (hal h16) (by omega) (hM.take 16) hl16 hrom ?_).cut ?_
      · intro hne
        obtain ⟨h1, h2, h3, h4, h5, h6, h7⟩ := hout hne
        refine ⟨by rw [set_ne (by decide)]; exact h1, h2 h16, by omega, h4.mono (by omega) (by omega), ?_⟩
        unfold Disjoint at h6 ⊢; omega
      · rintro t pc' m2 mem2 ⟨rfl, rfl, rfl, hst2, ha0', ha3', ha4', hsame⟩
        rw [set_ne (by decide)] at ha0' ha3' ha4'
        have hsame' : Same keepD m m2 := (Same.trans (fun r hr => by
          rw [set_ne]; rintro rfl; revert hr; decide) hsame)
        have hrl : (I.V.rate (I.V.xorIn s (M.take 16))).length = 16 := Variant.length_rate ok.vok _
        have hdl : (M.drop 16).length = M.length - 16 := List.length_drop
        have hmem2 : ∀ p bs, mem1.Holds p bs → (md ≠ .ad → Disjoint op 16 p bs.length) →
            (if md = .ad then mem1 else mem1.writes op (I.V.rate (I.V.xorIn s (M.take 16)))).Holds p bs := by
          intro p bs hb hd
          split
          · exact hb
          · rename_i h; exact hb.writes_disjoint (by rw [hrl]; exact hd h)
        have hwr2 : ∀ p k, mem1.Writable p k →
            (if md = .ad then mem1 else mem1.writes op (I.V.rate (I.V.xorIn s (M.take 16)))).Writable p k := by
          intro p k hb
          split
          · exact hb
          · exact hb.writes
        refine (ih (M.drop 16).length (by omega) (M.drop 16) rfl m2 _ (perm 8 (I.V.stepS md s (M.take 16))) l' (ip + 16)
          (op + 16) S r hst2 ((hsame' a7 (by decide)).trans hmd) (by rw [ha3', ha3]; exact ofNat_add ip 16)
          (fun _ => by have := hal h16; omega) (by omega) (by rw [ha4', ha4, ofNat_sub16 _ h16, hdl]) (by omega)
          (hmem2 _ _ (hM.drop 16 h16) ?_) (hmem2 _ _ hrom ?_) ((hsame' sp (by decide)).trans hsp) hS hS16
          (hwr2 _ _ hSw) (by unfold Disjoint at *; omega) ?_ ?_
          ((hsame' ra (by decide)).trans hra) hr).mono ?_
        · intro hne
          obtain ⟨h1, h2, h3, h4, h5, h6, h7⟩ := hout hne
          unfold Disjoint; omega
        · intro hne
          obtain ⟨h1, h2, h3, h4, h5, h6, h7⟩ := hout hne
          unfold Disjoint at *; omega
        · intro hne
          obtain ⟨h1, h2, h3, h4, h5, h6, h7⟩ := hout hne
          refine ⟨by rw [ha0', h1]; exact ofNat_add op 16, fun _ => by have := h2 h16; omega, by omega,
            hwr2 _ _ (h4.mono (by omega) (by omega)), ?_, ?_, by omega⟩
          · unfold Disjoint at *; omega
          · unfold Disjoint at *; omega
        · intro hd
          obtain ⟨h1, h2⟩ := hdec hd
          rw [Variant.duplex_of_ge md s M l' h16] at h1
          simp only at h1
          rw [writes_append, hrl] at h1
          rw [if_neg (by rw [hd]; decide), hdl, h2]
          refine ⟨?_, by omega⟩
          rw [show ip + 16 + (M.length - 16) / 16 * 16 = ip + M.length / 16 * 16 by omega]
          exact h1
        · rintro t pc' m3 mem3 ⟨rfl, rfl, ⟨tmp, htl, rfl⟩, hst3, ha0'', ha3'', hsame3⟩
          rw [Variant.duplex_of_ge md s M l' h16]
          refine ⟨?_, rfl, ⟨tmp, htl, ?_⟩, hst3, ?_, ?_, hsame'.trans hsame3⟩
          · rw [hdl]
            conv => rhs; rw [duplexT]
            rw [dif_pos h16]; simp
          · by_cases hmd' : md = .ad
            · simp only [if_pos hmd']
            · simp only [if_neg hmd']
              rw [writes_append, hrl]
          · rw [ha0'', ha0', BitVec.add_assoc, hdl]
            congr 1
            show BitVec.ofNat 32 16 + _ = _
            rw [ofNat_add]; congr 1; omega
          · rw [ha3'', hdl]; congr 1; omega
    · rw [if_neg h16, decide_eq_false h16]
      have hlt : M.length < 16 := by omega
      refine (ok.fin base (m.set t0 16) mem1 md s M l' ip op S r hst.setT0 (by rw [set_ne (by decide)]; exact hmd)
        (by rw [set_ne (by decide)]; exact ha3) hip (by rw [set_ne (by decide)]; exact ha4) hlt hM
        (by rw [set_ne (by decide)]; exact hsp) hS hS16 hSw hSip ?_ ?_ (by rw [set_ne (by decide)]; exact hra) hr).mono ?_
      · intro hne
        obtain ⟨h1, h2, h3, h4, h5, h6, h7⟩ := hout hne
        exact ⟨by rw [set_ne (by decide)]; exact h1, h3, h4, h5⟩
      · intro hd
        obtain ⟨h1, h2⟩ := hdec hd
        rw [Variant.duplex_of_lt md s M l' hlt, Nat.div_eq_of_lt hlt] at h1
        rw [Nat.mod_eq_of_lt hlt] at h2
        exact ⟨h1, h2⟩
      · rintro t pc' m3 mem3 ⟨rfl, rfl, hm, hst3, ha0'', ha3'', hsame3⟩
        rw [set_ne (by decide), set_ne (by decide)] at ha0'' ha3''
        rw [Variant.duplex_of_lt md s M l' hlt]
        refine ⟨?_, rfl, hm, hst3, ?_, ?_, (Same.trans (fun r hr => by
          rw [set_ne]; rintro rfl; revert hr; decide) hsame3)⟩
        · rw [duplexT, dif_neg h16]; rfl
        · rw [ha0'', ha4]
        · rw [ha3'', ha3, ha4, ofNat_add]

end Impl
end Ascon.Rv
