#!/usr/bin/env python3
"""Generates Proof/Rv32b.lean, Proof/RvFsr.lean, Proof/RvBi32.lean from rvold.lean.in (positions are those of asm_rv32b)."""
import re,os
T=open(os.path.join(os.path.dirname(__file__),'rvold.lean.in')).read()
OUT='/verif/lean/Verif/Proof/'
CALLPERM='''/-- Call of `ascon_permute`. -/
theorem call_perm (n : Nat) (h0n : 0 < n) (hn : n ≤ 12) {pc : Nat} {rel : Int} (hf : @CODE@[pc]? = some (.jal (some t0) rel))
    (hd : dest pc rel = 0) (hpc : pc + 1 < @LEN@) (s : State) (m : Regs) (mem : Mem) (hl : @I@.St s m)
    (h1 : m.r t1 = BitVec.ofNat 32 (60 + 15 * n)) (_ : mem.Holds @I@.rc @I@.rom) :
    Goes @CODE@ base pc m mem fun t pc' m' mem' => t = roundsT n ∧ pc' = pc + 1 ∧ @I@.St (perm n s) m' ∧
      (∀ r, 17 ≤ r → m'.r r = m.r r) ∧ mem' = mem := by
  refine .jal hf hd ?_
  refine (perm_goes permAt permTame permCheck n h0n hn s _ mem (pc + 1) ?_ (by exact hl.2) (by rw [set_ne (by decide)]; exact h1)
    set_eq (by rw [len]; exact hpc)).mono ?_
  · intro a b ha hb
    rw [set_ne (by show 2 * a + b ≠ 11; omega)]
    exact hl.1 a b ha hb
  · rintro t pc' m' mem' ⟨rfl, rfl, h3, h4, h5, rfl⟩
    exact ⟨rfl, rfl, ⟨h3, h4⟩, fun r hr => by rw [h5 r hr, set_ne (by show r ≠ 11; omega)], rfl⟩

theorem cnt8 : (0xb4 : U32) = BitVec.ofNat 32 (60 + 15 * 8) := rfl
theorem cnt12 : (0xf0 : U32) = BitVec.ofNat 32 (60 + 15 * 12) := rfl
theorem enc_xor (a b : Word) : @I@.enc (a ^^^ b) = @I@.enc a ^^^ @I@.enc b := rfl
theorem iv_chunks : chunk 32 0 (@I@.enc Variant.v12.iv) = 0 ∧ chunk 32 1 (@I@.enc Variant.v12.iv) = 0x80800c08 := by decide
theorem sep_chunks : chunk 32 0 (@I@.enc Variant.v12.sep) = 1 ∧ chunk 32 1 (@I@.enc Variant.v12.sep) = 0 := by decide

/-- The subroutine `ascon_rev8`. -/
theorem rev8_goes (w0 w1 : Word) {pc : Nat} {rel : Int} (hf : @CODE@[pc]? = some (.jal (some t0) rel))
    (hd : dest pc rel = @TO@) (hpc : pc + 1 < @LEN@) (m : Regs) (mem : Mem) (x0 x1 x2 x3 : U32)
    (h : m.r t3 = x0 ∧ m.r t4 = x1 ∧ m.r t5 = x2 ∧ m.r t6 = x3) :
    Goes @CODE@ base pc m mem fun t pc' m' mem' => t = [] ∧ pc' = pc + 1 ∧
      (m'.r t3 = rev8 x0 ∧ m'.r t4 = rev8 x1 ∧ m'.r t5 = rev8 x2 ∧ m'.r t6 = rev8 x3) ∧
      (∀ r, (r < 10 ∨ 17 ≤ r) → m'.r r = m.r r) ∧ m'.stk = m.stk ∧ mem' = mem := by
  obtain ⟨h0, h1, h2, h3⟩ := h
  refine .jal hf hd (.op1 rfl (.op1 rfl (.op1 rfl (.op1 rfl (.jalr rfl (r := pc + 1) ?_ (by rw [len]; exact hpc) permAt.size (.done ⟨rfl, rfl, ?_, ?_, rfl, rfl⟩))))))
  · simp (disch := decide) only [set_eq, set_ne]
  · simp (disch := decide) only [Op1.fn, set_eq, set_ne, h0, h1, h2, h3, and_self]
  · intro r hr
    rw [set_ne (by show r ≠ 16; omega), set_ne (by show r ≠ 15; omega), set_ne (by show r ≠ 14; omega), set_ne (by show r ≠ 13; omega),
      set_ne (by show r ≠ 11; omega)]

theorem call_to (w0 w1 : Word) {pc : Nat} {rel : Int} (hf : @CODE@[pc]? = some (.jal (some t0) rel))
    (hd : dest pc rel = @TO@) (hpc : pc + 1 < @LEN@) (m : Regs) (mem : Mem) (h : Raw w0 w1 m) :
    Goes @CODE@ base pc m mem fun t pc' m' mem' => t = [] ∧ pc' = pc + 1 ∧ InT @I@.enc (rv w0) (rv w1) m' ∧
      (∀ r, (r < 10 ∨ 17 ≤ r) → m'.r r = m.r r) ∧ m'.stk = m.stk ∧ mem' = mem := by
  refine (rev8_goes w0 w1 hf hd hpc m mem _ _ _ _ h).mono ?_
  rintro t pc' m' mem' ⟨rfl, rfl, h1, h2, h3, rfl⟩
  rw [rev8_0, rev8_1, rev8_0, rev8_1] at h1
  exact ⟨rfl, rfl, h1, h2, h3, rfl⟩

theorem call_from (x y : Word) {pc : Nat} {rel : Int} (hf : @CODE@[pc]? = some (.jal (some t0) rel))
    (hd : dest pc rel = @FROM@) (hpc : pc + 1 < @LEN@) (m : Regs) (mem : Mem) (h : InT @I@.enc x y m) :
    Goes @CODE@ base pc m mem fun t pc' m' mem' => t = [] ∧ pc' = pc + 1 ∧ Raw (rv x) (rv y) m' ∧
      (∀ r, (r < 10 ∨ 17 ≤ r) → m'.r r = m.r r) ∧ m'.stk = m.stk ∧ mem' = mem := by
  refine (rev8_goes x y hf hd hpc m mem _ _ _ _ h).mono ?_
  rintro t pc' m' mem' ⟨rfl, rfl, h1, h2, h3, rfl⟩
  rw [rev8_0, rev8_1, rev8_0, rev8_1] at h1
  exact ⟨rfl, rfl, h1, h2, h3, rfl⟩
'''
PERM='''theorem len : @CODE@.length = @LEN@ := by decide +kernel

theorem permAt : PermAt @CODE@ 0 @PRE@_ascon_permuteBody where
  init := rfl
  blk := by
    intro i hi
    have : @CODE@ = [.alu (.mov t6 (.imm 0x4b))] ++ (@PRE@_ascon_permuteBody.map .alu ++ (@PRE@_ascon_permuteEnd ++
        @PRE@_ascon_rev8 ++ @PRE@_ascon_memcpy ++ @PRE@_ascon_duplex ++ @PRE@_ascon_core)) := by
      simp only [@CODE@, List.append_assoc, @PRE@_ascon_permute]
    rw [this, List.getElem?_append_right (by simp), List.getElem?_append_left (by simp; omega)]
    simp [hi]
  next := rfl
  back := rfl
  ret := rfl
  size := by rw [len]; decide

theorem permTame : tame @PRE@_ascon_permuteBody = true := by decide +kernel

theorem permCheck : checkBlock 2 (fun i => i) csOpt [cReg] (fun _ => none) @PRE@_ascon_permuteBody idσ (fun _ => true) = true := by
  decide +kernel

'''
SQ='''/-- The output of a complete block. -/
theorem squeeze (m : Regs) (mem : Mem) (s : State) (op : Nat) (hst : @I@.St s m) (h0 : m.r a0 = BitVec.ofNat 32 op)
    (hal : op % 4 = 0) (hop : op + 16 ≤ 2 ^ 32) (hw : mem.Writable op 16) :
    Goes @CODE@ base @[140]@ m mem fun t pc' m' mem' =>
      t = writesE op 4 ++ writesE (op + 4) 4 ++ writesE (op + 8) 4 ++ writesE (op + 12) 4 ∧ pc' = @[148]@ ∧
      (∀ r, (r < 10 ∨ 13 ≤ r) → m'.r r = m.r r) ∧ m'.stk = m.stk ∧ mem' = mem.writes op (Variant.v12.rate s) := by
  obtain ⟨f0, f1, f2, f3, -⟩ := loaded_iff.mp hst.1
'''
SQB=SQ+'''  refine .op1 rfl (.swAt (p := op) (rev8 (m.r s0)) rfl (by rw [set_ne (by decide)]; exact h0) set_eq (by omega) (by omega) (hw.mono (by omega) (by omega)) ?_)
  refine .op1 rfl (.swAt (p := op) (rev8 (m.r s1)) rfl (by rw [set_ne (by decide), set_ne (by decide)]; exact h0) (by rw [Opnd.get, set_eq, set_ne (by decide)]; rfl) (by omega) (by omega) (hw.writes.mono (by omega) (by omega)) ?_)
  refine .op1 rfl (.swAt (p := op) (rev8 (m.r s2)) rfl (by rw [set_ne (by decide), set_ne (by decide), set_ne (by decide)]; exact h0) (by rw [Opnd.get, set_eq, set_ne (by decide), set_ne (by decide)]; rfl) (by omega) (by omega) (hw.writes.writes.mono (by omega) (by omega)) ?_)
  refine .op1 rfl (.swAt (p := op) (rev8 (m.r s3)) rfl (by rw [set_ne (by decide), set_ne (by decide), set_ne (by decide), set_ne (by decide)]; exact h0) (by rw [Opnd.get, set_eq, set_ne (by decide), set_ne (by decide), set_ne (by decide)]; rfl) (by omega) (by omega) (hw.writes.writes.writes.mono (by omega) (by omega)) ?_)
  refine .done ⟨?_, rfl, ?_, rfl, ?_⟩
  · simp only [List.append_assoc, Nat.add_zero, List.append_nil]
  · intro r hr
    rw [set_ne (by show r ≠ 11; omega), set_ne (by show r ≠ 11; omega), set_ne (by show r ≠ 11; omega), set_ne (by show r ≠ 11; omega)]
  · rw [v12_rate, writes_block, f0, f1, f2, f3, ← rev8_0, ← rev8_0, ← rev8_1, ← rev8_1]; rfl
'''
SHIFT='''    ri; ri; ri
    simp only [h3]
    have ro : ∀ (w v : U32), Op2.srl.fn w ((BitVec.ofNat 32 ip &&& (3 : U32)) <<< 3) ||| Op2.sll.fn v ((0 : U32) - (BitVec.ofNat 32 ip &&& (3 : U32)) <<< 3) =
        w >>> (8 * (ip % 4)) ||| v <<< (32 - 8 * (ip % 4)) := fun w v => by simp only [Op2.fn, sh1, sh2]
    refine .op2 rfl (.op2 rfl ?_)
    ri
    refine .op2 rfl (.op2 rfl ?_)
    ri
    refine .op2 rfl (.op2 rfl ?_)
    ri
    refine .op2 rfl (.op2 rfl ?_)
    ri
    simp only [ro]'''
SHIFTF='''    ri; ri
    simp only [h3]
    have ro : ∀ (w v : U32), funnel w v ((BitVec.ofNat 32 ip &&& (3 : U32)) <<< 3) =
        w >>> (8 * (ip % 4)) ||| v <<< (32 - 8 * (ip % 4)) := fun w v => funnel_shift w v ip
    refine .fsr rfl (.fsr rfl (.fsr rfl (.fsr rfl ?_)))
    simp (disch := decide) only [Opnd.get, set_eq, set_ne, ro]'''
BI=open(os.path.join(os.path.dirname(__file__),'rvbi32.in')).read() if os.path.exists(os.path.join(os.path.dirname(__file__),'rvbi32.in')) else ''
BISP,BISQ=(BI.split('@@@@') if BI else ('',''))
V={
 'Rv32b':dict(FILE='asm_rv32b/ascon.S',DEF='rv32b',I='rv32b',CODE='rv32b_code',PRE='rv32b',LEN='361',pos=lambda n:n,
   SPECIAL=PERM+'variable {base : U32}\n\n'+CALLPERM,SQUEEZE=SQB,SHIFT=SHIFT),
 'RvFsr':dict(FILE='asm_fsr_rv32b/ascon.S',DEF='rvFsr',I='rvFsr',CODE='fsr_code',PRE='fsr',LEN='312',pos=lambda n:n-40 if n<=284 else n-49,
   SPECIAL=PERM+'variable {base : U32}\n\n'+CALLPERM,SQUEEZE=SQB,SHIFT=SHIFTF,IMPORT=''),
 'RvBi32':dict(FILE='asm_bi32_rv32b/ascon.S',DEF='rvBi32',I='(rvBi32 rc)',CODE='(bi32_code (BitVec.ofNat 32 rc))',PRE='bi32',LEN='352',
   pos=lambda n:n-17 if n<148 else n-9,SPECIAL=BISP,SQUEEZE=SQ+BISQ,SHIFT=SHIFT,ENC='deinterleave32 .little',RC='rc',ROM='bi32_rom',
   BT='(rc : Nat) ',B='(hrc : rc + 25 ≤ 2 ^ 32) ',H='hrc',RCA='rc',PT=lambda n:f'(permT rc {n})',CNT=lambda n:f'BitVec.ofNat 32 (rc + (24 - 2 * {n}))',
   TO=77,FROM=90,BVAR='',IMPORT='\nimport Verif.Proof.RvBiPerm'),
}
for ns,d in V.items():
    s=T
    if ns=='RvBi32':
        if not BI: continue
        s=s.replace('@PT 8@','(permT rc 8)').replace('@PT 12@','(permT rc 12)')
    for k in ('SPECIAL','SQUEEZE','SHIFT'): s=s.replace(f'@{k}@',d[k])
    def rep(k,dflt): 
        global s
        s=s.replace(f'@{k}@',str(d.get(k,dflt)))
    rep('NS',ns);rep('IMPORT','');rep('ENC','fun w => w');rep('RC','0');rep('ROM','[]');rep('BT','');rep('B','');rep('H','');rep('RCA','');rep('BVAR','')
    rep('FILE','');rep('DEF','');rep('LEN','');rep('PRE','')
    pos=d['pos']
    rep('TO',pos(115));rep('FROM',pos(115))
    PT=d.get('PT',lambda n:f'roundsT {n}');CNT=d.get('CNT',lambda n:f'BitVec.ofNat 32 (60 + 15 * {n})')
    s=re.sub(r'@PT (\w+)@',lambda m:PT(m.group(1)),s)
    s=re.sub(r'@CNT (\w+)@',lambda m:CNT(m.group(1)),s)
    def P(m):
        n=int(m.group(1)); return str(pos(n))
    s=re.sub(r'@\[(\d+)\]@',P,s)
    rep('CODE','');rep('I','')
    if ns=='RvBi32':
        s=s.replace('namespace RvBi32\n\n'+'/-- Events of one','namespace RvBi32\n\n/-- Events of one')
    assert '@' not in s.replace('@[','').replace('@DEF',''), re.findall('.*@.*',s)[:5]
    open(OUT+ns+'.lean','w').write(s)
