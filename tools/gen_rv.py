#!/usr/bin/env python3
"""Translate the RISC-V assembly files into lean/Verif/Model/RvCode.lean, instruction by instruction."""
import re
SRC='/repo/crypto_aead/asconaead128/%s/ascon.S'
DIRS=[('asm_rv32i','rv32i'),('asm_rv32b','rv32b'),('asm_fsr_rv32b','fsr'),('asm_bi32_rv32b','bi32')]
CRYPTO={'CRYPTO_ABYTES':16,'CRYPTO_KEYBYTES':16}
REGS={'s%d'%i for i in range(12)}|{'t%d'%i for i in range(7)}|{'a%d'%i for i in range(8)}|{'sp','ra','zero'}
def read(d):
    defs=dict(CRYPTO); macros={}; items=[]; data=None; syms={}; rom=[]
    cur=None
    for n,l in enumerate(open(SRC%d).read().split('\n'),1):
        s=l.strip()
        if s.startswith('##') or s.startswith('# ') or s=='#' or not s: continue
        if s.startswith('#include'): continue
        m=re.match(r'#define (\w+) (.*)',s)
        if m: defs[m.group(1)]=m.group(2); continue
        if s.startswith('.macro'):
            p=s.split(None,2); cur=(p[1],[x.strip() for x in p[2].split(',')],[]); continue
        if s=='.endm': macros[cur[0]]=cur; cur=None; continue
        if cur: cur[2].append(s); continue
        if s.startswith('.section'):
            data = s.split()[1]=='.data'; continue
        if data:
            if s.endswith(':'): syms[s[:-1]]=len(rom)
            elif s.startswith('.byte'): rom+= [int(x,0) for x in s[5:].split(',')]
            continue
        items.append((n,s))
    return defs,macros,items,syms,rom
def subst(s,env):
    return re.sub(r'\\(\w+)',lambda m:env[m.group(1)],s)
def expand(defs,macros,items):
    out=[]; cnt=[0]
    def line(n,s):
        if re.match(r'[.\w]+:$',s): out.append((n,s)); return
        mn=s.split()[0]
        if mn in macros:
            _,ps,body=macros[mn]
            args=[x.strip() for x in s.split(None,1)[1].split(',')]
            assert len(args)==len(ps),(s,ps)
            env=dict(zip(ps,args)); cnt[0]+=1; u='%d_'%cnt[0]
            i=0; stack=[]
            done=[]
            for b in body:
                b=subst(b,env)
                if b.startswith('.if '):
                    v=bool(ev(b[4:])); stack.append([v,v]); continue
                if b.startswith('.elseif '):
                    t=stack[-1]
                    if t[1]: t[0]=False
                    else: t[0]=bool(ev(b[8:])); t[1]=t[0]
                    continue
                if b=='.else':
                    t=stack[-1]; t[0]=not t[1]; t[1]=True; continue
                if b=='.endif': stack.pop(); continue
                if all(x[0] for x in stack):
                    b=re.sub(r'\b1f\b','loc'+u,b)
                    if b=='1:': b='loc'+u+':'
                    line(n,b)
            return
        if s.startswith('.'):
            if s.split()[0] in('.align','.globl','.type','.global'): return
            raise ValueError(s)
        out.append((n,s))
    for n,s in items: line(n,s)
    return out
def ev(x): return int(eval(x.replace('/','//')))
def pre(s,defs):
    for _ in range(6):
        s=re.sub(r'\b[A-Za-z_]\w*\b',lambda m:str(defs.get(m.group(0),m.group(0))),s)
    return s
ALU={'xor':'xor','or':'or','and':'and','orn':'orn','andn':'andn'}
def main():
    out=['''import Verif.Model.Rv
/-!
# The RISC-V assembly code

Generated by tools/gen_rv.py from /repo/crypto_aead/asconaead128/asm_*rv32*/ascon.S: one list entry per instruction after
macro expansion, in order; the comment gives the line of ascon.S (of the macro call for expanded instructions).  Labels are
resolved to relative positions.  The `#define`s (register names, IV, round constants) are substituted.
-/

namespace Ascon.Rv

open Ascon.Asm (Instr Opnd)
''']
    for d,nm in DIRS:
        defs,macros,items,syms,rom=read(d)
        code=expand(defs,macros,items)
        labels={}; ins=[]
        funs=[]
        for n,s in code:
            if s.endswith(':'):
                labels[s[:-1]]=len(ins)
                if not s.startswith('.') and not s.startswith('loc'): funs.append((s[:-1],len(ins)))
            else: ins.append((n,s))
        def num(x):
            x=x.strip()
            return ev(x)
        def isreg(x): return x in REGS
        def r(x):
            assert x in REGS and x!='zero',x
            return x
        def op(x):
            return '(.imm 0)' if x=='zero' else '(.reg %s)'%r(x)
        def imm(x):
            v=num(x)&0xffffffff
            return '(.imm 0x%x)'%v
        def memop(x):
            m=re.fullmatch(r'(.*)\((\w+)\)',x)
            return r(m.group(2)),num(m.group(1))
        def tr(pos,s):
            s=pre(s,defs)
            mn,_,rest=s.partition(' ')
            A=[a.strip() for a in rest.split(',')] if rest else []
            rel=lambda l: '(%d)'%(labels[l]-pos)
            if mn in ALU: return '.alu (.bit .%s %s %s %s)'%(ALU[mn],r(A[0]),op(A[1]),op(A[2]))
            if mn in('xori','andi'): return '.alu (.bit .%s %s %s %s)'%(mn[:-1],r(A[0]),op(A[1]),imm(A[2]))
            if mn=='mv': return '.alu (.mov %s %s)'%(r(A[0]),op(A[1]))
            if mn=='li': return '.alu (.mov %s %s)'%(r(A[0]),imm(A[1]))
            if mn=='la': return '.alu (.mov %s (.imm (rc + %d)))'%(r(A[0]),syms[A[1]])
            if mn=='add': return '.alu (.add %s %s %s)'%(r(A[0]),op(A[1]),op(A[2]))
            if mn=='addi': return '.alu (.add %s %s %s)'%(r(A[0]),op(A[1]),imm(A[2]))
            if mn=='sub': return '.alu (.sub %s %s %s)'%(r(A[0]),op(A[1]),op(A[2]))
            if mn=='slli': return '.alu (.mov %s (.lsl %s %d))'%(r(A[0]),r(A[1]),num(A[2]))
            if mn=='srli': return '.alu (.mov %s (.lsr %s %d))'%(r(A[0]),r(A[1]),num(A[2]))
            if mn=='rori': return '.alu (.mov %s (.ror %s %d))'%(r(A[0]),r(A[1]),num(A[2]))
            if mn=='srai': return '.op2 .sra %s %s %s'%(r(A[0]),op(A[1]),imm(A[2]))
            if mn in('sll','srl','pack','packu'): return '.op2 .%s %s %s %s'%(mn,r(A[0]),op(A[1]),op(A[2]))
            if mn in('rev8','zip','unzip'): return '.op1 .%s %s %s'%(mn,r(A[0]),r(A[1]))
            if mn=='fsri': return '.alu (.fsr %s %s %s %d)'%(r(A[0]),r(A[1]),r(A[2]),num(A[3]))
            if mn=='fsr': return '.fsr %s %s %s %s'%(r(A[0]),r(A[1]),r(A[2]),op(A[3]))
            if mn in('lw','lbu'):
                a,o=memop(A[1]); return '.%s %s %s %d'%(mn,r(A[0]),a,o)
            if mn=='sw':
                a,o=memop(A[1]); return '.sw %s %s %d'%(op(A[0]),a,o)
            if mn=='sb':
                a,o=memop(A[1]); return '.sb %s %s %d'%(r(A[0]),a,o)
            if mn in('beq','bne','bge','blt'):
                return '.br .%s %s %s %s'%(mn[1:],op(A[0]),op(A[1]),rel(A[2]))
            if mn=='j': return '.jal none %s'%rel(A[0])
            if mn=='jal': return '.jal (some %s) %s'%(r(A[0]),rel(A[1]))
            if mn=='ret': return '.jalr ra'
            if mn=='jalr':
                assert A[0]=='zero'; a,o=memop(A[1]); assert o==0; return '.jalr %s'%a
            raise ValueError(s)
        L=[tr(i,s) for i,(n,s) in enumerate(ins)]
        funs.append((None,len(ins)))
        arg=' (rc : Masked.U32)' if syms else ''
        call=' rc' if syms else ''
        names=[]
        for (f,st),(_,en) in zip(funs,funs[1:]):
            parts=[('',st,en)]
            if f=='ascon_permute':
                # the straight-line body of the round is a separate list
                runs=[]; i=st
                while i<en:
                    j=i
                    while j<en and L[j].startswith('.alu') and not L[j].startswith('.alu (.add'): j+=1
                    runs.append((j-i,i,j)); i=j+1
                _,lo,k=max(runs)
                lo=max(lo,labels['.LPloop'])
                parts=[('',st,lo),('Body',lo,k),('End',k,en)]
            for suf,a,b in parts:
                name='%s_%s%s'%(nm,f,suf); names.append(name)
                ty='List Ins'
                body=L[a:b]
                if suf=='Body' and all(x.startswith('.alu') for x in body):
                    ty='List (Instr 32)'; body=[x[6:-1] for x in body]; names[-1]='%s.map .alu'%name
                elif syms: names[-1]='%s rc'%name
                out.append('/-- %s/ascon.S:%d-%d %s -/'%(d,ins[a][0],ins[b-1][0],f))
                out.append('def %s%s : %s := ['%(name,arg if ty=='List Ins' else '',ty))
                for i,x in enumerate(body):
                    out.append('  %s%s -- %d'%(x,',' if i+1<len(body) else '',ins[a+i][0]))
                out.append(']\n')
        out.append('/-- %s/ascon.S, the whole file. -/'%d)
        out.append('def %s_code%s : List Ins :=\n  %s\n'%(nm,arg,' ++ '.join(names)))
        for l,p in labels.items():
            if l.startswith('loc'): continue
            out.append('/-- Position of the label `%s` of %s/ascon.S. -/'%(l,d))
            out.append('abbrev %s_%s : Nat := %d'%(nm,'L_'+l.lstrip('.'),p))
        out.append('')
        if rom:
            out.append('/-- %s/ascon.S: the data section. -/'%d)
            out.append('def %s_rom : List Byte := [%s]\n'%(nm,', '.join(map(str,rom))))
    out.append('end Ascon.Rv')
    open('/verif/lean/Verif/Model/RvCode.lean','w').write('\n'.join(out)+'\n')
main()
