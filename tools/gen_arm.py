#!/usr/bin/env python3
"""Translate the inline assembly of the ARM round.h files into lean/Verif/Model/ArmCode.lean, line by line."""
import re, sys
SRC='/repo/crypto_aead/asconaead128/%s/round.h'
DIRS=['armv6','armv6m','armv7m','bi32_armv6','bi32_armv6m','bi32_armv7m']
def reg(x):
    m=re.fullmatch(r'%\[(\w+)\]',x.strip())
    if not m: raise ValueError(x)
    return m.group(1)
def op2(args):
    """second operand: register, register with shift, or immediate"""
    a=args[0].strip()
    if a.startswith('#'):
        return '(.imm %s)'%a[1:]
    r=reg(a)
    if len(args)==1: return '(.reg %s)'%r
    m=re.fullmatch(r'(lsl|lsr|ror) #(.*)',args[1].strip())
    return '(.%s %s %s)'%(m.group(1),r,m.group(2))
def instr(t):
    mn,_,rest=t.strip().partition(' ')
    args=[a for a in re.split(r',(?![^\[]*\])',rest)] if '{' not in rest else [rest]
    A=[a.strip() for a in args]
    if mn in('eor','and','orr','bic','orn'):
        return '%s %s %s %s'%(mn,reg(A[0]),reg(A[1]),op2(A[2:]))
    if mn=='mvn': return 'mvn %s %s'%(reg(A[0]),op2(A[1:]))
    if mn=='movs': return 'movs %s %s'%(reg(A[0]),op2(A[1:]))
    if mn in('lsl','lsr'):
        return '%s %s %s %s'%(mn,reg(A[0]),reg(A[1]),A[2][1:])
    if mn=='ror': return 'ror %s %s %s'%(reg(A[0]),reg(A[1]),reg(A[2]))
    if mn in('sub','add'):
        if len(A)==2: A=[A[0],A[0],A[1]]
        return '%s %s %s %s'%(mn,reg(A[0]),reg(A[1]),op2(A[2:]))
    if mn=='cmp': return 'cmp %s %s'%(reg(A[0]),op2(A[1:]))
    if mn in('push','pop'):
        return '%s %s'%(mn,reg(rest.strip().strip('{}')))
    if mn=='ldrb':
        m=re.fullmatch(r'\[(%\[\w+\])\]',A[1])
        if m: return 'ldrbPost %s %s %s'%(reg(A[0]),reg(m.group(1)),A[2][1:])
        m=re.fullmatch(r'\[(%\[\w+\]), *#(\d+)\]',A[1])
        return 'ldrb %s %s %s'%(reg(A[0]),reg(m.group(1)),m.group(2))
    raise ValueError(t)
out=['''import Verif.Model.Arm
/-!
# The inline assembly of the ARM implementations

Generated by tools/gen_arm.py from /repo/crypto_aead/asconaead128/*/round.h: one list entry per line of
assembly, in order, with the operand names of the source.  Labels and the closing conditional jump of
`ROUND_LOOP` are represented by `Asm.doWhile`.
-/

namespace Ascon.Arm

open Ascon.Asm
''']
for d in DIRS:
    lines=open(SRC%d).read().split('\n')
    i=0
    cur=None
    while i<len(lines):
        l=lines[i]
        m=re.search(r'forceinline void (ROUND\w*)\(|#define (ROUND5)\(',l)
        if m: cur=m.group(1) or m.group(2)
        if '__asm__' in l:
            start=i+1; code=[]; jumps=[]
            i+=1
            while True:
                m=re.match(r'\s*"(.*?)\\n\\t"',lines[i])
                if not m: break
                t=m.group(1).strip().rstrip(';')
                if t.startswith('@') : pass
                elif t.endswith(':'): jumps.append(t)
                elif re.match(r'b(eq|ne)? ',t): jumps.append(t)
                else: code.append((i+1,instr(t)))
                i+=1
            end=i
            js=('; jumps: '+', '.join(x.replace('_%=','') for x in jumps)) if jumps else ''
            out.append('/-- /repo/crypto_aead/asconaead128/%s/round.h:%d-%d, `%s`%s -/'%(d,start+1,end,cur,js))
            out.append('def %s_%s : List (Instr 32) := ['%(d,cur))
            out.append(',\n'.join('  '+c for _,c in code)+']\n')
        i+=1
out.append('end Ascon.Arm\n')
open('/verif/lean/Verif/Model/ArmCode.lean','w').write('\n'.join(out))

# ---- src/armv6m_lowsize/permutations.S: the function P ----
PATH='/repo/crypto_aead/asconaead128/armv6m_lowsize/permutations.S'
lines=open(PATH).read().split('\n')
NUM={'r%d'%i:i for i in range(13)}; NUM.update({'fp':11,'ip':12,'lr':14})
def rg(x):
    x=x.strip(); assert x in NUM,x
    return x
def o2(x):
    x=x.strip()
    return '(.imm %s)'%x[1:] if x.startswith('#') else '(.reg %s)'%rg(x)
def regs(x): return [rg(r) for r in x.strip().strip('{}').split(',')]
sec={'prologue':[], 'body':[], 'epilogue':[]}; cur='prologue'; rng={}
ptr={'r0'}   # registers known to hold the state pointer (checked by this generator)
for n,l in enumerate(lines,1):
    t=l.split('@')[0].strip().rstrip(';')
    if n<=lines.index('P:')+1 or not t or t.startswith('.'): continue
    if t=='rbegin_49:': cur='body'; continue
    if t=='rend_49:': cur='epilogue'; continue
    if t in('beq rend_49','b rbegin_49'): continue
    mn,rest=re.match(r'(\w+)\s+(.*)',t).groups()
    A=[a.strip() for a in re.split(r',(?![^\[{]*[\]}])',rest)]
    out1=[]; dest=None
    if mn in('eor','and','orr','bic'): out1=['%s %s %s %s'%(mn,rg(A[0]),rg(A[1]),o2(A[2]))]; dest=A[0]
    elif mn=='orrs': out1=['orr %s %s %s'%(rg(A[0]),rg(A[0]),o2(A[1]))]; dest=A[0]
    elif mn=='mvn': out1=['mvn %s %s'%(rg(A[0]),o2(A[1]))]; dest=A[0]
    elif mn in('movs','mov'): out1=['movs %s %s'%(rg(A[0]),o2(A[1]))]; dest=A[0]
    elif mn in('lsl','lsr','lsls'): out1=['%s %s %s %s'%(mn[:3],rg(A[0]),rg(A[1]),A[2][1:])]; dest=A[0]
    elif mn in('adds','subs','sub','add'):
        if A[0]=='sp': assert A[1:]==['sp','#12']; continue   # frame allocation
        out1=['%s %s %s %s'%(mn[:3],rg(A[0]),rg(A[1]),o2(A[2]))]; dest=A[0]
    elif mn=='cmp': out1=['cmp %s %s'%(rg(A[0]),o2(A[1]))]
    elif mn=='push': out1=['push '+r for r in reversed(regs(rest))]
    elif mn=='pop': out1=['pop '+('lr' if r=='pc' else r) for r in [q.strip() for q in rest.strip().strip('{}').split(',')]]; dest='r1' if 'r1' in rest else None
    elif mn in('ldr','str'):
        m=re.fullmatch(r'\[(\w+)(?:, *#(\d+))?\]',A[1]); base,off=m.group(1),int(m.group(2) or 0)
        if base=='sp':
            assert off==4
            if mn=='str': assert A[0] in ptr; out1=['movs slot (.reg %s)'%A[0]]
            else: out1=['movs %s (.reg slot)'%A[0]]
        else:
            assert base in ptr and off%4==0,(n,l)
            out1=['movs %s (.reg (cell + %d))'%(rg(A[0]),off//4)] if mn=='ldr' else ['movs (cell + %d) (.reg %s)'%(off//4,rg(A[0]))]
        dest=A[0] if mn=='ldr' else None
    else: raise ValueError(t)
    if dest: ptr.discard(dest)
    if mn=='ldr' and base=='sp': ptr.add(A[0])
    sec[cur]+=out1; rng.setdefault(cur,[n,n])[1]=n
assert True
o=["""import Verif.Model.Arm
/-!
# src/armv6m_lowsize/permutations.S

Generated by tools/gen_arm.py from /repo/crypto_aead/asconaead128/armv6m_lowsize/permutations.S, in order.
The ten words of the state in memory are the cells `cell … cell + 9`, the stack slot `[sp, #4]` is `slot`
(the generator checks that every `ldr`/`str` goes through a register holding the state pointer, or through
`[sp, #4]`); the adjustment of `sp` by 12 and the jumps are not listed.  `push {a, b}` is `push b, push a`; the final
`pop {…, pc}` pops the return address into `lr`.  The registers are numbered so that at the head of the loop the
state words are 0 … 9.
-/

namespace Ascon.Arm.Low6m

open Ascon.Asm Ascon.Arm

abbrev r3 : Nat := 0
abbrev r8 : Nat := 1
abbrev r7 : Nat := 2
abbrev r9 : Nat := 3
abbrev r5 : Nat := 4
abbrev ip : Nat := 5
abbrev r4 : Nat := 6
abbrev fp : Nat := 7
abbrev r2 : Nat := 8
abbrev r10 : Nat := 9
abbrev r0 : Nat := 10
abbrev r6 : Nat := 11
abbrev r1 : Nat := 12
abbrev lr : Nat := 13
abbrev cell : Nat := 20
abbrev slot : Nat := 30
"""]
for k,c in sec.items():
    o.append('/-- /repo/crypto_aead/asconaead128/armv6m_lowsize/permutations.S:%d-%d -/'%tuple(rng[k]))
    o.append('def %s : List (Instr 32) := ['%k); o.append(',\n'.join('  '+x for x in c)+']\n')
o.append('end Ascon.Arm.Low6m\n')
open('/verif/lean/Verif/Model/ArmLowCode.lean','w').write('\n'.join(o))
