#!/usr/bin/env python3
"""Generate lean/Verif/Test/Kat.lean from the KAT files in /repo (a test of the specification, not a proof)."""
import re
def parse(f):
    out=[];cur={}
    for l in open(f):
        l=l.rstrip('\n')
        m=re.match(r'(\w+) = ?(.*)$',l)
        if m: cur[m.group(1)]=m.group(2)
        elif not l.strip() and cur: out.append(cur);cur={}
    if cur: out.append(cur)
    return {int(c['Count']):c for c in out}
def b(h): return '['+', '.join('0x'+h[i:i+2] for i in range(0,len(h),2))+']'
o=["import Verif.Spec.Modes","/-!","# Tests of the specification (tests, not proofs)","",
"A few of the repository's known-answer vectors, evaluated by the kernel: they check that the specification",
"the theorems refer to is the Ascon family that the repository ships vectors for.  Generated by",
"tools/gen_kat.py from the KAT files named below.","-/","","namespace Ascon.Test","","open Ascon.Spec",""]
R='/repo/'
f='crypto_aead/asconaead128/LWC_AEAD_KAT_128_128.txt';k=parse(R+f)
o.append(f'/-! {f} -/')
for c in (1,600):
    v=k[c]
    o.append(f"/-- Test: Count = {c}. -/\nexample : aeadEncrypt {b(v['Key'])} {b(v['Nonce'])}\n    {b(v['AD'])}\n    {b(v['PT'])} =\n    {b(v['CT'])} := by decide +kernel\n")
v=k[600]
o.append(f"/-- Test: decryption of Count = 600. -/\nexample : aeadDecrypt {b(v['Key'])} {b(v['Nonce'])}\n    {b(v['AD'])}\n    {b(v['CT'])} =\n    some {b(v['PT'])} := by decide +kernel\n")
for f,fn,cs in (('crypto_hash/asconhash256/LWC_HASH_KAT_128_256.txt','hash256 %s',(9,)),
             ('crypto_hash/asconxof128/LWC_XOF_KAT_128_512.txt','xof128 %s 64',(2,))):
    k=parse(R+f);o.append(f'/-! {f} -/')
    for c in cs:
        v=k[c]
        o.append(f"/-- Test: Count = {c}. -/\nexample : {fn%b(v['Msg'])} =\n    {b(v['MD'])} := by decide +kernel\n")
f='crypto_cxof/asconcxof128/LWC_CXOF_KAT_128_512.txt';k=parse(R+f);o.append(f'/-! {f} -/')
for c in (300,):
    v=k[c]
    o.append(f"/-- Test: Count = {c}. -/\nexample : cxof128 {b(v['Z'])}\n    {b(v['Msg'])} 64 =\n    {b(v['MD'])} := by decide +kernel\n")
for f,fn,cs in (('crypto_auth/asconmacv13/LWC_MAC_KAT_128_128.txt','mac %s %s',(34,)),
             ('crypto_auth/asconprfv13/LWC_PRF_KAT_128_512.txt','prf %s %s 64',(34,)),
             ('crypto_auth/asconprfsv13/LWC_PRFS_KAT_128_128.txt','prfShort %s %s 16',(9,))):
    k=parse(R+f);o.append(f'/-! {f} -/')
    for c in cs:
        v=k[c]
        o.append(f"/-- Test: Count = {c}. -/\nexample : {fn%(b(v['Key']),b(v['Msg']))} =\n    {b(v['Tag'])} := by decide +kernel\n")
o.append('end Ascon.Test')
import os
os.makedirs('/verif/lean/Verif/Test',exist_ok=True)
open('/verif/lean/Verif/Test/Kat.lean','w').write('\n'.join(o)+'\n')
