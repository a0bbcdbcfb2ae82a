import os,hashlib,collections
def h(p): return hashlib.md5(open(p,'rb').read()).hexdigest()
src=collections.defaultdict(list)
for r,d,f in os.walk('src'):
    for x in f: src[(x,h(os.path.join(r,x)))].append(r)
for top in ['crypto_aead','crypto_aead_hash','crypto_hash','crypto_auth','crypto_cxof']:
    if not os.path.isdir(top): continue
    for alg in sorted(os.listdir(top)):
        if not os.path.isdir(os.path.join(top,alg)): continue
        for impl in sorted(os.listdir(os.path.join(top,alg))):
            d=os.path.join(top,alg,impl)
            if not os.path.isdir(d): continue
            out=[]
            for x in sorted(os.listdir(d)):
                p=os.path.join(d,x)
                if os.path.isfile(p) and x not in('api.h','implementors','goal-constbranch','goal-constindex','forceinline.h','printstate.c','printstate.h'):
                    s=src.get((x,h(p)))
                    out.append(x+'<-'+(','.join(q.replace('src','') or '/' for q in s) if s else 'OWN'))
            print(d,':',' '.join(out))
