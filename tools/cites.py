import re,sys,glob,os
# print every citation with the text of the first and last cited line
idx={}
for root,_,fs in os.walk('/repo'):
    if '.git' in root: continue
    for f in fs: idx.setdefault(f,[]).append(os.path.join(root,f))
cache={}
def lines(p):
    if p not in cache: cache[p]=open(p,errors='replace').read().split('\n')
    return cache[p]
for lf in sys.argv[1:]:
    for n,l in enumerate(open(lf),1):
        for m in re.finditer(r'`?([\w/]*?\w+\.(?:cpp|hpp|py)):(\d+)(?:-(\d+))?((?:,\s*`?\d+(?:-\d+)?)*)',l):
            f=m.group(1); b=os.path.basename(f)
            c=[p for p in idx.get(b,[]) if p.endswith(f)]
            a=int(m.group(2)); e=int(m.group(3) or a)
            if not c: print(lf,n,'NOFILE',f); continue
            for p in c:
                ls=lines(p)
                if e>len(ls): print(lf,n,m.group(0),'OUT OF RANGE',p); continue
                print(f'{n}: {m.group(0)} | {ls[a-1].strip()[:70]} ... {ls[e-1].strip()[:40]}')
