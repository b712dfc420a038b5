import glob,re
f='lean/Verif.lean'
s=open(f).read()
for g in sorted(glob.glob('lean/Verif/*/*.lean')):
    m=g[len('lean/'):-5].replace('/','.')
    if not re.search(r'^import '+re.escape(m)+r'$',s,re.M):
        s+=f'import {m}\n'
open(f,'w').write(s)
