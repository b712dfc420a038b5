import re,glob,os,sys
cov={}
for f in glob.glob('/verif/lean/Verif/**/*.lean',recursive=True):
    t=open(f).read()
    for m in re.finditer(r'([\w/]+\.(?:cpp|hpp|py))((?::|, ?| and )\d+(?:-\d+)?(?:(?:, ?| and )\d+(?:-\d+)?)*)?',t):
        b=os.path.basename(m.group(1))
        for r in re.findall(r'\d+(?:-\d+)?',m.group(2) or ''):
            a,_,e=r.partition('-')
            cov.setdefault(b,set()).update(range(int(a),int(e or a)+1))
for f in sys.argv[1:]:
    print('==',f)
    for i,l in enumerate(open(f).read().split('\n'),1):
        if l.strip() and not l.strip().startswith(('//','#','*','/*','}','{','namespace')) and i not in cov.get(os.path.basename(f),()): print(i,l)
