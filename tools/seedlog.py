"""Writes seeded/LOG.jsonl from the results of the mutation runs (kept outside /verif)."""
import json,re
M={}
for f in('muts.json','muts2.json','muts3.json','muts4.json','muts5.json','muts6.json','muts7.json','muts8.json','muts9.json','muts10.json'):
    try:
        for m in json.load(open('/root/mut/'+f)): M[m['id']]=m
    except FileNotFoundError: pass
try: T=json.load(open('/verif/tools/tightened.json'))
except FileNotFoundError: T={}
out=[]
for l in open('/root/mut/results.jsonl'):
    r=json.loads(l)
    if r.get('error') or r['id'] not in M: continue
    m=M[r['id']]; t=T.get(r['id'],{})
    if t.get('skip'): continue
    REN={n:n+'_partial' for n in('C19_roundtrip','C35_metadata','C44_add','C44_close','C52_array_set','C52_array_set_rgb')}
    thms=[REN.get(a,a) for a in r['affected'] if not a.endswith('_violated')]
    e={'id':r['id'],'definition':m['definition'],'file':'lean/Verif/'+m['file'],'edit':m['edit'],
       'old':m['old'],'new':m['new'],'claim':m['claim'],
       'theorems_failed':thms,'theorems_tightened':t.get('tightened',[])}
    if t.get('note'): e['note']=t['note']
    out.append(e)
with open('/verif/seeded/LOG.jsonl','w') as f:
    for e in out: f.write(json.dumps(e,ensure_ascii=False)+'\n')
print(len(out))
