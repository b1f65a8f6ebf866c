"""Append the results in /tmp/mut.out from line N (argv[1], 1-based) to seeded/LOG.jsonl.
argv[2:]: 'substring of claim=theorem,theorem' marks tightened theorems of earlier survivors."""
import json,sys
ls=open('/tmp/mut.out').read().splitlines()[int(sys.argv[1])-1:]
t=dict(a.split('=',1) for a in sys.argv[2:])
recs=[]
for l in ls:
    i=l.index('{'); r=json.loads(l[i:]); tag=l[:i].strip()
    if r['failed'] and all(f==r['definition'] for f in r['failed']): continue
    for k,v in t.items():
        if k in r['claim'] and not r['failed']: r['tightened']=v.split(',')
    recs.append(r)
with open('/verif/seeded/LOG.jsonl','a') as f:
    for r in recs: f.write(json.dumps(r)+'\n')
print(len(recs),'logged; untightened survivors:',[r['claim'] for r in recs if not r['failed'] and not r['tightened']])
