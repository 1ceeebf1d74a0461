#!/usr/bin/env python3
"""Write seeded/LOG.jsonl from the records of the mutation runs (run outside /verif)."""
import json,sys,os
M={}
SW=[f for f in sys.argv[2:] if f.endswith('.log')]
for f in sys.argv[2:]:
    if f.endswith('.log'): continue
    g={}; exec(open(f).read(),g)
    for m in g['MUTS']: M[m['id']]=m
T=json.load(open(os.path.join(os.path.dirname(__file__),'tightened.json'))) if os.path.exists(os.path.join(os.path.dirname(__file__),'tightened.json')) else {}
import re
N=T.pop('notes',{})
def decl(f,a):
    s=open('/verif/lean/Verif/'+f).read(); i=s.find(a)
    if i<0: return f
    ms=[m for m in re.finditer(r'^(?:@\[[^\]]*\]\s*)?(?:private |protected |noncomputable )*(?:theorem|def|instance|abbrev|structure|inductive)\s+(\S+)',s,re.M) if m.start()<=i+len(a)]
    ms=[m for m in ms if m.start()<=i or m.start()<i+len(a)]
    k=[m for m in ms if m.start()<=i] 
    m=(k or ms)
    return (m[-1].group(1) if m else '?')+' ('+f+')'
rec={}
bad={'idt_getnext_keeps'}
for l in open(sys.argv[1]):
    r=json.loads(l)
    if r.get('error') or any('DRIVER' in d or 'TIMEOUT' in d for d in r['direct']) or len(r['failed'])>150: continue
    rec[r['id']]=r
with open('/verif/seeded/LOG.jsonl','w') as o:
    for i,r in rec.items():
        m=M[i]
        ed=m.get('edits') or [(m['file'],m['old'],m['new'])]
        o.write(json.dumps(dict(id=i,definition=sorted({decl(f,a) for f,a,_ in ed}),
          edit=[{'file':f,'from':a,'to':b} for f,a,b in ed],claim_broken=r['claim'],property=r['target'],
          theorems_failed=r['failed'],first_failures=r['direct'][:6],theorems_tightened=T.get(i,[])))+'\n')
    # automatic sweeps: one line per mutant `N killed File def line | old => new | failure Ns`
    k=0
    for f in SW:
        nm=os.path.basename(f)[:-4]
        for l in open(f):
            g=re.match(r'(\d+) (killed|SURVIVED) (\S+) (\S+) \d+ \| (.*) \| (\(.*|None \d+s)$',l.rstrip('\n'))
            if not g or ' => ' not in g[5]: continue
            a,b=g[5].split(' => ',1)
            t=re.match(r"\('([^']*)', '([^']*)', '([^']*)'",g[6])
            i='%s_%s'%(nm,g[1]); k+=1
            fl=[t[3]] if t else []
            o.write(json.dumps(dict(id=i,definition=[g[4]+' ('+g[3]+'.lean)'],edit=[{'file':g[3]+'.lean','from':a,'to':b}],
              claim_broken=N.get(i,'automatic edit: the behaviour of '+g[4]+', as the failed theorem states it' if t else 'none: the edit changes nothing a claim says'),
              theorems_failed=fl,first_failures=[t[1]+': '+t[3]] if t else [],theorems_tightened=T.get(i,[])))+'\n')
print(len(rec),k)
