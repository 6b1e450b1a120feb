#!/usr/bin/env python3
"""Convert mutation-run results into /verif/seeded/LOG.jsonl.
usage: mkseeded.py deps.tsv (muts.json results.jsonl)...
deps.tsv: claim theorem <tab> comma/space separated transitive constants.  A claim theorem
is listed as failed when it, or a lemma it rests on, no longer checks after the edit."""
import json,sys,re,os
notes=json.load(open(os.path.join(os.path.dirname(__file__),'seeded_notes.json')))
deps={}
for l in open(sys.argv[1]):
    c=l.rstrip('\n').split('\t')
    deps[c[0].split('.')[-1]]={x.strip().split('.')[-1] for x in re.split(r'[ ,]+',c[1])}|{c[0].split('.')[-1]}
out=open('/verif/seeded/LOG.jsonl','w')
n=0
for mf,rf in zip(sys.argv[2::2],sys.argv[3::2]):
    ms={m['id']:m for m in json.load(open(mf))}
    for l in open(rf):
        r=json.loads(l)
        if r['id'] not in ms or 'bad' in r: continue
        m=ms[r['id']]
        if any(k.startswith('Verif/Model/') for k in r['fails']): continue  # the edit does not typecheck: no program
        first=sorted({d.split('.')[-1] for v in r['fails'].values() for d in v})
        claims=sorted(t for t,d in deps.items() if d&set(first))
        nt=notes.get(r['id'],{})
        e={'id':r['id'],'definition':'lean/Verif/'+m['file']+': '+m['defn'],'edit':m['edit'],
           'old':m['old'],'new':m['new'],'claim':m['claim'],
           'build':'passes' if r['rc']==0 else 'fails',
           'first_failing_declarations':{k:v for k,v in r['fails'].items()},
           'theorems_failed':claims,'theorems_tightened':nt.get('tightened',[])}
        if 'note' in nt: e['note']=nt['note']
        out.write(json.dumps(e,ensure_ascii=False)+'\n'); n+=1
print(n)
