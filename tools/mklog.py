#!/usr/bin/env python3
"""seeded/LOG.jsonl from the mutants (/tmp/mut/m*.py) and the results of tools/mutate.py (/tmp/mut/results.jsonl)"""
import json,glob,importlib.util
import mutate
mus={}
for f in sorted(glob.glob('/tmp/mut/m*.py')):
    s=importlib.util.spec_from_file_location('m',f);m=importlib.util.module_from_spec(s);s.loader.exec_module(m)
    for x in m.MUTANTS: mus[x['id']]=x
res={}
for l in open('/tmp/mut/results.jsonl'):
    d=json.loads(l);res[d['id']]=d
# after the first run of a batch: what had to be tightened
TIGHT={'C06':['C06_deref_ok_iff','C06_deref_cycle_iff'],'C19':['C19_keys_ignored_partial'],
 'C44':['C44_resolve_cached','C44_empty'],'C34':['C34_scan']}
TIGHTENED={'d4':'C06','c7':'C19','c8':'C19','r4':'C44','r6':'C44','sc8':'C34'}
try:
    TIGHTENED.update(json.load(open('/tmp/mut/tight.json')))
except FileNotFoundError: pass
NOTE={'v51':'equivalent mutant: the check is dead code, since a document with a non-empty root security list cannot be loaded (C58_root_security_violation), so no claim becomes false',
 'v44':'caught by C53_path_item (through putOpResponses_built): C57 is about one response for a given list of media types'}
try: NOTE.update(json.load(open('/tmp/mut/note.json')))
except FileNotFoundError: pass
out=open('/verif/seeded/LOG.jsonl','w')
for i,mu in mus.items():
    if i not in res: continue
    r=res[i]
    if r['result'] not in ('ok',): continue
    failed=list(dict.fromkeys(list(r.get('caught',[]))+[t for t in r.get('affected',[])]+[f for f in r['failed']]))
    t=TIGHTENED.get(i)
    e=dict(id=i,file='lean/'+mu['file'],definition=mutate.definition(mu),edit=dict(old=mu['old'],new=mu['new']),claim_broken=mu['property']+': '+mu['claim'],
      theorems_failed=failed,theorems_tightened=(t if isinstance(t,list) else TIGHT.get(t,t)) if t else [])
    if i in NOTE: e['note']=NOTE[i]
    out.write(json.dumps(e,ensure_ascii=False)+'\n')
