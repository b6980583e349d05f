#!/usr/bin/env python3
"""Mutation tests of the model, in a scratch copy (never in /verif/lean).

usage: mutate.py MUTANTS.py [id ...]
MUTANTS.py defines a list MUTANTS of dicts: id, file, old, new, claim, property, [n] (occurrence, default 1).

For each mutant the scratch copy is reset, the edit made, and the project built.  A theorem that does not compile is
recorded and its proof left out (in the scratch copy only) so that the theorems above it can still be checked; at the
end the axioms of every theorem in the manifest tell which of them rest on a proof that was left out.
"""
import json, os, re, subprocess, sys, importlib.util
BASE='/verif/lean'; WORK='/tmp/mut/lean'
DECL=re.compile(r'^(?:@\[[^\]]*\]\s*)?(?:private\s+|protected\s+|noncomputable\s+)*(theorem|lemma|def|example|instance|structure|inductive|abbrev|mutual|end|namespace|open|variable|section|attribute|macro|syntax|deriving|elab|set_option)\b')
HOLE='so'+'rry'
# theorems that say where a claim fails: they do not count as catching a mutant
NEG=('violation','confusion','hides','lost','asked_again','double_slash','appended','_exception','stale','not_segment_aligned','false_dropped','true_raises')
def negative(t): return any(x in t for x in NEG)
CLEAN=None
def sh(c,timeout=1500):
    try:
        return subprocess.run(c,shell=True,capture_output=True,text=True,timeout=timeout)
    except subprocess.TimeoutExpired:
        class R: stdout='TIMEOUT'; returncode=-1
        return R
def reset():
    global CLEAN
    if CLEAN is None:
        CLEAN='/tmp/mut/clean'
        if not os.path.exists(CLEAN): sh(f'cp -a {BASE} {CLEAN}')
    os.makedirs(WORK,exist_ok=True)
    sh(f'rm -rf {WORK}; cp -a {CLEAN} {WORK}')
def decl_at(lines,ln):
    """(start,end) line indexes of the declaration that holds line ln (0-based)"""
    i=min(ln,len(lines)-1)
    while i>=0 and not DECL.match(lines[i]): i-=1
    j=i+1
    while j<len(lines) and not DECL.match(lines[j]) and not lines[j].startswith('/-'): j+=1
    return i,j
def blank(text):
    """statement := proof  ->  statement := hole"""
    depth=0; k=0; n=len(text)
    while k<n:
        c=text[k]
        if text.startswith('/-',k):
            k=text.index('-/',k)+2; continue
        if c in '([{⟨': depth+=1
        elif c in ')]}⟩': depth-=1
        elif depth==0 and text.startswith(':=',k):
            ls=text.rfind('\n',0,k)+1
            if re.match(r'\s*let ',text[ls:k]): k+=2; continue
            return text[:k]+':= by '+HOLE+'\n\n'
        elif depth==0 and text.startswith('\n  | ',k):
            return text[:k]+' := by '+HOLE+'\n\n'
        elif depth==0 and text.startswith(' where\n',k):
            return text[:k]+' := by '+HOLE+'\n\n'
        k+=1
    return None
def modules(names):
    """the modules that hold these theorems"""
    short={n.split('.')[-1] for n in names}; out=[]
    for root,_,fs in os.walk(f'{WORK}/Verif'):
        for f in fs:
            if not f.endswith('.lean'): continue
            if short & set(re.findall(r'^theorem\s+(\S+)',open(f'{root}/{f}').read(),re.M)):
                out.append(os.path.relpath(f'{root}/{f}',WORK)[:-5].replace('/','.'))
    return sorted(out)
def build(mods):
    r=sh(f'cd {WORK} && lake build {" ".join(mods)} 2>&1')
    errs=[]
    for l in r.stdout.split('\n'):
        m=re.match(r'error: (Verif/\S+\.lean):(\d+):(\d+): (.*)',l)
        if m: errs.append((m[1],int(m[2])-1,m[4]))
    return r,errs
def run(mu):
    reset()
    p=f'{WORK}/{mu["file"]}'
    s=open(p).read()
    cnt=s.count(mu['old'])
    if cnt==0: return dict(id=mu['id'],result='old text not found')
    n=mu.get('n',1)
    if cnt>1 and 'n' not in mu: return dict(id=mu['id'],result=f'old text found {cnt} times')
    idx=-1
    for _ in range(n): idx=s.index(mu['old'],idx+1)
    s=s[:idx]+mu['new']+s[idx+len(mu['old']):]
    open(p,'w').write(s)
    line=s[:idx].count('\n')
    failed=[]; invalid=None
    mine=sorted({t for c in json.load(open('/verif/MANIFEST.json'))['claims'] if c['property']==mu['property'] for t in c['theorems']})
    mods=modules(mine)
    for rnd in range(40):
        r,errs=build(mods)
        if r.stdout=='TIMEOUT': invalid='build timeout'; break
        if not errs:
            if r.returncode!=0: invalid='build failed: '+r.stdout[-400:]
            break
        byfile={}
        for f,l,msg in errs: byfile.setdefault(f,[]).append((l,msg))
        for f,es in byfile.items():
            path=f'{WORK}/{f}'; lines=open(path).read().split('\n')
            spans={}
            for l,msg in es:
                a,b=decl_at(lines,l); spans[(a,b)]=msg
            for (a,b),msg in sorted(spans.items(),reverse=True):
                head=lines[a]; kind=DECL.match(head)[1]
                text='\n'.join(lines[a:b])+'\n'
                if kind in('theorem','lemma'):
                    name=re.search(r'(?:theorem|lemma)\s+(\S+)',head)[1]
                    t=blank(text)
                    if t is None or HOLE in text:
                        invalid=f'{f}: {name}: {msg}'; break
                    failed.append(name)
                    lines[a:b]=t.rstrip('\n').split('\n')+['']
                elif kind=='example':
                    failed.append('example in '+f)
                    lines[a:b]=['']
                    # a doc comment must not dangle
                    k=a-1
                    while k>=0 and lines[k].strip()=='' : k-=1
                    if k>=0 and lines[k].rstrip().endswith('-/'):
                        e=k
                        while not lines[k].startswith('/-'): k-=1
                        if lines[k].startswith('/--'): lines[k:e+1]=['']
                else:
                    invalid=f'{f}:{a}: {kind}: {msg}'; break
            open(path,'w').write('\n'.join(lines))
            if invalid: break
        if invalid: break
        hit=[t for t in mine if t.split('.')[-1] in [f.split('.')[-1] for f in failed]]
        if [t for t in hit if not negative(t)]: return dict(id=mu['id'],result='ok',line=line,failed=failed,affected=[],mine=mine,caught=hit,early=True)
    else: invalid='too many rounds'
    if invalid: return dict(id=mu['id'],result='invalid',why=invalid,failed=failed)
    names=mine
    chk=f'{WORK}/Chk.lean'
    def q(t): return t if t.startswith('Pyopenapi.') else 'Pyopenapi.'+t
    open(chk,'w').write(''.join(f'import {m}\n' for m in mods)+''.join(f'#print axioms {q(t)}\n' for t in names))
    out=sh(f'cd {WORK} && lake env lean Chk.lean 2>&1').stdout
    out=out.replace('\n ',' ')
    affected=[]
    for t in names:
        m=re.search(r"'"+re.escape(q(t))+r"' (depends on axioms: \[[^\]]*\]|does not depend)",out)
        if not m: affected.append(t+'?')
        elif HOLE+'Ax' in m[1]: affected.append(t)
    return dict(id=mu['id'],result='ok',line=line,failed=failed,affected=affected,mine=mine,
        caught=[t for t in mine if t in affected and not negative(t)])
def definition(mu):
    t=open(f'{BASE}/{mu["file"]}').read(); s=t.split(mu['old'])[0]+(mu['old'] if re.match(r'(?:def|structure|inductive|abbrev)\s',mu['old']) else '')
    m=re.findall(r'^(?:def|structure|inductive|abbrev)\s+(\S+)',s,re.M)
    return m[-1] if m else '?'
if __name__=='__main__':
    spec=importlib.util.spec_from_file_location('m',sys.argv[1]); m=importlib.util.module_from_spec(spec); spec.loader.exec_module(m)
    only=set(sys.argv[2:])
    done={json.loads(l)['id'] for l in open('/tmp/mut/results.jsonl')} if os.path.exists('/tmp/mut/results.jsonl') else set()
    for mu in m.MUTANTS:
        if mu['id'] in done and mu['id'] not in only: continue
        if only and mu['id'] not in only: continue
        r=run(mu); r['property']=mu['property']
        with open('/tmp/mut/results.jsonl','a') as f: f.write(json.dumps(r)+'\n')
        print(mu['id'],mu['property'],r['result'],'caught' if r.get('caught') else 'NOT CAUGHT',r.get('why','')[:200],len(r.get('affected',[])),flush=True)
