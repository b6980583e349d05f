#!/usr/bin/env python3
"""Automatic mutants of the model: single edits of one token (a condition negated, an operator or a constant exchanged, an
update or an operand dropped).  The whole project is built in a scratch copy; a mutant survives when no theorem fails
(examples and theorems that state a defect do not count).

usage: automut.py RESULTS SEED COUNT [file ...]      results are appended to RESULTS, one JSON line per mutant
"""
import sys,re,json,os,random,subprocess,signal
import mutate
from mutate import sh,decl_at,blank,negative,DECL
WORK='/tmp/mut/auto'; CLEAN='/tmp/mut/autoclean'; BASE='/verif/lean'
mutate.WORK=WORK
def code_lines(s):
    out=[]; depth=0
    for i,l in enumerate(s.split('\n')):
        start=depth
        depth+=l.count('/-')-l.count('-/')
        if start>0 or '/-' in l or l.strip().startswith('--') or not l.strip(): continue
        if re.match(r'(import|open|namespace|end|variable|section|structure|inductive|deriving|theorem|termination_by|decreasing_by|instance)\b',l.strip()): continue
        out.append(i)
    return out
RULES=[
 ('negate',re.compile(r'\bif (?!\w+ :)(.+?) then\b'),lambda m:f'if ¬ ({m[1]}) then'),
 ('and-or',re.compile(r' ∧ '),lambda m:' ∨ '),
 ('or-and',re.compile(r' ∨ '),lambda m:' ∧ '),
 ('band',re.compile(r' && '),lambda m:' || '),
 ('bor',re.compile(r' \|\| '),lambda m:' && '),
 ('true',re.compile(r'(?<![\w.?])true\b'),lambda m:'false'),
 ('false',re.compile(r'(?<![\w.?])false\b'),lambda m:'true'),
 ('string',re.compile(r's% "([^"]*)"'),lambda m:f's% "{m[1]}x"'),
 ('char',re.compile(r"'([^'\\])'"),lambda m:"'"+('!' if m[1]!='!' else '?')+"'"),
 ('num',re.compile(r'(?<![\w"%.])([0-9]+)(?![\w"])'),lambda m:str(int(m[1])+1)),
 ('set',re.compile(r'Dict\.set (\w+) \(s% "[^"]*"\) (?:\w+|\([^()]*(?:\([^()]*\)[^()]*)*\))'),lambda m:m[1]),
 ('set2',re.compile(r'Dict\.set (\w+) (\w+) (?:\w+|\([^()]*(?:\([^()]*\)[^()]*)*\))'),lambda m:m[1]),
 ('appl',re.compile(r'(\w+) \+\+ (\w+)'),lambda m:m[1]),
 ('appr',re.compile(r'(\w+) \+\+ (\w+)'),lambda m:m[2]),
 ('err',re.compile(r'\.error \.(\w+)'),lambda m:'.error .'+('generic' if m[1]!='generic' else 'schemaError')),
 ('none',re.compile(r'\.ok none\b'),lambda m:'.error .generic'),
 ('nil',re.compile(r'\.ok \[\]'),lambda m:'.error .generic'),
 ('null',re.compile(r'\.ok \.null\b'),lambda m:'.ok (.bool true)'),
 ('eqnull',re.compile(r'= \.null'),lambda m:'= .bool true'),
 ('truthy',re.compile(r'(\w+)\.truthy\b'),lambda m:f'(!{m[1]}.truthy)'),
 ('eq',re.compile(r'(?<=\w) = (?=[\w(.\[])'),lambda m:' ≠ '),
 ('ne',re.compile(r' ≠ '),lambda m:' = '),
 ('take',re.compile(r'\b(\w+)\.take\b'),lambda m:f'{m[1]}.drop'),
 ('getD',re.compile(r'\.getD \[\]'),lambda m:'.getD [[]]'),
 ('cons',re.compile(r'\((\w+), (\w+)\) :: (\w+)'),lambda m:m[3]),
]
def mutants(f):
    s=open(f'{BASE}/{f}').read(); lines=s.split('\n'); out=[]
    for i in code_lines(s):
        l=lines[i]
        for name,rx,fn in RULES:
            for m in rx.finditer(l):
                if name in('true','false') and '::' in l and False: continue
                new=l[:m.start()]+fn(m)+l[m.end():]
                if new!=l: out.append(dict(file=f,line=i,rule=name,old=l,new=new,col=m.start()))
    return out
def test(mu):
    if not os.path.exists(CLEAN): sh(f'cp -a {BASE} {CLEAN}')
    sh(f'rsync -a --delete {CLEAN}/ {WORK}/') if sh('which rsync').returncode==0 else sh(f'rm -rf {WORK}; cp -a {CLEAN} {WORK}')
    p=f'{WORK}/{mu["file"]}'; lines=open(p).read().split('\n'); assert lines[mu['line']]==mu['old']
    lines[mu['line']]=mu['new']; open(p,'w').write('\n'.join(lines))
    dropped=[]
    for rnd in range(12):
        pr=subprocess.Popen('lake build 2>&1',shell=True,cwd=WORK,stdout=subprocess.PIPE,text=True,preexec_fn=os.setsid)
        errs=[]; bad=None
        def alarm(*a): raise TimeoutError
        signal.signal(signal.SIGALRM,alarm); signal.alarm(900)
        try:
            for l in pr.stdout:
                m=re.match(r'error: (Verif/\S+\.lean):(\d+):(\d+): (.*)',l)
                if not m:
                    continue
                f,ln=m[1],int(m[2])-1
                L=open(f'{WORK}/{f}').read().split('\n'); a,b=decl_at(L,ln)
                k=DECL.match(L[a])[1]
                errs.append((f,a,b,k,m[4]))
                nm=(re.search(r'(?:theorem|lemma)\s+(\S+)',L[a]) or [0,''])[1]
                if k in('theorem','lemma') and not negative(nm) or k not in('theorem','lemma','example'):
                    bad=(f,k,nm or L[a][:60],m[4]); break
        except TimeoutError:
            bad=('?','timeout','',''); 
        signal.alarm(0)
        if bad:
            try: os.killpg(pr.pid,signal.SIGKILL)
            except ProcessLookupError: pass
            pr.wait()
            kind=bad[1]
            if kind in('theorem','lemma'): return dict(mu,result='caught',by=bad[2],module=bad[0],dropped=dropped)
            if kind=='timeout': return dict(mu,result='timeout')
            return dict(mu,result='invalid' if '/Model/' in bad[0] else 'caught-def',by=bad[2],why=bad[3])
        pr.wait()
        if not errs:
            return dict(mu,result='survived' if pr.returncode==0 else 'unclear',dropped=dropped)
        # only examples and negative theorems: leave them out and go on
        byf={}
        for f,a,b,k,_ in errs: byf.setdefault(f,{})[(a,b)]=k
        for f,sp in byf.items():
            L=open(f'{WORK}/{f}').read().split('\n')
            for (a,b),k in sorted(sp.items(),reverse=True):
                if k=='example':
                    dropped.append('example '+f); L[a:b]=['']
                    j=a-1
                    while j>=0 and not L[j].strip(): j-=1
                    if j>=0 and L[j].rstrip().endswith('-/'):
                        e=j
                        while not L[j].startswith('/-'): j-=1
                        if L[j].startswith('/--'): L[j:e+1]=['']
                else:
                    nm=re.search(r'(?:theorem|lemma)\s+(\S+)',L[a])[1]; dropped.append(nm)
                    t=blank('\n'.join(L[a:b])+'\n')
                    L[a:b]=t.rstrip('\n').split('\n')+['']
            open(f'{WORK}/{f}','w').write('\n'.join(L))
    return dict(mu,result='unclear',dropped=dropped)
if __name__=='__main__':
    res,seed,count=sys.argv[1],int(sys.argv[2]),int(sys.argv[3]); files=sys.argv[4:]
    if not files: files=['Verif/Model/'+x for x in sorted(os.listdir(BASE+'/Verif/Model')) if x!='Tables.lean']
    allm=[m for f in files for m in mutants(f)]
    print(len(allm),{f:len(mutants(f)) for f in files})
    if count==0: sys.exit()
    done=set()
    if os.path.exists(res): done={(d['file'],d['line'],d['new']) for d in map(json.loads,open(res))}
    random.Random(seed).shuffle(allm)
    allm.sort(key=lambda m:{'string':1,'err':2}.get(m['rule'],0))   # names and kinds of errors last
    n=0
    for mu in allm:
        if n>=count: break
        if (mu['file'],mu['line'],mu['new']) in done: continue
        d=test(mu); n+=1
        open(res,'a').write(json.dumps(d)+'\n')
        print(d['result'],d['file'],d['line'],d['rule'],d.get('by',''),flush=True)
