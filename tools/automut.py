"""Automatic mutants of the model's definitions.
usage: automut.py PER_MODULE SEED [module...]   Results are appended to /tmp/auto/out.jsonl.
A mutant changes one operator, constant, field update or condition in a def or inductive."""
import re,sys,os,random,json,subprocess,shutil,threading
from multiprocessing.pool import ThreadPool
SRC='/verif/lean'; P='/tmp/auto/pristine'
DECL=re.compile(r'\s*(?:@\[.*?\]\s*)?(?:private |protected |noncomputable |partial )*(theorem|lemma|def|abbrev|example|instance|inductive|structure|namespace|open|end|variable|section|set_option|deriving)\b\s*([^\s:({\[]*)')
def blank(s):
    "comments and strings replaced by spaces of the same length"
    o=list(s); i=0; n=len(s)
    while i<n:
        if s.startswith('/-',i):
            d=1; j=i+2
            while j<n and d:
                if s.startswith('/-',j): d+=1; j+=2
                elif s.startswith('-/',j): d-=1; j+=2
                else: j+=1
        elif s.startswith('--',i):
            j=s.find('\n',i); j=n if j<0 else j
        elif s[i]=='"':
            j=i+1
            while j<n and s[j]!='"': j+=2 if s[j]=='\\' else 1
            j+=1
        else: i+=1; continue
        for k in range(i,min(j,n)):
            if o[k]!='\n': o[k]=' '
        i=j
    return ''.join(o)
SUBS=[(r' < ',' ≤ '),(r' ≤ ',' < '),(r' > ',' ≥ '),(r' ≥ ',' > '),(r'(?<=if )([^\n]*?) = ',None),
 (r' ∧ ',' ∨ '),(r' && ',' || '),(r' \|\| ',' && '),(r' ∨ ',' ∧ '),(r' != ',' == '),(r' == ',' != '),(r' ≠ ',' = '),
 (r' \+ 1\b',''),(r' - 1\b',''),(r'\btrue\b','false'),(r'\bfalse\b','true'),(r'¬ ?',''),(r'!(?=[a-z(])',''),
 (r'(?<![\w.])(\d+)(?![\w.])','NUM'),(r', \w+ := [^,{}\n()]*(?=[ ,}])',''),(r'(?<=with) \w+ := [^,{}\n()]*,',''),
 (r'\.err\b','.ok'),(r' \+\+ \[[^\]\n]*\]',''),(r' \+ ',' - '),(r' - ',' + '),(r' / ',' * '),(r' % ',' / '),
 (r'\bsome\b (?=\w)',None),(r'\.append\b',None)]
def mutants(mod):
    s=open(f'{SRC}/Verif/{mod}.lean').read(); b=blank(s); out=[]
    pos=0; cur=None; lines=b.split('\n'); spans=[]
    for ln,l in enumerate(lines):
        m=DECL.match(l) if l and not l.startswith(' ') else None
        if m: cur=(m.group(1),m.group(2),ln)
        elif l and not l.startswith(' ') and not l.startswith('|') and cur and not l.startswith(('  ','where')): pass
        if cur and cur[0] in('def','abbrev','inductive'):
            body=l; off=0
            if ln==cur[2]:
                k=l.find(':=');
                if k<0: pos+=len(l)+1; continue
                off=k+2; body=l[off:]
            for pat,rep in SUBS:
                if rep is None: continue
                for x in re.finditer(pat,body):
                    a=pos+off+x.start(); z=pos+off+x.end(); r=rep
                    if rep=='NUM': r=str(int(x.group(1))+1)
                    out.append((cur[1],a,z,r,ln+1))
        pos+=len(l)+1
    return s,out
def enclosing(text,line):
    ls=text.split('\n')
    for i in range(min(line,len(ls))-1,-1,-1):
        x=DECL.match(ls[i])
        if x and x.group(1) in('theorem','lemma','def','abbrev','example','instance','inductive','structure'):
            return x.group(2) if x.group(1)!='example' else 'example@%d'%(i+1)
    return '?'
def isth(text,name): return re.search(r'(theorem|lemma)\s+'+re.escape(name)+r'(?![\w.\'])',text)
lock=threading.Lock(); pool_dirs=[]
def run(job):
    mod,d,a,z,r,ln=job
    with lock: W=pool_dirs.pop()
    try:
        p=f'{W}/Verif/{mod}.lean'; s=open(f'{P}/Verif/{mod}.lean').read()
        open(p,'w').write(s[:a]+r+s[z:])
        touched={f'Verif/{mod}.lean'}; fails=[]; out=''
        for attempt in range(4):
            try:
                q=subprocess.run(['nice','lake','build'],cwd=W,capture_output=True,text=True,timeout=1500); out=q.stdout+q.stderr
            except subprocess.TimeoutExpired: out='timeout'; break
            exs={}; other=False
            for f,l in re.findall(r'error: (Verif/\w+\.lean):(\d+)',out):
                t=open(W+'/'+f).read(); e=enclosing(t,int(l)); n=f[6:-5]+'.'+e
                if n not in fails: fails.append(n)
                if e.startswith('example@'): exs.setdefault(f,set()).add(int(e[8:]))
                else: other=True
            if not exs or other: break
            for f,lines in exs.items():
                touched.add(f); ls=open(W+'/'+f).read().split('\n')
                for k in sorted(lines,reverse=True):
                    j=k
                    while j<len(ls) and not re.match(r'(@\[|theorem|example|/-|end |def |abbrev |structure |inductive |private |open |namespace |section|instance|set_option)',ls[j]): j+=1
                    ls[k-1:j]=['example : True := trivial']+['']*(j-k)
                open(W+'/'+f,'w').write('\n'.join(ls))
        line=s.split('\n')[ln-1].strip(); ls0=s.rfind('\n',0,a)+1; le=s.find('\n',z)
        new=(s[ls0:a]+r+s[z:le]).strip()
        th=[f for f in fails if not f.split('.',1)[1].startswith('example') ]
        if out=='timeout': tag='TIMEOUT'
        elif not fails: tag='SURVIVED'
        elif not th: tag='EXAMPLEONLY'
        elif all(f==f'{mod}.{d}' for f in th): tag='INVALID'
        else:
            tag='killed'
            if any(not isth(open(f"{P}/Verif/{f.split('.')[0]}.lean").read(),f.split('.',1)[1]) for f in th): tag='INVALID?'
        rec=dict(tag=tag,definition=f'{mod}.{d}',line=ln,edit=line+'  =>  '+new,failed=fails)
        with lock:
            print(tag,mod,d,ln,'|',rec['edit'][:160],'|',fails[:4],flush=True)
            open('/tmp/auto/out.jsonl','a').write(json.dumps(rec)+'\n')
        for f in touched: shutil.copy2(f'{P}/{f}',f'{W}/{f}')
    finally:
        with lock: pool_dirs.append(W)
if __name__=='__main__':
    per,seed=int(sys.argv[1]),int(sys.argv[2]); mods=sys.argv[3:]
    if not mods: mods=sorted(f[:-5] for f in os.listdir(SRC+'/Verif') if f.endswith('.lean'))
    rnd=random.Random(seed); jobs=[]
    done=set()
    if os.path.exists('/tmp/auto/out.jsonl'):
        for l in open('/tmp/auto/out.jsonl'):
            r=json.loads(l); done.add((r['definition'],r['edit']))
    shutil.rmtree(P,ignore_errors=True); subprocess.run(['cp','-a',SRC,P],check=True)
    for mod in mods:
        s,ms=mutants(mod); rnd.shuffle(ms); seen={}; n=0
        # spread over definitions
        for d,a,z,r,ln in ms:
            if n>=per: break
            line=s.split('\n')[ln-1].strip(); ls0=s.rfind('\n',0,a)+1; le=s.find('\n',z)
            if (f'{mod}.{d}',line+'  =>  '+(s[ls0:a]+r+s[z:le]).strip()) in done: continue
            if seen.get(d,0)>=2: continue
            seen[d]=seen.get(d,0)+1; n+=1; jobs.append((mod,d,a,z,r,ln))
    rnd.shuffle(jobs)
    N=2
    for i in range(N):
        W=f'/tmp/auto/w{i}'; shutil.rmtree(W,ignore_errors=True); subprocess.run(['cp','-a',P,W],check=True); pool_dirs.append(W)
    print(len(jobs),'jobs',flush=True)
    with ThreadPool(N) as tp: tp.map(run,jobs,chunksize=1)
