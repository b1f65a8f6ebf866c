"""Mutation testing: apply an edit to the model in a scratch copy, rebuild, and report the theorems that fail.

usage: mutate.py < edits.py   where edits.py calls  m(module, old, new, claim).
Results are appended to /tmp/mut.out."""
import subprocess, re, json, sys, os, shutil
from multiprocessing.pool import ThreadPool
import threading
SRC='/verif/lean'; P='/tmp/pristine'
if os.path.exists(P): shutil.rmtree(P)
subprocess.run(['cp','-a',SRC,P],check=True)
PAT=re.compile(r'\s*(?:@\[.*?\]\s*)?(?:private |protected |noncomputable )*(theorem|lemma|def|abbrev|example|instance|inductive|structure)\s*([^\s:({\[]*)')
def enclosing(text, line):
    ls=text.split('\n')
    for i in range(min(line,len(ls))-1,-1,-1):
        x=PAT.match(ls[i])
        if x: return x.group(2) if x.group(1)!='example' else 'example@%d'%(i+1)
    return '?'
jobs=[]
def m(mod, old, new, claim): jobs.append((mod,old,new,claim))
exec(sys.stdin.read())
lock=threading.Lock()
def run(a):
    k,(mod,old,new,claim)=a
    W=f'/tmp/scratch/w{k}'
    shutil.rmtree(W,ignore_errors=True)
    subprocess.run(['cp','-a',P,W],check=True)
    p=f'{W}/Verif/{mod}.lean'
    s=open(p).read()
    if s.count(old)!=1:
        with lock: print('NOT UNIQUE',s.count(old),mod,repr(old)); shutil.rmtree(W); return
    line=s[:s.index(old)].count('\n')+1
    if old.startswith('\n'): line+=1
    d=enclosing(s,line)
    open(p,'w').write(s.replace(old,new))
    fails=[]
    for attempt in range(4):
        try:
            r=subprocess.run(['lake','build'],cwd=W,capture_output=True,text=True,timeout=1500)
            out=r.stdout+r.stderr
        except subprocess.TimeoutExpired:
            out='timeout'
        exs={}
        for f,l in re.findall(r'error: (Verif/\w+\.lean):(\d+)',out):
            e=enclosing(open(W+'/'+f).read(),int(l))
            t=f[6:-5]+'.'+e
            if t not in fails: fails.append(t)
            if e.startswith('example@'): exs.setdefault(f,set()).add(int(e[8:]))
        if not exs: break
        # replace failing examples, so that modules which depend on the file are checked too
        for f,lines in exs.items():
            ls=open(W+'/'+f).read().split('\n')
            for k in sorted(lines,reverse=True):
                j=k
                while j<len(ls) and not re.match(r'(@\[|theorem|example|/-|end |def |abbrev |structure |inductive |private |open |namespace |section|instance)',ls[j]): j+=1
                ls[k-1:j]=['example : True := trivial']+['']*(j-k)
            open(W+'/'+f,'w').write('\n'.join(ls))
    rec=dict(definition=f'{mod}.{d}',edit=f'{old.strip()}  =>  {new.strip()}',claim=claim,failed=fails,tightened=[])
    tag='killed   '
    if out=='timeout': tag='TIMEOUT  '
    elif not fails: tag='SURVIVED '
    elif all(f.startswith(mod+'.') for f in fails): tag='INMODEL  '
    with lock:
        print(tag+json.dumps(rec),flush=True)
        open('/tmp/mut.out','a').write(json.dumps(rec)+'\n')
    shutil.rmtree(W)
with ThreadPool(int(os.environ.get("W","3"))) as tp: tp.map(run,list(enumerate(jobs)),chunksize=1)
