"""usage: python3 add.py <<EOF  with python code calling prop(...)/claim(...)/imp(...)"""
import sys
def imp(*mods):
    p='/verif/lean/Verif.lean'; s=open(p).read()
    for m in mods:
        l='import Verif.%s\n'%m
        if l not in s: s+=l
    open(p,'w').write(s)
def prop(pid,title,stmt,quant,why,*anchors):
    p='/verif/tools/props.py'; s=open(p).read()
    if 'p("%s",'%pid in s: return
    t='p(%r, %r,\n  %r,\n  %r,\n  %r,\n  %s)\n'%(pid,title,stmt,quant,why,', '.join(repr(a) for a in anchors))
    t=t.replace("p('%s'"%pid,'p("%s"'%pid,1)
    s=s.replace('if __name__',t+'if __name__',1); open(p,'w').write(s)
def claim(pid,status,ns,ths,note):
    p='/verif/tools/manifest.py'; s=open(p).read()
    import re
    t='c("%s", %r, %r, %r,\n  %r)\n'%(pid,status,ns,ths,note)
    if 'c("%s",'%pid in s:
        i=s.index('c("%s",'%pid); 
        m=re.compile(r'\n(?=c\("|#--MORE)').search(s,i)
        s=s[:i]+t+s[m.end():]
    else: s=s.replace('#--MORE--',t+'#--MORE--',1)
    open(p,'w').write(s)
def more(pid,ths):
    "add theorems to a claim"
    import re
    p='/verif/tools/manifest.py'; s=open(p).read(); i=s.index('c("%s",'%pid)
    m=re.compile(r'c\("\w+", *([\'"])\w+\1, *([\'"])[^\'"]*\2, *([\'"])([^\'"]*)\3').match(s,i)
    have=m.group(4).split(); new=have+[t for t in ths.split() if t not in have]
    s=s[:m.start(4)]+' '.join(new)+s[m.end(4):]; open(p,'w').write(s)
def design(row):
    p='/verif/DESIGN.md'; s=open(p).read()
    if row not in s:
        s=s.replace("\nNot expressible in",row+"\n\nNot expressible in",1) if False else s.replace("\n\nNot expressible in","\n"+row+"\n\nNot expressible in",1)
        open(p,'w').write(s)
exec(sys.stdin.read())
import subprocess
subprocess.run(['python3','/verif/tools/props.py']); subprocess.run(['python3','/verif/tools/manifest.py'])
