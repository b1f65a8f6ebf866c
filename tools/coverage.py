#!/usr/bin/env python3
"""Which source files of /repo are cited by which modules."""
import os, re, subprocess, collections
files = []
for dp, dn, fn in os.walk('/repo'):
    dn[:] = [d for d in dn if d not in ('.git', 'testdata', 'node_modules')]
    for f in fn:
        p = os.path.relpath(os.path.join(dp, f), '/repo')
        if re.search(r'\.(go|c|h|S|s|cpp|js|html|py|proto)$', f) and not f.endswith('_test.go'):
            files.append(p)
lean = {f[:-5]: open('/verif/lean/Verif/' + f).read() for f in os.listdir('/verif/lean/Verif') if f.endswith('.lean')}
cov = collections.OrderedDict()
base = collections.Counter(os.path.basename(p) for p in files)
props = open('/verif/properties.jsonl').read()
for p in sorted(files):
    b = os.path.basename(p); d = os.path.basename(os.path.dirname(p)) + '/' + b
    hits = []
    for m, t in sorted(lean.items()):
        if re.search(r'(?<![\w/.])' + re.escape(p), t) or (d in t and re.search(r'(?<![\w])' + re.escape(d), t)) or (base[b] == 1 and re.search(r'(?<![\w/])' + re.escape(b), t)):
            hits.append(m)
    cov[p] = hits
if __name__ == '__main__':
    for p, h in cov.items():
        n = sum(1 for _ in open('/repo/' + p, errors='replace'))
        print(n, p, '<-', ' '.join(h) or '-', '(anchored)' if p in props else '')
