#!/usr/bin/env python3
"""Writes the axioms section at the end of DESIGN.md: `#print axioms` of every theorem which MANIFEST.json claims."""
import json, re, subprocess, collections
m = json.load(open('/verif/MANIFEST.json'))
names = []
for c in m['claims']:
    for t in c['theorems']:
        if t not in names: names.append(t)
mods = [l.strip() for l in open('/verif/lean/Verif.lean') if l.startswith('import')]
open('/tmp/ax.lean', 'w').write('\n'.join(mods) + '\n' + '\n'.join('#print axioms ' + n for n in names))
t = subprocess.run(['lake', 'env', 'lean', '/tmp/ax.lean'], cwd='/verif/lean', capture_output=True, text=True).stdout
t = re.sub(r'\n\s+', ' ', t)
g = collections.OrderedDict()
for l in t.splitlines():
    a = re.match(r"'(\S+)' depends on axioms: \[(.*)\]", l)
    b = re.match(r"'(\S+)' does not depend", l)
    if a: g.setdefault(a.group(2), []).append(a.group(1))
    elif b: g.setdefault('no axioms', []).append(b.group(1))
    else: raise SystemExit('unexpected: ' + l)
assert sum(map(len, g.values())) == len(names)
ok = {'propext', 'Classical.choice', 'Quot.sound'}
for k in g:
    assert k == 'no axioms' or set(k.split(', ')) <= ok, k
d = open('/verif/DESIGN.md').read()
h = '\n## Axioms of each claimed theorem\n'
d = d.split(h)[0].rstrip('\n') + '\n'
d += h + '\nGenerated by tools/axioms.py from `#print axioms` of the %d theorems in MANIFEST.json. All of the axioms are Lean\'s own; names are relative to `Gate.`.\n' % len(names)
for k in sorted(g, key=lambda k: len(g[k])):
    d += '\n**%s** (%d): ' % (k, len(g[k]))
    by = collections.OrderedDict()
    for n in g[k]:
        ns, x = n[len('Gate.'):].rsplit('.', 1)
        by.setdefault(ns, []).append(x)
    d += '; '.join('%s: %s' % (ns, ', '.join(xs)) for ns, xs in by.items()) + '.\n'
open('/verif/DESIGN.md', 'w').write(d)
print({k: len(v) for k, v in g.items()})
