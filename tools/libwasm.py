#!/usr/bin/env python3
"""Writes lean/Verif/LibBytes.lean: the bytes of runtime/abi/library.go, and the module they are to be decoded to (which is proved, not trusted)."""
import re
src = open('/repo/runtime/abi/library.go').read()
b = [int(x, 16) for x in re.findall(r'0x([0-9a-f]{2}),', src)]
csum = re.search(r'LibraryChecksum uint64 = (0x[0-9a-f]+)', src).group(1)
first = next(i for i, l in enumerate(src.splitlines(), 1) if 'libraryWASM' in l) + 1
class D:
    def __init__(s, b): s.b = b; s.p = 0
    def byte(s): s.p += 1; return s.b[s.p - 1]
    def u(s):
        n = k = 0
        while True:
            v = s.byte(); n |= (v & 127) << k; k += 7
            if v < 128: return n
    def s(s, bits):
        n = k = 0
        while True:
            v = s.byte(); n |= (v & 127) << k; k += 7
            if v < 128:
                if v & 64: n -= 1 << k
                return n % (1 << bits)
    def vec(s, f): return [f() for _ in range(s.u())]
loops = []
num = {0x45:'i32Eqz',0x46:'i32Eq',0x47:'i32Ne',0x49:'i32LtU',0x4e:'i32GeS',0x4f:'i32GeU',0x51:'i64Eq',0x52:'i64Ne',0x6a:'i32Add',0x6b:'i32Sub',0x71:'i32And',0x72:'i32Or',0x83:'i64And',0xa7:'i32Wrap'}
def code(d):
    out = []
    while True:
        o = d.byte()
        if o in (0x0b, 5): return out, o
        if o in (2, 3):
            assert d.byte() == 0x40
            c, e = code(d); assert e == 0x0b
            if o == 3: loops.append(lst(c)[1:-1]); out.append('.loop @%d@' % (len(loops) - 1))
            else: out.append('.block %s' % lst(c))
        elif o == 4:
            ty = d.byte()
            t, e = code(d); f = []
            if e == 5: f, e = code(d)
            out.append('.ite %s %s %s' % ('true' if ty != 0x40 else 'false', lst(t), lst(f)))
        elif o == 0x0c: out.append('.br %d' % d.u())
        elif o == 0x0d: out.append('.brIf %d' % d.u())
        elif o == 0x0f: out.append('.ret')
        elif o == 0x10: out.append('.call %d' % d.u())
        elif o == 0x1a: out.append('.drop')
        elif o == 0x20: out.append('.get %d' % d.u())
        elif o == 0x21: out.append('.set %d' % d.u())
        elif o == 0x41: out.append('.const %d' % d.s(32))
        elif o == 0x42: out.append('.const %d' % d.s(64))
        elif o in (0x28, 0x29, 0x2d): d.u(); out.append('.load %d %d' % ({0x28:4,0x29:8,0x2d:1}[o], d.u()))
        elif o in (0x36, 0x37, 0x3a, 0x3b): d.u(); out.append('.store %d %d' % ({0x36:4,0x37:8,0x3a:1,0x3b:2}[o], d.u()))
        else: out.append('.' + num[o])
def lst(c): return '(' + ' <| '.join('.cons (%s)' % i if ' ' in i else '.cons ' + i for i in c) + (' <| .nil)' if c else '.nil)')
d = D(b); d.p = 8
m = {}
while d.p < len(b):
    i = d.byte(); n = d.u(); e = d.p + n
    if i == 1: m[1] = d.vec(lambda: (d.byte(), d.vec(d.byte), d.vec(d.byte)))
    elif i == 2: m[2] = d.vec(lambda: (d.vec(d.byte), d.vec(d.byte), d.byte(), d.u()))
    elif i == 3: m[3] = d.vec(d.u)
    elif i == 5: m[5] = d.vec(lambda: (d.byte(), d.u()))
    elif i == 7: m[7] = d.vec(lambda: (d.vec(d.byte), d.byte(), d.u()))
    elif i == 10:
        def f():
            del loops[:]
            d.u(); ls = sum(d.vec(lambda: (d.u(), d.byte())[0])); c = code(d)[0]; return ls, c, list(loops)
        m[10] = d.vec(f)
    assert d.p == e
name = lambda x: bytes(x).decode()
o = '''import Verif.Wasm
/-
Generated by tools/libwasm.py from /repo/runtime/abi/library.go:5-%d: the bytes of the embedded library, its checksum, and the module which the bytes are
the encoding of (LibWasm.lean proves that).
-/
namespace Gate.Wasm

/-- runtime/abi/library.go:5. -/
def libraryChecksum : Nat := %s

''' % (len(src.splitlines()), csum)
N = 240
parts = []
for k in range(0, len(b), N):
    c = b[k:k + N]
    l0 = first + k // 12; l1 = first + (k + len(c) - 1) // 12
    o += '/-- runtime/abi/library.go:%d-%d. -/\ndef bytes%d : List Nat := [%s]\n\n' % (l0, l1, k // N, ', '.join(map(str, c)))
    parts.append('bytes%d' % (k // N))
o += '/-- `libraryWASM`, runtime/abi/library.go:7-%d. -/\ndef libraryWASM : List Nat := %s\n\n' % (len(src.splitlines()), ' ++ ('.join(parts) + ')' * (len(parts) - 1))
for k, (n, c, lo) in enumerate(m[10]):
    nm = name(m[7][k][0]); assert m[7][k][2] == k + 8
    sub = lambda x: re.sub('@([0-9]+)@', lambda y: 'loop_%s_%s' % (nm, y.group(1)), x)
    for q, x in enumerate(lo): o += '/-- A loop\'s body in `%s`. -/\ndef loop_%s_%d : Code := %s\n\n' % (nm, nm, q, sub(x))
    o += '/-- The code of `%s` in library.go. -/\ndef code_%s : Code := %s\n\n' % (nm, nm, sub(lst(c)[1:-1]))
o += '/-- The functions\' names, in order of index, with their numbers of local variables. -/\ndef libExports : List (List Nat × Nat) := [%s]\n\n' % ', '.join('("%s".toList.map Char.toNat, %d)' % (name(x[0]), x[2]) for x in m[7])
o += '/-- The embedded library. -/\ndef lib : Module where\n'
o += '  types := [%s]\n' % ', '.join('⟨%s, %s⟩' % (x[1], x[2]) for x in m[1])
o += '  imports := [%s]\n' % ', '.join('⟨"%s".toList.map Char.toNat, "%s".toList.map Char.toNat, %d⟩' % (name(x[0]), name(x[1]), x[3]) for x in m[2])
o += '  funcs := %s\n  memory := some %d\n  exports := libExports\n' % (m[3], m[5][0][1])
o += '  codes := [%s]\n\nend Gate.Wasm\n' % ', '.join('(%d, code_%s)' % (n, name(m[7][k][0])) for k, (n, c, lo) in enumerate(m[10]))
open('/verif/lean/Verif/LibBytes.lean', 'w').write(o)
