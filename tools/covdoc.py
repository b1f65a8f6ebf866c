#!/usr/bin/env python3
"""Regenerates the section "What is modelled, file by file" of DESIGN.md from the citations in the modules."""
import sys, os
sys.path.insert(0, os.path.dirname(__file__))
from coverage import cov
why = [
 ("generated protobuf code; the message fields which matter are in the models of the code using them", lambda p: p.endswith('.pb.go')),
 ("protobuf schemas", lambda p: p.endswith('.proto')),
 ("only calls the package's Main or implements a flag, interface or package comment: no behaviour of its own", lambda p: p in (
   'cmd/gate-daemon/main.go','cmd/gate-runtime/main.go','cmd/gate-server/main.go','cmd/gate/main.go','doc.go','facile/doc.go','internal/bus/bus.go','internal/sys/doc.go','prebuild.go','packet/packetservice.go',
   'principal/instanceid.go','principal/principal.go','runtime/logger.go','server/logger.go','server/monitor/webmonitor/logger.go','service/grpc/executable/log.go','internal/defaultlog/defaultlog.go','internal/error/subsystem/subsystem.go',
   'packet/packetio/chan.go','service/origin/chan.go','server/contenterror.go','runtime/container/config.go','server/op.go','runtime/loader/poll.S','server/serverconfig.go')),
 ("build variants (debug builds, other platforms, where a binary is found) which the models don't distinguish", lambda p: p in (
   'cmd/gate/main/text_disabled.go','cmd/gate/main/text_enabled.go','image/memory_ashmem.go','internal/debug/debug.go','internal/debug/nodebug.go','packet/nofmt.go','runtime/include/debug.h','runtime/loader/debug.h') or 'internal/container/binary_' in p or
   'child/binary_' in p or 'child/debug_' in p or 'child/limit_' in p or p in ('internal/container/common/sandbox_disabled.go','runtime/container/binary_execdir.go','internal/container/child/memfd.go')),
 ("a system call and its error: modelled at the callers as one action which may fail", lambda p: p in ('image/fdatasync.go','image/ftruncate.go','runtime/pipe.go','runtime/socketpair.go','internal/sys/caps.go') or '/include/' in p),
 ("test programs and test helpers", lambda p: '/test/' in p),
 ("another embedding of the runtime (Android), not used by the server", lambda p: p.startswith('facile/')),
]
used = {p: h for p, h in cov.items() if h}
rest = [p for p, h in cov.items() if not h]
out = ["## What is modelled, file by file", "", "Generated by `tools/covdoc.py` from the citations in the modules. A file being listed means that the listed modules model functions of it, with the lines cited beside",
  "each definition and the simplifications named there; lines which are cited nowhere aren't modelled.", "", "| File | Modules |", "|---|---|"]
for p, h in used.items(): out.append("| `%s` | %s |" % (p, ", ".join(h)))
out += ["", "Not modelled:", ""]
for reason, f in why:
    l = [p for p in rest if f(p)]
    rest = [p for p in rest if not f(p)]
    if l: out.append("* " + reason + ": " + ", ".join("`%s`" % p for p in l))
if rest: out.append("* not reached so far: " + ", ".join("`%s`" % p for p in rest))
out += ["* outside the repository, and parameters or arbitrary parties in the models: the wag compiler and its generated machine code, the Go runtime and standard library (except where a function is transcribed and said to be),",
  "  the Linux kernel, systemd, protobuf encoding where not transcribed, Ed25519 and SHA-384 (as arbitrary functions, assumed injective only where a theorem says so), SQL databases beyond the statements used.", ""]
p = '/verif/DESIGN.md'
t = open(p).read()
b = "## What is modelled, file by file"
if b in t:
    i = t.index(b); j = t.index("## Trusted base")
else:
    i = j = t.index("## Trusted base")
open(p, 'w').write(t[:i] + "\n".join(out) + "\n" + t[j:])
print(rest)
