#!/usr/bin/env python3
"""Runs wrong programs against the theorems.

usage: mutate.py MUTANTS.py OUT.jsonl [--src DIR] [--scratch DIR] [--only id,id]

MUTANTS.py defines a list `M` of tuples (id, file, anchor, old, new, definition, claim): in `file`
(below lean/Verif) the first `old` after the text `anchor` becomes `new`.  Each mutant is built in a
scratch copy of lean/; the pristine .lake is put back afterwards.  A build is stopped a minute after
its first error, so the list of failed theorems need not be complete.  While SCRATCH.pause exists no
new mutant is started.
"""
import json, os, re, shutil, signal, subprocess, sys, threading, time

GRACE = 60

args = sys.argv[1:]
SRC = args[args.index('--src') + 1] if '--src' in args else '/verif/lean'
muts, out = args[0], args[1]
scratch = args[args.index('--scratch') + 1] if '--scratch' in args else '/tmp/mut'
only = args[args.index('--only') + 1].split(',') if '--only' in args else None

ns = {}
exec(open(muts).read(), ns)


def sync():
    for a, b, copy in ((SRC, scratch, True), (scratch, SRC, False)):
        for d, _, fs in os.walk(a):
            e = b + d[len(a):]
            if copy:
                os.makedirs(e, exist_ok=True)
            for f in fs:
                x, y = os.path.join(d, f), os.path.join(e, f)
                if not copy:
                    if not os.path.exists(y):
                        os.remove(x)
                    continue
                s = os.stat(x)
                if os.path.exists(y):
                    u = os.stat(y)
                    if (u.st_size, u.st_mtime_ns) == (s.st_size, s.st_mtime_ns):
                        continue
                    os.remove(y)
                shutil.copy2(x, y)


def imports():
    g = {}
    for d, _, fs in os.walk(scratch + '/Verif'):
        for f in fs:
            if f.endswith('.lean'):
                p = os.path.join(d, f)
                mod = os.path.relpath(p, scratch)[:-5].replace('/', '.')
                g[mod] = re.findall(r'^import (Verif\.\S+)', open(p).read(), re.M)
    return g


def dependents(failed):
    g = imports()
    hit = set(failed)
    changed = True
    while changed:
        changed = False
        for m, ds in g.items():
            if m not in hit and any(x in hit for x in ds):
                hit.add(m)
                changed = True
    return hit - set(failed)


def owner(path, line):
    L = open(os.path.join(scratch, path)).read().split('\n')
    for i in range(min(line, len(L)) - 1, -1, -1):
        m = re.match(r'\s*(?:@\[[^\]]*\]\s*)?(?:private |protected |noncomputable )*(theorem|lemma|def|example|instance|abbrev)\b\s*(\S*)', L[i])
        if m:
            return (m.group(2) if m.group(1) != 'example' else 'example') or m.group(1)
    return '?'


def build():
    """`lake build`, stopped GRACE seconds after the first module that does not build."""
    r = subprocess.Popen(['lake', 'build'], cwd=scratch, stdout=subprocess.PIPE, stderr=subprocess.STDOUT,
                         text=True, start_new_session=True)
    txt, first = [], []

    def read():
        for l in r.stdout:
            txt.append(l)
            if not first and re.search(r'error: Verif/\S+\.lean:\d+', l):
                first.append(time.time())
    t = threading.Thread(target=read, daemon=True)
    t.start()
    start, code = time.time(), None
    while code is None:
        time.sleep(1)
        code = r.poll()
        if code is None and (first and time.time() - first[0] > GRACE or time.time() - start > 4000):
            os.killpg(r.pid, signal.SIGKILL)
            r.wait()
            code = 'stopped' if first else 'timeout'
    t.join(5)
    return ''.join(txt), code


done = set()
if os.path.exists(out):
    for l in open(out):
        done.add(json.loads(l)['id'])
for (mid, file, anchor, old, new, definition, claim) in ns['M']:
    if mid in done or (only and mid not in only):
        continue
    while os.path.exists(scratch + '.pause'):
        time.sleep(5)
    sync()
    p = f'{scratch}/Verif/{file}'
    t = open(p).read()
    k = t.find(anchor)
    q = t.find(old, k) if k >= 0 else -1
    if q < 0:
        print('NOT FOUND', mid, flush=True)
        continue
    open(p, 'w').write(t[:q] + new + t[q + len(old):])
    txt, code = build()
    errs = re.findall(r'error: (Verif/\S+\.lean):(\d+):\d+', txt)
    failed = {}
    for f, l in errs:
        mod = f[:-5].replace('/', '.')
        n = owner(f, int(l))
        if n not in failed.setdefault(mod, []):
            failed[mod].append(n)
    blocked = sorted(m for m in dependents(failed) if '.Props.' in m)
    rec = dict(id=mid, file=file, definition=definition, edit=f'{old.strip()} -> {new.strip()}', claim=claim,
               code=code, failed=failed, blocked=blocked)
    open(out, 'a').write(json.dumps(rec, ensure_ascii=False) + '\n')
    print(mid, code, {m: v[:4] for m, v in failed.items()}, len(blocked), flush=True)
sync()
