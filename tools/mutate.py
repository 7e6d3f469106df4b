#!/usr/bin/env python3
"""Run wrong programs against the proofs, in a scratch copy of lean/ outside /verif.

usage: mutate.py mutations.json [scratch]
mutations.json: list of {"def", "file", "old", "new", "edit", "breaks", "props"}.
Needs /tmp/mutools/deps.tsv (or MUTDEPS) (cp tools/deps.lean.txt to a .lean file outside /verif and run lake env lean on it) for a built tree.
With MUTPROPS=1 only the modules that state theorems of the listed properties are built, which is faster; theorems elsewhere
are then not tried.
Appends one line per mutation to /tmp/mutools/results.jsonl.
"""
import json, os, re, shutil, subprocess, sys

SRC = os.environ.get('MUTSRC', '/verif/lean')
scratch = sys.argv[2] if len(sys.argv) > 2 else '/tmp/mut'
deps = {}
for line in open(os.environ.get('MUTDEPS', '/tmp/mutools/deps.tsv')):
    n, d = line.rstrip('\n').split('\t')
    deps[n.replace('Vpin.', '', 1).replace('Geometry.', '', 1)] = set(x.replace('Vpin.', '', 1).replace('Geometry.', '', 1) for x in d.split())


def enclosing(path, line):
    ls = open(path).read().split('\n')
    for i in range(min(line, len(ls)) - 1, -1, -1):
        m = re.match(r'(?:@\[[^\]]*\]\s*)?(?:private |protected |noncomputable )*(theorem|def|example|instance|abbrev|lemma|structure|inductive)\b\s*(\S*)', ls[i])
        if m:
            return m.group(2) if m.group(1) != 'example' else 'example@%s:%d' % (os.path.basename(path), i + 1)
    return '?'


for m in json.load(open(sys.argv[1])):
    if os.path.exists(scratch):
        shutil.rmtree(scratch)
    subprocess.run(['cp', '-a', SRC, scratch], check=True)
    edits = m.get('edits') or [[m['file'], m['old'], m['new']]]
    bad = False
    for f, old, new in edits:
        p = os.path.join(scratch, 'Verif', f)
        s = open(p).read()
        if s.count(old) != 1:
            print('!! pattern occurs %d times in %s: %r' % (s.count(old), f, old))
            bad = True
            continue
        open(p, 'w').write(s.replace(old, new))
    if bad:
        continue
    targets = []
    if os.environ.get('MUTPROPS'):
        for f in sorted(os.listdir(os.path.join(scratch, 'Verif', 'Props'))):
            t = open(os.path.join(scratch, 'Verif', 'Props', f)).read()
            if any(re.search(r'^theorem %s_' % p, t, re.M) for p in m['props']):
                targets.append('Verif.Props.' + f[:-5])
    r = subprocess.run(['lake', 'build'] + targets, cwd=scratch, capture_output=True, text=True)
    out = r.stdout + r.stderr
    direct = []
    for mm in re.finditer(r'^error: (Verif/\S+\.lean):(\d+):\d+', out, re.M):
        d = enclosing(os.path.join(scratch, mm.group(1)), int(mm.group(2)))
        if d not in direct:
            direct.append(d)
    failed = sorted(c for c, ds in deps.items() if c in direct or any(d in ds for d in direct))
    hit = {f[:3] for f in failed}
    missed = [p for p in m.get('props', []) if p not in hit]
    rec = dict(definition=m['def'], edit=m['edit'], breaks=m['breaks'], failed_direct=direct[:20],
               failed=failed, survived=(r.returncode == 0), missed_props=missed)
    open('/tmp/mutools/results.jsonl', 'a').write(json.dumps(rec) + '\n')
    print(m['def'], '|', m['edit'], '| survived' if r.returncode == 0 else '| direct %s' % direct[:6],
          '| C: %d' % len(failed), '| MISSED %s' % missed if missed else '', flush=True)
