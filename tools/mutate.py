#!/usr/bin/env python3
"""Seeded bugs: applies each edit of a JSON list to a scratch copy of the Lean project, rebuilds it and reports the theorems that fail.
usage: mutate.py mutations.json out.jsonl (an entry has old and new, or a list of edits);  MUTTARGETS: the modules to build (default: all)"""
import json, os, re, shutil, subprocess, sys
SRC = os.environ.get('MUTSRC', os.path.join(os.path.dirname(os.path.dirname(os.path.abspath(__file__))), 'lean'))
DST = os.environ.get('MUTDIR', '/tmp/mut/lean')
def theorem_at(path, line):
    ls = open(path).read().split('\n')
    for k in range(min(line, len(ls)) - 1, -1, -1):
        m = re.match(r'(?:@\[.*\] )?(?:private )?(theorem|def|instance|example|structure|abbrev|inductive)\b\s*(\S*)', ls[k])
        if m: return m.group(2) if m.group(1) != 'example' else 'example at line %d' % (k + 1)
    return '?'
muts = json.load(open(sys.argv[1]))
os.makedirs(os.path.dirname(DST), exist_ok=True)
for mu in muts:
    subprocess.run(['rsync', '-a', '--delete', '--exclude', '.git', SRC + '/', DST + '/'], check=True) if shutil.which('rsync') else (shutil.rmtree(DST, ignore_errors=True), shutil.copytree(SRC, DST, symlinks=True))
    p = os.path.join(DST, 'Verif', mu['file'])
    s = open(p).read()
    bad = False
    for old, new in mu.get('edits') or [(mu['old'], mu['new'])]:
        if s.count(old) != mu.get('count', 1):
            print('BAD', mu['definition'], old, s.count(old)); bad = True
        s = s.replace(old, new)
    if bad: continue
    open(p, 'w').write(s)
    r = subprocess.run(['lake', 'build'] + os.environ.get('MUTTARGETS', '').split(), cwd=DST, capture_output=True, text=True, timeout=1500)
    out = r.stdout + r.stderr
    failed = []
    for f, l in re.findall(r'error: (Verif/\S+\.lean):(\d+):\d+', out):
        t = theorem_at(os.path.join(DST, f), int(l))
        if t not in failed: failed.append(t)
    rec = {'definition': mu['definition'], 'edit': mu['edit'], 'claim': mu['claim'], 'theorems_failed': failed, 'theorems_tightened': mu.get('tightened', []), 'caught': r.returncode != 0}
    open(sys.argv[2], 'a').write(json.dumps(rec) + '\n')
    print(rec['caught'], mu['definition'], failed[:4], flush=True)
