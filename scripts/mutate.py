#!/usr/bin/env python3
"""Apply each seeded bug of a JSON file to a scratch copy of the Lean project, rebuild, and record which
theorems no longer prove.  usage: mutate.py mutants.json [scratch dir]
Each mutant: {"file","old","new","definition","edit","claim"}.  One JSON line per mutant goes to seeded/LOG.jsonl
(duplicates of an edit already logged are skipped)."""
import json, os, re, subprocess, sys, shutil
src = '/verif/lean'
scratch = sys.argv[2] if len(sys.argv) > 2 else '/tmp/mut'
log = '/verif/seeded/LOG.jsonl'
done = set()
for l in open(log):
    if l.strip():
        d = json.loads(l); done.add((d['definition'], d['edit']))
muts = json.load(open(sys.argv[1]))
subprocess.run(['rsync', '-a', '--delete', src + '/', scratch + '/'], check=True) if shutil.which('rsync') else \
    subprocess.run(f'rm -rf {scratch} && cp -a {src} {scratch}', shell=True, check=True)
decl = re.compile(r'^(?:@\[[^\]]*\]\s*)?(?:private |protected |noncomputable )*(theorem|lemma|example|def|instance|structure)\s*([^\s:({\[]*)')
for m in muts:
    if (m['definition'], m['edit']) in done: continue
    p = os.path.join(scratch, 'Verif', m['file'])
    orig = open(p).read()
    n = orig.count(m['old'])
    if n < 1:
        print('NOT FOUND', m['definition'], m['edit'], flush=True); continue
    if n > 1 and not m.get('all'):
        print('AMBIGUOUS', n, m['definition'], m['edit'], flush=True); continue
    open(p, 'w').write(orig.replace(m['old'], m['new']))
    r = subprocess.run(['lake', 'build'], cwd=scratch, capture_output=True, text=True)
    out = r.stdout + r.stderr
    failed = []
    model_err = False
    for f, line in re.findall(r'error: (Verif/[\w/]+\.lean):(\d+):', out):
        lines = open(os.path.join(scratch, f)).read().split('\n')
        for k in range(int(line) - 1, -1, -1):
            g = decl.match(lines[k])
            if g:
                nm = g.group(2) or 'example@%s:%d' % (f, k + 1)
                if '/Model/' in f: model_err = True
                if nm not in failed: failed.append(nm)
                break
    open(p, 'w').write(orig)
    rec = {'definition': m['definition'], 'edit': m['edit'], 'claim': m['claim'], 'failed': failed,
           'tightened': m.get('tightened', [])}
    if model_err:
        print('MODEL ERROR', m['definition'], m['edit'], failed, flush=True); continue
    if r.returncode == 0:
        print('SURVIVED', m['definition'], m['edit'], flush=True)
        rec['survived'] = True
    else:
        print('killed', m['definition'], '|', m['edit'], '|', failed[:6], flush=True)
    if r.returncode != 0 or m.get('log_survivor'):
        with open(log, 'a') as fh: fh.write(json.dumps(rec) + '\n')
    else:
        with open('/tmp/mutw/survivors.jsonl', 'a') as fh: fh.write(json.dumps(m) + '\n')
