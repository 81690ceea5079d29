"""Seed a wrong edit into a scratch copy of the Lean project and record which theorems fail.

usage: seed.py edits.json     (list of {module, definition, old, new, claim[, nth]})
The scratch copy is $SEED_ROOT/lean (default /tmp/seed/lean); /verif is only written in seeded/LOG.jsonl.
The build of the unedited copy is kept in $SEED_ROOT/base and put back after each edit.  A build is stopped a while
after its first error, so that `failed` lists the theorems found failing until then.  Edits already in the log with the
same text are skipped.
"""
import json, re, subprocess, sys, os, time, signal, shutil
ROOT = os.environ.get('SEED_ROOT', '/tmp/seed')
DST = ROOT + '/lean'
BASE = ROOT + '/base'
LOG = '/verif/seeded/LOG.jsonl'
GRACE = 20
def enclosing(path, line):
    ls = open(path).read().split('\n')
    for i in range(min(line, len(ls)) - 1, -1, -1):
        m = re.match(r'(?:@\[[^\]]*\] *)?(?:private |protected |noncomputable )*(theorem|lemma|def|instance|example|structure)\s*([^\s:({\[]*)', ls[i])
        if m: return m.group(1) + (' ' + m.group(2) if m.group(2) else f'@{i+1}')
    return f'line {line}'
def build(grace):
    log = ROOT + '/build.log'
    with open(log, 'w') as f:
        p = subprocess.Popen(['nice', 'lake', 'build'], cwd=DST, stdout=f, stderr=subprocess.STDOUT, start_new_session=True)
    first = None
    while p.poll() is None:
        time.sleep(0.5)
        if first is None and 'error: ' in open(log).read(): first = time.time()
        if first and grace and time.time() - first > grace:
            os.killpg(p.pid, signal.SIGKILL); p.wait()
    out = open(log).read()
    fails = []
    for m in re.finditer(r'error: (\S+?\.lean):(\d+):\d+', out):
        f, l = m.group(1), int(m.group(2))
        n = f'{f.split("Verif/")[-1][:-5]}: ' + enclosing(os.path.join(DST, f), l)
        if n not in fails: fails.append(n)
    return p.returncode, fails, out
def restore():
    shutil.rmtree(DST + '/.lake/build', ignore_errors=True)
    subprocess.run(['cp', '-a', BASE, DST + '/.lake/build'], check=True)
subprocess.run('git -C /verif archive HEAD lean | tar -x -C ' + ROOT, shell=True, check=True)
rc, fails, out = build(0)
assert rc == 0, out[-2000:]
shutil.rmtree(BASE, ignore_errors=True)
subprocess.run(['cp', '-a', DST + '/.lake/build', BASE], check=True)
seen = {(r['definition'], r['edit']) for r in map(json.loads, open(LOG)) if not r.get('survived')}
for e in json.load(open(sys.argv[1])):
    edit = f"{e['old']}  ->  {e['new']}"
    if (e['definition'], edit) in seen: continue
    path = f'{DST}/Verif/{e["module"]}.lean'
    s = open(path).read()
    n = e.get('nth', 0)
    if s.count(e['old']) < n + 1:
        print('NOT FOUND', e['definition'], e['old'], flush=True); continue
    st = os.stat(path)
    parts = s.split(e['old'])
    t = e['old'].join(parts[:n + 1]) + e['new'] + e['old'].join(parts[n + 1:])
    open(path, 'w').write(t)
    t0 = time.time()
    rc, fails, out = build(GRACE)
    open(path, 'w').write(s)
    os.utime(path, ns=(st.st_atime_ns, st.st_mtime_ns))
    restore()
    broken = any(x.startswith(e['module'] + ': ') for x in fails) or (rc != 0 and not fails)
    rec = {'definition': e['definition'], 'edit': edit, 'breaks': e['claim'],
           'failed': fails, 'tightened': [], 'survived': rc == 0}
    print(('SURVIVED ' if rc == 0 else 'BROKEN   ' if broken else 'killed   ') + e['definition'], '|', e['new'].strip()[:60], '|', fails[:6], int(time.time() - t0), flush=True)
    if broken: continue
    with open(LOG, 'a') as f: f.write(json.dumps(rec, ensure_ascii=False) + '\n')
