"""Propose wrong edits of the definitions of the model: mutate.py N > edits.json   (N edits per definition)

Operators, orders, constants, ends and components are exchanged, one place at a time.  Definitions that already have an
edit in seeded/LOG.jsonl are left out unless ALL=1.
"""
import re, json, sys, glob, random, os
random.seed(int(os.environ.get('SEED', '1')))
N = int(sys.argv[1])
done = {json.loads(l)['definition'].split('.')[-1] for l in open('/verif/seeded/LOG.jsonl')}
CLAIM = {'Analysis': 'the result tables of an analysis (C14, C16, C79)', 'Assemble': 'springs and layers (C41, C62, C64)',
 'Assign': 'attributes assigned later (C73)', 'Axial': 'axial resistance (C33-C37)', 'BC': 'boundary conditions (C01-C04)',
 'Capacity': 'axial capacity (C56)', 'Check': 'the check before an analysis (C69, C86)', 'Conic': 'PISA curves (C28-C30)',
 'Create': 'creation of a model and its analysis (C60, C61)', 'Describe': 'printing (C76)', 'Extent': 'extent of a model (C67)',
 'Extract': 'tables of springs (C42, C88)', 'Hooks': 'PISA parameters (C38)', 'Kernel': 'stiffness and solution (C07-C15)',
 'KraftApi': 'Kraft curves (C36)', 'Lateral': 'lateral curves (C24-C27)', 'Mesh': 'mesh (C05, C06)', 'Model': 'rows of the elements (C43-C45)',
 'PDelta': 'P-delta (C70)', 'Param': 'soil parameters (C31, C32)', 'Pile': 'piles and sections (C46-C51)', 'Plot': 'plots (C77)',
 'Py': 'sorting', 'Reduce': 'index based solver (C86)', 'Result': 'results (C57-C59)', 'Session': 'several models (C75)',
 'Soil': 'soil profiles (C20-C23)', 'SoilAnalysis': 'analysis with soil (C78-C83)', 'SoilModel': 'soil models (C31, C63, C68)',
 'Spring': 'stiffness of springs (C17-C19)', 'Tables': 'tables of springs (C88)', 'Warnings': 'warnings (C87)', 'Weight': 'weight (C54, C55)',
 'Winkler': 'Winkler analysis (C52, C53)'}
RULES = [(r' \+ ', [' - ']), (r' - ', [' + ']), (r' ≤ ', [' < ', ' ≥ ']), (r' < ', [' ≤ ', ' > ']), (r' ≥ ', [' > ', ' ≤ ']), (r' > ', [' ≥ ', ' < ']),
 (r'\bmin\b', ['max']), (r'\bmax\b', ['min']), (r'\.top\b', ['.bottom']), (r'\.bottom\b', ['.top']), (r'\btrue\b', ['false']), (r'\bfalse\b', ['true']),
 (r'\.1\b', ['.2']), (r'\.2\b', ['.1']), (r' ∧ ', [' ∨ ']), (r' ∨ ', [' ∧ ']), (r' && ', [' || ']), (r' \|\| ', [' && ']), (r' \* ', [' / ', ' + ']), (r' / ', [' * ']),
 (r' = 0\b', [' = 1']), (r'(?<![\w.])([2-9]|\d\d+)(?![\w.])', ['BUMP']), (r'getLast\?', ['head?']), (r'head\?', ['getLast?']), (r'sigTop', ['sigBottom']),
 (r'sigBottom', ['sigTop']), (r'\.reverse', ['']), (r' ≠ ', [' = ']), (r'\.filter', ['.takeWhile']), (r'!', ['']), (r'\|([a-z][^|=\n]{0,30})\|', ['(ABS)']),
 (r'\b0\b', ['1']), (r' :: ', None), (r'\.y\b', ['.z']), (r'\.z\b', ['.y']), (r'\.x\b', ['.y']), (r'\+ 1\)', [')']), (r'\bdefault\b', None)]
out = []
for f in sorted(glob.glob('/verif/lean/Verif/Model/*.lean')):
    mod = os.path.basename(f)[:-5]
    s = open(f).read()
    decl = list(re.finditer(r'^(?:noncomputable |private |@\[[^\]]*\] )*(def|structure|inductive|theorem|instance|namespace|end|section|open|variable|abbrev|/--|/-!|/-)\s*([^\s:({\[]*)', s, re.M))
    for i, m in enumerate(decl):
        if m.group(1) != 'def': continue
        name = m.group(2).split('.')[-1]
        if name in done and not os.environ.get('ALL'): continue
        a = m.end(); b = decl[i + 1].start() if i + 1 < len(decl) else len(s)
        body = s[a:b]
        k = re.search(r':=|\n  \|', body)
        if not k: continue
        base = a + k.start()
        sites = []
        for pat, reps in RULES:
            if reps is None: continue
            for x in re.finditer(pat, s[base + 2:b]):
                p, q = base + 2 + x.start(), base + 2 + x.end()
                for r in reps:
                    if r == 'BUMP': r = str(int(x.group(0)) + 1)
                    if r == '(ABS)': r = '(' + x.group(1) + ')'
                    sites.append((p, q, r))
        random.shuffle(sites)
        for p, q, r in sites[:N]:
            lo = s.rfind('\n', 0, p) + 1; hi = s.find('\n', q)
            while True:
                old = s[lo:hi]
                if s.count(old) == 1: break
                lo2 = s.rfind('\n', 0, lo - 1) + 1
                if lo2 <= a: break
                lo = lo2
            nth = s[:lo].count(old)
            out.append({'module': 'Model/' + mod, 'definition': m.group(2), 'old': old, 'new': s[lo:p] + r + s[q:hi], 'claim': CLAIM.get(mod, mod), 'nth': nth})
json.dump(out, sys.stdout, ensure_ascii=False, indent=0)
