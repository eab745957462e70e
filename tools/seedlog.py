"""Collects the results of the seeded-bug runs (scratch directory /tmp/mut, see DESIGN.md) into seeded/LOG.jsonl."""
import json, os, re, sys, importlib
sys.path.insert(0, '/tmp/mut')
LOG = '/verif/seeded/LOG.jsonl'
old = [json.loads(l) for l in open(LOG)] if os.path.exists(LOG) else []
by = {o['id']: o for o in old}
TIGHT = json.load(open('/verif/seeded/tightened.json')) if os.path.exists('/verif/seeded/tightened.json') else {}

def defname(base, f, s):
    t = open(base + '/Verif/' + f).read()
    i = t.find(s)
    if i < 0:
        return f
    ds = re.findall(r'^(?:def|abbrev|instance|structure|inductive) (\S+)', t[:i + len(s)], re.M)
    return ds[-1] if ds else f

for mod in ['muts', 'muts2', 'muts3', 'muts4', 'muts5', 'muts6', 'muts7', 'muts8', 'muts9', 'muts10', 'muts11', 'muts12', 'muts13', 'muts14', 'muts15', 'muts16', 'muts17', 'muts18']:
    if not os.path.exists('/tmp/mut/%s.py' % mod):
        continue
    m = importlib.import_module(mod)
    base = getattr(m, 'BASE', '/tmp/mut/base')
    for n, (claim, edits) in m.M.items():
        p = '/tmp/mut/out_%s.json' % n
        if not os.path.isdir(base):
            continue
        if not os.path.exists(p):
            continue
        o = json.load(open(p))
        limit = {'muts13': 'C84', 'muts14': 'C88', 'muts15': 'C89', 'muts16': 'C92'}.get(mod)  # their bases predate these properties
        if limit:
            o['res'] = {c: ts for c, ts in o['res'].items() if c < limit}
        failed = sorted({t for ts in o['res'].values() for t, s in ts.items() if s == 'FAIL'})
        claims = [c for c, ts in o['res'].items() if any(s == 'FAIL' for s in ts.values())]
        dead = sorted(o['dead'])
        decls = sorted({d for v in o['errs'].values() for d, _, _ in v if d != ':'})
        if not failed and decls:  # the listed theorems were not evaluated (module ran out of memory); their lemmas failed
            failed = decls
        by[n] = {'id': n,
                 'definition': ', '.join(sorted({defname(base, f, s) for f, s, _ in edits})),
                 'file': ', '.join(sorted({'lean/Verif/' + f for f, _, _ in edits})),
                 'edit': [{'old': s, 'new': w} for _, s, w in edits],
                 'claim_broken': claim, 'claims_failing': claims, 'theorems_failed': failed,
                 'declarations_with_errors': decls,
                 'theorems_tightened': TIGHT.get(n, {}).get('tightened', [])}
        if dead:
            by[n]['modules_not_evaluated'] = dead
        if n in TIGHT:
            by[n]['note'] = TIGHT[n]['note']
with open(LOG, 'w') as f:
    for n in sorted(by):
        f.write(json.dumps(by[n], ensure_ascii=False) + '\n')
print(len(by), 'entries; no failure:', [n for n in sorted(by) if not by[n]['theorems_failed']])
