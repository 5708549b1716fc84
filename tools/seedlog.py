"""Converts the raw results of the mutation runs (see DESIGN.md, mutation testing) into seeded/LOG.jsonl.
usage: seedlog.py raw1.jsonl raw2.jsonl ...   ; seeded/tightened.json maps a key to what was tightened."""
import json, sys, os
here = os.path.dirname(os.path.dirname(os.path.abspath(__file__)))
tp = os.path.join(here, 'seeded', 'tightened.json')
tight = json.load(open(tp)) if os.path.exists(tp) else {}
out, seen = [], set()
for f in sys.argv[1:]:
    if not os.path.exists(f): continue
    for l in open(f):
        r = json.loads(l)
        if r['key'] in seen: continue
        seen.add(r['key'])
        if 'op' in r:        # systematic edits (one operator or constant at a time); the run stops at the first failing module
            if r['status'] == 'MODELERR': continue        # the edited model is not a program
            import re
            ids = sorted({m.group(0) for t in r['fails'] for m in [re.match(r'C\d\d+', t)] if m})
            t = tight.get(r['key'], {})
            out.append({'definition': r['definition'], 'file': 'lean/Verif/Model/%s.lean' % r['file'],
                        'edit': 'systematic %s: %s -> %s in: %s' % (r['op'], r['old'].strip(), r['new'].strip(), r['ctx'].strip()),
                        'claim_broken': ', '.join(ids) or t.get('claim', 'those resting on the failed proofs' if r['fails'] else 'none'),
                        'theorems_failed': r['fails'], 'examples_with_errors': len(r['exf']),
                        'tightened': t.get('tightened', []), **({'note': t['note']} if 'note' in t else {})})
            continue
        lem = [x for x in r['failed'] if 'example' not in x]
        ex = [x for x in r['failed'] if 'example' in x]
        rec = {'definition': r['definition'], 'file': 'lean/Verif/Model/%s.lean' % r['file'], 'edit': r['edit'], 'claim_broken': r['claim'],
               'theorems_failed': r['tainted'], 'proofs_with_errors': lem, 'examples_with_errors': len(ex),
               'tightened': tight.get(r['key'], [])}
        if isinstance(rec['tightened'], dict):
            rec['note'] = rec['tightened'].get('note', ''); rec['tightened'] = rec['tightened'].get('tightened', [])
        out.append(rec)
with open(os.path.join(here, 'seeded', 'LOG.jsonl'), 'w') as fh:
    for r in out: fh.write(json.dumps(r, ensure_ascii=False) + '\n')
print(len(out), 'attempts;', sum(1 for r in out if not r['theorems_failed']), 'with no failing theorem')
