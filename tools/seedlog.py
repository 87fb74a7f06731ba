"""Append the results of tools/mutate.py to seeded/LOG.jsonl: python3 seedlog.py RESULTS..."""
import json, sys
inv = 0
with open('/verif/seeded/LOG.jsonl', 'a') as out:
    for f in sys.argv[1:]:
        for l in open(f):
            d = json.loads(l)
            if any(x.startswith('Model/') for x in d['failed']):
                inv += 1  # the edited model itself is rejected: not a program
                continue
            out.write(json.dumps({
                'definition': d['definition'], 'edit': d['edit'],
                'claim': ' '.join(d['breaks']) + ': ' + d['claim'],
                'theorems_failed': d['failed'], 'theorems_tightened': d.get('tightened', []),
                **({'note': d['note']} if d.get('note') else {})}) + '\n')
print('invalid mutants skipped:', inv)
