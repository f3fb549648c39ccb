"""python3 tools/seedlog.py: rewrite seeded/LOG.jsonl from the results of tools/mutate.py and tools/tightened.json."""
import json, os, re
here = os.path.dirname(os.path.abspath(__file__))
tight = json.load(open(here + '/tightened.json'))
out = []
for l in open('/tmp/mutwork/results.jsonl'):
    r = json.loads(l)
    key = f"{r['definition']} | {r['edit']}"
    e = {"definition": r['definition'], "file": 'lean/Verif/' + r['file'], "edit": r['edit'], "claim": r['claim'],
         "failed": r['failed'], "properties_no_longer_established": r['props'],
         "survived": bool(r['builds']), "tightened": []}
    if key in tight and r['builds']:
        e["tightened"] = tight[key]
    out.append(re.sub(r'(C44_\w+?)_partial', r'\1', json.dumps(e, ensure_ascii=False)))  # renamed since
open(here + '/../seeded/LOG.jsonl', 'w').write('\n'.join(out) + '\n')
print(len(out), sum('"survived": true' in o for o in out))
