"""python3 tools/coverage.py: which functions of /repo are cited (file:lines) by a definition of the model."""
import re, glob, os
cites = {}
for f in glob.glob(os.path.dirname(os.path.abspath(__file__)) + '/../lean/Verif/**/*.lean', recursive=True):
    if '/Model/' not in f: continue
    for m in re.finditer(r'(\w+\.go):((?:\d+(?:-\d+)?(?:,\s*)?)+)', open(f).read()):
        for r in re.findall(r'\d+(?:-\d+)?', m.group(2)):
            a, _, b = r.partition('-')
            cites.setdefault(m.group(1), []).append((int(a), int(b or a), os.path.basename(f)))
out = ['# Functions of /repo and the model files that cite them', '', '(generated by tools/coverage.py from the citations `file:lines` in lean/Verif/Model)', '', '| file:lines | function | modelled in |', '|---|---|---|']
for g in sorted(glob.glob('/repo/*.go')):
    n = os.path.basename(g)
    if n.endswith('_test.go'): continue
    lines = open(g).read().split('\n')
    i = 0
    while i < len(lines):
        m = re.match(r'(?: \*/)?func (?:\(\w* ?\*?(\w+)\) )?(\w+)', lines[i])
        if m:
            j = i
            while not lines[j].startswith('}') and not re.match(r'func .*}\s*$', lines[j]): j += 1
            mods = sorted({c[2] for c in cites.get(n, []) if c[0] <= j + 1 and c[1] >= i + 1})
            out.append(f"| {n}:{i+1}-{j+1} | {(m.group(1)+'.') if m.group(1) else ''}{m.group(2)} | {' '.join(mods) or '---'} |")
            i = j
        i += 1
open(os.path.dirname(os.path.abspath(__file__)) + '/../COVERAGE.md', 'w').write('\n'.join(out) + '\n')
print([o for o in out if '---' in o][1:])
