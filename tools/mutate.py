"""Mutation testing: python3 tools/mutate.py <list.json> [first [last]]

Works in a scratch copy of lean/ (compiled; /tmp/mut or the environment variable MUT).  Each entry of the list: file (below Verif/), def, old, new, claim,
optional "nth".  Applies the edit, runs `lake build`, maps errors to declarations and, through /tmp/deps.txt (constant
dependencies printed from the unmutated build), to the property theorems Cxx_..., restores the file and appends one JSON
line to the result file /tmp/mutwork/results.jsonl."""
import json, re, shutil, signal, subprocess, sys, os, time

MUT = os.environ.get('MUT', '/tmp/mut')
PRISTINE = os.environ.get('PRISTINE', '/tmp/mut_pristine/.lake')
deps = {}
for line in open(os.environ.get('DEPS', '/tmp/deps.txt')):
    if ': ' in line:
        n, d = line.rstrip('\n').split(': ', 1)
        deps[n] = d.split()

def norm(n):
    n = re.sub(r'\._.*$', '', n)
    return n

rev = {}
for n, ds in deps.items():
    for d in ds:
        rev.setdefault(norm(d), set()).add(norm(n))

def users(names):
    seen, todo = set(), list(names)
    while todo:
        n = todo.pop()
        if n in seen: continue
        seen.add(n)
        todo += rev.get(n, ())
    return seen

def decl_at(path, line):
    src = open(path).read().split('\n')
    ns = []
    for i in range(min(line, len(src)) - 1, -1, -1):
        m = re.match(r'(?:@\[[^\]]*\] ?)*(?:private |protected |noncomputable )*(theorem|lemma|def|example|instance|abbrev|structure)\s*([^\s:({\[]*)', src[i])
        if m:
            kind, name = m.group(1), m.group(2)
            # namespace stack
            stack = []
            for l in src[:i]:
                mm = re.match(r'(namespace|section|end)\b\s*(\S*)', l)
                if mm:
                    if mm.group(1) == 'namespace': stack.append(mm.group(2))
                    elif mm.group(1) == 'section': stack.append('')
                    elif stack: stack.pop()
            pre = '.'.join(s for s in stack if s)
            if kind == 'example': return f'example at {os.path.relpath(path, MUT)}:{i+1}'
            return (pre + '.' if pre else '') + name
    return f'{path}:{line}'

def run(m):
    path = f'{MUT}/Verif/{m["file"]}'
    src = open(path).read()
    nth = m.get('nth', 0)
    start = 0
    if m.get('after'):
        start = src.index(m['after'])
    idx = -1
    p = start
    for _ in range(nth + 1):
        idx = src.index(m['old'], p)
        p = idx + 1
    new = src[:idx] + m['new'] + src[idx + len(m['old']):]
    assert new != src
    open(path, 'w').write(new)
    t = time.time()
    try:
        mod = 'Verif.' + m['file'][:-5].replace('/', '.')
        r = subprocess.run(['lake', 'build', mod], cwd=MUT, capture_output=True, text=True, timeout=1500)
        if re.search(r'error: Verif/' + re.escape(m['file']), r.stdout + r.stderr):
            print('INVALID  ', m['def'], '|', m['edit'], flush=True)
            return
        with subprocess.Popen(['lake', 'build'], cwd=MUT, stdout=subprocess.PIPE, stderr=subprocess.STDOUT, text=True,
                              start_new_session=True) as pr:
            try:
                out, _ = pr.communicate(timeout=1500)
                ok = pr.returncode == 0
            except subprocess.TimeoutExpired:
                os.killpg(pr.pid, signal.SIGKILL)
                out, _ = pr.communicate()
                ok = False
                out += '\nTIMEOUT'
    finally:
        open(path, 'w').write(src)
        if os.path.isdir(PRISTINE):  # the compiled files of the unmutated copy
            shutil.rmtree(f'{MUT}/.lake')
            shutil.copytree(PRISTINE, f'{MUT}/.lake', symlinks=True)
    fails = []
    for mm in re.finditer(r'error: (Verif/[\w/]+\.lean):(\d+):', out):
        d = decl_at(f'{MUT}/{mm.group(1)}', int(mm.group(2)))
        if d not in fails: fails.append(d)
    us = users(fails)
    props = sorted(u[3:] for u in us if re.match(r'Ed\.C\d+_', u))
    res = dict(id=m.get('id'), definition=m['def'], file=m['file'], edit=m['edit'], claim=m['claim'], builds=ok, failed=fails, props=props,
               secs=round(time.time() - t), timeout='TIMEOUT' in out)
    with open('/tmp/mutwork/results.jsonl', 'a') as f: f.write(json.dumps(res) + '\n')
    print(('SURVIVED ' if ok else 'killed   '), m['def'], '|', m['edit'], '|', fails[:4], len(props), res['secs'], flush=True)

ms = json.load(open(sys.argv[1]))
a = int(sys.argv[2]) if len(sys.argv) > 2 else 0
b = int(sys.argv[3]) if len(sys.argv) > 3 else len(ms)
for m in ms[a:b]:
    try: run(m)
    except Exception as e: print('BAD', m['def'], m['old'], repr(e), flush=True)
