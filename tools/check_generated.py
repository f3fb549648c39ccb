"""Regenerates the generated parts of the model from /repo and reports whether they are what is committed:
Model/Scalar.lean and Model/Tables.lean as whole files, the arithmetic lines of Model/Field.lean line by line."""
import subprocess, sys
bad = 0
for gen, f in (('gen_scalar_model', 'Scalar'), ('gen_tables', 'Tables')):
    p = f'/verif/lean/Verif/Model/{f}.lean'
    old = open(p).read()
    subprocess.run([sys.executable, f'/verif/tools/{gen}.py'], check=True, stdout=subprocess.DEVNULL)
    new = open(p).read()
    open(p, 'w').write(old)
    print(f, 'same' if old == new else 'DIFFERS')
    bad |= old != new
out = subprocess.run([sys.executable, '/verif/tools/gen_field_model.py'], check=True, capture_output=True, text=True).stdout
have = set(open('/verif/lean/Verif/Model/Field.lean').read().split('\n'))
miss = [l for l in out.split('\n') if l.strip() and not l.startswith('--') and l not in have]
print('Field', 'same' if not miss else f'DIFFERS: {miss[:3]}')
sys.exit(1 if bad or miss else 0)
