"""Runs the model, with the real primitives (lean/Verif/Real), on the test vectors of the repository: the constants of
ed25519_model_test.go (Test_Encrypt, Test_Decrypt), crypto_test.go (five hashes), signature_test.go and key_modal_test.go.
A test of the fidelity of the model, not a proof.  Prints one line per test.

The model is run in a scratch copy /tmp/conf in which the arrays of limbs and digits, in the model functions on indices, are
Lean arrays of 24 and 256 entries (`subst` below): the compiled code of functions returning functions would compute every entry
again at each access.  All other definitions are compiled as they are."""
import os, re, shutil, subprocess, sys
C = '/tmp/conf'
os.makedirs(C, exist_ok=True)
shutil.copytree('/verif/lean', C, dirs_exist_ok=True, ignore=shutil.ignore_patterns('.lake', 'Props', 'Proofs'))
def subst(f, *rs):
    t = open(f'{C}/Verif/{f}').read()
    for a, b in rs:
        assert a in t, (f, a)
        t = t.replace(a, b)
    open(f'{C}/Verif/{f}', 'w').write(t)
arr = lambda T, e, n: f"""structure {T} where
  arr : Array {e}
instance : CoeFun {T} fun _ => Nat → {e} := ⟨fun s i => s.arr.getD i 0⟩
def {T}.of (f : Nat → {e}) : {T} := ⟨(Array.range {n}).map f⟩"""
subst('Go/Limbs.lean', ('abbrev Limbs := Nat → Int64', arr('Limbs', 'Int64', 24)),
      ('fun j => if j = i then v else s j', '⟨s.arr.setIfInBounds i v⟩'))
subst('Model/Field.lean', ('def limbs (f : FE) : Limbs\n', 'def limbs (f : FE) : Limbs := Limbs.of fun\n'))
subst('Model/Scalar.lean', ('(b : Bytes) : Limbs\n', '(b : Bytes) : Limbs := Limbs.of fun\n'),
      ('(a b c : Limbs) : Limbs\n', '(a b c : Limbs) : Limbs := Limbs.of fun\n'))
subst('Model/Recode.lean', ('abbrev Digits := Nat → Int8', arr('Digits', 'Int8', 256)),
      ('fun j => if j = i then v else e j', '⟨e.arr.setIfInBounds i v⟩'),
      ('radix16Nibbles (a : Bytes) : Digits := fun', 'radix16Nibbles (a : Bytes) : Digits := Digits.of fun'),
      ('slideBits (a : Bytes) : Digits := fun', 'slideBits (a : Bytes) : Digits := Digits.of fun'))
subprocess.run(['lake', 'build', 'Verif.Model.Engine', 'Verif.Model.Hex', 'Verif.Real.Env'], cwd=C, check=True, stdout=subprocess.DEVNULL)
rd = lambda f: open('/repo/' + f).read()
mt = rd('ed25519_model_test.go')
const = {m[1]: m[2] for m in re.finditer(r'^\t(\w+)\s*=\s*"([^"]*)"', mt, re.M)}
ct = re.sub(r'"\s*\+\s*"', '', rd('crypto_test.go'))
tests = []
for body in ct.split('\nfunc Test')[1:]:
    name = body.split('(')[0]
    proof = re.search(r'proof = "(\w+)"', body)[1]
    want = re.search(r'Equal\(t, "(\w+)"', body)[1]
    tests.append((name, proof, 'DecodeString(proof)' in body, want))
sigwant = re.search(r'expectedSignature = "(\w+)"', rd('signature_test.go'))[1]
kt = rd('key_modal_test.go')
kc = {m[1]: m[2] for m in re.finditer(r'(?:var|const) (\w+) = "([^"]*)"', kt)}
model = {'HashesSha_256': 'hashesSha_256 OtherHashes.real', 'HashesKeccak_256': 'hashesKeccak_256 OtherHashes.real',
         'HashesSha3_256': 'hashesSha3_256 Env.real', 'HashesSha3_512': 'fun b => hashesSha3_512 Env.real [b]',
         'HashesRipemd160': 'hashesRipemd160 OtherHashes.real'}
o = '''import Verif.Real.Env
import Verif.Model.Cipher
import Verif.Model.Engine
import Verif.Model.Hex
open Ed
def asc (s : String) : Bytes := s.toUTF8.toList
def hx (s : String) : Bytes := match hexDecode (asc s) with | .ok b => b | _ => []
def str (b : Bytes) : String := String.ofList (b.map fun c => Char.ofNat c.toNat)
def outs {α : Type} (f : α → String) : Out α → String | .ok a => f a | .err e => "error: " ++ e | .panic => "panic"
def tell (name got want : String) : IO Unit := IO.println (if got = want then s!"same {name}" else s!"DIFFERS {name}: {got} instead of {want}")
def pair (priv : String) : Out KeyPair := do
  let k ← newPrivateKeyFromHexString (asc priv)
  newKeyPairI Env.real (some k) none none
def world (salt iv : String) : World := fun n => if n = 1 then [⟨hx salt, none⟩, ⟨hx iv, none⟩] else []
'''
o += '#eval show IO Unit from do\n'
for n, p, h, w in tests:
    arg = f'(hx "{p}")' if h else f'(asc "{p}")'
    o += f'  tell "{n}" (str (hexEncode (({model[n]}) {arg}))) "{w}"\n'
c = const
o += f'''  let enc : Out Bytes := do
    let s ← pair "{c['senderPrivateKey']}"
    let r ← pair "{c['recipientPrivateKey']}"
    (((ed25519Engine Env.real (some 1)).createBlockCipher s r).encrypt (asc "{c['message']}") (world "{c['salt']}" "{c['iv']}")).1
  tell "Test_Encrypt" (outs (fun b => str (hexEncode b)) enc) "{c['encrypted']}"
  let dec : Out Bytes := do
    let s ← pair "{c['senderPrivateKey']}"
    let r ← pair "{c['recipientPrivateKey']}"
    (newBlockCipherI Env.real s r none).decrypt (hx "{c['encrypted']}")
  tell "Test_Decrypt" (outs str dec) "{c['message']}"
  let dec2 : Out Bytes := do
    let s ← pair "{c['senderPrivateKey']}"
    let r ← pair "{c['recipientPrivateKey']}"
    (newBlockCipherI Env.real r s none).decrypt (hx "{c['encrypted']}")
  tell "Decrypt with exchanged roles (C67)" (outs str dec2) "{c['message']}"
  let sig : Out Bool := do
    let s ← pair "{c['senderPrivateKey']}"
    let g ← sign Env.real s (asc "{c['message']}")
    let g' ← newSignatureFromBytes g.bytes
    verify Env.real s.pub (asc "{c['message']}") g'
  tell "Sign, Bytes, NewSignatureFromBytes, Verify" (outs toString sig) "true"
  let sig2 : Out Bool := do
    let s ← pair "{c['senderPrivateKey']}"
    let g ← sign Env.real s (asc "{c['message']}")
    verify Env.real s.pub (asc "another message") g
  tell "Verify for another message" (outs toString sig2) "false"
  tell "TestSignature_String_HexRepresentation" (outs (fun s => str s.string) (newSignature ((hx "{sigwant}").take 32) ((hx "{sigwant}").drop 32))) "{sigwant}"
  tell "TestNewPrivateKey" (outs (fun k => str k.string) (newPrivateKeyFromHexString (asc "{kc['testPrivatKeyHex']}"))) "{kc['testPrivatKeyHex']}"
  tell "TestNewPublicKeyfromHex" (outs (fun k => str k.string) (newPublicKeyFromHex (asc "{kc['testHexKeyValue']}"))) "{kc['testHexKeyValue']}"
  tell "TestNewPublicKeyfromHex_Malformed" (match newPublicKeyFromHex (asc "{kc['testHexKeyMalformed']}") with | .err _ => "error" | .ok _ => "ok" | .panic => "panic") "error"
'''
open('/tmp/conformance.lean', 'w').write(o)
r = subprocess.run(['lake', 'env', 'lean', '/tmp/conformance.lean'], cwd=C, capture_output=True, text=True)
print(r.stdout, r.stderr)
sys.exit(0 if 'DIFFERS' not in r.stdout and r.returncode == 0 and not r.stderr else 1)
