import Verif.Model.PGroup
import Verif.Model.Dsa
import Verif.Model.Cipher

/-!
# The API as goroutines (ed25519_model.go, ed25519_encode.go:18-29)

Arguments (the raw bytes of keys, messages, signatures, ciphertexts) are arrays in memory that several goroutines may share; they are
read each time the code reads them, one array after the other and byte by byte.  Buffers that a function makes for itself are values.  `bp` is the address of
the shared base point.
-/

set_option autoImplicit false

namespace Ed
namespace PG
open Prog

variable (E : Env) (bp : Addr)

/-- `io.ReadFull` (standard library, contract): `need` bytes are missing, `got` have been read. -/
def readLoop (s : Nat) : (fuel : Nat) → (need : Nat) → (got : Bytes) → Prog Bytes
  | _, 0, got => pure got
  | 0, _ + 1, _ => lift .panic
  | fuel + 1, need + 1, got => .ask s need fun a =>
    if need + 1 ≤ a.1.length then .ret (.ok (got ++ a.1))
    else
      match a.2 with
      | some x => .ret (.err (if 0 < (got ++ a.1).length ∧ x = "EOF" then "unexpected EOF" else x))
      | none => readLoop s fuel (need + 1 - a.1.length) (got ++ a.1)

/-- `io.ReadFull(seed, make([]byte, n))`.  Each call that does not end the loop delivers at least one byte, so `n` rounds suffice. -/
def readFull (s n : Nat) : Prog Bytes := readLoop s n n []

/-- `BASE_POINT()` (ed25519_encode.go:1933-1935). -/
def basePoint : Prog Addr := copy bp

/-- `GetAffineX` up to the test of the sign (ed25519_encode.go:1844-1864). -/
def affineRoot (raw : Bytes) : Out FE := do
  let y ← GC.getAffineY raw
  let ySquare := y.square
  let u := ySquare.subtract .one
  let v := (ySquare.multiply dFE).add .one
  let x := FE.sqrt u v
  let vxSquare := x.square.multiply v
  let checkForZero := vxSquare.subtract u
  if checkForZero.isNonZero then
    let checkForZero := vxSquare.add u
    if checkForZero.isNonZero then .err "not a valid Ed25519EncodedGroupElement."
    else .ok (x.multiply iFE)
  else .ok x

/-- The sign of x (ed25519_encode.go:1866-1868). -/
def withSign (x : FE) (raw : Bytes) : FE := if x.isNegative != getBitToBool raw 255 then x.negate else x

/-- `Decode` of an array (ed25519_encode.go:1818-1831): it is read for y, for the sign of x, and for y again. -/
def decodeAt (raw : Addr) : Prog Addr := do
  let r ← loadBytes raw
  let x ← lift (affineRoot r)
  let r ← loadBytes raw
  let x := withSign x r
  let r ← loadBytes raw
  let y ← lift (GC.getAffineY r)
  let t := x.multiply y
  newGC (GC.newP3 x y .one (some t))

/-- `PrepareForScalarMultiply` (ed25519_encode.go:18-29). -/
def prepareForScalarMultiply (key : Option Addr) : Prog Bytes := do
  let k ← lift (Out.deref key)
  let raw ← loadBytes k
  let hash := hashesSha3_512 E [raw]
  pure (clamp (hash.take 32))

/-- `DerivePublicKey` (ed25519_model.go:374-384). -/
def derivePublicKey (key : Option Addr) : Prog PublicKey := do
  let a ← prepareForScalarMultiply E key
  let b ← basePoint bp
  let p ← (scalarMultiply b a).mapOut Out.orPanic
  let el ← (encode p).mapOut Out.orPanic
  pure (newPublicKey el)

/-- `Sign` (ed25519_model.go:206-263): the private key and the message are read twice. -/
def sign (priv : Option Addr) (pub mess : Addr) : Prog Signature :=
  if !priv.isSome then lift (.err "cannot sign without private key")
  else do
    let k ← lift (Out.deref priv)
    let raw ← loadBytes k
    let hash := hashesSha3_512 E [raw]
    let m ← loadBytes mess
    let hashR := hashesSha3_512 E [hash.drop 32, m]
    let r ← lift (newEncodedFieldElement hashR)
    let rModQ := modQ r
    let b ← basePoint bp
    let R ← scalarMultiply b rModQ
    let encodedR ← encode R
    let pubRaw ← loadBytes pub
    let m ← loadBytes mess
    let hashH := hashesSha3_512 E [encodedR, pubRaw, m]
    let h ← lift (newEncodedFieldElement hashH)
    let hModQ := modQ h
    let a ← prepareForScalarMultiply E priv
    let encodedS := multiplyAndAddModQ hModQ a rModQ
    let signature ← lift (newSignature encodedR encodedS)
    if !isCanonicalSignature signature then lift (.err "Generated signature is not canonical")
    else pure signature

/-- The part of `Verify` after the two initial checks (ed25519_model.go:281-321). -/
def verifyEquation (pub mess sigR sigS : Addr) : Prog Bool := do
  let r ← loadBytes sigR
  let pubRaw ← loadBytes pub
  let m ← loadBytes mess
  let hashR := hashesSha3_512 E [r, pubRaw, m]
  let h ← lift (newEncodedFieldElement hashR)
  let hModQ := modQ h
  let A ← decodeAt pub
  precomputeDouble A
  let b ← basePoint bp
  lift (checkSlide hModQ)
  let s ← loadBytes sigS
  lift (checkSlide s)
  let R ← doubleScalarMultiplyVariableTime b A hModQ s
  let enc ← encode R
  let r ← loadBytes sigR
  pure (isEqualConstantTime enc r)

/-- `Verify` (ed25519_model.go:270-322). -/
def verify (pub mess sigR sigS : Addr) : Prog Bool := do
  let s ← loadBytes sigS
  if !isCanonicalSignature ⟨[], s⟩ then pure false
  else
    let pubRaw ← loadBytes pub
    if isEqualConstantTime pubRaw (List.replicate 32 0) then pure false
    else (verifyEquation E bp pub mess sigR sigS).mapOut Out.orFalse

/-- `GetSharedKey` (ed25519_model.go:120-144).  `salt` is how the salt is read, at the time it is used.  `NewEd25519EncodedGroupElement` looks
only at the length of the public key. -/
def getSharedKey (keyLength : Nat) (priv : Option Addr) (pub : Addr) (salt : Prog Bytes) : Prog Bytes := do
  let raw ← loadBytes pub
  let _ ← lift (newEncodedGroupElement raw)
  let A ← decodeAt pub
  precomputeSingle A
  let a ← prepareForScalarMultiply E priv
  let el ← scalarMultiply A a
  let sharedKey ← encode el
  let salt ← salt
  let sharedKey ← lift ((List.range keyLength).foldlM (xorSaltStep salt) sharedKey)
  pure (hashesSha3_256 E sharedKey)

/-- `Encrypt` (ed25519_model.go:147-175). -/
def encrypt (seed keyLength : Nat) (priv : Option Addr) (pub input : Addr) : Prog Bytes := do
  let salt ← readFull seed keyLength
  let sharedKey ← getSharedKey E keyLength priv pub (pure salt)
  let iv ← readFull seed 16
  let i ← loadBytes input
  let buf ← lift (Ed.encode E i sharedKey iv)
  pure ((salt ++ iv) ++ buf)

/-- `Decrypt` (ed25519_model.go:178-193): the first reading is for the length only; the salt is a part of the input, read when it is used. -/
def decrypt (keyLength : Nat) (priv : Option Addr) (pub input : Addr) : Prog Bytes := do
  let i ← loadBytes input
  if i.length < 64 then lift (.err "input is to short for decryption")
  else if keyLength > 48 then lift .panic
  else
    let sharedKey ← getSharedKey E keyLength priv pub (do
      let i ← loadBytes input
      pure (i.take keyLength))
    let i ← loadBytes input
    let ivData := (i.take 48).drop keyLength
    let i ← loadBytes input
    lift (Ed.decode E (i.drop 48) sharedKey ivData)

/-- `GenerateKeyPair` (ed25519_model.go:360-371); the seed buffer becomes the private key. -/
def generateKeyPair (seed : Nat) : Prog KeyPair := do
  let raw ← readFull seed 32
  let k ← new (.bytes raw)
  let publicKey ← derivePublicKey E bp (some k)
  lift (newKeyPair E (some (newPrivateKey raw)) (some publicKey))

/-- `MakeSignatureCanonical` (ed25519_model.go:332-342). -/
def makeSignatureCanonical (sigR sigS : Addr) : Prog Signature := do
  let s ← loadBytes sigS
  let e ← lift (newEncodedFieldElement (copy64 s))
  let r ← loadBytes sigR
  lift (newSignature r (modQ e))

end PG

/-- A `KeyPair` in memory: the addresses of the raw bytes of its keys; `none` for a nil private key. -/
structure PPair where
  priv : Option Addr
  pub : Addr

/-- A call of the API with its arguments: addresses of byte arrays, readers by number. -/
inductive Call
  /-- `DerivePublicKey`, `NewKeyPair(priv, nil, nil)` -/
  | derive (priv : Option Addr)
  /-- `Sign` of the signer for a key pair -/
  | sign (kp : PPair) (mess : Addr)
  /-- `Verify` of the signer for a key pair with a signature (R, S) -/
  | verify (kp : PPair) (mess sigR sigS : Addr)
  /-- `MakeSignatureCanonical` -/
  | canonical (sigR sigS : Addr)
  /-- `GetSharedKey` of a cipher with this key length -/
  | sharedKey (keyLength : Nat) (priv : Option Addr) (pub salt : Addr)
  /-- `Encrypt` of a cipher -/
  | encrypt (sender recipient : PPair) (keyLength seed : Nat) (input : Addr)
  /-- `Decrypt` of a cipher -/
  | decrypt (sender recipient : PPair) (keyLength seed : Nat) (input : Addr)
  /-- `GenerateKeyPair` of a generator with this reader -/
  | generate (seed : Nat)

/-- What a call returns. -/
inductive Res
  | bytes (b : Bytes)
  | bool (b : Bool)
  | sig (s : Signature)
  | keyPair (k : KeyPair)
deriving DecidableEq

/-- The goroutine of a call. -/
def Call.prog (E : Env) (bp : Addr) : Call → Prog Res
  | .derive k => do
    let p ← PG.derivePublicKey E bp k
    pure (.bytes p.raw)
  | .sign kp m => do
    let s ← PG.sign E bp kp.priv kp.pub m
    pure (.sig s)
  | .verify kp m r s => do
    let b ← PG.verify E bp kp.pub m r s
    pure (.bool b)
  | .canonical r s => do
    let s ← PG.makeSignatureCanonical r s
    pure (.sig s)
  | .sharedKey n k p salt => do
    let b ← PG.getSharedKey E n k p (PG.loadBytes salt)
    pure (.bytes b)
  | .encrypt snd rcp n seed i => do
    let b ← PG.encrypt E seed n snd.priv rcp.pub i
    pure (.bytes b)
  | .decrypt snd rcp n _ i => do
    let b ← PG.decrypt E n rcp.priv snd.pub i
    pure (.bytes b)
  | .generate seed => do
    let k ← PG.generateKeyPair E bp seed
    pure (.keyPair k)

/-- A goroutine that makes calls one after the other and keeps all outcomes, also errors (and recovered panics). -/
def Call.progs (E : Env) (bp : Addr) : List Call → Prog (List (Out Res))
  | [] => pure []
  | c :: cs => do
    let r ← (c.prog E bp).catch_
    let rs ← progs E bp cs
    pure (r :: rs)

end Ed
