import Verif.Model.Env
import Verif.Model.Tables
import Verif.Spec.Bytes

/-!
# Keys and signatures (key_model.go, key_pair.go, signature.go, ed25519_encode.go:17-46)
-/

set_option autoImplicit false

namespace Ed

/-- Value of a big-endian byte string: `(&big.Int{}).SetBytes` (math/big, contract). -/
def beVal (b : Bytes) : Nat := leVal b.reverse

/-- `PrivateKey` (key_model.go:34-38).  A nil `*PrivateKey` is `none : Option PrivateKey`. -/
structure PrivateKey where
  value : Int
  raw : Bytes
deriving DecidableEq

/-- `PublicKey` (key_model.go:69-71). -/
structure PublicKey where
  raw : Bytes
deriving DecidableEq

/-- `KeyPair` (key_pair.go:10-13).  `NewKeyPair` never returns a pair with a nil public key, so only
the private key is optional. -/
structure KeyPair where
  priv : Option PrivateKey
  pub : PublicKey
deriving DecidableEq

/-- `NewPrivateKey` (key_model.go:41-43). -/
def newPrivateKey (raw : Bytes) : PrivateKey := ⟨beVal raw, raw⟩

/-- `NewPublicKey` (key_model.go:74-76). -/
def newPublicKey (raw : Bytes) : PublicKey := ⟨raw⟩

/-- `HasPrivateKey` (key_pair.go:43-46). -/
def KeyPair.hasPrivateKey (k : KeyPair) : Bool := k.priv.isSome

/-- `IsKeyCompressed` (ed25519_encode.go:43-46). -/
def isKeyCompressed (k : PublicKey) : Bool := 32 == k.raw.length

variable (E : Env)

/-- The three bit operations of `PrepareForScalarMultiply` (ed25519_encode.go:25-27). -/
def clamp (a : Bytes) : Bytes :=
  let a := a.set 31 (a.getD 31 0 &&& 0x7F)
  let a := a.set 31 (a.getD 31 0 ||| 0x40)
  a.set 0 (a.getD 0 0 &&& 0xF8)

/-- `PrepareForScalarMultiply` (ed25519_encode.go:18-29); `key.Raw` with a nil key panics.  The hash is a
fresh slice of 64 bytes, so slicing `hash[:32]` cannot fail and the caller's key is not changed. -/
def prepareForScalarMultiply (key : Option PrivateKey) : Out Bytes := do
  let k ← Out.deref key
  let hash := hashesSha3_512 E [k.raw]
  .ok (clamp (hash.take 32))

/-- A returned error that the caller turns into a panic (`if err != nil { panic(err) }`). -/
def Out.orPanic {α : Type} : Out α → Out α
  | .ok a => .ok a
  | _ => .panic

/-- `Ed25519Group.BASE_POINT()` (ed25519_encode.go:1933-1935); an error of `getBasePoint` panics in
`init` (ed25519_encode.go:1976-1979). -/
def basePoint : Out GE := do
  let g ← Out.orPanic getBasePoint
  .ok g.copy

/-- `DerivePublicKey` (ed25519_model.go:374-384); an error of `Encode` is ignored there and the nil
result dereferenced, which panics. -/
def derivePublicKey (key : Option PrivateKey) : Out PublicKey := do
  let a ← prepareForScalarMultiply E key
  let b ← basePoint
  let pubKey ← Out.orPanic (b.scalarMultiply a)
  let el ← Out.orPanic pubKey.encode
  .ok (newPublicKey el)

/-- `NewKeyPair` (key_pair.go:23-35) with an Ed25519 engine (`nil` is the default engine, which is one). -/
def newKeyPair (priv : Option PrivateKey) (pub : Option PublicKey) : Out KeyPair :=
  match pub with
  | none => do
    let p ← derivePublicKey E priv
    .ok ⟨priv, p⟩
  | some p => if !isKeyCompressed p then .err "publicKey must be in compressed form" else .ok ⟨priv, p⟩

/-- `Signature` (signature.go:17-20), as values; for the sharing of memory see Model/Heap. -/
structure Signature where
  R : Bytes
  S : Bytes
deriving DecidableEq

/-- `NewSignature` (signature.go:29-35). -/
def newSignature (r s : Bytes) : Out Signature :=
  if r.length ≠ 32 ∨ s.length ≠ 32 then
    .err "binary signature representation of r and s must both have 32 bytes length"
  else .ok ⟨r, s⟩

/-- `NewSignatureFromBytes` (signature.go:52-57). -/
def newSignatureFromBytes (b : Bytes) : Out Signature :=
  if b.length < 64 then .err "binary signature representation must be 64 bytes"
  else newSignature (b.take 32) (b.drop 32)

/-- `GetR` (signature.go:60-63); `utils.BytesToBigInteger` is little-endian (go-xpx-utils, contract). -/
def Signature.getR (s : Signature) : Nat := leVal s.R
/-- `GetS` (signature.go:66-69). -/
def Signature.getS (s : Signature) : Nat := leVal s.S
/-- `Bytes` (signature.go:72-75), the returned value. -/
def Signature.bytes (s : Signature) : Bytes := s.R ++ s.S

end Ed
