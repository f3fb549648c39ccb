import Verif.Model.Hex

/-!
# Encoded elements as objects, printing, and the legacy cipher (ed25519_encode.go:914-987, 1794-1800, 1888-1909, 2900-2908,
bouncycastle_crypto.go)

Go strings are byte strings; `str` gives the bytes of an ASCII literal.
-/

set_option autoImplicit false

namespace Ed

/-- The bytes of an ASCII string literal. -/
def str (s : String) : Bytes := s.toList.map fun c => UInt8.ofNat c.toNat

/-- `Ed25519EncodedFieldElement` (ed25519_encode.go:924-927).  The field `zero` is not exported. -/
structure EncFE where
  zero : Bytes
  raw : Bytes
deriving DecidableEq

/-- `NewEd25519EncodedFieldElement` (ed25519_encode.go:931-940). -/
def newEncFE (raw : Bytes) : Out EncFE :=
  if raw.length = 32 then .ok ⟨zeroShort, raw⟩
  else if raw.length = 64 then .ok ⟨zeroLong, raw⟩
  else .err "Invalid 2^8 bit representation."

namespace EncFE

/-- `Equals` (ed25519_encode.go:943-945). -/
def equals (e g : EncFE) : Bool := isEqualConstantTime e.raw g.raw

/-- `IsNegative` (ed25519_encode.go:968-971). -/
def isNegative (e : EncFE) : Out Bool := do
  let b ← Out.index e.raw 0
  .ok (b &&& 1 != 0)

/-- `IsNonZero` (ed25519_encode.go:978-981). -/
def isNonZero (e : EncFE) : Bool := !isEqualConstantTime e.raw e.zero

/-- `Decode` (ed25519_encode.go:989-1037) with the bounds checks of the indices up to 31. -/
def decode (e : EncFE) : Out FE := if e.raw.length < 32 then .panic else .ok (FE.decode e.raw)

/-- `modQ` (ed25519_encode.go:1041-1359) with the bounds checks of the indices up to 63. -/
def modQ (e : EncFE) : Out EncFE := if e.raw.length < 64 then .panic else .ok ⟨zeroShort, Ed.modQ e.raw⟩

/-- `multiplyAndAddModQ` (ed25519_encode.go:1370-1796) with the bounds checks of the indices up to 31. -/
def multiplyAndAddModQ (a b c : EncFE) : Out EncFE :=
  if a.raw.length < 32 ∨ b.raw.length < 32 ∨ c.raw.length < 32 then .panic
  else .ok ⟨zeroShort, Ed.multiplyAndAddModQ a.raw b.raw c.raw⟩

/-- `String` (ed25519_encode.go:1798-1801). -/
def string (e : EncFE) : Bytes := hexEncode e.raw

end EncFE

/-- `Encode` (ed25519_encode.go:853-893), the object. -/
def FE.encodeE (f : FE) : EncFE := ⟨zeroShort, f.encode⟩

/-- `(*Ed25519FieldElement).String` (ed25519_encode.go:916-919). -/
def FE.string (f : FE) : Bytes := f.encodeE.string

/-- `(*Ed25519EncodedGroupElement).String` (ed25519_encode.go:1895-1907): an error becomes its text. -/
def encodedGroupString (raw : Bytes) : Out Bytes :=
  match GC.getAffineX raw with
  | .panic => .panic
  | .err m => .ok (str m)
  | .ok x =>
    match GC.getAffineY raw with
    | .panic => .panic
    | .err m => .ok (str m)
    | .ok y => .ok (str "x=" ++ x.string ++ str "\ny=" ++ y.string ++ str "\n")

/-- `(*Ed25519GroupElement).String` (ed25519_encode.go:2900-2908): a nil T is dereferenced. -/
def GC.string (g : GC) : Out Bytes := do
  let t ← Out.deref g.T
  .ok (str "X=" ++ g.X.string ++ str "\nY=" ++ g.Y.string ++ str "\nZ=" ++ g.Z.string ++ str "\nT=" ++ t.string ++ str "\n")

/-! ## bouncycastle_crypto.go -/

/-- `BufferedBlockCipher` (bouncycastle_crypto.go:8-12); the block cipher and the padding are empty objects
(bouncycastle_crypto.go:62-81), key parameters only hold their bytes (bouncycastle_crypto.go:43-60). -/
structure BufferedCipher where
  output : Bytes

/-- `copy(dst, src)`: the number of bytes copied and `dst` afterwards. -/
def goCopy (dst src : Bytes) : Nat × Bytes :=
  let n := min dst.length src.length
  (n, src.take n ++ dst.drop n)

/-- One call of a method of `BufferedBlockCipher`. -/
inductive BufferedOp
  | getOutputSize (length : Int)
  | reset
  | init (forEncryption : Bool) (key iv : Bytes)
  | doFinal (out : Bytes) (outOff : Int)
  | processBytes (input : Bytes) (inOff length : Int) (out : Bytes) (outOff : Int)

/-- What a call returns and leaves behind: the returned int (0 if there is none), the bytes of `input` and of `out`
afterwards (empty if there is no such argument). -/
structure BufferedResult where
  ret : Int
  input : Bytes
  out : Bytes
deriving DecidableEq

/-- `NewPaddedBufferedBlockCipher` (bouncycastle_crypto.go:15-17). -/
def newBufferedCipher : BufferedCipher := ⟨[]⟩

/-- The methods (bouncycastle_crypto.go:20-41). -/
def BufferedCipher.call (c : BufferedCipher) : BufferedOp → BufferedCipher × BufferedResult
  | .getOutputSize _ => (c, ⟨c.output.length, [], []⟩)
  | .reset => (⟨[]⟩, ⟨0, [], []⟩)
  | .init _ _ _ => (c, ⟨0, [], []⟩)
  | .doFinal out _ => (c, ⟨(goCopy out c.output).1, [], (goCopy out c.output).2⟩)
  | .processBytes input inOff length out _ =>
    if (out.length : Int) < length - inOff then (c, ⟨-1, input, out⟩)
    else (c, ⟨(goCopy input out).1, (goCopy input out).2, out⟩)

/-- A history of calls: the object afterwards and the results. -/
def BufferedCipher.calls : BufferedCipher → List BufferedOp → BufferedCipher × List BufferedResult
  | c, [] => (c, [])
  | c, o :: os =>
    let r := c.call o
    let t := r.1.calls os
    (t.1, r.2 :: t.2)

end Ed
