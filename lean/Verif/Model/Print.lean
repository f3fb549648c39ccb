import Verif.Model.Dsa
import Verif.Model.Cipher
import Verif.Model.NilGroup

/-!
# What the library prints

`fmt.Println` and `fmt.Printf` are called in three places: `PrepareForScalarMultiply` (ed25519_encode.go:22), `Verify`
(ed25519_model.go:288-317) and `Equals` of group elements (ed25519_encode.go:2111).  The functions that contain or reach these calls
again, with the text they send to standard output.
-/

set_option autoImplicit false

namespace Ed

/-- A call with the text it prints. -/
structure Pr (α : Type) where
  res : Out α
  text : String

namespace Pr

/-- A call that prints nothing. -/
def silent {α : Type} (o : Out α) : Pr α := ⟨o, ""⟩

/-- One call after the other; an error or a panic ends the function, what was printed stays. -/
def bind {α β : Type} (x : Pr α) (f : α → Pr β) : Pr β :=
  match x.res with
  | .ok a => ⟨(f a).res, x.text ++ (f a).text⟩
  | .err m => ⟨.err m, x.text⟩
  | .panic => ⟨.panic, x.text⟩

end Pr

/-- `fmt.Println(err)`: the message and a line feed. -/
def printlnErr (m : String) : String := m ++ "\n"

variable (E : Env)

/-- `HashesSha3_512` with its error result (crypto.go:49-60): the `Write` of a hash never fails (contract of `hash.Hash`). -/
def hashesSha3_512Err (inputs : List Bytes) : Out Bytes := .ok (hashesSha3_512 E inputs)

/-- `PrepareForScalarMultiply` (ed25519_encode.go:18-29): an error of the hash is printed, and `hash[:32]` of the nil slice panics. -/
def prepareForScalarMultiplyPr (key : Option PrivateKey) : Pr Bytes :=
  Pr.bind (Pr.silent (Out.deref key)) fun k =>
  match hashesSha3_512Err E [k.raw] with
  | .ok hash => Pr.silent (.ok (clamp (hash.take 32)))
  | .err m => ⟨.panic, printlnErr m⟩
  | .panic => Pr.silent .panic

/-- `DerivePublicKey` (ed25519_model.go:374-384). -/
def derivePublicKeyPr (key : Option PrivateKey) : Pr PublicKey :=
  Pr.bind (prepareForScalarMultiplyPr E key) fun a =>
  Pr.silent (do
    let b ← basePoint
    let pubKey ← Out.orPanic (b.scalarMultiply a)
    let el ← Out.orPanic pubKey.encode
    .ok (newPublicKey el))

/-- `Sign` (ed25519_model.go:206-263). -/
def signPr (kp : KeyPair) (mess : Bytes) : Pr Signature :=
  if !kp.hasPrivateKey then Pr.silent (.err "cannot sign without private key")
  else
    Pr.bind (Pr.silent (Out.deref kp.priv)) fun k =>
    Pr.bind (Pr.silent (hashesSha3_512Err E [k.raw])) fun hash =>
    Pr.bind (Pr.silent (hashesSha3_512Err E [hash.drop 32, mess])) fun hashR =>
    Pr.bind (Pr.silent (newEncodedFieldElement hashR)) fun r =>
    Pr.bind (Pr.silent basePoint) fun b =>
    Pr.bind (Pr.silent (b.scalarMultiply (modQ r))) fun R =>
    Pr.bind (Pr.silent R.encode) fun encodedR =>
    Pr.bind (Pr.silent (hashesSha3_512Err E [encodedR, kp.pub.raw, mess])) fun hashH =>
    Pr.bind (Pr.silent (newEncodedFieldElement hashH)) fun h =>
    Pr.bind (prepareForScalarMultiplyPr E kp.priv) fun a =>
    Pr.bind (Pr.silent (newSignature encodedR (multiplyAndAddModQ (modQ h) a (modQ r)))) fun signature =>
    Pr.silent (if !isCanonicalSignature signature then .err "Generated signature is not canonical" else .ok signature)

/-- `if err != nil { fmt.Println(err); return false }` after a call, else go on (ed25519_model.go:287-318). -/
def orPrintFalse {α : Type} (o : Out α) (f : α → Pr Bool) : Pr Bool :=
  match o with
  | .ok a => f a
  | .err m => ⟨.ok false, printlnErr m⟩
  | .panic => Pr.silent .panic

/-- `Verify` (ed25519_model.go:270-322). -/
def verifyPr (pub : PublicKey) (mess : Bytes) (sig : Signature) : Pr Bool :=
  if !isCanonicalSignature sig then Pr.silent (.ok false)
  else if isEqualConstantTime pub.raw (List.replicate 32 0) then Pr.silent (.ok false)
  else
    orPrintFalse (hashesSha3_512Err E [sig.R, pub.raw, mess]) fun hashR =>
    orPrintFalse (newEncodedFieldElement hashR) fun h =>
    orPrintFalse (GC.decode pub.raw) fun A =>
    orPrintFalse (GE.ofGC A).precomputeForDoubleScalarMultiplication fun A =>
    orPrintFalse (do
      let b ← basePoint
      checkSlide (modQ h)
      checkSlide sig.S
      b.doubleScalarMultiplyVariableTime A (modQ h) sig.S) fun calculatedR =>
    orPrintFalse calculatedR.encode fun encodedCalculatedR =>
    Pr.silent (.ok (isEqualConstantTime encodedCalculatedR sig.R))

/-- `GetSharedKey` (ed25519_model.go:120-144). -/
def getSharedKeyPr (keyLength : Nat) (priv : Option PrivateKey) (pub : PublicKey) (salt : Bytes) : Pr Bytes :=
  Pr.bind (Pr.silent (newEncodedGroupElement pub.raw)) fun grA =>
  Pr.bind (Pr.silent (GC.decode grA)) fun senderA =>
  Pr.bind (Pr.silent (GE.ofGC senderA).precomputeForScalarMultiplication) fun senderA =>
  Pr.bind (prepareForScalarMultiplyPr E priv) fun a =>
  Pr.bind (Pr.silent (senderA.scalarMultiply a)) fun el =>
  Pr.bind (Pr.silent el.encode) fun sharedKey =>
  Pr.bind (Pr.silent ((List.range keyLength).foldlM (xorSaltStep salt) sharedKey)) fun sharedKey =>
  Pr.silent (.ok (hashesSha3_256 E sharedKey))

/-- `Decrypt` (ed25519_model.go:178-193). -/
def BlockCipher.decryptPr (c : BlockCipher) (input : Bytes) : Pr Bytes :=
  if input.length < 64 then Pr.silent (.err "input is to short for decryption")
  else if c.keyLength > 48 then Pr.silent .panic
  else
    Pr.bind (getSharedKeyPr E c.keyLength c.recipient.priv c.sender.pub (input.take c.keyLength)) fun sharedKey =>
    Pr.silent (decode E (input.drop 48) sharedKey ((input.take 48).drop c.keyLength))

/-- A call that reads sources and prints. -/
def ActPr (α : Type) : Type := World → Pr α × World

namespace ActPr

/-- A call that prints nothing. -/
def silent {α : Type} (x : Act α) : ActPr α := fun w => (Pr.silent (x w).1, (x w).2)

/-- A call that reads nothing. -/
def lift {α : Type} (x : Pr α) : ActPr α := fun w => (x, w)

/-- One call after the other. -/
def bind {α β : Type} (x : ActPr α) (f : α → ActPr β) : ActPr β := fun w =>
  match (x w).1.res with
  | .ok a => (⟨(f a (x w).2).1.res, (x w).1.text ++ (f a (x w).2).1.text⟩, (f a (x w).2).2)
  | .err m => (⟨.err m, (x w).1.text⟩, (x w).2)
  | .panic => (⟨.panic, (x w).1.text⟩, (x w).2)

end ActPr

/-- `Encrypt` (ed25519_model.go:147-175). -/
def BlockCipher.encryptPr (c : BlockCipher) (input : Bytes) : ActPr Bytes :=
  ActPr.bind (ActPr.silent (Act.read c.seed c.keyLength)) fun salt =>
  ActPr.bind (ActPr.lift (getSharedKeyPr E c.keyLength c.sender.priv c.recipient.pub salt)) fun sharedKey =>
  ActPr.bind (ActPr.silent (Act.read c.seed 16)) fun iv =>
  ActPr.bind (ActPr.silent (Act.lift (encode E input sharedKey iv))) fun buf =>
  ActPr.lift (Pr.silent (.ok ((salt ++ iv) ++ buf)))

/-- `NewKeyPair` (key_pair.go:23-35) with an Ed25519 engine. -/
def newKeyPairPr (priv : Option PrivateKey) (pub : Option PublicKey) : Pr KeyPair :=
  match pub with
  | none => Pr.bind (derivePublicKeyPr E priv) fun p => Pr.silent (.ok ⟨priv, p⟩)
  | some p => Pr.silent (if !isKeyCompressed p then .err "publicKey must be in compressed form" else .ok ⟨priv, p⟩)

/-- `GenerateKeyPair` (ed25519_model.go:360-371). -/
def generateKeyPairPr (seed : Nat) : ActPr KeyPair :=
  ActPr.bind (ActPr.silent (Act.read seed 32)) fun raw =>
  ActPr.bind (ActPr.lift (derivePublicKeyPr E (some (newPrivateKey raw)))) fun publicKey =>
  ActPr.lift (newKeyPairPr E (some (newPrivateKey raw)) (some publicKey))

/-! ## `Equals` of group elements

A panic is recovered and printed, so its value matters: `Except.error v` is a panic whose value `%v` prints as v. -/

/-- The text of the run-time error of a nil dereference (package runtime). -/
def nilPanic : String := "runtime error: invalid memory address or nil pointer dereference"

namespace GCN

/-- `x.f(*y)` (ed25519_encode.go:172-252). -/
def opV (f : FE → FE → FE) (x y : Option FE) : Except String FE :=
  match x, y with
  | some a, some b => .ok (f a b)
  | _, _ => .error nilPanic

/-- `x.Equals(y)` (ed25519_encode.go:911-914). -/
def eqV (x y : Option FE) : Except String Bool :=
  match x, y with
  | some a, some b => .ok (a.equals b)
  | _, _ => .error nilPanic

/-- `x && y`, the second operand only if the first holds. -/
def andThenV (x y : Except String Bool) : Except String Bool :=
  match x with
  | .ok true => y
  | .ok false => .ok false
  | .error v => .error v

/-- `toCoordinateSystem` (ed25519_encode.go:2354-2419) with the values it panics with. -/
def toCoordinateSystemV (g : GCN) (n : Int) : Except String GCN :=
  if g.sys = 1 then
    if n = 1 then .ok (newP2 g.X g.Y g.Z) else .error "NewIllegalArgumentException P2"
  else if g.sys = 2 then
    if n = 1 then .ok (newP2 g.X g.Y g.Z)
    else if n = 2 then .ok (newP3 g.X g.Y g.Z g.T)
    else if n = 5 then do
      let X ← opV FE.add g.Y g.X
      let Y ← opV FE.subtract g.Y g.X
      let t ← opV FE.multiply g.T (some d2FE)
      .ok (newCached (some X) (some Y) g.Z (some t))
    else .error "NewIllegalArgumentException P3"
  else if g.sys = 3 then
    if n = 1 then do
      let x ← opV FE.multiply g.X g.T
      let y ← opV FE.multiply g.Y g.Z
      let z ← opV FE.multiply g.Z g.T
      .ok (newP2 (some x) (some y) (some z))
    else if n = 2 then do
      let x ← opV FE.multiply g.X g.T
      let y ← opV FE.multiply g.Y g.Z
      let z ← opV FE.multiply g.Z g.T
      let t ← opV FE.multiply g.X g.Y
      .ok (newP3 (some x) (some y) (some z) (some t))
    else if n = 3 then .ok (newP1xP1 g.X g.Y g.Z g.T)
    else .error "NewIllegalArgumentException P1xP1"
  else if g.sys = 4 then
    if n = 4 then .ok (newPrecomputed g.X g.Y g.Z) else .error "NewIllegalArgumentException PRECOMPUTED"
  else if g.sys = 5 then
    if n = 5 then .ok (newCached g.X g.Y g.Z g.T) else .error "NewIllegalArgumentException CACHED"
  else .error ("NewIllegalArgumentException(" ++ toString g.sys ++ ")")

/-- The comparison of `Equals` for P2, P3 (ed25519_encode.go:2119-2127). -/
def equalsPV (r g : GCN) : Except String Bool := do
  let b ← eqV r.Z g.Z
  if b then andThenV (eqV r.X g.X) (eqV r.Y g.Y)
  else do
    let x1 ← opV FE.multiply r.X g.Z
    let y1 ← opV FE.multiply r.Y g.Z
    let x2 ← opV FE.multiply g.X r.Z
    let y2 ← opV FE.multiply g.Y r.Z
    .ok (x1.equals x2 && y1.equals y2)

/-- `fmt.Printf("%v, %d, %d", err, ref.coordinateSystem, ge.coordinateSystem)` (ed25519_encode.go:2111). -/
def printfLine (v : String) (a b : Int) : String := v ++ ", " ++ toString a ++ ", " ++ toString b

/-- The beginning of `Equals` (ed25519_encode.go:2107-2116) for elements in different systems, followed by `rest` with the converted
element: a panic of either is recovered and printed, together with the systems of the receiver and of what `ge` then is. -/
def convertV (r g : GCN) (rest : GCN → Except String Bool × String) : Except String Bool × String :=
  match g.toCoordinateSystemV r.sys with
  | .error v => (.ok false, printfLine v r.sys g.sys)
  | .ok g' =>
    match rest g' with
    | (.error v, t) => (.ok false, t ++ printfLine v r.sys g'.sys)
    | x => x

/-- `ref.toP2().Equals(ge)` (ed25519_encode.go:2129, 2105-2127): the receiver is in P2. -/
def equalsToP2V (r g : GCN) : Except String Bool × String :=
  if r.sys ≠ g.sys then convertV r g fun g' => (equalsPV r g', "")
  else (equalsPV r g, "")

/-- The `switch` of `Equals` (ed25519_encode.go:2118-2148). -/
def equalsSameV (r g : GCN) : Except String Bool × String :=
  if r.sys = 1 ∨ r.sys = 2 then (equalsPV r g, "")
  else if r.sys = 3 then
    match r.toCoordinateSystemV 1 with
    | .error v => (.error v, "")
    | .ok r' => equalsToP2V r' g
  else if r.sys = 4 then (andThenV (andThenV (eqV r.X g.X) (eqV r.Y g.Y)) (eqV r.Z g.Z), "")
  else if r.sys = 5 then (do
    let b ← eqV r.Z g.Z
    if b then andThenV (andThenV (eqV r.X g.X) (eqV r.Y g.Y)) (eqV r.T g.T)
    else do
      let x3 ← opV FE.multiply r.X g.Z
      let y3 ← opV FE.multiply r.Y g.Z
      let t3 ← opV FE.multiply r.T g.Z
      let x4 ← opV FE.multiply g.X r.Z
      let y4 ← opV FE.multiply g.Y r.Z
      let t4 ← opV FE.multiply g.T r.Z
      .ok (x3.equals x4 && y3.equals y4 && t3.equals t4), "")
  else (.error "not supportet coor type", "")

/-- `Equals` (ed25519_encode.go:2105-2150) of non-nil elements: the answer or the panic, and the text printed. -/
def equalsV (r g : GCN) : Except String Bool × String :=
  if r.sys ≠ g.sys then convertV r g fun g' => equalsSameV r g'
  else equalsSameV r g

end GCN

end Ed
