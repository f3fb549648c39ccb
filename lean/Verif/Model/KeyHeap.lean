import Verif.Model.Heap
import Verif.Model.Hex

/-!
# Keys with shared memory (key_model.go, key_pair.go)

The key objects of Model/Keys with Go slices instead of values.  The field `value` of a private key is a number of its own and is used by no
function; it is left out.
-/

set_option autoImplicit false

namespace Ed

/-- Somebody writes the bytes `b` into the elements `i`, `i+1`, ... of the slice `s`. -/
def Heap.write (h : Heap) (s : Slice) (i : Nat) (b : Bytes) : Heap := h.set s.arr (writeAt (h.getD s.arr []) (s.off + i) b)

/-- `h'` comes from `h` by any number of writes through the slice `s` within its length. -/
inductive CallerWrites : Heap → Heap → Slice → Prop
  | refl {s : Slice} (h : Heap) : CallerWrites h h s
  | write {h h' : Heap} {s : Slice} (hw : CallerWrites h h' s) (i : Nat) (b : Bytes) (hi : i + b.length ≤ s.len) :
      CallerWrites h (h'.write s i b) s

/-- `NewPrivateKey` (key_model.go:41-43) keeps the slice of the caller. -/
def newPrivateKeyH (raw : Slice) : Slice := raw

/-- `NewPublicKey` (key_model.go:74-76) keeps the slice of the caller. -/
def newPublicKeyH (raw : Slice) : Slice := raw

/-- The private key object as value, at the moment of the heap. -/
def hpriv (h : Heap) (k : Slice) : PrivateKey := newPrivateKey (k.read h)

/-- The public key object as value. -/
def hpub (h : Heap) (k : Slice) : PublicKey := ⟨k.read h⟩

/-- `KeyPair` (key_pair.go:10-13). -/
structure HKeyPair where
  priv : Option Slice
  pub : Slice

/-- The pair as value. -/
def HKeyPair.val (h : Heap) (kp : HKeyPair) : KeyPair := ⟨kp.priv.map (hpriv h), hpub h kp.pub⟩

variable (E : Env)

/-- Put the bytes of a computed key into new memory. -/
def allocKey {α : Type} (h : Heap) (x : Out Bytes) (f : Slice → α) : Heap × Out α :=
  match x with
  | .ok p => ((h.alloc p).1, .ok (f (h.alloc p).2))
  | .err m => (h, .err m)
  | .panic => (h, .panic)

/-- `NewKeyPair` (key_pair.go:23-35): the given keys are kept, a derived public key is new memory (ed25519_encode.go:861, 1764: `Encode` makes
its array). -/
def newKeyPairH (h : Heap) (priv pub : Option Slice) : Heap × Out HKeyPair :=
  match pub with
  | none => allocKey h (derivePublicKey E (priv.map (hpriv h)) >>= fun p => .ok p.raw) fun p => ⟨priv, p⟩
  | some p => if !isKeyCompressed (hpub h p) then (h, .err "publicKey must be in compressed form") else (h, .ok ⟨priv, p⟩)

/-- `NewPrivateKeyfromHexString` (key_model.go:51-62): the decoded bytes are new memory. -/
def newPrivateKeyFromHexStringH (h : Heap) (s : Bytes) : Heap × Out Slice :=
  allocKey h (newPrivateKeyFromHexString s >>= fun k => .ok k.raw) newPrivateKeyH

/-- `NewPublicKeyfromHex` (key_model.go:79-90): likewise. -/
def newPublicKeyFromHexH (h : Heap) (s : Bytes) : Heap × Out Slice :=
  allocKey h (newPublicKeyFromHex s >>= fun k => .ok k.raw) newPublicKeyH

end Ed
