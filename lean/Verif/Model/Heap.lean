import Verif.Model.Dsa

/-!
# Signatures with shared memory (signature.go, ed25519_model.go:332-342)

The same functions as in Model/Keys and Model/Dsa, with Go slices instead of values: a slice is a window into an array
of the heap, and two slices may overlap.
-/

set_option autoImplicit false

namespace Ed

/-- The byte arrays of the heap; an array is named by its position and keeps its size. -/
abbrev Heap := List Bytes

/-- A slice header: array, offset of the first element, length and capacity. -/
structure Slice where
  arr : Nat
  off : Nat
  len : Nat
  cap : Nat
deriving DecidableEq

/-- The slice lies inside its array. -/
def Slice.Valid (h : Heap) (s : Slice) : Prop :=
  s.arr < h.length ∧ s.off + s.cap ≤ (h.getD s.arr []).length ∧ s.len ≤ s.cap

/-- The bytes a slice shows. -/
def Slice.read (h : Heap) (s : Slice) : Bytes := ((h.getD s.arr []).drop s.off).take s.len

/-- Overwrite part of an array. -/
def writeAt (a : Bytes) (i : Nat) (b : Bytes) : Bytes := a.take i ++ b ++ a.drop (i + b.length)

/-- A new array with the given content, as `make` and filling give it. -/
def Heap.alloc (h : Heap) (b : Bytes) : Heap × Slice := (h ++ [b], ⟨h.length, 0, b.length, b.length⟩)

/-- `s[:n]` (keeps the capacity; only used with n ≤ len). -/
def Slice.upTo (s : Slice) (n : Nat) : Slice := ⟨s.arr, s.off, n, s.cap⟩
/-- `s[n:]`. -/
def Slice.from (s : Slice) (n : Nat) : Slice := ⟨s.arr, s.off + n, s.len - n, s.cap - n⟩

/-- `append(a, b...)` (Go specification): if the capacity of `a` suffices, the elements are written behind `a` in place,
otherwise into a new array, whose spare capacity `extra` is chosen by the runtime. -/
def Heap.append (h : Heap) (a b : Slice) (extra : Nat) : Heap × Slice :=
  if a.len + b.len ≤ a.cap then
    (h.set a.arr (writeAt (h.getD a.arr []) (a.off + a.len) (b.read h)), ⟨a.arr, a.off, a.len + b.len, a.cap⟩)
  else
    (h ++ [a.read h ++ b.read h ++ List.replicate extra 0], ⟨h.length, 0, a.len + b.len, a.len + b.len + extra⟩)

/-- `Signature` (signature.go:17-20) with its two slices. -/
structure HSig where
  R : Slice
  S : Slice

/-- The signature as value. -/
def HSig.val (h : Heap) (s : HSig) : Signature := ⟨s.R.read h, s.S.read h⟩

/-- `NewSignature` (signature.go:29-35): keeps the slices of the caller. -/
def newSignatureH (r s : Slice) : Out HSig :=
  if r.len ≠ 32 ∨ s.len ≠ 32 then
    .err "binary signature representation of r and s must both have 32 bytes length"
  else .ok ⟨r, s⟩

/-- `NewSignatureFromBytes` (signature.go:52-57): two slices into the array of the caller. -/
def newSignatureFromBytesH (b : Slice) : Out HSig :=
  if b.len < 64 then .err "binary signature representation must be 64 bytes"
  else newSignatureH (b.upTo 32) (b.from 32)

/-- `Bytes` (signature.go:72-75). -/
def HSig.bytes (h : Heap) (s : HSig) (extra : Nat) : Heap × Slice := h.append s.R s.S extra

/-- `MakeSignatureCanonical` (ed25519_model.go:332-342): S is new memory, R is shared with the argument. -/
def makeSignatureCanonicalH (h : Heap) (s : HSig) : Heap × Out HSig :=
  match newEncodedFieldElement (copy64 (s.S.read h)) with
  | .ok e =>
    let t := h.alloc (modQ e)
    (t.1, newSignatureH s.R t.2)
  | .err m => (h, .err m)
  | .panic => (h, .panic)

variable (E : Env)

/-- `Sign` (ed25519_model.go:206-263): both parts are new arrays of exactly 32 bytes (`make([]byte, 32)`,
ed25519_encode.go:861, 1764). -/
def signH (h : Heap) (kp : KeyPair) (mess : Slice) : Heap × Out HSig :=
  match sign E kp (mess.read h) with
  | .ok sig =>
    let r := h.alloc sig.R
    let s := r.1.alloc sig.S
    (s.1, .ok ⟨r.2, s.2⟩)
  | .err m => (h, .err m)
  | .panic => (h, .panic)

end Ed
