import Verif.Go.Outcome
import Verif.Model.Field

/-!
# Random sources

An `io.Reader` is described by the sequence of its answers: each answer delivers some bytes (possibly none) and
possibly an error; after the last one it reports `io.EOF`.  `io.ReadFull` asks for the missing bytes until it has
enough or gets an error, so every run against any reader is a run against such a sequence.  If an answer has more
bytes than asked for, the rest is delivered by the next call.
-/

set_option autoImplicit false

namespace Ed

/-- One answer of a reader. -/
structure Ev where
  data : Bytes
  err : Option String
deriving DecidableEq

/-- A reader: the answers it is going to give. -/
abbrev Reader := List Ev

/-- The loop of `io.ReadAtLeast` (standard library, contract): `for n < min && err == nil { Read(buf[n:]) }`,
where `need` bytes are missing.  Result: the bytes read, the last error, the reader afterwards. -/
def readLoop : Reader → Nat → Bytes × Option String × Reader
  | r, 0 => ([], none, r)
  | [], _ + 1 => ([], some "EOF", [])
  | e :: r, need + 1 =>
    if need + 1 < e.data.length then (e.data.take (need + 1), none, ⟨e.data.drop (need + 1), e.err⟩ :: r)
    else
      match e.err with
      | some x => (e.data, some x, r)
      | none =>
        let t := readLoop r (need + 1 - e.data.length)
        (e.data ++ t.1, t.2.1, t.2.2)

/-- `io.ReadFull` (standard library, contract): an error that came with enough bytes is dropped, `EOF` after some
bytes becomes `unexpected EOF`. -/
def readFull (r : Reader) (n : Nat) : Out Bytes × Reader :=
  let t := readLoop r n
  if n ≤ t.1.length then (.ok t.1, t.2.2)
  else (.err (if 0 < t.1.length ∧ t.2.1 = some "EOF" then "unexpected EOF" else t.2.1.getD ""), t.2.2)

/-- The readers of the program by identity; number 0 is `crypto/rand.Reader`. -/
abbrev World := Nat → Reader

/-- A computation that may read from readers. -/
abbrev Act (α : Type) := World → Out α × World

/-- Sequencing; an error or a panic ends the function, what was read stays read. -/
def Act.bind {α β : Type} (x : Act α) (f : α → Act β) : Act β := fun w =>
  match x w with
  | (.ok a, w') => f a w'
  | (.err m, w') => (.err m, w')
  | (.panic, w') => (.panic, w')

/-- A computation that does not read. -/
def Act.lift {α : Type} (x : Out α) : Act α := fun w => (x, w)

/-- `io.ReadFull(seed, make([]byte, n))`. -/
def Act.read (seed n : Nat) : Act Bytes := fun w =>
  let t := readFull (w seed) n
  (t.1, fun i => if i = seed then t.2 else w i)

end Ed
