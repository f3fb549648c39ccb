import Verif.Spec.Secrecy

/-!
# Eavesdroppers, and a random function in the place of SHA3-256

Two parties, each with a key pair, talk to each other.  An eavesdropper has messages encrypted and ciphertexts decrypted by them, gets shared keys for salts of its
choice, and asks for hash values; in the end it makes a guess.
-/

set_option autoImplicit false

namespace Ed

/-- XOR of 32 bytes. -/
def Key.xor (a b : Key) : Key := Key.of (List.zipWith (· ^^^ ·) a.bytes b.bytes)

/-- The primitives `E` with the function `g` in the place of SHA3-256, as far as 32 bytes are hashed (the package never hashes anything else with it in a call of
`GetSharedKey`, `Encrypt` or `Decrypt`). -/
def Env.withKeyHash (E : Env) (g : Key → Key) : Env :=
  { E with
    sha256 :=
      { σ := Bytes
        init := []
        write := fun s b => s ++ b
        sum := fun s => if s.length = 32 then (g (Key.of s)).bytes else hashesSha3_256 E s
        write_append := fun s a b => List.append_assoc s a b
        write_nil := fun s => List.append_nil s }
    sha256_length := fun s => by
      dsimp only
      split
      · exact Key.bytes_length _
      · exact E.sha256_length _ }

/-- What an eavesdropper can make the two parties do: direction `false` is from the first to the second party, `true` the other one. -/
inductive SpyOp where
  | encrypt (d : Bool) (m : Bytes)
  | decrypt (d : Bool) (b : Bytes)
  | sharedKey (d : Bool) (salt : Key)

namespace SpyOp

/-- The call: the sender encrypts with its private key and the public key of the recipient, the recipient decrypts with its private key and the public key of the
sender. -/
def call (E : Env) (A B : KeyPair) (seed : ℕ) : SpyOp → Act Bytes
  | .encrypt d m => (if d then newBlockCipher B A (some seed) else newBlockCipher A B (some seed)).encrypt E m
  | .decrypt d b => Act.lift ((if d then newBlockCipher B A (some seed) else newBlockCipher A B (some seed)).decrypt E b)
  | .sharedKey d salt => Act.lift (if d then getSharedKey E 32 B.priv A.pub salt.bytes else getSharedKey E 32 A.priv B.pub salt.bytes)

/-- The salt that occurs in a call and its result. -/
def salt : SpyOp → Out Bytes → Option Key
  | .encrypt _ _, .ok out => some (Key.of (out.take 32))
  | .encrypt _ _, _ => none
  | .decrypt _ b, _ => if b.length < 64 then none else some (Key.of (b.take 32))
  | .sharedKey _ s, _ => some s

end SpyOp

/-- An eavesdropper. -/
inductive Spy where
  | done (guess : Bool)
  | hash (x : Key) (k : Key → Spy)
  | op (o : SpyOp) (k : Out Bytes → Spy)

/-- What the eavesdropper guesses, what it asked for hash values of, and the salts that it saw. -/
structure Spied where
  guess : Bool
  hashed : List Key
  salts : List Key

namespace Spy

/-- At most `q` questions for hash values and at most `s` calls, whatever the answers are. -/
def AtMost : ℕ → ℕ → Spy → Prop
  | _, _, .done _ => True
  | 0, _, .hash _ _ => False
  | q + 1, s, .hash _ k => ∀ y, AtMost q s (k y)
  | _, 0, .op _ _ => False
  | q, s + 1, .op _ k => ∀ r, AtMost q s (k r)

/-- The eavesdropper with the parties `A` and `B`, who use the primitives `E` and read from `seed`; its own questions for hash values are answered by `g`. -/
def run (E : Env) (A B : KeyPair) (seed : ℕ) (g : Key → Key) : World → Spy → Spied
  | _, .done b => ⟨b, [], []⟩
  | w, .hash x k =>
    let r := run E A B seed g w (k (g x))
    { r with hashed := x :: r.hashed }
  | w, .op o k =>
    let t := o.call E A B seed w
    let r := run E A B seed g t.2 (k t.1)
    { r with salts := (o.salt t.1).toList ++ r.salts }

end Spy

/-- Looking for the shared point of two other parties: one of the hash questions xored with one of the salts. -/
def Spied.point (r : Spied) (i j : ℕ) : Bytes := (Key.xor (r.hashed.getD i (Key.of [])) (r.salts.getD j (Key.of []))).bytes

end Ed
