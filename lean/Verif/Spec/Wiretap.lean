import Verif.Spec.Eavesdrop

/-!
# Wiretappers: SHA3-256 and AES both ideal, and both open to the attacker

A wiretapper chooses two messages and a direction, sees the encryption of one of them (always the first or always the second), and so on.  In between it asks for
hash values, and for everything that AES does under a key of its choice.
-/

set_option autoImplicit false

namespace Ed

/-- A wiretapper of the conversation of two parties; direction `false` is from the first to the second party, `true` the other one. -/
inductive Wiretap where
  | done (guess : Bool)
  | hash (x : Key) (k : Key → Wiretap)
  | aes (κ : Key) (k : Equiv.Perm Block → Wiretap)
  | enc (d : Bool) (m : Bool → Bytes) (k : Out Bytes → Wiretap)

namespace Wiretap

/-- At most `t` keys for AES and at most `n` blocks of ciphertext altogether, whatever the answers are; the two messages always have the same number of blocks.
The number of hash values is not limited. -/
def AtMost : ℕ → ℕ → Wiretap → Prop
  | _, _, .done _ => True
  | t, n, .hash _ k => ∀ y, AtMost t n (k y)
  | 0, _, .aes _ _ => False
  | t + 1, n, .aes _ k => ∀ π, AtMost t n (k π)
  | t, n, .enc _ m k => Observer.blocks (m false) = Observer.blocks (m true) ∧ Observer.blocks (m true) ≤ n ∧
      ∀ r, AtMost t (n - Observer.blocks (m true)) (k r)

/-- What the wiretapper guesses, what it asked for hash values of, and the salts that it saw, if the parties `A` and `B` encrypt the first messages (`b = false`) or
the second messages (`b = true`) with the primitives `E`.  Its own questions are answered by `g` and `P`. -/
def run (E : Env) (A B : KeyPair) (seed : ℕ) (b : Bool) (g : Key → Key) (P : Key → Equiv.Perm Block) : World → Wiretap → Spied
  | _, .done x => ⟨x, [], []⟩
  | w, .hash x k =>
    let r := run E A B seed b g P w (k (g x))
    { r with hashed := x :: r.hashed }
  | w, .aes κ k => run E A B seed b g P w (k (P κ))
  | w, .enc d m k =>
    let c := (if d then newBlockCipher B A (some seed) else newBlockCipher A B (some seed)).encrypt E (m b) w
    let r := run E A B seed b g P c.2 (k c.1)
    match c.1 with
    | .ok out => { r with salts := Key.of (out.take 32) :: r.salts }
    | _ => r

end Wiretap

end Ed
