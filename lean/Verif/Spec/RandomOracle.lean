import Verif.Spec.Leak
import Verif.Spec.Naf
import Verif.Model.Keys
import Verif.Model.Dsa
import Mathlib.Data.Fintype.BigOperators
import Mathlib.Data.Real.Basic
import Mathlib.Tactic.Positivity

/-!
# Attackers, a random hash function, and the rewinding key extractor

An attacker is a program that may ask for hash values and ends with a message, R and S.  It may do anything else between two questions and is not
limited in time.  Random choices are an extra argument `ω : Ω` of the attacker.
-/

set_option autoImplicit false

namespace Ed

open Classical in
/-- The probability of an event when all elements of a finite type are equally likely. -/
noncomputable def prob {α : Type} [Fintype α] (p : α → Prop) : ℝ := (Finset.univ.filter p).card / Fintype.card α

/-- The 2^512 digests, as numbers. -/
def Digest : Type := Fin (2 ^ 512)

instance : Fintype Digest := inferInstanceAs (Fintype (Fin (2 ^ 512)))
instance : DecidableEq Digest := inferInstanceAs (DecidableEq (Fin (2 ^ 512)))

/-- The number. -/
def Digest.val (d : Digest) : ℕ := Fin.val d

/-- The digest of 64 zero bytes. -/
def Digest.zero : Digest := ⟨0, by positivity⟩

instance : Inhabited Digest := ⟨Digest.zero⟩

/-- The 64 bytes of a digest. -/
def Digest.bytes (d : Digest) : Bytes := leBytes 64 d.val

/-- A program that asks for hash values. -/
inductive HashProg (α : Type) where
  | done (a : α)
  | ask (x : Bytes) (k : Digest → HashProg α)

namespace HashProg

variable {α β : Type}

/-- At most `n` questions, whatever the answers are. -/
def AtMost : ℕ → HashProg α → Prop
  | _, .done _ => True
  | 0, .ask _ _ => False
  | n + 1, .ask _ k => ∀ d, AtMost n (k d)

/-- All questions are in `X`, whatever the answers are. -/
def AsksIn (X : Finset Bytes) : HashProg α → Prop
  | .done _ => True
  | .ask x k => x ∈ X ∧ ∀ d, AsksIn X (k d)

/-- The result when the hash function is `f`. -/
def run (f : Bytes → Digest) : HashProg α → α
  | .done a => a
  | .ask x k => run f (k (f x))

/-- First one program, then another that depends on its result. -/
def bind (g : α → HashProg β) : HashProg α → HashProg β
  | .done a => g a
  | .ask x k => .ask x fun d => bind g (k d)

/-- Running without a hash function: a question that was asked before gets the answer it got (`T` holds the questions with their digests, in the
order in which they were asked first), the `i`-th new question gets the answer `h i`. -/
def play (h : ℕ → Digest) : List (Bytes × Digest) → HashProg α → α × List (Bytes × Digest)
  | T, .done a => (a, T)
  | T, .ask x k =>
    match T.lookup x with
    | some d => play h T (k d)
    | none => play h (T ++ [(x, h T.length)]) (k (h T.length))

end HashProg

/-- What an attacker produces. -/
structure Forgery where
  m : Bytes
  R : Bytes
  S : Bytes

/-- The hash input from which `Verify` computes the challenge. -/
def Forgery.input (pub : PublicKey) (F : Forgery) : Bytes := F.R ++ pub.raw ++ F.m

/-- The attacker, followed by the question that `Verify` asks for the result. -/
def withCheck (pub : PublicKey) (adv : HashProg Forgery) : HashProg (Forgery × Digest) :=
  adv.bind fun F => .ask (F.input pub) fun d => .done (F, d)

/-- The primitives `E` with the function `f` in the place of SHA3-512. -/
def Env.withHash (E : Env) (f : Bytes → Digest) : Env :=
  { E with
    sha512 :=
      { σ := Bytes
        init := []
        write := fun s b => s ++ b
        sum := fun s => (f s).bytes
        write_append := fun s a b => List.append_assoc s a b
        write_nil := fun s => List.append_nil s }
    sha512_length := fun _ => leBytes_length _ _ }

/-- A function on the finite set `X` of byte strings, with 0 elsewhere. -/
def onAll {X : Finset Bytes} (f : X → Digest) (x : Bytes) : Digest := if h : x ∈ X then f ⟨x, h⟩ else .zero

/-- With the hash function `f` the attacker produces a message and a signature that `NewSignature` and `Verify` accept. -/
def Forges (E : Env) (pub : PublicKey) (adv : HashProg Forgery) (f : Bytes → Digest) : Prop :=
  ∃ sig, newSignature (adv.run f).R (adv.run f).S = .ok sig ∧ verify (E.withHash f) pub (adv.run f).m sig = .ok true

/-- The answers to new questions, one after the other. -/
def digests {n : ℕ} (d : Fin n → Digest) (i : ℕ) : Digest := if h : i < n then d ⟨i, h⟩ else .zero

/-- The rewinding extractor.  Run the attacker with the digests `d`; let `j` be the position at which the challenge of its signature was asked; run it
again, with the same answers before `j` and the digests `d'` from `j` on; compute a number from the two challenges and the two responses. -/
noncomputable def extract (pub : PublicKey) (adv : HashProg Forgery) {n : ℕ} (d d' : Fin n → Digest) : ℕ :=
  let r := (withCheck pub adv).play (digests d) []
  let j := (r.2.map Prod.fst).idxOf (r.1.1.input pub)
  let r' := (withCheck pub adv).play (digests fun i => if i.val < j then d i else d' i) []
  recover (r.1.2.val % L) (r'.1.2.val % L) (nafVal (leVal r.1.1.S) % L).toNat (nafVal (leVal r'.1.1.S) % L).toNat

end Ed
