import Verif.Spec.RandomOracle
import Verif.Model.Cipher

/-!
# Attackers that may have messages signed

The attacker gets the public key, asks for hash values and for signatures of messages of its choice, and ends with a message, R and S: the message was not
signed, or it was signed with another R.
`simulate` answers its questions without the private key.
-/

set_option autoImplicit false

namespace Ed

/-- A program that asks for hash values and for signatures. -/
inductive SignProg where
  | done (F : Forgery)
  | ask (x : Bytes) (k : Digest → SignProg)
  | sign (m : Bytes) (k : Out Signature → SignProg)

namespace SignProg

/-- At most `q` questions for hash values and at most `s` for signatures, whatever the answers are. -/
def AtMost : ℕ → ℕ → SignProg → Prop
  | _, _, .done _ => True
  | 0, _, .ask _ _ => False
  | q + 1, s, .ask _ k => ∀ d, AtMost q s (k d)
  | _, 0, .sign _ _ => False
  | q, s + 1, .sign _ k => ∀ r, AtMost q s (k r)

/-- The messages have at most `N` bytes, and the hash inputs at most `N + 64`. -/
def Short (N : ℕ) : SignProg → Prop
  | .done F => F.m.length ≤ N
  | .ask x k => x.length ≤ N + 64 ∧ ∀ d, Short N (k d)
  | .sign m k => m.length ≤ N ∧ ∀ r, Short N (k r)

/-- The result, and the messages that were to be signed with the answers (after `ms`), when the hash function is `f` and messages are signed by `sg`. -/
def run (f : Bytes → Digest) (sg : Bytes → Out Signature) : List (Bytes × Out Signature) → SignProg → Forgery × List (Bytes × Out Signature)
  | ms, .done F => (F, ms)
  | ms, .ask x k => run f sg ms (k (f x))
  | ms, .sign m k => run f sg (ms ++ [(m, sg m)]) (k (sg m))

end SignProg

/-- A result is new if each answer to a question for a signature of its message was a signature with another R. -/
def Forgery.Fresh (F : Forgery) (ms : List (Bytes × Out Signature)) : Prop := ∀ e ∈ ms, e.1 = F.m → ∃ sig, e.2 = .ok sig ∧ sig.R ≠ F.R

/-- The 2^256 private keys of 32 bytes, as numbers. -/
def Key : Type := Fin (2 ^ 256)

instance : Fintype Key := inferInstanceAs (Fintype (Fin (2 ^ 256)))
instance : Nonempty Key := inferInstanceAs (Nonempty (Fin (2 ^ 256)))

/-- The bytes of a private key. -/
def Key.bytes (k : Key) : Bytes := leBytes 32 (Fin.val k)

theorem Key.bytes_length (k : Key) : k.bytes.length = 32 := leBytes_length _ _

/-- The attack: with the hash function `f` a key pair is made from the private key, the attacker gets the public key and signatures by `Sign` for messages
of its choice, and it produces a message and a signature that `NewSignature` and `Verify` accept: of another message, or with another R. -/
def ForgesCma (E : Env) (adv : Bytes → SignProg) (sk : Bytes) (f : Bytes → Digest) : Prop :=
  ∃ kp, newKeyPair (E.withHash f) (some (newPrivateKey sk)) none = .ok kp ∧
    let r := (adv kp.pub.raw).run f (sign (E.withHash f) kp) []
    r.1.Fresh r.2 ∧ ∃ sig, newSignature r.1.R r.1.S = .ok sig ∧ verify (E.withHash f) kp.pub r.1.m sig = .ok true

/-- The attack for an application that also refuses signatures whose S is not reduced: the attacker has to produce an accepted signature that is different from
each signature that it was given for this message. -/
def ForgesStrong (E : Env) (adv : Bytes → SignProg) (sk : Bytes) (f : Bytes → Digest) : Prop :=
  ∃ kp, newKeyPair (E.withHash f) (some (newPrivateKey sk)) none = .ok kp ∧
    let r := (adv kp.pub.raw).run f (sign (E.withHash f) kp) []
    (∀ e ∈ r.2, e.1 = r.1.m → ∃ sig, e.2 = .ok sig ∧ sig ≠ ⟨r.1.R, r.1.S⟩) ∧ leVal r.1.S < L ∧
      ∃ sig, newSignature r.1.R r.1.S = .ok sig ∧ verify (E.withHash f) kp.pub r.1.m sig = .ok true

/-- The attack on a key pair made by `GenerateKeyPair` with the reader `seed` of `w`. -/
def ForgesGenerated (E : Env) (adv : Bytes → SignProg) (seed : ℕ) (w : World) (f : Bytes → Digest) : Prop :=
  ∃ kp, (generateKeyPair (E.withHash f) seed w).1 = .ok kp ∧
    let r := (adv kp.pub.raw).run f (sign (E.withHash f) kp) []
    r.1.Fresh r.2 ∧ ∃ sig, newSignature r.1.R r.1.S = .ok sig ∧ verify (E.withHash f) kp.pub r.1.m sig = .ok true

/-! ## The simulator -/

/-- A signature that the simulator made: the response `S` and the digest `d` were drawn at random, `R` was computed from them. -/
structure Made where
  m : Bytes
  R : Bytes
  S : ℕ
  d : Digest

/-- What `Sign` returns. -/
def signReply (R : Bytes) (S : ℕ) : Out Signature :=
  if LowBitsOk S then .ok ⟨R, leBytes 32 S⟩ else .err "Generated signature is not canonical"

/-- Answering an attacker without the private key, only with the public key `pk`, the encoding of `A`: for a new message S and the challenge d are the
next of the random `coins` and R is S•B - d•A, and from then on the hash value of R, pk and the message is d.  Other hash values are asked for.  If the
hash value that would have to be d was already asked for, and if the attacker ends with a result that is not new or with
an R of the wrong length, the result is worthless. -/
noncomputable def simulate (pk : Bytes) (A : Pt) (coins : ℕ → ℕ × Digest) : List Bytes → List Made → SignProg → HashProg Forgery
  | _, made, .done F => 
    if (∃ e ∈ made, e.m = F.m ∧ (¬ LowBitsOk e.S ∨ e.R = F.R)) ∨ F.R.length ≠ 32 then .done ⟨[], [], []⟩ else .done F
  | asked, made, .ask x k =>
    match made.find? fun e => e.R ++ pk ++ e.m == x with
    | some e => simulate pk A coins asked made (k e.d)
    | none => .ask x fun d => simulate pk A coins (asked ++ [x]) made (k d)
  | asked, made, .sign m k =>
    match made.find? fun e => e.m == m with
    | some e => simulate pk A coins asked made (k (signReply e.R e.S))
    | none =>
      let S := (coins made.length).1
      let d := (coins made.length).2
      let R := encodePoint (S • B - (d.val % L) • A)
      if R ++ pk ++ m ∈ asked then .done ⟨[], [], []⟩
      else simulate pk A coins asked (made ++ [⟨m, R, S, d⟩]) (k (signReply R S))

/-- The coins of `s` signatures. -/
abbrev Coins (s : ℕ) : Type := Fin s → Fin L × Digest

/-- The coins as a sequence. -/
def coinsOf {s : ℕ} (w : Coins s) (i : ℕ) : ℕ × Digest := if h : i < s then ((w ⟨i, h⟩).1.val, (w ⟨i, h⟩).2) else (0, .zero)

/-- The private scalar that a digest gives. -/
def scalarOf (d : Digest) : ℕ := 2 ^ 254 + 8 * (leVal (d.bytes.take 32) / 8 % 2 ^ 251)

/-- Looking for the private scalar: run the attacker twice, answering without the private key. -/
noncomputable def findScalar (adv : Bytes → SignProg) (A : Pt) {q s : ℕ} (w : Coins s) (d d' : Fin (q + 1) → Digest) : ℕ :=
  extract ⟨encodePoint A⟩ (simulate (encodePoint A) A (coinsOf w) [] [] (adv (encodePoint A))) d d'

end Ed
