import Verif.Spec.Attack

/-!
# Attackers on many users

The attacker gets the public keys of `n` users, asks for hash values and for signatures by any of the users, and ends with a user, a message, R and S.
`single` is such an attacker that attacks one user and plays the others itself.
-/

set_option autoImplicit false

namespace Ed

/-- A program that asks for hash values and for signatures by `n` users. -/
inductive ManyProg (n : ℕ) where
  | done (i : Fin n) (F : Forgery)
  | ask (x : Bytes) (k : Digest → ManyProg n)
  | sign (i : Fin n) (m : Bytes) (k : Out Signature → ManyProg n)

namespace ManyProg

variable {n : ℕ}

/-- At most `q` questions for hash values and at most `s` for signatures, whatever the answers are. -/
def AtMost : ℕ → ℕ → ManyProg n → Prop
  | _, _, .done _ _ => True
  | 0, _, .ask _ _ => False
  | q + 1, s, .ask _ k => ∀ d, AtMost q s (k d)
  | _, 0, .sign _ _ _ => False
  | q, s + 1, .sign _ _ k => ∀ r, AtMost q s (k r)

/-- The messages have at most `N` bytes, and the hash inputs at most `N + 64`. -/
def Short (N : ℕ) : ManyProg n → Prop
  | .done _ F => F.m.length ≤ N
  | .ask x k => x.length ≤ N + 64 ∧ ∀ d, Short N (k d)
  | .sign _ m k => m.length ≤ N ∧ ∀ r, Short N (k r)

/-- The user, the result, and the questions for signatures with the answers (after `ms`), when the hash function is `f` and user `i` signs by `sg i`. -/
def run (f : Bytes → Digest) (sg : Fin n → Bytes → Out Signature) :
    List (Fin n × Bytes × Out Signature) → ManyProg n → (Fin n × Forgery) × List (Fin n × Bytes × Out Signature)
  | ms, .done i F => ((i, F), ms)
  | ms, .ask x k => run f sg ms (k (f x))
  | ms, .sign i m k => run f sg (ms ++ [(i, m, sg i m)]) (k (sg i m))

end ManyProg

/-- The attack: with the hash function `f` key pairs are made from the private keys, the attacker gets all public keys and signatures by `Sign` with the keys
and for the messages of its choice, and it produces a user, a message and a signature that `NewSignature` and `Verify` accept with the public key of
this user, who did not sign this message, or signed it with another R. -/
def ForgesMany {n : ℕ} (E : Env) (adv : (Fin n → Bytes) → ManyProg n) (sks : Fin n → Bytes) (f : Bytes → Digest) : Prop :=
  ∃ kps : Fin n → KeyPair, (∀ j, newKeyPair (E.withHash f) (some (newPrivateKey (sks j))) none = .ok (kps j)) ∧
    let r := (adv fun j => (kps j).pub.raw).run f (fun j => sign (E.withHash f) (kps j)) []
    (∀ e ∈ r.2, e.1 = r.1.1 → e.2.1 = r.1.2.m → ∃ sig, e.2.2 = .ok sig ∧ sig.R ≠ r.1.2.R) ∧
      ∃ sig, newSignature r.1.2.R r.1.2.S = .ok sig ∧ verify (E.withHash f) (kps r.1.1).pub r.1.2.m sig = .ok true

/-- The attack on key pairs made by `GenerateKeyPair`: user `j` uses the reader `seed j`, in the state `w j`. -/
def ForgesManyGenerated {n : ℕ} (E : Env) (adv : (Fin n → Bytes) → ManyProg n) (seed : Fin n → ℕ) (w : Fin n → World) (f : Bytes → Digest) : Prop :=
  ∃ kps : Fin n → KeyPair, (∀ j, (generateKeyPair (E.withHash f) (seed j) (w j)).1 = .ok (kps j)) ∧
    let r := (adv fun j => (kps j).pub.raw).run f (fun j => sign (E.withHash f) (kps j)) []
    (∀ e ∈ r.2, e.1 = r.1.1 → e.2.1 = r.1.2.m → ∃ sig, e.2.2 = .ok sig ∧ sig.R ≠ r.1.2.R) ∧
      ∃ sig, newSignature r.1.2.R r.1.2.S = .ok sig ∧ verify (E.withHash f) (kps r.1.1).pub r.1.2.m sig = .ok true

/-- Asking for the hash values of the private keys of the users in the list, except user `i`. -/
def askKeys {n : ℕ} (i : Fin n) (sks : Fin n → Bytes) (k : (Fin n → Digest) → SignProg) : List (Fin n) → (Fin n → Digest) → SignProg
  | [], ds => k ds
  | j :: js, ds => if j = i then askKeys i sks k js ds else .ask (sks j) fun d => askKeys i sks k js (Function.update ds j d)

/-- Answering an attacker on many users: questions for hash values and for signatures by user `i` are passed on, signatures by the others are
computed as RFC 8032 says from the hash values `ds` of their private keys. -/
noncomputable def playOthers {n : ℕ} (i : Fin n) (pks : Fin n → Bytes) (ds : Fin n → Digest) : ManyProg n → SignProg
  | .done j F => .done (if j = i then F else ⟨[], [], []⟩)
  | .ask x k => .ask x fun d => playOthers i pks ds (k d)
  | .sign j m k =>
    if j = i then .sign m fun r => playOthers i pks ds (k r)
    else .ask ((ds j).bytes.drop 32 ++ m) fun r => .ask (encodePoint ((r.val % L) • B) ++ pks j ++ m) fun c =>
      playOthers i pks ds (k (signReply (encodePoint ((r.val % L) • B)) ((r.val % L + c.val % L * scalarOf (ds j)) % L)))

/-- The public keys of the users: `pk` (32 bytes) for user `i`, the others from the hash values of their private keys. -/
noncomputable def pksOf {n : ℕ} (i : Fin n) (pk : Bytes) (ds : Fin n → Digest) (j : Fin n) : Bytes :=
  if j = i then pk.take 32 else encodePoint (scalarOf (ds j) • B)

/-- The attacker on user `i` with the public key `pk` that has the private keys of the other users. -/
noncomputable def single {n : ℕ} (i : Fin n) (adv : (Fin n → Bytes) → ManyProg n) (sks : Fin n → Bytes) (pk : Bytes) : SignProg :=
  askKeys i sks (fun ds => playOthers i (pksOf i pk ds) ds (adv (pksOf i pk ds))) (List.finRange n) fun _ => .zero

end Ed
