import Verif.Spec.Calls
import Verif.Spec.Leak
import Verif.Spec.Naf

/-!
# Calls whose argument arrays change while they run

The state after `n` actions of a schedule, what the argument arrays hold then, and what the other goroutines may do meanwhile.
-/

set_option autoImplicit false

namespace Ed

namespace Pool
variable {α : Type}

/-- The state after the first `n` actions of a schedule. -/
def at_ (p : Pool α) (sched : List Nat) (n : Nat) : Pool α := p.run (sched.take n)

/-- The bytes of the array `a` after the first `n` actions. -/
def bytes (p : Pool α) (sched : List Nat) (n : Nat) (a : Addr) : Bytes := bytesAt (p.at_ sched n).st.heap a

/-- What goroutines other than `i` may do: anything but change the initial memory (the shared base point) or what goroutine `i` has
allocated.  To the arrays `args` they may write any bytes at any time; the length of an array does not change. -/
def Interference (p : Pool α) (i : Nat) (args : List Addr) (sched : List Nat) : Prop :=
  ∀ n j, sched[n]? = some j → j ≠ i →
    (p.at_ sched (n + 1)).st.heap 0 = (p.at_ sched n).st.heap 0 ∧
    (p.at_ sched (n + 1)).st.heap (i + 1) = (p.at_ sched n).st.heap (i + 1) ∧
    ∀ a ∈ args, ∀ b, (p.at_ sched n).st.heap.get a = some (.bytes b) →
      ∃ b', (p.at_ sched (n + 1)).st.heap.get a = some (.bytes b') ∧ b'.length = b.length

/-- No goroutine other than `i` changes the array `a`. -/
def LeftAlone (p : Pool α) (i : Nat) (a : Addr) (sched : List Nat) : Prop :=
  ∀ n j, sched[n]? = some j → j ≠ i → p.bytes sched (n + 1) a = p.bytes sched n a

end Pool

/-- What a pass over the array `a` between the times `n` and `n'` can give, when the array holds `c t a` at time `t`: the length and each
byte are those of some moment of that time, not all of the same. -/
structure Seen (c : Nat → Addr → Bytes) (a : Addr) (n n' : Nat) (v : Bytes) : Prop where
  le : n ≤ n'
  length : ∃ t, n ≤ t ∧ t ≤ n' ∧ v.length = (c t a).length
  byte : ∀ i, i < v.length → ∃ t, n ≤ t ∧ t ≤ n' ∧ v[i]? = (c t a)[i]?

/-- A byte string of which each byte, and the length, is that of one of two others. -/
structure Mixture (m m' x : Bytes) : Prop where
  length : x.length = m.length ∨ x.length = m'.length
  byte : ∀ i, i < x.length → x[i]? = m[i]? ∨ x[i]? = m'[i]?

/-- The response of a signature when the nonce comes from one reading of the private key and the message, the challenge from another reading
of the message, and the secret scalar from another reading of the key. -/
def mixedS (E : Env) (sk m A m' sk' : Bytes) : ℕ := (nonce E sk m + challenge E (sigR E sk m) A m' * secretScalar E sk') % L

/-- The number that a response stands for in the verification equation: the little-endian number of its first 32 bytes, less 2^256
if that has no 256-digit width-5 expansion. -/
def SignedVal (S : Bytes) (s : ℤ) : Prop := s = nafVal (leVal S % 2 ^ 256)

/-- The conditions of `Verify` for the public key `A`, each on the reading it is tested with: `S1` for the test of canonical form, `R2` and `m3`
for the challenge, `s4` for the response and `R5` for the comparison. -/
def MixedAccepts (E : Env) (A S1 R2 m3 : Bytes) (s4 : ℤ) (R5 : Bytes) : Prop :=
  LowBitsOk (leVal S1) ∧ A ≠ List.replicate 32 0 ∧ ∃ q, Decodes A q ∧ R5 = encodePoint (s4 • B - challenge E R2 A m3 • q)

/-- `Decrypt` with the length, the salt, the initialization vector and the data from four readings of the input. -/
def mixedDecrypt (E : Env) (len : Nat) (k : PrivateKey) (p : PublicKey) (i0 i i' i'' : Bytes) : Out Bytes :=
  if i0.length < 64 then .err "input is to short for decryption"
  else if len > 48 then .panic
  else getSharedKey E len (some k) p (i.take len) >>= fun key => decode E (i''.drop 48) key ((i'.take 48).drop len)

/-- `Encrypt` with the given random bytes. -/
def encryptWith (E : Env) (len : Nat) (k : PrivateKey) (p : PublicKey) (salt iv input : Bytes) : Out Bytes :=
  getSharedKey E len (some k) p salt >>= fun key => encode E input key iv >>= fun c => .ok (salt ++ iv ++ c)

/-- A goroutine that writes nothing but bytes into the arrays `args`, as many as they have, whatever it reads meanwhile. -/
def Prog.Writer {α : Type} (args : List Addr) : Prog α → Prop
  | .ret _ => True
  | .access a f k => (f = id ∨ (a ∈ args ∧ ∀ b, ∃ b', f (.bytes b) = .bytes b' ∧ b'.length = b.length)) ∧ ∀ v, (k v).Writer args
  | .alloc _ k => ∀ a, (k a).Writer args
  | .ask _ _ k => ∀ x, (k x).Writer args

/-- The arguments are byte arrays made by other goroutines than `i`. -/
def Foreign (h : PHeap) (i : Nat) (args : List Addr) : Prop :=
  ∀ a ∈ args, a.region ≠ 0 ∧ a.region ≠ i + 1 ∧ ∃ b, h.get a = some (.bytes b)

end Ed
