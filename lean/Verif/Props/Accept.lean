import Verif.Props.Cbc
import Verif.Spec.Secrecy
import Mathlib.SetTheory.Cardinal.Finite
import Mathlib.Algebra.BigOperators.Fin

/-!
# Property C102: how many last blocks `Decrypt` accepts
-/

set_option autoImplicit false

namespace Ed

variable (E : Env)

theorem cbcPlain_last (key : Bytes) : ∀ (n : ℕ) (front iv : Bytes), front.length = 16 * n → iv.length = 16 →
    ∃ prev g : Bytes, prev.length = 16 ∧ g.length = front.length ∧ ∀ x : Bytes, x.length = 16 →
      cbcPlain E (front ++ x) key iv = g ++ xorBlock (E.aesD key x) prev
  | 0, front, iv, hf, hiv => by
    have : front = [] := List.length_eq_zero_iff.1 (by omega)
    subst this
    refine ⟨iv, [], hiv, rfl, fun x hx => ?_⟩
    have := cbcPlain_cons E (rest := []) (k := key) (iv := iv) hx
    rwa [List.append_nil, cbcPlain_nil, List.append_nil] at this
  | n + 1, front, iv, hf, hiv => by
    have ht : (front.take 16).length = 16 := by rw [List.length_take]; omega
    obtain ⟨prev, g, h1, h2, h3⟩ := cbcPlain_last key n (front.drop 16) (front.take 16) (by rw [List.length_drop]; omega) ht
    refine ⟨prev, xorBlock (E.aesD key (front.take 16)) iv ++ g, h1, ?_, fun x hx => ?_⟩
    · rw [List.length_append, h2, xorBlock_length (by rw [E.aesD_length _ _ ht, hiv]), E.aesD_length _ _ ht, List.length_drop]; omega
    · have e : front ++ x = front.take 16 ++ (front.drop 16 ++ x) := by
        rw [← List.append_assoc, List.take_append_drop]
      rw [e, cbcPlain_cons E ht, h3 x hx, List.append_assoc]

/-- What `Decrypt` makes of a last block behind anything. -/
theorem decrypt_last (c : BlockCipher) (k : PrivateKey) (q : Pt) (hkl : c.keyLength = 32) (hk : c.recipient.priv = some k)
    (hl : c.sender.pub.raw.length = 32) (hq : Decodes c.sender.pub.raw q) (salt iv front : Bytes) (hs : salt.length = 32) (hiv : iv.length = 16)
    (hf : front.length % 16 = 0) : ∃ key prev g : Bytes, prev.length = 16 ∧ g.length = front.length ∧ ∀ x : Bytes, x.length = 16 →
      c.decrypt E (salt ++ iv ++ front ++ x) = unpad (g ++ xorBlock (E.aesD key x) prev) := by
  obtain ⟨key, k1, _, k3⟩ := decrypt_parts E c k q hkl hk hl hq salt hs
  obtain ⟨prev, g, h1, h2, h3⟩ := cbcPlain_last E key (front.length / 16) front iv (by omega) hiv
  refine ⟨key, prev, g, h1, h2, fun x hx => ?_⟩
  have hne : front ++ x ≠ [] := by
    intro e; have := congrArg List.length e; rw [List.length_append, List.length_nil] at this; omega
  have h16 : (front ++ x).length % 16 = 0 := by rw [List.length_append]; omega
  rw [List.append_assoc (salt ++ iv), k3 iv _ hiv hne h16, decode_eq E k1 hiv h16, h3 x hx]

/-- Decryption of one block and the xor, as a permutation of the blocks. -/
def lastPerm (key prev : Bytes) (hp : prev.length = 16) : Equiv.Perm Block where
  toFun x := Block.of (xorBlock (E.aesD key x.bytes) prev)
  invFun y := Block.of (E.aesE key (xorBlock y.bytes prev))
  left_inv x := by
    have hd := E.aesD_length key _ x.bytes_length
    have hx : (xorBlock (E.aesD key x.bytes) prev).length = 16 := by rw [xorBlock_length (by rw [hd, hp]), hd]
    dsimp only
    rw [Block.bytes_of hx, xorBlock_cancel (by rw [hd, hp]), aesE_aesD E _ _ x.bytes_length, Block.of_bytes]
  right_inv y := by
    have hy := y.bytes_length
    have hx : (xorBlock y.bytes prev).length = 16 := by rw [xorBlock_length (by rw [hy, hp]), hy]
    dsimp only
    rw [Block.bytes_of (E.aesE_length key _ hx), E.aesD_aesE key _ hx, xorBlock_cancel (by rw [hy, hp]), Block.of_bytes]

theorem lastPerm_bytes {key prev : Bytes} (hp : prev.length = 16) (x : Block) :
    (lastPerm E key prev hp x).bytes = xorBlock (E.aesD key x.bytes) prev := by
  have hd := E.aesD_length key _ x.bytes_length
  exact Block.bytes_of (by rw [xorBlock_length (by rw [hd, hp]), hd])

/-- The blocks that end in n bytes n. -/
theorem card_padded (n : ℕ) (hn : n ≤ 16) :
    Nat.card {y : Block // ∃ m : Bytes, y.bytes = m ++ List.replicate n (UInt8.ofNat n)} = 256 ^ (16 - n) := by
  have ll : ∀ j : ℕ, (leBytes (16 - n) j ++ List.replicate n (UInt8.ofNat n)).length = 16 := by
    intro j; rw [List.length_append, leBytes_length, List.length_replicate]; omega
  let f : Fin (256 ^ (16 - n)) → {y : Block // ∃ m : Bytes, y.bytes = m ++ List.replicate n (UInt8.ofNat n)} :=
    fun j => ⟨Block.of (leBytes (16 - n) j.val ++ List.replicate n (UInt8.ofNat n)), _, Block.bytes_of (ll _)⟩
  have hf : Function.Bijective f := by
    constructor
    · intro i j h
      have h1 := congrArg (fun y => Block.bytes y.1) h
      simp only [f] at h1
      rw [Block.bytes_of (ll _), Block.bytes_of (ll _)] at h1
      have h2 := congrArg leVal (List.append_inj_left h1 (by rw [leBytes_length, leBytes_length]))
      rw [leVal_leBytes_of_lt i.isLt, leVal_leBytes_of_lt j.isLt] at h2
      exact Fin.ext h2
    · rintro ⟨y, m, hm⟩
      have hl : m.length = 16 - n := by
        have := congrArg List.length hm
        rw [y.bytes_length, List.length_append, List.length_replicate] at this
        omega
      refine ⟨⟨leVal m, by rw [← hl]; exact leVal_lt m⟩, Subtype.ext ?_⟩
      show Block.of (leBytes (16 - n) (leVal m) ++ List.replicate n (UInt8.ofNat n)) = y
      rw [← hl, leBytes_leVal, ← hm, Block.of_bytes]
  rw [← Nat.card_congr (Equiv.ofBijective f hf), Nat.card_eq_fintype_card, Fintype.card_fin]

/-- The message for a last block is n bytes shorter than all blocks exactly if the block decrypts to one that ends in n bytes n. -/
theorem last_iff (c : BlockCipher) (k : PrivateKey) (q : Pt) (hkl : c.keyLength = 32) (hk : c.recipient.priv = some k)
    (hl : c.sender.pub.raw.length = 32) (hq : Decodes c.sender.pub.raw q) (salt iv front : Bytes) (hs : salt.length = 32) (hiv : iv.length = 16)
    (hf : front.length % 16 = 0) : ∃ σ : Equiv.Perm Block, ∀ x : Block,
      (∀ n, 1 ≤ n → n ≤ 16 → ((∃ m, c.decrypt E (salt ++ iv ++ front ++ x.bytes) = .ok m ∧ m.length + n = front.length + 16) ↔
        ∃ m : Bytes, (σ x).bytes = m ++ List.replicate n (UInt8.ofNat n))) ∧
      ∀ m, c.decrypt E (salt ++ iv ++ front ++ x.bytes) = .ok m → ∃ n, 1 ≤ n ∧ n ≤ 16 ∧ m.length + n = front.length + 16 := by
  obtain ⟨key, prev, g, h1, h2, h3⟩ := decrypt_last E c k q hkl hk hl hq salt iv front hs hiv hf
  refine ⟨lastPerm E key prev h1, fun x => ?_⟩
  rw [h3 _ x.bytes_length, ← lastPerm_bytes E h1 x]
  generalize lastPerm E key prev h1 x = y
  have hy := y.bytes_length
  refine ⟨fun n n1 n2 => ⟨?_, ?_⟩, ?_⟩
  · rintro ⟨m, hm, hmn⟩
    obtain ⟨d1, d2, n', d3, d4, d5⟩ := paddedBy_drop (unpad_ok hm) (le_of_eq hy.symm)
    have : n' = n := by
      have := congrArg List.length d5
      rw [hy, List.length_append, List.length_replicate, List.length_drop] at this
      omega
    subst this
    exact ⟨_, d5⟩
  · rintro ⟨m, hm⟩
    refine ⟨g ++ m, unpad_padded (paddedBy_append ⟨n, n1, n2, hm⟩), ?_⟩
    have := congrArg List.length hm
    rw [hy, List.length_append, List.length_replicate] at this
    rw [List.length_append, h2]; omega
  · intro m hm
    obtain ⟨d1, d2, n', d3, d4, d5⟩ := paddedBy_drop (unpad_ok hm) (le_of_eq hy.symm)
    have := congrArg List.length d5
    rw [hy, List.length_append, List.length_replicate, List.length_drop] at this
    exact ⟨n', d3, d4, by omega⟩

/-- C102: behind any salt, IV and whole blocks there are exactly 256^(16-n) last blocks for which `Decrypt` returns a message that is n bytes
shorter than the blocks, for each n from 1 to 16. -/
theorem C102_lengths (c : BlockCipher) (k : PrivateKey) (q : Pt) (hkl : c.keyLength = 32) (hk : c.recipient.priv = some k)
    (hl : c.sender.pub.raw.length = 32) (hq : Decodes c.sender.pub.raw q) (salt iv front : Bytes) (hs : salt.length = 32) (hiv : iv.length = 16)
    (hf : front.length % 16 = 0) (n : ℕ) (n1 : 1 ≤ n) (n2 : n ≤ 16) :
    Nat.card {x : Block // ∃ m, c.decrypt E (salt ++ iv ++ front ++ x.bytes) = .ok m ∧ m.length + n = front.length + 16} = 256 ^ (16 - n) := by
  obtain ⟨σ, hσ⟩ := last_iff E c k q hkl hk hl hq salt iv front hs hiv hf
  rw [← card_padded n n2]
  exact Nat.card_congr (σ.subtypeEquiv fun x => (hσ x).1 n n1 n2)

/-- C102: behind any salt, IV and whole blocks `Decrypt` returns a message for exactly (2^128 - 1)/255 of the 2^128 last blocks. -/
theorem C102_accepted (c : BlockCipher) (k : PrivateKey) (q : Pt) (hkl : c.keyLength = 32) (hk : c.recipient.priv = some k)
    (hl : c.sender.pub.raw.length = 32) (hq : Decodes c.sender.pub.raw q) (salt iv front : Bytes) (hs : salt.length = 32) (hiv : iv.length = 16)
    (hf : front.length % 16 = 0) :
    255 * Nat.card {x : Block // ∃ m, c.decrypt E (salt ++ iv ++ front ++ x.bytes) = .ok m} = 2 ^ 128 - 1 := by
  obtain ⟨σ, hσ⟩ := last_iff E c k q hkl hk hl hq salt iv front hs hiv hf
  let f : (Σ n : Fin 16, {x : Block // ∃ m, c.decrypt E (salt ++ iv ++ front ++ x.bytes) = .ok m ∧ m.length + (n.val + 1) = front.length + 16}) →
      {x : Block // ∃ m, c.decrypt E (salt ++ iv ++ front ++ x.bytes) = .ok m} := fun s => ⟨s.2.1, s.2.2.choose, s.2.2.choose_spec.1⟩
  have hf' : Function.Bijective f := by
    constructor
    · rintro ⟨i, x, m, hm, hi⟩ ⟨j, y, m', hm', hj⟩ h
      have hxy : x = y := congrArg Subtype.val h
      subst hxy
      rw [hm] at hm'
      cases hm'
      have : i = j := Fin.ext (by omega)
      subst this
      rfl
    · rintro ⟨x, m, hm⟩
      obtain ⟨n, n1, n2, n3⟩ := (hσ x).2 m hm
      exact ⟨⟨⟨n - 1, by omega⟩, x, m, hm, by show m.length + (n - 1 + 1) = _; omega⟩, rfl⟩
  have hc : Nat.card {x : Block // ∃ m, c.decrypt E (salt ++ iv ++ front ++ x.bytes) = .ok m} = ∑ n : Fin 16, 256 ^ (16 - (n.val + 1)) := by
    rw [← Nat.card_congr (Equiv.ofBijective f hf'), Nat.card_sigma]
    exact Finset.sum_congr rfl fun n _ =>
      C102_lengths E c k q hkl hk hl hq salt iv front hs hiv hf (n.val + 1) (by omega) (by omega)
  rw [hc]
  decide +kernel

/-- The hypotheses of C102: the ciphers of `accepted_exists`, behind a salt, an IV and two blocks. -/
example : ∃ (c : BlockCipher) (k : PrivateKey) (q : Pt) (salt iv front : Bytes), c.keyLength = 32 ∧ c.recipient.priv = some k ∧
    c.sender.pub.raw.length = 32 ∧ Decodes c.sender.pub.raw q ∧ salt.length = 32 ∧ iv.length = 16 ∧ front.length % 16 = 0 ∧ front ≠ [] := by
  obtain ⟨c, k, q, _, h1, h2, h3, h4, _⟩ :=
    accepted_exists E (newPrivateKey [1]) (newPrivateKey [2]) _ _ (derive_spec E _) (derive_spec E _) []
  exact ⟨c, k, q, List.replicate 32 3, List.replicate 16 4, List.replicate 32 5, h1, h2, h3, h4, List.length_replicate, List.length_replicate, by simp, by simp⟩

end Ed
