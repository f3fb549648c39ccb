import Verif.Props.Wiretap
import Verif.Props.Accept
import Verif.Props.Guess
import Verif.Real.Env

/-!
# Property C108: what `Decrypt` does with the wrong keys
-/

set_option autoImplicit false

namespace Ed

open Finset

/-! ## A random permutation at one place -/

theorem avg_perm {X : Type} [Fintype X] [DecidableEq X] [Nonempty X] (F : X → ℝ) (y : X) : (avg fun σ : Equiv.Perm X => F (σ.symm y)) = avg F := by
  have h : ∀ z, (avg fun σ : Equiv.Perm X => F (σ.symm z)) = avg fun σ : Equiv.Perm X => F (σ.symm y) := by
    intro z
    rw [← avg_equiv (Equiv.mulLeft (Equiv.swap y z)) fun σ : Equiv.Perm X => F (σ.symm z)]
    refine avg_congr fun σ => ?_
    refine congrArg F ?_
    rw [Equiv.symm_apply_eq, Equiv.coe_mulLeft, Equiv.Perm.mul_apply, Equiv.apply_symm_apply, Equiv.swap_apply_left]
  rw [← avg_const (α := X) (avg fun σ : Equiv.Perm X => F (σ.symm y)), ← avg_congr h, avg_comm]
  have h2 : ∀ σ : Equiv.Perm X, (avg fun z => F (σ.symm z)) = avg F := fun σ => avg_equiv σ.symm F
  rw [avg_congr h2]
  exact avg_const _

/-! ## Blocks with padding -/

/-- The block ends in n bytes n, for an n from 1 to 16. -/
def Block.Padded (y : Block) : Prop := ∃ m, PaddedBy y.bytes m

theorem card_all_padded : 255 * Nat.card {y : Block // y.Padded} = 2 ^ 128 - 1 := by
  let f : (Σ n : Fin 16, {y : Block // ∃ m : Bytes, y.bytes = m ++ List.replicate (n.val + 1) (UInt8.ofNat (n.val + 1))}) → {y : Block // y.Padded} :=
    fun s => ⟨s.2.1, s.2.2.choose, s.1.val + 1, by omega, by omega, s.2.2.choose_spec⟩
  have hf : Function.Bijective f := by
    constructor
    · rintro ⟨i, x, m, hm⟩ ⟨j, y, m', hm'⟩ h
      have hxy : x = y := congrArg Subtype.val h
      subst hxy
      have h1 := unpad_padded (buf := x.bytes) (m := m) ⟨i.val + 1, by omega, by omega, hm⟩
      have h2 := unpad_padded (buf := x.bytes) (m := m') ⟨j.val + 1, by omega, by omega, hm'⟩
      have h3 : m = m' := Out.ok.inj (h1.symm.trans h2)
      have h4 := congrArg List.length (hm.symm.trans hm')
      rw [List.length_append, List.length_append, List.length_replicate, List.length_replicate, h3] at h4
      have : i = j := Fin.ext (by omega)
      subst this
      rfl
    · rintro ⟨y, m, n, n1, n2, h⟩
      have e : n - 1 + 1 = n := by omega
      exact ⟨⟨⟨n - 1, by omega⟩, y, m, by show y.bytes = m ++ List.replicate (n - 1 + 1) (UInt8.ofNat (n - 1 + 1)); rw [e]; exact h⟩, rfl⟩
  rw [← Nat.card_congr (Equiv.ofBijective f hf), Nat.card_sigma,
    Finset.sum_congr rfl fun (n : Fin 16) _ => card_padded (n.val + 1) (by omega)]
  decide +kernel

theorem avg_padded : (avg fun y : Block => ind y.Padded) = (1 - 1 / 2 ^ 128) / 255 := by
  have h1 : {y : Block | y.Padded}.ncard = Nat.card {y : Block // y.Padded} := rfl
  have h3 : (255 : ℝ) * (Nat.card {y : Block // y.Padded} : ℝ) = 2 ^ 128 - 1 := by
    have h := congrArg (Nat.cast (R := ℝ)) card_all_padded
    rw [Nat.cast_mul, Nat.cast_sub (Nat.one_le_two_pow), Nat.cast_pow, Nat.cast_ofNat, Nat.cast_ofNat, Nat.cast_one] at h
    exact h
  rw [← prob_eq_avg, prob_card _ _ h1, card_Block_real]
  have h0 : (0 : ℝ) < 2 ^ 128 := pow_pos two_pos _
  generalize (2 : ℝ) ^ 128 = x at *
  generalize (Nat.card {y : Block // y.Padded} : ℝ) = c at *
  rw [show c = (x - 1) / 255 by linarith]
  field_simp

/-- The block before the last one, or the initialization vector. -/
theorem cbcPlain_end (E : Env) (key : Bytes) : ∀ (n : ℕ) (front iv : Bytes), front.length = 16 * n → iv.length = 16 →
    ∃ g : Bytes, ∀ x : Bytes, x.length = 16 →
      cbcPlain E (front ++ x) key iv = g ++ xorBlock (E.aesD key x) ((iv ++ front).drop front.length)
  | 0, front, iv, hf, hiv => by
    have : front = [] := List.length_eq_zero_iff.1 (by omega)
    subst this
    refine ⟨[], fun x hx => ?_⟩
    have := cbcPlain_cons E (rest := []) (k := key) (iv := iv) hx
    rw [List.append_nil, cbcPlain_nil, List.append_nil] at this
    simpa using this
  | n + 1, front, iv, hf, hiv => by
    have ht : (front.take 16).length = 16 := by rw [List.length_take]; omega
    obtain ⟨g, h3⟩ := cbcPlain_end E key n (front.drop 16) (front.take 16) (by rw [List.length_drop]; omega) ht
    refine ⟨xorBlock (E.aesD key (front.take 16)) iv ++ g, fun x hx => ?_⟩
    have e : front ++ x = front.take 16 ++ (front.drop 16 ++ x) := by
      rw [← List.append_assoc, List.take_append_drop]
    have e2 : (front.take 16 ++ front.drop 16).drop (front.drop 16).length = (iv ++ front).drop front.length := by
      rw [List.take_append_drop, List.length_drop, List.drop_append, List.drop_of_length_le (l := iv) (by omega), List.nil_append, hiv]
    rw [e, cbcPlain_cons E ht, h3 x hx, List.append_assoc, e2]

/-- Whether a message comes out depends on the last block. -/
theorem decode_last (E : Env) (P : Key → Equiv.Perm Block) (κ : Key) (front iv : Bytes) (y : Block) (n : ℕ) (hf : front.length = 16 * n) (hiv : iv.length = 16) :
    (∃ m, decode (E.withCipher P) (front ++ y.bytes) κ.bytes iv = .ok m) ↔
      (xorB ((P κ).symm y) (Block.of ((iv ++ front).drop front.length))).Padded := by
  have hp : ((iv ++ front).drop front.length).length = 16 := by rw [List.length_drop, List.length_append]; omega
  obtain ⟨g, hg⟩ := cbcPlain_end (E.withCipher P) κ.bytes n front iv hf hiv
  have e : (E.withCipher P).aesD κ.bytes y.bytes = ((P κ).symm y).bytes := by
    show ((P (Key.of κ.bytes)).symm (Block.of y.bytes)).bytes = _
    rw [Key.of_bytes, Block.of_bytes]
  rw [decode_eq (E.withCipher P) (Key.bytes_length κ) hiv (by rw [List.length_append, y.bytes_length]; omega), hg _ y.bytes_length, e]
  have e2 : xorBlock ((P κ).symm y).bytes ((iv ++ front).drop front.length) = (xorB ((P κ).symm y) (Block.of ((iv ++ front).drop front.length))).bytes := by
    rw [xorB_bytes, Block.bytes_of hp]
  rw [e2]
  generalize xorB ((P κ).symm y) (Block.of ((iv ++ front).drop front.length)) = z
  constructor
  · rintro ⟨m, hm⟩
    exact ⟨_, (paddedBy_drop (unpad_ok hm) z.bytes_length.ge).2.2⟩
  · rintro ⟨m, hm⟩
    exact ⟨_, unpad_padded (paddedBy_append hm)⟩

/-- XOR with a fixed block, as a permutation. -/
def Block.shift (a : Block) : Equiv.Perm Block where
  toFun := fun s => xorB s a
  invFun := fun s => xorB s a
  left_inv := fun s => by
    refine Block.bytes_inj ?_
    dsimp only
    rw [xorB_bytes, xorB_bytes, xorBlock_cancel (by rw [Block.bytes_length, Block.bytes_length])]
  right_inv := fun s => by
    refine Block.bytes_inj ?_
    dsimp only
    rw [xorB_bytes, xorB_bytes, xorBlock_cancel (by rw [Block.bytes_length, Block.bytes_length])]

/-- The message that comes out determines the last block. -/
theorem decode_same (E : Env) (P : Key → Equiv.Perm Block) (κ : Key) (front iv m : Bytes) (y : Block) (hf : front.length = 16 * (m.length / 16)) (hiv : iv.length = 16)
    (h : decode (E.withCipher P) (front ++ y.bytes) κ.bytes iv = .ok m) :
    xorB ((P κ).symm y) (Block.of ((iv ++ front).drop front.length)) = Block.of ((padMessage m).drop (16 * (m.length / 16))) := by
  have hp : ((iv ++ front).drop front.length).length = 16 := by rw [List.length_drop, List.length_append]; omega
  obtain ⟨g, hg⟩ := cbcPlain_end (E.withCipher P) κ.bytes _ front iv hf hiv
  have e : (E.withCipher P).aesD κ.bytes y.bytes = ((P κ).symm y).bytes := by
    show ((P (Key.of κ.bytes)).symm (Block.of y.bytes)).bytes = _
    rw [Key.of_bytes, Block.of_bytes]
  have hlen : (cbcPlain (E.withCipher P) (front ++ y.bytes) κ.bytes iv).length = 16 * (m.length / 16 + 1) := by
    rw [cbcPlain_length _ hiv (by rw [List.length_append, y.bytes_length]; omega), List.length_append, y.bytes_length]; omega
  rw [decode_eq (E.withCipher P) (Key.bytes_length κ) hiv (by rw [List.length_append, y.bytes_length]; omega)] at h
  obtain ⟨n, n1, n2, hn⟩ := unpad_ok h
  rw [hg _ y.bytes_length, e] at hn hlen
  have e2 : xorBlock ((P κ).symm y).bytes ((iv ++ front).drop front.length) = (xorB ((P κ).symm y) (Block.of ((iv ++ front).drop front.length))).bytes := by
    rw [xorB_bytes, Block.bytes_of hp]
  rw [e2] at hn hlen
  generalize xorB ((P κ).symm y) (Block.of ((iv ++ front).drop front.length)) = z at hn hlen
  have hzl := z.bytes_length
  have hpad : padMessage m = g ++ z.bytes := by
    have h1 := hlen
    rw [hn, List.length_append, List.length_replicate] at h1
    have hn' : n = 16 - m.length % 16 := by omega
    rw [hn, hn']
    rfl
  rw [hpad, List.drop_left' (by rw [List.length_append] at hlen; omega), Block.of_bytes]

/-- Decoding with another key: how likely something is that depends on the block that the last block is decrypted to. -/
theorem avg_decode (E : Env) (κ κ' : Key) (h : κ ≠ κ') (m iv : Bytes) (hiv : iv.length = 16) (Q : Out Bytes → Prop) (T : Block → Prop)
    (hQ : ∀ (P : Key → Equiv.Perm Block) (front : Bytes) (y : Block), front.length = 16 * (m.length / 16) →
      (Q (decode (E.withCipher P) (front ++ y.bytes) κ'.bytes iv) → T (xorB ((P κ').symm y) (Block.of ((iv ++ front).drop front.length))))) :
    (avg fun P : Key → Equiv.Perm Block => ind (∃ buf, encode (E.withCipher P) m κ.bytes iv = .ok buf ∧ Q (decode (E.withCipher P) buf κ'.bytes iv))) ≤
      avg fun y => ind (T y) := by
  rw [← avg_update κ' fun P : Key → Equiv.Perm Block => ind (∃ buf, encode (E.withCipher P) m κ.bytes iv = .ok buf ∧
    Q (decode (E.withCipher P) buf κ'.bytes iv)), avg_comm, ← avg_const (α := Key → Equiv.Perm Block) (avg fun y : Block => ind (T y))]
  refine avg_mono fun P => ?_
  obtain ⟨buf, hb, hl, -⟩ := encode_ok (E.withCipher P) (m := m) (Key.bytes_length κ) hiv
  have hb' : ∀ d, encode (E.withCipher (Function.update P κ' d)) m κ.bytes iv = .ok buf := fun d => by
    rw [encode_cipher E _ κ κ, Function.update_of_ne h, ← encode_cipher E P κ κ, hb]
  have hfl : (buf.take (16 * (m.length / 16))).length = 16 * (m.length / 16) := by rw [List.length_take]; omega
  have hyl : (buf.drop (16 * (m.length / 16))).length = 16 := by rw [List.length_drop]; omega
  have hbuf : buf = buf.take (16 * (m.length / 16)) ++ (Block.of (buf.drop (16 * (m.length / 16)))).bytes := by
    rw [Block.bytes_of hyl, List.take_append_drop]
  generalize buf.take (16 * (m.length / 16)) = front at hfl hbuf
  generalize Block.of (buf.drop (16 * (m.length / 16))) = y at hbuf
  have hi : ∀ d : Equiv.Perm Block, ind (∃ buf, encode (E.withCipher (Function.update P κ' d)) m κ.bytes iv = .ok buf ∧
      Q (decode (E.withCipher (Function.update P κ' d)) buf κ'.bytes iv)) ≤
      (fun z => ind (T (Block.shift (Block.of ((iv ++ front).drop front.length)) z))) (d.symm y) := by
    intro d
    refine ind_mono ?_
    rintro ⟨buf', h1, h2⟩
    rw [hb' d] at h1
    rw [← Out.ok.inj h1, hbuf] at h2
    have h3 := hQ _ front y hfl h2
    rw [Function.update_self] at h3
    exact h3
  refine (avg_mono hi).trans (le_of_eq ?_)
  refine (avg_perm (fun z => ind (T (Block.shift (Block.of ((iv ++ front).drop front.length)) z))) y).trans ?_
  exact avg_equiv (Block.shift (Block.of ((iv ++ front).drop front.length))) fun z => ind (T z)

theorem encoded (E : Env) (P : Key → Equiv.Perm Block) (κ κ' : Key) (m iv : Bytes) (hiv : iv.length = 16) (Q : Out Bytes → Prop) :
    ind (∃ buf, encode (E.withCipher P) m κ.bytes iv = .ok buf ∧ Q (decode (E.withCipher P) buf κ'.bytes iv)) =
      1 - ind (∃ buf, encode (E.withCipher P) m κ.bytes iv = .ok buf ∧ ¬ Q (decode (E.withCipher P) buf κ'.bytes iv)) := by
  obtain ⟨buf, hb, -, -⟩ := encode_ok (E.withCipher P) (m := m) (Key.bytes_length κ) hiv
  rw [hb]
  by_cases h : Q (decode (E.withCipher P) buf κ'.bytes iv)
  · rw [ind_true ⟨buf, rfl, h⟩, ind_false, sub_zero]
    rintro ⟨buf', h1, h2⟩
    rw [← Out.ok.inj h1] at h2
    exact h2 h
  · rw [ind_false, ind_true ⟨buf, rfl, h⟩, sub_self]
    rintro ⟨buf', h1, h2⟩
    rw [← Out.ok.inj h1] at h2
    exact h h2

theorem avg_sub_one {α : Type} [Fintype α] [Nonempty α] (F : α → ℝ) : (avg fun x => 1 - F x) = 1 - avg F := by
  have h : (avg fun x => 1 - F x) + avg F = 1 := by
    rw [← avg_add, avg_congr fun x => sub_add_cancel 1 (F x)]
    exact avg_const 1
  linarith

theorem avg_accept (E : Env) (κ κ' : Key) (h : κ ≠ κ') (m iv : Bytes) (hiv : iv.length = 16) :
    (avg fun P : Key → Equiv.Perm Block => ind (∃ buf, encode (E.withCipher P) m κ.bytes iv = .ok buf ∧ ∃ m', decode (E.withCipher P) buf κ'.bytes iv = .ok m')) =
      (1 - 1 / 2 ^ 128) / 255 := by
  rw [← avg_padded]
  refine le_antisymm ?_ ?_
  · exact avg_decode E κ κ' h m iv hiv (fun r => ∃ m', r = .ok m') Block.Padded fun P front y hf => (decode_last E P κ' front iv y _ hf hiv).1
  · have h1 := avg_decode E κ κ' h m iv hiv (fun r => ¬ ∃ m', r = .ok m') (fun y => ¬ y.Padded) fun P front y hf hn hp =>
      hn ((decode_last E P κ' front iv y _ hf hiv).2 hp)
    have h2 : ∀ y : Block, ind (¬ y.Padded) = 1 - ind y.Padded := fun y => by
      by_cases hy : y.Padded
      · rw [ind_true hy, ind_false (not_not.2 hy), sub_self]
      · rw [ind_false hy, ind_true hy, sub_zero]
    rw [avg_congr h2, avg_sub_one] at h1
    rw [avg_congr fun P => encoded E P κ κ' m iv hiv fun r => ∃ m', r = .ok m', avg_sub_one]
    linarith

theorem avg_same (E : Env) (κ κ' : Key) (h : κ ≠ κ') (m iv : Bytes) (hiv : iv.length = 16) :
    (avg fun P : Key → Equiv.Perm Block => ind (∃ buf, encode (E.withCipher P) m κ.bytes iv = .ok buf ∧ decode (E.withCipher P) buf κ'.bytes iv = .ok m)) ≤
      1 / 2 ^ 128 := by
  rw [← prob_block (Block.of ((padMessage m).drop (16 * (m.length / 16))))]
  exact avg_decode E κ κ' h m iv hiv (fun r => r = .ok m) _ fun P front y hf hm => decode_same E P κ' front iv m y hf hiv hm

section

variable (E : Env) (kA kB kC kD : PrivateKey) (A B C D : KeyPair) (hA : newKeyPair E (some kA) none = .ok A)
    (hB : newKeyPair E (some kB) none = .ok B) (hC : newKeyPair E (some kC) none = .ok C) (hD : newKeyPair E (some kD) none = .ok D)
    (hne : (secretScalar E kA.raw * secretScalar E kB.raw) • Ed.B ≠ (secretScalar E kC.raw * secretScalar E kD.raw) • Ed.B) (seed seed' : ℕ) (m : Bytes) (w : World)
    (hw : ErrorFree (w seed)) (hl : 48 ≤ (content (w seed)).length)

include hA hB hC hD hne hw hl

/-- The two calls, with the two hash inputs for the key. -/
theorem both_calls : ∃ (x x' : Key) (iv : Bytes), x ≠ x' ∧ iv.length = 16 ∧ ∀ (Q : Out Bytes → Prop) (H : Key → Key) (P : Key → Equiv.Perm Block),
    ((∃ out, ((newBlockCipher A B (some seed)).encrypt ((E.withCipher P).withKeyHash H) m w).1 = .ok out ∧
      Q ((newBlockCipher C D (some seed')).decrypt ((E.withCipher P).withKeyHash H) out)) ↔
      ∃ buf, encode (E.withCipher P) m (H x).bytes iv = .ok buf ∧ Q (decode (E.withCipher P) buf (H x').bytes iv)) := by
  have hpt : sharedPoint E kA kB ≠ sharedPoint E kC kD := by
    intro h
    have h1 := congrArg Key.bytes h
    unfold sharedPoint at h1
    rw [Key.bytes_of (encodePoint_length _), Key.bytes_of (encodePoint_length _)] at h1
    exact hne (encodePoint_inj h1)
  have ha := avail_errorFree _ hw
  obtain ⟨r1, r2, r3⟩ := read_ok (seed := seed) (w := w) (n := 32) (by rw [ha]; omega)
  obtain ⟨r1', -, -⟩ := read_ok (seed := seed) (w := (Act.read seed 32 w).2) (n := 16) (by rw [avail_errorFree _ (r3 hw), r2, List.length_drop]; omega)
  have hs := read_ok_length r1
  have hiv := read_ok_length r1'
  generalize (content (w seed)).take 32 = salt at r1 hs
  generalize (content ((Act.read seed 32 w).2 seed)).take 16 = iv at r1' hiv
  obtain ⟨x, hx⟩ : ∃ x, x = Key.xor (sharedPoint E kA kB) (Key.of salt) := ⟨_, rfl⟩
  obtain ⟨x', hx'⟩ : ∃ x', x' = Key.xor (sharedPoint E kC kD) (Key.of salt) := ⟨_, rfl⟩
  have hxx : x ≠ x' := by
    intro h
    rw [hx, hx'] at h
    have h1 := congrArg (fun a => Key.xor a (Key.of salt)) h
    rw [Key.xor_xor, Key.xor_xor] at h1
    exact hpt h1
  refine ⟨x, x', iv, hxx, hiv, fun Q H P => ?_⟩
  have he : ((newBlockCipher A B (some seed)).encrypt ((E.withCipher P).withKeyHash H) m w).1 =
      (encode (E.withCipher P) m (H x).bytes iv).bind fun buf => .ok ((salt ++ iv) ++ buf) := by
    have h1 := congrArg Prod.fst ((call_form (E.withCipher P) kA kB A B (keyPair_cipher E P hA) (keyPair_cipher E P hB) seed (.encrypt false m) w).eq H)
    rw [hx]
    refine h1.trans ?_
    simp only [SpyOp.form, r1, r1', Option.getD_some, point_cipher]
  have hd : ∀ buf : Bytes, 16 ≤ buf.length → (newBlockCipher C D (some seed')).decrypt ((E.withCipher P).withKeyHash H) ((salt ++ iv) ++ buf) =
      decode (E.withCipher P) buf (H x').bytes iv := by
    intro buf hb
    have h1 := congrArg Prod.fst ((call_form (E.withCipher P) kC kD C D (keyPair_cipher E P hC) (keyPair_cipher E P hD) seed'
      (.decrypt false ((salt ++ iv) ++ buf)) w).eq H)
    have hsi : (salt ++ iv).length = 48 := by rw [List.length_append]; omega
    have e1 : ((salt ++ iv) ++ buf).take 32 = salt := by rw [List.append_assoc, List.take_left' hs]
    have e2 : ((salt ++ iv) ++ buf).drop 48 = buf := List.drop_left' hsi
    have e3 : (((salt ++ iv) ++ buf).take 48).drop 32 = iv := by rw [List.take_left' hsi, List.drop_left' hs]
    rw [hx']
    refine h1.trans ?_
    simp only [SpyOp.form]
    rw [if_neg (by rw [List.length_append]; omega), e1, e2, e3]
    rfl
  obtain ⟨buf, hb, hbl, -⟩ := encode_ok (E.withCipher P) (m := m) (Key.bytes_length (H x)) hiv
  rw [he, hb]
  constructor
  · rintro ⟨out, h1, h2⟩
    rw [← Out.ok.inj h1, hd buf (by omega)] at h2
    exact ⟨buf, rfl, h2⟩
  · rintro ⟨buf', h1, h2⟩
    rw [← Out.ok.inj h1] at h2
    exact ⟨_, rfl, by rw [hd buf (by omega)]; exact h2⟩

/-- C108: let SHA3-256 be a random function and AES a random permutation for each key.  A ciphertext from A for B, decrypted with keys whose shared point is
another one, gives a message (and no error) with a probability of exactly 1/255 (1 - 2^-128), but for the probability 2^-256 that the two keys for AES are
equal. -/
theorem C108_wrong_keys :
    (prob fun x : (Key → Key) × (Key → Equiv.Perm Block) => ∃ out, ((newBlockCipher A B (some seed)).encrypt ((E.withCipher x.2).withKeyHash x.1) m w).1 = .ok out ∧
      ∃ m', (newBlockCipher C D (some seed')).decrypt ((E.withCipher x.2).withKeyHash x.1) out = .ok m') =
      1 / 2 ^ 256 + (1 - 1 / 2 ^ 256) * ((1 - 1 / 2 ^ 128) / 255) := by
  obtain ⟨x, x', iv, hxx, hiv, hev⟩ := both_calls E kA kB kC kD A B C D hA hB hC hD hne seed seed' m w hw hl
  rw [prob_eq_avg, avg_prod]
  have hP : ∀ H : Key → Key, (avg fun P : Key → Equiv.Perm Block => ind (∃ out,
      ((newBlockCipher A B (some seed)).encrypt ((E.withCipher P).withKeyHash H) m w).1 = .ok out ∧
      ∃ m', (newBlockCipher C D (some seed')).decrypt ((E.withCipher P).withKeyHash H) out = .ok m')) =
      (1 - 1 / 2 ^ 128) / 255 + (1 - (1 - 1 / 2 ^ 128) / 255) * ind (H x = H x') := by
    intro H
    rw [avg_congr fun P => ind_congr (hev (fun r => ∃ m', r = .ok m') H P)]
    by_cases h : H x = H x'
    · rw [ind_true h, h, avg_congr fun P => ind_true ?_, avg_const]
      · ring
      · obtain ⟨buf, h1, -, h2⟩ := encode_ok (E.withCipher P) (m := m) (Key.bytes_length (H x')) hiv
        exact ⟨buf, h1, m, h2⟩
    · rw [ind_false h, avg_accept E _ _ h m iv hiv, mul_zero, add_zero]
  dsimp only
  rw [avg_congr hP, avg_add, avg_mul_left, avg_const, avg_equal hxx]
  ring

/-- C108: it gives the message that was encrypted with a probability of at most 2^-128 + 2^-256. -/
theorem C108_wrong_message :
    (prob fun x : (Key → Key) × (Key → Equiv.Perm Block) => ∃ out, ((newBlockCipher A B (some seed)).encrypt ((E.withCipher x.2).withKeyHash x.1) m w).1 = .ok out ∧
      (newBlockCipher C D (some seed')).decrypt ((E.withCipher x.2).withKeyHash x.1) out = .ok m) ≤ 1 / 2 ^ 128 + 1 / 2 ^ 256 := by
  obtain ⟨x, x', iv, hxx, hiv, hev⟩ := both_calls E kA kB kC kD A B C D hA hB hC hD hne seed seed' m w hw hl
  rw [prob_eq_avg, avg_prod]
  have hP : ∀ H : Key → Key, (avg fun P : Key → Equiv.Perm Block => ind (∃ out,
      ((newBlockCipher A B (some seed)).encrypt ((E.withCipher P).withKeyHash H) m w).1 = .ok out ∧
      (newBlockCipher C D (some seed')).decrypt ((E.withCipher P).withKeyHash H) out = .ok m)) ≤ 1 / 2 ^ 128 + ind (H x = H x') := by
    intro H
    rw [avg_congr fun P => ind_congr (hev (fun r => r = .ok m) H P)]
    by_cases h : H x = H x'
    · rw [ind_true h]
      refine (avg_mono fun P => ind_le_one _).trans ((avg_const_le zero_le_one).trans ?_)
      have : (0 : ℝ) ≤ 1 / 2 ^ 128 := div_nonneg zero_le_one (pow_nonneg two_pos.le _)
      linarith
    · rw [ind_false h, add_zero]
      exact avg_same E _ _ h m iv hiv
  refine (avg_mono hP).trans (le_of_eq ?_)
  rw [avg_add, avg_const, avg_equal hxx]

end

/-- The hypotheses of C108 with the real SHA3-512: a ciphertext from A for B, opened by D as if it were for D; a reader with 48 bytes and more. -/
example : ∃ (A B D : KeyPair) (w : World), newKeyPair Env.real (some (newPrivateKey [1])) none = .ok A ∧ newKeyPair Env.real (some (newPrivateKey [2])) none = .ok B ∧
    newKeyPair Env.real (some (newPrivateKey [3])) none = .ok D ∧
    (secretScalar Env.real (newPrivateKey [1]).raw * secretScalar Env.real (newPrivateKey [2]).raw) • Ed.B ≠ (secretScalar Env.real (newPrivateKey [1]).raw * secretScalar Env.real (newPrivateKey [3]).raw) • Ed.B ∧
    ErrorFree (w 3) ∧ 48 ≤ (content (w 3)).length := by
  refine ⟨_, _, _, fun _ => [⟨List.replicate 50 7, none⟩], C30_derive _ _, C30_derive _ _, C30_derive _ _, ?_, by simp [ErrorFree], by simp [content]⟩
  rw [Ne, smul_B_eq_iff, L_eq]
  decide +kernel

end Ed
