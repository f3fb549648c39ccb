import Verif.Spec.Eavesdrop
import Verif.Proofs.Eavesdrop
import Verif.Props.Secrecy
import Verif.Props.Attack

/-!
# Eavesdroppers who cannot compute the shared point (C100)
-/

set_option autoImplicit false

namespace Ed

open Finset

/-! ## 32 bytes -/

theorem Key.bytes_of {b : Bytes} (h : b.length = 32) : (Key.of b).bytes = b := by
  have h1 : leVal b % 2 ^ 256 = leVal b := Nat.mod_eq_of_lt (lt_of_lt_of_eq (leVal_lt b) (by rw [h]; decide +kernel))
  show leBytes 32 (leVal b % 2 ^ 256) = b
  rw [h1, ← h, leBytes_leVal]

theorem Key.of_bytes (x : Key) : Key.of x.bytes = x := Key.bytes_inj (Key.bytes_of (Key.bytes_length x))

theorem Key.xor_bytes (a b : Key) : (Key.xor a b).bytes = xorBlock a.bytes b.bytes :=
  Key.bytes_of (by rw [List.length_zipWith, Key.bytes_length, Key.bytes_length]; rfl)

theorem Key.xor_comm (a b : Key) : Key.xor a b = Key.xor b a := by
  refine Key.bytes_inj ?_
  rw [Key.xor_bytes, Key.xor_bytes, xorBlock_comm]

theorem Key.xor_xor (a b : Key) : Key.xor (Key.xor a b) b = a := by
  refine Key.bytes_inj ?_
  rw [Key.xor_bytes, Key.xor_bytes]
  exact xorBlock_cancel (by rw [Key.bytes_length, Key.bytes_length])

/-- XOR with a fixed value, as a permutation. -/
def Key.shift (a : Key) : Equiv.Perm Key where
  toFun := fun s => Key.xor a s
  invFun := fun s => Key.xor a s
  left_inv := fun s => by dsimp only; rw [Key.xor_comm a s, Key.xor_comm, Key.xor_xor]
  right_inv := fun s => by dsimp only; rw [Key.xor_comm a s, Key.xor_comm, Key.xor_xor]

/-! ## The calls -/

theorem hash_withKeyHash (E : Env) (H : Key → Key) {b : Bytes} (h : b.length = 32) : hashesSha3_256 (E.withKeyHash H) b = (H (Key.of b)).bytes := by
  show (if ([] ++ b).length = 32 then (H (Key.of ([] ++ b))).bytes else hashesSha3_256 E ([] ++ b)) = _
  rw [List.nil_append, if_pos h]

theorem cbcEnc_withKeyHash (E : Env) (H : Key → Key) (key : Bytes) : ∀ (ps : List Bytes) (iv : Bytes),
    cbcEncBlocks (E.withKeyHash H) key iv ps = cbcEncBlocks E key iv ps
  | [], _ => rfl
  | p :: ps, iv => by
    have e : (E.withKeyHash H).aesE = E.aesE := rfl
    simp only [cbcEncBlocks, e]
    rw [cbcEnc_withKeyHash E H key ps]

theorem cbcDec_withKeyHash (E : Env) (H : Key → Key) (key : Bytes) : ∀ (cs : List Bytes) (iv : Bytes),
    cbcDecBlocks (E.withKeyHash H) key iv cs = cbcDecBlocks E key iv cs
  | [], _ => rfl
  | c :: cs, iv => by
    have e : (E.withKeyHash H).aesD = E.aesD := rfl
    simp only [cbcDecBlocks, e]
    rw [cbcDec_withKeyHash E H key cs]

theorem encode_withKeyHash (E : Env) (H : Key → Key) (m key iv : Bytes) : encode (E.withKeyHash H) m key iv = encode E m key iv := by
  unfold encode
  simp only [cbcEnc_withKeyHash]

theorem decode_withKeyHash (E : Env) (H : Key → Key) (c key iv : Bytes) : decode (E.withKeyHash H) c key iv = decode E c key iv := by
  unfold decode
  simp only [cbcDec_withKeyHash]

/-- The shared point of two private keys, encoded. -/
noncomputable def sharedPoint (E : Env) (kA kB : PrivateKey) : Key := Key.of (encodePoint ((secretScalar E kA.raw * secretScalar E kB.raw) • B))

theorem sharedPoint_comm (E : Env) (kA kB : PrivateKey) : sharedPoint E kA kB = sharedPoint E kB kA := by
  unfold sharedPoint
  rw [Nat.mul_comm]

theorem getSharedKey_withKeyHash (E : Env) (H : Key → Key) (kA kB : PrivateKey) {salt : Bytes} (hs : salt.length = 32) :
    getSharedKey (E.withKeyHash H) 32 (some kA) ⟨publicKeyOf E kB.raw⟩ salt = .ok (H (Key.xor (sharedPoint E kA kB) (Key.of salt))).bytes := by
  have h := C24_value (E.withKeyHash H) kA kB salt hs
  have e : publicKeyOf (E.withKeyHash H) kB.raw = publicKeyOf E kB.raw := rfl
  have e2 : ∀ k, secretScalar (E.withKeyHash H) k = secretScalar E k := fun _ => rfl
  rw [e, e2, e2, hash_withKeyHash E H (by rw [List.length_zipWith, encodePoint_length, hs]; rfl)] at h
  rw [h]
  unfold Key.xor sharedPoint
  rw [Key.bytes_of (encodePoint_length _), Key.bytes_of hs]

/-- What a call does: the salt, the result as a function of the shared key for this salt, and the readers afterwards. -/
def SpyOp.form (E : Env) (seed : ℕ) : SpyOp → World → Option Key × (Key → Out Bytes) × World
  | .encrypt _ m, w =>
    match (Act.read seed 32 w).1 with
    | .ok salt =>
      match (Act.read seed 16 (Act.read seed 32 w).2).1 with
      | .ok iv => (some (Key.of salt), fun κ => (encode E m κ.bytes iv).bind fun buf => .ok ((salt ++ iv) ++ buf), (Act.read seed 16 (Act.read seed 32 w).2).2)
      | .err e => (none, fun _ => .err e, (Act.read seed 16 (Act.read seed 32 w).2).2)
      | .panic => (none, fun _ => .panic, (Act.read seed 16 (Act.read seed 32 w).2).2)
    | .err e => (none, fun _ => .err e, (Act.read seed 32 w).2)
    | .panic => (none, fun _ => .panic, (Act.read seed 32 w).2)
  | .decrypt _ b, w =>
    if b.length < 64 then (none, fun _ => .err "input is to short for decryption", w)
    else (some (Key.of (b.take 32)), fun κ => decode E (b.drop 48) κ.bytes ((b.take 48).drop 32), w)
  | .sharedKey _ s, w => (some s, fun κ => .ok κ.bytes, w)

/-- `r` is what the call gives. -/
structure SpyOp.Fits (E : Env) (seed : ℕ) (dh : Key) (o : SpyOp) (w : World) (call : (Key → Key) → Out Bytes × World) : Prop where
  eq : ∀ H, call H = ((o.form E seed w).2.1 (H (Key.xor dh ((o.form E seed w).1.getD (Key.of [])))), (o.form E seed w).2.2)

theorem encrypt_form (E : Env) (c : BlockCipher) (kA kB : PrivateKey) (hk : c.sender.priv = some kA) (hp : c.recipient.pub = ⟨publicKeyOf E kB.raw⟩)
    (hkl : c.keyLength = 32) (d : Bool) (m : Bytes) (w : World) :
    (SpyOp.encrypt d m).Fits E c.seed (sharedPoint E kA kB) w fun H => c.encrypt (E.withKeyHash H) m w := by
  refine ⟨fun H => ?_⟩
  unfold BlockCipher.encrypt
  rw [hkl, hk, hp]
  cases h1 : (Act.read c.seed 32 w).1 with
  | err e => rw [Act.bind_err h1]; simp only [SpyOp.form, h1]
  | panic => rw [Act.bind_panic h1]; simp only [SpyOp.form, h1]
  | ok salt =>
    rw [Act.bind_ok' h1]
    have hs := read_ok_length h1
    have hf : ∀ P : Option Key × (Key → Out Bytes) × World → Prop, P (match (Act.read c.seed 16 (Act.read c.seed 32 w).2).1 with
      | .ok iv => (some (Key.of salt), fun κ => (encode E m κ.bytes iv).bind fun buf => .ok ((salt ++ iv) ++ buf), (Act.read c.seed 16 (Act.read c.seed 32 w).2).2)
      | .err e => (none, fun _ => .err e, (Act.read c.seed 16 (Act.read c.seed 32 w).2).2)
      | .panic => (none, fun _ => .panic, (Act.read c.seed 16 (Act.read c.seed 32 w).2).2)) → P ((SpyOp.encrypt d m).form E c.seed w) := by
      intro P hP
      simp only [SpyOp.form, h1]
      exact hP
    refine hf (fun f => _ = (f.2.1 (H (Key.xor _ (f.1.getD _))), f.2.2)) ?_
    generalize (Act.read c.seed 32 w).2 = w1
    rw [Act.bind_ok (x := Act.lift _) (w' := w1) (by unfold Act.lift; rw [getSharedKey_withKeyHash E H kA kB hs])]
    cases h2 : (Act.read c.seed 16 w1).1 with
    | err e => rw [Act.bind_err h2]
    | panic => rw [Act.bind_panic h2]
    | ok iv =>
      rw [Act.bind_ok' h2]
      generalize (Act.read c.seed 16 w1).2 = w2
      dsimp only [Option.getD]
      generalize (H (Key.xor (sharedPoint E kA kB) (Key.of salt))).bytes = key
      rw [encode_withKeyHash]
      unfold Act.bind Act.lift Out.bind
      cases encode E m key iv <;> rfl

theorem decrypt_form (E : Env) (c : BlockCipher) (kA kB : PrivateKey) (hk : c.recipient.priv = some kA) (hp : c.sender.pub = ⟨publicKeyOf E kB.raw⟩)
    (hkl : c.keyLength = 32) (seed : ℕ) (d : Bool) (b : Bytes) (w : World) :
    (SpyOp.decrypt d b).Fits E seed (sharedPoint E kA kB) w fun H => Act.lift (c.decrypt (E.withKeyHash H) b) w := by
  refine ⟨fun H => ?_⟩
  have hf : (SpyOp.decrypt d b).form E seed w = if b.length < 64 then (none, fun _ => .err "input is to short for decryption", w)
    else (some (Key.of (b.take 32)), fun κ => decode E (b.drop 48) κ.bytes ((b.take 48).drop 32), w) := rfl
  rw [hf]
  unfold BlockCipher.decrypt Act.lift
  by_cases hb : b.length < 64
  · rw [if_pos hb, if_pos hb]
  · rw [if_neg hb, if_neg hb, hkl, hk, hp, if_neg (by omega)]
    dsimp only
    rw [getSharedKey_withKeyHash E H kA kB (by rw [List.length_take]; omega), Out.bind_ok, decode_withKeyHash]
    rfl

theorem call_form (E : Env) (kA kB : PrivateKey) (A B : KeyPair) (hA : newKeyPair E (some kA) none = .ok A) (hB : newKeyPair E (some kB) none = .ok B)
    (seed : ℕ) (o : SpyOp) (w : World) : o.Fits E seed (sharedPoint E kA kB) w fun H => o.call (E.withKeyHash H) A B seed w := by
  rw [C30_derive] at hA hB
  have hA := Out.ok.inj hA
  have hB := Out.ok.inj hB
  subst hA hB
  have hl : ∀ (P : KeyPair) (k : PrivateKey), (newBlockCipher P ⟨some k, ⟨publicKeyOf E k.raw⟩⟩ (some seed)).keyLength = 32 := fun _ _ => encodePoint_length _
  cases o with
  | encrypt d m =>
    cases d
    · exact encrypt_form E (newBlockCipher _ _ (some seed)) kA kB rfl rfl (hl _ _) false m w
    · rw [sharedPoint_comm]
      exact encrypt_form E (newBlockCipher _ _ (some seed)) kB kA rfl rfl (hl _ _) true m w
  | decrypt d b =>
    cases d
    · rw [sharedPoint_comm]
      exact decrypt_form E (newBlockCipher _ _ (some seed)) kB kA rfl rfl (hl _ _) seed false b w
    · exact decrypt_form E (newBlockCipher _ _ (some seed)) kA kB rfl rfl (hl _ _) seed true b w
  | sharedKey d s =>
    refine ⟨fun H => ?_⟩
    cases d
    · show (getSharedKey _ 32 (some kA) ⟨publicKeyOf E kB.raw⟩ s.bytes, w) = _
      rw [getSharedKey_withKeyHash E H kA kB (Key.bytes_length _), Key.of_bytes]
      rfl
    · show (getSharedKey _ 32 (some kB) ⟨publicKeyOf E kA.raw⟩ s.bytes, w) = _
      rw [getSharedKey_withKeyHash E H kB kA (Key.bytes_length _), Key.of_bytes, sharedPoint_comm]
      rfl

theorem form_encrypt (E : Env) (seed : ℕ) (d : Bool) (m : Bytes) (w : World) :
    (∃ salt iv w', salt.length = 32 ∧ iv.length = 16 ∧ (SpyOp.encrypt d m).form E seed w =
      (some (Key.of salt), fun κ => (encode E m κ.bytes iv).bind fun buf => .ok ((salt ++ iv) ++ buf), w')) ∨
    ∃ r w', (∀ out, r ≠ .ok out) ∧ (SpyOp.encrypt d m).form E seed w = (none, fun _ => r, w') := by
  cases h1 : (Act.read seed 32 w).1 with
  | err e => right; refine ⟨.err e, (Act.read seed 32 w).2, (fun _ h => nomatch h), ?_⟩; simp only [SpyOp.form, h1]
  | panic => right; refine ⟨.panic, (Act.read seed 32 w).2, (fun _ h => nomatch h), ?_⟩; simp only [SpyOp.form, h1]
  | ok salt =>
    cases h2 : (Act.read seed 16 (Act.read seed 32 w).2).1 with
    | err e => right; refine ⟨.err e, (Act.read seed 16 (Act.read seed 32 w).2).2, (fun _ h => nomatch h), ?_⟩; simp only [SpyOp.form, h1, h2]
    | panic => right; refine ⟨.panic, (Act.read seed 16 (Act.read seed 32 w).2).2, (fun _ h => nomatch h), ?_⟩; simp only [SpyOp.form, h1, h2]
    | ok iv => left; refine ⟨salt, iv, (Act.read seed 16 (Act.read seed 32 w).2).2, read_ok_length h1, read_ok_length h2, ?_⟩; simp only [SpyOp.form, h1, h2]

theorem form_decrypt (E : Env) (seed : ℕ) (d : Bool) (b : Bytes) (w : World) : (SpyOp.decrypt d b).form E seed w =
    if b.length < 64 then (none, fun _ => .err "input is to short for decryption", w)
    else (some (Key.of (b.take 32)), fun κ => decode E (b.drop 48) κ.bytes ((b.take 48).drop 32), w) := rfl

/-- The salt in the result does not depend on the key. -/
theorem form_salt (E : Env) (seed : ℕ) (o : SpyOp) (w : World) (κ : Key) : o.salt ((o.form E seed w).2.1 κ) = (o.form E seed w).1 := by
  cases o with
  | sharedKey d s => rfl
  | decrypt d b =>
    have hs : ∀ r, (SpyOp.decrypt d b).salt r = if b.length < 64 then none else some (Key.of (b.take 32)) := fun r => rfl
    rw [hs, form_decrypt]
    by_cases hb : b.length < 64
    · rw [if_pos hb, if_pos hb]
    · rw [if_neg hb, if_neg hb]
  | encrypt d m =>
    rcases form_encrypt E seed d m w with ⟨salt, iv, w', hs, hiv, hf⟩ | ⟨r, w', hr, hf⟩
    · rw [hf]
      dsimp only
      obtain ⟨buf, b1, -, -⟩ := encode_ok E (m := m) (Key.bytes_length κ) hiv
      rw [b1]
      show some (Key.of (((salt ++ iv) ++ buf).take 32)) = _
      rw [List.append_assoc, List.take_left' hs]
    · rw [hf]
      cases r with
      | ok out => exact absurd rfl (hr out)
      | err e => rfl
      | panic => rfl

theorem form_none (E : Env) (seed : ℕ) (o : SpyOp) (w : World) (h : (o.form E seed w).1 = none) (κ κ' : Key) :
    (o.form E seed w).2.1 κ = (o.form E seed w).2.1 κ' := by
  cases o with
  | sharedKey d s => exact nomatch h
  | decrypt d b =>
    rw [form_decrypt] at h ⊢
    by_cases hb : b.length < 64
    · rw [if_pos hb]
    · rw [if_neg hb] at h
      exact nomatch h
  | encrypt d m =>
    rcases form_encrypt E seed d m w with ⟨salt, iv, w', hs, hiv, hf⟩ | ⟨r, w', hr, hf⟩
    · rw [hf] at h
      exact nomatch h
    · rw [hf]

/-! ## The eavesdropper as a program -/

/-- The eavesdropper together with the calls: its own questions (`inl`) and the shared keys for salts (`inr`). -/
def Spy.prog (E : Env) (seed : ℕ) : Spy → World → QProg (Key ⊕ Key) Key
  | .done b, _ => .done b
  | .hash x k, w => .ask (.inl x) fun y => prog E seed (k y) w
  | .op o k, w =>
    match (o.form E seed w).1 with
    | some s => .ask (.inr s) fun κ => prog E seed (k ((o.form E seed w).2.1 κ)) (o.form E seed w).2.2
    | none => prog E seed (k ((o.form E seed w).2.1 (Key.of []))) (o.form E seed w).2.2

/-- The answers: those to its own questions by `g`, the shared keys by `H`. -/
def keyAnswers (g H : Key → Key) (dh : Key) : Key ⊕ Key → Key := Sum.elim g fun s => H (Key.xor dh s)

theorem run_prog (E : Env) (kA kB : PrivateKey) (A B : KeyPair) (hA : newKeyPair E (some kA) none = .ok A) (hB : newKeyPair E (some kB) none = .ok B)
    (seed : ℕ) (g H : Key → Key) : ∀ (p : Spy) (w : World),
    p.run (E.withKeyHash H) A B seed g w = ⟨((p.prog E seed w).run (keyAnswers g H (sharedPoint E kA kB))).1,
      ((p.prog E seed w).run (keyAnswers g H (sharedPoint E kA kB))).2.filterMap Sum.getLeft?,
      ((p.prog E seed w).run (keyAnswers g H (sharedPoint E kA kB))).2.filterMap Sum.getRight?⟩ := by
  intro p
  induction p with
  | done b => intro w; rfl
  | hash x k ih =>
    intro w
    unfold Spy.run
    dsimp only
    rw [ih (g x) w]
    rfl
  | op o k ih =>
    intro w
    unfold Spy.run
    dsimp only
    rw [(call_form E kA kB A B hA hB seed o w).eq H]
    dsimp only
    rw [ih, form_salt]
    cases hf : (o.form E seed w).1 with
    | some s =>
      have hp : (Spy.op o k).prog E seed w = .ask (.inr s) fun κ => (k ((o.form E seed w).2.1 κ)).prog E seed (o.form E seed w).2.2 := by
        rw [Spy.prog, hf]
      rw [hp]
      rfl
    | none =>
      have hp : (Spy.op o k).prog E seed w = (k ((o.form E seed w).2.1 (Key.of []))).prog E seed (o.form E seed w).2.2 := by
        rw [Spy.prog, hf]
      rw [hp, form_none E seed o w hf (Key.of []) (H (Key.xor (sharedPoint E kA kB) (Key.of [])))]
      rfl

/-- Which random function gives the hash values. -/
def nameOf (dh : Key) : Key ⊕ Key → Key := Sum.elim id fun s => Key.xor dh s

theorem keyAnswers_same (g : Key → Key) (dh : Key) : keyAnswers g g dh = g ∘ nameOf dh := by
  funext x
  cases x <;> rfl

/-- A clash is the shared point. -/
theorem clash_iff (dh : Key) (l : List (Key ⊕ Key)) :
    QProg.Clash (nameOf dh) l → ∃ x ∈ l.filterMap Sum.getLeft?, ∃ s ∈ l.filterMap Sum.getRight?, Key.xor x s = dh := by
  have key : ∀ x s, Sum.inl x ∈ l → Sum.inr s ∈ l → x = Key.xor dh s → ∃ x ∈ l.filterMap Sum.getLeft?, ∃ s ∈ l.filterMap Sum.getRight?, Key.xor x s = dh := by
    intro x s hx hs h
    refine ⟨x, List.mem_filterMap.2 ⟨_, hx, rfl⟩, s, List.mem_filterMap.2 ⟨_, hs, rfl⟩, ?_⟩
    rw [h, Key.xor_xor]
  rintro ⟨a, ha, b, hb, hne, he⟩
  cases a with
  | inl x =>
    cases b with
    | inl y => exact absurd (congrArg Sum.inl he) hne
    | inr s => exact key x s ha hb he
  | inr s =>
    cases b with
    | inl x => exact key x s hb ha he.symm
    | inr t => exact absurd (congrArg Sum.inr ((Key.shift dh).injective he)) hne

/-- Two independent random functions. -/
theorem avg_keyAnswers (dh : Key) (Φ : (Key ⊕ Key → Key) → ℝ) : (avg fun g : Key → Key => avg fun H : Key → Key => Φ (keyAnswers g H dh)) = avg Φ := by
  classical
  have h1 : ∀ g : Key → Key, (avg fun H : Key → Key => Φ (keyAnswers g H dh)) = avg fun H : Key → Key => Φ (Sum.elim g H) := by
    intro g
    exact avg_equiv (Equiv.arrowCongr (Key.shift dh).symm (Equiv.refl Key)) (fun H : Key → Key => Φ (Sum.elim g H))
  rw [avg_congr h1, ← avg_prod fun x : (Key → Key) × (Key → Key) => Φ (Sum.elim x.1 x.2)]
  exact avg_equiv (Equiv.sumArrowEquivProdArrow Key Key Key).symm Φ

/-! ## The property -/

theorem abs_avg_le {α : Type} [Fintype α] (D : α → ℝ) : |avg D| ≤ avg fun x => |D x| := by
  unfold avg
  rw [abs_div, abs_of_nonneg (Nat.cast_nonneg (α := ℝ) (Fintype.card α))]
  exact div_le_div_of_nonneg_right (abs_sum_le_sum_abs _ _) (Nat.cast_nonneg _)

/-- C100: let SHA3-256 be a random function of 32 bytes; AES and SHA3-512 are any functions.  An eavesdropper makes two parties encrypt, decrypt and compute shared
keys as it likes, in both directions, and asks for hash values.  What it guesses differs from what it guesses about two other parties, whose hash function has
nothing to do with the answers that it gets, at most by the probability that (with the other parties) one of its questions xored with one of the salts is the shared
point of the first two. -/
theorem C100_point (E : Env) (kA kB kA' kB' : PrivateKey) (A B A' B' : KeyPair) (hA : newKeyPair E (some kA) none = .ok A)
    (hB : newKeyPair E (some kB) none = .ok B) (hA' : newKeyPair E (some kA') none = .ok A') (hB' : newKeyPair E (some kB') none = .ok B') (seed : ℕ)
    {Ω : Type} [Fintype Ω] (p : Ω → Spy) (w : Ω → World) :
    |(prob fun x : Ω × (Key → Key) => ((p x.1).run (E.withKeyHash x.2) A B seed x.2 (w x.1)).guess = true) -
      prob fun x : Ω × (Key → Key) × (Key → Key) => ((p x.1).run (E.withKeyHash x.2.2) A' B' seed x.2.1 (w x.1)).guess = true| ≤
    prob fun x : Ω × (Key → Key) × (Key → Key) => ∃ y ∈ ((p x.1).run (E.withKeyHash x.2.2) A' B' seed x.2.1 (w x.1)).hashed,
      ∃ s ∈ ((p x.1).run (E.withKeyHash x.2.2) A' B' seed x.2.1 (w x.1)).salts,
        (Key.xor y s).bytes = encodePoint ((secretScalar E kA.raw * secretScalar E kB.raw) • Ed.B) := by
  let dh := sharedPoint E kA kB
  let pr : Ω → QProg (Key ⊕ Key) Key := fun ω => (p ω).prog E seed (w ω)
  have hdh : dh.bytes = encodePoint ((secretScalar E kA.raw * secretScalar E kB.raw) • Ed.B) := Key.bytes_of (encodePoint_length _)
  have h1 : (prob fun x : Ω × (Key → Key) => ((p x.1).run (E.withKeyHash x.2) A B seed x.2 (w x.1)).guess = true) =
      avg fun ω => avg fun f : Key → Key => ind (((pr ω).run (f ∘ nameOf dh)).1 = true) := by
    rw [prob_eq_avg, avg_prod]
    refine avg_congr fun ω => avg_congr fun f => ?_
    dsimp only
    rw [run_prog E kA kB A B hA hB, keyAnswers_same]
  have h2 : (prob fun x : Ω × (Key → Key) × (Key → Key) => ((p x.1).run (E.withKeyHash x.2.2) A' B' seed x.2.1 (w x.1)).guess = true) =
      avg fun ω => avg fun F : Key ⊕ Key → Key => ind (((pr ω).run F).1 = true) := by
    rw [prob_eq_avg, avg_prod]
    refine avg_congr fun ω => ?_
    rw [avg_prod, ← avg_keyAnswers (sharedPoint E kA' kB')]
    refine avg_congr fun g => avg_congr fun H => ?_
    dsimp only
    rw [run_prog E kA' kB' A' B' hA' hB']
  have h3 : (avg fun ω => avg fun F : Key ⊕ Key → Key => ind (QProg.Clash (nameOf dh) ((pr ω).run F).2)) ≤
      prob fun x : Ω × (Key → Key) × (Key → Key) => ∃ y ∈ ((p x.1).run (E.withKeyHash x.2.2) A' B' seed x.2.1 (w x.1)).hashed,
        ∃ s ∈ ((p x.1).run (E.withKeyHash x.2.2) A' B' seed x.2.1 (w x.1)).salts,
          (Key.xor y s).bytes = encodePoint ((secretScalar E kA.raw * secretScalar E kB.raw) • Ed.B) := by
    rw [prob_eq_avg, avg_prod]
    refine avg_mono fun ω => ?_
    rw [avg_prod, ← avg_keyAnswers (sharedPoint E kA' kB')]
    refine avg_mono fun g => avg_mono fun H => ind_mono fun h => ?_
    dsimp only
    rw [run_prog E kA' kB' A' B' hA' hB']
    obtain ⟨y, hy, s, hs, e⟩ := clash_iff dh _ h
    exact ⟨y, hy, s, hs, by rw [e, hdh]⟩
  refine le_trans ?_ h3
  rw [h1, h2]
  have h4 : (avg fun ω => avg fun f : Key → Key => ind (((pr ω).run (f ∘ nameOf dh)).1 = true)) - (avg fun ω => avg fun F : Key ⊕ Key → Key => ind (((pr ω).run F).1 = true)) =
      avg fun ω => ((avg fun f : Key → Key => ind (((pr ω).run (f ∘ nameOf dh)).1 = true)) - avg fun F : Key ⊕ Key → Key => ind (((pr ω).run F).1 = true)) := by
    unfold avg
    rw [sum_sub_distrib, sub_div]
  rw [h4]
  refine le_trans ?_ (avg_mono fun ω => QProg.rename_close' (nameOf dh) (pr ω))
  exact abs_avg_le _

/-- There are as many questions and salts as there are questions and calls. -/
theorem run_lengths (E : Env) (A B : KeyPair) (seed : ℕ) (g : Key → Key) : ∀ (p : Spy) (q s : ℕ) (w : World), p.AtMost q s →
    (p.run E A B seed g w).hashed.length ≤ q ∧ (p.run E A B seed g w).salts.length ≤ s := by
  intro p
  induction p with
  | done b => intro q s w _; exact ⟨Nat.zero_le _, Nat.zero_le _⟩
  | hash x k ih =>
    intro q s w hp
    cases q with
    | zero => exact hp.elim
    | succ q =>
      have h := ih (g x) q s w (hp _)
      unfold Spy.run
      dsimp only
      rw [List.length_cons]
      exact ⟨Nat.succ_le_succ h.1, h.2⟩
  | op o k ih =>
    intro q s w hp
    cases s with
    | zero => cases q <;> exact hp.elim
    | succ s =>
      have hp : ∀ r, (k r).AtMost q s := by cases q <;> exact hp
      have h := ih (o.call E A B seed w).1 q s (o.call E A B seed w).2 (hp _)
      unfold Spy.run
      dsimp only
      rw [List.length_append]
      have h1 : (o.salt (o.call E A B seed w).1).toList.length ≤ 1 := by
        cases o.salt (o.call E A B seed w).1 <;> simp
      exact ⟨h.1, by omega⟩

/-- One of `n` numbers, drawn at random. -/
theorem avg_index {n : ℕ} (P : ℕ → Prop) {i : ℕ} (hi : i < n) (h : P i) : 1 ≤ n * avg fun j : Fin n => ind (P j.val) := by
  have hn : (0 : ℝ) < n := by exact_mod_cast Nat.lt_of_le_of_lt (Nat.zero_le i) hi
  unfold avg
  rw [Fintype.card_fin, mul_div_cancel₀ _ (ne_of_gt hn)]
  calc (1 : ℝ) = ind (P (⟨i, hi⟩ : Fin n).val) := (ind_true h).symm
    _ ≤ _ := single_le_sum (f := fun j : Fin n => ind (P j.val)) (fun j _ => ind_nonneg _) (mem_univ _)

/-- C100: so if one of the questions xored with one of the salts, both drawn at random, is the shared point with probability at most δ, and there are at most q
questions and s calls, then the guesses differ at most by q s δ.  The search for the point does not use the private keys of the two parties: it runs the eavesdropper
with two other parties. -/
theorem C100_conversation (E : Env) (kA kB kA' kB' : PrivateKey) (A B A' B' : KeyPair) (hA : newKeyPair E (some kA) none = .ok A)
    (hB : newKeyPair E (some kB) none = .ok B) (hA' : newKeyPair E (some kA') none = .ok A') (hB' : newKeyPair E (some kB') none = .ok B') (seed : ℕ)
    {Ω : Type} [Fintype Ω] (p : Ω → Spy) (w : Ω → World) (q s : ℕ) (hp : ∀ ω, (p ω).AtMost q s) (δ : ℝ)
    (hδ : (prob fun x : Ω × (Key → Key) × (Key → Key) × Fin q × Fin s => ((p x.1).run (E.withKeyHash x.2.2.1) A' B' seed x.2.1 (w x.1)).point x.2.2.2.1 x.2.2.2.2 =
      encodePoint ((secretScalar E kA.raw * secretScalar E kB.raw) • Ed.B)) ≤ δ) :
    |(prob fun x : Ω × (Key → Key) => ((p x.1).run (E.withKeyHash x.2) A B seed x.2 (w x.1)).guess = true) -
      prob fun x : Ω × (Key → Key) × (Key → Key) => ((p x.1).run (E.withKeyHash x.2.2) A' B' seed x.2.1 (w x.1)).guess = true| ≤ q * s * δ := by
  refine (C100_point E kA kB kA' kB' A B A' B' hA hB hA' hB' seed p w).trans ?_
  refine le_trans ?_ (mul_le_mul_of_nonneg_left hδ (by positivity))
  rw [prob_eq_avg, prob_eq_avg, avg_prod, avg_prod]
  generalize encodePoint ((secretScalar E kA.raw * secretScalar E kB.raw) • Ed.B) = P
  rw [← avg_mul_left]
  refine avg_mono fun ω => ?_
  rw [avg_prod, avg_prod, ← avg_mul_left]
  refine avg_mono fun g => ?_
  rw [avg_prod, ← avg_mul_left]
  refine avg_mono fun H => ?_
  dsimp only
  have hl := run_lengths (E.withKeyHash H) A' B' seed g (p ω) q s (w ω) (hp ω)
  generalize (p ω).run (E.withKeyHash H) A' B' seed g (w ω) = r at *
  by_cases h : ∃ y ∈ r.hashed, ∃ s ∈ r.salts, (Key.xor y s).bytes = P
  · rw [ind_true h]
    obtain ⟨y, hy, t, ht, e⟩ := h
    obtain ⟨i, hi, rfl⟩ := List.mem_iff_getElem.1 hy
    obtain ⟨j, hj, rfl⟩ := List.mem_iff_getElem.1 ht
    have hij : r.point i j = P := by
      unfold Spied.point
      rw [List.getD_eq_getElem?_getD, List.getD_eq_getElem?_getD, List.getElem?_eq_getElem hi, List.getElem?_eq_getElem hj]
      exact e
    rw [avg_prod]
    have hs0 : (0 : ℝ) ≤ s := Nat.cast_nonneg s
    have h1 : ∀ i' : Fin q, ind (i'.val = i) ≤ s * avg fun j' : Fin s => ind (r.point i'.val j'.val = P) := by
      intro i'
      by_cases hi' : i'.val = i
      · rw [ind_true hi', hi']
        exact avg_index (fun j' => r.point i j' = P) (lt_of_lt_of_le hj hl.2) hij
      · rw [ind_false hi']
        exact mul_nonneg hs0 (avg_nonneg fun _ => ind_nonneg _)
    have h2 := avg_index (fun i' => i' = i) (lt_of_lt_of_le hi hl.1) rfl
    have h3 := avg_mono h1
    rw [avg_mul_left] at h3
    calc (1 : ℝ) ≤ q * avg fun i' : Fin q => ind (i'.val = i) := h2
      _ ≤ q * (s * avg fun i' : Fin q => avg fun j' : Fin s => ind (r.point i'.val j'.val = P)) := mul_le_mul_of_nonneg_left h3 (Nat.cast_nonneg q)
      _ = _ := by rw [mul_assoc]
  · rw [ind_false h]
    exact mul_nonneg (by positivity) (avg_nonneg fun _ => ind_nonneg _)

/-- C100: without a question for a hash value there is nothing to be learned, whatever the eavesdropper knows. -/
theorem C100_unasked (E : Env) (kA kB kA' kB' : PrivateKey) (A B A' B' : KeyPair) (hA : newKeyPair E (some kA) none = .ok A)
    (hB : newKeyPair E (some kB) none = .ok B) (hA' : newKeyPair E (some kA') none = .ok A') (hB' : newKeyPair E (some kB') none = .ok B') (seed : ℕ)
    {Ω : Type} [Fintype Ω] (p : Ω → Spy) (w : Ω → World) (s : ℕ) (hp : ∀ ω, (p ω).AtMost 0 s) :
    (prob fun x : Ω × (Key → Key) => ((p x.1).run (E.withKeyHash x.2) A B seed x.2 (w x.1)).guess = true) =
      prob fun x : Ω × (Key → Key) × (Key → Key) => ((p x.1).run (E.withKeyHash x.2.2) A' B' seed x.2.1 (w x.1)).guess = true := by
  have h := C100_conversation E kA kB kA' kB' A B A' B' hA hB hA' hB' seed p w 0 s hp _ le_rfl
  rw [Nat.cast_zero, zero_mul, zero_mul] at h
  exact sub_eq_zero.1 (abs_eq_zero.1 (le_antisymm h (abs_nonneg _)))

/-- The eavesdropper that knows the shared point: it gets a shared key and compares it with the hash value of the point xored with the salt. -/
def knowing (point salt : Key) : Spy :=
  .op (.sharedKey false salt) fun r => .hash (Key.xor point salt) fun y => .done (decide (r = .ok y.bytes))

theorem knowing_run (E : Env) (kA kB : PrivateKey) (A B : KeyPair) (hA : newKeyPair E (some kA) none = .ok A) (hB : newKeyPair E (some kB) none = .ok B)
    (seed : ℕ) (g H : Key → Key) (w : World) (point salt : Key) :
    ((knowing point salt).run (E.withKeyHash H) A B seed g w).guess = decide (H (Key.xor (sharedPoint E kA kB) salt) = g (Key.xor point salt)) := by
  have hc := (call_form E kA kB A B hA hB seed (.sharedKey false salt) w).eq H
  have hf : (SpyOp.sharedKey false salt).form E seed w = (some salt, fun κ => .ok κ.bytes, w) := rfl
  rw [hf] at hc
  have h1 : ((SpyOp.sharedKey false salt).call (E.withKeyHash H) A B seed w).1 = .ok (H (Key.xor (sharedPoint E kA kB) salt)).bytes := congrArg Prod.fst hc
  show decide (((SpyOp.sharedKey false salt).call (E.withKeyHash H) A B seed w).1 = .ok (g (Key.xor point salt)).bytes) = _
  rw [h1]
  refine decide_eq_decide.2 ⟨fun h => Key.bytes_inj (Out.ok.inj h), fun h => by rw [h]⟩

theorem prob_key (y : Key) : (prob fun d : Key => d = y) = 1 / 2 ^ 256 := by
  have h1 : (∑ x : Key, ind (x = y)) = 1 := by
    rw [Finset.sum_eq_single y (fun b _ hb => ind_false hb) (fun h => absurd (mem_univ _) h)]
    exact ind_true rfl
  have h2 : (Fintype.card Key : ℝ) = 2 ^ 256 := by rw [card_Key, Nat.cast_pow, Nat.cast_ofNat]
  rw [prob_eq_avg]
  unfold avg
  rw [h1, h2]

/-- C100: and the point is what matters: whoever knows it distinguishes the conversations with two calls, almost surely. -/
theorem C100_knowing (E : Env) (kA kB kA' kB' : PrivateKey) (A B A' B' : KeyPair) (hA : newKeyPair E (some kA) none = .ok A)
    (hB : newKeyPair E (some kB) none = .ok B) (hA' : newKeyPair E (some kA') none = .ok A') (hB' : newKeyPair E (some kB') none = .ok B') (seed : ℕ) (w : World)
    (point salt : Key) (hp : point.bytes = encodePoint ((secretScalar E kA.raw * secretScalar E kB.raw) • Ed.B)) :
    (∀ g, ((knowing point salt).run (E.withKeyHash g) A B seed g w).guess = true) ∧
      (prob fun x : (Key → Key) × (Key → Key) => ((knowing point salt).run (E.withKeyHash x.2) A' B' seed x.1 w).guess = true) = 1 / 2 ^ 256 := by
  have hd : sharedPoint E kA kB = point := by unfold sharedPoint; rw [← hp, Key.of_bytes]
  refine ⟨fun g => ?_, ?_⟩
  · rw [knowing_run E kA kB A B hA hB, hd]
    exact decide_eq_true rfl
  · rw [prob_eq_avg, avg_prod, ← avg_const (α := Key → Key) (1 / 2 ^ 256 : ℝ)]
    refine avg_congr fun g => ?_
    have h1 : ∀ H : Key → Key, ind (((knowing point salt).run (E.withKeyHash H) A' B' seed g w).guess = true) =
        ind (H (Key.xor (sharedPoint E kA' kB') salt) = g (Key.xor point salt)) := by
      intro H
      rw [knowing_run E kA' kB' A' B' hA' hB', decide_eq_true_iff]
    refine (avg_congr h1).trans ?_
    generalize Key.xor (sharedPoint E kA' kB') salt = i
    generalize g (Key.xor point salt) = y
    rw [avg_entry i fun d _ => ind (d = y)]
    have h2 : ∀ d : Key, (avg fun _ : Key → Key => ind (d = y)) = ind (d = y) := fun d => avg_const (α := Key → Key) (ind (d = y))
    rw [avg_congr h2, ← prob_eq_avg]
    exact prob_key y

/-- An eavesdropper that has a message encrypted, has the ciphertext with another last byte decrypted in the other direction, asks for a shared key with the same
salt, and for the hash value of the salt. -/
def nosy (m : Bytes) (x : UInt8) : Spy :=
  .op (.encrypt false m) fun r =>
    match r with
    | .ok out => .op (.decrypt true (out.dropLast ++ [x])) fun r' => .op (.sharedKey false (Key.of (out.take 32))) fun κ =>
        .hash (Key.of (out.take 32)) fun y => .done (r' == .ok m || κ == .ok y.bytes)
    | _ => .done false

/-- The hypotheses of C100: two pairs of parties with different keys, a random message byte, one question and three calls, a reader with some bytes. -/
example (E : Env) : ∃ (A B A' B' : KeyPair) (w : UInt8 × UInt8 → World), newKeyPair E (some (newPrivateKey [1])) none = .ok A ∧ newKeyPair E (some (newPrivateKey [2])) none = .ok B ∧
    newKeyPair E (some (newPrivateKey [3])) none = .ok A' ∧ newKeyPair E (some (newPrivateKey [4])) none = .ok B' ∧ (∀ x : UInt8 × UInt8, (nosy [x.1] x.2).AtMost 1 3) ∧
    ∀ x, content (w x 5) = List.replicate 48 x.1 :=
  ⟨_, _, _, _, fun x _ => [⟨List.replicate 48 x.1, none⟩], C30_derive E _, C30_derive E _, C30_derive E _, C30_derive E _, fun x r => by
    cases r with
    | ok out => exact fun r' κ y => trivial
    | err e => exact trivial
    | panic => exact trivial, fun x => List.append_nil _⟩

/-- And one without questions. -/
example : Spy.AtMost 0 1 (.op (.sharedKey true (Key.of [7])) fun r => .done (decide (r = .ok []))) := fun _ => trivial

/-- The bound is far from trivial: with the eavesdropper that knows the point the guesses differ by almost 1. -/
example : (1 : ℝ) - 1 / 2 ^ 256 > 1 / 2 := by norm_num

end Ed
