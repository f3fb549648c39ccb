import Verif.Props.Binding
import Verif.Props.Cbc
import Verif.Props.Dsa

/-!
# Properties C81-C83: what repeated values give away

C81: two signatures of one key.  C82: two ciphertexts with one salt.  C83: two salts.
-/

set_option autoImplicit false

namespace Ed

variable (E : Env)

/-! ## C81: two signatures of one key -/

/-- Two signatures by one private key (whatever the public keys in the pairs) have the same R exactly if the hashes of the second half of
the hashed key and the messages agree modulo the group order. -/
theorem C81_commitment (k : PrivateKey) (pub pub' : PublicKey) (m m' : Bytes) (s s' : Signature)
    (h : sign E ⟨some k, pub⟩ m = .ok s) (h' : sign E ⟨some k, pub'⟩ m' = .ok s') :
    s.R = s'.R ↔ leVal (Hash E ((Hash E k.raw).drop 32 ++ m)) % L = leVal (Hash E ((Hash E k.raw).drop 32 ++ m')) % L := by
  rw [sign_spec] at h h'
  split at h
  · split at h'
    · cases h; cases h'
      constructor
      · intro hR
        have h1 := (smul_B_eq_iff _ _).1 (encodePoint_inj hR)
        rwa [nonce, nonce, Nat.mod_mod, Nat.mod_mod] at h1
      · intro hn
        show encodePoint (nonce E k.raw m • B) = encodePoint (nonce E k.raw m' • B)
        rw [show nonce E k.raw m = nonce E k.raw m' from hn]
    · exact nomatch h'
  · exact nomatch h

/-- Two messages get the same signature from one pair exactly if both hashes agree modulo the group order. -/
theorem C81_signature (k : PrivateKey) (pub : PublicKey) (m m' : Bytes) (s s' : Signature) (h : sign E ⟨some k, pub⟩ m = .ok s) (h' : sign E ⟨some k, pub⟩ m' = .ok s') :
    s = s' ↔
      leVal (Hash E ((Hash E k.raw).drop 32 ++ m)) % L = leVal (Hash E ((Hash E k.raw).drop 32 ++ m')) % L ∧
      leVal (Hash E (s.R ++ pub.raw ++ m)) % L = leVal (Hash E (s.R ++ pub.raw ++ m')) % L := by
  have hc := C81_commitment E k pub pub m m' s s' h h'
  have ha : secretScalar E k.raw % L ≠ 0 := by
    intro ha
    apply scalar_smul_ne_zero E k.raw
    rw [← smul_B_mod, ha, zero_smul]
  rw [sign_spec] at h h'
  split at h
  · split at h'
    · cases h; cases h'
      rw [← hc]
      constructor
      · intro hs
        have hR : sigR E k.raw m = sigR E k.raw m' := congrArg Signature.R hs
        refine ⟨hR, ?_⟩
        have hS : sigS E k.raw pub.raw m = sigS E k.raw pub.raw m' := by
          have h1 := congrArg leVal (congrArg Signature.S hs)
          dsimp only at h1
          exact (leVal_leBytes_modL _).symm.trans (h1.trans (leVal_leBytes_modL _))
        have hn : nonce E k.raw m = nonce E k.raw m' := hc.1 hR
        unfold sigS at hS
        rw [hn, ← hR] at hS
        have h2 : challenge E (sigR E k.raw m) pub.raw m * secretScalar E k.raw ≡
            challenge E (sigR E k.raw m) pub.raw m' * secretScalar E k.raw [MOD L] := Nat.ModEq.add_left_cancel' _ hS
        have h3 := Nat.ModEq.cancel_right_of_coprime
          (((Nat.Prime.coprime_iff_not_dvd L_prime).2 fun hd => ha (Nat.mod_eq_zero_of_dvd hd))) h2
        have h4 : challenge E (sigR E k.raw m) pub.raw m % L = challenge E (sigR E k.raw m) pub.raw m' % L := h3
        rwa [challenge, challenge, Nat.mod_mod, Nat.mod_mod] at h4
      · rintro ⟨hR, hch⟩
        have hR' : sigR E k.raw m = sigR E k.raw m' := hR
        have hn : nonce E k.raw m = nonce E k.raw m' := hc.1 hR
        have hch' : challenge E (sigR E k.raw m) pub.raw m = challenge E (sigR E k.raw m) pub.raw m' := hch
        have hS : sigS E k.raw pub.raw m = sigS E k.raw pub.raw m' := by
          unfold sigS
          rw [← hR', ← hn, hch']
        rw [hS, hR']
    · exact nomatch h'
  · exact nomatch h

/-! ## C82: two ciphertexts with one salt -/

theorem cbcDec_get (key : Bytes) : ∀ (cs : List Bytes) (iv : Bytes) (i : ℕ), i < cs.length →
    (cbcDecBlocks E key iv cs).getD i [] = xorBlock (E.aesD key (cs.getD i [])) ((iv :: cs).getD i [])
  | c :: cs, iv, 0, _ => rfl
  | c :: cs, iv, i + 1, h => by
    have := cbcDec_get key cs c i (by simpa using h)
    simpa [cbcDecBlocks] using this

theorem chunks16_get {n : ℕ} {b : Bytes} (h : b.length = 16 * n) {i : ℕ} (hi : i < n) : (chunks16 b).getD i [] = (b.drop (16 * i)).take 16 := by
  rw [chunks16_range n b h]
  simp [List.getD, hi]

/-- Block `i` of a byte string behind the first `o` bytes. -/
def blockAt (o i : ℕ) (b : Bytes) : Bytes := (b.drop (o + 16 * i)).take 16

/-- One block of an accepted ciphertext: the block cipher maps the message block xored with the block before to it. -/
theorem block_relation (c : BlockCipher) (k : PrivateKey) (q : Pt) (hkl : c.keyLength = 32) (hk : c.recipient.priv = some k)
    (hl : c.sender.pub.raw.length = 32) (hq : Decodes c.sender.pub.raw q) (salt : Bytes) (hs : salt.length = 32) :
    ∃ key, ∀ (b m : Bytes), c.decrypt E b = .ok m → b.take 32 = salt →
      b.length = 48 + (padMessage m).length ∧
      ∀ i, 16 * i < (padMessage m).length → (blockAt 32 (i + 1) b).length = 16 ∧ (blockAt 32 i b).length = 16 ∧ (blockAt 0 i (padMessage m)).length = 16 ∧
        blockAt 0 i (padMessage m) = xorBlock (E.aesD key (blockAt 32 (i + 1) b)) (blockAt 32 i b) := by
  obtain ⟨key, k1, k2, k3⟩ := decrypt_parts E c k q hkl hk hl hq salt hs
  refine ⟨key, fun b m h hb => ?_⟩
  obtain ⟨salt', iv, data, rfl, h1, h2, h3, h4⟩ := decrypt_ok_parts E c k q hkl hk hl hq b m h
  have es : salt' = salt := by rw [← hb, List.append_assoc, ← h1, List.take_left]
  subst es
  rw [k3 iv data h2 h3 h4] at h
  obtain ⟨n, hn⟩ : ∃ n, data.length = 16 * n := ⟨data.length / 16, by omega⟩
  have hp : cbcPlain E data key iv = padMessage m := by
    have hd : decode E data key iv = unpad (cbcPlain E data key iv) := by
      unfold decode
      rw [aesNewCipher_32 k1, Out.bind_ok, cbcChecks_ok h2 h4, Out.bind_ok]
      rfl
    rw [hd] at h
    exact padded_eq (unpad_ok h) (by rw [cbcPlain_length E h2 h4]; exact h4)
  have hlen : (padMessage m).length = data.length := by rw [← hp, cbcPlain_length E h2 h4]
  refine ⟨by rw [hlen]; simp only [List.length_append]; omega, fun i hi => ?_⟩
  have hin : i < n := by omega
  obtain ⟨c1, c2, c3⟩ := chunks16_spec n data hn
  have e1 : blockAt 32 (i + 1) (salt' ++ iv ++ data) = (data.drop (16 * i)).take 16 := by
    unfold blockAt
    rw [show 32 + 16 * (i + 1) = 48 + 16 * i from by ring, ← List.drop_drop, show (48 : ℕ) = (salt' ++ iv).length from by rw [List.length_append]; omega,
      List.drop_left]
  have e2 : blockAt 32 i (salt' ++ iv ++ data) = (iv :: chunks16 data).getD i [] := by
    unfold blockAt
    rw [← List.drop_drop, List.append_assoc, show (32 : ℕ) = salt'.length from h1.symm, List.drop_left]
    cases i with
    | zero => rw [Nat.mul_zero, List.drop_zero, show (16 : ℕ) = iv.length from h2.symm, List.take_left]; rfl
    | succ i =>
      rw [show 16 * (i + 1) = 16 + 16 * i from by ring, ← List.drop_drop, show (16 : ℕ) = iv.length from h2.symm, List.drop_left, h2]
      rw [List.getD_cons_succ, chunks16_get hn (by omega)]
  have e3 : blockAt 0 i (padMessage m) = (cbcDecBlocks E key iv (chunks16 data)).getD i [] := by
    have hpl := cbcDec_lengths E key (chunks16 data) iv h2 c3
    rw [← hp]
    unfold blockAt cbcPlain
    rw [Nat.zero_add, ← chunks16_get (n := n) (by rw [flatten_length16 hpl.2, hpl.1, c2]) hin, chunks16_flatten _ hpl.2]
  refine ⟨?_, ?_, ?_, ?_⟩
  · rw [e1, List.length_take, List.length_drop]; omega
  · unfold blockAt
    rw [List.length_take, List.length_drop]
    simp only [List.length_append]; omega
  · unfold blockAt
    rw [List.length_take, List.length_drop]; omega
  · rw [e3, cbcDec_get E key _ iv i (by omega), e1, e2, chunks16_get hn hin]

theorem xorBlock_inj {a b c : Bytes} (ha : a.length = c.length) (hb : b.length = c.length) (h : xorBlock a c = xorBlock b c) : a = b := by
  rw [← xorBlock_cancel ha, h, xorBlock_cancel hb]

/-- Two accepted ciphertexts with one salt: block i of the one equals block j of the other (counted behind salt and IV) exactly if the message
blocks xored with the ciphertext blocks before them agree.  So whoever sees two equal blocks learns the xor of two blocks of the (padded)
messages. -/
theorem C82_equal_blocks (c : BlockCipher) (k : PrivateKey) (q : Pt) (hkl : c.keyLength = 32) (hk : c.recipient.priv = some k)
    (hl : c.sender.pub.raw.length = 32) (hq : Decodes c.sender.pub.raw q) (b b' m m' : Bytes) (h : c.decrypt E b = .ok m)
    (h' : c.decrypt E b' = .ok m') (hs : b.take 32 = b'.take 32) (i j : ℕ) (hi : 16 * i < (padMessage m).length)
    (hj : 16 * j < (padMessage m').length) :
    blockAt 48 i b = blockAt 48 j b' ↔
      xorBlock (blockAt 0 i (padMessage m)) (blockAt 32 i b) = xorBlock (blockAt 0 j (padMessage m')) (blockAt 32 j b') := by
  have hb : (b.take 32).length = 32 := by
    obtain ⟨salt, iv, data, rfl, h1, h2, h3, h4⟩ := decrypt_ok_parts E c k q hkl hk hl hq b m h
    rw [List.length_take]; simp only [List.length_append]; omega
  obtain ⟨key, hkey⟩ := block_relation E c k q hkl hk hl hq (b.take 32) hb
  obtain ⟨l1, r1⟩ := hkey b m h rfl
  obtain ⟨l2, r2⟩ := hkey b' m' h' hs.symm
  obtain ⟨a1, a2, a3, a4⟩ := r1 i hi
  obtain ⟨b1, b2, b3, b4⟩ := r2 j hj
  have s1 : blockAt 48 i b = blockAt 32 (i + 1) b := by unfold blockAt; rw [show 48 + 16 * i = 32 + 16 * (i + 1) from by ring]
  have s2 : blockAt 48 j b' = blockAt 32 (j + 1) b' := by unfold blockAt; rw [show 48 + 16 * j = 32 + 16 * (j + 1) from by ring]
  rw [s1, s2, a4, b4, xorBlock_cancel (by rw [E.aesD_length _ _ a1, a2]), xorBlock_cancel (by rw [E.aesD_length _ _ b1, b2])]
  constructor
  · intro hh; rw [hh]
  · intro hh
    rw [← aesE_aesD E key _ a1, hh, aesE_aesD E key _ b1]

theorem take_blocks (o n : ℕ) (b : Bytes) : b.take (o + 16 * (n + 1)) = b.take (o + 16 * n) ++ blockAt o n b := by
  rw [show o + 16 * (n + 1) = (o + 16 * n) + 16 from by ring, List.take_add]
  rfl

theorem padMessage_take {m : Bytes} {n : ℕ} (h : n ≤ m.length) : (padMessage m).take n = m.take n := by
  unfold padMessage
  rw [List.take_append_of_le_length h]

/-- If also the IV is repeated, the ciphertexts agree in exactly as many leading blocks as the messages do. -/
theorem C82_prefix (c : BlockCipher) (k : PrivateKey) (q : Pt) (hkl : c.keyLength = 32) (hk : c.recipient.priv = some k)
    (hl : c.sender.pub.raw.length = 32) (hq : Decodes c.sender.pub.raw q) (b b' m m' : Bytes) (h : c.decrypt E b = .ok m)
    (h' : c.decrypt E b' = .ok m') (hs : b.take 48 = b'.take 48) (n : ℕ) (hn : 16 * n ≤ m.length) (hn' : 16 * n ≤ m'.length) :
    b.take (48 + 16 * n) = b'.take (48 + 16 * n) ↔ m.take (16 * n) = m'.take (16 * n) := by
  induction n with
  | zero => exact ⟨fun _ => by simp, fun _ => hs⟩
  | succ n ih =>
    have ih := ih (by omega) (by omega)
    have hp : (padMessage m).length = 16 * (m.length / 16 + 1) := padMessage_length m
    have hp' : (padMessage m').length = 16 * (m'.length / 16 + 1) := padMessage_length m'
    have hs32 : b.take 32 = b'.take 32 := by
      have := congrArg (List.take 32) hs
      rwa [List.take_take, List.take_take] at this
    have key := C82_equal_blocks E c k q hkl hk hl hq b b' m m' h h' hs32 n n (by omega) (by omega)
    have hb : (blockAt 0 n (padMessage m)).length = 16 := by unfold blockAt; rw [List.length_take, List.length_drop]; omega
    have hb' : (blockAt 0 n (padMessage m')).length = 16 := by unfold blockAt; rw [List.length_take, List.length_drop]; omega
    have hbl : b.length = 48 + (padMessage m).length ∧ b'.length = 48 + (padMessage m').length := by
      have hb : (b.take 32).length = 32 := by
        obtain ⟨salt, iv, data, rfl, h1, h2, h3, h4⟩ := decrypt_ok_parts E c k q hkl hk hl hq b m h
        rw [List.length_take]; simp only [List.length_append]; omega
      obtain ⟨key, hkey⟩ := block_relation E c k q hkl hk hl hq (b.take 32) hb
      exact ⟨(hkey b m h rfl).1, (hkey b' m' h' hs32.symm).1⟩
    have hprev : b.take (48 + 16 * n) = b'.take (48 + 16 * n) → blockAt 32 n b = blockAt 32 n b' := by
      intro he
      have e := congrArg (List.drop (32 + 16 * n)) he
      rw [List.drop_take, List.drop_take, show 48 + 16 * n - (32 + 16 * n) = 16 from by omega] at e
      exact e
    have hprevl : (blockAt 32 n b).length = 16 := by
      unfold blockAt; rw [List.length_take, List.length_drop]; omega
    rw [take_blocks 48, take_blocks 48, ← padMessage_take hn, ← padMessage_take hn', ← Nat.zero_add (16 * (n + 1)), take_blocks 0, take_blocks 0,
      Nat.zero_add, padMessage_take (by omega : 16 * n ≤ m.length), padMessage_take (by omega : 16 * n ≤ m'.length)]
    constructor
    · intro he
      obtain ⟨e1, e2⟩ := List.append_inj he (by rw [List.length_take, List.length_take]; omega)
      have e3 := key.1 e2
      rw [← hprev e1] at e3
      rw [ih.1 e1, xorBlock_inj (by rw [hb, hprevl]) (by rw [hb', hprevl]) e3]
    · intro he
      obtain ⟨e1, e2⟩ := List.append_inj he (by rw [List.length_take, List.length_take]; omega)
      have e3 := ih.2 e1
      rw [e3, key.2 (by rw [e2, hprev e3])]

/-! ## C83: two salts -/

/-- The shared keys of two fixed keys: there are 32 bytes such that the key of every salt is the hash of these bytes xored with (the first 32 bytes
of) the salt. -/
theorem C83_form (k : PrivateKey) (pub : PublicKey) (q : Pt) (hl : pub.raw.length = 32) (hq : Decodes pub.raw q) :
    ∃ e : Bytes, e.length = 32 ∧ ∀ salt : Bytes, 32 ≤ salt.length →
      getSharedKey E 32 (some k) pub salt = .ok (hashesSha3_256 E (List.zipWith (· ^^^ ·) e (salt.take 32))) := by
  refine ⟨encodePoint (secretScalar E k.raw • q), encodePoint_length _, fun salt hs => ?_⟩
  have hlen := encodePoint_length (secretScalar E k.raw • q)
  rw [getSharedKey_ok E hl hq hs]
  generalize encodePoint (secretScalar E k.raw • q) = e at hlen ⊢
  unfold xorPrefix
  rw [List.take_of_length_le (by omega : e.length ≤ 32), List.drop_of_length_le (by omega), List.append_nil]

/-- Different salts give the hashes of different strings of 32 bytes: two salts with one key are a collision of SHA3-256. -/
theorem C83_salts (k : PrivateKey) (pub : PublicKey) (salt salt' key key' : Bytes) (hs : 32 ≤ salt.length) (hs' : 32 ≤ salt'.length)
    (hne : salt.take 32 ≠ salt'.take 32) (h : getSharedKey E 32 (some k) pub salt = .ok key)
    (h' : getSharedKey E 32 (some k) pub salt' = .ok key') :
    ∃ x x' : Bytes, x.length = 32 ∧ x'.length = 32 ∧ x ≠ x' ∧ key = hashesSha3_256 E x ∧ key' = hashesSha3_256 E x' := by
  by_cases hu : pub.raw.length = 32 ∧ ∃ q, Decodes pub.raw q
  · obtain ⟨hl, q, hq⟩ := hu
    obtain ⟨e, he, hf⟩ := C83_form E k pub q hl hq
    rw [hf salt hs] at h
    rw [hf salt' hs'] at h'
    have l1 : (salt.take 32).length = 32 := by rw [List.length_take]; omega
    have l2 : (salt'.take 32).length = 32 := by rw [List.length_take]; omega
    refine ⟨_, _, ?_, ?_, ?_, (Out.ok.inj h).symm, (Out.ok.inj h').symm⟩
    · rw [List.length_zipWith, he, l1]; rfl
    · rw [List.length_zipWith, he, l2]; rfl
    · intro hx
      apply hne
      have c1 : ∀ a b : Bytes, List.zipWith (· ^^^ ·) a b = xorBlock b a := by
        intro a b
        unfold xorBlock
        rw [List.zipWith_comm]
        simp only [UInt8.xor_comm]
      rw [c1, c1] at hx
      exact xorBlock_inj (by rw [l1, he]) (by rw [l2, he]) hx
  · obtain ⟨e, he⟩ := C24_bad_key E 32 (some k) pub salt hu
    rw [he] at h
    exact nomatch h

/-! ## Cases -/

theorem sigS_inj {sk A m m' R R' : Bytes} (E : Env) (h : (⟨R, leBytes 32 (sigS E sk A m)⟩ : Signature) = ⟨R', leBytes 32 (sigS E sk A m')⟩) :
    sigS E sk A m = sigS E sk A m' := by
  have h1 := congrArg leVal (congrArg Signature.S h)
  exact (leVal_leBytes_modL _).symm.trans (h1.trans (leVal_leBytes_modL _))

/-- C81: in this environment two messages of one key get the same R and different signatures. -/
example : ∃ (k : PrivateKey) (pub : PublicKey) (m m' : Bytes) (s s' : Signature), derivePublicKey Env.pick64 (some k) = .ok pub ∧
    sign Env.pick64 ⟨some k, pub⟩ m = .ok s ∧ sign Env.pick64 ⟨some k, pub⟩ m' = .ok s' ∧ s.R = s'.R ∧ s ≠ s' := by
  have hp : (publicKeyOf Env.pick64 (List.replicate 32 7)).length = 32 := publicKeyOf_length _ _
  have hR : ∀ x : UInt8, (sigR Env.pick64 (List.replicate 32 7) [x]).length = 32 := fun x => encodePoint_length _
  have key : ∀ x : UInt8, x = 3 ∨ x = 4 → sign Env.pick64 ⟨some (newPrivateKey (List.replicate 32 7)),
      ⟨publicKeyOf Env.pick64 (List.replicate 32 7)⟩⟩ [x] = .ok ⟨sigR Env.pick64 (List.replicate 32 7) [x],
        leBytes 32 (sigS Env.pick64 (List.replicate 32 7) (publicKeyOf Env.pick64 (List.replicate 32 7)) [x])⟩ := by
    intro x hx
    refine (sign_spec ..).trans (if_pos ?_)
    show LowBitsOk (sigS Env.pick64 (List.replicate 32 7) (publicKeyOf Env.pick64 (List.replicate 32 7)) [x])
    unfold sigS
    rw [pick64_challenge _ _ x (hR x) hp, pick64_scalar _ (by decide), pick64_nonce, L_eq]
    unfold LowBitsOk
    rw [L_eq]
    rcases hx with rfl | rfl <;> decide +kernel
  have eR : sigR Env.pick64 (List.replicate 32 7) [3] = sigR Env.pick64 (List.replicate 32 7) [4] := by
    unfold sigR
    rw [pick64_nonce, pick64_nonce]
  refine ⟨newPrivateKey (List.replicate 32 7), _, [3], [4], _, _, derive_spec _ _, key 3 (.inl rfl), key 4 (.inr rfl), eR, fun h => ?_⟩
  have h2 := sigS_inj _ h
  unfold sigS at h2
  rw [pick64_challenge _ _ 3 (hR 3) hp, pick64_challenge _ _ 4 (hR 4) hp, pick64_scalar _ (by decide), pick64_nonce, pick64_nonce, L_eq] at h2
  revert h2
  decide +kernel

theorem repeated_exists (kA kB : PrivateKey) (pA pB : PublicKey) (hA : derivePublicKey E (some kA) = .ok pA)
    (hB : derivePublicKey E (some kB) = .ok pB) (m m' : Bytes) : ∃ (c : BlockCipher) (k : PrivateKey) (q : Pt) (b b' : Bytes), c.keyLength = 32 ∧
    c.recipient.priv = some k ∧ c.sender.pub.raw.length = 32 ∧ Decodes c.sender.pub.raw q ∧ c.decrypt E b = .ok m ∧ c.decrypt E b' = .ok m' ∧
    b.take 48 = b'.take 48 := by
  have lA : pA.raw.length = 32 := by rw [derive_spec] at hA; cases hA; exact publicKeyOf_length E _
  have lB : pB.raw.length = 32 := by rw [derive_spec] at hB; cases hB; exact publicKeyOf_length E _
  have dA : Decodes pA.raw (secretScalar E kA.raw • B) := by rw [derive_spec] at hA; cases hA; exact decodes_encodePoint _
  have dB : Decodes pB.raw (secretScalar E kB.raw • B) := by rw [derive_spec] at hB; cases hB; exact decodes_encodePoint _
  have key : ∀ m : Bytes, ∃ o, (newBlockCipher ⟨none, pA⟩ ⟨some kB, pB⟩ none).decrypt E o = .ok m ∧ o.take 48 = List.replicate 48 7 := by
    intro m
    have hf : ErrorFree ((fun _ => [⟨List.replicate 48 7, none⟩] : World) ((none : Option ℕ).getD 0)) := by
      intro e he; simp only [List.mem_singleton] at he; rw [he]
    have hc : content [⟨List.replicate 48 7, none⟩] = List.replicate 48 7 := by simp [content]
    obtain ⟨o, o1, _, o3⟩ := C25_roundtrip E kA kB pA pB hA hB none none none none m (fun _ => [⟨List.replicate 48 7, none⟩]) hf (by rw [hc, List.length_replicate])
    obtain ⟨out, p1, p2, _⟩ := C28_encrypt E (newBlockCipher ⟨some kA, pA⟩ ⟨none, pB⟩ none) kA _ m (fun _ => [⟨List.replicate 48 7, none⟩]) rfl lB lB dB hf
      (by rw [hc, List.length_replicate])
    have e : out = o := Out.ok.inj (p1.symm.trans o1)
    refine ⟨o, o3, ?_⟩
    rw [← e, p2, hc, List.take_of_length_le (by rw [List.length_replicate])]
  obtain ⟨o, o1, o2⟩ := key m
  obtain ⟨o', o1', o2'⟩ := key m'
  exact ⟨_, kB, _, o, o', lB, rfl, lA, dA, o1, o1', o2.trans o2'.symm⟩

/-- C82: for every two messages there are accepted ciphertexts with one salt and one IV. -/
example (m m' : Bytes) : ∃ (c : BlockCipher) (k : PrivateKey) (q : Pt) (b b' : Bytes), c.keyLength = 32 ∧
    c.recipient.priv = some k ∧ c.sender.pub.raw.length = 32 ∧ Decodes c.sender.pub.raw q ∧ c.decrypt E b = .ok m ∧ c.decrypt E b' = .ok m' ∧
    b.take 48 = b'.take 48 :=
  repeated_exists E (newPrivateKey [1]) (newPrivateKey [2]) _ _ (derive_spec E _) (derive_spec E _) m m'

/-- C83: shared keys for two salts. -/
example : ∃ (k : PrivateKey) (pub : PublicKey) (salt salt' key key' : Bytes), 32 ≤ salt.length ∧ 32 ≤ salt'.length ∧ salt.take 32 ≠ salt'.take 32 ∧
    getSharedKey E 32 (some k) pub salt = .ok key ∧ getSharedKey E 32 (some k) pub salt' = .ok key' := by
  obtain ⟨e, _, hf⟩ := C83_form E (newPrivateKey [1]) ⟨encodePoint B⟩ B (encodePoint_length B) (decodes_encodePoint B)
  exact ⟨newPrivateKey [1], ⟨encodePoint B⟩, List.replicate 32 1, List.replicate 32 2, _, _, by decide, by decide, by decide, hf _ (by decide), hf _ (by decide)⟩

end Ed
