import Verif.Proofs.Oracle
import Verif.Proofs.Cbc
import Verif.Props.Cipher

/-!
# Properties C64-C67: which ciphertexts are accepted, and what can be done with them without a key
-/

set_option autoImplicit false

namespace Ed

variable (E : Env)

/-- `Decrypt` on salt, IV and blocks. -/
theorem decrypt_parts (c : BlockCipher) (k : PrivateKey) (q : Pt) (hkl : c.keyLength = 32) (hk : c.recipient.priv = some k)
    (hl : c.sender.pub.raw.length = 32) (hq : Decodes c.sender.pub.raw q) (salt : Bytes) (hs : salt.length = 32) :
    ∃ key, key.length = 32 ∧ getSharedKey E 32 (some k) c.sender.pub salt = .ok key ∧ ∀ iv data : Bytes, iv.length = 16 → data ≠ [] →
      data.length % 16 = 0 → c.decrypt E (salt ++ iv ++ data) = decode E data key iv := by
  have hg := getSharedKey_ok E (k := k) (salt := salt) hl hq (by omega)
  refine ⟨_, sha256_length E _, hg, ?_⟩
  intro iv data hiv hd hd16
  have := List.length_pos_iff.2 hd
  unfold BlockCipher.decrypt
  rw [if_neg (by simp only [List.length_append]; omega), hkl, if_neg (by omega)]
  dsimp only
  have e1 : (salt ++ iv ++ data).take 32 = salt := by
    rw [List.append_assoc, List.take_append_of_le_length (by omega), List.take_of_length_le (by omega)]
  have e2 : ((salt ++ iv ++ data).take 48).drop 32 = iv := by
    rw [List.take_append_of_le_length (by simp only [List.length_append]; omega), List.take_of_length_le (by simp only [List.length_append]; omega),
      ← hs, List.drop_left]
  have e3 : (salt ++ iv ++ data).drop 48 = data := by
    have : (salt ++ iv).length = 48 := by simp only [List.length_append]; omega
    rw [← this, List.drop_left]
  rw [e1, e2, e3, hk, hg, Out.bind_ok]

/-- An accepted input has a salt, an IV and at least one whole block. -/
theorem decrypt_ok_parts (c : BlockCipher) (k : PrivateKey) (q : Pt) (hkl : c.keyLength = 32) (hk : c.recipient.priv = some k)
    (hl : c.sender.pub.raw.length = 32) (hq : Decodes c.sender.pub.raw q) (b m : Bytes) (h : c.decrypt E b = .ok m) :
    ∃ salt iv data : Bytes, b = salt ++ iv ++ data ∧ salt.length = 32 ∧ iv.length = 16 ∧ data ≠ [] ∧ data.length % 16 = 0 := by
  have h64 : 64 ≤ b.length := by
    by_contra hn
    obtain ⟨e, he⟩ := C26_short E c b (by omega)
    rw [he] at h; cases h
  have h16 : b.length % 16 = 0 := by
    by_contra hn
    rw [C26_bad_length_panics E c k q b h64 hn hkl hk hl hq] at h; cases h
  refine ⟨b.take 32, (b.drop 32).take 16, b.drop 48, ?_, ?_, ?_, ?_, ?_⟩
  · rw [← List.take_add, List.take_append_drop]
  · rw [List.length_take]; omega
  · rw [List.length_take, List.length_drop]; omega
  · apply List.ne_nil_of_length_pos; rw [List.length_drop]; omega
  · rw [List.length_drop]; omega

/-! ## C64: the accepted ciphertexts -/

/-- Between two derived key pairs, `Decrypt` returns `m` for exactly the byte strings that `Encrypt` returns for `m` with some error-free
reader of at least 48 bytes. -/
theorem C64_image (kA kB : PrivateKey) (pA pB : PublicKey) (hA : derivePublicKey E (some kA) = .ok pA)
    (hB : derivePublicKey E (some kB) = .ok pB) (privB' privA' : Option PrivateKey) (seed seed' : Option ℕ) (b m : Bytes) :
    (newBlockCipher ⟨privA', pA⟩ ⟨some kB, pB⟩ seed').decrypt E b = .ok m ↔
      ∃ w : World, ErrorFree (w (seed.getD 0)) ∧ 48 ≤ (content (w (seed.getD 0))).length ∧
        ((newBlockCipher ⟨some kA, pA⟩ ⟨privB', pB⟩ seed).encrypt E m w).1 = .ok b := by
  constructor
  · intro h
    have hAB := fun salt hs => C24_agree E kA kB pA pB salt hs hA hB
    have hpA : pA.raw = publicKeyOf E kA.raw := by rw [derive_spec] at hA; cases hA; rfl
    have hpB : pB.raw = publicKeyOf E kB.raw := by rw [derive_spec] at hB; cases hB; rfl
    have lA : pA.raw.length = 32 := by rw [hpA]; exact publicKeyOf_length E _
    have lB : pB.raw.length = 32 := by rw [hpB]; exact publicKeyOf_length E _
    have dA : Decodes pA.raw (secretScalar E kA.raw • B) := by rw [hpA]; exact decodes_encodePoint _
    have dB : Decodes pB.raw (secretScalar E kB.raw • B) := by rw [hpB]; exact decodes_encodePoint _
    obtain ⟨salt, iv, data, rfl, h1, h2, h3, h4⟩ := decrypt_ok_parts E (newBlockCipher ⟨privA', pA⟩ ⟨some kB, pB⟩ seed') kB _ lB rfl lA dA b m h
    obtain ⟨key, k1, k2, k3⟩ := decrypt_parts E (newBlockCipher ⟨privA', pA⟩ ⟨some kB, pB⟩ seed') kB _ lB rfl lA dA salt h1
    rw [k3 iv data h2 h3 h4] at h
    have henc := encode_of_decode E k1 h2 h4 h
    let w : World := fun _ => [⟨salt ++ iv, none⟩]
    have hct : content (w (seed.getD 0)) = salt ++ iv := by simp [w, content]
    have hf : ErrorFree (w (seed.getD 0)) := by
      intro e he
      simp only [w, List.mem_singleton] at he
      rw [he]
    have hlen : 48 ≤ (content (w (seed.getD 0))).length := by rw [hct, List.length_append]; omega
    refine ⟨w, hf, hlen, ?_⟩
    obtain ⟨key', buf, g1, g2, g3, _⟩ := encrypt_eq E (newBlockCipher ⟨some kA, pA⟩ ⟨privB', pB⟩ seed) kA _ m w rfl lB lB dB hf hlen
    have hs : (newBlockCipher ⟨some kA, pA⟩ ⟨privB', pB⟩ seed).seed = seed.getD 0 := rfl
    rw [hs, hct] at g1 g2 g3
    have t48 : (salt ++ iv).take 48 = salt ++ iv := List.take_of_length_le (by rw [List.length_append]; omega)
    have t32 : (salt ++ iv).take 32 = salt := by
      rw [List.take_append_of_le_length (by omega), List.take_of_length_le (by omega)]
    have d32 : (salt ++ iv).drop 32 = iv := by rw [← h1, List.drop_left]
    rw [t32] at g1
    rw [t48, d32] at g2
    rw [t48] at g3
    obtain ⟨s, s1, s2, s3⟩ := hAB salt (by omega)
    have e1 : key = s := Out.ok.inj (k2.symm.trans s3)
    have e2 : key' = s := Out.ok.inj (g1.symm.trans s2)
    rw [e2, ← e1] at g2
    have e3 : buf = data := Out.ok.inj (g2.symm.trans henc)
    rw [g3, e3]
  · rintro ⟨w, hf, hl, h⟩
    obtain ⟨out, o1, _, o3⟩ := C25_roundtrip E kA kB pA pB hA hB privB' privA' seed seed' m w hf hl
    have e : out = b := Out.ok.inj (o1.symm.trans h)
    rw [← e]; exact o3

/-- Salt, IV and message determine the ciphertext, for every sender key that is a point: no second form is accepted. -/
theorem C64_unique (c : BlockCipher) (k : PrivateKey) (q : Pt) (hkl : c.keyLength = 32) (hk : c.recipient.priv = some k)
    (hl : c.sender.pub.raw.length = 32) (hq : Decodes c.sender.pub.raw q) (b b' m : Bytes) (h : c.decrypt E b = .ok m)
    (h' : c.decrypt E b' = .ok m) (h48 : b.take 48 = b'.take 48) : b = b' := by
  obtain ⟨salt, iv, data, rfl, h1, h2, h3, h4⟩ := decrypt_ok_parts E c k q hkl hk hl hq b m h
  obtain ⟨salt', iv', data', rfl, h1', h2', h3', h4'⟩ := decrypt_ok_parts E c k q hkl hk hl hq b' m h'
  have t : ∀ s i d : Bytes, s.length = 32 → i.length = 16 → (s ++ i ++ d).take 48 = s ++ i := by
    intro s i d hs hi
    have : (s ++ i).length = 48 := by rw [List.length_append]; omega
    rw [← this, List.take_left]
  rw [t _ _ _ h1 h2, t _ _ _ h1' h2'] at h48
  obtain ⟨rfl, rfl⟩ := List.append_inj h48 (by omega)
  obtain ⟨key, k1, k2, k3⟩ := decrypt_parts E c k q hkl hk hl hq salt h1
  rw [k3 iv data h2 h3 h4] at h
  rw [k3 iv data' h2 h3' h4'] at h'
  have a := encode_of_decode E k1 h2 h4 h
  have b := encode_of_decode E k1 h2 h4' h'
  rw [Out.ok.inj (a.symm.trans b)]

/-! ## C65: ciphertexts are not authenticated -/

/-- The message with its first 16 bytes xored with a mask. -/
def xorFirst (m d : Bytes) : Bytes := List.zipWith (· ^^^ ·) (m.take 16) d ++ m.drop 16

/-- Whoever xors the IV with a mask xors the first block of the message with it, unnoticed: for every accepted ciphertext and every mask that
is zero behind the message. -/
theorem C65_flip (c : BlockCipher) (k : PrivateKey) (q : Pt) (hkl : c.keyLength = 32) (hk : c.recipient.priv = some k)
    (hl : c.sender.pub.raw.length = 32) (hq : Decodes c.sender.pub.raw q) (salt iv data m d : Bytes) (hs : salt.length = 32)
    (hiv : iv.length = 16) (h : c.decrypt E (salt ++ iv ++ data) = .ok m) (hd : d.length = 16)
    (hz : d.drop m.length = List.replicate (16 - m.length) 0) :
    c.decrypt E (salt ++ List.zipWith (· ^^^ ·) iv d ++ data) = .ok (xorFirst m d) := by
  obtain ⟨salt', iv', data', he, h1, h2, h3, h4⟩ := decrypt_ok_parts E c k q hkl hk hl hq _ m h
  obtain ⟨he', rfl⟩ := List.append_inj he (by simp only [List.length_append]; omega)
  clear he
  obtain ⟨rfl, rfl⟩ := List.append_inj he' (by omega)
  clear he'
  obtain ⟨key, k1, k2, k3⟩ := decrypt_parts E c k q hkl hk hl hq salt h1
  have hx : (List.zipWith (· ^^^ ·) iv d).length = 16 := by rw [List.length_zipWith, hiv, hd, Nat.min_self]
  rw [k3 iv data h2 h3 h4, decode_eq E k1 h2 h4] at h
  rw [k3 _ data hx h3 h4, decode_eq E k1 hx h4]
  have hpos := List.length_pos_iff.2 h3
  have ht : (data.take 16).length = 16 := by rw [List.length_take]; omega
  have e : ∀ i : Bytes, cbcPlain E data key i = xorBlock (E.aesD key (data.take 16)) i ++ cbcPlain E (data.drop 16) key (data.take 16) := by
    intro i
    rw [← cbcPlain_cons E ht, List.take_append_drop]
  apply unpad_padded
  obtain ⟨n, n1, n2, n3⟩ := unpad_ok h
  rw [e] at n3
  rw [e]
  have e2 : xorBlock (E.aesD key (data.take 16)) (List.zipWith (· ^^^ ·) iv d) = xorBlock (xorBlock (E.aesD key (data.take 16)) iv) d :=
    xorBlock_assoc _ _ _
  rw [e2]
  have hl1 : (xorBlock (E.aesD key (data.take 16)) iv).length = 16 := by
    rw [xorBlock_length (by rw [E.aesD_length _ _ ht, hiv]), E.aesD_length _ _ ht]
  generalize xorBlock (E.aesD key (data.take 16)) iv = p at n3 hl1
  generalize cbcPlain E (data.drop 16) key (data.take 16) = t at n3
  refine ⟨n, n1, n2, ?_⟩
  unfold xorFirst
  by_cases hm : 16 ≤ m.length
  · have e3 : m = m.take 16 ++ m.drop 16 := (List.take_append_drop _ _).symm
    have h4 : p ++ t = m.take 16 ++ (m.drop 16 ++ List.replicate n (UInt8.ofNat n)) := by
      rw [← List.append_assoc, ← e3, n3]
    obtain ⟨a, b⟩ := List.append_inj h4 (by rw [List.length_take]; omega)
    rw [a, b, List.append_assoc]
    rfl
  · rw [List.take_of_length_le (by omega), List.drop_eq_nil_of_le (by omega), List.append_nil]
    have hdl : (d.take m.length).length = m.length := by rw [List.length_take]; omega
    have ed : d = d.take m.length ++ List.replicate (16 - m.length) 0 := by
      conv_lhs => rw [← List.take_append_drop m.length d, hz]
    have ep : p = m ++ p.drop m.length := by
      have := congrArg (List.take m.length) n3
      rw [List.take_left, List.take_append_of_le_length (by omega)] at this
      conv_lhs => rw [← List.take_append_drop m.length p, this]
    have ez : xorBlock p d = List.zipWith (· ^^^ ·) m d ++ p.drop m.length := by
      conv_lhs => rw [ep, ed]
      rw [xorBlock_append (by rw [hdl])]
      have hr : xorBlock (p.drop m.length) (List.replicate (16 - m.length) 0) = p.drop m.length := by
        have := xorBlock_zero (p.drop m.length)
        rwa [List.length_drop, hl1] at this
      rw [hr]
      have : List.zipWith (· ^^^ ·) m d = List.zipWith (· ^^^ ·) (m ++ []) (d.take m.length ++ d.drop m.length) := by
        rw [List.append_nil, List.take_append_drop]
      rw [this, List.zipWith_append (by rw [hdl])]
      simp [xorBlock]
    rw [ez, List.append_assoc]
    congr 1
    have : p ++ t = m ++ (p.drop m.length ++ t) := by
      conv_lhs => rw [ep]
      rw [List.append_assoc]
    exact List.append_cancel_left (this.symm.trans n3)

/-- Whoever drops the IV of a ciphertext of two or more blocks drops the first 16 bytes of the message, unnoticed. -/
theorem C65_drop_first (c : BlockCipher) (k : PrivateKey) (q : Pt) (hkl : c.keyLength = 32) (hk : c.recipient.priv = some k)
    (hl : c.sender.pub.raw.length = 32) (hq : Decodes c.sender.pub.raw q) (salt iv c1 rest m : Bytes) (hs : salt.length = 32)
    (hiv : iv.length = 16) (hc : c1.length = 16) (hr : rest ≠ []) (h : c.decrypt E (salt ++ iv ++ (c1 ++ rest)) = .ok m) :
    16 ≤ m.length ∧ c.decrypt E (salt ++ c1 ++ rest) = .ok (m.drop 16) := by
  obtain ⟨salt', iv', data', he, h1, h2, h3, h4⟩ := decrypt_ok_parts E c k q hkl hk hl hq _ m h
  obtain ⟨he', he2⟩ := List.append_inj he (by simp only [List.length_append]; omega)
  obtain ⟨rfl, rfl⟩ := List.append_inj he' (by omega)
  rw [← he2] at h4 h3
  have hr16 : rest.length % 16 = 0 := by rw [List.length_append] at h4; omega
  have hpos := List.length_pos_iff.2 hr
  obtain ⟨key, k1, k2, k3⟩ := decrypt_parts E c k q hkl hk hl hq salt h1
  rw [k3 iv _ h2 h3 h4, decode_eq E k1 h2 h4, cbcPlain_cons E hc] at h
  rw [k3 c1 rest hc hr hr16, decode_eq E k1 hc hr16]
  have hx : (xorBlock (E.aesD key c1) iv).length = 16 := by
    rw [xorBlock_length (by rw [E.aesD_length _ _ hc, hiv]), E.aesD_length _ _ hc]
  obtain ⟨p1, p2, p3⟩ := paddedBy_drop (unpad_ok h) (by rw [cbcPlain_length E hc hr16]; omega)
  rw [hx] at p1 p3
  exact ⟨p1, unpad_padded p3⟩

/-- Whoever puts other blocks in front of the second block gets an accepted ciphertext that ends like the message. -/
theorem C65_prepend (c : BlockCipher) (k : PrivateKey) (q : Pt) (hkl : c.keyLength = 32) (hk : c.recipient.priv = some k)
    (hl : c.sender.pub.raw.length = 32) (hq : Decodes c.sender.pub.raw q) (salt iv c1 rest m iv' x : Bytes) (hs : salt.length = 32)
    (hiv : iv.length = 16) (hc : c1.length = 16) (hr : rest ≠ []) (h : c.decrypt E (salt ++ iv ++ (c1 ++ rest)) = .ok m)
    (hiv' : iv'.length = 16) (hx : x.length % 16 = 0) :
    ∃ g : Bytes, g.length = x.length + 16 ∧ c.decrypt E (salt ++ iv' ++ (x ++ c1 ++ rest)) = .ok (g ++ m.drop 16) := by
  obtain ⟨salt', iv2, data', he, h1, h2, h3, h4⟩ := decrypt_ok_parts E c k q hkl hk hl hq _ m h
  obtain ⟨he', he2⟩ := List.append_inj he (by simp only [List.length_append]; omega)
  obtain ⟨rfl, rfl⟩ := List.append_inj he' (by omega)
  rw [← he2] at h4 h3
  have hr16 : rest.length % 16 = 0 := by rw [List.length_append] at h4; omega
  have hpos := List.length_pos_iff.2 hr
  obtain ⟨key, k1, k2, k3⟩ := decrypt_parts E c k q hkl hk hl hq salt h1
  rw [k3 iv _ h2 h3 h4, decode_eq E k1 h2 h4, cbcPlain_cons E hc] at h
  have hxl : (xorBlock (E.aesD key c1) iv).length = 16 := by
    rw [xorBlock_length (by rw [E.aesD_length _ _ hc, hiv]), E.aesD_length _ _ hc]
  obtain ⟨p1, p2, p3⟩ := paddedBy_drop (unpad_ok h) (by rw [cbcPlain_length E hc hr16]; omega)
  rw [hxl] at p3
  have h16 : (x ++ c1 ++ rest).length % 16 = 0 := by simp only [List.length_append]; omega
  obtain ⟨g, g1, g2⟩ := cbcPlain_append E key rest c1 hc (x.length / 16) x iv' (by omega) hiv'
  refine ⟨g, by omega, ?_⟩
  rw [k3 iv' _ hiv' (List.append_ne_nil_of_right_ne_nil _ hr) h16, decode_eq E k1 hiv' h16, g2]
  exact unpad_padded (paddedBy_append p3)

/-! ## C66: the error of `Decrypt` is a padding oracle -/

/-- Whether a call returned normally. -/
def Out.accepted {α : Type} : Out α → Bool
  | .ok _ => true
  | _ => false

theorem padOracle_decrypt (c : BlockCipher) (k : PrivateKey) (q : Pt) (hkl : c.keyLength = 32) (hk : c.recipient.priv = some k)
    (hl : c.sender.pub.raw.length = 32) (hq : Decodes c.sender.pub.raw q) {salt key : Bytes} (k1 : key.length = 32)
    (k3 : ∀ iv data : Bytes, iv.length = 16 → data ≠ [] → data.length % 16 = 0 → c.decrypt E (salt ++ iv ++ data) = decode E data key iv) :
    ∀ c0 : Bytes, c0.length = 16 → PadOracle (E.aesD key c0) (fun iv => (c.decrypt E (salt ++ iv ++ c0)).accepted) := by
  intro c0 hc0 v hv
  have hne : c0 ≠ [] := by intro e; rw [e] at hc0; cases hc0
  have h16 : c0.length % 16 = 0 := by omega
  dsimp only
  rw [k3 v c0 hv hne h16, decode_eq E k1 hv h16]
  have e : cbcPlain E c0 key v = xorBlock (E.aesD key c0) v := by
    have := cbcPlain_cons E (rest := []) (k := key) (iv := v) hc0
    rwa [List.append_nil, cbcPlain_nil, List.append_nil] at this
  rw [e]
  have hl16 : (xorBlock (E.aesD key c0) v).length = 16 := by
    rw [xorBlock_length (by rw [E.aesD_length _ _ hc0, hv]), E.aesD_length _ _ hc0]
  constructor
  · intro ha
    rcases unpad_total (buf := xorBlock (E.aesD key c0) v) (by omega) with ⟨m', hm⟩ | ⟨e', hm⟩
    · exact ⟨m', unpad_ok hm⟩
    · rw [hm] at ha; cases ha
  · rintro ⟨m', hm⟩
    rw [unpad_padded hm]; rfl

/-- Whoever learns only whether `Decrypt` succeeds on byte strings of their choice computes the message of every ciphertext. -/
theorem C66_oracle (c : BlockCipher) (k : PrivateKey) (q : Pt) (hkl : c.keyLength = 32) (hk : c.recipient.priv = some k)
    (hl : c.sender.pub.raw.length = 32) (hq : Decodes c.sender.pub.raw q) (b m : Bytes) (h : c.decrypt E b = .ok m) :
    oracleMessage (fun x => (c.decrypt E x).accepted) ((b.length - 48) / 16) b = m := by
  obtain ⟨salt, iv, data, rfl, h1, h2, h3, h4⟩ := decrypt_ok_parts E c k q hkl hk hl hq b m h
  obtain ⟨key, k1, k2, k3⟩ := decrypt_parts E c k q hkl hk hl hq salt h1
  rw [k3 iv data h2 h3 h4, decode_eq E k1 h2 h4] at h
  have t32 : (salt ++ iv ++ data).take 32 = salt := by
    rw [List.append_assoc, List.take_append_of_le_length (by omega), List.take_of_length_le (by omega)]
  have d32 : ((salt ++ iv ++ data).drop 32).take 16 = iv := by
    rw [← h1, List.append_assoc, List.drop_left, ← h2, List.take_left]
  have hn : ((salt ++ iv ++ data).length - 48) / 16 = data.length / 16 := by
    simp only [List.length_append]; congr 1; omega
  have ech : (List.range (data.length / 16)).map (fun i => ((salt ++ iv ++ data).drop (48 + 16 * i)).take 16) = chunks16 data := by
    rw [chunks16_range _ _ (show data.length = 16 * (data.length / 16) by omega)]
    have : (salt ++ iv ++ data).drop 48 = data := by
      have : (salt ++ iv).length = 48 := by simp only [List.length_append]; omega
      rw [← this, List.drop_left]
    refine congrArg (fun f : ℕ → Bytes => (List.range (data.length / 16)).map f) (funext fun i => ?_)
    rw [← List.drop_drop, this]
  unfold oracleMessage
  rw [t32, d32, hn, ech]
  have c3 := (chunks16_spec (data.length / 16) data (by omega)).2.2
  rw [oracleBlocks_spec E (key := key) (padOracle_decrypt E c k q hkl hk hl hq k1 k3) _ _ c3]
  exact stripPad_padded (unpad_ok h)

/-- C66: an asker with at most 4352 questions for each block of the ciphertext. -/
theorem C66_questions (c : BlockCipher) (k : PrivateKey) (q : Pt) (hkl : c.keyLength = 32) (hk : c.recipient.priv = some k)
    (hl : c.sender.pub.raw.length = 32) (hq : Decodes c.sender.pub.raw q) (b m : Bytes) (h : c.decrypt E b = .ok m) :
    let r := (Asker.message ((b.length - 48) / 16) b).run fun x => (c.decrypt E x).accepted
    r.1 = m ∧ r.2 ≤ 4352 * ((b.length - 48) / 16) := by
  obtain ⟨h1, h2⟩ := Asker.run_message (fun x => (c.decrypt E x).accepted) ((b.length - 48) / 16) b
  exact ⟨h1.trans (C66_oracle E c k q hkl hk hl hq b m h), h2⟩

/-! ## C92: the padding oracle also makes ciphertexts -/

theorem xorBlock_self_left : ∀ (a b : Bytes), a.length = b.length → xorBlock a (xorBlock a b) = b
  | [], [], _ => rfl
  | x :: a, y :: b, h => by
    have ih := xorBlock_self_left a b (by simpa using h)
    simp only [xorBlock, List.zipWith_cons_cons] at ih ⊢
    rw [ih, ← UInt8.xor_assoc, UInt8.xor_self, UInt8.zero_xor]
  | [], _ :: _, h => by simp at h
  | _ :: _, [], h => by simp at h

theorem forgeBlocks_spec {orc : Bytes → Bool} {salt key last : Bytes} (hlast : last.length = 16)
    (ho : ∀ c : Bytes, c.length = 16 → PadOracle (E.aesD key c) (fun iv => orc (salt ++ iv ++ c))) :
    ∀ ps : List Bytes, (∀ p ∈ ps, p.length = 16) → (forgeBlocks orc salt last ps).1.length = 16 ∧
      (forgeBlocks orc salt last ps).2.length = 16 * ps.length ∧
      cbcPlain E (forgeBlocks orc salt last ps).2 key (forgeBlocks orc salt last ps).1 = ps.flatten
  | [], _ => ⟨hlast, rfl, cbcPlain_nil E _ _⟩
  | p :: ps, h => by
    obtain ⟨h1, h2, h3⟩ := forgeBlocks_spec hlast ho ps fun x hx => h x (List.mem_cons_of_mem _ hx)
    have hp := h p List.mem_cons_self
    have hd := E.aesD_length key _ h1
    unfold forgeBlocks
    dsimp only
    generalize forgeBlocks orc salt last ps = r at *
    rw [oracleBlock_spec (ho r.1 h1) hd]
    refine ⟨?_, ?_, ?_⟩
    · rw [List.length_zipWith, hd, hp]; rfl
    · rw [List.length_append, h1, h2, List.length_cons]; ring
    · rw [cbcPlain_cons E h1, h3, List.flatten_cons]
      congr 1
      exact xorBlock_self_left _ _ (hd.trans hp.symm)

/-- C92: whoever learns only whether `Decrypt` succeeds on byte strings of their choice makes a ciphertext for any message, with any salt and
any last block, without a key and without having seen a ciphertext. -/
theorem C92_forge (c : BlockCipher) (k : PrivateKey) (q : Pt) (hkl : c.keyLength = 32) (hk : c.recipient.priv = some k)
    (hl : c.sender.pub.raw.length = 32) (hq : Decodes c.sender.pub.raw q) (salt last m : Bytes) (hs : salt.length = 32)
    (hlast : last.length = 16) :
    c.decrypt E (forge (fun x => (c.decrypt E x).accepted) salt last m) = .ok m := by
  obtain ⟨key, k1, k2, k3⟩ := decrypt_parts E c k q hkl hk hl hq salt hs
  have pl : (padTo16 m).length = 16 * (m.length / 16 + 1) := padMessage_length m
  have e := chunks16_range (m.length / 16 + 1) (padTo16 m) pl
  have c3 := chunks16_spec (m.length / 16 + 1) (padTo16 m) pl
  unfold forge
  dsimp only
  rw [← e]
  obtain ⟨f1, f2, f3⟩ := forgeBlocks_spec E (orc := fun x => (c.decrypt E x).accepted) (salt := salt) (key := key) hlast (padOracle_decrypt E c k q hkl hk hl hq k1 k3) (chunks16 (padTo16 m)) c3.2.2
  rw [k3 _ _ f1 ?_ ?_, decode_eq E k1 f1 ?_, f3, c3.1]
  · exact unpad_padded (padMessage_padded m)
  · rw [f2]; omega
  · intro e
    have := c3.2.1
    rw [e] at f2
    simp at f2
    rw [f2] at this
    simp at this
  · rw [f2]; omega

/-- C92: an asker with at most 4352 questions for each block of the ciphertext. -/
theorem C92_questions (c : BlockCipher) (k : PrivateKey) (q : Pt) (hkl : c.keyLength = 32) (hk : c.recipient.priv = some k)
    (hl : c.sender.pub.raw.length = 32) (hq : Decodes c.sender.pub.raw q) (salt last m : Bytes) (hs : salt.length = 32)
    (hlast : last.length = 16) :
    let r := (Asker.forge salt last m).run fun x => (c.decrypt E x).accepted
    c.decrypt E r.1 = .ok m ∧ r.2 ≤ 4352 * (m.length / 16 + 1) := by
  obtain ⟨h1, h2⟩ := Asker.run_forge (fun x => (c.decrypt E x).accepted) salt last m
  exact ⟨by rw [h1]; exact C92_forge E c k q hkl hk hl hq salt last m hs hlast, h2⟩

/-! ## C67: ciphertexts do not say who wrote them -/

/-- The recipient of A's messages and the recipient of B's messages decrypt every byte string alike: a ciphertext from A to B is accepted by A as
one from B. -/
theorem C67_direction (kA kB : PrivateKey) (pA pB : PublicKey) (hA : derivePublicKey E (some kA) = .ok pA)
    (hB : derivePublicKey E (some kB) = .ok pB) (privA' privB' : Option PrivateKey) (seed seed' : Option ℕ) (b : Bytes) :
    (newBlockCipher ⟨privA', pA⟩ ⟨some kB, pB⟩ seed).decrypt E b = (newBlockCipher ⟨privB', pB⟩ ⟨some kA, pA⟩ seed').decrypt E b := by
  have hAB := fun salt hs => C24_agree E kA kB pA pB salt hs hA hB
  have lA : pA.raw.length = 32 := by rw [derive_spec] at hA; cases hA; exact publicKeyOf_length E _
  have lB : pB.raw.length = 32 := by rw [derive_spec] at hB; cases hB; exact publicKeyOf_length E _
  unfold BlockCipher.decrypt newBlockCipher
  dsimp only
  rw [lA, lB]
  by_cases h : b.length < 64
  · rw [if_pos h, if_pos h]
  · rw [if_neg h, if_neg h, if_neg (by omega), if_neg (by omega)]
    obtain ⟨s, s1, s2, s3⟩ := hAB (b.take 32) (by rw [List.length_take]; omega)
    rw [s2, s3]

/-- In particular a message that A sent comes back to A as a message from B. -/
theorem C67_reflect (kA kB : PrivateKey) (pA pB : PublicKey) (hA : derivePublicKey E (some kA) = .ok pA)
    (hB : derivePublicKey E (some kB) = .ok pB) (privB' privB'' : Option PrivateKey) (seed seed' : Option ℕ) (m out : Bytes) (w : World)
    (hf : ErrorFree (w (seed.getD 0))) (hl : 48 ≤ (content (w (seed.getD 0))).length)
    (h : ((newBlockCipher ⟨some kA, pA⟩ ⟨privB', pB⟩ seed).encrypt E m w).1 = .ok out) :
    (newBlockCipher ⟨privB'', pB⟩ ⟨some kA, pA⟩ seed').decrypt E out = .ok m := by
  obtain ⟨o, o1, _, o3⟩ := C25_roundtrip E kA kB pA pB hA hB privB' none seed none m w hf hl
  have e : o = out := Out.ok.inj (o1.symm.trans h)
  rw [← e, ← C67_direction E kA kB pA pB hA hB none privB'' none seed']
  exact o3

theorem read_ok_length {seed n : ℕ} {w : World} {b : Bytes} (h : (Act.read seed n w).1 = .ok b) : b.length = n := by
  by_cases hn : n ≤ (avail (w seed)).length
  · rw [(read_ok hn).1] at h
    have := Out.ok.inj h
    rw [← this, List.length_take]
    obtain ⟨t, ht⟩ := avail_prefix (w seed)
    rw [ht, List.length_append]
    omega
  · obtain ⟨e, he⟩ := read_short (seed := seed) (w := w) (n := n) (by omega)
    rw [he] at h
    exact nomatch h

/-- With the same random bytes A and B make the same ciphertexts for each other, also errors are the same. -/
theorem C67_same_bytes (kA kB : PrivateKey) (pA pB : PublicKey) (hA : derivePublicKey E (some kA) = .ok pA)
    (hB : derivePublicKey E (some kB) = .ok pB) (privA' privB' : Option PrivateKey) (seed : Option ℕ) (m : Bytes) (w : World) :
    (newBlockCipher ⟨some kA, pA⟩ ⟨privB', pB⟩ seed).encrypt E m w = (newBlockCipher ⟨some kB, pB⟩ ⟨privA', pA⟩ seed).encrypt E m w := by
  have hAB := fun salt hs => C24_agree E kA kB pA pB salt hs hA hB
  have lA : pA.raw.length = 32 := by rw [derive_spec] at hA; cases hA; exact publicKeyOf_length E _
  have lB : pB.raw.length = 32 := by rw [derive_spec] at hB; cases hB; exact publicKeyOf_length E _
  unfold BlockCipher.encrypt newBlockCipher
  dsimp only
  rw [lA, lB]
  cases h : (Act.read (seed.getD 0) 32 w).1 with
  | err e => rw [Act.bind_err h, Act.bind_err h]
  | panic => rw [Act.bind_panic h, Act.bind_panic h]
  | ok salt =>
    rw [Act.bind_ok' h, Act.bind_ok' h]
    obtain ⟨s, s1, s2, s3⟩ := hAB salt (le_of_eq (read_ok_length h).symm)
    rw [s2, s3]

/-! ## Cases -/

theorem accepted_exists (kA kB : PrivateKey) (pA pB : PublicKey) (hA : derivePublicKey E (some kA) = .ok pA)
    (hB : derivePublicKey E (some kB) = .ok pB) (m : Bytes) : ∃ (c : BlockCipher) (k : PrivateKey) (q : Pt) (b : Bytes), c.keyLength = 32 ∧
    c.recipient.priv = some k ∧ c.sender.pub.raw.length = 32 ∧ Decodes c.sender.pub.raw q ∧ c.decrypt E b = .ok m := by
  have lA : pA.raw.length = 32 := by rw [derive_spec] at hA; cases hA; exact publicKeyOf_length E _
  have lB : pB.raw.length = 32 := by rw [derive_spec] at hB; cases hB; exact publicKeyOf_length E _
  have dA : Decodes pA.raw (secretScalar E kA.raw • B) := by rw [derive_spec] at hA; cases hA; exact decodes_encodePoint _
  obtain ⟨o, o1, _, o3⟩ := C25_roundtrip E kA kB pA pB hA hB none none none none m
    (fun _ => [⟨List.replicate 48 7, none⟩]) (by intro e he; simp only [List.mem_singleton] at he; rw [he]) (by simp [content])
  exact ⟨_, kB, secretScalar E kA.raw • B, o, lB, rfl, lA, dA, o3⟩

/-- The hypotheses of C64-C66 and C92. Accepted ciphertexts exist for every message (two blocks or more for messages of at least 16 bytes). -/
example (m : Bytes) : ∃ (c : BlockCipher) (k : PrivateKey) (q : Pt) (b : Bytes), c.keyLength = 32 ∧
    c.recipient.priv = some k ∧ c.sender.pub.raw.length = 32 ∧ Decodes c.sender.pub.raw q ∧ c.decrypt E b = .ok m :=
  accepted_exists E (newPrivateKey [1]) (newPrivateKey [2]) _ _ (derive_spec E _) (derive_spec E _) m

end Ed
