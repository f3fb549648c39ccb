import Verif.Proofs.Keys
import Verif.Model.Cipher

/-!
# Readers, CBC, padding and shared keys
-/

namespace Ed

instance : LawfulMonad Out := LawfulMonad.mk' _
  (id_map := by intro α x; cases x <;> rfl)
  (pure_bind := by intros; rfl)
  (bind_assoc := by intro α β γ x f g; cases x <;> rfl)

/-! ## Readers -/

/-- All bytes a reader is going to deliver. -/
def content (r : Reader) : Bytes := (r.map Ev.data).flatten

/-- The bytes a reader delivers up to (and together with) its first error. -/
def avail : Reader → Bytes
  | [] => []
  | e :: r => match e.err with
    | some _ => e.data
    | none => e.data ++ avail r

/-- A reader without errors other than EOF at the end. -/
def ErrorFree (r : Reader) : Prop := ∀ e ∈ r, e.err = none

theorem avail_prefix : ∀ r, ∃ t, content r = avail r ++ t
  | [] => ⟨[], rfl⟩
  | e :: r => by
    obtain ⟨t, ht⟩ := avail_prefix r
    have hc : content (e :: r) = e.data ++ content r := rfl
    unfold avail
    cases e.err with
    | some x => exact ⟨content r, hc⟩
    | none => exact ⟨t, by rw [hc, ht]; simp⟩

theorem avail_errorFree : ∀ r, ErrorFree r → avail r = content r
  | [], _ => rfl
  | e :: r, h => by
    have he := h e (by simp)
    have := avail_errorFree r (fun x hx => h x (by simp [hx]))
    unfold avail; rw [he]; simp only [this]; rfl

theorem readLoop_spec : ∀ (r : Reader) (n : ℕ),
    (n ≤ (avail r).length → (readLoop r n).1 = (avail r).take n ∧ content (readLoop r n).2.2 = (content r).drop n ∧
      (ErrorFree r → ErrorFree (readLoop r n).2.2)) ∧
    ((avail r).length < n → (readLoop r n).1 = avail r)
  | r, 0 => by simp [readLoop]
  | [], n + 1 => by simp [readLoop, avail]
  | e :: r, n + 1 => by
    obtain ⟨i1, i2⟩ := readLoop_spec r (n + 1 - e.data.length)
    have hc : content (e :: r) = e.data ++ content r := rfl
    rw [readLoop]
    by_cases hlt : n + 1 < e.data.length
    · rw [if_pos hlt]
      constructor
      · intro _
        refine ⟨?_, ?_, ?_⟩
        · unfold avail; cases e.err with
          | some x => rfl
          | none => dsimp only; rw [List.take_append_of_le_length hlt.le]
        · dsimp only; rw [hc, List.drop_append_of_le_length hlt.le]; rfl
        · intro hf x hx
          simp only [List.mem_cons] at hx
          rcases hx with rfl | hx
          · exact hf e (by simp)
          · exact hf x (by simp [hx])
      · intro h
        exfalso
        unfold avail at h
        cases he : e.err with
        | some x => rw [he] at h; dsimp only at h; omega
        | none => rw [he] at h; dsimp only at h; rw [List.length_append] at h; omega
    · rw [if_neg hlt]
      cases he : e.err with
      | some x =>
        have hav : avail (e :: r) = e.data := by unfold avail; rw [he]
        dsimp only
        rw [hav]
        constructor
        · intro h
          have hl : e.data.length = n + 1 := by omega
          refine ⟨by rw [← hl, List.take_length], by rw [hc, ← hl, List.drop_left], ?_⟩
          intro hf; have := hf e (by simp); rw [he] at this; cases this
        · intro _; rfl
      | none =>
        have hav : avail (e :: r) = e.data ++ avail r := by rw [avail, he]
        dsimp only
        rw [hav, List.length_append]
        constructor
        · intro h
          obtain ⟨j1, j2, j3⟩ := i1 (by omega)
          refine ⟨?_, ?_, fun hf => j3 fun x hx => hf x (by simp [hx])⟩
          · rw [j1, List.take_append, List.take_of_length_le (show e.data.length ≤ n + 1 by omega)]
          · rw [j2, hc, List.drop_append, List.drop_eq_nil_of_le (by omega : e.data.length ≤ n + 1), List.nil_append]
        · intro h
          rw [i2 (by omega)]

theorem readFull_ok {r : Reader} {n : ℕ} (h : n ≤ (avail r).length) :
    (readFull r n).1 = .ok ((content r).take n) ∧ content (readFull r n).2 = (content r).drop n ∧
      (ErrorFree r → ErrorFree (readFull r n).2) := by
  obtain ⟨h1, h2, h3⟩ := (readLoop_spec r n).1 h
  obtain ⟨t, ht⟩ := avail_prefix r
  unfold readFull
  dsimp only
  rw [if_pos (by rw [h1, List.length_take]; omega)]
  refine ⟨?_, h2, h3⟩
  rw [h1, ht, List.take_append_of_le_length h]

theorem readFull_short {r : Reader} {n : ℕ} (h : (avail r).length < n) : ∃ e, (readFull r n).1 = .err e := by
  have h1 := (readLoop_spec r n).2 h
  unfold readFull
  dsimp only
  rw [if_neg (by rw [h1]; omega)]
  exact ⟨_, rfl⟩

theorem read_other (seed n i : ℕ) (w : World) (h : i ≠ seed) : (Act.read seed n w).2 i = w i := by
  unfold Act.read; simp [h]

theorem read_ok {seed n : ℕ} {w : World} (h : n ≤ (avail (w seed)).length) :
    (Act.read seed n w).1 = .ok ((content (w seed)).take n) ∧
    content ((Act.read seed n w).2 seed) = (content (w seed)).drop n ∧
    (ErrorFree (w seed) → ErrorFree ((Act.read seed n w).2 seed)) := by
  obtain ⟨h1, h2, h3⟩ := readFull_ok h
  unfold Act.read
  simp only [if_true]
  exact ⟨h1, h2, h3⟩

theorem read_short {seed n : ℕ} {w : World} (h : (avail (w seed)).length < n) : ∃ e, (Act.read seed n w).1 = .err e := by
  obtain ⟨e, h1⟩ := readFull_short h
  exact ⟨e, h1⟩

theorem Act.bind_ok {α β : Type} {x : Act α} {f : α → Act β} {w w' : World} {a : α} (h : x w = (.ok a, w')) :
    Act.bind x f w = f a w' := by unfold Act.bind; rw [h]

theorem Act.bind_ok' {α β : Type} {x : Act α} {f : α → Act β} {w : World} {a : α} (h : (x w).1 = .ok a) :
    Act.bind x f w = f a (x w).2 := Act.bind_ok (Prod.ext h rfl)

theorem Act.bind_err {α β : Type} {x : Act α} {f : α → Act β} {w : World} {e : String} (h : (x w).1 = .err e) :
    Act.bind x f w = (.err e, (x w).2) := by
  have : x w = (.err e, (x w).2) := Prod.ext h rfl
  unfold Act.bind; rw [this]

theorem Act.bind_panic {α β : Type} {x : Act α} {f : α → Act β} {w : World} (h : (x w).1 = .panic) :
    Act.bind x f w = (.panic, (x w).2) := by
  have : x w = (.panic, (x w).2) := Prod.ext h rfl
  unfold Act.bind; rw [this]

/-! ## CBC -/

theorem chunks16_nil : chunks16 [] = [] := by rw [chunks16]; rfl

theorem chunks16_cons {b : Bytes} (h : b.length ≠ 0) : chunks16 b = b.take 16 :: chunks16 (b.drop 16) := by
  rw [chunks16, dif_neg h]

theorem chunks16_append {a : Bytes} (h : a.length = 16) (b : Bytes) : chunks16 (a ++ b) = a :: chunks16 b := by
  rw [chunks16_cons (by simp [h]), ← h, List.take_left, List.drop_left]

theorem chunks16_flatten : ∀ (l : List Bytes), (∀ b ∈ l, b.length = 16) → chunks16 l.flatten = l
  | [], _ => chunks16_nil
  | a :: l, h => by
    rw [List.flatten_cons, chunks16_append (h a (by simp)), chunks16_flatten l (fun b hb => h b (by simp [hb]))]

theorem chunks16_spec : ∀ (n : ℕ) (b : Bytes), b.length = 16 * n →
    (chunks16 b).flatten = b ∧ (chunks16 b).length = n ∧ ∀ c ∈ chunks16 b, c.length = 16
  | 0, b, h => by
    have : b = [] := List.length_eq_zero_iff.mp (by omega)
    rw [this, chunks16_nil]; simp
  | n + 1, b, h => by
    obtain ⟨h1, h2, h3⟩ := chunks16_spec n (b.drop 16) (by rw [List.length_drop]; omega)
    rw [chunks16_cons (by omega), List.flatten_cons, h1, List.take_append_drop]
    refine ⟨rfl, by rw [List.length_cons, h2], ?_⟩
    intro c hc
    simp only [List.mem_cons] at hc
    rcases hc with rfl | hc
    · rw [List.length_take]; omega
    · exact h3 c hc

theorem xorBlock_length {a b : Bytes} (h : a.length = b.length) : (xorBlock a b).length = a.length := by
  unfold xorBlock; rw [List.length_zipWith, h, Nat.min_self]

theorem xorBlock_cancel : ∀ {a b : Bytes}, a.length = b.length → xorBlock (xorBlock a b) b = a
  | [], [], _ => rfl
  | x :: a, y :: b, h => by
    have := xorBlock_cancel (a := a) (b := b) (by simpa using h)
    unfold xorBlock at *
    simp only [List.zipWith_cons_cons, this, UInt8.xor_assoc, UInt8.xor_self, UInt8.xor_zero]

variable (E : Env)

theorem cbcEnc_lengths (key : Bytes) : ∀ (ps : List Bytes) (iv : Bytes), iv.length = 16 → (∀ p ∈ ps, p.length = 16) →
    (cbcEncBlocks E key iv ps).length = ps.length ∧ ∀ c ∈ cbcEncBlocks E key iv ps, c.length = 16
  | [], _, _, _ => by simp [cbcEncBlocks]
  | p :: ps, iv, hiv, hp => by
    have hp0 := hp p (by simp)
    have hc : (E.aesE key (xorBlock p iv)).length = 16 :=
      E.aesE_length _ _ (by rw [xorBlock_length (by rw [hp0, hiv]), hp0])
    obtain ⟨h1, h2⟩ := cbcEnc_lengths key ps _ hc (fun q hq => hp q (by simp [hq]))
    unfold cbcEncBlocks
    refine ⟨by simp [h1], ?_⟩
    intro c hcm
    simp only [List.mem_cons] at hcm
    rcases hcm with rfl | hcm
    · exact hc
    · exact h2 c hcm

theorem cbcDec_lengths (key : Bytes) : ∀ (cs : List Bytes) (iv : Bytes), iv.length = 16 → (∀ c ∈ cs, c.length = 16) →
    (cbcDecBlocks E key iv cs).length = cs.length ∧ ∀ p ∈ cbcDecBlocks E key iv cs, p.length = 16
  | [], _, _, _ => by simp [cbcDecBlocks]
  | c :: cs, iv, hiv, hp => by
    have hp0 := hp c (by simp)
    have hd : (E.aesD key c).length = 16 := E.aesD_length _ _ hp0
    obtain ⟨h1, h2⟩ := cbcDec_lengths key cs c hp0 (fun q hq => hp q (by simp [hq]))
    unfold cbcDecBlocks
    refine ⟨by simp [h1], ?_⟩
    intro p hpm
    simp only [List.mem_cons] at hpm
    rcases hpm with rfl | hpm
    · rw [xorBlock_length (by rw [hd, hiv]), hd]
    · exact h2 p hpm

theorem cbc_roundtrip (key : Bytes) : ∀ (ps : List Bytes) (iv : Bytes), iv.length = 16 → (∀ p ∈ ps, p.length = 16) →
    cbcDecBlocks E key iv (cbcEncBlocks E key iv ps) = ps
  | [], _, _, _ => rfl
  | p :: ps, iv, hiv, hp => by
    have hp0 := hp p (by simp)
    have hx : (xorBlock p iv).length = 16 := by rw [xorBlock_length (by rw [hp0, hiv]), hp0]
    have hc : (E.aesE key (xorBlock p iv)).length = 16 := E.aesE_length _ _ hx
    have ih := cbc_roundtrip key ps _ hc (fun q hq => hp q (by simp [hq]))
    unfold cbcEncBlocks
    dsimp only
    unfold cbcDecBlocks
    rw [ih, E.aesD_aesE _ _ hx, xorBlock_cancel (by rw [hp0, hiv])]

theorem flatten_length16 {l : List Bytes} (h : ∀ b ∈ l, b.length = 16) : l.flatten.length = 16 * l.length := by
  induction l with
  | nil => rfl
  | cons a l ih =>
    rw [List.flatten_cons, List.length_append, ih (fun b hb => h b (by simp [hb])), h a (by simp), List.length_cons]
    omega

/-! ## Padding -/

theorem padMessage_length (m : Bytes) : (padMessage m).length = 16 * (m.length / 16 + 1) := by
  unfold padMessage; simp only [List.length_append, List.length_replicate]; omega

/-- A buffer ends with `n` copies of the byte `n`, 1 ≤ n ≤ 16, after the message `m`. -/
def PaddedBy (buf m : Bytes) : Prop := ∃ n, 1 ≤ n ∧ n ≤ 16 ∧ buf = m ++ List.replicate n (UInt8.ofNat n)

theorem ofNat_toNat_small {n : ℕ} (h : n ≤ 16) : (UInt8.ofNat n).toNat = n := by
  rw [UInt8.toNat_ofNat']; omega

theorem padded_last {m : Bytes} {n : ℕ} (h1 : 1 ≤ n) : 
    (m ++ List.replicate n (UInt8.ofNat n)).getD ((m ++ List.replicate n (UInt8.ofNat n)).length - 1) 0 = UInt8.ofNat n := by
  rw [List.getD_eq_getElem?_getD, List.getElem?_append_right (by simp; omega)]
  rw [List.getElem?_replicate]
  simp only [List.length_append, List.length_replicate]
  rw [if_pos (by omega)]; rfl

theorem unpad_padded {buf m : Bytes} (h : PaddedBy buf m) : unpad buf = .ok m := by
  obtain ⟨n, h1, h2, rfl⟩ := h
  unfold unpad
  rw [padded_last h1, if_neg (by simp; omega)]
  dsimp only
  rw [ofNat_toNat_small h2, if_neg (by omega), if_neg (by simp)]
  have e : (m ++ List.replicate n (UInt8.ofNat n)).length - n = m.length := by simp
  rw [e, List.drop_left, List.take_left, if_neg]
  simp only [List.any_eq_true, not_exists, not_and]
  intro x hx
  rw [(List.mem_replicate.mp hx).2, ofNat_toNat_small h2]; simp

theorem padded_unique {buf m m' : Bytes} (h : PaddedBy buf m) (h' : PaddedBy buf m') : m = m' := by
  have a := unpad_padded h; have b := unpad_padded h'
  rw [a] at b; injection b

theorem unpad_ok {buf m : Bytes} (h : unpad buf = .ok m) : PaddedBy buf m := by
  unfold unpad at h
  split at h
  · cases h
  · rename_i h0
    dsimp only at h
    generalize hn : (buf.getD (buf.length - 1) 0).toNat = n at h
    split at h
    · cases h
    · rename_i h1
      split at h
      · cases h
      · rename_i h2
        split at h
        · cases h
        · rename_i h3
          injection h with h
          refine ⟨n, by omega, by omega, ?_⟩
          rw [← h]
          have : buf.drop (buf.length - n) = List.replicate n (UInt8.ofNat n) := by
            rw [List.eq_replicate_iff]
            refine ⟨by rw [List.length_drop]; omega, ?_⟩
            intro b hb
            simp only [List.any_eq_true, not_exists, not_and, bne_iff_ne, ne_eq, not_not] at h3
            apply UInt8.toNat_inj.mp
            rw [h3 b hb, ofNat_toNat_small (by omega)]
          rw [← this, List.take_append_drop]

theorem padMessage_padded (m : Bytes) : PaddedBy (padMessage m) m :=
  ⟨16 - m.length % 16, by omega, by omega, rfl⟩

/-- For buffers that are a non-empty multiple of 16 the padding check never panics. -/
theorem unpad_total {buf : Bytes} (h : 16 ≤ buf.length) : (∃ m, unpad buf = .ok m) ∨ ∃ e, unpad buf = .err e := by
  unfold unpad
  rw [if_neg (by omega)]
  dsimp only
  generalize (buf.getD (buf.length - 1) 0).toNat = n
  by_cases h1 : n = 0 ∨ n > 16
  · rw [if_pos h1]; exact Or.inr ⟨_, rfl⟩
  · rw [if_neg h1, if_neg (by omega)]
    split
    · exact Or.inr ⟨_, rfl⟩
    · exact Or.inl ⟨_, rfl⟩

/-! ## encode and decode -/

theorem aesNewCipher_32 {k : Bytes} (h : k.length = 32) : aesNewCipher k = .ok () := by
  unfold aesNewCipher; rw [if_pos (Or.inr (Or.inr h))]

theorem cbcChecks_ok {iv src : Bytes} (h : iv.length = 16) (h2 : src.length % 16 = 0) : cbcChecks iv src = .ok () := by
  unfold cbcChecks; rw [if_neg (by omega), if_neg (by omega)]

theorem encode_ok {m k iv : Bytes} (hk : k.length = 32) (hiv : iv.length = 16) :
    ∃ c, encode E m k iv = .ok c ∧ c.length = 16 * (m.length / 16 + 1) ∧ decode E c k iv = .ok m := by
  have hl := padMessage_length m
  obtain ⟨c1, c2, c3⟩ := chunks16_spec _ _ hl
  obtain ⟨e1, e2⟩ := cbcEnc_lengths E k (chunks16 (padMessage m)) iv hiv c3
  have hfl := flatten_length16 e2
  rw [e1, c2] at hfl
  refine ⟨(cbcEncBlocks E k iv (chunks16 (padMessage m))).flatten, ?_, hfl, ?_⟩
  · unfold encode
    rw [aesNewCipher_32 hk, Out.bind_ok]
    dsimp only
    rw [cbcChecks_ok hiv (by rw [hl]; omega), Out.bind_ok]
  · unfold decode
    rw [aesNewCipher_32 hk, Out.bind_ok, cbcChecks_ok hiv (by rw [hfl]; omega), Out.bind_ok,
      chunks16_flatten _ e2, cbc_roundtrip E k _ _ hiv c3, c1]
    exact unpad_padded (padMessage_padded m)

/-- CBC decryption of a byte string. -/
def cbcPlain (c k iv : Bytes) : Bytes := (cbcDecBlocks E k iv (chunks16 c)).flatten

theorem cbcPlain_length {c k iv : Bytes} (hiv : iv.length = 16) (hc : c.length % 16 = 0) :
    (cbcPlain E c k iv).length = c.length := by
  obtain ⟨c1, c2, c3⟩ := chunks16_spec (c.length / 16) c (by omega)
  obtain ⟨e1, e2⟩ := cbcDec_lengths E k (chunks16 c) iv hiv c3
  unfold cbcPlain
  rw [flatten_length16 e2, e1, c2]; omega

theorem decode_eq {c k iv : Bytes} (hk : k.length = 32) (hiv : iv.length = 16) (hc : c.length % 16 = 0) :
    decode E c k iv = unpad (cbcPlain E c k iv) := by
  unfold decode
  rw [aesNewCipher_32 hk, Out.bind_ok, cbcChecks_ok hiv hc, Out.bind_ok]; rfl

/-! ## Shared keys -/

/-- The first `k` bytes of `raw` xored with the first `k` bytes of `salt`. -/
def xorPrefix (k : ℕ) (salt raw : Bytes) : Bytes := List.zipWith (· ^^^ ·) (raw.take k) (salt.take k) ++ raw.drop k

theorem xorPrefix_length {k : ℕ} {salt raw : Bytes} (h1 : k ≤ raw.length) (h2 : k ≤ salt.length) :
    (xorPrefix k salt raw).length = raw.length := by
  unfold xorPrefix
  simp only [List.length_append, List.length_zipWith, List.length_take, List.length_drop]; omega

theorem xorPrefix_succ {k : ℕ} {salt raw : Bytes} (h1 : k < raw.length) (h2 : k < salt.length) :
    (xorPrefix k salt raw).set k (raw[k] ^^^ salt[k]) = xorPrefix (k + 1) salt raw := by
  unfold xorPrefix
  rw [List.set_append_right _ _ (by simp)]
  have hlen : (List.zipWith (· ^^^ ·) (raw.take k) (salt.take k)).length = k := by simp; omega
  rw [hlen, Nat.sub_self, List.drop_eq_getElem_cons h1, List.set_cons_zero, List.take_succ_eq_append_getElem h1,
    List.take_succ_eq_append_getElem h2, List.zipWith_append (by simp; omega)]
  simp

theorem xorSalt_ok (salt raw : Bytes) : ∀ k, k ≤ raw.length → k ≤ salt.length →
    (List.range k).foldlM (xorSaltStep salt) raw = .ok (xorPrefix k salt raw)
  | 0, _, _ => by simp [xorPrefix]
  | k + 1, h1, h2 => by
    rw [List.range_succ, List.foldlM_append, xorSalt_ok salt raw k (by omega) (by omega), Out.bind_ok]
    simp only [List.foldlM_cons, List.foldlM_nil, bind_pure]
    unfold xorSaltStep Out.index
    have e1 : (xorPrefix k salt raw)[k]? = some raw[k] := by
      unfold xorPrefix
      rw [List.getElem?_append_right (by simp)]
      have hlen : (List.zipWith (· ^^^ ·) (raw.take k) (salt.take k)).length = k := by simp; omega
      rw [hlen, Nat.sub_self, List.getElem?_drop, Nat.add_zero, List.getElem?_eq_getElem]
    have e2 : salt[k]? = some salt[k] := List.getElem?_eq_getElem _
    rw [e1, e2]
    simp only [Out.deref, Out.ok_bind]
    rw [xorPrefix_succ (by omega) (by omega)]

/-- The loop panics when the key length exceeds the 32 bytes of the point or the salt. -/
theorem xorSalt_panic (salt raw : Bytes) (k : ℕ) (h : raw.length < k ∨ salt.length < k) :
    (List.range k).foldlM (xorSaltStep salt) raw = .panic := by
  -- the first step that fails
  let j := min raw.length salt.length
  have hj : j < k := by omega
  have hsplit : List.range k = List.range j ++ (j :: (List.range k).drop (j + 1)) := by
    have h2 : (List.range k).take j = List.range j := by rw [List.take_range, Nat.min_eq_left hj.le]
    have h3 : (List.range k).drop j = j :: (List.range k).drop (j + 1) := by
      rw [List.drop_eq_getElem_cons (by simpa using hj)]; simp
    rw [← h2, ← h3, List.take_append_drop]
  rw [hsplit, List.foldlM_append, xorSalt_ok salt raw j (Nat.min_le_left _ _) (Nat.min_le_right _ _), Out.bind_ok,
    List.foldlM_cons]
  have : xorSaltStep salt (xorPrefix j salt raw) j = .panic := by
    unfold xorSaltStep Out.index
    have hlen := xorPrefix_length (k := j) (Nat.min_le_left raw.length salt.length) (Nat.min_le_right raw.length salt.length)
    by_cases hr : raw.length ≤ salt.length
    · have : (xorPrefix j salt raw)[j]? = none := by
        apply List.getElem?_eq_none; rw [hlen]; omega
      rw [this]; rfl
    · have e2 : salt[j]? = none := by apply List.getElem?_eq_none; omega
      have e1 : ∃ x, (xorPrefix j salt raw)[j]? = some x := ⟨_, List.getElem?_eq_getElem (by rw [hlen]; omega)⟩
      obtain ⟨x, e1⟩ := e1
      rw [e1, e2]; rfl
  rw [this]; rfl

theorem getSharedKey_point {kl : ℕ} {k : PrivateKey} {pub : PublicKey} {salt : Bytes} {q : Pt}
    (hl : pub.raw.length = 32) (hq : Decodes pub.raw q) :
    getSharedKey E kl (some k) pub salt =
      ((List.range kl).foldlM (xorSaltStep salt) (encodePoint (secretScalar E k.raw • q)) >>= fun s =>
        .ok (hashesSha3_256 E s)) := by
  obtain ⟨A, A1, A2, A3, _⟩ := GC.decode_ok (Or.inl hl) (by rw [List.take_of_length_le (by omega)]; exact hq)
  obtain ⟨A', B1, B2, B3, B4⟩ := GE.precomputeSingle_spec (g := GE.ofGC A) A2 A3 rfl
  obtain ⟨a, a1, a2, a3⟩ := prepare_spec E k
  obtain ⟨h, h1, h2, h3⟩ := GE.scalarMultiply_spec B4 a (by rw [a3]; exact (secretScalar_bounds E _).2.1)
  have henc := GC.encode_repr (Or.inr (Or.inl h2)) h3
  rw [a3] at henc
  unfold getSharedKey newEncodedGroupElement
  rw [if_neg (by omega), Out.bind_ok, A1, Out.bind_ok, B1, Out.bind_ok, a1, Out.bind_ok, h1, Out.bind_ok, henc, Out.bind_ok]

theorem sha256_length (b : Bytes) : (hashesSha3_256 E b).length = 32 := E.sha256_length _

theorem getSharedKey_ok {k : PrivateKey} {pub : PublicKey} {salt : Bytes} {q : Pt}
    (hl : pub.raw.length = 32) (hq : Decodes pub.raw q) (hs : 32 ≤ salt.length) :
    getSharedKey E 32 (some k) pub salt =
      .ok (hashesSha3_256 E (xorPrefix 32 salt (encodePoint (secretScalar E k.raw • q)))) := by
  rw [getSharedKey_point E hl hq, xorSalt_ok _ _ 32 (by rw [encodePoint_length]) hs, Out.bind_ok]

/-- The shared key of a private key and a derived public key. -/
theorem getSharedKey_derived (k : PrivateKey) (sk salt : Bytes) (hs : 32 ≤ salt.length) :
    getSharedKey E 32 (some k) ⟨publicKeyOf E sk⟩ salt =
      .ok (hashesSha3_256 E (xorPrefix 32 salt (encodePoint (secretScalar E k.raw • secretScalar E sk • B)))) :=
  getSharedKey_ok E (pub := ⟨publicKeyOf E sk⟩) (q := secretScalar E sk • B) (publicKeyOf_length E _) (decodes_encodePoint _) hs

end Ed
