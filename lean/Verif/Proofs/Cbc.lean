import Verif.Proofs.Cipher
import Verif.Spec.Oracle
import Mathlib.Data.Fintype.Vector
import Mathlib.Data.Fintype.EquivFin

/-!
# CBC: inversion, changes of the IV, padding oracle
-/

set_option autoImplicit false

namespace Ed

variable (E : Env)

/-! ## AES is onto on blocks -/

instance : Finite UInt8 := Finite.of_injective UInt8.toFin (fun a b h => by
  apply UInt8.toNat_inj.1; exact congrArg Fin.val h)

theorem aesE_onto (k c : Bytes) (hc : c.length = 16) : ∃ p, p.length = 16 ∧ E.aesE k p = c := by
  let f : List.Vector UInt8 16 → List.Vector UInt8 16 := fun v => ⟨E.aesE k v.1, E.aesE_length k _ v.2⟩
  have hf : Function.Injective f := by
    intro a b h
    have h1 : E.aesE k a.1 = E.aesE k b.1 := congrArg Subtype.val h
    have h2 := E.aesD_aesE k a.1 a.2
    rw [h1, E.aesD_aesE k b.1 b.2] at h2
    exact Subtype.ext h2.symm
  have : Finite (List.Vector UInt8 16) := by
    have : Fintype UInt8 := Fintype.ofFinite _
    infer_instance
  obtain ⟨v, hv⟩ := (Finite.injective_iff_surjective.1 hf) ⟨c, hc⟩
  exact ⟨v.1, v.2, congrArg Subtype.val hv⟩

theorem aesE_aesD (k c : Bytes) (hc : c.length = 16) : E.aesE k (E.aesD k c) = c := by
  obtain ⟨p, h1, h2⟩ := aesE_onto E k c hc
  rw [← h2, E.aesD_aesE k p h1]

theorem cbc_roundtrip' (key : Bytes) : ∀ (cs : List Bytes) (iv : Bytes), iv.length = 16 → (∀ c ∈ cs, c.length = 16) →
    cbcEncBlocks E key iv (cbcDecBlocks E key iv cs) = cs
  | [], _, _, _ => rfl
  | c :: cs, iv, hiv, h => by
    have hc := h c (by simp)
    have hd : (E.aesD key c).length = 16 := E.aesD_length _ _ hc
    have ih := cbc_roundtrip' key cs c hc (fun q hq => h q (by simp [hq]))
    unfold cbcDecBlocks
    unfold cbcEncBlocks
    dsimp only
    rw [xorBlock_cancel (by rw [hd, hiv]), aesE_aesD E _ _ hc, ih]

theorem padded_eq {buf m : Bytes} (h : PaddedBy buf m) (hl : buf.length % 16 = 0) : buf = padMessage m := by
  obtain ⟨n, h1, h2, h3⟩ := h
  have : n = 16 - m.length % 16 := by
    rw [h3, List.length_append, List.length_replicate] at hl
    omega
  unfold padMessage
  rw [h3, this]

/-- What decodes to `m` is what `m` is encoded to. -/
theorem encode_of_decode {c k iv m : Bytes} (hk : k.length = 32) (hiv : iv.length = 16) (hc : c.length % 16 = 0)
    (h : decode E c k iv = .ok m) : encode E m k iv = .ok c := by
  rw [decode_eq E hk hiv hc] at h
  have hp := padded_eq (unpad_ok h) (by rw [cbcPlain_length E hiv hc]; exact hc)
  obtain ⟨c1, c2, c3⟩ := chunks16_spec (c.length / 16) c (by omega)
  obtain ⟨e1, e2⟩ := cbcDec_lengths E k (chunks16 c) iv hiv c3
  unfold encode
  rw [aesNewCipher_32 hk, Out.bind_ok]
  dsimp only
  rw [← hp, cbcChecks_ok hiv (by rw [cbcPlain_length E hiv hc]; exact hc), Out.bind_ok]
  unfold cbcPlain
  rw [chunks16_flatten _ e2, cbc_roundtrip' E k _ iv hiv c3, c1]

/-! ## Blocks -/

theorem cbcPlain_cons {c rest k iv : Bytes} (hc : c.length = 16) :
    cbcPlain E (c ++ rest) k iv = xorBlock (E.aesD k c) iv ++ cbcPlain E rest k c := by
  unfold cbcPlain
  rw [chunks16_append hc, cbcDecBlocks, List.flatten_cons]

theorem cbcPlain_nil (k iv : Bytes) : cbcPlain E [] k iv = [] := by
  unfold cbcPlain; rw [chunks16_nil]; rfl

/-- Decryption of a tail depends on the blocks before it only through the last of them. -/
theorem cbcPlain_append (k : Bytes) (rest c : Bytes) (hc : c.length = 16) : ∀ (n : ℕ) (x iv : Bytes), x.length = 16 * n → iv.length = 16 →
    ∃ g, g.length = 16 * n + 16 ∧ cbcPlain E (x ++ c ++ rest) k iv = g ++ cbcPlain E rest k c
  | 0, x, iv, hx, hiv => by
    have : x = [] := List.length_eq_zero_iff.1 (by omega)
    subst this
    rw [List.nil_append, cbcPlain_cons E hc]
    exact ⟨_, by rw [xorBlock_length (by rw [E.aesD_length _ _ hc, hiv]), E.aesD_length _ _ hc], rfl⟩
  | n + 1, x, iv, hx, hiv => by
    have ht : (x.take 16).length = 16 := by rw [List.length_take]; omega
    obtain ⟨g, g1, g2⟩ := cbcPlain_append k rest c hc n (x.drop 16) (x.take 16) (by rw [List.length_drop]; omega) ht
    refine ⟨xorBlock (E.aesD k (x.take 16)) iv ++ g, ?_, ?_⟩
    · rw [List.length_append, g1, xorBlock_length (by rw [E.aesD_length _ _ ht, hiv]), E.aesD_length _ _ ht]; omega
    · have e : x ++ c ++ rest = x.take 16 ++ (x.drop 16 ++ c ++ rest) := by
        rw [← List.append_assoc, ← List.append_assoc, List.take_append_drop]
      rw [e, cbcPlain_cons E ht, g2, List.append_assoc]

theorem paddedBy_append {g buf m : Bytes} (h : PaddedBy buf m) : PaddedBy (g ++ buf) (g ++ m) := by
  obtain ⟨n, h1, h2, h3⟩ := h
  exact ⟨n, h1, h2, by rw [h3, List.append_assoc]⟩

/-- The padding of at least 16 bytes lies in them. -/
theorem paddedBy_drop {g buf m : Bytes} (h : PaddedBy (g ++ buf) m) (hl : 16 ≤ buf.length) :
    g.length ≤ m.length ∧ m.take g.length = g ∧ PaddedBy buf (m.drop g.length) := by
  obtain ⟨n, h1, h2, h3⟩ := h
  have hlen := congrArg List.length h3
  rw [List.length_append, List.length_append, List.length_replicate] at hlen
  have hg : g.length ≤ m.length := by omega
  have e : m = m.take g.length ++ m.drop g.length := (List.take_append_drop _ _).symm
  have h4 : g ++ buf = m.take g.length ++ (m.drop g.length ++ List.replicate n (UInt8.ofNat n)) := by
    rw [← List.append_assoc, ← e, h3]
  obtain ⟨a, b⟩ := List.append_inj h4 (by rw [List.length_take]; omega)
  exact ⟨hg, a.symm, n, h1, h2, b⟩

/-- XOR of the beginning of a message with a mask. -/
theorem xorBlock_assoc : ∀ (a b c : Bytes), xorBlock a (xorBlock b c) = xorBlock (xorBlock a b) c
  | [], _, _ => by simp [xorBlock]
  | _ :: _, [], _ => by simp [xorBlock]
  | _ :: _, _ :: _, [] => by simp [xorBlock]
  | x :: a, y :: b, z :: c => by
    have := xorBlock_assoc a b c
    unfold xorBlock at *
    simp only [List.zipWith_cons_cons, this, UInt8.xor_assoc]

theorem xorBlock_append {a a' b b' : Bytes} (h : a.length = b.length) : xorBlock (a ++ a') (b ++ b') = xorBlock a b ++ xorBlock a' b' := by
  unfold xorBlock; exact List.zipWith_append h

theorem xorBlock_zero : ∀ (a : Bytes), xorBlock a (List.replicate a.length 0) = a
  | [] => rfl
  | x :: a => by
    have := xorBlock_zero a
    unfold xorBlock at *
    rw [List.length_cons, List.replicate_succ, List.zipWith_cons_cons, this, UInt8.xor_zero]

theorem xorBlock_const (c : UInt8) : ∀ (a : Bytes), xorBlock a (a.map (· ^^^ c)) = List.replicate a.length c
  | [] => rfl
  | x :: a => by
    have := xorBlock_const c a
    unfold xorBlock at *
    rw [List.map_cons, List.zipWith_cons_cons, this, List.length_cons, List.replicate_succ, ← UInt8.xor_assoc, UInt8.xor_self, UInt8.zero_xor]

/-! ## The padding oracle -/

theorem findByte_unique {f : UInt8 → Bool} {b : UInt8} (h : ∀ x, f x = true ↔ x = b) : findByte f = b := by
  unfold findByte
  have hf : f = fun x => decide (x = b) := by
    funext x
    rw [Bool.eq_iff_iff, h x, decide_eq_true_eq]
  rw [hf]
  clear hf h
  have : ∀ n : Fin 256, (((List.range 256).map UInt8.ofNat).find? (fun x => decide (x = UInt8.ofNat n.val))).getD 0 = UInt8.ofNat n.val := by
    decide +kernel
  have hb := this b.toFin
  have e : UInt8.ofNat b.toFin.val = b := UInt8.ofNat_toNat
  rw [e] at hb
  exact hb

theorem xor_eq_iff (x b n : UInt8) : x ^^^ b = n ↔ b = x ^^^ n := by
  constructor
  · intro h; rw [← h, ← UInt8.xor_assoc, UInt8.xor_self, UInt8.zero_xor]
  · intro h; rw [h, ← UInt8.xor_assoc, UInt8.xor_self, UInt8.zero_xor]

/-- `orc` answers whether the raw block `x`, xored with the query, carries a padding. -/
def PadOracle (x : Bytes) (orc : Bytes → Bool) : Prop :=
  ∀ iv : Bytes, iv.length = 16 → (orc iv = true ↔ ∃ m, PaddedBy (xorBlock x iv) m)

/-- The last byte of a padded buffer is the padding. -/
theorem paddedBy_concat {a m : Bytes} {z : UInt8} {n : ℕ} (h1 : 1 ≤ n) (h : a ++ [z] = m ++ List.replicate n (UInt8.ofNat n)) :
    z = UInt8.ofNat n := by
  obtain ⟨k, rfl⟩ : ∃ k, n = k + 1 := ⟨n - 1, by omega⟩
  rw [List.replicate_succ', ← List.append_assoc] at h
  exact (List.append_inj' h rfl).2 |> fun h => by simpa using h

theorem padded_tail {pre m : Bytes} {z : UInt8} {k : ℕ} (hk : 1 ≤ k) (h : PaddedBy (pre ++ z :: List.replicate k (UInt8.ofNat (k + 1))) m)
    (hl : (pre ++ z :: List.replicate k (UInt8.ofNat (k + 1))).length = 16) : z = UInt8.ofNat (k + 1) := by
  obtain ⟨n, h1, h2, h3⟩ := h
  have hlen := congrArg List.length h3
  simp only [List.length_append, List.length_cons, List.length_replicate] at hlen hl
  have hn : n = k + 1 := by
    obtain ⟨j, rfl⟩ : ∃ j, k = j + 1 := ⟨k - 1, by omega⟩
    have e : pre ++ z :: List.replicate (j + 1) (UInt8.ofNat (j + 1 + 1)) =
        (pre ++ z :: List.replicate j (UInt8.ofNat (j + 1 + 1))) ++ [UInt8.ofNat (j + 1 + 1)] := by
      rw [List.replicate_succ']; simp
    rw [e] at h3
    have := paddedBy_concat h1 h3
    have := congrArg UInt8.toNat this
    rw [ofNat_toNat_small h2, ofNat_toNat_small (by omega)] at this
    exact this.symm
  subst hn
  have := (List.append_inj' h3 (by simp)).2
  rw [List.replicate_succ] at this
  exact (List.cons.inj this).1

theorem oracleMore_spec {orc : Bytes → Bool} {pre known : Bytes} {y : UInt8} (hx : PadOracle (pre ++ y :: known) orc)
    (hl : (pre ++ y :: known).length = 16) (hk : 1 ≤ known.length) : oracleMore orc known = y :: known := by
  simp only [List.length_append, List.length_cons] at hl
  have hpre : pre.length = 15 - known.length := by omega
  have key : findByte (fun b => orc (List.replicate (15 - known.length) 0 ++ b :: known.map (· ^^^ UInt8.ofNat (known.length + 1)))) =
      y ^^^ UInt8.ofNat (known.length + 1) := by
    apply findByte_unique
    intro b
    rw [hx _ (by simp; omega)]
    have e : xorBlock (pre ++ y :: known) (List.replicate (15 - known.length) 0 ++ b :: known.map (· ^^^ UInt8.ofNat (known.length + 1))) =
        pre ++ (y ^^^ b) :: List.replicate known.length (UInt8.ofNat (known.length + 1)) := by
      rw [xorBlock_append (by rw [List.length_replicate]; exact hpre), ← hpre, xorBlock_zero]
      congr 1
      have := xorBlock_const (UInt8.ofNat (known.length + 1)) known
      unfold xorBlock at *
      rw [List.zipWith_cons_cons, this]
    rw [e, ← xor_eq_iff]
    constructor
    · rintro ⟨m, hm⟩
      exact padded_tail hk hm (by simp; omega)
    · intro h
      rw [h]
      exact ⟨pre, known.length + 1, by omega, by omega, by rw [List.replicate_succ]⟩
  unfold oracleMore
  dsimp only
  rw [key, UInt8.xor_assoc, UInt8.xor_self, UInt8.xor_zero]

theorem oracleLast_spec {orc : Bytes → Bool} {pre : Bytes} {y z : UInt8} (hx : PadOracle (pre ++ [y, z]) orc)
    (hl : pre.length = 14) : oracleLast orc = z := by
  have key : findByte (fun b => orc (List.replicate 14 0 ++ [0, b]) && orc (List.replicate 14 0 ++ [1, b])) = z ^^^ 1 := by
    apply findByte_unique
    intro b
    rw [Bool.and_eq_true, hx _ (by simp), hx _ (by simp)]
    have e : ∀ u : UInt8, xorBlock (pre ++ [y, z]) (List.replicate 14 0 ++ [u, b]) = (pre ++ [y ^^^ u]) ++ [z ^^^ b] := by
      intro u
      rw [xorBlock_append (by rw [List.length_replicate, hl]), ← hl, xorBlock_zero]
      simp [xorBlock]
    rw [e, e, ← xor_eq_iff]
    constructor
    · rintro ⟨⟨m, n, h1, h2, h3⟩, ⟨m', n', h1', h2', h3'⟩⟩
      have a := paddedBy_concat h1 h3
      have a' := paddedBy_concat h1' h3'
      have hn : n = n' := by
        have := congrArg UInt8.toNat (a.symm.trans a')
        rwa [ofNat_toNat_small h2, ofNat_toNat_small h2'] at this
      subst hn
      by_cases hn1 : n = 1
      · rw [a, hn1]; rfl
      · exfalso
        obtain ⟨j, rfl⟩ : ∃ j, n = j + 1 + 1 := ⟨n - 2, by omega⟩
        have second : ∀ (u : UInt8) (m : Bytes), (pre ++ [y ^^^ u]) ++ [z ^^^ b] = m ++ List.replicate (j + 1 + 1) (UInt8.ofNat (j + 1 + 1)) →
            y ^^^ u = UInt8.ofNat (j + 1 + 1) := by
          intro u m h
          rw [List.replicate_succ', ← List.append_assoc] at h
          have h' := (List.append_inj' h rfl).1
          rw [List.replicate_succ', ← List.append_assoc] at h'
          simpa using (List.append_inj' h' rfl).2
        have s0 := second 0 m h3
        have s1 := second 1 m' h3'
        have h01 := s0.trans s1.symm
        have : (0 : UInt8) = 1 := by
          have := congrArg (y ^^^ ·) h01
          simp only [← UInt8.xor_assoc, UInt8.xor_self, UInt8.zero_xor] at this
          exact this
        exact absurd this (by decide)
    · intro h
      rw [h]
      exact ⟨⟨_, 1, le_refl _, by omega, rfl⟩, ⟨_, 1, le_refl _, by omega, rfl⟩⟩
  unfold oracleLast
  rw [key, UInt8.xor_assoc, UInt8.xor_self, UInt8.xor_zero]

theorem oracleBlock_spec {orc : Bytes → Bool} {x : Bytes} (hx : PadOracle x orc) (hl : x.length = 16) : oracleBlock orc = x := by
  have step : ∀ i, i ≤ 15 → (oracleMore orc)^[i] [oracleLast orc] = x.drop (15 - i) := by
    intro i
    induction i with
    | zero =>
      intro _
      have e : x = x.take 14 ++ [x[14], x[15]] := by
        conv_lhs => rw [← List.take_append_drop 14 x]
        congr 1
        rw [List.drop_eq_getElem_cons (by omega), List.drop_eq_getElem_cons (by omega), List.drop_eq_nil_of_le (by omega)]
      have hx' := hx
      rw [e] at hx'
      rw [Function.iterate_zero, id, oracleLast_spec hx' (by rw [List.length_take]; omega), List.drop_eq_getElem_cons (by omega),
        List.drop_eq_nil_of_le (by omega)]
    | succ i ih =>
      intro hi
      rw [Function.iterate_succ', Function.comp, ih (by omega)]
      have e : x = x.take (15 - (i + 1)) ++ x[15 - (i + 1)] :: x.drop (15 - i) := by
        conv_lhs => rw [← List.take_append_drop (15 - (i + 1)) x]
        congr 1
        rw [List.drop_eq_getElem_cons (by omega)]
        congr 2
        omega
      have hx' := hx
      rw [e] at hx'
      rw [oracleMore_spec hx' (by rw [← e, hl]) (by rw [List.length_drop]; omega), List.drop_eq_getElem_cons (i := 15 - (i + 1)) (by omega)]
      congr 2
      omega
  have := step 15 (le_refl _)
  simpa [oracleBlock] using this

theorem stripPad_padded {buf m : Bytes} (h : PaddedBy buf m) : stripPad buf = m := by
  obtain ⟨n, h1, h2, rfl⟩ := h
  have e : (m ++ List.replicate n (UInt8.ofNat n)).getLastD 0 = UInt8.ofNat n := by
    obtain ⟨k, rfl⟩ : ∃ k, n = k + 1 := ⟨n - 1, by omega⟩
    rw [List.replicate_succ', ← List.append_assoc, List.getLastD_concat]
  unfold stripPad
  rw [e, ofNat_toNat_small h2, List.length_append, List.length_replicate, Nat.add_sub_cancel, List.take_left]

theorem oracleBlocks_spec {orc : Bytes → Bool} {salt key : Bytes}
    (ho : ∀ c : Bytes, c.length = 16 → PadOracle (E.aesD key c) (fun iv => orc (salt ++ iv ++ c))) :
    ∀ (cs : List Bytes) (prev : Bytes), (∀ c ∈ cs, c.length = 16) → oracleBlocks orc salt prev cs = cbcDecBlocks E key prev cs
  | [], _, _ => rfl
  | c :: cs, prev, h => by
    have hc := h c (by simp)
    rw [oracleBlocks, cbcDecBlocks, oracleBlocks_spec ho cs c (fun q hq => h q (by simp [hq])), oracleBlock_spec (ho c hc) (E.aesD_length _ _ hc)]
    rfl

theorem chunks16_range : ∀ (n : ℕ) (b : Bytes), b.length = 16 * n → chunks16 b = (List.range n).map fun i => (b.drop (16 * i)).take 16
  | 0, b, h => by
    have : b = [] := List.length_eq_zero_iff.1 (by omega)
    rw [this, chunks16_nil]; rfl
  | n + 1, b, h => by
    rw [chunks16_cons (by omega), chunks16_range n _ (by rw [List.length_drop]; omega), List.range_succ_eq_map, List.map_cons, List.map_map]
    congr 1
    apply List.map_congr_left
    intro i _
    simp only [Function.comp, List.drop_drop]
    congr 2
    omega

end Ed
