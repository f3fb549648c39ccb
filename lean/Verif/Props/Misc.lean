import Verif.Model.Misc
import Verif.Props.Field
import Verif.Props.Scalar
import Verif.Props.Text
import Verif.Proofs.PointCodec

/-!
# Properties C50-C52: encoded field elements as objects, printed forms, the legacy buffered cipher
-/

set_option autoImplicit false

namespace Ed
open FE

/-! ## C50: encoded field elements -/

/-- The constructor accepts exactly 32 and 64 bytes and keeps them; every other length is an error. -/
theorem C50_new (raw : Bytes) :
    ((raw.length = 32 ∨ raw.length = 64) → ∃ e, newEncFE raw = .ok e ∧ e.raw = raw) ∧
    (raw.length ≠ 32 → raw.length ≠ 64 → ∃ m, newEncFE raw = .err m) := by
  unfold newEncFE
  constructor
  · rintro (h | h)
    · exact ⟨_, if_pos h, rfl⟩
    · exact ⟨⟨zeroLong, raw⟩, by rw [if_neg (by omega), if_pos h], rfl⟩
  · intro h h'
    exact ⟨_, by rw [if_neg h, if_neg h']⟩

theorem leVal_zero_iff (b : Bytes) : leVal b = 0 ↔ b = List.replicate b.length 0 := by
  constructor
  · intro h
    exact leVal_inj (by simp) (h.trans (leVal_replicate_zero _).symm)
  · intro h
    rw [h]; exact leVal_replicate_zero _

theorem isNonZero_same (z raw : Bytes) (hz : z = List.replicate raw.length 0) :
    (EncFE.mk z raw).isNonZero = true ↔ leVal raw ≠ 0 := by
  unfold EncFE.isNonZero
  rw [Bool.not_eq_true', ← Bool.not_eq_true, ne_eq, not_iff_not]
  show isEqualConstantTime raw z = true ↔ _
  rw [isEqualConstantTime_eq, leVal_zero_iff, hz]
  simp

/-- `IsNonZero` of a constructed element is about the number written in the bytes, not about its residue. -/
theorem C50_isNonZero (raw : Bytes) (e : EncFE) (h : newEncFE raw = .ok e) : e.isNonZero = true ↔ leVal raw ≠ 0 := by
  unfold newEncFE at h
  split at h
  · rename_i hl
    cases h
    exact isNonZero_same _ _ (by rw [hl]; decide)
  · split at h
    · rename_i hl
      cases h
      exact isNonZero_same _ _ (by rw [hl]; decide)
    · cases h

/-- So the bytes of the modulus count as non-zero although they decode to zero. -/
theorem C50_modulus_nonzero : ∃ e, newEncFE (leBytes 32 (2 ^ 255 - 19)) = .ok e ∧ e.isNonZero = true ∧
    ∃ f, e.decode = .ok f ∧ f.val ≡ 0 [ZMOD 2 ^ 255 - 19] := by
  have hlen : ∀ n, (leBytes 32 n).length = 32 := leBytes_length 32
  have key : ∀ n : ℕ, n < 256 ^ 32 → n ≠ 0 → n % 2 ^ 255 = 2 ^ 255 - 19 → ∃ e, newEncFE (leBytes 32 n) = .ok e ∧ e.isNonZero = true ∧
      ∃ f, e.decode = .ok f ∧ f.val ≡ 0 [ZMOD 2 ^ 255 - 19] := by
    intro n hn h0 hm
    obtain ⟨e, h1, h2⟩ := (C50_new (leBytes 32 n)).1 (.inl (hlen n))
    refine ⟨e, h1, (C50_isNonZero _ e h1).2 (by rw [leVal_leBytes_of_lt hn]; exact h0), FE.decode e.raw, ?_, ?_⟩
    · unfold EncFE.decode; rw [if_neg (by rw [h2, hlen]; decide)]
    · rw [h2]
      refine (C05_decode _ (hlen n)).2.trans ?_
      rw [leVal_leBytes_of_lt hn, hm]
      decide +kernel
  exact key _ (by norm_num) (by norm_num) (by norm_num)

/-- `IsNegative` is the parity of the number written in the bytes. -/
theorem C50_isNegative (e : EncFE) (h : e.raw ≠ []) : e.isNegative = .ok (leVal e.raw % 2 == 1) := by
  obtain ⟨z, raw⟩ := e
  cases raw with
  | nil => exact absurd rfl h
  | cons b l =>
    show Out.ok (b &&& 1 != 0) = _
    congr 1
    have hb : leVal (b :: l) % 2 = b.toNat % 2 := by
      show (b.toNat + 256 * leVal l) % 2 = _
      omega
    rw [hb]
    have h2 : (b &&& 1).toNat = b.toNat % 2 := by
      rw [UInt8.toNat_and]; exact Nat.and_one_is_mod _
    have h3 : b &&& 1 = 0 ↔ b.toNat % 2 = 0 := by
      rw [← UInt8.toNat_inj, h2]; rfl
    have h4 : b.toNat % 2 = 0 ∨ b.toNat % 2 = 1 := by omega
    rcases h4 with h4 | h4
    · rw [h4, h3.2 h4]; rfl
    · rw [h4]
      have : b &&& 1 ≠ 0 := fun h => by have := h3.1 h; omega
      simpa using this

/-- `Equals` is equality of the bytes, for all lengths. -/
theorem C50_equals (e g : EncFE) : e.equals g = true ↔ e.raw = g.raw := by
  unfold EncFE.equals; rw [isEqualConstantTime_eq, beq_iff_eq]

/-- On the encoding of a field element the three predicates agree with those of the field element. -/
theorem C50_of_encode (f g : FE) (hf : Loose f) (hg : Loose g) :
    f.encodeE.isNonZero = f.isNonZero ∧ f.encodeE.isNegative = .ok f.isNegative ∧ f.encodeE.equals g.encodeE = f.equals g ∧
    ∃ h, f.encodeE.decode = .ok h ∧ h.val ≡ f.val [ZMOD 2 ^ 255 - 19] := by
  obtain ⟨n, hn, h1, h2⟩ := C04_encode f hf
  have hl : f.encode.length = 32 := by rw [h2, leBytes_length]
  refine ⟨rfl, ?_, rfl, FE.decode f.encode, ?_, C05_decode_encode f hf⟩
  · unfold EncFE.isNegative FE.encodeE FE.isNegative
    dsimp only
    generalize f.encode = b at *
    cases b with
    | nil => simp at hl
    | cons b l => rfl
  · unfold EncFE.decode
    have : ¬ f.encodeE.raw.length < 32 := by show ¬ f.encode.length < 32; omega
    rw [if_neg this]; rfl

/-- `Decode` panics exactly for fewer than 32 bytes, and otherwise reads the first 32. -/
theorem C50_decode (e : EncFE) :
    (e.decode = .panic ↔ e.raw.length < 32) ∧
    (32 ≤ e.raw.length → ∃ f, e.decode = .ok f ∧ Reduced f ∧
      f.val ≡ ((leVal (e.raw.take 32) % 2 ^ 255 : ℕ) : ℤ) [ZMOD 2 ^ 255 - 19]) := by
  unfold EncFE.decode
  constructor
  · split <;> simp_all
  · intro h
    obtain ⟨h1, h2⟩ := FE.decode_spec e.raw
    refine ⟨_, if_neg (by omega), h1, zmod_iff.1 ?_⟩
    rw [Int.cast_natCast]; exact h2

/-- `modQ` needs 64 bytes and `multiplyAndAddModQ` needs 32 in each argument; exactly shorter ones panic, and further bytes are ignored.  The results are constructed elements. -/
theorem C50_modQ (e : EncFE) :
    (e.raw.length < 64 ↔ e.modQ = .panic) ∧
    (64 ≤ e.raw.length → e.modQ = newEncFE (leBytes 32 (leVal (e.raw.take 64) % (2 ^ 252 + 27742317777372353535851937790883648493)))) := by
  unfold EncFE.modQ
  constructor
  · constructor
    · intro h; rw [if_pos h]
    · intro h
      by_contra hn
      rw [if_neg hn] at h; exact nomatch h
  · intro h
    rw [if_neg (by omega), modQ_spec, L_eq, ← leVal_take, show (256 : ℕ) ^ 64 = 2 ^ 512 by decide +kernel]
    unfold newEncFE
    rw [if_pos (leBytes_length _ _)]

theorem C50_multiplyAndAddModQ (a b c : EncFE) :
    ((a.raw.length < 32 ∨ b.raw.length < 32 ∨ c.raw.length < 32) ↔ a.multiplyAndAddModQ b c = .panic) ∧
    (32 ≤ a.raw.length → 32 ≤ b.raw.length → 32 ≤ c.raw.length → a.multiplyAndAddModQ b c =
      newEncFE (leBytes 32 ((leVal (a.raw.take 32) * leVal (b.raw.take 32) + leVal (c.raw.take 32)) %
        (2 ^ 252 + 27742317777372353535851937790883648493)))) := by
  unfold EncFE.multiplyAndAddModQ
  constructor
  · constructor
    · intro h; rw [if_pos h]
    · intro h
      by_contra hn
      rw [if_neg hn] at h; exact nomatch h
  · intro ha hb hc
    rw [if_neg (by omega), multiplyAndAddModQ_spec, L_eq, ← leVal_take a.raw, ← leVal_take b.raw, ← leVal_take c.raw,
      show (256 : ℕ) ^ 32 = 2 ^ 256 by norm_num]
    unfold newEncFE
    rw [if_pos (leBytes_length _ _)]

/-- An element made with a struct literal outside the package (its comparison value is nil) is never reported as zero, even if its bytes are. -/
theorem C50_literal (raw : Bytes) (h : raw ≠ []) : (EncFE.mk [] raw).isNonZero = true := by
  unfold EncFE.isNonZero
  rw [Bool.not_eq_true', ← Bool.not_eq_true]
  show ¬ isEqualConstantTime raw [] = true
  rw [isEqualConstantTime_eq, beq_iff_eq]; exact h

example : ∃ e, newEncFE (List.replicate 64 7) = .ok e ∧ e.isNegative = .ok true ∧ e.isNonZero = true := by
  refine ⟨⟨zeroLong, List.replicate 64 7⟩, rfl, rfl, ?_⟩
  rw [C50_isNonZero (List.replicate 64 7) _ rfl]
  decide +kernel

/-! ## C51: printed forms -/

/-- A field element prints as the 64 lower case digits of its 32 canonical little-endian bytes. -/
theorem C51_field (f : FE) (hf : Loose f) :
    ∃ n : ℕ, n < 2 ^ 255 - 19 ∧ (n : ℤ) ≡ f.val [ZMOD 2 ^ 255 - 19] ∧ f.string.length = 64 ∧
      LowerHexOf f.string (beVal (leBytes 32 n)) := by
  obtain ⟨n, h1, h2, h3⟩ := C04_encode f hf
  obtain ⟨ds, k1, k2, k3, _⟩ := hexEncode_spec f.encode
  refine ⟨n, h1, h2, ?_, ds, k3, ?_⟩
  · show (hexEncode f.encode).length = 64
    rw [hexEncode_length, h3, leBytes_length]
  · rw [k2, h3]

theorem hexEncode_inj {a b : Bytes} (h : hexEncode a = hexEncode b) : a = b := by
  have hl : a.length = b.length := by
    have := congrArg List.length h
    rw [hexEncode_length, hexEncode_length] at this
    omega
  obtain ⟨ds, _, k2, k3, _⟩ := hexEncode_spec a
  obtain ⟨es, _, l2, l3, _⟩ := hexEncode_spec b
  refine beVal_inj hl ?_
  have h1 : LowerHexOf (hexEncode a) (beVal a) := ⟨ds, k3, k2⟩
  have h2 : LowerHexOf (hexEncode a) (beVal b) := by rw [h]; exact ⟨es, l3, l2⟩
  exact h1.hex.unique h2.hex

/-- Two field elements print the same text iff they are equal modulo p. -/
theorem C51_field_eq (f g : FE) (hf : Loose f) (hg : Loose g) : f.string = g.string ↔ f.val ≡ g.val [ZMOD 2 ^ 255 - 19] := by
  rw [← C04_encode_eq_iff f g hf hg]
  constructor
  · exact fun h => hexEncode_inj h
  · intro h
    show hexEncode f.encode = hexEncode g.encode
    rw [h]

/-- `t` is the text of the field value `x`: 64 lower case digits, two for each of the 32 little-endian bytes of the representative in [0, p). -/
def FieldText (t : Bytes) (x : F) : Prop := t.length = 64 ∧ LowerHexOf t (beVal (leBytes 32 x.val))

theorem string_text {f : FE} (hf : Loose f) : FieldText f.string f.toF := by
  obtain ⟨ds, k1, k2, k3, _⟩ := hexEncode_spec f.encode
  have h3 := encode_spec hf.encodable
  refine ⟨?_, ds, k3, ?_⟩
  · show (hexEncode f.encode).length = 64
    rw [hexEncode_length, h3, leBytes_length]
  · rw [k2, h3]

/-- The text determines the value. -/
theorem C51_text_unique {t : Bytes} {x y : F} (hx : FieldText t x) (hy : FieldText t y) : x = y := by
  have h := beVal_inj (by simp) (hx.2.hex.unique hy.2.hex)
  have h2 := congrArg leVal h
  have hb : ∀ z : F, z.val < 256 ^ 32 := fun z => by
    have := ZMod.val_lt z
    have e : P = 2 ^ 255 - 19 := P_eq
    have : (256 : ℕ) ^ 32 = 2 ^ 256 := by norm_num
    omega
  rw [leVal_leBytes_of_lt (hb x), leVal_leBytes_of_lt (hb y)] at h2
  exact ZMod.val_injective _ h2

theorem getAffineX_err {raw : Bytes} {m : String} (hl : raw.length = 32 ∨ raw.length = 64) (h : GC.getAffineX raw = .err m) :
    m = "not a valid Ed25519EncodedGroupElement." := by
  have e : GC.getAffineY raw = .ok (FE.decode raw) := by
    unfold GC.getAffineY newEncodedFieldElement
    rw [if_pos hl]; rfl
  unfold GC.getAffineX at h
  rw [e, Out.ok_bind] at h
  dsimp only at h
  generalize FE.decode raw = y at h
  generalize y.square.subtract .one = u at *
  generalize (y.square.multiply dFE).add .one = v at *
  generalize FE.sqrt u v = x at *
  split at h
  · split at h
    · exact (Out.err.inj h).symm
    · rw [Out.ok_bind] at h
      split at h <;> cases h
  · rw [Out.ok_bind] at h
    split at h <;> cases h

/-- An encoded group element prints the affine coordinates of the point it denotes, and otherwise the text of the error; printing
never fails.  (Of 64 bytes, which a struct literal can hold, the first 32 count.) -/
theorem C51_point (raw : Bytes) (hl : raw.length = 32 ∨ raw.length = 64) :
    (∀ q : Pt, Decodes (raw.take 32) q → ∃ tx ty, FieldText tx q.x ∧ FieldText ty q.y ∧
      encodedGroupString raw = .ok (str "x=" ++ tx ++ str "\ny=" ++ ty ++ str "\n")) ∧
    ((∀ q : Pt, ¬ Decodes (raw.take 32) q) → encodedGroupString raw = .ok (str "not a valid Ed25519EncodedGroupElement.")) := by
  have e : GC.getAffineY raw = .ok (FE.decode raw) := by
    unfold GC.getAffineY newEncodedFieldElement
    rw [if_pos hl]; rfl
  obtain ⟨hy, hyF⟩ := FE.decode_spec raw
  rcases GC.getAffineX_spec raw hl with ⟨x, h1, h2, h3, h4⟩ | ⟨⟨m, hm⟩, h⟩
  · have hd : Decodes (raw.take 32) (⟨x.toF, GC.yOf raw, h3⟩ : Pt) := ⟨rfl, h4⟩
    constructor
    · rintro q ⟨q1, q2⟩
      have hr : q = (⟨x.toF, GC.yOf raw, h3⟩ : Pt) := pt_unique q1 _ q2 h4
      refine ⟨x.string, (FE.decode raw).string, ?_, ?_, ?_⟩
      · rw [hr]; exact string_text h2.loose
      · rw [hr]
        have : (FE.decode raw).toF = GC.yOf raw := hyF
        show FieldText _ (GC.yOf raw)
        rw [← this]; exact string_text hy.loose
      · unfold encodedGroupString
        rw [h1, e]
    · intro hn; exact absurd hd (hn _)
  · constructor
    · rintro q ⟨q1, -⟩
      have hq : q.y = GC.yOf raw := q1
      exact absurd (hq ▸ q.on) (h q.x)
    · intro _
      unfold encodedGroupString
      rw [hm]
      show Out.ok (str m) = _
      rw [getAffineX_err hl hm]

/-- A raw value of any other length than 32 and 64 prints the error of the field element constructor. -/
theorem C51_point_length (raw : Bytes) (h : raw.length ≠ 32) (h' : raw.length ≠ 64) :
    encodedGroupString raw = .ok (str "Invalid 2^8 bit representation.") := by
  have e : GC.getAffineX raw = .err "Invalid 2^8 bit representation." := by
    unfold GC.getAffineX GC.getAffineY newEncodedFieldElement
    rw [if_neg (by omega)]; rfl
  unfold encodedGroupString; rw [e]

/-- A group element prints its four coordinates; without a T coordinate (P2, AFFINE and PRECOMPUTED elements) it panics. -/
theorem C51_group (g : GC) :
    (g.T = none ↔ g.string = .panic) ∧
    ∀ t, g.T = some t → g.string = .ok (str "X=" ++ g.X.string ++ str "\nY=" ++ g.Y.string ++ str "\nZ=" ++ g.Z.string ++
      str "\nT=" ++ t.string ++ str "\n") := by
  unfold GC.string
  cases g.T with
  | none => exact ⟨⟨fun _ => rfl, fun _ => rfl⟩, fun t h => by cases h⟩
  | some t => exact ⟨⟨(fun h => by cases h), (fun h => by cases h)⟩, (fun t' h => by cases h; rfl)⟩

theorem utf8_ascii (c : Char) (h : c.toNat < 128) : String.utf8EncodeChar c = [UInt8.ofNat c.toNat] := by
  unfold String.utf8EncodeChar
  have : c.val.toNat ≤ 127 := by have : c.val.toNat = c.toNat := rfl; omega
  dsimp only
  rw [if_pos this]
  rfl

/-- The text pieces of C51 (`str`) are the UTF-8 bytes that Go gives to a literal of ASCII characters. -/
theorem C51_ascii (s : String) (h : ∀ c ∈ s.toList, c.toNat < 128) : str s = s.toUTF8.data.toList := by
  have : s.toUTF8 = s.toList.utf8Encode := by simp
  rw [this]
  unfold str List.utf8Encode
  simp
  generalize s.toList = l at h
  induction l with
  | nil => rfl
  | cons c l ih =>
    rw [List.map_cons, List.flatMap_cons, utf8_ascii c (h c (by simp)), ih (fun d hd => h d (by simp [hd]))]
    rfl

example : (∀ c ∈ "\nT=".toList, c.toNat < 128) ∧ str "\nT=" = [0x0a, 0x54, 0x3d] := by decide

/-- So printing panics for every element in P2, such as the results of `toP2`. -/
theorem C51_p2_panics (X Y Z : FE) : (GC.newP2 X Y Z).string = .panic := rfl

/-- The two points with y = 1: the neutral element; its encoding prints x = 0 and y = 1. -/
example : ∃ tx ty, FieldText tx (0 : F) ∧ FieldText ty (1 : F) ∧
    encodedGroupString (encodePoint (0 : Pt)) = .ok (str "x=" ++ tx ++ str "\ny=" ++ ty ++ str "\n") :=
  (C51_point _ (.inl (encodePoint_length _))).1 0
    (by rw [List.take_of_length_le (by rw [encodePoint_length])]; exact decodes_encodePoint 0)

/-! ## C52: the legacy buffered cipher -/

/-- Whatever is called on it, in whatever order, the buffered cipher never holds output, so each result is as follows: the output size is 0,
`doFinal` writes nothing, `processBytes` leaves `out` alone and either returns -1 or overwrites the front of `input` with `out`. -/
def BufferedSpec : BufferedOp → BufferedResult → Prop
  | .getOutputSize _, r => r.ret = 0
  | .reset, _ => True
  | .init _ _ _, _ => True
  | .doFinal out _, r => r.ret = 0 ∧ r.out = out
  | .processBytes input inOff length out _, r =>
      r.out = out ∧
      ((out.length : ℤ) < length - inOff → r.ret = -1 ∧ r.input = input) ∧
      (length - inOff ≤ (out.length : ℤ) → r.ret = min input.length out.length ∧ r.input.length = input.length ∧
        ∀ i, i < input.length → r.input[i]? = if i < out.length then out[i]? else input[i]?)

theorem goCopy_spec (dst src : Bytes) :
    (goCopy dst src).1 = min dst.length src.length ∧ (goCopy dst src).2.length = dst.length ∧
    ∀ i, i < dst.length → (goCopy dst src).2[i]? = if i < src.length then src[i]? else dst[i]? := by
  unfold goCopy
  refine ⟨rfl, by simp, ?_⟩
  intro i hi
  dsimp only
  rw [List.getElem?_append, List.length_take, List.getElem?_take, List.getElem?_drop]
  by_cases h : i < src.length
  · rw [if_pos (by omega), if_pos (by omega), if_pos h]
  · rw [if_neg (by omega), if_neg h]
    congr 1; omega

theorem call_spec (o : BufferedOp) : ((newBufferedCipher.call o).1 = newBufferedCipher) ∧ BufferedSpec o (newBufferedCipher.call o).2 := by
  cases o with
  | getOutputSize n => exact ⟨rfl, rfl⟩
  | reset => exact ⟨rfl, trivial⟩
  | init a b c => exact ⟨rfl, trivial⟩
  | doFinal out off =>
    obtain ⟨h1, h2, h3⟩ := goCopy_spec out []
    refine ⟨rfl, ?_, ?_⟩
    · show ((goCopy out []).1 : ℤ) = 0
      rw [h1]; simp
    · show (goCopy out []).2 = out
      simp [goCopy]
  | processBytes input inOff length out off =>
    obtain ⟨h1, h2, h3⟩ := goCopy_spec input out
    unfold BufferedCipher.call
    dsimp only
    split
    · rename_i h
      exact ⟨rfl, rfl, fun _ => ⟨rfl, rfl⟩, fun h' => by omega⟩
    · rename_i h
      refine ⟨rfl, rfl, fun h' => absurd h' h, fun _ => ⟨?_, h2, h3⟩⟩
      show ((goCopy input out).1 : ℤ) = _
      rw [h1]

/-- For every history of calls on a new buffered cipher. -/
theorem C52_history (os : List BufferedOp) : List.Forall₂ BufferedSpec os (newBufferedCipher.calls os).2 := by
  induction os with
  | nil => exact .nil
  | cons o os ih =>
    obtain ⟨h1, h2⟩ := call_spec o
    refine .cons h2 ?_
    rw [h1]; exact ih

/-- In particular no result depends on the key, the IV or the direction given to `init`. -/
theorem C52_key_ignored (os os' : List BufferedOp)
    (h : List.Forall₂ (fun o o' => o = o' ∨ ∃ e k v e' k' v', o = .init e k v ∧ o' = .init e' k' v') os os') :
    (newBufferedCipher.calls os).2 = (newBufferedCipher.calls os').2 := by
  induction h with
  | nil => rfl
  | @cons o o' os os' ho _ ih =>
    have hr : (newBufferedCipher.call o).2 = (newBufferedCipher.call o').2 := by
      rcases ho with rfl | ⟨e, k, v, e', k', v', rfl, rfl⟩ <;> rfl
    show (newBufferedCipher.call o).2 :: ((newBufferedCipher.call o).1.calls os).2 = (newBufferedCipher.call o').2 :: ((newBufferedCipher.call o').1.calls os').2
    rw [(call_spec o).1, (call_spec o').1, ih, hr]

/-- `processBytes` on three bytes of input returns 3 and has destroyed the input. -/
example : (newBufferedCipher.calls [.init true [1] [2], .processBytes [7, 8, 9] 0 3 [0, 0, 0, 0] 0, .doFinal [5, 5] 0]).2 =
    [⟨0, [], []⟩, ⟨3, [0, 0, 0], [0, 0, 0, 0]⟩, ⟨0, [], [5, 5]⟩] := by decide

end Ed
