import Mathlib.Data.Int.Interval
import Verif.Proofs.Order
import Verif.Props.Group
import Verif.Props.KeyMemory
import Verif.Props.Cbc
import Mathlib.Data.Set.Card

/-!
# Properties C72-C76: all points of the curve, small-order keys, equivalent keys, the cofactor

`T` (Spec/Order.lean) is a point of order 8.
-/

set_option autoImplicit false

namespace Ed

variable (E : Env)

/-! ## C72: the points and the accepted strings -/

/-- The curve has exactly 8 L points: so many different strings are produced by `Encode`. -/
theorem C72_points : {b : Bytes | ∃ (g : GC) (q : Pt), g.sys = .p3 ∧ g.Repr q ∧ g.encode = .ok b}.ncard = 8 * L := by
  have e : {b : Bytes | ∃ (g : GC) (q : Pt), g.sys = .p3 ∧ g.Repr q ∧ g.encode = .ok b} = Set.range encodePoint := by
    ext b
    constructor
    · rintro ⟨g, q, h1, h2, h3⟩
      rw [GC.encode_repr (.inr (.inl h1)) h2] at h3
      exact ⟨q, Out.ok.inj h3⟩
    · rintro ⟨q, rfl⟩
      obtain ⟨g, h1, h2, -⟩ := exists_repr q
      exact ⟨g.toGC, q, h1, h2, GC.encode_repr (.inr (.inl h1)) h2⟩
  rw [e, ← Set.image_univ, Set.ncard_image_of_injective _ (fun _ _ h => encodePoint_inj h), Set.ncard_univ, card_Pt]

/-- Whatever `Decode` accepts is the sum of a multiple of the base point and a multiple of the point T of order 8, in one way. -/
theorem C72_parts (raw : Bytes) (g : GC) (hg : GC.decode raw = .ok g) :
    ∃! nt : ℕ × ℕ, nt.1 < L ∧ nt.2 < 8 ∧ g.Repr (nt.1 • B + nt.2 • T) := by
  have hl : raw.length = 32 ∨ raw.length = 64 := by
    by_contra hl
    rw [GC.decode_badlen hl] at hg; cases hg
  rcases GC.decode_cases hl with ⟨q, hq⟩ | ⟨⟨m, hm⟩, -⟩
  · obtain ⟨g', h1, h2, h3, -⟩ := GC.decode_ok hl hq
    have e := Out.ok.inj (h1.symm.trans hg)
    subst e
    obtain ⟨n, t, hn, ht, rfl⟩ := exists_parts q
    refine ⟨(n, t), ⟨hn, ht, h3⟩, ?_⟩
    rintro ⟨n', t'⟩ ⟨hn', ht', h3'⟩
    dsimp only at hn' ht' h3'
    have e1 := GC.encode_repr (.inr (.inl h2)) h3
    rw [GC.encode_repr (.inr (.inl h2)) h3'] at e1
    have e2 := encodePoint_inj (Out.ok.inj e1)
    have e3 : n' = n := by
      have := congrArg (fun q => (8 : ℕ) • q) e2
      simp only [smul_add] at this
      rw [smul_comm 8 t', smul_comm 8 t, eight_smul_T, smul_zero, smul_zero, add_zero, add_zero, ← mul_smul, ← mul_smul,
        smul_B_eq_iff] at this
      have := Nat.ModEq.cancel_left_of_coprime (show Nat.gcd L 8 = 1 from L_coprime_8) this
      rwa [Nat.ModEq, Nat.mod_eq_of_lt hn', Nat.mod_eq_of_lt hn] at this
    subst e3
    have e4 := (smul_T_eq_iff t' t).mp (add_left_cancel e2)
    rw [Nat.mod_eq_of_lt ht', Nat.mod_eq_of_lt ht] at e4
    rw [e4]
  · rw [hm] at hg; cases hg

/-- The y-coordinates 0, 1, 3, ..., 18 with their x, for the strings that are not canonical. -/
def lowPoints : List (ℕ × ℕ) :=
  [(0, 19681161376707505956807079304988542015446066515923890162744021073123829784752), (1, 0),
   (3, 47490639360184182837601875270316946735278442122217188244898328344323804759522),
   (4, 26193273134124080442446118532604303931175156347221147955160486408041496074798),
   (5, 39662079413846548812394406357884595898465868971068617279194812783497449546402),
   (6, 44179385186637231197387423809866071544592466792969908008717492870455120005190),
   (9, 20998110467665258077629620998309994886851780706327836337918840104339545710600),
   (10, 24688177111351944971186944795630209763032700723300105170855113893569705867530),
   (14, 7049791126168382362297938767490651460951557605790812589504576269394143334116),
   (15, 55732238393510018740248637141718565550047250075628506353605146378834452627480),
   (16, 30423490184102983547751937222062317622425652989592655573890622631116622934896),
   (18, 24955915220342692964971208821014542627211739005308489835959708316178776387624)]

theorem lowPoints_on : ∀ a ∈ lowPoints, OnCurve (a.2 : F) (a.1 : F) := by
  have h : ∀ a ∈ lowPoints, (a.1 * a.1) % (2 ^ 255 - 19) = (1 + dN * a.2 * a.2 * a.1 * a.1 + a.2 * a.2) % (2 ^ 255 - 19) := by
    decide +kernel
  intro a ha
  have h := h a ha
  rw [← F_natCast_eq] at h
  push_cast at h
  unfold OnCurve
  rw [d_eq]
  linear_combination h

/-- y belongs to no point if (y^2 - 1) (1 + d y^2) is not a square. -/
theorem not_onCurve (r : ℕ) (h1 : 1 ≤ r * r)
    (h : powMod (2 ^ 255 - 19) 256 ((r * r - 1) * (1 + dN * r * r)) ((2 ^ 255 - 20) / 2) 1 = 2 ^ 255 - 20) (x : F) :
    ¬ OnCurve x (r : F) := by
  intro hx
  have e : (((r * r - 1) * (1 + dN * r * r) : ℕ) : F) = x * (1 + d * r * r) * (x * (1 + d * r * r)) := by
    unfold OnCurve at hx
    rw [d_eq] at hx ⊢
    push_cast [Nat.cast_sub h1]
    linear_combination (1 + (dN : F) * r * r) * hx
  have hp : (((r * r - 1) * (1 + dN * r * r) : ℕ) : F) ^ ((P - 1) / 2) = -1 := by
    have he : (P - 1) / 2 = (2 ^ 255 - 20) / 2 := by rw [P_eq]; decide +kernel
    rw [he, F_pow_natCast _ _ (2 ^ 255 - 20) (by decide +kernel) h]
    have : ((2 ^ 255 - 20 + 1 : ℕ) : F) = 0 := by rw [F_natCast_eq_zero]; decide
    rw [Nat.cast_add, Nat.cast_one] at this
    exact eq_neg_of_add_eq_zero_left this
  rw [e] at hp
  clear h e hx h1
  generalize x * (1 + d * r * r) = s at hp
  have h0 : s ≠ 0 := by
    rintro rfl
    rw [mul_zero, zero_pow (by rw [P_eq]; decide)] at hp
    exact one_ne_zero (α := F) (by linear_combination hp)
  have h1 : s ^ (P - 1) = 1 := ZMod.pow_card_sub_one_eq_one h0
  have h2 : (s * s) ^ ((P - 1) / 2) = s ^ (P - 1) := by
    rw [← sq, ← pow_mul]
    congr 1
    rw [P_eq]; decide +kernel
  rw [h1, hp] at h2
  exact one_ne_neg_one_F h2.symm

theorem low_valid (r : ℕ) (hr : r < 19) (x : F) (h : OnCurve x (r : F)) : r ∈ lowPoints.map Prod.fst := by
  have hc : r ∈ lowPoints.map Prod.fst ∨ r = 2 ∨ r = 7 ∨ r = 8 ∨ r = 11 ∨ r = 12 ∨ r = 13 ∨ r = 17 := by
    clear h x; revert r; decide +kernel
  rcases hc with hc | rfl | rfl | rfl | rfl | rfl | rfl | rfl
  · exact hc
  all_goals exact absurd h (not_onCurve _ (by decide) (by decide +kernel) x)

/-- The numbers of the 26 strings which are accepted by `Decode` and are not the canonical encoding of their point: y not below p,
or x = 0 with the sign bit set. -/
def nonCanonicalValues : List ℕ :=
  [1 + 2 ^ 255, 2 ^ 255 - 20 + 2 ^ 255] ++
  [0, 1, 3, 4, 5, 6, 9, 10, 14, 15, 16, 18].flatMap fun y => [2 ^ 255 - 19 + y, 2 ^ 255 - 19 + y + 2 ^ 255]

theorem nonCanonical_iff {raw : Bytes} (hl : raw.length = 32) :
    (∃ g, GC.decode raw = .ok g ∧ g.encode ≠ .ok raw) ↔ leVal raw ∈ nonCanonicalValues := by
  have hv := leVal_lt raw
  rw [hl, show (256 : ℕ) ^ 32 = 2 ^ 255 * 2 by norm_num] at hv
  have hs := Nat.div_lt_of_lt_mul hv
  have hd := Nat.mod_add_div (leVal raw) (2 ^ 255)
  have hw := Nat.mod_lt (leVal raw) (show 0 < 2 ^ 255 by norm_num)
  constructor
  · rintro ⟨g, hg, he⟩
    obtain ⟨x, hx⟩ := (C12_decode raw hl).1.mp ⟨g, hg⟩
    rw [Ne, C13_reencode raw hl g hg, not_and_or, not_not] at he
    generalize leVal raw % 2 ^ 255 = w at *
    generalize leVal raw / 2 ^ 255 = s at *
    rcases he with he | ⟨he, rfl⟩
    · obtain ⟨r, rfl⟩ : ∃ r, w = 2 ^ 255 - 19 + r := ⟨w - (2 ^ 255 - 19), by omega⟩
      have hr : r < 19 := by omega
      have e : ((2 ^ 255 - 19 + r : ℕ) : F) = (r : F) := by
        rw [F_natCast_eq, Nat.add_mod_left]
      rw [e] at hx
      have hm := low_valid r hr x hx
      rw [← hd]
      clear hx e hv he hd hw
      revert s r
      decide +kernel
    · rcases he with rfl | rfl <;> rw [← hd] <;> decide +kernel
  · intro h
    have key : ∀ v ∈ nonCanonicalValues, (∃ a ∈ lowPoints, v % 2 ^ 255 % (2 ^ 255 - 19) = a.1) ∨ v % 2 ^ 255 = 2 ^ 255 - 20 := by
      decide +kernel
    have key2 : ∀ v ∈ nonCanonicalValues, ¬ (v % 2 ^ 255 < 2 ^ 255 - 19 ∧
        ¬ ((v % 2 ^ 255 = 1 ∨ v % 2 ^ 255 = 2 ^ 255 - 20) ∧ v / 2 ^ 255 = 1)) := by
      decide +kernel
    have : ∃ x : F, OnCurve x ((leVal raw % 2 ^ 255 : ℕ) : F) := by
      rcases key _ h with ⟨a, ha, e⟩ | e
      · refine ⟨(a.2 : F), ?_⟩
        have := lowPoints_on a ha
        rwa [← e, cast_mod] at this
      · refine ⟨0, ?_⟩
        rw [e]
        have : ((2 ^ 255 - 20 + 1 : ℕ) : F) = 0 := by rw [F_natCast_eq_zero]; decide
        rw [Nat.cast_add, Nat.cast_one] at this
        rw [eq_neg_of_add_eq_zero_left this]
        unfold OnCurve
        ring
    obtain ⟨g, hg⟩ := (C12_decode raw hl).1.mpr this
    exact ⟨g, hg, fun e => key2 _ h ((C13_reencode raw hl g hg).mp e)⟩

/-- Exactly 26 of the 2^256 strings are accepted without being canonical; they are listed. -/
theorem C72_non_canonical (raw : Bytes) (hl : raw.length = 32) :
    (∃ g, GC.decode raw = .ok g ∧ g.encode ≠ .ok raw) ↔
      leVal raw ∈ [1 + 2 ^ 255, 2 ^ 255 - 20 + 2 ^ 255] ++
        [0, 1, 3, 4, 5, 6, 9, 10, 14, 15, 16, 18].flatMap fun y => [2 ^ 255 - 19 + y, 2 ^ 255 - 19 + y + 2 ^ 255] :=
  nonCanonical_iff hl

/-- `Decode` accepts exactly 8 L + 26 strings of 32 bytes. -/
theorem C72_accepted : {raw : Bytes | raw.length = 32 ∧ ∃ g, GC.decode raw = .ok g}.ncard = 8 * L + 26 := by
  have e : {raw : Bytes | raw.length = 32 ∧ ∃ g, GC.decode raw = .ok g} =
      Set.range encodePoint ∪ (leBytes 32) '' {v | v ∈ nonCanonicalValues} := by
    ext raw
    constructor
    · rintro ⟨hl, g, hg⟩
      by_cases he : g.encode = .ok raw
      · left
        obtain ⟨hs, q, hr, -⟩ := (C12_decode raw hl).2.1 g hg
        rw [GC.encode_repr (.inr (.inl hs)) hr] at he
        exact ⟨q, Out.ok.inj he⟩
      · right
        refine ⟨leVal raw, (nonCanonical_iff hl).mp ⟨g, hg, he⟩, ?_⟩
        rw [← hl, leBytes_leVal]
    · rintro (⟨q, rfl⟩ | ⟨v, hv, rfl⟩)
      · refine ⟨encodePoint_length q, ?_⟩
        obtain ⟨g, hg, -⟩ := GC.decode_ok (raw := encodePoint q) (.inl (encodePoint_length q))
          (by rw [List.take_of_length_le (by rw [encodePoint_length])]; exact decodes_encodePoint q)
        exact ⟨g, hg⟩
      · have hlt : ∀ v ∈ nonCanonicalValues, v < 256 ^ 32 := by decide +kernel
        have hl : (leBytes 32 v).length = 32 := leBytes_length _ _
        obtain ⟨g, hg, -⟩ := (nonCanonical_iff hl).mpr (by rw [leVal_leBytes_of_lt (hlt v hv)]; exact hv)
        exact ⟨hl, g, hg⟩
  have hlt : ∀ v ∈ nonCanonicalValues, v < 256 ^ 32 := by decide +kernel
  have hdis : Disjoint (Set.range encodePoint) ((leBytes 32) '' {v | v ∈ nonCanonicalValues}) := by
    rw [Set.disjoint_left]
    rintro _ ⟨q, rfl⟩ ⟨v, hv, he⟩
    have hl := encodePoint_length q
    obtain ⟨g, hg, hne⟩ := (nonCanonical_iff hl).mpr (by rw [← he, leVal_leBytes_of_lt (hlt v hv)]; exact hv)
    obtain ⟨g', h1, h2, h3, -⟩ := GC.decode_ok (raw := encodePoint q) (.inl hl)
          (by rw [List.take_of_length_le (by rw [hl])]; exact decodes_encodePoint q)
    rw [Out.ok.inj (h1.symm.trans hg)] at h2 h3
    exact hne (GC.encode_repr (.inr (.inl h2)) h3)
  have hfin : {v | v ∈ nonCanonicalValues}.Finite := nonCanonicalValues.finite_toSet
  rw [e, Set.ncard_union_eq hdis (Set.finite_range _) (hfin.image _), ← Set.image_univ,
    Set.ncard_image_of_injective _ (fun _ _ h => encodePoint_inj h), Set.ncard_univ, card_Pt,
    Set.InjOn.ncard_image (fun a ha b hb h => by
      have h := congrArg leVal h
      rwa [leVal_leBytes_of_lt (hlt a ha), leVal_leBytes_of_lt (hlt b hb)] at h)]
  have : {v | v ∈ nonCanonicalValues} = (nonCanonicalValues.toFinset : Set ℕ) := by ext; simp
  rw [this, Set.ncard_coe_finset]
  have : nonCanonicalValues.toFinset.card = 26 := by decide +kernel
  rw [this]

/-- A canonical and a non-canonical string for the neutral element. -/
example : (∃ g, GC.decode (leBytes 32 1) = .ok g ∧ g.encode = .ok (leBytes 32 1)) ∧
    (∃ g, GC.decode (leBytes 32 (2 ^ 255 - 18)) = .ok g ∧ g.encode ≠ .ok (leBytes 32 (2 ^ 255 - 18))) := by
  constructor
  · obtain ⟨g, h1, h2, h3, -⟩ := GC.decode_ok (raw := leBytes 32 1) (.inl (leBytes_length _ _))
      (by rw [List.take_of_length_le (by rw [leBytes_length])]; exact decodes_one)
    exact ⟨g, h1, by rw [GC.encode_repr (.inr (.inl h2)) h3, encode_zero]⟩
  · exact (nonCanonical_iff (leBytes_length _ _)).mpr (by rw [leVal_leBytes_of_lt (by norm_num)]; decide +kernel)

/-! ## C73: the small-order public keys -/

/-- The 32-byte strings denoting a point of order 1, 2, 4 or 8 are the encodings of these 14 numbers. -/
theorem C73_strings (raw : Bytes) (hl : raw.length = 32) :
    (∃ q, Decodes raw q ∧ (8 : ℕ) • q = 0) ↔
      leVal raw ∈ [1, 1 + 2 ^ 255, 2 ^ 255 - 18, 2 ^ 255 - 18 + 2 ^ 255, 2 ^ 255 - 20, 2 ^ 255 - 20 + 2 ^ 255,
        0, 2 ^ 255, 2 ^ 255 - 19, 2 ^ 255 - 19 + 2 ^ 255,
        2707385501144840649318225287225658788936804267575313519463743609750303402022,
        2707385501144840649318225287225658788936804267575313519463743609750303402022 + 2 ^ 255,
        55188659117513257062467267217118295137698188065244968500265048394206261417927,
        55188659117513257062467267217118295137698188065244968500265048394206261417927 + 2 ^ 255] :=
  small_order_iff hl

/-- With any other accepted public key the shared secret is never trivial: it is a point other than the neutral element, of order a
multiple of L, and different for private keys with different scalars. -/
theorem C73_contributory (pub : PublicKey) (q : Pt) (hl : pub.raw.length = 32) (hq : Decodes pub.raw q)
    (hs : leVal pub.raw ∉ smallOrderValues) :
    ∃ f : PrivateKey → Pt,
      (∀ k, f k ≠ 0 ∧ L ∣ addOrderOf (f k)) ∧
      (∀ k k', f k = f k' ↔ secretScalar E k.raw = secretScalar E k'.raw) ∧
      ∀ k salt, salt.length = 32 →
        getSharedKey E 32 (some k) pub salt = .ok (hashesSha3_256 E (List.zipWith (· ^^^ ·) (encodePoint (f k)) salt)) := by
  have h8 : (8 : ℕ) • q ≠ 0 := fun h => hs ((small_order_iff hl).mp ⟨q, hq, h⟩)
  refine ⟨fun k => secretScalar E k.raw • q, fun k => ⟨fun h => h8 ((secret_smul_eq_zero_iff E k.raw q).mp h), ?_⟩, fun k k' => ?_, ?_⟩
  · by_contra hL
    have h1 : addOrderOf (secretScalar E k.raw • q) ∣ 8 * L := addOrderOf_dvd_of_nsmul_eq_zero (order_smul _)
    have h2 : Nat.Coprime (addOrderOf (secretScalar E k.raw • q)) L := (((Nat.Prime.coprime_iff_not_dvd L_prime).mpr hL)).symm
    have h3 := h2.dvd_of_dvd_mul_right h1
    rw [addOrderOf_dvd_iff_nsmul_eq_zero, smul_comm, secret_smul_eq_zero_iff, ← mul_smul] at h3
    have := (eight_mul_smul_eq_zero_iff 8 q).mp h3
    rcases this with h | h
    · exact h8 h
    · have := Nat.le_of_dvd (by norm_num) h
      have := L_gt
      omega
  · dsimp only
    rw [secret_smul_eq_iff]
    exact ⟨fun h => h.resolve_left h8, .inr⟩
  · intro k salt hsalt
    rw [getSharedKey_ok E hl hq (by omega)]
    unfold xorPrefix
    rw [List.take_of_length_le (by rw [encodePoint_length]), List.take_of_length_le (by omega),
      List.drop_eq_nil_of_le (by rw [encodePoint_length]), List.append_nil]

/-- The public keys made by `DerivePublicKey` are not among them. -/
theorem C73_derived (k : PrivateKey) (pub : PublicKey) (h : derivePublicKey E (some k) = .ok pub) :
    leVal pub.raw ∉ smallOrderValues := by
  obtain ⟨pk, q, p1, p2, p3, p4, p5, p6, p7⟩ := C29_derived E k
  have e := Out.ok.inj (p1.symm.trans h)
  subst e
  intro hm
  obtain ⟨q', hq', h8⟩ := (small_order_iff p2).mpr hm
  rw [← GC.decodes_unique hq' p4] at p6
  exact C29_not_small_order E k h hq' h8

/-- Both cases occur: the 14 strings, and the keys of C73_derived. -/
example : (∃ q, Decodes (leBytes 32 TyN) q ∧ (8 : ℕ) • q = 0) ∧
    ¬ (∃ q, Decodes (publicKeyOf Env.toy (List.replicate 32 7)) q ∧ (8 : ℕ) • q = 0) := by
  constructor
  · rw [small_order_iff (leBytes_length _ _), leVal_leBytes_of_lt (by decide +kernel)]; decide +kernel
  · rw [small_order_iff (publicKeyOf_length _ _)]
    exact C73_derived Env.toy (newPrivateKey (List.replicate 32 7)) ⟨publicKeyOf Env.toy (List.replicate 32 7)⟩ (derive_spec _ _)

/-! ## C74: public keys that give the same shared keys -/

/-- Two public keys whose points differ by a point of order dividing 8 give the same shared key, for every private key and salt. -/
theorem C74_equivalent (pub pub' : PublicKey) (q q' : Pt) (hl : pub.raw.length = 32) (hl' : pub'.raw.length = 32)
    (hq : Decodes pub.raw q) (hq' : Decodes pub'.raw q') (h8 : (8 : ℕ) • q = (8 : ℕ) • q') (k : PrivateKey) (kl : ℕ) (salt : Bytes) :
    getSharedKey E kl (some k) pub salt = getSharedKey E kl (some k) pub' salt := by
  have hz : secretScalar E k.raw • q = secretScalar E k.raw • q' := by
    obtain ⟨_, _, c, hc⟩ := secretScalar_bounds E k.raw
    rw [hc, mul_nsmul, h8, ← mul_nsmul]
  rw [getSharedKey_point E hl hq, getSharedKey_point E hl' hq', hz]

/-- Each class has eight points: for every accepted public key there are exactly 8 canonical strings that give the same shared keys. -/
theorem C74_eight (q : Pt) : {b : Bytes | ∃ q', b = encodePoint q' ∧ (8 : ℕ) • q = (8 : ℕ) • q'}.ncard = 8 := by
  have e : {b : Bytes | ∃ q', b = encodePoint q' ∧ (8 : ℕ) • q = (8 : ℕ) • q'} =
      (fun t : ℕ => encodePoint (q + t • T)) '' (Finset.range 8 : Set ℕ) := by
    ext b
    constructor
    · rintro ⟨q', rfl, h⟩
      have h0 : (8 : ℕ) • (q' - q) = 0 := by rw [smul_sub, h, sub_self]
      obtain ⟨t, ht, he⟩ := (eight_smul_eq_zero_iff _).mp h0
      refine ⟨t, by simpa using ht, ?_⟩
      dsimp only
      rw [← he, add_sub_cancel]
    · rintro ⟨t, -, rfl⟩
      refine ⟨_, rfl, ?_⟩
      rw [smul_add, smul_comm 8 t, eight_smul_T, smul_zero, add_zero]
  rw [e, Set.InjOn.ncard_image, Set.ncard_coe_finset, Finset.card_range]
  intro a ha b hb h
  have h := (smul_T_eq_iff a b).mp (add_left_cancel (encodePoint_inj h))
  simp only [Finset.coe_range, Set.mem_Iio] at ha hb
  rwa [Nat.mod_eq_of_lt ha, Nat.mod_eq_of_lt hb] at h

theorem zipWith_xor_inj {a b s : Bytes} (ha : a.length = s.length) (hb : b.length = s.length)
    (h : List.zipWith (· ^^^ ·) a s = List.zipWith (· ^^^ ·) b s) : a = b := by
  induction s generalizing a b with
  | nil => rw [List.length_eq_zero_iff.mp ha, List.length_eq_zero_iff.mp hb]
  | cons z s ih =>
    cases a with
    | nil => simp at ha
    | cons x a =>
      cases b with
      | nil => simp at hb
      | cons y b =>
        rw [List.zipWith_cons_cons, List.zipWith_cons_cons, List.cons.injEq] at h
        rw [ih (by simpa using ha) (by simpa using hb) h.2, (UInt8.xor_left_inj z).mp h.1]

theorem xorPrefix_inj {salt a b : Bytes} (hs : 32 ≤ salt.length) (ha : a.length = 32) (hb : b.length = 32)
    (h : xorPrefix 32 salt a = xorPrefix 32 salt b) : a = b := by
  unfold xorPrefix at h
  rw [List.take_of_length_le (by omega), List.take_of_length_le (l := b) (by omega), List.drop_eq_nil_of_le (by omega),
    List.drop_eq_nil_of_le (by omega), List.append_nil, List.append_nil] at h
  exact zipWith_xor_inj (by rw [List.length_take]; omega) (by rw [List.length_take]; omega) h

/-- Conversely, two public keys with the same shared key for one private key and one salt are equivalent in this sense, or exhibit a
collision of SHA3-256. -/
theorem C74_only_if (pub pub' : PublicKey) (q q' : Pt) (hl : pub.raw.length = 32) (hl' : pub'.raw.length = 32)
    (hq : Decodes pub.raw q) (hq' : Decodes pub'.raw q') (k : PrivateKey) (salt : Bytes) (hs : 32 ≤ salt.length)
    (h : getSharedKey E 32 (some k) pub salt = getSharedKey E 32 (some k) pub' salt) :
    (8 : ℕ) • q = (8 : ℕ) • q' ∨ ∃ x y : Bytes, x ≠ y ∧ x.length = 32 ∧ y.length = 32 ∧ hashesSha3_256 E x = hashesSha3_256 E y := by
  rw [getSharedKey_ok E hl hq hs, getSharedKey_ok E hl' hq' hs] at h
  have h := Out.ok.inj h
  have L1 : ∀ r : Pt, (xorPrefix 32 salt (encodePoint r)).length = 32 := fun r => by
    rw [xorPrefix_length (by rw [encodePoint_length]) hs, encodePoint_length]
  by_cases hx : xorPrefix 32 salt (encodePoint (secretScalar E k.raw • q)) = xorPrefix 32 salt (encodePoint (secretScalar E k.raw • q'))
  · left
    have e := encodePoint_inj (xorPrefix_inj hs (encodePoint_length _) (encodePoint_length _) hx)
    rw [← sub_eq_zero, ← smul_sub, secret_smul_eq_zero_iff, smul_sub, sub_eq_zero] at e
    exact e
  · exact .inr ⟨_, _, hx, L1 _, L1 _, h⟩

/-- A ciphertext is decrypted in the same way with any equivalent public key of the sender. -/
theorem C74_decrypt (c : BlockCipher) (pub' : PublicKey) (k : PrivateKey) (q q' : Pt) (hk : c.recipient.priv = some k)
    (hl : c.sender.pub.raw.length = 32) (hl' : pub'.raw.length = 32)
    (hq : Decodes c.sender.pub.raw q) (hq' : Decodes pub'.raw q') (h8 : (8 : ℕ) • q = (8 : ℕ) • q') (b : Bytes) :
    ({ c with sender := { c.sender with pub := pub' } } : BlockCipher).decrypt E b = c.decrypt E b := by
  unfold BlockCipher.decrypt
  dsimp only
  rw [hk]
  simp only [C74_equivalent E c.sender.pub pub' q q' hl hl' hq hq' h8 k]

/-- The hypotheses are met: a derived key and the same key shifted by T are different and equivalent. -/
example (sk : Bytes) : let q := secretScalar E sk • B
    Decodes (publicKeyOf E sk) q ∧ Decodes (encodePoint (q + T)) (q + T) ∧ publicKeyOf E sk ≠ encodePoint (q + T) ∧
      (8 : ℕ) • q = (8 : ℕ) • (q + T) := by
  refine ⟨decodes_encodePoint _, decodes_encodePoint _, fun h => ?_, by rw [smul_add, eight_smul_T, add_zero]⟩
  have h := encodePoint_inj h
  rw [left_eq_add] at h
  have := addOrderOf_T
  rw [h, addOrderOf_zero] at this
  omega

/-! ## C75: private keys with the same public key -/

/-- Two private keys have the same public key iff bits 3 to 253 of their hashes agree. -/
theorem C75_same_public (k k' : PrivateKey) :
    derivePublicKey E (some k) = derivePublicKey E (some k') ↔
      ∀ i, 3 ≤ i → i < 254 → (leVal ((Hash E k.raw).take 32)).testBit i = (leVal ((Hash E k'.raw).take 32)).testBit i := by
  have h1 : derivePublicKey E (some k) = derivePublicKey E (some k') ↔ secretScalar E k.raw = secretScalar E k'.raw := by
    rw [derive_spec, derive_spec]
    constructor
    · intro h
      have h := encodePoint_inj (PublicKey.mk.inj (Out.ok.inj h))
      refine ((secret_smul_eq_iff E _ _ B).mp h).resolve_left fun h8 => ?_
      rw [← addOrderOf_dvd_iff_nsmul_eq_zero, addOrderOf_B] at h8
      have := Nat.le_of_dvd (by norm_num) h8
      have := L_gt
      omega
    · intro h; unfold publicKeyOf; rw [h]
  rw [h1]
  unfold secretScalar
  generalize leVal ((Hash E k.raw).take 32) = u
  generalize leVal ((Hash E k'.raw).take 32) = v
  have h2 : (2 ^ 254 + 8 * (u / 8 % 2 ^ 251) = 2 ^ 254 + 8 * (v / 8 % 2 ^ 251)) ↔ u / 8 % 2 ^ 251 = v / 8 % 2 ^ 251 := by omega
  rw [h2]
  have hb : ∀ w i : ℕ, (w / 8 % 2 ^ 251).testBit i = (decide (i < 251) && w.testBit (3 + i)) := by
    intro w i
    rw [Nat.testBit_mod_two_pow, show (8 : ℕ) = 2 ^ 3 by norm_num, Nat.testBit_div_two_pow, Nat.add_comm]
  constructor
  · intro h i hi hi'
    have := congrArg (fun w => w.testBit (i - 3)) h
    simp only [hb] at this
    rw [decide_eq_true (by omega), Bool.true_and, Bool.true_and, show 3 + (i - 3) = i by omega] at this
    exact this
  · intro h
    apply Nat.eq_of_testBit_eq
    intro i
    rw [hb, hb]
    by_cases hi : i < 251
    · rw [h (3 + i) (by omega) (by omega)]
    · rw [decide_eq_false hi, Bool.false_and, Bool.false_and]

/-- The error for a malformed public key does not depend on the private key. -/
theorem getSharedKey_bad (pub : PublicKey) (h : ¬ (pub.raw.length = 32 ∧ ∃ q, Decodes pub.raw q)) :
    ∃ e, ∀ kl priv salt, getSharedKey E kl priv pub salt = .err e := by
  by_cases hl : pub.raw.length = 32
  · rcases GC.decode_cases (Or.inl hl) with ⟨q, hq⟩ | ⟨⟨e, hd⟩, _⟩
    · rw [List.take_of_length_le (by omega)] at hq
      exact absurd ⟨hl, q, hq⟩ h
    · refine ⟨e, fun kl priv salt => ?_⟩
      unfold getSharedKey newEncodedGroupElement
      rw [if_neg (by omega), Out.bind_ok, hd]; rfl
  · refine ⟨"Invalid encoded group element.", fun kl priv salt => ?_⟩
    unfold getSharedKey newEncodedGroupElement
    rw [if_pos (by omega)]; rfl

/-- They then agree on every shared key; and where they agree on one shared key with a public key outside the 14 strings, they have
the same public key, or exhibit a collision of SHA3-256. -/
theorem C75_shared (k k' : PrivateKey) :
    (derivePublicKey E (some k) = derivePublicKey E (some k') →
      ∀ kl pub salt, getSharedKey E kl (some k) pub salt = getSharedKey E kl (some k') pub salt) ∧
    (∀ (pub : PublicKey) (q : Pt) (salt : Bytes), pub.raw.length = 32 → Decodes pub.raw q → leVal pub.raw ∉ smallOrderValues →
      32 ≤ salt.length → getSharedKey E 32 (some k) pub salt = getSharedKey E 32 (some k') pub salt →
      derivePublicKey E (some k) = derivePublicKey E (some k') ∨
        ∃ x y : Bytes, x ≠ y ∧ x.length = 32 ∧ y.length = 32 ∧ hashesSha3_256 E x = hashesSha3_256 E y) := by
  constructor
  · intro h kl pub salt
    have hs : secretScalar E k.raw = secretScalar E k'.raw := by
      rw [derive_spec, derive_spec] at h
      have h := encodePoint_inj (PublicKey.mk.inj (Out.ok.inj h))
      refine ((secret_smul_eq_iff E _ _ B).mp h).resolve_left fun h8 => ?_
      rw [← addOrderOf_dvd_iff_nsmul_eq_zero, addOrderOf_B] at h8
      have := Nat.le_of_dvd (by norm_num) h8
      have := L_gt
      omega
    by_cases hp : pub.raw.length = 32 ∧ ∃ q, Decodes pub.raw q
    · obtain ⟨hl, q, hq⟩ := hp
      rw [getSharedKey_point E hl hq, getSharedKey_point E hl hq, hs]
    · obtain ⟨e, he⟩ := getSharedKey_bad E pub hp
      rw [he, he]
  · intro pub q salt hl hq hm hs h
    have h8 : (8 : ℕ) • q ≠ 0 := fun h => hm ((small_order_iff hl).mp ⟨q, hq, h⟩)
    rw [getSharedKey_ok E hl hq hs, getSharedKey_ok E hl hq hs] at h
    have h := Out.ok.inj h
    have L1 : ∀ r : Pt, (xorPrefix 32 salt (encodePoint r)).length = 32 := fun r => by
      rw [xorPrefix_length (by rw [encodePoint_length]) hs, encodePoint_length]
    by_cases hx : xorPrefix 32 salt (encodePoint (secretScalar E k.raw • q)) = xorPrefix 32 salt (encodePoint (secretScalar E k'.raw • q))
    · left
      have e := encodePoint_inj (xorPrefix_inj hs (encodePoint_length _) (encodePoint_length _) hx)
      have e := ((secret_smul_eq_iff E _ _ q).mp e).resolve_left h8
      rw [derive_spec, derive_spec]
      unfold publicKeyOf
      rw [e]
    · exact .inr ⟨_, _, hx, L1 _, L1 _, h⟩

/-- A hash with such keys: all inputs of at most 64 bytes have the same hash. -/
example : derivePublicKey Env.pick64 (some (newPrivateKey [1, 2])) = derivePublicKey Env.pick64 (some (newPrivateKey [3])) := by
  rw [C75_same_public]
  intro i _ _
  rw [pick64_short _ (by decide), pick64_short _ (by decide)]

/-! ## C76: the cofactor in Verify -/

/-- Whatever `Verify` accepts satisfies the equation multiplied by the cofactor, 8 S B = 8 R + 8 c A (for S not below 2^255 with the value of
its recoding, Spec/Naf.lean). -/
theorem C76_cofactored (pub : PublicKey) (m R S : Bytes) (hl : S.length = 32)
    (h : verify E pub m ⟨R, S⟩ = .ok true) :
    ∃ A Rp : Pt, Decodes (pub.raw.take 32) A ∧ Decodes R Rp ∧
      (8 * nafVal (leVal S)) • B = (8 : ℕ) • Rp + (8 * challenge E R pub.raw m) • A ∧
      (leVal S < 2 ^ 255 → nafVal (leVal S) = leVal S) := by
  obtain ⟨-, -, -, A, hA, he⟩ := (C20_accepts_iff_any E S hl pub m R).mp h
  refine ⟨A, nafVal (leVal S) • B - challenge E R pub.raw m • A, hA, ?_, ?_, fun h => nafVal_small h⟩
  · have := decodes_encodePoint (nafVal (leVal S) • B - challenge E R pub.raw m • A)
    rwa [← he] at this
  · rw [smul_sub, mul_smul 8 (challenge _ _ _ _), sub_add_cancel, mul_smul, ← natCast_zsmul _ 8, Nat.cast_ofNat]

/-- The converse fails: there is a public key and a signature with a canonical R and S below L that satisfies the equation with the
cofactor for every hash and message, passes the canonicity filter, and is refused. -/
theorem C76_not_conversely : ∃ (pub : PublicKey) (R S : Bytes) (A Rp : Pt), Decodes pub.raw A ∧ R = encodePoint Rp ∧ S.length = 32 ∧
    leVal S < L ∧ pub.raw.length = 32 ∧ isCanonicalSignature ⟨R, S⟩ = true ∧ ∀ (E : Env) (m : Bytes),
      (8 * leVal S) • B = (8 : ℕ) • Rp + (8 * challenge E R pub.raw m) • A ∧ verify E pub m ⟨R, S⟩ = .ok false := by
  have hv : leVal (leBytes 32 1) = 1 := leVal_leBytes_of_lt (by norm_num)
  refine ⟨⟨leBytes 32 1⟩, encodePoint (B + T4), leBytes 32 1, 0, B + T4, decodes_one, rfl, leBytes_length _ _,
    by rw [hv]; have := L_gt; omega, leBytes_length _ _, ?_, fun E m => ⟨?_, ?_⟩⟩
  · rw [C23_decides_low_bits]
    dsimp only
    rw [hv]; exact low_one
  · rw [hv, smul_zero, add_zero, smul_add, ← four_smul_T, smul_comm 8 4, eight_smul_T, smul_zero, add_zero]
  · have hS : leVal (leBytes 32 1) < 2 ^ 255 := by rw [hv]; norm_num
    have hn : ¬ verify E ⟨leBytes 32 1⟩ m ⟨encodePoint (B + T4), leBytes 32 1⟩ = .ok true := by
      intro h
      obtain ⟨-, -, -, A, hA, he⟩ := (C20_accepts_iff E _ m ⟨encodePoint (B + T4), leBytes 32 1⟩ (by dsimp only; rw [leBytes_length]) hS).mp h
      dsimp only at he hA
      rw [List.take_of_length_le (by rw [leBytes_length])] at hA
      rw [GC.decodes_unique hA decodes_one, smul_zero, sub_zero, hv, one_smul] at he
      have := encodePoint_inj he
      rw [add_eq_left] at this
      exact T4_ne_zero this
    obtain ⟨b, hb⟩ := C20_total E ⟨leBytes 32 1⟩ m ⟨encodePoint (B + T4), leBytes 32 1⟩ (by dsimp only; rw [leBytes_length])
    cases b
    · exact hb
    · exact absurd hb hn

/-- A key pair whose public key is the derived one shifted by t * T: `Sign` works, and `Verify` accepts the signature iff 8 divides
t times the challenge; so for odd t about one signature in eight. -/
theorem C76_shifted_key (k : PrivateKey) (t : ℕ) (m : Bytes) (s : Signature)
    (h : sign E ⟨some k, ⟨encodePoint (secretScalar E k.raw • B + t • T)⟩⟩ m = .ok s) :
    verify E ⟨encodePoint (secretScalar E k.raw • B + t • T)⟩ m s = .ok true ↔
      8 ∣ t * challenge E s.R (encodePoint (secretScalar E k.raw • B + t • T)) m := by
  have hz : encodePoint (secretScalar E k.raw • B + t • T) ≠ List.replicate 32 0 := by
    intro hz
    have hlen : (encodePoint (secretScalar E k.raw • B + t • T)).length = 32 := encodePoint_length _
    have h0 : leVal (encodePoint (secretScalar E k.raw • B + t • T)) = 0 := by rw [hz]; exact leVal_replicate_zero 32
    obtain ⟨q, hq, h8⟩ := (small_order_iff hlen).mpr (by rw [h0]; decide +kernel)
    rw [GC.decodes_unique hq (decodes_encodePoint _), smul_add, smul_comm 8 t, eight_smul_T, smul_zero, add_zero, smul_comm,
      secret_smul_eq_zero_iff, ← mul_smul, ← addOrderOf_dvd_iff_nsmul_eq_zero, addOrderOf_B] at h8
    have := Nat.le_of_dvd (by norm_num) h8
    have := L_gt
    omega
  rw [C68_accepted_iff E k ⟨encodePoint (secretScalar E k.raw • B + t • T)⟩ _ (encodePoint_length _) (decodes_encodePoint _) hz m s h]
  generalize challenge E s.R _ m = c
  rw [smul_add, add_eq_left, ← mul_smul, ← addOrderOf_dvd_iff_nsmul_eq_zero, addOrderOf_T, Nat.mul_comm]

theorem shifted_pick (k : PrivateKey) (hk : k.raw.length = 32) (x : UInt8) (hx : LowBitsOk ((5 + (5 + x.toNat) * 2 ^ 254) % L))
    (q : Pt) (hq : q = secretScalar Env.pick64 k.raw • B + 1 • T) :
    ∃ s, sign Env.pick64 ⟨some k, ⟨encodePoint q⟩⟩ [x] = .ok s ∧
        (verify Env.pick64 ⟨encodePoint q⟩ [x] s = .ok true ↔ 8 ∣ 5 + x.toNat) := by
  have hc := pick64_challenge (sigR Env.pick64 k.raw [x]) (encodePoint q) x (encodePoint_length _) (encodePoint_length _)
  have hS : sigS Env.pick64 k.raw (encodePoint q) [x] = (5 + (5 + x.toNat) * 2 ^ 254) % L := by
    unfold sigS
    rw [hc, pick64_nonce, pick64_scalar _ hk]
  have hs := C19_sign Env.pick64 k ⟨encodePoint q⟩ [x]
  rw [if_pos (by rw [hS]; exact hx)] at hs
  refine ⟨_, hs, ?_⟩
  rw [hq] at hs ⊢
  rw [C76_shifted_key Env.pick64 k 1 [x] _ hs, Nat.one_mul]
  rw [← hq]
  have e : challenge Env.pick64 (encodePoint (nonce Env.pick64 k.raw [x] • B)) (encodePoint q) [x] = 5 + x.toNat := hc
  dsimp only
  rw [e]

/-- Both cases occur: with the hash `pick64` the challenge of the message [3] is 8 and that of [0] is 5. -/
example (k : PrivateKey) (hk : k.raw.length = 32) :
    (∃ s, sign Env.pick64 ⟨some k, ⟨encodePoint (secretScalar Env.pick64 k.raw • B + 1 • T)⟩⟩ [3] = .ok s ∧
      verify Env.pick64 ⟨encodePoint (secretScalar Env.pick64 k.raw • B + 1 • T)⟩ [3] s = .ok true) ∧
    (∃ s, sign Env.pick64 ⟨some k, ⟨encodePoint (secretScalar Env.pick64 k.raw • B + 1 • T)⟩⟩ [0] = .ok s ∧
      verify Env.pick64 ⟨encodePoint (secretScalar Env.pick64 k.raw • B + 1 • T)⟩ [0] s ≠ .ok true) := by
  constructor
  · obtain ⟨s, h1, h2⟩ := shifted_pick k hk 3 (by unfold LowBitsOk; rw [L_eq]; decide +kernel) _ rfl
    exact ⟨s, h1, h2.mpr (by decide)⟩
  · obtain ⟨s, h1, h2⟩ := shifted_pick k hk 0 (by unfold LowBitsOk; rw [L_eq]; decide +kernel) _ rfl
    exact ⟨s, h1, fun h => absurd (h2.mp h) (by decide)⟩

/-! ## C62, C68: consequences for the accepted forms and for mismatched pairs -/

/-- For one R, public key and message, Verify accepts at most eight values of S below 2^255. -/
theorem C62_at_most_eight (pub : PublicKey) (m R : Bytes) :
    {S : Bytes | S.length = 32 ∧ leVal S < 2 ^ 255 ∧ verify E pub m ⟨R, S⟩ = .ok true}.ncard ≤ 8 := by
  have hinj : Set.InjOn (fun S : Bytes => leVal S / L) {S : Bytes | S.length = 32 ∧ leVal S < 2 ^ 255 ∧ verify E pub m ⟨R, S⟩ = .ok true} := by
    rintro S ⟨hl, hS, h⟩ S' ⟨hl', hS', h'⟩ he
    have hm := ((C62_forms E pub m R S S' hl hl' hS hS' h).mp h').2
    have e1 := Nat.mod_add_div (leVal S) L
    have e2 := Nat.mod_add_div (leVal S') L
    dsimp only at he
    rw [hm, ← he, e1] at e2
    exact leVal_inj (by rw [hl, hl']) e2
  rw [← Set.InjOn.ncard_image hinj]
  have hsub : (fun S : Bytes => leVal S / L) '' {S : Bytes | S.length = 32 ∧ leVal S < 2 ^ 255 ∧ verify E pub m ⟨R, S⟩ = .ok true} ⊆
      (Finset.range 8 : Set ℕ) := by
    rintro _ ⟨S, ⟨-, hS, -⟩, rfl⟩
    rw [Finset.coe_range, Set.mem_Iio]
    dsimp only
    rw [Nat.div_lt_iff_lt_mul L_prime.pos]
    have := L_gt
    omega
  have := Set.ncard_le_ncard hsub (Finset.finite_toSet _)
  rwa [Set.ncard_coe_finset, Finset.card_range] at this

/-- At most twenty-four S of 32 bytes are accepted with one R, public key and message. -/
theorem C62_at_most_24 (pub : PublicKey) (m R : Bytes) :
    {S : Bytes | S.length = 32 ∧ verify E pub m ⟨R, S⟩ = .ok true}.ncard ≤ 24 := by
  have hb : ∀ S : Bytes, S.length = 32 → leVal S < 2 ^ 256 := fun S hl => by have := leVal_lt S; rw [hl] at this; exact this
  have hL := L_gt
  have hL0 : (0 : ℤ) < L := by omega
  have hinj : Set.InjOn (fun S : Bytes => nafVal (leVal S) / L) {S : Bytes | S.length = 32 ∧ verify E pub m ⟨R, S⟩ = .ok true} := by
    rintro S ⟨hl, h⟩ S' ⟨hl', h'⟩ he
    have hm : nafVal (leVal S') % L = nafVal (leVal S) % L := ((C62_forms_any E pub m R S S' hl hl' h).mp h').2
    have e1 := Int.emod_add_mul_ediv (nafVal (leVal S)) L
    have e2 := Int.emod_add_mul_ediv (nafVal (leVal S')) L
    dsimp only at he
    rw [hm, ← he, e1] at e2
    exact leVal_inj (by rw [hl, hl']) (nafVal_inj (hb S hl) (hb S' hl') e2)
  rw [← Set.InjOn.ncard_image hinj]
  have hsub : (fun S : Bytes => nafVal (leVal S) / L) '' {S : Bytes | S.length = 32 ∧ verify E pub m ⟨R, S⟩ = .ok true} ⊆
      (Finset.Ico (-8) 16 : Finset ℤ) := by
    rintro _ ⟨S, ⟨hl, -⟩, rfl⟩
    obtain ⟨b1, b2⟩ := nafVal_bounds (hb S hl)
    rw [Finset.coe_Ico, Set.mem_Ico]
    dsimp only
    rw [Int.le_ediv_iff_mul_le hL0, Int.ediv_lt_iff_lt_mul hL0]
    generalize nafVal (leVal S) = v at *
    generalize L = l at *
    norm_num at *
    omega
  have := Set.ncard_le_ncard hsub (Finset.finite_toSet _)
  rwa [Set.ncard_coe_finset, Int.card_Ico] at this

/-- With the public key of some private key, a signature made by Sign is accepted iff the challenge is 0 or the public key is the one
derived from the signing key. -/
theorem C68_genuine (k k' : PrivateKey) (pub : PublicKey) (hk : derivePublicKey E (some k') = .ok pub) (m : Bytes) (s : Signature)
    (h : sign E ⟨some k, pub⟩ m = .ok s) :
    verify E pub m s = .ok true ↔ challenge E s.R pub.raw m = 0 ∨ derivePublicKey E (some k) = .ok pub := by
  rw [C68_other_key E k k' pub hk m s h, ← hk, derive_spec, derive_spec, ← smul_B_eq_iff]
  constructor
  · rintro (h | h)
    · exact .inl h
    · right; unfold publicKeyOf; rw [h]
  · rintro (h | h)
    · exact .inl h
    · exact .inr (encodePoint_inj (PublicKey.mk.inj (Out.ok.inj h)))

/-- The hypotheses of C68 with a public key of another private key: with the hash `pick64` the 32-byte key has the scalar 2^254, the key of
65 bytes with last byte 11 the scalar 2^254 + 16, so `Sign` works and `Verify` refuses. -/
example (k : PrivateKey) (hk : k.raw.length = 32) : ∃ (k' : PrivateKey) (pub : PublicKey) (s : Signature),
    derivePublicKey Env.pick64 (some k') = .ok pub ∧ sign Env.pick64 ⟨some k, pub⟩ [3] = .ok s ∧
    verify Env.pick64 pub [3] s ≠ .ok true := by
  have hs' : secretScalar Env.pick64 (List.replicate 64 0 ++ [11]) = 2 ^ 254 + 16 := by
    unfold secretScalar
    have : Hash Env.pick64 (List.replicate 64 0 ++ [11]) = leBytes 64 16 := rfl
    rw [this]
    decide +kernel
  obtain ⟨k', hk'⟩ : ∃ k' : PrivateKey, k'.raw = List.replicate 64 0 ++ [11] := ⟨newPrivateKey _, rfl⟩
  obtain ⟨pub, hpub⟩ : ∃ p, p = publicKeyOf Env.pick64 k'.raw := ⟨_, rfl⟩
  have hl : pub.length = 32 := by rw [hpub]; exact publicKeyOf_length _ _
  have hd : derivePublicKey Env.pick64 (some k') = .ok ⟨pub⟩ := by rw [hpub]; exact derive_spec _ _
  have hc := pick64_challenge (sigR Env.pick64 k.raw [3]) pub 3 (encodePoint_length _) hl
  have hS : sigS Env.pick64 k.raw pub [3] = (5 + 8 * 2 ^ 254) % L := by
    unfold sigS
    rw [hc, pick64_nonce, pick64_scalar _ hk]
    rfl
  have hs := C19_sign Env.pick64 k ⟨pub⟩ [3]
  rw [if_pos (by rw [hS]; unfold LowBitsOk; rw [L_eq]; decide +kernel)] at hs
  refine ⟨k', ⟨pub⟩, _, hd, hs, fun h => ?_⟩
  rw [C68_other_key Env.pick64 k k' _ hd [3] _ hs, hk', hs', pick64_scalar _ hk] at h
  rcases h with h | h
  · have e : challenge Env.pick64 (encodePoint (nonce Env.pick64 k.raw [3] • B)) pub [3] = 5 + (3 : UInt8).toNat := hc
    dsimp only at h
    rw [e] at h
    exact absurd h (by decide)
  · rw [L_eq] at h
    revert h
    decide +kernel

/-! ## C77: the scalar modulo L is as good as the private key -/

/-- The clamped scalar is computed from its remainder modulo L. -/
theorem C77_unclamp (sk : Bytes) : unclamp (secretScalar E sk % L) = secretScalar E sk := by
  obtain ⟨c, hc, h1, h2⟩ := secretScalar_eight E sk
  unfold unclamp
  have hi : 8 * 2713877091499598330239944961141122840321418634767465352250731601857045344121 % L = 1 := by
    rw [L_eq]; decide +kernel
  have hcL : c < L := by have := L_gt; omega
  have : secretScalar E sk % L * 2713877091499598330239944961141122840321418634767465352250731601857045344121 % L = c := by
    rw [hc, Nat.mod_mul_mod, show 8 * c * 2713877091499598330239944961141122840321418634767465352250731601857045344121 =
      c * (8 * 2713877091499598330239944961141122840321418634767465352250731601857045344121) by ring, Nat.mul_mod, hi, Nat.mul_one,
      Nat.mod_mod, Nat.mod_eq_of_lt hcL]
  rw [this, hc]

/-- Whoever knows the scalar modulo L signs every message without the private key: any n gives an accepted signature, provided its S
passes the filter. -/
theorem C77_forge (k : PrivateKey) (pub : PublicKey) (hk : derivePublicKey E (some k) = .ok pub) (r : ℕ)
    (hr : r = secretScalar E k.raw % L) (m : Bytes) (n : ℕ)
    (hlow : LowBitsOk ((n + challenge E (encodePoint (n • B)) pub.raw m * r) % L)) :
    verify E pub m ⟨encodePoint (n • B), leBytes 32 ((n + challenge E (encodePoint (n • B)) pub.raw m * r) % L)⟩ = .ok true := by
  rw [derive_spec] at hk
  have hk := Out.ok.inj hk
  subst hk
  dsimp only at hlow ⊢
  have hv : leVal (leBytes 32 ((n + challenge E (encodePoint (n • B)) (publicKeyOf E k.raw) m * r) % L)) =
      (n + challenge E (encodePoint (n • B)) (publicKeyOf E k.raw) m * r) % L := leVal_leBytes_modL _
  rw [verify_derived E (leBytes_length _ _) (by rw [hv]; exact modL_lt255 _), hv]
  refine ⟨hlow, ?_⟩
  generalize challenge E (encodePoint (n • B)) (publicKeyOf E k.raw) m = c
  have e : ((n + c * r) % L) • B = n • B + (c * secretScalar E k.raw) • B := by
    rw [smul_B_mod, add_smul, add_right_inj, smul_B_eq_iff, hr, Nat.mul_mod_mod]
  rw [e, add_sub_cancel_right]

/-- ... and computes every shared key. -/
theorem C77_shared (k : PrivateKey) (r : ℕ) (hr : r = secretScalar E k.raw % L) (pub : PublicKey) (q : Pt) (hl : pub.raw.length = 32)
    (hq : Decodes pub.raw q) (salt : Bytes) (hs : salt.length = 32) :
    getSharedKey E 32 (some k) pub salt = .ok (hashesSha3_256 E (List.zipWith (· ^^^ ·) (encodePoint (unclamp r • q)) salt)) := by
  rw [hr, C77_unclamp, getSharedKey_ok E hl hq (by omega)]
  unfold xorPrefix
  rw [List.take_of_length_le (by rw [encodePoint_length]), List.take_of_length_le (by omega),
    List.drop_eq_nil_of_le (by rw [encodePoint_length]), List.append_nil]

/-- So two signatures of one message under two public keys (C58) give away all shared keys of the private key. -/
theorem C77_from_two_signatures (k : PrivateKey) (A1 A2 : PublicKey) (m : Bytes) (s1 s2 : Signature)
    (h1 : sign E ⟨some k, A1⟩ m = .ok s1) (h2 : sign E ⟨some k, A2⟩ m = .ok s2)
    (hc : challenge E s1.R A1.raw m ≠ challenge E s1.R A2.raw m) (pub : PublicKey) (q : Pt) (hl : pub.raw.length = 32)
    (hq : Decodes pub.raw q) (salt : Bytes) (hs : salt.length = 32) :
    getSharedKey E 32 (some k) pub salt = .ok (hashesSha3_256 E (List.zipWith (· ^^^ ·)
      (encodePoint (unclamp (recover (challenge E s1.R A1.raw m) (challenge E s1.R A2.raw m) (leVal s1.S) (leVal s2.S)) • q)) salt)) :=
  C77_shared E k _ (C58_two_public_keys E k A1 A2 m s1 s2 h1 h2 hc).2.1 pub q hl hq salt hs

theorem forge_filter {sk A m : Bytes} (h : LowBitsOk (sigS E sk A m)) :
    LowBitsOk ((nonce E sk m + challenge E (encodePoint (nonce E sk m • B)) A m * (secretScalar E sk % L)) % L) := by
  have e : ∀ n c a : ℕ, (n + c * (a % L)) % L = (n + c * a) % L := fun n c a => by
    rw [Nat.add_mod, Nat.mul_mod_mod, ← Nat.add_mod]
  rw [e]
  exact h

/-- The filter of C77_forge is passed in concrete cases: the signatures of Sign are among them, with n the nonce. -/
example : ∃ (k : PrivateKey) (n : ℕ), LowBitsOk ((n + challenge Env.toy (encodePoint (n • B)) (publicKeyOf Env.toy k.raw) [1, 2, 3] *
    (secretScalar Env.toy k.raw % L)) % L) :=
  ⟨newPrivateKey (List.replicate 32 7), _, forge_filter Env.toy toy_sign_ok⟩

end Ed
