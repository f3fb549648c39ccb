import Verif.Proofs.CostSteps
import Mathlib.Tactic.Linarith
import Mathlib.Tactic.Ring

/-!
# Prices, and bounds for the parts whose work depends on the data
-/

set_option autoImplicit false

namespace Ed
open Finset Cost

/-! ## Prices -/

theorem price_nil (w : Step → ℕ) : price w [] = 0 := rfl
theorem price_cons (w : Step → ℕ) (s : Step) (l : List Step) : price w (s :: l) = w s + price w l := by
  unfold price; rw [List.map_cons, List.sum_cons]
theorem price_append (w : Step → ℕ) (l l' : List Step) : price w (l ++ l') = price w l + price w l' := by
  unfold price; rw [List.map_append, List.sum_append]
theorem price_replicate (w : Step → ℕ) (s : Step) : ∀ n : ℕ, price w (List.replicate n s) = n * w s
  | 0 => by rw [List.replicate_zero, price_nil, Nat.zero_mul]
  | n + 1 => by rw [List.replicate_succ, price_cons, price_replicate w s n]; ring
theorem price_replicate_flatten (w : Step → ℕ) (l : List Step) : ∀ n : ℕ, price w (List.replicate n l).flatten = n * price w l
  | 0 => by rw [List.replicate_zero, List.flatten_nil, price_nil, Nat.zero_mul]
  | n + 1 => by rw [List.replicate_succ, List.flatten_cons, price_append, price_replicate_flatten w l n]; ring

section prices
variable (w : Step → ℕ)

theorem price_sPow9 : price w sPow9 = 3 * w .sq + w .mul := by
  unfold sPow9; simp only [price_cons, price_nil]; ring
theorem price_sPow252 : price w sPow252 = 10 * w .mul + 252 * w .sq := by
  unfold sPow252; simp only [price_cons, price_nil, price_append, price_replicate, price_sPow9]; ring
theorem price_sInvert : price w sInvert = 13 * w .mul + 259 * w .sq := by
  unfold sInvert; simp only [price_cons, price_nil, price_append, price_replicate, price_sPow9, price_sPow252]; ring
theorem price_sSqrt : price w sSqrt = 16 * w .mul + 254 * w .sq := by
  unfold sSqrt; simp only [price_cons, price_nil, price_append, price_sPow252]; ring

theorem price_sEncode : price w sEncode = 15 * w .mul + 259 * w .sq + 2 * w .enc := by
  unfold sEncode; simp only [price_cons, price_nil, price_append, price_sInvert]; ring
theorem price_sAddP3 : price w sAddP3 = 5 * w .add + 4 * w .sub + 9 * w .mul := by
  unfold sAddP3 sToCached sAdd sToP3; simp only [price_cons, price_nil, price_append]; ring
theorem price_sEntry : price w sEntry = w .add + w .sub + 17 * w .mul + 259 * w .sq := by
  unfold sEntry; simp only [price_cons, price_nil, price_append, price_sInvert]; ring
theorem price_sSingle : price w sSingle = 2816 * w .add + 2304 * w .sub + 8960 * w .mul + 66304 * w .sq := by
  unfold sSingle sRow sDoubles
  simp only [price_append, price_replicate_flatten, price_sAddP3, price_sEntry]; ring
theorem price_sDouble : price w sDouble = 88 * w .add + 72 * w .sub + 280 * w .mul + 2072 * w .sq := by
  unfold sDouble; simp only [price_append, price_replicate_flatten, price_sAddP3, price_sEntry]; ring
theorem price_sScalar : price w sScalar = 264 * w .add + 204 * w .sub + 64 * w .neg + 461 * w .mul + 12 * w .sq + 4 * w .sqd := by
  unfold sScalar sScalarStep sTimes16 sPrecAdd sToP3 sDbl sToP2
  simp only [price_append, price_cons, price_nil, price_replicate_flatten]; ring
theorem price_sPrecSub : price w sPrecSub = price w sPrecAdd := by
  unfold sPrecSub sPrecAdd; simp only [price_cons, price_nil]; ring

end prices

/-! ## Bounds that hold for failing calls too -/

/-- Whatever the steps cost, the call costs at most `l`. -/
def Within {α : Type} (x : Cost α) (l : List Step) : Prop := ∀ w, price w x.steps ≤ price w l

theorem Within.bind {α β : Type} {x : Cost α} {f : α → Cost β} {l l' : List Step} (h : Within x l) (h' : ∀ a, x.out = .ok a → Within (f a) l') :
    Within (x >>= f) (l ++ l') := by
  intro w
  rw [price_append]
  have := h w
  cases hx : x.out with
  | ok a =>
    have := h' a hx w
    rw [bind_steps hx, price_append]; omega
  | err m => rw [bind_steps_err (by rw [hx]; nofun)]; omega
  | panic => rw [bind_steps_err (by rw [hx]; nofun)]; omega

theorem Within.tick {α β : Type} {s : Step} {a : α} {f : α → Cost β} {l : List Step} (h : Within (f a) l) : Within (Cost.tick s a >>= f) (s :: l) :=
  Within.bind (l := [s]) (fun _ => le_refl _) fun b hb => by rw [Out.ok.inj hb] at h; exact h

theorem Within.lift {α β : Type} {o : Out α} {f : α → Cost β} {l : List Step} (h : ∀ a, o = .ok a → Within (f a) l) : Within (Cost.lift o >>= f) l :=
  Within.bind (l := []) (fun _ => le_refl _) h

theorem Within.mapOut {α β : Type} {x : Cost α} {f : Out α → Out β} {l : List Step} (h : Within x l) : Within (x.mapOut f) l := h

theorem Within.mono {α : Type} {x : Cost α} {l l' : List Step} (h : Within x l) (h' : ∀ w, price w l ≤ price w l') : Within x l' :=
  fun w => le_trans (h w) (h' w)

theorem within_tick {α : Type} (s : Step) (a : α) : Within (Cost.tick s a) [s] := fun _ => le_refl _
theorem within_lift {α : Type} (o : Out α) (l : List Step) : Within (Cost.lift o) l := fun _ => Nat.zero_le _
theorem within_pure {α : Type} (a : α) (l : List Step) : Within (pure a : Cost α) l := fun _ => Nat.zero_le _

theorem Within.bind' {α β : Type} {x : Cost α} {f : α → Cost β} {l : List Step} (h : Within x l) (h' : ∀ a, Within (f a) []) : Within (x >>= f) l := by
  have := Within.bind h fun a _ => h' a
  rwa [List.append_nil] at this

theorem Cost.Takes.within {α : Type} {x : Cost α} {l : List Step} (h : Takes x l) {a : α} (hx : x.out = .ok a) : Within x l := by
  intro w; rw [h a hx]

namespace GC
open FE

theorem toP2_within (g : GC) : Within g.toP2C sToP2 := by
  unfold toP2C mulC
  split
  · exact Within.lift fun _ _ => Within.tick (Within.tick (Within.tick (within_pure _ _)))
  · exact within_lift _ _

theorem toP3_within (g : GC) : Within g.toP3C sToP3 := by
  unfold toP3C mulC
  split
  · exact Within.lift fun _ _ => Within.tick (Within.tick (Within.tick (Within.tick (within_pure _ _))))
  · exact within_lift _ _

theorem toCached_within (g : GC) : Within g.toCachedC sToCached := by
  unfold toCachedC mulC FE.addC subC
  split
  · exact Within.tick (Within.tick (Within.lift fun _ _ => Within.tick (within_pure _ _)))
  · exact within_lift _ _

theorem dbl_within (g : GC) : Within g.dblC sDbl := by
  unfold dblC sqC sqdC FE.addC subC
  split
  · exact Within.tick (Within.tick (Within.tick (Within.tick (Within.tick (Within.tick (Within.tick (Within.tick (Within.tick (within_pure _ _)))))))))
  · exact Within.tick (Within.tick (Within.tick (Within.tick (Within.tick (Within.tick (Within.tick (Within.tick (Within.tick (within_pure _ _)))))))))
  · exact within_lift _ _

theorem precAdd_within (r g : GC) : Within (r.precomputedAddC g) sPrecAdd := by
  unfold precomputedAddC FE.addC subC mulC
  split
  · exact within_lift _ _
  · split
    · exact within_lift _ _
    · exact Within.tick (Within.tick (Within.tick (Within.tick (Within.lift fun _ _ => Within.tick (Within.tick (Within.tick (Within.tick (Within.tick
        (Within.tick (within_pure _ _)))))))))) 

theorem precSub_within (r g : GC) : Within (r.precomputedSubtractC g) sPrecAdd := by
  refine Within.mono (l := sPrecSub) ?_ fun w => le_of_eq (price_sPrecSub w)
  unfold precomputedSubtractC FE.addC subC mulC
  split
  · exact within_lift _ _
  · split
    · exact within_lift _ _
    · exact Within.tick (Within.tick (Within.tick (Within.tick (Within.lift fun _ _ => Within.tick (Within.tick (Within.tick (Within.tick (Within.tick
        (Within.tick (within_pure _ _)))))))))) 

theorem add_within (r g : GC) : Within (r.addC g) sAdd := by
  unfold GC.addC FE.addC subC mulC
  split
  · exact within_lift _ _
  · split
    · exact within_lift _ _
    · exact Within.tick (Within.tick (Within.tick (Within.tick (Within.lift fun _ _ => Within.lift fun _ _ => Within.tick (Within.tick (Within.tick
        (Within.tick (Within.tick (Within.tick (Within.tick (within_pure _ _))))))))))) 

theorem addP3_within (b c : GC) : Within (b.addP3C c) sAddP3 := by
  unfold addP3C
  exact Within.bind (toCached_within c) fun c' _ => Within.bind (add_within _ _) fun s _ => toP3_within s

theorem entry_within (b : GC) : Within b.precEntryC sEntry := (entry_takes b).within (precEntryC_out b)

theorem odd_within (r : GC) : ∀ (n : ℕ) (b : GC), Within (precOddC r n b) (List.replicate n (sEntry ++ (sAddP3 ++ sAddP3))).flatten
  | 0, _ => within_pure _ _
  | n + 1, b => by
    rw [precOddC, List.replicate_succ, List.flatten_cons, List.append_assoc, List.append_assoc]
    exact Within.bind (entry_within b) fun _ _ => Within.bind (addP3_within _ _) fun s hs => Within.bind (addP3_within _ _) fun b' _ =>
      Within.bind' (odd_within r n b') fun _ => within_pure _ _

theorem row_within (bi : GC) : ∀ (n : ℕ) (b : GC), Within (precRowC bi n b) (List.replicate n (sEntry ++ sAddP3)).flatten
  | 0, _ => within_pure _ _
  | n + 1, b => by
    rw [precRowC, List.replicate_succ, List.flatten_cons, List.append_assoc]
    exact Within.bind (entry_within b) fun _ _ => Within.bind (addP3_within _ _) fun b' _ =>
      Within.bind' (row_within bi n b') fun r => within_pure _ _

theorem doubles_within : ∀ (n : ℕ) (b : GC), Within (doubleNC n b) (List.replicate n sAddP3).flatten
  | 0, _ => within_pure _ _
  | n + 1, b => by
    rw [doubleNC, List.replicate_succ, List.flatten_cons]
    exact Within.bind (addP3_within _ _) fun b' _ => doubles_within n b'

theorem rows_within : ∀ (n : ℕ) (b : GC), Within (precRowsC n b) (List.replicate n (sRow ++ sDoubles)).flatten
  | 0, _ => within_pure _ _
  | n + 1, b => by
    rw [precRowsC, List.replicate_succ, List.flatten_cons, List.append_assoc]
    exact Within.bind (row_within b 8 b) fun r _ => Within.bind (doubles_within 8 b) fun b' _ =>
      Within.bind' (rows_within n b') fun _ => within_pure _ _

def sDecode : List Step :=
  [.dec, .sq, .sub, .mul, .add] ++ (sSqrt ++ [.sq, .mul, .sub, .enc, .add, .enc, .mul, .enc, .neg, .dec, .mul])

theorem sqrt_within (u v : FE) : Within (sqrtC u v) sSqrt := fun w => le_of_eq (by rw [sqrt_takes u v _ (sqrtC_out u v)])

theorem getAffineY_within (raw : Bytes) : Within (getAffineYC raw) [.dec] := by
  unfold getAffineYC decC
  exact Within.lift fun _ _ => within_tick _ _

theorem decode_within (raw : Bytes) : Within (GC.decodeC raw) sDecode := by
  have key : Within (getAffineXC raw) ([.dec] ++ (.sq :: .sub :: .mul :: .add :: (sSqrt ++ (.sq :: .mul :: .sub :: .enc ::
      ([.add, .enc, .mul] ++ [.enc, .neg]))))) := by
    have hs := sqrt_within
    have hy := getAffineY_within raw
    unfold getAffineXC sqC mulC subC FE.addC isNonZeroC isNegativeC negC
    generalize FE.multiply = m, FE.square = q, FE.subtract = sb, FE.add = ad, FE.isNonZero = nzf, FE.isNegative = ng, FE.negate = nt,
      FE.one = o, dFE = d, iFE = i', sSqrt = l, sqrtC = sq, getAffineYC raw = ay at *
    as_aux_lemma =>
      refine Within.bind hy fun y _ => Within.tick (Within.tick (Within.tick (Within.tick
        (Within.bind (hs _ _) fun x _ => Within.tick (Within.tick (Within.tick (Within.tick
        ?_)))))))
      have ht : ∀ x : FE, Within (do
          let n ← Cost.tick .enc (ng x)
          if (n != getBitToBool raw 255) = true then Cost.tick .neg (nt x) else pure x) [.enc, .neg] := by
        intro x
        refine Within.tick ?_
        split
        · exact within_tick _ _
        · exact within_pure _ _
      have up : ∀ (x : Cost FE) (l l' : List Step), Within x l → (∀ w, price w l ≤ price w l') → Within x l' := fun x l l' h h' => h.mono h'
      dsimp only
      split
      · refine up _ (.add :: .enc :: .mul :: [.enc, .neg]) _ (Within.tick (Within.tick ?_)) fun w => le_refl _
        split
        · exact Within.lift fun _ h => nomatch h
        · exact Within.tick (ht _)
      · refine (ht _).mono fun w => ?_
        simp only [price_append, price_cons, price_nil]
        omega
  have hy := getAffineY_within raw
  have hp : ∀ w, price w (([.dec] ++ (.sq :: .sub :: .mul :: .add :: (sSqrt ++ (.sq :: .mul :: .sub :: .enc ::
      ([.add, .enc, .mul] ++ [.enc, .neg]))))) ++ ([.dec] ++ [.mul])) ≤ price w sDecode := by
    intro w
    unfold sDecode
    generalize sSqrt = l
    simp only [price_append, price_cons, price_nil]
    omega
  unfold GC.decodeC mulC
  generalize FE.multiply = m, sDecode = l', getAffineYC raw = ay, getAffineXC raw = ax, FE.one = o,
    [Step.dec] ++ (.sq :: .sub :: .mul :: .add :: (sSqrt ++ (.sq :: .mul :: .sub :: .enc ::
      ([.add, .enc, .mul] ++ [.enc, .neg])))) = lx at *
  as_aux_lemma =>
    exact (Within.bind key fun x _ => Within.bind hy fun y _ => Within.tick (within_pure _ _)).mono hp

theorem price_sDecode (w : Step → ℕ) : price w sDecode = 2 * w .dec + 2 * w .add + 2 * w .sub + w .neg + 20 * w .mul + 256 * w .sq + 3 * w .enc := by
  unfold sDecode; simp only [price_cons, price_nil, price_append, price_sSqrt]; ring

end GC

namespace GE
open FE GC

theorem single_within (g : GE) : Within g.precomputeForScalarMultiplicationC sSingle := by
  unfold precomputeForScalarMultiplicationC
  split
  · exact within_pure _ _
  · exact Within.bind' (rows_within 32 _) fun _ => within_pure _ _

theorem double_within (g : GE) : Within g.precomputeForDoubleScalarMultiplicationC sDouble := by
  unfold precomputeForDoubleScalarMultiplicationC
  split
  · exact within_pure _ _
  · exact Within.bind' (odd_within _ 8 _) fun _ => within_pure _ _

/-- The work of one digit. -/
def sDigit (d : Int8) : List Step := if d = 0 then [] else sToP3 ++ sPrecAdd

theorem sDigit_ne {d : Int8} (h : d ≠ 0) : sDigit d = sToP3 ++ sPrecAdd := if_neg h

theorem subDigit_within (A : GE) (a : Int8) (t : GC) : Within (subDigitC A a t) (sDigit a) := by
  unfold subDigitC
  split
  · next h =>
    rw [sDigit_ne (fun e => by subst e; exact absurd h (by decide))]
    exact Within.bind (toP3_within t) fun t _ => Within.lift fun q _ => precSub_within t q
  · split
    · next h =>
      rw [sDigit_ne (fun e => by subst e; exact absurd h (by decide))]
      exact Within.bind (toP3_within t) fun t _ => Within.lift fun q _ => precAdd_within t q
    · exact within_pure _ _

theorem addDigit_within (A : GE) (a : Int8) (t : GC) : Within (addDigitC A a t) (sDigit a) := by
  unfold addDigitC
  split
  · next h =>
    rw [sDigit_ne (fun e => by subst e; exact absurd h (by decide))]
    exact Within.bind (toP3_within t) fun t _ => Within.lift fun q _ => precAdd_within t q
  · split
    · next h =>
      rw [sDigit_ne (fun e => by subst e; exact absurd h (by decide))]
      exact Within.bind (toP3_within t) fun t _ => Within.lift fun q _ => precSub_within t q
    · exact within_pure _ _

theorem doubleStep_within (g A : GE) (a b : Int8) (r : GC) : Within (doubleStepC g A a b r) (sDbl ++ (sDigit a ++ (sDigit b ++ sToP2))) := by
  unfold doubleStepC
  exact Within.bind (dbl_within r) fun t _ => Within.bind (subDigit_within A a t) fun t _ => Within.bind (addDigit_within g b t) fun t _ => toP2_within t

/-- The number of non-zero digits below `n`. -/
def nz (e : Digits) (n : ℕ) : ℕ := ((range n).filter fun j => e j ≠ 0).card

theorem nz_succ (e : Digits) (n : ℕ) : nz e (n + 1) = nz e n + if e n ≠ 0 then 1 else 0 := by
  unfold nz
  rw [Finset.range_add_one, Finset.filter_insert]
  split
  · rw [Finset.card_insert_of_notMem (by simp)]
  · rfl

theorem price_sDigit (w : Step → ℕ) (d : Int8) : price w (sDigit d) = (if d ≠ 0 then 1 else 0) * price w (sToP3 ++ sPrecAdd) := by
  unfold sDigit
  by_cases h : d = 0
  · rw [if_pos h, if_neg (not_not.2 h), price_nil, Nat.zero_mul]
  · rw [if_neg h, if_pos h, Nat.one_mul]

theorem loop_price (w : Step → ℕ) (g A : GE) (aS bS : Digits) : ∀ (n : ℕ) (flag : Bool) (r : GC),
    price w (doubleLoopC g A aS bS n flag r).steps ≤ n * price w (sDbl ++ sToP2) + (nz aS n + nz bS n) * price w (sToP3 ++ sPrecAdd)
  | 0, _, _ => Nat.zero_le _
  | n + 1, flag, r => by
    rw [nz_succ, nz_succ]
    have hz : ∀ x y u v p q : ℕ, x ≤ n * p + (u + v) * q → x ≤ (n + 1) * p + (u + (if aS n ≠ 0 then 1 else 0) + (v + if bS n ≠ 0 then 1 else 0)) * q := by
      intro x y u v p q hx
      refine le_trans hx (Nat.add_le_add (Nat.mul_le_mul_right _ (by omega)) (Nat.mul_le_mul_right _ (by omega)))
    rw [doubleLoopC]
    split
    · have h1 := doubleStep_within g A (aS n) (bS n) r w
      cases hx : (doubleStepC g A (aS n) (bS n) r).out with
      | ok r' =>
        have h3 := loop_price w g A aS bS n (flag || aS n != 0 || bS n != 0) r'
        rw [bind_steps hx, price_append]
        simp only [price_append, price_sDigit] at h1 h3 ⊢
        generalize price w (doubleStepC g A (aS n) (bS n) r).steps = x, price w (doubleLoopC g A aS bS n (flag || aS n != 0 || bS n != 0) r').steps = y,
          price w sDbl = p, price w sToP2 = p', price w sToP3 = q, price w sPrecAdd = q', nz aS n = u, nz bS n = v,
          (if aS n ≠ 0 then 1 else 0) = s, (if bS n ≠ 0 then 1 else 0) = t at *
        nlinarith
      | err m =>
        rw [bind_steps_err (by rw [hx]; nofun)]
        simp only [price_append, price_sDigit] at h1 ⊢
        generalize price w (doubleStepC g A (aS n) (bS n) r).steps = x,
          price w sDbl = p, price w sToP2 = p', price w sToP3 = q, price w sPrecAdd = q', nz aS n = u, nz bS n = v,
          (if aS n ≠ 0 then 1 else 0) = s, (if bS n ≠ 0 then 1 else 0) = t at *
        have e1 : 0 ≤ n * (p + p') := Nat.zero_le _
        have e2 : 0 ≤ (u + v) * (q + q') := Nat.zero_le _
        nlinarith
      | panic =>
        rw [bind_steps_err (by rw [hx]; nofun)]
        simp only [price_append, price_sDigit] at h1 ⊢
        generalize price w (doubleStepC g A (aS n) (bS n) r).steps = x,
          price w sDbl = p, price w sToP2 = p', price w sToP3 = q, price w sPrecAdd = q', nz aS n = u, nz bS n = v,
          (if aS n ≠ 0 then 1 else 0) = s, (if bS n ≠ 0 then 1 else 0) = t at *
        have e1 : 0 ≤ n * (p + p') := Nat.zero_le _
        have e2 : 0 ≤ (u + v) * (q + q') := Nat.zero_le _
        nlinarith
    · exact hz _ 0 _ _ _ _ (loop_price w g A aS bS n _ r)

theorem int8_ne_zero (d : Int8) : d ≠ 0 ↔ d.toInt ≠ 0 := by
  rw [not_iff_not]
  exact ⟨fun h => by rw [h]; rfl, fun h => Int8.toInt_inj.1 (by rw [h]; rfl)⟩

theorem nz_slide (a : Bytes) : nz (slide a) 256 ≤ 52 := by
  have hn := (slide_isNaf5 a).2
  unfold nz
  refine le_trans (Finset.card_le_card_of_injOn (fun j => j / 5) (t := range 52) ?_ ?_) (by rw [Finset.card_range])
  · intro j hj
    have hj := (Finset.mem_filter.1 (Finset.mem_coe.1 hj)).1
    rw [Finset.mem_range] at hj
    rw [Finset.mem_coe, Finset.mem_range]
    dsimp only
    omega
  · intro j hj k hk e
    have hj := Finset.mem_filter.1 (Finset.mem_coe.1 hj)
    have hk := Finset.mem_filter.1 (Finset.mem_coe.1 hk)
    have hj1 := Finset.mem_range.1 hj.1
    have hk1 := Finset.mem_range.1 hk.1
    have hj2 := (int8_ne_zero _).1 hj.2
    have hk2 := (int8_ne_zero _).1 hk.2
    dsimp only at e
    rcases Nat.lt_trichotomy j k with h | h | h
    · exact absurd (hn j k h (by omega) hk1 hj2) hk2
    · exact h
    · exact absurd (hn k j h (by omega) hj1 hk2) hj2

def sLoop : List Step := (List.replicate 256 (sDbl ++ sToP2)).flatten ++ (List.replicate 104 (sToP3 ++ sPrecAdd)).flatten

theorem price_sLoop (w : Step → ℕ) : price w sLoop = 928 * w .add + 1080 * w .sub + 1496 * w .mul + 768 * w .sq + 256 * w .sqd := by
  unfold sLoop sDbl sToP2 sToP3 sPrecAdd
  simp only [price_append, price_replicate_flatten, price_cons, price_nil]; ring

theorem doubleScalar_within (g A : GE) (a b : Bytes) : Within (g.doubleScalarMultiplyVariableTimeC A a b) sLoop := by
  intro w
  unfold doubleScalarMultiplyVariableTimeC
  refine le_trans (loop_price w g A _ _ 256 false _) ?_
  unfold sLoop
  rw [price_append w (List.replicate 256 _).flatten, price_replicate_flatten, price_replicate_flatten]
  have h1 := nz_slide a
  have h2 := nz_slide b
  exact Nat.add_le_add_left (Nat.mul_le_mul_right _ (by omega)) _

theorem doubleStep_sys {g A : GE} {a b : Int8} {r r' : GC} (e : doubleStep g A a b r = .ok r') : r'.sys = .p2 := by
  unfold doubleStep at e
  cases h1 : r.dbl with
  | err m => rw [h1] at e; exact nomatch e
  | panic => rw [h1] at e; exact nomatch e
  | ok t =>
  rw [h1, Out.ok_bind] at e
  cases h2 : subDigit A a t with
  | err m => rw [h2] at e; exact nomatch e
  | panic => rw [h2] at e; exact nomatch e
  | ok t =>
  rw [h2, Out.ok_bind] at e
  cases h3 : addDigit g b t with
  | err m => rw [h3] at e; exact nomatch e
  | panic => rw [h3] at e; exact nomatch e
  | ok t =>
  rw [h3, Out.ok_bind] at e
  exact sys_toP2 e

theorem doubleLoop_sys {g A : GE} {aS bS : Digits} : ∀ (n : ℕ) (flag : Bool) (r r' : GC), r.sys = .p2 → doubleLoop g A aS bS n flag r = .ok r' → r'.sys = .p2
  | 0, _, r, r', h, e => by rw [← Out.ok.inj e]; exact h
  | n + 1, flag, r, r', h, e => by
    rw [doubleLoop] at e
    split at e
    · cases hx : doubleStep g A (aS n) (bS n) r with
      | ok t => rw [hx] at e; exact doubleLoop_sys n _ t r' (doubleStep_sys hx) e
      | err m => rw [hx] at e; exact nomatch e
      | panic => rw [hx] at e; exact nomatch e
    · exact doubleLoop_sys n _ r r' h e

theorem doubleScalar_sys {g A : GE} {a b : Bytes} {h : GC} (e : g.doubleScalarMultiplyVariableTime A a b = .ok h) : h.sys = .p2 := by
  unfold doubleScalarMultiplyVariableTime at e
  exact doubleLoop_sys 256 false _ h rfl e

end GE

end Ed
