import Verif.Props.Unique
import Verif.Props.Secrecy

/-!
# Property C106: salts, initialization vectors and ciphertexts do not repeat
-/

set_option autoImplicit false

namespace Ed

open Finset

variable {ι : Type}

/-- What `n` calls of `Encrypt` return, one after the other.  `next` chooses the conversation and the message of the next call when it has seen the results so
far (`seen`). -/
def encryptions (E : Env) (c : ι → BlockCipher) (next : List (Out Bytes) → ι × Bytes) : ℕ → List (Out Bytes) → World → List (Out Bytes)
  | 0, seen, _ => seen
  | n + 1, seen, w =>
    let r := (c (next seen).1).encrypt E (next seen).2 w
    encryptions E c next n (seen ++ [r.1]) r.2

theorem encryptions_spec (E : Env) (c : ι → BlockCipher) (next : List (Out Bytes) → ι × Bytes) (seed : ℕ) (hc : ∀ i, (c i).Works ∧ (c i).seed = seed) :
    ∀ (n : ℕ) (seen : List (Out Bytes)) (w : World) (t : Tape n) (rest : Bytes), ErrorFree (w seed) → content (w seed) = t.bytes ++ rest →
    ∃ outs : Fin n → Bytes, encryptions E c next n seen w = seen ++ List.ofFn (fun i => Out.ok (outs i)) ∧
      ∀ i, (outs i).take 48 = (t i).1.bytes ++ (t i).2.bytes := by
  intro n
  induction n with
  | zero =>
    intro seen w t rest _ _
    exact ⟨fun i => i.elim0, by simp [encryptions], fun i => i.elim0⟩
  | succ n ih =>
    intro seen w t rest hf hw
    obtain ⟨⟨⟨k, hk⟩, hkl, hl, q, hq⟩, hs⟩ := hc (next seen).1
    have ht : t = Fin.cons (t 0) (Fin.tail t) := (Fin.cons_self_tail t).symm
    have hlen : ((t 0).1.bytes ++ (t 0).2.bytes).length = 48 := by rw [List.length_append, Key.bytes_length, Block.bytes_length]
    rw [ht, Tape.bytes_cons, List.append_assoc] at hw
    have h1 := C28_encrypt E (c (next seen).1) k q (next seen).2 w hk hkl hl hq (by rw [hs]; exact hf)
      (by rw [hs, hw, List.length_append, hlen]; omega)
    obtain ⟨out, h1, h2, h3, h4, -⟩ := h1
    rw [hs, hw, List.take_left' hlen] at h2
    rw [hs, hw, List.drop_left' hlen] at h3
    rw [hs] at h4
    obtain ⟨outs, h5, h6⟩ := ih (seen ++ [.ok out]) _ (Fin.tail t) rest h4 h3
    refine ⟨Fin.cons out outs, ?_, ?_⟩
    · unfold encryptions
      dsimp only
      rw [h1, h5, List.ofFn_succ, List.append_assoc]
      simp
    · intro i
      refine Fin.cases ?_ (fun j => ?_) i
      · simpa using h2
      · simpa [Fin.tail] using h6 j

theorem prob_same {D : Type} [Fintype D] [Nonempty D] {n : ℕ} {i j : Fin n} (h : i ≠ j) {β : Type} (φ : D → β) (c : ℝ)
    (hc : ∀ y, (avg fun d : D => ind (φ d = y)) = c) : (prob fun t : Fin n → D => φ (t i) = φ (t j)) = c := by
  rw [prob_eq_avg, avg_two h fun d d' => ind (φ d = φ d'), avg_comm, avg_congr fun d' => hc (φ d')]
  exact avg_const c

theorem card_Block_real : (Fintype.card Block : ℝ) = 2 ^ 128 := by
  have : Fintype.card Block = 2 ^ 128 := Fintype.card_fin _
  rw [this, Nat.cast_pow, Nat.cast_ofNat]

theorem prob_block (y : Block) : (avg fun d : Block => ind (d = y)) = 1 / 2 ^ 128 := by
  have h1 : (∑ x : Block, ind (x = y)) = 1 := by
    rw [Finset.sum_eq_single y (fun b _ hb => ind_false hb) (fun h => absurd (mem_univ _) h)]
    exact ind_true rfl
  unfold avg
  rw [h1, card_Block_real]

theorem avg_salt (y : Key) : (avg fun d : Key × Block => ind (d.1 = y)) = 1 / 2 ^ 256 := by
  rw [avg_prod, avg_congr fun x => avg_const (α := Block) (ind (x = y)), ← prob_eq_avg]
  exact prob_key y

theorem avg_iv (y : Block) : (avg fun d : Key × Block => ind (d.2 = y)) = 1 / 2 ^ 128 := by
  rw [avg_prod, avg_congr fun x => prob_block y]
  exact avg_const (α := Key) _

theorem avg_both (y : Key × Block) : (avg fun d : Key × Block => ind (d = y)) = 1 / 2 ^ 384 := by
  have h1 : (∑ x : Key × Block, ind (x = y)) = 1 := by
    rw [Finset.sum_eq_single y (fun b _ hb => ind_false hb) (fun h => absurd (mem_univ _) h)]
    exact ind_true rfl
  unfold avg
  rw [h1, Fintype.card_prod, Nat.cast_mul, card_Block_real, card_Key, Nat.cast_pow, Nat.cast_ofNat, ← pow_add]

section

variable (E : Env) (c : ι → BlockCipher) (next : List (Out Bytes) → ι × Bytes) (seed : ℕ) (hc : ∀ i, (c i).Works ∧ (c i).seed = seed) {n : ℕ}
  (w : Tape n → World) (rest : Tape n → Bytes) (hw : ∀ t, ErrorFree (w t seed) ∧ content (w t seed) = t.bytes ++ rest t)

include hc hw

/-- Something about two of the results, in terms of the random bytes. -/
theorem two_outputs (i j : Fin n) (φ : Bytes → Bytes) (ψ : Key × Block → Bytes) (hφ : ∀ b, φ b = φ (b.take 48))
    (hψ : ∀ x : Key × Block, φ (x.1.bytes ++ x.2.bytes) = ψ x) (t : Tape n) :
    (∃ a b, (encryptions E c next n [] (w t))[i.val]? = some (.ok a) ∧ (encryptions E c next n [] (w t))[j.val]? = some (.ok b) ∧ φ a = φ b) ↔ ψ (t i) = ψ (t j) := by
  obtain ⟨outs, h1, h2⟩ := encryptions_spec E c next seed hc n [] (w t) t (rest t) (hw t).1 (hw t).2
  have h3 : ∀ i : Fin n, (encryptions E c next n [] (w t))[i.val]? = some (.ok (outs i)) := fun i => by
    rw [h1, List.nil_append, List.getElem?_ofFn, dif_pos i.isLt]
  have h4 : ∀ i, φ (outs i) = ψ (t i) := fun i => by rw [hφ, h2, hψ]
  rw [h3, h3]
  constructor
  · rintro ⟨a, b, ha, hb, h⟩
    rw [← Out.ok.inj (Option.some.inj ha), ← Out.ok.inj (Option.some.inj hb)] at h
    rw [← h4, ← h4, h]
  · intro h
    exact ⟨_, _, rfl, rfl, by rw [h4, h4, h]⟩

/-- C106: let the reader deliver random bytes, enough for `n` calls of `Encrypt`.  All calls succeed, whatever conversations and messages are chosen, and
however the choice depends on the earlier ciphertexts. -/
theorem C106_all_succeed (t : Tape n) : (encryptions E c next n [] (w t)).length = n ∧ ∀ r ∈ encryptions E c next n [] (w t), ∃ out, r = .ok out := by
  obtain ⟨outs, h1, -⟩ := encryptions_spec E c next seed hc n [] (w t) t (rest t) (hw t).1 (hw t).2
  rw [h1, List.nil_append]
  refine ⟨List.length_ofFn, fun r hr => ?_⟩
  obtain ⟨i, rfl⟩ := List.mem_ofFn.1 hr
  exact ⟨_, rfl⟩

/-- C106: two calls get the same salt with a probability of exactly 1 / 2^256, … -/
theorem C106_two_salts (i j : Fin n) (h : i ≠ j) : (prob fun t => ∃ a b, (encryptions E c next n [] (w t))[i.val]? = some (.ok a) ∧
    (encryptions E c next n [] (w t))[j.val]? = some (.ok b) ∧ a.take 32 = b.take 32) = 1 / 2 ^ 256 := by
  rw [← prob_same h (fun d : Key × Block => d.1) _ avg_salt]
  refine prob_congr fun t => ?_
  rw [two_outputs E c next seed hc w rest hw i j (fun b => b.take 32) (fun x => x.1.bytes) (fun b => by rw [List.take_take]; rfl)
    (fun x => List.take_left' (Key.bytes_length _)) t]
  exact ⟨fun h => Key.bytes_inj h, fun h => by rw [h]⟩

/-- C106: … the same initialization vector with a probability of exactly 1 / 2^128, … -/
theorem C106_two_ivs (i j : Fin n) (h : i ≠ j) : (prob fun t => ∃ a b, (encryptions E c next n [] (w t))[i.val]? = some (.ok a) ∧
    (encryptions E c next n [] (w t))[j.val]? = some (.ok b) ∧ (a.drop 32).take 16 = (b.drop 32).take 16) = 1 / 2 ^ 128 := by
  rw [← prob_same h (fun d : Key × Block => d.2) _ avg_iv]
  refine prob_congr fun t => ?_
  rw [two_outputs E c next seed hc w rest hw i j (fun b => (b.drop 32).take 16) (fun x => x.2.bytes)
    (fun b => by rw [List.drop_take, List.take_take]; rfl)
    (fun x => by rw [List.drop_left' (Key.bytes_length _), List.take_of_length_le (Block.bytes_length _).le]) t]
  exact ⟨fun h => Block.bytes_inj h, fun h => by rw [h]⟩

/-- C106: … and both with a probability of exactly 1 / 2^384, also for the same message in the same conversation. -/
theorem C106_two_prefixes (i j : Fin n) (h : i ≠ j) : (prob fun t => ∃ a b, (encryptions E c next n [] (w t))[i.val]? = some (.ok a) ∧
    (encryptions E c next n [] (w t))[j.val]? = some (.ok b) ∧ a.take 48 = b.take 48) = 1 / 2 ^ 384 := by
  rw [← prob_same h (fun d : Key × Block => d) _ avg_both]
  refine prob_congr fun t => ?_
  rw [two_outputs E c next seed hc w rest hw i j (fun b => b.take 48) (fun x => x.1.bytes ++ x.2.bytes) (fun b => by rw [List.take_take]; rfl)
    (fun x => List.take_of_length_le (by rw [List.length_append, Key.bytes_length, Block.bytes_length])) t]
  refine ⟨fun h => ?_, fun h => by rw [h]⟩
  have h1 := List.append_inj h (by rw [Key.bytes_length, Key.bytes_length])
  exact Prod.ext (Key.bytes_inj h1.1) (Block.bytes_inj h1.2)

theorem some_pair (φ : Bytes → Bytes) (p : ℝ) (hp : ∀ i j : Fin n, i ≠ j → (prob fun t => ∃ a b, (encryptions E c next n [] (w t))[i.val]? = some (.ok a) ∧
    (encryptions E c next n [] (w t))[j.val]? = some (.ok b) ∧ φ a = φ b) ≤ p) :
    (prob fun t => ∃ (i j : ℕ) (a b : Bytes), i < j ∧ (encryptions E c next n [] (w t))[i]? = some (.ok a) ∧
      (encryptions E c next n [] (w t))[j]? = some (.ok b) ∧ φ a = φ b) ≤ n * (n - 1) / 2 * p := by
  refine le_trans (prob_mono fun t h => ?_) (prob_exists_pair (fun i j (t : Tape n) => ∃ a b, (encryptions E c next n [] (w t))[i]? = some (.ok a) ∧
    (encryptions E c next n [] (w t))[j]? = some (.ok b) ∧ φ a = φ b) p n fun i j hij hj => hp ⟨i, by omega⟩ ⟨j, hj⟩ fun h => by
      have := Fin.mk.inj_iff.1 h
      omega)
  obtain ⟨i, j, a, b, hij, ha, hb, h⟩ := h
  refine ⟨i, j, hij, ?_, a, b, ha, hb, h⟩
  obtain ⟨h1, -⟩ := List.getElem?_eq_some_iff.1 hb
  rwa [(C106_all_succeed E c next seed hc w rest hw t).1] at h1

/-- C106: among `n` ciphertexts, two have the same salt (so that AES would have the same key twice) with a probability of at most n (n - 1) / 2^257. -/
theorem C106_salts : (prob fun t => ∃ (i j : ℕ) (a b : Bytes), i < j ∧ (encryptions E c next n [] (w t))[i]? = some (.ok a) ∧
    (encryptions E c next n [] (w t))[j]? = some (.ok b) ∧ a.take 32 = b.take 32) ≤ n * (n - 1) / 2 ^ 257 := by
  refine (some_pair E c next seed hc w rest hw (fun b => b.take 32) (1 / 2 ^ 256) fun i j h => (C106_two_salts E c next seed hc w rest hw i j h).le).trans (le_of_eq ?_)
  rw [pow_succ (2 : ℝ) 256]
  generalize (2 : ℝ) ^ 256 = x
  rw [div_mul_div_comm, mul_one, mul_comm x 2]

/-- C106: two of them are equal with a probability of at most n (n - 1) / 2^385, even if it was always the same message in the same conversation. -/
theorem C106_ciphertexts : (prob fun t => ¬ (encryptions E c next n [] (w t)).Nodup) ≤ n * (n - 1) / 2 ^ 385 := by
  have h1 := some_pair E c next seed hc w rest hw (fun b => b.take 48) (1 / 2 ^ 384) fun i j h => (C106_two_prefixes E c next seed hc w rest hw i j h).le
  refine le_trans (prob_mono fun t h => ?_) (h1.trans (le_of_eq ?_))
  · rw [List.nodup_iff_getElem?_ne_getElem?] at h
    push Not at h
    obtain ⟨i, j, hij, hj, h⟩ := h
    obtain ⟨out, ho⟩ := (C106_all_succeed E c next seed hc w rest hw t).2 _ (List.getElem_mem hj)
    have h2 : (encryptions E c next n [] (w t))[j]? = some (.ok out) := by rw [List.getElem?_eq_getElem hj, ho]
    exact ⟨i, j, out, out, hij, by rw [h, h2], h2, rfl⟩
  · rw [pow_succ (2 : ℝ) 384]
    generalize (2 : ℝ) ^ 384 = x
    rw [div_mul_div_comm, mul_one, mul_comm x 2]

end

/-- Always the same message in the same conversation, except that the answer to an error goes the other way. -/
def sameAgain (m : Bytes) (seen : List (Out Bytes)) : Bool × Bytes :=
  match seen.getLast? with
  | some (.err _) => (true, m)
  | _ => (false, m)

/-- The hypotheses of C106: two conversations, always the same message, a million ciphertexts, a reader that delivers the random bytes and three more. -/
example (E : Env) (m : Bytes) : ∃ (c : Bool → BlockCipher) (w : Tape 1000000 → World), (∀ i, (c i).Works ∧ (c i).seed = 5) ∧
    (∀ t, ErrorFree (w t 5) ∧ content (w t 5) = t.bytes ++ [1, 2, 3]) ∧ (∀ seen, (sameAgain m seen).2 = m) ∧
    ((1000000 : ℝ) * (1000000 - 1) / 2 ^ 257 < 1 / 2 ^ 217) := by
  refine ⟨fun i => if i then newBlockCipher ⟨some (newPrivateKey [2]), ⟨publicKeyOf E [2]⟩⟩ ⟨none, ⟨publicKeyOf E [1]⟩⟩ (some 5)
      else newBlockCipher ⟨some (newPrivateKey [1]), ⟨publicKeyOf E [1]⟩⟩ ⟨none, ⟨publicKeyOf E [2]⟩⟩ (some 5), fun t _ => [⟨t.bytes ++ [1, 2, 3], none⟩], ?_, ?_, ?_, ?_⟩
  · have hl : ∀ sk, (publicKeyOf E sk).length = 32 := fun sk => encodePoint_length _
    intro i
    cases i
    · exact ⟨⟨⟨_, rfl⟩, hl _, hl _, _, decodes_encodePoint _⟩, rfl⟩
    · exact ⟨⟨⟨_, rfl⟩, hl _, hl _, _, decodes_encodePoint _⟩, rfl⟩
  · intro t
    exact ⟨by simp [ErrorFree], by simp [content]⟩
  · intro seen
    unfold sameAgain
    split <;> rfl
  · have h : (2 : ℝ) ^ 257 = 2 ^ 217 * 2 ^ 40 := pow_add (2 : ℝ) 217 40
    have h0 : (0 : ℝ) < 2 ^ 217 := pow_pos two_pos 217
    rw [h]
    generalize (2 : ℝ) ^ 217 = x at h0
    rw [div_lt_div_iff₀ (by positivity) h0]
    nlinarith

end Ed
