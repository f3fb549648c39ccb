import Verif.Spec.Wiretap
import Verif.Props.Eavesdrop

/-!
# Encryption is confidential unless the shared point is found (C101)
-/

set_option autoImplicit false

namespace Ed

open Finset

/-! ## One permutation at a time -/

theorem cbcEnc_cipher (E : Env) (P : Key → Equiv.Perm Block) (κ κ' : Key) : ∀ (ps : List Bytes) (iv : Bytes),
    cbcEncBlocks (E.withCipher P) κ.bytes iv ps = cbcEncBlocks (E.withCipher fun _ => P κ) κ'.bytes iv ps
  | [], _ => rfl
  | p :: ps, iv => by
    have e1 : ∀ b, (E.withCipher P).aesE κ.bytes b = (P κ (Block.of b)).bytes := fun b => by
      show (P (Key.of κ.bytes) (Block.of b)).bytes = _
      rw [Key.of_bytes]
    have e2 : ∀ b, (E.withCipher fun _ => P κ).aesE κ'.bytes b = (P κ (Block.of b)).bytes := fun b => rfl
    simp only [cbcEncBlocks, e1, e2]
    rw [cbcEnc_cipher E P κ κ' ps]

theorem encode_cipher (E : Env) (P : Key → Equiv.Perm Block) (κ κ' : Key) (m iv : Bytes) :
    encode (E.withCipher P) m κ.bytes iv = encode (E.withCipher fun _ => P κ) m κ'.bytes iv := by
  unfold encode
  simp only [cbcEnc_cipher E P κ κ', aesNewCipher, Key.bytes_length]

/-- What an encryption under the permutation `π` gives. -/
def sealedBy (E : Env) (seed : ℕ) (d : Bool) (m : Bytes) (w : World) (π : Equiv.Perm Block) : Out Bytes :=
  ((SpyOp.encrypt d m).form (E.withCipher fun _ => π) seed w).2.1 (Key.of [])

theorem form_cipher (E : Env) (P : Key → Equiv.Perm Block) (seed : ℕ) (d : Bool) (m : Bytes) (w : World) :
    (SpyOp.encrypt d m).form (E.withCipher P) seed w =
      (((SpyOp.encrypt d m).form E seed w).1, fun κ => sealedBy E seed d m w (P κ), ((SpyOp.encrypt d m).form E seed w).2.2) := by
  unfold sealedBy
  simp only [SpyOp.form]
  cases (Act.read seed 32 w).1 with
  | err e => rfl
  | panic => rfl
  | ok salt =>
    dsimp only
    cases (Act.read seed 16 (Act.read seed 32 w).2).1 with
    | err e => rfl
    | panic => rfl
    | ok iv =>
      dsimp only
      refine Prod.ext rfl (Prod.ext ?_ rfl)
      funext κ
      dsimp only
      rw [encode_cipher E P κ (Key.of [])]

theorem keyPair_cipher (E : Env) (P : Key → Equiv.Perm Block) {k : PrivateKey} {A : KeyPair} (h : newKeyPair E (some k) none = .ok A) :
    newKeyPair (E.withCipher P) (some k) none = .ok A := by
  rw [C30_derive] at h ⊢
  exact h

theorem point_cipher (E : Env) (P : Key → Equiv.Perm Block) (kA kB : PrivateKey) : sharedPoint (E.withCipher P) kA kB = sharedPoint E kA kB := rfl

theorem cipher_hash (E : Env) (P : Key → Equiv.Perm Block) (H : Key → Key) : (E.withKeyHash H).withCipher P = (E.withCipher P).withKeyHash H := rfl

/-- An encryption between the two parties. -/
theorem enc_form (E : Env) (kA kB : PrivateKey) (A B : KeyPair) (hA : newKeyPair E (some kA) none = .ok A) (hB : newKeyPair E (some kB) none = .ok B)
    (P : Key → Equiv.Perm Block) (H : Key → Key) (seed : ℕ) (d : Bool) (m : Bytes) (w : World) :
    (if d then newBlockCipher B A (some seed) else newBlockCipher A B (some seed)).encrypt ((E.withCipher P).withKeyHash H) m w =
      (sealedBy E seed d m w (P (H (Key.xor (sharedPoint E kA kB) (((SpyOp.encrypt d m).form E seed w).1.getD (Key.of []))))), ((SpyOp.encrypt d m).form E seed w).2.2) := by
  have h := (call_form (E.withCipher P) kA kB A B (keyPair_cipher E P hA) (keyPair_cipher E P hB) seed (.encrypt d m) w).eq H
  rw [form_cipher, point_cipher] at h
  exact h

/-! ## The wiretapper as a program -/

namespace Wiretap

/-- As an eavesdropper, for a fixed cipher. -/
def spy (b : Bool) (P : Key → Equiv.Perm Block) : Wiretap → Spy
  | .done x => .done x
  | .hash x k => .hash x fun y => spy b P (k y)
  | .aes κ k => spy b P (k (P κ))
  | .enc d m k => .op (.encrypt d (m b)) fun r => spy b P (k r)

theorem run_spy (E : Env) (A B : KeyPair) (seed : ℕ) (b : Bool) (g : Key → Key) (P : Key → Equiv.Perm Block) : ∀ (p : Wiretap) (w : World),
    p.run E A B seed b g P w = (p.spy b P).run E A B seed g w := by
  intro p
  induction p with
  | done x => intro w; rfl
  | hash x k ih =>
    intro w
    unfold run spy Spy.run
    dsimp only
    rw [ih]
  | aes κ k ih =>
    intro w
    unfold run spy
    exact ih _ w
  | enc d m k ih =>
    intro w
    unfold run spy Spy.run
    dsimp only
    have e : (SpyOp.encrypt d (m b)).call E A B seed w = (if d then newBlockCipher B A (some seed) else newBlockCipher A B (some seed)).encrypt E (m b) w := rfl
    rw [e]
    generalize (if d then newBlockCipher B A (some seed) else newBlockCipher A B (some seed)).encrypt E (m b) w = c
    obtain ⟨r, w'⟩ := c
    dsimp only
    rw [ih]
    cases r <;> rfl

/-- The questions for permutations: its own (`inl`), and those of the encryptions, by their salts (`inr`). -/
def prog (E : Env) (seed : ℕ) (b : Bool) (g : Key → Key) : Wiretap → World → QProg (Key ⊕ Key) (Equiv.Perm Block)
  | .done x, _ => .done x
  | .hash x k, w => prog E seed b g (k (g x)) w
  | .aes κ k, w => .ask (.inl κ) fun π => prog E seed b g (k π) w
  | .enc d m k, w =>
    match ((SpyOp.encrypt d (m b)).form E seed w).1 with
    | some s => .ask (.inr s) fun π => prog E seed b g (k (sealedBy E seed d (m b) w π)) ((SpyOp.encrypt d (m b)).form E seed w).2.2
    | none => prog E seed b g (k (sealedBy E seed d (m b) w (Equiv.refl _))) ((SpyOp.encrypt d (m b)).form E seed w).2.2

theorem key_one_ne : Key.of [1] ≠ Key.of [] := fun e => absurd (congrArg (fun k : Key => Fin.val k) e) (by decide +kernel)

theorem sealed_none (E : Env) (seed : ℕ) (d : Bool) (m : Bytes) (w : World) (h : ((SpyOp.encrypt d m).form E seed w).1 = none) (π π' : Equiv.Perm Block) :
    sealedBy E seed d m w π = sealedBy E seed d m w π' := by
  rcases form_encrypt E seed d m w with ⟨salt, iv, w', hs, hiv, hf⟩ | ⟨r, w', hr, hf⟩
  · rw [hf] at h
    exact nomatch h
  · have hc := form_cipher E (fun κ => if κ = Key.of [] then π else π') seed d m w
    have h1 := form_none (E.withCipher fun κ => if κ = Key.of [] then π else π') seed (.encrypt d m) w (by rw [hc]; exact h) (Key.of []) (Key.of [1])
    rw [hc] at h1
    dsimp only at h1
    rw [if_pos rfl, if_neg key_one_ne] at h1
    exact h1

theorem run_enc (E : Env) (A B : KeyPair) (seed : ℕ) (b : Bool) (g : Key → Key) (P : Key → Equiv.Perm Block) (w : World) (d : Bool) (m : Bool → Bytes)
    (k : Out Bytes → Wiretap) : ((Wiretap.enc d m k).run E A B seed b g P w).guess =
      ((k ((if d then newBlockCipher B A (some seed) else newBlockCipher A B (some seed)).encrypt E (m b) w).1).run E A B seed b g P
        ((if d then newBlockCipher B A (some seed) else newBlockCipher A B (some seed)).encrypt E (m b) w).2).guess := by
  rw [run]
  generalize (if d then newBlockCipher B A (some seed) else newBlockCipher A B (some seed)).encrypt E (m b) w = c
  obtain ⟨r, w'⟩ := c
  cases r <;> rfl

theorem run_prog' (E : Env) (kA kB : PrivateKey) (A B : KeyPair) (hA : newKeyPair E (some kA) none = .ok A) (hB : newKeyPair E (some kB) none = .ok B)
    (seed : ℕ) (b : Bool) (g H : Key → Key) (P : Key → Equiv.Perm Block) : ∀ (p : Wiretap) (w : World),
    (p.run ((E.withCipher P).withKeyHash H) A B seed b g P w).guess =
      ((p.prog E seed b g w).run (P ∘ Sum.elim id fun s => H (Key.xor (sharedPoint E kA kB) s))).1 := by
  intro p
  induction p with
  | done x => intro w; rfl
  | hash x k ih =>
    intro w
    unfold run prog
    exact ih _ w
  | aes κ k ih =>
    intro w
    unfold run prog
    exact ih _ w
  | enc d m k ih =>
    intro w
    rw [run_enc, enc_form E kA kB A B hA hB P H]
    dsimp only
    rw [ih]
    cases hf : ((SpyOp.encrypt d (m b)).form E seed w).1 with
    | some s =>
      have hp : (Wiretap.enc d m k).prog E seed b g w = .ask (.inr s) fun π => (k (sealedBy E seed d (m b) w π)).prog E seed b g ((SpyOp.encrypt d (m b)).form E seed w).2.2 := by
        rw [prog, hf]
      rw [hp]
      rfl
    | none =>
      have hp : (Wiretap.enc d m k).prog E seed b g w = (k (sealedBy E seed d (m b) w (Equiv.refl _))).prog E seed b g ((SpyOp.encrypt d (m b)).form E seed w).2.2 := by
        rw [prog, hf]
      rw [hp, sealed_none E seed d (m b) w hf _ (Equiv.refl _)]

/-- As an observer, for fixed answers to its own questions. -/
def observer (g : Key → Key) (P : Key → Equiv.Perm Block) : Wiretap → Observer Bool
  | .done x => .done x
  | .hash x k => observer g P (k (g x))
  | .aes κ k => observer g P (k (P κ))
  | .enc d m k => .enc d m fun r => observer g P (k r)

theorem observer_atMost (g : Key → Key) (P : Key → Equiv.Perm Block) : ∀ (p : Wiretap) (t n : ℕ), p.AtMost t n → (p.observer g P).AtMost n := by
  intro p
  induction p with
  | done x => intro t n _; exact trivial
  | hash x k ih => intro t n h; cases t <;> exact ih _ _ n (h _)
  | aes κ k ih =>
    intro t n h
    cases t with
    | zero => exact h.elim
    | succ t => exact ih _ t n (h _)
  | enc d m k ih =>
    intro t n h
    cases t <;> exact ⟨h.1, h.2.1, fun r => ih r _ _ (h.2.2 r)⟩

/-- The two directions. -/
def directions (A B : KeyPair) (seed : ℕ) (d : Bool) : BlockCipher := if d then newBlockCipher B A (some seed) else newBlockCipher A B (some seed)

theorem run_observer (E : Env) (kA kB : PrivateKey) (A B : KeyPair) (hA : newKeyPair E (some kA) none = .ok A) (hB : newKeyPair E (some kB) none = .ok B)
    (seed : ℕ) (b : Bool) (g : Key → Key) (P₀ P₁ : Key → Equiv.Perm Block) : ∀ (p : Wiretap) (w : World),
    (p.observer g P₀).run ((E.withKeyHash (Key.shift (sharedPoint E kA kB))).withCipher P₁) (directions A B seed) b w = ((p.prog E seed b g w).run (Sum.elim P₀ P₁)).1 := by
  intro p
  induction p with
  | done x => intro w; rfl
  | hash x k ih =>
    intro w
    unfold observer prog
    exact ih _ w
  | aes κ k ih =>
    intro w
    unfold observer prog
    exact ih _ w
  | enc d m k ih =>
    intro w
    unfold observer Observer.run
    have e := enc_form E kA kB A B hA hB P₁ (Key.shift (sharedPoint E kA kB)) seed d (m b) w
    have e2 : (directions A B seed d).encrypt ((E.withKeyHash (Key.shift (sharedPoint E kA kB))).withCipher P₁) (m b) w = _ := e
    rw [e2]
    dsimp only
    rw [ih]
    have hx : ∀ s, (Key.shift (sharedPoint E kA kB)) (Key.xor (sharedPoint E kA kB) s) = s := (Key.shift (sharedPoint E kA kB)).left_inv
    rw [hx]
    cases hf : ((SpyOp.encrypt d (m b)).form E seed w).1 with
    | some s =>
      have hp : (Wiretap.enc d m k).prog E seed b g w = .ask (.inr s) fun π => (k (sealedBy E seed d (m b) w π)).prog E seed b g ((SpyOp.encrypt d (m b)).form E seed w).2.2 := by
        rw [prog, hf]
      rw [hp]
      rfl
    | none =>
      have hp : (Wiretap.enc d m k).prog E seed b g w = (k (sealedBy E seed d (m b) w (Equiv.refl _))).prog E seed b g ((SpyOp.encrypt d (m b)).form E seed w).2.2 := by
        rw [prog, hf]
      rw [hp, sealed_none E seed d (m b) w hf _ (Equiv.refl _)]

/-- The numbers of questions. -/
theorem prog_log (E : Env) (seed : ℕ) (b : Bool) (g : Key → Key) (F : Key ⊕ Key → Equiv.Perm Block) : ∀ (p : Wiretap) (t n : ℕ) (w : World), p.AtMost t n →
    (((p.prog E seed b g w).run F).2.filterMap Sum.getLeft?).length ≤ t ∧ (((p.prog E seed b g w).run F).2.filterMap Sum.getRight?).length ≤ n := by
  intro p
  induction p with
  | done x => intro t n w _; exact ⟨Nat.zero_le _, Nat.zero_le _⟩
  | hash x k ih => intro t n w h; cases t <;> exact ih _ _ n w (h _)
  | aes κ k ih =>
    intro t n w h
    cases t with
    | zero => exact h.elim
    | succ t =>
      have := ih (F (.inl κ)) t n w (h _)
      exact ⟨Nat.succ_le_succ this.1, this.2⟩
  | enc d m k ih =>
    intro t n w h
    have h : Observer.blocks (m false) = Observer.blocks (m true) ∧ Observer.blocks (m true) ≤ n ∧ ∀ r, AtMost t (n - Observer.blocks (m true)) (k r) := by
      cases t <;> exact h
    have hb : 1 ≤ Observer.blocks (m true) := Nat.succ_le_succ (Nat.zero_le _)
    cases hf : ((SpyOp.encrypt d (m b)).form E seed w).1 with
    | some s =>
      have hp : (Wiretap.enc d m k).prog E seed b g w = .ask (.inr s) fun π => (k (sealedBy E seed d (m b) w π)).prog E seed b g ((SpyOp.encrypt d (m b)).form E seed w).2.2 := by
        rw [prog, hf]
      have := ih (sealedBy E seed d (m b) w (F (.inr s))) t _ ((SpyOp.encrypt d (m b)).form E seed w).2.2 (h.2.2 _)
      rw [hp]
      have h3 := h.2.1
      exact ⟨this.1, (Nat.succ_le_succ this.2).trans (by omega)⟩
    | none =>
      have hp : (Wiretap.enc d m k).prog E seed b g w = (k (sealedBy E seed d (m b) w (Equiv.refl _))).prog E seed b g ((SpyOp.encrypt d (m b)).form E seed w).2.2 := by
        rw [prog, hf]
      have := ih (sealedBy E seed d (m b) w (Equiv.refl _)) t _ ((SpyOp.encrypt d (m b)).form E seed w).2.2 (h.2.2 _)
      rw [hp]
      exact ⟨this.1, this.2.trans (Nat.sub_le _ _)⟩

end Wiretap

/-! ## The probability of a clash -/

theorem ind_or_le (p q : Prop) : ind (p ∨ q) ≤ ind p + ind q := by
  by_cases hp : p
  · rw [ind_true hp, ind_true (Or.inl hp)]
    linarith [ind_nonneg q]
  · rw [ind_false hp, zero_add]
    exact ind_mono fun h => h.resolve_left hp

theorem avg_exists_le {α X : Type} [Fintype α] (Q : α → X → Prop) (c : ℝ) : ∀ l : List X, (∀ x ∈ l, (avg fun a => ind (Q a x)) ≤ c) →
    (avg fun a => ind (∃ x ∈ l, Q a x)) ≤ l.length * c
  | [], _ => by
    rw [List.length_nil, Nat.cast_zero, zero_mul]
    have h0 : ∀ a, ind (∃ x ∈ ([] : List X), Q a x) = 0 := fun a => ind_false fun ⟨x, hx, _⟩ => nomatch hx
    rw [avg_congr h0]
    exact avg_const_le le_rfl
  | x :: l, h => by
    have h1 := avg_exists_le Q c l fun y hy => h y (List.mem_cons_of_mem _ hy)
    have h2 := h x (List.mem_cons_self ..)
    have h3 : (avg fun a => ind (∃ y ∈ x :: l, Q a y)) ≤ avg fun a => (ind (Q a x) + ind (∃ y ∈ l, Q a y)) := by
      refine avg_mono fun a => le_trans (ind_mono ?_) (ind_or_le _ _)
      rintro ⟨y, hy, hq⟩
      rcases List.mem_cons.1 hy with rfl | hy
      · exact Or.inl hq
      · exact Or.inr ⟨y, hy, hq⟩
    rw [avg_add] at h3
    rw [List.length_cons, Nat.cast_succ]
    linarith

theorem avg_value (i y : Key) : (avg fun H : Key → Key => ind (H i = y)) = 1 / 2 ^ 256 := by
  rw [avg_entry i fun d _ => ind (d = y)]
  have h2 : ∀ d : Key, (avg fun _ : Key → Key => ind (d = y)) = ind (d = y) := fun d => avg_const (α := Key → Key) (ind (d = y))
  rw [avg_congr h2, ← prob_eq_avg]
  exact prob_key y

theorem avg_equal {i j : Key} (h : i ≠ j) : (avg fun H : Key → Key => ind (H i = H j)) = 1 / 2 ^ 256 := by
  rw [avg_entry i fun d H => ind (d = H j), avg_comm, ← avg_const (α := Key → Key) (1 / 2 ^ 256 : ℝ)]
  refine avg_congr fun H => ?_
  have h1 : ∀ d : Key, ind (d = Function.update H i d j) = ind (d = H j) := fun d => by rw [Function.update_of_ne h.symm]
  rw [avg_congr h1, ← prob_eq_avg]
  exact prob_key (H j)

theorem clash_le (dh : Key) (l : List (Key ⊕ Key)) (t n : ℕ) (ht : (l.filterMap Sum.getLeft?).length ≤ t) (hn : (l.filterMap Sum.getRight?).length ≤ n) :
    (avg fun H : Key → Key => ind (QProg.Clash (Sum.elim id fun s => H (Key.xor dh s)) l)) ≤ n * (n + t) / 2 ^ 256 := by
  have hl : ∀ x, Sum.inl x ∈ l → x ∈ l.filterMap Sum.getLeft? := fun x hx => List.mem_filterMap.2 ⟨_, hx, rfl⟩
  have hr : ∀ x, Sum.inr x ∈ l → x ∈ l.filterMap Sum.getRight? := fun x hx => List.mem_filterMap.2 ⟨_, hx, rfl⟩
  generalize l.filterMap Sum.getLeft? = lefts at *
  generalize l.filterMap Sum.getRight? = rights at *
  have h1 : (avg fun H : Key → Key => ind (QProg.Clash (Sum.elim id fun s => H (Key.xor dh s)) l)) ≤
      avg fun H : Key → Key => ind (∃ s ∈ rights, (∃ κ ∈ lefts, H (Key.xor dh s) = κ) ∨ ∃ s' ∈ rights, s ≠ s' ∧ H (Key.xor dh s) = H (Key.xor dh s')) := by
    refine avg_mono fun H => ind_mono ?_
    rintro ⟨a, ha, b, hb, hne, he⟩
    cases a with
    | inl x =>
      cases b with
      | inl y => exact absurd (congrArg Sum.inl he) hne
      | inr s => exact ⟨s, hr s hb, Or.inl ⟨x, hl x ha, Eq.symm he⟩⟩
    | inr s =>
      cases b with
      | inl x => exact ⟨s, hr s ha, Or.inl ⟨x, hl x hb, he⟩⟩
      | inr s' => exact ⟨s, hr s ha, Or.inr ⟨s', hr s' hb, fun e => hne (congrArg Sum.inr e), he⟩⟩
  have hz : (0 : ℝ) ≤ 1 / 2 ^ 256 := by positivity
  have h2 := avg_exists_le (fun (H : Key → Key) s => (∃ κ ∈ lefts, H (Key.xor dh s) = κ) ∨ ∃ s' ∈ rights, s ≠ s' ∧ H (Key.xor dh s) = H (Key.xor dh s'))
    (lefts.length * (1 / 2 ^ 256) + rights.length * (1 / 2 ^ 256)) rights (by
      intro s _
      refine le_trans (avg_mono fun H => ind_or_le _ _) ?_
      rw [avg_add]
      refine add_le_add ?_ ?_
      · exact avg_exists_le (fun (H : Key → Key) κ => H (Key.xor dh s) = κ) _ lefts fun κ _ => le_of_eq (avg_value _ _)
      · refine avg_exists_le (fun (H : Key → Key) s' => s ≠ s' ∧ H (Key.xor dh s) = H (Key.xor dh s')) _ rights fun s' _ => ?_
        by_cases hs : s = s'
        · have h0 : ∀ H : Key → Key, ind (s ≠ s' ∧ H (Key.xor dh s) = H (Key.xor dh s')) = 0 := fun H => ind_false fun h => h.1 hs
          rw [avg_congr h0]
          exact (avg_const_le le_rfl).trans hz
        · refine le_trans (avg_mono fun H => ind_mono And.right) (le_of_eq (avg_equal fun e => hs ((Key.shift dh).injective e))))
  refine h1.trans (h2.trans ?_)
  have ht' : (lefts.length : ℝ) ≤ t := by exact_mod_cast ht
  have hn' : (rights.length : ℝ) ≤ n := by exact_mod_cast hn
  have hl0 : (0 : ℝ) ≤ lefts.length := Nat.cast_nonneg _
  have hr0 : (0 : ℝ) ≤ rights.length := Nat.cast_nonneg _
  have e1 : (rights.length * (lefts.length * (1 / 2 ^ 256) + rights.length * (1 / 2 ^ 256)) : ℝ) = rights.length * (rights.length + lefts.length) * (1 / 2 ^ 256) := by ring
  have e2 : (n * (n + t) / 2 ^ 256 : ℝ) = n * (n + t) * (1 / 2 ^ 256) := by ring
  rw [e1, e2]
  exact mul_le_mul_of_nonneg_right (mul_le_mul hn' (add_le_add hn' ht') (by linarith) (by linarith)) hz

/-! ## The property -/

/-- The conversation of the first two parties. -/
theorem real_close (E : Env) (kA kB kA' kB' : PrivateKey) (A B A' B' : KeyPair) (hA : newKeyPair E (some kA) none = .ok A)
    (hB : newKeyPair E (some kB) none = .ok B) (hA' : newKeyPair E (some kA') none = .ok A') (hB' : newKeyPair E (some kB') none = .ok B') (seed : ℕ)
    {Ω : Type} [Fintype Ω] (p : Ω → Wiretap) (n : ℕ) (w : Tape n → World) (b : Bool) :
    |(prob fun x : Ω × (Key → Key) × (Key → Equiv.Perm Block) × Tape n =>
        ((p x.1).run ((E.withCipher x.2.2.1).withKeyHash x.2.1) A B seed b x.2.1 x.2.2.1 (w x.2.2.2)).guess = true) -
      avg fun P : Key → Equiv.Perm Block => avg fun y : Ω × Tape n => avg fun g : Key → Key => avg fun H : Key → Key =>
        ind (((p y.1).run ((E.withCipher P).withKeyHash H) A' B' seed b g P (w y.2)).guess = true)| ≤
    prob fun x : Ω × (Key → Key) × (Key → Key) × (Key → Equiv.Perm Block) × Tape n =>
      ∃ y ∈ ((p x.1).run ((E.withCipher x.2.2.2.1).withKeyHash x.2.2.1) A' B' seed b x.2.1 x.2.2.2.1 (w x.2.2.2.2)).hashed,
        ∃ s ∈ ((p x.1).run ((E.withCipher x.2.2.2.1).withKeyHash x.2.2.1) A' B' seed b x.2.1 x.2.2.2.1 (w x.2.2.2.2)).salts,
          (Key.xor y s).bytes = encodePoint ((secretScalar E kA.raw * secretScalar E kB.raw) • Ed.B) := by
  have h1 : (prob fun x : Ω × (Key → Key) × (Key → Equiv.Perm Block) × Tape n =>
        ((p x.1).run ((E.withCipher x.2.2.1).withKeyHash x.2.1) A B seed b x.2.1 x.2.2.1 (w x.2.2.2)).guess = true) =
      avg fun P : Key → Equiv.Perm Block => avg fun y : Ω × Tape n => avg fun g : Key → Key =>
        ind (((p y.1).run ((E.withCipher P).withKeyHash g) A B seed b g P (w y.2)).guess = true) := by
    have e := avg_comm fun (P : Key → Equiv.Perm Block) (y : Ω × Tape n) => avg fun g : Key → Key =>
        ind (((p y.1).run ((E.withCipher P).withKeyHash g) A B seed b g P (w y.2)).guess = true)
    rw [e, prob_eq_avg, avg_prod, avg_prod]
    refine avg_congr fun ω => ?_
    rw [avg_prod, avg_comm (fun (tp : Tape n) (P : Key → Equiv.Perm Block) => _)]
    have e2 : ∀ g : Key → Key, (avg fun z : (Key → Equiv.Perm Block) × Tape n => ind (((p ω).run ((E.withCipher z.1).withKeyHash g) A B seed b g z.1 (w z.2)).guess = true)) =
        avg fun P => avg fun tp => ind (((p ω).run ((E.withCipher P).withKeyHash g) A B seed b g P (w tp)).guess = true) := fun g => avg_prod _
    rw [avg_congr e2, avg_comm]
    refine avg_congr fun P => ?_
    rw [avg_comm]
  have h2 : (prob fun x : Ω × (Key → Key) × (Key → Key) × (Key → Equiv.Perm Block) × Tape n =>
      ∃ y ∈ ((p x.1).run ((E.withCipher x.2.2.2.1).withKeyHash x.2.2.1) A' B' seed b x.2.1 x.2.2.2.1 (w x.2.2.2.2)).hashed,
        ∃ s ∈ ((p x.1).run ((E.withCipher x.2.2.2.1).withKeyHash x.2.2.1) A' B' seed b x.2.1 x.2.2.2.1 (w x.2.2.2.2)).salts,
          (Key.xor y s).bytes = encodePoint ((secretScalar E kA.raw * secretScalar E kB.raw) • Ed.B)) =
      avg fun P : Key → Equiv.Perm Block => avg fun y : Ω × Tape n => avg fun g : Key → Key => avg fun H : Key → Key =>
        ind (∃ z ∈ ((p y.1).run ((E.withCipher P).withKeyHash H) A' B' seed b g P (w y.2)).hashed,
          ∃ s ∈ ((p y.1).run ((E.withCipher P).withKeyHash H) A' B' seed b g P (w y.2)).salts,
            (Key.xor z s).bytes = encodePoint ((secretScalar E kA.raw * secretScalar E kB.raw) • Ed.B)) := by
    generalize encodePoint ((secretScalar E kA.raw * secretScalar E kB.raw) • Ed.B) = pt
    have e := avg_comm fun (P : Key → Equiv.Perm Block) (y : Ω × Tape n) => avg fun g : Key → Key => avg fun H : Key → Key =>
        ind (∃ z ∈ ((p y.1).run ((E.withCipher P).withKeyHash H) A' B' seed b g P (w y.2)).hashed,
          ∃ s ∈ ((p y.1).run ((E.withCipher P).withKeyHash H) A' B' seed b g P (w y.2)).salts, (Key.xor z s).bytes = pt)
    rw [e, prob_eq_avg, avg_prod, avg_prod]
    refine avg_congr fun ω => ?_
    dsimp only
    generalize hΦ : (fun (g H : Key → Key) (P : Key → Equiv.Perm Block) (tp : Tape n) => ind (∃ z ∈ ((p ω).run ((E.withCipher P).withKeyHash H) A' B' seed b g P (w tp)).hashed,
          ∃ s ∈ ((p ω).run ((E.withCipher P).withKeyHash H) A' B' seed b g P (w tp)).salts, (Key.xor z s).bytes = pt)) = Φ
    have e3 : ∀ g H P tp, ind (∃ z ∈ ((p ω).run ((E.withCipher P).withKeyHash H) A' B' seed b g P (w tp)).hashed,
          ∃ s ∈ ((p ω).run ((E.withCipher P).withKeyHash H) A' B' seed b g P (w tp)).salts, (Key.xor z s).bytes = pt) = Φ g H P tp := by
      intro g H P tp
      rw [← hΦ]
    simp only [e3]
    rw [avg_prod]
    have e4 : ∀ g : Key → Key, (avg fun z : (Key → Key) × (Key → Equiv.Perm Block) × Tape n => Φ g z.1 z.2.1 z.2.2) = avg fun P => avg fun tp => avg fun H => Φ g H P tp := by
      intro g
      rw [avg_prod]
      have e5 : ∀ H : Key → Key, (avg fun z : (Key → Equiv.Perm Block) × Tape n => Φ g H z.1 z.2) = avg fun P => avg fun tp => Φ g H P tp := fun H => avg_prod _
      rw [avg_congr e5, avg_comm]
      refine avg_congr fun P => ?_
      rw [avg_comm]
    rw [avg_congr e4, avg_comm, avg_comm (fun (tp : Tape n) (P : Key → Equiv.Perm Block) => _)]
    refine avg_congr fun P => ?_
    rw [avg_comm]
  rw [h1, h2]
  have h3 : ∀ P : Key → Equiv.Perm Block, |(avg fun y : Ω × Tape n => avg fun g : Key → Key =>
        ind (((p y.1).run ((E.withCipher P).withKeyHash g) A B seed b g P (w y.2)).guess = true)) - avg fun y : Ω × Tape n => avg fun g : Key → Key => avg fun H : Key → Key =>
        ind (((p y.1).run ((E.withCipher P).withKeyHash H) A' B' seed b g P (w y.2)).guess = true)| ≤
      avg fun y : Ω × Tape n => avg fun g : Key → Key => avg fun H : Key → Key =>
        ind (∃ z ∈ ((p y.1).run ((E.withCipher P).withKeyHash H) A' B' seed b g P (w y.2)).hashed,
          ∃ s ∈ ((p y.1).run ((E.withCipher P).withKeyHash H) A' B' seed b g P (w y.2)).salts,
            (Key.xor z s).bytes = encodePoint ((secretScalar E kA.raw * secretScalar E kB.raw) • Ed.B)) := by
    intro P
    have h4 := C100_point (E.withCipher P) kA kB kA' kB' A B A' B' (keyPair_cipher E P hA) (keyPair_cipher E P hB) (keyPair_cipher E P hA') (keyPair_cipher E P hB') seed
      (fun y : Ω × Tape n => (p y.1).spy b P) (fun y => w y.2)
    have a1 : ∀ Φ : (Ω × Tape n) × (Key → Key) → Prop, prob Φ = avg fun y => avg fun g => ind (Φ (y, g)) := fun Φ => by rw [prob_eq_avg, avg_prod]
    have a2 : ∀ Φ : (Ω × Tape n) × (Key → Key) × (Key → Key) → Prop, prob Φ = avg fun y => avg fun g => avg fun H => ind (Φ (y, g, H)) := fun Φ => by
      rw [prob_eq_avg, avg_prod]
      exact avg_congr fun y => avg_prod _
    rw [a1, a2, a2] at h4
    simp only [← Wiretap.run_spy] at h4
    exact h4
  have h7 : ∀ X Y : (Key → Equiv.Perm Block) → ℝ, avg X - avg Y = avg fun P => (X P - Y P) := by
    intro X Y
    unfold avg
    rw [sum_sub_distrib, sub_div]
  rw [h7]
  exact (abs_avg_le _).trans (avg_mono h3)

/-- The other parties, with a permutation for each salt instead of each key. -/
theorem names_close (E : Env) (kA kB : PrivateKey) (A B : KeyPair) (hA : newKeyPair E (some kA) none = .ok A) (hB : newKeyPair E (some kB) none = .ok B)
    (seed : ℕ) (b : Bool) (g : Key → Key) (p : Wiretap) (t n : ℕ) (hp : p.AtMost t n) (w : World) :
    |(avg fun H : Key → Key => avg fun P : Key → Equiv.Perm Block => ind ((p.run ((E.withCipher P).withKeyHash H) A B seed b g P w).guess = true)) -
      avg fun F : Key ⊕ Key → Equiv.Perm Block => ind (((p.prog E seed b g w).run F).1 = true)| ≤ n * (n + t) / 2 ^ 256 := by
  have h1 : ∀ H : Key → Key, |(avg fun P : Key → Equiv.Perm Block => ind ((p.run ((E.withCipher P).withKeyHash H) A B seed b g P w).guess = true)) -
      avg fun F : Key ⊕ Key → Equiv.Perm Block => ind (((p.prog E seed b g w).run F).1 = true)| ≤
      avg fun F : Key ⊕ Key → Equiv.Perm Block => ind (QProg.Clash (Sum.elim id fun s => H (Key.xor (sharedPoint E kA kB) s)) ((p.prog E seed b g w).run F).2) := by
    intro H
    have h2 := QProg.rename_close' (Sum.elim id fun s => H (Key.xor (sharedPoint E kA kB) s)) (p.prog E seed b g w)
    have e : ∀ P : Key → Equiv.Perm Block, ind ((p.run ((E.withCipher P).withKeyHash H) A B seed b g P w).guess = true) =
        ind (((p.prog E seed b g w).run (P ∘ Sum.elim id fun s => H (Key.xor (sharedPoint E kA kB) s))).1 = true) := by
      intro P
      rw [Wiretap.run_prog' E kA kB A B hA hB]
    rw [avg_congr e]
    exact h2
  have h3 : (avg fun H : Key → Key => avg fun P : Key → Equiv.Perm Block => ind ((p.run ((E.withCipher P).withKeyHash H) A B seed b g P w).guess = true)) -
      (avg fun F : Key ⊕ Key → Equiv.Perm Block => ind (((p.prog E seed b g w).run F).1 = true)) =
      avg fun H : Key → Key => ((avg fun P : Key → Equiv.Perm Block => ind ((p.run ((E.withCipher P).withKeyHash H) A B seed b g P w).guess = true)) -
        avg fun F : Key ⊕ Key → Equiv.Perm Block => ind (((p.prog E seed b g w).run F).1 = true)) := by
    generalize (avg fun F : Key ⊕ Key → Equiv.Perm Block => ind (((p.prog E seed b g w).run F).1 = true)) = c
    have h4 := avg_add (fun H : Key → Key => avg fun P : Key → Equiv.Perm Block => ind ((p.run ((E.withCipher P).withKeyHash H) A B seed b g P w).guess = true)) (fun _ => -c)
    rw [avg_const (α := Key → Key) (-c)] at h4
    simp only [sub_eq_add_neg]
    exact h4.symm
  rw [h3]
  refine (abs_avg_le _).trans ((avg_mono h1).trans ?_)
  rw [avg_comm]
  have hz : (0 : ℝ) ≤ n * (n + t) / 2 ^ 256 := div_nonneg (mul_nonneg (Nat.cast_nonneg n) (add_nonneg (Nat.cast_nonneg n) (Nat.cast_nonneg t))) (pow_nonneg two_pos.le 256)
  refine le_trans (avg_mono fun F => ?_) (avg_const_le hz)
  have hl := Wiretap.prog_log E seed b g F p t n w hp
  exact clash_le _ _ t n hl.1 hl.2

/-- C101: let SHA3-256 be a random function, AES a random permutation for each key, and let the reader deliver random bytes.  A wiretapper of the conversation of
two parties, who chooses pairs of messages with equal numbers of blocks, asks for hash values and for AES under keys of its choice, guesses hardly better whether the
first or the second messages are encrypted, unless it finds the shared point: one of its hash questions is this point xored with the salt of one of the ciphertexts. -/
theorem C101_hides (E : Env) (kA kB kA' kB' : PrivateKey) (A B A' B' : KeyPair) (hA : newKeyPair E (some kA) none = .ok A)
    (hB : newKeyPair E (some kB) none = .ok B) (hA' : newKeyPair E (some kA') none = .ok A') (hB' : newKeyPair E (some kB') none = .ok B') (seed : ℕ)
    {Ω : Type} [Fintype Ω] (p : Ω → Wiretap) (t n : ℕ) (hp : ∀ ω, (p ω).AtMost t n)
    (w : Tape n → World) (hw : ∀ tp, ErrorFree (w tp seed) ∧ content (w tp seed) = tp.bytes) (ε : ℝ)
    (hε : ∀ b, (prob fun x : Ω × (Key → Key) × (Key → Key) × (Key → Equiv.Perm Block) × Tape n =>
      ∃ y ∈ ((p x.1).run ((E.withCipher x.2.2.2.1).withKeyHash x.2.2.1) A' B' seed b x.2.1 x.2.2.2.1 (w x.2.2.2.2)).hashed,
        ∃ s ∈ ((p x.1).run ((E.withCipher x.2.2.2.1).withKeyHash x.2.2.1) A' B' seed b x.2.1 x.2.2.2.1 (w x.2.2.2.2)).salts,
          (Key.xor y s).bytes = encodePoint ((secretScalar E kA.raw * secretScalar E kB.raw) • Ed.B)) ≤ ε) :
    |(prob fun x : Ω × (Key → Key) × (Key → Equiv.Perm Block) × Tape n =>
        ((p x.1).run ((E.withCipher x.2.2.1).withKeyHash x.2.1) A B seed true x.2.1 x.2.2.1 (w x.2.2.2)).guess = true) -
      prob fun x : Ω × (Key → Key) × (Key → Equiv.Perm Block) × Tape n =>
        ((p x.1).run ((E.withCipher x.2.2.1).withKeyHash x.2.1) A B seed false x.2.1 x.2.2.1 (w x.2.2.2)).guess = true| ≤
    2 * ε + 2 * (n * (n + t) / 2 ^ 256) + 2 * n ^ 2 / 2 ^ 128 := by
  -- the intermediate experiments
  have step1 := fun b => (real_close E kA kB kA' kB' A B A' B' hA hB hA' hB' seed p n w b).trans (hε b)
  have step2 : ∀ b, |(avg fun P : Key → Equiv.Perm Block => avg fun y : Ω × Tape n => avg fun g : Key → Key => avg fun H : Key → Key =>
        ind (((p y.1).run ((E.withCipher P).withKeyHash H) A' B' seed b g P (w y.2)).guess = true)) -
      avg fun y : Ω × Tape n => avg fun g : Key → Key => avg fun F : Key ⊕ Key → Equiv.Perm Block => ind ((((p y.1).prog E seed b g (w y.2)).run F).1 = true)| ≤
      n * (n + t) / 2 ^ 256 := by
    intro b
    have e1 : (avg fun P : Key → Equiv.Perm Block => avg fun y : Ω × Tape n => avg fun g : Key → Key => avg fun H : Key → Key =>
        ind (((p y.1).run ((E.withCipher P).withKeyHash H) A' B' seed b g P (w y.2)).guess = true)) =
        avg fun y : Ω × Tape n => avg fun g : Key → Key => avg fun H : Key → Key => avg fun P : Key → Equiv.Perm Block =>
        ind (((p y.1).run ((E.withCipher P).withKeyHash H) A' B' seed b g P (w y.2)).guess = true) := by
      rw [avg_comm]
      refine avg_congr fun y => ?_
      rw [avg_comm]
      refine avg_congr fun g => ?_
      rw [avg_comm]
    have hz : (0 : ℝ) ≤ n * (n + t) / 2 ^ 256 := div_nonneg (mul_nonneg (Nat.cast_nonneg n) (add_nonneg (Nat.cast_nonneg n) (Nat.cast_nonneg t))) (pow_nonneg two_pos.le 256)
    have h7 : ∀ {α : Type} [Fintype α] (X Y : α → ℝ), (∀ a, |X a - Y a| ≤ n * (n + t) / 2 ^ 256) → |avg X - avg Y| ≤ n * (n + t) / 2 ^ 256 := by
      intro α _ X Y h
      have e : avg X - avg Y = avg fun a => (X a - Y a) := by
        unfold avg
        rw [sum_sub_distrib, sub_div]
      rw [e]
      exact (abs_avg_le _).trans ((avg_mono h).trans (avg_const_le hz))
    rw [e1]
    refine h7 _ _ fun y => h7 _ _ fun g => ?_
    exact names_close E kA' kB' A' B' hA' hB' seed b g (p y.1) t n (hp y.1) (w y.2)
  have step3 : ∀ b, (avg fun y : Ω × Tape n => avg fun g : Key → Key => avg fun F : Key ⊕ Key → Equiv.Perm Block => ind ((((p y.1).prog E seed b g (w y.2)).run F).1 = true)) =
      prob fun x : (Ω × (Key → Key) × (Key → Equiv.Perm Block)) × (Key → Equiv.Perm Block) × Tape n =>
        ((p x.1.1).observer x.1.2.1 x.1.2.2).run ((E.withKeyHash (Key.shift (sharedPoint E kA' kB'))).withCipher x.2.1) (Wiretap.directions A' B' seed) b (w x.2.2) = true := by
    intro b
    rw [prob_eq_avg]
    simp only [Wiretap.run_observer E kA' kB' A' B' hA' hB' seed b]
    generalize hΦ : (fun (ω : Ω) (tp : Tape n) (g : Key → Key) (F : Key ⊕ Key → Equiv.Perm Block) => ind ((((p ω).prog E seed b g (w tp)).run F).1 = true)) = Φ
    have e3 : ∀ ω tp g F, ind ((((p ω).prog E seed b g (w tp)).run F).1 = true) = Φ ω tp g F := by
      intro ω tp g F
      rw [← hΦ]
    simp only [e3]
    have e4 : ∀ Ψ : (Key ⊕ Key → Equiv.Perm Block) → ℝ, avg Ψ = avg fun P₀ : Key → Equiv.Perm Block => avg fun P₁ : Key → Equiv.Perm Block => Ψ (Sum.elim P₀ P₁) := by
      intro Ψ
      rw [← avg_prod fun x : (Key → Equiv.Perm Block) × (Key → Equiv.Perm Block) => Ψ (Sum.elim x.1 x.2)]
      exact (avg_equiv (Equiv.sumArrowEquivProdArrow Key Key (Equiv.Perm Block)).symm Ψ).symm
    have e5 : (avg fun x : (Ω × (Key → Key) × (Key → Equiv.Perm Block)) × (Key → Equiv.Perm Block) × Tape n => Φ x.1.1 x.2.2 x.1.2.1 (Sum.elim x.1.2.2 x.2.1)) =
        avg fun ω => avg fun g => avg fun P₀ => avg fun P₁ => avg fun tp => Φ ω tp g (Sum.elim P₀ P₁) := by
      rw [avg_prod, avg_prod]
      refine avg_congr fun ω => ?_
      rw [avg_prod]
      refine avg_congr fun g => avg_congr fun P₀ => ?_
      rw [avg_prod]
    rw [e5, avg_prod]
    refine avg_congr fun ω => ?_
    rw [avg_comm]
    refine avg_congr fun g => ?_
    dsimp only
    rw [avg_comm, e4]
  have step4 := C99_hides (E.withKeyHash (Key.shift (sharedPoint E kA' kB'))) (Wiretap.directions A' B' seed) seed (by
      rw [C30_derive] at hA' hB'
      have hA := Out.ok.inj hA'
      have hB := Out.ok.inj hB'
      subst hA hB
      have hl : ∀ sk, (publicKeyOf E sk).length = 32 := fun sk => encodePoint_length _
      intro d
      cases d
      · exact ⟨⟨⟨_, rfl⟩, hl _, hl _, _, decodes_encodePoint _⟩, rfl⟩
      · exact ⟨⟨⟨_, rfl⟩, hl _, hl _, _, decodes_encodePoint _⟩, rfl⟩)
    (fun x : Ω × (Key → Key) × (Key → Equiv.Perm Block) => (p x.1).observer x.2.1 x.2.2) n (fun x => Wiretap.observer_atMost _ _ _ t n (hp x.1)) w hw
  rw [← step3 true, ← step3 false] at step4
  have a1 := step1 true
  have a2 := step1 false
  have b1 := step2 true
  have b2 := step2 false
  rw [abs_le] at a1 a2 b1 b2 step4 ⊢
  constructor <;> linarith

/-- A wiretapper that has one of two messages encrypted, tries the salt as AES key on the last block, and has the messages encrypted in the other order and
direction. -/
def trying (x : UInt8) : Wiretap :=
  .enc false (fun b => if b then [x, 2, 3] else []) fun r =>
    match r with
    | .ok out => .aes (Key.of (out.take 32)) fun π =>
        if (π.symm (Block.of (out.drop 48))).bytes.getLast? = some x then .done true
        else .enc true (fun b => if b then [] else [x, 2, 3]) fun r' => .done (r' != r)
    | _ => .done false

theorem trying_hashed (E : Env) (A B : KeyPair) (seed : ℕ) (b : Bool) (g : Key → Key) (P : Key → Equiv.Perm Block) (w : World) (x : UInt8) :
    ((trying x).run E A B seed b g P w).hashed = [] := by
  unfold trying
  rw [Wiretap.run]
  generalize (if false then newBlockCipher B A (some seed) else newBlockCipher A B (some seed)).encrypt E _ w = c
  obtain ⟨r, w'⟩ := c
  cases r with
  | err e => rfl
  | panic => rfl
  | ok out =>
    dsimp only
    rw [Wiretap.run]
    split
    · rfl
    · rw [Wiretap.run]
      generalize (if true then newBlockCipher B A (some seed) else newBlockCipher A B (some seed)).encrypt E _ w' = c
      obtain ⟨r', w''⟩ := c
      cases r' <;> rfl

/-- The hypotheses of C101: two pairs of parties with different keys, a random byte, one AES key and two blocks, a reader that delivers the random bytes.  It asks for no
hash value, so ε may be 0, and the bound is small. -/
example (E : Env) : ∃ (A B A' B' : KeyPair) (w : Tape 2 → World), newKeyPair E (some (newPrivateKey [1])) none = .ok A ∧ newKeyPair E (some (newPrivateKey [2])) none = .ok B ∧
    newKeyPair E (some (newPrivateKey [3])) none = .ok A' ∧ newKeyPair E (some (newPrivateKey [4])) none = .ok B' ∧ (∀ x, (trying x).AtMost 1 2) ∧
    (∀ t, ErrorFree (w t 5) ∧ content (w t 5) = t.bytes) ∧
    (∀ (b : Bool) (pt : Bytes), (prob fun x : Fin 256 × (Key → Key) × (Key → Key) × (Key → Equiv.Perm Block) × Tape 2 =>
      ∃ y ∈ ((trying (UInt8.ofNat x.1.val)).run ((E.withCipher x.2.2.2.1).withKeyHash x.2.2.1) A' B' 5 b x.2.1 x.2.2.2.1 (w x.2.2.2.2)).hashed,
        ∃ s ∈ ((trying (UInt8.ofNat x.1.val)).run ((E.withCipher x.2.2.2.1).withKeyHash x.2.2.1) A' B' 5 b x.2.1 x.2.2.2.1 (w x.2.2.2.2)).salts, (Key.xor y s).bytes = pt) ≤ 0) := by
  refine ⟨_, _, _, _, fun t _ => [⟨t.bytes, none⟩], C30_derive E _, C30_derive E _, C30_derive E _, C30_derive E _, ?_, ?_, ?_⟩
  · intro x
    refine ⟨by simp [Observer.blocks], by simp [Observer.blocks], fun r => ?_⟩
    cases r with
    | err e => exact trivial
    | panic => exact trivial
    | ok out =>
      intro π
      dsimp only
      by_cases h : (π.symm (Block.of (out.drop 48))).bytes.getLast? = some x
      · rw [if_pos h]; exact trivial
      · rw [if_neg h]; exact ⟨by simp [Observer.blocks], by simp [Observer.blocks], fun r => trivial⟩
  · intro t
    exact ⟨fun r hr => by rw [List.mem_singleton.1 hr], List.append_nil _⟩
  · intro b pt
    rw [prob_eq_avg]
    refine le_trans (avg_mono fun x => ?_) (avg_const_le le_rfl)
    rw [trying_hashed]
    exact le_of_eq (ind_false fun ⟨y, hy, _⟩ => nomatch hy)

example : (2 * 0 + 2 * ((2 : ℕ) * ((2 : ℕ) + (1 : ℕ)) / 2 ^ 256) + 2 * ((2 : ℕ) : ℝ) ^ 2 / 2 ^ 128 : ℝ) < 1 / 2 ^ 100 := by norm_num

end Ed
