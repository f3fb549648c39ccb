import Verif.Proofs.Secrecy
import Verif.Props.Cipher

/-!
# What ciphertexts tell (C99)
-/

set_option autoImplicit false

namespace Ed

open Finset

/-! ## Blocks -/

theorem card_Block : Fintype.card Block = 2 ^ 128 := Fintype.card_fin _

/-- XOR of blocks. -/
def xorB (p c : Block) : Block := Block.of (xorBlock p.bytes c.bytes)

theorem xorBlock_comm (a b : Bytes) : xorBlock a b = xorBlock b a := by
  unfold xorBlock
  rw [List.zipWith_comm]
  congr 1
  funext x y
  exact UInt8.xor_comm _ _

theorem Block.bytes_inj {x y : Block} (h : x.bytes = y.bytes) : x = y := by rw [← Block.of_bytes x, h, Block.of_bytes]

theorem xorB_bytes (p c : Block) : (xorB p c).bytes = xorBlock p.bytes c.bytes :=
  Block.bytes_of (by rw [xorBlock_length (by rw [Block.bytes_length, Block.bytes_length]), Block.bytes_length])

theorem xorB_inj (p : Block) : Function.Injective (xorB p) := by
  intro c c' h
  have h := congrArg Block.bytes h
  rw [xorB_bytes, xorB_bytes, xorBlock_comm, xorBlock_comm p.bytes] at h
  have h1 := xorBlock_cancel (a := c.bytes) (b := p.bytes) (by rw [Block.bytes_length, Block.bytes_length])
  have h2 := xorBlock_cancel (a := c'.bytes) (b := p.bytes) (by rw [Block.bytes_length, Block.bytes_length])
  rw [h, h2] at h1
  exact Block.bytes_inj h1.symm

/-- The blocks of a message with its padding. -/
def blocksOf (m : Bytes) : List Block := (chunks16 (padMessage m)).map Block.of

theorem blocksOf_length (m : Bytes) : (blocksOf m).length = Observer.blocks m := by
  obtain ⟨_, h2, _⟩ := chunks16_spec (m.length / 16 + 1) (padMessage m) (padMessage_length m)
  unfold blocksOf
  rw [List.length_map]
  exact h2

/-! ## Observers as programs that evaluate permutations -/

variable {ι : Type}

/-- The shared key for a salt. -/
def keyOf (E : Env) (c : BlockCipher) (salt : Key) : Key :=
  match getSharedKey E 32 c.sender.priv c.recipient.pub salt.bytes with
  | .ok k => Key.of k
  | _ => Key.of []

/-- The observer together with `Encrypt`. -/
def Observer.prog (E : Env) (c : ι → BlockCipher) (b : Bool) : Observer ι → BProg Key Block (Key × Block)
  | .done g => .done g
  | .enc i m k => .draw fun x => BProg.chain xorB (keyOf E (c i) x.1) x.2 (blocksOf (m b)) fun ys =>
      prog E c b (k (.ok (x.1.bytes ++ x.2.bytes ++ (ys.map Block.bytes).flatten)))

theorem Observer.AtMost.mono {p : Observer ι} : ∀ {n n' : ℕ}, n ≤ n' → p.AtMost n → p.AtMost n' := by
  induction p with
  | done g => intro n n' _ _; trivial
  | enc i m k ih =>
    rintro n n' h ⟨h1, h2, h3⟩
    exact ⟨h1, h2.trans h, fun r => ih r (by omega) (h3 r)⟩

theorem getSharedKey_withCipher (E : Env) (P : Key → Equiv.Perm Block) : getSharedKey (E.withCipher P) = getSharedKey E := by
  funext kl priv pub salt
  rfl

theorem cbc_withCipher (E : Env) (P : Key → Equiv.Perm Block) (key : Bytes) : ∀ (ps : List Bytes) (c : Block), (∀ p ∈ ps, p.length = 16) →
    cbcEncBlocks (E.withCipher P) key c.bytes ps = (BProg.answers xorB (P (Key.of key)) c (ps.map Block.of)).map Block.bytes
  | [], _, _ => rfl
  | p :: ps, c, h => by
    have hp := h p (List.mem_cons_self ..)
    have e : Block.of (xorBlock p c.bytes) = xorB (Block.of p) c := by
      unfold xorB
      rw [Block.bytes_of hp]
    unfold cbcEncBlocks
    rw [List.map_cons, BProg.answers, List.map_cons, ← e, ← cbc_withCipher E P key ps _ fun q hq => h q (List.mem_cons_of_mem _ hq)]
    rfl

/-! ## Tapes -/

theorem avg_cons {C : Type} [Fintype C] {n : ℕ} (F : (Fin (n + 1) → C) → ℝ) :
    avg F = avg fun c => avg fun t : Fin n → C => F (Fin.cons c t) := by
  rw [← avg_equiv (Fin.consEquiv fun _ => C) F, avg_prod]
  rfl

theorem Tape.bytes_cons {n : ℕ} (x : Key × Block) (t : Tape n) : Tape.bytes (Fin.cons x t) = (x.1.bytes ++ x.2.bytes) ++ t.bytes := by
  unfold Tape.bytes
  rw [List.ofFn_succ, List.flatten_cons, Fin.cons_zero]
  simp only [Fin.cons_succ]

/-- A cipher that works: the sender has a private key and the public key of the recipient is a point. -/
def BlockCipher.Works (c : BlockCipher) : Prop :=
  (∃ k, c.sender.priv = some k) ∧ c.keyLength = 32 ∧ c.recipient.pub.raw.length = 32 ∧ ∃ q, Decodes c.recipient.pub.raw q

theorem encrypt_withCipher (E : Env) (P : Key → Equiv.Perm Block) (c : BlockCipher) (hc : c.Works) (m : Bytes) (w : World) (x : Key × Block) (rest : Bytes)
    (hf : ErrorFree (w c.seed)) (hw : content (w c.seed) = (x.1.bytes ++ x.2.bytes) ++ rest) :
    (c.encrypt (E.withCipher P) m w).1 =
      .ok (x.1.bytes ++ x.2.bytes ++ ((BProg.answers xorB (P (keyOf E c x.1)) x.2 (blocksOf m)).map Block.bytes).flatten) ∧
    content ((c.encrypt (E.withCipher P) m w).2 c.seed) = rest ∧ ErrorFree ((c.encrypt (E.withCipher P) m w).2 c.seed) := by
  obtain ⟨⟨k, hk⟩, hkl, hl, q, hq⟩ := hc
  have hlen : (x.1.bytes ++ x.2.bytes).length = 48 := by rw [List.length_append, Key.bytes_length, Block.bytes_length]
  obtain ⟨key, buf, h1, h2, h3, h4, h5, -⟩ := encrypt_eq (E.withCipher P) c k q m w hk hkl hl hq hf (by rw [hw, List.length_append]; omega)
  have e1 : (content (w c.seed)).take 48 = x.1.bytes ++ x.2.bytes := by rw [hw, List.take_left' hlen]
  have e2 : (content (w c.seed)).take 32 = x.1.bytes := by rw [hw, List.append_assoc, List.take_left' (Key.bytes_length _)]
  rw [e1] at h2 h3
  rw [e2, getSharedKey_withCipher] at h1
  rw [List.drop_left' (Key.bytes_length _)] at h2
  have hkey : keyOf E c x.1 = Key.of key := by
    unfold keyOf
    rw [hk, h1]
  have hkl : key.length = 32 := by
    obtain ⟨s, hs1, hs2⟩ : ∃ s, s.length = 32 ∧ getSharedKey E 32 (some k) c.recipient.pub x.1.bytes = .ok s := by
      exact ⟨_, sha256_length E _, getSharedKey_ok E hl hq (by rw [Key.bytes_length])⟩
    rw [hs2] at h1
    rw [← Out.ok.inj h1]
    exact hs1
  have hbuf : buf = ((BProg.answers xorB (P (keyOf E c x.1)) x.2 (blocksOf m)).map Block.bytes).flatten := by
    unfold encode at h2
    rw [aesNewCipher_32 hkl, Out.bind_ok] at h2
    dsimp only at h2
    rw [cbcChecks_ok (Block.bytes_length _) (by rw [padMessage_length]; omega), Out.bind_ok] at h2
    obtain ⟨_, _, h6⟩ := chunks16_spec (m.length / 16 + 1) (padMessage m) (padMessage_length m)
    rw [cbc_withCipher E P key _ _ h6, ← hkey] at h2
    exact (Out.ok.inj h2).symm
  rw [h3, h4, hbuf, hw, List.drop_left' hlen]
  exact ⟨rfl, rfl, h5⟩

/-- The code with random bytes is the program. -/
theorem run_real (E : Env) (P : Key → Equiv.Perm Block) (c : ι → BlockCipher) (seed : ℕ) (hc : ∀ i, (c i).Works ∧ (c i).seed = seed) (b : Bool) :
    ∀ (p : Observer ι) (n : ℕ) (w : Tape n → World), p.AtMost n → (∀ t, ErrorFree (w t seed) ∧ content (w t seed) = t.bytes) →
    (avg fun t => ind (p.run (E.withCipher P) c b (w t) = true)) = (p.prog E c b).real P := by
  intro p
  induction p with
  | done g =>
    intro n w _ _
    exact avg_const (α := Tape n) (ind (g = true))
  | enc i m k ih =>
    intro n w hn hw
    obtain ⟨hm, hb, hk⟩ := hn
    have h1 : 1 ≤ Observer.blocks (m true) := Nat.le_add_left _ _
    cases n with
    | zero => omega
    | succ n =>
      rw [avg_cons]
      refine avg_congr fun x => ?_
      rw [BProg.real_chain]
      have hwork := (hc i).1
      have hseed := (hc i).2
      have henc : ∀ t : Tape n, _ := fun t => encrypt_withCipher E P (c i) hwork (m b) (w (Fin.cons x t)) x t.bytes
        (by rw [hseed]; exact (hw _).1) (by rw [hseed, (hw _).2, Tape.bytes_cons])
      rw [← ih _ n (fun t => ((c i).encrypt (E.withCipher P) (m b) (w (Fin.cons x t))).2) ((hk _).mono (by omega))
        (fun t => by rw [← hseed]; exact ⟨(henc t).2.2, (henc t).2.1⟩)]
      refine avg_congr fun t => ?_
      rw [← (henc t).1]
      rfl

/-- How likely something repeats. -/
theorem bad_le (E : Env) (c : ι → BlockCipher) (b : Bool) : ∀ (p : Observer ι) (n t : ℕ) (D A : List (Key × Block)), p.AtMost n → D.length ≤ t → A.length ≤ t →
    (p.prog E c b).bad D A ≤ (((t + n : ℕ) : ℝ) ^ 2 - (t : ℝ) ^ 2) / Fintype.card Block := by
  intro p
  induction p with
  | done g =>
    intro n t D A _ _ _
    refine div_nonneg ?_ (Nat.cast_nonneg _)
    have : (t : ℝ) ≤ ((t + n : ℕ) : ℝ) := by exact_mod_cast Nat.le_add_right t n
    have h0 : (0 : ℝ) ≤ t := Nat.cast_nonneg _
    nlinarith
  | enc i m k ih =>
    intro n t D A hn hD hA
    obtain ⟨hm, hb, hk⟩ := hn
    have hlen : (blocksOf (m b)).length = Observer.blocks (m true) := by
      rw [blocksOf_length]
      cases b
      · exact hm
      · rfl
    show (avg fun x : Key × Block => (BProg.chain xorB (keyOf E (c i) x.1) x.2 (blocksOf (m b)) _).bad D A) ≤ _
    rw [avg_prod]
    refine le_trans (avg_mono fun salt => ?_) (le_of_eq (avg_const (α := Key) _))
    have h := BProg.bad_chain xorB xorB_inj (keyOf E (c i) salt)
      ((((t + n : ℕ) : ℝ) ^ 2 - ((t + Observer.blocks (m true) : ℕ) : ℝ) ^ 2) / Fintype.card Block) (blocksOf (m b)) t D (fun _ => A)
      (fun iv ys => (k (.ok (salt.bytes ++ iv.bytes ++ (ys.map Block.bytes).flatten))).prog E c b) hD (fun _ => hA) (by
        intro iv ys D' A' hD' hA'
        rw [hlen] at hD' hA'
        have := ih (.ok (salt.bytes ++ iv.bytes ++ (ys.map Block.bytes).flatten)) (n - Observer.blocks (m true)) (t + Observer.blocks (m true)) D' A' (hk _) hD' hA'
        have e : t + Observer.blocks (m true) + (n - Observer.blocks (m true)) = t + n := by omega
        rw [e] at this
        exact this)
    refine h.trans (le_of_eq ?_)
    rw [hlen, ← add_div]
    congr 1
    ring

/-- With random answers the two messages make no difference. -/
theorem ideal_same (E : Env) (c : ι → BlockCipher) : ∀ (p : Observer ι) (n : ℕ), p.AtMost n → (p.prog E c false).ideal = (p.prog E c true).ideal := by
  intro p
  induction p with
  | done g => intro n _; rfl
  | enc i m k ih =>
    intro n hn
    obtain ⟨hm, hb, hk⟩ := hn
    refine avg_congr fun x => ?_
    rw [BProg.ideal_chain, BProg.ideal_chain, blocksOf_length, blocksOf_length, hm]
    congr 1
    funext ys
    exact ih _ _ (hk _)

/-- The program with random permutations and with random answers. -/
theorem prog_ideal (E : Env) (c : ι → BlockCipher) (b : Bool) (p : Observer ι) (n : ℕ) (hn : p.AtMost n) :
    |(avg fun P : Key → Equiv.Perm Block => (p.prog E c b).real P) - (p.prog E c b).ideal| ≤ n ^ 2 / 2 ^ 128 := by
  have h1 := (p.prog E c b).real_ideal []
  have h2 := bad_le E c b p n 0 [] [] hn le_rfl le_rfl
  have hc : BProg.consistent ([] : List (Key × Block × Block)) = univ := by
    ext P
    rw [BProg.mem_consistent]
    simp
  have hN : (Fintype.card Block : ℝ) = 2 ^ 128 := by rw [card_Block, Nat.cast_pow, Nat.cast_ofNat]
  rw [hN, Nat.zero_add, Nat.cast_zero, zero_pow two_ne_zero, sub_zero] at h2
  rw [hc, card_univ] at h1
  have hpos : (0 : ℝ) < Fintype.card (Key → Equiv.Perm Block) := by exact_mod_cast Fintype.card_pos
  refine le_trans ?_ h2
  unfold avg
  generalize (Fintype.card (Key → Equiv.Perm Block) : ℝ) = M at *
  generalize ∑ P : Key → Equiv.Perm Block, (p.prog E c b).real P = S at *
  have e : S / M - (p.prog E c b).ideal = (S - M * (p.prog E c b).ideal) / M := by field_simp
  rw [e, abs_div, abs_of_pos hpos, div_le_iff₀ hpos, mul_comm _ M]
  exact h1

theorem avg_take : ∀ (j N : ℕ), j ≤ N → ∀ G : List Block → ℝ, (avg fun f : Fin N → Block => G ((List.ofFn f).take j)) = BProg.avgList j G := by
  intro j
  induction j with
  | zero => intro N _ G; exact avg_const (α := Fin N → Block) (G [])
  | succ j ih =>
    intro N hN G
    cases N with
    | zero => omega
    | succ N =>
      rw [avg_cons]
      refine avg_congr fun y => ?_
      rw [← ih N (by omega) fun ys => G (y :: ys)]
      refine avg_congr fun f => ?_
      rw [List.ofFn_succ, Fin.cons_zero]
      simp only [Fin.cons_succ]
      rfl

theorem run_random (E : Env) (c : ι → BlockCipher) {N : ℕ} : ∀ (p : Observer ι) (n : ℕ), p.AtMost n → n ≤ N →
    (avg fun t : Fin n → Key × Block × (Fin N → Block) => ind (p.runRandom (List.ofFn t) = true)) = (p.prog E c true).ideal := by
  intro p
  induction p with
  | done g =>
    intro n _ _
    have : ∀ l : List (Key × Block × (Fin N → Block)), (Observer.done g : Observer ι).runRandom l = g := by
      intro l; cases l <;> rfl
    rw [avg_congr fun t => by rw [this]]
    exact avg_const (α := Fin n → Key × Block × (Fin N → Block)) _
  | enc i m k ih =>
    intro n hn hN
    obtain ⟨hm, hb, hk⟩ := hn
    have h1 : 1 ≤ Observer.blocks (m true) := Nat.le_add_left _ _
    cases n with
    | zero => omega
    | succ n =>
      rw [avg_cons, avg_prod]
      show _ = avg fun x : Key × Block => (BProg.chain xorB (keyOf E (c i) x.1) x.2 (blocksOf (m true)) _).ideal
      rw [avg_prod]
      refine avg_congr fun salt => ?_
      rw [avg_prod]
      refine avg_congr fun iv => ?_
      rw [BProg.ideal_chain, blocksOf_length, ← avg_take _ N (by omega)]
      refine avg_congr fun f => ?_
      rw [← ih _ n ((hk _).mono (by omega)) (by omega)]
      refine avg_congr fun t => ?_
      rw [List.ofFn_succ, Fin.cons_zero]
      simp only [Fin.cons_succ]
      rfl

/-! ## The property -/

/-- C99: let AES be a random permutation of the blocks for each key.  Whatever messages an observer chooses, in whatever conversations, and however its choices
depend on the ciphertexts it saw: it can tell the ciphertexts that `Encrypt` makes from random bytes only with a probability of n^2 / 2^128, where n is the number
of blocks. -/
theorem C99_random (E : Env) (c : ι → BlockCipher) (seed : ℕ) (hc : ∀ i, (c i).Works ∧ (c i).seed = seed) {Ω : Type} [Fintype Ω] (p : Ω → Observer ι) (n : ℕ)
    (hn : ∀ ω, (p ω).AtMost n) (w : Tape n → World) (hw : ∀ t, ErrorFree (w t seed) ∧ content (w t seed) = t.bytes) (b : Bool) :
    |(prob fun x : Ω × (Key → Equiv.Perm Block) × Tape n => (p x.1).run (E.withCipher x.2.1) c b (w x.2.2) = true) -
      prob fun x : Ω × (Fin n → Key × Block × (Fin n → Block)) => (p x.1).runRandom (List.ofFn x.2) = true| ≤ n ^ 2 / 2 ^ 128 := by
  have h1 : (prob fun x : Ω × (Key → Equiv.Perm Block) × Tape n => (p x.1).run (E.withCipher x.2.1) c b (w x.2.2) = true) =
      avg fun ω => avg fun P => ((p ω).prog E c b).real P := by
    rw [prob_eq_avg, avg_prod]
    refine avg_congr fun ω => ?_
    rw [avg_prod]
    exact avg_congr fun P => run_real E P c seed hc b (p ω) n w (hn ω) hw
  have h2 : (prob fun x : Ω × (Fin n → Key × Block × (Fin n → Block)) => (p x.1).runRandom (List.ofFn x.2) = true) = avg fun ω => ((p ω).prog E c b).ideal := by
    rw [prob_eq_avg, avg_prod]
    refine avg_congr fun ω => ?_
    dsimp only
    rw [run_random E c (p ω) n (hn ω) le_rfl]
    cases b
    · exact (ideal_same E c (p ω) n (hn ω)).symm
    · rfl
  rw [h1, h2]
  have h3 : (avg fun ω => avg fun P => ((p ω).prog E c b).real P) - (avg fun ω => ((p ω).prog E c b).ideal) =
      avg fun ω => ((avg fun P => ((p ω).prog E c b).real P) - ((p ω).prog E c b).ideal) := by
    unfold avg
    rw [sum_sub_distrib, sub_div]
  rw [h3]
  refine le_trans ?_ ((avg_mono fun ω => prog_ideal E c b (p ω) n (hn ω)).trans (avg_const_le (by positivity)))
  unfold avg
  rw [abs_div, abs_of_nonneg (Nat.cast_nonneg (α := ℝ) (Fintype.card Ω))]
  exact div_le_div_of_nonneg_right (abs_sum_le_sum_abs _ _) (Nat.cast_nonneg _)

/-- C99: so it guesses hardly better whether the first or the second messages were encrypted, if they have the same number of blocks. -/
theorem C99_hides (E : Env) (c : ι → BlockCipher) (seed : ℕ) (hc : ∀ i, (c i).Works ∧ (c i).seed = seed) {Ω : Type} [Fintype Ω] (p : Ω → Observer ι) (n : ℕ)
    (hn : ∀ ω, (p ω).AtMost n) (w : Tape n → World) (hw : ∀ t, ErrorFree (w t seed) ∧ content (w t seed) = t.bytes) :
    |(prob fun x : Ω × (Key → Equiv.Perm Block) × Tape n => (p x.1).run (E.withCipher x.2.1) c true (w x.2.2) = true) -
      prob fun x : Ω × (Key → Equiv.Perm Block) × Tape n => (p x.1).run (E.withCipher x.2.1) c false (w x.2.2) = true| ≤ 2 * n ^ 2 / 2 ^ 128 := by
  have h1 := C99_random E c seed hc p n hn w hw true
  have h2 := C99_random E c seed hc p n hn w hw false
  rw [abs_le] at h1 h2 ⊢
  have e : (2 * n ^ 2 / 2 ^ 128 : ℝ) = n ^ 2 / 2 ^ 128 + n ^ 2 / 2 ^ 128 := by ring
  rw [e]
  constructor <;> linarith

/-- An observer that lets one of two messages be encrypted, looks at the last byte of the ciphertext, and lets a longer message or the same messages in the other
order be encrypted in the other direction. -/
def curious (x : UInt8) : Observer Bool :=
  .enc false (fun b => if b then [1, 2, 3] else []) fun r =>
    match r with
    | .ok out =>
      if out.getLast? = some x then .enc true (fun b => if b then List.replicate 20 7 else List.replicate 16 9) fun r' => .done (r' == .ok out)
      else .enc true (fun b => if b then [] else [1, 2, 3]) fun r' => .done (r' != r)
    | _ => .done false

/-- The hypotheses of C99: two conversations (the two directions between two key pairs), the observer, 3 blocks, a reader that delivers the random bytes. -/
example (E : Env) : ∃ (c : Bool → BlockCipher) (w : Tape 3 → World), (∀ i, (c i).Works ∧ (c i).seed = 5) ∧ (∀ x, (curious x).AtMost 3) ∧
    (∀ t, ErrorFree (w t 5) ∧ content (w t 5) = t.bytes) ∧ (2 * (3 : ℝ) ^ 2 / 2 ^ 128 < 1) := by
  refine ⟨fun i => if i then newBlockCipher ⟨some (newPrivateKey [2]), ⟨publicKeyOf E [2]⟩⟩ ⟨none, ⟨publicKeyOf E [1]⟩⟩ (some 5)
      else newBlockCipher ⟨some (newPrivateKey [1]), ⟨publicKeyOf E [1]⟩⟩ ⟨none, ⟨publicKeyOf E [2]⟩⟩ (some 5), fun t _ => [⟨t.bytes, none⟩], ?_, ?_, ?_, by norm_num⟩
  · have hl : ∀ sk, (publicKeyOf E sk).length = 32 := fun sk => encodePoint_length _
    intro i
    cases i
    · exact ⟨⟨⟨_, rfl⟩, hl _, hl _, _, decodes_encodePoint _⟩, rfl⟩
    · exact ⟨⟨⟨_, rfl⟩, hl _, hl _, _, decodes_encodePoint _⟩, rfl⟩
  · intro x
    refine ⟨rfl, by decide, fun r => ?_⟩
    cases r with
    | ok out =>
      dsimp only
      by_cases h : out.getLast? = some x
      · rw [if_pos h]; exact ⟨rfl, by decide, fun _ => trivial⟩
      · rw [if_neg h]; exact ⟨rfl, by decide, fun _ => trivial⟩
    | err _ => trivial
    | panic => trivial
  · intro t
    exact ⟨by simp [ErrorFree], by simp [content]⟩

end Ed
