import Verif.Model.Env

/-!
# AES (FIPS 197), executable, with its inverse

Not code of the repository: what crypto/aes computes for one block.  `aesD_aesE` is the contract that `Model/Env` demands.
-/

set_option autoImplicit false

namespace Ed.Real

/-- The S-box. -/
def sbox : List UInt8 := [
  99, 124, 119, 123, 242, 107, 111, 197, 48, 1, 103, 43, 254, 215, 171, 118, 202, 130, 201, 125, 250, 89, 71, 240, 173, 212, 162, 175, 156, 164, 114, 192,
  183, 253, 147, 38, 54, 63, 247, 204, 52, 165, 229, 241, 113, 216, 49, 21, 4, 199, 35, 195, 24, 150, 5, 154, 7, 18, 128, 226, 235, 39, 178, 117,
  9, 131, 44, 26, 27, 110, 90, 160, 82, 59, 214, 179, 41, 227, 47, 132, 83, 209, 0, 237, 32, 252, 177, 91, 106, 203, 190, 57, 74, 76, 88, 207,
  208, 239, 170, 251, 67, 77, 51, 133, 69, 249, 2, 127, 80, 60, 159, 168, 81, 163, 64, 143, 146, 157, 56, 245, 188, 182, 218, 33, 16, 255, 243, 210,
  205, 12, 19, 236, 95, 151, 68, 23, 196, 167, 126, 61, 100, 93, 25, 115, 96, 129, 79, 220, 34, 42, 144, 136, 70, 238, 184, 20, 222, 94, 11, 219,
  224, 50, 58, 10, 73, 6, 36, 92, 194, 211, 172, 98, 145, 149, 228, 121, 231, 200, 55, 109, 141, 213, 78, 169, 108, 86, 244, 234, 101, 122, 174, 8,
  186, 120, 37, 46, 28, 166, 180, 198, 232, 221, 116, 31, 75, 189, 139, 138, 112, 62, 181, 102, 72, 3, 246, 14, 97, 53, 87, 185, 134, 193, 29, 158,
  225, 248, 152, 17, 105, 217, 142, 148, 155, 30, 135, 233, 206, 85, 40, 223, 140, 161, 137, 13, 191, 230, 66, 104, 65, 153, 45, 15, 176, 84, 187, 22]

/-- The inverse S-box. -/
def invSbox : List UInt8 := [
  82, 9, 106, 213, 48, 54, 165, 56, 191, 64, 163, 158, 129, 243, 215, 251, 124, 227, 57, 130, 155, 47, 255, 135, 52, 142, 67, 68, 196, 222, 233, 203,
  84, 123, 148, 50, 166, 194, 35, 61, 238, 76, 149, 11, 66, 250, 195, 78, 8, 46, 161, 102, 40, 217, 36, 178, 118, 91, 162, 73, 109, 139, 209, 37,
  114, 248, 246, 100, 134, 104, 152, 22, 212, 164, 92, 204, 93, 101, 182, 146, 108, 112, 72, 80, 253, 237, 185, 218, 94, 21, 70, 87, 167, 141, 157, 132,
  144, 216, 171, 0, 140, 188, 211, 10, 247, 228, 88, 5, 184, 179, 69, 6, 208, 44, 30, 143, 202, 63, 15, 2, 193, 175, 189, 3, 1, 19, 138, 107,
  58, 145, 17, 65, 79, 103, 220, 234, 151, 242, 207, 206, 240, 180, 230, 115, 150, 172, 116, 34, 231, 173, 53, 133, 226, 249, 55, 232, 28, 117, 223, 110,
  71, 241, 26, 113, 29, 41, 197, 137, 111, 183, 98, 14, 170, 24, 190, 27, 252, 86, 62, 75, 198, 210, 121, 32, 154, 219, 192, 254, 120, 205, 90, 244,
  31, 221, 168, 51, 136, 7, 199, 49, 177, 18, 16, 89, 39, 128, 236, 95, 96, 81, 127, 169, 25, 181, 74, 13, 45, 229, 122, 159, 147, 201, 156, 239,
  160, 224, 59, 77, 174, 42, 245, 176, 200, 235, 187, 60, 131, 83, 153, 97, 23, 43, 4, 126, 186, 119, 214, 38, 225, 105, 20, 99, 85, 33, 12, 125]

/-- SubBytes on one byte. -/
def sub (b : UInt8) : UInt8 := sbox.getD b.toNat 0
/-- InvSubBytes on one byte. -/
def invSub (b : UInt8) : UInt8 := invSbox.getD b.toNat 0

theorem invSub_sub (b : UInt8) : invSub (sub b) = b := by
  have h : ∀ n : Fin 256, invSub (sub (UInt8.ofNat n.1)) = UInt8.ofNat n.1 := by decide +kernel
  have := h ⟨b.toNat, b.toNat_lt⟩
  rwa [UInt8.ofNat_toNat] at this

/-- Multiplication by x in GF(2^8). -/
def xt (b : UInt8) : UInt8 := (b <<< 1) ^^^ (if b &&& 0x80 = 0 then 0 else 0x1b)

/-- One column of MixColumns. -/
def mixCol (a b c d : UInt8) : List UInt8 :=
  [xt a ^^^ (xt b ^^^ b) ^^^ c ^^^ d, a ^^^ xt b ^^^ (xt c ^^^ c) ^^^ d, a ^^^ b ^^^ xt c ^^^ (xt d ^^^ d), (xt a ^^^ a) ^^^ b ^^^ c ^^^ xt d]

/-- Multiplication by 9, 11, 13, 14. -/
def mul9 (b : UInt8) : UInt8 := xt (xt (xt b)) ^^^ b
/-- by 11 -/
def mul11 (b : UInt8) : UInt8 := xt (xt (xt b)) ^^^ xt b ^^^ b
/-- by 13 -/
def mul13 (b : UInt8) : UInt8 := xt (xt (xt b)) ^^^ xt (xt b) ^^^ b
/-- by 14 -/
def mul14 (b : UInt8) : UInt8 := xt (xt (xt b)) ^^^ xt (xt b) ^^^ xt b

/-- One column of InvMixColumns. -/
def invMixCol (a b c d : UInt8) : List UInt8 :=
  [mul14 a ^^^ mul11 b ^^^ mul13 c ^^^ mul9 d, mul9 a ^^^ mul14 b ^^^ mul11 c ^^^ mul13 d,
   mul13 a ^^^ mul9 b ^^^ mul14 c ^^^ mul11 d, mul11 a ^^^ mul13 b ^^^ mul9 c ^^^ mul14 d]

/-- The state is the list of the 16 bytes of the block, column by column; a function applied to each column. -/
def onCols (f : UInt8 → UInt8 → UInt8 → UInt8 → List UInt8) : Bytes → Bytes
  | a :: b :: c :: d :: t => f a b c d ++ onCols f t
  | _ => []

/-- ShiftRows: row r of the state is rotated by r places. -/
def shiftRows (s : Bytes) : Bytes := (List.range 16).map fun i => s.getD ((i + 4 * (i % 4)) % 16) 0
/-- InvShiftRows. -/
def invShiftRows (s : Bytes) : Bytes := (List.range 16).map fun i => s.getD ((i + 12 * (i % 4)) % 16) 0

/-- AddRoundKey; the key has 16 bytes. -/
def addKey (k s : Bytes) : Bytes := (List.range 16).map fun i => s.getD i 0 ^^^ k.getD i 0

/-- The rounds after the first AddRoundKey; the last one has no MixColumns. -/
def encRounds : List Bytes → Bytes → Bytes
  | [], s => s
  | [k], s => addKey k (shiftRows (s.map sub))
  | k :: ks, s => encRounds ks (addKey k (onCols mixCol (shiftRows (s.map sub))))

/-- Their inverse. -/
def decRounds : List Bytes → Bytes → Bytes
  | [], s => s
  | [k], s => (invShiftRows (addKey k s)).map invSub
  | k :: ks, s => (invShiftRows (onCols invMixCol (addKey k (decRounds ks s)))).map invSub

/-- The words of the key schedule, the newest first: n more words, the next one has number i. -/
def keyWords (nk : Nat) : Nat → Nat → UInt8 → List Bytes → List Bytes
  | 0, _, _, w => w
  | n + 1, i, rc, w =>
    let t := w.headD []
    let t' := if i % nk = 0 then
        match t.map sub with
        | a :: r => List.zipWith (· ^^^ ·) (r ++ [a]) [rc, 0, 0, 0]
        | [] => []
      else if 6 < nk ∧ i % nk = 4 then t.map sub else t
    keyWords nk n (i + 1) (if i % nk = 0 then xt rc else rc) (List.zipWith (· ^^^ ·) (w.getD (nk - 1) []) t' :: w)

/-- The round keys of a key of 16, 24 or 32 bytes. -/
def roundKeys (key : Bytes) : List Bytes :=
  let nk := key.length / 4
  let w0 := ((List.range nk).map fun i => (key.drop (4 * i)).take 4).reverse
  let w := (keyWords nk (4 * (nk + 7) - nk) nk 1 w0).reverse
  (List.range (nk + 7)).map fun r => ((w.drop (4 * r)).take 4).flatten

/-- AES encryption of one block. -/
def aesE (key s : Bytes) : Bytes :=
  match roundKeys key with
  | [] => s
  | k :: ks => encRounds ks (addKey k s)

/-- AES decryption of one block. -/
def aesD (key s : Bytes) : Bytes :=
  match roundKeys key with
  | [] => s
  | k :: ks => addKey k (decRounds ks s)

/-! ## Decryption inverts encryption -/

theorem xor_cancel_left (a b : UInt8) : a ^^^ (a ^^^ b) = b := by rw [← UInt8.xor_assoc, UInt8.xor_self, UInt8.zero_xor]

theorem xor_left_comm' (a b c : UInt8) : a ^^^ (b ^^^ c) = b ^^^ (a ^^^ c) := by
  rw [← UInt8.xor_assoc, UInt8.xor_comm a b, UInt8.xor_assoc]

theorem xt_xor (a b : UInt8) : xt (a ^^^ b) = xt a ^^^ xt b := by
  have hm : ∀ x : UInt8, x &&& 0x80 = 0 ∨ x &&& 0x80 = 0x80 := by
    intro x
    have h : ∀ n : Fin 256, UInt8.ofNat n.1 &&& 0x80 = 0 ∨ UInt8.ofNat n.1 &&& 0x80 = 0x80 := by decide +kernel
    have := h ⟨x.toNat, x.toNat_lt⟩
    rwa [UInt8.ofNat_toNat] at this
  have hs : (a ^^^ b) <<< 1 = (a <<< 1) ^^^ (b <<< 1) := UInt8.shiftLeft_xor
  have ha : (a ^^^ b) &&& 0x80 = (a &&& 0x80) ^^^ (b &&& 0x80) := by
    refine UInt8.toBitVec_inj.1 ?_
    ext i hi
    simp only [UInt8.toBitVec_and, UInt8.toBitVec_xor, BitVec.getElem_and, BitVec.getElem_xor]
    exact Bool.and_xor_distrib_right _ _ _
  unfold xt
  rw [hs, ha]
  generalize a <<< 1 = a', b <<< 1 = b' 
  rcases hm a with h1 | h1 <;> rcases hm b with h2 | h2 <;> rw [h1, h2]
  all_goals simp [UInt8.xor_assoc, UInt8.xor_comm, xor_left_comm', xor_cancel_left]

theorem invMixCol_mixCol (a b c d : UInt8) (t : Bytes) : onCols invMixCol (onCols mixCol (a :: b :: c :: d :: t)) =
    a :: b :: c :: d :: onCols invMixCol (onCols mixCol t) := by
  simp only [onCols, mixCol, invMixCol, mul9, mul11, mul13, mul14, xt_xor, List.cons_append, List.nil_append, List.cons.injEq]
  generalize xt (xt (xt (xt a))) = a4
  generalize xt (xt (xt a)) = a3
  generalize xt (xt a) = a2
  generalize xt a = a1
  generalize xt (xt (xt (xt b))) = b4
  generalize xt (xt (xt b)) = b3
  generalize xt (xt b) = b2
  generalize xt b = b1
  generalize xt (xt (xt (xt c))) = c4
  generalize xt (xt (xt c)) = c3
  generalize xt (xt c) = c2
  generalize xt c = c1
  generalize xt (xt (xt (xt d))) = d4
  generalize xt (xt (xt d)) = d3
  generalize xt (xt d) = d2
  generalize xt d = d1
  refine ⟨?_, ?_, ?_, ?_, trivial⟩
  · have h : a ^^^ ((a ^^^ a) ^^^ (a1 ^^^ a1) ^^^ (a2 ^^^ a2) ^^^ (a3 ^^^ a3) ^^^ (a3 ^^^ a3) ^^^ (a4 ^^^ a4) ^^^ (b ^^^ b) ^^^ (b1 ^^^ b1) ^^^ (b2 ^^^ b2) ^^^ (b2 ^^^ b2) ^^^ (b3 ^^^ b3) ^^^ (b3 ^^^ b3) ^^^ (b4 ^^^ b4) ^^^ (c ^^^ c) ^^^ (c1 ^^^ c1) ^^^ (c1 ^^^ c1) ^^^ (c2 ^^^ c2) ^^^ (c3 ^^^ c3) ^^^ (c3 ^^^ c3) ^^^ (c4 ^^^ c4) ^^^ (d ^^^ d) ^^^ (d1 ^^^ d1) ^^^ (d1 ^^^ d1) ^^^ (d2 ^^^ d2) ^^^ (d3 ^^^ d3) ^^^ (d3 ^^^ d3) ^^^ (d4 ^^^ d4)) = a := by simp only [UInt8.xor_self, UInt8.xor_zero]
    refine Eq.trans ?_ h; ac_rfl
  · have h : b ^^^ ((a ^^^ a) ^^^ (a1 ^^^ a1) ^^^ (a1 ^^^ a1) ^^^ (a2 ^^^ a2) ^^^ (a3 ^^^ a3) ^^^ (a3 ^^^ a3) ^^^ (a4 ^^^ a4) ^^^ (b ^^^ b) ^^^ (b1 ^^^ b1) ^^^ (b2 ^^^ b2) ^^^ (b3 ^^^ b3) ^^^ (b3 ^^^ b3) ^^^ (b4 ^^^ b4) ^^^ (c ^^^ c) ^^^ (c1 ^^^ c1) ^^^ (c2 ^^^ c2) ^^^ (c2 ^^^ c2) ^^^ (c3 ^^^ c3) ^^^ (c3 ^^^ c3) ^^^ (c4 ^^^ c4) ^^^ (d ^^^ d) ^^^ (d1 ^^^ d1) ^^^ (d1 ^^^ d1) ^^^ (d2 ^^^ d2) ^^^ (d3 ^^^ d3) ^^^ (d3 ^^^ d3) ^^^ (d4 ^^^ d4)) = b := by simp only [UInt8.xor_self, UInt8.xor_zero]
    refine Eq.trans ?_ h; ac_rfl
  · have h : c ^^^ ((a ^^^ a) ^^^ (a1 ^^^ a1) ^^^ (a1 ^^^ a1) ^^^ (a2 ^^^ a2) ^^^ (a3 ^^^ a3) ^^^ (a3 ^^^ a3) ^^^ (a4 ^^^ a4) ^^^ (b ^^^ b) ^^^ (b1 ^^^ b1) ^^^ (b1 ^^^ b1) ^^^ (b2 ^^^ b2) ^^^ (b3 ^^^ b3) ^^^ (b3 ^^^ b3) ^^^ (b4 ^^^ b4) ^^^ (c ^^^ c) ^^^ (c1 ^^^ c1) ^^^ (c2 ^^^ c2) ^^^ (c3 ^^^ c3) ^^^ (c3 ^^^ c3) ^^^ (c4 ^^^ c4) ^^^ (d ^^^ d) ^^^ (d1 ^^^ d1) ^^^ (d2 ^^^ d2) ^^^ (d2 ^^^ d2) ^^^ (d3 ^^^ d3) ^^^ (d3 ^^^ d3) ^^^ (d4 ^^^ d4)) = c := by simp only [UInt8.xor_self, UInt8.xor_zero]
    refine Eq.trans ?_ h; ac_rfl
  · have h : d ^^^ ((a ^^^ a) ^^^ (a1 ^^^ a1) ^^^ (a2 ^^^ a2) ^^^ (a2 ^^^ a2) ^^^ (a3 ^^^ a3) ^^^ (a3 ^^^ a3) ^^^ (a4 ^^^ a4) ^^^ (b ^^^ b) ^^^ (b1 ^^^ b1) ^^^ (b1 ^^^ b1) ^^^ (b2 ^^^ b2) ^^^ (b3 ^^^ b3) ^^^ (b3 ^^^ b3) ^^^ (b4 ^^^ b4) ^^^ (c ^^^ c) ^^^ (c1 ^^^ c1) ^^^ (c1 ^^^ c1) ^^^ (c2 ^^^ c2) ^^^ (c3 ^^^ c3) ^^^ (c3 ^^^ c3) ^^^ (c4 ^^^ c4) ^^^ (d ^^^ d) ^^^ (d1 ^^^ d1) ^^^ (d2 ^^^ d2) ^^^ (d3 ^^^ d3) ^^^ (d3 ^^^ d3) ^^^ (d4 ^^^ d4)) = d := by simp only [UInt8.xor_self, UInt8.xor_zero]
    refine Eq.trans ?_ h; ac_rfl

theorem onCols_length (f : UInt8 → UInt8 → UInt8 → UInt8 → List UInt8) (hf : ∀ a b c d, (f a b c d).length = 4) (s : Bytes)
    (h : s.length = 16) : (onCols f s).length = 16 := by
  match s, h with
  | [a, b, c, d, a', b', c', d', a'', b'', c'', d'', a3, b3, c3, d3], _ => simp [onCols, hf]

theorem invMix_mix (s : Bytes) (h : s.length = 16) : onCols invMixCol (onCols mixCol s) = s := by
  match s, h with
  | [a, b, c, d, a', b', c', d', a'', b'', c'', d'', a3, b3, c3, d3], _ =>
    rw [invMixCol_mixCol, invMixCol_mixCol, invMixCol_mixCol, invMixCol_mixCol]
    rfl

theorem invShift_shift (s : Bytes) (h : s.length = 16) : invShiftRows (shiftRows s) = s := by
  match s, h with
  | [a, b, c, d, a', b', c', d', a'', b'', c'', d'', a3, b3, c3, d3], _ => rfl

theorem addKey_length (k s : Bytes) : (addKey k s).length = 16 := by simp [addKey]
theorem shiftRows_length (s : Bytes) : (shiftRows s).length = 16 := by simp [shiftRows]
theorem invShiftRows_length (s : Bytes) : (invShiftRows s).length = 16 := by simp [invShiftRows]

theorem addKey_addKey (k s : Bytes) (h : s.length = 16) : addKey k (addKey k s) = s := by
  refine List.ext_getElem (by rw [addKey_length, h]) fun i h1 h2 => ?_
  rw [addKey_length] at h1
  have e : ∀ t : Bytes, (addKey k t).getD i 0 = t.getD i 0 ^^^ k.getD i 0 := by
    intro t
    unfold addKey
    rw [List.getD_eq_getElem?_getD, List.getElem?_map, List.getElem?_range h1]
    rfl
  have e2 : ∀ (t : Bytes) (ht : i < t.length), t[i] = t.getD i 0 := fun t ht => by
    rw [List.getD_eq_getElem?_getD, List.getElem?_eq_getElem ht]; rfl
  rw [e2, e, e, e2, UInt8.xor_assoc, UInt8.xor_self, UInt8.xor_zero]

theorem map_invSub_sub (s : Bytes) : (s.map sub).map invSub = s := by
  rw [List.map_map, show invSub ∘ sub = id from funext invSub_sub, List.map_id]

theorem encRounds_length : ∀ (ks : List Bytes) (s : Bytes), s.length = 16 → (encRounds ks s).length = 16
  | [], _, h => h
  | [_], _, _ => addKey_length _ _
  | _ :: k' :: ks, _, _ => encRounds_length (k' :: ks) _ (addKey_length _ _)

theorem decRounds_length : ∀ (ks : List Bytes) (s : Bytes), s.length = 16 → (decRounds ks s).length = 16
  | [], _, h => h
  | [_], _, _ => by simp [decRounds, invShiftRows_length]
  | _ :: _ :: _, _, _ => by simp [decRounds, invShiftRows_length]

theorem decRounds_encRounds : ∀ (ks : List Bytes) (s : Bytes), s.length = 16 → decRounds ks (encRounds ks s) = s
  | [], _, _ => rfl
  | [k], s, h => by
    rw [encRounds, decRounds, addKey_addKey _ _ (shiftRows_length _), invShift_shift _ (by rw [List.length_map, h]), map_invSub_sub]
  | k :: k' :: ks, s, h => by
    have hm : (onCols mixCol (shiftRows (s.map sub))).length = 16 := onCols_length _ (fun _ _ _ _ => rfl) _ (shiftRows_length _)
    rw [encRounds, decRounds, decRounds_encRounds (k' :: ks) _ (addKey_length _ _), addKey_addKey _ _ hm, invMix_mix _ (shiftRows_length _),
      invShift_shift _ (by rw [List.length_map, h]), map_invSub_sub]
    all_goals simp

theorem aesE_length (k b : Bytes) (h : b.length = 16) : (aesE k b).length = 16 := by
  unfold aesE
  split
  · exact h
  · exact encRounds_length _ _ (addKey_length _ _)

theorem aesD_length (k b : Bytes) (h : b.length = 16) : (aesD k b).length = 16 := by
  unfold aesD
  split
  · exact h
  · exact addKey_length _ _

/-- Decryption inverts encryption, for every key. -/
theorem aesD_aesE (k b : Bytes) (h : b.length = 16) : aesD k (aesE k b) = b := by
  unfold aesE aesD
  split
  · rfl
  · rw [decRounds_encRounds _ _ (addKey_length _ _), addKey_addKey _ _ h]

end Ed.Real
