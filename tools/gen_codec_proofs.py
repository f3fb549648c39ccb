#!/usr/bin/env python3
# Generates lean/Verif/Proofs/FieldCodec.lean (toBytes of reduced limbs, loading of bytes)
import sys,re
sys.path.insert(0,'/verif/tools')
import gen_field_model as G
pos=[0,26,51,77,102,128,153,179,204,230]; w=[26,25]*5
Vs=' + '.join((f'a{i}' if i==0 else f'2 ^ {pos[i]} * a{i}') for i in range(10))
out='''import Verif.Proofs.Field

/-!
# Encode and Decode of field elements (byte lists generated by tools/gen_codec_proofs.py)
-/

namespace Ed

theorem leBytes32 (n : ℕ) : leBytes 32 n = ['''+', '.join(f'UInt8.ofNat (n / 2 ^ {8*k} % 256)' for k in range(32))+'''] := by
  simp only [leBytes, Nat.div_div_eq_div_mul]
  norm_num

theorem ofNat_congr {a b : ℕ} (h : a % 256 = b) : UInt8.ofNat (a % 256) = UInt8.ofNat b := by rw [h]

theorem sar_nat {x : Int64} {a : ℕ} (h : x.toInt = (a : ℤ)) (k : ℕ) : (sar x k).toInt = ((a / 2 ^ k : ℕ) : ℤ) := by
  rw [toInt_sar, h]; push_cast; rfl

theorem shl_nat {x : Int64} {a : ℕ} (h : x.toInt = (a : ℤ)) {k : ℕ} (hb : 2 ^ k * a < 2 ^ 63) :
    (shl x k).toInt = ((2 ^ k * a : ℕ) : ℤ) := by
  have e : x.toInt * 2 ^ k = ((2 ^ k * a : ℕ) : ℤ) := by rw [h]; push_cast; ring
  rw [toInt_shl_of_fits, e]
  rw [e]
  constructor
  · have := Int.natCast_nonneg (2 ^ k * a); omega
  · exact_mod_cast hb

theorem byte_plain {x : Int64} {a n : ℕ} (h : x.toInt = (a : ℤ)) (e : a % 256 = n) :
    toByte x = UInt8.ofNat n := by
  rw [toByte_of_nat h, e]

theorem byte_sar {x : Int64} {a n : ℕ} (k : ℕ) (h : x.toInt = (a : ℤ)) (e : a / 2 ^ k % 256 = n) :
    toByte (sar x k) = UInt8.ofNat n := by
  rw [toByte_of_nat (sar_nat h k), e]

theorem byte_or {x y : Int64} {a b n : ℕ} (k l : ℕ) (hx : x.toInt = (a : ℤ)) (hy : y.toInt = (b : ℤ))
    (ha : a < 2 ^ (k + l)) (hb : 2 ^ l * b < 2 ^ 63) (e : (a / 2 ^ k + 2 ^ l * b) % 256 = n) :
    toByte (sar x k ||| shl y l) = UInt8.ofNat n := by
  have h1 := sar_nat hx k
  have h2 := shl_nat hy hb
  have h3 : a / 2 ^ k < 2 ^ l := by
    rw [Nat.div_lt_iff_lt_mul (Nat.two_pow_pos k), ← pow_add, Nat.add_comm]; exact ha
  rw [toByte_of_nat (toInt_or l _ b h1 h2 h3), e]

namespace FE

set_option maxHeartbeats 2000000 in
/-- The 32 bytes of a reduced element are its little-endian encoding. -/
theorem toBytes_spec {h : FE} {'''+' '.join(f'a{i}' for i in range(10))+''' : ℕ}
'''
for i in range(10): out+=f'    (h{i} : h.r{i}.toInt = (a{i} : ℤ)) (b{i} : a{i} < 2 ^ {w[i]})\n'
out+=f'''    :
    h.toBytes = leBytes 32 ({Vs}) := by
  rw [leBytes32]
  unfold toBytes
'''
terms=[]
for k,e in enumerate(G.eb):
    m=re.match(r'^h\[(\d)\]$',e)
    if m: terms.append(f'byte_plain h{m.group(1)} (by omega)'); continue
    m=re.match(r'^h\[(\d)\] >> (\d+)$',e)
    if m: terms.append(f'byte_sar {m.group(2)} h{m.group(1)} (by omega)'); continue
    m=re.match(r'^\(h\[(\d)\] >> (\d+)\) \| \(h\[(\d)\] << (\d+)\)$',e)
    i,s,j,l=m.groups()
    terms.append(f'byte_or {s} {l} h{i} h{j} b{i} (by omega) (by omega)')
for k,t in enumerate(terms):
    out+=f'  have e{k} : _ = UInt8.ofNat (({Vs}) / 2 ^ {8*k} % 256) := {t}\n'
out+='  rw ['+', '.join(f'e{k}' for k in range(32))+']\n\n'
out+='''end FE

/-- Byte `i` of a string as a number. -/
def byteN (b : Bytes) (i : ℕ) : ℕ := (b.getD i 0).toNat

theorem byteN_lt (b : Bytes) (i : ℕ) : byteN b i < 256 := (b.getD i 0).toNat_lt

theorem leVal_take_succ (b : Bytes) (n : ℕ) :
    leVal (b.take (n + 1)) = leVal (b.take n) + 256 ^ n * byteN b n := by
  by_cases h : n < b.length
  · rw [List.take_succ_eq_append_getElem h, leVal_append, List.length_take, Nat.min_eq_left h.le]
    simp [leVal, byteN, h]
  · rw [List.take_of_length_le (by omega), List.take_of_length_le (by omega)]
    have : b[n]? = none := List.getElem?_eq_none (by omega)
    simp [byteN, this]

theorem load_byte (b : Bytes) (i : ℕ) : (ofByte (b.getD i 0) &&& 0xFF).toInt = (byteN b i : ℤ) := by
  have h := (toInt_and_mask 8 (byteN b i) (by norm_num) 0xFF rfl (toInt_ofByte (b.getD i 0))).2
  rw [h, Nat.mod_eq_of_lt (byteN_lt b i)]

theorem threeBytes_spec (b : Bytes) (o : ℕ) : (threeBytesToLong b o).toInt =
    ((byteN b o + 2 ^ 8 * byteN b (o + 1) + 2 ^ 16 * byteN b (o + 2) : ℕ) : ℤ) := by
  unfold threeBytesToLong
  have h0 := byteN_lt b o
  have h1 := byteN_lt b (o + 1)
  have h2 := byteN_lt b (o + 2)
  have s1 := shl_nat (k := 8) (load_byte b (o + 1)) (by omega)
  have s2 := shl_nat (k := 16) (load_byte b (o + 2)) (by omega)
  have e1 := toInt_or 8 _ _ (load_byte b o) s1 h0
  exact toInt_or 16 _ _ e1 s2 (by omega)

theorem fourBytes_spec (b : Bytes) (o : ℕ) : (fourBytesToLong b o).toInt =
    ((byteN b o + 2 ^ 8 * byteN b (o + 1) + 2 ^ 16 * byteN b (o + 2) + 2 ^ 24 * byteN b (o + 3) : ℕ) : ℤ) := by
  unfold fourBytesToLong
  have h0 := byteN_lt b o
  have h1 := byteN_lt b (o + 1)
  have h2 := byteN_lt b (o + 2)
  have h3 := byteN_lt b (o + 3)
  have s1 := shl_nat (k := 8) (load_byte b (o + 1)) (by omega)
  have s2 := shl_nat (k := 16) (load_byte b (o + 2)) (by omega)
  have s3 := shl_nat (k := 24) (load_byte b (o + 3)) (by omega)
  have e1 := toInt_or 8 _ _ (load_byte b o) s1 h0
  have e2 := toInt_or 16 _ _ e1 s2 (by omega)
  have e3 := toInt_or 24 _ _ e2 s3 (by omega)
  have e4 := (toInt_and_mask 32 _ (by norm_num) 0xFFFFFFFF rfl e3).2
  rw [Nat.mod_eq_of_lt (by omega)] at e4
  exact e4

'''
S32=' + '.join((f'byteN b {i}' if i==0 else f'2 ^ {8*i} * byteN b {i}') for i in range(32))
out+=f'''theorem leVal_take32 (b : Bytes) : leVal (b.take 32) = {S32} := by
  have h : leVal (b.take 0) = 0 := by simp [leVal]
  simp only [leVal_take_succ, h]
  norm_num

end Ed
'''
open('/verif/lean/Verif/Proofs/FieldCodec.lean','w').write(out)
