import Verif.Go.Limbs

/-!
# Model of the field arithmetic (ed25519_encode.go lines 112-1037)

The let-bound product lists of `mulProducts`, `sqProducts` and the byte list of `FE.encode` are
transcribed by tools/gen_field_model.py.
-/

set_option autoImplicit false

namespace Ed

/-- Go byte slices, as values. -/
abbrev Bytes := List UInt8

/-- `Ed25519FieldElement{Raw [10]int64}` (ed25519_encode.go:115-124), `NewEd25519FieldElement` (ed25519_encode.go:128-130). -/
@[ext] structure FE where
  (r0 r1 r2 r3 r4 r5 r6 r7 r8 r9 : Int64)
deriving DecidableEq, Repr, Inhabited

/-- `n` rounds of a loop body. -/
def iter {α : Type} (body : α → α) : Nat → α → α
  | 0, a => a
  | n + 1, a => iter body n (body a)

namespace FE

/-- View of the array as limbs (indices above 9 do not exist in Go; they read 0 here and are never used). -/
def limbs (f : FE) : Limbs
  | 0 => f.r0 | 1 => f.r1 | 2 => f.r2 | 3 => f.r3 | 4 => f.r4
  | 5 => f.r5 | 6 => f.r6 | 7 => f.r7 | 8 => f.r8 | 9 => f.r9 | _ => 0

/-- Back from limbs to the array. -/
def ofLimbs (s : Limbs) : FE := ⟨s 0, s 1, s 2, s 3, s 4, s 5, s 6, s 7, s 8, s 9⟩

/-- Field element from literals (Go: `FieldElements{...}`). -/
def ofInts (a0 a1 a2 a3 a4 a5 a6 a7 a8 a9 : Int) : FE :=
  ⟨.ofInt a0, .ofInt a1, .ofInt a2, .ofInt a3, .ofInt a4, .ofInt a5, .ofInt a6, .ofInt a7, .ofInt a8, .ofInt a9⟩

/-- `Ed25519FieldZero` (ed25519_encode.go:70-72). -/
def zero : FE := ofInts 0 0 0 0 0 0 0 0 0 0
/-- `Ed25519FieldOne` (ed25519_encode.go:75-77). -/
def one : FE := ofInts 1 0 0 0 0 0 0 0 0 0
/-- `Ed25519FieldTWO` (ed25519_encode.go:90-92). -/
def two : FE := ofInts 2 0 0 0 0 0 0 0 0 0

/-- `add` (ed25519_encode.go:172-178). -/
def add (f g : FE) : FE :=
  ⟨f.r0 + g.r0, f.r1 + g.r1, f.r2 + g.r2, f.r3 + g.r3, f.r4 + g.r4,
   f.r5 + g.r5, f.r6 + g.r6, f.r7 + g.r7, f.r8 + g.r8, f.r9 + g.r9⟩

/-- `subtract` (ed25519_encode.go:193-200). -/
def subtract (f g : FE) : FE :=
  ⟨f.r0 - g.r0, f.r1 - g.r1, f.r2 - g.r2, f.r3 - g.r3, f.r4 - g.r4,
   f.r5 - g.r5, f.r6 - g.r6, f.r7 - g.r7, f.r8 - g.r8, f.r9 - g.r9⟩

/-- `negate` (ed25519_encode.go:213-220). -/
def negate (f : FE) : FE :=
  ⟨-f.r0, -f.r1, -f.r2, -f.r3, -f.r4, -f.r5, -f.r6, -f.r7, -f.r8, -f.r9⟩

/-- The schoolbook products of `multiply` (ed25519_encode.go:252-389), before the carries. -/
def mulProducts (f g : FE) : FE :=
  let g1_19 := 19 * g.r1
  let g2_19 := 19 * g.r2
  let g3_19 := 19 * g.r3
  let g4_19 := 19 * g.r4
  let g5_19 := 19 * g.r5
  let g6_19 := 19 * g.r6
  let g7_19 := 19 * g.r7
  let g8_19 := 19 * g.r8
  let g9_19 := 19 * g.r9
  let f1_2 := 2 * f.r1
  let f3_2 := 2 * f.r3
  let f5_2 := 2 * f.r5
  let f7_2 := 2 * f.r7
  let f9_2 := 2 * f.r9
  let f0g0 := f.r0 * g.r0
  let f0g1 := f.r0 * g.r1
  let f0g2 := f.r0 * g.r2
  let f0g3 := f.r0 * g.r3
  let f0g4 := f.r0 * g.r4
  let f0g5 := f.r0 * g.r5
  let f0g6 := f.r0 * g.r6
  let f0g7 := f.r0 * g.r7
  let f0g8 := f.r0 * g.r8
  let f0g9 := f.r0 * g.r9
  let f1g0 := f.r1 * g.r0
  let f1g1_2 := f1_2 * g.r1
  let f1g2 := f.r1 * g.r2
  let f1g3_2 := f1_2 * g.r3
  let f1g4 := f.r1 * g.r4
  let f1g5_2 := f1_2 * g.r5
  let f1g6 := f.r1 * g.r6
  let f1g7_2 := f1_2 * g.r7
  let f1g8 := f.r1 * g.r8
  let f1g9_38 := f1_2 * g9_19
  let f2g0 := f.r2 * g.r0
  let f2g1 := f.r2 * g.r1
  let f2g2 := f.r2 * g.r2
  let f2g3 := f.r2 * g.r3
  let f2g4 := f.r2 * g.r4
  let f2g5 := f.r2 * g.r5
  let f2g6 := f.r2 * g.r6
  let f2g7 := f.r2 * g.r7
  let f2g8_19 := f.r2 * g8_19
  let f2g9_19 := f.r2 * g9_19
  let f3g0 := f.r3 * g.r0
  let f3g1_2 := f3_2 * g.r1
  let f3g2 := f.r3 * g.r2
  let f3g3_2 := f3_2 * g.r3
  let f3g4 := f.r3 * g.r4
  let f3g5_2 := f3_2 * g.r5
  let f3g6 := f.r3 * g.r6
  let f3g7_38 := f3_2 * g7_19
  let f3g8_19 := f.r3 * g8_19
  let f3g9_38 := f3_2 * g9_19
  let f4g0 := f.r4 * g.r0
  let f4g1 := f.r4 * g.r1
  let f4g2 := f.r4 * g.r2
  let f4g3 := f.r4 * g.r3
  let f4g4 := f.r4 * g.r4
  let f4g5 := f.r4 * g.r5
  let f4g6_19 := f.r4 * g6_19
  let f4g7_19 := f.r4 * g7_19
  let f4g8_19 := f.r4 * g8_19
  let f4g9_19 := f.r4 * g9_19
  let f5g0 := f.r5 * g.r0
  let f5g1_2 := f5_2 * g.r1
  let f5g2 := f.r5 * g.r2
  let f5g3_2 := f5_2 * g.r3
  let f5g4 := f.r5 * g.r4
  let f5g5_38 := f5_2 * g5_19
  let f5g6_19 := f.r5 * g6_19
  let f5g7_38 := f5_2 * g7_19
  let f5g8_19 := f.r5 * g8_19
  let f5g9_38 := f5_2 * g9_19
  let f6g0 := f.r6 * g.r0
  let f6g1 := f.r6 * g.r1
  let f6g2 := f.r6 * g.r2
  let f6g3 := f.r6 * g.r3
  let f6g4_19 := f.r6 * g4_19
  let f6g5_19 := f.r6 * g5_19
  let f6g6_19 := f.r6 * g6_19
  let f6g7_19 := f.r6 * g7_19
  let f6g8_19 := f.r6 * g8_19
  let f6g9_19 := f.r6 * g9_19
  let f7g0 := f.r7 * g.r0
  let f7g1_2 := f7_2 * g.r1
  let f7g2 := f.r7 * g.r2
  let f7g3_38 := f7_2 * g3_19
  let f7g4_19 := f.r7 * g4_19
  let f7g5_38 := f7_2 * g5_19
  let f7g6_19 := f.r7 * g6_19
  let f7g7_38 := f7_2 * g7_19
  let f7g8_19 := f.r7 * g8_19
  let f7g9_38 := f7_2 * g9_19
  let f8g0 := f.r8 * g.r0
  let f8g1 := f.r8 * g.r1
  let f8g2_19 := f.r8 * g2_19
  let f8g3_19 := f.r8 * g3_19
  let f8g4_19 := f.r8 * g4_19
  let f8g5_19 := f.r8 * g5_19
  let f8g6_19 := f.r8 * g6_19
  let f8g7_19 := f.r8 * g7_19
  let f8g8_19 := f.r8 * g8_19
  let f8g9_19 := f.r8 * g9_19
  let f9g0 := f.r9 * g.r0
  let f9g1_38 := f9_2 * g1_19
  let f9g2_19 := f.r9 * g2_19
  let f9g3_38 := f9_2 * g3_19
  let f9g4_19 := f.r9 * g4_19
  let f9g5_38 := f9_2 * g5_19
  let f9g6_19 := f.r9 * g6_19
  let f9g7_38 := f9_2 * g7_19
  let f9g8_19 := f.r9 * g8_19
  let f9g9_38 := f9_2 * g9_19
  ⟨f0g0 + f1g9_38 + f2g8_19 + f3g7_38 + f4g6_19 + f5g5_38 + f6g4_19 + f7g3_38 + f8g2_19 + f9g1_38,
   f0g1 + f1g0 + f2g9_19 + f3g8_19 + f4g7_19 + f5g6_19 + f6g5_19 + f7g4_19 + f8g3_19 + f9g2_19,
   f0g2 + f1g1_2 + f2g0 + f3g9_38 + f4g8_19 + f5g7_38 + f6g6_19 + f7g5_38 + f8g4_19 + f9g3_38,
   f0g3 + f1g2 + f2g1 + f3g0 + f4g9_19 + f5g8_19 + f6g7_19 + f7g6_19 + f8g5_19 + f9g4_19,
   f0g4 + f1g3_2 + f2g2 + f3g1_2 + f4g0 + f5g9_38 + f6g8_19 + f7g7_38 + f8g6_19 + f9g5_38,
   f0g5 + f1g4 + f2g3 + f3g2 + f4g1 + f5g0 + f6g9_19 + f7g8_19 + f8g7_19 + f9g6_19,
   f0g6 + f1g5_2 + f2g4 + f3g3_2 + f4g2 + f5g1_2 + f6g0 + f7g9_38 + f8g8_19 + f9g7_38,
   f0g7 + f1g6 + f2g5 + f3g4 + f4g3 + f5g2 + f6g1 + f7g0 + f8g9_19 + f9g8_19,
   f0g8 + f1g7_2 + f2g6 + f3g5_2 + f4g4 + f5g3_2 + f6g2 + f7g1_2 + f8g0 + f9g9_38,
   f0g9 + f1g8 + f2g7 + f3g6 + f4g5 + f5g4 + f6g3 + f7g2 + f8g1 + f9g0⟩

/-- The carries of `multiply` (ed25519_encode.go:396-456) and, identically, of
`squareAndOptionalDouble` (ed25519_encode.go:604-639). -/
def mulCarries : List Op :=
  [.rc 0 26, .rc 4 26, .rc 1 25, .rc 5 25, .rc 2 26, .rc 6 26, .rc 3 25, .rc 7 25, .rc 4 26, .rc 8 26,
   .wrap 9 25, .rc 0 26]

/-- `multiply` (ed25519_encode.go:252-458). -/
def multiply (f g : FE) : FE := ofLimbs (run mulCarries (mulProducts f g).limbs)

/-- The products of `squareAndOptionalDouble` (ed25519_encode.go:508-597), before doubling and carries. -/
def sqProducts (f : FE) : FE :=
  let f0_2 := 2 * f.r0
  let f1_2 := 2 * f.r1
  let f2_2 := 2 * f.r2
  let f3_2 := 2 * f.r3
  let f4_2 := 2 * f.r4
  let f5_2 := 2 * f.r5
  let f6_2 := 2 * f.r6
  let f7_2 := 2 * f.r7
  let f5_38 := 38 * f.r5
  let f6_19 := 19 * f.r6
  let f7_38 := 38 * f.r7
  let f8_19 := 19 * f.r8
  let f9_38 := 38 * f.r9
  let f0f0 := f.r0 * f.r0
  let f0f1_2 := f0_2 * f.r1
  let f0f2_2 := f0_2 * f.r2
  let f0f3_2 := f0_2 * f.r3
  let f0f4_2 := f0_2 * f.r4
  let f0f5_2 := f0_2 * f.r5
  let f0f6_2 := f0_2 * f.r6
  let f0f7_2 := f0_2 * f.r7
  let f0f8_2 := f0_2 * f.r8
  let f0f9_2 := f0_2 * f.r9
  let f1f1_2 := f1_2 * f.r1
  let f1f2_2 := f1_2 * f.r2
  let f1f3_4 := f1_2 * f3_2
  let f1f4_2 := f1_2 * f.r4
  let f1f5_4 := f1_2 * f5_2
  let f1f6_2 := f1_2 * f.r6
  let f1f7_4 := f1_2 * f7_2
  let f1f8_2 := f1_2 * f.r8
  let f1f9_76 := f1_2 * f9_38
  let f2f2 := f.r2 * f.r2
  let f2f3_2 := f2_2 * f.r3
  let f2f4_2 := f2_2 * f.r4
  let f2f5_2 := f2_2 * f.r5
  let f2f6_2 := f2_2 * f.r6
  let f2f7_2 := f2_2 * f.r7
  let f2f8_38 := f2_2 * f8_19
  let f2f9_38 := f.r2 * f9_38
  let f3f3_2 := f3_2 * f.r3
  let f3f4_2 := f3_2 * f.r4
  let f3f5_4 := f3_2 * f5_2
  let f3f6_2 := f3_2 * f.r6
  let f3f7_76 := f3_2 * f7_38
  let f3f8_38 := f3_2 * f8_19
  let f3f9_76 := f3_2 * f9_38
  let f4f4 := f.r4 * f.r4
  let f4f5_2 := f4_2 * f.r5
  let f4f6_38 := f4_2 * f6_19
  let f4f7_38 := f.r4 * f7_38
  let f4f8_38 := f4_2 * f8_19
  let f4f9_38 := f.r4 * f9_38
  let f5f5_38 := f.r5 * f5_38
  let f5f6_38 := f5_2 * f6_19
  let f5f7_76 := f5_2 * f7_38
  let f5f8_38 := f5_2 * f8_19
  let f5f9_76 := f5_2 * f9_38
  let f6f6_19 := f.r6 * f6_19
  let f6f7_38 := f.r6 * f7_38
  let f6f8_38 := f6_2 * f8_19
  let f6f9_38 := f.r6 * f9_38
  let f7f7_38 := f.r7 * f7_38
  let f7f8_38 := f7_2 * f8_19
  let f7f9_76 := f7_2 * f9_38
  let f8f8_19 := f.r8 * f8_19
  let f8f9_38 := f.r8 * f9_38
  let f9f9_38 := f.r9 * f9_38
  ⟨f0f0 + f1f9_76 + f2f8_38 + f3f7_76 + f4f6_38 + f5f5_38,
   f0f1_2 + f2f9_38 + f3f8_38 + f4f7_38 + f5f6_38,
   f0f2_2 + f1f1_2 + f3f9_76 + f4f8_38 + f5f7_76 + f6f6_19,
   f0f3_2 + f1f2_2 + f4f9_38 + f5f8_38 + f6f7_38,
   f0f4_2 + f1f3_4 + f2f2 + f5f9_76 + f6f8_38 + f7f7_38,
   f0f5_2 + f1f4_2 + f2f3_2 + f6f9_38 + f7f8_38,
   f0f6_2 + f1f5_4 + f2f4_2 + f3f3_2 + f7f9_76 + f8f8_19,
   f0f7_2 + f1f6_2 + f2f5_2 + f3f4_2 + f8f9_38,
   f0f8_2 + f1f7_4 + f2f6_2 + f3f5_4 + f4f4 + f9f9_38,
   f0f9_2 + f1f8_2 + f2f7_2 + f3f6_2 + f4f5_2⟩

/-- `squareAndOptionalDouble` (ed25519_encode.go:508-642). -/
def squareAndOptionalDouble (f : FE) (dbl : Bool) : FE :=
  let h := sqProducts f
  let h := if dbl then add h h else h          -- lines 598-602: h[i] += val
  ofLimbs (run mulCarries h.limbs)

/-- `square` (ed25519_encode.go:473-476). -/
def square (f : FE) : FE := squareAndOptionalDouble f false

/-- `squareAndDouble` (ed25519_encode.go:490-493). -/
def squareAndDouble (f : FE) : FE := squareAndOptionalDouble f true

/-- `n` successive squarings (the loops `for i := 1; i < n+1; i++ { f = f.square() }`). -/
def squareN (n : Nat) (f : FE) : FE := iter square n f

/-- `pow2to9` (ed25519_encode.go:671-681). -/
def pow2to9 (f : FE) : FE :=
  let h := f.square
  let h := h.square
  let h := h.square
  f.multiply h

/-- `pow2to252sub4` (ed25519_encode.go:684-763). -/
def pow2to252sub4 (f : FE) : FE :=
  let f0 := f.square
  let f1 := f.pow2to9
  let f0 := f0.multiply f1
  let f0 := f0.square
  let f0 := f1.multiply f0
  let f1 := f0.square
  let f1 := squareN 4 f1
  let f0 := f1.multiply f0
  let f1 := f0.square
  let f1 := squareN 9 f1
  let f1 := f1.multiply f0
  let f2 := f1.square
  let f2 := squareN 19 f2
  let f1 := f2.multiply f1
  let f1 := f1.square
  let f1 := squareN 9 f1
  let f0 := f1.multiply f0
  let f1 := f0.square
  let f1 := squareN 49 f1
  let f1 := f1.multiply f0
  let f2 := f1.square
  let f2 := squareN 99 f2
  let f1 := f2.multiply f1
  let f1 := f1.square
  let f1 := squareN 49 f1
  let f0 := f1.multiply f0
  let f0 := f0.square
  f0.square

/-- `invert` (ed25519_encode.go:650-668). -/
def invert (f : FE) : FE :=
  let f0 := f.square
  let f1 := f.pow2to9
  let f0 := f0.multiply f1
  let f1 := f.pow2to252sub4
  let f1 := squareN 3 f1
  f1.multiply f0

/-- `Ed25519FieldElementSqrt` (ed25519_encode.go:139-150). -/
def sqrt (u v : FE) : FE :=
  let v3 := v.square.multiply v
  let x := (v3.square.multiply v).multiply u
  let x := x.pow2to252sub4.multiply x
  (v3.multiply u).multiply x

/-- The quotient estimate `q` of `modP` (ed25519_encode.go:798-810). -/
def modPQuotient (h : FE) : Int64 :=
  let q := sar (19 * h.r9 + Int64.ofInt (2 ^ 24)) 25
  let q := sar (h.r0 + q) 26
  let q := sar (h.r1 + q) 25
  let q := sar (h.r2 + q) 26
  let q := sar (h.r3 + q) 25
  let q := sar (h.r4 + q) 26
  let q := sar (h.r5 + q) 25
  let q := sar (h.r6 + q) 26
  let q := sar (h.r7 + q) 25
  let q := sar (h.r8 + q) 26
  sar (h.r9 + q) 25

/-- The carries of `modP` (ed25519_encode.go:814-840). -/
def modPCarries : List Op :=
  [.fc 0 26, .fc 1 25, .fc 2 26, .fc 3 25, .fc 4 26, .fc 5 25, .fc 6 26, .fc 7 25, .fc 8 26]

/-- `modP` (ed25519_encode.go:796-845). -/
def modP (h : FE) : FE :=
  let h := { h with r0 := h.r0 + 19 * modPQuotient h }
  let h := ofLimbs (run modPCarries h.limbs)
  let carry9 := sar h.r9 25
  { h with r9 := h.r9 - shl carry9 25 }

/-- Step 2 of `Encode`: the 32 bytes of a reduced element (ed25519_encode.go:858-891). -/
def toBytes (h : FE) : Bytes :=
  [toByte (h.r0),
   toByte (sar h.r0 8),
   toByte (sar h.r0 16),
   toByte ((sar h.r0 24) ||| (shl h.r1 2)),
   toByte (sar h.r1 6),
   toByte (sar h.r1 14),
   toByte ((sar h.r1 22) ||| (shl h.r2 3)),
   toByte (sar h.r2 5),
   toByte (sar h.r2 13),
   toByte ((sar h.r2 21) ||| (shl h.r3 5)),
   toByte (sar h.r3 3),
   toByte (sar h.r3 11),
   toByte ((sar h.r3 19) ||| (shl h.r4 6)),
   toByte (sar h.r4 2),
   toByte (sar h.r4 10),
   toByte (sar h.r4 18),
   toByte (h.r5),
   toByte (sar h.r5 8),
   toByte (sar h.r5 16),
   toByte ((sar h.r5 24) ||| (shl h.r6 1)),
   toByte (sar h.r6 7),
   toByte (sar h.r6 15),
   toByte ((sar h.r6 23) ||| (shl h.r7 3)),
   toByte (sar h.r7 5),
   toByte (sar h.r7 13),
   toByte ((sar h.r7 21) ||| (shl h.r8 4)),
   toByte (sar h.r8 4),
   toByte (sar h.r8 12),
   toByte ((sar h.r8 20) ||| (shl h.r9 6)),
   toByte (sar h.r9 2),
   toByte (sar h.r9 10),
   toByte (sar h.r9 18)]

/-- `Encode` (ed25519_encode.go:853-893); the result's `Raw`. -/
def encode (f : FE) : Bytes := (modP f).toBytes

end FE

/-- `subtle.ConstantTimeByteEq` of the Go standard library: `int((uint32(x^y) - 1) >> 31)`. -/
def constantTimeByteEq (x y : UInt8) : UInt32 := ((x ^^^ y).toUInt32 - 1) >>> 31

/-- `subtle.ConstantTimeCompare` of the Go standard library: 0 for different lengths, otherwise the
differences of all bytes are collected with `v |= x[i] ^ y[i]` and compared with 0. -/
def constantTimeCompare (x y : Bytes) : UInt32 :=
  if x.length ≠ y.length then 0
  else constantTimeByteEq ((x.zip y).foldl (fun v p => v ||| (p.1 ^^^ p.2)) 0) 0

/-- `isEqualConstantTime` (crypto.go:88-90). -/
def isEqualConstantTime (x y : Bytes) : Bool := constantTimeCompare x y == 1

/-- `Ed25519FieldZeroShort` (ed25519_encode.go:80-82). -/
def zeroShort : Bytes := List.replicate 32 0

/-- `Ed25519FieldZeroLong` (ed25519_encode.go:85-87). -/
def zeroLong : Bytes := List.replicate 64 0

/-- `Ed25519EncodedFieldElement.IsNegative` (ed25519_encode.go:968-971); `Raw` is non-empty at all uses. -/
def encIsNegative (raw : Bytes) : Bool := raw.getD 0 0 &&& 1 != 0

namespace FE

/-- `Ed25519FieldElement.IsNonZero` (ed25519_encode.go:153-156) with
`Ed25519EncodedFieldElement.IsNonZero` (ed25519_encode.go:978-981). -/
def isNonZero (f : FE) : Bool := !isEqualConstantTime f.encode zeroShort

/-- `Ed25519FieldElement.IsNegative` (ed25519_encode.go:905-908). -/
def isNegative (f : FE) : Bool := encIsNegative f.encode

/-- `Ed25519FieldElement.Equals` (ed25519_encode.go:911-914). -/
def equals (f g : FE) : Bool := isEqualConstantTime f.encode g.encode

end FE

/-- `threeBytesToLong` (ed25519_encode.go:947-952).  `b[i]` beyond the end panics in Go; all callers
pass slices of 32 or 64 bytes and offsets inside. -/
def threeBytesToLong (b : Bytes) (o : Nat) : Int64 :=
  let r := ofByte (b.getD o 0) &&& 0xFF
  let r := r ||| shl (ofByte (b.getD (o + 1) 0) &&& 0xFF) 8
  r ||| shl (ofByte (b.getD (o + 2) 0) &&& 0xFF) 16

/-- `fourBytesToLong` (ed25519_encode.go:954-960). -/
def fourBytesToLong (b : Bytes) (o : Nat) : Int64 :=
  let r := ofByte (b.getD o 0) &&& 0xFF
  let r := r ||| shl (ofByte (b.getD (o + 1) 0) &&& 0xFF) 8
  let r := r ||| shl (ofByte (b.getD (o + 2) 0) &&& 0xFF) 16
  let r := r ||| shl (ofByte (b.getD (o + 3) 0) &&& 0xFF) 24
  r &&& 0xFFFFFFFF

namespace FE

/-- The limbs loaded by `Decode` (ed25519_encode.go:991-1002), before the carries. -/
def decodeLoad (b : Bytes) : FE :=
  ⟨fourBytesToLong b 0,
   shl (threeBytesToLong b 4) 6,
   shl (threeBytesToLong b 7) 5,
   shl (threeBytesToLong b 10) 3,
   shl (threeBytesToLong b 13) 2,
   fourBytesToLong b 16,
   shl (threeBytesToLong b 20) 7,
   shl (threeBytesToLong b 23) 5,
   shl (threeBytesToLong b 26) 4,
   shl (threeBytesToLong b 29 &&& 0x7FFFFF) 2⟩

/-- The carries of `Decode` (ed25519_encode.go:1005-1034). -/
def decodeCarries : List Op :=
  [.wrap 9 25, .rc 1 25, .rc 3 25, .rc 5 25, .rc 7 25, .rc 0 26, .rc 2 26, .rc 4 26, .rc 6 26, .rc 8 26]

/-- `Ed25519EncodedFieldElement.Decode` (ed25519_encode.go:989-1037). -/
def decode (b : Bytes) : FE := ofLimbs (run decodeCarries (decodeLoad b).limbs)

end FE

end Ed
