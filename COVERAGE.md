# Functions of /repo and the model files that cite them

(generated by tools/coverage.py from the citations `file:lines` in lean/Verif/Model)

| file:lines | function | modelled in |
|---|---|---|
| bouncycastle_crypto.go:15-17 | NewPaddedBufferedBlockCipher | Misc.lean |
| bouncycastle_crypto.go:20-22 | BufferedBlockCipher.GetOutputSize | Misc.lean |
| bouncycastle_crypto.go:24-26 | BufferedBlockCipher.reset | Misc.lean |
| bouncycastle_crypto.go:28-30 | BufferedBlockCipher.init | Misc.lean |
| bouncycastle_crypto.go:32-34 | BufferedBlockCipher.doFinal | Misc.lean |
| bouncycastle_crypto.go:36-41 | BufferedBlockCipher.processBytes | Misc.lean |
| bouncycastle_crypto.go:49-51 | NewKeyParameter | Misc.lean |
| bouncycastle_crypto.go:58-60 | NewParametersWithIV | Misc.lean |
| bouncycastle_crypto.go:65-67 | NewPKCS7Padding | Misc.lean |
| bouncycastle_crypto.go:73-75 | NewCBCBlockCipher | Misc.lean |
| bouncycastle_crypto.go:79-81 | NewAESEngine | Misc.lean |
| cipher_model.go:11-16 | NewBlockCipher | Engine.lean Nil.lean |
| crypto.go:16-24 | HashesSha_256 | Env.lean |
| crypto.go:27-35 | HashesKeccak_256 | Env.lean |
| crypto.go:38-46 | HashesSha3_256 | Cost.lean Env.lean |
| crypto.go:49-60 | HashesSha3_512 | Cost.lean Env.lean Print.lean |
| crypto.go:63-72 | HashesRipemd160 | Env.lean |
| crypto.go:74-76 | isNegativeConstantTime | CT.lean IntWidth.lean |
| crypto.go:78-87 | isConstantTimeByteEq | CT.lean IntWidth.lean |
| crypto.go:89-91 | isEqualConstantTime | CT.lean Field.lean |
| ed25519_encode.go:18-29 | PrepareForScalarMultiply | Cost.lean Keys.lean PApi.lean Print.lean |
| ed25519_encode.go:36-38 | NewEd25519KeyAnalyzer | Keys.lean |
| ed25519_encode.go:43-46 | Ed25519KeyAnalyzer.IsKeyCompressed | Keys.lean Nil.lean |
| ed25519_encode.go:59-62 | Ed25519FieldD | Group.lean |
| ed25519_encode.go:65-68 | Ed25519FieldDTimesTwo | Group.lean |
| ed25519_encode.go:71-73 | Ed25519FieldZero | Field.lean |
| ed25519_encode.go:76-78 | Ed25519FieldOne | Field.lean |
| ed25519_encode.go:81-83 | Ed25519FieldZeroShort | Field.lean |
| ed25519_encode.go:86-88 | Ed25519FieldZeroLong | Field.lean |
| ed25519_encode.go:91-93 | Ed25519FieldTWO | Field.lean |
| ed25519_encode.go:96-101 | Ed25519FieldP | MathUtils.lean |
| ed25519_encode.go:128-130 | NewEd25519FieldElement | Field.lean |
| ed25519_encode.go:139-150 | Ed25519FieldElementSqrt | Cost.lean Field.lean |
| ed25519_encode.go:153-156 | Ed25519FieldElement.IsNonZero | Cost.lean Field.lean |
| ed25519_encode.go:172-178 | Ed25519FieldElement.add | Cost.lean Field.lean NilGroup.lean Print.lean |
| ed25519_encode.go:193-200 | Ed25519FieldElement.subtract | Cost.lean Field.lean NilGroup.lean Print.lean |
| ed25519_encode.go:213-220 | Ed25519FieldElement.negate | Cost.lean Field.lean NilGroup.lean Print.lean |
| ed25519_encode.go:252-458 | Ed25519FieldElement.multiply | Cost.lean Field.lean NilGroup.lean Print.lean |
| ed25519_encode.go:473-476 | Ed25519FieldElement.square | Cost.lean Field.lean |
| ed25519_encode.go:490-493 | Ed25519FieldElement.squareAndDouble | Cost.lean Field.lean |
| ed25519_encode.go:508-642 | Ed25519FieldElement.squareAndOptionalDouble | Field.lean |
| ed25519_encode.go:650-668 | Ed25519FieldElement.invert | Cost.lean Field.lean |
| ed25519_encode.go:671-681 | Ed25519FieldElement.pow2to9 | Cost.lean Field.lean |
| ed25519_encode.go:684-763 | Ed25519FieldElement.pow2to252sub4 | Cost.lean Field.lean |
| ed25519_encode.go:796-845 | Ed25519FieldElement.modP | Field.lean |
| ed25519_encode.go:853-893 | Ed25519FieldElement.Encode | Cost.lean Field.lean Heap.lean KeyHeap.lean Misc.lean |
| ed25519_encode.go:905-908 | Ed25519FieldElement.IsNegative | Cost.lean Field.lean |
| ed25519_encode.go:911-914 | Ed25519FieldElement.Equals | Field.lean Misc.lean NilGroup.lean Print.lean |
| ed25519_encode.go:916-919 | Ed25519FieldElement.String | Misc.lean |
| ed25519_encode.go:931-940 | NewEd25519EncodedFieldElement | Group.lean Misc.lean |
| ed25519_encode.go:943-945 | Ed25519EncodedFieldElement.Equals | Group.lean Misc.lean |
| ed25519_encode.go:947-952 | Ed25519EncodedFieldElement.threeBytesToLong | Field.lean Misc.lean |
| ed25519_encode.go:954-960 | Ed25519EncodedFieldElement.fourBytesToLong | Field.lean Misc.lean |
| ed25519_encode.go:968-971 | Ed25519EncodedFieldElement.IsNegative | Field.lean Misc.lean |
| ed25519_encode.go:978-981 | Ed25519EncodedFieldElement.IsNonZero | Field.lean Misc.lean |
| ed25519_encode.go:989-1037 | Ed25519EncodedFieldElement.Decode | Cost.lean Field.lean Misc.lean |
| ed25519_encode.go:1041-1358 | Ed25519EncodedFieldElement.modQ | Cost.lean Misc.lean Scalar.lean |
| ed25519_encode.go:1370-1796 | Ed25519EncodedFieldElement.multiplyAndAddModQ | Cost.lean Heap.lean KeyHeap.lean Misc.lean Scalar.lean |
| ed25519_encode.go:1798-1801 | Ed25519EncodedFieldElement.String | Misc.lean |
| ed25519_encode.go:1809-1815 | NewEd25519EncodedGroupElement | Cipher.lean |
| ed25519_encode.go:1818-1831 | Ed25519EncodedGroupElement.Decode | Cost.lean Group.lean PApi.lean PGroup.lean |
| ed25519_encode.go:1842-1871 | Ed25519EncodedGroupElement.GetAffineX | Cost.lean Group.lean PApi.lean |
| ed25519_encode.go:1877-1887 | Ed25519EncodedGroupElement.GetAffineY | Cost.lean Group.lean |
| ed25519_encode.go:1890-1893 | Ed25519EncodedGroupElement.Equals | Misc.lean |
| ed25519_encode.go:1895-1907 | Ed25519EncodedGroupElement.String | Misc.lean |
| ed25519_encode.go:1935-1937 | ed25519Group.BASE_POINT | Keys.lean NilGroup.lean PApi.lean Pointers.lean |
| ed25519_encode.go:1939-1941 | ed25519Group.ZERO_P2 | Group.lean NilGroup.lean |
| ed25519_encode.go:1943-1945 | ed25519Group.ZERO_P3 | Group.lean NilGroup.lean |
| ed25519_encode.go:1947-1949 | ed25519Group.ZERO_PRECOMPUTED | Group.lean NilGroup.lean |
| ed25519_encode.go:1957-1980 | init | Dsa.lean Keys.lean NilGroup.lean |
| ed25519_encode.go:1984-2002 | getBasePoint | NilGroup.lean Pointers.lean Tables.lean |
| ed25519_encode.go:2035-2049 | NewEd25519GroupElement | NilGroup.lean PGroup.lean |
| ed25519_encode.go:2052-2057 | NewEd25519GroupElementAffine | Group.lean NilGroup.lean PGroup.lean |
| ed25519_encode.go:2060-2065 | NewEd25519GroupElementP2 | Group.lean NilGroup.lean PGroup.lean |
| ed25519_encode.go:2068-2074 | NewEd25519GroupElementP3 | Group.lean NilGroup.lean PGroup.lean |
| ed25519_encode.go:2077-2083 | NewEd25519GroupElementP1XP1 | Group.lean NilGroup.lean PGroup.lean |
| ed25519_encode.go:2087-2092 | NewEd25519GroupElementPrecomputed | Group.lean NilGroup.lean PGroup.lean |
| ed25519_encode.go:2096-2102 | NewEd25519GroupElementCached | Group.lean NilGroup.lean PGroup.lean |
| ed25519_encode.go:2105-2150 | Ed25519GroupElement.Equals | Group.lean NilGroup.lean PGroup.lean Print.lean |
| ed25519_encode.go:2156-2177 | Ed25519GroupElement.toRadix16 | IntWidth.lean NilGroup.lean PGroup.lean Recode.lean |
| ed25519_encode.go:2201-2244 | Ed25519GroupElement.slide | Dsa.lean NilGroup.lean PGroup.lean Recode.lean |
| ed25519_encode.go:2250-2253 | Ed25519GroupElement.GetCoordinateSystem | NilGroup.lean PGroup.lean |
| ed25519_encode.go:2260-2263 | Ed25519GroupElement.GetX | NilGroup.lean PGroup.lean |
| ed25519_encode.go:2270-2273 | Ed25519GroupElement.GetY | NilGroup.lean PGroup.lean |
| ed25519_encode.go:2280-2283 | Ed25519GroupElement.GetZ | NilGroup.lean PGroup.lean |
| ed25519_encode.go:2290-2293 | Ed25519GroupElement.GetT | NilGroup.lean PGroup.lean |
| ed25519_encode.go:2301-2304 | Ed25519GroupElement.IsPrecomputedForDoubleScalarMultiplication | Group.lean NilGroup.lean PGroup.lean |
| ed25519_encode.go:2308-2325 | Ed25519GroupElement.Encode | Cost.lean Group.lean NilGroup.lean PGroup.lean PShared.lean |
| ed25519_encode.go:2328-2331 | Ed25519GroupElement.toP2 | Cost.lean Group.lean NilGroup.lean PGroup.lean PShared.lean |
| ed25519_encode.go:2334-2337 | Ed25519GroupElement.toP3 | Cost.lean Group.lean NilGroup.lean PGroup.lean PShared.lean |
| ed25519_encode.go:2340-2343 | Ed25519GroupElement.toCached | Cost.lean Group.lean NilGroup.lean PGroup.lean PShared.lean |
| ed25519_encode.go:2354-2419 | Ed25519GroupElement.toCoordinateSystem | Cost.lean Group.lean NilGroup.lean PGroup.lean PShared.lean Print.lean |
| ed25519_encode.go:2422-2444 | Ed25519GroupElement.copy | Group.lean NilGroup.lean PGroup.lean PShared.lean Pointers.lean |
| ed25519_encode.go:2447-2476 | Ed25519GroupElement.PrecomputeForScalarMultiplication | Cost.lean Group.lean NilGroup.lean PGroup.lean PShared.lean Pointers.lean |
| ed25519_encode.go:2479-2498 | Ed25519GroupElement.PrecomputeForDoubleScalarMultiplication | Cost.lean Group.lean NilGroup.lean PGroup.lean PShared.lean Pointers.lean |
| ed25519_encode.go:2510-2533 | Ed25519GroupElement.Select | Cost.lean Group.lean IntWidth.lean NilGroup.lean PGroup.lean PShared.lean Pointers.lean Trace.lean |
| ed25519_encode.go:2563-2581 | Ed25519GroupElement.dbl | Cost.lean Group.lean NilGroup.lean PGroup.lean PShared.lean |
| ed25519_encode.go:2617-2649 | Ed25519GroupElement.precomputedAdd | Cost.lean Group.lean NilGroup.lean PGroup.lean PShared.lean |
| ed25519_encode.go:2661-2683 | Ed25519GroupElement.precomputedSubtract | Cost.lean Group.lean NilGroup.lean PGroup.lean PShared.lean |
| ed25519_encode.go:2704-2733 | Ed25519GroupElement.add | Cost.lean Group.lean NilGroup.lean PGroup.lean PShared.lean |
| ed25519_encode.go:2743-2766 | Ed25519GroupElement.subtract | Group.lean NilGroup.lean PGroup.lean PShared.lean |
| ed25519_encode.go:2770-2777 | Ed25519GroupElement.negate | Group.lean NilGroup.lean PGroup.lean PShared.lean |
| ed25519_encode.go:2783-2791 | Ed25519GroupElement.cmov | Group.lean IntWidth.lean NilGroup.lean PGroup.lean PShared.lean Pointers.lean Trace.lean |
| ed25519_encode.go:2801-2831 | Ed25519GroupElement.scalarMultiply | Cost.lean Group.lean IntWidth.lean NilGroup.lean PGroup.lean PShared.lean Trace.lean |
| ed25519_encode.go:2842-2880 | Ed25519GroupElement.doubleScalarMultiplyVariableTime | Cost.lean Group.lean NilGroup.lean PGroup.lean PShared.lean |
| ed25519_encode.go:2884-2898 | Ed25519GroupElement.SatisfiesCurveEquation | Group.lean NilGroup.lean |
| ed25519_encode.go:2900-2908 | Ed25519GroupElement.String | Misc.lean NilGroup.lean |
| ed25519_model.go:22-24 | Ed25519SeedCryptoEngine.CreateDsaSigner | Engine.lean Nil.lean |
| ed25519_model.go:27-29 | Ed25519SeedCryptoEngine.CreateKeyGenerator | Engine.lean Nil.lean |
| ed25519_model.go:32-34 | Ed25519SeedCryptoEngine.CreateBlockCipher | Engine.lean Nil.lean |
| ed25519_model.go:37-39 | Ed25519SeedCryptoEngine.CreateKeyAnalyzer | Engine.lean Nil.lean |
| ed25519_model.go:50-62 | NewEd25519BlockCipher | Cipher.lean Nil.lean |
| ed25519_model.go:64-88 | Ed25519BlockCipher.encode | Cipher.lean Cost.lean IntWidth.lean |
| ed25519_model.go:90-117 | Ed25519BlockCipher.decode | Cipher.lean Cost.lean IntWidth.lean |
| ed25519_model.go:120-144 | Ed25519BlockCipher.GetSharedKey | Cipher.lean Cost.lean IntWidth.lean Nil.lean PApi.lean Print.lean Trace.lean |
| ed25519_model.go:147-175 | Ed25519BlockCipher.Encrypt | Cipher.lean Cost.lean IntWidth.lean Nil.lean PApi.lean Print.lean |
| ed25519_model.go:178-193 | Ed25519BlockCipher.Decrypt | Cipher.lean Cost.lean IntWidth.lean Nil.lean PApi.lean Print.lean |
| ed25519_model.go:201-203 | NewEd25519DsaSigner | Dsa.lean Engine.lean Nil.lean |
| ed25519_model.go:206-266 | Ed25519DsaSigner.Sign | Cost.lean Dsa.lean Heap.lean IntWidth.lean Nil.lean PApi.lean Print.lean Trace.lean |
| ed25519_model.go:270-322 | Ed25519DsaSigner.Verify | Cost.lean Dsa.lean Nil.lean PApi.lean Print.lean |
| ed25519_model.go:325-329 | Ed25519DsaSigner.IsCanonicalSignature | Dsa.lean Nil.lean |
| ed25519_model.go:332-342 | Ed25519DsaSigner.MakeSignatureCanonical | Dsa.lean Heap.lean Nil.lean PApi.lean |
| ed25519_model.go:350-357 | NewEd25519KeyGenerator | Cipher.lean Engine.lean |
| ed25519_model.go:360-371 | Ed25519KeyGenerator.GenerateKeyPair | Cipher.lean IntWidth.lean PApi.lean Print.lean |
| ed25519_model.go:374-384 | Ed25519KeyGenerator.DerivePublicKey | Cipher.lean Cost.lean IntWidth.lean Keys.lean PApi.lean Print.lean Trace.lean |
| key_model.go:41-43 | NewPrivateKey | KeyHeap.lean Keys.lean |
| key_model.go:46-48 | NewPrivateKeyFromBigInt | Hex.lean |
| key_model.go:51-62 | NewPrivateKeyfromHexString | Hex.lean KeyHeap.lean |
| key_model.go:64-66 | PrivateKey.String | Hex.lean Nil.lean |
| key_model.go:74-76 | NewPublicKey | KeyHeap.lean Keys.lean |
| key_model.go:79-90 | NewPublicKeyfromHex | Hex.lean KeyHeap.lean |
| key_model.go:93-95 | PublicKey.hex | Hex.lean |
| key_model.go:97-99 | PublicKey.String | Hex.lean Nil.lean |
| key_pair.go:16-18 | NewRandomKeyPair | Engine.lean |
| key_pair.go:23-35 | NewKeyPair | Engine.lean IntWidth.lean KeyHeap.lean Keys.lean Nil.lean Print.lean |
| key_pair.go:38-40 | NewKeyPairByEngine | Engine.lean Nil.lean |
| key_pair.go:43-46 | KeyPair.HasPrivateKey | Keys.lean Nil.lean |
| math.go:17-19 | bigIntegerZERO | MathUtils.lean |
| math.go:21-23 | bigIntegerONE | MathUtils.lean |
| math.go:31-39 | mathUtils.random | MathUtils.lean |
| math.go:46-58 | mathUtils.BytesToBigInteger | MathUtils.lean |
| math.go:66-69 | mathUtils.EncodedFieldToBigInteger | MathUtils.lean |
| math.go:77-80 | mathUtils.FieldToBigInteger | MathUtils.lean |
| math.go:87-97 | mathUtils.IntsToBigInteger | MathUtils.lean |
| math.go:99-115 | mathUtils.GetRandomFieldElement | MathUtils.lean |
| math.go:121-133 | mathUtils.ScalarMultiplyGroupElement | MathUtils.lean |
| math.go:144-157 | mathUtils.doubleScalarMultiplyGroupElements | MathUtils.lean |
| math.go:160-163 | mathUtils.ToFieldElement | MathUtils.lean |
| math.go:172-186 | mathUtils.ToGroupElement | MathUtils.lean |
| math.go:197-225 | mathUtils.GetAffineXFromAffineY | MathUtils.lean |
| math.go:235-248 | mathUtils.getSqrtOfFraction | MathUtils.lean |
| math.go:256-299 | mathUtils.ToRepresentation | MathUtils.lean |
| math.go:301-304 | xMulYModInverseAndModP | MathUtils.lean |
| math.go:306-348 | mathUtils.getNeeCoor | MathUtils.lean |
| math.go:350-361 | mathUtils.GetRandomEncodedFieldElement | MathUtils.lean |
| math.go:365-382 | mathUtils.GetRandomGroupElement | MathUtils.lean |
| math.go:384-391 | mathUtils.tryToCreateObject | MathUtils.lean |
| math.go:399-411 | mathUtils.GetRandomEncodedGroupElement | MathUtils.lean |
| math.go:419-428 | mathUtils.GetRandomByteArray | MathUtils.lean |
| math.go:430-439 | mathUtils.GetRandomInt64 | MathUtils.lean |
| math.go:445-450 | mathUtils.ReduceModGroupOrder | MathUtils.lean |
| math.go:458-468 | mathUtils.ToEncodedFieldElement | MathUtils.lean |
| math.go:476-485 | mathUtils.ToByteArray | MathUtils.lean |
| math.go:486-489 | coorModify | MathUtils.lean |
| math.go:500-541 | mathUtils.AddGroupElements | MathUtils.lean |
| math.go:543-546 | mathUtils.XMulY_Plus_ZMulT_DelD | MathUtils.lean |
| math.go:556-559 | mathUtils.DoubleGroupElement | MathUtils.lean |
| math.go:567-576 | mathUtils.NegateGroupElement | MathUtils.lean |
| math.go:587-595 | mathUtils.multiplyAndAddModGroupOrder | MathUtils.lean |
| math.go:603-606 | mathUtils.toEncodedFieldElement | MathUtils.lean |
| math.go:611-626 | init | MathUtils.lean |
| signature.go:29-35 | NewSignature | Heap.lean Keys.lean |
| signature.go:38-49 | NewSignatureFromBigInt | Hex.lean |
| signature.go:52-57 | NewSignatureFromBytes | Heap.lean Keys.lean |
| signature.go:60-63 | Signature.GetR | Keys.lean Nil.lean |
| signature.go:66-69 | Signature.GetS | Keys.lean Nil.lean |
| signature.go:72-75 | Signature.Bytes | Heap.lean Keys.lean Nil.lean |
| signature.go:77-80 | Signature.String | Hex.lean Nil.lean |
| signer.go:13-15 | NewSigner | Engine.lean |
| signer.go:18-23 | NewSignerFromKeyPair | Engine.lean Nil.lean |
| signer.go:26-29 | Signer.Sign | Engine.lean |
| signer.go:32-35 | Signer.Verify | Engine.lean |
| signer.go:38-41 | Signer.IsCanonicalSignature | Engine.lean |
| signer.go:44-47 | Signer.MakeSignatureCanonical | Engine.lean |
