{"id": "C01", "title": "Field multiplication is exact and never overflows", "statement": "For field elements whose ten int64 limbs respect the documented precondition (|even limb| <= 1.65*2^26, |odd limb| <= 1.65*2^25) multiply returns limbs bounded by 1.01*2^25/1.01*2^24 that represent the product modulo p = 2^255-19; no int64 wrap-around changes the result.", "quantifier": "all pairs of limb vectors within the documented bounds", "why_tests_cant": "2^540 input pairs; overflow only shows on extreme limbs that random tests never hit", "anchors": ["ed25519_encode.go:multiply"]}
{"id": "C02", "title": "Squaring is exact and never overflows", "statement": "square returns x^2 and squareAndDouble returns 2*x^2 modulo p for every element within the documented bounds, with the documented output bounds.", "quantifier": "all limb vectors within the documented bounds", "why_tests_cant": "extreme limbs and carry patterns are not reachable by sampling", "anchors": ["ed25519_encode.go:square", "ed25519_encode.go:squareAndDouble", "ed25519_encode.go:squareAndOptionalDouble"]}
{"id": "C03", "title": "Add, subtract and negate are exact", "statement": "add, subtract and negate compute the sum, difference and negation modulo p and the limb bounds add up as documented.", "quantifier": "all limb vectors within the documented bounds", "why_tests_cant": "input space unbounded for tests", "anchors": ["ed25519_encode.go:add", "ed25519_encode.go:subtract", "ed25519_encode.go:negate"]}
{"id": "C04", "title": "Field Encode is the canonical encoding", "statement": "Encode of a field element (limbs within the documented bounds) returns exactly the 32-byte little-endian encoding of the unique representative in [0,p); so two elements have equal encodings iff they are equal modulo p.", "quantifier": "all limb vectors within the documented bounds", "why_tests_cant": "values next to multiples of p (the only hard cases) have density 2^-250", "anchors": ["ed25519_encode.go:Encode", "ed25519_encode.go:modP"]}
{"id": "C05", "title": "Field Decode inverts Encode", "statement": "Decode of 32 bytes yields the element (little-endian value mod 2^255) mod p with small limbs; Decode(Encode(x)) = x mod p for every x and Encode(Decode(b)) = b exactly for canonical b (value < p); non-canonical b are reduced, bit 255 is ignored.", "quantifier": "all 32-byte strings and all bounded limb vectors", "why_tests_cant": "2^256 strings; the non-canonical ones are 2^-250 rare", "anchors": ["ed25519_encode.go:Decode", "ed25519_encode.go:Encode"]}
{"id": "C06", "title": "Inversion and the power ladder", "statement": "invert returns the multiplicative inverse modulo p of every non-zero element and 0 for 0; pow2to252sub4 computes x^(2^252-4).", "quantifier": "all bounded limb vectors", "why_tests_cant": "a wrong exponent can agree on samples from subgroups; the space is 2^255", "anchors": ["ed25519_encode.go:invert", "ed25519_encode.go:pow2to9", "ed25519_encode.go:pow2to252sub4"]}
{"id": "C07", "title": "Field predicates decide the right thing", "statement": "IsNonZero is true iff the value is not 0 mod p, IsNegative iff the canonical representative is odd, Equals iff the values agree mod p.", "quantifier": "all bounded limb vectors, including different representations of the same value", "why_tests_cant": "representations of 0 other than the zero vector are never sampled", "anchors": ["ed25519_encode.go:IsNonZero", "ed25519_encode.go:IsNegative", "ed25519_encode.go:Equals"]}
{"id": "C08", "title": "Reduction modulo the group order", "statement": "modQ maps every 64-byte string to the canonical 32-byte little-endian encoding of its value modulo L = 2^252+27742317777372353535851937790883648493 (result strictly below L), with no int64 overflow.", "quantifier": "all 2^512 64-byte strings", "why_tests_cant": "the final conditional subtraction only matters on a 2^-126 fraction of inputs", "anchors": ["ed25519_encode.go:modQ"]}
{"id": "C09", "title": "Multiply-and-add modulo the group order", "statement": "multiplyAndAddModQ returns the canonical encoding of (a*b+c) mod L for every three 32-byte strings (not only for reduced ones).", "quantifier": "all triples of 32-byte strings", "why_tests_cant": "2^768 inputs; overflow and incomplete reduction are rare events", "anchors": ["ed25519_encode.go:multiplyAndAddModQ"]}
{"id": "C10", "title": "Radix-16 recoding", "statement": "toRadix16 of a 32-byte scalar a < 2^255 yields 64 digits, all in [-8,8) except the last in [0,8], whose base-16 value is a; for every 32-byte a the value is a, and the last digit exceeds 8, the range of the lookup table, exactly for a > 8*16^63 + 7*(16^63-1)/15.", "quantifier": "all 32-byte scalars", "why_tests_cant": "carry chains of length 63 are exponentially unlikely", "anchors": ["ed25519_encode.go:toRadix16"]}
{"id": "C11", "title": "Sliding-window recoding", "statement": "slide of a 32-byte scalar a < 2^255 yields 256 digits, each 0 or odd in [-15,15], whose base-2 value is a, with any two non-zero digits at least five places apart. For every 32-byte a the value is a if a has any 256-digit expansion of this form, and a - 2^256 otherwise; from 2^255 on both happen.", "quantifier": "all 32-byte scalars", "why_tests_cant": "the carry loop propagates over runs of ones whose length tests cannot exhaust", "anchors": ["ed25519_encode.go:slide"]}
{"id": "C12", "title": "Point decoding accepts exactly the curve points", "statement": "Decode of a 32-byte encoded group element succeeds iff the y-coordinate given by bits 0..254 belongs to some point of the curve -x^2+y^2=1+d*x^2*y^2, and then returns the point with this y and with the parity of x given by bit 255 (bit ignored when x = 0); otherwise it returns an error and never panics.", "quantifier": "all 32-byte strings", "why_tests_cant": "half of 2^256 strings decode; square-root branches and edge points (x=0, y=0, non-canonical y) are not sampled", "anchors": ["ed25519_encode.go:Ed25519EncodedGroupElement.Decode", "ed25519_encode.go:GetAffineX", "ed25519_encode.go:GetAffineY", "ed25519_encode.go:Ed25519FieldElementSqrt"]}
{"id": "C13", "title": "Point encode/decode round trip", "statement": "Decoding the encoding of any curve point gives back that point, so encoding is injective on points; re-encoding a decoded string gives back the string iff it was canonical.", "quantifier": "all curve points in any projective representation and all 32-byte strings", "why_tests_cant": "non-canonical strings are too rare to be sampled", "anchors": ["ed25519_encode.go:Ed25519GroupElement.Encode", "ed25519_encode.go:Ed25519EncodedGroupElement.Decode"]}
{"id": "C14", "title": "Point arithmetic implements the group law completely", "statement": "dbl, add, subtract, precomputedAdd, precomputedSubtract and negate return representations of P+P, P+Q, P-Q, P+Q, P-Q and -P of the twisted Edwards group for every pair of points (also P=Q, P=-Q, the neutral element, small-order points), with limbs within the bounds needed by the next operation.", "quantifier": "all pairs of curve points, all projective representations, all limb vectors within the bounds", "why_tests_cant": "exceptional pairs have probability about 2^-252", "anchors": ["ed25519_encode.go:dbl", "ed25519_encode.go:add", "ed25519_encode.go:subtract", "ed25519_encode.go:precomputedAdd", "ed25519_encode.go:precomputedSubtract", "ed25519_encode.go:Ed25519GroupElement.negate"]}
{"id": "C15", "title": "Scalar multiplication", "statement": "scalarMultiply on a precomputed point P and scalar a < 2^255 returns a representation of a*P. For 32-byte scalars the same holds up to 8*16^63 + 7*(16^63-1)/15; above, the top digit falls out of the table and the result is a multiple of P that agrees with a only modulo 16^63 (for the largest scalar it is -P).", "quantifier": "all points and all 32-byte scalars", "why_tests_cant": "2^255 scalars times all points", "anchors": ["ed25519_encode.go:scalarMultiply", "ed25519_encode.go:Select", "ed25519_encode.go:PrecomputeForScalarMultiplication"]}
{"id": "C16", "title": "Double scalar multiplication", "statement": "doubleScalarMultiplyVariableTime(A,a,b) returns b*B - a*A for every precomputed A and all scalars a, b < 2^255; for every 32-byte scalar the same holds with the value of its 256-digit width-5 expansion (C11).", "quantifier": "all points A and scalars a, b", "why_tests_cant": "joint recoding patterns cannot be enumerated", "anchors": ["ed25519_encode.go:doubleScalarMultiplyVariableTime", "ed25519_encode.go:PrecomputeForDoubleScalarMultiplication"]}
{"id": "C17", "title": "The constant tables are right", "statement": "Every one of the 256 single and 8 double entries of the base point tables equals (y+x, y-x, 2dxy) of (j+1)*256^i*B resp. (2i+1)*B, d and 2d and sqrt(-1) are the right constants, and B decodes to (x,4/5), x even, of exact order L.", "quantifier": "every table entry", "why_tests_cant": "a single wrong limb shows up only for scalars that select the entry; the order claim is about a 2^252 step iteration", "anchors": ["ed25519_const.go:basePrecSingle", "ed25519_const.go:basePrecDouble", "ed25519_encode.go:getBasePoint"]}
{"id": "C18", "title": "Signatures produced by Sign verify", "statement": "For every private key and message: whenever Sign on the key pair with the derived public key returns a signature, Verify with this public key accepts it for this message.", "quantifier": "all private keys, all messages, all hash functions with 64-byte output", "why_tests_cant": "universal over keys and messages", "anchors": ["ed25519_model.go:Sign", "ed25519_model.go:Verify", "ed25519_model.go:DerivePublicKey"]}
{"id": "C19", "title": "Sign outcome is fully determined", "statement": "Sign without private key returns an error; with a private key it returns the deterministic signature R = r*B, S = (r + H(R,A,M)*a) mod L, except that it reports the error 'not canonical' exactly when the low 64 bits of S are 0 or equal to the low 64 bits of L. It never panics.", "quantifier": "all key pairs and messages", "why_tests_cant": "the error branch has probability 2^-63", "anchors": ["ed25519_model.go:Sign", "ed25519_model.go:IsCanonicalSignature"]}
{"id": "C20", "title": "Verify decides the verification equation", "statement": "For S < 2^255 Verify returns true iff the signature passes IsCanonicalSignature, the public key is not 32 zero bytes, it decodes to a point A, and R is the encoding of S*B - H(R,A,M)*A; for every 32-byte S the same with S replaced by S - 2^256 exactly when S has no 256-digit width-5 expansion (so the largest S stands for -1); for malformed public keys it returns false and never panics; with an S shorter than 32 bytes (the fields are exported) and a usable key it panics.", "quantifier": "all public keys (any bytes), messages and signatures", "why_tests_cant": "soundness of verification is a statement about all forgeries", "anchors": ["ed25519_model.go:Verify"]}
{"id": "C21", "title": "Signature malleability", "statement": "Adding the group order to S of a valid signature should invalidate it (strong unforgeability, RFC 8032 requires S < L). The code accepts it.", "quantifier": "all valid signatures", "why_tests_cant": "tests only produce reduced S", "anchors": ["ed25519_model.go:Verify", "ed25519_model.go:IsCanonicalSignature"]}
{"id": "C22", "title": "MakeSignatureCanonical", "statement": "MakeSignatureCanonical never fails on a well-formed signature, keeps R, replaces S by S mod L, is idempotent, is the identity on signatures made by Sign, and for S < 2^255 does not change what Verify decides as long as both are accepted by the canonicity filter; above, an accepted signature stays accepted exactly if S has a 256-digit width-5 expansion (C11), so it can be turned into one that is refused.", "quantifier": "all signatures", "why_tests_cant": "S >= L never occurs in tests", "anchors": ["ed25519_model.go:MakeSignatureCanonical", "ed25519_model.go:Verify"]}
{"id": "C23", "title": "IsCanonicalSignature", "statement": "IsCanonicalSignature should be true exactly when 0 < S < L. The code looks at the low 64 bits of S only: both directions fail.", "quantifier": "all 32-byte S", "why_tests_cant": "needs S with special low 64 bits or S >= L", "anchors": ["ed25519_model.go:IsCanonicalSignature"]}
{"id": "C24", "title": "Shared keys agree", "statement": "GetSharedKey(privateA, publicB, salt) = GetSharedKey(privateB, publicA, salt) for all derived key pairs and salts of at least 32 bytes, and never fails on them; with a shorter salt or a nil private key it panics, with a public key that is no point it returns an error.", "quantifier": "all pairs of private keys and all salts", "why_tests_cant": "commutativity of scalar multiplication over the whole key space", "anchors": ["ed25519_model.go:GetSharedKey", "ed25519_model.go:DerivePublicKey"]}
{"id": "C25", "title": "Decrypt inverts Encrypt", "statement": "For key pairs created from private keys, every message and every random source that delivers 48 bytes, Encrypt succeeds and the recipient's Decrypt of the result returns the message; the ciphertext has length 48 + 16*(len/16+1).", "quantifier": "all key pairs, messages of every length, all random sources", "why_tests_cant": "all message lengths and contents", "anchors": ["ed25519_model.go:Encrypt", "ed25519_model.go:Decrypt", "ed25519_model.go:encode", "ed25519_model.go:decode"]}
{"id": "C26", "title": "Decrypt on arbitrary input", "statement": "Decrypt returns an error for input shorter than 64 bytes, returns a message or an error for every longer input whose length is a multiple of 16, and should never panic; the code panics for other lengths and for a missing private key.", "quantifier": "all byte strings and key pairs", "why_tests_cant": "arbitrary attacker-supplied input", "anchors": ["ed25519_model.go:Decrypt", "ed25519_model.go:decode"]}
{"id": "C27", "title": "Padding", "statement": "decode accepts a decrypted buffer iff it ends with n copies of the byte n for some 1 <= n <= 16 and then strips exactly these n bytes; encode's padding is always accepted and stripped.", "quantifier": "all buffers that are a non-empty multiple of 16 long", "why_tests_cant": "all lengths and contents", "anchors": ["ed25519_model.go:encode", "ed25519_model.go:decode"]}
{"id": "C28", "title": "Use of the random source", "statement": "GenerateKeyPair and Encrypt consume exactly 32 resp. 48 bytes of the seed reader, in order, whatever the chunking of the reader; successive operations on one engine use disjoint consecutive segments; if the source runs dry or reports an error before the needed bytes have come they return an error and no key or ciphertext (an error that comes together with the last needed byte goes unnoticed).", "quantifier": "all readers, all chunkings, all sequences of operations", "why_tests_cant": "all histories and chunkings", "anchors": ["ed25519_model.go:GenerateKeyPair", "ed25519_model.go:Encrypt", "ed25519_model.go:Ed25519SeedCryptoEngine"]}
{"id": "C29", "title": "Derived public keys are valid", "statement": "DerivePublicKey never fails or panics; the result is 32 bytes, canonical, decodes to a point of exact order L (so it is never a small-order point and never the all-zero string that Verify refuses).", "quantifier": "all private keys (of any length)", "why_tests_cant": "the whole key space", "anchors": ["ed25519_model.go:DerivePublicKey", "ed25519_encode.go:PrepareForScalarMultiply"]}
{"id": "C30", "title": "NewKeyPair", "statement": "NewKeyPair with a nil public key returns the pair with the derived public key; with a public key it succeeds iff the key has 32 bytes and keeps both keys unchanged (in particular it does not check that they belong together); GenerateKeyPair returns a matching pair.", "quantifier": "all private/public keys including nil", "why_tests_cant": "all inputs", "anchors": ["key_pair.go:NewKeyPair", "ed25519_encode.go:IsKeyCompressed", "ed25519_model.go:GenerateKeyPair"]}
{"id": "C31", "title": "Hex constructors and printers", "statement": "NewPrivateKeyfromHexString and NewPublicKeyfromHex accept exactly strings of 64 hex digits, or 63 which are left-padded with 0, and reject everything else with an error; parsing the printed form of a 32-byte key gives the same key; printing is lower case for private and upper case for public keys.", "quantifier": "all strings and keys", "why_tests_cant": "all strings", "anchors": ["key_model.go:NewPrivateKeyfromHexString", "key_model.go:NewPublicKeyfromHex", "key_model.go:String"]}
{"id": "C32", "title": "Private keys from big integers", "statement": "NewPrivateKeyFromBigInt applied to the integer of a raw key should give the same key; it does iff the raw key has no leading zero byte.", "quantifier": "all raw keys", "why_tests_cant": "leading zero bytes have probability 1/256 and need a 32-byte key compared", "anchors": ["key_model.go:NewPrivateKeyFromBigInt", "key_model.go:NewPrivateKey"]}
{"id": "C33", "title": "Signature serialisation round trip", "statement": "NewSignatureFromBytes succeeds iff the input has exactly 64 bytes and Bytes() of the result is the input; Bytes of a signature parses back to the same signature; String is its hex form.", "quantifier": "all byte strings", "why_tests_cant": "all lengths and contents", "anchors": ["signature.go:NewSignatureFromBytes", "signature.go:Bytes", "signature.go:NewSignature"]}
{"id": "C34", "title": "Bytes() has no side effects", "statement": "Calling Bytes() should not change any other object. Because it appends to R in place it overwrites the memory behind R when R has spare capacity: after MakeSignatureCanonical on a parsed signature, Bytes() of the result changes the original signature.", "quantifier": "all slices, aliasing situations and call histories", "why_tests_cant": "depends on slice capacity and aliasing, not on values", "anchors": ["signature.go:Bytes", "signature.go:NewSignatureFromBytes", "ed25519_model.go:MakeSignatureCanonical"]}
{"id": "C35", "title": "NewSignatureFromBigInt", "statement": "NewSignatureFromBigInt should accept every pair of non-negative integers below 2^256 and reproduce them through GetR/GetS. It refuses nil and values whose low 64 bits exceed 2^31-1 and accepts larger ones with small low bits.", "quantifier": "all integers", "why_tests_cant": "the guard looks at the low 64 bits only", "anchors": ["signature.go:NewSignatureFromBigInt"]}
{"id": "C36", "title": "Small-order public keys in key agreement", "statement": "GetSharedKey should depend on the private key. For a public key of order dividing 8 (which the constructors accept) it returns the same value for all private keys.", "quantifier": "all private keys, all small-order points", "why_tests_cant": "needs adversarial public keys", "anchors": ["ed25519_model.go:GetSharedKey", "ed25519_encode.go:PrepareForScalarMultiply"]}
{"id": "C37", "title": "A signature is bound to its message", "statement": "A signature should verify for one message only. With the neutral element as public key (accepted by NewKeyPair and Verify) one signature verifies for every message.", "quantifier": "all messages", "why_tests_cant": "needs adversarial public keys", "anchors": ["ed25519_model.go:Verify"]}
{"id": "C38", "title": "Equality of group elements", "statement": "Equals on elements in P2/P3 coordinates decides equality of the affine points whatever the projective representation; it should be symmetric, but P2.Equals(P3) and P3.Equals(P2) differ. With elements in different coordinate systems Equals never panics, even with nil coordinates T: it answers false.", "quantifier": "all points and representations", "why_tests_cant": "all representations", "anchors": ["ed25519_encode.go:Ed25519GroupElement.Equals"]}
{"id": "C39", "title": "Coordinate conversions", "statement": "Each supported conversion (P3->P2, P3->CACHED, P1xP1->P2, P1xP1->P3, identities) represents the same point; every unsupported one panics, none silently returns a wrong point; Encode of a point does not depend on the representation.", "quantifier": "all points, representations and pairs of coordinate systems", "why_tests_cant": "all points", "anchors": ["ed25519_encode.go:toCoordinateSystem", "ed25519_encode.go:Ed25519GroupElement.Encode"]}
{"id": "C40", "title": "SatisfiesCurveEquation", "statement": "For P2/P3 (and P1xP1) elements with non-zero Z, SatisfiesCurveEquation is true iff the affine point lies on the curve; with Z = 0 (or T = 0 in P1xP1) it is false; every decoded point satisfies it.", "quantifier": "all coordinates within the limb bounds", "why_tests_cant": "off-curve points close to the curve cannot be enumerated", "anchors": ["ed25519_encode.go:SatisfiesCurveEquation"]}
{"id": "C41", "title": "Precomputation and table lookup", "statement": "PrecomputeForScalarMultiplication and PrecomputeForDoubleScalarMultiplication fill the tables with the documented multiples, are idempotent and never change the point; Select(pos,b) returns b*256^pos*P for -8 <= b <= 8 and panics without table; for every other int b it sees only the low nine bits, read as a signed number: a multiple of P when that number is between -8 and 8, else the neutral element; the conditional move takes 0 and 1 only.", "quantifier": "all points, all positions and digits, all call histories", "why_tests_cant": "all points", "anchors": ["ed25519_encode.go:PrecomputeForScalarMultiplication", "ed25519_encode.go:PrecomputeForDoubleScalarMultiplication", "ed25519_encode.go:Select", "ed25519_encode.go:cmov"]}
{"id": "C42", "title": "Clamping", "statement": "PrepareForScalarMultiply returns 32 bytes encoding a multiple of 8 in [2^254, 2^255) and depends on the key bytes only through their SHA3-512 hash; it does not modify the key.", "quantifier": "all private keys", "why_tests_cant": "all keys", "anchors": ["ed25519_encode.go:PrepareForScalarMultiply"]}
{"id": "C43", "title": "Hash inputs are concatenated", "statement": "HashesSha3_512 of several inputs equals the hash of their concatenation, whatever the split.", "quantifier": "all lists of inputs", "why_tests_cant": "all splits", "anchors": ["crypto.go:HashesSha3_512"]}
{"id": "C44", "title": "MathUtils reference arithmetic", "statement": "The big-integer reference functions agree with the optimised ones: ReduceModGroupOrder with modQ on all strings of at most 64 bytes, multiplyAndAddModGroupOrder with multiplyAndAddModQ on all 32-byte strings, IntsToBigInteger/FieldToBigInteger/ToFieldElement with the limb value modulo p, NegateGroupElement with the group law, ToRepresentation keeps the point from every coordinate system but PRECOMPUTED (from PRECOMPUTED it is wrong for every point). AddGroupElements and DoubleGroupElement on P2 and P3 elements never panic and return the sum exactly if the two numbers whose big.Int memory they share between their calls still hold the two x-coordinates; this is so whenever the affine x of the first point is 0 or it and the affine y of the second are at least 2^64. ScalarMultiplyGroupElement and doubleScalarMultiplyGroupElements return the multiple if all their additions meet this condition. With a library that multiplies one-word numbers in place the sum of a point and the neutral element is wrong.", "quantifier": "all inputs", "why_tests_cant": "tests use the reference on random inputs only", "anchors": ["math.go:ReduceModGroupOrder", "math.go:multiplyAndAddModGroupOrder", "math.go:IntsToBigInteger", "math.go:FieldToBigInteger", "math.go:AddGroupElements", "math.go:ScalarMultiplyGroupElement"]}
{"id": "C45", "title": "MathUtils point recovery", "statement": "ToGroupElement/GetAffineXFromAffineY should return the curve point with the given y. The code computes v*x instead of v*x^2 and destroys x when testing its parity, so it returns 0 for y = 0, 1, -1 and rejects every other y; the bytes passed to ToGroupElement lose their top bit.", "quantifier": "all y-coordinates", "why_tests_cant": "the function is not covered by tests", "anchors": ["math.go:GetAffineXFromAffineY", "math.go:ToGroupElement"]}
{"id": "C46", "title": "Signer and engine delegation", "statement": "A Signer obtained by NewSignerFromKeyPair (with a nil engine: the default engine) signs, verifies and canonicalises exactly like the DSA signer of the key pair; NewBlockCipher with nil engine uses the default engine.", "quantifier": "all key pairs, messages, signatures", "why_tests_cant": "all inputs", "anchors": ["signer.go:NewSignerFromKeyPair", "cipher_model.go:NewBlockCipher"]}
{"id": "C47", "title": "Constant-time comparisons", "statement": "isEqualConstantTime decides equality of byte strings (different lengths are unequal); isConstantTimeByteEq is 1 iff the low bytes agree and else 0; isNegativeConstantTime is 1 for -256 <= b < 0 and 0 for 0 <= b < 256, and for every int it is bit 8.", "quantifier": "all byte strings and ints", "why_tests_cant": "all inputs", "anchors": ["crypto.go:isEqualConstantTime", "crypto.go:isConstantTimeByteEq", "crypto.go:isNegativeConstantTime"]}
{"id": "C48", "title": "The shared base point is immutable through BASE_POINT()", "statement": "Any sequence of BASE_POINT() calls, scalar multiplications, precomputations and table changes on the returned copies leaves the tables of later BASE_POINT() results unchanged; changing a coordinate of a returned copy should not change the shared point either, but it does, because copy() shares the coordinate pointers; likewise Select with a digit in 1..8 hands out the shared table entry itself, so a write through its coordinates changes the table of every later BASE_POINT().", "quantifier": "all call histories", "why_tests_cant": "aliasing over histories", "anchors": ["ed25519_encode.go:BASE_POINT", "ed25519_encode.go:copy"]}
{"id": "C49", "title": "Random test data", "statement": "The random helpers consume exactly the bytes of crypto/rand: GetRandomByteArray and GetRandomInt64 return them, GetRandomEncodedFieldElement clears bit 255 (lengths 32 and 64 only, otherwise a panic), GetRandomGroupElement is the first 32-byte block that encodes a curve point; a failing source panics. GetRandomFieldElement asks ten times for two bytes, ignores what it gets and always returns the same element.", "quantifier": "all random sources, all lengths", "why_tests_cant": "tests see only random samples", "anchors": ["math.go:GetRandomByteArray", "math.go:GetRandomInt64", "math.go:GetRandomEncodedFieldElement", "math.go:GetRandomGroupElement", "math.go:GetRandomFieldElement"]}
{"id": "C50", "title": "Encoded field elements as objects", "statement": "NewEd25519EncodedFieldElement accepts exactly 32 and 64 bytes and keeps them. IsNonZero and IsNegative are about the number written in the bytes (non-zero, odd), not about its residue, so the bytes of p are non-zero although they decode to zero; Equals is byte equality. On the Encode of a field element all three agree with the field element. Decode panics exactly below 32 bytes, modQ below 64, multiplyAndAddModQ when an argument is below 32, and their values are those of C05, C08, C09. An element made by a struct literal outside the package is never reported as zero.", "quantifier": "all byte strings of all lengths, all field elements in the documented bounds", "why_tests_cant": "2^512 byte strings; the two meanings of zero differ only on the few strings that are multiples of p", "anchors": ["ed25519_encode.go:NewEd25519EncodedFieldElement", "ed25519_encode.go:Ed25519EncodedFieldElement.IsNonZero", "ed25519_encode.go:Ed25519EncodedFieldElement.IsNegative", "ed25519_encode.go:Ed25519EncodedFieldElement.Equals", "ed25519_encode.go:Ed25519EncodedFieldElement.Decode"]}
{"id": "C51", "title": "Printed forms of field and group elements", "statement": "A field element prints as the 64 lower-case digits of its canonical little-endian encoding, so two elements print alike iff they are equal modulo p. A 32-byte encoded group element prints x and y of the point it denotes, and the text of the error if it denotes none; it never panics. A group element prints its four coordinates and panics iff it has no T coordinate.", "quantifier": "all field elements in the documented bounds, all byte strings, all group elements", "why_tests_cant": "the domain is 2^256 strings", "anchors": ["ed25519_encode.go:Ed25519FieldElement.String", "ed25519_encode.go:Ed25519EncodedGroupElement.String", "ed25519_encode.go:Ed25519GroupElement.String"]}
{"id": "C52", "title": "The legacy buffered block cipher does not encrypt", "statement": "For every history of calls of GetOutputSize, reset, init, doFinal and processBytes on a new padded buffered block cipher: the output size is 0, doFinal writes nothing, processBytes leaves its output buffer alone and either returns -1 or overwrites its input with it, and no result depends on the key, the IV or the direction.", "quantifier": "all histories of calls with all arguments", "why_tests_cant": "histories are unbounded", "anchors": ["bouncycastle_crypto.go:BufferedBlockCipher", "bouncycastle_crypto.go:NewPaddedBufferedBlockCipher"]}
{"id": "C53", "title": "Concurrent use without locks", "statement": "Any number of goroutines may at the same time derive public keys, sign, verify, canonicalise signatures, compute shared keys, encrypt, decrypt and generate key pairs with shared keys, messages, signatures and the shared base point, in any interleaving of their single memory actions: no goroutine ever writes memory that another one can reach (no data race), the shared memory never changes, every goroutine that gets turns finishes, and each call that uses no reader has the result it has when run alone.", "quantifier": "all numbers of goroutines, all sequences of calls, all schedules, all shared memories", "why_tests_cant": "the race detector sees only the schedules that happen", "anchors": ["ed25519_encode.go:BASE_POINT", "ed25519_encode.go:copy", "ed25519_model.go:Ed25519DsaSigner.Sign", "ed25519_model.go:Ed25519DsaSigner.Verify", "ed25519_model.go:DerivePublicKey", "ed25519_model.go:Encrypt"]}
{"id": "C54", "title": "Shared random readers", "statement": "When goroutines share a reader (key generation, encryption), each call has the result it has when run alone on a reader that delivers the bytes this goroutine got; the bytes of a reader are handed out once, so concurrently generated private keys are made of disjoint parts of the stream.", "quantifier": "all readers, all answers of Read, all schedules", "why_tests_cant": "the split of the stream depends on the schedule", "anchors": ["ed25519_model.go:GenerateKeyPair", "ed25519_model.go:Encrypt"]}
{"id": "C55", "title": "Shared group elements", "statement": "Once their tables are there, group elements may be shared by any number of goroutines that encode, convert, double, negate, add, subtract, select, multiply, double-multiply and call the precomputation functions again, in any interleaving: the elements never change, no goroutine writes memory of another, every goroutine that gets turns finishes, and each call has the outcome it has alone.", "quantifier": "all numbers of goroutines, all sequences of calls, all schedules, all elements", "why_tests_cant": "the race detector sees only the schedules that happen", "anchors": ["ed25519_encode.go:Select", "ed25519_encode.go:scalarMultiply", "ed25519_encode.go:doubleScalarMultiplyVariableTime", "ed25519_encode.go:toCoordinateSystem"]}
{"id": "C56", "title": "Racing precomputation", "statement": "PrecomputeForScalarMultiplication should be safe to call from two goroutines on a shared element, but it publishes the table before it is filled: for every element without table, every position and every digit there is a schedule in which the second goroutine's precomputation is a no-op and its Select returns the neutral element without error, and one in which it returns an error; alone the goroutine gets the right multiple.", "quantifier": "all elements without table, all positions, all digits", "why_tests_cant": "the bad schedules are rare", "anchors": ["ed25519_encode.go:PrecomputeForScalarMultiplication", "ed25519_encode.go:Select"]}
{"id": "C57", "title": "Precomputation that panics is not undone", "statement": "If PrecomputeForScalarMultiplication panics (elements that have no cached form: everything but CACHED and P3 with T), the element should be as before; instead it keeps a table with one entry: calling it again succeeds and does nothing, and Select then returns the neutral element at positions 1 to 31, and an error for digits of absolute value 2 to 8 at position 0.", "quantifier": "all such elements, all positions, all digits", "why_tests_cant": "a crash point inside the function", "anchors": ["ed25519_encode.go:PrecomputeForScalarMultiplication", "ed25519_encode.go:toCached", "ed25519_encode.go:Select"]}
{"id": "C58", "title": "Mismatched key pairs give the private key away", "statement": "NewKeyPair accepts any 32 bytes as public key of a private key. Signing one message with the same private key under two public keys gives two signatures with the same R, from which the private scalar modulo L, and so a number with the genuine public key, is computed whenever the two challenges differ.", "quantifier": "all private keys, public keys, messages", "why_tests_cant": "an attack, not a failure of a test", "anchors": ["key_pair.go:NewKeyPair", "ed25519_model.go:Ed25519DsaSigner.Sign"]}
{"id": "C59", "title": "A message that changes while it is signed", "statement": "Sign reads the message twice. If another goroutine overwrites the message in between, Sign returns without error the commitment of the old message with the response for the new one; together with the genuine signature of the old message this reveals the private scalar modulo L whenever the challenges differ.", "quantifier": "all keys, all pairs of messages", "why_tests_cant": "depends on the schedule", "anchors": ["ed25519_model.go:Ed25519DsaSigner.Sign"]}
{"id": "C60", "title": "Branches on secrets", "statement": "The comments promise that Select has no secret branching. But cmov tests its flag with if and switch: an observer who sees only the outcomes of those tests computes the whole scalar of every scalar multiplication below 2^255, so DerivePublicKey and GetSharedKey (Encrypt, Decrypt) give away the private scalar, and Sign its nonce, from which the private scalar modulo L follows.", "quantifier": "all elements with table, all scalars below 2^255, all private keys, public keys, messages", "why_tests_cant": "tests compare results, not the paths taken", "anchors": ["ed25519_encode.go:Select", "ed25519_encode.go:cmov", "ed25519_encode.go:scalarMultiply", "ed25519_model.go:Sign", "ed25519_model.go:DerivePublicKey", "ed25519_model.go:GetSharedKey"]}
{"id": "C61", "title": "One signature for two messages is a hash collision", "statement": "If Verify accepts one signature for two messages under one public key, the two challenges agree modulo the order of the public point; under a derived public key this is a collision of the hash modulo the group order.", "quantifier": "all hashes, public keys, messages, signatures", "why_tests_cant": "a negative statement over all pairs of messages", "anchors": ["ed25519_model.go:Verify"]}
{"id": "C62", "title": "The accepted forms of a signature", "statement": "Given an accepted signature (R,S) with S below 2^255, another S' below 2^255 is accepted with the same R, key and message iff it is congruent to S modulo L and passes the canonicity filter; for all 32-byte S the same with the numbers they stand for in the equation; at most one reduced S, at most eight S below 2^255 and at most twenty-four S in all are accepted; an accepted R is a canonical point encoding.", "quantifier": "all public keys, messages, signatures", "why_tests_cant": "all 2^256 forms", "anchors": ["ed25519_model.go:Verify", "ed25519_model.go:isCanonicalSignature"]}
{"id": "C63", "title": "One commitment, two responses", "statement": "From any two signatures with the same R that Verify accepts under a derived public key, with different challenges, the private scalar modulo L is computed by one formula.", "quantifier": "all private keys, messages, pairs of accepted signatures", "why_tests_cant": "an extraction statement, not a run", "anchors": ["ed25519_model.go:Verify", "ed25519_model.go:Sign"]}
{"id": "C64", "title": "The accepted ciphertexts", "statement": "Between derived key pairs, Decrypt returns m for exactly the byte strings that Encrypt returns for m with some reader that delivers 48 bytes; salt, IV and message determine the ciphertext, so no second form of it is accepted.", "quantifier": "all private keys, byte strings, messages, readers", "why_tests_cant": "all byte strings", "anchors": ["ed25519_model.go:Decrypt", "ed25519_model.go:Encrypt", "ed25519_model.go:decode", "ed25519_model.go:encode"]}
{"id": "C65", "title": "Ciphertexts are not authenticated", "statement": "A user expects Decrypt to reject a changed ciphertext. Instead, for every accepted ciphertext: xoring the IV with a mask (zero behind the end of the message) xors the first block of the message with it; dropping the IV of a ciphertext of two or more blocks drops the first 16 bytes of the message; putting any blocks in front of the second block gives an accepted ciphertext with the same end.", "quantifier": "all accepted ciphertexts, all masks, all blocks", "why_tests_cant": "all ciphertexts and all changes", "anchors": ["ed25519_model.go:Decrypt", "ed25519_model.go:decode"]}
{"id": "C66", "title": "The error of Decrypt is a padding oracle", "statement": "Whoever learns only whether Decrypt returns an error, for inputs of their choice, computes the message of every accepted ciphertext, by an explicit procedure with at most 4352 questions for each block.", "quantifier": "all keys, all accepted ciphertexts", "why_tests_cant": "an attack over all ciphertexts, not a failure of a test", "anchors": ["ed25519_model.go:decode", "ed25519_model.go:Decrypt"]}
{"id": "C67", "title": "Ciphertexts do not tell the direction", "statement": "The cipher of A for messages from B and the cipher of B for messages from A decrypt every byte string alike; with the same random bytes A and B make the same ciphertext of a message for each other; a message that A sent to B is accepted by A as a message from B.", "quantifier": "all pairs of private keys, all byte strings", "why_tests_cant": "all byte strings", "anchors": ["ed25519_model.go:Decrypt", "ed25519_model.go:GetSharedKey"]}
{"id": "C68", "title": "Signatures of mismatched key pairs", "statement": "A signature made with a private key and any public key that is a point is accepted under that public key iff the challenge multiplies both public points to the same point; with the public key derived from another private key, iff the challenge is 0 or this is also the public key of the signing key. Sign itself reports nothing. With SHA3-512 modelled as a random function, such a signature is accepted with probability at most 2^-251 + 2^-252 for every two different private keys and every message.", "quantifier": "all private keys, public keys, messages", "why_tests_cant": "all pairs of keys", "anchors": ["ed25519_model.go:Sign", "ed25519_model.go:Verify", "key_pair.go:NewKeyPair"]}
{"id": "C69", "title": "Keys share the memory of the caller", "statement": "NewPrivateKey and NewPublicKey should give independent objects, but keep the slice of the caller: after any writes through it, Sign uses the new private bytes together with the public key of the old ones, so that wiping the buffer after NewKeyPair makes Sign return signatures that Verify rejects (unless the challenge is 0 or the scalars agree modulo L). Keys made from hexadecimal text have memory of their own.", "quantifier": "all memories, slices, sequences of writes, messages", "why_tests_cant": "aliasing over histories of writes", "anchors": ["key_model.go:NewPrivateKey", "key_model.go:NewPublicKey", "key_pair.go:NewKeyPair", "key_model.go:NewPrivateKeyfromHexString"]}
{"id": "C70", "title": "Arguments that change during a call", "statement": "Whatever other goroutines write into the argument arrays while a call runs: Sign takes the nonce from its first reading of key and message, the challenge from later readings of public key and message, the scalar from a last reading of the key, in this order; Verify (with its public key left alone) tests each of its conditions on one reading of S, R and the message, in a fixed order; DerivePublicKey, MakeSignatureCanonical and (with the public key left alone) GetSharedKey and Encrypt read each argument once; Decrypt takes salt, IV and data from three readings. A reading passes over an array byte by byte, and each byte is what the array holds there at some moment of the pass. Nothing else of the other goroutines enters the outcome, and a call that gets turns returns. In particular a message replaced once gives the old signature, the new one, or a torn one as in C59, of messages mixed from bytes of the old and the new one.", "quantifier": "all contents at all times, all behaviours of other goroutines that write only bytes, all schedules", "why_tests_cant": "depends on the schedule and on all contents", "anchors": ["ed25519_model.go:Ed25519DsaSigner.Sign", "ed25519_model.go:Ed25519DsaSigner.Verify", "ed25519_model.go:MakeSignatureCanonical", "ed25519_model.go:DerivePublicKey", "ed25519_model.go:GetSharedKey", "ed25519_model.go:Encrypt", "ed25519_model.go:Decrypt"]}
{"id": "C71", "title": "A signature that changes while it is verified", "statement": "A user expects Verify to return true only if the array held a valid signature at some moment. Instead, Verify reads R twice: for every public key that is a point, every message, every R and every S in canonical form, one write to R during the call, computed from public data, makes Verify return true, although (unless R is not changed, or the challenges of both agree on the public point) neither the old nor the new signature is valid.", "quantifier": "all public keys, messages, commitments, responses", "why_tests_cant": "depends on the schedule", "anchors": ["ed25519_model.go:Ed25519DsaSigner.Verify"]}
{"id": "C72", "title": "All points of the curve and all accepted encodings", "statement": "The curve has exactly 8*L points; every byte string that point decoding accepts denotes n*B + t*T, with T a fixed point of order 8, for exactly one n < L and t < 8; of the 2^256 strings of 32 bytes exactly 8*L + 26 are accepted, and the 26 that are accepted without being the canonical encoding of their point are known.", "quantifier": "all points, all byte strings", "why_tests_cant": "the group has 2^255 elements; a test sees a handful of them", "anchors": ["ed25519_encode.go:Ed25519EncodedGroupElement.Decode", "ed25519_encode.go:Ed25519GroupElement.Encode"]}
{"id": "C73", "title": "The small-order public keys", "statement": "Exactly 14 strings of 32 bytes are public keys of order 1, 2, 4 or 8 (the keys of C36); for every other accepted public key the shared secret of GetSharedKey is a point of order divisible by L, never the neutral element, and differs for private keys with different scalars. Derived public keys are not among the 14.", "quantifier": "all 32-byte public keys, all private keys, all salts", "why_tests_cant": "that there is no 15th string is a statement about 2^256 strings", "anchors": ["ed25519_model.go:Ed25519BlockCipher.GetSharedKey", "ed25519_encode.go:Ed25519EncodedGroupElement.Decode"]}
{"id": "C74", "title": "Public keys that give the same shared keys", "statement": "A user expects the shared key to depend on the exact public key of the partner. Two public keys give the same shared key with a private key iff their points differ by a point of order dividing 8 (or SHA3-256 collides); each public key has 7 other such keys, and Decrypt gives the same result with any of them as public key of the sender.", "quantifier": "all pairs of public keys, private keys, salts, ciphertexts", "why_tests_cant": "all points, all private keys", "anchors": ["ed25519_model.go:Ed25519BlockCipher.GetSharedKey", "ed25519_model.go:Ed25519BlockCipher.Decrypt"]}
{"id": "C75", "title": "Private keys with the same public key", "statement": "Two private keys have the same derived public key iff bits 3 to 253 of their hashes agree; they then give the same shared keys with everybody, and two private keys with one shared key in common (with a public key that is not of small order) have the same public key or exhibit a collision of SHA3-256.", "quantifier": "all pairs of private keys, public keys, salts, hash functions", "why_tests_cant": "a statement about collisions, which no test meets", "anchors": ["ed25519_model.go:Ed25519KeyGenerator.DerivePublicKey", "ed25519_encode.go:PrepareForScalarMultiply", "ed25519_model.go:Ed25519BlockCipher.GetSharedKey"]}
{"id": "C76", "title": "The cofactor in Verify", "statement": "Verify checks the equation without the cofactor: whatever it accepts satisfies 8*S*B = 8*R + 8*c*A, but not conversely; so it can disagree with implementations that multiply by the cofactor. Under the derived public key shifted by t*T, T of order 8, a signature made by Sign is accepted iff 8 divides t times the challenge.", "quantifier": "all public keys, messages, signatures, hash functions", "why_tests_cant": "mixed-order points do not occur in tests", "anchors": ["ed25519_model.go:Ed25519DsaSigner.Verify", "ed25519_model.go:Ed25519DsaSigner.Sign"]}
{"id": "C77", "title": "The scalar modulo L is as good as the private key", "statement": "From the scalar modulo L (which C58, C59 and C63 reveal) the clamped scalar is computed; with it every message is signed in a form that Verify accepts and every shared key of the private key is computed, without the private key.", "quantifier": "all private keys, messages, nonces, public keys, salts", "why_tests_cant": "an implication for all keys and messages", "anchors": ["ed25519_model.go:Ed25519DsaSigner.Verify", "ed25519_model.go:Ed25519BlockCipher.GetSharedKey", "ed25519_encode.go:PrepareForScalarMultiply"]}
{"id": "C78", "title": "Exactly which calls panic", "statement": "The parsers, Sign, MakeSignatureCanonical and GenerateKeyPair never panic. DerivePublicKey and NewPrivateKeyfromBigInt panic exactly for nil, NewKeyPair exactly if both keys are nil. Verify panics exactly if S has fewer than 32 bytes, passes the filter and the key is usable, so never on a parsed signature. Encrypt panics exactly if the salt was delivered, the recipient's key is a point and the sender has no private key. Decrypt panics exactly on inputs of 64 or more bytes with a recipient key longer than 48 bytes, or a usable sender key together with a missing private key, a recipient key not of 32 bytes or a length that is no multiple of 16: with well-formed key pairs a remote party can cause it by the length alone.", "quantifier": "all arguments of every listed function, all random sources", "why_tests_cant": "an equivalence over all arguments; tests show single panics, not their absence elsewhere", "anchors": ["ed25519_model.go:Ed25519DsaSigner.Verify", "ed25519_model.go:Ed25519DsaSigner.Sign", "ed25519_model.go:Ed25519BlockCipher.Encrypt", "ed25519_model.go:Ed25519BlockCipher.Decrypt", "ed25519_model.go:Ed25519BlockCipher.GetSharedKey", "key_pair.go:NewKeyPair", "signature.go:NewSignatureFromBytes"]}
{"id": "C79", "title": "The whole way through texts and bytes", "statement": "A private key read from any text of 63 or 64 hex digits signs; the bytes of the signature and the printed public key, parsed by another party with any Ed25519 engine, verify. Two parties that know only the other's printed public key decrypt what the other encrypts. The only failure on the signing side is the low-bits filter.", "quantifier": "all key texts, messages, engines, random sources with 48 bytes", "why_tests_cant": "a composition of eight API calls over all texts and messages", "anchors": ["key_model.go:NewPrivateKeyfromHexString", "key_model.go:NewPublicKeyfromHex", "key_pair.go:NewKeyPair", "signer.go:NewSignerFromKeyPair", "signature.go:NewSignatureFromBytes", "cipher_model.go:NewBlockCipher"]}
{"id": "C80", "title": "Nil pointers", "statement": "Which nil pointers make which calls panic, exactly: Sign panics for a nil signer, a nil pair and a pair with a private but no public key (without private key it returns its error even if the public key is nil too); Verify panics for a nil signature and, only if S passes the low-bits filter, for a nil signer, pair or public key; NewEd25519BlockCipher panics for a nil recipient or recipient public key, Encrypt and Decrypt for a nil sender after their first checks; the methods of nil keys and signatures panic. A nil engine interface means the default engine, except for NewKeyPairByEngine, which panics; a nil *Ed25519SeedCryptoEngine inside the interface does not, and panics where a source is needed. No call returns a signature, true, a shared key, a ciphertext or a message if a key it needs is nil; without nil the calls are those of the other properties.", "quantifier": "all combinations of nil and non-nil receivers, pairs, keys in pairs, signatures and engines, all messages and inputs", "why_tests_cant": "the combinations meet all messages, signatures and sources; whether a nil is reached depends on earlier checks of the other arguments", "anchors": ["ed25519_model.go:Ed25519DsaSigner.Sign", "ed25519_model.go:Ed25519DsaSigner.Verify", "ed25519_model.go:NewEd25519BlockCipher", "ed25519_model.go:Ed25519BlockCipher.Encrypt", "ed25519_model.go:Ed25519BlockCipher.Decrypt", "ed25519_model.go:Ed25519BlockCipher.GetSharedKey", "key_pair.go:NewKeyPair", "key_pair.go:NewKeyPairByEngine", "signer.go:NewSignerFromKeyPair", "cipher_model.go:NewBlockCipher"]}
{"id": "C81", "title": "Two signatures of one key", "statement": "Two signatures by one private key have the same R exactly if the hashes of the second half of the hashed key followed by the messages agree modulo the group order, whatever the public keys in the pairs; with one public key the signatures are equal exactly if the challenges agree modulo the group order as well. So distinct messages get distinct commitments unless SHA3-512 modulo L collides, the case in which C63 gives the key away.", "quantifier": "all private keys, all pairs of messages, all hashes", "why_tests_cant": "ranges over all pairs of messages and keys", "anchors": ["ed25519_model.go:Ed25519DsaSigner.Sign"]}
{"id": "C82", "title": "Repeated salts and IVs", "statement": "Of two ciphertexts with one salt between the same keys, block i of the one equals block j of the other exactly if the corresponding blocks of the padded messages, each xored with the ciphertext block (or IV) before it, agree: equal blocks give away the xor of two message blocks. If the IV is repeated as well, the ciphertexts agree in exactly as many leading whole blocks as the messages.", "quantifier": "all accepted ciphertexts with one salt, all block positions, every AES", "why_tests_cant": "ranges over all pairs of ciphertexts and positions", "anchors": ["ed25519_model.go:Ed25519BlockCipher.Encrypt", "ed25519_model.go:Ed25519BlockCipher.Decrypt", "ed25519_model.go:Ed25519BlockCipher.encode"]}
{"id": "C83", "title": "Salts separate shared keys", "statement": "For two fixed keys the shared key of a salt is the SHA3-256 of 32 fixed bytes xored with the first 32 bytes of the salt; different salts hash different strings, so two salts with one shared key are a collision of SHA3-256.", "quantifier": "all private keys, usable public keys and salts", "why_tests_cant": "ranges over all pairs of salts", "anchors": ["ed25519_model.go:Ed25519BlockCipher.GetSharedKey"]}
{"id": "C84", "title": "Public keys of small order", "statement": "A user expects that signatures for a public key need its private key. For a public key of order n anybody makes, for each S and t, a signature that is accepted for exactly the messages whose challenge is t modulo n: for the 13 small-order keys that Verify does not refuse, about one message in n (at most 8). Some one signature is accepted for every message and every hash exactly if the key denotes the neutral element, which 4 strings do; the all-zero key is refused.", "quantifier": "all public keys, messages, signatures, hash functions", "why_tests_cant": "ranges over all keys and all hash functions; small-order keys do not occur in tests", "anchors": ["ed25519_model.go:Ed25519DsaSigner.Verify", "ed25519_encode.go:Ed25519EncodedGroupElement.Decode"]}
{"id": "C85", "title": "One signature under two public keys", "statement": "A signature accepted under one derived public key is accepted under another (for the same or another message) exactly if the products of challenge and private scalar agree modulo the group order; each challenge contains its public key, so this is a coincidence of hashes. For public keys in general it implies that the multiples of the points by the challenges agree.", "quantifier": "all pairs of public keys, messages, signatures, hash functions", "why_tests_cant": "ranges over all pairs of keys and messages", "anchors": ["ed25519_model.go:Ed25519DsaSigner.Verify"]}
{"id": "C86", "title": "Group elements with nil coordinates or an unknown coordinate system", "statement": "The constructors of group elements check nothing. Encode and SatisfiesCurveEquation panic exactly unless the element is in P2 or P3 with X, Y, Z or in P1xP1 with all four coordinates; String panics exactly if one of the four coordinates is nil, so for every P2 and PRECOMPUTED element. Equals of two elements of different systems always returns, of the same system it panics exactly if the system is not one of P2, P3, P1xP1, PRECOMPUTED, CACHED or a nil coordinate is looked at (for P1xP1 only those of the receiver count); it panics for a nil receiver or argument, and says true only of elements without nil X, Y, Z. Without nil the functions are those of the other properties.", "quantifier": "all combinations of nil and non-nil coordinates, all ints as coordinate system, all field elements", "why_tests_cant": "which coordinates are looked at depends on the values of the others; all ints are coordinate systems", "anchors": ["ed25519_encode.go:NewEd25519GroupElement", "ed25519_encode.go:Ed25519GroupElement.Encode", "ed25519_encode.go:Ed25519GroupElement.Equals", "ed25519_encode.go:Ed25519GroupElement.SatisfiesCurveEquation", "ed25519_encode.go:Ed25519GroupElement.String"]}
{"id": "C87", "title": "What a precomputation that panics leaves behind", "statement": "Both precomputations return exactly for an element in P3 with all four coordinates (or one that has the table already) and then leave the complete table. For every other element they panic after having stored a table of 32 rows of which only the first exists (of 8 cells, for the double table), with at most its first cell. After the panic is recovered the element counts as precomputed: calling again returns and repairs nothing, IsPrecomputedForDoubleScalarMultiplication is true, and Select silently gives the neutral element for every digit in every row but the first, an error for the digits 2 to 8 in the first, and for 1 the right entry.", "quantifier": "all elements, coordinate systems, nil coordinates, rows and digits", "why_tests_cant": "the state after a panic at any point of the loop, for every element; then every row and digit", "anchors": ["ed25519_encode.go:Ed25519GroupElement.PrecomputeForScalarMultiplication", "ed25519_encode.go:Ed25519GroupElement.PrecomputeForDoubleScalarMultiplication", "ed25519_encode.go:Ed25519GroupElement.Select", "ed25519_encode.go:Ed25519GroupElement.IsPrecomputedForDoubleScalarMultiplication"]}
{"id": "C88", "title": "Calls are wait-free", "statement": "No call ever waits for another goroutine. With arguments of at most N bytes, DerivePublicKey ends after at most N+2609 accesses to memory, Sign after 5N+2613, Verify 10N+20589, MakeSignatureCanonical 2N+2, GetSharedKey 6N+27518, Encrypt 6N+27534+keyLength (with the Read calls on the random source), Decrypt 9N+27521, GenerateKeyPair N+2642; the operations on group elements have limits of their own, also while several goroutines precompute the same element. This holds whatever the other goroutines do in the meantime, also if they overwrite keys, messages, signatures or tables, stop in the middle of a call or never stop. Goroutines that only use the API then have the outcomes of the calls without concurrency.", "quantifier": "all calls, arguments, memory contents, numbers of goroutines, schedules and other goroutines", "why_tests_cant": "the limit must hold in every interleaving with every other program", "anchors": ["ed25519_model.go:Ed25519DsaSigner.Sign", "ed25519_model.go:Ed25519DsaSigner.Verify", "ed25519_model.go:Ed25519BlockCipher.Encrypt", "ed25519_model.go:Ed25519BlockCipher.Decrypt", "ed25519_model.go:Ed25519KeyGenerator.GenerateKeyPair", "ed25519_encode.go:Ed25519GroupElement.PrecomputeForScalarMultiplication", "ed25519_encode.go:Ed25519GroupElement.scalarMultiply"]}
{"id": "C89", "title": "Digests and salts are used evenly", "statement": "Of the 2^512 digests from which Sign takes a nonce, every nonce below L arises from floor(2^512/L) or one more (exactly those below 2^512 mod L), which is more than 2^259: no nonce is preferred noticeably. Every secret scalar (a multiple of 8 in [2^254, 2^255)) arises from exactly 32 of the 2^256 first halves of the digest of a private key. For given keys, the salts of 32 bytes correspond one to one to the inputs of the hash that makes the shared key.", "quantifier": "all nonces, all secret scalars, all keys; counts over all digests and all salts", "why_tests_cant": "a statement about the number of all digests of 512 bits with the same effect", "anchors": ["ed25519_encode.go:Ed25519EncodedFieldElement.modQ", "ed25519_encode.go:PrepareForScalarMultiply", "ed25519_model.go:Ed25519BlockCipher.GetSharedKey", "ed25519_model.go:Ed25519DsaSigner.Sign"]}
{"id": "C90", "title": "Signatures reveal no more than the public key", "statement": "For every private key, challenge h and pair (R, S): the number of nonces below L for which the signature is (R, S) is 1 if S < L and R encodes S*B - h*A, otherwise 0. So the signatures that a private key can make for a challenge, and how often each occurs with a random nonce, depend on the public key only: S is any number below L and R follows from it. Sign refuses ('not canonical') for exactly 2*floor(L/2^64)+1 of the L nonces, with every key and challenge.", "quantifier": "all private keys, challenges, commitments and responses; counts over all nonces", "why_tests_cant": "a statement about all nonces and all private keys at once", "anchors": ["ed25519_model.go:Ed25519DsaSigner.Sign", "ed25519_model.go:Ed25519DsaSigner.IsCanonicalSignature", "ed25519_encode.go:Ed25519EncodedFieldElement.multiplyAndAddModQ"]}
{"id": "C91", "title": "What is written to standard output", "statement": "Deriving, generating and building keys, signing, key agreement, encryption and decryption print nothing, however they end. Verify prints exactly one line, and only if the low bits of S pass the canonical check and the public key is not all zero but denotes no point: 'Invalid 2^8 bit representation.' for a wrong length, else 'not a valid Ed25519EncodedGroupElement.'; message, R and S do not enter. Equals of group elements prints nothing or one line 'reason, a, b' with one of eight fixed reasons and two coordinate system numbers, never a coordinate, and in that case returns false; for elements with all coordinates of their system the text is determined by the two systems and empty exactly if the argument can be converted.", "quantifier": "all keys, messages, signatures, ciphertexts, random sources and group elements", "why_tests_cant": "that no input makes a secret appear in the output is a statement about all inputs", "anchors": ["ed25519_model.go:Ed25519DsaSigner.Verify", "ed25519_encode.go:PrepareForScalarMultiply", "ed25519_encode.go:Ed25519GroupElement.Equals", "ed25519_model.go:Ed25519DsaSigner.Sign", "ed25519_model.go:Ed25519BlockCipher.Decrypt"]}
{"id": "C92", "title": "The padding oracle makes ciphertexts for any message", "statement": "A user expects that only the two key owners can make a ciphertext that decrypts to a chosen message. Instead, whoever learns only whether Decrypt returns an error, for inputs of their choice, makes by an explicit procedure a ciphertext that Decrypt turns into any given message, with any salt and any last block, without a key and without having seen a ciphertext, with at most 4352 questions for each block.", "quantifier": "all keys, messages of every length, salts and last blocks", "why_tests_cant": "an attack for every message and key, not a run", "anchors": ["ed25519_model.go:Decrypt", "ed25519_model.go:decode"]}
{"id": "C93", "title": "Compared with RFC 8032", "statement": "A user expects Ed25519 as in RFC 8032, with SHA3-512 as the hash. DerivePublicKey returns exactly its public key; Sign under the derived public key returns exactly its signature or refuses, depending only on the low 64 bits of S. Verify and the RFC (without cofactor) agree for a reduced S and a canonical public key in the subgroup of the base point, except for signatures whose low 64 bits of S do not pass the filter; in general, given that one accepts, it is stated exactly when the other does. A signature made by the RFC is accepted iff it passes the filter. Every signature made by Sign has a second S that Verify accepts and the RFC refuses, and some signature is accepted by the RFC for every message and hash and refused by Verify. What Verify accepts with a reduced S and a canonical public key the RFC accepts with the cofactor.", "quantifier": "all private keys, public keys, messages, signatures, hash functions", "why_tests_cant": "an equivalence with another algorithm over all inputs", "anchors": ["ed25519_model.go:Ed25519DsaSigner.Verify", "ed25519_model.go:Ed25519DsaSigner.Sign", "ed25519_model.go:Ed25519KeyGenerator.DerivePublicKey"]}
{"id": "C94", "title": "The work of a call", "statement": "Counting additions, subtractions, negations, multiplications, squarings, encodings and decodings of field elements, reductions modulo the group order, hash calls with the lengths of what is hashed, and AES blocks: DerivePublicKey takes one hash, 264 additions, 204 subtractions, 64 negations, 476 multiplications, 271 squarings, 4 doubled squarings and 2 encodings, and Sign the same with four hashes and three reductions, in an order that depends on the lengths of key, public key and message only, also when Sign refuses. GetSharedKey with one public key takes the same operations for all private keys of one length and all salts; Encrypt for all messages with the same number of blocks; Decrypt for all inputs of the same length of whole blocks, whether the padding is right or not. No public key, message or signature makes Verify take more than one hash of R, key and message and a constant (1811 multiplications, 3355 squarings, ...); the exact amount is that constant work and one doubling for each digit position and one addition for each non-zero digit of the expansions of h and S, and an S refused by the filter costs nothing. None makes GetSharedKey, Encrypt or Decrypt take more than a constant and one AES block for every 16 bytes.", "quantifier": "all keys, messages, signatures, salts, ciphertexts and sources, and all prices of the operations", "why_tests_cant": "a bound over all inputs, and equality of operation sequences over all pairs of secrets", "anchors": ["ed25519_model.go:Ed25519DsaSigner.Sign", "ed25519_model.go:Ed25519DsaSigner.Verify", "ed25519_model.go:Ed25519KeyGenerator.DerivePublicKey", "ed25519_model.go:Ed25519BlockCipher.GetSharedKey", "ed25519_model.go:Ed25519BlockCipher.Decrypt", "ed25519_encode.go:Ed25519GroupElement.scalarMultiply", "ed25519_encode.go:Ed25519GroupElement.doubleScalarMultiplyVariableTime"]}
{"id": "C95", "title": "Nothing depends on the width of int", "statement": "On platforms where int has 32 bits and on those where it has 64 (any width from 10 bits on), Select (for every int), scalar products, DerivePublicKey, NewKeyPair, GenerateKeyPair, Sign, GetSharedKey and Decrypt give the same results, and so does Encrypt as long as the padded length of the message is an int: keys, signatures and ciphertexts made on one kind of platform are good on the other. A message so long that its padded length is no int makes Encrypt panic; it is never encrypted wrongly.", "quantifier": "all widths, keys, messages, ciphertexts, salts, sources and group elements", "why_tests_cant": "tests run on one platform and cannot make a message of 2 GB", "anchors": ["crypto.go:isNegativeConstantTime", "crypto.go:isConstantTimeByteEq", "ed25519_encode.go:Ed25519GroupElement.Select", "ed25519_encode.go:Ed25519EncodedFieldElement.toRadix16", "ed25519_encode.go:Ed25519GroupElement.scalarMultiply", "ed25519_model.go:Ed25519BlockCipher.encode", "ed25519_model.go:Ed25519BlockCipher.decode"]}
{"id": "C96", "title": "Two answers to one commitment give the key, one answer gives nothing", "statement": "Whoever answers one commitment R with accepted S and S' for two different challenges (for two messages, or under two hash functions) has given away the discrete logarithm of the public key: the quotient of the differences is it, for every public key that Verify can use, up to a point of small order, and exactly for a point in the subgroup. On the other hand, an accepted signature for a given message under a given public key exists for every chosen S that passes the filter and every chosen challenge, and is computed without the private key if the hash value at one input may be set: a single signature therefore proves nothing but that the hash was asked first.", "quantifier": "all public keys, whoever made them, all messages, commitments, responses and hash functions", "why_tests_cant": "an implication over all forged signatures and all hash functions", "anchors": ["ed25519_model.go:Ed25519DsaSigner.Verify", "ed25519_model.go:Ed25519DsaSigner.Sign"]}
{"id": "C97", "title": "Forging a signature is as hard as finding the private scalar", "statement": "Model SHA3-512 as a random function. For every attacker that has only the public key, asks at most q hash values, uses any random choices and any amount of time, and ends with a message and a signature that NewSignature and Verify accept with probability e: running the attacker twice with random answers, the second time with the same answers up to the question that decided its signature and new ones from there, and dividing the differences of the two signatures and challenges, gives the private scalar with a probability of at least e (e/(q+1) - 2^-251). So if this computation succeeds with probability at most d, no forgery succeeds with a probability above sqrt((q+1) d) + (q+1) 2^-251. For a public key outside the subgroup the scalar comes out up to a point of small order.", "quantifier": "all attackers, numbers of questions, public keys and sets of hash inputs", "why_tests_cant": "a statement about all attackers and about probabilities of 2^-251", "anchors": ["ed25519_model.go:Ed25519DsaSigner.Verify", "signature.go:NewSignature"]}
{"id": "C98", "title": "Seeing signatures does not help a forger", "statement": "Model SHA3-512 as a random function and take 32 random bytes as the private key. For every attacker that is given the public key made by NewKeyPair, asks at most q hash values, has at most s messages of its choice signed by Sign (each choice may depend on everything it saw before), uses any random choices and any amount of time, and ends with a message and a signature for it, where the message was not handed to Sign, or Sign returned a signature of it with another R: the probability that NewSignature and Verify accept it is at most (1+2^-259)^s (sqrt((q+1) d) + (q+1) 2^-251 + s q / L) + (2(q+s)+3) 2^-256, where d is the probability that the private scalar is found by running the attacker twice on the public key alone, with its questions for signatures answered without the private key: S and the challenge are drawn at random, R is computed from them, and the hash value is made to fit. So what Sign publishes, deterministic nonces included, does not make it easier to forge, to find the key, or to make another signature of a signed message (except for those with the same R and another form of the same S, C62; for an application that refuses an S of L or more, the same bound holds for every accepted signature that the attacker was not given). The same holds for a key pair made by GenerateKeyPair from random bytes.", "quantifier": "all attackers, numbers of hash questions and of signatures, message lengths and choices of messages", "why_tests_cant": "a statement about all attackers and about probabilities of 2^-251 and less", "anchors": ["ed25519_model.go:Ed25519DsaSigner.Sign", "ed25519_model.go:Ed25519DsaSigner.Verify", "signature.go:NewSignature", "key_pair.go:NewKeyPair", "ed25519_model.go:Ed25519KeyGenerator.GenerateKeyPair"]}
{"id": "C99", "title": "Encrypt hides everything but the number of blocks", "statement": "Model AES as a random permutation of the 2^128 blocks for each key and let the reader deliver random bytes. An observer chooses a conversation (a BlockCipher whose sender has a private key and whose recipient has a valid public key) and two messages with the same number of 16-byte blocks, sees what Encrypt returns for one of them (always the first or always the second), makes its next choice with all it has seen, and so on up to n blocks altogether, with any random choices and any amount of time. Its guesses about the ciphertexts and about random bytes of the same length differ in probability by at most n^2/2^128, so the guesses for the first and the second messages differ by at most 2 n^2/2^128. This holds for every function in the place of the hash and for all keys, also if shared keys repeat; it does not cover observers that may call Decrypt (C65, C66, C92).", "quantifier": "all observers, conversations, messages, numbers of blocks and divisions of the random bytes into reads", "why_tests_cant": "a statement about all observers and about probabilities over all permutations", "anchors": ["ed25519_model.go:Ed25519BlockCipher.Encrypt", "ed25519_model.go:Ed25519BlockCipher.encode"]}
{"id": "C100", "title": "Without the shared point an eavesdropper learns nothing about a conversation", "statement": "Model SHA3-256 as a random function of 32 bytes; AES and SHA3-512 may be any functions. An eavesdropper makes two parties, whose key pairs are made by NewKeyPair, call Encrypt, Decrypt and GetSharedKey for inputs of its choice, in both directions, asks for hash values, each choice depending on all it saw, with any random choices, any amount of time and any division of the random bytes into reads. Its guess then differs in probability from its guess about two other parties, whose shared keys have nothing to do with the hash values that it gets, by at most the probability that (with the other parties) one of its hash inputs xored with one of the salts is the encoded point that the first two share. So with q hash questions and s calls, if picking one of each at random gives the point with probability at most d, the guesses differ by at most q s d; without a hash question not at all. Who knows the point tells the conversations apart almost surely.", "quantifier": "all eavesdroppers, key pairs, messages, ciphertexts, salts, random sources and hash functions", "why_tests_cant": "a statement about all eavesdroppers and about probabilities over all hash functions", "anchors": ["ed25519_model.go:Ed25519BlockCipher.GetSharedKey", "ed25519_model.go:Ed25519BlockCipher.Encrypt", "ed25519_model.go:Ed25519BlockCipher.Decrypt"]}
{"id": "C101", "title": "Ciphertexts are confidential unless the shared point is found", "statement": "Model SHA3-256 as a random function of 32 bytes and AES as a random permutation for each key, and let the reader deliver random bytes. A wiretapper chooses pairs of messages with equal numbers of blocks and directions, sees what Encrypt between two parties (key pairs made by NewKeyPair) returns for one message of each pair, always the first or always the second, and in between asks for any number of hash values and for all that AES does under t keys of its choice, each choice depending on all it saw, up to n blocks of ciphertext. Its guesses for the first and the second messages differ in probability by at most 2 e + 2 n (n + t) / 2^256 + 2 n^2 / 2^128, where e is the probability that, between two other parties, one of its hash questions is the point that the first two parties share, encoded and xored with the salt of one of the ciphertexts. So without the shared point nothing but the number of blocks is learned. Observers that may call Decrypt are not covered (C65, C66, C92).", "quantifier": "all wiretappers, key pairs, messages, numbers of questions and blocks, and divisions of the random bytes into reads", "why_tests_cant": "a statement about all wiretappers and about probabilities over all hash functions and permutations", "anchors": ["ed25519_model.go:Ed25519BlockCipher.Encrypt", "ed25519_model.go:Ed25519BlockCipher.GetSharedKey", "ed25519_model.go:Ed25519BlockCipher.encode"]}
{"id": "C102", "title": "Garbage is accepted once in 255 times", "statement": "For a cipher with a recipient's private key and a sender's public key that decodes: behind every 32 byte salt, 16 byte IV and any number of whole blocks, Decrypt returns a message, and no error, for exactly (2^128 - 1)/255 of the 2^128 last blocks; for each n from 1 to 16 exactly 256^(16-n) last blocks give a message that is n bytes shorter than the blocks. So a random byte string of the right length is accepted with probability 1/255 (less 2^-128/255): success of Decrypt says nothing about the origin of the input.", "quantifier": "all ciphers, salts, IVs, numbers of blocks, preceding blocks, and all 2^128 last blocks", "why_tests_cant": "an exact count over 2^128 blocks, for every key and every beginning", "anchors": ["ed25519_model.go:Ed25519BlockCipher.Decrypt", "ed25519_model.go:Ed25519BlockCipher.decode"]}
{"id": "C103", "title": "Public keys and commitments do not repeat", "statement": "Model SHA3-512 as a random function. Two different private keys have the same public key with probability 2^-251, exactly (251 bits of the digest count); n key pairs made by GenerateKeyPair from random bytes, delivered in pieces of any sizes, have n different public keys but for a probability of n (n - 1) / 2 times (2^-251 + 2^-256). The signatures that Sign makes with one key pair for n different messages (chosen without looking at the hash function) have n different R but for a probability of n (n - 1) / 2^253, for a key of any length and even if it occurs among the hash inputs of the nonces; a repeated R would give the key away (C63, C81). Nor can repetitions be searched for: whoever asks for q hash values, each question depending on the answers before, finds two private keys with one public key with probability at most (q + 1)(q + 2)/2^252 and, even with the private key at hand, two messages for which Sign makes the same R with probability at most (q + 2)(q + 3)/2^253.", "quantifier": "all private keys, numbers of keys and messages, messages, public keys given to Sign, attackers, numbers of questions, and divisions of the random bytes into reads", "why_tests_cant": "a statement about probabilities over all hash functions", "anchors": ["ed25519_model.go:Ed25519KeyGenerator.GenerateKeyPair", "ed25519_model.go:Ed25519KeyGenerator.DerivePublicKey", "ed25519_model.go:Ed25519DsaSigner.Sign"]}
{"id": "C104", "title": "What is derived from a private key does not give it back", "statement": "Model SHA3-512 as a random function. Whoever is given the whole digest of a random private key of 32 bytes, and so its scalar, the secret prefix of the nonces, the public key and everything that Sign and GetSharedKey compute from them, and asks for q hash values, each question depending on the answers before, produces the private key with probability at most (q + 1)/2^256. Whoever is given any private key and asks for q hash values produces another private key for which DerivePublicKey returns the same public key with probability at most (q + 1)/2^251. So with the digest alone some private key for the public key is found with probability at most (q + 1)(2^-251 + 2^-256): a leaked scalar lets others sign and decrypt (C77), but does not let them show the private key.", "quantifier": "all attackers, numbers of questions and private keys", "why_tests_cant": "a statement about all attackers and about probabilities over all hash functions", "anchors": ["ed25519_encode.go:PrepareForScalarMultiply", "ed25519_model.go:Ed25519KeyGenerator.DerivePublicKey"]}
{"id": "C105", "title": "A signature is for one public key and one message", "statement": "Model SHA3-512 as a random function. Whoever asks for q hash values, each question depending on the answers before, and then chooses a signature and two different pairs of public key and message, with public keys of 32 bytes that decode to points not of small order (so all derived keys, also ones whose private keys the cheater has), makes Verify accept the signature for both pairs with probability at most (q + 1)(q + 2)/2^253. So not even the owner of a key can sign one message and claim another one, or another key, later. Keys of small order have to be left out (C37, C84), and so have keys of 64 bytes: a signature accepted for a key and a message of 32 or more bytes is accepted for the key followed by the first 32 bytes of the message, and the rest of the message.", "quantifier": "all cheaters, numbers of questions, public keys, messages and signatures", "why_tests_cant": "a statement about all cheaters and about probabilities over all hash functions", "anchors": ["ed25519_model.go:Ed25519DsaSigner.Verify"]}
{"id": "C106", "title": "Salts, initialization vectors and ciphertexts do not repeat", "statement": "Let the reader deliver random bytes, enough for n calls of Encrypt, in pieces of any sizes, and let the conversations and messages be chosen in any way, each choice depending on the ciphertexts before. All n calls succeed; any two of them use the same salt with probability exactly 2^-256, the same initialization vector with probability exactly 2^-128 and both with probability exactly 2^-384. Two of the n ciphertexts have the same salt with probability at most n (n - 1) / 2^257, and two are equal with probability at most n (n - 1) / 2^385, even if it is always the same message in the same conversation: nobody can see from the ciphertexts that a message was sent again.", "quantifier": "all ciphers, messages, ways of choosing them, numbers of calls, and divisions of the random bytes into reads", "why_tests_cant": "a statement about probabilities over all random bytes and all ways of choosing the messages", "anchors": ["ed25519_model.go:Ed25519BlockCipher.Encrypt"]}
{"id": "C107", "title": "How many signatures are accepted", "statement": "For a derived public key and any message, Verify accepts at least five values of S for each of the L strings R that encode a multiple of the base point, and none for any other R; so 64 random bytes are accepted with a probability between 5 L / 2^512 and 24 L / 2^512 (about 2^-258 and 2^-255). For any public key at all, also one chosen by a cheater, the probability is at most 192 L / 2^512 < 2^-252. A signature cannot be guessed, whatever the hash functions are, but for each R there are several (RFC 8032 allows one).", "quantifier": "all private keys, public keys, messages and all 2^512 signatures", "why_tests_cant": "a count over 2^512 signatures for every key and message", "anchors": ["ed25519_model.go:Ed25519DsaSigner.Verify", "ed25519_model.go:Ed25519DsaSigner.IsCanonicalSignature"]}
{"id": "C108", "title": "Decrypting with the wrong keys", "statement": "Model SHA3-256 as a random function of 32 bytes and AES as a random permutation for each key. A ciphertext that Encrypt made from A for B (key pairs made by NewKeyPair, any message, a reader with enough bytes), given to Decrypt with key pairs C and D whose shared point is another one (for instance the right sender but another recipient), gives a message and no error with probability exactly 2^-256 + (1 - 2^-256)(1 - 2^-128)/255: once in 255 times a wrong recipient gets a message. It gives the message that was encrypted with probability at most 2^-128 + 2^-256.", "quantifier": "all key pairs, messages, readers", "why_tests_cant": "an exact probability over all hash functions and permutations, for all keys and messages", "anchors": ["ed25519_model.go:Ed25519BlockCipher.Encrypt", "ed25519_model.go:Ed25519BlockCipher.Decrypt", "ed25519_model.go:Ed25519BlockCipher.GetSharedKey"]}
{"id": "C109", "title": "Many users", "statement": "Model SHA3-512 as a random function. n users have key pairs made by NewKeyPair from random private keys, or by GenerateKeyPair from readers that deliver random bytes. An attacker gets all n public keys, asks for at most q hash values and has at most s messages signed, each by a user of its choice, and then produces a user, a message and a signature that NewSignature and Verify accept with the public key of this user, though this user did not sign the message, or signed it with another R (the same message may have been signed by others). It succeeds with at most n times the probability that C98 gives for one user and q + 2s + n hash values, where the discrete logarithm is looked for by running the attacker twice with the other users played. Many users with this library are not weaker than n separate ones, and a signature by one user cannot be turned into one by another user. And whoever is given the digests of all n private keys and asks for q hash values produces the private key of one of the users with probability at most n (q + n + 1)/2^256.", "quantifier": "all attackers, numbers of users, of questions and of signatures, private keys", "why_tests_cant": "a probability bound over all attackers, all keys and all hash functions", "anchors": ["ed25519_model.go:Ed25519DsaSigner.Sign", "ed25519_model.go:Ed25519DsaSigner.Verify", "key_pair.go:NewKeyPair"]}
{"id": "C110", "title": "How often Sign refuses", "statement": "Sign returns the error 'Generated signature is not canonical' for some messages, for the same key and message every time. Model SHA3-512 as a random function: for every private key of 32 bytes and every message, also the empty one, the key pair that NewKeyPair makes gets this error with probability 2^-63, up to at most 2^-250. So of any n messages at least one is refused with probability at most n (2^-63 + 2^-250), and otherwise all n are signed and Verify accepts all the signatures. The probability is the same for a key pair with a public key that does not belong to the private key.", "quantifier": "all private keys, messages, numbers of messages", "why_tests_cant": "a probability of 2^-63 does not show in tests, and it holds for every key and message", "anchors": ["ed25519_model.go:Ed25519DsaSigner.Sign", "ed25519_model.go:Ed25519DsaSigner.IsCanonicalSignature", "key_pair.go:NewKeyPair"]}
{"id": "C111", "title": "Refused messages cannot be found", "statement": "Model SHA3-512 as a random function. Whoever has the private key (any 32 bytes, with the key pair that NewKeyPair makes) and its digest, asks for at most q hash values and has at most s messages signed, each of its choice and depending on all answers before, sees Sign return an error with probability at most (q + 2s)(2^-63 + 2^-250 + (q + 2s + 1)/2^253): nobody, not even the owner of the key, can find a message that Sign refuses with this key much faster than by trying about 2^63 messages.", "quantifier": "all attackers, numbers of questions and messages, private keys", "why_tests_cant": "a probability bound over all attackers and all hash functions", "anchors": ["ed25519_model.go:Ed25519DsaSigner.Sign", "ed25519_model.go:Ed25519DsaSigner.IsCanonicalSignature", "key_pair.go:NewKeyPair"]}
{"id": "C112", "title": "How surely the private key is given away", "statement": "Model SHA3-512 as a random function. Whoever sees one message signed by one private key under two different public keys (both accepted by NewKeyPair; one may be the genuine one), and likewise whoever sees the signature of a message and the one that Sign returns when this message is overwritten by another of the same length between its two readings, computes the private scalar modulo L, and so a number with the genuine public key, except with probability at most 2^-62 + 2^-249 + 2^-252: the challenges differ and Sign refuses neither signature.", "quantifier": "all private keys, messages, pairs of public keys", "why_tests_cant": "a probability over all hash functions, for every key and message", "anchors": ["ed25519_model.go:Ed25519DsaSigner.Sign", "key_pair.go:NewKeyPair"]}
