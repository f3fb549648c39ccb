{
 "cmov | third branch returns r instead of an error": [
  "C41_cmov (new)"
 ],
 "equals | no recover around the comparison": [
  "C38_equals_mixed_total (new)",
  "C38_equals_recovers (new)"
 ],
 "newBlockCipher | 'recipient.pub.raw.length' -> 'sender.pub.raw.length'": [
  "C26_key_lengths (new)",
  "C28_encrypt_bad_recipient (new)"
 ],
 "createBlockCipher | 'newBlockCipher sender recipient e.seed' -> 'newBlockCipher sender recipient none'": [
  "C46_cipher (definition was used by no theorem: removed, the engine of Model/Engine (C46_cipher) is the one definition)"
 ],
 "createBlockCipher | 'newBlockCipher sender recipient e.seed' -> 'newBlockCipher recipient sender e.seed'": [
  "C46_cipher (definition was used by no theorem: removed, the engine of Model/Engine (C46_cipher) is the one definition)"
 ],
 "Mem.precomputeDouble | '{ o with double := some r.2 }' -> '{ o with double := some r.2, single := none }'": [
  "C48_precompute_view (new)"
 ],
 "newKeyPairH | '(h, .ok ⟨priv, p⟩)' -> '(h, .ok ⟨none, p⟩)'": [
  "C69_given (new)"
 ],
 "toEncodedFieldElement' | 'newEncodedFieldElement bytes' -> 'newEncodedFieldElement bytes.reverse'": [
  "C44_bytes (new)"
 ],
 "toRepresentation | '| none => .err \"coordinate T must not nil for P!XP1 \"' -> '| none => .panic'": [
  "C44_toRepresentation_nilT (new)"
 ],
 "PublicKey.hex | 'hexEncode k.raw' -> 'toUpper (hexEncode k.raw)'": [
  "C31_public_hex (new)"
 ],
 "GC.equalsToP2 | '| _ => .ok false' -> '| _ => .panic'": [
  "C38_equals_nilT (new)",
  "C38_equals_panics_iff (new)"
 ],
 "GE.isPrecomputedForDouble | 'g.double.isSome' -> 'g.single.isSome'": [
  "C41_reports (new)"
 ],
 "newSignatureFromBytesH | 'b.len < 64' -> 'b.len < 63'": [
  "C34_parse_outcome"
 ],
 "getRN | '.ok s.getR' -> '.ok s.getS'": [
  "C80_methods_values (new)"
 ],
 "bytesN | '.ok s.bytes' -> '.ok s.R'": [
  "C80_methods_values (new)"
 ],
 "signatureStringN | '.ok (hexEncode b)' -> '.ok b'": [
  "C80_methods_values (new)"
 ],
 "verifyN | 'let s ← Out.deref sig\\n      Out' -> 'let s : Signature := sig.getD ⟨[], []⟩\\n      Out'": [
  "none: equivalent, the signature was dereferenced before"
 ],
 "newBlockCipherN | 'let r ← Out.deref recipient' -> 'let r : KeyPairN := recipient.getD ⟨none, none⟩'": [
  "none: equivalent, the nil public key panics next"
 ],
 "EngineN.createBlockCipher | 'newBlockCipherN sender recipient seed' -> 'newBlockCipherN recipient sender seed'": [
  "C80_no_nil_engine (new)"
 ],
 "newKeyPairN | '    engine.createKeyAnalyzer\\n' -> ''": [
  "none: equivalent, after orDefault the analyzer exists"
 ],
 "newKeyPairByEngineN | 'generateKeyPair E seed' -> 'generateKeyPair E 0'": [
  "C80_no_nil_engine (new)"
 ],
 "newBlockCipherIN | 'engine.orDefault.createBlockCipher sender recipient' -> 'engine.orDefault.createBlockCipher recipient sender'": [
  "C80_no_nil_engine (new)"
 ],
 "newKeyPairByEngineI | 'engine.createKeyGenerator.generateKeyPair' -> 'fun w => let r := engine.createKeyGenerator.generateKeyPair w; (r.1, w)'": [
  "C46_random_sources (new)"
 ],
 "BufferedCipher.call | reset keeps the output (equivalent: it is always empty)": [
  "none: equivalent, the output is always empty"
 ],
 "readTwo | 'e.data.take 2' -> 'e.data.take 1'": [
  "none: equivalent, the bytes are not used (C49_fieldElement_constant)"
 ],
 "GCN.fillRows | '| _ => ((fillRow bi 8 bi).1 :: List.replicate n [], .panic)\\n    | _' -> '| _ => ((fillRow bi 8 bi).1 :: List.replicate n [], .ok ())\\n    | _'": [
  "none: equivalent, the branch is not reached: a row that was filled has a complete bi, so the doublings succeed"
 ],
 "str | 'UInt8.ofNat c.toNat' -> 'UInt8.ofNat (c.toNat + 1)'": [
  "C51_ascii"
 ],
 "EngineN.orDefault | '  | .nilInterface => .engine none' -> '  | .nilInterface => .engine (some default)'": [
  "none: equivalent mutant, a nil seed and the seed 0 are the same engine"
 ],
 "chooseSign | '  if (shouldBeNegative && !isNegati' -> '  if !(shouldBeNegative && !isNegati'": [
  "none: equivalent mutant, by C45_getAffineX the branch is reached with an even x only, and the result is 0 either way"
 ],
 "intsToBigInteger | '.toInt * 2 ^ exponents.getD i 0) 0' -> '.toInt * 2 ^ exponents.getD i 1) 0'": [
  "none: equivalent mutant, the index is below 10, the default is never taken"
 ],
 "toEncodedFieldElement | '  if bytes.length = 64 ∨ bytes.length = 32 then .ok ' -> '  if bytes.length = 65 ∨ bytes.length = 32 then .ok '": [
  "none: equivalent mutant, ToByteArray returns 32 bytes or panics, the case of 64 bytes is dead code"
 ],
 "readTwo | 'ld := fun i => if i = 0 then (if 2 < e.data.length then ⟨e.data' -> 'ld := fun i => if i = 0 then (if !2 < e.data.length then ⟨e.data'": [
  "C49_fieldElement_reads (new)"
 ],
 "newKeyPairN | '    engine.createKeyAnalyzer\\n    if !isKeyCompressed p then' -> '    if !isKeyCompressed p then'": [
  "none: equivalent mutant, after the default no engine is a nil interface, and the call of CreateKeyAnalyzer returns for all others"
 ],
 "nilObj | 'j := ⟨.affine, 0, 0, 0, none, none, none⟩' -> 'j := ⟨.affine, 0, 0, 0, none, (some default), none⟩'": [
  "none: equivalent mutant, this object stands for addresses that are never read"
 ],
 "aesNewCipher | 'f key.length = 16 ∨ key.length = 24 ∨ key.length = 32 then .ok ' -> 'f key.length = 16 ∨ key.length ≠ 24 ∨ key.length = 32 then .ok '": [
  "none: equivalent on all reachable inputs, the package only passes keys of 32 bytes; other lengths are part of the contract of the library"
 ],
 "fillRows | '      | _ => ((fillRow bi 8 bi).1 :: List.replicate n [],' -> '      | _ => ((fillRow bi 9 bi).1 :: List.replicate n [],'": [
  "none: equivalent mutant, the branch is not reached: a row that was filled has a complete bi, so the doublings succeed"
 ],
 "chooseSign | 'Negative && !isNegative) || (!shouldBeNegative && isNegative) then -x % fiel' -> 'Negative && !isNegative) || (!isNegative && isNegative) then -x % fiel'": [
  "none: equivalent mutant, by C45_getAffineX the branch is reached with an even x only, and the result is 0 either way"
 ],
 "toEncodedFieldElement | '  if bytes.length = 64 ∨ bytes.length = 32 then .o' -> '  if bytes.length ≠ 64 ∨ bytes.length = 32 then .o'": [
  "none: equivalent in the program, ToByteArray always gives 32 bytes here (C44)"
 ],
 "encIsNegative | ': Bytes) : Bool := raw.getD 0 0 &&& 1 != 0' -> ': Bytes) : Bool := raw.getD 0 1 &&& 1 != 0'": [
  "none: equivalent in the program, the bytes are never empty at the uses"
 ],
 "copyRow | '  if l.length > 8 then .panic else .ok (l ++ Li' -> '  if l.length > 9 then .panic else .ok (l ++ Li'": [
  "none: equivalent in the program, the rows of all tables that the code builds have 8 entries (or 0)"
 ]
}