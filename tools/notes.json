{
 "C10": {
  "note": "C10_toRadix16_large gives the exact boundary from which on the last digit leaves the range of the lookup table."
 },
 "C12": {
  "note": "Lengths other than 32 or 64 give an error (C12_decode_length); 64-byte strings are outside the English claim."
 },
 "C15": {
  "note": "C15_any_scalar gives the result for every 32-byte scalar, C15_large_scalar what it means from 2^255 on, where the English claim stops."
 },
 "C18": {
  "note": "Verify is stated for the pair with the derived public key; the hash is any function with 64-byte output (Env)."
 },
 "C20": {
  "note": "C20_accepts_iff_any gives the exact condition for every 64-byte signature, also S of 2^255 and more (nafVal in Spec/Naf).  A signature whose S is shorter than 32 bytes cannot be built by the constructors; C20_short_S_panics covers it."
 },
 "C21": {
  "note": "The wished behaviour is false of the code; proved is the negation: C21_malleable exhibits an accepted signature that stays accepted after adding L to S, C21_add_order says for which signatures this happens (all with S + L < 2^255 that pass the 64-bit filter)."
 },
 "C22": {
  "note": "The full claim; C22_canonical_form_refused shows that the proviso on the filter is needed."
 },
 "C23": {
  "note": "The wished behaviour is false of the code; proved is what the code decides (low 64 bits) and that it differs from the range check in both directions."
 },
 "C26": {
  "note": "The wished totality is false; proved is the exact outcome for short inputs, whole blocks and the panics for the other lengths, a nil private key and a key length other than 32."
 },
 "C28": {
  "note": "Readers are sequences of answers (bytes, error) as io.ReadFull sees them; any chunking."
 },
 "C32": {
  "note": "The exact condition (no leading zero byte) is proved, both directions."
 },
 "C34": {
  "note": "Heap model with slices.  The wished frame property fails; C34_original_changed_iff is the exact condition."
 },
 "C35": {
  "note": "The wished range is false of the code; proved is the exact acceptance condition.  go-xpx-utils BigIntToByteArray is a parameter that is only specified on integers that fit."
 },
 "C36": {
  "note": "The wished property fails; proved for every public key of order dividing 8."
 },
 "C37": {
  "note": "The wished property fails; proved with the neutral element as public key, for every hash."
 },
 "C38": {
  "note": "Symmetry fails: C38_not_symmetric."
 },
 "C41": {
  "note": "C41_copy_breaks_precompute records that a copy() of an element without table cannot be precomputed (copy makes the table non-nil)."
 },
 "C44": {
  "note": "The wished claim (agreement for all group elements) is false of the code.  C44_addGroupElements_exact gives the exact outcome of AddGroupElements for all points and every math/big that meets the contract Big; C44_addGroupElements and the multiplications the coordinates for which the sharing of memory cannot do harm, C44_add_neutral_wrong and C44_fromPrecomputed_wrong the two defects.  What math/big leaves in shared memory depends on its version and is a parameter (Big.xAfter, Big.resAfter)."
 },
 "C45": {
  "note": "The wished behaviour is false of the code; proved is the exact result for every y and which y (only 0, 1, -1 modulo p) give a correct point."
 },
 "C47": {
  "note": "C47_negative_limit shows that the range -256..255 of isNegativeConstantTime is sharp."
 },
 "C48": {
  "note": "The frame property on the tables holds for all histories of the modelled operations; the wished property on the coordinates fails (C48_coordinate_shared, C48_select_shared)."
 },
 "C49": {
  "note": "GetRandomFieldElement is constant: the wished randomness fails."
 },
 "C88": {
  "note": "Accesses are counted as in Model/PGroup: an operation loads each coordinate of an operand once, and a store into a table looks up the table again. Work on values (limb arithmetic, hashing, AES) is not counted."
 },
 "C11": {
  "note": "C11_slide_exact is the exact value for every 32-byte string (Spec/Naf: IsNaf5); C11_both_cases: 2^255 fits, 2^256-1 does not."
 },
 "C94": {
  "note": "Counted are the operations named in Step (Model/Cost), not the machine instructions in them. The work of the conditional moves is not counted: C60 shows that it depends on the secret."
 },
 "C95": {
  "note": "C95_encrypt_large is about the length computations in encode; the memory that such a message needs is not modelled."
 },
 "C97": {
  "note": "The hash is a uniformly random function on an arbitrary finite set that contains the attacker's questions and the input of the final Verify (such a set exists for every attacker, exists_domain_all); attackers that see signatures: C98."
 },
 "C98": {
  "note": "The hash is a uniformly random function on a finite set that contains all byte strings of at most N + 64 bytes, where N bounds the attacker's messages and N + 64 its hash inputs (N is arbitrary; exists_short). The same random function serves the key derivation, the nonces, the challenges and the attacker. SHA3-512 itself is not a random function: this is the usual idealisation."
 },
 "C99": {
  "note": "AES is idealised as a family of independent random permutations which the observer cannot evaluate itself; that the shared key is unknown to the observer is part of this idealisation (the Diffie-Hellman problem is not modelled). Passive observers only. C101 lifts this: there the observer evaluates AES and the hash itself."
 },
 "C100": {
  "note": "SHA3-256 on 32 bytes is idealised as a random function which the eavesdropper can ask; that the shared point is hard to find (the Diffie-Hellman problem) is the quantity d of the statement, not an assumption. One pair of parties; inputs of the hash with another length do not occur in the calls."
 },
 "C101": {
  "note": "SHA3-256 on 32 bytes and AES are idealised, both open to the wiretapper; the Diffie-Hellman problem is the quantity e of the statement, not an assumption. One pair of parties, both directions; passive wiretappers only."
 },
 "C109": {
  "note": "As for C98. δ bounds the probability of finding the discrete logarithm of the key of user i by rewinding `single i` of the attacker, a definite program; the private keys of the other users are among its random choices. The number of signatures s counts those of all users."
 },
 "C110": {
  "note": "The hash is a uniformly random function on a finite set that contains all byte strings of at most |m| + 64 bytes. The messages are fixed before the hash function is drawn."
 },
 "C111": {
  "note": "The hash is a uniformly random function on a finite set that contains all byte strings of at most N + 64 bytes, where N bounds the attacker's messages (N is arbitrary). The attacker is not limited in time, only in its questions; it may depend on the private key."
 },
 "C112": {
  "note": "The hash is a uniformly random function on a finite set that contains all byte strings of at most |m| + 64 bytes. The message and the rule that gives the public keys (it may use the digest of the private key) are fixed before the hash function is drawn; that a schedule with the overwritten message exists is C59_torn, the probability is that of its formula."
 }
}