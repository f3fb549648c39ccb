# Design: a Lean 4 model of proximax-storage/go-xpx-crypto

Properties: `properties.jsonl` (C01...). Theorems: `lean/Verif/Props/*.lean`, named `Ed.Cxx_...`; the map is
`MANIFEST.json`. Mutation tests: `seeded/LOG.jsonl`. Function-by-function coverage: `COVERAGE.md` (generated from the
citations in the model by `tools/coverage.py`).

## 1. Trusted base

* The kernel of Lean 4.33.0. No `native_decide`, no `bv_decide`, no own axioms. Every property theorem depends on a
  subset of `propext`, `Classical.choice`, `Quot.sound` (run `#print axioms Ed.Cxx_...`; `vcheck` does).
* Finite complete checks (the 256+8 table entries of the base point, Pratt certificates for p and L, the 24-limb interval
  analyses) are done by `decide +kernel` or by kernel evaluation of a checker whose soundness is a theorem; they are
  complete for the domain they speak about, not samples.
* The model: that the Lean definitions in `Verif/Model` say what the Go text says. Each definition cites file and lines.
* The specification files `Verif/Spec/*` (what the English words mean): `Base` (p, L, d, B), `Bytes` (little endian),
  `Curve` (points, group law, encoding of points), `FieldRep`, `GroupRep`, `TableRep` (which Go objects represent which
  mathematical objects), `Scheme` (the signature scheme in terms of points and integers), `Text` (hex), `Memory`
  (slices), `Calls`, `SharedCalls` (API calls of goroutines and their sequential results), `Leak`, `Order` (the point T, the number of points), `Oracle`, `Trace`, `Interfere`, `Steps`, `Cost`,
  `RandomOracle`, `Attack`, `Many`, `Secrecy`, `Eavesdrop`, `Wiretap` (attackers, and random functions in the place of primitives).
* Where C97 to C112 speak of a random hash or cipher, that is part of the statement: the average over all functions in the place of the primitive, computed with the code of
  the model. It is not an assumption about SHA-3 or AES, and it enters no other theorem.
* The contracts of external code in section 4.

## 2. Layers

| Layer | Modules | Content |
|---|---|---|
| Spec | `Spec/*` | The field `ZMod p`, the twisted Edwards curve as an `AddCommGroup` (associativity proved), encodings, the scheme. No limbs, no Go. |
| Go semantics | `Go/*` | wrapping `int64`/`int8`, outcomes `ok`/`err`/`panic`. |
| Sequential model | `Model/Field, Scalar, Recode, Group, Tables, Keys, Dsa, Cipher, Engine, Hex, MathUtils, Misc, CT` | one definition per Go function; objects are values, a Go pointer that may be nil is an `Option`. |
| Readers | `Model/Reader` | random sources as lists of answers (bytes, error), `io.ReadFull`, package `rand`. |
| Slices | `Model/Heap, KeyHeap` | arrays, offset/length/capacity, `append` in place, keys as slices, for C34, C69. |
| Pointers | `Model/Pointers` | objects, coordinates and tables at addresses, for C48. |
| Goroutines | `Model/Conc, PGroup, PApi, PShared` | the group code and the API again as programs of single memory actions, run by an arbitrary scheduler, for C53-C59, C70, C71. |
| Real primitives | `Real/*` | SHA-3, SHA-2, RIPEMD-160, AES from the standards, as one environment that meets the contracts. |
| Proofs | `Proofs/*` | refinement of model to spec. |
| Properties | `Props/*` | the property theorems, each with a case that meets its hypotheses. |

## 3. Method per property

| | modelled | how proved |
|---|---|---|
| C01, C02 | limb products over wrapping `Int64` | symbolic interval analysis: no wrap; value identity modulo p; output bounds |
| C03, C06, C07 | add/sub/negate, power ladder, predicates | homomorphism to `ZMod p`; addition chain; Euler |
| C04, C05, C50, C51 | `Encode`, `Decode`, `EncFE` objects, printing | carry chain = quotient by p; canonical bytes; inverse |
| C08, C09 | `modQ`, `multiplyAndAddModQ` straight-line over wrapping `Int64` | checker for 24-limb programs (bounds and congruence mod L) with soundness theorem; final range |
| C10, C11 | `toRadix16`, `slide` over wrapping `Int8` | loop invariants; exact limits of validity; a lost carry leaves the four top digits zero, and width-5 expansions (`Spec/Naf`) are unique modulo 2^256 below that, so `slide` fails only where no expansion exists |
| C12, C13 | `Decode`, `Encode` of points | square root of u/v exists iff one of the two tests passes (p = 5 mod 8) |
| C14, C39, C40, C38 | formulas on coordinates | `Repr` relation; completeness since d is no square; equality of projective points |
| C15, C16, C41, C17 | tables, `Select`, the loops | induction over digits; the constant tables checked entry by entry by the kernel |
| C18-C23, C29, C37, C42, C43 | `Sign`, `Verify`, keys, hash | composition; order of B is exactly L |
| C24-C28, C36, C30 | key agreement, CBC + PKCS7, readers | commutativity; CBC modelled on an arbitrary block cipher; induction over reader answers |
| C31-C33, C35 | hex, big integers, serialisation | byte-list induction |
| C34 | `Bytes()` = `append(R, S...)` | heap of slices; exact aliasing condition |
| C44, C45, C49 | big-integer helpers, random test data | integers; see the note of C44 for what is false or conditional |
| C46 | engines, signers, ciphers | dispatch on the engine, wrappers unfold to the modelled calls |
| C47 | constant-time helpers | bit arithmetic on `Int64` |
| C48 | `BASE_POINT()`, `copy`, `Select` on pointers | invariant over all histories; counterexamples for writes through shared pointers |
| C52 | the legacy cipher object | induction over call histories |
| C53, C54 | any number of goroutines making API calls, any schedule | weakest preconditions per action with ownership of addresses; single invariant gives race freedom, unchanged caller memory and the sequential result of each call; readers: each answer is delivered once |
| C55-C57 | shared group elements with tables; racing and crashing precomputation | the same method; explicit interleavings for the failures |
| C58, C59 | `Sign` with a wrong public key, or with a message changed between the two reads | algebra modulo L on the equations of C19; explicit schedule |
| C60 | `cmov`, `Select`, `scalarMultiply` and their callers once more, returning the list of outcomes of the tests in `cmov` (`Model/Trace`); the observer's computation is in `Spec/Trace` | digits are read from the list, induction over the 64 digits; the traced functions have the results of the untraced ones |
| C61-C63 | `Verify` for an arbitrary hash | algebra in the curve group on the acceptance equation of C20 |
| C64-C67 | `Encrypt`/`Decrypt` for every AES that is a bijection on blocks; the attacker of C66 in `Spec/Oracle` | AES is onto by finiteness, so CBC decryption is inverted by encryption; algebra of xor on the first block; the oracle recovers one byte after the other |
| C92 | `Decrypt` as in C66; the attacker in `Spec/Oracle` (`forge`) builds the ciphertext from its last block | induction over the plaintext blocks from the end |
| C93 | `DerivePublicKey`, `Sign`, `Verify` as in C18-C20; `Spec/Rfc8032` is written from the RFC, over an arbitrary hash | the two descriptions of scalar, encoding and equation are proved equal; C20 for any S, C21 for what lies beyond |
| C94 | the functions behind derivation, signing, verification, key agreement, encryption and decryption once more, each with the list of its operations (`Model/Cost`); not recorded: copies, comparisons, table accesses, conditional moves (see C60), reading random bytes; `Spec/Cost` is the price of a list | the results are those of the other functions; the list of every part is known or bounded for every price; non-zero digits of the sliding window are at least 5 apart, so there are at most 52 |
| C95 | the functions of the API that compute with `int`s once more, with `int`s of `w` bits that wrap around (`Model/IntWidth`, `BitVec w`); loop counters, positions and lengths that are only compared and used as indices are numbers | the helpers look at bits 0 to 8 only; the carry of the recoding stays small; the sizes in the padding do not wrap around below 2^(w-1); where they do, `make` gets a negative length |
| C96 | nothing new: `Verify` with arbitrary environments (`Env.withHash` puts a function in the place of SHA3-512) | the equation of C20 twice, multiplied by 8, cancelled modulo L; the simulated signature solves the equation for R |
| C97 | attackers as programs that ask for hash values (`Spec/RandomOracle`: `HashProg`, run with a function or with lazily given answers), probability as a quotient of numbers of elements | a random function and lazily drawn random answers give the same results with the same probability (induction on the program); the forking lemma (Cauchy-Schwarz on counts, `Proofs/Forking`); two runs with the same answers before the j-th ask the same j-th question; then C96 |
| C98 | attackers that may also have messages signed (`Spec/Attack`: `SignProg`), the attack with the code's `newKeyPair`, `sign`, `newSignature` and `verify` (`ForgesCma`), the simulator that signs without the key (`simulate`) and the search for the scalar (`findScalar`) | three games: the code with one random function; the same with independent nonces (the two differ only if a question hits the private key or the second half of its digest: 2^-256 per question); the simulator (induction on the attacker: one signature costs a factor 1 + 2^-259, because the nonce is a 512-bit digest reduced modulo L, and q/L, because the programmed input may have been asked before); then C97 for the simulator with the attacker, averaged over the private keys; a signature of a signed message counts as forged if its R is another one, and with C62 (one reduced S for each R) this covers every other signature with a reduced S |
| C99 | observers that choose pairs of messages (`Spec/Secrecy`: `Observer`), the code's `Encrypt` on a reader with random bytes and with a random permutation for each key in the place of AES (`Env.withCipher`) | the observer with `Encrypt` is a program that draws salts and IVs and evaluates permutations in chains; with random permutations and with random answers it behaves the same until an input or an answer repeats (counting the permutations with given values, induction on the program, `Proofs/Secrecy`); in a chain each input contains a fresh random block, so a repetition has a probability of n^2/2^128; random answers do not depend on the messages |
| C100 | eavesdroppers that have messages encrypted, ciphertexts decrypted and shared keys computed and ask for hash values (`Spec/Eavesdrop`: `Spy`), the code's calls with a random function in the place of SHA3-256 (`Env.withKeyHash`) | every call is a function of one hash value, that of the shared point xored with the salt (`call_form`); so the eavesdropper is a program whose questions have two kinds, its own and those of the calls; a random function of the names of the questions and one of the questions answer alike until two different questions have the same name (lazy sampling, induction on the program, `Proofs/Eavesdrop`), and then a question xored with a salt is the point |
| C101 | wiretappers that choose pairs of messages and ask for hash values and for AES under keys of their choice (`Spec/Wiretap`: `Wiretap`), the code's `Encrypt` with a random function in the place of SHA3-256, random permutations in the place of AES and random bytes from the reader | three steps: for each cipher the wiretapper is an eavesdropper of C100; with other parties, permutations by key and permutations by salt answer alike until a shared key is one of the keys asked for or two salts have one key (the renaming argument of C100 again, with permutations as answers, and counting); then for fixed answers to its own questions the wiretapper is an observer of C99 |
| C102 | `Decrypt` on salt, IV, any whole blocks and one more block | the last block is accepted with a message n bytes shorter exactly if its decryption, xored with the block before it, ends in n bytes n; that map is a permutation of the blocks (AES is one for each key), so counting blocks that end in n bytes n is enough; sum of a geometric series |
| C103 | `DerivePublicKey`, `GenerateKeyPair` and `Sign` with a random function (on a finite set of byte strings that contains the hash inputs) in the place of SHA3-512 | two different places of a random function are independent; counting the digests with given bits 3 to 253, and those with a given residue modulo L; for signatures first the digest of the key is drawn, then the nonce inputs are two different places of which at least one is not the key; union bound over pairs; for searching, induction over the attacker: each question at a new place meets one of the values so far |
| C104 | attackers as programs that ask for hash values (`Spec/RandomOracle`: `HashProg`), `DerivePublicKey` with a random function in the place of SHA3-512 | the digest of the key is drawn apart from the function: unless the attacker asks for the key its run does not depend on it, and q + 1 byte strings contain a random key with probability (q + 1)/2^256; for a second key induction over the attacker: each question at a new place meets the scalar with probability 2^-251 |
| C105 | cheaters as programs that ask for hash values, `NewSignature` and `Verify` with a random function in the place of SHA3-512 | if both are accepted, the products of challenge and public key agree (C85); the hash inputs are different places, and for a key not of small order a digest gives each product with probability at most 2^-252; birthday bound by induction over the cheater |
| C106 | sequences of calls of `Encrypt`, the next message chosen by a function of the results so far; `io.Reader` with random bytes | the first 48 bytes of the i-th result are the i-th 48 random bytes (C28, induction over the calls), so results repeat as random bytes do; union bound over the pairs |
| C107 | `Verify` on all signatures of 64 bytes | from the equation (C20) R is the encoding of a multiple of the base point; S is determined modulo L, at most 24 S (C62); of the seven numbers s + iL below 2^255 at most two are stopped by the filter, since L is odd; averages over R and S |
| C108 | `Encrypt` and `Decrypt` with different key pairs, a random function in the place of SHA3-256 and a random permutation for each key in the place of AES | the keys for AES come from different hash inputs (C100's form of a call); the permutation of the second key is drawn after the ciphertext is fixed; whether a message comes out depends on the last block only, and padded blocks are counted as in C102 |
| C109 | attackers (programs) that may ask for hash values and for signatures by any of `n` users, with `NewKeyPair`, `Sign`, `NewSignature` and `Verify` and a random hash function | an attacker on one user that has the private keys of the others plays the others (RFC 8032 written out with two hash questions for each signature); the run of the attacker is the same; C98 for it, the private key of the attacked user is drawn last, and the sum over the users |
| C110 | `NewKeyPair`, `Sign` and `Verify` with a random hash function | the hash value in the challenge belongs to an input that is longer than the two others, so it is drawn last; for any nonce and scalar the map from challenges to responses is a bijection modulo L; the responses that the filter refuses and the digests of each class are counted |
| C111 | attackers (programs) that may ask for hash values and for signatures, with `NewKeyPair` and `Sign` and a random hash function | the attacker with the signer is one program that asks for hash values; a refusal needs two related questions, the one for the nonce and the one for the challenge; whichever comes later hits with the probability of C110, or of guessing the nonce; induction over the program with the answers drawn one by one |
| C112 | `NewKeyPair` and `Sign` with a random hash function, a private key and two public keys; the response of C59 | the four hash values are drawn one by one: key, nonce and the two challenges, which are different questions because their inputs have different lengths or contents; union bound of two refusals (C110) and equal challenges, then C58 and C59 |
| C68, C69 | `Sign`/`Verify` with mismatched keys; key objects as slices into a heap (`Model/KeyHeap`) | algebra on C19, C20; frame lemmas for writes through a slice |
| C70, C71 | the goroutine model of C53; what the argument arrays hold after each action (`Spec/Interfere`); goroutines that write bytes to them at any time | weakest preconditions with an oracle for every reading of an argument (`wpO`), sound for every schedule; C71 by cutting `Verify` before its last reading |
| C72-C77 | the whole curve group (`Spec/Order`): a point T of order 8 makes 8 L divide the number of points, two points per y bound it below 16 L | group theory on the specifications of `Decode`, `GetSharedKey`, `Sign`, `Verify`; the finite lists (14 and 26 strings) by kernel evaluation of the few candidate y, all other y excluded by proof |
| C78 | `.panic` as an outcome of every modelled function | equivalences from the exact outcomes of C19, C20, C24-C31, case by case; `C78_verify_parsed` and `C78_decrypt_remote` for values that come from outside |
| C79 | the constructors of Model/Text, Keys, Engine composed | composition of C31, C30, C46, C33, C18, C25; the parties share only texts and bytes |
| C80 | the API with every pointer optional (`Model/Nil`), in the order of accesses of the Go text | equal by computation to the other model without nil; case analysis and C78 |
| C81 | `Sign` twice | R is an injective function of the nonce modulo L; the private scalar is invertible modulo L |
| C82, C83 | `Decrypt`, `GetSharedKey` twice | CBC per block, AES is a bijection; xor is injective |
| C84, C85 | `Verify` for keys that are any point | C20 plus the order of the point; one signature fixes the commitment for both keys |
| C86, C87 | group elements with optional coordinates and any int as system, tables with nil cells (`Model/NilGroup`), the stores made before a panic | equal to the other model without nil; case analysis over the coordinates looked at |
| C88 | the goroutine model of C53 with other goroutines that do anything but make arrays longer (`Spec/Steps`: the limits) | a count of actions for each function, over all contents it may find (`Proofs/Steps`), then induction over the schedule |
| C89, C90 | `modQ`, `clamp`, `getSharedKey`, `sign` as in C08, C42, C83, C19 | counting residues (Mathlib), bijections; the equation of C20 for sums of multiples of B |
| C91 | the three functions that print and their callers again, returning the text as well (`Model/Print`); panics carry the value that `%v` shows | equal to the other model in the result; case analysis over the conversions |

Claims of the form "a user would expect X" that are false of the code are recorded with what is true: the exact outcome
or condition is proved and, beside it, a theorem that exhibits the failure (C21, C22, C23, C26, C32, C34-C38, C44, C45,
C48, C49, C52, C56-C60, C65-C69, C71, C74, C76, C80, C84).

## 4. Contracts of code outside the repository

The theorems quantify over every implementation that meets these; nothing else is used.

* Hashes (`Model/Env: Hasher, Env, OtherHashes`): `Write` in pieces equals `Write` of the concatenation, never fails;
  output lengths 64/32/20. No collision resistance or randomness is assumed.
* AES: for each key a function on 16-byte blocks with inverse. CBC chaining is written out in the model.
  Both contracts are met by the real primitives: `Real/Keccak, Sha2, Aes` define SHA3-512/256, Keccak-256, SHA-256,
  RIPEMD-160 and AES from the standards and prove the contracts (`Real/Env: Env.real, OtherHashes.real`; AES decryption
  inverts encryption for every key). With them the model runs: `tools/conformance.py` evaluates it on the test vectors of
  the repository (`Test_Encrypt`, `Test_Decrypt`, the hashes, ...) and gets the expected bytes. That is a test of the
  fidelity of the model, no theorem rests on it. `tools/check_generated.py` compares the generated parts of the model
  (field, scalars, tables) with the source again.
* `encoding/hex`: written out (`Model/Hex`).
* `io.ReadFull`, `rand.Reader`: a reader is a list of answers (bytes, optional error); empty answers without error are
  allowed; an exhausted list answers EOF.
* go-xpx-utils (source not in the sandbox; `Model/Hex: Utils`): `BigIntToByteArray(b, n)` is the little-endian
  string of length n for 0 <= b < 256^n, unspecified otherwise; `BytesToBigInteger` is the little-endian value;
  `GetBitToBool`, `MustHexDecodeString` as their names say.
* `math/big` (`Model/MathUtils: Big`): integer arithmetic; `ModInverse` returns the inverse in [0, n) or nil. A `big.Int`
  passed by value shares memory with the original: the effect is an unknown function that is the identity when the
  operands cannot be multiplied in place (`SafeArgs`) and never changes the sign or the number of words (`words`).
* `crypto/subtle.ConstantTimeCompare` (`Model/CT`): written out.

## 5. Simplifications

* Values instead of pointers in the sequential model; aliasing is treated where it matters: C34 (slices), C48 (pointers),
  C53-C59 (shared memory). Coordinates X, Y, Z of a group element are never nil (T may be), `KeyPair`s have a non-nil public key
  and pointers to pairs, signatures and ciphers are non-nil; C80 treats nil keys, pairs, signatures, ciphers and engines (`Model/Nil`), C86
  and C87 nil coordinates and ints that are none of the six systems (`Model/NilGroup`).
* In `Model/Group` a panic inside a precomputation leaves no half-built table; the pointer model has it (C57).
* Concurrency: sequentially consistent interleaving of single actions (a race is therefore itself an observable of the
  model: `C53_race_free` shows there is none for the calls it covers, so that the Go memory model gives the same executions); the four coordinates of an element are loaded in one action; local buffers of a call are values;
  caller arrays are read in passes (a hash `Write`, a comparison, a copy, one of the three passes of `Decode`, ...), each pass byte by
  byte, one action per byte, so that changes between and during passes are seen (C59, C70, C71). The model reads from the first byte to
  the last; C70 does not use this order: it says only that each byte is that of some moment of the pass.
* Memory exhaustion, stack overflow and timing are not modelled. What is printed is modelled in `Model/Print` only (C91); a failing `Write` to standard output is not.
* `curve.go` and `dsa_signer.go` contain interfaces only; `crypto_engine.go` an interface and a variable holding two engines, which is modelled in
  `Model/Engine`.
* Test files are not modelled.
