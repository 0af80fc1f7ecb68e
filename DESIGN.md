# Design of the gostcrypto model and proofs

Code under study: drobotun/gostcrypto, Python, `/repo/gostcrypto`. The code was
read as text only; nothing was built or run. Line numbers in the Lean comments
refer to the files in `/repo/gostcrypto`.

## Layout (`/verif/lean`)

* `Verif/Py.lean` – the Python fragment: byte strings, argument values,
  exceptions as values, slicing and indexing with Python's rules.
* `Verif/Model/*.lean` – model of the code, function by function, each
  definition with file and lines. Nothing is proved there.
* `Verif/Spec/*.lean` – independent specifications, written from the
  mathematical definition (field arithmetic, `Nat` arithmetic modulo 2^n,
  recurrences over blocks, Mathlib's elliptic curve group). They import no model
  file.
* `Verif/Proofs/*.lean` – helper lemmas.
* `Verif/Props/*.lean` – one theorem (or a few) per property, named `Cnn_...`,
  with a concrete instance of the hypotheses beside it.
* `Verif/Source/Syntax.lean`, `Verif/Source/Semantics.lean` – abstract syntax
  and meaning of the fragment of Python in which the package is written, with a
  heap of mutable objects.
* `Verif/Source/Text/*.lean`, `Verif/Source/Program.lean` – the text of the
  package as terms of that syntax, written by `tools/gen_source.py` from the
  Python files (`python3 tools/gen_source.py /repo/gostcrypto lean/Verif/Source`).
* `Verif/Source/Lookup.lean` – what each name of the package stands for, written
  by the same script.
* `Verif/Source/Lemmas.lean`, `Procs.lean`, `Attr.lean` – symbolic execution:
  the tactic `py [...]` runs a program with rewriting rules proved from the
  semantics. `Agree.lean`, `Memory.lean` – programs against functions of the model
  which may raise exceptions; which cells of memory a program may change.
* `Verif/SourceProofs/*.lean` – the functions of the text compute the functions
  of the model.
* `Verif/Tests/*.lean` – known-answer vectors of the repository's own unit tests
  evaluated on the model. They are tests of the model's fidelity, not proofs.

## Modelling decisions

* `bytes`/`bytearray` contents are `List UInt8`. An argument is
  `PyVal = bytes b | bytearray b | other`. `other` is any value which is not a
  byte object and which does not compare equal to an empty bytearray (the one
  exotic exception, an empty memoryview, is not modelled).
* A method is a function from the object state (and arguments) to a new state
  and an `Except Err result`; an exception therefore keeps whatever mutation
  happened before it.
* Python integers are `Int`; `//` and `%` are `Int.fdiv` and `Int.fmod`.
  Lengths are `Nat`. Loops over `range` become folds over `List.range`.
* `os.urandom` is a parameter: the theorems quantify over what it returns.
* Loops which may run forever (`_bits` on a negative number, the `while` loops
  of `sign`, `_get_rand_k`) take a fuel argument; running out of fuel is a
  separate outcome. "Terminates" means some fuel suffices, "diverges" means no
  fuel suffices.
* Mutable buffers are values (copied on assignment). Sharing is modelled
  separately for the places where the code shares a buffer with the caller
  (`Verif/Model/Alias.lean`).
* When the garbage collector destroys an object, memory contents after zeroing,
  timing, memory limits, threads, and Python subclasses overriding methods are
  not modelled.

## Trusted base

* Lean 4.33 kernel; axioms at most `propext`, `Classical.choice`, `Quot.sound`
  (listed per theorem by `#print axioms` in `Verif/Axioms.lean`). No `sorry`, no
  own axioms, no `native_decide`, no `bv_decide`. `decide +kernel` is used for
  whole finite tables (256 entries) and for concrete counterexamples.
* That the Lean model matches the Python text. For the files listed under C95
  and following this is proved from the text itself; there the trusted part is
  `tools/gen_source.py` (a translation of Python's own syntax tree, node by node)
  and `Verif/Source/Semantics.lean`. What this semantics leaves out: `__del__`
  is not called, memory is not reclaimed, `deepcopy` copies an object reached
  twice two times, module-level lists and byte arrays are constants (the package
  does not change them), default arguments are evaluated at each call (they are
  constants; the two mutable ones are empty byte arrays, and C100 and C104 say that the memory
  of an argument does not change), the generator `_bits` is a loop inlined where it is used.
  `gen_source.py` stops if the text has what the semantics would treat wrongly (loops over an
  object which the loop changes, a handler which reads variables, assignment to a property, a name
  used both as a local and a global). Operations outside the fragment end with `stuck`, which no
  theorem allows. `tools/check_semantics.py` tests both against Python: random
  programs of the fragment (not the package) are run by Python and by `call`; over 6000 calls were
  compared, with no difference left (two were found and removed: the exception of `to_bytes` for a
  negative length, and iteration over a changed object, which is now refused). The whole package is
  covered in this way, with the table of curves (`Source/Text/Curves.lean`). `tools/check_text.py`,
  written separately, reads the Lean files back and compares them with the Python files: 161
  functions, 41 values, the seven curves and the method which each class has under each of 221
  names (the order of the classes is computed by Python). They are equal; of 149 random
  alterations of one token of the Lean files it has found all. Tables
  of the hand-written model were copied from the text by a script; the proofs of
  C95 to C105 and the known-answer tests check them.
* That the specifications in `Verif/Spec` are the published standards
  (the standards were written down from memory; the repository's vectors, which
  come from the standards, are evaluated on the specifications as well).

## Modelled / not modelled code

Modelled, function by function (citations are in the Lean comments):

| file | model |
|------|-------|
| `utils/utils.py` | `Model/Utils.lean` – all functions |
| `gostcipher/gost_34_12_2015.py` | `Model/BlockCipher.lean`, tables in `Model/CipherTables.lean` – both classes |
| `gostcipher/gost_34_13_2015.py` | `Model/Modes.lean` – `new`, the five modes and the MAC |
| `gosthash/gost_34_11_2012.py` | `Model/Streebog.lean`, tables in `Model/StreebogTables.lean` |
| `gosthmac/r_50_1_113_2016.py` | `Model/Hmac.lean` |
| `gostpbkdf/r_50_1_111_2016.py` | `Model/Pbkdf.lean` |
| `gostrandom/r_1323565_1_006_2017.py` | `Model/Random.lean` |
| `gostoid/oid.py` | `Model/Oid.lean`; the `oid` attributes of the objects in `Model/Ident.lean` |
| `gostsignature/gost_34_10_2012.py` | `Model/Signature.lean`, parameter sets in `Model/Curves.lean` |
| buffers shared with the caller | `Model/Alias.lean` – a small heap of bytearrays |
| `__init__.py` | `Model/Version.lean` – the test of the version |
| operations of `compare`, `compare_to_zero`, `_mul_point` | `Model/Trace.lean` – with a record of the operations |
| messages authenticated by `derive` | `Model/TracePbkdf.lean` – with a record of the messages |
| `__del__` of all classes | `Model/Destroy.lean` – on the attributes which exist when a constructor ends; as text in C109 |

Not modelled:

* Docstrings, type annotations, the re-exports in `__init__`.
* The time of single operations on Python numbers (C91 and C92 are about the sequence of operations).
* `key = zero_fill(key)` in constructors and in `sign`: it rebinds a local name
  and has no effect for the caller.
* Recursion depth: `Sig.gcdex` recurses without a limit. C79 shows that 739 nested
  calls are enough for moduli up to 2^512 (Python's default limit is 1000), and that a
  caller's curve with `p` of 694 bits (the size of `p` is not checked) can meet the limit.
* The limit of the random generator is a float for `size_s > 64`; the model uses a
  natural number for which the comparison has the same outcome (`Model/Random.lean`).

Points of the text which are easy to overlook:

* The name registered in `oid.py` for 1.2.643.7.1.2.1.2.3 ends with a Cyrillic
  letter (`Model/Oid.lean` keeps the spelling).
* The acceptance check of a curve does not bound p from below or above; the
  theorems about signatures therefore carry `p <= 256^size`.
* `sign` does not check the length of `rand_k`, only its value.

## Disagreements between the code and the properties

Each line has a machine-checked negation (or `_statement_false` witness) and an
exact description of what the code does instead.

| property | what the code does |
|----------|--------------------|
| C12 | PAD_MODE_2 appends one more block of zeros unless the length is a positive multiple of the block size. |
| C13, C14 | CTR increments only the last byte of the counter without carry: the keystream has a period of 256 blocks. |
| C15 | CFB and OFB do not move the register on a short last block; the next call uses the same gamma again. |
| C17, C18, C20 | MAC raises IndexError for data shorter than a block, in the constructor and in `update`. |
| C20 | An empty IV is accepted in CBC, CFB and OFB. |
| C21 | A rejected call overwrites the round keys; the object goes on with a constant key. |
| C22, C48 | `zero_fill` writes the four characters `/x00` per byte, so nothing is zeroed; a MAC object keeps K1 and K2. |
| C25, C29 | Streebog: an update which completes a started block exactly does not drop the buffer, and it is hashed twice. |
| C28 | HMAC without any `update` does not hash the inner key block. |
| C30 | HMAC `clear()` keeps the update counter. |
| C31, C49 | A 64-byte bytearray key, the CTR counter and the PBKDF salt are shared with the caller. |
| C34 | PBKDF `clear()` does not change later results. |
| C37 | The limit of the random generator is larger than the counter can get; it overflows into the seed. |
| C39 | OID components of 2^14 and more are not DER, two identifiers can have the same octets. |
| C40 | A negative second component of an OID is encoded, a missing one is an IndexError. |
| C41, C42 | A public key with x = 0 is replaced by the base point (built-in 256-paramSetD, private key q-1). |
| C42 | z1*P + z2*Q = O is not rejected (built-in 256-paramSetB, public key -P: a forged signature is accepted). |
| C43, C63 | Private keys 0 and q and above are not rejected; q gives bytes which are no point. |
| C44 | Private key 0 and k = 0 loop for ever. |
| C45 | The check p^t != 1 mod q never rejects. |
| C50 | Decryption drops the bytes after the last whole block without an error. |
| C64 | `verify` does not check that the public key is on the curve. |
| C68 | Five of the seven built-in curve names are not in the register of identifiers. |
| C81 | `clear` and calls refused for their type replace each stored key byte by four bytes (`/x00`), so repeated calls make the object grow by powers of four. |
| C85 | `gostpbkdf.new` accepts any integer as the number of iterations; numbers below one are used as one. |
| C88 | `name` is looked up by the string: `01.2.643.7.1` has the components and the encoding of a registered identifier but no name. |
| C89 | `__del__` of the block cipher classes indexes ten (32) round keys: after a constructor which raised `IndexError` for a short key there are fewer, and `__del__` raises `IndexError`. `__del__` of a PBKDF object reads `_password` without a test: after a refused password it raises `AttributeError`. |
| C93 | Importing the package is refused on Python 4.0 to 4.5: major and minor number are compared separately. |
| C116 | IndexError (short text for a MAC, empty vector, object identifier with one component), OverflowError (negative component), ZeroDivisionError (order 0) and, from PBKDF2, GOSTHMACError (long password) reach the caller. |
| C134 | `_check_x_y` computes modulo p and the base point is stored as given: with x = 1 + p in place of 1 (256-paramSetB) the object is created, the public key of 1 contains p + 1, and a signature with the random number 1 is refused by `verify`. |

## Signatures over built-in curves

`Proofs/Pocklington.lean` proves Pocklington's criterion with a Boolean check;
`Proofs/Primes.lean` contains certificates for p and q. For the modulus of
512-paramSetA and C and the order of 512-paramSetC no such certificate was
found; `Proofs/CurvePrime.lean` proves a criterion with elliptic curves (a point
of prime order r modulo n, with ((r-1)/2)² > n, shows that n is prime), and
`Proofs/CurvePrimes.lean` applies it. `Proofs/EvalCurve.lean`
checks a chain of additions with given slopes, and `Proofs/GoodBuiltin.lean`
uses it to prove that the base point has order q. The certificates are data;
the kernel evaluates the checks.

## Mutation tests

For every entry of `seeded/LOG.jsonl` one definition was changed in a copy of
the project and the copy was rebuilt. The entries come from two kinds of runs.

* The first entries (edits of `lean/Verif/Model`, with many names under
  `theorems_failed`): each theorem whose proof no longer compiled was replaced by
  an assumption, the build was repeated until it passed, and the theorems of
  `MANIFEST.json` which then depend on an assumption are the ones listed as
  failed.
* The others (edits of the Python text, and the later edits of the model): the
  build was not continued after a failing module. `lemmas_failed` and
  `theorems_failed` name only the declarations which reported an error.
  `theorems_not_reached`, or the text of the claim, names the theorem which the
  edit was meant for and whose module comes later; that it fails for itself was
  not observed.

Entries without failures are survivors; the claim says whether the program is
equivalent or which theorem was added because of it.

## Plan per property

| id | model and proof |
|----|-----------------|
| C01 | S-box tables inverse by whole-table kernel check; R and R⁻¹ inverse from GF[0]=identity; lift through 16-fold L and 10 rounds, for every round-key list of 16-byte keys. |
| C02 | Feistel step inverse, induction over the 32 subkeys, for any round function. |
| C03 | Spec: polynomial multiplication over GF(2) reduced by 0x1c3, linear form, key schedule. Tables checked entry by entry in the kernel, equality lifted to all keys and blocks. |
| C04 | Spec on `Nat` words below 2^32. Carry-chain addition lemma, S-box nibbles by table check, rotation lemma. |
| C05–C09 | Abstract cipher with `dec (enc b) = b` and fixed lengths; induction over blocks with the register as state; instantiated with C01/C02. |
| C10 | Loop splitting lemma for folds; state equality after each aligned piece. PAD_MODE_2 appends its mark in every call, so the property is stated for PAD_MODE_1 and `C10_pad_mode_2_not_streaming` shows the difference. |
| C11 | Unpadding function in the spec, left inverse of padding; injectivity through C05/C06. |
| C12 | False in the code (an additional zero block unless the length is a positive multiple of the block size). Negation plus exact characterisation; `_partial` for block-aligned data. |
| C13 | False beyond block 255 (no carry out of the last byte). Negation for every key and IV (257 blocks of zeros); `_partial` for the first 256 blocks; `C13_exact` for all. |
| C14 | False: counter period is 256 blocks. `_partial`: distinct within 256; exact period theorem. |
| C15 | False for CFB/OFB after a short block: the same keystream is used again. Exact: an OFB object walks along one keystream whose position is moved by whole blocks only (block i is the IV block i mod m encrypted i/m+1 times), CFB encrypts the blocks of a log; equality of keystream blocks by injectivity of the cipher. `_partial`: CTR up to 256 blocks. |
| C16 | Spec: indexed recurrences. Refinement by induction over blocks. |
| C17 | Spec OMAC from the standard. Proved for the empty message and length ≥ block size; for 0 < length < block size the code raises IndexError (negation). |
| C18 | Same defect; `_partial`: whenever all updates succeed the state equals that of the single update. |
| C19 | Direct from the model (digest works on a copy) plus prefix property; induction over histories. |
| C20 | Decision procedure spec; also records that an empty IV is accepted (negation of "positive multiple"). |
| C21 | False: the object is cleared and keeps working with a constant key. Negation and exact behaviour. |
| C22 | Independence of the key after clear for the cipher modes; "zero" part false (zero_fill writes "/x00"); MAC keeps K1, K2 (negation). |
| C23 | Spec: S, P, L with 64-row matrix, constants, `Nat` arithmetic modulo 2^512. |
| C24 | Kernel check of all 8·256 entries, lifted to all blocks by linearity of xor over bytes. |
| C25 | False; exact characterisation: the object hashes an "effective message" in which the stale buffer is repeated. Negation by kernel evaluation, `_partial` under the exact guard. |
| C26 | Small store of objects, interleavings; refinement to a log of updates. |
| C27–C31 | HMAC spec parametric in the hash; reset/clear; alias model for the 64-byte key. C28 and C31 are false as stated (negations, partials); C29 inherits C25. |
| C32–C34 | PBKDF2 spec; induction over iterations and blocks; C34 false (clear has no effect on derive). |
| C35–C38 | Counter as a 63-byte big-endian number; C37 false (the limit can never fire). |
| C39–C40 | DER spec; C39 holds for components < 2^14, false above; parser model on ASCII. |
| C41–C43 | Mathlib `WeierstrassCurve.Affine.Point` over `ZMod p`; `_add` and `_mul_point` refine the group law; order-q invariants exclude the exceptional cases. C42 false for keys with x or y = 0 and when z1P+z2Q = O. |
| C44 | False: scalar 0 loops forever; exact characterisation. |
| C45 | Decision logic; the p^t check is a no-op (negation with a concrete curve). |
| C46 | Field identity in `ZMod p`, extended Euclid gives inverses. |
| C47 | Decision logic and range lemmas. |
| C48 | Direct inductions; zero_fill part false. |
| C49 | Alias model: `iv` is a copy; `counter` and `salt` are shared (negations). |
| C50 | False: trailing bytes are dropped; exact behaviour, ECB and CBC, both kinds of padding. |
| C51 | Keystream of OFB and CTR as a function of key and IV; xor algebra. |
| C52 | Locality of decryption from the register equations of C16. |
| C53 | Round trips with the roles exchanged, from `enc (dec b) = b`. |
| C54 | ECB as a map over blocks. |
| C55, C58 | Store of objects with arbitrary interleavings, refinement to a log. |
| C56 | `hex` spec, injective. |
| C57 | Key padding lemma. |
| C59 | Instances of C41 on built-in curves; Euler's criterion shows that b is not a square, so no point has x = 0. 512-paramSetC: points with x = 0 exist, but q times such a point is not zero. All seven curves of the dictionary. |
| C60 | Case analysis of `sign`; first draw below q. |
| C61 | `_set_e` depends on the digest modulo q. |
| C62 | Two equations s = r*d + k*e solved for d in `ZMod q`. |
| C63 | False: only the length is checked. Exact: the key is used modulo q. |
| C64 | False: no point check. For any pair of numbers a digest and a signature which verify accepts are computed (z1 = z2 = 1). |
| C65 | The register as the end of a log (`Spec/CipherCalls.lean`); simulation call by call. |
| C66 | Case analysis; the accepted case from C23. |
| C67 | Table lookups by `decide +kernel`; DER from C39, parsing from C40; the algorithm from C03/C04. |
| C68 | False: five of the seven names differ from the register (`2012` instead of `12`). |
| C69 | Every method keeps the class of the block cipher (invariant of the block loop). |
| C70 | State as (last seed, blocks drawn) or cleared (`Spec/RandCalls.lean`); simulation call by call. |
| C71 | C65 with the key-independent cipher from the first clearing call on (`Spec/AnyCalls.lean`); the cleared object implements that cipher. |
| C72 | Log of blocks, each with the cipher in use, incomplete end and the `mac_final` flag (`Spec/MacCalls.lean`); simulation call by call. |
| C73 | Key schedule invariant (16 bytes, at least 16 bytes); round keys of a long key agree with those of its first 32 bytes up to truncation. |
| C74 | C43 and injectivity of multiples of a point of order q. |
| C75 | Exact condition for True (C42 with the case at infinity); injectivity of e, s, d -> z1*P+z2*Q; at most two points for every x, floor(p/q)+1 numbers below p for every residue. |
| C76 | OMAC as a chain (`Spec.omac`); the cipher is a permutation and xor is injective, so different chain values stay different through equal blocks. |
| C77 | Reachability invariants (register of whole blocks), lengths of the padded data and of the chained blocks. |
| C78 | Execution of the model with an empty register; `decrypt` on `b ++ d` reduces to C3 with the register `b`. |
| C79 | Model with a limit on nested calls (`Model/Depth.lean`); Lamé's theorem by strong induction, Fibonacci numbers evaluated by `norm_num`. |
| C80 | Composition of C23, C25, C59 and of C32, C06-C09. |
| C81 | Exact state of the cipher object after one call, then induction over the calls; `zero_fill` multiplies lengths by four. |
| C82 | Spec: list of all applications of g while a message is hashed (`Spec/Compress.lean`). Backward induction over the blocks; the length block fixes the number of blocks. |
| C83 | Inverse of the matrix A checked on the 64 unit vectors and lifted by linearity; π and τ checked on all values; finiteness gives surjectivity. |
| C84 | The list of round keys is its own reverse; the middle state with equal halves gives fixed points. |
| C85 | Exact result of `new` and `derive` for every integer. |
| C86 | Spec: `bitPoly`, a number as a polynomial of Mathlib over GF(2) (`Spec/Field.lean`). Carry-less multiplication and each step of the reduction are identities of polynomials; the remainder is unique. |
| C87 | Doubling has no fixed point but zero: evaluate the polynomial identity at 1 (the MAC polynomials have five terms) and at 0. |
| C88 | `name` is a lookup by string; keys of the register differ (whole-table check), so the lookup is the entry; spellings `01.2…` refute the statement by components. |
| C89 | Attributes as options, the constructors as functions to the attributes they leave when they end either way; agreement with the constructors of the model; the loop of `clear` on a list of any length by induction. |
| C90 | The standard's equations for z1, z2 solved for e and s in ZMod q; acceptance by C42. |
| C91 | Loops with a record of operations (`Model/Trace.lean`); the record by induction is a function of the indices. |
| C92 | Record of the calls of `_add`; by induction on the fuel the calls are the binary digits; `sign` ends only in the first iteration. |
| C93 | Case analysis; 4.0 refutes the statement. |
| C94 | Derivation with a record of the HMAC messages (`Model/TracePbkdf.lean`); erasure and record by induction. |
| C95 | Symbolic execution of the text of utils.py; loops by invariants. |
| C96 | Symbolic execution of the text of gost_34_12_2015.py; loops of the program against folds of the model, round keys as a list cell; then C03 and C04. |
| C97 | Symbolic execution of the text of gost_34_11_2012.py; a relation between cells of the memory and the object of the model, kept by every method; then C23 and C25. |
| C98 | Symbolic execution of the text of r_50_1_113_2016.py on top of the relation of C97; then C27 and C29. |
| C99 | Symbolic execution of the text of r_50_1_111_2016.py on top of the relation of C98; then C32. |
| C100 | Symbolic execution of the text of r_1323565_1_006_2017.py on top of the relation of C97; then C35. |
| C101 | Symbolic execution of the text of gost_34_13_2015.py, branch by branch of new and method by method; a relation between the object, its block cipher and its register and the object of the model; then C71. |
| C102 | As C101 for the class of the MAC, whose digest works on a deep copy; then C72. |
| C103 | As C101 for oid.py; the loops of _int_to_octet and _encode_octet by induction; then C39, C40 and C88. |
| C104 | As C101 for gost_34_10_2012.py: the loops by induction on the number of turns, `_invert` by the depth of its recursion (C79); the table of curves evaluated expression by expression. |
| C105 | C104 with C41, C42, C43 and C59; one program from the table of curves to the answer of verify; the excluded key by the witness of C41. |
| C106 | The witnesses of the negations above, carried to runs of the text by C95 to C105; one program of calls per defect. |
| C107 | Programs over several modules, run on the text: composition of C97, C99, C101, C104 with the round trips C05 to C09 and C59. |
| C108 | Binary relation of runs in two memories up to corresponding cells (`Source/Isolation*.lean`), preserved by every operation of the semantics; by induction for statements, functions and interleavings. The only fact about the package which is used: no reference at the module level (`globals_refs`). |
| C109 | `__del__` of each class by one step to `clear` (C96 to C101); raising constructors by the failing cases of their lemmas; short lists of round keys by an invariant of the loop. |
| C110 | The relation of C108 on a run with itself: corresponding cells are those reached before, or new; what results reach is inside the correspondence. |
| C111 | As C106 for C18, C22, C29, C30, C31, C37, C49, C68, C81 and C88. Where the caller writes to a shared array the memory is changed between two calls of the program, and the representation is re-established for the changed contents. |
| C112 | `Verif/Source/Bounds.lean`: over the whole semantics, a run with larger bounds gives the same outcome or the first was an exhausted bound (mutual induction over the syntax, induction on the turns of loops and on the depth of calls). The theorems are stated for anything composed of calls and statements; with C106 this gives that the two endless calls have no outcome for any bounds. |
| C113 | `Verif/Source/Names.lean`: a check of definite assignment, of the names of modules, of the numbers of arguments and of the raised exceptions, with a proof over the semantics that what it accepts does not raise the exceptions in question (for a loop over `range(k)` with a number k > 0 the check knows that it has a turn: `_expand_iter_key_final` needs it). The check is evaluated on the 161 functions with `decide +kernel`. A method is followed by its name in all classes. |
| C114 | Different vectors: the vector is the first half of the counter block and encryption is injective. Equal vectors: C51 (the keystream is a function of the state) for CTR and OFB, and an induction over the equation of C16 (each block is an injective function of the message block, with the register as parameter) for CBC and CFB. The defaults are compared by evaluation for each mode and algorithm. |
| C115 | `Verif/Source/Trace.lean`: the semantics with a record of the path, equal to the semantics without it (`call_path`). `Verif/Source/Paths.lean`: when two values or memories have the same shape (`Low`, `Ty`, `HRel`); `PathOps`, `PathBuiltins`: every operation and built-in function keeps this; `PathCheck`: a check with types which refuses a condition whose value may differ; `PathSound`: two runs of an accepted function take the same path (mutual induction over the syntax, induction over loops and on the depth of calls). The check is evaluated on 128 functions with `decide +kernel`. Limits: `while` and `try` are refused, so `random` of the generator and the functions of the signature are outside; a table access with a secret index counts as one step. Disagreement: `_get_mac_key` branches on bits which depend on the key (`C115_mac_key`). |
| C116 | `Use` is a method call or the read of a property, `AllAnswer` a sequence of them with the exceptions caught. For each class an invariant of the memory (the representation of C97 to C105) is kept by every use, whatever it answers; the errors of the model are listed by C20, C40, C47 and the refinements C97 to C101. For `octet` the length of the octets is bounded by the length of the string. |
| C117 | `programRun`: new() and a sequence of uses, with what is seen of each (`Obs`: exception, contents of bytes, other value, an object). For each class the refinement theorems (C97 to C105) give what is seen as a function of the contents of the arguments in the first memory (`hash_program` …), by induction over the uses with the representation as invariant; arguments keep their contents because memory only grows elsewhere (`Ext`, `Frame`). Two programs with the same contents then see the same. Consequence worth knowing: `init_vec=` instead of `init_vect=` is not refused, and the default vector is used. |
| C118 | Kuznechik: the step F of the key schedule undone by exchanging the halves before and after the same step (`stepBack`), eight steps and then i times eight steps by induction; the same argument the other way gives a key for each pair. Magma: the list of round keys read off the model, each word at four places. Generator: the invariant of C35 after n calls, the register as a number minus the blocks drawn is the seed with zeros. Signature: the equation s = rd + ke in the field with q elements, from C41_sign_std, solved for d and for k. |
| C119 | From the block equations of C16 (CBC, CFB, OFB), C13 (CTR), C54 (ECB) and C17 (MAC) for new objects. Zeros: each mode's blocks satisfy X = E of the first blocks of (V ++ X), and this equation has one solution (`feed_unique`, by strong induction over the index). MAC: last block of a CBC chain as a fold (`chain_last`), exclusive or rearranged. |
| C120 | `_get_rand_k` returns the first draw below q (`getRandK_some`). Uniform: exchanging two values in all draws of a table is a bijection between the tables for the one and the tables for the other. Count: the tables without a draw below q are a product, the rest is q times the common number. Signature: C118 gives the random value from the signature, so the tables for a signature are those for one value. |
| C121 | The polynomial of the multiplication is irreducible (every byte but 0 has an inverse, checked over the whole table), so bytes are a field in Mathlib (`AdjoinRoot`). The register R is a linear recurrence whose polynomial has the sixteen roots 39^120, …, 39^135; the differences in a state and in its image under L are 32 successive values of one combination of powers of the roots, so values of a polynomial of degree below 16 at 32 different points: at most 15 are 0. Rounds: key and S do not move changes; sum over pairs of rounds. Substitutions: the differences of the whole table counted in the digits of one big number by the kernel. |
| C122 | The hash multiplies modulo another polynomial; the isomorphism of the fields is given by the images of eight bits, and the map l of a word is then a matrix (checked on the 64 bits, by linearity for all). The matrix takes the values of a polynomial of degree below 8 at eight points, times constants, to those at eight other points: at most 7 of the 16 are 0. Four rounds: changed bytes of a column lie in different rows, so the numbers of changed columns before the first and the third round are together at least 9, each with at least 9 bytes in two neighbouring rounds. |
| C123 | x xor 2^31 = x + 2^31 modulo 2^32, so the two flips cancel in the sum of g; by induction over the 32 rounds both halves stay flipped. Modes: the equations of C16 hold for the flipped results and have one solution (`zip_unique`, `feed_unique`). |
| C124 | The point of the verification is ((s - r*d)/e)*P; with d' the factor changes its sign, and x coordinates do not see that. Both branches of `verify_true` (also the one in which the code meets the point at infinity) are carried over. Example: the keys 1 and q - 3 of 256-paramSetB. |
| C125 | Two blocks which agree with their images at 16 of the 32 positions are equal (C121), so by counting any 16 positions take all values; if the masks were 0 outside 16 positions, a block with one chosen byte there would give parity 1. Existence of u: the parity is additive, its values on the 128 blocks with one bit give u (`additive_zero`). The counts: Walsh transform of all 256 output masks, packed into one natural number per mask, evaluated by the kernel, with a lemma that the packed digits are the counts. |
| C126 | The keys of the rounds 17 to 32 read the same in both directions, so the last sixteen rounds are steps, exchange of halves and the inverse steps around the middle; they fix exactly the states with equal halves in the middle. `back` gives the block for a chosen state. |
| C127 | `dialog_ok`: induction over the messages with the invariant that both objects are one reachable state; one step is the round trip from any register (`Cbc.round_trip` etc.), which also says that sender and receiver end in the same state. |
| C128 | CFB and OFB: `maskOut_take`, induction over the blocks with the register as state; CTR: the keystream of fewer blocks is the beginning of that of more. The equivalence follows from cutting in both directions and the round trip. ECB and CBC: `blocks_shows`, induction over k, the step is injective in its block. |
| C129 | `omac_eq_iff`: the MAC of whole blocks is the end of the chain through two permutations and one constant; `omac_append_iff`: the chain over the appended blocks is injective in its start. |
| C130 | Invariant over the steps (`HoldsAll`): the memory holds every object of the model, and what the methods of one object change cannot be reached from another one. A step keeps it by C101 (what is changed), C110 (what is reached afterwards) and `IsCipher.kept` (an object depends only on what it reaches). The two uses follow from C127 and the round trips. |
| C131 | The invariant of C130 (`HoldsAll`, now in SourceProofs/Several.lean) for any relation between places and objects which depends only on what is reached (`Depends`); `isThing_depends` shows this for ciphers, MAC, hash, HMAC, key derivation, generator and signature objects. Each method of each kind is one lemma (`use_ok`, `copy_ok`, `make_ok`), also for methods the kind does not have. The protected message follows from C131_program, the round trips, C27 and C32; the keys from generators (`C131_generator`) with C35. The signed document (`C131_signed`) follows with C41 and the round trips of C59; its case has a certificate for the multiple of the base point. The run of the model ends with `beyond` where the system is asked for random bytes or a loop of a signature object does not end; C131_program is about the programs where this does not happen. `mac_final`, `hash_final` and `get_hash` are methods of the programs too; not in them are the properties (`oid`, `iv`, `digest_size`, …), for which the sentence on results would be false: the array which `counter` returns is changed by the next call (C111_counter_later). |
| C132 | From C104 (`sign` as it is written against the model) and C41 (the model against the standard), read backwards: what a returning call has returned. The formulas are then algebra in the field of q elements; the programs with equal seeds are two runs of the program of C131. |
| C133 | The two loops of `sign` in the model by induction (`signInner_range`, `signOuter_range`, `signOuter_keep`), with no fact on the curve; the bounds of q from C45; to the text by C104 as in C132. The formulas are algebra in the field of q elements. |
| C134 | The polynomial of the curve changes by a multiple of p (`dvd_moved`); acceptance from C45. `_mul_point` by induction over its loop (Proofs/BasePoint.lean): `_add` depends on the remainders and the comparisons, the doublings of P are reduced, and none of them is P as long as the number is below q. The negations are one set of parameters with x = 1 + p, run in the model by the kernel with small scalars and brought to the text by C104. |
| C135 | The lemma on the loop of C134 (`mulStart_moved`) for the point of the key; that z2 is not 1 is r + e ≠ q. Two encodings of one key on 256-paramSetB, with a signature of small z1 and z2, run by the kernel. |
