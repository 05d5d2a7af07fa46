# Formal model of chengchen98/proof_of_storage

Subject: `/repo` at the pinned commit.  Two crates are modelled,
`proof_of_storage` (sealing, unsealing, challenge protocol) and
`proof_of_space` (space table, MiMC, R1CS circuits).  `privacy_transaction`
has no executable code (everything but one struct is commented out) and is not
modelled.

## Trusted base

* Lean 4.33.0's kernel, and of the standard axioms only `propext`,
  `Classical.choice`, `Quot.sound`.  `AXIOMS.md` lists the axioms of every
  theorem named in `MANIFEST.json`, as printed by `#print axioms`.  No own
  axioms, no `sorry`, no `native_decide`, no `bv_decide`.
* The hand translation Rust -> Lean.  Every definition cites file and lines.
* Environment semantics, stated here and not proved:
  * **Profile.** `usize` arithmetic is checked (debug profile): underflow,
    overflow, division by zero and out-of-range indexing panic.  `usize` values
    are natural numbers; the 2^64 bound is modelled where it can be reached
    by the code's own arithmetic (`2^i`), and for file positions and sizes in `Model/Usize.lean`
    (C116: nothing changes below 2^63).  `Model/Release.lean`
    and `Model/ReleaseVerify.lean` repeat the functions whose arithmetic can overflow with wrap-around at 2^64
    (release profile); C89, C90 and C101 compare the two profiles.
  * **Files.** A file is a byte list.  `read_file` reads as many bytes as exist
    (reads that return fewer bytes are treated separately, `Model/ShortRead.lean`, C95); `write_all` at a
    position overwrites and extends.  I/O errors are not modelled.
  * **Hash functions** (blake3, SHA-256 inside rs_merkle, MD5) are arbitrary
    parameters `Bytes -> Bytes`; theorems assume at most that the output has 32
    bytes.  No collision resistance is assumed anywhere; binding theorems
    conclude "or two different strings of this list have the same hash", where the
    list is spelled out (Spec/Merkle.lean: the strings hashed for the trees and the
    proof at hand).  That *some* collision exists would be true of every hash with
    32-byte results and is never used as an alternative.
  * **Big integers.** `rug::Integer` and `num_bigint::BigInt` are `Int` with
    truncated `%` and `/`; `pow_mod`/`modpow` is the mathematical power modulo
    p; `to_digits(Lsf)` is the minimal little-endian byte list of the absolute
    value, `from_digits` its value; `Integer::from_str` is rug's byte-by-byte
    parser (sign, white space and `_` as rug 1.19 tolerates them).
  * **bincode / serde**: u64 little-endian length prefix followed by the bytes.
  * **rs_merkle 1.2**: tree building, proof extraction and verification are
    modelled from the published algorithm (odd node promoted unchanged).  Its
    tree depth is computed there with `f32` arithmetic; the model uses the exact
    logarithm.  C111 proves that any depth that is not too small gives the same
    roots, proofs and verdicts, so only rounding down is excluded.
  * **ark-relations / Groth16**: the R1CS builder interface is modelled; the
    proof system itself is not (a proof is identified with a satisfying
    assignment, `verify_proof` is an arbitrary result).
  * **Randomness** is an arbitrary stream of numbers; `genRange` maps each of
    them into the range the code asks for, and probabilities are fractions of
    all choices of in-range values.
  * **Threads**: `Arc<RwLock<..>>` sections are atomic steps; any interleaving
    of steps.  Only the lock of the unsealed blocks is ever taken for writing,
    and a thread takes no other lock while holding that one.  The other locks
    are only read (the guard on the parameters even lives through the whole
    round loop, while further read guards are taken), so the locks add no
    deadlock; a guard dropped by a panic poisons only a lock held for writing.
  * **Third-party crates are modelled from their published behaviour**, their
    source is not in `/repo`: rug, num-bigint, bincode, rs_merkle,
    ark-relations (variables, linear combinations, `enforce_constraint`,
    assignment missing in setup mode), ark-groth16 (only the two results
    `Ok(bool)` / `Err` of `verify_proof`), rand, threadpool.
* Compile status of the subject: at the pinned commit
  `proof_of_storage/src/zk_vde/sloth.rs` does not type-check (`legendre` has an
  empty `else` branch) although the module is listed in `zk_vde/mod.rs`; nothing
  of it is modelled.  `vde/numbig_vde.rs` and `circuit/sloth_circuit.rs` are not
  part of the module tree; both are modelled all the same because they make the
  same claims.

## What is modelled

| source | Lean | what |
|--------|------|------|
| `proof_of_storage/src/proof_of_storage/common.rs` | `Model/Common` | `read_file`, `to_units`, `com_units`, `modadd`, `modsub`, `vecu8_xor`, `gen_posdata`, parameters |
| `proof_of_storage/src/proof_of_storage/depend.rs` | `Model/Depend` | all long and short modes, static tables, hash-chosen lists |
| `proof_of_storage/src/vde/sloth.rs`, `rug_sloth.rs`, `compare_modpow.rs` | `Model/Sloth` | field operations, `legendre`, one and many rounds, `fast_modpow`, the shipped primes |
| `proof_of_storage/src/vde/rug_vde.rs`, `numbig_vde.rs` | `Model/Vde` | byte interface of the delay encoding |
| `proof_of_storage/src/proof_of_storage/prover.rs` | `Model/Prover` | `copy_and_pad`, `copy_and_compress`, `seal`, `unseal` |
| `proof_of_storage/src/proof_of_storage/verifier.rs` | `Model/Verifier`, `Model/Parallel` | challenge creation, preparation, batch unsealing (sequential, threaded, with verification), comparison |
| `prover.rs`, `verifier.rs` under short reads | `Model/ShortRead` | `read_file`, `copy_and_pad`, `seal`, `unseal`, `batch_verify` when `read` returns fewer bytes |
| challenge rounds under short reads | `Model/ShortRound` | `copy_and_compress`, `single_unseal_prepare`, both sides of a round, `generate_merkle_tree_from_file` when `read` returns fewer bytes |
| ranges and runs under short reads | `Model/ShortBatch` | `batch_unseal_prepare`, `batch_unseal_and_verify`, `test_unseal_single_and_verify`, `merkle_tree_proof`, `seal_and_unseal`, `test_postorage` when `read` returns fewer bytes |
| `common.rs`, `prover.rs`, `verifier.rs`, `merkle_tree.rs`, `postorage.rs` with 64-bit positions | `Model/Usize` | `read_file`, `to_units` and everything that computes a file position, with overflow, allocation and seek limits |
| `prover.rs` stopped in the middle | `Model/Interrupt` | the file left by `seal` and `unseal` when the process is killed between or inside block writes (bytes reach the file in order) |
| `postorage.rs` stopped in the middle | `Model/WorkflowStop` | the four files left by `seal_and_unseal` when the process is killed, byte by byte |
| `rug_sloth.rs`, `sloth.rs` with a limited stack | `Model/SlothStack` | `legendre` with a bound on nested calls |
| `proof_of_storage/src/proof_of_storage/merkle_tree.rs` and rs_merkle | `Model/Merkle` | tree, multi-proof, verification, both generators |
| merkle_tree.rs over other depth functions of rs_merkle | `Model/MerkleDepth` | the generators and the check with an arbitrary `tree_depth` |
| `postorage.rs`, `prover.rs` ended by a panic | `Model/PanicRun` | the files left by `copy_and_pad`, `seal`, `unseal`, `copy_and_compress`, `seal_and_unseal` when they panic |
| `proof_of_storage/src/proof_of_storage/postorage.rs` | `Model/Postorage`, `Model/Workflow` | `save_data`, `load_data`, `prepare_params`, the challenge rounds, `merkle_tree_proof`, `seal_and_unseal`, `unseal_single_and_verify`, `test_postorage` |
| `proof_of_space/src/proof_of_space/convert.rs` | `Model/Convert` | all conversions |
| `proof_of_space/src/mimc/mimc_df.rs`, `mimc_hash.rs` | `Model/Mimc` | maps, hashes, multi-input hashes |
| `proof_of_space/src/proof_of_space/prover.rs`, `verifier.rs`, `pospace.rs` | `Model/Space`, `Model/SpaceRun` | table, marking, first response, challenges, inputs and verdict of the verifier, the whole run `pospace` |
| `postorage.rs` (`test_unseal_single_and_verify`, without threads) while another thread writes its files | `Model/SingleLive` | as `Model/Live`; all files exist |
| `postorage.rs` (`test`, `test_pipeline`) one after the other on the same disk | `Model/PipelineDisk` | as `Model/Workflow`; rounds, challenges and workers are parameters |
| `postorage.rs` (`test_pipeline`) with the files left by a panic | `Model/PipelineRun` | as `Model/PipelineDisk` and `Model/PanicRun` |
| `postorage.rs` (`test_postorage`) with the files left by a panic | `Model/PostorageRun` | as `Model/Workflow` and `Model/PanicRun` |
| `verifier.rs`, `postorage.rs` (`test_pipeline`) while `seal` or `unseal` rewrites the file | `Model/Live` | the content found by each `read_file` is a parameter |
| the `#[test]` functions that assert something (all but those of `postorage.rs` and `pospace.rs`, which are above and below) | `Model/OwnTests` | random numbers are parameters; the proof system is opaque as in `Model/SpaceRun`; the tests that only print (`test_legendre`, `test_comp`, mimc/*.rs) are left out |
| `proof_of_space/prover.rs` stopped in the middle | `Model/SpaceStop` | all contents of the file during `mark_space`, one per written byte |
| `pospace.rs` on an arbitrary table file; release build | `Model/SpaceRelease` | the round from the challenges on; `create_random_proof` without its debug assertion |
| ark-relations | `Model/R1cs` | constraint-system builder, satisfaction |
| `proof_of_space/src/circuit/*.rs` | `Model/Circuits` | map, hash, power, equality, space and delay circuits, second response |
| `proof_of_storage/src/vde/prime.py`, `test_modpow.py`, `proof_of_storage/src/proof_of_storage/file_compare.py` | `Model/Python` | primality test, exponentiation with a halved floating-point exponent, file comparison |

The lines are in the comment of each definition.

## Not modelled

Timing, printing, progress bars, file-system errors, the Groth16
proof system, elliptic curves, thread-pool internals beyond task atomicity,
the commented-out crate `privacy_transaction`,
the module that does not type-check (`zk_vde/sloth.rs`), memory limits.  Reads are complete everywhere except in
`Model/ShortRead`, `Model/ShortRound` and `Model/ShortBatch`, which cover every use of `read_file` with any number
of bytes returned per read.  proof_of_space reads one byte at a time and `load_data` reads until its fields are
complete, so short reads cannot occur there.  All writes are `write_all`; one that fails in the middle leaves one
of the contents of `Model/Interrupt`, `Model/WorkflowStop` or `Model/SpaceStop` (stopped runs) and then panics.

## Layout

* `Verif/Basic.lean` panics, checked arithmetic, loops, little-endian numbers.
* `Verif/Model/*` the model, table above.
* `Verif/Spec/*` small specifications independent of the model: `Storage`
  (honest files, zero inputs), `Select` (hash-chosen lists as a filter over
  positions), `Sealing` (the sealed file as a recursive equation), `Unsealing`
  (the unsealed file, of any content), `Sloth` (the
  delay encoding as signed square roots), `Toy` (small parameters used by the
  examples).
* `Verif/Proofs/*` helper lemmas.
* `Verif/Properties/*` the property theorems with non-vacuity examples.
* `Verif/Cases/*` one concrete sealed file (`World`) and the property theorems
  applied to it, so that all their hypotheses are seen to hold together.
* `seeded/LOG.jsonl` wrong programs the theorems were tried against.

Properties the code does not have are recorded by a refutation (a concrete run
that violates the expectation) together with the exact behaviour.

## Plan per property

| id | model | proof |
|----|-------|-------|
| C01 | `copy_and_pad`, `seal`, `unseal`, `copy_and_compress` on byte-list files | reverse-fold lemma at unit, round and block level; invariants: unit length, unit value < p, ids = hash of blocks; ghost log of encoder inputs for the non-zero condition |
| C02 | same, `gen_posdata` | totality by induction on blocks, rounds, units; range lemmas for dependency indices |
| C03 | `single_unseal_prepare`, `batch_unseal_prepare`, `batch_unseal` | same unit-level inversion, blocks taken from final file (dependencies are earlier blocks, hence final) |
| C04 | `test_pipeline` challenge loop | C03 + C27 + C31 |
| C05 | small-step interleaving of `batch_unseal_parallel` tasks | per-task state invariant, induction over schedules |
| C06 | same with failing tasks | same invariant |
| C07 | `seal` loop prefix | prefix of the block fold, C01 lemmas |
| C08 | `seal`, `unseal` writes | invariant on file bytes |
| C09 | `sloth`, `sloth_inv` both versions | Legendre symbol theory from Mathlib, parity argument |
| C10 | same | direct computation at 0 |
| C11 | `legendre` recursion | quadratic reciprocity for Jacobi symbols, strong induction |
| C12 | `vde`, `vde_inv` | C09 + digits lemmas |
| C13 | `modadd`, `modsub` | integer arithmetic + digits lemmas |
| C14 | `to_units`, `com_units` | induction on number of units |
| C15 | `copy_and_pad`, `copy_and_compress` | induction on blocks |
| C16 | `read_file` | list lemmas |
| C17 | `save_data`, `load_data` | encoder/decoder round trip with arbitrary suffix |
| C18, C19, C52 | `depend.rs` | loop invariants |
| C20, C21, C22 | `depend.rs` | panic analysis for all parameters |
| C23 | random modes | range of the folded index |
| C24 | `create_challenges` on a stream | invariant; divergence by cardinality; termination for streams hitting enough values |
| C25, C26 | `batch_unseal_prepare` index loop | closed form of the loop |
| C27 | `batch_verify` | loop invariant, iff |
| C28 | three copies of the dependency gathering | equality lemmas used by C01/C03/C05 |
| C29 | `unseal` | concrete counterexample by kernel evaluation of a lemma chain; positive part from C01 machinery |
| C30 | `generate_merkle_tree_from_file` | congruence |
| C31, C32 | layered tree, proof, partial tree | induction on layers |
| C33, C34 | `gen_posdata`, `prepare_params` | case analysis |
| C35 | `vecu8_xor` | list lemmas |
| C36, C37 | `convert.rs` | induction |
| C38, C39, C40 | `prepare_space`, `mark_space`, `response_1` | refinement of byte file to bit list to slot table; concrete counterexample for n = 2 |
| C41 | `create_challenges` | induction |
| C42, C43 | `mimc_df`, `mimc_hash` | Feistel inversion; power maps coprime to group order, primality of the field order by Lucas |
| C44, C45, C46, C47, C49, C50, C56 | R1CS builder, circuits | satisfaction lemmas per loop iteration; extension of assignments |
| C48 | `verify` | case analysis over results |
| C51 | `fast_modpow` | loop invariant |
| C53 | challenge round with invented dependencies | unit inversion lemma with arbitrary dependencies |
| C54 | constants | Pocklington/Morrison certificates (Proofs/PrimeCert, Primes) and elliptic curve certificates for the 1024- and 2048-bit moduli (Proofs/EllipticCert, Prime1024, Prime2048), all checked by the kernel |
| C55 | `rabin_miller`, `is_prime` | Fermat + square roots of one |
| C57 | `unseal` | totality by induction on blocks, rounds, units |
| C58 | `batch_unseal_and_verify` | C03 unit inversion, comparison loop iff |
| C59 | challenge round | the verdict depends on submitted data only; a run without the sealed file |
| C60 | equality circuit | satisfaction lemmas |
| C61 | file comparison script | fold invariant |
| C62, C63 | hash-chosen lists | equality with a filtered position list, counting |
| C64 | `copy_and_pad`, `seal` | every written unit equals the specification's recursive equation |
| C65 | `sloth`, `sloth_inv` | characterisation of the signed square root, iterated |
| C66 | `seal` | dependence of block i on earlier bytes only |
| C67 | threaded unsealing | counting invariant on busy tasks |
| C68, C69, C70 | challenge rounds | inversion of accepted runs |
| C71, C72, C73 | workflow functions | composition of C01, C03, C17, C27, C59 |
| C74 | verdict of a round | inversion and completeness of every check |
| C75 | Merkle root | layered tree equals recursive tree hash |
| C76 | `mimc_hash.rs` | closed forms of the loops |
| C77 | `pospace` | C39, C41, C45, C48, C49 combined; counting of occupied challenges |
| C78 | all modes in `seal` | C64 for every mode; inversion of the first block for the converse, C22 above 65536 blocks |
| C79 | `unseal` on any file | every written unit equals the description; blocks above k never influence block k |
| C80 | `unseal` | congruence of the description of C79, combined with C01 |
| C81 | `batch_unseal`, `batch_unseal_parallel` | the loops compute the description of C79; C74 |
| C82 | `seal`, `unseal` | unit by unit inverse, the mask does not use the unit itself |
| C83 | `batch_unseal`, `batch_verify` | collisions of the decoding step; C81, C82 |
| C84 | `create_random_file` | pointwise equality |
| C85 | `seal` | the ghost list of encoder inputs is carried through the exactness invariant of C64 |
| C86 | `copy_and_pad`, `seal`, `unseal` | no reduction happens in the first round; C85 |
| C87 | `unseal`, the three decoding loops of the verifier | C79; congruence of the loops; invariant of the thread pool |
| C88 | `seal` with one round | first unit of a block as a function of its mask; induction over the chain of identifiers |
| C89 | static dependency lists with wrap-around arithmetic; debug results preserved | Model/Release, Properties/Release |
| C90 | sealing, retrieval and random access in a release build; exact condition for all modes | Properties/Release |
| C91 | `proverRespond`, `verifierCheck` on any file against `unsealFile` | C74, C79, C81 combined; counting of subsets; Properties/Detection |
| C92 | `sealFile`, `unsealFile` when a zero is encoded | a sealed block is unsealed with the same dependencies and chaining value, zero or not; one round: the unit whose zero was met last is decoded wrongly and not touched again; counting by C85, rounds by C91; Properties/Loss |
| C93 | `batchUnsealParallel`, `batchVerify` on an answer whose workers all panic | exact compared block from the schedule lemma of C05/C06; Properties/Crash |
| C94 | `batchBlock`, `batchUnseal`, `batchUnsealParallel`, `verifierCheck` on answers of any shape | loop returns iff every step does; first step (last unit) and last step (unit 0) give the necessary conditions; Properties/AnyAnswer, Properties/AnyAnswerStatic (tables) |
| C95 | `readFileShort`, `copyAndPadShort`, `sealFileShort`, `unsealFileShort`, `batchVerifyShort` | a short read is a read of a truncated file; loops as in C64/C79 with cut blocks; Proofs/ShortRead, Properties/ShortRead |
| C96 | `unsealPart`, `sealStopped`, `unsealStopped`, then `unsealFrom`, `unsealFile`, `sealFile` on what is left | part of the unsealing loop block by block as in C79; a block only depends on blocks up to itself; Proofs/Interrupt, Properties/Interrupt |
| C97 | `prepareParams`, `sealFile`, `storeAndRetrieve` for any unit size | primality of the three moduli (C54) gives a `Config`; sealing sees the first unit only modulo the modulus; Properties/UnitSize; units shorter than the modulus in Properties/ShortUnits (overrun of block 0, count of fitting encodings) |
| C98 | `pospaceRun` as a function of the drawn bits | C77; bits and challenges in bijection (C41); binomial count; Properties/SpaceCount |
| C99 | `fastModPow` of test_modpow.py with IEEE rounding of `t / 2` | the first halving rounds, later ones are exact; kernel of a power map in a cyclic group; Properties/ModpowPy |
| C100 | `copyAndPad`, `sealFile`, `unsealFile`, `copyAndCompress` for any `data_l` and file length | seal depends on `data_l` only through the number of whole blocks; C15, C01; Properties/AnyLength |
| C101 | `batchUnsealPrepareR`, `batchUnsealAndVerifyR`, `batchUnsealParallelR` (Model/ReleaseVerify) | as C05, C25, C58 with the release tables of C90; Properties/StaticVerify, which also holds `C25_prepare_modes` and `C58_honest` |
| C102 | `response1`, `response2`, `pospaceRun` with arbitrary answers and tables | value-tracking rules for the recorded assignment (`Rec`, Proofs/Recorded): each step adds constraints that hold exactly if a stated condition holds; Properties/SpaceAnswers |
| C103 | `spaceRound`, `spaceRoundR`, `pospaceRunR` (Model/SpaceRelease): the table file as one number, cells and flags as its bits | bit-level reading of the file, then C102 for the debug build and C48/C49 for both; Properties/SpaceTable |
| C104 | the same rounds over all strings of challenge bits | recursion on the first challenge, closed form of the recursion; binomial sums as in C98; Properties/SpaceTableCount |
| C105 | `createChallenges` on a string of draws, `challengeRound`, `runRounds` | the outcome is equivariant under renaming the values, so all sets of one size have equally many strings; with C91 the share of accepted rounds; Properties/ChallengeCount |
| C106 | size of the prover's answer, part by part and in total, for any file | `prepare_any` for the blocks, induction over tree layers for the proof; Properties/AnswerSize |
| C107 | the error of the primality script over all choices of its five bases | in (Z/n)* the bases passing lie in a set no larger than a subgroup of index at least 4 (or they meet a proper divisor of the group order for prime powers), five independent draws multiply; Proofs/MillerRabin.lean, Properties/PrimeTest.lean |
| C108 | the four files after a stop of `seal_and_unseal` at any byte: what is untouched, running again, the public data, what can still be unsealed | cases over the stop points; torn records by `readField` on prefixes; C87 and C96 for the sealed file; Model/WorkflowStop, Properties/WorkflowStop |
| C109 | nested calls of `legendre`: upper bound by the bits of the argument, and arguments that need many | two calls halve the argument; a chain of odd numbers with quotient two; Model/SlothStack, Properties/SlothStack |
| C110 | how many strings of random numbers make `get_prime` return a given number | recursion over the iterations (first hit), C107 for one step, each base choice equally often; Properties/PrimeSearch |
| C111 | the Merkle functions with any depth function of rs_merkle (Model/MerkleDepth); same roots, proofs and verdicts unless rounded down | the top layer is repeated, index lists of the extra layers are empty; Properties/MerkleDepth |
| C112 | `load_data` on any file content; the strings `Integer::from_str` accepts | the parser as a fold over bytes against a grammar; Properties/PublicData |
| C113 | challenge rounds, compressing and Merkle trees of files under short reads (Model/ShortRound) | C95 for the prover's side, a file made of what the verifier sees for the other, C91's argument; Properties/ShortRound |
| C114 | runs that end in a panic, with the files they leave (Model/PanicRun) | loops that keep the state at the panic against `forUp`; C78's conditions read off the first block treated; `sealLoop_exact_upTo` for the blocks sealed before the panic; Properties/PanicRun |
| C115 | ranges, the check of the first ten blocks, `merkle_tree_proof` and whole runs under short reads (Model/ShortBatch); `batch_unseal_and_verify` on any answer (`C58_exact`) | C113's decoding of what was read; files made of what the reads show; Properties/ShortBatch |
| C116 | `Model/Usize`: the same functions with checked products, sums, allocations and seeks | each read is the unlimited one below 2^63 and a panic above; dependencies and rows of the static tables stay below the block index; `Properties/Usize` |
| C117 | blocks of more than 65536 units with at most five hash-chosen short dependencies: `seal`, `unseal`, `batch_unseal`, `seal_and_unseal` (no new model; `EnoughDrawn` and the states of Spec/Sealing, Spec/Unsealing) | loops that succeed exactly under a condition (`forUp_decide`), applied to units, rounds and blocks; Proofs/SealDecide, Properties/LargeBlocks |
| C118 | `mark_space` on any file, with all contents on the way (Model/SpaceStop); the table as a function of the inputs entered so far (Spec/SpaceTable) | the bits of the file in the middle of the writing loop (`MarkInv.mid`); set of contents characterised in both directions; Proofs/SpaceStop, Properties/SpaceStop |
| C119 | `single_unseal_prepare`, `batch_unseal_prepare` and the prover's side of a round while `seal` or `unseal` is running (Model/Live); contents on the way from Model/Interrupt | dependencies point backwards, so only the part of the file in front of the block matters; C96 for the contents, C03 and C04 for the result; Properties/Live |
| C120 | the project's own tests (Model/OwnTests) for every draw | C10 with the shipped primes (C54), C12, C24, C30, C31; circuits: C44, C47, C50, C60 with C49, and a transfer of synthesis from proving to key generation (`ToSetup`); Properties/OwnTests |
| C121 | nothing new: `seal`, `copy_and_pad`, `generate_merkle_tree_from_data` | C64 and C82 make sealing injective block by block, C66 and C85 give the first difference, `topValue_inj` the root; the twin of a file with an encoded zero is written down; Properties/Binding |
| C122 | nothing new: `seal` and `unseal` called several times (`sealLayers`, `unsealLayers`) | what `seal` leaves is a file of residues (`seal_trace`), then `unsealFrom_sealPrefix` for each layer; induction on the list of layers; Properties/Layers |
| C123 | nothing new: `long_mode_random`, `short_depend_random` | C62 turns membership into a condition on single bytes or pairs; product counting, and exchanging two remainders for the even case; Properties/Spread |
| C124 | nothing new: `seal`, `copy_and_pad` | C121 for the first difference; behind it the first unit of a block is the encoding of plaintext plus mask (C86), injective by C82, and the mask ends in the digest of the previous sealed block; Properties/Update |
| C125 | nothing new: `seal`, `unseal` with different `seal_rounds` | C64 and C79 describe both as iterated rounds; C82 applied to the rounds that are undone; Properties/Rounds |
| C126 | nothing new: `seal` with hash-chosen dependencies, for all hash functions at once; Spec/Oracle lists the hashed strings and defines the tables | causality by induction over the listed strings; replacing the digest of a fresh mask is an injection from (losing table, digest) into all tables; union bound over the places; C85 and C86 for the retrieval; Properties/Oracle |
| C127 | nothing new: `seal` with `cnt_s = 0`, and with static short dependencies | C64; without short dependencies a round acts on each unit separately; with static ones the mask input of unit j begins (behind the long part) with the sealed unit j-1; Properties/Columns |
| C128 | nothing new: the rounds of `seal` on one block, and the verifier | the ghost log counts encodings; C53's construction with empty dependency data, C05 for the parallel verifier, C85 for the cost of sealing; Properties/Cost |
| C129 | `test_pipeline` and `test` as changes of the files they share (Model/PipelineDisk) | the old public data matters only through what `load_data` reads (C17); C01 for the files left; C72 and C91 for the check of any file; Properties/TestRuns |
| C130 | `test_unseal_single_and_verify` while the files it reads are rewritten (Model/SingleLive) | C119 for the prepared blocks, C81 for what is decoded, C27; the initial vector enters only at block 0; Properties/SingleLive |
| C131 | `test_pipeline` with the files it leaves however it ends (Model/PipelineRun) | stage by stage against Model/PipelineDisk; C114's loops that survive a panic; C17 and C01 for what can be recovered; Properties/PipelineRun |
| C132 | `test_postorage` with the files it leaves however it ends (Model/PostorageRun) | stage by stage against Model/Workflow, C114 for sealing, C70 for the stale unsealed file; Properties/PostorageRun |
| C133 | the numbers of round constants and bits accepted by the MiMC functions and the circuits | the assertions at the head of each function; a loop that reads constant `i` in round `i` except the first; Properties/Constants |
| C134 | `multi_mimc5_hash` and `multi_mimc7_hash` as chains | the loop over a concatenation; C76 for the value of one step; Properties/HashChain |
