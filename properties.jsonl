{"id": "C01", "title": "Storing then retrieving returns the original file", "statement": "Padding a file with copy_and_pad, sealing the copy with seal, undoing it with unseal (same public key, iv and parameters, hash-chosen long dependencies) and stripping it with copy_and_compress gives back the original file byte for byte, provided no unit handed to the delay encoder during sealing was exactly the residue zero.", "quantifier": "every file of the configured length, every iv, every prime modulus congruent to 3 mod 4 that fits the unit sizes, every number of seal and delay rounds, every dependency count and every hash function with 32-byte output", "why_tests_cant": "the set of files, ivs and parameter tuples is unbounded; a run on one random file says nothing about the others, and the one shipped test fixes all parameters", "anchors": ["proof_of_storage/src/proof_of_storage/prover.rs: copy_and_pad, seal, unseal, copy_and_compress", "proof_of_storage/src/proof_of_storage/postorage.rs: seal_and_unseal"]}
{"id": "C02", "title": "Sealing never crashes on a shipped configuration", "statement": "With any parameter set produced by gen_posdata and a modulus of the matching size, seal terminates without a panic on every file of the configured length and returns one 32-byte identifier per block.", "quantifier": "every gen_posdata argument, every file content, every iv, every hash function with 32-byte output", "why_tests_cant": "dependency positions are chosen by hashes of the data, so an out-of-range index or underflow could be hit only by some files", "anchors": ["proof_of_storage/src/proof_of_storage/prover.rs: seal", "proof_of_storage/src/proof_of_storage/common.rs: gen_posdata", "proof_of_storage/src/proof_of_storage/depend.rs: long_mode_random, short_depend_random"]}
{"id": "C03", "title": "Random access unsealing recovers any selection of blocks", "statement": "After sealing, preparing any list of block positions with single_unseal_prepare (or a range with batch_unseal_prepare) and running batch_unseal on the result yields exactly the padded plaintext of those blocks, for every long and short dependency mode, provided there is at least one sealing round, the selection is not empty and no encoder input was zero.", "quantifier": "every sealed file, every selection of block positions (any order, repetitions allowed), every consistent parameter set, every dependency mode in which sealing succeeds", "why_tests_cant": "there are exponentially many selections and the dependency graph differs per file", "anchors": ["proof_of_storage/src/proof_of_storage/verifier.rs: single_unseal_prepare, batch_unseal_prepare, batch_unseal"]}
{"id": "C04", "title": "An honest prover always passes a challenge round", "statement": "For an honestly sealed file, every round of the challenge protocol (challenge set, Merkle proof of the challenged block ids, prepared blocks, unseal, compare with the original) ends in acceptance, provided at least one block is challenged, there is at least one sealing round and no encoder input was zero.", "quantifier": "every file of the configured length, every non-empty challenge set, every random string, every consistent parameter set with at least one block and one sealing round, every worker schedule that completes", "why_tests_cant": "completeness is a statement about all challenges and all files at once", "anchors": ["proof_of_storage/src/proof_of_storage/postorage.rs: test_pipeline", "proof_of_storage/src/proof_of_storage/verifier.rs: batch_unseal, batch_verify", "proof_of_storage/src/proof_of_storage/merkle_tree.rs"]}
{"id": "C05", "title": "Parallel unsealing does not depend on thread scheduling", "statement": "batch_unseal_parallel returns the same blocks as the sequential algorithm run with the same short dependency table, for every interleaving of the worker threads' lock-protected reads and writes, whenever the sequential run does not panic.", "quantifier": "every interleaving of the worker steps, every number of challenged blocks, every input", "why_tests_cant": "schedules cannot be enumerated by tests; a racy result may show up only under rare interleavings", "anchors": ["proof_of_storage/src/proof_of_storage/verifier.rs: batch_unseal_parallel, batch_unseal"]}
{"id": "C06", "title": "A worker panic in parallel unsealing is silent", "statement": "If the work on one block panics, batch_unseal_parallel still returns normally and that block is returned exactly as it was submitted (still sealed), while all other blocks are processed normally.", "quantifier": "every schedule, every set of panicking tasks", "why_tests_cant": "requires reasoning about all schedules and all sets of failing tasks", "anchors": ["proof_of_storage/src/proof_of_storage/verifier.rs: batch_unseal_parallel"]}
{"id": "C07", "title": "Sealing can be undone from any crash point between blocks", "statement": "If sealing stops after k blocks have been written, the first k blocks of the file already have their final sealed content, all later bytes are untouched, and (hash-chosen long dependencies, no zero encoder input so far) running the unsealing loop over exactly those k blocks restores the padded file.", "quantifier": "every crash point k between blocks, every file of residues, every consistent parameter tuple", "why_tests_cant": "each crash point is a different intermediate file; a test only sees the final one", "anchors": ["proof_of_storage/src/proof_of_storage/prover.rs: seal, unseal"]}
{"id": "C08", "title": "Sealing and unsealing stay inside their file region", "statement": "seal and unseal keep the file length and never change any byte beyond the configured number of blocks; sealing block k never changes a block other than k.", "quantifier": "every file (including files longer than the configured region), every consistent parameter tuple and every mode", "why_tests_cant": "a stray write could depend on data-dependent lengths", "anchors": ["proof_of_storage/src/proof_of_storage/prover.rs: seal, unseal"]}
{"id": "C09", "title": "Delay encoding is a bijection on non-zero residues", "statement": "For a prime modulus congruent to 3 mod 4, t rounds of sloth followed by t rounds of sloth_inv return the input, and the other way round, for every residue from 1 to p-1; both directions stay inside 1..p-1.", "quantifier": "every prime p = 3 mod 4, every t, every residue 1..p-1", "why_tests_cant": "512- to 2048-bit domains cannot be enumerated", "anchors": ["proof_of_storage/src/vde/rug_sloth.rs: sloth, sloth_inv", "proof_of_storage/src/vde/sloth.rs: sloth, sloth_inv"]}
{"id": "C10", "title": "Zero is lost by the delay encoding", "statement": "Over the full residue range the encoding is not invertible: for every such modulus above 3 the residue 0 is not returned by the round trip with one or more rounds (one round gives 4, more rounds give p-4), and a unit whose masked value is 0 is therefore unsealed to something else.", "quantifier": "every prime p = 3 mod 4 above 3, every positive t", "why_tests_cant": "the failing input has probability about 2^-512, so no random test will ever meet it", "anchors": ["proof_of_storage/src/vde/rug_sloth.rs: single_sloth, single_sloth_inv", "proof_of_storage/src/vde/rug_vde.rs: vde, vde_inv"]}
{"id": "C11", "title": "The residue test equals the Jacobi symbol", "statement": "legendre returns the Jacobi symbol of x over p for every odd p above one and every non-negative x, terminates, and for prime p returns 1 exactly on non-zero squares.", "quantifier": "every odd p above one and every non-negative x", "why_tests_cant": "infinite domain; the recursion uses reciprocity and sign bookkeeping that only a proof covers", "anchors": ["proof_of_storage/src/vde/rug_sloth.rs: legendre", "proof_of_storage/src/vde/sloth.rs: legendre"]}
{"id": "C12", "title": "Byte-level delay encoding round trip", "statement": "vde followed by vde_inv on byte strings returns the same l-byte string whenever the little-endian value is between 1 and p-1 and p fits in l bytes; the encoded string has exactly l bytes.", "quantifier": "every byte string, every unit length, every t, every modulus as above, every mode string", "why_tests_cant": "leading-zero digits and padding only appear for rare values", "anchors": ["proof_of_storage/src/vde/rug_vde.rs: vde, vde_inv", "proof_of_storage/src/vde/numbig_vde.rs: vde, vde_inv"]}
{"id": "C13", "title": "Masking and unmasking are inverse", "statement": "modsub undoes modadd and modadd undoes modsub for every unit whose value is below the modulus and every mask whose value is at most the modulus; both keep the unit length when the modulus fits into the unit. On every input whatsoever: both panic for modulus zero, panic when the remainder needs more bytes than the unit has, and otherwise return the remainder in as many bytes as the unit; in modsub a mask exceeding unit plus modulus makes the difference negative and its sign is lost, so for larger masks a masked unit comes back exactly when the mask is at most the masked unit plus the modulus or twice the unit is divisible by the modulus.", "quantifier": "every unit, mask and modulus; the size conditions for the round trip", "why_tests_cant": "carry and padding behaviour depends on rare values", "anchors": ["proof_of_storage/src/proof_of_storage/common.rs: modadd, modsub"]}
{"id": "C14", "title": "Splitting into units and joining are inverse", "statement": "to_units succeeds exactly when the unit size is positive and divides the length, and then com_units returns the original bytes; conversely splitting a concatenation of equal-size units returns the units.", "quantifier": "every byte string and unit size", "why_tests_cant": "unbounded lengths; panics for every non-dividing length", "anchors": ["proof_of_storage/src/proof_of_storage/common.rs: to_units, com_units"]}
{"id": "C15", "title": "Padding and compressing are inverse", "statement": "copy_and_pad turns each unit_l-byte unit into itself followed by one zero byte, for any block layout that matches, and copy_and_compress recovers the original file; the padded file has length data_l/unit_l*unit_pl.", "quantifier": "every file and every matching block/unit layout", "why_tests_cant": "unbounded file sizes and layouts", "anchors": ["proof_of_storage/src/proof_of_storage/prover.rs: copy_and_pad, copy_and_compress"]}
{"id": "C16", "title": "Reading past the end yields zeros", "statement": "read_file always returns exactly the requested number of bytes: the file content where it exists and zero bytes beyond the end of the file; it never fails on short files.", "quantifier": "every file, offset and length", "why_tests_cant": "all offsets and lengths, including those straddling the end", "anchors": ["proof_of_storage/src/proof_of_storage/common.rs: read_file"]}
{"id": "C17", "title": "Saved public data always loads back", "statement": "load_data after save_data returns the saved public data, whatever bytes the file contained before (including longer old content, since the file is not truncated).", "quantifier": "every key and every iv whose lengths fit into 64 bits, every previous file content", "why_tests_cant": "the previous content is arbitrary, so the interesting case is unbounded", "anchors": ["proof_of_storage/src/proof_of_storage/postorage.rs: save_data, load_data, PubData"]}
{"id": "C18", "title": "Long dependencies always point backwards", "statement": "Every long dependency list produced for block i by any mode contains only indices below i, strictly increasing where hash-chosen, with at most the requested number of entries (mode 3 ignores the request and uses a tenth of the index); block 0 has none. The hash-chosen list exists exactly if there are at most 65536 blocks, at most five are requested or the block is the first.", "quantifier": "every mode, block count, previous id, index and requested count for which the function returns", "why_tests_cant": "hash-chosen indices differ per input", "anchors": ["proof_of_storage/src/proof_of_storage/depend.rs: long_mode_1, long_mode_2, long_mode_3, long_mode_random, long_depend", "proof_of_storage/src/proof_of_storage/prover.rs: create_long_depend"]}
{"id": "C19", "title": "Short dependencies never include the unit itself", "statement": "Every short dependency list for unit i contains only in-range indices different from i, without duplicates, at most the requested count; the hash-chosen lists are strictly increasing.", "quantifier": "every mode, unit count, seed bytes, index and requested count for which the function returns", "why_tests_cant": "hash-chosen indices differ per input", "anchors": ["proof_of_storage/src/proof_of_storage/depend.rs: short_mode_1, short_mode_2, short_depend_random, short_depend"]}
{"id": "C20", "title": "Long mode 3 cannot handle more than 650 blocks", "statement": "In a debug build create_long_depend with mode 3 succeeds for every block count up to 650 and panics with arithmetic overflow for every larger one.", "quantifier": "every block count", "why_tests_cant": "threshold statement over all block counts", "anchors": ["proof_of_storage/src/proof_of_storage/depend.rs: long_mode_3", "proof_of_storage/src/proof_of_storage/prover.rs: create_long_depend"]}
{"id": "C21", "title": "Short mode 2 never works", "statement": "In a debug build create_short_depend with mode 2 panics for every positive number of units and positive requested count.", "quantifier": "every positive unit count and dependency count", "why_tests_cant": "universal failure claim over all parameters", "anchors": ["proof_of_storage/src/proof_of_storage/depend.rs: short_mode_2", "proof_of_storage/src/proof_of_storage/prover.rs: create_short_depend"]}
{"id": "C22", "title": "Hash-chosen dependencies among more than 65536 positions", "statement": "With more than 65536 positions the hash-chosen dependency functions panic for every hash value as soon as at least six dependencies are requested, so sealing more than 65536 blocks with the default count panics, and so does sealing blocks of more than 65536 units with at least six short dependencies. With at most five requested the long list always exists, and the short list exists exactly if enough of the five numbers read differ from the unit itself; units outside 768..1533 are never hit.", "quantifier": "every position count above 65536, every hash output, every index and requested count", "why_tests_cant": "would need multi-gigabyte inputs and all hash outputs", "anchors": ["proof_of_storage/src/proof_of_storage/depend.rs: long_mode_random, short_depend_random"]}
{"id": "C23", "title": "Hash-chosen dependencies reach only a fixed window", "statement": "With 257 to 65536 positions every hash-chosen dependency is the residue of a number between 256 and 766, so for more than 766 units no unit outside 256..766 is ever a short dependency, and for block index above 766 no block outside 256..766 is ever a long dependency. Above 65536 positions the numbers lie between 768 and 1533.", "quantifier": "every hash function and seed, every position count above 256, every call that returns", "why_tests_cant": "a statement about all hash outputs", "anchors": ["proof_of_storage/src/proof_of_storage/depend.rs: long_mode_random, short_depend_random"]}
{"id": "C24", "title": "Challenge sets are sorted, distinct and in range", "statement": "create_challenges returns exactly the requested number of strictly increasing indices, all inside the requested range, whenever it terminates; it cannot terminate when more indices are requested than the range holds; given a fair random stream it terminates.", "quantifier": "every random stream, range and count", "why_tests_cant": "depends on the whole random stream; non-termination cannot be tested", "anchors": ["proof_of_storage/src/proof_of_storage/verifier.rs: create_challenges"]}
{"id": "C25", "title": "A requested byte range is covered by the prepared blocks", "statement": "batch_unseal_prepare selects every block that overlaps the half-open byte range and no other, provided the range begins on a block boundary. The call itself, in every dependency mode that works, returns these blocks in ascending order with the sealed units, the identifier of each predecessor and the blocks each depends on.", "quantifier": "every block size and every begin < end with begin a multiple of the block size", "why_tests_cant": "all ranges and block sizes", "anchors": ["proof_of_storage/src/proof_of_storage/verifier.rs: batch_unseal_prepare"]}
{"id": "C26", "title": "Unaligned ranges may lose their last block", "statement": "For a begin offset that is not a block boundary batch_unseal_prepare returns exactly the first ceil((end-begin)/block) blocks from the block of begin, so it misses the last overlapping block exactly when the offset of end inside its block (taken in 1..block) is at most the offset of begin.", "quantifier": "every block size and range", "why_tests_cant": "an exact characterisation over all ranges", "anchors": ["proof_of_storage/src/proof_of_storage/verifier.rs: batch_unseal_prepare"]}
{"id": "C27", "title": "The verifier accepts exactly matching plaintext", "statement": "batch_verify returns without a panic exactly when, for every challenged position, every unit's first unit_l bytes equal the original file's corresponding bytes (zero past its end).", "quantifier": "every position, every response, every original file, every unit length above zero and every block length that is a multiple of it", "why_tests_cant": "iff over all responses", "anchors": ["proof_of_storage/src/proof_of_storage/verifier.rs: batch_verify"]}
{"id": "C28", "title": "Unsealing refers to the same dependency data as sealing", "statement": "For every unit of every round, unsealing (whole file, batch, parallel and combined) gathers from the block as sealing left it exactly the mask sealing gathered. The dependency blocks and the previous id that a prover prepares from the finished file are those sealing used; whole-file unsealing reads the same ones when the long dependencies are hash-chosen (for static ones it reads other blocks, see the properties on whole-file unsealing).", "quantifier": "every unit, round, block and file, every consistent parameter set in which sealing succeeds", "why_tests_cant": "states are intermediate and never visible to tests", "anchors": ["proof_of_storage/src/proof_of_storage/prover.rs: seal, unseal", "proof_of_storage/src/proof_of_storage/verifier.rs: batch_unseal, batch_unseal_parallel"]}
{"id": "C29", "title": "Whole-file unsealing is wrong for static long dependencies", "statement": "unseal is not an inverse of seal when a static long dependency mode is used: it reads block i instead of the i-th dependency. It is an inverse whenever every static list is the prefix 0,1,2,... of its length.", "quantifier": "every file of residues and consistent parameter tuple in a static mode for the positive part; a concrete sealed file for the negative part", "why_tests_cant": "the positive part is universal; the failing configuration is never exercised by the shipped test", "anchors": ["proof_of_storage/src/proof_of_storage/prover.rs: unseal"]}
{"id": "C30", "title": "The file Merkle root ignores the first leaf", "statement": "The root of generate_merkle_tree_from_file depends exactly on the bytes from leaf_len on: two files that agree from leaf_len on have the same root whatever their first leaf is, and the last leaf hash is that of whatever follows the configured length (zeros at end of file). Conversely files with the same root agree there, unless two different strings among those hashed for the two trees (named: leaf contents and pairs of nodes) have the same hash.", "quantifier": "every hash function, every pair of files and every leaf length", "why_tests_cant": "universal over files and hash functions", "anchors": ["proof_of_storage/src/proof_of_storage/merkle_tree.rs: generate_merkle_tree_from_file", "proof_of_storage/src/proof_of_storage/postorage.rs: test_pipeline"]}
{"id": "C31", "title": "Merkle proofs of challenged leaves verify", "statement": "For every non-empty list of leaves and every non-empty, sorted, duplicate-free list of positions in range, the proof from generate_merkle_proof is accepted by verify_merkle_proof against the root.", "quantifier": "every leaf list, every index set, every hash function", "why_tests_cant": "exponentially many index sets and tree shapes", "anchors": ["proof_of_storage/src/proof_of_storage/merkle_tree.rs: generate_merkle_proof, verify_merkle_proof"]}
{"id": "C32", "title": "An accepted Merkle proof binds the leaves", "statement": "If verify_merkle_proof accepts leaves at given positions against the root of a tree with the same number of leaves, then those leaves are the tree's leaves, unless one of the (finitely many, named) strings hashed while checking the proof and a different one hashed while building the tree have the same hash.", "quantifier": "every leaf list, proof, index set and hash function", "why_tests_cant": "soundness against all adversarial proofs", "anchors": ["proof_of_storage/src/proof_of_storage/merkle_tree.rs: verify_merkle_proof"]}
{"id": "C33", "title": "Shipped parameter sets are consistent", "statement": "Every parameter set from gen_posdata satisfies the divisibility and size relations seal relies on (positive sizes, unit lengths divide block lengths, equal unit counts before and after padding, block length divides data length, padded unit one byte longer), with 256 blocks.", "quantifier": "every argument of gen_posdata", "why_tests_cant": "the argument is an arbitrary number; the relations must hold in every branch", "anchors": ["proof_of_storage/src/proof_of_storage/common.rs: gen_posdata"]}
{"id": "C34", "title": "The public modulus fits the unit size", "statement": "prepare_params returns a modulus that fits into unit_pl bytes and is larger than any unit_l-byte unit exactly for unit_pl 64, 128 and 256 bytes (unit_l one less); for every other unit_pl the fallback 1024-bit modulus does not, so sealing either changes unit lengths or loses data.", "quantifier": "every unit length", "why_tests_cant": "all unit lengths", "anchors": ["proof_of_storage/src/proof_of_storage/postorage.rs: prepare_params", "proof_of_storage/src/vde/rug_sloth.rs: constants"]}
{"id": "C35", "title": "XOR of byte strings", "statement": "vecu8_xor keeps the longer length, is commutative, and applying it twice with the same mask of no greater length gives back the data.", "quantifier": "every pair of byte strings", "why_tests_cant": "unbounded lengths", "anchors": ["proof_of_storage/src/proof_of_storage/common.rs: vecu8_xor"]}
{"id": "C36", "title": "Bit and byte conversions round trip", "statement": "bits_to_bytes after bytes_to_bits is the identity; bytes_to_bits after bits_to_bytes pads with false up to a multiple of eight; lengths are exact.", "quantifier": "every byte and bit list", "why_tests_cant": "unbounded lengths", "anchors": ["proof_of_space/src/proof_of_space/convert.rs: bytes_to_bits, bits_to_bytes"]}
{"id": "C37", "title": "Bit and integer conversions round trip", "statement": "bits_to_usize after usize_to_bits with n bits returns x modulo 2^n (so x when it fits) for 1 <= n < 64, usize_to_bits returns exactly n bits, and bits_to_usize panics exactly for lists of 64 or more bits.", "quantifier": "every integer and bit length", "why_tests_cant": "unbounded lengths and all 2^64 integers", "anchors": ["proof_of_space/src/proof_of_space/convert.rs: bits_to_usize, usize_to_bits"]}
{"id": "C38", "title": "Marking space builds a correct lookup table", "statement": "After mark_space with n >= 3 the slot of every y holds flag 1 and the last x that maps to y if any x does, and is all zero otherwise; the file keeps its length.", "quantifier": "every key and message, every list of ten constants, every n from 3 to 63", "why_tests_cant": "2^n inputs with data-dependent slot collisions, for all n", "anchors": ["proof_of_space/src/proof_of_space/prover.rs: prepare_space, mark_space"]}
{"id": "C39", "title": "A response answers its challenges correctly", "statement": "response_1 returns, in challenge order and at most the requested number, exactly the marked challenges together with a stored preimage, which really maps to the challenge.", "quantifier": "every table built by mark_space with n from 3 to 63, every list of challenges in range, every positive requested count", "why_tests_cant": "all tables and challenge lists", "anchors": ["proof_of_space/src/proof_of_space/prover.rs: response_1"]}
{"id": "C40", "title": "Very small spaces corrupt the table", "statement": "For n = 2 the prepared file is shorter than the table and some inputs make response_1 report a preimage that does not map to the challenge.", "quantifier": "a concrete map for the negative claim", "why_tests_cant": "found by reasoning on file size; never exercised by the shipped n = 20", "anchors": ["proof_of_space/src/proof_of_space/prover.rs: prepare_space, mark_space, response_1"]}
{"id": "C41", "title": "Space challenges are in range", "statement": "create_challenges of the space verifier returns exactly the requested number of values, all below 2^end, possibly with repetitions.", "quantifier": "every random stream and every end below 64", "why_tests_cant": "depends on the whole random stream", "anchors": ["proof_of_space/src/proof_of_space/verifier.rs: create_challenges"]}
{"id": "C42", "title": "The space map is a permutation of pairs", "statement": "mimc3_df and mimc5_df are the first component of a bijection on pairs of field elements for every field and every constant list of the required length.", "quantifier": "every field, every constant list of the right length", "why_tests_cant": "field of 2^255 elements", "anchors": ["proof_of_space/src/mimc/mimc_df.rs: mimc3_df, mimc5_df"]}
{"id": "C43", "title": "The MiMC hash is injective for a fixed key", "statement": "mimc7_hash and mimc5_hash are bijections of the scalar field in their input for every fixed key and constants, because 5 and 7 do not divide the group order.", "quantifier": "every key, every constant list, every input in the BLS12-381 scalar field", "why_tests_cant": "field of 2^255 elements", "anchors": ["proof_of_space/src/mimc/mimc_hash.rs: mimc7_hash, mimc5_hash"]}
{"id": "C44", "title": "Stand-alone MiMC map circuits are sound and complete", "statement": "Every satisfying assignment of the mimc5_df and mimc3_df circuits has the public image equal to the map of the assigned secrets, and the honest assignment satisfies the circuit.", "quantifier": "every assignment, every constant list, every field", "why_tests_cant": "all assignments over a 2^255-element field", "anchors": ["proof_of_space/src/circuit/mimc5_df_circuit.rs", "proof_of_space/src/circuit/mimc3_df_circuit.rs"]}
{"id": "C45", "title": "The space circuit accepts the honest witness", "statement": "For every honest response with at least one preimage the assignment generated by the space circuit satisfies all its constraints and its public inputs are exactly the ones the verifier supplies, in the same order.", "quantifier": "every list of challenges in range, every key and message, every two lists of ten constants, every n from 3 to 63 not above the bit size", "why_tests_cant": "all responses", "anchors": ["proof_of_space/src/circuit/pospace_circuit.rs: PospaceDemo", "proof_of_space/src/proof_of_space/verifier.rs: verify", "proof_of_space/src/proof_of_space/prover.rs: construct_circuit"]}
{"id": "C46", "title": "The space circuit does not bind its public inputs", "statement": "For every tuple of public inputs (key, message, images, hash) there is an assignment of the private variables satisfying all constraints of the space circuit, so a valid proof says nothing about the images having preimages.", "quantifier": "every tuple of public inputs, every two lists of ten constants, every bit length that fits, every positive number of images", "why_tests_cant": "a for-all/exists statement over field elements", "anchors": ["proof_of_space/src/circuit/pospace_circuit.rs: PospaceDemo"]}
{"id": "C47", "title": "The hash circuits: complete, but the digest is not bound to the key", "statement": "The honest assignment satisfies the mimc5/mimc7 hash circuits and its public digest is the digest of the keyed multi hash. What the circuits enforce exactly: the digest is the key plus the inputs plus one single-input hash per input, each under an arbitrary inner key; so digests other than the multi hash of the assigned key and inputs are satisfiable.", "quantifier": "every assignment, constants and number of inputs", "why_tests_cant": "for-all/exists statement over field elements", "anchors": ["proof_of_space/src/circuit/mimc5_hash_circuit.rs", "proof_of_space/src/circuit/mimc7_hash_circuit.rs"]}
{"id": "C48", "title": "A failed proof check is treated as success", "statement": "The space verifier's verdict is acceptance whenever proof checking returns without an error, including when the check reports that the proof is invalid.", "quantifier": "every result of the proof checker", "why_tests_cant": "the checker is abstract; the claim is about every result it may return", "anchors": ["proof_of_space/src/proof_of_space/verifier.rs: verify"]}
{"id": "C49", "title": "Proving and setup use the same constraint system", "statement": "The constraints generated by each circuit do not depend on the assigned values, only on the numbers of inputs and bits, so keys generated in setup fit every proof with the same numbers, and do not fit when the number of responses differs from the setup's number.", "quantifier": "every value assignment", "why_tests_cant": "all values", "anchors": ["proof_of_space/src/circuit/pospace_circuit.rs: PospaceDemo", "proof_of_space/src/proof_of_space/prover.rs: construct_circuit", "proof_of_space/src/proof_of_space/pospace.rs: pospace"]}
{"id": "C50", "title": "Exponentiation circuit", "statement": "In the power circuit every satisfying assignment makes the output equal to the assigned start value times x to the power given by the bits (bits being boolean); the start value is not forced to one, so every claim is satisfiable. The honest bits of an exponent below 2^20 give the power as public output. Proving fails unless there are twenty bits, each given as 0 or 1.", "quantifier": "every assignment", "why_tests_cant": "all field assignments", "anchors": ["proof_of_space/src/circuit/pow_circuit.rs: PowDemo"]}
{"id": "C51", "title": "Modular exponentiation helper", "statement": "For every exponent that is not negative and every modulus above 1, fast_modpow returns the power of x modulo p, with the sign of the power (the remainder truncates), so the ordinary residue for x that is not negative. A negative modulus acts as its absolute value. An exponent that is zero or negative gives 1, even modulo 1, where every positive power gives 0.", "quantifier": "every x, exponent and modulus", "why_tests_cant": "infinite domain", "anchors": ["proof_of_storage/src/vde/compare_modpow.rs: fast_modpow"]}
{"id": "C52", "title": "Static dependencies have the documented shape", "statement": "long_mode_1 returns index-1, index-3, ... down to the requested count or the beginning; long_mode_2 returns index-2, index-3, index-5, ... (and overflows for every count above 64); short_mode_1 alternates odd distances on both sides without leaving the range, exhausting it if not enough.", "quantifier": "every index, count and number of positions", "why_tests_cant": "all indices and counts", "anchors": ["proof_of_storage/src/proof_of_storage/depend.rs: long_mode_1, long_mode_2, short_mode_1"]}
{"id": "C53", "title": "A response made from self-chosen dependencies is accepted", "statement": "The challenge protocol does not bind the returned block to the committed sealing: for any dependency blocks and previous id a prover invents, a block sealed under them passes unsealing and verification.", "quantifier": "every plaintext block, every invented dependency data, hash-chosen short dependencies", "why_tests_cant": "for-all statement about adversarial responses", "anchors": ["proof_of_storage/src/proof_of_storage/postorage.rs: test_pipeline", "proof_of_storage/src/proof_of_storage/verifier.rs: batch_unseal, batch_verify"]}
{"id": "C54", "title": "The shipped moduli and the scalar field order are prime", "statement": "The constants P_64, P_128, P_256, P_512 (the modulus of every shipped parameter set), P_1024 and P_2048 and the BLS12-381 scalar field order are prime, and every storage modulus is 3 modulo 4, so the encoding theorems apply to all of them.", "quantifier": "the shipped constants; primality quantifies over all divisors", "why_tests_cant": "primality of large numbers cannot be tested exhaustively", "anchors": ["proof_of_storage/src/vde/rug_sloth.rs: constants", "proof_of_space/src/mimc/mimc_hash.rs"]}
{"id": "C55", "title": "The primality script never rejects a prime", "statement": "is_prime (trial division by the small prime table plus Miller-Rabin rounds) returns True for every prime, whatever random bases are drawn; it is exact below 1009^2; beyond that Miller-Rabin accepts exactly the strong probable primes to the five bases drawn, which includes composites for unlucky bases. get_prime returns a number of the requested size that is 3 modulo 4 and passed the test, and never skips a suitable prime.", "quantifier": "every prime and every sequence of random bases", "why_tests_cant": "random bases and infinitely many primes", "anchors": ["proof_of_storage/src/vde/prime.py: rabin_miller, is_prime"]}
{"id": "C56", "title": "Sloth circuit enforces nothing", "statement": "The field 'mod' helper used by the inverse sloth circuit returns zero for every non-zero modulus, and the circuit adds no constraint.", "quantifier": "every pair of field elements", "why_tests_cant": "all field elements", "anchors": ["proof_of_space/src/circuit/sloth_circuit.rs: fmod, SlothInvDemo"]}
{"id": "C57", "title": "Unsealing never crashes, whatever the file contains", "statement": "With hash-chosen dependencies and a consistent configuration unseal returns normally on every file content, including damaged, truncated or never sealed files.", "quantifier": "every file content of any length, every iv, every hash with 32-byte output", "why_tests_cant": "corrupted inputs are unbounded and dependency positions follow hashes of the corrupted data", "anchors": ["proof_of_storage/src/proof_of_storage/prover.rs: unseal"]}
{"id": "C58", "title": "Unsealing and comparing in one call accepts exactly when both steps do", "statement": "batch_unseal_and_verify returns normally exactly when batch_unseal returns normally on the same input and batch_verify accepts every resulting block against the original file, whenever the two short dependency tables agree (always for the hash-chosen mode). In every dependency mode in which sealing succeeds it accepts any selection of blocks of the honestly sealed file, unless an encoder input was zero. On any well-formed answer, honest or not, it returns normally exactly if every unit of every decoded block starts with the bytes of the original.", "quantifier": "every input, every parameter set, every original file for the equivalence; every consistent parameter set for the verdict on honest and well-formed answers", "why_tests_cant": "equivalence of two implementations over all inputs", "anchors": ["proof_of_storage/src/proof_of_storage/verifier.rs: batch_unseal_and_verify, batch_unseal, batch_verify"]}
{"id": "C59", "title": "A challenge round does not need the sealed file", "statement": "The verifier of a round never compares submitted blocks with committed block identifiers: for any Merkle tree over any identifiers, any challenge, and any invented previous identifiers and dependency blocks, a response computed from the original file alone is accepted (unless an encoder input was zero).", "quantifier": "every original file, every identifier list, every challenge set, every invented dependency data", "why_tests_cant": "a soundness gap is a for-all statement about adversarial responses", "anchors": ["proof_of_storage/src/proof_of_storage/postorage.rs: test_pipeline", "proof_of_storage/src/proof_of_storage/verifier.rs: batch_unseal, batch_verify", "proof_of_storage/src/proof_of_storage/merkle_tree.rs: verify_merkle_proof"]}
{"id": "C60", "title": "The equality circuit", "statement": "For difficulty d from 1 to 256 the honest bits of a number below 2^256 satisfy the circuit with public inputs (low d bits, number). What it enforces is x1 = start + unit*e and x2 = x1 + unit*2^d*f with e < 2^d, f < 2^(256-d) for unconstrained private start and unit; so for d < 256 every pair (x1, x2) is satisfiable, for d = 256 exactly the equal pairs, for d > 256 x1 is not even a public input, and d = 0 panics by an underflow in the first round, in key generation whatever the bits are and in proving if the first bit is given. Proving fails unless there are 256 bits, each given as 0 or 1.", "quantifier": "every difficulty, every pair of field elements, every assignment", "why_tests_cant": "for-all/exists statement over field elements", "anchors": ["proof_of_space/src/circuit/equal_circuit.rs: EqualDemo"]}
{"id": "C61", "title": "The file comparison accepts exactly prefixes", "statement": "The script that judges a storage round trip reports success exactly when one file is a prefix of the other and otherwise counts the differing bytes of the common length; for files of equal length success means equality, but every truncation of the original file, even the empty one, is reported as success.", "quantifier": "every pair of files", "why_tests_cant": "all file contents and lengths", "anchors": ["proof_of_storage/src/proof_of_storage/file_compare.py"]}
{"id": "C62", "title": "Hash-chosen dependencies are exactly the specified hash bytes", "statement": "The long and short dependency lists drawn in hash mode are the sorted, deduplicated reductions of the first requested numbers of a byte stream: the first 16 bytes of the hash of the seed, then the first 16 bytes of the hash of those, and so on; one byte per number up to 256 positions, 256 plus two bytes up to 65536, 768 plus three bytes above (at most five numbers). The list depends on the seed only through its 16-byte hash prefix; short lists skip the unit itself.", "quantifier": "every hash with 32-byte output, every seed, every position, every count for which the list exists", "why_tests_cant": "exact value for all hashes and seeds; tests compare a function with itself", "anchors": ["proof_of_storage/src/proof_of_storage/depend.rs: long_mode_random, short_depend_random"]}
{"id": "C63", "title": "Fewer dependencies than requested above 256 positions", "statement": "With more than 256 positions and more than eight requested dependencies the hash-chosen lists always hold strictly fewer than requested: at most eight below 32 requested, at most half from 16 on. The larger shipped parameter sets request ten short dependencies per unit and never get more than eight.", "quantifier": "every hash, every seed, every number of positions from 257 to 65536, every count above eight", "why_tests_cant": "an upper bound over all hash values", "anchors": ["proof_of_storage/src/proof_of_storage/depend.rs: long_mode_random, short_depend_random", "proof_of_storage/src/proof_of_storage/common.rs: gen_posdata"]}
{"id": "C64", "title": "The sealed file, byte by byte", "statement": "In every dependency mode that works (C78) seal succeeds and its result is given by a mathematical description: every unit gets the hash of (same unit of the chosen earlier sealed blocks, chosen units of its block in their present state, and for the first unit the initial vector or the previous block's identifier) added modulo p and is then encoded; this runs seal_rounds times over the units of a block, block after block; identifiers are the hashes of sealed blocks.", "quantifier": "every consistent parameter set, every file with units below the modulus, every iv, every hash with 32-byte output", "why_tests_cant": "exact output for all inputs; a round trip test cannot see a change made in both directions", "anchors": ["proof_of_storage/src/proof_of_storage/prover.rs: seal", "proof_of_storage/src/proof_of_storage/depend.rs", "proof_of_storage/src/vde/rug_vde.rs"]}
{"id": "C65", "title": "The delay encoding is the signed square root permutation", "statement": "For a prime p = 3 mod 4 one step takes x in 1..p-1 to the only z in 1..p-1 with (z+1)^2 = x for odd z and -(z-1)^2 = x for even z modulo p; t rounds iterate this, decoding iterates the squaring, in both big-integer implementations.", "quantifier": "every prime 3 mod 4, every non-zero residue, every number of rounds", "why_tests_cant": "field arithmetic over an unbounded set of primes and residues", "anchors": ["proof_of_storage/src/vde/rug_sloth.rs: single_sloth, sloth, single_sloth_inv, sloth_inv", "proof_of_storage/src/vde/sloth.rs"]}
{"id": "C66", "title": "Sealing is causal", "statement": "Two files that agree on their first k blocks have the same first k sealed blocks and identifiers (every dependency mode that works, same key and iv).", "quantifier": "every pair of files, every k, every consistent parameter set", "why_tests_cant": "relational property over pairs of executions", "anchors": ["proof_of_storage/src/proof_of_storage/prover.rs: seal"]}
{"id": "C67", "title": "The thread pool never runs more blocks than configured", "statement": "In every execution of the parallel unsealing there are never more than parallel_num tasks running, whatever the scheduling; with at least that many blocks some schedule reaches the limit.", "quantifier": "every schedule, every number of workers, every list of blocks", "why_tests_cant": "a safety property of all interleavings", "anchors": ["proof_of_storage/src/proof_of_storage/verifier.rs: batch_unseal_parallel"]}
{"id": "C68", "title": "The first response binds the nonce and the challenged blocks", "statement": "In an accepted challenge round the response hash is the hash of the nonce followed by the submitted blocks. If two accepted rounds have the same response hash, then they have the same nonce and the same blocks, unless the two hashed strings, nonce and blocks of the one round and of the other, are a collision. The honest response hash covers exactly the sealed challenged blocks.", "quantifier": "every pair of accepted rounds, every hash, every submitted block list of the right shape", "why_tests_cant": "a reduction to hash collisions over all adversarial responses", "anchors": ["proof_of_storage/src/proof_of_storage/postorage.rs: test_pipeline"]}
{"id": "C69", "title": "An accepted pipeline run ends with the original data", "statement": "If the pipeline accepts, the Merkle trees of the original and of the finally unsealed file have the same root, and the two files agree from the second block on unless two different strings hashed for these two trees have the same hash.", "quantifier": "every original file, every random choice, every hash", "why_tests_cant": "soundness over all executions, reduced to collisions", "anchors": ["proof_of_storage/src/proof_of_storage/postorage.rs: test_pipeline", "proof_of_storage/src/proof_of_storage/merkle_tree.rs"]}
{"id": "C70", "title": "What the Merkle challenge of two files decides", "statement": "merkle_tree_proof accepts exactly when the two files have the same Merkle root; which leaves are drawn is irrelevant, because the proof is taken from the tree it is checked against. So acceptance means that the files agree from the second block on, in every block, unless two different strings hashed for the two trees have the same hash. Conversely a file that agrees with the original from the second block on is accepted, whatever its first block is.", "quantifier": "every pair of files, every challenge set", "why_tests_cant": "for all files and challenges; the first block is never looked at", "anchors": ["proof_of_storage/src/proof_of_storage/postorage.rs: merkle_tree_proof", "proof_of_storage/src/proof_of_storage/merkle_tree.rs"]}
{"id": "C71", "title": "seal_and_unseal: what each file holds afterwards", "statement": "For every shipped parameter set and every origin file of the right length: with the unseal switch the unsealed file is the origin file, and the sealed file is overwritten with the padded original, so no sealed replica remains; without it the sealed file is what seal makes and the unsealed file is untouched. The public data file loads back to the key and iv in use whatever it held before. A missing origin file panics.", "quantifier": "every shipped parameter set, every previous content of the four files, every iv, every hash", "why_tests_cant": "effects on four files over all previous states", "anchors": ["proof_of_storage/src/proof_of_storage/postorage.rs: seal_and_unseal"]}
{"id": "C72", "title": "The check of the first ten blocks", "statement": "An honestly sealed file of at least ten blocks passes, sequentially and under every complete schedule of the thread pool, of which there is one for each number of workers. In general the check, sequential or parallel, accepts exactly when the decoding of the first ten stored blocks completes and they decode, under the stored public data, to the first ten blocks of the origin file.", "quantifier": "every consistent parameter set, every stored file, every schedule", "why_tests_cant": "exact acceptance condition over all stored files and schedules", "anchors": ["proof_of_storage/src/proof_of_storage/postorage.rs: test_unseal_single_and_verify"]}
{"id": "C73", "title": "How the switches of test_postorage combine", "statement": "From any files: a run with only the seal switch followed by a run with only the single-unseal switch is accepted; seal, unseal and challenge in one run is accepted and leaves the unsealed file equal to the origin. Whatever the switches and files, an accepted run with the challenge switch leaves an unsealed file that agrees with the origin from the second block on (up to a named collision), an accepted run with the single-unseal switch leaves a sealed file whose first ten blocks decode to those of the origin, and without the seal switch no file changes. Missing files panic. Seal, unseal and single-unseal in one run panics, because the check runs on the file that has been unsealed in place (refutation with a concrete run).", "quantifier": "every shipped parameter set, every previous state of the files, every random choice", "why_tests_cant": "sequences of runs over all states of the disk", "anchors": ["proof_of_storage/src/proof_of_storage/postorage.rs: test_postorage"]}
{"id": "C74", "title": "Exact verdict of a challenge round", "statement": "A round is accepted exactly when the response hash is the hash of nonce and submitted blocks, the Merkle proof verifies, the public data loads, and every challenged block decodes, under the submitted identifiers and dependency data, to the corresponding block of the original file. An accepted pipeline run has had every one of its rounds accepted against the sealing of the padded original.", "quantifier": "every response, every challenge set, every schedule, every list of rounds", "why_tests_cant": "an if-and-only-if over all responses; tests only run honest rounds", "anchors": ["proof_of_storage/src/proof_of_storage/postorage.rs: test_pipeline", "proof_of_storage/src/proof_of_storage/verifier.rs: batch_unseal, batch_unseal_parallel, batch_verify"]}
{"id": "C75", "title": "The Merkle root is the recursive tree hash", "statement": "The root of a non-empty list is the tree hash of RFC 6962 of its hashed entries, without domain separation: cut at the largest power of two below the length. The root of a file of n blocks is the tree hash of blocks 2 to n and one block read behind the end.", "quantifier": "every non-empty list of byte strings, every file, every block length, every hash", "why_tests_cant": "recursive specification against a layered construction for every number of leaves", "anchors": ["proof_of_storage/src/proof_of_storage/merkle_tree.rs: generate_merkle_tree_from_data, generate_merkle_tree_from_file"]}
{"id": "C76", "title": "The value of the MiMC hashes", "statement": "mimc5_hash is ten rounds of t -> (t + key + c)^5, mimc7_hash 91 rounds of seventh powers, the key added once more at the end; the first round adds no constant, so the first constant has no influence. The hash of several inputs starts from the key and turns the running value r into r + x + hash of x under the key r.", "quantifier": "every commutative ring, every input, key and list of constants", "why_tests_cant": "an equation over all field elements", "anchors": ["proof_of_space/src/mimc/mimc_hash.rs: mimc5_hash, mimc7_hash, multi_mimc5_hash, multi_mimc7_hash"]}
{"id": "C77", "title": "The outcome of a whole proof-of-space run", "statement": "pospace with an honest prover succeeds exactly if at least RESPONSE_COUNT of the challenges (counted with repetitions) are images of inputs in the space, and then answers exactly that many; with fewer it panics in the verifier's assertion, so an honest prover can fail by bad luck.", "quantifier": "every key, message, list of constants, every sequence of random bits, every space size from 3 bits", "why_tests_cant": "an if-and-only-if over all keys and challenges", "anchors": ["proof_of_space/src/proof_of_space/pospace.rs: pospace", "proof_of_space/src/proof_of_space/prover.rs", "proof_of_space/src/proof_of_space/verifier.rs"]}
{"id": "C78", "title": "Which dependency modes work", "statement": "seal succeeds exactly if: hash-chosen long dependencies have at most 65536 blocks or a fixed count from one to five, hash-chosen short dependencies have at most 65536 units per block or none requested (one to five requested in larger blocks: decided by the hash values, C117), long mode 2 asks for at most 64 dependencies, long mode 3 has at most 650 blocks, a static short mode has at most as many units per block as there are blocks, short mode 2 asks for none, and short mode 1 has exactly as many units as blocks or asks for none, or for one with at least two units. Otherwise it panics. With the shipped sizes, short mode 1 and two or more dependencies only the 4 MB size can be sealed. When it succeeds the file is the one described under C64 with the static lists.", "quantifier": "every consistent parameter set, every mode and count, every file and initialization vector, every hash of 32 bytes", "why_tests_cant": "an if-and-only-if over all modes, counts and sizes; the tests use the hash-chosen modes only", "anchors": ["proof_of_storage/src/proof_of_storage/prover.rs: seal", "proof_of_storage/src/proof_of_storage/depend.rs: long_depend, short_depend"]}
{"id": "C79", "title": "What unseal makes of any file", "statement": "On every file, sealed or not, and in every dependency mode that works, unseal returns a file of the same length whose block k is given by a mathematical description of blocks k, k-1 and the blocks k refers to: units from the last to the first, decode by squarings, subtract the hash modulo p. Bytes behind the last block stay. On residues other than zero the decoder is the inverse of the delay encoding from both sides; on other numbers it is what undelay says.", "quantifier": "every consistent parameter set, every mode that works, every file content, every iv, every hash of 32 bytes", "why_tests_cant": "an equation for all file contents, including those no seal has produced", "anchors": ["proof_of_storage/src/proof_of_storage/prover.rs: unseal", "proof_of_storage/src/vde/rug_sloth.rs: single_sloth_inv, sloth_inv"]}
{"id": "C80", "title": "Damage stays local", "statement": "Block k of the unsealed file depends only on block k, the block before it and the blocks it refers to. So a sealed file that is damaged in block d only still gives back all of the padded original except block d, block d+1 and the blocks that refer to d.", "quantifier": "every consistent parameter set with hash-chosen long dependencies (the static ones are not undone correctly, C29), every damaged content of a block, every origin file, every hash", "why_tests_cant": "a non-interference statement over pairs of files", "anchors": ["proof_of_storage/src/proof_of_storage/prover.rs: unseal"]}
{"id": "C81", "title": "What the verifier decodes from any answer", "statement": "For a well-formed answer (honest or not) the sequential and the parallel verifier compute for every submitted block the mathematical unsealing of that block under the submitted identifier and dependency blocks. So a round is accepted exactly when the answer hash is right, the Merkle proof verifies, (for the parallel verifier) the schedule completes, and every unit so computed starts with the bytes of the original file.", "quantifier": "every well-formed answer, every challenge set, every schedule, every working short mode", "why_tests_cant": "exact function of all possible answers, in terms of arithmetic only", "anchors": ["proof_of_storage/src/proof_of_storage/verifier.rs: batch_unseal, batch_unseal_parallel, batch_verify"]}
{"id": "C82", "title": "Sealing and unsealing are inverse to each other", "statement": "On blocks of residues sealing and unsealing (with the same dependency blocks and chaining value) are inverse to each other from both sides as long as no zero is encoded or decoded. So at most one answer made of residues decodes to a given block, and a whole file of residues is the sealing of the file it unseals to.", "quantifier": "every consistent parameter set, every block, dependency blocks and chaining value, every file of residues", "why_tests_cant": "a bijection on blocks of hundreds of units of 512 bits", "anchors": ["proof_of_storage/src/proof_of_storage/prover.rs: seal, unseal", "proof_of_storage/src/proof_of_storage/verifier.rs: batch_unseal"]}
{"id": "C83", "title": "A challenged block has many accepted answers", "statement": "The verifier neither checks that submitted units are below the modulus nor looks at the padding byte of a decoded unit. An answer accepted by the sequential verifier stays accepted when the last unit of a block with value z is replaced by p+z+2 (z odd) or p+z-2 (z even), if that fits into 64 bytes; with the shipped modulus this holds for more than a fifth of all values. And sealing the original with arbitrary padding bytes gives accepted answers.", "quantifier": "every accepted answer, every block of it, every value with a twin; every choice of padding bytes", "why_tests_cant": "existence of further accepted answers for every accepted one", "anchors": ["proof_of_storage/src/proof_of_storage/verifier.rs: batch_unseal, batch_verify", "proof_of_storage/src/vde/rug_sloth.rs: single_sloth_inv"]}
{"id": "C84", "title": "The random origin file has one fresh draw per byte", "statement": "create_random_file writes data_len bytes, byte i being the i-th draw. So sequences of draws and files of that length correspond one to one: with uniform independent draws every file is equally likely.", "quantifier": "every length, every sequence of draws", "why_tests_cant": "a bijection over all contents", "anchors": ["proof_of_storage/src/proof_of_storage/verifier.rs: create_random_file"]}
{"id": "C85", "title": "Exact list and number of the delay encodings made while sealing", "statement": "seal makes exactly (blocks) x (seal rounds) x (units per block) delay encodings, and the values encoded are, in order, those of the mathematical description of C64: unit plus mask modulo p. So the condition of C01 is a condition on the file, the hash, the modulus and the initial vector alone, and whenever none of these values is zero, storing and retrieving gives back the origin file.", "quantifier": "every consistent parameter set, every working mode, every file of residues, every iv, every hash of 32 bytes", "why_tests_cant": "an equation between lists of millions of 512-bit values, for all inputs", "anchors": ["proof_of_storage/src/proof_of_storage/prover.rs: seal, unseal", "proof_of_storage/src/vde/rug_vde.rs: vde"]}
{"id": "C86", "title": "The first sealing round of a padded file never loses a unit", "statement": "In the first round over a padded file the value encoded is the plain unit plus the mask without any reduction, so it is zero only if the unit and the 32-byte digest are both zero. So with a single sealing round and a hash that never returns 32 zero bytes every origin file is retrieved, without further conditions; the sizes of all shipped parameter sets meet the condition on the modulus.", "quantifier": "every consistent parameter set with 256^unit_l + 256^32 <= p, every origin file, every iv, every such hash", "why_tests_cant": "no origin file at all may be lost: a statement over 256^(file length) contents", "anchors": ["proof_of_storage/src/proof_of_storage/prover.rs: copy_and_pad, seal, unseal", "proof_of_storage/src/proof_of_storage/common.rs: modadd"]}
{"id": "C87", "title": "The initial vector only matters for the first block", "statement": "Unsealing any file with two different initial vectors gives the same bytes from the second block on; so whoever has the sealed file and the modulus recovers the padded origin file except its first block without knowing the initial vector. And a verifier with a wrong initial vector comes to the same verdict (acceptance, panic or unfinished schedule) on every answer to a challenge that leaves out block 0, in the sequential, the parallel and the combined check.", "quantifier": "every file, every pair of initial vectors, every consistent parameter set; for the verdict every parameter set, answer, challenge without block 0, number of threads and schedule", "why_tests_cant": "non-interference over pairs of initial vectors and over all answers and schedules", "anchors": ["proof_of_storage/src/proof_of_storage/prover.rs: unseal", "proof_of_storage/src/proof_of_storage/verifier.rs: batch_unseal, batch_unseal_parallel, batch_unseal_and_verify", "proof_of_storage/src/proof_of_storage/postorage.rs: load_data, test_pipeline"]}
{"id": "C88", "title": "Copies sealed once with different initial vectors differ in every block", "statement": "With one sealing round (and a hash that never returns 32 zero bytes) two sealings of the same origin file under different initial vectors differ in the first unit of every block, unless two different strings hashed in the two runs, the mask inputs of the same unit or the same sealed block, have the same digest. (With more rounds the later masks also depend on the hash being unpredictable, not only on missing collisions.)", "quantifier": "every consistent parameter set with one sealing round, every working mode, every origin file, every pair of different initial vectors", "why_tests_cant": "a statement about all pairs of sealings, with the collisions named explicitly", "anchors": ["proof_of_storage/src/proof_of_storage/prover.rs: seal", "proof_of_storage/src/proof_of_storage/postorage.rs: prepare_params"]}
{"id": "C89", "title": "Release builds: what the static dependency rules compute when usize arithmetic wraps", "statement": "In a release build (usize arithmetic wraps instead of panicking) long_depend and short_depend return whatever they return in a debug build whenever the debug build returns. Beyond that: long modes 2 and 3 never panic; they list index-1-2^i for the i < 64 for which that exists and then one copy of index-1 for every further i. Short mode 2, which panics in a debug build as soon as it is asked for anything at index 0, follows exactly the rule of its doc comment (-1-2^0, -1+2^1, -1-2^2, ...) up to the first position out of range; the expected value of the authors' test marked 'test failed' is the result of a release build. The other modes are the same in both profiles.", "quantifier": "for all num <= 2^63, all index < num, all counts (at most 2^32 for long mode 2) and all modes", "why_tests_cant": "The result depends on wrap-around at 64 bits and on the point where the alternating rule leaves the range; a test runs in one profile and looks at single indices.", "anchors": ["proof_of_storage/src/proof_of_storage/depend.rs: long_mode_2, long_mode_3, short_mode_2, long_depend, short_depend", "proof_of_storage/src/proof_of_storage/prover.rs: create_long_depend, create_short_depend"]}
{"id": "C90", "title": "Release builds: sealing, retrieval and random access", "statement": "Every completed debug run of seal, unseal, single_unseal_prepare and batch_unseal has the same result in a release build. With hash-chosen dependencies a run that panics panics alike in both profiles. In a release build sealing succeeds exactly when the static short table (built for as many positions as there are blocks) fits the units and hash-chosen dependencies meet the limits of C78: static long modes never fail, short mode 2 works iff there are as many units per block as blocks, or at most one dependency is requested, or blocks have at most two units. The sealed file is, byte by byte, the mathematical description of C64 with the release dependency lists. With hash-chosen long dependencies the file is retrieved, and single blocks can be unsealed at random in every mode that seals, unless an encoder input was zero.", "quantifier": "for all hash functions with 32-byte results, all consistent configurations (n <= 10*2^32 blocks), all files and initial vectors", "why_tests_cant": "Whether a table fits depends on all units of all blocks; and the two profiles differ only in corners that tests in the default profile never execute.", "anchors": ["proof_of_storage/src/proof_of_storage/prover.rs: seal, unseal", "proof_of_storage/src/proof_of_storage/verifier.rs: single_unseal_prepare, batch_unseal", "proof_of_storage/src/proof_of_storage/depend.rs: short_mode_2, long_mode_2, long_mode_3"]}
{"id": "C91", "title": "What a challenge round says about the file the prover answers from", "statement": "With hash-chosen long dependencies and any short ones that can be sealed (C78), let the prover of test_pipeline answer from any file that is long enough, for instance a damaged copy of the sealed file. Every challenge then gets an answer, and it is accepted exactly if unsealing and compressing that same file restores every challenged block of the origin; likewise with the parallel check under every schedule that completes. So of the sets of q block indices exactly choose(good, q) are answered acceptably, where good is the number of blocks retrieval restores, and a challenge with more indices than that is never accepted.", "quantifier": "for all files, all origin files, all identifiers in the Merkle tree, all hash functions with 32-byte results, all consistent configurations with hash-chosen long dependencies within the limits of C78, all challenge sets, nonces and schedules", "why_tests_cant": "relates the verdict on every challenge set to the result of a different code path (unseal) on every possible damaged file", "anchors": ["proof_of_storage/src/proof_of_storage/postorage.rs: test_pipeline", "proof_of_storage/src/proof_of_storage/prover.rs: unseal, copy_and_compress", "proof_of_storage/src/proof_of_storage/verifier.rs: single_unseal_prepare, batch_unseal, batch_unseal_parallel, batch_verify"]}
{"id": "C92", "title": "A zero met by the encoder only harms the block in which it is met", "statement": "The delay encoding cannot represent zero: a unit that is zero after masking is decoded to something else. Call a block clean if no unit of it is zero when it is encoded. Then: unsealing the sealed file gives back every clean block byte for byte, even when other blocks are not clean; after store and retrieve the owner gets every clean block of the original back, and every challenge round on clean blocks is accepted when answered from the sealed file; the number of blocks that are not restored is at most the number of zeros that were encoded. With one sealing round the clean blocks are exactly the ones restored.", "quantifier": "all hashes with 32 output bytes, all consistent parameter sets with hash-chosen long dependencies, all files of residues, all keys and initial vectors, all blocks and all challenges", "why_tests_cant": "a zero after masking is met with probability about 2^-512 per unit, so no test file reaches the case; a test that forced it would not show that the later blocks, which are masked with the harmed block's sealed form, stay intact", "anchors": ["proof_of_storage/src/vde/rug_vde.rs: sloth, sloth_inv", "proof_of_storage/src/proof_of_storage/prover.rs: seal, unseal, copy_and_compress", "proof_of_storage/src/proof_of_storage/verifier.rs: batch_unseal, batch_verify"]}
{"id": "C93", "title": "The parallel verifier accepts the plaintext of the challenged blocks", "statement": "The parallel check compares, block by block, either the decoding of the submitted block or, if the worker decoding it panicked, the submitted block itself. So a prover who keeps no sealed file at all is accepted: it submits the challenged blocks of the origin file in the clear, with no dependency data and no identifiers, so that every worker panics on its first unit. The answer is accepted under every schedule that completes; the sequential check panics on the same answer. The shipped parameter sets meet the conditions.", "quantifier": "all hashes, all parameter sets with hash-chosen short dependencies and at least one sealing round and unit, all origin files, all challenged blocks, any modulus and initial vector, all thread counts and complete schedules", "why_tests_cant": "an adversarial answer combined with every interleaving of the workers; the tests only run the honest prover", "anchors": ["proof_of_storage/src/proof_of_storage/verifier.rs: batch_unseal_parallel, batch_verify", "proof_of_storage/src/proof_of_storage/postorage.rs: test_pipeline"]}
{"id": "C94", "title": "The verdict on every answer whatsoever", "statement": "With hash-chosen short dependencies (the shipped mode), take any answer: any number of blocks, of any number of units, of any lengths, with any dependency data and identifiers. Block i can be processed if a challenged index belongs to it and, unless it has no units, it has at most 65536 units, dependency data are submitted for it whose blocks all have at least as many units, and the identifier of the block before is submitted (not needed for index 0). The sequential check panics exactly if some block cannot be processed; otherwise each block is decoded to the unsealing of however many units it has. It accepts exactly if the hash and the Merkle proof are right, there are as many blocks as challenged indices, all can be processed, and each decodes to something that starts, unit by unit, with the bytes of the origin. The parallel check ignores surplus blocks and compares a block that cannot be processed as it was submitted. With static short dependencies the same holds, where instead of the bound on the number of units the table must have a row for every unit of the block that refers to submitted units only.", "quantifier": "all answers, all challenges, all hashes with 32 output bytes, all consistent configurations with at least one sealing and one delay round, and (hash-chosen short dependencies) at least six short dependencies requested or submitted blocks of at most 65536 units, (static ones) tables that can be built, all thread counts and complete schedules", "why_tests_cant": "quantifies over malformed answers of every shape; tests only see answers of the honest prover", "anchors": ["proof_of_storage/src/proof_of_storage/verifier.rs: batch_unseal, batch_unseal_parallel, batch_verify", "proof_of_storage/src/proof_of_storage/postorage.rs: test_pipeline", "proof_of_storage/src/proof_of_storage/depend.rs: short_depend_random"]}
{"id": "C95", "title": "Reads that return fewer bytes than asked for", "statement": "read_file calls read once and ignores how many bytes came back. Whatever the operating system returns, the call succeeds, the bytes not returned are zeros, and the result is right exactly if every byte not returned is a zero. Under any pattern of short reads copy_and_pad, seal and unseal still succeed, and their output is, byte by byte, the mathematical description in which the bytes not returned are zeros. With hash-chosen long dependencies a block sealed after a short read comes back, after any later unsealing that reads that block and the one before completely, and its dependencies as the sealing did (completely, or equally short), with exactly the bytes not returned replaced by zeros and no error, provided no zero was encoded (C10); blocks read completely come back intact, whatever short reads hit other blocks. An honest answer is rejected under a short read of the origin file exactly if a byte not returned is not zero. When all reads are complete nothing differs from the other properties.", "quantifier": "for every number of bytes returned by every single read call, all files, all hashes with 32-byte results, all consistent configurations in the dependency modes that work", "why_tests_cant": "short reads depend on the operating system and file system; tests on local files practically never see one, and no test can enumerate the patterns", "anchors": ["proof_of_storage/src/proof_of_storage/common.rs: read_file", "proof_of_storage/src/proof_of_storage/prover.rs: copy_and_pad, seal, unseal", "proof_of_storage/src/proof_of_storage/verifier.rs: batch_verify"]}
{"id": "C96", "title": "What is left when seal or unseal is stopped, and what going on leads to", "statement": "seal and unseal rewrite the file in place, one write per block, and record no progress. If unseal is stopped after m blocks and w bytes of the next, the last m blocks and those w bytes have their final content and everything else is untouched; running the loop over the remaining blocks gives the result of the undisturbed run except inside the half-written block (exactly that result if no block is half written). Calling unseal again instead gets the blocks in front of the stop right and unseals all others a second time; a concrete run shows that they are then wrong. If seal is stopped after k blocks and w bytes, everything in front is as in the finished file and everything behind is untouched; undoing k blocks restores everything except those w bytes unless a zero was encoded (C10), and for files of at most 256 blocks this is one call of unseal with the data length of k blocks. Calling seal again succeeds, but unsealing then gives back the half-sealed file (again unless a zero was encoded).", "quantifier": "every place of the stop (every block and every byte), every file (sealed or not for unseal), every working dependency mode (undoing: hash-chosen long dependencies), every hash with 32-byte results, every consistent configuration", "why_tests_cant": "a test would have to kill the process at every byte of every write", "anchors": ["proof_of_storage/src/proof_of_storage/prover.rs: seal, unseal"]}
{"id": "C97", "title": "The unit sizes prepare_params supports", "statement": "For padded units of 64, 128 or 256 bytes (one padding byte each) prepare_params returns a prime modulus that is 3 modulo 4, above every plaintext unit and digest and below every padded unit's limit. With it and hash-chosen dependencies (modes 0) padding and sealing succeed on every file, and unsealing and compressing return it whenever no encoder input was zero. For every other padded unit of more than 128 bytes prepare_params silently falls back to its 1024-bit modulus, and then there are two different files that are sealed to the same file, whatever the hash, the iv, the rounds and the dependency modes: no unsealing can return both. For every padded unit shorter than 128 bytes other than 64 it falls back to the same modulus, and only 256^unit_pl - 1 of more than 225*256^127 residues have an encoding that fits. Whenever encodings of block 0 do not fit, sealing writes past the block over the next one before reading it: files that agree outside the overrun are sealed alike, and of two files that differ in the first byte of the second block not both are retrieved.", "quantifier": "every consistent parameter set (for the round trip: modes 0 and at most 65536 blocks, and units per block), every file, every outcome of the random generator, every hash with 32-byte results; the loss for every hash, iv, mode and positive number of rounds", "why_tests_cant": "needs the primality of 1024- and 2048-bit constants and all unit sizes; the tests only use 64-byte units", "anchors": ["proof_of_storage/src/proof_of_storage/postorage.rs: prepare_params", "proof_of_storage/src/proof_of_storage/prover.rs: copy_and_pad, seal, unseal, copy_and_compress", "proof_of_storage/src/vde/rug_sloth.rs: constants"]}
{"id": "C98", "title": "How often an honest proof-of-space run fails", "statement": "The bits create_challenges draws and the challenge list determine each other. If f of the 2^n cells of the honestly filled table hold an input, then exactly sum over j from RESPONSE_COUNT to CHALLENGE_COUNT of choose(CHALLENGE_COUNT, j) f^j (2^n - f)^(CHALLENGE_COUNT - j) of the 2^(n CHALLENGE_COUNT) possible bit strings lead to success, and all others end in the failed assertion. An honest run is certain to succeed exactly if every cell holds an input and there are at least as many challenges as answers.", "quantifier": "every key, message, constants, space size from 3 to 63 bits, numbers of challenges and answers; all random bit strings; every proof system whose verification of a proof made for the same circuit with a satisfying assignment (in release builds: of any proof made) ends without an error; every field of at most 2^Y_SIZE elements", "why_tests_cant": "a count over all random strings (2^2000 of them for the shipped sizes)", "anchors": ["proof_of_space/src/proof_of_space/verifier.rs: create_challenges", "proof_of_space/src/proof_of_space/prover.rs: response_1", "proof_of_space/src/proof_of_space/pospace.rs"]}
{"id": "C99", "title": "The Python modular exponentiation uses a rounded exponent", "statement": "fastModPow(x, t, p) of test_modpow.py halves the exponent with int(t / 2), a division in floating point. For t up to 2^53 it returns x^t mod p. Above, it returns x^e mod p where e is the number with 53 significant bits nearest to t (ties to even), plus one if t is odd; from t = 2^1025 - 2^971 on it raises OverflowError. In the benchmark's own calls (t = (p-1)/2) it is right for 2 of the p-1 bases with the 64-, 128-, 256- and 512-bit moduli, for 54 bases with the 1024-bit modulus, and always raises with the 2048-bit modulus.", "quantifier": "every base, positive modulus and non-negative exponent; all bases for the shipped moduli", "why_tests_cant": "all exponents and bases; the wrong values look random and nothing compares them", "anchors": ["proof_of_storage/src/vde/test_modpow.py: fastModPow"]}
{"id": "C100", "title": "Files and data lengths that do not fit the layout", "statement": "copy_and_pad(data_l, unit_l) of any file succeeds and keeps the first data_l / unit_l whole units, each followed by a zero byte, with zeros where the file ends early; what does not fill a unit is dropped. With hash-chosen dependencies (modes 0) sealing succeeds for every data_l and file length; units behind the last whole block are left in the sealed file as plaintext. Retrieval returns the file cut or zero-filled to data_l / unit_l whole units, unless an encoder input was zero; so the file itself comes back exactly if its length is that of the whole units. A unit or block size of zero panics, and so does sealing with a padded block that is not a whole number of padded units.", "quantifier": "every file, every data_l, every hash with 32-byte results, every iv, every configuration whose blocks are consistent, with hash-chosen long dependencies and any short ones, within the limits of C78", "why_tests_cant": "all file lengths and data lengths; the tests only use files that fit exactly", "anchors": ["proof_of_storage/src/proof_of_storage/prover.rs: copy_and_pad, copy_and_compress, seal, unseal"]}
{"id": "C101", "title": "Release builds: range preparation, unseal-and-verify and the parallel verifier", "statement": "Every completed debug run of batch_unseal_prepare, batch_unseal_and_verify and batch_unseal_parallel (under the same schedule) has the same result in a release build. In a release build a block-aligned range inside the file is always prepared (hash-chosen long dependencies: within the limits of C78), as exactly the blocks it touches with the dependency lists of the release build. For a file sealed in a release build, in any mode in which that succeeds, batch_unseal_and_verify accepts every selection of blocks, every complete schedule of the parallel version returns exactly the original units (each with a zero byte), and such a schedule exists for every positive number of threads, unless an encoder input was zero.", "quantifier": "for all hash functions with 32-byte results, all consistent configurations (n <= 10*2^32 blocks), all files, initial vectors, selections of blocks, thread counts and schedules", "why_tests_cant": "quantifies over schedules and dependency modes that panic in the debug builds used by tests", "anchors": ["proof_of_storage/src/proof_of_storage/verifier.rs: batch_unseal_prepare, batch_unseal_and_verify, batch_unseal_parallel", "proof_of_storage/src/proof_of_storage/depend.rs: long_depend, short_depend"]}
{"id": "C102", "title": "The prover's circuit is satisfied exactly by right answers", "statement": "Whatever the table file contains, the answers of response_1 name different challenges in increasing order, at most RESPONSE_COUNT of them, with one input each, and response_2 synthesises its circuit for them without a panic. The assignment the prover's own code puts into the circuit satisfies all constraints exactly if every answered input maps to the challenge it was given for. So a run of pospace (debug profile) ends with success exactly if there are RESPONSE_COUNT answers and all are right, for every number of bits; with two bits, where mark_space corrupts the table (C40), honest runs fail although enough challenges have preimages.", "quantifier": "every table content, key, message, constants, answers, challenges, number of bits from 1 to Y_SIZE, random bits; every field whose modulus fits in Y_SIZE bits; every proof system whose verification of a proof made for the same circuit with a satisfying assignment (in release builds: of any proof made) ends without an error", "why_tests_cant": "needs all answer lists, including wrong ones, and the satisfiability of thousands of constraints over a 255-bit field", "anchors": ["proof_of_space/src/proof_of_space/prover.rs: response_1, response_2", "proof_of_space/src/circuit/pospace_circuit.rs: generate_constraints", "proof_of_space/src/proof_of_space/pospace.rs: pospace"]}
{"id": "C103", "title": "What a proof-of-space round says about a table file, debug and release", "statement": "Read as one little-endian number, a table file is a sequence of cells of n+1 bits, the top bit of a cell being its flag.  For any file of at least the full length, response_1 answers the first RESPONSE_COUNT challenges whose cell is flagged, with the contents of these cells.  In a debug build the round then succeeds exactly if there are that many flagged challenges and each of these cells holds an input that maps to the cell; otherwise it ends with a failed assertion.  In a release build, where the proof is created without checking the assignment, the round succeeds exactly if there are enough flagged challenges, whatever the cells hold: a file of 0xFF bytes passes every round without the delay function ever being evaluated.  For an honestly filled table (n at least 3) both builds have the same outcome; the two-bit run that fails in debug with a wrong answer succeeds in release.", "quantifier": "all table files of at least (n+1)*2^n bits, all n from 1 to 63, all keys, field elements, constants, challenge bits and answer counts (at least 1); every proof system whose verification of a proof made for the same circuit with a satisfying assignment (in release builds: of any proof made) ends without an error; fields of at least 2^n and at most 2^Y_SIZE elements", "why_tests_cant": "The tests run mark_space first, so only honestly filled tables are seen, in one build profile and for one random choice of challenges.", "anchors": ["proof_of_space/src/proof_of_space/prover.rs: response_1", "proof_of_space/src/proof_of_space/prover.rs: response_2", "proof_of_space/src/proof_of_space/pospace.rs: pospace", "proof_of_space/src/proof_of_space/verifier.rs: verify"]}
{"id": "C104", "title": "How many challenges a table file survives", "statement": "For a table file with r flagged right cells and u unflagged cells, the number of strings of challenge bits for which the debug round succeeds is the sum over k below CHALLENGE_COUNT of C(k, RESPONSE_COUNT-1) * r^RESPONSE_COUNT * u^(k-RESPONSE_COUNT+1) * (2^n)^(CHALLENGE_COUNT-1-k); it is at most the number of strings that hit a right cell RESPONSE_COUNT times.  In a release build it is the corresponding binomial sum for the number of flagged cells, right or wrong.", "quantifier": "all table files of at least the full length, all n from 1 to 63, all keys, constants, challenge counts and answer counts (at least 1); all 2^(CHALLENGE_COUNT*n) bit strings; every proof system whose verification of a proof made for the same circuit with a satisfying assignment (in release builds: of any proof made) ends without an error; fields of at least 2^n and at most 2^Y_SIZE elements", "why_tests_cant": "A statement about the number of successful outcomes among 2^2000 random choices for arbitrary files.", "anchors": ["proof_of_space/src/proof_of_space/verifier.rs: challenge", "proof_of_space/src/proof_of_space/prover.rs: response_1", "proof_of_space/src/proof_of_space/pospace.rs: pospace"]}
{"id": "C105", "title": "All challenge sets are equally likely, and the chance that a damaged copy passes", "statement": "Count the strings of L draws from the range of create_challenges. Every set of the requested size is the outcome of equally many of them: their number times choose(N, q) plus the number of strings after which the loop is still running is N^L, and the latter is at most choose(N, q-1)*(q-1)^L. So when a prover of test_pipeline answers from a file from which retrieval restores good of the n blocks, the share of accepted rounds among those with a challenge is exactly choose(good, q) to choose(n, q), and independent rounds multiply.", "quantifier": "every range, set size and number of draws; every file of the full length, origin file, hash with 32-byte results, consistent configuration with hash-chosen long dependencies within the limits of C78; every number of rounds", "why_tests_cant": "a statement about the distribution over all random strings; tests see single draws", "anchors": ["proof_of_storage/src/proof_of_storage/verifier.rs: create_challenges", "proof_of_storage/src/proof_of_storage/postorage.rs: test_pipeline"]}
{"id": "C106", "title": "The size of an answer", "statement": "The answer of the prover to a challenge of distinct increasing indices, taken from any file whatever, consists of exactly one sealed block per index, one 32-byte identifier per index other than 0, one 32-byte hash, at most one 32-byte hash per index and tree layer, and for every index k other than 0 at least one and at most min(k, requested number) further whole blocks, where the requested number is k/10+1 if no number of long dependencies is configured. With the shipped parameter sets the answer to a single index is therefore between two and twenty-seven sealed blocks plus at most 320 bytes (one block for index 0).", "quantifier": "every hash function with 32-byte output, every configuration in hash mode with up to 65536 blocks, every stored file, every strictly increasing nonempty index list", "why_tests_cant": "The number of dependency blocks depends on hash values of the sealed file; a test sees a few draws, the bound must hold for all of them.", "anchors": ["proof_of_storage/src/proof_of_storage/postorage.rs: test_pipeline", "proof_of_storage/src/proof_of_storage/verifier.rs: single_unseal_prepare", "proof_of_storage/src/proof_of_storage/merkle_tree.rs: generate_merkle_proof"]}
{"id": "C107", "title": "A composite number passes the primality script for at most one in 1024 choices of bases", "statement": "Of all choices of the five bases that rabin_miller draws from 2 to n-2, at most one in 4^5 makes is_prime return True for a composite n. In a single trial an odd composite number that 3 does not divide passes with at most a quarter of the bases.", "quantifier": "every composite number, over all choices of the five random bases", "why_tests_cant": "A statement about the fraction of all base choices for every composite number (the Miller-Rabin bound); tests try a few numbers and a few bases.", "anchors": ["proof_of_storage/src/vde/prime.py: rabin_miller", "proof_of_storage/src/vde/prime.py: is_prime"]}
{"id": "C108", "title": "What a run of seal_and_unseal leaves behind when it is stopped", "statement": "Wherever the process is stopped, the origin file is as before, and the unsealed file is as before until copy_and_compress begins. Starting seal_and_unseal again ends as if there had been no first run: same panic, or same sealed and unsealed files and public data that load to the same. The public data file is that of the earlier run until save_data, so the initial vector of an interrupted sealing is on no file; unseal with any other one then restores the padded file except its first block and the block being written. While save_data runs a fresh file does not load, but a record over that of an earlier run with the same modulus loads without complaint as a mixture of both initial vectors, with which everything but the first block is unsealed rightly.", "quantifier": "every moment of the run at which a file changes, every content of the files, random bytes, hash with 32-byte results; recovery for the shipped parameter sets and runs without a zero input", "why_tests_cant": "The process would have to be killed after every single byte written.", "anchors": ["proof_of_storage/src/proof_of_storage/postorage.rs: seal_and_unseal", "proof_of_storage/src/proof_of_storage/postorage.rs: save_data", "proof_of_storage/src/proof_of_storage/postorage.rs: load_data", "proof_of_storage/src/proof_of_storage/prover.rs: copy_and_pad"]}
{"id": "C109", "title": "The residue test never nests more than twice as deep as its argument has bits", "statement": "legendre calls itself, and not as a tail call. For an argument of at most b bits and any modulus, 2b+1 nested calls suffice (1025 for arguments below the 512-bit modulus); and no constant bound would do: there are arguments of at most n*log2(3) bits for which n calls are too few.", "quantifier": "all integers x and p, in both implementations", "why_tests_cant": "The depth depends on the arguments like the length of the Euclidean algorithm; random tests do not meet the worst case.", "anchors": ["proof_of_storage/src/vde/rug_sloth.rs: legendre", "proof_of_storage/src/vde/sloth.rs: legendre"]}
{"id": "C110", "title": "How often get_prime returns which number", "statement": "Over all strings of random numbers of any number of iterations, get_prime returns each prime of the requested size that is 3 modulo 4 equally often, and each composite number at most one 1024th as often as a prime. The strings that make it return a composite number are to those that make it return a prime at most as the number of composite candidates without a divisor below 1000 is to 1024 times the number of primes.", "quantifier": "every size, number of iterations, and range of random numbers that gives the bases of each candidate equally often", "why_tests_cant": "A statement about the distribution of the results over all random choices.", "anchors": ["proof_of_storage/src/vde/prime.py: get_prime", "proof_of_storage/src/vde/prime.py: is_prime", "proof_of_storage/src/vde/prime.py: rabin_miller"]}
{"id": "C111", "title": "Merkle roots, proofs and verdicts do not depend on the rounding of the tree depth", "statement": "rs_merkle computes the depth of a tree as a rounded-up single-precision logarithm. Whatever it returns, as long as it is not below the logarithm: building a tree gives the same leaf hashes, the same root and the same panics, the proof made for any positions of the tree is the same, and checking any proof for any positions against any root and any leaves gives the same verdict. Were the depth rounded down to d, the root would be made of the first 2^d leaves alone, and the others could be exchanged freely.", "quantifier": "every depth function that is not too small, every list of values, every file, every list of positions (also repeated or unsorted), every proof, root and list of leaves, every hash", "why_tests_cant": "The rounding depends on the version of the library and on the number of leaves; a test sees one of each.", "anchors": ["proof_of_storage/src/proof_of_storage/merkle_tree.rs: generate_merkle_tree_from_file, generate_merkle_tree_from_data, generate_merkle_proof, verify_merkle_proof"]}
{"id": "C112", "title": "What load_data makes of an arbitrary file", "statement": "load_data returns a key and an initial vector exactly if the file begins with an 8-byte length, a string of that length that denotes the key, a further 8-byte length and that many bytes, the initial vector; what follows is not looked at, and every other file makes it panic. A string denotes a number if, without its white space, it is an optional sign, a digit, and digits or underscores. There is no integrity check: after save_data any changed byte of the initial vector loads as the changed vector, and any digit of the key changed to another digit loads as another key; and several files load to the same.", "quantifier": "every file content, every key, initial vector, position and byte", "why_tests_cant": "The input is an arbitrary file; tests load files that save_data wrote.", "anchors": ["proof_of_storage/src/proof_of_storage/postorage.rs: load_data, save_data"]}
{"id": "C113", "title": "A challenge round when reads return fewer bytes than asked for", "statement": "All file reads are single read calls whose byte count is ignored. Whatever counts they return, the prover gets an answer from any file of full length: of each challenged block the bytes that were returned and zeros, the identifier of what was returned of the block before, and what was returned of the blocks this identifier names. It is accepted, sequentially and in parallel, exactly if unsealing the file with the same reads and compressing gives for each challenged block what the verifier's own read of the original shows. An answer that is accepted when the original is read completely stays accepted exactly if the unread bytes of the challenged blocks are zeros; so an honest prover can be rejected. Compressing a file and building a Merkle tree of it likewise see only the returned bytes, and with complete reads all functions are the usual ones.", "quantifier": "every number of bytes returned by every read of prover and verifier, every file, origin file, answer, set of positions, schedule, hash with 32-byte results; rounds with hash-chosen long dependencies within the limits of C78", "why_tests_cant": "Short reads depend on the operating system and do not occur with small local files.", "anchors": ["proof_of_storage/src/proof_of_storage/postorage.rs: test_pipeline", "proof_of_storage/src/proof_of_storage/verifier.rs: single_unseal_prepare, batch_verify", "proof_of_storage/src/proof_of_storage/prover.rs: copy_and_compress, unseal", "proof_of_storage/src/proof_of_storage/merkle_tree.rs: generate_merkle_tree_from_file", "proof_of_storage/src/proof_of_storage/common.rs: read_file"]}
{"id": "C114", "title": "What a panicking run leaves on disk", "statement": "seal_and_unseal never changes the origin file, and writes the public data only after the whole file is sealed. If the dependency modes do not allow a block to be sealed, the run panics with the padded original, unencoded, as the sealed file. With hash-chosen long dependencies on more than 65536 blocks (default count, or a fixed count of six or more) it panics with exactly the first 50 blocks (fixed count: the first block) sealed as described in C64 and the rest unencoded; the initial vector used is then on no file. With units of no bytes the sealed file is emptied; copy_and_compress, whatever the sizes, completes or leaves an empty file. unseal on any file of full length either completes or panics before its first write. In all remaining modes the run completes. (One to five hash-chosen short dependencies in blocks of more than 65536 units: C117.)", "quantifier": "every parameter set with a consistent layout (the statements on the origin, on a missing origin and on the public data: every parameter set), every origin content, previous disk content, random stream and hash with 32-byte results", "why_tests_cant": "The files at a panic are not visible to a test that expects the panic, and files of more than 65536 blocks are too large for one.", "anchors": ["proof_of_storage/src/proof_of_storage/postorage.rs: seal_and_unseal", "proof_of_storage/src/proof_of_storage/prover.rs: copy_and_pad, seal, unseal, copy_and_compress"]}
{"id": "C115", "title": "Ranges of blocks and whole runs when reads return fewer bytes than asked for", "statement": "Whatever the reads return, preparing a range of blocks prepares each of them as single_unseal_prepare does with the same reads, and batch_unseal_and_verify, and the check of the first ten blocks in parallel or not, return normally exactly if unsealing the file with the same reads and compressing gives for every block of the range what the verifier's own reads of the original show. merkle_tree_proof compares what its reads return, filled up with zeros. If the reads of copy_and_pad are short, seal_and_unseal goes on and the unsealed file is the original with zeros for the bytes that were not returned; a challenge of the leaves accepts it exactly if the lost bytes after the first block are zeros, up to collisions of the tree hash, so that losses in the first block are never noticed. A whole run of test_postorage that seals never panics, whatever its reads return, and its files are those of its parts; a run that only checks is accepted exactly if the checks of what its reads return are. With complete reads everything is as in the other claims.", "quantifier": "every number of bytes returned by every read, every sealed file of full length, origin file, range beginning on a block boundary, schedule, hash with 32-byte results; hash-chosen long dependencies within the limits of C78; lost bytes: the shipped parameter sets and runs without a zero input", "why_tests_cant": "Short reads depend on the operating system and do not occur with small local files.", "anchors": ["proof_of_storage/src/proof_of_storage/verifier.rs: batch_unseal_prepare, batch_unseal_and_verify", "proof_of_storage/src/proof_of_storage/postorage.rs: test_unseal_single_and_verify, merkle_tree_proof, seal_and_unseal, test_postorage", "proof_of_storage/src/proof_of_storage/prover.rs: copy_and_pad", "proof_of_storage/src/proof_of_storage/common.rs: read_file"]}
{"id": "C116", "title": "Positions within 64 bits", "statement": "With the limits of a 64-bit machine in place (a usize product or sum of 2^64 or more panics in the debug profile, a buffer of 2^63 bytes or more cannot be allocated, seeking to 2^63 or more fails), copy_and_pad, copy_and_compress, seal, unseal, single_unseal_prepare, batch_verify, batch_unseal_and_verify and generate_merkle_tree_from_file return exactly the results they return with unlimited positions, on condition that the last piece read or written starts below 2^63 and a piece is shorter than 2^63 bytes; otherwise they panic. For seal and unseal the last piece is the last block (dependencies come earlier), for the tree of a file it is one leaf beyond the last. batch_unseal_prepare needs moreover that the sum it computes after the last block of the range stays below 2^64. Whole runs of test_postorage and test_pipeline with any shipped parameter set, or with any sizes up to those limits, behave exactly as with unlimited positions, including their panics.", "quantifier": "all files, keys, parameters with usize unit sizes, block indices, ranges, hash functions, random choices, schedules", "why_tests_cant": "needs files of 2^63 bytes or exhaustive control of all sizes and indices", "anchors": ["proof_of_storage/src/proof_of_storage/common.rs: read_file, to_units", "proof_of_storage/src/proof_of_storage/prover.rs: copy_and_pad, seal, copy_and_compress, unseal", "proof_of_storage/src/proof_of_storage/verifier.rs: single_unseal_prepare, batch_unseal_prepare, batch_unseal_and_verify, batch_verify", "proof_of_storage/src/proof_of_storage/merkle_tree.rs: generate_merkle_tree_from_file", "proof_of_storage/src/proof_of_storage/postorage.rs: prepare_params, test_postorage, test_pipeline"]}
{"id": "C117", "title": "Blocks of more than 65536 units with hash-chosen short dependencies", "statement": "With at most five hash-chosen short dependencies per unit in blocks of more than 65536 units, seal succeeds exactly if the long dependencies are of a kind that works and, in the described run, each unit has enough numbers: of the five drawn from the hash of the present content of the unit before it at least as many as requested differ from its own position. Only units at the positions 768 to 1533 can lack some. On success the file is the one described for sealing. Otherwise seal panics at the first block with a unit that lacks numbers: the blocks before are sealed as described, this one and the later ones are as before, and seal_and_unseal leaves that file and touches neither the public data nor the unsealed file. unseal, on any file of full length, succeeds under the corresponding condition on the described unsealing, and otherwise panics at the last block with such a unit, leaving the blocks behind it unsealed and the others as they were; batch_unseal decodes a well-formed answer, honest or not, under the same condition, and panics otherwise. batch_unseal_parallel returns a block with a unit that lacks numbers as it was submitted and decodes the others. In a release build seal succeeds under the same condition on the numbers, with every static long mode, and leaves the described file.", "quantifier": "every parameter set with a consistent layout, more than 65536 units per block and at most five hash-chosen short dependencies, every padded file (unseal: every file), answer, initial vector and hash with 32-byte results", "why_tests_cant": "Such blocks have more than four million bytes, and whether a run panics depends on values of the hash that only occur by chance.", "anchors": ["proof_of_storage/src/proof_of_storage/prover.rs: seal, unseal", "proof_of_storage/src/proof_of_storage/verifier.rs: batch_unseal", "proof_of_storage/src/proof_of_storage/depend.rs: short_depend_random", "proof_of_storage/src/proof_of_storage/postorage.rs: seal_and_unseal"]}
{"id": "C118", "title": "Filling in the table of the proof of space: any file, stopped, and run again", "statement": "mark_space on any file that is long enough writes into the cell of every input the last input that belongs to it, with the flag, and changes nothing else: cells no input belongs to keep what they held, flag included, so after a change of the key without prepare_space old entries are still answered from. A run that is stopped leaves the completed entries of the inputs below some k and of the entry of k what lies in the first b bytes of the file, and every such content can be left. Starting from a table without flags, a flagged cell then holds the low bits of one input that belongs to it and the high bits of another (or the same) one: a cell of one input only is right, but a half-overwritten cell can make response_1 answer with an input that belongs elsewhere. Running mark_space again, after a stop or after a complete run, gives exactly the result of the undisturbed run.", "quantifier": "every key, message, list of constants, n from 1 to 63, every previous content of the file, every place of the stop; concrete runs for the two negative claims", "why_tests_cant": "A stop can hit any of the millions of writes, and the damage needs two inputs with the same cell.", "anchors": ["proof_of_space/src/proof_of_space/prover.rs: mark_space, response_1, prepare_space"]}
{"id": "C119", "title": "Answering from a file while it is being sealed or unsealed", "statement": "No lock protects the sealed file. A block prepared with single_unseal_prepare or batch_unseal_prepare while seal is still working on the file is prepared exactly as from the finished file, if the block and the blocks in front of it are read after they have been sealed, even if every read finds a different state and later blocks are half written; any selection of such blocks unseals to the plaintext, unless sealing encoded a zero. While unseal is working on the file, a challenge is answered exactly as from the sealed file, and accepted for an honestly sealed file, if every challenged block is read before unseal has reached it and the blocks in front of it before unseal has reached the one next to it. Whatever contents the reads find, there is an answer, and it is accepted, sequentially or in parallel, exactly if unsealing each challenged block as found, with the identifier and the dependency blocks as found, gives the original bytes. Concrete runs show that a block asked for too early or too late is answered wrongly without any error.", "quantifier": "every state of the file found by every single read, with half-written blocks, every file, every selection of blocks and every challenge, every working dependency mode, every hash with 32-byte results, every consistent configuration", "why_tests_cant": "Which states a reader finds depends on the timing of two processes; tests run one after the other.", "anchors": ["proof_of_storage/src/proof_of_storage/verifier.rs: single_unseal_prepare, batch_unseal_prepare", "proof_of_storage/src/proof_of_storage/postorage.rs: test_pipeline", "proof_of_storage/src/proof_of_storage/prover.rs: seal, unseal"]}
{"id": "C120", "title": "The project's own tests, for every random draw", "statement": "What the repository's test functions decide, for everything they can draw. The two randomised tests of the delay encoding pass exactly when no sample is all zero bytes and fail their assertion otherwise (zero does not survive the round trip), so they are flaky with one failing sample among 256^127 resp. 256^15. The Merkle tree test never panics for any file, any challenges and any 32-byte hash, and ends exactly when every sample draws ten different positions. The circuit tests of the MiMC maps and hashes pass for every draw if the proof system is complete, and fail if proofs are rejected. The tests of the power and equality circuits pass even when every proof is rejected, because they assert is_ok of a result whose value is the verdict. The fixed tests pass, and the one commented out as failing panics in a subtraction.", "quantifier": "every sequence of random bytes, challenges and field elements, every 32-byte hash, every behaviour of the proof system", "why_tests_cant": "a test run is one draw; what it would do for the others, and that an assertion can never fail, is a statement about all draws", "anchors": ["proof_of_storage/src/vde/rug_sloth.rs: test_sloth", "proof_of_storage/src/vde/sloth.rs: test_sloth", "proof_of_storage/src/vde/rug_vde.rs: test_vde", "proof_of_storage/src/vde/numbig_vde.rs: test_vde", "proof_of_storage/src/proof_of_storage/merkle_tree.rs: test", "proof_of_storage/src/proof_of_storage/depend.rs: test_long_mode_1, test_long_mode_2, test_short_mode_1, test_short_mode_2", "proof_of_space/src/circuit/pow_circuit.rs: test_pow", "proof_of_space/src/circuit/equal_circuit.rs: test_equal", "proof_of_space/src/circuit/mimc3_df_circuit.rs: test_mimc3_df", "proof_of_space/src/circuit/mimc5_df_circuit.rs: test_mimc5_df", "proof_of_space/src/circuit/mimc5_hash_circuit.rs: test_mimc5_hash", "proof_of_space/src/circuit/mimc7_hash_circuit.rs: test_mimc7_hash", "proof_of_space/src/proof_of_space/convert.rs: test_bytes_bits_convert, test_bits_usize_convert"]}
{"id": "C121", "title": "The recorded identifiers commit to the original file", "statement": "Let two different originals of the configured length be sealed with the same key, initial vector and parameters, in any mode that works, and let no zero be encoded in either run. Then the first block in which the originals differ is the first in which the sealed files differ; the recorded identifiers agree before it, and at it they agree only if these two different sealed blocks have the same hash. So equal identifier lists mean equal originals, unless two different sealed blocks at one position have the same hash, and equal Merkle roots of the identifiers mean the same unless the tree hash collides on two strings hashed for the two trees or on two identifiers of one block. With one sealing round, a hash that never returns 32 zero bytes and a modulus of the shipped size no condition on the runs is left. Where a zero is encoded nothing is bound: if the first unit of a block is zero after masking in the first round, another file, different in this unit only, has the same sealing and the same identifiers.", "quantifier": "every pair of originals, every initial vector, every consistent parameter set and working mode, all hashes with 32-byte results", "why_tests_cant": "A test compares a few sealings; that no two originals share their identifiers is a statement about all pairs of files, and the exception needs a residue that is met with probability about 2^-512", "anchors": ["proof_of_storage/src/proof_of_storage/prover.rs: seal, copy_and_pad", "proof_of_storage/src/proof_of_storage/merkle_tree.rs: generate_merkle_tree_from_data", "proof_of_storage/src/vde/rug_sloth.rs: single_sloth"]}
{"id": "C122", "title": "Sealing what is already sealed: the layers come off in the opposite order", "statement": "seal does not mind being given a sealed file. Calling it any number of times on the same file, each time with its own initial vector, number of rounds, dependency counts and block size (same unit size, number of units and key, hash-chosen long dependencies), never panics, keeps the length and everything behind the data, and calling unseal with the same parameters in the opposite order gives the file back, unless one of the calls handed the residue zero to the delay encoder. Taking off only the last layers gives the file as it was before they were put on, and only those layers must not have met zero. With padding before and compression after this ends with the bytes of the original. The order matters: a concrete run shows that taking the layers off in the order in which they were put on does not give the file back.", "quantifier": "every list of layers, every file of residues (every original of the configured length for the padded version), every hash with 32-byte results, every consistent configuration; all shipped parameter sets with the 512-bit key and any list of initial vectors", "why_tests_cant": "The tests seal a file once. That the output of seal is again a legal input (every unit is below the modulus although it no longer has a zero padding byte) and that two layers with different block sizes undo each other depends on every unit and every dependency of every layer.", "anchors": ["proof_of_storage/src/proof_of_storage/prover.rs: seal, unseal, copy_and_pad, copy_and_compress"]}
{"id": "C123", "title": "How evenly hash-chosen dependencies are spread", "statement": "Counted over all values of the 16 hash bytes from which dependencies are chosen: in blocks whose number of units divides 256 (the two smaller shipped sets) the other units are equally often short dependencies of a unit. Among 257 to 65536 positions the spread is triangular: a number d is made by d - 255 pairs of bytes up to 511 and by 767 - d after, so with 1024 or 4096 units per block (the two larger shipped sets) unit 511 is drawn 256 times as often as the units 256 and 766, and unit d is no dependency for exactly (65536 - pairs)^8 of the 65536^8 values. Among at most 256 blocks a block d is no long dependency of block k for exactly (256 - m)^count * 256^(16 - count) values, where m is 256/k, plus one for the first 256 mod k blocks: these are favoured.", "quantifier": "every family of hash functions that takes each 16-byte prefix at the seed once, every seed, every position; up to 16 long dependencies among at most 256 blocks, fewer than 32 above; fewer than 16 short ones in small blocks, 8 to 31 in large ones", "why_tests_cant": "A frequency over 2^128 hash values is not observable by running; a test sees single draws.", "anchors": ["proof_of_storage/src/proof_of_storage/depend.rs: long_mode_random, short_depend_random"]}
{"id": "C124", "title": "There are no updates in place", "statement": "If one block of the original file is changed, sealing again (one sealing round, same key and initial vector) leaves the sealed blocks and identifiers in front of it as they were, and changes the sealed form and the identifier of that block and of every block behind it, down to the first unit of each later block, although the later blocks of the original are the same - unless two different strings hashed at the same place of the two runs (the input of the first mask of a block, or a sealed block) have the same digest. A prover cannot patch a stored file, and a client has to publish all identifiers from the changed block on again.", "quantifier": "every 32-byte hash that never returns 32 zero bytes, every consistent parameter set with one sealing round, every modulus of at least 256^unit + 256^32 as in the shipped sets, all pairs of originals, every position of the change", "why_tests_cant": "A test changes some file with SHA-256; that a change is carried through to the end for every file and position needs the chain of blocks.", "anchors": ["proof_of_storage/src/proof_of_storage/prover.rs: seal, copy_and_pad"]}
{"id": "C125", "title": "Unsealing with another number of rounds", "statement": "seal_rounds is not stored with the file. Unsealing with fewer rounds than the file was sealed with never panics and leaves every block exactly as it was after the remaining rounds of its sealing (so the first block is the first block of the file sealed with the difference, but the later ones are not, as they were sealed behind other blocks); with more rounds every block is unsealed further than the plaintext, with the dependencies and chaining value of the sealed file. Nothing in the result tells the caller about the mistake. A prover who sealed with fewer rounds than the verifier expects (or kept the padded file itself) is accepted exactly on those challenges for which this further unsealing happens to give the original bytes back.", "quantifier": "every 32-byte hash, every consistent parameter set with hash-chosen long dependencies, every file of residues, every initial vector, every number of rounds on either side, as long as no zero was encoded", "why_tests_cant": "A test tries the matching number of rounds; what comes out with any other number, for every file, is the composition of all encodings.", "anchors": ["proof_of_storage/src/proof_of_storage/prover.rs: seal, unseal", "proof_of_storage/src/proof_of_storage/verifier.rs: batch_unseal, batch_verify"]}
{"id": "C126", "title": "How likely it is that sealing loses a unit", "statement": "Which strings sealing hashes can be listed: for each unit those from which its short dependencies are chosen and the input of its mask, for each block those from which its long dependencies are chosen, and the sealed block itself; two hash functions that agree on these strings produce the same sealed file and the same identifiers. Consider all 256^32-valued tables on any finite set of strings as hash functions. Among them the share under which some unit of the rounds from r0 on is zero when it is encoded, although its mask was hashed from a string of the set that had not been hashed before, is at most blocks * (rounds - r0) * units per block / 256^32, and this bound is attained. Hence the share of tables under which a stored file is not retrieved is at most blocks * (rounds - 1) * units per block / 256^32, leaving aside the tables with a zero digest among the masks of the first round and those under which a unit is lost to a mask that is hashed outside the set or repeats an earlier hash input. For the shipped sets that is at most 2^20 in 2^256.", "quantifier": "every finite set of strings, every hash function outside it, every consistent parameter set with hash-chosen dependencies, every number of rounds, every modulus of at least 256^32 (retrieval: 256^unit + 256^32, as in the shipped sets), every file and initial vector", "why_tests_cant": "A test uses SHA-256 on a few files and never meets a zero; a probability is a statement about all hash functions.", "anchors": ["proof_of_storage/src/proof_of_storage/prover.rs: seal, unseal", "proof_of_storage/src/proof_of_storage/depend.rs: long_mode_random, short_depend_random"]}
{"id": "C127", "title": "Without short dependencies every unit is sealed on its own", "statement": "With cnt_s = 0 every unit is sealed by adding the same digest before each of its encodings, namely the digest of the sealed units at the same place in the blocks its block refers to, followed for the first unit by the initial vector or the previous identifier; no other unit of its block enters. So a block can be sealed by as many processors as it has units; in the first block equal units (other than the first) are sealed alike, at any place, in any file and with any initial vector; and with static long dependencies all units other than the first ones of the blocks are the same in copies sealed with different initial vectors. With at least one static short dependency (mode_s = 1, one sealing round) it is the other way round: where two sealed files, of whatever contents and initial vectors, differ in a unit, they also differ in the next unit of the block if its plaintext is the same, unless the two different inputs of its masks have the same digest. With hash-chosen short dependencies, as shipped, this fails: a difference may skip the next unit.", "quantifier": "every 32-byte hash (second part: one that never returns 32 zero bytes), every consistent parameter set with cnt_s = 0 and any number of rounds (second part: mode_s = 1, cnt_s at least 1, one round, modulus of at least 256^unit + 256^32), all files of residues, all initial vectors, every position", "why_tests_cant": "A test compares sealed files for one setting; which inputs a sealed unit depends on is a statement about all pairs of files.", "anchors": ["proof_of_storage/src/proof_of_storage/prover.rs: seal", "proof_of_storage/src/proof_of_storage/depend.rs: short_mode_1"]}
{"id": "C128", "title": "What it costs to pass without ever sealing", "statement": "A prover that keeps only the original file and the public data can make, for every block, an answer from the bytes of that block alone, with no dependency blocks and an empty identifier, by exactly seal_rounds delay encodings per unit. The answers do not depend on the challenge, the nonce or the published identifiers, so they are made once per block, on demand and independently of each other: a round on m blocks costs at most m * seal_rounds * (units per block) encodings, while sealing the file costs this for all its blocks. The verifier accepts them sequentially and in parallel, unless a zero was encoded in a challenged block.", "quantifier": "every original file, 32-byte hashes, consistent parameter set with hash-chosen short dependencies, every list of identifiers, every challenge, nonce, number of workers and complete schedule", "why_tests_cant": "That an attack works against every challenge and costs an exact number of encodings is a statement about all rounds; tests only run honest provers.", "anchors": ["proof_of_storage/src/proof_of_storage/verifier.rs: batch_unseal, batch_verify, batch_unseal_parallel", "proof_of_storage/src/proof_of_storage/prover.rs: seal", "proof_of_storage/src/proof_of_storage/postorage.rs: test_pipeline"]}
{"id": "C129", "title": "The two storage tests share their files", "statement": "test_pipeline gives the same verdict, and leaves the same origin, sealed and unsealed files, whatever was on the disk before. When it completes, the origin and the unsealed file are the file it created, the sealed file has been replaced by the padded original, and the public data file loads back to the key and initial vector it drew (the first three hold unless a zero was encoded). The other test, which only checks the first ten blocks, works on these files: after a completed test_pipeline it passes exactly if unsealing the padded original once more, with its own parameters, and compressing gives the first ten blocks of the original back; otherwise it panics; it changes no file. More generally, on any stored file of full length the check passes exactly if unsealing and compressing that file restores the first ten blocks. Its verdict therefore depends on what ran before: the same check with the same parameters panics on an empty disk, passes after a run that only seals, and panics after test_pipeline (a concrete run of all three).", "quantifier": "every hash (32-byte hashes for the check), every disk, every drawn file and initial vector, every number of rounds and challenges, every schedule; parameter sets with hash-chosen long dependencies, at least ten blocks for the check and units of the same size, among them all shipped ones", "why_tests_cant": "A test run sees one history of the disk and one drawn file; here the verdict is characterised for all of them.", "anchors": ["proof_of_storage/src/proof_of_storage/postorage.rs: test_pipeline, test, test_postorage, test_unseal_single_and_verify, create_random_file"]}
{"id": "C130", "title": "The check of the first ten blocks while the files are being written", "statement": "cargo test runs test and test_pipeline at the same time, without locks, on the same files. Whatever contents the single reads of the check find, it passes exactly if unsealing each of the first ten blocks as its own read found it, with the initial vector that was loaded, the identifier of the block before and the dependency blocks as the other reads found them, gives units that begin with the bytes found in the original. If what is read of the sealed file for block k agrees with some file up to the end of block k (for the further reads: up to its start), the verdict is that for this file, however unfinished the rest is. In particular, while seal is at work the public data on disk is still that of an earlier run, because it is saved only afterwards: if every block is read after it was sealed, blocks 1 to 9 pass all the same, and the check passes exactly if block 0, unsealed with the old initial vector, gives the bytes of the original.", "quantifier": "every 32-byte hash, every consistent parameter set of at least ten blocks with modes that can be sealed, every content found by every read, every initial vector loaded; third part: every honest sealing without a zero encoder input, every moment", "why_tests_cant": "Such races depend on the timing of two threads; a test cannot enumerate the contents that reads may find.", "anchors": ["proof_of_storage/src/proof_of_storage/postorage.rs: test_unseal_single_and_verify, test, test_pipeline, save_data, load_data", "proof_of_storage/src/proof_of_storage/verifier.rs: batch_unseal_prepare, batch_verify"]}
{"id": "C131", "title": "What test_pipeline leaves when it panics", "statement": "However test_pipeline ends, the origin file is the newly created one, and it ends with the same panic or the same files as described in C129. If sealing panics, the public data file and the unsealed file are as before. If a challenge round panics, the sealed file is the one seal made, the unsealed file is as before, and the key and initial vector of the run can be loaded from the public data file; if moreover no unit was zero when it was encoded, unsealing and compressing these files gives back the origin file. If all rounds pass, the sealed file has been replaced by the result of unsealing and the unsealed file by its compression before the two roots are compared, so both are there also when the comparison fails; it panics exactly if the roots differ. In every case the files left are those of a run of seal_and_unseal (C114) on the new origin file, with its unsealing if all rounds passed and without it otherwise; if already the tree of the origin file cannot be built, only the origin file has changed.", "quantifier": "for all hash functions, parameters, random bytes, round choices and previous files; recovery for hash-chosen long dependencies", "why_tests_cant": "A test sees the files of runs that pass; the order of writes matters only in runs that stop at a check.", "anchors": ["proof_of_storage/src/proof_of_storage/postorage.rs: test_pipeline", "proof_of_storage/src/proof_of_storage/prover.rs: seal, unseal, copy_and_pad, copy_and_compress"]}
{"id": "C132", "title": "What test_postorage leaves however it ends", "statement": "The checks of test_postorage change none of the four data files: without the seal switch all of them are as before, whether the run completes, panics or does not finish; with it they are those seal_and_unseal leaves on the new origin file (C114), and a panic of seal_and_unseal is the panic of the run. After a run whose sealing went through, a run with the same check switches and choices but without sealing ends in the same way and leaves the same files. With the seal and the challenge switch but not the unseal switch, the new origin file is compared with the unsealed file of an earlier run: without such a file the run panics, otherwise it passes if the two roots agree and panics if they differ.", "quantifier": "for all hash functions (32-byte hashes for the roots), parameters, switches, workers, random choices and previous files", "why_tests_cant": "That a check never touches a file, and what it compares after an incomplete sequence of switches, is a statement about all files and all ways to fail.", "anchors": ["proof_of_storage/src/proof_of_storage/postorage.rs: test_postorage, seal_and_unseal, test_unseal_single_and_verify, merkle_tree_proof"]}
{"id": "C133", "title": "How many round constants and bits are accepted", "statement": "Every circuit panics at an assertion, in key generation as in proving and whatever its inputs are, unless it is given exactly its number of round constants (322, 10, 10 and 91; for the space circuit 10 and 10) or bits (20 for the power, 256 for the equality circuit). The Feistel functions return a value with exactly 322 or 10 constants and panic at an assertion otherwise. The hash functions have no such assertion: with fewer than 10 or 91 constants they panic with an index out of range, with as many or more they return a value, which depends neither on the first constant nor on those behind the last round. Over several inputs they need the same number of constants, except that without inputs they return the key whatever the constants are. So there are lists of constants for which a hash can be computed but never proved.", "quantifier": "for all fields, inputs, lists of constants and bits, and states of the constraint system", "why_tests_cant": "The tests always pass lists of the right length; what happens for every other length is a statement about infinitely many lists.", "anchors": ["proof_of_space/src/mimc/mimc_df.rs: mimc3_df, mimc5_df", "proof_of_space/src/mimc/mimc_hash.rs: mimc5_hash, mimc7_hash, multi_mimc5_hash, multi_mimc7_hash", "proof_of_space/src/circuit/pospace_circuit.rs: generate_constraints", "proof_of_space/src/circuit/equal_circuit.rs: generate_constraints", "proof_of_space/src/circuit/pow_circuit.rs: generate_constraints"]}
{"id": "C134", "title": "The digest of several inputs is a chain", "statement": "The multi-input hashes carry on from a digest: the digest of xs followed by ys under a key is the digest of ys under the digest of xs as key, with the same panics. So whoever knows a digest can extend the inputs without knowing the key or the inputs, two prefixes with the same digest under whatever keys can be exchanged in front of anything, and the digest fixes neither the key nor the number of inputs: leaving out the first input gives the same digest under another key, which does not depend on the remaining inputs.", "quantifier": "for all fields, keys, lists of inputs and constants (enough constants for the last part)", "why_tests_cant": "Collisions between lists of different lengths under different keys are statements about all lists and keys.", "anchors": ["proof_of_space/src/mimc/mimc_hash.rs: multi_mimc5_hash, multi_mimc7_hash"]}
