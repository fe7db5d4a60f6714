{"id": "C01", "title": "lyra2: exact set of arguments for which a call returns", "statement": "In a build with overflow checks, lyra2(k, pwd, salt, time_cost, n_rows, n_cols) returns a value exactly when time_cost >= 1, n_rows >= 3, k <= 96, the matrix of 96*n_rows*n_cols bytes does not exceed isize::MAX, and the padded input of floor((|pwd|+|salt|+48)/64)+1 blocks of 8 words fits in the 12*n_rows*n_cols words of the matrix. For every other argument tuple it panics; it never runs forever.", "quantifier": "all u64 values of k, time_cost, n_rows, n_cols and all byte vectors pwd, salt of length <= isize::MAX", "why_tests_cant": "the argument space is 2^256 times all byte strings, and a non-terminating or panicking corner cannot be excluded by samples", "anchors": ["src/lyra2.rs:lyra2", "src/lyra2.rs:squeeze"]}
{"id": "C02", "title": "lyra2: documented panics happen", "statement": "A call with time_cost < 1 or n_rows < 3 panics, in every build profile, whatever the other arguments are.", "quantifier": "all other arguments, both build profiles", "why_tests_cant": "the remaining arguments range over an unbounded space", "anchors": ["src/lyra2.rs:lyra2"]}
{"id": "C03", "title": "lyra2: output has exactly the requested length", "statement": "Whenever lyra2(k, ...) returns, the returned vector has exactly k bytes (and, on a domain where it is defined, k is at most 96).", "quantifier": "all arguments, both build profiles", "why_tests_cant": "length must hold for every key size and input", "anchors": ["src/lyra2.rs:lyra2", "src/lyra2.rs:squeeze"]}
{"id": "C04", "title": "lyra2: the wandering loop terminates for every row count", "statement": "The unbounded `loop` of the wandering phase ends for every n_rows (also when n_rows is not a power of two, although rows are then chosen with a bit mask) and every pass number; one pass performs at most n_rows row operations.", "quantifier": "all row counts, all pass numbers, all matrix contents", "why_tests_cant": "non-termination can only be excluded by proof; the row sequence depends on bit patterns of n_rows", "anchors": ["src/lyra2.rs:lyra2", "src/lyra2mod/mod.rs:lyra2mod"]}
{"id": "C05", "title": "lyra2: agrees with the reference Lyra2 for complete words and a power of two of rows", "statement": "When |pwd| and |salt| are multiples of 8, n_rows is a power of two and the arguments are in the domain of C01, the result is the reference Lyra2 key: byte-wise 10*1 padding of pwd || salt || basil, BLAKE2b-round sponge, setup, time_cost wandering passes over an n_rows x n_cols matrix of 12-word blocks with rows reduced modulo n_rows, final absorb and squeeze of k bytes. (For other row counts the crate masks instead of reducing modulo n_rows and does not compute the reference, see C14, C15, C42.)", "quantifier": "all in-domain arguments with lengths that are multiples of 8 and n_rows = 2^j, both build profiles", "why_tests_cant": "functional equality over an unbounded domain", "anchors": ["src/lyra2.rs:lyra2", "src/lyra2.rs:absorb_block_blake2_safe", "src/lyra2.rs:absorb_block", "src/lyra2.rs:squeeze", "src/lyra2.rs:round_lyra"]}
{"id": "C06", "title": "lyra2: exact functional result for every in-domain call", "statement": "For every in-domain call, of any input length, the result is the Lyra2 algorithm run on the word sequence made of the complete 8-byte words of pwd, the complete 8-byte words of salt, the six basil words (with the true byte lengths), and the padding.", "quantifier": "all in-domain arguments, both build profiles", "why_tests_cant": "functional equality over an unbounded domain", "anchors": ["src/lyra2.rs:lyra2"]}
{"id": "C07", "title": "lyra2: incomplete trailing words are ignored", "statement": "The outcome of lyra2 does not depend on the last |pwd| mod 8 bytes of pwd nor on the last |salt| mod 8 bytes of salt: two calls whose inputs agree on lengths and complete words have the same outcome (value or panic).", "quantifier": "all arguments, both build profiles", "why_tests_cant": "a claim about pairs of inputs of every length", "anchors": ["src/lyra2.rs:lyra2"]}
{"id": "C08", "title": "lyra2::sum: inputs shorter than 8 bytes collide by length", "statement": "lyra2::sum gives one and the same result for all inputs of the same length when that length is below 8; so lyra2::sum is not collision free, e.g. sum(\"abc\") = sum(\"xyz\").", "quantifier": "all pairs of byte strings of equal length below 8", "why_tests_cant": "a claim about all pairs", "anchors": ["src/lyra2.rs:sum", "src/lyra2.rs:lyra2"]}
{"id": "C09", "title": "lyra2: the absorbed message determines everything that is absorbed", "statement": "Two calls absorb the same block sequence if and only if they agree on k, |pwd|, |salt|, time_cost, n_rows, n_cols and on the complete 8-byte words of pwd and salt. In particular for lengths that are multiples of 8 different argument tuples never absorb the same blocks (no pwd/salt boundary confusion).", "quantifier": "all pairs of argument tuples", "why_tests_cant": "injectivity of an encoding over unbounded strings", "anchors": ["src/lyra2.rs:lyra2"]}
{"id": "C10", "title": "lyra2: debug and release builds agree", "statement": "Whenever a build with overflow checks returns a value, the build without overflow checks returns the same value; and on every argument tuple with n_rows < 2^63 the two builds both return or both panic.", "quantifier": "all arguments", "why_tests_cant": "arithmetic overflow corner cases lie at 2^60 and beyond, never reached by tests", "anchors": ["src/lyra2.rs:lyra2"]}
{"id": "C11", "title": "lyra2: release builds never return with an undersized matrix", "statement": "A call that returns has used a matrix of n_rows*n_cols blocks. True with overflow checks; without overflow checks true for n_rows < 2^63, and FALSE for n_rows >= 2^63 (n_rows*n_cols*12 wraps: n_rows = 2^63+4, n_cols = 1 returns after working on 48 words).", "quantifier": "all arguments, both profiles", "why_tests_cant": "parameters near 2^63 cannot be tested for absence of wrap-around", "anchors": ["src/lyra2.rs:lyra2"]}
{"id": "C12", "title": "Setup: row visitation", "statement": "During setup, when row r is computed (2 <= r < n_rows) from row r-1 and the revisited row r*, r* < r-1; and within every window [w, 2w) of rows, w a power of two, the revisited rows are pairwise different, and a complete window revisits each of the w earlier rows exactly once.", "quantifier": "all row counts, all rows", "why_tests_cant": "an invariant of a loop of unbounded length", "anchors": ["src/lyra2.rs:lyra2"]}
{"id": "C13", "title": "Wandering: powers of two visit every row once per pass", "statement": "If n_rows is a power of two (>= 4), every wandering pass rewrites each row exactly once, in the order i*(n_rows/2-1) mod n_rows for odd passes and 0, n_rows-1, n_rows-2, ..., 1 for even passes.", "quantifier": "all powers of two, all passes", "why_tests_cant": "unbounded family of row counts", "anchors": ["src/lyra2.rs:lyra2", "src/lyra2mod/mod.rs:lyra2mod"]}
{"id": "C14", "title": "Wandering: other row counts leave rows untouched", "statement": "If n_rows is not a power of two there is a row that no wandering pass ever writes (neither as row nor as row*): its content after setup is still there at the end, for every input and time_cost. Exactly the rows r with r AND (n_rows-1) != r are never written; even passes visit exactly the rows with r AND (n_rows-1) = r.", "quantifier": "all row counts >= 3, all inputs, all time costs", "why_tests_cant": "a frame claim over all executions", "anchors": ["src/lyra2.rs:lyra2"]}
{"id": "C15", "title": "Wandering: n_rows = 2^j+1 performs a single row operation per odd pass", "statement": "For n_rows = 2^j + 1, j >= 1, every odd pass performs exactly one row operation instead of n_rows.", "quantifier": "all j", "why_tests_cant": "unbounded family", "anchors": ["src/lyra2.rs:lyra2"]}
{"id": "C16", "title": "Password copy is erased by the end of setup", "statement": "After setup no word of the matrix still holds input material: matrix and sponge state after setup are a function of the sponge state after absorbing the input and of n_rows, n_cols only, whatever the matrix held before.", "quantifier": "all in-domain arguments, all previous matrix contents", "why_tests_cant": "non-interference claim over all pairs of executions", "anchors": ["src/lyra2.rs:lyra2"]}
{"id": "C17", "title": "lyra2::sum: accepted input sizes", "statement": "lyra2::sum(input) returns 32 bytes for every input of at most 743 bytes and panics for every longer input, in every build profile.", "quantifier": "all inputs, both profiles", "why_tests_cant": "all lengths and contents", "anchors": ["src/lyra2.rs:sum"]}
{"id": "C18", "title": "lyra2: output is the truncated sponge state; k > 96 is refused", "statement": "For k <= 96 the output is the first k bytes of the little-endian serialisation of the 12 rate words after the last absorb; for every k > 96 the call panics although k is not mentioned in the documented panics.", "quantifier": "all k, all sponge states", "why_tests_cant": "all key sizes", "anchors": ["src/lyra2.rs:squeeze"]}
{"id": "C19", "title": "lyra2mod: same domain, same length guarantee", "statement": "The row-selection variant used by lyra2rev3 has exactly the same domain as lyra2 (C01), terminates, and returns k bytes.", "quantifier": "all arguments", "why_tests_cant": "as C01", "anchors": ["src/lyra2mod/mod.rs:lyra2mod"]}
{"id": "C20", "title": "lyra2mod: agrees with its specification", "statement": "On its domain lyra2mod equals Lyra2 with the row* selection rule index := state[index mod 16]; row* := state[index mod 16] AND (n_rows-1), the index being carried through all passes from 0. When |pwd| and |salt| are multiples of 8 and n_rows is a power of two, padding and row order are those of the reference.", "quantifier": "all in-domain arguments, both profiles", "why_tests_cant": "functional equality over an unbounded domain", "anchors": ["src/lyra2mod/mod.rs:lyra2mod", "src/lyra2mod/mod.rs:sum"]}
{"id": "C21", "title": "Sponge permutation is a bijection equal to the BLAKE2b round", "statement": "One sponge round is the BLAKE2b round (G with rotations 32,24,16,63 on columns, then diagonals, zero message) on every state, and the full and reduced sponge transformations are bijections of the 1024-bit state.", "quantifier": "all 2^1024 states", "why_tests_cant": "state space not enumerable", "anchors": ["src/lyra2.rs:g", "src/lyra2.rs:round_lyra", "src/lyra2.rs:blake2b_lyra", "src/lyra2.rs:reduced_blake2b_lyra"]}
{"id": "C22", "title": "All-zero state is a fixed point that no absorbed state reaches by itself", "statement": "The sponge transformation maps only the all-zero state to the all-zero state, and the initial state (and hence the state reached by absorbing any first block) is never all-zero.", "quantifier": "all states, all first blocks", "why_tests_cant": "2^1024 states / 2^512 blocks", "anchors": ["src/lyra2.rs:init_state", "src/lyra2.rs:blake2b_lyra"]}
{"id": "C23", "title": "Absorbing loses nothing", "statement": "From one and the same sponge state, absorbing two different blocks leads to different states. For pwd = salt = a 32-byte digest (as in lyra2::sum on 32-byte inputs and all hash chains), different digests lead to different sponge states after absorbing the input.", "quantifier": "all states, all blocks, all digests", "why_tests_cant": "2^512 blocks per state", "anchors": ["src/lyra2.rs:absorb_block_blake2_safe", "src/lyra2.rs:absorb_block", "src/lyra2.rs:sum"]}
{"id": "C24", "title": "cubehash: domain, output length and used prefix", "statement": "The CubeHash stage panics for fewer than 32 bytes, otherwise returns 32 bytes that depend on the first 32 bytes only.", "quantifier": "all byte vectors", "why_tests_cant": "all lengths and contents", "anchors": ["src/cubehash/mod.rs:sum", "src/cubehash/mod.rs:input_block"]}
{"id": "C25", "title": "cubehash: equals CubeHash16/32-256 on 32-byte messages", "statement": "On every 32-byte message the stage returns CubeHash160+16/32+160-256 as specified by Bernstein (bit-indexed 32-word state, ten-step round, 0x80 padding, finalisation). On longer messages it returns the CubeHash of the first 32 bytes.", "quantifier": "all 2^256 messages", "why_tests_cant": "message space not enumerable", "anchors": ["src/cubehash/mod.rs:sum", "src/cubehash/mod.rs:sixteen_rounds", "src/cubehash/mod.rs:input_block", "src/cubehash/mod.rs:new_cube_hash"]}
{"id": "C26", "title": "cubehash: unrolled rounds and IV are right", "statement": "The unrolled register-renamed code performs exactly 16 rounds of the specified round function on every state, and the constant IV is the specified initial state (32,32,16,0,...) after 160 rounds.", "quantifier": "all 2^1024 states", "why_tests_cant": "state space not enumerable", "anchors": ["src/cubehash/mod.rs:sixteen_rounds", "src/cubehash/mod.rs:IV"]}
{"id": "C27", "title": "cubehash: no collision before truncation", "statement": "Two different 32-byte messages lead to different final 1024-bit states; the only information loss is the truncation to 32 bytes.", "quantifier": "all pairs of messages", "why_tests_cant": "2^512 pairs", "anchors": ["src/cubehash/mod.rs:sum", "src/cubehash/mod.rs:sixteen_rounds"]}
{"id": "C28", "title": "bmw: domain and output length", "statement": "The BMW stage returns 32 bytes for every input of at most 63 bytes and panics for every longer input.", "quantifier": "all byte vectors", "why_tests_cant": "all lengths and contents", "anchors": ["src/bmw/mod.rs:sum"]}
{"id": "C29", "title": "bmw: equals BMW-256 up to 55 bytes", "statement": "For every input of at most 55 bytes the stage returns Blue Midnight Wish-256 as specified (padding with 0x80 and 64-bit length, f0/f1/f2 compression given by tables, final compression with the constant chaining value, last 8 words).", "quantifier": "all inputs of at most 55 bytes", "why_tests_cant": "2^440 inputs", "anchors": ["src/bmw/mod.rs:sum", "src/bmw/mod.rs:compress", "src/bmw/mod.rs:circular_left"]}
{"id": "C30", "title": "bmw: inputs of 56 to 63 bytes are not padded correctly", "statement": "For inputs of 56..63 bytes the bytes from position 56 on are ignored, so inputs of equal length that agree on the first 56 bytes collide; and for each length 56..63 there is an input whose result is not its BMW-256 digest.", "quantifier": "all inputs of 56..63 bytes", "why_tests_cant": "claim about all pairs", "anchors": ["src/bmw/mod.rs:sum"]}
{"id": "C31", "title": "bmw: padded block determines the input up to 55 bytes", "statement": "Different inputs of at most 55 bytes are compressed as different 16-word message blocks.", "quantifier": "all pairs of inputs", "why_tests_cant": "injectivity over all pairs", "anchors": ["src/bmw/mod.rs:sum"]}
{"id": "C32", "title": "bmw: the message mixing of the compression function is a bijection", "statement": "For every chaining value, the first 16 words of the extended pipe are a bijective function of the 16 message words.", "quantifier": "all chaining values and messages", "why_tests_cant": "2^512 messages per chaining value", "anchors": ["src/bmw/mod.rs:compress"]}
{"id": "C33", "title": "little-endian readers", "statement": "read_u32_le / read_u64_le return the little-endian value of the first 4 / 8 bytes, invert to_le_bytes, and panic exactly on shorter slices.", "quantifier": "all byte slices", "why_tests_cant": "2^64 words, all slice lengths", "anchors": ["src/utils.rs:read_u32_le", "src/utils.rs:read_u64_le"]}
{"id": "C34", "title": "lyra2re::sum is total and returns 32 bytes", "statement": "For every input, of any length, lyra2re::sum returns (no panic, no divergence) a 32-byte vector, in every build profile, provided the external digests return 32 bytes.", "quantifier": "all inputs, both profiles, all 32-byte-valued external digests", "why_tests_cant": "all lengths and contents", "anchors": ["src/lyra2re.rs:sum"]}
{"id": "C35", "title": "lyra2rev2::sum is total and returns 32 bytes", "statement": "As C34 for lyra2rev2::sum.", "quantifier": "all inputs, both profiles, all 32-byte-valued external digests", "why_tests_cant": "all lengths and contents", "anchors": ["src/lyra2rev2.rs:sum"]}
{"id": "C36", "title": "lyra2rev3::sum is total and returns 32 bytes", "statement": "As C34 for lyra2rev3::sum.", "quantifier": "all inputs, both profiles, all 32-byte-valued external digests", "why_tests_cant": "all lengths and contents", "anchors": ["src/lyra2rev3.rs:sum"]}
{"id": "C37", "title": "lyra2z::sum is total and returns 32 bytes", "statement": "As C34 for lyra2z::sum.", "quantifier": "all inputs, both profiles, all 32-byte-valued external digests", "why_tests_cant": "all lengths and contents", "anchors": ["src/lyra2z.rs:sum"]}
{"id": "C38", "title": "hash chains compute the published compositions of reference algorithms", "statement": "lyra2re = Groestl256 . Skein512-256 . Lyra2(t=1,R=8,C=8) . Keccak256 . Blake256; lyra2rev2 = BMW256 . CubeHash256 . Skein512-256 . Lyra2(1,4,4) . CubeHash256 . Keccak256 . Blake256; lyra2rev3 = BMW256 . Lyra2mod(1,4,4) . CubeHash256 . Lyra2mod(1,4,4) . Blake256; lyra2z = Lyra2(8,8,8) . Blake256; with Lyra2, CubeHash and BMW being the reference algorithms, pwd = salt = previous digest, 32-byte keys.", "quantifier": "all inputs, both profiles, all 32-byte-valued external digests", "why_tests_cant": "functional equality over an unbounded domain", "anchors": ["src/lyra2re.rs:sum", "src/lyra2rev2.rs:sum", "src/lyra2rev3.rs:sum", "src/lyra2z.rs:sum"]}
{"id": "C39", "title": "hash chains depend on the input through its Blake-256 digest only, and not on the build profile", "statement": "Two inputs with the same Blake-256 digest have the same lyra2re, lyra2rev2, lyra2rev3 and lyra2z results; and debug and release builds give the same result.", "quantifier": "all pairs of inputs", "why_tests_cant": "claim about all pairs", "anchors": ["src/lyra2re.rs:sum", "src/lyra2rev2.rs:sum", "src/lyra2rev3.rs:sum", "src/lyra2z.rs:sum"]}
{"id": "C40", "title": "row indices stay inside the matrix", "statement": "In every in-domain run, every row index used (row, prev, row*) in setup and wandering is below n_rows, and every row operation writes only to row and row* (all other rows keep their content).", "quantifier": "all in-domain runs, all row operations", "why_tests_cant": "loop invariant over unbounded executions with data-dependent indices", "anchors": ["src/lyra2.rs:lyra2", "src/lyra2mod/mod.rs:lyra2mod"]}
{"id": "C41", "title": "hash chains with the published digests are total and equal to the published chains", "statement": "If blake-hash, sha3, skein-hash and groestl compute BLAKE-256, Keccak-256, Skein-512-256 and Groestl-256 as published, then lyra2re::sum, lyra2rev2::sum, lyra2rev3::sum and lyra2z::sum return, for every input, the value of Lyra2RE, Lyra2REv2, Lyra2REv3 and Lyra2Z; the published digests return 32 bytes on every input, so the assumption of C34-C38 is met.", "quantifier": "all byte strings, both profiles", "why_tests_cant": "functional equality over an unbounded domain", "anchors": ["src/lyra2re.rs:sum", "src/lyra2rev2.rs:sum", "src/lyra2rev3.rs:sum", "src/lyra2z.rs:sum"]}
{"id": "C42", "title": "lyra2: not the reference Lyra2 when n_rows is not a power of two", "statement": "For every n_rows >= 3 that is not a power of two there is a row that the reference recomputes in every even wandering pass and the crate in none; and there is an accepted call, with |pwd| and |salt| multiples of 8, whose result is not the reference Lyra2 key (the condition n_rows = 2^j of C05 cannot be dropped).", "quantifier": "all row counts that are not powers of two, all even passes, all inputs; existence of a differing call", "why_tests_cant": "a claim about every row count and every execution", "anchors": ["src/lyra2.rs:lyra2"]}
{"id": "C43", "title": "lyra2mod: row order, number of row operations and row bounds", "statement": "In the variant used by lyra2rev3, with n_rows a power of two every pass rewrites each row exactly once in the order of C13; for any n_rows a pass performs at most n_rows row operations; and row, prev and the row* chosen through state[state[index mod 16] mod 16] are always below n_rows.", "quantifier": "all matrix shapes, passes, sponge states and matrix contents, both profiles", "why_tests_cant": "loop invariants over unbounded executions with data-dependent indices", "anchors": ["src/lyra2mod/mod.rs:lyra2mod"]}
{"id": "C44", "title": "lyra2mod::sum: accepted input sizes and short inputs", "statement": "lyra2mod::sum returns 32 bytes for every input of at most 743 bytes and panics for every longer one; all inputs of one length below 8 have the same result.", "quantifier": "all inputs, both profiles", "why_tests_cant": "all lengths and contents", "anchors": ["src/lyra2mod/mod.rs:sum"]}
{"id": "C45", "title": "wandering row operations lose no information", "statement": "For all rows prev, row*, row below n_rows (coinciding or not), the row operation of the wandering phase is a bijection on pairs of sponge state and matrix: the result determines the arguments, and every pair is a result.", "quantifier": "all matrix shapes, rows, states and matrices, both profiles", "why_tests_cant": "injectivity over a space of 2^(1024 + 768*R*C) pairs", "anchors": ["src/lyra2.rs:lyra2", "src/lyra2mod/mod.rs:lyra2mod"]}
{"id": "C46", "title": "the setup phase loses no information", "statement": "Sponge state and matrix after the setup phase determine the sponge state before it. With pwd = salt = a 32-byte digest, as in the hash chains, different digests never lead to the same sponge state and matrix before the wandering phase.", "quantifier": "all matrix shapes, states, digests, both profiles", "why_tests_cant": "injectivity over all pairs of states and digests", "anchors": ["src/lyra2.rs:lyra2"]}
{"id": "C47", "title": "the sequence of row operations is fixed by time_cost and n_rows", "statement": "An accepted call of lyra2 is: row 0, row 1, rows 2..n_rows-1 in order, each from its predecessor and the row* of C12, then the row operations of the wandering phase on a sequence of rows that depends only on time_cost and n_rows (only row* depends on the data), then absorption of the first block of the last row* and the squeeze. If n_rows is a power of two the sequence has time_cost*n_rows entries, is the explicit order of C13 and contains every row exactly time_cost times; in general it has at most time_cost*n_rows entries, all below n_rows. A call of lyra2mod is the same with its own choice of row* in the wandering phase.", "quantifier": "all accepted parameters, passwords and salts, both profiles", "why_tests_cant": "concerns the whole execution for unboundedly many passes, rows and inputs, not only the result", "anchors": ["src/lyra2.rs:lyra2", "src/lyra2mod/mod.rs:lyra2mod"]}
{"id": "C48", "title": "lyra2mod differs from lyra2 exactly in the wandering phase", "statement": "For all accepted arguments lyra2 and lyra2mod start the wandering phase with the same sponge state, matrix, previous row and row*; from there they differ, and there are arguments for which the results differ.", "quantifier": "all accepted arguments, both profiles; existence of a differing result", "why_tests_cant": "equality of intermediate states over all inputs", "anchors": ["src/lyra2.rs:lyra2", "src/lyra2mod/mod.rs:lyra2mod"]}
{"id": "C49", "title": "the wandering phase loses at most the choices of row*", "statement": "With the rows given, any sequence of wandering row operations is a bijection on pairs of sponge state and matrix. Hence any sponge state and matrix at the end of the wandering phase has at most n_rows^N predecessors, N the number of row operations of C47, in lyra2 and in lyra2mod; and with pwd = salt = a 32-byte digest, as in the chains, at most n_rows^N of the 2^256 digests lead to the same sponge state and matrix at the end of the wandering phase.", "quantifier": "all matrix shapes, pass counts, end states, both profiles", "why_tests_cant": "a bound on the number of preimages in a space of 2^(1024 + 768*R*C) pairs", "anchors": ["src/lyra2.rs:lyra2", "src/lyra2mod/mod.rs:lyra2mod"]}
{"id": "C50", "title": "a collision of a chain is a collision of one of its stages", "statement": "If two inputs give the same result of lyra2re, lyra2rev2, lyra2rev3 or lyra2z, then they have the same BLAKE-256 digest, or one of the later stages of that chain maps two different 32-byte strings to the same 32 bytes. No information is lost between the stages.", "quantifier": "all inputs, all 32-byte-valued digest functions, both profiles", "why_tests_cant": "a reduction quantified over all pairs of inputs and all digest functions; tests cannot exhibit collisions", "anchors": ["src/lyra2re.rs:sum", "src/lyra2rev2.rs:sum", "src/lyra2rev3.rs:sum", "src/lyra2z.rs:sum"]}
{"id": "C51", "title": "lyra2mod for other row counts", "statement": "The row operations of lyra2mod are those of lyra2. An even pass computes exactly the rows r with r AND (n_rows-1) = r; with n_rows = 2^j+1 an odd pass is a single row operation; without overflow checks n_rows = 2^63+R' returns and runs on a matrix of R' rows.", "quantifier": "all shapes, passes, inputs; all R' that fit", "why_tests_cant": "universally quantified over row counts, passes and states; the wrapped row counts are reached by no ordinary call", "anchors": ["src/lyra2mod/mod.rs:lyra2mod"]}
{"id": "C52", "title": "32-bit targets: domain and agreement with 64-bit targets", "statement": "Compiled for a target with 32-bit usize, for n_rows < 2^63 and with or without overflow checks, lyra2 and lyra2mod return exactly when time_cost >= 1, n_rows >= 3, 96*n_rows*n_cols <= 2^31-1, the padded input fits in the matrix, and k <= 96 or (k >= 2^63 and k mod 2^32 < 2^31); otherwise they panic. For all arguments they never run forever. With k <= 96 the returned bytes are those of a 64-bit target.", "quantifier": "all u64 arguments, passwords and salts, both profiles", "why_tests_cant": "tests run on the 64-bit host; truncating casts matter only for huge parameters", "anchors": ["src/lyra2.rs:lyra2", "src/lyra2.rs:squeeze", "src/lyra2mod/mod.rs:lyra2mod"]}
{"id": "C53", "title": "32-bit targets: a key of zero bytes for k >= 2^63", "statement": "On a 32-bit target, if k >= 2^63 and k mod 2^32 < 2^31 and the other arguments are acceptable, lyra2 and lyra2mod return k mod 2^32 zero bytes, whatever password and salt; so the length of the result is not always k there. For k < 2^63 a returned key has length k.", "quantifier": "all u64 arguments, passwords and salts, both profiles", "why_tests_cant": "needs a 32-bit target and key lengths no test uses; independence of the password is a statement about all passwords", "anchors": ["src/lyra2.rs:lyra2", "src/lyra2.rs:squeeze"]}
{"id": "C54", "title": "the chains do not depend on the width of usize", "statement": "lyra2re, lyra2rev2, lyra2rev3 and lyra2z compute the same on 32-bit and 64-bit targets.", "quantifier": "all inputs, all 32-byte-valued digest functions, both profiles", "why_tests_cant": "tests run on one target and a few inputs", "anchors": ["src/lyra2re.rs:sum", "src/lyra2rev2.rs:sum", "src/lyra2rev3.rs:sum", "src/lyra2z.rs:sum"]}
{"id": "C55", "title": "memory access pattern: public part and secret-dependent part", "statement": "An accepted call of lyra2 reads and writes whole_matrix at an explicitly given sequence of positions. Up to the end of the setup phase this sequence depends only on the lengths of password and salt and on n_rows and n_cols. After it, only the positions in row* (and the length of the last copy) can differ between inputs of equal lengths: number, order and kind of the operations are the same. The sequence reveals every choice of row*, and it does depend on the password. All positions are inside the matrix. The same holds for lyra2mod, where each row operation also reads the sponge state at two secret-dependent positions below 16.", "quantifier": "all accepted arguments, all passwords and salts, both profiles", "why_tests_cant": "independence of secrets relates pairs of runs over all inputs, and accesses are not visible in results", "anchors": ["src/lyra2.rs:lyra2", "src/lyra2mod/mod.rs:lyra2mod"]}
{"id": "C56", "title": "cost of a call", "statement": "An accepted call of lyra2 or lyra2mod applies the one-round sponge transformation exactly n_cols*(n_rows + n) times, where n is the number of row operations of the wandering phase (time_cost <= n <= time_cost*n_rows; n = time_cost*n_rows for a power of two of rows), the twelve-round transformation exactly b + 1 + (k/96 + 1) times for b input blocks, reads 1 + 24*n_cols + 48*n_cols*(n_rows - 2 + n) words of the matrix and writes |pwd|/8 + |salt|/8 + 8 + 24*n_cols*(n_rows - 1 + n). It copies the whole matrix for the first input block, and b*N - 4*b*(b-1) + 12*n_cols*(n_rows - row*) words in total (N words of matrix, row* the last choice), a number that depends on the password.", "quantifier": "all accepted arguments, all passwords and salts, both profiles", "why_tests_cant": "operation counts are not visible in results and must hold for all parameters", "anchors": ["src/lyra2.rs:lyra2", "src/lyra2mod/mod.rs:lyra2mod"]}
{"id": "C57", "title": "outcome and panic reason of every call", "statement": "Every call of lyra2 and of lyra2mod (password and salt together at most 2^62 bytes) either returns the specified key or panics, and which of the two, and for which reason (documented check, i64 overflow of the matrix size, capacity overflow of an allocation, index out of bounds), is a function of k, n_rows, n_cols, time_cost and the lengths of password and salt alone, the same for both functions and given explicitly. Without overflow checks the same holds unless the reason is an overflow; in that case, for n_rows < 2^63, the call panics too, because of the allocation if the product modulo 2^64 is negative as an i64 or too large, and otherwise because of an index out of bounds. For n_rows = 2^63 + R' the same is settled, again explicitly, as long as R' rows have less than 2^64 words (12*R'*n_cols): the matrix then has R' rows, two are enough, and otherwise the input must fit as usual. For all parameters: a call that returns has allocated less than 2^60 words, enough for the padded input and for two rows. sum panics with an index out of bounds for every input of more than 743 bytes (and at most 2^61).", "quantifier": "all u64 arguments, all passwords and salts up to 2^62 bytes together, debug profile; release profile for n_rows < 2^63, or if the matrix size does not overflow i64, or if n_rows = 2^63 + R' and 12*R'*n_cols < 2^64", "why_tests_cant": "covers all argument values, including matrices too large to allocate", "anchors": ["src/lyra2.rs:lyra2", "src/lyra2mod/mod.rs:lyra2mod"]}
{"id": "C58", "title": "number of row operations for every row count", "statement": "In lyra2 and lyra2mod no row is computed twice within a pass of the wandering phase. Every even pass performs exactly 2^ones row operations, ones being the number of one bits of n_rows - 1; all odd passes perform the same number a of row operations, namely 2 to the number of ones in the longest chain of the binary digits of n_rows - 1, where a chain, read upwards, begins with a one whose next higher digit is also one and ends at two adjacent zeros, single zeros being passed over. So a is not above 2^ones, and a = 1 exactly if n_rows/2 - 1 and n_rows - 1 have no common bit. A call with time_cost T performs (T+1)/2*a + (T/2)*2^ones row operations in total, which determines its cost (C56). For n_rows = 2^j + 1 that is T + T/2 row operations, independently of the size of the matrix.", "quantifier": "all accepted arguments (any n_rows), all passwords and salts, both profiles", "why_tests_cant": "operation counts are not visible in results and must hold for all row counts", "anchors": ["src/lyra2.rs:lyra2", "src/lyra2mod/mod.rs:lyra2mod"]}
{"id": "C59", "title": "the source text computes what the model says", "statement": "Parsing the text of the files in src and running it with an interpreter for the fragment of Rust that they use gives, for every call of lyra2, lyra2mod, lyra2::sum, lyra2mod::sum, cubehash::sum, bmw::sum, the four chains' sum and the readers of utils, exactly the outcome (returned value, reason of a panic) of the corresponding function of the model, with and without overflow checks. The functions run are proved to be those that the parser reads from the text. So every property that is stated about the model holds of the text.", "quantifier": "all arguments (byte sequences of at most isize::MAX bytes), both profiles, all functions in the place of the external digests", "why_tests_cant": "it equates two programs on all inputs; a slip of transcription in one of the unrolled statements or in a rarely taken branch shows only on particular inputs", "anchors": ["src/lyra2.rs:lyra2", "src/lyra2mod/mod.rs:lyra2mod", "src/cubehash/mod.rs:sum", "src/bmw/mod.rs:sum", "src/lyra2re.rs:sum", "src/lyra2rev2.rs:sum", "src/lyra2rev3.rs:sum", "src/lyra2z.rs:sum", "src/utils.rs"]}
{"id": "C60", "title": "the source text meets the specifications", "statement": "Running the text of lyra2 and lyra2mod with overflow checks returns, for accepted arguments, the value of the specification of the algorithm, and panics for all other arguments. Running the text of cubehash::sum on 32 bytes returns CubeHash16/32-256, that of bmw::sum on up to 55 bytes BMW-256. Running the text of lyra2re, lyra2rev2, lyra2rev3 and lyra2z returns the published composition for every input, with and without overflow checks, if the external digests return 32 bytes.", "quantifier": "all arguments, both profiles where stated, all 32-byte valued functions in the place of the external digests", "why_tests_cant": "unbounded inputs and all argument combinations", "anchors": ["src/lyra2.rs:lyra2", "src/lyra2mod/mod.rs:lyra2mod", "src/cubehash/mod.rs:sum", "src/bmw/mod.rs:sum", "src/lyra2re.rs:sum", "src/lyra2rev2.rs:sum", "src/lyra2rev3.rs:sum", "src/lyra2z.rs:sum"]}
{"id": "C61", "title": "the reasons for which a call can panic", "statement": "lyra2 and lyra2mod panic with one of the two documented messages exactly if time_cost < 1 or n_rows < 3. Any other panic of a function of the crate is an index out of bounds, a failed allocation or an arithmetic overflow; an overflow panic occurs only in builds with overflow checks, and never in cubehash::sum or bmw::sum, whose only panic is an index out of bounds. The text of the source never performs an operation outside the modelled fragment of Rust.", "quantifier": "all arguments, both profiles, all functions in the place of the external digests", "why_tests_cant": "it excludes outcomes for all arguments, among them sizes that cannot be allocated in a test", "anchors": ["src/lyra2.rs:lyra2", "src/lyra2mod/mod.rs:lyra2mod", "src/cubehash/mod.rs:sum", "src/bmw/mod.rs:sum", "src/lyra2re.rs:sum", "src/lyra2rev2.rs:sum", "src/lyra2rev3.rs:sum", "src/lyra2z.rs:sum"]}
{"id": "C62", "title": "the work of a chain does not depend on its input", "statement": "For every input, of whatever length and contents, an evaluation of a chain applies the Lyra2 sponge transformation and reads and writes words of the memory matrix a fixed number of times - lyra2re: 128 one-round and 4 twelve-round transformations, 5569 reads, 2896 writes, matrix of 768 words; lyra2rev2: 32, 4, 1249, 688, 192; lyra2rev3: 64, 8, 2498, 1376, 192 and 16 reads of the state at computed positions; lyra2z: 576, 4, 27073, 13648, 768 - and performs the same sequence of kinds of operations. Only positions differ.", "quantifier": "all inputs, both profiles, all digest functions of 32 bytes in the place of the external crates", "why_tests_cant": "independence of the input is a statement about all pairs of inputs; the values of the result do not show the work done", "anchors": ["src/lyra2re.rs:sum", "src/lyra2rev2.rs:sum", "src/lyra2rev3.rs:sum", "src/lyra2z.rs:sum", "src/lyra2.rs:lyra2", "src/lyra2mod/mod.rs:lyra2mod"]}
{"id": "C63", "title": "the source text on 32-bit targets", "statement": "On a target whose usize has 32 bits, running the text of any function of the crate gives the same result or panic as the model of that target. In particular lyra2 and lyra2mod with n_rows < 2^63 return exactly if the matrix fits in 2^31-1 bytes and holds the input and the key length is at most 96 (or at least 2^63 with lower 32 bits below 2^31, when the key is all zeros); keys of at most 96 bytes and the four chains are the same bytes as on a 64-bit target, namely those of the specifications; a call panics with a documented message exactly if time_cost < 1 or n_rows < 3, and otherwise only for an index out of bounds, a failed allocation or, with overflow checks, an overflow; no call runs forever or leaves the interpreted fragment of Rust.", "quantifier": "all arguments (slices of at most isize::MAX bytes), both profiles, all digest functions in the place of the external crates", "why_tests_cant": "the tests run on one target; truncating casts matter only for values beyond 2^32, which no test reaches", "anchors": ["src/lyra2.rs:lyra2", "src/lyra2mod/mod.rs:lyra2mod", "src/lyra2re.rs:sum", "src/lyra2rev2.rs:sum", "src/lyra2rev3.rs:sum", "src/lyra2z.rs:sum", "src/cubehash/mod.rs:sum", "src/bmw/mod.rs:sum"]}
{"id": "C64", "title": "the memory accesses of the source text", "statement": "Observing a run of the text of the crate - every access to an element, every slice, split, call, branch and range - does not change its result or panic. Of an accepted call of lyra2 or lyra2mod, the accesses to whole_matrix, the accesses to state at computed positions and the sponge transformations are those of the specification (C55), along with its key: they are within bounds, a prefix depends on the public parameters only, the rest differs in positions only, and the counts are those of C56. The text of the four chains does the work of C62 for every input. On a target whose usize has 32 bits, the calls which that target accepts (with keys of at most 96 bytes) and the chains do exactly the same as on a 64-bit target, access by access.", "quantifier": "all arguments, both profiles, all observers, all digest functions in the place of the external crates; usize of 32 and of 64 bits", "why_tests_cant": "a test sees results, not accesses; and the claim is about all inputs and all pairs of inputs", "anchors": ["src/lyra2.rs:lyra2", "src/lyra2mod/mod.rs:lyra2mod", "src/lyra2re.rs:sum", "src/lyra2rev2.rs:sum", "src/lyra2rev3.rs:sum", "src/lyra2z.rs:sum"]}
{"id": "C65", "title": "constant-time functions: no observer learns the contents of the input", "statement": "cubehash::sum and bmw::sum with all the functions they call, the sponge functions of lyra2 and lyra2mod, and utils: for two calls whose arguments have the same types and lengths (and, for rotations and squeeze, the same count), either both return and the complete notes of the run - every element read or written with its position, every slice, every branch, every number of rounds, every call, every size of a vector, the operands of every division and remainder, the number of places of every shift - are the same, or both panic for the same reason. The same holds for the part of lyra2 and lyra2mod in front of the wandering phase, for accepted parameters. It does not hold for the wandering phase: there are two passwords of the same length that an observer of the memory matrix tells apart.", "quantifier": "all arguments and pairs of arguments, all observers, both profiles, all widths of usize (setup: 32 and 64 bits), all external functions with results of a fixed size", "why_tests_cant": "a property of pairs of runs and of what happens inside of them, for all pairs; a test compares results of single runs", "anchors": ["src/cubehash/mod.rs:sum", "src/bmw/mod.rs:sum", "src/lyra2.rs:squeeze", "src/lyra2.rs:absorb_block", "src/lyra2.rs:lyra2", "src/lyra2mod/mod.rs:lyra2mod", "src/utils.rs:read_u64_le"]}
{"id": "C66", "title": "the control flow does not depend on the contents of the input", "statement": "Two calls of lyra2, of lyra2mod or of their sum that return, with the same parameters and passwords and salts of the same lengths, take the same branches, have the same numbers of rounds, call the same functions and access the same variables, in the same order; only positions and operands may differ. Accepted calls return, on 32-bit and on 64-bit targets, so for them this trace is a function of the parameters and lengths. For the four chains the trace is one and the same for all inputs of all lengths.", "quantifier": "all arguments and pairs of arguments, both profiles, all widths of usize, all external functions with results of a fixed size", "why_tests_cant": "a property of pairs of runs and of what happens inside of them, for all pairs", "anchors": ["src/lyra2.rs:lyra2", "src/lyra2mod/mod.rs:lyra2mod", "src/lyra2re.rs:sum", "src/lyra2rev2.rs:sum", "src/lyra2rev3.rs:sum", "src/lyra2z.rs:sum"]}
{"id": "C67", "title": "the log has all that happens", "statement": "In the interpreter with notes, for every program, every observer and every state of the variables: an if leaves the way it takes, a for the number of its rounds, e[i] the variable and the position (even when it is out of bounds), e[lo..hi] and e[..hi] the bounds, a division or remainder both operands, a shift the number of places, vec!, to_vec and clone the number of elements, a call the name of the function, an assignment to an element the variable and the position, a compound assignment the position for reading and for writing, split_at the variable, the position and the rest; each after the notes of its parts, in the order of evaluation. The statements C64 to C66 about logs are therefore statements about these events.", "quantifier": "all programs of the fragment, all observers, all environments, all logs so far", "why_tests_cant": "a test of a program cannot say that the instrument that watches it misses nothing", "anchors": ["src/lyra2.rs:lyra2", "src/lyra2mod/mod.rs:lyra2mod", "src/cubehash/mod.rs:sum", "src/bmw/mod.rs:sum"]}
{"id": "C68", "title": "no recursion: calls are nested at most eight deep", "statement": "Every function of the crate calls only functions of smaller rank, no rank exceeding 7; so for every function, all arguments, targets and profiles, a run is the same, with the same log, whether nesting deeper than 8 calls is allowed or not, and stack use cannot grow with the input. Every name called is that of a function or constant of the crate, except for the four digests of other crates, which only the chains call.", "quantifier": "all functions of the source text, all arguments (of any type), all widths of usize, both profiles, all observers", "why_tests_cant": "a run shows the nesting for one input only", "anchors": ["src/lyra2.rs", "src/lyra2mod/mod.rs", "src/lyra2re.rs:sum", "src/lyra2rev2.rs:sum", "src/lyra2rev3.rs:sum", "src/lyra2z.rs:sum"]}
{"id": "C69", "title": "the syntax trees are what the text says, by an unambiguous grammar", "statement": "By the lexical rules and the grammar of the fragment of Rust that the crate uses, the files of src contain exactly the functions and constants whose behaviour C59-C68 are about, and no others. No text consists of two different sequences of tokens, and no sequence of tokens stands for two different expressions, blocks or lists of items. The lexer yields exactly the tokens that the rules give. The parser yields exactly the items that the grammar gives, and fails on every sequence of tokens that is not a list of items. Operators bind as in Rust: casts, then * / %, then + -, then << >>, then &, then ^, then |, then == and <; all group to the left. A name that follows a `use` declaration stands for the declared path, a name on its own for one of the same module, and the segments of a path are joined by `::`.", "quantifier": "all texts, all sequences of tokens, all trees; the files of /repo/src for the first part", "why_tests_cant": "a parser that groups an operator wrongly, skips a token or reads a name as another one gives a program that computes something else; examples show some inputs only, and cannot show that there is no second reading", "anchors": ["src/lyra2.rs", "src/lyra2mod/mod.rs", "src/cubehash/mod.rs", "src/bmw/mod.rs", "src/utils.rs", "src/lyra2re.rs", "src/lyra2rev2.rs", "src/lyra2rev3.rs", "src/lyra2z.rs"]}
{"id": "C70", "title": "the public interface: which functions there are, and that every call of them ends", "statement": "Other crates can call exactly six functions: lyra2::lyra2 and the sum functions of lyra2, lyra2re, lyra2rev2, lyra2rev3 and lyra2z. Their parameters are as documented, and they return a vector of bytes. Every call with arguments of these types, on 32-bit and 64-bit targets, with and without overflow checks, returns bytes or panics for one of the reasons of C61 (a check of the parameters, an index out of bounds, a capacity that cannot be allocated, an overflow where it is checked). No call runs forever. The sum functions other than lyra2::sum return 32 bytes for every input.", "quantifier": "all public functions, all arguments of their types, both widths, both build profiles, all external digests of 32 bytes", "why_tests_cant": "tests call functions of the crate from within it and see no visibility; that nothing else is callable, and that no argument makes a call hang, are statements on all functions and all arguments", "anchors": ["src/lib.rs", "src/lyra2.rs:lyra2", "src/lyra2.rs:sum", "src/lyra2re.rs:sum", "src/lyra2rev2.rs:sum", "src/lyra2rev3.rs:sum", "src/lyra2z.rs:sum"]}
{"id": "C71", "title": "types: the crate is well typed, and the types that the text leaves out are forced", "statement": "By the typing rules of the fragment, every function and constant of the crate is well typed: operands of an operator have the same type, literals fit their types, arguments have the types of the parameters, positions and lengths are of type usize, results have the declared type. No two functions have the same path. Eight declarations, in six functions, leave out a type that their initial value does not determine (tmp, out, ptr_word, buf). With the types of the table that the theorems on the text use, and with no others, the functions are well typed. The table is used for these declarations only: whatever types are put in it, if the program for which the text then stands is well typed, it is the program of the theorems. The structs that the typing rules refer to are exactly those that the files declare, with these fields in this order.", "quantifier": "all functions and constants of the crate; all types for the eight declarations", "why_tests_cant": "a test runs one compiled program and does not see which types the compiler has inferred; that no other types fit is a statement on infinitely many programs", "anchors": ["src/lyra2.rs:squeeze", "src/lyra2.rs:lyra2", "src/lyra2mod/mod.rs:squeeze", "src/lyra2mod/mod.rs:lyra2mod", "src/cubehash/mod.rs:sum", "src/bmw/mod.rs:sum"]}
{"id": "C72", "title": "type soundness: what returns has the declared type", "statement": "For every well-typed program of the fragment, in which a name stands for one thing: a call of a function with arguments of the types of its parameters that returns, returns a value of the declared type. An array has the length that its type says, a struct has the declared fields with values of their types, a number of type usize is below 2^u where usize has u bits, and bytes are at most isize::MAX many. So have the local variables, wherever one stops in the body of a function. This holds for every width u of at least 32, both build profiles, and whatever the functions of other crates compute, as long as they return at most isize::MAX bytes. The crate is such a program, so it holds for each of its functions, public or not. A literal has a type exactly when it has a value at this type, and then the value is its number.", "quantifier": "all well-typed programs of the fragment, all functions, all arguments of their types, all foreign functions, all widths from 32 bits, both profiles", "why_tests_cant": "a statement on all programs and all arguments; it ties the typing rules to what programs compute, which no run of one program shows", "anchors": ["src/lyra2.rs", "src/lyra2mod/mod.rs", "src/cubehash/mod.rs", "src/bmw/mod.rs", "src/utils.rs"]}
