# Formal verification of the `lyra2` crate in Lean 4

Source: `/repo` (wakiyamap/lyra2, Rust), read as text. Model, specification and proofs: `/verif/lean`. Properties:
`/verif/properties.jsonl` (C01, C02, ...). Claims and theorem names: `/verif/MANIFEST.json`. Mutation log:
`/verif/seeded/LOG.jsonl`.

## 1. Layout

| Directory | Content |
|---|---|
| `Verif/Rust.lean` | the fragment of Rust semantics the model needs: outcomes (`Res`), checked/wrapping integers, vectors, slices, loops |
| `Verif/Model/*.lean` | the code, function by function; every definition cites file and lines (`Target.lean`: again, for `usize` of any width; `Log.lean`, `LogChains.lean`: again, with a log of memory accesses; `LogTarget.lean`: both) |
| `Verif/Event.lean` | the entries of that log |
| `Verif/Spec/*.lean` | small specifications written from the published descriptions, not from the code; they do not import the model |
| `Verif/Proofs/*.lean` | lemmas: refinement of the specification by the model, invariants, termination |
| `Verif/Props/*.lean` | the property theorems `C01_...`, `C02_...` and, beside each, an `example` showing a non-trivial instance |
| `Verif/Source/*.lean` | the source text itself: `Text.lean` (the files of `/repo/src`, verbatim), `Syntax.lean` (the trees), `Lexical.lean` and `Grammar.lean` (the rules of the fragment of Rust they use), `Code.lean` and `Parser.lean` (a lexer and a parser for it), `Command.lean` and `Crate.lean` (the syntax trees, as constants), `Parsed.lean` (proof that the parser makes these of the text), `Semantics.lean` (an interpreter), `Log.lean` (the interpreter with notes of what is accessed), `Observe.lean` and `Labels.lean` (which values are secret), `Calls.lean` (which functions a function calls), `Typing.lean` and `Values.lean` (types, and which values have them), `Retyped.lean` (the trees with other types in place of the inferred ones) |
| `Verif/SourceTests.lean` | test vectors of the repository evaluated by the interpreter |
| `tools/check_source.py` | compares `Text.lean` with `/repo` |
| `Verif/Tests.lean` | test vectors of the repository evaluated in the model and in the specifications (`#guard`); evidence of transcription, not proofs |

## 2. What a computation is

`Res α := ExceptT Panic Option α`: a Rust expression returns a value, panics (with a reason), or runs forever (`none`).
The only source of non-termination is Rust's `loop`, modelled as the least fixed point (`Rust.loop`,
`partial_fixpoint`), so termination of the wandering phase is a theorem and not an artefact of the model.
`Profile` selects a build with overflow checks (`debug`) or without (`release`); `i64` arithmetic of the code goes
through `iadd`, `imul`, ... which panic or wrap accordingly. `vec![0; n]` panics when it would exceed `isize::MAX` bytes.

## 3. Trusted base

* The Lean 4.33 kernel, and that the Lean definitions in `Rust.lean`, `Model/` and `Spec/` say what the comments say.
* Axioms: only `propext`, `Classical.choice`, `Quot.sound` (no own axioms, no `sorry`, no `native_decide`,
  no `bv_decide`). `#print axioms` lists `propext, Classical.choice, Quot.sound` for every property theorem, except:
  `propext, Quot.sound` for `C27_truncation`, `C41_bytes32`, `C51_same_row_operations`, the nine theorems `C67_index` to `C67_split`
  on single notes, `C69_unambiguous`, `C69_parser`, `C69_tables`; `propext` for `C65_which`, `C65_secret`, `C68_no_recursion`, `C68_foreign`; none
  for `C70_signatures`. `decide +kernel` is used only for closed
  facts about constants (e.g. the CubeHash IV) and about the finite list of functions of the crate, and for single counterexamples.
* The transcription of `/repo` into `Model/`. It was done by scripts for the long unrolled parts (CubeHash rounds, BMW
  expressions) and checked against the test vectors in the `#[test]` functions of the repository, including those of
  the four chains (`Verif/Tests.lean`).
  Since C59 the transcription need not be trusted: the model is proved equal to the source text under an interpreter. What is
  trusted instead, for C59 and C60:
  * the strings of `Source/Text.lean` are the files of `/repo/src` (`tools/check_source.py` compares them byte by byte);
  * the lexical rules `Source/Lexical.lean` and the grammar `Source/Grammar.lean`, as the definition of the syntax of the fragment. The
    lexer and the parser need not be trusted: C69 proves that they yield what the rules give and nothing else, and that the rules
    are unambiguous. That they make `Source.crate` of the text is a theorem too (`C59_text`), which the kernel checks by running
    them. For that, they work on numbers instead of strings (`Source/Code.lean`). What the rules do not cover is rejected. The rules
    say what is passed over: comments, attributes, `use` and `struct` declarations, test functions. They use the following functions of
    `Source/Parser.lean`: the tables `binOp?`, `assignOp?`, `intTy?` (spelled out in `C69_tables`), `resolve` for full paths,
    `inferredTy`, `decodeFields` (spelled out in `C69_names`), `elem` and `last` on lists. Comparisons group to the left, where Rust would reject
    `a == b == c`; the text has none;
  * the typing rules `Source/Typing.lean`, for the types that the compiler infers for variables declared without one. The table
    `Source.inferred` need not be trusted: C71 proves that it is used for eight declarations and that no other types make the functions
    well typed. The rules leave out `mut`, moves and borrows, and identify `Vec<t>` with `&[t]`. The table of structs in C71
    is proved to contain what the text declares (`C71_structs`);
  * no types of literals: a literal takes the type of the operand, parameter, variable or element that it meets. Where two literals
    meet, and for ranges and casts of literals, the compiler's choice is not modelled. The interpreter computes the exact number and
    is stuck unless the operands and the result fit every type that the choice could be (`openOp`, `Val.num`, `places`, `position`);
  * the interpreter `Source/Semantics.lean`: the order of evaluation, the arithmetic, `for` and `loop`, indexing, slices, the
    methods of `Vec`, arrays and integers. References are read as values: the fragment has no `&mut`, so nothing can be
    changed through one. Names of other modules are resolved by the parser from the `use` declarations. The
    interpreter does not rely on types; an operation on values of the wrong types is the outcome `panic .stuck`, which by C61 no call has.
    C72 ties the typing rules to the interpreter: what a well-typed program returns has the declared type;
  * for C64, `Source/Log.lean`: that it notes every access, and that `seen` keeps those that matter. That it computes the same as
    `Source/Semantics.lean` is proved. The matrix has one name in the text, `whole_matrix`, and is handed to no function; the
    only other way to it is `split_at`.
  * for C65 and C66, the same: that the notes are all there is to see. They are about the source, not about what a compiler makes of
    it; the time of an arithmetic operation is taken not to depend on its operands, except for divisions, remainders and shifts, whose
    operands are in the notes (C67); the checker and the labels need not be trusted.
* The specifications in `Spec/` being the published algorithms. They were written from memory of the publications (there is
  no network here); `Tests.lean` evaluates them on the test vectors of the repository, and the digests of the external
  crates also on the empty string. The chain vectors exercise every specification.

### Modelled

All of `src/lyra2.rs`, `src/lyra2mod/mod.rs`, `src/cubehash/mod.rs`, `src/bmw/mod.rs`, `src/utils.rs`,
`src/lyra2re.rs`, `src/lyra2rev2.rs`, `src/lyra2rev3.rs`, `src/lyra2z.rs` (everything except tests and doc comments).

### Not modelled

* The external crates `blake-hash`, `sha3`, `skein-hash`, `groestl`: the chains are modelled for arbitrary functions
  (`Model.Chains.Digests`), and the theorems about chains assume only that the digests return 32 bytes. C41 instantiates
  them with specifications of BLAKE-256, Keccak-256, Skein-512-256 and Grøstl-256; that the crates compute these is assumed.
* Running out of memory (the allocator aborts the process), stack overflow. Running time and side channels, except for the
  accesses to the memory matrix and the number of sponge transformations (C55, C56).
* The width of `usize` is 64 bits in all properties but C52-C54 and C63-C68, which treat 32 bits as well. Pointers of other widths are not considered.
* That a `Vec` never has more than `isize::MAX` bytes is a fact about Rust that enters as a hypothesis
  `pwd.length ≤ isizeMax` where it is needed.

### Simplifications (also stated at the definitions)

* Twelve (eight) consecutive statements that differ only in the word number are written as `unroll12` (a fold over
  `Fin 12`), in source order.
* `whole_matrix.resize(n)` to the length it already has is omitted. Clones are omitted (value semantics).
* `usize` expressions that cannot overflow because of the size of a `Vec` are natural-number expressions.

## 4. Properties: what is modelled and how it is proved

| Id | Approach |
|---|---|
| C01 | `lyra2 .debug` returns ⇔ five arithmetic conditions; otherwise it panics; never diverges. Forward: simulation of the Lyra2 spec (C06). Backward: each violated condition forces a panic in one identified phase (checks, allocation, input copy, row 0, squeeze), and the phases before it return or panic. |
| C02 | direct, any profile. |
| C03, C18 | `squeeze` characterised for all `k`: returns the first `k` bytes of the 12 rate words iff `k ≤ 96`, else panics. |
| C04 | the row update `x ↦ (x+s) AND m` is injective on submasks of `m` (carry induction), hence 0 is periodic; the `loop` then needs at most `n_rows` rounds. |
| C05, C06 | refinement: matrix as `Array U64` of size `12*R*C` represents `M : row → column → 12 words`; every phase of the code simulates the phase of the specification. C06 uses the padding the code really produces, C05 shows that for lengths divisible by 8 it is the byte-level `10*1` padding of the reference and that for a power of two of rows the bit-mask row order is the order modulo `n_rows`. |
| C07, C08 | the model factors through the list of complete words; both outcomes are equal, including panics. |
| C09 | injectivity of the word-level padding; `C09_absorbed_state` identifies the state after absorption with the specification run on the padded words. |
| C10 | outcome of `release` equals outcome of `debug` whenever `debug` returns; for `n_rows < 2^63` both return or both panic. |
| C11 | positive part from C01/C10; negative part: a concrete witness evaluated in the model by the kernel. |
| C12 | closed form of the setup variables: in window `w` row `w+i` revisits `i*step mod w`, `step` odd. |
| C13 | the step is odd / -1, so the orbit of 0 modulo a power of two is everything, in the stated order. |
| C14, C40 | frame lemma: a row operation writes only `row` and `row*`; both are submasks of `n_rows-1`. |
| C15 | `(0 + 2^(j-1)-1) AND 2^j = 0`. |
| C16 | setup overwrites all blocks: spec-level, the result does not depend on the initial matrix. |
| C17 | instance of C01/C10 with `R = C = 4`. |
| C19, C20 | as C01/C06 and C05 with the other selection rule. |
| C21-C23 | `G` is built from invertible steps; explicit inverse round. BLAKE2b round in row form is the same function. |
| C24-C27 | CubeHash: round by round refinement to Bernstein's bit-indexed form; inverse round; IV by kernel evaluation. |
| C28-C32 | BMW: table form of `f0`, `f1`, `f2`; padding; explicit inverse of the mixing matrix. |
| C33 | arithmetic characterisation of the readers. |
| C34-C39 | composition. |
| C41 | the digests of the external crates specified; lengths; instance of C34-C38. |
| C42 | even passes of the reference visit all rows; C14 gives the row that the code misses. Differing result: C06 and kernel evaluation of the two specifications on one input. |
| C43, C44 | as C04, C13, C40, C17, C08 for `lyra2mod`, from the same trace lemma. |
| C45, C46 | each column step is undone from its result: the new rate is part of the result, so both xors can be removed, then the duplexing step inverted (C21). Onto: injective on a finite set. Setup: agreement of the rows below `r+1` after row `r` gives agreement of the rows below `r` before it. |
| C47 | the trace lemma of C13 gives the rows of every pass; each round of the loop is one `rowOp`. Pass by pass induction. Setup: closed form of the loop variables (C12). |
| C48 | the helper functions are equal; both calls reduce to the same prefix. Differing result: C06, C20 and kernel evaluation of the two specifications on one input. |
| C49 | bijectivity of one row operation (C45), by induction; the wandering phase is such a sequence for some list of `row*` (C47); starts inject into the lists of `row*`. Digests: C46. |
| C50 | stage by stage: two different 32-byte strings collide in the next stage or stay different 32-byte strings. |
| C51 | as C14, C15 and C11, through the equality of the helper functions of `lyra2mod` and `lyra2` and the trace lemma. |
| C52 | `Model/Target.lean` repeats the model with the width `u` of `usize` as a parameter. For `u = 64` it equals the model (equality of functions). For `u = 32` a simulation `Ref` (if the 64-bit run returns, the 32-bit run returns related values) under the 32-bit memory bound, and a postcondition for all other arguments. Not characterised: which calls with `n_rows >= 2^63` return on a 32-bit target (that they terminate is proved). |
| C53 | the same simulation up to the final squeeze, whose loop has no iterations. Refutes C03 on 32-bit targets. |
| C54 | C52 for the parameters 1/8/8, 1/4/4, 8/8/8. |
| C55 | `Model/Log.lean` repeats `lyra2` and `lyra2mod` with a log of matrix accesses, copies and sponge transformations; `Spec/Access.lean` writes the access sequence down from the description of the phases. `Logs l m E` (if `m` returns, `l` returns the same value and appends `E`) is proved for every function, with the index lemmas of C06; the wandering phase by the simulation of C04/C06. `Erases` (without its log, the logged function is the function, for all inputs) is proved the same way, with `loop_map` for the unbounded loop. Dependence on the password: one pair of passwords, evaluated in the specification by the kernel. |
| C56 | sums over the access sequence of C55; the number of row operations is that of C47. |
| C57 | `failure` in `Props/Outcome.lean` lists the reasons in the order of the code. Where C01/C02 prove a panic, `PostE e` (returns, or panics with exactly `e`) is carried through the prefix of the call. In a release build an overflow of the matrix size is not noticed; `releaseFailure` says what happens instead, for `n_rows < 2^63`. `n_rows = 2^63 + R'` (negative as `i64`) in a release build: `wrappedFailure` in `Props/WrapOutcome.lean`, by the reasons of C61 and the simulation of C11, if `12 * R' * n_cols < 2^64`; beyond that the size of the matrix wraps a second time, and only the necessary condition `C57_fits` is proved (the rows visited then depend on the data, and so may whether the call returns). |
| C58 | a pass iterates `x -> (x + s) AND (n_rows - 1)` from 0. By induction on the number of low bits looked at, the walk is at 0 exactly at the multiples of a power of two; so a pass has that length and no repetition. For odd passes the exponent is computed by a recursion over the binary digits of `n_rows - 1` (`Proofs/OddPass.lean`). For even passes the rows are the submasks of `n_rows - 1` (C14), which are counted. Totals: C56. |
| C59 | the text: evaluation of the parser in the kernel (`Source/Parsed/*.lean`), on the lines as lists of numbers, which are shown to be the strings. The meaning: symbolic execution of the interpreter on the parsed functions (`Proofs/Src*.lean`): one lemma per function of the crate; straight-line code by rewriting with the equations of the interpreter, unrolled statements by lemmas over the word number, loops by `forLoop_map` and `loop_map` (the variables of the loop are an image of the state of the model's loop). The two functions that call `lyra2` share one proof over the names of the helper functions, which `lyra2mod` repeats. |
| C60 | C59 with C01, C06, C19, C20, C25, C29 and C38. |
| C61 | `Why p cap m` (`Proofs/Why.lean`): the panics `m` can have; closed under sequencing and loops, proved function by function. The text: by C59. |
| C62 | `Model/LogChains.lean` composes the logged functions of C55; the kinds of events of each call are those of a call with all `row*` equal to 0 (C55), which are counted (C56). |
| C63 | The interpreter has the width of `usize` as a parameter, and `Proofs/Src*.lean` prove the text equal to `Model/Target.lean` for every width from 32 to 64 (C59 is the width 64, with C52). Then C52-C54 for 32 bits, and `Proofs/WhyTarget.lean` for the reasons of panics (`Props/ConstantTime32.lean`). |
| C64 | `Source/Log.lean` is the interpreter with notes; forgetting them gives the interpreter of C59 (`Proofs/SrcLogErase.lean`). `Proofs/SrcLog*.lean` prove the text with the observer `seen` equal to `Model/LogTarget.lean` for every width of `usize`. For 64 bits that is `Model/Log.lean` and `Model/LogChains.lean` (`Proofs/LogTarget64.lean`, equality of functions), so C55, C56 and C62 are statements about the text. For 32 bits, the simulation of C52 with logs (`Proofs/LogTarget32.lean`): an access that is in bounds is at the same position after the cast. |
| C65 | `Source/Labels.lean` is a checker of labels (public, secret, anything) for the fragment; `Proofs/SrcLike.lean` and `Proofs/SrcSecret.lean` prove it sound for every program: two runs on arguments that agree as their labels say leave the same notes, whatever the observer. That the functions of the crate pass is a computation of the kernel (`Proofs/SrcSecretCrate.lean`). That `lyra2` cannot pass follows from C55. The setup on 32 bits: C63 for that the calls return. |
| C66 | The same checker in its lax mode, where positions may depend on secrets but branches and numbers of rounds may not; the observer `control` drops positions, operands and sizes. The functions of other crates return as many bytes for every input, so the chains pass without any assumption on their inputs. |
| C67 | One rule for each construct that leaves a note (`Props/Notes.lean`), for all observers. What leaves none: literals, whole variables, fields of structs, arithmetic other than divisions and shifts, casts, `break`, and the methods that change a whole variable (their lengths are in the shapes of C65). |
| C68 | A run depends on the functions named in the text only (`Proofs/SrcCalls.lean`, by induction on the syntax), so that ranks bound the depth. The ranks of the crate are a finite table, checked by the kernel. |
| C69 | Soundness (`Proofs/Grammar.lean`): induction on the fuel. Completeness (`Proofs/GrammarUnique.lean`, `Proofs/GrammarBlocks.lean`): induction on derivations, for every continuation that cannot extend the phrase; a phrase followed by such tokens is read as a whole. As the parser is a function, completeness gives unambiguity. The same for the lexer (`Proofs/Lexical.lean`), by way of a scanner on characters. |
| C70 | `src/lib.rs` and the word `pub` follow rules too (`IsModules`, `IsPub` in `Source/Grammar.lean`); C69 gives the exported functions of each file. Each of the six is settled by C63, C61 and C52 or C04 (`lyra2`), or by C60 and C63 (chains). |
| C71 | A checker computes all types that an expression can have, and all types of the variables after a statement (`Proofs/Typing.lean`); it is exact for the rules. The kernel runs it on every function. For other types: the initial value leaves five candidates per declaration, which the checker tries. That the table is used for these declarations only: the parser runs with six types that no file declares in the table; by induction over the rules (`Proofs/Retype.lean`), where the result differs from `crate` the text leaves the type to the table, for any table. Structs: the kernel lexes every file and reads the declaration after each word `struct` (`Proofs/Structs.lean`). |
| C72 | Partial correctness: a lemma per operation of the interpreter (`Proofs/SoundOps.lean`), then by recursion over expressions and statements that the local variables keep their types (`Proofs/Sound.lean`); induction over the depth of calls. The loop by iteration (`loopN`). Literals: by cases on the type. |

## 5. Findings

Behaviour of the code that a user would not expect from the documentation, each with the theorem that establishes it. None but
number 8 (which does not affect results) is reached by the chains (`lyra2re`, `lyra2rev2`, `lyra2rev3`, `lyra2z`), which are total and compute the
published functions (C34-C38, C41).

1. `lyra2`/`lyra2mod` panic for `k > 96`, for inputs that do not fit in the matrix and for `n_cols = 0`; only `time_cost < 1` and
   `n_rows < 3` are documented (`C01_lyra2_domain`, `C18_long_key_panics`). `lyra2::sum` panics beyond 743 bytes (`C17_sum_domain`).
2. The last `len mod 8` bytes of password and salt are ignored (`C07_trailing_ignored`). All inputs of `lyra2::sum` of a given
   length below 8 collide (`C08_sum_short_collide`). The reference absorbs these bytes.
3. Rows are reduced with `AND (n_rows - 1)` although the source comments mark this code as usable for any row count
   (`src/lyra2.rs:541-542`, `636-637`). If `n_rows` is not a power of two, rows are never touched by the wandering phase
   (`C14_untouched`, `C14_exists_untouched`) and the result is in general not the reference Lyra2 (`C42_not_reference`). For `n_rows = 2^j + 1` an odd pass
   performs a single row operation (`C15_single_row`). The same for `lyra2mod` (`C14_untouched_mod`, `C51_even_pass_rows`, `C51_single_row`).
4. Without overflow checks `n_rows = 2^63 + R'` is accepted and runs on a matrix of `R'` rows (`C11_release_wraps`, `C51_release_wraps`);
   with overflow checks it panics.
5. The BMW stage ignores the bytes from position 56 on of inputs of 56 to 63 bytes and does not compute BMW-256 on them
   (`C30_collide`, `C30_not_bmw`); it panics from 64 bytes on (`C28_domain`).
6. The CubeHash stage panics below 32 bytes and ignores everything after byte 32 (`C24_domain`, `C24_prefix`).
7. On a target with 32-bit `usize`, a key length `k >= 2^63` with `k mod 2^32 < 2^31` is accepted and yields `k mod 2^32` zero
   bytes for every password (`C53_zero_key`). On a 64-bit target it panics.
8. Each input block is absorbed by way of a fresh copy of the rest of the matrix (`_right.to_vec()`, src/lyra2.rs:336-337), and the
   last block by way of a copy of the matrix from row `row*` on. So a call needs twice the memory of the matrix, copies
   `b N - 4 b (b - 1) + 12 C (R - row*)` words (`C56_copies`), leaves copies of the password in freed memory although the comment
   at src/lyra2.rs:279-281 intends it to be overwritten soon, and the length of the last copy depends on the password
   (`C56_copies_depend_on_password`).
9. For a row count other than a power of two the work of a call can be far below `time_cost * n_rows` row operations: with
   `n_rows = 2^j + 1` it is `T + T/2`, independently of the size of the matrix (`C58_pow2_succ`). With 1025 rows and 10 passes,
   15 row operations; with 1024 rows, 10240.

The modules `bmw`, `cubehash`, `lyra2mod` and `utils` are private (`src/lib.rs:1-4`): findings 5 and 6 concern internal stages
that the chains only call on 32-byte inputs, and are reachable only by a change inside the crate.
