# wadec in Lean 4: design of the model and of the proofs

wadec decodes the WebAssembly 3.0 binary format: `decode_module(impl Read) -> Result<Module, DecodeModuleError>`
(plus a small CLI).  It is a pure function of what the reader delivers, so the whole decoder can be modelled as
executable Lean functions and its properties stated against (a) an independent transcription of the binary grammar
and (b) an explicit model of `std::io::Read` readers.

## Layout

* `lean/Verif/Core/`  the abstract syntax produced by the decoder (`/repo/src/core`).
* `lean/Verif/Model/` the decoder, function by function (`/repo/src/decode`), over an arbitrary reader. `Model/Depth.lean` is a copy with a bounded call stack (C66, C72), `Model/Steps.lean` one that counts steps (C69), `Model/Target.lean` one in which vectors may be too large for the target (C77).
* `lean/Verif/Spec/`  the specification: the Wasm 3.0 binary grammar as inductive relations "bytes denote value",
  written from the specification and not from the model; plus small independent definitions (UTF-8, data index
  occurrence, well-formedness, canonical encoder).
* `lean/Verif/Proof/` program calculi and the lemmas.
* `lean/Verif/Props/` the property theorems, named `c01_...` after the property they prove, with
  non-vacuity examples beside them.
* `lean/Verif/Source/` a second rendering of the decoder, produced by a program from the text of `/repo/src/decode`,
  and the proof that it is the model (see "The translated source").
* `lean/Verif/Check/` the project's own 189 tests, translated into examples about the model (see "Validation").
* `tools/` generators of three mechanical model files (error enums, derived equality, opcode tables), of
  `MANIFEST.json`, and the mutation harness `seed.py`; the generated Lean files are committed.

Model files: `Io` (readers, `read_exact`, `read_to_end`, `Take`, `Chain`), `Integer`, `Helpers` (bytes, floats, names,
lists), `Types`, `Opcodes` + `Instructions`, `Sections`, `Module` (`decode_module`), `Errors` (all error enums),
`Display` (the `#[error(..)]` texts and `source()` chains), `Cli` (`wadec-cli`), `Equality` (derived `PartialEq`),
`Debug`, `DebugCore`, `DebugErrors`, `CliDebug` (`{:?}` and `{:#?}`).

## The model

* **Readers.** `class Read` (`read`), instances: `Src` (a script of `read` results: chunks, zero-length reads and
  I/O errors - any finite behaviour of a user-supplied reader), `Take`, `Chain`.  `read_exact` and `read_to_end` are
  the std loops (retrying `Interrupted`); the sizes of the buffers `read_to_end` offers are left open (`Read.room`, any
  function of the reader's state), since std picks them adaptively.  C56 and C57 are about arbitrary state machines `Impl`.
* **Decoders.** `Dec R ε α := R → Res ε α × R`, where `Res` is `ok | err | panic | fuel`.  Every `unwrap`,
  `unreachable!`, indexing, checked arithmetic or shift of the Rust code that could panic is an explicit `panic`
  branch of the model.  `fuel` is the step budget of recursive parsing and is proved unreachable.  The consumed reader
  is returned also on error, because wadec continues reading after a swallowed error in one place (block types).
* **Errors.** Every error enum of the code has its Lean counterpart with the same constructors and payloads, so
  theorems can speak about which error is returned.
* **Allocation.** Each `Vec::with_capacity(n)`/`vec![0; n]` whose `n` comes from the input is recorded in a log
  carried by the source.

## Proof method

The calculi, each with one rule per combinator, applied to every decoder of the model:

* `Sound d T`: whenever `d` succeeds with `v`, it consumed bytes `bs` with `T bs v` (the grammar).
* `Runs d bs v`: if the input starts with `bs` then `d` yields `v` and consumes exactly `bs` - for all grammar-related `bs`, `v`.
* `G k L d d'`: two-reader relation giving panic-freedom, termination (fuel suffices), at least `k` bytes consumed, and
  the dependence of errors on the input (stable under extension / an I/O error of the reader / swallowed I/O error).

* `Clear`/`ErrPost`/`Mark`: what a returned error may be (marker bytes, no hidden payloads).
* `Lg`, `Owes`: what a decoder reserves, against the bytes it consumed (C44, C65).
* `Uses d`: parametricity - a decoder touches its reader only through `read` and `reserve`; hence any relation between
  two readers preserved by those two is preserved by the decoder.  Used for isolation of sections (C53) and for
  "nothing behind the declared end was taken" (C54).
* `Place`: which error a failing `decode_module` returns, as a function of the bytes (C50-C52).
* `Faults d F`: `d` fails with `e` exactly when `F` relates the end of the reader, the available bytes and `e`
  (`Errs`: only if, `FailsIn`: if).  One relation `F…` per decoder in Spec/Fault.lean, written in terms of the grammar (C55).

Grammar relations are proved functional/prefix-free through the decoder (an input has one result).

## Trusted base

* Lean 4.33.0's kernel.  Axioms: at most `propext`, `Classical.choice`, `Quot.sound` for every theorem.
* The reading of the Rust source: each definition cites the lines it models.  For the decoder this is
  narrowed to the rules of `tools/rs2lean.py` and `Source/Prelude.lean`, see "The translated source".
* The modelled behaviour of Rust std: `Read::read_exact`, `Read::read_to_end`, `Take`, `Chain`, `Cursor`,
  `String::from_utf8` (validation algorithm), integer `<<`, `|`, `try_from`, `f32::from_le_bytes`, derive(PartialEq/PartialOrd).
* `phf::phf_ordered_map!` lookups are a map lookup.
* The transcription of the Wasm 3.0 binary grammar in `Verif/Spec`.

Assumptions: `usize` has at least 32 bits (so `u32 -> usize` conversions do not fail); a reader delivers finitely many
events (afterwards: end of file; not assumed for C56 and C57) and returns no more bytes than the buffer holds (required by
the `Read` contract); a reader that overrides `read_exact` behaves as the default method would (C81: keeping its contract is enough), likewise `read_buf` (C87: as for `read_exact`)
(`read_to_end` is only called on `Take`, which does not override it);
allocation does not fail; the call stack is not exhausted; the reader itself does not panic.

Derived `Debug` output (C62-C64) is modelled in two steps: what a derived `impl Debug` tells the formatter (a tree, generated
from the declarations by `tools/gen_debug.py`), and how std's `debug_struct`, `debug_tuple`, `debug_list` and `PadAdapter` lay it
out.  The texts of floating-point numbers, the set of characters of a string written as `\u{..}` and the description of an
`io::Error` are parameters; the theorems assume of them (`StdText.Ok`, Spec/Debug) that the former are words, different for
different numbers except that NaNs may look alike, and that `io::Error`s that differ are described differently.

Steps (C69) are: a call of a decoding function, an iteration of a loop, a call of the reader and every byte it delivers, a byte checked
for UTF-8, an instruction visited by the search for data indices, an element of a converted vector, a reservation, and, at a price
that is a parameter, a local pushed to a function.  Not counted: work of constant size inside a function (at most as many branches as its
`match` has arms; adapters nest to a fixed depth), what the allocator does when it zeroes or grows a vector, dropping.  Which of these a
function does is read off the model's text by `tools/gen_steps.py`; the charges inside expressions (`EXTRA`) were put in by hand.

Not modelled: clap's argument parsing in the CLI, the message std prints on a panic, memory layout (element sizes are a parameter of C77), running time other than as a number of steps (C69),
the `#[cfg(test)]` modules (but see C86 and Validation).  The payload-free model of `DecodeModuleError::DecodeDataCount`
is sound because that variant is proved never returned (`c52_never`).

## The translated source

The model was written by hand.  Independently of it, `tools/rs2lean.py` parses the Rust text of `/repo/src/decode`
and emits, statement by statement, one Lean definition per function (all 80 functions reachable from `decode_module`,
every line number in a comment): `Source/{Base,Leaf,Types,Instructions,Sections,Module}.lean`.  It does not know
the model of the decoders.  `Source/Agree*.lean` prove, function by function and for every reader that respects its
buffer, that the two are the same function; the last theorem is

    theorem decode_module_eq [Read R] [Fits R] : (Source.decode_module : Dec R _ _) = decodeModule

so each theorem about `decodeModule` is a theorem about the translated text.  What remains to be trusted for the
decoder is the translation rules (head of `rs2lean.py`), the meaning of the language constructs and std functions in
`Source/Prelude.lean` and `Model/Io.lean`, and the shared types (`Core/`, `Model/Errors.lean`, generated from the
Rust declarations).  The translator stops on any construct it does not know.  Shared between both sides: the reader
layer, the step budget of loops, the result types, `utf8Check` (std's UTF-8 validation).

Notable rules: a `match` on an integer is a chain of `if`s in source order, with the arms' ranges as written; `e?` applies
the `From` conversion found in the `#[from]` attributes of the enclosing function's error type; `+`, `-`, `<<`, indexing,
`unwrap` and `unreachable!` panic where Rust does; `let mut reader = Cursor::new([b]).chain(reader)` and `take` change the
reader for the rest of the block; variables are shadowed as in the text; enum order (`<` on `SectionKind`) is the order of
declaration.

`tools/rs2lean_cli.py` does the same for `wadec-cli/src/main.rs` (`Source/Cli.lean` over `Source/CliPrelude.lean`): the
process is a computation with two output streams whose writes may fail.  `Source/AgreeCli.lean` proves it equal to
`Model/Cli.lean` when no write fails (C46), and describes what happens otherwise (C61).

`Props/Source.lean` restates the main theorems (C17, C18, C29, C31, C46, C55, C56) with the translated functions in place of
the model.  `tools/check_source.sh` regenerates the files and compares them with the committed ones.

## Validation of the model

The model is written by reading; these checks guard against misreading.  They are tests, not claims.

* `lean/Verif/Check/`: all 189 tests of the project hold of the model, checked by the kernel in the build:
  `tests/tests.rs` and `tests/error_types.rs` are translated mechanically by `tools/gen_tests.py` (same input bytes,
  same expected modules, error patterns and assertions), the unit tests of `src/decode/integer.rs` by hand.
  (`tests/z_spec.rs` needs the upstream test suite, which is not in the checkout.)
* `seeded/LOG.jsonl`: wrong edits of the model, and the theorems that stop checking; then wrong edits of the Rust text,
  translated again, and the `Agree` theorems that stop checking.

## Findings

Facts about the code that came out of the proofs (each is a theorem or an instance beside one):

* Attacker-controlled preallocation: `Vec::with_capacity(count)` before any element is read; a 15-byte input asks for
  2^32-1 elements (C44).  An allocation failure would abort the process; this is outside the model.
* Locals amplification: 24 bytes are accepted as a function with 2^32-1 locals (C43, C25).
* Unbounded recursion: 2n bytes give n nested calls of the instruction parser (C45); a stack overflow aborts.
* A swallowed I/O error: `BlockType::decode` ignores why decoding a value type failed.  If the reader fails right
  behind the bytes 0x63/0x64, the error is lost and `NegativeTypeIndex(-29 | -28)` is returned (C33, exception
  characterised exactly).
* A reader error of kind `UnexpectedEof` at a section boundary is taken for the end of the module (C32).
* `==` on modules is not reflexive when a NaN constant occurs (C47).
* The `source()` chain of 44 error variants stops before the I/O error stored in them (C48).
* `DecodeModuleError::DecodeDataCount` is unreachable (C52).
* The message about a wrong preamble is the only one with line breaks (`{:#X?}`, 19 lines; C67); the others fit `abort`'s one line per cause.
* On a 32-bit target `Vec::with_capacity(n)` panics for announced lengths beyond isize::MAX bytes: 15 bytes are enough (C77, `c77_narrow`); an
  accepted module never asks for more elements than it has bytes (C65).  `push` panics likewise while expanded locals grow beyond isize::MAX bytes,
  in a module of 24 bytes that is accepted where there is room (C77, `c77_many`).  On a 64-bit target neither can happen (C77, `c77_wide64`).
* `--verbose` output is quadratic in the nesting: 30 026 bytes are listed in more than 1.6 * 10^9 characters, and 24 bytes (locals) in more than
  8 * 10^10 (C78).
* The message about the flag of a data segment, "expected 0 (passive), 1 or 2 (active)", swaps the roles: 0 and 2 are decoded as active, 1 as
  passive (C38); the three numbers are right (C59).
* The example in the README and the message of the `TagType` decoding error do not match the code (text only).

## Plan per property

* **C01** u32 immediates are decoded exactly as the Wasm binary format prescribes. `decode_u32` modelled with its bit operations; Sound+Runs against the spec relation `BU 32` (the recursive uN production).
* **C02** u64 immediates are decoded exactly as the Wasm binary format prescribes. same with `BU 64`.
* **C03** i32.const immediates are decoded exactly as the Wasm binary format prescribes. same with `BS 32`.
* **C04** i64.const immediates are decoded exactly as the Wasm binary format prescribes. same with `BS 64`.
* **C05** 33-bit type indices are decoded exactly as the Wasm binary format prescribes. same with `BS 33`; narrowing shown total.
* **C06** Integer decoding failures are classified correctly. complete case analysis of each integer decoder on every available byte string: theorem gives error iff condition.
* **C07** Every integer value is expressible, in canonical and in padded form. spec-level canonical/padded encoders, shown to be in `BU`/`BS`, then Runs.
* **C08** Floating-point and v128 immediates are preserved bit for bit. float decoders modelled on bit patterns (LE bytes to UInt32/UInt64); Sound+Runs.
* **C09** Names are exactly the length-prefixed UTF-8 strings. model of std UTF-8 validation on bytes; spec: concatenation of `utf8` of each scalar value; equivalence proved.
* **C10** Lists decode to exactly the announced elements, in order. generic theorem about `decode_list` for any element decoder, success and failure.
* **C11** Value, reference and heap types follow the grammar. Sound+Runs against BValType/BRefType/BHeapType.
* **C12** Composite, sub- and recursive types follow the grammar. Sound+Runs against BRecType.
* **C13** Limits, table, memory, global, tag and external types follow the grammar. Sound+Runs per type.
* **C14** Block types are decoded without losing look-ahead bytes. Sound+Runs for BlockType::decode incl. the chain/try logic.
* **C15** Instructions and expressions follow the grammar. Sound+Runs for parse/decode_expr against inductive BInstr/BExpr; opcode tables checked entry by entry.
* **C16** Block structure: else and end belong to the innermost open construct. theorem on the result of parse: delimiter handling; error classification for misplaced else.
* **C17** Conformance, soundness: whatever is accepted is a well-formed binary module. Sound for decode_module against BModule.
* **C18** Conformance, completeness: every well-formed binary module is accepted. completeness of decode_module against BModule.
* **C19** Sections appear in the prescribed order, each non-custom kind at most once. from soundness + direct characterisation of the order check.
* **C20** Every input byte is accounted for. from the section-list form of BModule.
* **C21** Trailing bytes are never silently ignored. from soundness and prefix-freeness of sections.
* **C22** Custom sections do not influence the rest of the module. spec-level: BModule invariant under custom insertion; transfer by C17/C18.
* **C23** Custom sections are preserved verbatim. from BModule.
* **C24** Functions pair the i-th type index with the i-th code entry. from BModule + error side.
* **C25** Locals are expanded faithfully and bounded. model of locals expansion; both directions.
* **C26** Code entries occupy exactly their declared size. take-limit reasoning.
* **C27** Data count agrees with the data segments. from BModule + error side.
* **C28** A data index anywhere in code requires a data count section. inductive SubInstr spec of occurrence vs the boolean tracked by the code.
* **C29** The decoder never panics. G calculus: panic branch unreachable for all readers.
* **C30** The decoder always terminates. G calculus: fuel unreachable; consumption bounded by delivered bytes.
* **C31** The result does not depend on how the reader fragments the input. G calculus with equal available bytes and equal ends.
* **C32** A failing reader never yields a module. case analysis of the end of the section loop.
* **C33** I/O failures are reported as such. G calculus root-cause part; exception proved by witness.
* **C34** Truncating an accepted module is detected. prefix-freeness + section boundary analysis.
* **C35** The binary format as decoded is unambiguous. from Sound+Runs: determinism.
* **C36** Every module value can be written down and read back. canonical encoder of modules, shown in BModule; then C18.
* **C37** Element segments: the eight encodings. Sound+Runs for element segments.
* **C38** Tables, globals, data segments, imports and exports follow the grammar. Sound+Runs per section entry.
* **C39** Preamble check. direct.
* **C40** Section size mismatches are reported with the true numbers. direct, with Take limit accounting.
* **C41** Marker-byte errors carry the offending byte. error-postcondition calculus.
* **C42** Memory arguments. Sound+Runs for memarg.
* **C43** Decoded size is bounded by the input, locals excepted. size measure on syntax vs bytes on the grammar relation; amplification witness; two nodes per byte are reached (`c43_tight`).
* **C44** Memory is reserved before content is seen. allocation log: witness and bounds.
* **C45** Nesting depth is limited only by the input length. explicit family of nested blocks; depth bound from grammar.
* **C46** The command-line tool's exit status reflects the decoding result. small model of main.rs.
* **C47** Module equality is reflexive except for NaN constants. model of derived PartialEq with IEEE equality.
* **C48** Displayed causes. all `#[error]` texts and `source()` links modelled; induction over the error types.
* **C49** Verdicts on a prefix are final. G calculus, error side: errors stable under extension of the input.
* **C50** Errors name the section in which decoding failed. complete case analysis of `decode_module` on the bytes (Place).
* **C51** Errors name the entry at which decoding failed. same, through the characterisation of `decode_list`.
* **C52** Section header errors. same, for the header.
* **C53** A section is judged by its own bytes. `Uses` with the relation "same bytes under the same take limit".
* **C54** No reading past the declared end of a section. `Uses` with the byte stream of the source.
* **C55** Every error is the description of the first defect. Spec/Fault.lean gives, for each part of a module, one rule per
  possible defect: which parts are there (in terms of the grammar), what is wrong with the next one, and the complete error
  value.  Proved by `Faults` for every decoder up to `decode_module`, so the complete nested error value is determined.
* **C56** Arbitrary implementations of `Read`. `Impl σ` is any transition function `read` with the trait's only obligation;
  `decode_module` runs on it under observation (`Rec`: state and results of all calls).  A backward simulation (the script of
  results is known once the run has ended) carries every run over to a scripted reader, to which the other properties apply.
  Termination by a rank of the reader's state (`NF`), since such a reader has no byte content to count.
* **C57** The end of the input is asked for once. `Calm` for every decoder: started on a reader that has not ended it makes no
  call behind an end, and if it succeeds there has been none (Proof/Calm, CalmAll); the three places where a decoder goes on
  after an end - the section loop, `read_to_end`, the discarded attempt in block types - are treated by hand.
* **C58** Messages about unexpected bytes. Spec/Texts reads the hexadecimal numbers back from a message (`shows`); `Truthful` compares
  them with the bytes on which the decoder fails with that error, by the relations of C55. The texts themselves are generated from the
  `#[error]` attributes (Model/Display).
* **C59** Messages about sizes, counts and positions. The same for decimal numbers (`tells`), again by C55.
* **C60** Which causes are shown. Two tables over all variants with an error inside (`Shows`, `Hides`), and, by an instance per error type
  (Proof/Cut), that nothing else hides an `io::Error`. The list of the messages is exact (`c60_exact`): 36 inputs, cut off by a reader
  that breaks, show each of them by evaluation in the kernel.
* **C61** The tool's verdict survives failing output streams. About the translated text of `main.rs`; `Prefixed` is a property of
  computations closed under sequencing and loops: with faults, the same course, or a panic after a part of the output.
* **C62** The verbose listing shows the whole module. `Dbg.Ok` trees are read back from their text: `pretty_inj` (Proof/Debug) by induction on
  trees with the rest of the text; that different values have different trees is one `Tells` instance per type (generated) and, for
  instructions, for names (`\"`, `\\`, `\u{..}` escapes) and modules, up to `oneNaNModule`.
* **C63** The verbose report determines the error. The same for error values; where the debug text starts in the report is found by
  `heading_split`: no line of a debug text but the first and the last starts at the margin.
* **C64** The one-line debug texts determine modules and errors. `compact_eq`: the one-line text determines the tree.
* **C65** Reserved memory is paid for by the input, up to three lists. `Owes k c d c'` (Proof/Owes): an amortised analysis with one credit per byte
  read, which each element of a list leaves for its list; only the lists that are open when decoding fails are unpaid, and lists nest at
  most three deep (types: recursive types, subtypes, fields; elements: segments, expressions, labels).
* **C66** The decoder of instructions calls itself at most half as often as there are bytes. Model/Depth is a copy of every decoder that reaches
  `Instruction::parse` (hand-written for that function, generated by tools/gen_depth.py for its callers) with room for `d` calls of it, or later
  of the other recursive function, `instruction_contains_data_index`; running out is `.fuel`. `c66_limit` proves that the copy differs from the model in nothing else (`Under`, Proof/DepthOnly); `Same L d d'`
  (Proof/Depth): equal on readers with fewer than `L` bytes.
* **C67** Error reports are short, one line per cause. `Brief n` (one instance per error type, generated by tools/gen_brief.py) bounds the number
  of messages, `Lined` says that each is one line; the lines of the report (`Spec.lines`) are then computed from the model of `abort`.
* **C68** The report names the section and the entry that could not be decoded. Spec/Headline has the lines, written independently of the
  generated messages; the report begins with them exactly when the error is about that place (`blames_iff`), and C50/C51 say when that is.
* **C69** The work is linear in the input. Model/Steps (generated) is the decoder once more in a monad that counts steps; `c69_same` says that it
  decodes the same. `Pays K c d c'` (Proof/Pays): an amortised analysis in which every byte pays `K` steps; each element of a list leaves
  what a later pass over the list costs (`total`). `Spends` (Proof/Spends): the lower bound, so that no work on bytes goes uncounted. `Extra` (Proof/Pushes): the price of pushing locals is the only difference between runs.
  Finding: 24 bytes can push any number of locals below 2^32 (`c69_amplification`).
* **C70** Debug texts name variants and fields. Spec/Names has term elaborators (`name_of%`, `parts_of%`, `labels_of%`, `type_name%`) that read the
  declaration of an inductive type and produce the `match` with the names; the theorems compare it with the `Debug` instances, type by type.
  Numbers, flags, options, lists and strings have relations of their own (`Numeral`, `WritesNat`, `WritesInt`, `Escapes`): `c70_values`, `c70_containers`, `c70_strings`.
  (The types themselves are generated from the Rust declarations.  `DecodeDataCount`, whose payload is not modelled, is excluded.)
* **C71** Verbose output is laid out by nesting. Spec/Layout defines the lines of a tree; `pretty_layout` by induction on trees, with the
  `PadAdapter` as a function on texts.
* **C72** The call depth an accepted module needs is its nesting depth. `Fits P d d'` (Proof/Nesting): the decoder with limited stack succeeds exactly
  where the other does and the result satisfies `P`; `P` is a bound on `depthInstrs` (Spec/Size). For the section loop the depth of the final
  module bounds the depth of the intermediate ones (`depth_state_le`), because sections are not repeated.
  For inputs that are not accepted, `Opens n bs` (Spec/Opens) are the bytes that lead into `n` nested constructs; `Sticks` (Proof/Sticks): inputs on
  which a decoder runs out of stack, `StuckBy` (Proof/OpensOnly): the only ones.
  For modules `InModule E` (Spec/Opens) are the inputs that lead to an expression with `E`; `Exactly T d` (Proof/OpensModule): `d` runs out of stack
  on the inputs with `T` and no others.
* **C73** Every accepted module has a shortest form. Spec/Shortest is an encoder that uses the abbreviations of the format; `Shrinks B f`
  (Proof/Shortest): whatever has an encoding by the grammar `B` is encoded by `f`, no longer. Compositional, by induction on the grammar; joining runs
  needs `encU_add` (a sum is written no longer than its terms), the element segments a minimum over the applicable forms; for modules the sections of
  the result are, kind by kind, among those of the input (`Pieces`).
* **C74** Local edits have local effects. `EntryKind`, `Site` and `Edits` (Spec/Splice) describe the place of some entries in the bytes of a module and
  what may be put there. By conformance (C17, C18) and unambiguity (C35) the place is where the grammar has those entries (`site_section`); the sections
  before and after are the same, and each kind of section occurs once (`alone`), so that the module assembled from the edited sections differs in one
  field (`Placed`, one instance for each of the eleven kinds).
* **C75** Modules inside longer streams. `decodeArchive` and `peekThenDecode` (Spec/Streams) are client programs. That a `Take` within what its reader
  delivers never makes the reader meet its end is an invariant in the sense of C57 (`Watched`, `module_calm`); the result is that of the bytes alone by
  C31; an accepted module has used up the limit because the decoder's last read is at limit 0, where `Take` does not call the reader.
* **C76** Inserting and removing sections. `SectionEdit` (Spec/Splice) says, for a section, what it contributes to a module and which side conditions
  it is subject to; `Addable` (Proof/Insert) that this is right, for each of the thirteen non-custom kinds: the assembled module with and without the
  section differ in one field and the records, since the kind occurs once (`alone`), and `WellFormed` with and without it differ by the order and the
  stated condition. With C17, C18 and C35 this gives the verdict of the decoder on both byte strings.
* **C77** The limits of the target. Model/Target (generated by tools/gen_target.py from the model's text) is the decoder once more, told by a
  `Target` how many elements of each kind a vector can be made for and how many locals a vector can grow to; where there is no room it panics.
  `Tied c d`: `c` does what `d` does and the lengths that were asked for fit, or it panics and one of them does not; the lengths are those below 2^32
  for any reader, and those in the log for `Src` (`Ledger`), so one proof gives both. `TiedQ` adds the locals: no section after the code changes the
  functions (`Late`), so what `fill_funcs` had no room for is in the decoded module. `Given`: what is accepted had room for its locals.
* **C78** The length of the verbose listing. For the trees that `Debug` impls describe, `ink` (characters without indentation) and `tall` (levels)
  bound the text: length ≤ ink * (1 + 4 tall) (Proof/Ink, over `pad`, the model of PadAdapter). Both are bounded type by type (Proof/InkTypes,
  Proof/InkModule) by nodes, locals and nesting. Below: a construct adds two levels to every line inside it, so 16 d² by induction over instructions.
* **C79** How long a report is. `Curt` bounds the characters of the messages of an error type and `Terse` those of its debug text, besides the texts
  of `io::Error`s and the bytes of an ill-formed name; instances for all error types are generated (tools/gen_curt.py, Proof/Curt). They need the
  numbers in the error to be in range (`sane`), which C55 gives for returned errors (Proof/Sane). Below: a byte of a name stands on a line of its own,
  indented at least five levels.
* **C80** The decoder reads exactly as far as it needs. Two runs side by side (`Duo`, Proof/Duo, rules; Proof/DuoAll, all decoders): one on a reader, one
  on the same reader cut behind the first bytes, where it fails with `X`. Either they agree and the first stays within these bytes, or it goes beyond
  them and the second returns an error that contains `X`, or the `murky` one that swallows it (C33). If these bytes were decisive, two different `X`
  leave only the `murky` one; that one is excluded by continuing with a byte 0, behind which no such error is returned (`Lamp`, Proof/Lamp). What is said
  about scripts carries over to all implementations by C56. Hanging readers: the cut-off reader has an end, and the run on it never meets the cut.
* **C81** Readers with a `read_exact` of their own. Only the preamble and the section headers are read by the reader's own `read_exact`; section contents go
  through `Take`, which has the default one. Model/OwnExact is the decoder with `read_exact` as a parameter in these places (equal to Model/Module for the
  default, `c81_default`). `Fills` (Spec/OwnExact) is std's contract. `Twin`: on readers with the same content both return the same and leave the same content.
* **C82** Buffered input, cursors and ring buffers. Model/StdReaders describes std's `BufReader`, `Cursor<T>` and `VecDeque<u8>` as readers with their own
  `read_exact`. Proof/StdReaders: they are `LawfulRead` (the weight of a `BufReader` is that of the inner reader times the capacity) and keep `Fills`; the results
  follow from C81. What a `BufReader` holds and has not lost is an invariant kept by every `read` (`Upkeep`, Proof/StdKeeps), got for sections from the
  simulations of C56 (a reader that mirrors itself where the invariant fails). Trusted: the reading of std's source for these three types.
* **C83** Using a decoded module needs no deeper call stack than decoding it. Model/Usage: drop glue and derived `Clone`, `Debug`, `PartialEq` with a limit on nested
  calls, as Model/Depth has for the decoder. Induction on the limit; modules by way of the list of their expressions; C72 gives the depth of what was decoded in
  a given room. `Reaches n i` (Spec/Usage): there is an instruction `n` levels inside `i`; the limit `d` is hit if and only if `Reaches d i` (`c83_exactly`). Simplified: printing a module prints its expressions first.
* **C84** Rejecting a module needs no deeper call stack than reading it. Model/Drops is Model/Depth with what a function holds when a step of it fails (vectors of
  instructions, elements of lists, offsets, the module) dropped, and what is assigned to dropped before. It equals Model/Depth if there is as much room for dropping
  as for parsing: what is held has been decoded in the room there was (`Fits` of C72). The examples (`dropCases`) show for every such place that it is dropped, by
  running out of room for it. Decoding that succeeds drops no instructions (`c84_success`): the two models succeed alike,
  and the places assigned to are empty because no section occurs twice. Not modelled: dropping values without instructions in them.
* **C85** Copies are faithful, and indices can be keys. Model/Copies (generated): derived `Clone` rebuilds the variant from the clones of its fields, `*self` for
  types that are `Copy`; by induction it is the identity. Derived `Hash` of the index types feeds a hasher (any: a class with `write_u32` and `finish`) the field.
  How std's `HashMap` is built is not modelled; `Key.finds` says what it relies on.
* **C86** What the integer tests check on samples holds for all values. Model/Encoders: the tests' encoders on machine integers, terminating because `>> 7` brings a
  value closer to 0 or -1. By induction they produce `uEnc k v`/`sEnc k v` (C07) with the least `k` possible; then C06 and C07.
* **C87** A reader's own way of filling a buffer does not matter. Model/OwnBuf: reading to the end with `read` and `read_buf` in turns (which is called when
  is left open), and the loop over sections with it. `Buffers` (Spec/OwnBuf) is the contract of `read_buf`. The reader with both methods in turns
  (`Turns`) is a lawful reader, so reading it to the end is known from before; from there as in C81. A `read_buf` that hands out bytes and an error in
  one call, which std's documentation advises against, does not keep the contract.
