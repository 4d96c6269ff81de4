{"id": "C01", "title": "u32 immediates are decoded exactly as the Wasm binary format prescribes", "statement": "Wherever a u32 is expected (indices, counts, sizes, sub-opcodes), the decoder succeeds exactly on the byte strings that the WebAssembly grammar u32 allows (unsigned LEB128 of at most 5 bytes whose unused bits are zero), consumes exactly those bytes, and returns the value the grammar assigns to them.", "quantifier": "every byte string, every value, every reader position", "why_tests_cant": "2^35 byte patterns per integer and unboundedly many suffixes; unit tests sample eight of them", "anchors": ["src/decode/integer.rs: decode_u32"]}
{"id": "C02", "title": "u64 immediates are decoded exactly as the Wasm binary format prescribes", "statement": "Wherever a u64 is expected (limits, memory-argument offsets) the decoder accepts exactly the grammar u64 (unsigned LEB128 of at most 10 bytes with zero unused bits), consumes exactly those bytes and returns their value.", "quantifier": "every byte string and value", "why_tests_cant": "2^70 encodings", "anchors": ["src/decode/integer.rs: decode_u64"]}
{"id": "C03", "title": "i32.const immediates are decoded exactly as the Wasm binary format prescribes", "statement": "An i32 immediate is accepted exactly when its bytes are a signed LEB128 s32 of the grammar (at most 5 bytes, correct sign extension in the last one); the decoded value is the grammar's value in [-2^31, 2^31).", "quantifier": "every byte string and value", "why_tests_cant": "2^35 encodings including every boundary of sign extension", "anchors": ["src/decode/integer.rs: decode_i32", "src/decode/instructions.rs: Instruction::parse (0x41)"]}
{"id": "C04", "title": "i64.const immediates are decoded exactly as the Wasm binary format prescribes", "statement": "An i64 immediate is accepted exactly when its bytes are a signed LEB128 s64 of the grammar (at most 10 bytes, correct sign extension); the decoded value is the grammar's value in [-2^63, 2^63).", "quantifier": "every byte string and value", "why_tests_cant": "2^70 encodings", "anchors": ["src/decode/integer.rs: decode_i64", "src/decode/instructions.rs: Instruction::parse (0x42)"]}
{"id": "C05", "title": "33-bit type indices are decoded exactly as the Wasm binary format prescribes", "statement": "The signed 33-bit integer in block types and heap types is accepted exactly when it is an s33 of the grammar, with the grammar's value; a non-negative one always fits the u32 index that is stored, so the narrowing never fails.", "quantifier": "every byte string and value", "why_tests_cant": "2^35 encodings", "anchors": ["src/decode/integer.rs: decode_s33", "src/decode/types/heaptype.rs: HeapType::decode", "src/decode/instructions.rs: BlockType::decode"]}
{"id": "C06", "title": "Integer decoding failures are classified correctly", "statement": "When an integer cannot be decoded, the error says why: an I/O error exactly when the input ends inside the integer (and then it is the reader's own error), RepresentationTooLong exactly when the maximal number of bytes all carry a continuation bit, and TooLarge / IncorrectSignExtension exactly when the terminated byte string is outside the grammar's range.", "quantifier": "every byte string, every way the reader can end", "why_tests_cant": "covers all rejected inputs, not a sample", "anchors": ["src/decode/integer.rs: DecodeU32Error, DecodeU64Error, DecodeI32Error, DecodeI64Error, DecodeS33Error"]}
{"id": "C07", "title": "Every integer value is expressible, in canonical and in padded form", "statement": "For each integer type and each value of it, the shortest LEB128 encoding and every zero/sign-padded encoding up to the maximal length decode to that value, leaving all following bytes unread.", "quantifier": "every value of u32, u64, s32, s64, s33, every permitted padding length, every following byte sequence", "why_tests_cant": "2^64 values times paddings", "anchors": ["src/decode/integer.rs"]}
{"id": "C08", "title": "Floating-point and v128 immediates are preserved bit for bit", "statement": "f32.const, f64.const, v128.const and i8x16.shuffle take exactly 4, 8, 16, 16 raw bytes, and the decoded constant has exactly that little-endian bit pattern (including NaN payloads and signed zeros).", "quantifier": "every 4-, 8-, 16-byte pattern", "why_tests_cant": "2^32, 2^64 and 2^128 patterns", "anchors": ["src/decode/helpers.rs: decode_f32, decode_f64", "src/decode/instructions.rs: Instruction::parse (0x43, 0x44, 0xFD 12, 0xFD 13)"]}
{"id": "C09", "title": "Names are exactly the length-prefixed UTF-8 strings", "statement": "A name (custom section name, import module/item name, export name) is accepted exactly when its u32 length prefix is followed by that many bytes which are the UTF-8 encoding of a sequence of Unicode scalar values; the resulting string has exactly those bytes. Overlong forms, surrogates, values above U+10FFFF and truncated sequences are rejected.", "quantifier": "every byte string", "why_tests_cant": "unbounded strings, all malformed UTF-8 shapes", "anchors": ["src/decode/helpers.rs: decode_name, decode_byte_vector"]}
{"id": "C10", "title": "Lists decode to exactly the announced elements, in order", "statement": "A list is decoded as its u32 count n followed by n elements; success yields exactly n elements in input order and consumes nothing more; on failure either the count itself is bad or the error position i is less than n, the first i elements decoded successfully, and the carried error is the one the element decoder gives at that point.", "quantifier": "every element decoder used, every count, every input", "why_tests_cant": "unbounded counts and element shapes", "anchors": ["src/decode/helpers.rs: decode_list, DecodeListError"]}
{"id": "C11", "title": "Value, reference and heap types follow the grammar", "statement": "A value type / reference type / heap type is accepted exactly when its bytes are in the corresponding Wasm 3.0 production and the decoded type is the one the production yields (nullability, abstract heap type or type index).", "quantifier": "every byte string", "why_tests_cant": "type indices are unbounded LEB128 and the one-byte lookahead must not lose or duplicate bytes on any of them", "anchors": ["src/decode/types/valtype.rs", "src/decode/types/reftype.rs", "src/decode/types/heaptype.rs"]}
{"id": "C12", "title": "Composite, sub- and recursive types follow the grammar", "statement": "A type-section entry is accepted exactly when it is a rectype of the grammar (group or single subtype; final / open; supertypes; array, struct, func), with the decoded structure the grammar yields.", "quantifier": "every byte string, arbitrarily long field, parameter and group lists", "why_tests_cant": "unbounded nesting of lists", "anchors": ["src/decode/types/comptype.rs", "src/decode/types/rectype.rs", "src/decode/types/resulttype.rs", "src/decode/sections/type.rs"]}
{"id": "C13", "title": "Limits, table, memory, global, tag and external types follow the grammar", "statement": "Each of these types is accepted exactly on its grammar production, with the address type, minimum, optional maximum, mutability, element type, and import kind the grammar gives; a maximum is present exactly for flag bytes 0x01 and 0x05, and the address type is 64-bit exactly for 0x04 and 0x05.", "quantifier": "every byte string", "why_tests_cant": "two unbounded u64 fields and every flag byte", "anchors": ["src/decode/types/limits.rs", "src/decode/types/tabletype.rs", "src/decode/types/memtype.rs", "src/decode/types/globaltype.rs", "src/decode/types/tagtype.rs", "src/decode/types/externtype.rs"]}
{"id": "C14", "title": "Block types are decoded without losing look-ahead bytes", "statement": "A block type is accepted exactly when it is 0x40, a value type, or a non-negative s33 type index, and in each case exactly the bytes of that block type are consumed, although the decoder first tries a value type on the same bytes.", "quantifier": "every byte string", "why_tests_cant": "the failed attempt consumes bytes that are not given back; only a proof over all inputs shows this never corrupts an accepted module", "anchors": ["src/decode/instructions.rs: BlockType::decode"]}
{"id": "C15", "title": "Instructions and expressions follow the grammar", "statement": "An expression is accepted exactly when it is a sequence of instructions of the Wasm 3.0 binary grammar terminated by its own 0x0B; the decoded instruction tree is the one the grammar yields, every opcode (one-byte, 0xFB, 0xFC, 0xFD) is mapped to the right instruction with its immediates in the right order, and every other opcode is rejected. The other opcodes are 59 bytes, the numbers from 31 on after 0xFB, from 18 on after 0xFC, and from 276 on and twenty below after 0xFD.", "quantifier": "every byte string, every nesting depth, every opcode", "why_tests_cant": "unbounded nesting, ~550 opcodes with unbounded immediates", "anchors": ["src/decode/instructions.rs: Instruction::parse", "src/decode/helpers.rs: decode_expr"]}
{"id": "C16", "title": "Block structure: else and end belong to the innermost open construct", "statement": "In an accepted expression, else occurs only directly in an if and at most once, each block/loop/if/try_table is closed by its own end, and an else anywhere else is reported as an error rather than skipped.", "quantifier": "every byte string and nesting depth", "why_tests_cant": "unbounded nesting", "anchors": ["src/decode/instructions.rs: Instruction::parse", "src/decode/helpers.rs: decode_expr"]}
{"id": "C17", "title": "Conformance, soundness: whatever is accepted is a well-formed binary module", "statement": "If decode_module returns a module for some bytes then those bytes are a module of the Wasm 3.0 binary grammar (preamble, sections, sizes, order, side conditions) and the returned module is the one the grammar assigns to them.", "quantifier": "every input", "why_tests_cant": "README claims 100% conformance; a test suite only samples the input space", "anchors": ["src/decode/module.rs: decode_module"]}
{"id": "C18", "title": "Conformance, completeness: every well-formed binary module is accepted", "statement": "If bytes are a module of the Wasm 3.0 binary grammar denoting module m, decode_module returns exactly m (so, in particular, 'invalid' but well-formed modules are accepted).", "quantifier": "every well-formed module", "why_tests_cant": "infinite language", "anchors": ["src/decode/module.rs: decode_module"]}
{"id": "C19", "title": "Sections appear in the prescribed order, each non-custom kind at most once", "statement": "In every accepted module the non-custom sections are strictly increasing in the specified order (type, import, function, table, memory, tag, global, export, start, element, data count, code, data), the recorded list of section kinds is exactly that sequence, and any input whose next section repeats or precedes the previous non-custom one is rejected with DuplicateSection / SectionOutOfOrder naming the two kinds.", "quantifier": "every input and number of sections, custom sections interleaved anywhere", "why_tests_cant": "unboundedly many section sequences", "anchors": ["src/decode/module.rs: Module::validate_section_kind_expected, decode_module", "src/core/module.rs: SectionKind"]}
{"id": "C20", "title": "Every input byte is accounted for", "statement": "For every accepted input, its length is 8 plus, over the recorded section headers in order, 1 + the length of the size field + the recorded size; no section content is skipped or read twice, and the headers list all sections including custom ones in input order.", "quantifier": "every accepted input", "why_tests_cant": "all module sizes", "anchors": ["src/decode/module.rs: decode_module, decode_section_header", "src/core/module.rs: SectionHeader"]}
{"id": "C21", "title": "Trailing bytes are never silently ignored", "statement": "If an input is accepted, then the same input followed by any non-empty byte string is accepted only if that string is itself a sequence of complete well-formed sections whose kinds may follow; in particular no trailing garbage is ignored.", "quantifier": "every accepted input and every non-empty suffix", "why_tests_cant": "all suffixes", "anchors": ["src/decode/module.rs: decode_module"]}
{"id": "C22", "title": "Custom sections do not influence the rest of the module", "statement": "Inserting or removing well-formed custom sections at any section boundaries changes neither acceptance nor any decoded component other than the custom sections themselves and the header list.", "quantifier": "every module, every set of custom sections, every insertion point", "why_tests_cant": "all positions and payloads", "anchors": ["src/decode/module.rs: decode_module", "src/decode/sections/custom.rs: decode_section_custom"]}
{"id": "C23", "title": "Custom sections are preserved verbatim", "statement": "The custom sections of an accepted module are reported in input order, each with exactly its name and exactly the remaining bytes of its section as contents.", "quantifier": "every accepted input", "why_tests_cant": "arbitrary payloads", "anchors": ["src/decode/sections/custom.rs: decode_section_custom"]}
{"id": "C24", "title": "Functions pair the i-th type index with the i-th code entry", "statement": "In an accepted module there are as many functions as entries in the function section and in the code section; function i has the i-th type index, and the locals and body of the i-th code entry. A mismatch of the two counts (including a missing code section) is rejected with CodeFuncEntriesLenMismatch carrying both counts.", "quantifier": "every input, any number of functions", "why_tests_cant": "unbounded function counts", "anchors": ["src/decode/module.rs: decode_module", "src/decode/sections/code.rs", "src/decode/sections/function.rs"]}
{"id": "C25", "title": "Locals are expanded faithfully and bounded", "statement": "A function's locals are the concatenation of its (count, type) groups, each type repeated count times in order; a function declaring 2^32 or more locals in total is rejected with LocalsCountOutOfBound carrying the first total exceeding the maximum.", "quantifier": "every code entry", "why_tests_cant": "group counts up to 2^32-1, unbounded numbers of groups", "anchors": ["src/decode/sections/code.rs: parse_code, parse_code_local", "src/decode/module.rs: decode_module"]}
{"id": "C26", "title": "Code entries occupy exactly their declared size", "statement": "A code entry is accepted only if its locals and body occupy exactly the declared number of bytes: a body running past the size is rejected, a body ending early is rejected with EntrySizeMismatch whose numbers satisfy declared = consumed + leftover, leftover > 0.", "quantifier": "every code entry", "why_tests_cant": "all sizes", "anchors": ["src/decode/sections/code.rs: parse_code"]}
{"id": "C27", "title": "Data count agrees with the data segments", "statement": "In an accepted module with a data count section, the count equals the number of data segments (zero if there is no data section); otherwise the input is rejected with an error carrying both numbers.", "quantifier": "every input", "why_tests_cant": "all counts, presence/absence combinations", "anchors": ["src/decode/module.rs: decode_module", "src/decode/sections/data_count.rs"]}
{"id": "C28", "title": "A data index anywhere in code requires a data count section", "statement": "If any function body of an otherwise well-formed module contains memory.init, data.drop, array.new_data or array.init_data at any nesting depth (including both branches of if and try_table bodies), the module is accepted only if it has a data count section; data indices in other expressions impose no such requirement.", "quantifier": "every module and nesting depth", "why_tests_cant": "unbounded nesting", "anchors": ["src/decode/helpers.rs: instruction_contains_data_index, decode_expr", "src/decode/module.rs: decode_module"]}
{"id": "C29", "title": "The decoder never panics", "statement": "For every input and every reader behaviour, decode_module returns Ok or Err: no unwrap, index, arithmetic-overflow, shift-overflow or unreachable! panic is ever reached (allocation failure and call-stack exhaustion excepted).", "quantifier": "every byte string and every sequence of reader results", "why_tests_cant": "all inputs", "anchors": ["src/decode/module.rs", "src/decode/instructions.rs", "src/decode/integer.rs", "src/decode/sections/code.rs"]}
{"id": "C30", "title": "The decoder always terminates", "statement": "For every reader that delivers finitely many events, decode_module returns after finitely many steps, reading at most the bytes delivered.", "quantifier": "every finite source", "why_tests_cant": "all inputs", "anchors": ["src/decode/module.rs: decode_module", "src/decode/instructions.rs: Instruction::parse", "src/decode/helpers.rs: decode_expr"]}
{"id": "C31", "title": "The result does not depend on how the reader fragments the input", "statement": "Two readers delivering the same bytes followed by the same end (EOF or failure), in whatever chunk sizes and with whatever Interrupted errors in between, make decode_module return the same module or the same error.", "quantifier": "every byte string and every pair of fragmentation schedules", "why_tests_cant": "exponentially many schedules", "anchors": ["src/decode/module.rs: decode_module (impl Read)", "src/decode/helpers.rs: read_byte", "src/decode/sections/custom.rs: read_to_end"]}
{"id": "C32", "title": "A failing reader never yields a module", "statement": "If the reader fails with an I/O error of a kind other than UnexpectedEof before end of input, decode_module returns an error, even when the failure falls exactly on a section boundary or inside a custom section.", "quantifier": "every input prefix and every failure point", "why_tests_cant": "all crash points", "anchors": ["src/decode/module.rs: decode_section_header, decode_module", "src/decode/sections/custom.rs: decode_section_custom"]}
{"id": "C33", "title": "I/O failures are reported as such", "statement": "If the reader fails with an I/O error, decode_module returns an error, and unless the bytes delivered before the failure force that error by themselves, it has that very I/O error as its root cause. (Known exception, proved as such: if the delivered bytes end right after 0x63/0x64 and at most four continuation bytes, inside a block type, the failure is swallowed and reported as a negative type index.)", "quantifier": "every input prefix and every failure point", "why_tests_cant": "all crash points", "anchors": ["src/decode/instructions.rs: BlockType::decode", "src/decode/module.rs", "src/decode/helpers.rs"]}
{"id": "C34", "title": "Truncating an accepted module is detected", "statement": "A strict prefix of an accepted input is rejected unless it ends exactly at a section boundary; and if it ends inside the preamble, a section header or a section it is always rejected.", "quantifier": "every accepted input and every truncation point", "why_tests_cant": "all crash points", "anchors": ["src/decode/module.rs: decode_module"]}
{"id": "C35", "title": "The binary format as decoded is unambiguous", "statement": "For any bytes there is at most one module they denote, and for every component (integer, type, instruction, expression) no encoding is a proper prefix of another encoding of the same sort.", "quantifier": "all pairs of encodings", "why_tests_cant": "infinite language", "anchors": ["src/decode/module.rs", "src/decode/instructions.rs", "src/decode/types/"]}
{"id": "C36", "title": "Every module value can be written down and read back", "statement": "For every module value satisfying the stated well-formedness conditions (sizes below 2^32, matching counts, valid UTF-8 names), the canonical encoding of it is accepted and decodes to a module with exactly the same contents in every field; only the record of section kinds and headers is that of the encoding.", "quantifier": "every well-formed module value", "why_tests_cant": "infinite", "anchors": ["src/decode/module.rs: decode_module", "src/core/"]}
{"id": "C37", "title": "Element segments: the eight encodings", "statement": "An element segment with leading bitfield 0..7 is decoded to the element type, initialiser list and mode (passive, declarative, active with explicit or implicit table 0) that the specification prescribes for that bitfield, function indices being turned into ref.func; any other bitfield is rejected with InvalidBitfield carrying it.", "quantifier": "every byte string", "why_tests_cant": "unbounded initialiser lists, all u32 bitfields", "anchors": ["src/decode/sections/element.rs: parse_elem, parse_elemkind"]}
{"id": "C38", "title": "Tables, globals, data segments, imports and exports follow the grammar", "statement": "Each entry of these sections is accepted exactly on its grammar production; a table without initialiser gets ref.null of its element heap type; an export's descriptor kind and index, an import's names and type, a data segment's mode and bytes are those of the grammar.", "quantifier": "every byte string", "why_tests_cant": "unbounded lists and expressions", "anchors": ["src/decode/sections/table.rs", "src/decode/sections/global.rs", "src/decode/sections/data.rs", "src/decode/sections/import.rs", "src/decode/sections/export.rs", "src/decode/sections/start.rs", "src/decode/sections/tag.rs", "src/decode/sections/memory.rs"]}
{"id": "C39", "title": "Preamble check", "statement": "An input is only accepted if it starts with 00 61 73 6D 01 00 00 00; with fewer than 8 bytes the error is the reader's I/O error and with other first 8 bytes the error carries exactly those 8 bytes.", "quantifier": "every input", "why_tests_cant": "2^64 preambles", "anchors": ["src/decode/module.rs: parse_preamble"]}
{"id": "C40", "title": "Section size mismatches are reported with the true numbers", "statement": "SectionSizeMismatch is returned exactly when a section's content ended before its declared size (or, for a custom section, the input did), and its fields are the declared size and the number of content bytes actually read, with got < declared.", "quantifier": "every input", "why_tests_cant": "all sizes", "anchors": ["src/decode/module.rs: decode_module"]}
{"id": "C41", "title": "Marker-byte errors carry the offending byte", "statement": "Whenever decoding stops because of an unknown marker/flag/opcode byte or number, the reported value is the value found in the input and it is indeed not one of the values the specification allows at that place.", "quantifier": "every input", "why_tests_cant": "all byte values at every position", "anchors": ["src/decode/mod.rs: FromMarkerByte::from_marker", "src/decode/types/", "src/decode/sections/", "src/decode/instructions.rs"]}
{"id": "C42", "title": "Memory arguments", "statement": "A memarg is accepted exactly when its flags u32 is below 2^7; the alignment exponent is the flags without bit 6, the memory index is explicit exactly when bit 6 is set and 0 otherwise, and the offset is a u64.", "quantifier": "every byte string", "why_tests_cant": "unbounded LEB128 fields", "anchors": ["src/decode/instructions.rs: Memarg::decode"]}
{"id": "C43", "title": "Decoded size is bounded by the input, locals excepted", "statement": "Apart from expanded locals, the number of nodes in the decoded module (instructions, types, list elements, bytes) is at most twice the number of input bytes, and two is the best constant (for every n there are n+22 bytes that decode to more than 2n nodes); expanded locals are the only unbounded amplification (witnessed: a fixed-size input can produce up to 2^32-1 locals).", "quantifier": "every accepted input", "why_tests_cant": "resource bounds over all inputs", "anchors": ["src/decode/module.rs: decode_module", "src/decode/sections/code.rs"]}
{"id": "C44", "title": "Memory is reserved before content is seen", "statement": "Each list or byte vector reserves capacity for the announced count before any element has been read, so the total reservation is not bounded by the input size (witnessed by a short input reserving 2^32-1 elements); it is bounded by (2^32-1) per list decoded and the number of reservations is at most the number of bytes consumed.", "quantifier": "every input", "why_tests_cant": "resource bounds over all inputs", "anchors": ["src/decode/helpers.rs: decode_list, decode_byte_vector"]}
{"id": "C45", "title": "Nesting depth is limited only by the input length", "statement": "The decoder accepts blocks nested to any depth (recursion depth n for about 2n bytes): for every n there is an accepted module of nesting depth n; and the nesting depth never exceeds the number of bytes.", "quantifier": "every depth n", "why_tests_cant": "unbounded", "anchors": ["src/decode/instructions.rs: Instruction::parse"]}
{"id": "C46", "title": "The command-line tool's exit status reflects the decoding result", "statement": "The CLI exits with status 0 and writes nothing to stderr exactly when the input is a well-formed module, and otherwise exits 1 after printing the error and its chain of causes; the module is printed to stdout only with --verbose on success.", "quantifier": "every input and flag setting", "why_tests_cant": "all inputs", "anchors": ["wadec-cli/src/main.rs"]}
{"id": "C47", "title": "Module equality is reflexive except for NaN constants", "statement": "Comparing a decoded module with itself (or with a second decoding of the same bytes) by == yields true unless some f32.const/f64.const in it is a NaN, in which case it yields false.", "quantifier": "every decoded module", "why_tests_cant": "all instruction trees", "anchors": ["src/core/module.rs: PartialEq", "src/core/instruction.rs: PartialEq"]}
{"id": "C48", "title": "Displayed causes", "statement": "The sequence of messages obtained from a returned error by Display and repeated source() is the error's own messages followed by what the reader's own error displays, if source() reaches one; the I/O error reached is the one stored in the error, i.e. the one the reader failed with. For some errors (e.g. an import's module name) the chain stops before the I/O error although it is stored.", "quantifier": "every error value and every reader failure", "why_tests_cant": "all error variants and nesting, all failure points", "anchors": ["src/decode_errors.rs", "src/decode/sections/", "wadec-cli/src/main.rs: main"]}
{"id": "C49", "title": "Verdicts on a prefix are final", "statement": "An error returned for an input that does not stem from the end of the input (no I/O error in it, not a check made after the last section, not a short custom section) is returned for every input that starts with the same bytes: reading more never changes the verdict.", "quantifier": "every input and every extension of it", "why_tests_cant": "all inputs and all extensions", "anchors": ["src/decode/module.rs: decode_module"]}
{"id": "C50", "title": "Errors name the section in which decoding failed", "statement": "decode_module fails with the error of the decoder of section kind k exactly when the input is the preamble, complete sections that may open a module, and the id and size of a section of kind k that may stand there, such that no contents of a section of kind k start the bytes of that section. For custom sections: no name starts them, or the reader fails before the section's bytes are delivered.", "quantifier": "every reader and every section kind", "why_tests_cant": "all inputs, all kinds of malformed sections in all positions", "anchors": ["src/decode/module.rs: decode_module", "src/decode/module.rs: DecodeModuleError"]}
{"id": "C51", "title": "Errors name the entry at which decoding failed", "statement": "For the eleven sections that are lists, the error reports position i exactly when the section's bytes start with a count greater than i and i complete entries, and no entry starts what follows; it reports no position exactly when no count starts the section's bytes.", "quantifier": "every reader, list section kind and position", "why_tests_cant": "all inputs, all positions up to 2^32-1", "anchors": ["src/decode/helpers.rs: decode_list", "src/decode/helpers.rs: DecodeListError", "src/decode/module.rs: decode_module"]}
{"id": "C52", "title": "Section header errors", "statement": "After complete sections that may open a module: InvalidSectionId(b) is returned exactly when the next byte b is the id of no section; DecodeSectionSize exactly when a section id follows and no u32 starts the bytes behind it; ReadSectionIdByte(x) exactly when the reader fails there with an error x of a kind other than UnexpectedEof. The variant DecodeDataCount is never returned.", "quantifier": "every reader", "why_tests_cant": "all inputs, all failure points and I/O errors", "anchors": ["src/decode/module.rs: decode_section_header", "src/decode/module.rs: DecodeSectionHeaderError", "src/decode/module.rs: DecodeModuleError"]}
{"id": "C53", "title": "A section is judged by its own bytes", "statement": "If the bytes of a section (exactly as many as its header declares) are not the contents of a section of that kind that may stand there, then all inputs that agree up to the end of that section are rejected with the same error, whatever follows the section and whatever readers deliver them.", "quantifier": "every input up to the end of a section, every two continuations, every two readers", "why_tests_cant": "all continuations of all malformed inputs", "anchors": ["src/decode/module.rs: decode_module"]}
{"id": "C54", "title": "No reading past the declared end of a section", "statement": "decode_module(&mut reader) takes bytes from the reader in order. If it refuses a section, it has not taken any byte from behind that section's declared end; if it refuses the preamble, at most eight bytes; if it refuses a section header, at most six bytes of it; if it returns a module (or rejects an input that ends behind a section), exactly the bytes up to the end of the input.", "quantifier": "every reader script (including bytes behind failures) and every outcome", "why_tests_cant": "all inputs, failure points and fragmentations", "anchors": ["src/decode/module.rs: decode_module", "src/decode/module.rs: decode_section_header", "src/decode/sections/custom.rs: decode_section_custom"]}
{"id": "C55", "title": "Every error is exactly the one that describes the first defect", "statement": "decode_module returns the error e exactly when the input has a defect and e - the complete value, with all nested causes and payloads - describes its first defect: the longest part of the input that is as the binary format demands, up to the point where no continuation of the expected part is possible, determines the variant at every level and its payload (bytes found, sizes, counts, positions, the reader's own error). A byte string either is a module and has no defect, or is none and has exactly one first defect.", "quantifier": "every reader, every error value; likewise for integers, names, types, expressions, entries of sections and section headers", "why_tests_cant": "all malformed inputs, all nestings of errors, all ways a reader can end", "anchors": ["src/decode/module.rs: decode_module", "src/decode/module.rs: DecodeModuleError", "src/decode/sections", "src/decode/types", "src/decode/instructions.rs", "src/decode/integer.rs", "src/decode/helpers.rs"]}
{"id": "C56", "title": "Arbitrary implementations of Read", "statement": "For every implementation of std::io::Read - any state machine whose calls never report more bytes than the buffer holds, also one whose answers depend on the buffer size or on earlier calls, or that goes on after an end of file or an error - decode_module never panics; what it returns depends only on the results of the calls of read it has made, none of which is made with an empty buffer; Ok(m) means that the bytes read are an encoding of m and that an end of file was read behind them; Err(e) means that e describes the first defect of the bytes read. If the reader has a content, the result is the one for that content, however its chunks depend on the buffers and whatever it would do behind its end. If the reader does not deliver data or report Interrupted for ever, decode_module returns; one that is interrupted for ever keeps it from returning.", "quantifier": "every implementation of Read (every state space and transition function), every initial state", "why_tests_cant": "all reader implementations and all their schedules", "anchors": ["src/decode/module.rs: decode_module", "src/decode/helpers.rs: read_byte", "src/decode/sections/custom.rs: decode_section_custom", "src/decode/sections/code.rs: decode_code_section"]}
{"id": "C57", "title": "The end of the input is asked for once", "statement": "A call of read that returns Ok(0), or an error other than Interrupted, is the last one decode_module makes - also when it happens inside a section, inside the contents of a custom section, or within an attempt to read a value type that decode_module gives up in favour of a type index. On success the calls are exactly: chunks that make up the encoding of the module returned, then one call that finds the end. Hence decode_module returns on every reader that delivers some bytes and then ends, and its result is the one for these bytes, even if the reader would deliver more or report Interrupted for ever behind its end. The number of calls of read is at most the number of bytes delivered plus the number of interruptions plus one.", "quantifier": "every implementation of Read, every initial state, every run", "why_tests_cant": "all reader implementations, all points at which the input may end", "anchors": ["src/decode/module.rs: decode_module", "src/decode/module.rs: decode_section_header", "src/decode/sections/custom.rs: decode_section_custom", "src/decode/instructions.rs: BlockType::decode", "src/decode/helpers.rs: read_byte"]}
{"id": "C58", "title": "Messages about unexpected bytes tell the truth", "statement": "An error message of the form \"expected ...; got ...\" lists exactly the bytes that the decoder accepts at that place and shows the byte it found, for limits flags, composite types, tag types, extern types, catch clauses, element kinds, the byte after 0x40 in tables, mutabilities of globals and fields, export kinds, section ids, cast flags and abstract heap types. The message for the first byte of a reference type lists the abstract heap types only: it leaves out 0x63 and 0x64, which are accepted too. The message for an unassigned opcode shows that opcode (and its prefix 0xFB or 0xFC), the one for a wrong preamble shows the right preamble and the eight bytes found. Every byte is shown as 0x and two digits.", "quantifier": "every byte (or opcode number) found, every reader and every input before and behind it", "why_tests_cant": "all bytes at all places; the lists in the messages are literals kept apart from the code that decides", "anchors": ["src/decode/mod.rs: FromMarkerByte::markers_formatted", "src/decode/types/limits.rs: ParseLimitsError", "src/decode/types/comptype.rs: DecodeCompTypeError", "src/decode/types/tagtype.rs: DecodeTagTypeError", "src/decode/types/externtype.rs: DecodeExternTypeError", "src/decode/types/reftype.rs: DecodeRefTypeError", "src/decode/instructions.rs: CatchError, ControlError, ParseError, VectorError", "src/decode/sections/element.rs: DecodeElementKindError", "src/decode/sections/export.rs: InvalidExportDescMarkerByte", "src/decode/sections/table.rs: DecodeTableError", "src/decode/module.rs: InvalidSectionIdError, ParsePreambleError"]}
{"id": "C59", "title": "Messages about sizes, counts and positions tell the truth", "statement": "The numbers in the messages are right: a section size mismatch shows the declared size and the length of the section's contents, a code entry size mismatch the declared size, the length of the function and the difference, too many locals the largest possible number and the number of locals reached, a vector element error the number of elements before the bad one (in all lists of sections, types, instructions and element segments), bad flags of data segments, element segments and memory arguments the flags found and the values allowed, an invalid name the length of its valid beginning, a data count without data section the announced and the actual number of segments.", "quantifier": "every input on which these errors are returned, every reader", "why_tests_cant": "all inputs with these defects; unbounded sizes and positions", "anchors": ["src/decode/module.rs: DecodeModuleError::{SectionSizeMismatch, DataCountDatasLenMismatch}", "src/decode/sections/code.rs: DecodeCodeError::EntrySizeMismatch, DecodeCodeLocalsError::LocalsCountOutOfBound", "src/decode/helpers.rs: DecodeListError::ParseElement, DecodeNameError::Utf8", "src/decode/sections/data.rs: DecodeDataSegmentError::InvalidBitfield", "src/decode/sections/element.rs: DecodeElementError::InvalidBitfield", "src/decode/instructions.rs: MemargError::InvalidFlagsBit"]}
{"id": "C60", "title": "Which causes are shown", "statement": "An error variant that contains another error either shows it - its messages (Display, then source() repeatedly) end with all messages of the inner error - or hides it, having one message that does not depend on the inner error; 142 variants show and 44 hide (among them import names, indices and memory arguments of instructions, limits, block types, offset expressions, parameters and results of function types). Consequently, when the reader fails with x and the error returned is not a consequence of the bytes before the failure, its messages end with what x shows or with one of 36 known messages; each of the 36 occurs: some input, cut off by a reader that breaks, is reported that way.", "quantifier": "every error value, every inner error, every reader failure and every rendering of I/O errors", "why_tests_cant": "all error values of unbounded nesting, all failure points", "anchors": ["src/decode/instructions.rs: ControlError, ReferenceError, AggregateError, VariableError, TableError, MemoryError, MemargError, NumericError, VectorError, BlockTypeError", "src/decode/sections/import.rs: DecodeImportError", "src/decode/types/limits.rs: ParseLimitsError", "src/decode/module.rs: DecodeModuleError", "wadec-cli/src/main.rs: main"]}
{"id": "C61", "title": "The command-line tool's verdict survives failing output streams", "statement": "Whichever writes to stdout and stderr fail, and after however many characters, the command-line tool either behaves as if all of them had succeeded or panics with exit status 101 having written a part of what it should have written. In particular exit status 0 is only given for an input that can be opened and is a well-formed module, exit status 1 only for other inputs, and without --verbose a well-formed module gives status 0 even if nothing can be written.", "quantifier": "every input, every reader, both settings of --verbose, every pattern of failing writes, every rendering of std's texts", "why_tests_cant": "all inputs and all failure points of two streams", "anchors": ["wadec-cli/src/main.rs: main, abort"]}
{"id": "C62", "title": "The verbose listing shows the whole module", "statement": "For two well-formed inputs, what the command-line tool prints with --verbose (the {:#?} text of the module) is the same exactly when the decoded modules are the same apart from the payloads of NaN constants; without NaN constants, exactly when they are equal. So no field of any item, no instruction operand, no byte of a name is left out or made ambiguous by the layout, whatever characters names contain.", "quantifier": "every pair of well-formed inputs, every reader, every way the standard library may print floating-point numbers (injectively up to NaNs) and choose which characters of a string to escape", "why_tests_cant": "all pairs of modules of unbounded size and nesting, all names", "anchors": ["src/core/module.rs: Module and its items", "src/core/instruction.rs: Instruction", "src/core/mod.rs", "src/core/types", "src/core/indices.rs", "wadec-cli/src/main.rs: main"]}
{"id": "C63", "title": "The verbose report determines the error", "statement": "For two inputs that the decoder rejects, what the command-line tool writes to stderr with --verbose is the same exactly when the errors are the same; likewise the {:#?} texts of any two error values. In particular the debug section of a report cannot be confused with the messages before it, and no position, byte, count or inner error is left out.", "quantifier": "every pair of rejected inputs and every pair of error values, every rendering of I/O errors that tells them apart", "why_tests_cant": "all pairs of error values of unbounded nesting", "anchors": ["src/decode: all error types", "src/decode/helpers.rs: impl Debug for DecodeListError", "wadec-cli/src/main.rs: main, abort"]}
{"id": "C64", "title": "The one-line debug texts determine modules and errors", "statement": "The {:?} texts of two decoded modules are the same exactly when the modules are the same apart from the payloads of NaN constants; the {:?} texts of two errors exactly when the errors are the same. Where a message mentions a kind of section, a heap type, a mutability or a packed type, it uses the {:?} text of that value.", "quantifier": "every pair of decoded modules, every pair of errors, every rendering of std's texts as above", "why_tests_cant": "all pairs of values of unbounded size", "anchors": ["src/core: derive(Debug)", "src/decode: derive(Debug)", "src/decode/helpers.rs: impl Debug for DecodeListError"]}
{"id": "C65", "title": "Reserved memory is paid for by the input, up to three lists", "statement": "While a module is decoded, room is reserved ahead of the contents (Vec::with_capacity, vec![0; n]) for at most as many elements as bytes are taken from the reader plus 3*(2^32-1), whatever the outcome and however the reader behaves; when the module is accepted, for at most as many elements as bytes taken. Three is reached by an input of 27 bytes. (Vectors that grow by push, of which only the expanded locals are not in proportion to the input, are subject of C43.)", "quantifier": "every input, every reader behaviour, every outcome", "why_tests_cant": "a bound over all inputs and all failure points", "anchors": ["src/decode/helpers.rs: decode_list, decode_byte_vector", "src/decode/types/rectype.rs", "src/decode/sections/element.rs"]}
{"id": "C66", "title": "The decoder of instructions calls itself at most half as often as there are bytes", "statement": "While fewer than 2*d bytes are available, valid or not, at most d calls of the instruction parser are on the call stack at once: a stack with room for d of them gives the same result. Less is not enough: d nested blocks (2*d bytes) need a d+1-st call whatever follows, and so do 2*d+21 bytes given to decode_module, accepted or not.", "quantifier": "every input, every reader behaviour, every limit d", "why_tests_cant": "a bound on recursion for all inputs, including rejected ones", "anchors": ["src/decode/instructions.rs: Instruction::parse", "src/decode/helpers.rs: decode_expr", "src/decode/module.rs: decode_module", "src/decode/helpers.rs: instruction_contains_data_index"]}
{"id": "C67", "title": "Error reports are short, one line per cause", "statement": "An error and its chain of causes are at most nine messages plus those of the io::Error inside (or one more), however large and deeply nested the input; an input of 16 bytes reaches nine. Every message is one non-empty line, except the one about a wrong preamble, which takes 19 lines. Hence without --verbose the tool writes one line for the error and, if it has causes, a blank line, a heading and one numbered line per cause: at most 11+k lines if an io::Error has at most k messages; and the messages can be read off the report.", "quantifier": "every error, every input, every reader behaviour, all texts of io::Errors that are single lines", "why_tests_cant": "a bound over all errors and all nestings of them; the report of every failing run", "anchors": ["src/decode: #[error] attributes", "wadec-cli/src/main.rs: abort, main"]}
{"id": "C68", "title": "The report names the section and the entry that could not be decoded", "statement": "The first line of the tool's report says that a section of kind k could not be decoded exactly when, after sections that may open a module, a section of kind k begins that may stand there and no contents of such a section start its bytes (custom sections: no name starts it, or the reader fails before its end); and its fourth line says that entry i could not be decoded exactly when the bytes of the section start with a count greater than i and i complete entries, and no entry starts what follows. No report names two kinds of sections.", "quantifier": "every input, every reader behaviour, with and without --verbose, all texts of io::Errors and debug texts", "why_tests_cant": "an equivalence between the text of the report and the first defect, over all inputs", "anchors": ["wadec-cli/src/main.rs: main, abort", "src/decode/sections/*.rs: #[error] attributes", "src/decode/helpers.rs: DecodeListError"]}
{"id": "C69", "title": "The work is linear in the input", "statement": "Decoding takes at most 64 steps for every byte it takes from the reader, one for every interruption of the reader, and 20 - whatever the outcome, and not counting the pushing of locals into functions; a step is a call, an iteration, a call of the reader, a byte delivered or validated, an instruction searched for data indices, an element converted. It takes at least one step for every byte it takes from the reader. On success, pushing locals adds exactly one push for every local of the decoded module, and whatever the outcome at most 2^32-1 pushes for every byte. No input makes a pass over the same bytes or instructions more than a constant number of times.", "quantifier": "every reader (any chunking, interruptions, errors), every input, every outcome, every price of a push", "why_tests_cant": "a bound on the work over all inputs; quadratic behaviour shows only on families of inputs that nobody thought of", "anchors": ["src/decode/module.rs: decode_module", "src/decode/helpers.rs: decode_list, instruction_contains_data_index, decode_expr", "src/decode/sections/code.rs: parse_code", "src/decode/instructions.rs: parse, parse_sequence"]}
{"id": "C70", "title": "Debug texts name variants and fields", "statement": "The debug text of every value of the abstract syntax and of every error begins with the name of its variant (of its type, for structs), followed by its fields in the order of declaration, under their names if the text has labels; the error of an element of a list is preceded by the name of its type; instructions are shown under the names of their variants with their immediates; numbers are written in decimal, flags as true and false, options and lists with their contents in order; names are shown character by character, the special characters as their escapes, the unprintable ones by their hexadecimal numbers, every other as itself.", "quantifier": "all values of all types of the abstract syntax and of all error types, all texts of the standard library", "why_tests_cant": "some 130 types with over 900 variants, with arbitrary values inside", "anchors": ["src/core/**/*.rs: derive(Debug)", "src/decode/**/*.rs: derive(Debug)", "src/decode/helpers.rs: impl Debug for DecodeListError"]}
{"id": "C71", "title": "Verbose output is laid out by nesting", "statement": "With --verbose, the tool lists a decoded module line by line: a value without parts on one line, a value with parts on an opening line, the lines of its parts - each part ended by a comma and four columns further to the right - and a closing line. When decoding fails, the verbose report is the plain report followed by an empty line, a heading and the error laid out in the same way. The one-line debug texts have the same parts, separated by a comma and a space.", "quantifier": "every input, every reader, every module and error, all texts of the standard library (numbers are words, strings are escaped)", "why_tests_cant": "nesting is unbounded, values are arbitrary", "anchors": ["wadec-cli/src/main.rs: main, abort", "src/decode/helpers.rs: impl Debug for DecodeListError"]}
{"id": "C72", "title": "The call depth an input needs is the nesting it leads into", "statement": "Decoding an accepted expression puts exactly one call of the instruction decoder on the call stack for the expression itself and one more for every level of block, loop, if or try_table nesting in it: with a call stack that has room for that many calls the result is the same, with one call less decoding cannot complete. For an accepted module the same holds with the deepest nesting in any function body, global or table initialiser, element or data offset, or element expression. For expressions that are not accepted the bound is as exact: room for d calls is too little precisely when the input starts by leading into d constructs, one inside the other, whatever follows; on every other input the result is the one without limit. For modules that are not accepted it is precisely when the input leads, through whole sections and entries, to an expression that starts so. The other recursive function, the search for data indices in a decoded instruction, stays within the same room. So a user who must bound the stack can compute the bound from the modules to be accepted.", "quantifier": "every input, accepted or not, every reader, every stack size", "why_tests_cant": "nesting is unbounded and the sections it can occur in combine freely", "anchors": ["src/decode/instructions.rs: Instruction::parse", "src/decode/helpers.rs: decode_expr", "src/decode/module.rs: decode_module", "src/decode/helpers.rs: instruction_contains_data_index"]}
{"id": "C73", "title": "Every accepted module has a shortest form", "statement": "Every module that has been decoded can be written down again in at most as many bytes as it was read from: its shortest form (integers unpadded, runs of locals joined, abbreviated types, default memories and tables unnamed, the cheapest of the element segment encodings, empty sections left out) is accepted, gives back the same contents (only the record of section sizes differs), no accepted input with these contents is shorter, and decoding and writing it again reproduces it byte by byte. It is a normal form: two accepted inputs have the same shortest form exactly if they have the same contents. So re-encoding a decoded module never fails for lack of room in a size field.", "quantifier": "every accepted input through every reader, and every other input that decodes to the same contents", "why_tests_cant": "minimality ranges over all encodings of all modules", "anchors": ["src/decode/mod.rs: decode_module", "src/decode/sections/*.rs", "src/decode/instructions.rs", "src/decode/integer.rs"]}
{"id": "C74", "title": "Local edits have local effects", "statement": "If in an accepted module some consecutive entries of a section (types, imports, function types, tables, memories, tags, globals, exports, element segments, code entries, data segments) are replaced by other well-formed entries, and the entry count and the section size are adjusted, then: the entries that were replaced are the ones the decoded module lists at that position; the edited module is accepted exactly if the side conditions of the format hold (as many code entries as function types; as many data segments as an existing data count section says; no data index in code without data count section); and the decoded module then has the new entries at that position and differs in nothing else but the recorded size of that section. Likewise for the start function and for custom sections. Overwriting a function body by another of the same length changes that function only.", "quantifier": "every accepted module, every section, every range of entries, every replacement, every reader", "why_tests_cant": "ranges over all modules, all places in them and all replacements", "anchors": ["src/decode/mod.rs: decode_module", "src/decode/sections/*.rs", "src/lib.rs: Module"]}
{"id": "C75", "title": "Modules inside longer streams", "statement": "decode_module can be used on a part of a stream. Through stream.by_ref().take(n) it gives the result of decoding these n bytes alone, whatever follows in the stream (bytes, end or failure); it takes at most n bytes and loses none: the stream continues right behind the bytes taken, and the limit says how many of the n are left, which is none if the module is accepted. So a sequence of modules of known lengths can be read from one stream, skipping what is left of a rejected one, and each is judged as if it were alone. Looking at the first bytes of a stream and putting them back with chain does not change the result.", "quantifier": "every stream, every position and length, every sequence of modules (well-formed or not), every fragmentation", "why_tests_cant": "ranges over all streams and all sequences of modules", "anchors": ["src/decode/module.rs: decode_module, decode_section_header", "src/decode/sections/custom.rs"]}
{"id": "C76", "title": "Inserting and removing sections", "statement": "Inserting a section into an accepted module is accepted exactly if the section kinds, with the new one at that place, are still in the prescribed order without repetition and the side conditions hold: a data count section must give the number of data segments, a data section must have the number of segments that the data count section gives, a function or code section by itself must be empty. The module then has the contents of the section, its kind and its header in addition, and nothing else changes. Removing a section from an accepted module is always accepted, except for a data count section if the code refers to data segments, a non-empty data section if there is a data count section, and a non-empty function or code section by itself; the module is then the one without the contents and the record of that section. A function section and a code section can be inserted together exactly if they are in order, have as many entries as each other and, if they refer to data segments, there is a data count section; they can always be removed together.", "quantifier": "every accepted module, every place between its sections, every non-custom section with any contents and any encoding, every reader", "why_tests_cant": "ranges over all modules, all places and all sections", "anchors": ["src/decode/module.rs: decode_module, decode_section", "src/core/module.rs: Module, SectionKind"]}
{"id": "C77", "title": "The limits of the target", "statement": "On a target where Vec::with_capacity, vec![0; n] or push panic for vectors that are too large, decode_module does on every input exactly what it does where there is room for everything, or it panics; and it panics only if some vector of less than 2^32 elements is too large. So it never panics where vectors of less than 2^32 elements fit, which 64-bit addresses allow for elements of less than 2^30 bytes. A module is decoded if there is room for vectors of as many elements as the module has bytes and for the locals of its functions; where only the number of elements counts, it is decoded exactly if none of the lengths it asks for and none of its functions' locals exceed the limits. A section with a list, or with a name, that announces a length for which there is no room makes it panic whatever follows, so 15 bytes are enough with 32-bit addresses; 24 bytes are enough that would be accepted where there is room, by their locals.", "quantifier": "every target (any limit for each kind of element), every reader and input; for what is asked for, every script of reads", "why_tests_cant": "ranges over all targets and all inputs; tests run on one target, and not with gigabytes", "anchors": ["src/decode/helpers.rs: decode_list, decode_byte_vector", "src/decode/module.rs: decode_module"]}
{"id": "C78", "title": "The length of the verbose listing", "statement": "With --verbose the tool lists an accepted module in at most (400+w)*(n+l)*(12*d+53) characters, where n is the number of nodes of the module, l the number of expanded locals, d the nesting of its instructions and w the length of the longest text of a floating-point number; so, apart from locals, at most quadratically many in the bytes of the input. It can be that many: the listing has at least 16*d^2 characters, and for every n (as far as the format allows) there are 3n+26 bytes that are listed in at least 16*n^2. It has at least 20 characters for every expanded local, so 24 bytes can be listed in more than 8*10^10. The {:?} text has at most (400+w)*(n+l) characters, whatever the nesting.", "quantifier": "every input, every reader, every module, all texts of the standard library (w bounds those of floating-point numbers)", "why_tests_cant": "ranges over all modules, and over outputs far too long for tests", "anchors": ["wadec-cli/src/main.rs: main", "src/core: derive(Debug)"]}
{"id": "C79", "title": "How long a report is", "statement": "When an input is rejected, the report on stderr without --verbose has at most 960+q+9k characters, whatever the input, where an io::Error and its causes have at most k (at most 90) messages of q characters in all. With --verbose it has at most 2600+q+9k+57u+65n characters, where u bounds the debug text of an io::Error and n is the length of the name that is not UTF-8 if that is the error, else 0; n is at most the length of the input. It does grow with n: the verbose report is longer than the other by at least 23n characters, and for every n (as far as the format allows) there is an input of n+19 bytes with such a report.", "quantifier": "every input, every reader, every error returned, all texts of the standard library within the bounds", "why_tests_cant": "ranges over all inputs and all errors, including names of any length", "anchors": ["wadec-cli/src/main.rs: abort", "src/decode: derive(Debug), #[error]"]}
{"id": "C80", "title": "The decoder reads exactly as far as it needs", "statement": "Call the first bytes of an input decisive if whatever follows them (more bytes, an end of file, a failure) decode_module returns one and the same error. decode_module stops reading exactly when the bytes it has read are decisive: if it returns without having seen an end of file or a failure of the reader, the bytes read are decisive and no shorter beginning of them is; if it has seen one, no beginning of the input is decisive. So how many bytes are taken from a reader depends on the bytes alone, not on how they are chunked or on how the input ends; no beginning of a valid module is decisive; and on a reader that delivers some bytes and then hangs, decode_module returns if and only if these bytes are decisive. Three runs tell whether bytes are decisive: followed by a failure, by a different failure, and by a zero byte.", "quantifier": "every implementation of Read, every run of decode_module that returns, every beginning of the input; every reader that delivers bytes and then does anything or hangs", "why_tests_cant": "decisive quantifies over all continuations of an input, and the claim over all inputs, readers and chunkings", "anchors": ["src/decode/module.rs: decode_module, parse_preamble", "src/decode: all decoders (each takes &mut R: Read)"]}
{"id": "C81", "title": "Readers with a read_exact of their own", "statement": "A reader may override read_exact (slices, Cursor, BufReader do). decode_module returns the same result as with the default method, provided the override keeps std's contract: it fills the buffer with the next bytes if there are enough and returns the reader's error (UnexpectedEof at the end of file) if not; how much it has consumed in that case does not matter. In particular &[u8], whose read_exact empties the slice on failure or leaves it alone depending on the version of std, is accepted exactly if it is a well-formed module, and rejected with the error that describes its first defect.", "quantifier": "every reader with a content, every read_exact that keeps the contract, every slice", "why_tests_cant": "ranges over all readers and all overrides that keep the contract", "anchors": ["src/decode/module.rs: decode_module, parse_preamble, decode_section_header", "src/decode/helpers.rs: read_byte", "src/decode/integer.rs: decode_u32"]}
{"id": "C82", "title": "Buffered input, cursors and ring buffers", "statement": "Wrapping a reader in a BufReader of any capacity does not change the result of decode_module, nor what the command-line tool (which reads files and standard input through one) prints and returns; bytes already in the buffer come first. Whatever the outcome, at most a buffer of bytes has been read without being used, and none is lost: what was not used is in the buffer or still to be read. Of a Cursor exactly the bytes behind its position are decoded, also if that is behind the end; of a VecDeque<u8> exactly its content, wherever it wraps around.", "quantifier": "every reader with a content, every capacity and state of the buffer, every slice and position, every split of a ring buffer", "why_tests_cant": "ranges over all readers, chunkings, buffer sizes and inputs", "anchors": ["src/decode/module.rs: decode_module", "wadec-cli/src/main.rs: main"]}
{"id": "C83", "title": "Using a decoded module needs no deeper call stack than decoding it", "statement": "Dropping, cloning, comparing and printing instructions recurse once per level of nesting. With the room on the call stack (counted in nested calls per instruction) in which decode_module decoded a module, that module can be dropped, printed with {:?} or {:#?}, and compared with any other module on either side; half as many nested calls as the input has bytes, and one, are always enough. The room is needed, exactly: room for d nested calls is exceeded if and only if there is an instruction d levels inside the one dropped, cloned, printed or compared with itself; vectors of different lengths are compared without looking into them.", "quantifier": "every decoded module, instruction and depth limit", "why_tests_cant": "ranges over all inputs and nesting depths", "anchors": ["src/core/instruction.rs: Instruction (derives)", "src/core/module.rs: Module (derives)", "src/core/mod.rs", "src/decode/instructions.rs: Instruction::parse"]}
{"id": "C84", "title": "Rejecting a module needs no deeper call stack than reading it", "statement": "When decode_module returns an error, it drops what it has decoded so far: unfinished instruction sequences, list elements, offset expressions, the unfinished module. With the room on the call stack (in nested calls per instruction) that parsing needs, this dropping never runs out of room either, so for inputs shorter than 2*d bytes, accepted or rejected, d nested calls are enough for decoding with everything it drops. Decoding that succeeds drops no instructions at all.", "quantifier": "every reader, input and depth limit", "why_tests_cant": "ranges over all inputs, error positions and nesting depths", "anchors": ["src/decode/instructions.rs: Instruction::parse", "src/decode/helpers.rs: decode_expr, decode_list", "src/decode/sections", "src/decode/module.rs: decode_module"]}
{"id": "C85", "title": "Copies are faithful, and indices can be keys", "statement": "The clone of an instruction, block type, handler, recursive, sub- or composite type, or of a list of these, is the value itself: same contents in the same order at every depth, constants bit for bit, NaNs included. So it prints the same and compares equal to the original exactly if the original compares equal to itself. Each of the ten index types feeds a hasher its number and nothing else; two indices of a type are equal exactly if no hasher tells them apart, so look-ups that compare only entries with the same hash find what a look-up by == finds.", "quantifier": "every value of every cloneable type; every hasher, state, index and list of entries", "why_tests_cant": "ranges over all trees of instructions and types and over all hashers", "anchors": ["src/core/instruction.rs: Instruction, BlockType, Catch (derive Clone)", "src/core/types/*.rs (derive Clone)", "src/core/indices.rs: define_index_type (derive Clone, Copy, PartialEq, Eq, Hash)"]}
{"id": "C86", "title": "What the integer tests check on samples holds for all values", "statement": "The encoders that the unit tests of the integer decoders use (encode_u32, encode_u64, encode_sleb64) and the decoders are inverse to each other on every value of the type, whatever follows the encoding, which is left to be read. The encoders produce the one shortest encoding. Values outside the range of the decoder are rejected: as TooLarge (IncorrectSignExtension for 33-bit integers) if their encoding fits into five bytes, and as RepresentationTooLong if it does not.", "quantifier": "every integer of the encoder's type, every reader and every continuation of the input", "why_tests_cant": "2^32 to 2^64 values; the tests try 4 or 5 of them", "anchors": ["src/decode/integer.rs: tests::encode_u32, encode_u64, encode_sleb64; decode_u32, decode_u64, decode_i32, decode_i64, decode_s33"]}
{"id": "C87", "title": "A reader's own way of filling a buffer does not matter", "statement": "If the reader given to decode_module brings a read_buf of its own that hands out the next bytes of its input, at least one unless it is at the end and never more than there is room for, or the failure at its place, and a read_exact of its own that keeps its contract, then decode_module returns exactly what it returns for any other reader with the same content that uses the default methods, whether std's read_to_end (which fetches the contents of custom sections) calls read or read_buf at any point. In particular input through a BufReader of any size, a Cursor or a VecDeque with the methods they have gives the result of the plain bytes.", "quantifier": "every reader, every read_buf and read_exact that keep their contracts, every order of calls of the two methods, every content, buffer size and position", "why_tests_cant": "std chooses the method from the room left in a vector, the reader decides how much to hand out; tests see one combination per input", "anchors": ["src/decode/sections/custom.rs: decode_section_custom", "src/decode/module.rs: decode_module", "wadec-cli/src/main.rs: main"]}
