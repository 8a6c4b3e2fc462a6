# libsml: formal model and proofs

Subject: volkszaehler/libsml as found in `/repo` (read as text only, never built or run).
Proof system: Lean 4.33.0, core library (no Mathlib module is imported).
Properties: `properties.jsonl`. Status and theorem names per property: `MANIFEST.json`.
Wrong programs the theorems were tried against: `seeded/LOG.jsonl`.

## 1. Trusted base

* Lean's kernel, and the three standard axioms `propext`, `Classical.choice`,
  `Quot.sound` (each property theorem depends on a subset of these). No axiom is
  added; no `sorry`, `native_decide` or `bv_decide` is used. `decide +kernel` is
  used for complete finite tables (256 bytes, CRC table, unit table) and for
  concrete witnesses; it is evaluated by the kernel.
* That the definitions under `lean/Verif/Model` say what the C code says. Every
  definition cites the file and lines it models and lists its simplifications.
  For parsing, freeing, writing, building, the strings, the transport layer, printing, the whole of `sml_server` and the fuzz target (C65-C90) this is not assumed: there the C text itself is run. Trusted instead are the
  translator `tools/c2lean.py` (C text to syntax trees, a syntactic change that quotes the text beside each function)
  and `lean/Verif/Source/Lang.lean`, the meaning of these trees.
* That the statements under `lean/Verif/Props` say what `properties.jsonl` says.
  They are phrased with the model's entry points (the public C functions) and with
  the small independent specifications under `lean/Verif/Spec`.

## 2. What the model is

The C code is modelled function by function as total, computable Lean functions.

| module | models |
|----|----|
| `Model/Base` | `sml_shared.c`: buffer, type-length headers, optional marks |
| `Model/Prim` | strings, booleans, numbers, values, status words, times |
| `Model/NumMem` | `sml_number.c` again, byte by byte with an explicit host byte order |
| `Model/List` | `sml_list.c`: sequences, list entries, the DZG DVS74 workaround |
| `Model/Tree` | `sml_tree.c`: paths, trees, parameter values, period and tuple entries |
| `Model/Bodies` | the fourteen kinds of message body |
| `Model/Crc16` | `sml_crc16.c` |
| `Model/Message` | `sml_message.c`, `sml_file.c` |
| `Model/Transport` | `sml_transport.c` over a byte stream with a schedule |
| `Model/Select` | `sml_transport.c`, reading, with `select` and its set of descriptors |
| `Model/Util` | hex strings, comparison, UUIDs, conversions, constructors |
| `Model/Example` | `examples/sml_server.c` (`transport_receiver`), `examples/unit.h` |
| `Model/Print` | the characters printed by the example, `sml_file_print` and `sml_hexdump` |
| `Model/Program` | `main` of the example: `getopt`, opening the device, listening with the callback |
| `Model/Heap`, `Model/HeapMessage` | everything `sml_file_parse` and `sml_file_free` call, again, on a heap of addressed blocks |
| `Model/HeapWrite` | everything `sml_file_write` and `sml_transport_write` call, on that heap |
| `Model/HeapBuild` | the constructors and `add` functions, on that heap |
| `Model/HeapExample` | `transport_receiver` of the example program, `sml_value_to_strhex`, `sml_value_to_double`, `sml_file_print` and the program around them, on that heap |
| `Model/Ids` | where `sml_octet_string_generate_uuid` gets its bytes from: descriptors, `rand` |
| `Model/Serial` | `serial_port_open` of the example: the terminal settings |
| `Source/*` | the C files themselves as syntax trees, written by `tools/c2lean.py`; `Source/Lang` is the interpreter for them |

* **State** (`Model/Base.lean`): the `sml_buffer` (bytes, cursor, error flag)
  plus three ghost components: the number of live heap blocks, a flag recording
  that a signed `int` overflowed (`sovf`), and a flag recording that the DZG workaround
  re-labelled a value that is not a number (`confused`).
* **Undefined behaviour is an outcome.** Every function returns either a result and
  a new state, or `ub reason`: `oobRead`, `oobWrite`, `nullDeref`, `badFree` (freeing more
  than is owned), `shiftRange`, `confusion` (reading an object as another type),
  `counter` (the 16-bit message counter overflows), `narrowing` (a size does not fit
  the `int` it is stored in), `stack` (recursion deeper than allowed), `vla` (variable length
  array of no elements), `uninit` (use of an uninitialised pointer), `fuel` (a loop ran longer than
  the model allows; proved not to happen).
  Signed overflow in `length <<= 4` and `length + list` is recorded in the ghost flag and
  evaluation continues with the two's-complement result (what gcc and clang
  produce for this code), so the memory-safety theorems hold with and without
  assuming that such overflow does not happen.
* **Heap**: a block is counted when `malloc` is called and un-counted when `free`
  is called (`malloc(0)` counts as a block). Pointers to structures are `Option`s of
  the structure (no aliasing occurs in the library's data structures, they are trees and singly
  linked lists with a single owner). Each `*_free` function is modelled by the number of
  blocks it releases; what a structure *owns* is defined separately
  (`blocks`), and the two are proved to agree. `malloc` is assumed to succeed.
* **Heap with addresses** (`Model/Heap`): the same functions once more, with pointers as addresses, members read and
  written through them, `malloc` yielding an address never used before, `realloc` moving the block, and faults for NULL,
  freed blocks, wrong kinds and second `free`s. C58 proves that this model refines the one on values, so that the absence of
  aliasing is a theorem and not an assumption. Not reusing addresses makes the model stricter: an access to a freed block
  can never hit a new one.
  Arrays are read again through the structure at each step, as the code does; a tag is stored in as many bytes as the C member has;
  the counter of an array faults at `INT_MAX`; `realloc` may leave at most one element of an array unset; a sequence carries the number of the function that
  frees its elements.
* **The C text** (`Source`): a memory of separate blocks (structures with pointer and integer members, rows of possibly uninitialised
  bytes, local objects), integers with the promotions and conversions of C99 on an LP64 little-endian machine with signed `char`, evaluation from left to
  right, `goto`, `switch`, function pointers. Undefined steps end the run, except signed overflow, which is noted and wraps. `malloc` succeeds and yields a new
  address (`call`), or does so as any table of request numbers says (`scarce`, C82; a refused `malloc` or `realloc` yields NULL and uses up its number; `malloc(0)` yields a block). Only functions whose type is that of a
  function pointer in the sources are called through pointers (`Fn.byPtr`, from the translator). `read`, `select`, `write`, `errno` and `uuid_generate` act on a world beside the memory: the bytes still to come, what each call of `select` and `read` does
  (any list), what `write` returns (any function), what was sent, the random bytes `uuid_generate` takes (any list; an undefined step if there are fewer than 16 left). `printf` evaluates its arguments and appends its text to the output of the world; the conversions the sources use (`%d`, `%zu`, `%02X`, `%4.X`, `%.*f`, `%s`) are defined in `Lang`. A `double` is a product of an integer and a power of two; conversion and multiplication round to nearest, ties to even; `pow(10, n)` is any function. `exit` ends the run with the text so far. An `fd_set` is a block of 1024 cells; a descriptor outside is an undefined step.
  The translator takes every function of the library and of the example. `getopt` is that of POSIX over the strings of `argv` with `optind` as a global variable (the `+` of the option
  string forbids permutation; the message of `getopt` to stderr is not modelled). `open` is any function from name and flags to a device: its number, what can be read, and for a serial line the settings, the modem lines, and what can be read under given
  settings. The members of `struct termios` that the sources use are cells of an object; `cfsetispeed` and `cfsetospeed` change the bits `CBAUD` as glibc does; `tcsetattr` and `ioctl` change the line. `close` is recorded. Warnings (`fprintf(stderr)`) evaluate their arguments.
  The chain is: model on values, refined by the model on the heap (C58), refined by the C text (C66, C67, C70, C72-C74); C68, C69, C71 and C75-C95 are
  about the C text alone. The client of C76 and C77 (`Spec/SourceClient`) is not C text but a program in the same semantics that calls the C functions.
* **Loops** are structural recursion on the loop counter, or on fuel that is proved to be
  sufficient. The recursion of `sml_tree_parse` takes a stack allowance `depth`; exceeding
  it is `ub stack`. C05 shows that `length / 4 + 1` is enough, and that it is needed.
* **The operating system** (`read`, `select`) is a byte stream with an arbitrary
  finite schedule of partial reads, interruptions and failures. C64 shows that `select` needs no more than that.
* **Numbers** (`void *np`) are modelled by width and unsigned contents; `NumMem` is a
  byte-level model proved to agree with it for both byte orders (C22).
* **Conversions to double** are natural numbers rounded to nearest, ties to even (IEEE 754);
  C45 compares them with the set of all numbers `m * 2^e`, `m` of 53 bits.

### Not modelled

* `malloc` failure (but for C82 and C83); time; warnings on `stderr`; libuuid;
  failing `ioctl`, `tcgetattr`, `tcsetattr`; `VMIN`, `VTIME`, hardware flow control and carrier detection; `select` failures and descriptors from `FD_SETSIZE` on.
* `pow` is a parameter of the printing model. The C standard promises nothing about its precision; C53 assumes
  a relative error of at most `2^-52` for `10^-128` to `10^0` and exact results up to `10^22`, which a correctly
  rounded `pow` meets (proved). `printf` is taken to round correctly, as glibc does; the product of two doubles
  is rounded to nearest.
* `memcpy`/`memset`/`memcmp` with a NULL pointer and length 0 are treated as harmless.
* Buffers longer than `INT_MAX` bytes: `int msg_start = buf->cursor` is modelled as
  `ub narrowing` there, and theorems carry a length bound. Receive buffers from
  `2^32 - 8` bytes on are `ub narrowing` in `transportRead`.
* In the model on values the copy of the input made by `sml_file_parse` is the machine
  state itself, and arrays that grow by `realloc` are one block.

## 3. Bounds that occur in theorems

* `294912 = 9 * 32768`: the smallest message that is delivered has nine bytes plus at least one
  byte behind the last, so a telegram of up to 294912 bytes has at most 32767 messages, which
  is what the `short` counter can hold. 294913 bytes overflow it (C07). Up to `INT_MAX` bytes the number of messages
  decides (`Props/Long.lean`, C85, C92).
* `length < 4 * depth`: the stack allowance that is never exhausted (C05).
* `2147483647`: `INT_MAX`, see above.

## 4. How the properties are proved

| id | method |
|----|----|
| C01 | `fileParse` never returns `ub`: a Hoare-style contract for each parse function (cursor stays in range, data unchanged, error sticky, blocks accounted), composed up to the file loop (`Proofs/Contract*`, `Proofs/Post`, `Proofs/MinMessage`). |
| C02 | fuel never exhausted; each round moves the cursor by at least seven bytes or sets the error flag; counts announced beyond the bytes left make no difference (`Proofs/Rounds`). |
| C03, C04 | contract: live blocks after = before + blocks owned by the result, unless the re-label flag is set; `*_free` releases exactly the owned blocks; owned blocks <= 2 * bytes. |
| C05 | stack allowance; family of inputs needing depth `n` by induction on `n` (`Proofs/Deep`). |
| C06 | contract on the ghost flag; witness. |
| C07 | counter bound; witness of 294913 bytes built by induction. |
| C08-C12 | the file loop as an inductive relation `Spec.Run`; locality of every parser (`Proofs/Local*`: the result depends only on the bytes read, errors are sticky, extension of the input). |
| C13 | negation by witness; exact condition from the grammar of C51. |
| C14, C15 | invariants of the results of all parsers (`Proofs/Content`, `Proofs/ValueShape`). |
| C16-C18 | table = bitwise polynomial division for all 256 entries, lifted by induction; parity; window lemma for bursts; order of `x` modulo the polynomial; witness against the combined acceptance. |
| C19, C20 | independent header reader and writer; loop invariants; exact condition (iff). |
| C21-C23 | big-endian/two's-complement specification; byte-order-parametric model. |
| C24-C30 | every writer emits `enc v` (`Proofs/Emits*`), every parser reads `enc v` back at any position (`Proofs/Reads*`, `Proofs/Round*`), induction on lists and trees. |
| C31, C32 | exact effect of every writer on an arbitrary buffer as a list of set/or cells. |
| C33 | independent SML term type and encoder (`Spec/Term`, `Spec/Syntax`). |
| C34 | block counting for the writer. |
| C35-C41 | scan automaton and block reader refined to functions on the stream, frame specification, composition with C29. |
| C42-C45, C47-C49 | functional specifications. |
| C46 | effect of the workaround as a relation on lists of entries (`Spec/Dzg`). |
| C50 | exact condition under which the example receiver is defined, and what it prints. |
| C51 | a grammar without parser state (`Spec/Grammar`); soundness and completeness for every parser (`Proofs/Grammar*`). |
| C52 | what the grammar assigns to bytes satisfies `MessageOk true` iff it satisfies `MessageFits` (`Proofs/Forward`); then C29. |
| C53 | decimal notation as a relation (`Spec/Print`); error bounds for the two roundings of `value * pow(10, scaler)`. |
| C54 | reader for dumps, induction on the bytes. |
| C55 | composition of C38, C40, C50, C51 and C53; command lines as a language (`Spec/Program`). |
| C56 | the terminal interface of POSIX as a function of the flags (`Spec/Tty`); bit algebra of the masks; composition with C55. |
| C57 | composition of C29 and C52. |
| C58 | representation of objects by disjoint lists of blocks (`Spec/Heap`); every function on the heap simulates its counterpart on values (`Sim`), every free function releases what the counterpart counts (`Frees`), frame rule for calls (`Proofs/Heap*`); then C01 and C03. |
| C59 | code that uses objects without changing them (`Use`, `Proofs/HeapUse`), one lemma per write function; `Sim` for the exchange of the checksum; the number of lost blocks from the block counts of both models. |
| C60 | as C59, with both directions (`Alike`: same result, or both undefined); the text of an octet string is a block that is allocated, written byte by byte, read up to its 0 and freed; induction over the telegrams with C38, C50, C55. |
| C61 | the standard for the sender (`Spec/Standard`: encodings of terms, messages as terms), every encoding is in the grammar of C51 (`Proofs/Standard`); then C51 and the steps of C55. |
| C62 | a client that uses every constructor (`Spec/Client`); one lemma per object says that building it yields its representation and nothing else (`Builds`, `Proofs/HeapBuild*`); then C40, C58, C59 with exact block counts. |
| C63 | induction over the messages with the number of free descriptors. `open` yields the lowest free descriptor or fails, `read` with -1 changes nothing (POSIX). |
| C64 | the set is that of the descriptor alone before and after each `select` (invariant); then each function of `Model/Select` equals its counterpart in `Model/Transport`. |
| C65 | induction on the syntax: each construct keeps the order "out of fuel, or the same" (`Proofs/SourceMono`). |
| C66, C67 | rules for each construct against the model's monad (`Proofs/SourceRules`, `SourceLoop`), one lemma per function in the order of the C files (`Proofs/Source*`); the invariant keeps the buffer, the objects and the caller's blocks apart. |
| C68, C69 | the loop of `sml_file_parse` by induction; composition of C66, C67 with C01, C03, C58, C61. |
| C70 | as C66; writers change no object, so structures are read once in the proof (`Keeps`, `Proofs/SourceWriteRules`); the new checksum object of `sml_message_write` is the exception. |
| C71 | the loop of `sml_file_write` by induction with the ownership of C59; composition with C29 and C69. |
| C72 | the source of `sml_transport_write` step by step around the loop of C71 (`Proofs/SourceSend`), the checksum loop of C66. |
| C73 | the loops of `sml_read` and `sml_transport_read` by induction on the model's recursion (`Proofs/SourceRecv`, `Proofs/SourceFrame`); then C35, C36 and C64. |
| C74 | the endless loop by induction on the bytes left, the receiver as an invariant (`Proofs/SourceListen`); then C38. Undefined steps compose by the rules of `Proofs/SourceBad`. |
| C75 | composition of C29, C36, C68, C69, C72 and C73 in two memories. |
| C76 | the constructors step by step (`Proofs/SourceInit`); each part of the client on the C semantics does what the client of C62 does on the heap (`Proofs/SourceClient`), by induction on the message. |
| C77 | composition of C59, C62, C71, C72, C75 and C76, with the count of blocks. |
| C78 | loop invariants over the characters (`Proofs/SourceText`, `Proofs/SourceStrhex`); denotation, order and rendering are those of C42-C44. |
| C79 | loop invariants over table, bytes and messages (`Proofs/SourceExample`, `Proofs/SourcePrint`); a message without body is followed to the read through NULL. |
| C80 | the run of `transport_receiver` follows the model of C50 (`Proofs/SourceReceiver`), also where it ends in `exit`; that nothing overflows or is lost for conforming senders is C88, C89 (`Props/SourceStandard`); it is a receiver for C74; what is printed is C53, C55; what it cannot handle is in `Proofs/SourcePrintBad`, case by case. |
| C81 | the option loop follows `optionLoop` by induction over the arguments and letters, `serial_port_open` statement by statement (`Proofs/SourceMain`); the kinds of command lines are classified by induction; the rest is C80, C56. |
| C82 | two runs of the interpreter side by side, by induction over its fuel and over the text: `Proofs/SourceMet` for all functions, `Proofs/SourceCalm` for texts in which each request is followed by an access through its result (`calms`, decided for all 172 bodies by the kernel). |
| C83 | `Model/Scarce` is `sml_file_write` with a table of refusals, on values and through pointers; `Proofs/ScarceWrite` compares it with `Spec/Scarce`, `Proofs/SourceScarceWrite` with the run of the source. |
| C84 | `Proofs/SourceOver*` and `SourceSendOut` follow the source of the writer to the step that leaves the array; `Proofs/SourceCut` gets from the values to the model on the heap: a step that works in a longer buffer either works the same in the shorter one or leaves it. |
| C85 | `Proofs/FileLong` counts the rounds of the loop against the reading of the telegram; `Proofs/SourceCount` follows the source through 32767 rounds to the store that leaves the array. |
| C86 | C85 for the part of the input that the fuzz target parses. |
| C87 | C85 gives the state behind the parser, C84 what the writers do in it; the number of blocks is bounded by the bytes read. With the new buffer it is C72 again. |
| C88 | Each parser of the model is given its exact balance (`Proofs/Cost.lean`): what it allocates is what the free function of its result releases, plus one for each string under a wrong label (`Spec/Stranded.lean`). The loop adds up the balances of the messages, and C85 carries the sum over to the source. |
| C89 | Each parser of the model, started on a sequence of fields (`Spec/Tokens.lean`) and ending without an error, ends on a sequence of fields and leaves the overflow flag as it was (`Proofs/Smooth.lean`). Conforming telegrams are sequences of fields by induction over the terms, and the loop reads them without an error. C88 carries this over to the source. |
| C90 | The run of `transport_receiver` loses what the count of C88 says (`LostBlocks` in `Proofs/SourceReceiver`); losses of successive telegrams add up along `sml_transport_listen` (`Heard` in `Props/SourceExample`). |
| C91 | The source of `sml_file_write` is run on both readings of a memory (C71); it is deterministic (C65), and the bytes have one meaning (C29). Checksums, which the writer replaces, are compared block by block. |
| C92 | The readings of C10-C12 (`Spec.Run`) joined and carried over to the source by C71 and C85. |
| C93 | A message with its checksum of either kind has even bit parity (`Proofs/Disturbed`, from C18), so an odd number of flipped bits gives a checksum of neither kind; the parser then drops the message and stops before its end mark. The readings are joined as in C92. The forged reading is computed by the kernel. |
| C94 | The reading of a body with hit messages (`run_arrived` in `Props/SourceNoise`) gives what the frame carries, without overflow and without loss; the loop of the program is C80. |
| C95 | Both checksums are one register moved by a step that is one-to-one, and 16 free bits in a row reach every state of the register exactly once (`Proofs/Forge`); so a window of two bytes has exactly one filling for each checksum of each kind. C93 carries this to the source. |

Properties that are false for the code are kept in `properties.jsonl` with a remark; they are proved as
a negation (with a concrete witness) together with the exact condition under which they hold.

## 5. Defects of the code found while proving

1. Lists of 16 or more elements get a wrong header when written; tuple entries (23 elements) never read back (C20, C26, C27).
2. Lengths for which the header needs a carry into a further byte are written wrongly (C20).
3. The header writer ORs continuation bytes into stale memory (C32).
4. Writers never check bounds; the buffer has 512 bytes (C31, C39).
5. An empty string is written as an omitted one (C25).
6. An octet string that ends exactly at the end of the buffer is rejected (C51).
7. A number without any byte takes its sign from the next element (C23).
8. A local timestamp loses its contents; a time with an unknown tag is NULL without error (C51).
9. An omitted tag of a body or parameter value gives NULL without error, which callers dereference (C13, C50).
10. The data of a body with an unknown tag is not skipped (C14, C51).
11. A missing end mark, a checksum of one byte, and either of two checksums are accepted; accepting both weakens the guarantees of the CRC (C09, C18, C51).
12. The message counter is a `short` (C07).
13. A profile request loses the last object of its list when written (C30).
14. An empty tree path writes nothing at all (C27).
15. The start sequence matcher misses a start directly behind an escape byte; payload is not escaped; the checksum of the frame is not verified; a frame that fills the buffer exactly is rejected; listening ends at the first bad frame (C35-C41).
16. The DZG workaround handles header lengths 1 to 3 only and re-labels strings and booleans, whose memory then leaks (C03, C15, C46); `sml_server` loses a block with every such telegram (C88, C90).
17. A header of eight or more bytes overflows a signed shift (C06).
18. `sml_octet_string_cmp_with_hex` dereferences NULL for hex strings of odd length, and the empty hex string makes an array of no elements (C43).
19. `sml_message_write` leaks the old checksum object (C34).
20. `sml_list_add` drops everything behind the first entry (C49, C62).
21. The example receiver crashes on missing or short names, empty strings and missing bodies, and prints "true" for every boolean (C50).
22. Readings from 2^53 on are printed rounded although the counters have 64 bits (C45, C53).
23. A number in a value or status word is rejected if its header has more than one byte, because the size of the object is taken from the first header byte (C61).
24. `serial_port_open` does not enable the receiver (`CREAD`); it reads the uninitialised `bits` if the device has no modem lines (C56; from the C text: `sml_server log` on a file gets to an undefined step, C81).
25. Built with `SML_NO_UUID_LIB` (as by library.json), `sml_octet_string_generate_uuid` never closes /dev/urandom and does not look at the results of `open` and `read` (C63).
26. `sml_transport_read` puts any descriptor into an `fd_set`; from 1024 on this overwrites the stack (C64).
27. Of all functions only `sml_number_init` and `sml_value_to_strhex` look at what `malloc` returns. A refused request makes 172 of the 187 functions write through NULL, `sml_file_parse` among them (C82).
28. `sml_message_write` does not look at the result of `sml_number_init`. Without memory a message is sent without its checksum and without an error, and the receiver drops it and everything behind it (C83).
29. A received file cannot be passed to `sml_transport_write` or `sml_file_write`: its buffer has just the length of the telegram, and the writers write past its end (C87).

## 6. Testing the model and the theorems

`Verif/Conformance.lean` runs the library's own unit tests (`test/src`) on the model; all of them pass. This
checks the model, it proves nothing.

The interpreter of the C text was compared with the model on the heap on 4000 random telegrams (same blocks, cell by cell, and nothing left after `sml_file_free`)
before the refinement was proved.

Realistic bugs are put into the model one at a time in a scratch copy, which is then rebuilt.
`seeded/LOG.jsonl` records for each the definition, the edit, the claim it breaks, the
theorems that failed and the theorems that were tightened when none did.
