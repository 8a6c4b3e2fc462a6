{"id": "C01", "title": "Parsing a file never touches memory it does not own", "statement": "sml_file_parse(buffer, len) never reads outside the given bytes, never dereferences NULL and never frees a block it does not own, whatever the bytes are, for every len up to 294912 (one less than the smallest length at which the 16-bit message counter can overflow); truncated, malformed and hostile input only ever leads to a shorter message list.", "quantifier": "all byte buffers of length <= 294912, and all up to 2^31-1 bytes with at most 32767 messages, all contents", "why_tests_cant": "The input space is 256^len; fuzzing samples it, and a single missing bounds check on one path is enough to crash.", "anchors": ["sml/src/sml_file.c:sml_file_parse", "sml/src/sml_message.c:sml_message_parse", "sml/src/sml_shared.c", "sml/src/sml_number.c:sml_number_parse", "sml/src/sml_octet_string.c:sml_octet_string_parse", "sml/src/sml_list.c", "sml/src/sml_tree.c", "sml/src/sml_get_profile_pack_response.c"]}
{"id": "C02", "title": "Parsing always terminates and always makes progress", "statement": "sml_file_parse terminates on every input: each round of the message loop either consumes at least one byte or stops with an error, and no loop inside it can run for more rounds than there are bytes left (a list header announcing 2^28 elements cannot make it spin).", "quantifier": "all byte buffers", "why_tests_cant": "A test observes only runs that end; non-termination on an unseen input is invisible to tests.", "anchors": ["sml/src/sml_file.c:sml_file_parse", "sml/src/sml_list.c:sml_sequence_parse", "sml/src/sml_list.c:sml_list_parse", "sml/src/sml_tree.c:sml_tree_parse", "sml/src/sml_shared.c:sml_buf_get_next_length"]}
{"id": "C03", "title": "Parse followed by free leaks nothing and frees nothing twice", "statement": "After sml_file_free(sml_file_parse(x)) every heap block allocated in between has been released exactly once, on success and on every error path; the only exception is an octet-string or boolean value that the DZG DVS74 workaround re-labels as a number, whose bytes are lost.", "quantifier": "all byte buffers, all error paths", "why_tests_cant": "Leaks hide on error paths; the number of distinct failure points is the number of fields times the number of prefixes of the input.", "anchors": ["sml/src/sml_file.c:sml_file_free", "sml/src/sml_message.c:sml_message_free", "sml/src/sml_value.c:sml_value_free", "sml/src/sml_list.c:sml_list_entry_parse", "sml/src/sml_tree.c"]}
{"id": "C04", "title": "Heap usage is linear in the input", "statement": "The number of heap blocks held by the result of sml_file_parse is at most two per input byte plus a constant, so no short telegram can make the receiver allocate an unbounded number of blocks, whatever element counts its headers announce.", "quantifier": "all byte buffers", "why_tests_cant": "Amplification attacks are about the worst case over all inputs, not about any sampled one.", "anchors": ["sml/src/sml_file.c:sml_file_parse", "sml/src/sml_list.c", "sml/src/sml_tree.c", "sml/src/sml_get_profile_pack_request.c"]}
{"id": "C05", "title": "Stack depth of tree parsing", "statement": "Parsing a telegram nests at most (bytes/4)+1 levels of parameter trees, and this is the only bound: for every depth d there is a telegram of 4d+O(1) bytes that recurses d levels, so a fixed-size stack can be exhausted by a long enough telegram.", "quantifier": "all buffers; all depths d", "why_tests_cant": "No finite set of nested examples shows either the upper bound for all inputs or unboundedness.", "anchors": ["sml/src/sml_tree.c:sml_tree_parse", "sml/src/sml_tree.c:sml_tree_free"]}
{"id": "C06", "title": "Signed overflow in length decoding needs an eight-byte header", "statement": "While parsing, the signed integer that accumulates a type-length field can only overflow (undefined behaviour in C) if the input contains seven consecutive bytes with the top bit set; such inputs exist and do overflow; even then, with wrapping arithmetic, no access leaves the buffer.", "quantifier": "all byte buffers", "why_tests_cant": "Overflow is silent in normal builds; it must be excluded for all headers, not the ones tried.", "anchors": ["sml/src/sml_shared.c:sml_buf_get_next_length"]}
{"id": "C07", "title": "The message counter holds every message of a telegram", "statement": "The message count reported by a parsed file equals the number of accepted messages as long as there are at most 32767 of them, which holds for every input of at most 294912 bytes; the 32768th message overflows the 16-bit counter and corrupts memory.", "quantifier": "all byte buffers; all message counts", "why_tests_cant": "A counter overflow appears only on inputs far larger than any test vector.", "anchors": ["sml/src/sml_file.c:sml_file_add_message", "sml/include/sml/sml_file.h:sml_file"]}
{"id": "C08", "title": "A failed message is never half-delivered", "statement": "sml_message_parse returns either NULL or a completely parsed message: whenever the error flag is set on return the result is NULL, an error once set is never cleared, and sml_file_parse then delivers exactly the messages accepted before the error.", "quantifier": "all byte buffers, all failure positions", "why_tests_cant": "There is one failure point per byte and per field; tests try a handful.", "anchors": ["sml/src/sml_message.c:sml_message_parse", "sml/src/sml_file.c:sml_file_parse", "sml/src/sml_shared.c:sml_buf_has_errors"]}
{"id": "C09", "title": "Every delivered message passed its checksum", "statement": "For every message in the result of sml_file_parse there is a contiguous segment of the input, starting where the message starts and ending right before its checksum field, such that the checksum stored in the message equals the CRC-16/X-25 (byte-swapped) or the CRC-16/KERMIT of that segment; the segments of successive messages are disjoint and in input order.", "quantifier": "all byte buffers", "why_tests_cant": "Must hold for every accepted message on every input; a test shows only that chosen bad checksums are rejected.", "anchors": ["sml/src/sml_message.c:sml_message_parse", "sml/src/sml_crc16.c", "sml/src/sml_file.c:sml_file_parse"]}
{"id": "C10", "title": "A message with a wrong checksum is dropped alone", "statement": "If a well-formed message in a file carries a wrong checksum, sml_file_parse omits exactly that message and still delivers all messages before and after it.", "quantifier": "all sequences of well-formed messages and all positions and values of wrong checksums", "why_tests_cant": "Interaction of a rejected message with arbitrary neighbours cannot be enumerated.", "anchors": ["sml/src/sml_file.c:sml_file_parse", "sml/src/sml_message.c:sml_message_parse"]}
{"id": "C11", "title": "Zero padding is ignored", "statement": "Zero bytes before, between and after messages do not change the list of messages delivered by sml_file_parse (this is how transport padding is removed).", "quantifier": "all message sequences, all amounts of zero bytes", "why_tests_cant": "Needs all positions and amounts of padding.", "anchors": ["sml/src/sml_file.c:sml_file_parse"]}
{"id": "C12", "title": "Delivered messages do not depend on what follows", "statement": "If sml_message_parse accepts a message from a buffer, it accepts the identical message, consuming the same bytes, from the same buffer extended by arbitrary further bytes; hence the messages delivered from a stream prefix remain delivered from the longer stream.", "quantifier": "all buffers and all extensions", "why_tests_cant": "Universally quantified over extensions; hidden reads past a field would only show for particular following bytes.", "anchors": ["sml/src/sml_message.c:sml_message_parse", "sml/src/sml_file.c:sml_file_parse", "sml/src/sml_number.c:sml_number_parse"]}
{"id": "C13", "title": "Delivered messages have a usable body", "statement": "Every message delivered by sml_file_parse has a non-NULL body with a non-NULL tag, so that sml_file_print and code reading *message->message_body->tag (as the shipped example does) cannot crash. (False for the code as it stands: a message whose body tag is skipped and whose checksum is right is delivered with a NULL body; this is the only way: the body is NULL exactly if the mark of an omitted element stands in the place of the tag, otherwise body and tag are there.)", "quantifier": "all byte buffers", "why_tests_cant": "The offending input needs a matching checksum, so random and fuzz tests practically never hit it.", "anchors": ["sml/src/sml_message.c:sml_message_body_parse", "sml/src/sml_file.c:sml_file_print", "examples/sml_server.c:transport_receiver"]}
{"id": "C14", "title": "The tag decides the body", "statement": "In every delivered message with a body, the body data is of the kind its tag names (one of the fourteen known message types) and non-NULL; for an unknown tag the data is NULL, and the body of an unknown message is not skipped.", "quantifier": "all byte buffers, all 2^32 tags", "why_tests_cant": "The tag space and the body space are both unbounded.", "anchors": ["sml/src/sml_message.c:sml_message_body_parse", "sml/src/sml_message.c:sml_message_body_free"]}
{"id": "C15", "title": "A value's type field matches its data", "statement": "Every value delivered by parsing that was not re-labelled by the DZG workaround has a type field that agrees with what is stored: an octet string, a boolean, or a number occupying as many bytes as the type says; so sml_value_to_double never reads outside the stored number. (Numbers of 9 to 14 bytes are the exception: their type is 0x70 or 0x50.)", "quantifier": "all byte buffers, all values in them", "why_tests_cant": "A mismatch is a type confusion that shows only on particular header bytes.", "anchors": ["sml/src/sml_value.c:sml_value_parse", "sml/src/sml_value.c:sml_value_to_double", "sml/src/sml_list.c:sml_list_entry_parse"]}
{"id": "C16", "title": "The checksum functions compute the standard CRCs", "statement": "For every byte string, sml_crc16_calculate returns the byte-swapped CRC-16/X-25 and sml_crc16kermit_calculate the CRC-16/KERMIT, as defined bit by bit by the polynomial x^16+x^12+x^5+1.", "quantifier": "all byte strings of any length", "why_tests_cant": "A wrong table entry only shows on inputs that hit it; equality is over all strings.", "anchors": ["sml/src/sml_crc16.c:sml_crc16_calculate", "sml/src/sml_crc16.c:sml_crc16kermit_calculate", "sml/src/sml_crc16.c:crctab"]}
{"id": "C17", "title": "An odd number of flipped bits is always detected", "statement": "If any odd number of bits of an accepted message (checksummed bytes and checksum value together) is flipped, the result never passes the checksum test with the same extent, although two different CRCs are accepted.", "quantifier": "all message bytes of any length, all error patterns of odd weight", "why_tests_cant": "The error patterns are exponential in the length, and the interaction of the two accepted CRCs is not visible in examples.", "anchors": ["sml/src/sml_message.c:sml_message_parse", "sml/src/sml_crc16.c"]}
{"id": "C18", "title": "Bursts and double errors are detected", "statement": "Either checksum changes under every error burst of at most 16 bits and under every pair of bit errors less than 32767 bits apart. (The acceptance test as a whole does not inherit this: because either checksum is accepted, there is a message with a two-bit error that is accepted.)", "quantifier": "all byte strings of any length, all bursts, all pairs of positions", "why_tests_cant": "Exponentially many patterns; the failing combination is rare.", "anchors": ["sml/src/sml_crc16.c", "sml/src/sml_message.c:sml_message_parse"]}
{"id": "C19", "title": "Type-length headers are decoded as the SML standard defines", "statement": "For every header (any number of continuation bytes whose length value is below 2^27 in magnitude) the decoded length is the big-endian value of the low nibbles, minus the number of header bytes for non-list types, and exactly the header bytes are consumed; a header cut off by the end of the buffer is an error.", "quantifier": "all headers, all positions", "why_tests_cant": "Headers have unbounded length; tests cover one- and two-byte headers.", "anchors": ["sml/src/sml_shared.c:sml_buf_get_next_length"]}
{"id": "C20", "title": "Written headers read back", "statement": "A header written by the library for n elements or n bytes is decoded by the library as n. (False for the code as it stands: it holds exactly for lists of fewer than 16 elements and for strings whose header arithmetic does not carry into a further nibble; every list of 16 or more elements and e.g. a 254-byte string is written with a wrong length.)", "quantifier": "all lengths below 2^24", "why_tests_cant": "The failing lengths are sparse for strings; the claim is over all lengths.", "anchors": ["sml/src/sml_shared.c:sml_buf_set_type_and_length", "sml/src/sml_shared.c:sml_buf_get_next_length"]}
{"id": "C21", "title": "Numbers are read with their mathematical value", "statement": "A parsed unsigned field has the value of its 1 to n big-endian bytes; a parsed signed field has the two's-complement value of its bytes, sign-extended when fewer bytes than the target type are sent; the value in memory is the same on little- and big-endian hosts.", "quantifier": "all field widths 1..n, all byte contents, both host byte orders", "why_tests_cant": "2^64 values times widths times host byte orders.", "anchors": ["sml/src/sml_number.c:sml_number_parse", "sml/src/sml_number.c:sml_number_byte_swap"]}
{"id": "C22", "title": "Numbers survive a write/read round trip", "statement": "Every 8-, 16-, 32- and 64-bit signed and unsigned number that is initialised with the library and written is parsed back with the same value, and initialising truncates to the low bytes on both host byte orders.", "quantifier": "all values of all eight number types, both host byte orders", "why_tests_cant": "2^64 values.", "anchors": ["sml/src/sml_number.c:sml_number_init", "sml/src/sml_number.c:sml_number_write", "sml/src/sml_number.c:sml_number_parse"]}
{"id": "C23", "title": "A number depends only on its own bytes", "statement": "The parsed value of a number field is determined by the bytes of that field. (False for the code as it stands for zero-length signed numbers: their value is 0 or -1 depending on the byte that follows the field.)", "quantifier": "all number fields and all following bytes", "why_tests_cant": "Only a zero-length field followed by a byte above 0x7f shows it.", "anchors": ["sml/src/sml_number.c:sml_number_parse"]}
{"id": "C24", "title": "Omitted optional fields", "statement": "For every optional field type (string, boolean, number, value, status, time, tree, path, list, period entry, tuple entry, process parameter value) the single byte 0x01 is read as 'absent' consuming exactly that byte without error, and an absent field is written as exactly that byte.", "quantifier": "all positions in all buffers", "why_tests_cant": "Must hold at any position with any surroundings.", "anchors": ["sml/src/sml_shared.c:sml_buf_optional_is_skipped", "sml/src/sml_shared.c:sml_buf_optional_write"]}
{"id": "C25", "title": "Strings, booleans, values, status words and times survive a round trip", "statement": "Each such field, when written and parsed back, yields the same content: non-empty strings of any length whose header does not carry, booleans, numbers of 1, 2, 4 or 8 bytes, status words, times with a timestamp. (A time without timestamp is written in a form its own parser silently rejects without consuming it.)", "quantifier": "all contents and lengths", "why_tests_cant": "Unbounded strings and 2^64 numbers.", "anchors": ["sml/src/sml_octet_string.c", "sml/src/sml_boolean.c", "sml/src/sml_value.c", "sml/src/sml_status.c", "sml/src/sml_time.c"]}
{"id": "C26", "title": "Measurement lists survive a round trip", "statement": "A list of at most 15 measurement entries written by the library is parsed back entry by entry with identical name, status, time, unit, scaler, value and signature, unless the DZG workaround applies. (With 16 or more entries the written count is wrong and the list does not read back.)", "quantifier": "all lists of entries, all contents", "why_tests_cant": "Unbounded contents; existing tests have single-entry lists.", "anchors": ["sml/src/sml_list.c:sml_list_write", "sml/src/sml_list.c:sml_list_parse", "sml/src/sml_list.c:sml_list_entry_parse"]}
{"id": "C27", "title": "Parameter trees survive a round trip", "statement": "A parameter tree of any depth whose nodes have at most 15 children, and whose values are plain values, period entries or times, is parsed back identically after being written; so are paths of 1 to 15 entries. (A tree containing a tuple entry never reads back: the library writes 24 as the element count of its 23 fields.)", "quantifier": "all trees of any depth and shape within the bound", "why_tests_cant": "Trees are an inductive type; tests have depth at most two.", "anchors": ["sml/src/sml_tree.c"]}
{"id": "C28", "title": "Every message type survives a round trip", "statement": "For each of the fourteen message types, a body with well-formed fields that is written by the library is parsed back with identical fields, consuming exactly the written bytes.", "quantifier": "all fourteen message types, all field contents", "why_tests_cant": "Product of unbounded field contents.", "anchors": ["sml/src/sml_open_request.c", "sml/src/sml_open_response.c", "sml/src/sml_close_request.c", "sml/src/sml_close_response.c", "sml/src/sml_get_list_request.c", "sml/src/sml_get_list_response.c", "sml/src/sml_attention_response.c", "sml/src/sml_get_proc_parameter_request.c", "sml/src/sml_get_proc_parameter_response.c", "sml/src/sml_set_proc_parameter_request.c", "sml/src/sml_get_profile_pack_request.c", "sml/src/sml_get_profile_pack_response.c", "sml/src/sml_get_profile_list_response.c"]}
{"id": "C29", "title": "Files survive a round trip", "statement": "Writing a file of any number of well-formed messages and parsing the written bytes delivers exactly those messages in order, each with the checksum the writer computed.", "quantifier": "all finite sequences of well-formed messages that fit the buffer", "why_tests_cant": "Unbounded sequences of unbounded messages.", "anchors": ["sml/src/sml_file.c:sml_file_write", "sml/src/sml_file.c:sml_file_parse", "sml/src/sml_message.c:sml_message_write"]}
{"id": "C30", "title": "Profile requests keep their object list", "statement": "A profile request with a non-empty object list is written with all its objects. (False for the code as it stands: for every non-empty list the last object is left out while the header still counts it.)", "quantifier": "all object lists", "why_tests_cant": "The claim (and its failure) is for every list length.", "anchors": ["sml/src/sml_get_profile_pack_request.c:sml_get_profile_pack_request_write"]}
{"id": "C31", "title": "Exactly the encoded bytes are written, and overflow is characterised", "statement": "Writing a well-formed message changes only the bytes between the old and the new cursor; it stays inside the buffer if and only if the encoded size fits into the space left. The buffer of a fresh file has 512 bytes and is never grown, so any file encoding to more than 512 bytes writes out of bounds.", "quantifier": "all messages, all buffer sizes and cursor positions", "why_tests_cant": "Needs all sizes around the boundary for all messages.", "anchors": ["sml/src/sml_shared.c:sml_buf_set_type_and_length", "sml/src/sml_file.c:sml_file_init", "sml/src/sml_file.c:sml_file_write"]}
{"id": "C32", "title": "Output does not depend on old buffer contents", "statement": "The bytes written for a message do not depend on what the buffer held before. (False for the code as it stands when a string of 15 bytes or more is written over non-zero bytes; true for zeroed buffers, and true when the same file is written again over its own previous output.)", "quantifier": "all messages, all previous buffer contents", "why_tests_cant": "Depends on stale memory contents, which tests always start zeroed.", "anchors": ["sml/src/sml_shared.c:sml_buf_set_type_and_length", "sml/src/sml_transport.c:sml_transport_write"]}
{"id": "C33", "title": "The encoder conforms to the SML encoding rules", "statement": "The bytes written for a message equal the encoding of the corresponding SML term under the standard's type-length-value rules (minimal headers, big-endian numbers, absent = 0x01), for all messages whose lists have at most 15 elements and whose strings have non-carrying headers.", "quantifier": "all well-formed messages", "why_tests_cant": "Conformance to a separate specification for every message.", "anchors": ["sml/src/sml_shared.c", "sml/src/sml_message.c:sml_message_write"]}
{"id": "C34", "title": "Writing a message and memory ownership", "statement": "Writing a message allocates exactly one block (its checksum) and releases none: a message that already had a checksum (parsed, or written before) loses the old block, so each rewrite leaks one block per message.", "quantifier": "all messages, any number of rewrites", "why_tests_cant": "Leak counts over any number of rewrites.", "anchors": ["sml/src/sml_message.c:sml_message_write", "sml/src/sml_transport.c:sml_transport_write"]}
{"id": "C35", "title": "A received frame is a frame", "statement": "Whenever sml_transport_read returns n > 0, then 16 <= n < max_len, n is a multiple of 4, the buffer holds n consecutive bytes of the stream that start with the start sequence, end with an end sequence, and contain no other aligned escape sequence; nothing is ever written beyond max_len, for all streams and all max_len >= 1.", "quantifier": "all byte streams, all buffer sizes", "why_tests_cant": "Streams are unbounded and arbitrary (line noise).", "anchors": ["sml/src/sml_transport.c:sml_transport_read", "sml/src/sml_transport.c:sml_read"]}
{"id": "C36", "title": "Reception does not depend on how the bytes arrive", "statement": "The result of sml_transport_read depends only on the bytes of the stream, not on how read() splits them or how often it is interrupted (EINTR/EAGAIN).", "quantifier": "all streams and all finite schedules of partial reads and interruptions", "why_tests_cant": "The schedules are exponentially many; tests use one big pipe write.", "anchors": ["sml/src/sml_transport.c:sml_read", "sml/src/sml_transport.c:sml_transport_read"]}
{"id": "C37", "title": "A frame is found after arbitrary noise", "statement": "After arbitrary bytes not containing the start sequence, the next well-formed frame shorter than max_len is returned. (False for the code as it stands when the noise ends in a partial start sequence, e.g. a single 0x1b; true exactly when the noise leaves the matcher in its initial state, in particular for noise whose last byte is neither 0x1b nor 0x01.)", "quantifier": "all noise prefixes, all frames, all continuations", "why_tests_cant": "Failure needs particular last bytes of the noise; the positive claim is for all prefixes.", "anchors": ["sml/src/sml_transport.c:sml_transport_read"]}
{"id": "C38", "title": "Listening delivers frames in order", "statement": "sml_transport_listen calls the receiver exactly once for every frame of a stream of well-formed frames (shorter than 8096 bytes, separated by harmless noise), in order, with exactly the bytes of the frame, and returns when the stream ends; it also returns, losing everything that follows, at the first frame that is too long or contains an escape other than the end mark.", "quantifier": "all sequences of frames", "why_tests_cant": "Unbounded histories of frames.", "anchors": ["sml/src/sml_transport.c:sml_transport_listen"]}
{"id": "C39", "title": "Transmitted frames have the required shape", "statement": "sml_transport_write emits start sequence, file, 0 to 3 zero bytes up to a multiple of 4, end sequence, pad count and a checksum over everything before it, and reports success exactly if the descriptor took all bytes.", "quantifier": "all files that fit the buffer", "why_tests_cant": "All payload lengths modulo 4 and all contents.", "anchors": ["sml/src/sml_transport.c:sml_transport_write"]}
{"id": "C40", "title": "End to end: what is sent is what is received", "statement": "A file of well-formed messages sent with sml_transport_write and received with sml_transport_read (buffer larger than the frame), stripped of 8 bytes at each end and parsed, yields the same messages, provided the encoded file contains no aligned escape sequence.", "quantifier": "all files, all delivery schedules", "why_tests_cant": "Composition over all messages and schedules.", "anchors": ["sml/src/sml_transport.c", "sml/src/sml_file.c", "examples/sml_server.c:transport_receiver"]}
{"id": "C41", "title": "Payloads containing the escape sequence", "statement": "A payload that contains the escape sequence 1b1b1b1b at an offset divisible by four is transmitted transparently. (False for the code as it stands: the writer does not escape it and the reader rejects or truncates the frame, for every such payload.)", "quantifier": "all payloads with an aligned escape sequence", "why_tests_cant": "Universal negative statement over payloads.", "anchors": ["sml/src/sml_transport.c:sml_transport_write", "sml/src/sml_transport.c:sml_transport_read"]}
{"id": "C42", "title": "String comparison decides equality", "statement": "sml_octet_string_cmp returns 0 exactly for equal strings, for all strings; it is not an ordering, since strings of different length compare as -1 both ways.", "quantifier": "all pairs of strings", "why_tests_cant": "All pairs.", "anchors": ["sml/src/sml_octet_string.c:sml_octet_string_cmp"]}
{"id": "C43", "title": "Hexadecimal initialisation", "statement": "A string created from a hexadecimal text of even length has exactly the bytes the text denotes, in upper, lower or mixed case; every byte string is obtained from its hexadecimal text; comparing with such a text is 0 exactly for that string; an odd-length text gives NULL, and comparing with it dereferences NULL.", "quantifier": "all byte strings and all hexadecimal texts", "why_tests_cant": "All texts of all lengths.", "anchors": ["sml/src/sml_octet_string.c:sml_octet_string_init_from_hex", "sml/src/sml_octet_string.c:sml_octet_string_cmp_with_hex", "sml/src/sml_octet_string.c:ctoi"]}
{"id": "C44", "title": "Printable rendering of strings", "statement": "sml_value_to_strhex renders the bytes as their printable prefix (if requested) followed by three characters per remaining byte, never writes more than 3n+1 characters, and different strings have different renderings.", "quantifier": "all strings, both modes", "why_tests_cant": "All strings; injectivity is about all pairs.", "anchors": ["sml/src/sml_value.c:sml_value_to_strhex"]}
{"id": "C45", "title": "Conversion to double", "statement": "sml_value_to_double returns the exact mathematical value of every 8-, 16- and 32-bit number and of every 64-bit number of magnitude up to 2^53, the nearest double otherwise, and 0 for every other type.", "quantifier": "all numbers of all types", "why_tests_cant": "2^64 values.", "anchors": ["sml/src/sml_value.c:sml_value_to_double"]}
{"id": "C46", "title": "The DZG DVS74 workaround changes only what it must", "statement": "While parsing a list, an entry differs from what was sent only if an earlier entry of the same list carries a DZG serial number in the two affected ranges and the entry is 1-0:16.7.0*255 with a header length of 1 to 3; then a signed number becomes the unsigned number with the same bytes, so 53 80 25 reads as 32805; no other entry and no other list is affected.", "quantifier": "all lists, all serial numbers, all entries", "why_tests_cant": "40-bit serial numbers and arbitrary entry sequences.", "anchors": ["sml/src/sml_list.c:detect_buggy_dzg_dvs74", "sml/src/sml_list.c:sml_list_entry_parse", "sml/src/sml_list.c:sml_list_parse"]}
{"id": "C47", "title": "Generated transaction ids are version-4 UUIDs", "statement": "Without libuuid, sml_octet_string_generate_uuid yields 16 bytes with version nibble 4 and variant bits 10, whatever the random source returns, and all other 122 bits are those of the random source.", "quantifier": "all random bytes", "why_tests_cant": "2^128 random inputs.", "anchors": ["sml/src/sml_octet_string.c:sml_octet_string_generate_uuid"]}
{"id": "C48", "title": "Unit lookup", "statement": "dlms_get_unit returns, for each code of a byte, the unit IEC 62056-62 assigns to it and NULL for codes without one; codes in the table are unique.", "quantifier": "all 256 codes", "why_tests_cant": "Full-domain claim (small, but asserted for the whole domain).", "anchors": ["examples/unit.h:dlms_get_unit", "examples/unit.h:dlms_units"]}
{"id": "C49", "title": "Appending keeps what was added", "statement": "Adding elements to a sequence, a path, a tree or a file keeps all previous elements in order and appends the new one. sml_list_add is different: it replaces whatever followed the given entry, so adding twice to the same entry loses the first addition.", "quantifier": "all sequences of additions", "why_tests_cant": "All histories of calls.", "anchors": ["sml/src/sml_list.c:sml_sequence_add", "sml/src/sml_list.c:sml_list_add", "sml/src/sml_tree.c:sml_tree_add_tree", "sml/src/sml_tree.c:sml_tree_path_add_path_entry", "sml/src/sml_file.c:sml_file_add_message"]}
{"id": "C50", "title": "The example receiver survives any telegram", "statement": "The receiver of the shipped example handles every frame delivered by the transport layer without undefined behaviour. (False for the code as it stands: a missing or short object name, an empty string value, or a missing body crash it; it is safe exactly for telegrams without these, and prints 'true' for every boolean.)", "quantifier": "all frames", "why_tests_cant": "Crashing telegrams need correct checksums.", "anchors": ["examples/sml_server.c:transport_receiver", "sml/src/sml_value.c:sml_value_to_strhex"]}
{"id": "C51", "title": "The parser accepts exactly the language of the grammar", "statement": "There is a grammar, written down without reference to the parser (no cursor, no error flag, no state), such that for strings, booleans, numbers, values, status words, times, trees, lists with the DZG correction, message bodies, messages and telegrams the parser succeeds on exactly the byte strings the grammar derives, delivers exactly the object the grammar assigns, and leaves exactly the bytes the grammar leaves. The grammar is unambiguous, every telegram has exactly one list of messages, and that list is what sml_file_parse delivers.", "quantifier": "all byte buffers up to 2^31-1 bytes with at most 32767 messages (telegrams; this includes all up to 294912 bytes), all up to 2^31-1 bytes (messages), all parser states for the other objects", "why_tests_cant": "Tests show that some inputs are accepted and some rejected; that nothing else is accepted, and nothing valid refused, is a statement about every input.", "anchors": ["sml/src/sml_file.c:sml_file_parse", "sml/src/sml_message.c:sml_message_parse", "sml/src/sml_message.c:sml_message_body_parse", "sml/src/sml_list.c:sml_list_parse", "sml/src/sml_tree.c:sml_tree_parse", "sml/src/sml_time.c:sml_time_parse", "sml/src/sml_value.c:sml_value_parse", "sml/src/sml_status.c:sml_status_parse", "sml/src/sml_boolean.c:sml_boolean_parse"]}
{"id": "C52", "title": "A received telegram can be passed on unchanged", "statement": "A program that parses a telegram, whatever its bytes, and writes the resulting file again produces bytes from which the parser gets the same messages with the same fields, provided each message is within the limits of the encoder: known body, no empty string, no string length that hits the length defect, fewer than 16 elements per list, no tuple entry, no object list, times with tag and seconds, numbers of at most eight bytes, no value the DZG workaround would change again. Whether the received message can make the round trip depends on these conditions only: sizes, tags, labels and booleans of what the parser delivers are right by themselves. The telegram of a DZG meter, corrected on reading, satisfies them.", "quantifier": "all telegrams up to 2^31-1 bytes that are read, all buffers the result fits into", "why_tests_cant": "Tests write objects built by hand; here the object comes from arbitrary bytes, in any of the many spellings the parser accepts.", "anchors": ["sml/src/sml_file.c:sml_file_parse", "sml/src/sml_file.c:sml_file_write", "sml/src/sml_message.c:sml_message_write", "sml/src/sml_list.c:sml_list_entry_parse", "sml/src/sml_value.c:sml_value_parse", "sml/src/sml_value.c:sml_value_write"]}
{"id": "C53", "title": "The example prints every reading exactly", "statement": "For a frame the example receiver can handle, what it prints is, character by character: with -v the number of messages, the number of bytes and the hexadecimal tag of each message; then for each entry of each list response the six decimal numbers of the OBIS code, the reading as an exact decimal number with as many decimals as the scaler asks for, and the unit. The two roundings in value * pow(10, scaler) and the rounding of %.*f never show as long as the reading has at most 50 bits (scalers from -128 to 0) or the scaled reading at most 53 bits (scalers up to 22), for every pow with a relative error of at most 2^-52 that is exact for small powers. The text determines the reading. Beyond these bounds it is false: 2^53+1 is printed as 2^53. For a reading of any size the printed number is within half a unit of the last decimal plus a relative error of 2^-50. For every pow the number is the nearest double of the product, printed as the nearest decimal number, the even one of two.", "quantifier": "all frames the transport layer can deliver, all settings of -v and -s, all implementations of pow within the error bound", "why_tests_cant": "Tests compare some printed readings; rounding errors appear only for particular values among 2^50, and depend on the mathematics library of the machine.", "anchors": ["examples/sml_server.c:transport_receiver", "sml/src/sml_file.c:sml_file_print", "sml/src/sml_value.c:sml_value_to_double"]}
{"id": "C54", "title": "A hex dump can be read back", "statement": "The text printed by sml_hexdump is eight bytes to a row, each as two upper case hexadecimal digits and a space; reading the digits back gives exactly the bytes of the buffer, so different buffers have different dumps.", "quantifier": "all buffers", "why_tests_cant": "Tests look at single dumps; injectivity is a statement about all pairs of buffers.", "anchors": ["sml/src/sml_shared.c:sml_hexdump"]}
{"id": "C55", "title": "The example program does what it is for, from the serial line to the screen", "statement": "The program listens exactly with the command lines of a simple language (bundles of the letters s and v behind a dash, optionally two dashes, one device), with flags and device as given there. Whatever bytes arrive and however they are cut into reads, it processes the frames of the transport layer in order, with -s only up to the first list response; it is defined if and only if all telegrams it gets to are manageable, then ends with status 0 and has printed exactly what belongs to these telegrams, provided their readings are legible. In particular, for a meter that sends any number of telegrams made by this library, with harmless bytes between the frames, exactly the readings that were sent appear on the screen.", "quantifier": "all command lines, all byte streams, all schedules of partial and interrupted reads, all numbers of telegrams, both flags", "why_tests_cant": "Tests of the pieces do not show that they fit together; the whole depends on the stream, its timing and the unbounded sequence of telegrams.", "anchors": ["examples/sml_server.c:main", "examples/sml_server.c:transport_receiver", "sml/src/sml_transport.c:sml_transport_listen", "sml/src/sml_transport.c:sml_transport_read", "sml/src/sml_file.c:sml_file_parse"]}
{"id": "C56", "title": "The serial line is opened so that the meter is heard unchanged", "statement": "Whatever the settings of the serial line were before, after serial_port_open every byte the meter sends arrives unchanged, nothing is echoed to the meter, no control character and no break sends a signal to the program, a break or a damaged character adds at most one byte 0, what is written goes out unchanged, characters are framed 8-N-1 at 9600 baud and RTS is on. One condition remains: the receiver must have been enabled (CREAD) before, the program does not enable it; the line is transparent after opening if and only if it was. A line is transparent if and only if CREAD is set and ten flags are clear; the program clears all of them. Together with C55: the readings a meter sends over a line with any settings, with disturbances between the telegrams, appear on the screen.", "quantifier": "all settings found on the line, all control characters, all implementation-defined treatments, all sequences of bytes, breaks and damaged characters", "why_tests_cant": "Tests feed files or pipes, which have no terminal settings; a forgotten flag shows only on a line that happened to be configured badly, with the bytes it affects.", "anchors": ["examples/sml_server.c:serial_port_open", "examples/sml_server.c:main"]}
{"id": "C57", "title": "A gateway leaves telegrams in standard form byte by byte unchanged", "statement": "A program that parses a telegram within the limits of C52 and writes it again writes the standard form of the telegram. The bytes written equal the bytes received if and only if these were in standard form, that is the encoding of some messages that can be represented. A second gateway changes nothing any more. A telegram with padding is never in standard form.", "quantifier": "all telegrams up to 2^31-1 bytes that are read, all buffers the result fits into", "why_tests_cant": "Tests compare some pairs of input and output; that all deviations are deviations from the standard form, and none comes from the library, is a statement about every telegram.", "anchors": ["sml/src/sml_file.c:sml_file_parse", "sml/src/sml_file.c:sml_file_write"]}
{"id": "C58", "title": "Parsing and freeing never use a block after it was freed and keep every object separate", "statement": "On a heap of addressed blocks, where using NULL, a freed block, a block of another kind or freeing a block twice ends the run, sml_file_parse followed by sml_file_free runs to its end for every buffer of at most 294912 bytes and for every earlier contents of the heap. In between, the pointers lead to a tree of distinct new blocks that represents exactly the messages of the model on values; the caller's blocks are never changed; afterwards the heap is as before, except for the blocks of values re-labelled by the DZG DVS74 workaround, which are exactly those C03 counts. Freeing the same file a second time is an access to a freed block.", "quantifier": "all heaps, all buffers up to 294912 bytes, and all up to 2^31-1 bytes with at most 32767 messages, stack for length/4+1 nested trees", "why_tests_cant": "Use after free and double free depend on which of the hundreds of error exits is taken; a sanitizer run sees the exits of its inputs only, and never that two pointers are equal by accident of the input.", "anchors": ["sml/src/sml_file.c:sml_file_parse", "sml/src/sml_file.c:sml_file_free", "sml/src/sml_message.c:sml_message_free", "sml/src/sml_list.c:sml_list_parse", "sml/src/sml_list.c:sml_list_free", "sml/src/sml_tree.c:sml_tree_free", "sml/src/sml_get_profile_pack_request.c:sml_get_profile_pack_request_parse"]}
{"id": "C59", "title": "Writing a parsed file follows only valid pointers and loses exactly the old checksums", "statement": "On the addressed heap, a file parsed from any buffer is written by sml_file_write (and framed by sml_transport_write) through its pointers with the same bytes as in the model on values and without using NULL, a freed block or a block of another kind; the caller's blocks never change, the file's blocks stay separate, and sml_file_free works afterwards. After k writes and the free exactly k blocks per message remain: the checksum objects whose pointers sml_message_write overwrote (and what C58 names).", "quantifier": "all heaps, all buffers up to 2^31-1 bytes that are read, all target buffers for which the write stays inside (C31), any number of writes", "why_tests_cant": "Which pointers are followed depends on the contents of the file; a leak checker counts for the files and numbers of writes it is run with.", "anchors": ["sml/src/sml_file.c:sml_file_write", "sml/src/sml_message.c:sml_message_write", "sml/src/sml_message.c:sml_message_body_write", "sml/src/sml_list.c:sml_list_write", "sml/src/sml_tree.c:sml_tree_write", "sml/src/sml_transport.c:sml_transport_write"]}
{"id": "C60", "title": "The example program prints through valid pointers only, and its memory does not grow", "statement": "On the addressed heap, transport_receiver (with sml_value_to_strhex, sml_value_to_double and sml_file_print) and the whole program around it are defined exactly for the telegrams of C50/C55; they then print the same text as the model on values, without using NULL, a freed block, a block of another kind or a byte outside a block, and the text of an octet string is freed exactly once. The blocks that existed before are unchanged, and after any number of telegrams no block remains, unless -s makes the program leave early or a telegram contains the marker of a DZG meter.", "quantifier": "all heaps, all command lines, all bytes from the device in all portions, any number of telegrams", "why_tests_cant": "A receiver runs for years; a leak or a dangling pointer that depends on the contents of one telegram shows up only with that telegram.", "anchors": ["examples/sml_server.c:transport_receiver", "examples/sml_server.c:main", "sml/src/sml_value.c:sml_value_to_strhex", "sml/src/sml_value.c:sml_value_to_double", "sml/src/sml_file.c:sml_file_print", "sml/src/sml_transport.c:sml_transport_listen"]}
{"id": "C61", "title": "Telegrams of any conforming sender are understood", "statement": "Every telegram a conforming SML 1.04 sender may produce from the fourteen kinds of messages, with headers of any length for strings and lists, numbers shortened by any leading bytes, any optional elements omitted and any padding at the end, is parsed into exactly the messages that were sent, with the values the standard gives them (a telegram of more than 32767 messages overflows the counter instead); bytes do not have two meanings; the example program prints the readings of any such meter. Excepted are values of DZG meters (C46). Limits, shown by witnesses: a number in a value must have a header of one byte, and a message of another kind makes the rest of the telegram unreadable.", "quantifier": "all messages of the fourteen kinds, all encodings the standard allows, all telegrams of up to INT_MAX bytes, all schedules of arrival", "why_tests_cant": "Meters differ in the freedoms of the encoding they use; test telegrams come from the few meters at hand.", "anchors": ["sml/src/sml_file.c:sml_file_parse", "sml/src/sml_message.c:sml_message_parse", "sml/src/sml_number.c:sml_number_parse", "sml/src/sml_shared.c:sml_buf_get_next_length", "sml/src/sml_value.c:sml_value_parse", "sml/src/sml_time.c:sml_time_parse", "examples/sml_server.c:transport_receiver"]}
{"id": "C62", "title": "What is built with the constructors is sent as meant, through valid pointers, and leaves nothing behind", "statement": "On the addressed heap, a client that builds any messages of the fourteen kinds with sml_file_init, sml_message_init, the sml_*_init and sml_*_add functions gets a file that holds exactly these messages in new blocks of its own; sml_file_free then restores the heap. Sending such a file once hands out the frame that belongs to its messages, which any receiver reads back, and after sml_file_free no block remains; every further write before that loses one block per message. Called with the head of a list each time, sml_list_add keeps only the first and the last entry and loses all blocks of the entries between them.", "quantifier": "all heaps, all messages whose numbers, strings and lists fit their C types, generated or own transaction ids with all random bytes, any number of messages up to 32767 and any number of writes; for sending, all messages within the limits of the encoder whose frame fits into the buffer of 512 bytes", "why_tests_cant": "Which members are set, how often an add function moves an array and how often a file is written differ from client to client; leaks and dangling pointers in one combination do not show in others.", "anchors": ["sml/src/sml_message.c:sml_message_init", "sml/src/sml_message.c:sml_message_body_init", "sml/src/sml_file.c:sml_file_init", "sml/src/sml_file.c:sml_file_add_message", "sml/src/sml_list.c:sml_sequence_add", "sml/src/sml_list.c:sml_list_add", "sml/src/sml_tree.c:sml_tree_add_tree", "sml/src/sml_tree.c:sml_tree_path_add_path_entry", "sml/src/sml_octet_string.c:sml_octet_string_generate_uuid", "sml/src/sml_number.c:sml_number_init", "sml/src/sml_transport.c:sml_transport_write"]}
{"id": "C63", "title": "Making transaction ids needs no resources and never yields an accidental id", "statement": "Without the uuid library, generating a transaction id leaves the process as it was and yields random bits. This is false of the code: on Linux each id leaves a descriptor of /dev/urandom open, so that a sender which can open k more files gets random ids for exactly its first k messages; the ids of all later messages consist of old bytes of the stack, and no file can be opened any more. On other systems the ids are exactly the UUIDs of version 4 without a byte 0xFF.", "quantifier": "all processes with any limit and any open descriptors, any number of messages, all bytes of the random source and of the stack; all UUIDs", "why_tests_cant": "A test makes a few ids; the limit of 1024 descriptors is reached after hours or days of sending, and ids made of old stack bytes look like any others.", "anchors": ["sml/src/sml_octet_string.c:sml_octet_string_generate_uuid", "sml/src/sml_message.c:sml_message_init"]}
{"id": "C64", "title": "Waiting for the meter with select neither changes what is read nor hangs, on every descriptor", "statement": "sml_transport_read and sml_transport_listen, with the set of descriptors they pass to select again and again, deliver the same frames as if they had just waited, whatever signals interrupt select, whatever else becomes ready and however late; the set never loses the descriptor, so that the loop never waits for nothing and never spins. This is false for descriptors from 1024 on: listening is defined exactly for descriptors 0 to 1023, for others FD_SET writes outside the set. A process that leaked n descriptors by making n messages (C63) reaches that limit accordingly.", "quantifier": "all descriptors, all sequences of moments at which select looks, all portions and failures of read, all bytes, all buffer sizes", "why_tests_cant": "Tests run with small descriptors and without signals; the set is modified by every call, so a lost descriptor would show only after particular interruptions.", "anchors": ["sml/src/sml_transport.c:sml_read", "sml/src/sml_transport.c:sml_transport_read", "sml/src/sml_transport.c:sml_transport_listen"]}
{"id": "C65", "title": "The meaning of the translated C source does not depend on fuel", "statement": "The interpreter that runs the library's C source (written out as syntax trees by tools/c2lean.py) takes fuel for nested calls and loops. With more fuel every call ends in the same way, with the same result or the same undefined step, unless it ran out of fuel before. A call that has a result has no other outcome, and result and memory are determined by the memory before.", "quantifier": "all functions, all arguments, all memories, all amounts of fuel", "why_tests_cant": "It is a statement about every run of every function.", "anchors": ["sml/src/*.c"]}
{"id": "C66", "title": "The C source of every parse function does what its model does", "statement": "Whenever the model of a parse function (31 functions, and sml_number_parse for every type and size) has a result on some buffer and heap, the C source of the function, run in a memory with this buffer, these objects and any further blocks of the caller, ends without an undefined step, with the same result, and memory then is that of the model: same cursor, same error flag, same blocks with the same contents.", "quantifier": "all buffers up to INT_MAX bytes, all cursors, all heaps, all memories of the caller", "why_tests_cant": "A comparison of two programs by tests covers the inputs tried; here both are compared on every input and every state of memory.", "anchors": ["sml/src/sml_shared.c", "sml/src/sml_number.c:sml_number_parse", "sml/src/sml_octet_string.c:sml_octet_string_parse", "sml/src/sml_list.c:sml_list_parse", "sml/src/sml_tree.c:sml_tree_parse", "sml/src/sml_message.c:sml_message_parse"]}
{"id": "C67", "title": "The C source of every free function does what its model does", "statement": "Whenever the model of a free function (32 functions) has a result on some heap, the C source of the function, run on the same pointer in a memory with the same objects, ends without an undefined step in the memory of the model, so it frees the same blocks and no others.", "quantifier": "all pointers, all heaps, all memories of the caller", "why_tests_cant": "As for C66.", "anchors": ["sml/src/sml_tree.c:sml_tree_free", "sml/src/sml_list.c:sml_list_free", "sml/src/sml_message.c:sml_message_free"]}
{"id": "C68", "title": "The C source of sml_file_parse and sml_file_free runs without an undefined step on every input", "statement": "Whatever is in memory and whatever the bytes at the pointer are (up to 294912 of them), the C source of sml_file_parse, run as it is written, ends without an access outside a block, to a freed block, through NULL or to an uninitialised byte, and returns a file; the C source of sml_file_free frees it likewise. Both leave blocks and local objects of the caller as they are; after both no other block remains, unless the bytes hold the start of a DZG serial number. A signed computation overflows only if seven consecutive bytes have their top bit set. Freeing the file again uses a freed block.", "quantifier": "all memories, all pointers, all buffers up to 294912 bytes (all others: C85)", "why_tests_cant": "Fuzzing tries some inputs; this is about all of them, and about the source text instead of a model written by hand.", "anchors": ["sml/src/sml_file.c:sml_file_parse", "sml/src/sml_file.c:sml_file_free"]}
{"id": "C69", "title": "The C source of sml_file_parse understands every conforming sender", "statement": "After the C source of sml_file_parse has run, memory holds, in new blocks that are all different and laid out as the C structures, exactly the messages of the model on values, and a buffer with the bytes, cursor and error flag; if no DZG value was re-labelled, no other new block exists. For every telegram a conforming SML 1.04 sender may produce these are exactly the messages that were sent.", "quantifier": "all memories, all buffers up to 294912 bytes, and longer ones that are read; all telegrams of the standard up to 294912 bytes", "why_tests_cant": "It ties every telegram and every encoding allowed by the standard to the objects the source text makes of it.", "anchors": ["sml/src/sml_file.c:sml_file_parse"]}
{"id": "C70", "title": "The C source of every write function does what its model does", "statement": "Whenever the model of a write function (34 functions from sml_octet_string_write to sml_message_write, and sml_number_write for every type and size, sml_sequence_write for every kind of element) has a result on some heap and buffer, the C source of the function, run as it is written on the same pointers in a memory with the same buffer and objects, ends without an undefined step in the memory of the model: the same bytes at the same places, the same new checksum object, nothing else changed.", "quantifier": "all pointers, all heaps, all buffers and cursor positions, all memories of the caller", "why_tests_cant": "A test runs the compiled code on some objects; this is about the source text of each function and all objects, including ones a parser would never make.", "anchors": ["sml/src/sml_number.c:sml_number_write", "sml/src/sml_octet_string.c:sml_octet_string_write", "sml/src/sml_list.c:sml_list_write", "sml/src/sml_tree.c:sml_tree_write", "sml/src/sml_message.c:sml_message_write"]}
{"id": "C71", "title": "The C source of sml_file_write writes what the standard says, and the C source of sml_file_parse reads it back", "statement": "In every memory that holds a file and its buffer, whenever the model of sml_file_write on values has a result, the C source of sml_file_write ends without an undefined step; the buffer has the bytes and cursor of the model, the file has the same messages with new checksums, all other blocks are as before, and the only blocks without a pointer to them are the old checksums. For messages the format can represent and a buffer they fit into, the bytes are the standard encoding; the C source of sml_file_parse, run on these bytes in the same memory, makes a second file of the same messages in other blocks, and the C source of sml_file_free frees one after the other. What sml_file_parse makes is always such a file.", "quantifier": "all memories with a file, all lists of messages, all buffers and cursor positions", "why_tests_cant": "Round trips in tests use some messages and one memory layout; here both functions are run from the source text, one after the other in the same memory, for all messages.", "anchors": ["sml/src/sml_file.c:sml_file_write", "sml/src/sml_file.c:sml_file_parse", "sml/src/sml_file.c:sml_file_free"]}
{"id": "C72", "title": "The C source of sml_transport_write sends exactly the frame the standard describes", "statement": "In every memory that holds a file and its buffer, whenever the model of sml_transport_write on values makes a frame, the C source of sml_transport_write ends without an undefined step: it calls write once, with exactly the bytes of that frame, and returns their number if write took all of them and 0 otherwise. The file then has the messages of the model with new checksums, all blocks outside the file are as before, and the only blocks without a pointer to them are the old checksums. For messages the format can represent and a buffer that is long enough the bytes are start sequence, standard encoding, padding to a multiple of four, end sequence, number of padding bytes and CRC.", "quantifier": "all memories with a file, all lists of messages, all buffers, all results of write", "why_tests_cant": "Tests look at what arrives for some files; here every step of the source text is followed, for all files and for every answer of the operating system.", "anchors": ["sml/src/sml_transport.c:sml_transport_write", "sml/src/sml_crc16.c:sml_crc16_calculate"]}
{"id": "C73", "title": "The C source of sml_transport_read stores one complete frame or nothing, however the bytes arrive", "statement": "For every stream of bytes, every way select and read deliver it (pieces, interruptions, failures, other descriptors becoming ready), every descriptor from 0 to 1023 and every buffer size from 1 to 4294967287, the C source of sml_transport_read ends without an undefined step. It either returns 0 and stores nothing, or stores one complete frame of the stream that is shorter than the buffer and returns its length; this is what the model does. A frame after harmless noise is found if no read fails. With any other descriptor the source writes outside its set of descriptors.", "quantifier": "all streams, all schedules of select and read, all descriptors, all buffer sizes", "why_tests_cant": "The ways bytes can be split over calls of read, with signals between them, are not enumerable, and the overrun with high descriptors does not show up in a small test program.", "anchors": ["sml/src/sml_transport.c:sml_transport_read", "sml/src/sml_transport.c:sml_read"]}
{"id": "C74", "title": "The C source of sml_transport_listen hands every frame to the receiver, once and in order", "statement": "For every receiver function whose calls with a frame in the buffer are defined and preserve a relation between memory and frames handled so far, the C source of sml_transport_listen ends without an undefined step on every stream and every schedule of select and read, and the relation then holds for the frames that were handed over: frames of the stream, complete, disjoint and in order. With harmless bytes between the frames and no failing read these are all frames of the stream. sml_hexdump is such a receiver.", "quantifier": "all receiver functions, all streams, all schedules, all numbers of frames", "why_tests_cant": "An endless loop over input with a callback has no bound a test could exhaust.", "anchors": ["sml/src/sml_transport.c:sml_transport_listen", "sml/src/sml_shared.c:sml_hexdump"]}
{"id": "C75", "title": "What one machine sends with the C source, another one receives with the C source", "statement": "For all messages the format can represent whose telegram fits the buffer and has no escape sequence on a multiple of four: the C source of sml_transport_write in one memory gives bytes to write such that, when they come into another memory in any pieces, after harmless noise and before anything else, the C sources of sml_transport_read and sml_file_parse leave there a file of exactly these messages with their checksums, without an undefined step, and sml_file_free removes it; everything that was in that memory before is unchanged, and what follows the frame is still to be read.", "quantifier": "all lists of messages, all memories on both sides, all schedules of delivery, all noise and following bytes", "why_tests_cant": "An end-to-end test sends some messages over one connection; here both ends run from the source text for all messages and all ways of delivery.", "anchors": ["sml/src/sml_transport.c:sml_transport_write", "sml/src/sml_transport.c:sml_transport_read", "sml/src/sml_file.c:sml_file_parse"]}
{"id": "C76", "title": "The C source of the constructors builds exactly the file that is meant", "statement": "In every memory, a client that makes a file of at most 32767 messages with the library (sml_file_init, sml_message_init, sml_octet_string_init, sml_number_init, ..., the add functions, sml_message_body_init), all run from their C source, never gets to an undefined step. It ends in a memory that holds exactly these messages, with the ids uuid_generate made where they were kept, and a zeroed buffer of 512 bytes; everything is in new blocks, as many as sml_file_free frees, and the blocks and local objects that were there before are unchanged.", "quantifier": "all memories, all lists of up to 32767 messages of all types and sizes the C types allow, all random bytes", "why_tests_cant": "Tests call the constructors for single objects; here every function is run from its text for all messages, and the whole memory is compared.", "anchors": ["sml/src/sml_file.c:sml_file_init", "sml/src/sml_message.c:sml_message_init", "sml/src/sml_octet_string.c:sml_octet_string_init", "sml/src/sml_octet_string.c:sml_octet_string_generate_uuid", "sml/src/sml_message.c:sml_message_body_init", "sml/src/sml_list.c:sml_list_add"]}
{"id": "C77", "title": "Building, sending and freeing a file from the C source leaves no trace but the frame", "statement": "For all messages the format can represent whose frame fits into 512 bytes: a client that builds the file with the constructors, calls sml_transport_write and then sml_file_free, all from the C source, never gets to an undefined step; write is called once, with exactly the frame of these messages; afterwards every block that was made is gone and all other memory is as before. A second program that reads these bytes, in any pieces and after harmless noise, with the C sources of sml_transport_read and sml_file_parse gets a file of exactly these messages with their checksums.", "quantifier": "all memories of both programs, all lists of messages that fit, all random bytes, all schedules of delivery, all noise", "why_tests_cant": "It is about absence of leaks, of damage to other memory and of undefined steps for every message that can be built.", "anchors": ["sml/src/sml_file.c:sml_file_init", "sml/src/sml_transport.c:sml_transport_write", "sml/src/sml_file.c:sml_file_free", "sml/src/sml_transport.c:sml_transport_read", "sml/src/sml_file.c:sml_file_parse"]}
{"id": "C78", "title": "The C source of the string functions compares, converts and renders exactly", "statement": "Run from their C source, in every memory: sml_octet_string_cmp returns 0 exactly for equal strings, and a negative number exactly if the lengths differ or the first is lexicographically less; sml_octet_string_init_from_hex makes a new string of exactly the bytes a hexadecimal text (upper, lower or mixed case) denotes; sml_octet_string_cmp_with_hex compares with these bytes and frees what it made; sml_value_to_strhex writes the rendering of the string and a 0 into a new array and nothing outside of it. Nothing else is changed. (Not defined for all texts: with a text of odd length sml_octet_string_init_from_hex returns NULL and the comparison reads through it; the empty text makes an array without elements.)", "quantifier": "all memories, all strings, all texts", "why_tests_cant": "Tests have a handful of strings; the order, the denotation and the bound of the array are statements about all of them, and the faults are single inputs.", "anchors": ["sml/src/sml_octet_string.c:sml_octet_string_cmp", "sml/src/sml_octet_string.c:sml_octet_string_init_from_hex", "sml/src/sml_octet_string.c:sml_octet_string_cmp_with_hex", "sml/src/sml_value.c:sml_value_to_strhex"]}
{"id": "C79", "title": "The C source of the functions the example program prints with is right for every input", "statement": "Run from their C source: dlms_get_unit returns the unit of the standard for each of the 256 codes and NULL for the others; sml_value_to_double returns the nearest double for every number of every type that is in memory; after sml_file_parse of any buffer it reads (C85), in particular any of at most 294912 bytes, sml_file_print prints the number of messages, the number of bytes used and the tags of the bodies, and changes nothing else, exactly if all messages have a body (otherwise it reads through NULL).", "quantifier": "all codes, all numbers, all memories, all buffers", "why_tests_cant": "The double is claimed to be nearest for all 2^64 numbers of each type, and the run is compared with the whole memory for every buffer.", "anchors": ["examples/unit.h:dlms_get_unit", "sml/src/sml_value.c:sml_value_to_double", "sml/src/sml_file.c:sml_file_print"]}
{"id": "C80", "title": "The C source of the example program prints the readings of a meter", "statement": "The loop of sml_server, sml_transport_listen(fd, &transport_receiver), run from its C source in every memory, on every stream and every schedule of select and read, with every combination of -s and -v: if no length field of the frames overflows an int (no seven bytes in a row with their top bit set, or a sequence of fields that is read to its end, C89) and the telegrams looked at are manageable (C50), it never gets to an undefined step. With -s it calls exit(0) as soon as a telegram with a list response was printed; otherwise it returns at the end of the stream, all blocks and local objects that were there are unchanged and none is new unless the DZG workaround lost one. The text on standard output is exactly the readings of these telegrams (C53). The condition is exact: if one of the telegrams looked at is not manageable, the run of the source follows a NULL pointer or reads behind the end of a block. If the stream is made of telegrams of this library in its frames, or of telegrams of any conforming sender, with harmless bytes between them, then without any condition on their bytes these are the readings that were sent, nothing overflows and every block is freed.", "quantifier": "all memories, all streams, all schedules, all flags, all messages", "why_tests_cant": "A test runs the program on a recorded stream and looks at the text; here the C text is run on all streams, cut into pieces in all ways, and the whole memory is followed.", "anchors": ["examples/sml_server.c:transport_receiver", "sml/src/sml_transport.c:sml_transport_listen", "sml/src/sml_file.c:sml_file_print", "sml/src/sml_value.c:sml_value_to_double", "sml/src/sml_value.c:sml_value_to_strhex"]}
{"id": "C81", "title": "The C source of main of the example program: from the command line to the exit status", "statement": "main of sml_server, run from its C source with every command line, every machine (what open finds under a name, terminal settings, modem lines, what comes over the wire and in which pieces) and every memory at the start. A command line that asks for help prints the help text and ends with status 0; one with a letter that is not known, with a number of operands other than one, or with a device that cannot be opened ends with status 1 and its text; every command line is of exactly one of these kinds or is one for listening. When listening, the program prints what the model of C55 prints and ends with status 0, through exit with -s and a list response, otherwise by returning at the end of the stream with the device closed and all blocks as they were, unless a telegram is not manageable (C50): then it gets to an undefined step. The serial line gets the settings and modem lines of C56. Over a line with any settings before, with harmless disturbances between the telegrams, the readings that were sent are printed and every block is freed; the same holds on every source for the telegrams of any conforming sender. A device that is a file and not a serial line makes serial_port_open read a variable that was not written.", "quantifier": "all command lines, all machines, all memories, all streams, all schedules", "why_tests_cant": "A test calls the program with a few command lines on one machine with a recorded stream; here the C text of main is run for all of them, down to the last statement.", "anchors": ["examples/sml_server.c:main", "examples/sml_server.c:serial_port_open", "examples/sml_server.c:transport_receiver", "sml/src/sml_transport.c:sml_transport_listen"]}
{"id": "C82", "title": "When memory runs out: which requests matter, and what the C source then does", "statement": "With any table of which requests to malloc and realloc are met and which are refused, the C source is run: (1) every call of every function that succeeds with enough memory returns the same value and leaves the same memory whenever the requests it makes are met, whatever the table says about others; (2) 172 of the 187 functions (all but sml_number_init, sml_value_to_strhex, sml_message_body_init, the functions that write through them, and the loops above) do not survive a single refusal: if one of the requests they make is refused they write through NULL, so such a call succeeds exactly if all its requests are met; (3) for every buffer of at most 294912 bytes, and for every longer one up to INT_MAX bytes with at most 32767 messages, sml_file_parse makes a number of requests, at least one for each block of the result; if all are met it returns the file, if one is refused it writes through NULL; with its first request refused it does so at once whatever it is given; sml_file_free then needs no memory; (4) sml_number_init returns NULL when refused and changes nothing.", "quantifier": "all functions, arguments and memories, all tables of refusals, all buffers", "why_tests_cant": "Fault injection fails one allocation of one run at a time; here every pattern of refusals is covered for every call of every function.", "anchors": ["sml/src/sml_file.c:sml_file_parse", "sml/src/sml_list.c:sml_list_parse", "sml/src/sml_octet_string.c:sml_octet_string_init", "sml/src/sml_number.c:sml_number_init", "sml/src/sml_file.c:sml_file_free"]}
{"id": "C83", "title": "Writing a file when memory runs out: the sender notices nothing, the receiver gets only the messages before the first refusal", "statement": "sml_file_write, run from its C source with any table of which requests for memory are met and which are refused, on any file of messages the format can represent whose bytes fit into the buffer, never gets to an undefined step: it makes one request for each message, for the checksum; where it is met the message is written as the standard says, where it is refused the message is written with a value that is left out (0x01) in place of the checksum, and msg->crc is NULL. The error flag does not change, so the sender cannot tell. A receiver with enough memory who calls sml_file_parse on these bytes gets exactly the messages in front of the first one without a checksum, and the error flag of the buffer is set exactly if there is such a message. With no memory at all every message is sent and none arrives.", "quantifier": "all files, all tables of refusals, all memories", "why_tests_cant": "Each of the 2^n patterns of refusals for n messages gives another text; the claim covers all of them, for all messages, and both sides.", "anchors": ["sml/src/sml_message.c:sml_message_write", "sml/src/sml_file.c:sml_file_write", "sml/src/sml_number.c:sml_number_init", "sml/src/sml_number.c:sml_number_write", "sml/src/sml_file.c:sml_file_parse"]}
{"id": "C84", "title": "The C source of the writer leaves the buffer exactly when the buffer is too short", "statement": "Nothing in the writer looks at the length of the buffer (false of the code: 'writing is memory safe'). For each of the 34 write functions and for sml_number_write and sml_sequence_write, whenever the model of the function writes outside of the buffer, running its C source gets to a step that reads or writes a byte outside of the array. For a file of messages the format can represent, sml_file_write run from its source returns if and only if the encoded messages fit into the rest of the buffer, and leaves the array if and only if they do not; sml_transport_write the same with the frame (start sequence, messages, padding, end sequence and checksum). A file made with sml_file_init and the other constructors has a buffer of 512 bytes, so a client whose messages take more than 512 bytes writes outside of a heap block.", "quantifier": "all messages, files, buffers and positions, all memories with fewer than 2^31 blocks, encoded lengths up to 2^31-1", "why_tests_cant": "The condition is an equivalence over all messages and all lengths of the buffer. A test past the end is undefined behaviour and shows nothing by itself.", "anchors": ["sml/src/sml_file.c:sml_file_write", "sml/src/sml_file.c:sml_file_init", "sml/src/sml_transport.c:sml_transport_write", "sml/src/sml_message.c:sml_message_write", "sml/src/sml_shared.c:sml_buf_set_type_and_length", "sml/src/sml_octet_string.c:sml_octet_string_write", "sml/src/sml_number.c:sml_number_write"]}
{"id": "C85", "title": "The C source of the parser on telegrams of any length: safe exactly up to 32767 messages", "statement": "Every buffer has exactly one reading as a list of messages by the grammar. sml_file_parse run from its C source on a buffer of up to 2^31-1 bytes returns if and only if the reading has at most 32767 messages (false of the code: 'parsing never gets to an undefined step'). Then memory holds exactly these messages, sml_file_free frees them, the blocks and local objects of the caller are untouched and every other block is gone, unless the bytes contain the start of a DZG serial number; a signed computation overflows only if seven consecutive bytes have their top bit set. With one message more the counter of messages, a short, becomes negative and sml_file_add_message stores the message in front of its array; this happens with messages that conform to the standard.", "quantifier": "all buffers of up to 2^31-1 bytes, all memories", "why_tests_cant": "The bound separates two infinite classes of telegrams; the smallest one that breaks the parser has more than 290 kilobytes, which no test or fuzzer with the usual limits builds.", "anchors": ["sml/src/sml_file.c:sml_file_parse", "sml/src/sml_file.c:sml_file_add_message", "sml/src/sml_file.c:sml_file_free", "sml/include/sml/sml_file.h:sml_file"]}
{"id": "C86", "title": "The fuzz target: everything that it can find", "statement": "LLVMFuzzerTestOneInput run from its C source on any input of up to 2^31+7 bytes: it parses the input without its first eight bytes, or all of it if it has at most eight. If this part reads as at most 32767 messages it returns 0, no step is undefined, the blocks of the caller stay as they are, it leaks only if the input contains the start of a DZG serial number, and a signed computation overflows only if the input contains seven consecutive bytes with their top bit set. If it reads as more messages the run gets to an undefined step. So it returns 0 on every input of at most 294920 bytes, and whether it returns does not depend on the eight bytes in front.", "quantifier": "all inputs of up to 2^31+7 bytes, all memories", "why_tests_cant": "A fuzzer samples inputs and stops; this says for every input whether it is a finding and of which kind.", "anchors": ["test/src/fuzzer.c:LLVMFuzzerTestOneInput", "sml/src/sml_file.c:sml_file_parse", "sml/src/sml_file.c:sml_file_free"]}
{"id": "C87", "title": "A received file cannot be sent: its buffer has just the length of the telegram", "statement": "sml_file_parse gives the file a buffer of the length of the telegram and leaves the cursor where it stopped, and sml_file_write and sml_transport_write write into this buffer (false of the code: 'a parsed file can be written'). For every telegram whose messages can be represented, run from the C source: sml_file_write on the parsed file returns if and only if the encoded messages fit behind the position at which the parser stopped, and sml_transport_write if and only if the frame is not longer than the telegram was; otherwise they write outside of the buffer. A telegram in the form in which the library itself writes is always a case of the latter. With the buffer replaced by a longer one (sml_buffer_free, sml_buffer_init) a gateway that receives a frame with sml_transport_read and sml_file_parse sends the identical frame.", "quantifier": "all telegrams of up to 10^9 bytes and all messages that encode into as many, all memories, devices and lengths of the new buffer", "why_tests_cant": "The equivalence is over all telegrams, and a run past the end of the buffer is undefined behaviour that shows nothing by itself; that the frame comes out identical is for all messages.", "anchors": ["sml/src/sml_file.c:sml_file_parse", "sml/src/sml_file.c:sml_file_write", "sml/src/sml_transport.c:sml_transport_write", "sml/src/sml_transport.c:sml_transport_read", "sml/src/sml_shared.c:sml_buffer_init", "sml/src/sml_shared.c:sml_buffer_free"]}
{"id": "C88", "title": "Exactly how many blocks are lost to the DZG workaround, and that the loss adds up", "statement": "Parsing a telegram and freeing the file gives all memory back only if no measured value is a string under the label of a number (false of the code: 'sml_file_free releases all that sml_file_parse allocated'). Run from the C source, for every telegram of up to INT_MAX bytes with at most 32767 messages: the blocks of the caller are unchanged, and the new blocks that stay allocated after sml_file_free are at least as many as there are list entries, in the messages of the file, whose value is a string of at least one byte and is not labelled as one. If the telegram is read to its end they are exactly as many as such entries in the messages kept and in the messages dropped for a wrong checksum, so that nothing is lost if and only if there is none. A program that reads the same telegram k times and frees each file loses exactly k times as many blocks.", "quantifier": "all telegrams of up to INT_MAX bytes with at most 32767 messages, all memories, all numbers of readings", "why_tests_cant": "The count is an equation between the messages and the blocks left over for all telegrams, kept or dropped; a leak checker counts the blocks of the runs it sees.", "anchors": ["sml/src/sml_value.c:sml_value_free", "sml/src/sml_list.c:sml_list_parse", "sml/src/sml_file.c:sml_file_parse", "sml/src/sml_file.c:sml_file_free", "sml/src/sml_message.c:sml_message_parse"]}
{"id": "C89", "title": "Conforming telegrams never make the parser overflow a signed integer, whatever bytes their strings hold", "statement": "Run from the C source. sml_buf_get_next_length on a complete header, anywhere in a buffer of up to INT_MAX bytes, moves the cursor behind it, and a signed computation overflows if and only if the header announces 2^31 or more. A telegram that is a sequence of list headers, fields with the bytes they announce (less than 2^31) and end marks, and that is read to its end with at most 32767 messages, is parsed and freed without any overflow. Every telegram of a conforming sender is of this kind: it is delivered, nothing overflows, nothing is lost, and any number of readings leave the memory of the program as it was. The same holds of the fuzz target on such a telegram behind eight bytes.", "quantifier": "all headers and buffers of up to INT_MAX bytes; all conforming telegrams of up to INT_MAX bytes and 32767 messages, any bytes in strings, all numbers of readings", "why_tests_cant": "Whether content is ever taken for a header depends on every field before it; the claim is about all telegrams, of which a sanitizer sees those that are fed to it.", "anchors": ["sml/src/sml_shared.c:sml_buf_get_next_length", "sml/src/sml_file.c:sml_file_parse", "sml/src/sml_message.c:sml_message_parse", "sml/src/sml_tree.c:sml_tree_parse", "test/src/fuzzer.c:LLVMFuzzerTestOneInput"]}
{"id": "C90", "title": "How much memory the example program loses while it listens", "statement": "sml_server frees each telegram after printing it, but its memory is not bounded (false of the code: 'the program holds no more blocks after many telegrams than at the start'). main run from its C source, for every command line for listening, machine, stream and schedule, if the telegrams can be handled (C50, C80) and no list response ends the program: when it returns, the blocks of the start are unchanged and the new blocks that are still allocated are at least as many as there are list entries, in the messages of all telegrams heard, whose value is a string of at least one byte that is not labelled as a string. If the telegrams are read to their ends they are exactly as many as such entries in the messages kept and dropped. So a meter that sends one such value with every telegram costs one block per telegram, without bound, and a meter that conforms to the standard costs none.", "quantifier": "all command lines, all machines, all memories, all streams, all schedules, any number of telegrams", "why_tests_cant": "A test runs for a short time on a recorded stream; one lost block per telegram is only noticed after days, and only with a meter of this kind.", "anchors": ["examples/sml_server.c:main", "examples/sml_server.c:transport_receiver", "sml/src/sml_value.c:sml_value_free", "sml/src/sml_list.c:sml_list_parse", "sml/src/sml_transport.c:sml_transport_listen"]}
{"id": "C91", "title": "What the memory of the C program holds is unambiguous", "statement": "The relation by which all theorems about the C source say that memory holds a file of these messages (blocks with members laid out as in C) is unambiguous: if one memory holds two lists of messages, of the kind the format can represent, at the same address, the two lists are equal, and so are the buffers that belong to them. Messages with the same bytes on the line are equal but for the checksums they came with. Without the condition on the messages this fails: memory does not tell a boolean from a number of one byte.", "quantifier": "all memories, all pairs of lists of up to 32767 messages whose encodings have up to INT_MAX bytes", "why_tests_cant": "A test compares one structure with one expectation; that no memory can be read in two ways is a statement about all memories and all pairs of values.", "anchors": ["sml/src/sml_file.c:sml_file_write", "sml/include/sml/sml_message.h:sml_message", "sml/include/sml/sml_file.h:sml_file"]}
{"id": "C92", "title": "Streams of telegrams, from the source of the parser", "statement": "For the C source of sml_file_parse run in any memory: every sequence of up to INT_MAX bytes is read as one list of messages with one error flag (delivered in a file if there are at most 32767, memory is corrupted with more). The messages of the beginning of a stream are the first messages of the stream. Behind bytes that are read without error, other bytes are read as if they were alone; so a stream of any number of such telegrams is read as all their messages. Zero bytes in front, between and behind change nothing. A message that is dropped takes nothing else with it.", "quantifier": "all byte sequences of up to INT_MAX bytes, all ways to cut them, all memories and places they are in", "why_tests_cant": "Tests join a few recorded telegrams; that parsing respects concatenation is a statement about all pairs of byte sequences.", "anchors": ["sml/src/sml_file.c:sml_file_parse", "sml/src/sml_message.c:sml_message_parse", "sml/src/sml_file.c:sml_file_add_message"]}
{"id": "C93", "title": "Flipped bits, from the source of the parser: a message hit an odd number of times is dropped alone, two hits can forge a reading", "statement": "A message written in the standard form and followed by a 16-bit checksum is delivered by the source of sml_file_parse exactly when that checksum is the X-25 checksum in transmission order or the KERMIT checksum of the message, and dropped otherwise without an error. Hence, when some messages of a telegram arrive with an odd number of flipped bits that leave their structure intact, exactly the messages that were not hit are delivered, in order. A message with its right checksum whose other bytes were hit by a burst of at most 16 bits, or by two flipped bits less than 32767 bits apart, is dropped unless that checksum is the KERMIT checksum of what has arrived. This does happen: a message with a counter of 1234.5 Wh and its right checksum is delivered as 112645.7 Wh, without an error, after two bits of one byte were flipped, because both kinds of checksum are accepted.", "quantifier": "All lists of representable messages, all patterns of hits that change each hit message in an odd number of bits into another representable message, all 16-bit checksums that arrive, all contents of the rest of the memory, telegrams up to INT_MAX bytes. The limit is an existence statement with a concrete pair of messages.", "why_tests_cant": "The number of messages, of error patterns and of checksums is beyond enumeration, and a test of single flipped bits says nothing about all odd patterns in all messages. The forged reading is one of few among all pairs of flipped bits.", "anchors": ["sml/src/sml_message.c:sml_message_parse", "sml/src/sml_crc16.c:sml_crc16_calculate", "sml/src/sml_crc16.c:sml_crc16kermit_calculate", "sml/src/sml_file.c:sml_file_parse"]}
{"id": "C94", "title": "The example program on a line that flips bits: what is printed, and a forged reading", "statement": "Frames arrive that hold messages in the standard form with any 16-bit checksums and end in any three bytes. The loop of the example program, run from its source, prints exactly what belongs to the messages whose own checksum is right (X-25 or KERMIT), and loses no memory; the checksum of the frame has no influence. Hence with an odd number of flipped bits per hit message, exactly the readings that were not hit are printed. The limit is two: the frame of a meter with 1234.5 Wh, two bits of which were flipped, makes the program print 112645.7 Wh, although the checksum of the frame shows the error.", "quantifier": "All numbers of frames and messages, all noise between frames that is harmless in the sense of C37, all ways select and read deliver the bytes without a failing read, all hits that leave the structure of a message intact, all ends of frames, all flags of the program. The limit is an existence statement.", "why_tests_cant": "Error patterns, streams and schedules are unbounded; the forged reading is one of few among all pairs of flipped bits of a telegram.", "anchors": ["sml/src/sml_transport.c:sml_transport_read", "sml/src/sml_message.c:sml_message_parse", "examples/sml_server.c:transport_receiver"]}
{"id": "C95", "title": "What accepting the KERMIT checksum costs: one forged filling for every two bytes", "statement": "A message is sent with its checksum, and two neighbouring bytes of its contents may change freely without changing its structure. Of the 65536 fillings of these bytes, the source of sml_file_parse delivers exactly the right one and the one that makes the KERMIT checksum equal to the checksum sent; all others are dropped. Without the second kind of checksum only the right one would pass. In particular every counter of a reading has exactly one wrong value of its lower 16 bits that is delivered (unless the two checksums of the reading agree): for 1234.5 Wh it is 1439.2 Wh.", "quantifier": "All messages, all positions of the two bytes, all values of them; for counters all 64-bit values.", "why_tests_cant": "65536 fillings at each position of every message; the one that passes is never met by chance.", "anchors": ["sml/src/sml_message.c:sml_message_parse", "sml/src/sml_crc16.c:sml_crc16_calculate", "sml/src/sml_crc16.c:sml_crc16kermit_calculate"]}
