{
 "claims": [
  {
   "property": "C01",
   "status": "proved",
   "theorems": [
    "Sml.c01_memory_safe",
    "Sml.c01_only_shorter",
    "Sml.c01_exact",
    "Sml.c01_long"
   ],
   "note": "All buffers up to 294912 bytes, and all up to INT_MAX bytes with at most 32767 messages (c01_exact: exactly those), given stack room for length/4+1 nested trees (C05)."
  },
  {
   "property": "C02",
   "status": "proved",
   "theorems": [
    "Sml.c02_terminates",
    "Sml.c02_progress",
    "Sml.c02_rounds"
   ],
   "note": "Buffers up to INT_MAX bytes; beyond that the int cursor of sml_message_parse is outside the model's defined range. Inner loops: announced counts beyond the bytes left make no difference."
  },
  {
   "property": "C03",
   "status": "proved",
   "theorems": [
    "Sml.c03_no_leak",
    "Sml.c03_relabel_leak",
    "Sml.c01_long"
   ],
   "note": "Block counts; the exception is exhibited by a concrete telegram."
  },
  {
   "property": "C04",
   "status": "proved",
   "theorems": [
    "Sml.c04_heap_linear",
    "Sml.c01_long"
   ],
   "note": "At most 2*length+4 blocks."
  },
  {
   "property": "C05",
   "status": "proved",
   "theorems": [
    "Sml.c05_bound",
    "Sml.c05_result",
    "Sml.c05_exact",
    "Sml.c05_unbounded"
   ],
   "note": "Upper bound for every buffer up to INT_MAX bytes, depth of the delivered trees, and an exact statement giving a telegram of 4n+24 bytes for every depth n."
  },
  {
   "property": "C06",
   "status": "proved",
   "theorems": [
    "Sml.c06_overflow_needs",
    "Sml.c06_overflow_happens",
    "Sml.c01_memory_safe",
    "Sml.c01_long"
   ],
   "note": "Necessity of seven high bytes, existence of an overflowing input, and safety of all inputs under wrapping arithmetic."
  },
  {
   "property": "C07",
   "status": "proved",
   "theorems": [
    "Sml.c07_counter_fits",
    "Sml.c07_counter_overflow"
   ],
   "note": "Buffers up to 294912 bytes never count past 32767; a buffer of 294913 bytes overflows the counter (undefined behaviour)."
  },
  {
   "property": "C08",
   "status": "proved",
   "theorems": [
    "Sml.c08_error_null",
    "Sml.c08_sticky",
    "Sml.c08_prefix"
   ],
   "note": "c08_prefix relates the loop to the independent relation Spec.Run."
  },
  {
   "property": "C09",
   "status": "proved",
   "theorems": [
    "Sml.c09_checked"
   ],
   "note": "Every defined run on up to INT_MAX bytes."
  },
  {
   "property": "C10",
   "status": "proved",
   "theorems": [
    "Sml.c10_dropped_alone",
    "Sml.c10_only_checksum"
   ],
   "note": "A dropped message is a block failing the test; everything before and after it is delivered."
  },
  {
   "property": "C11",
   "status": "proved",
   "theorems": [
    "Sml.c11_before",
    "Sml.c11_between",
    "Sml.c11_after"
   ],
   "note": "Padding before any buffer; between and after parts read without error."
  },
  {
   "property": "C12",
   "status": "proved",
   "theorems": [
    "Sml.c12_message",
    "Sml.c12_stream",
    "Sml.concat_messages"
   ],
   "note": ""
  },
  {
   "property": "C13",
   "status": "proved",
   "theorems": [
    "Sml.c13_null_body",
    "Sml.c13_body",
    "Sml.c13_exact"
   ],
   "note": "False for the code: witness c13_null_body (omitted tag, right checksum). Exact condition: c13_exact, the body is NULL if and only if the byte 0x01 stands in the place of the tag; otherwise body and tag are there (also c13_body for whole telegrams)."
  },
  {
   "property": "C14",
   "status": "proved",
   "theorems": [
    "Sml.c14_body_kind",
    "Sml.c14_unknown_not_skipped"
   ],
   "note": "Kind of data for every delivered message and all 32-bit tags."
  },
  {
   "property": "C15",
   "status": "proved",
   "theorems": [
    "Sml.c14_body_kind",
    "Sml.c15_list_values",
    "Sml.valueToDouble_defined"
   ],
   "note": "Values in trees, profiles and lists; relabelled power values are described exactly."
  },
  {
   "property": "C16",
   "status": "proved",
   "theorems": [
    "Sml.c16_crc16",
    "Sml.c16_kermit"
   ],
   "note": ""
  },
  {
   "property": "C17",
   "status": "proved",
   "theorems": [
    "Sml.c17_odd_errors",
    "Sml.c17_acceptance"
   ],
   "note": "Stated for the acceptance predicate Spec.Passes, which c17_acceptance ties to the two checksum functions."
  },
  {
   "property": "C18",
   "status": "proved",
   "theorems": [
    "Sml.c18_bursts",
    "Sml.c18_pairs",
    "Sml.c18_limit",
    "Sml.c18_combined_false"
   ],
   "note": "The second half of the property is the proved negation."
  },
  {
   "property": "C19",
   "status": "proved",
   "theorems": [
    "Sml.c19_header",
    "Sml.c19_cut",
    "Sml.c19_cases"
   ],
   "note": "All headers with value below 2^31 (more than the property asks)."
  },
  {
   "property": "C20",
   "status": "proved",
   "theorems": [
    "Sml.c20_header_round_trip",
    "Sml.c20_long_lists",
    "Sml.c20_false"
   ],
   "note": "The property as first meant is false; c20_header_round_trip gives the exact condition (iff), c20_false and c20_long_lists the counterexamples."
  },
  {
   "property": "C21",
   "status": "proved",
   "theorems": [
    "Sml.c21_unsigned",
    "Sml.c21_signed",
    "Sml.c21_byte_order"
   ],
   "note": ""
  },
  {
   "property": "C22",
   "status": "proved",
   "theorems": [
    "Sml.c22_init",
    "Sml.c22_round_trip",
    "Sml.c22_unsigned_value",
    "Sml.c22_signed_value"
   ],
   "note": ""
  },
  {
   "property": "C23",
   "status": "proved",
   "theorems": [
    "Sml.c23_own_bytes",
    "Sml.c23_zero_length",
    "Sml.c23_false"
   ],
   "note": "Holds for fields of at least one byte (c23_own_bytes); the exception named in the statement is exhibited by c23_zero_length and c23_false."
  },
  {
   "property": "C24",
   "status": "proved",
   "theorems": [
    "Sml.c24_absent_read",
    "Sml.c24_absent_written"
   ],
   "note": ""
  },
  {
   "property": "C25",
   "status": "proved",
   "theorems": [
    "Sml.c25_string",
    "Sml.c25_boolean",
    "Sml.c25_boolean_any",
    "Sml.c25_value",
    "Sml.c25_status",
    "Sml.c25_time",
    "Sml.c25_empty_string",
    "Sml.c25_time_without_timestamp"
   ],
   "note": ""
  },
  {
   "property": "C26",
   "status": "proved",
   "theorems": [
    "Sml.c26_list",
    "Sml.c26_long_lists"
   ],
   "note": "c26_list covers lists the DZG workaround leaves alone (ListOk); c26_long_lists is the negative half for 16 or more entries."
  },
  {
   "property": "C27",
   "status": "proved",
   "theorems": [
    "Sml.c27_tree",
    "Sml.c27_path",
    "Sml.c27_tupel"
   ],
   "note": "c27_tupel: trees with a tuple entry anywhere never read back."
  },
  {
   "property": "C28",
   "status": "proved",
   "theorems": [
    "Sml.c28_message_body"
   ],
   "note": "MessageBodyOk enumerates the fourteen kinds; requests with a non-empty object list are excluded, see C30."
  },
  {
   "property": "C29",
   "status": "proved",
   "theorems": [
    "Sml.c29_file"
   ],
   "note": ""
  },
  {
   "property": "C30",
   "status": "proved",
   "theorems": [
    "Sml.c30_last_left_out",
    "Sml.c30_never_encoded"
   ],
   "note": "False for the code: the theorems give exactly what is written for every non-empty object list and that it is never the encoding."
  },
  {
   "property": "C31",
   "status": "proved",
   "theorems": [
    "Sml.c31_message",
    "Sml.c31_file",
    "Sml.c31_fresh"
   ],
   "note": ""
  },
  {
   "property": "C32",
   "status": "proved",
   "theorems": [
    "Sml.c32_exact",
    "Sml.c32_false",
    "Sml.c32_zeroed_and_again"
   ],
   "note": "The unconditional claim is false (c32_false); c32_exact is the exact condition and c32_zeroed_and_again the two positive cases of the statement."
  },
  {
   "property": "C33",
   "status": "proved",
   "theorems": [
    "Sml.c33_message",
    "Sml.c33_file"
   ],
   "note": ""
  },
  {
   "property": "C34",
   "status": "proved",
   "theorems": [
    "Sml.c34_message",
    "Sml.c34_rewrites",
    "Sml.c34_leak"
   ],
   "note": ""
  },
  {
   "property": "C35",
   "status": "proved",
   "theorems": [
    "Sml.c35_frame"
   ],
   "note": "For all streams, all schedules of reads (also failing ones) and all buffer sizes from 1 to 2^32-9; sizes from 2^32-8 on make the unsigned counter wrap and are outside the model."
  },
  {
   "property": "C36",
   "status": "proved",
   "theorems": [
    "Sml.c36_chunks"
   ],
   "note": "Schedules without failing reads."
  },
  {
   "property": "C37",
   "status": "proved",
   "theorems": [
    "Sml.c37_exact",
    "Sml.c37_missed",
    "Sml.c37_last_byte",
    "Sml.c37_false"
   ],
   "note": "The property is false as stated; the negation is proved with a witness, and the exact condition as an equivalence."
  },
  {
   "property": "C38",
   "status": "proved",
   "theorems": [
    "Sml.c38_frames",
    "Sml.c38_stops",
    "Sml.c38_any"
   ],
   "note": "Also: whatever arrives, listening ends and delivers only frames of the stream."
  },
  {
   "property": "C39",
   "status": "proved",
   "theorems": [
    "Sml.c39_shape",
    "Sml.c39_encoding",
    "Sml.c39_length",
    "Sml.c39_result"
   ],
   "note": "Over arbitrary old contents of the buffer the file part is what sml_file_write writes there; over zeroed memory it is the encoding. Overrun exactly if the frame is longer than the buffer."
  },
  {
   "property": "C40",
   "status": "proved",
   "theorems": [
    "Sml.c40_end_to_end"
   ],
   "note": "Messages that can be represented (MessageOk), memory with no stale bits, any harmless noise before and anything after the frame."
  },
  {
   "property": "C41",
   "status": "proved",
   "theorems": [
    "Sml.c41_lost",
    "Sml.c41_exact",
    "Sml.c41_false"
   ],
   "note": "The property is false as stated; the negation is proved for every payload with an aligned escape sequence, with a concrete file as witness, and reception is characterised by an equivalence."
  },
  {
   "property": "C42",
   "status": "proved",
   "theorems": [
    "Sml.c42_equal",
    "Sml.c42_sign"
   ],
   "note": "The comparison is 0 exactly for equal strings; same length: sign of the lexicographic order; different length: -1 both ways."
  },
  {
   "property": "C43",
   "status": "proved",
   "theorems": [
    "Sml.c43_init",
    "Sml.c43_text",
    "Sml.c43_compare",
    "Sml.c43_bad"
   ],
   "note": "Texts up to INT_MAX characters. The empty text makes a variable length array of no elements, which is undefined."
  },
  {
   "property": "C44",
   "status": "proved",
   "theorems": [
    "Sml.c44_rendering",
    "Sml.c44_injective",
    "Sml.c44_null"
   ],
   "note": "Strings whose rendering fits an int (3n+1 <= INT_MAX); an empty string gives NULL."
  },
  {
   "property": "C45",
   "status": "proved",
   "theorems": [
    "Sml.c45_nearest",
    "Sml.c45_exact",
    "Sml.c45_other"
   ],
   "note": "Conversions are taken to round to nearest, ties to even (IEEE 754); NearestDouble is stated over all numbers m*2^e with m of 53 bits, e of either sign."
  },
  {
   "property": "C46",
   "status": "proved",
   "theorems": [
    "Sml.c46_list",
    "Sml.c46_number"
   ],
   "note": "Exact effect of the workaround on a list; a string or boolean in the affected position is mislabelled as type 0x60 (see C15)."
  },
  {
   "property": "C47",
   "status": "proved",
   "theorems": [
    "Sml.c47_uuid"
   ],
   "note": "The 16 random bytes are a parameter."
  },
  {
   "property": "C48",
   "status": "proved",
   "theorems": [
    "Sml.c48_lookup",
    "Sml.c48_unique",
    "Sml.c48_standard"
   ],
   "note": "For every natural number as code."
  },
  {
   "property": "C49",
   "status": "proved",
   "theorems": [
    "Sml.c49_sequence",
    "Sml.c49_path",
    "Sml.c49_tree",
    "Sml.c49_file",
    "Sml.c49_list"
   ],
   "note": "Files: up to 32767 messages, exactly; one more overflows the counter."
  },
  {
   "property": "C50",
   "status": "proved",
   "theorems": [
    "Sml.c50_exact",
    "Sml.c50_delivered",
    "Sml.c50_false",
    "Sml.c50_boolean"
   ],
   "note": "The claim as first stated is false; proved: the exact condition under which the receiver is defined, what it then prints, and witnesses for each way it crashes."
  },
  {
   "property": "C51",
   "status": "proved",
   "theorems": [
    "Sml.c51_telegram",
    "Sml.c51_message",
    "Sml.c51_body",
    "Sml.c51_list",
    "Sml.c51_tree",
    "Sml.c51_time",
    "Sml.c51_status",
    "Sml.c51_value",
    "Sml.c51_number",
    "Sml.c51_boolean",
    "Sml.c51_string",
    "Sml.c51_unambiguous",
    "Sml.c51_long"
   ],
   "note": "Both directions for every kind of object (grammar in Spec/Grammar.lean). Trees need a stack for their depth (length/4+1 is enough)."
  },
  {
   "property": "C52",
   "status": "proved",
   "theorems": [
    "Sml.c52_conditions",
    "Sml.c52_forward"
   ],
   "note": "The conditions are MessageFits in Spec/Forward; c52_conditions shows they are equivalent to the hypotheses of the round trip (C29) for everything the parser delivers. The output buffer must have room and hold no stale 1-bits in the extra length bytes (Covered, see C32)."
  },
  {
   "property": "C53",
   "status": "proved",
   "theorems": [
    "Sml.c53_text",
    "Sml.c53_entry",
    "Sml.c53_error",
    "Sml.c53_rounding",
    "Sml.c53_unique",
    "Sml.c53_inexact",
    "Sml.pow10_good"
   ],
   "note": "Exact text for readings within the stated bounds, for any pow of the stated precision (pow10_good: a correctly rounded pow qualifies); c53_inexact: beyond the bounds it is false; c53_error: how far it can be off for a reading of any size; c53_rounding: which roundings happen, for every pow."
  },
  {
   "property": "C54",
   "status": "proved",
   "theorems": [
    "Sml.c54_readable",
    "Sml.c54_rows"
   ],
   "note": "The dump is readable and has eight bytes per row."
  },
  {
   "property": "C55",
   "status": "proved",
   "theorems": [
    "Sml.c55_program",
    "Sml.c55_options",
    "Sml.c55_meter"
   ],
   "note": "Whole program: command line, stream, callback, printed text; exact condition for being defined."
  },
  {
   "property": "C56",
   "status": "proved",
   "theorems": [
    "Sml.c56_open",
    "Sml.c56_transparent_iff",
    "Sml.c56_opened_transparent",
    "Sml.c56_framing",
    "Sml.c56_disturbed",
    "Sml.c56_sent",
    "Sml.c56_rts",
    "Sml.c56_meter"
   ],
   "note": "Terminal interface of POSIX as specification. Exact condition for transparency; holds after opening iff CREAD was set before."
  },
  {
   "property": "C57",
   "status": "proved",
   "theorems": [
    "Sml.c57_identical",
    "Sml.c57_stable",
    "Sml.c57_padding"
   ],
   "note": "Follows from C29 and C52; the standard form is the image of the independent encoder."
  },
  {
   "property": "C58",
   "status": "proved",
   "theorems": [
    "Sml.c58_parse_free",
    "Sml.c58_result",
    "Sml.c58_lost",
    "Sml.c58_lost_real",
    "Sml.c58_double_free",
    "Sml.c58_long"
   ],
   "note": "Refinement of the model on values by a model on a heap with addresses; the exception (DZG re-labelling) is counted exactly and exhibited."
  },
  {
   "property": "C59",
   "status": "proved",
   "theorems": [
    "Sml.c59_write",
    "Sml.c59_lost",
    "Sml.c59_forward",
    "Sml.c59_transport"
   ],
   "note": "Refinement: the write functions on the addressed heap (Model/HeapWrite) do what the model on values does, whenever that one succeeds (C31, C39 say when)."
  },
  {
   "property": "C60",
   "status": "proved",
   "theorems": [
    "Sml.c60_receiver",
    "Sml.c60_program",
    "Sml.c60_exact",
    "Sml.c60_null"
   ],
   "note": "Exceptions (exit with -s, DZG marker) are part of the theorems; c60_null shows a telegram for which the program dereferences NULL."
  },
  {
   "property": "C61",
   "status": "proved",
   "theorems": [
    "Sml.c61_understood",
    "Sml.c61_understood_long",
    "Sml.c61_unambiguous",
    "Sml.c61_meter",
    "Sml.c61_limits"
   ],
   "note": "Proved for every encoding described in Spec/Standard, which is written for the sender and does not refer to the parser or to the grammar of C51. c61_limits are witnesses for the two limits. c61_understood_long has no other bound on the telegram than INT_MAX bytes."
  },
  {
   "property": "C62",
   "status": "proved",
   "theorems": [
    "Sml.c62_built",
    "Sml.c62_free",
    "Sml.c62_send",
    "Sml.c62_received",
    "Sml.c62_lost",
    "Sml.c62_list_add"
   ],
   "note": "Client code in Spec/Client, constructors on the addressed heap in Model/HeapBuild. Sending needs a frame of at most 512 bytes (the buffer of sml_file_init, C39)."
  },
  {
   "property": "C63",
   "status": "proved",
   "theorems": [
    "Sml.c63_descriptors",
    "Sml.c63_exhausted",
    "Sml.c63_same",
    "Sml.c63_rand"
   ],
   "note": "False of the code; proved are the negation and the exact conditions. Model of descriptors in Model/Ids."
  },
  {
   "property": "C64",
   "status": "proved",
   "theorems": [
    "Sml.c64_waiting",
    "Sml.c64_listen",
    "Sml.c64_limit",
    "Sml.c64_leaked"
   ],
   "note": "Model/Select follows the code with select; false of the code for descriptors from 1024 on, exact condition proved."
  },
  {
   "property": "C65",
   "status": "proved",
   "theorems": [
    "Sml.C.c65_fuel",
    "Sml.C.c65_only",
    "Sml.C.c65_deterministic"
   ],
   "note": "About the interpreter in Source/Lang and the whole translated program."
  },
  {
   "property": "C66",
   "status": "proved",
   "theorems": [
    "Sml.C.c66_parse",
    "Sml.C.c66_number",
    "Sml.C.c66_sequence"
   ],
   "note": "Refinement of the models on the heap by the translated source. sml_sequence_parse, with its function pointers, is part of the functions that use it."
  },
  {
   "property": "C67",
   "status": "proved",
   "theorems": [
    "Sml.C.c67_free"
   ],
   "note": "Refinement of the models on the heap by the translated source."
  },
  {
   "property": "C68",
   "status": "proved",
   "theorems": [
    "Sml.C.c68_parse_free",
    "Sml.C.c68_double_free",
    "Sml.C.c68_double_free_ok"
   ],
   "note": "About runs of the translated source; trusted are the translator tools/c2lean.py and the meaning given in Source/Lang. The hypotheses on the memory say that addresses from next on are unused."
  },
  {
   "property": "C69",
   "status": "proved",
   "theorems": [
    "Sml.C.c69_result",
    "Sml.C.c69_understood",
    "Sml.C.c69_result_ok"
   ],
   "note": "HoldsFile is the representation of C58 with blocks laid out as in C; c69_understood combines it with C61."
  },
  {
   "property": "C70",
   "status": "proved",
   "theorems": [
    "Sml.C.c70_write",
    "Sml.C.c70_number",
    "Sml.C.c70_sequence"
   ],
   "note": "Forward direction: results of the model are results of the C source. Where the model has an undefined outcome (a buffer that is too small, C31) nothing is said about the source."
  },
  {
   "property": "C71",
   "status": "proved",
   "theorems": [
    "Sml.C.c71_write",
    "Sml.C.c71_free",
    "Sml.C.c71_parsed",
    "Sml.C.c71_parsed_ok",
    "Sml.C.c71_bytes",
    "Sml.C.c71_roundtrip"
   ],
   "note": "Covered: old bytes of the buffer may not have bits the new ones lack (defect 3 in DESIGN.md, C32: header bytes are or-ed into the buffer); zeroed buffers and buffers with the same bytes are covered. c71_roundtrip has no other bound on the bytes than that of the buffer."
  },
  {
   "property": "C72",
   "status": "proved",
   "theorems": [
    "Sml.C.c72_write",
    "Sml.C.c72_frame"
   ],
   "note": "Premise: the result of write fits into ssize_t. Covered: as in C71 the old bytes of the buffer may not have bits the new ones lack."
  },
  {
   "property": "C73",
   "status": "proved",
   "theorems": [
    "Sml.C.c73_read",
    "Sml.C.c73_found",
    "Sml.C.c73_limit"
   ],
   "note": "False of the code for descriptors outside 0..1023 (defect in DESIGN.md); c73_limit proves the overrun from the source. Errs: errno after an interrupted read is EINTR or EAGAIN, after a failed one something else."
  },
  {
   "property": "C74",
   "status": "proved",
   "theorems": [
    "Sml.C.c74_listen",
    "Sml.C.c74_frames"
   ],
   "note": "The receiver is a function of the translated program; sml_hexdump is shown to be one (hexdump_receiver)."
  },
  {
   "property": "C75",
   "status": "proved",
   "theorems": [
    "Sml.C.c75_wire"
   ],
   "note": "NoEscape is necessary, see C41."
  },
  {
   "property": "C76",
   "status": "proved",
   "theorems": [
    "Sml.C.c76_built"
   ],
   "note": "The client (Spec/SourceClient) is a program on the C semantics that calls the translated functions; malloc succeeds."
  },
  {
   "property": "C77",
   "status": "proved",
   "theorems": [
    "Sml.C.c77_sent",
    "Sml.C.c77_received"
   ],
   "note": "Composition of the constructors, sml_transport_write, sml_file_free, sml_transport_read and sml_file_parse, all run from their source."
  },
  {
   "property": "C78",
   "status": "proved",
   "theorems": [
    "Sml.C.c78_fromHex",
    "Sml.C.c78_fromHex_bad",
    "Sml.C.c78_cmp",
    "Sml.C.c78_cmpHex",
    "Sml.C.c78_cmpHex_bad",
    "Sml.C.c78_strhex",
    "Sml.C.c78_strhex_null",
    "Sml.C.c78_noop"
   ],
   "note": "The exceptions (odd and empty texts) are proved to be undefined."
  },
  {
   "property": "C79",
   "status": "proved",
   "theorems": [
    "Sml.C.c79_unit",
    "Sml.C.c79_double",
    "Sml.C.c79_print",
    "Sml.C.c79_print_ok"
   ],
   "note": "The double of a value in memory is stated for values represented as the parser leaves them; sml_file_print exactly (NULL read otherwise)."
  },
  {
   "property": "C80",
   "status": "proved",
   "theorems": [
    "Sml.C.c80_receiver",
    "Sml.C.c80_listen",
    "Sml.C.c80_meter",
    "Sml.C.c80_standard"
   ],
   "note": "transport_receiver and the loop from the C text, exact: with an unmanageable telegram the run has an undefined step. The condition on overflow (Calm) concerns signed overflow in length fields, see C06 and C89; it is not needed for telegrams of this library (c80_meter) or of any conforming sender (c80_standard), for which nothing is lost either."
  },
  {
   "property": "C81",
   "status": "proved",
   "theorems": [
    "Sml.c81_options",
    "Sml.C.c81_serial",
    "Sml.C.c81_usage",
    "Sml.C.c81_main",
    "Sml.C.c81_meter",
    "Sml.C.c81_standard",
    "Sml.C.c81_standard_line"
   ],
   "note": "main and serial_port_open of the C text are run for every command line, machine, memory and stream; printed text and exit status are those of C55, also where the program ends in an undefined step. For telegrams of this library or of any conforming sender, also over a disturbed serial line, there is no condition on overflow, and the heap is as before."
  },
  {
   "property": "C82",
   "status": "proved",
   "theorems": [
    "Sml.C.c82_met",
    "Sml.C.c82_unmet",
    "Sml.C.c82_exact",
    "Sml.C.c82_parse",
    "Sml.C.c82_parse_long",
    "Sml.C.c82_nothing",
    "Sml.C.c82_number_init"
   ],
   "note": "The property says what happens, not that it is harmless: the negative part (writing through NULL) is a defect of the code, see DESIGN section 5, item 27."
  },
  {
   "property": "C83",
   "status": "proved",
   "theorems": [
    "Sml.C.c83_write",
    "Sml.C.c83_bytes",
    "Sml.C.c83_survives",
    "Sml.C.c83_receiver",
    "Sml.C.c83_nothing"
   ],
   "note": "Run from the C source under every table of refusals, for messages the format can represent that fit into the buffer. The sender does not notice; that is a defect, DESIGN section 5 item 28."
  },
  {
   "property": "C84",
   "status": "proved",
   "theorems": [
    "Sml.C.c84_write",
    "Sml.C.c84_number",
    "Sml.C.c84_sequence",
    "Sml.C.c84_file",
    "Sml.C.c84_transport",
    "Sml.C.c84_client"
   ],
   "note": "False of the code (there is no check of the length); what holds instead is the exact condition, proved of the source itself. Hypotheses: fewer than 2^31 heap blocks, encoded length at most 2^31-1."
  },
  {
   "property": "C85",
   "status": "proved",
   "theorems": [
    "Sml.C.c85_reading",
    "Sml.C.c85_parse",
    "Sml.C.c85_overflow",
    "Sml.C.c85_returns_iff",
    "Sml.C.c85_standard",
    "Sml.C.c85_result",
    "Sml.C.c85_double_free"
   ],
   "note": "False of the code as 'always safe': exact bound of 32767 messages, with a telegram of conforming messages beyond it."
  },
  {
   "property": "C86",
   "status": "proved",
   "theorems": [
    "Sml.C.c86_fuzz",
    "Sml.C.c86_crash",
    "Sml.C.c86_short",
    "Sml.C.c86_shift"
   ],
   "note": "Exact description of the inputs on which the fuzz target crashes, leaks or overflows; leaks and overflows as necessary conditions."
  },
  {
   "property": "C87",
   "status": "proved",
   "theorems": [
    "Sml.C.c87_exact",
    "Sml.C.c87_own_form",
    "Sml.C.c87_rebuffer",
    "Sml.C.c87_sent",
    "Sml.C.c87_gateway"
   ],
   "note": "False of the code; what holds instead is the exact condition, and that with another buffer the frame is sent unchanged. The two statements that replace the buffer are those of a caller, not of the library."
  },
  {
   "property": "C88",
   "status": "proved",
   "theorems": [
    "Sml.C.c88_lost",
    "Sml.C.c88_clean_iff",
    "Sml.C.c88_readings"
   ],
   "note": "The literal property (everything is given back) is false of the code; c88_clean_iff is the exact condition for telegrams that are read to their end, c88_lost the count, with a lower bound for the telegrams on which the parser stops with an error. c88_readings needs that no seven consecutive bytes have their top bit set, the case in which a signed computation of the parser may overflow (C85)."
  },
  {
   "property": "C89",
   "status": "proved",
   "theorems": [
    "Sml.C.c89_header",
    "Sml.C.c89_fields",
    "Sml.C.c89_standard",
    "Sml.C.c89_readings",
    "Sml.C.c89_fuzz"
   ],
   "note": "From the source. The overflow condition of a header is exact; a telegram with eight bytes FF in its transaction id, for which C06 and C85 promise nothing, is shown as a case."
  },
  {
   "property": "C90",
   "status": "proved",
   "theorems": [
    "Sml.C.c90_main",
    "Sml.C.c90_telegrams",
    "Sml.C.c81_standard"
   ],
   "note": "Counted from the C text of main on: lower bound for every stream (c90_main), exact for telegrams that are read to their end (c90_main, c90_telegrams), none for conforming senders (c81_standard). The example beside the theorems loses k blocks in k telegrams of a DZG meter. What a telegram loses that stops with an error is bounded below only."
  },
  {
   "property": "C91",
   "status": "proved",
   "theorems": [
    "Sml.C.c91_bytes",
    "Sml.C.c91_holding",
    "Sml.C.c91_unique"
   ],
   "note": "The proof runs the source of sml_file_write on both readings of the memory (C71): it writes the same bytes, and these have one meaning (C29)."
  },
  {
   "property": "C92",
   "status": "proved",
   "theorems": [
    "Sml.C.c92_total",
    "Sml.C.c92_flag",
    "Sml.C.c92_unique",
    "Sml.C.c92_prefix",
    "Sml.C.c92_concat",
    "Sml.C.c92_before",
    "Sml.C.c92_between",
    "Sml.C.c92_dropped",
    "Sml.C.c92_many"
   ],
   "note": "ReadAs says what the source does with the bytes in every memory; the messages and flags named by the existential statements are the only ones by c92_flag and c92_unique."
  },
  {
   "property": "C93",
   "status": "proved",
   "theorems": [
    "Sml.C.c93_exact",
    "Sml.C.c93_odd",
    "Sml.C.c93_burst",
    "Sml.C.c93_two"
   ],
   "note": "c93_exact: delivered exactly with a checksum of either kind; c93_odd: messages hit by an odd number of flipped bits are dropped, the others delivered; c93_burst: bursts and pairs of flipped bits get through only by the KERMIT checksum. Hits must leave the structure of the message intact; for other changes C51 says what is read. c93_two is a finding: two flipped bits in a counter are delivered as a wrong reading without an error."
  },
  {
   "property": "C94",
   "status": "proved",
   "theorems": [
    "Sml.C.c94_listen",
    "Sml.C.c94_odd",
    "Sml.C.c94_forged"
   ],
   "note": "c94_listen: any checksums and any ends of frames; c94_odd: odd numbers of flipped bits. The conditions on what can be printed are those of C80. c94_forged is a finding: sml_transport_read does not check the checksum of the frame, and two flipped bits are printed as a wrong reading."
  },
  {
   "property": "C95",
   "status": "proved",
   "theorems": [
    "Sml.C.c95_window",
    "Sml.C.c95_counter",
    "Sml.C.c95_reading",
    "Sml.x25_two"
   ],
   "note": "From the source of the parser. c95_window: exactly two fillings of two neighbouring bytes are delivered (one if they coincide), the right one and the one fixed by the KERMIT checksum. c95_counter: every counter of a reading. c95_reading: the one forged value for 1234.5 Wh. x25_two: under the X-25 checksum alone only the right filling passes."
  }
 ]
}