import Verif.Model.Example
import Verif.Spec.Samples

/-!
# The library's unit tests, run on the model

The test cases of `test/src`, evaluated by the kernel. They do not prove anything about all inputs; they
check that the model computes what the library's authors expect the code to compute. Cases that
only call an `init` function are left out.
-/

namespace Sml.Conformance

open Samples

/-- A buffer of 512 bytes with the given bytes in front (`sml_buffer_init(512)`, `hex2binary`). -/
def buf (bs : List UInt8) : St := { data := bs ++ List.replicate (512 - bs.length) 0 }

/-- `expected_buf` (test_helper.c). -/
def expectedBuf (r : Res Unit) (bs : List UInt8) : Bool :=
  holds r fun _ s => s.data.take bs.length == bs && s.cursor == bs.length

/-- "Hallo" -/
def hallo : List UInt8 := [0x48, 0x61, 0x6c, 0x6c, 0x6f]

/-! ## sml_octet_string_test.c -/

/-- parse -/
example : holds (octetStringParse (buf [0x06, 0x48, 0x61, 0x6c, 0x6c, 0x6f])) (fun r _ => decide (r = some ⟨hallo⟩)) = true := by decide +kernel

/-- parse_multiple_tl_fields -/
example : holds (octetStringParse (buf [0x81, 0x02, 0x61, 0x61, 0x61, 0x61, 0x6f, 0x61, 0x61, 0x61, 0x61, 0x61, 0x61, 0x61, 0x61, 0x61, 0x61, 0x61])) (fun r _ => decide (r = some ⟨[0x61, 0x61, 0x61, 0x61, 0x6f, 0x61, 0x61, 0x61, 0x61, 0x61, 0x61, 0x61, 0x61, 0x61, 0x61, 0x61]⟩)) = true := by decide +kernel

/-- parse_optional -/
example : holds (octetStringParse (buf [0x01])) (fun r s => decide (r = none) && s.cursor == 1 && !s.error) = true := by decide +kernel

/-- write -/
example : expectedBuf (octetStringWrite (some ⟨hallo⟩) (buf [])) [0x06, 0x48, 0x61, 0x6c, 0x6c, 0x6f] = true := by decide +kernel

/-- write_multiple_tl_fields -/
example : expectedBuf (octetStringWrite (some ⟨[0x61, 0x61, 0x61, 0x61, 0x6f, 0x61, 0x61, 0x61, 0x61, 0x61, 0x61, 0x61, 0x61, 0x61, 0x61, 0x61]⟩) (buf [])) [0x81, 0x02, 0x61, 0x61, 0x61, 0x61, 0x6f, 0x61, 0x61, 0x61, 0x61, 0x61, 0x61, 0x61, 0x61, 0x61, 0x61, 0x61] = true := by decide +kernel

/-- write_optional -/
example : expectedBuf (octetStringWrite none (buf [])) [0x01] = true := by decide +kernel

/-- cmp -/
example : octetStringCmp ⟨hallo⟩ ⟨[0x48, 0x69]⟩ ≠ 0 ∧ octetStringCmp ⟨hallo⟩ ⟨hallo⟩ = 0 := by decide +kernel

/-- cmp_with_hex -/
example : holds (octetStringCmpWithHex ⟨hallo⟩ [0x34, 0x38, 0x36, 0x31, 0x36, 0x43, 0x36, 0x43, 0x36, 0x46] (buf [])) (fun r _ => r == 0) = true := by decide +kernel

/-! ## sml_number_test.c -/

/-- init_unsigned8, init_integer16 -/
example : (numberInit 1 1).val = 1 ∧ (numberInit (2 ^ 64 - 1) 2).toInt = -1 := by decide +kernel

/-- parse_unsigned8 -/
example : holds (u8Parse (buf [0x62, 0x01])) (fun r s => (r.map fun n => (n.val : Int)) == some (1) && s.cursor == 2) = true := by decide +kernel

/-- parse_unsigned16 -/
example : holds (u16Parse (buf [0x63, 0x01, 0x01])) (fun r s => (r.map fun n => (n.val : Int)) == some (257) && s.cursor == 3) = true := by decide +kernel

/-- parse_unsigned32 -/
example : holds (u32Parse (buf [0x65, 0x00, 0x00, 0x00, 0x01])) (fun r s => (r.map fun n => (n.val : Int)) == some (1) && s.cursor == 5) = true := by decide +kernel

/-- parse_unsigned32_fewer_bytes -/
example : holds (u32Parse (buf [0x64, 0x01, 0x00, 0x01])) (fun r s => (r.map fun n => (n.val : Int)) == some (65537) && s.cursor == 4) = true := by decide +kernel

/-- parse_unsigned64 -/
example : holds (u64Parse (buf [0x69, 0x00, 0x00, 0x00, 0x00, 0x00, 0x00, 0x00, 0x01])) (fun r s => (r.map fun n => (n.val : Int)) == some (1) && s.cursor == 9) = true := by decide +kernel

/-- parse_unsigned64_fewer_bytes -/
example : holds (u64Parse (buf [0x67, 0x00, 0x00, 0x00, 0x00, 0x00, 0x01])) (fun r s => (r.map fun n => (n.val : Int)) == some (1) && s.cursor == 7) = true := by decide +kernel

/-- parse_int8 -/
example : holds (i8Parse (buf [0x52, 0xff])) (fun r s => (r.map fun n => n.toInt) == some (-1) && s.cursor == 2) = true := by decide +kernel

/-- parse_int16 -/
example : holds (i16Parse (buf [0x53, 0xec, 0x78])) (fun r s => (r.map fun n => n.toInt) == some (-5000) && s.cursor == 3) = true := by decide +kernel

/-- parse_int32 -/
example : holds (i32Parse (buf [0x55, 0xff, 0xff, 0xec, 0x78])) (fun r s => (r.map fun n => n.toInt) == some (-5000) && s.cursor == 5) = true := by decide +kernel

/-- parse_int64 -/
example : holds (i64Parse (buf [0x59, 0xff, 0xff, 0xff, 0xff, 0xff, 0xff, 0xff, 0xff])) (fun r s => (r.map fun n => n.toInt) == some (-1) && s.cursor == 9) = true := by decide +kernel

/-- parse_int64_fewer_bytes -/
example : holds (i64Parse (buf [0x58, 0xff, 0xff, 0xff, 0xff, 0xff, 0xec, 0x78])) (fun r s => (r.map fun n => n.toInt) == some (-5000) && s.cursor == 8) = true := by decide +kernel

/-- parse_unsigned32_optional -/
example : holds (u32Parse (buf [0x01])) (fun r s => r.isNone && s.cursor == 1) = true := by decide +kernel

/-- write_unsigned8 -/
example : expectedBuf (u8Write (some (numberInit 1 1)) (buf [])) [0x62, 0x01] = true := by decide +kernel

/-- write_integer32 -/
example : expectedBuf (i32Write (some (numberInit (2 ^ 64 - 5000) 4)) (buf [])) [0x55, 0xff, 0xff, 0xec, 0x78] = true := by decide +kernel

/-- write_integer8_optional -/
example : expectedBuf (i8Write none (buf [])) [0x01] = true := by decide +kernel

/-! ## sml_boolean_test.c -/

/-- parse_true -/
example : holds (booleanParse (buf [0x42, 0x0f])) (fun r _ => r == some 0xFF) = true := by decide +kernel

/-- parse_false -/
example : holds (booleanParse (buf [0x42, 0x00])) (fun r s => r == some 0x00 && s.cursor == 2) = true := by decide +kernel

/-- parse_optional -/
example : holds (booleanParse (buf [0x01])) (fun r s => r.isNone && !s.error) = true := by decide +kernel

/-- write_true -/
example : expectedBuf (booleanWrite (some 0xFF) (buf [])) [0x42, 0xff] = true := by decide +kernel

/-- write_false -/
example : expectedBuf (booleanWrite (some 0x00) (buf [])) [0x42, 0x00] = true := by decide +kernel

/-- write_optional -/
example : expectedBuf (booleanWrite none (buf [])) [0x01] = true := by decide +kernel

/-! ## sml_value_test.c -/

/-- parse_octet_string -/
example : holds (valueParse (buf [0x06, 0x48, 0x61, 0x6c, 0x6c, 0x6f])) (fun r _ => decide (r = some ⟨0x00, .bytes (some ⟨hallo⟩)⟩)) = true := by decide +kernel

/-- parse_boolean -/
example : holds (valueParse (buf [0x42, 0x00])) (fun r _ => decide (r = some ⟨0x40, .boolean (some 0)⟩)) = true := by decide +kernel

/-- parse_unsigned32 -/
example : holds (valueParse (buf [0x65, 0x00, 0x00, 0x00, 0x01])) (fun r s => decide (r = some ⟨0x64, .num (some ⟨4, 1⟩)⟩) && s.cursor == 5) = true := by decide +kernel

/-- parse_integer64_fewer_bytes -/
example : holds (valueParse (buf [0x58, 0xff, 0xff, 0xff, 0xff, 0xff, 0xff, 0x0f])) (fun r _ => decide (r = some ⟨0x58, .num (some ⟨8, 2 ^ 64 - 241⟩)⟩)) = true := by decide +kernel

/-- parse_optional -/
example : holds (valueParse (buf [0x01])) (fun r s => r.isNone && s.cursor == 1) = true := by decide +kernel

/-- write_octet_string -/
example : expectedBuf (valueWrite (some ⟨0x00, .bytes (some ⟨hallo⟩)⟩) (buf [])) [0x06, 0x48, 0x61, 0x6c, 0x6c, 0x6f] = true := by decide +kernel

/-- write_boolean -/
example : expectedBuf (valueWrite (some ⟨0x40, .boolean (some 0)⟩) (buf [])) [0x42, 0x00] = true := by decide +kernel

/-- write_unsigned32 -/
example : expectedBuf (valueWrite (some ⟨0x64, .num (some (numberInit 42 4))⟩) (buf [])) [0x65, 0x00, 0x00, 0x00, 0x2a] = true := by decide +kernel

/-- write_integer16 -/
example : expectedBuf (valueWrite (some ⟨0x52, .num (some (numberInit (2 ^ 64 - 5) 2))⟩) (buf [])) [0x53, 0xff, 0xfb] = true := by decide +kernel

/-- write_optional -/
example : expectedBuf (valueWrite none (buf [])) [0x01] = true := by decide +kernel

/-! ## sml_status_test.c -/

/-- parse_status8 -/
example : holds (statusParse (buf [0x62, 0x01])) (fun r _ => decide (r = some ⟨0x61, some ⟨1, 1⟩⟩)) = true := by decide +kernel

/-- parse_optional -/
example : holds (statusParse (buf [0x01])) (fun r s => r.isNone && !s.error && s.cursor == 1) = true := by decide +kernel

/-- parse_not_unsigned -/
example : holds (statusParse (buf [0x50, 0x01])) (fun r s => r.isNone && s.error) = true := by decide +kernel

/-- write_status32 -/
example : expectedBuf (statusWrite (some ⟨0x64, some (numberInit 42 4)⟩) (buf [])) [0x65, 0x00, 0x00, 0x00, 0x2a] = true := by decide +kernel

/-- write_optional -/
example : expectedBuf (statusWrite none (buf [])) [0x01] = true := by decide +kernel

/-! ## sml_time_test.c -/

/-- parse_sec_index -/
example : holds (timeParse (buf [0x72, 0x62, 0x01, 0x65, 0x00, 0x00, 0x00, 0xff])) (fun r s => decide ((r.bind (·.tag)) = some ⟨1, 1⟩) && s.cursor == 8) = true := by decide +kernel

/-- parse_timestamp -/
example : holds (timeParse (buf [0x72, 0x62, 0x02, 0x65, 0x00, 0x00, 0x00, 0xff])) (fun r s => decide ((r.bind (·.tag)) = some ⟨1, 2⟩) && s.cursor == 8) = true := by decide +kernel

/-- parse_optional -/
example : holds (timeParse (buf [0x01])) (fun r s => r.isNone && s.cursor == 1) = true := by decide +kernel

/-- write_sec_index -/
example : expectedBuf (timeWrite (some { tag := some (numberInit 1 1), data := some (numberInit 255 4) }) (buf [])) [0x72, 0x62, 0x01, 0x65, 0x00, 0x00, 0x00, 0xff] = true := by decide +kernel

/-- write_optional -/
example : expectedBuf (timeWrite none (buf [])) [0x01] = true := by decide +kernel

/-! ## sml_list_test.c -/

/-- add -/
example : ∀ a b : ListEntry, listAdd [a] [b] = pure [a, b] := fun _ _ => rfl

/-- parse_two_entries -/
example : holds (listParse (buf [0x72, 0x77, 0x02, 0x61, 0x01, 0x01, 0x01, 0x01, 0x42, 0x00, 0x01, 0x77, 0x02, 0x61, 0x01, 0x01, 0x01, 0x01, 0x42, 0x00, 0x01])) (fun r s => !s.error && r.length == 2 && decide ((r[0]?.bind (·.objName)) = some ⟨[0x61]⟩)) = true := by decide +kernel

/-- parse_optional -/
example : holds (listParse (buf [0x01])) (fun r s => r.isEmpty && !s.error) = true := by decide +kernel

/-- write_one_entry -/
example : expectedBuf (listWrite [{ objName := some ⟨hallo⟩, value := some ⟨0x00, .bytes (some ⟨hallo⟩)⟩ }] (buf [])) [0x71, 0x77, 0x06, 0x48, 0x61, 0x6c, 0x6c, 0x6f, 0x01, 0x01, 0x01, 0x01, 0x06, 0x48, 0x61, 0x6c, 0x6c, 0x6f, 0x01] = true := by decide +kernel

/-- write_optional -/
example : expectedBuf (listWrite [] (buf [])) [0x01] = true := by decide +kernel

/-- sml_sequence, parse_octet_string -/
example : holds (sequenceParse octetStringParse octetStringFreed (buf [0x72, 0x06, 0x48, 0x61, 0x6c, 0x6c, 0x6f, 0x06, 0x48, 0x61, 0x6c, 0x6c, 0x6f])) (fun r _ => (r.map fun q => q.elems.length) == some 2) = true := by decide +kernel

/-- sml_sequence, write_octet_string -/
example : expectedBuf (sequenceWrite octetStringWrite (some ⟨[some ⟨hallo⟩, some ⟨hallo⟩]⟩) (buf [])) [0x72, 0x06, 0x48, 0x61, 0x6c, 0x6c, 0x6f, 0x06, 0x48, 0x61, 0x6c, 0x6c, 0x6f] = true := by decide +kernel

/-! ## sml_tree_test.c -/

/-- write -/
example : expectedBuf (treeWrite (some (.mk (some ⟨hallo⟩) none [])) (buf [])) [0x73, 0x06, 0x48, 0x61, 0x6c, 0x6c, 0x6f, 0x01, 0x01] = true := by decide +kernel

/-- parse_with_child -/
example : holds (treeParse 129 (buf [0x73, 0x06, 0x48, 0x61, 0x6c, 0x6c, 0x6f, 0x01, 0x71, 0x73, 0x06, 0x48, 0x61, 0x6c, 0x6c, 0x6f, 0x01, 0x01])) (fun r _ => match r with | some t => t.children.length == 1 | none => false) = true := by decide +kernel

/-- parse_with_error_child -/
example : holds (treeParse 129 (buf [0x73, 0x06, 0x48, 0x61, 0x6c, 0x6c, 0x6f, 0x01, 0x71, 0x72, 0x06, 0x48, 0x61, 0x6c, 0x6c, 0x6f, 0x01, 0x01])) (fun r s => r.isNone && s.error) = true := by decide +kernel

/-- sml_tree_path, parse -/
example : holds (treePathParse (buf [0x72, 0x06, 0x48, 0x61, 0x6c, 0x6c, 0x6f, 0x02, 0x64])) (fun r _ => decide (r = some ⟨[some ⟨hallo⟩, some ⟨[0x64]⟩]⟩)) = true := by decide +kernel

/-- sml_tree_path, write -/
example : expectedBuf (treePathWrite (some ⟨[some ⟨hallo⟩, some ⟨hallo⟩]⟩) (buf [])) [0x72, 0x06, 0x48, 0x61, 0x6c, 0x6c, 0x6f, 0x06, 0x48, 0x61, 0x6c, 0x6c, 0x6f] = true := by decide +kernel

/-- sml_proc_par_value, parse_time -/
example : holds (procParValueParse (buf [0x72, 0x62, 0x04, 0x72, 0x62, 0x02, 0x65, 0x00, 0x00, 0x00, 0xff])) (fun r s => decide ((r.bind (·.tag)) = some ⟨1, 4⟩) && s.cursor == 11) = true := by decide +kernel

/-- sml_proc_par_value, write_time -/
example : expectedBuf (procParValueWrite (some { tag := some (numberInit 4 1), data := .time (some { tag := some (numberInit 1 1), data := some (numberInit 255 4) }) }) (buf [])) [0x72, 0x62, 0x04, 0x72, 0x62, 0x01, 0x65, 0x00, 0x00, 0x00, 0xff] = true := by decide +kernel

/-! ## sml_get_profile_pack_request_test.c -/

/-- parse -/
example : holds (getProfilePackRequestParse 129 (buf [0x79, 0x01, 0x01, 0x01, 0x01, 0x01, 0x01, 0x01, 0x73, 0x06, 0x48, 0x61, 0x6c, 0x6c, 0x6f, 0x06, 0x48, 0x61, 0x6c, 0x6c, 0x6f, 0x06, 0x48, 0x61, 0x6c, 0x6c, 0x6f, 0x01])) (fun r _ => match r with | some m => m.objectList.length == 3 | none => false) = true := by decide +kernel

/-! ## sml_message_test.c -/

/-- parse -/
example : holds (messageParse 129 (buf [0x76, 0x07, 0x00, 0x38, 0x00, 0x00, 0x3f, 0xb6, 0x62, 0x00, 0x62, 0x00, 0x72, 0x63, 0x01, 0x01, 0x76, 0x01, 0x01, 0x07, 0x00, 0x38, 0x00, 0x42, 0x15, 0x3d, 0x0b, 0x06, 0x45, 0x4d, 0x48, 0x01, 0x02, 0x71, 0x53, 0x3b, 0xcd, 0x01, 0x01, 0x63, 0x82, 0x08, 0x00])) (fun r _ => r.isSome) = true := by decide +kernel

/-- crc_error (one bit corrupted) -/
example : holds (messageParse 129 (buf [0x76, 0x07, 0x00, 0x38, 0x00, 0x00, 0x3f, 0xb6, 0x62, 0x00, 0x62, 0x00, 0x72, 0x63, 0x01, 0x01, 0x76, 0x01, 0x01, 0x07, 0x00, 0x39, 0x00, 0x42, 0x15, 0x3d, 0x0b, 0x06, 0x45, 0x4d, 0x48, 0x01, 0x02, 0x71, 0x53, 0x3b, 0xcd, 0x01, 0x01, 0x63, 0x82, 0x08, 0x00])) (fun r _ => r.isNone) = true := by decide +kernel

/-! ## sml_file_test.c -/

/-- The bytes of the crash report behind the start sequence. The test passes 178 bytes more, which it never initialised. -/
def crashReport : List UInt8 := [
  0x76, 0x0b, 0x45, 0x53, 0x59, 0x41, 0x1f, 0xe8, 0x05, 0xb5, 0x83, 0x11, 0x62, 0x00, 0x62, 0x00,
  0x72, 0x63, 0x01, 0x01, 0x76, 0x01, 0x04, 0x45, 0x53, 0x59, 0x08, 0x45, 0x53, 0x59, 0x2b, 0xb1,
  0x83, 0x11, 0x0b, 0x09, 0x01, 0x45, 0x53, 0x59, 0x11, 0x03, 0xa6, 0x1f, 0xe8, 0x01, 0x01, 0x63,
  0x1d, 0x52, 0x00, 0x76, 0x0b, 0x45, 0x53, 0x59, 0x41, 0x1f, 0xe8, 0x05, 0xb5, 0x83, 0x12, 0x62,
  0x00, 0x62, 0x00, 0x72, 0x63, 0x09, 0x00, 0x01, 0x45, 0x53, 0x59, 0x11, 0x03, 0xa6, 0x1f, 0xe8,
  0x07, 0x01, 0x00, 0x62, 0x0a, 0xff, 0xff, 0x72, 0x62, 0x01, 0x65, 0x01, 0xe7, 0x2b, 0xb1, 0x79,
  0x77, 0x07, 0x81, 0x81, 0xc7, 0x82, 0x03, 0xff, 0x01, 0x01, 0x01, 0x01, 0x04, 0x45, 0x53, 0x59,
  0x01, 0x77, 0x07, 0x01, 0x00, 0x00, 0x00, 0x09, 0xff, 0x01, 0x01, 0x01, 0x01, 0x0b, 0x09, 0x01,
  0x45, 0x53, 0x59, 0x11, 0x03, 0xa6, 0x1f, 0xe8, 0x01, 0x77, 0x07, 0x01, 0x00, 0x01, 0x08, 0x00,
  0xff, 0x64, 0x00, 0x00, 0x80, 0x01, 0x62, 0x1e, 0x52, 0xfc, 0x59, 0x00, 0x00, 0x00, 0x09, 0x72,
  0x99, 0x91, 0x04, 0x01, 0x77, 0x07, 0x01, 0x00, 0x10, 0x07, 0x00, 0xff, 0x01, 0x01, 0x62, 0x1b,
  0x52, 0xfe, 0x59, 0x00, 0x00, 0x00, 0x00, 0x00, 0x00, 0x69, 0x99, 0x01, 0x77, 0x07, 0x01, 0x00,
  0x24, 0x00]

/-- parse_crash_report1 -/
example : holds (fileParse 100 (crashReport ++ List.replicate 178 0)) (fun f s => f.messages.length == 1 && s.error) = true := by
  decide +kernel

end Sml.Conformance
