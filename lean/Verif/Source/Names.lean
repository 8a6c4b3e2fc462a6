/-!
# The functions of the library

Written by `tools/c2lean.py`.
-/

namespace Sml.C

/-- Names of the functions. -/
inductive Fn where
  | sml_attention_response_init
  | sml_attention_response_parse
  | sml_attention_response_write
  | sml_attention_response_free
  | sml_boolean_init
  | sml_boolean_parse
  | sml_boolean_write
  | sml_boolean_free
  | sml_close_request_init
  | sml_close_request_parse
  | sml_close_request_write
  | sml_close_request_free
  | sml_close_response_init
  | sml_close_response_parse
  | sml_close_response_write
  | sml_close_response_free
  | sml_crc16_calculate
  | sml_crc16kermit_calculate
  | sml_file_parse
  | sml_file_init
  | sml_file_add_message
  | sml_file_write
  | sml_file_free
  | sml_file_print
  | sml_get_list_request_init
  | sml_get_list_request_write
  | sml_get_list_request_parse
  | sml_get_list_request_free
  | sml_get_list_response_init
  | sml_get_list_response_parse
  | sml_get_list_response_write
  | sml_get_list_response_free
  | sml_get_proc_parameter_request_init
  | sml_get_proc_parameter_request_parse
  | sml_get_proc_parameter_request_write
  | sml_get_proc_parameter_request_free
  | sml_get_proc_parameter_response_init
  | sml_get_proc_parameter_response_parse
  | sml_get_proc_parameter_response_write
  | sml_get_proc_parameter_response_free
  | sml_get_profile_list_request_noop
  | sml_get_profile_list_response_init
  | sml_period_entry_parse_get
  | sml_period_entry_free_get
  | sml_get_profile_list_response_parse
  | sml_period_entry_write_get
  | sml_get_profile_list_response_write
  | sml_get_profile_list_response_free
  | sml_get_profile_pack_request_init
  | sml_get_profile_pack_request_write
  | sml_get_profile_pack_request_parse
  | sml_get_profile_pack_request_free
  | sml_prof_obj_header_entry_free_
  | sml_prof_obj_period_entry_parse_
  | sml_prof_obj_period_entry_free_
  | sml_prof_obj_header_entry_write_
  | sml_prof_obj_period_entry_write_
  | sml_value_entry_parse_
  | sml_value_entry_write_
  | sml_value_entry_free_
  | sml_get_profile_pack_response_init
  | sml_get_profile_pack_response_parse
  | sml_get_profile_pack_response_write
  | sml_get_profile_pack_response_free
  | sml_prof_obj_header_entry_init
  | sml_prof_obj_header_entry_parse_
  | sml_prof_obj_header_entry_parse
  | sml_prof_obj_header_entry_write
  | sml_prof_obj_header_entry_free
  | sml_prof_obj_period_entry_init
  | sml_prof_obj_period_entry_parse
  | sml_prof_obj_period_entry_write
  | sml_prof_obj_period_entry_free
  | sml_value_entry_init
  | sml_value_entry_parse
  | sml_value_entry_write
  | sml_value_entry_free
  | sml_sequence_init
  | sml_sequence_parse
  | sml_sequence_write
  | sml_sequence_free
  | sml_sequence_add
  | sml_list_init
  | sml_list_add
  | detect_buggy_dzg_dvs74
  | sml_list_entry_parse
  | sml_list_parse
  | sml_list_entry_write
  | sml_list_write
  | sml_list_entry_free
  | sml_list_free
  | sml_message_parse
  | sml_message_init
  | sml_message_free
  | sml_message_write
  | sml_message_body_parse
  | sml_message_body_init
  | sml_message_body_write
  | sml_message_body_free
  | sml_number_byte_swap
  | sml_number_endian
  | sml_number_init
  | sml_number_parse
  | sml_number_write
  | sml_number_free
  | sml_octet_string_init
  | sml_octet_string_init_from_hex
  | sml_octet_string_free
  | sml_octet_string_parse
  | sml_octet_string_write
  | sml_octet_string_generate_uuid
  | sml_octet_string_cmp
  | sml_octet_string_cmp_with_hex
  | ctoi
  | c2toi
  | c2ptoi
  | sml_open_request_init
  | sml_open_request_parse
  | sml_open_request_write
  | sml_open_request_free
  | sml_open_response_init
  | sml_open_response_parse
  | sml_open_response_write
  | sml_open_response_free
  | sml_set_proc_parameter_request_init
  | sml_set_proc_parameter_request_parse
  | sml_set_proc_parameter_request_write
  | sml_set_proc_parameter_request_free
  | sml_buf_get_next_length
  | sml_buf_set_type_and_length
  | sml_buf_has_errors
  | sml_buf_get_next_type
  | sml_buf_get_current_byte
  | sml_buf_get_current_buf
  | sml_buf_update_bytes_read
  | sml_buffer_init
  | sml_buf_optional_write
  | sml_buffer_free
  | sml_buf_optional_is_skipped
  | sml_hexdump
  | sml_status_init
  | sml_status_parse
  | sml_status_write
  | sml_status_free
  | sml_time_init
  | sml_time_parse
  | sml_time_write
  | sml_time_free
  | sml_read
  | sml_transport_read
  | sml_transport_listen
  | sml_transport_write
  | sml_tree_path_init
  | sml_tree_path_parse
  | sml_tree_path_add_path_entry
  | sml_tree_path_write
  | sml_tree_path_free
  | sml_tree_init
  | sml_tree_parse
  | sml_tree_add_tree
  | sml_tree_free
  | sml_tree_write
  | sml_proc_par_value_init
  | sml_proc_par_value_parse
  | sml_proc_par_value_write
  | sml_proc_par_value_free
  | sml_tupel_entry_init
  | sml_tupel_entry_parse
  | sml_tupel_entry_write
  | sml_tupel_entry_free
  | sml_period_entry_init
  | sml_period_entry_parse_tree
  | sml_period_entry_parse
  | sml_period_entry_write
  | sml_period_entry_free_tree
  | sml_period_entry_free
  | sml_value_parse
  | sml_value_write
  | sml_value_init
  | sml_value_free
  | sml_value_to_double
  | sml_value_to_strhex
  | dlms_get_unit
  | serial_port_open
  | transport_receiver
  | main
  | LLVMFuzzerTestOneInput
deriving DecidableEq, Repr

/-- All names. -/
def Fn.all : List Fn := [
  .sml_attention_response_init,
  .sml_attention_response_parse,
  .sml_attention_response_write,
  .sml_attention_response_free,
  .sml_boolean_init,
  .sml_boolean_parse,
  .sml_boolean_write,
  .sml_boolean_free,
  .sml_close_request_init,
  .sml_close_request_parse,
  .sml_close_request_write,
  .sml_close_request_free,
  .sml_close_response_init,
  .sml_close_response_parse,
  .sml_close_response_write,
  .sml_close_response_free,
  .sml_crc16_calculate,
  .sml_crc16kermit_calculate,
  .sml_file_parse,
  .sml_file_init,
  .sml_file_add_message,
  .sml_file_write,
  .sml_file_free,
  .sml_file_print,
  .sml_get_list_request_init,
  .sml_get_list_request_write,
  .sml_get_list_request_parse,
  .sml_get_list_request_free,
  .sml_get_list_response_init,
  .sml_get_list_response_parse,
  .sml_get_list_response_write,
  .sml_get_list_response_free,
  .sml_get_proc_parameter_request_init,
  .sml_get_proc_parameter_request_parse,
  .sml_get_proc_parameter_request_write,
  .sml_get_proc_parameter_request_free,
  .sml_get_proc_parameter_response_init,
  .sml_get_proc_parameter_response_parse,
  .sml_get_proc_parameter_response_write,
  .sml_get_proc_parameter_response_free,
  .sml_get_profile_list_request_noop,
  .sml_get_profile_list_response_init,
  .sml_period_entry_parse_get,
  .sml_period_entry_free_get,
  .sml_get_profile_list_response_parse,
  .sml_period_entry_write_get,
  .sml_get_profile_list_response_write,
  .sml_get_profile_list_response_free,
  .sml_get_profile_pack_request_init,
  .sml_get_profile_pack_request_write,
  .sml_get_profile_pack_request_parse,
  .sml_get_profile_pack_request_free,
  .sml_prof_obj_header_entry_free_,
  .sml_prof_obj_period_entry_parse_,
  .sml_prof_obj_period_entry_free_,
  .sml_prof_obj_header_entry_write_,
  .sml_prof_obj_period_entry_write_,
  .sml_value_entry_parse_,
  .sml_value_entry_write_,
  .sml_value_entry_free_,
  .sml_get_profile_pack_response_init,
  .sml_get_profile_pack_response_parse,
  .sml_get_profile_pack_response_write,
  .sml_get_profile_pack_response_free,
  .sml_prof_obj_header_entry_init,
  .sml_prof_obj_header_entry_parse_,
  .sml_prof_obj_header_entry_parse,
  .sml_prof_obj_header_entry_write,
  .sml_prof_obj_header_entry_free,
  .sml_prof_obj_period_entry_init,
  .sml_prof_obj_period_entry_parse,
  .sml_prof_obj_period_entry_write,
  .sml_prof_obj_period_entry_free,
  .sml_value_entry_init,
  .sml_value_entry_parse,
  .sml_value_entry_write,
  .sml_value_entry_free,
  .sml_sequence_init,
  .sml_sequence_parse,
  .sml_sequence_write,
  .sml_sequence_free,
  .sml_sequence_add,
  .sml_list_init,
  .sml_list_add,
  .detect_buggy_dzg_dvs74,
  .sml_list_entry_parse,
  .sml_list_parse,
  .sml_list_entry_write,
  .sml_list_write,
  .sml_list_entry_free,
  .sml_list_free,
  .sml_message_parse,
  .sml_message_init,
  .sml_message_free,
  .sml_message_write,
  .sml_message_body_parse,
  .sml_message_body_init,
  .sml_message_body_write,
  .sml_message_body_free,
  .sml_number_byte_swap,
  .sml_number_endian,
  .sml_number_init,
  .sml_number_parse,
  .sml_number_write,
  .sml_number_free,
  .sml_octet_string_init,
  .sml_octet_string_init_from_hex,
  .sml_octet_string_free,
  .sml_octet_string_parse,
  .sml_octet_string_write,
  .sml_octet_string_generate_uuid,
  .sml_octet_string_cmp,
  .sml_octet_string_cmp_with_hex,
  .ctoi,
  .c2toi,
  .c2ptoi,
  .sml_open_request_init,
  .sml_open_request_parse,
  .sml_open_request_write,
  .sml_open_request_free,
  .sml_open_response_init,
  .sml_open_response_parse,
  .sml_open_response_write,
  .sml_open_response_free,
  .sml_set_proc_parameter_request_init,
  .sml_set_proc_parameter_request_parse,
  .sml_set_proc_parameter_request_write,
  .sml_set_proc_parameter_request_free,
  .sml_buf_get_next_length,
  .sml_buf_set_type_and_length,
  .sml_buf_has_errors,
  .sml_buf_get_next_type,
  .sml_buf_get_current_byte,
  .sml_buf_get_current_buf,
  .sml_buf_update_bytes_read,
  .sml_buffer_init,
  .sml_buf_optional_write,
  .sml_buffer_free,
  .sml_buf_optional_is_skipped,
  .sml_hexdump,
  .sml_status_init,
  .sml_status_parse,
  .sml_status_write,
  .sml_status_free,
  .sml_time_init,
  .sml_time_parse,
  .sml_time_write,
  .sml_time_free,
  .sml_read,
  .sml_transport_read,
  .sml_transport_listen,
  .sml_transport_write,
  .sml_tree_path_init,
  .sml_tree_path_parse,
  .sml_tree_path_add_path_entry,
  .sml_tree_path_write,
  .sml_tree_path_free,
  .sml_tree_init,
  .sml_tree_parse,
  .sml_tree_add_tree,
  .sml_tree_free,
  .sml_tree_write,
  .sml_proc_par_value_init,
  .sml_proc_par_value_parse,
  .sml_proc_par_value_write,
  .sml_proc_par_value_free,
  .sml_tupel_entry_init,
  .sml_tupel_entry_parse,
  .sml_tupel_entry_write,
  .sml_tupel_entry_free,
  .sml_period_entry_init,
  .sml_period_entry_parse_tree,
  .sml_period_entry_parse,
  .sml_period_entry_write,
  .sml_period_entry_free_tree,
  .sml_period_entry_free,
  .sml_value_parse,
  .sml_value_write,
  .sml_value_init,
  .sml_value_free,
  .sml_value_to_double,
  .sml_value_to_strhex,
  .dlms_get_unit,
  .serial_port_open,
  .transport_receiver,
  .main,
  .LLVMFuzzerTestOneInput]

/-- The number of a function, which is what a pointer to it holds. -/
def Fn.code (f : Fn) : Nat := f.ctorIdx

def Fn.ofCode (n : Nat) : Option Fn := Fn.all[n]?

/-- Has the function one of the types of the functions that are called through a pointer? -/
def Fn.byPtr : Fn → Bool
  | .sml_period_entry_parse_get => true
  | .sml_period_entry_free_get => true
  | .sml_period_entry_write_get => true
  | .sml_prof_obj_header_entry_free_ => true
  | .sml_prof_obj_period_entry_parse_ => true
  | .sml_prof_obj_period_entry_free_ => true
  | .sml_prof_obj_header_entry_write_ => true
  | .sml_prof_obj_period_entry_write_ => true
  | .sml_value_entry_parse_ => true
  | .sml_value_entry_write_ => true
  | .sml_value_entry_free_ => true
  | .sml_prof_obj_header_entry_parse_ => true
  | .sml_number_free => true
  | .sml_hexdump => true
  | .sml_period_entry_parse_tree => true
  | .sml_period_entry_free_tree => true
  | .transport_receiver => true
  | _ => false

end Sml.C
