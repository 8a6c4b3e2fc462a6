import Verif.Model.HeapWrite
import Verif.Model.Util

/-!
# The constructors on the heap with addresses

The functions a client calls to build what it wants to send: `sml_..._init` and the functions that add an element. They are
modelled on the heap of `Verif.Model.Heap`.
-/

namespace Sml

/-! ## Parts -/

/-- `sml_number_init` (sml_number.c:46-66), also `sml_u8_init` ... `sml_i64_init` (sml_number.h:39-46) and `sml_unit_init`
(sml_number.h:76). `malloc` succeeds; see `numberInit` for the byte order. -/
def pNumberInit (number size : Nat) : P Addr := malloc (.num (numberInit number size))

/-- `sml_boolean_init` (sml_boolean.c:22-27). -/
def pBooleanInit (b : UInt8) : P Addr := malloc (.num { size := 1, val := b.toNat })

/-- `sml_octet_string_generate_uuid` (sml_octet_string.c:102-123); see `generateUuid`. -/
def pGenerateUuid (rnd : List UInt8) : P Addr :=
  let u := rnd.set 6 ((rnd.getD 6 0 &&& 0x0F) ||| 0x40)
  let u := u.set 8 ((u.getD 8 0 &&& 0x3F) ||| 0x80)
  pOctetStringInit u

/-- `sml_value_init` (sml_value.c:85-90). -/
def pValueInit : P Addr := malloc (.struct [0] [tyOctet])

/-- `sml_status_init` (sml_status.c:21-26). -/
def pStatusInit : P Addr := malloc (.struct [0] [tyUnsigned])

/-- `sml_sequence_init` (sml_list.c:29-34). -/
def pSequenceInit (c : C.Fn) : P Addr := malloc (.struct [0] [0, c.code])

/-- `sml_sequence_add` (sml_list.c:92-96). -/
def pSequenceAdd (seq e : Addr) : P Unit := pArrayAdd seq 0 e

/-- `sml_list_init` (sml_list.c:100-111). -/
def pListInit : P Addr := malloc (.struct [0, 0, 0, 0, 0, 0, 0, 0] [])

/-- `sml_list_add` (sml_list.c:113). -/
def pListAdd (list new : Addr) : P Unit := writePtr list 7 new

/-- `sml_tree_path_init` (sml_tree.c:25-30). -/
def pTreePathInit : P Addr := malloc (.struct [0] [0])

/-- `sml_tree_path_add_path_entry` (sml_tree.c:62-68). -/
def pTreePathAdd (path e : Addr) : P Unit := pArrayAdd path 0 e

/-- `sml_tree_init` (sml_tree.c:103-109). -/
def pTreeInit : P Addr := malloc (.struct [0, 0, 0] [0])

/-- `sml_tree_add_tree` (sml_tree.c:164-169). -/
def pTreeAddTree (base tree : Addr) : P Unit := pArrayAdd base 2 tree

/-! ## Structures of pointers -/

/-- `sml_time_init` (sml_time.c:24-28): pointer members `tag`, `data`. -/
def pTimeInit : P Addr := malloc (.struct [0, 0] [])

/-- `sml_period_entry_init` (sml_tree.c:536-542). -/
def pPeriodEntryInit : P Addr := malloc (.struct [0, 0, 0, 0, 0] [])

/-- `sml_tupel_entry_init` (sml_tree.c:324-351). -/
def pTupelEntryInit : P Addr := malloc (.struct (List.replicate 23 0) [])

/-- `sml_proc_par_value_init` (sml_tree.c:210-214): pointer members `tag`, `data`. -/
def pProcParValueInit : P Addr := malloc (.struct [0, 0] [])

/-- `sml_open_request_init` (sml_open_request.c:23-33). -/
def pOpenRequestInit : P Addr := malloc (.struct [0, 0, 0, 0, 0, 0, 0] [])

/-- `sml_open_response_init` (sml_open_response.c:22-32). -/
def pOpenResponseInit : P Addr := malloc (.struct [0, 0, 0, 0, 0, 0] [])

/-- `sml_close_request_init` (sml_close_request.c:22-27). -/
def pCloseRequestInit : P Addr := malloc (.struct [0] [])

/-- `sml_close_response_init` (sml_close_response.c:22-27). -/
def pCloseResponseInit : P Addr := malloc (.struct [0] [])

/-- `sml_value_entry_init` (sml_get_profile_pack_response.c:327-332). -/
def pValueEntryInit : P Addr := malloc (.struct [0, 0] [])

/-- `sml_prof_obj_header_entry_init` (sml_get_profile_pack_response.c:254-259). -/
def pProfObjHeaderEntryInit : P Addr := malloc (.struct [0, 0, 0] [])

/-- `sml_prof_obj_period_entry_init` (sml_get_profile_pack_response.c:305-311). -/
def pProfObjPeriodEntryInit : P Addr := malloc (.struct [0, 0, 0, 0] [])

/-- `sml_get_profile_pack_request_init` (sml_get_profile_pack_request.c:25-39), also `sml_get_profile_list_request_init` (sml_get_profile_list_request.h:31). -/
def pGetProfilePackRequestInit : P Addr := malloc (.struct [0, 0, 0, 0, 0, 0, 0, 0, 0] [])

/-- `sml_get_profile_pack_response_init` (sml_get_profile_pack_response.c:154-167). -/
def pGetProfilePackResponseInit : P Addr := malloc (.struct [0, 0, 0, 0, 0, 0, 0, 0] [])

/-- `sml_get_profile_list_response_init` (sml_get_profile_list_response.c:23-36). -/
def pGetProfileListResponseInit : P Addr := malloc (.struct [0, 0, 0, 0, 0, 0, 0, 0, 0] [])

/-- `sml_get_proc_parameter_request_init` (sml_get_proc_parameter_request.c:23-33). -/
def pGetProcParameterRequestInit : P Addr := malloc (.struct [0, 0, 0, 0, 0] [])

/-- `sml_get_proc_parameter_response_init` (sml_get_proc_parameter_response.c:22-29). -/
def pGetProcParameterResponseInit : P Addr := malloc (.struct [0, 0, 0] [])

/-- `sml_set_proc_parameter_request_init` (sml_set_proc_parameter_request.c:21-31). -/
def pSetProcParameterRequestInit : P Addr := malloc (.struct [0, 0, 0, 0, 0] [])

/-- `sml_get_list_request_init` (sml_get_list_request.c:22-31). -/
def pGetListRequestInit : P Addr := malloc (.struct [0, 0, 0, 0, 0] [])

/-- `sml_get_list_response_init` (sml_get_list_response.c:21-32). -/
def pGetListResponseInit : P Addr := malloc (.struct [0, 0, 0, 0, 0, 0, 0] [])

/-- `sml_attention_response_init` (sml_attention_response.c:22-30). -/
def pAttentionResponseInit : P Addr := malloc (.struct [0, 0, 0, 0] [])

/-! ## Messages and files -/

/-- `sml_message_body_init` (sml_message.c:227-231). -/
def pMessageBodyInit (tag : Nat) (data : Addr) : P Addr := do
  let b ← malloc (.struct [0, 0] [])
  let t ← pNumberInit tag 4
  store b (.struct [t, data] [])
  pure b

/-- `sml_message_init` (sml_message.c:107-116). -/
def pMessageInit (rnd : List UInt8) : P Addr := do
  let m ← malloc (.struct [0, 0, 0, 0, 0] [])
  let id ← pGenerateUuid rnd
  writePtr m 0 id
  pure m

/-- `sml_buffer_init` (sml_shared.c:119-128). -/
def pBufferInit (length : Nat) : P Addr := do
  let buf ← malloc (.struct [0, 0] [])
  let arr ← malloc (.bytes (List.replicate length 0))
  writePtr buf 0 arr
  pure buf

/-- `sml_file_init` (sml_file.c:63-71); `SML_FILE_BUFFER_LENGTH` is 512 (sml_file.c:28). -/
def pFileInit : P Addr := do
  let file ← malloc (.struct [0, 0] [0])
  let buf ← pBufferInit 512
  writePtr file 1 buf
  pure file

end Sml
