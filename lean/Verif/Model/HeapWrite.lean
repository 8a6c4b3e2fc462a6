import Verif.Model.HeapMessage
import Verif.Model.Transport

/-!
# Writing through pointers

The write functions on the addressed heap of `Verif.Model.Heap`: every member is read through the address of its structure.
The target buffer is `St`.
-/

namespace Sml

/-- The calls `w(p->m, buf)` for the pointer members from the `i`-th on. -/
def pWriteFields (a : Addr) : (i : Nat) → List (Addr → P Unit) → P Unit
  | _, [] => pure ()
  | i, w :: ws => do
    w (← readPtr a i)
    pWriteFields a (i + 1) ws

/-- `sml_buf_set_type_and_length(buf, SML_TYPE_LIST, n); w0(p->m0, buf); w1(p->m1, buf); ...`, the shape of most write
functions. -/
def pWriteStruct (n : Nat) (ws : List (Addr → P Unit)) (a : Addr) : P Unit := do
  lift (setTypeAndLength tyList n)
  pWriteFields a 0 ws

/-- `sml_number_write` (sml_number.c:131-145); see `numberWrite`. -/
def pNumberWrite (type size : Nat) (a : Addr) : P Unit :=
  if a = 0 then lift optionalWrite
  else do
    lift (setTypeAndLength type size)
    if size = 0 then fault (.buf .vla)
    else do
      let n ← readNum a
      if size ≤ n.size then lift (putBytes (beBytes size n.val)) else fault (.buf .oobRead)

abbrev pU8Write : Addr → P Unit := pNumberWrite tyUnsigned 1
abbrev pU16Write : Addr → P Unit := pNumberWrite tyUnsigned 2
abbrev pU32Write : Addr → P Unit := pNumberWrite tyUnsigned 4
abbrev pU64Write : Addr → P Unit := pNumberWrite tyUnsigned 8
abbrev pI8Write : Addr → P Unit := pNumberWrite tyInteger 1
abbrev pI64Write : Addr → P Unit := pNumberWrite tyInteger 8

/-- The bytes of an octet string for `memcpy`; none of them is read when the length is 0. -/
def pOctetBytes (a : Addr) : P (List UInt8) := do
  let str ← readPtr a 0
  let len ← readInt a 0
  if len = 0 then pure [] else readRaw str len

/-- `sml_octet_string_write` (sml_octet_string.c:91-100). -/
def pOctetStringWrite (a : Addr) : P Unit :=
  if a = 0 then lift optionalWrite
  else do
    lift (setTypeAndLength tyOctet (← readInt a 0))
    let bytes ← pOctetBytes a
    lift (putBytes bytes)

/-- `sml_boolean_write` (sml_boolean.c:58-71). -/
def pBooleanWrite (a : Addr) : P Unit :=
  if a = 0 then lift optionalWrite
  else do
    lift (setTypeAndLength tyBoolean 1)
    let b ← readTag 1 a
    if b.val = 0 then lift (setByte 0x00) else lift (setByte 0xFF)
    lift advance

/-- `sml_value_write` (sml_value.c:64-83). -/
def pValueWrite (a : Addr) : P Unit :=
  if a = 0 then lift optionalWrite
  else do
    let type ← readInt a 0
    let d ← readPtr a 0
    if type &&& 0x70 = tyOctet then pOctetStringWrite d
    else if type &&& 0x70 = tyBoolean then pBooleanWrite d
    else if type &&& 0x70 = tyUnsigned ∨ type &&& 0x70 = tyInteger then pNumberWrite (type &&& 0x70) (type &&& 0xF) d
    else pure ()

/-- `sml_status_write` (sml_status.c:61-68). -/
def pStatusWrite (a : Addr) : P Unit :=
  if a = 0 then lift optionalWrite
  else do
    let type ← readInt a 0
    pNumberWrite (type &&& 0x70) (type &&& 0xF) (← readPtr a 0)

/-- `sml_time_write` (sml_time.c:120-129). -/
def pTimeWrite (a : Addr) : P Unit :=
  if a = 0 then lift optionalWrite
  else pWriteStruct 2 [pU8Write, pU32Write] a

/-! ## Sequences, lists, trees -/

/-- `sml_sequence_write` (sml_list.c:62-75). -/
def pSequenceWrite (w : Addr → P Unit) (a : Addr) : P Unit :=
  if a = 0 then lift optionalWrite
  else do
    lift (setTypeAndLength tyList (← readInt a 0))
    pForEach w a 0 (← readInt a 0) 0

/-- `sml_list_entry_write` (sml_list.c:301-310). -/
def pListEntryWrite (a : Addr) : P Unit :=
  pWriteStruct 7 [pOctetStringWrite, pStatusWrite, pTimeWrite, pU8Write, pI8Write, pValueWrite, pOctetStringWrite] a

/-- The loop sml_list.c:320-323: the number of entries. `fuel` bounds the rounds. -/
def pListLen : (fuel : Nat) → (i : Addr) → (len : Nat) → P Nat
  | 0, _, _ => fault (.buf .fuel)
  | fuel + 1, i, len =>
    if i ≠ 0 then do
      let i ← readPtr i 7
      pListLen fuel i (len + 1)
    else pure len

/-- The loop sml_list.c:328-331; `fuel` bounds the rounds. -/
def pListWriteLoop : (fuel : Nat) → (i : Addr) → P Unit
  | 0, _ => fault (.buf .fuel)
  | fuel + 1, i =>
    if i ≠ 0 then do
      pListEntryWrite i
      let i ← readPtr i 7
      pListWriteLoop fuel i
    else pure ()

/-- `sml_list_write` (sml_list.c:312-332). There are fewer rounds than addresses. -/
def pListWrite (a : Addr) : P Unit := fun st h =>
  (if a = 0 then lift optionalWrite
  else do
    let len ← pListLen (h.next + 1) a 0
    lift (setTypeAndLength tyList len)
    pListWriteLoop (h.next + 1) a : P Unit) st h

/-- `sml_tree_path_write` (sml_tree.c:70-84). -/
def pTreePathWrite (a : Addr) : P Unit :=
  if a = 0 then lift optionalWrite
  else do
    if (← readPtr a 0) ≠ 0 ∧ (← readInt a 0) > 0 then do
      lift (setTypeAndLength tyList (← readInt a 0))
      pForEach pOctetStringWrite a 0 (← readInt a 0) 0
    else pure ()

/-- `sml_period_entry_write` (sml_tree.c:590-603). -/
def pPeriodEntryWrite (a : Addr) : P Unit :=
  if a = 0 then lift optionalWrite
  else pWriteStruct 5
    [pOctetStringWrite, pU8Write, pI8Write, pValueWrite, pOctetStringWrite] a

/-- `sml_tupel_entry_write` (sml_tree.c:455-494). -/
def pTupelEntryWrite (a : Addr) : P Unit :=
  if a = 0 then lift optionalWrite
  else pWriteStruct 23
    [pOctetStringWrite, pTimeWrite, pU64Write, pU8Write, pI8Write, pI64Write, pU8Write, pI8Write, pI64Write,
      pU8Write, pI8Write, pI64Write, pOctetStringWrite, pU8Write, pI8Write, pI64Write, pU8Write, pI8Write,
      pI64Write, pU8Write, pI8Write, pI64Write, pOctetStringWrite] a

/-- `sml_proc_par_value_write` (sml_tree.c:262-287). -/
def pProcParValueWrite (a : Addr) : P Unit :=
  if a = 0 then lift optionalWrite
  else do
    lift (setTypeAndLength tyList 2)
    pU8Write (← readPtr a 0)
    let t ← readTag 1 (← readPtr a 0)
    let d ← readPtr a 1
    if t.val = 1 then pValueWrite d
    else if t.val = 2 then pPeriodEntryWrite d
    else if t.val = 3 then pTupelEntryWrite d
    else if t.val = 4 then pTimeWrite d
    else pure ()

/-- `sml_tree_write` (sml_tree.c:185-206); `fuel` bounds the nesting. -/
def pTreeWriteAux : (fuel : Nat) → Addr → P Unit
  | 0, _ => fault (.buf .fuel)
  | fuel + 1, a =>
    if a = 0 then lift optionalWrite
    else do
      lift (setTypeAndLength tyList 3)
      pOctetStringWrite (← readPtr a 0)
      pProcParValueWrite (← readPtr a 1)
      if (← readPtr a 2) ≠ 0 ∧ (← readInt a 0) > 0 then do
        lift (setTypeAndLength tyList (← readInt a 0))
        pForEach (pTreeWriteAux fuel) a 2 (← readInt a 0) 0
      else lift optionalWrite

/-- `sml_tree_write` (sml_tree.c:185-206). A tree is nested less deeply than there are addresses. -/
def pTreeWrite (a : Addr) : P Unit := fun st h => pTreeWriteAux (h.next + 1) a st h

/-! ## Message bodies -/

/-- `sml_open_request_write` (sml_open_request.c:83-93). -/
def pOpenRequestWrite (a : Addr) : P Unit :=
  pWriteStruct 7
    [pOctetStringWrite, pOctetStringWrite, pOctetStringWrite, pOctetStringWrite, pOctetStringWrite,
      pOctetStringWrite, pU8Write] a

/-- `sml_open_response_write` (sml_open_response.c:77-86). -/
def pOpenResponseWrite (a : Addr) : P Unit :=
  pWriteStruct 6
    [pOctetStringWrite, pOctetStringWrite, pOctetStringWrite, pOctetStringWrite, pTimeWrite, pU8Write] a

/-- `sml_close_request_write` (sml_close_request.c:53-56). -/
def pCloseRequestWrite (a : Addr) : P Unit :=
  pWriteStruct 1
    [pOctetStringWrite] a

/-- `sml_close_response_write` (sml_close_response.c:53-56). -/
def pCloseResponseWrite (a : Addr) : P Unit :=
  pWriteStruct 1
    [pOctetStringWrite] a

/-- `sml_value_entry_write` (sml_get_profile_pack_response.c:133-139). -/
def pValueEntryWrite (a : Addr) : P Unit :=
  pWriteStruct 2
    [pValueWrite, pOctetStringWrite] a

/-- `sml_prof_obj_header_entry_write` (sml_get_profile_pack_response.c:85-93). -/
def pProfObjHeaderEntryWrite (a : Addr) : P Unit :=
  pWriteStruct 3
    [pOctetStringWrite, pU8Write, pI8Write] a

/-- `sml_prof_obj_period_entry_write` (sml_get_profile_pack_response.c:95-103). -/
def pProfObjPeriodEntryWrite (a : Addr) : P Unit :=
  pWriteStruct 4
    [pTimeWrite, pU64Write, pSequenceWrite pValueEntryWrite, pOctetStringWrite] a

/-- `sml_get_profile_pack_response_write` (sml_get_profile_pack_response.c:224-235). -/
def pGetProfilePackResponseWrite (a : Addr) : P Unit :=
  pWriteStruct 8
    [pOctetStringWrite, pTimeWrite, pU32Write, pTreePathWrite, pSequenceWrite pProfObjHeaderEntryWrite,
      pSequenceWrite pProfObjPeriodEntryWrite, pOctetStringWrite, pOctetStringWrite] a

/-- `sml_get_profile_list_response_write` (sml_get_profile_list_response.c:101-113). -/
def pGetProfileListResponseWrite (a : Addr) : P Unit :=
  pWriteStruct 9
    [pOctetStringWrite, pTimeWrite, pU32Write, pTreePathWrite, pTimeWrite, pU64Write,
      pSequenceWrite pPeriodEntryWrite, pOctetStringWrite, pOctetStringWrite] a

/-- `sml_get_proc_parameter_request_write` (sml_get_proc_parameter_request.c:75-83). -/
def pGetProcParameterRequestWrite (a : Addr) : P Unit :=
  pWriteStruct 5
    [pOctetStringWrite, pOctetStringWrite, pOctetStringWrite, pTreePathWrite, pOctetStringWrite] a

/-- `sml_get_proc_parameter_response_write` (sml_get_proc_parameter_response.c:63-68). -/
def pGetProcParameterResponseWrite (a : Addr) : P Unit :=
  pWriteStruct 3
    [pOctetStringWrite, pTreePathWrite, pTreeWrite] a

/-- `sml_set_proc_parameter_request_write` (sml_set_proc_parameter_request.c:73-80). -/
def pSetProcParameterRequestWrite (a : Addr) : P Unit :=
  pWriteStruct 5
    [pOctetStringWrite, pOctetStringWrite, pOctetStringWrite, pTreePathWrite, pTreeWrite] a

/-- `sml_get_list_request_write` (sml_get_list_request.c:33-41). -/
def pGetListRequestWrite (a : Addr) : P Unit :=
  pWriteStruct 5
    [pOctetStringWrite, pOctetStringWrite, pOctetStringWrite, pOctetStringWrite, pOctetStringWrite] a

/-- `sml_get_list_response_write` (sml_get_list_response.c:82-92). -/
def pGetListResponseWrite (a : Addr) : P Unit :=
  pWriteStruct 7
    [pOctetStringWrite, pOctetStringWrite, pOctetStringWrite, pTimeWrite, pListWrite, pOctetStringWrite,
      pTimeWrite] a

/-- `sml_attention_response_write` (sml_attention_response.c:68-75). -/
def pAttentionResponseWrite (a : Addr) : P Unit :=
  pWriteStruct 4
    [pOctetStringWrite, pOctetStringWrite, pOctetStringWrite, pTreeWrite] a

/-- The loop sml_get_profile_pack_request.c:55-57: one more than the rounds; `fuel` bounds them. -/
def pObjectsLen : (fuel : Nat) → (l : Addr) → (len : Nat) → P Nat
  | 0, _, _ => fault (.buf .fuel)
  | fuel + 1, l, len => do
    if (← readPtr l 1) ≠ 0 then pObjectsLen fuel (← readPtr l 1) (len + 1) else pure len

/-- The loop sml_get_profile_pack_request.c:59-61; `fuel` bounds the rounds. -/
def pObjectsWriteLoop : (fuel : Nat) → (l : Addr) → P Unit
  | 0, _ => fault (.buf .fuel)
  | fuel + 1, l => do
    if (← readPtr l 1) ≠ 0 then do
      pOctetStringWrite (← readPtr l 0)
      pObjectsWriteLoop fuel (← readPtr l 1)
    else pure ()

/-- sml_get_profile_pack_request.c:52-64. There are fewer rounds than addresses. -/
def pObjectsWrite (a : Addr) : P Unit := fun st h =>
  (if a ≠ 0 then do
    let len ← pObjectsLen (h.next + 1) a 1
    lift (setTypeAndLength tyList len)
    pObjectsWriteLoop (h.next + 1) a
  else lift optionalWrite : P Unit) st h

/-- `sml_get_profile_pack_request_write` (sml_get_profile_pack_request.c:41-67). -/
def pGetProfilePackRequestWrite (a : Addr) : P Unit :=
  pWriteStruct 9
    [pOctetStringWrite, pOctetStringWrite, pOctetStringWrite, pBooleanWrite, pTimeWrite, pTimeWrite, pTreePathWrite,
      pObjectsWrite, pTreeWrite] a

/-! ## Messages and files -/

/-- The switch sml_message.c:237-289. -/
def pBodyDataWrite (tag : Nat) (d : Addr) : P Unit :=
  if tag = tagOpenRequest then pOpenRequestWrite d
  else if tag = tagOpenResponse then pOpenResponseWrite d
  else if tag = tagCloseRequest then pCloseRequestWrite d
  else if tag = tagCloseResponse then pCloseResponseWrite d
  else if tag = tagGetProfilePackRequest then pGetProfilePackRequestWrite d
  else if tag = tagGetProfilePackResponse then pGetProfilePackResponseWrite d
  else if tag = tagGetProfileListRequest then pGetProfilePackRequestWrite d
  else if tag = tagGetProfileListResponse then pGetProfileListResponseWrite d
  else if tag = tagGetProcParameterRequest then pGetProcParameterRequestWrite d
  else if tag = tagGetProcParameterResponse then pGetProcParameterResponseWrite d
  else if tag = tagSetProcParameterRequest then pSetProcParameterRequestWrite d
  else if tag = tagGetListRequest then pGetListRequestWrite d
  else if tag = tagGetListResponse then pGetListResponseWrite d
  else if tag = tagAttentionResponse then pAttentionResponseWrite d
  else pure ()

/-- `sml_message_body_write` (sml_message.c:233-290). -/
def pMessageBodyWrite (a : Addr) : P Unit := do
  lift (setTypeAndLength tyList 2)
  pU32Write (← readPtr a 0)
  let t ← readTag 4 (← readPtr a 0)
  pBodyDataWrite t.val (← readPtr a 1)

/-- `sml_message_write` (sml_message.c:129-145): the pointer to a new checksum object replaces the member `crc`. -/
def pMessageWrite (a : Addr) : P Unit := do
  let msgStart ← lift cursorAsInt
  pWriteStruct 6 [pOctetStringWrite, pU8Write, pU8Write, pMessageBodyWrite] a
  let st ← lift getSt
  if st.cursor > 2147483647 then fault (.buf .narrowing)
  else do
    let bytes ← lift (bufferSlice msgStart (st.cursor - msgStart))
    let crc ← malloc (.num (numberInit (crc16 bytes).toNat 2))
    writePtr a 4 crc
    pU16Write (← readPtr a 4)
    lift (setByte 0x00)
    lift advance

/-- `sml_file_write` (sml_file.c:80-88). -/
def pFileWrite (a : Addr) : P Unit := do
  if (← readPtr a 0) ≠ 0 ∧ (← readInt a 0) > 0 then pForEach pMessageWrite a 0 (← readInt a 0) 0
  else pure ()

/-- `sml_transport_write` (sml_transport.c:127-164) up to the call of `write`; see `transportFrame`. -/
def pTransportFrame (a : Addr) : P (List UInt8) := do
  let _ ← readPtr a 1
  lift (modSt fun st => { st with cursor := 0 })
  lift (putBytes startSeq)
  pFileWrite a
  let st ← lift getSt
  let padding := if st.cursor % 4 ≠ 0 then 4 - st.cursor % 4 else 0
  (if padding ≠ 0 then lift (putBytes (List.replicate padding 0)) else pure () : P Unit)
  lift (putBytes endSeq)
  lift (putBytes [UInt8.ofNat padding])
  let st ← lift getSt
  let bytes ← lift (bufferSlice 0 st.cursor)
  let crc := (crc16 bytes).toNat
  lift (putBytes [UInt8.ofNat ((crc &&& 0xFF00) >>> 8)])
  lift (putBytes [UInt8.ofNat (crc &&& 0x00FF)])
  let st ← lift getSt
  lift (bufferSlice 0 st.cursor)

end Sml
