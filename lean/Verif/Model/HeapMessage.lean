import Verif.Model.Heap

/-!
# Message bodies, messages and files on the heap
-/

namespace Sml

/-- `sml_open_request_free` (sml_open_request.c:95-107). -/
def pOpenRequestFree (a : Addr) : P Unit :=
  pFreeStruct [pOctetStringFree, pOctetStringFree, pOctetStringFree, pOctetStringFree, pOctetStringFree,
    pOctetStringFree, pNumberFree] a

/-- `sml_open_request_parse` (sml_open_request.c:35-81) with `sml_open_request_init`. -/
def pOpenRequestParse : P Addr := do
  let m ← malloc (.struct [0, 0, 0, 0, 0, 0, 0] [])
  let err := pAbort pOpenRequestFree m 0
  pExpectList 7 err <|
    pField pOctetStringParse m 0 err <|
    pField pOctetStringParse m 1 err <|
    pField pOctetStringParse m 2 err <|
    pField pOctetStringParse m 3 err <|
    pField pOctetStringParse m 4 err <|
    pField pOctetStringParse m 5 err <|
    pField pU8Parse m 6 err <|
    pure m

/-- `sml_open_response_free` (sml_open_response.c:88-99). -/
def pOpenResponseFree (a : Addr) : P Unit :=
  pFreeStruct [pOctetStringFree, pOctetStringFree, pOctetStringFree, pOctetStringFree, pTimeFree, pNumberFree] a

/-- `sml_open_response_parse` (sml_open_response.c:34-75) with `sml_open_response_init`. -/
def pOpenResponseParse : P Addr := do
  let m ← malloc (.struct [0, 0, 0, 0, 0, 0] [])
  let err := pAbort pOpenResponseFree m 0
  pExpectList 6 err <|
    pField pOctetStringParse m 0 err <|
    pField pOctetStringParse m 1 err <|
    pField pOctetStringParse m 2 err <|
    pField pOctetStringParse m 3 err <|
    pField pTimeParse m 4 err <|
    pField pU8Parse m 5 err <|
    pure m

/-- `sml_close_request_free` (sml_close_request.c:58-63). -/
def pCloseRequestFree (a : Addr) : P Unit :=
  pFreeStruct [pOctetStringFree] a

/-- `sml_close_request_parse` (sml_close_request.c:29-51) with `sml_close_request_init`. -/
def pCloseRequestParse : P Addr := do
  let m ← malloc (.struct [0] [])
  let err := pAbort pCloseRequestFree m 0
  pExpectList 1 err <|
    pField pOctetStringParse m 0 err <|
    pure m

/-- `sml_close_response_free` (sml_close_response.c:58-64). -/
def pCloseResponseFree (a : Addr) : P Unit :=
  pFreeStruct [pOctetStringFree] a

/-- `sml_close_response_parse` (sml_close_response.c:29-51) with `sml_close_response_init`. -/
def pCloseResponseParse : P Addr := do
  let m ← malloc (.struct [0] [])
  let err := pAbort pCloseResponseFree m 0
  pExpectList 1 err <|
    pField pOctetStringParse m 0 err <|
    pure m

/-- `sml_value_entry_free` (sml_get_profile_pack_response.c:141-150). -/
def pValueEntryFree (a : Addr) : P Unit :=
  pFreeStruct [pValueFree, pOctetStringFree] a

/-- `sml_value_entry_parse` (sml_get_profile_pack_response.c:105-131) with `sml_value_entry_init`. -/
def pValueEntryParse : P Addr := do
  let m ← malloc (.struct [0, 0] [])
  let err := pAbort pValueEntryFree m 0
  pExpectList 2 err <|
    pField pValueParse m 0 err <|
    pField pOctetStringParse m 1 err <|
    pure m

/-- `sml_prof_obj_header_entry_free` (sml_get_profile_pack_response.c:27-36). -/
def pProfObjHeaderEntryFree (a : Addr) : P Unit :=
  pFreeStruct [pOctetStringFree, pNumberFree, pNumberFree] a

/-- `sml_prof_obj_header_entry_parse` (sml_get_profile_pack_response.c:261-289) with `sml_prof_obj_header_entry_init`. -/
def pProfObjHeaderEntryParse : P Addr := do
  let m ← malloc (.struct [0, 0, 0] [])
  let err := pAbort pProfObjHeaderEntryFree m 0
  pExpectList 3 err <|
    pField pOctetStringParse m 0 err <|
    pField pU8Parse m 1 err <|
    pField pI8Parse m 2 err <|
    pure m

/-- `sml_prof_obj_period_entry_free` (sml_get_profile_pack_response.c:72-83). -/
def pProfObjPeriodEntryFree (a : Addr) : P Unit :=
  pFreeStruct [pTimeFree, pNumberFree, (pSequenceFree .sml_value_entry_free_ pValueEntryFree), pOctetStringFree] a

/-- `sml_prof_obj_period_entry_parse` (sml_get_profile_pack_response.c:38-70) with `sml_prof_obj_period_entry_init`. -/
def pProfObjPeriodEntryParse : P Addr := do
  let m ← malloc (.struct [0, 0, 0, 0] [])
  let err := pAbort pProfObjPeriodEntryFree m 0
  pExpectList 4 err <|
    pField pTimeParse m 0 err <|
    pField pU64Parse m 1 err <|
    pField (pSequenceParse pValueEntryParse .sml_value_entry_free_ pValueEntryFree) m 2 err <|
    pField pOctetStringParse m 3 err <|
    pure m

/-- `sml_get_profile_pack_response_free` (sml_get_profile_pack_response.c:237-250). -/
def pGetProfilePackResponseFree (a : Addr) : P Unit :=
  pFreeStruct [pOctetStringFree, pTimeFree, pNumberFree, pTreePathFree, (pSequenceFree .sml_prof_obj_header_entry_free_ pProfObjHeaderEntryFree),
    (pSequenceFree .sml_prof_obj_period_entry_free_ pProfObjPeriodEntryFree), pOctetStringFree, pOctetStringFree] a

/-- `sml_get_profile_pack_response_parse` (sml_get_profile_pack_response.c:169-222) with `sml_get_profile_pack_response_init`. -/
def pGetProfilePackResponseParse : P Addr := do
  let m ← malloc (.struct [0, 0, 0, 0, 0, 0, 0, 0] [])
  let err := pAbort pGetProfilePackResponseFree m 0
  pExpectList 8 err <|
    pField pOctetStringParse m 0 err <|
    pField pTimeParse m 1 err <|
    pField pU32Parse m 2 err <|
    pField pTreePathParse m 3 err <|
    pField (pSequenceParse pProfObjHeaderEntryParse .sml_prof_obj_header_entry_free_ pProfObjHeaderEntryFree) m 4 err <|
    pField (pSequenceParse pProfObjPeriodEntryParse .sml_prof_obj_period_entry_free_ pProfObjPeriodEntryFree) m 5 err <|
    pField pOctetStringParse m 6 err <|
    pField pOctetStringParse m 7 err <|
    pure m

/-- `sml_get_profile_list_response_free` (sml_get_profile_list_response.c:115-129). -/
def pGetProfileListResponseFree (a : Addr) : P Unit :=
  pFreeStruct [pOctetStringFree, pTimeFree, pNumberFree, pTreePathFree, pTimeFree, pNumberFree, (pSequenceFree .sml_period_entry_free_get pPeriodEntryFree), pOctetStringFree, pOctetStringFree] a

/-- `sml_get_profile_list_response_parse` (sml_get_profile_list_response.c:42-97) with `sml_get_profile_list_response_init`. -/
def pGetProfileListResponseParse : P Addr := do
  let m ← malloc (.struct [0, 0, 0, 0, 0, 0, 0, 0, 0] [])
  let err := pAbort pGetProfileListResponseFree m 0
  pExpectList 9 err <|
    pField pOctetStringParse m 0 err <|
    pField pTimeParse m 1 err <|
    pField pU32Parse m 2 err <|
    pField pTreePathParse m 3 err <|
    pField pTimeParse m 4 err <|
    pField pU64Parse m 5 err <|
    pField (pSequenceParse pPeriodEntryParse .sml_period_entry_free_get pPeriodEntryFree) m 6 err <|
    pField pOctetStringParse m 7 err <|
    pField pOctetStringParse m 8 err <|
    pure m

/-- `sml_get_proc_parameter_request_free` (sml_get_proc_parameter_request.c:85-95). -/
def pGetProcParameterRequestFree (a : Addr) : P Unit :=
  pFreeStruct [pOctetStringFree, pOctetStringFree, pOctetStringFree, pTreePathFree, pOctetStringFree] a

/-- `sml_get_proc_parameter_request_parse` (sml_get_proc_parameter_request.c:35-73) with `sml_get_proc_parameter_request_init`. -/
def pGetProcParameterRequestParse : P Addr := do
  let m ← malloc (.struct [0, 0, 0, 0, 0] [])
  let err := pAbort pGetProcParameterRequestFree m 0
  pExpectList 5 err <|
    pField pOctetStringParse m 0 err <|
    pField pOctetStringParse m 1 err <|
    pField pOctetStringParse m 2 err <|
    pField pTreePathParse m 3 err <|
    pField pOctetStringParse m 4 err <|
    pure m

/-- `sml_get_proc_parameter_response_free` (sml_get_proc_parameter_response.c:70-78). -/
def pGetProcParameterResponseFree (a : Addr) : P Unit :=
  pFreeStruct [pOctetStringFree, pTreePathFree, pTreeFree] a

/-- `sml_get_proc_parameter_response_parse` (sml_get_proc_parameter_response.c:31-61) with `sml_get_proc_parameter_response_init`. -/
def pGetProcParameterResponseParse (depth : Nat) : P Addr := do
  let m ← malloc (.struct [0, 0, 0] [])
  let err := pAbort pGetProcParameterResponseFree m 0
  pExpectList 3 err <|
    pField pOctetStringParse m 0 err <|
    pField pTreePathParse m 1 err <|
    pField (pTreeParse depth) m 2 err <|
    pure m

/-- `sml_set_proc_parameter_request_free` (sml_set_proc_parameter_request.c:82-92). -/
def pSetProcParameterRequestFree (a : Addr) : P Unit :=
  pFreeStruct [pOctetStringFree, pOctetStringFree, pOctetStringFree, pTreePathFree, pTreeFree] a

/-- `sml_set_proc_parameter_request_parse` (sml_set_proc_parameter_request.c:33-71) with `sml_set_proc_parameter_request_init`. -/
def pSetProcParameterRequestParse (depth : Nat) : P Addr := do
  let m ← malloc (.struct [0, 0, 0, 0, 0] [])
  let err := pAbort pSetProcParameterRequestFree m 0
  pExpectList 5 err <|
    pField pOctetStringParse m 0 err <|
    pField pOctetStringParse m 1 err <|
    pField pOctetStringParse m 2 err <|
    pField pTreePathParse m 3 err <|
    pField (pTreeParse depth) m 4 err <|
    pure m

/-- `sml_get_list_request_free` (sml_get_list_request.c:88-97): `list_name`, the last member, is freed before `username` and
`password`. -/
def pGetListRequestFree (a : Addr) : P Unit :=
  if a = 0 then pure () else do
    pOctetStringFree (← readPtr a 0)
    pOctetStringFree (← readPtr a 1)
    pOctetStringFree (← readPtr a 4)
    pOctetStringFree (← readPtr a 2)
    pOctetStringFree (← readPtr a 3)
    free a

/-- `sml_get_list_request_parse` (sml_get_list_request.c:43-86) with `sml_get_list_request_init`. -/
def pGetListRequestParse : P Addr := do
  let m ← malloc (.struct [0, 0, 0, 0, 0] [])
  let err := pAbort pGetListRequestFree m 0
  pExpectList 5 err <|
    pField pOctetStringParse m 0 err <|
    pField pOctetStringParse m 1 err <|
    pField pOctetStringParse m 2 err <|
    pField pOctetStringParse m 3 err <|
    pField pOctetStringParse m 4 err <|
    pure m

/-- `sml_get_list_response_free` (sml_get_list_response.c:94-106). -/
def pGetListResponseFree (a : Addr) : P Unit :=
  pFreeStruct [pOctetStringFree, pOctetStringFree, pOctetStringFree, pTimeFree, pListFree, pOctetStringFree,
    pTimeFree] a

/-- `sml_get_list_response_parse` (sml_get_list_response.c:34-80) with `sml_get_list_response_init`. -/
def pGetListResponseParse : P Addr := do
  let m ← malloc (.struct [0, 0, 0, 0, 0, 0, 0] [])
  let err := pAbort pGetListResponseFree m 0
  pExpectList 7 err <|
    pField pOctetStringParse m 0 err <|
    pField pOctetStringParse m 1 err <|
    pField pOctetStringParse m 2 err <|
    pField pTimeParse m 3 err <|
    pField pListParse m 4 err <|
    pField pOctetStringParse m 5 err <|
    pField pTimeParse m 6 err <|
    pure m

/-- `sml_attention_response_free` (sml_attention_response.c:77-86). -/
def pAttentionResponseFree (a : Addr) : P Unit :=
  pFreeStruct [pOctetStringFree, pOctetStringFree, pOctetStringFree, pTreeFree] a

/-- `sml_attention_response_parse` (sml_attention_response.c:32-66) with `sml_attention_response_init`. -/
def pAttentionResponseParse (depth : Nat) : P Addr := do
  let m ← malloc (.struct [0, 0, 0, 0] [])
  let err := pAbort pAttentionResponseFree m 0
  pExpectList 4 err <|
    pField pOctetStringParse m 0 err <|
    pField pOctetStringParse m 1 err <|
    pField pOctetStringParse m 2 err <|
    pField (pTreeParse depth) m 3 err <|
    pure m

/-! ## `sml_get_profile_pack_request` -/

/-- The loop sml_get_profile_pack_request.c:159-167 from the node `d` on: pointer members `object_list_entry`, `next`;
`fuel` bounds the rounds. -/
def pObjectListFree : (fuel : Nat) → (d : Addr) → P Unit
  | 0, _ => fault (.buf .fuel)
  | fuel + 1, d =>
    if d ≠ 0 then do
      let n ← readPtr d 1
      pOctetStringFree (← readPtr d 0)
      free d
      pObjectListFree fuel n
    else pure ()

/-- sml_get_profile_pack_request.c:159-167. There are fewer rounds than addresses. -/
def pObjectsFree (a : Addr) : P Unit := fun st h => pObjectListFree (h.next + 1) a st h

/-- `sml_get_profile_pack_request_free` (sml_get_profile_pack_request.c:149-172). -/
def pGetProfilePackRequestFree (a : Addr) : P Unit :=
  pFreeStruct [pOctetStringFree, pOctetStringFree, pOctetStringFree, pNumberFree, pTimeFree, pTimeFree, pTreePathFree,
    pObjectsFree, pTreeFree] a

/-- The loop sml_get_profile_pack_request.c:117-135 with `elems` rounds left, followed by `k`. -/
def pObjectListLoop (m : Addr) (err k : P Addr) : (elems : Nat) → (last : Addr) → P Addr
  | 0, _ => k
  | elems + 1, last => do
    let n ← malloc (.struct [0, 0] [])
    let e ← pOctetStringParse
    writePtr n 0 e
    if ← lift hasErrors then do
      let e ← readPtr n 0
      (if e ≠ 0 then pOctetStringFree e else pure () : P Unit)
      free n
      err
    else if (← readPtr m 7) = 0 then do
      writePtr m 7 n
      pObjectListLoop m err k elems n
    else do
      writePtr last 1 n
      pObjectListLoop m err k elems n

/-- `sml_get_profile_pack_request_parse` (sml_get_profile_pack_request.c:69-147) with `sml_get_profile_pack_request_init`. -/
def pGetProfilePackRequestParse (depth : Nat) : P Addr := do
  let m ← malloc (.struct [0, 0, 0, 0, 0, 0, 0, 0, 0] [])
  let err := pAbort pGetProfilePackRequestFree m 0
  let rest := pField (pTreeParse depth) m 8 err (pure m)
  pExpectList 9 err <|
    pField pOctetStringParse m 0 err <|
    pField pOctetStringParse m 1 err <|
    pField pOctetStringParse m 2 err <|
    pField pBooleanParse m 3 err <|
    pField pTimeParse m 4 err <|
    pField pTimeParse m 5 err <|
    pField pTreePathParse m 6 err do
    if ← lift optionalIsSkipped then rest
    else if (← lift getNextType) ≠ tyList then do
      lift setError
      err
    else
      let len ← lift getNextLength
      pObjectListLoop m err rest len.toNat 0

/-! ## Messages -/

/-- The switch sml_message.c:294-344. -/
def pBodyDataFree (tag : Nat) (d : Addr) : P Unit :=
  if tag = tagOpenRequest then pOpenRequestFree d
  else if tag = tagOpenResponse then pOpenResponseFree d
  else if tag = tagCloseRequest then pCloseRequestFree d
  else if tag = tagCloseResponse then pCloseResponseFree d
  else if tag = tagGetProfilePackRequest then pGetProfilePackRequestFree d
  else if tag = tagGetProfilePackResponse then pGetProfilePackResponseFree d
  else if tag = tagGetProfileListRequest then pGetProfilePackRequestFree d
  else if tag = tagGetProfileListResponse then pGetProfileListResponseFree d
  else if tag = tagGetProcParameterRequest then pGetProcParameterRequestFree d
  else if tag = tagGetProcParameterResponse then pGetProcParameterResponseFree d
  else if tag = tagSetProcParameterRequest then pSetProcParameterRequestFree d
  else if tag = tagGetListRequest then pGetListRequestFree d
  else if tag = tagGetListResponse then pGetListResponseFree d
  else if tag = tagAttentionResponse then pAttentionResponseFree d
  else pure ()

/-- `sml_message_body_free` (sml_message.c:292-348): pointer members `tag`, `data`. -/
def pMessageBodyFree (a : Addr) : P Unit :=
  if a ≠ 0 then do
    let t ← readTag 4 (← readPtr a 0)
    pBodyDataFree t.val (← readPtr a 1)
    pNumberFree (← readPtr a 0)
    free a
  else pure ()

/-- The switch sml_message.c:172-218. -/
def pBodyDataParse (depth : Nat) (tag : Nat) : P Addr :=
  if tag = tagOpenRequest then pOpenRequestParse
  else if tag = tagOpenResponse then pOpenResponseParse
  else if tag = tagCloseRequest then pCloseRequestParse
  else if tag = tagCloseResponse then pCloseResponseParse
  else if tag = tagGetProfilePackRequest then pGetProfilePackRequestParse depth
  else if tag = tagGetProfilePackResponse then pGetProfilePackResponseParse
  else if tag = tagGetProfileListRequest then pGetProfilePackRequestParse depth
  else if tag = tagGetProfileListResponse then pGetProfileListResponseParse
  else if tag = tagGetProcParameterRequest then pGetProcParameterRequestParse
  else if tag = tagGetProcParameterResponse then pGetProcParameterResponseParse depth
  else if tag = tagSetProcParameterRequest then pSetProcParameterRequestParse depth
  else if tag = tagGetListRequest then pGetListRequestParse
  else if tag = tagGetListResponse then pGetListResponseParse
  else if tag = tagAttentionResponse then pAttentionResponseParse depth
  else pure 0

/-- `sml_message_body_parse` (sml_message.c:149-225); the label `error` frees the structure only. For a tag that is not known
`data` is left as it is, which is NULL. -/
def pMessageBodyParse (depth : Nat) : P Addr := do
  let b ← malloc (.struct [0, 0] [])
  let err := pAbort free b 0
  let st ← lift getSt
  if st.cursor + 1 > st.data.length then do
    lift setError
    err
  else
    pExpectList 2 err <|
    pField pU32Parse b 0 err do
    let tag ← readPtr b 0
    if tag = 0 then err
    else do
      let t ← readTag 4 tag
      let d ← pBodyDataParse depth t.val
      writePtr b 1 d
      pure b

/-- `sml_message_free` (sml_message.c:118-127). -/
def pMessageFree (a : Addr) : P Unit :=
  pFreeStruct [pOctetStringFree, pNumberFree, pNumberFree, pMessageBodyFree, pNumberFree] a

/-- sml_message.c:68-100, the part after the body. -/
def pMessageParseTail (msgStart : Nat) (m : Addr) : P Addr := do
  let err := pAbort pMessageFree m 0
  let st ← lift getSt
  let len := st.cursor - msgStart
  if st.cursor > 2147483647 then fault (.buf .narrowing)
  else if st.data.length - st.cursor < 3 then do
    lift setError
    err
  else
  let crc ← pU16Parse
  writePtr m 4 crc
  if (← lift hasErrors) ∨ (← readPtr m 4) = 0 then do
    lift setError
    err
  else
    let bytes ← lift (bufferSlice msgStart len)
    let c ← readTag 2 (← readPtr m 4)
    if c.val ≠ (crc16 bytes).toNat ∧ c.val ≠ (crc16kermit bytes).toNat then err
    else
      let st ← lift getSt
      if st.cursor ≥ st.data.length then do
        lift setError
        err
      else
        let b ← lift getCurrentByte
        if b = 0x00 then do
          lift (updateBytesRead 1)
          pure m
        else pure m

/-- `sml_message_parse` (sml_message.c:32-105): pointer members `transaction_id`, `group_id`, `abort_on_error`,
`message_body`, `crc`. -/
def pMessageParse (depth : Nat) : P Addr := do
  let m ← malloc (.struct [0, 0, 0, 0, 0] [])
  let err := pAbort pMessageFree m 0
  let msgStart ← lift cursorAsInt
  pExpectList 6 err <|
    pField pOctetStringParse m 0 err <|
    pField pU8Parse m 1 err <|
    pField pU8Parse m 2 err <|
    pField (pMessageBodyParse depth) m 3 err <|
    pMessageParseTail msgStart m

/-! ## Files -/

/-- `sml_buffer_free` (sml_shared.c:135-143): pointer members `buffer`, `error_msg`. -/
def pBufferFree (a : Addr) : P Unit :=
  if a ≠ 0 then do
    if (← readPtr a 0) ≠ 0 then free (← readPtr a 0) else pure ()
    if (← readPtr a 1) ≠ 0 then free (← readPtr a 1) else pure ()
    free a
  else pure ()

/-- `sml_file_free` (sml_file.c:90-106): pointer members `messages`, `buf`, integer member `messages_len`. -/
def pFileFree (a : Addr) : P Unit :=
  if a ≠ 0 then do
    if (← readPtr a 0) ≠ 0 then do
      pForEach pMessageFree a 0 (← readInt a 0) 0
      free (← readPtr a 0)
    else pure ()
    if (← readPtr a 1) ≠ 0 then pBufferFree (← readPtr a 1) else pure ()
    free a
  else pure ()

/-- `sml_file_add_message` (sml_file.c:73-78); see `fileAddMessage` for the counter. -/
def pFileAddMessage (file msg : Addr) : P Unit := do
  if (← readInt file 0) ≥ 32767 then fault (.buf .counter)
  else pArrayAdd file 0 msg

/-- The loop sml_file.c:41-58; `fuel` bounds the rounds. -/
def pFileLoop (depth : Nat) (file : Addr) : (fuel : Nat) → P Addr
  | 0 => fault (.buf .fuel)
  | fuel + 1 => do
    let st ← lift getSt
    if st.cursor < st.data.length then
      let b ← lift getCurrentByte
      if b = 0x00 then do
        lift (updateBytesRead 1)
        pFileLoop depth file fuel
      else
        let msg ← pMessageParse depth
        if ← lift hasErrors then pure file
        else if msg ≠ 0 then do
          pFileAddMessage file msg
          pFileLoop depth file fuel
        else pFileLoop depth file fuel
    else pure file

/-- `sml_file_parse` (sml_file.c:30-61) with `sml_buffer_init` (sml_shared.c:119-128) on a heap that may hold other
objects. While the buffer is parsed it is `St`; its block keeps the bytes it was filled with. -/
def pFileParse (depth : Nat) (buffer : List UInt8) (h : Heap) : PRes Addr :=
  (do
    let file ← malloc (.struct [0, 0] [0])
    let buf ← malloc (.struct [0, 0] [])
    let arr ← malloc (.bytes (List.replicate buffer.length 0))
    writePtr buf 0 arr
    store arr (.bytes buffer)
    writePtr file 1 buf
    pFileLoop depth file (buffer.length + 1) : P Addr) { data := buffer } h

end Sml
