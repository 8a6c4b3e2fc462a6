import Verif.Model.Bodies
import Verif.Model.Crc16

/-!
# Messages and files

Models `sml/src/sml_message.c` and `sml/src/sml_file.c`.
-/

namespace Sml

/-! ## Message tags (sml_message.h:44-58) -/

abbrev tagOpenRequest : Nat := 0x100
abbrev tagOpenResponse : Nat := 0x101
abbrev tagCloseRequest : Nat := 0x200
abbrev tagCloseResponse : Nat := 0x201
abbrev tagGetProfilePackRequest : Nat := 0x300
abbrev tagGetProfilePackResponse : Nat := 0x301
abbrev tagGetProfileListRequest : Nat := 0x400
abbrev tagGetProfileListResponse : Nat := 0x401
abbrev tagGetProcParameterRequest : Nat := 0x500
abbrev tagGetProcParameterResponse : Nat := 0x501
abbrev tagSetProcParameterRequest : Nat := 0x600
abbrev tagGetListRequest : Nat := 0x700
abbrev tagGetListResponse : Nat := 0x701
abbrev tagAttentionResponse : Nat := 0xFF01

/-- `sml_message_body.data`: the constructor records which kind of object the
`void *` really refers to; `null` is its initial state. -/
inductive BodyData where
  | null
  | openRequest (p : Option OpenRequest)
  | openResponse (p : Option OpenResponse)
  | closeRequest (p : Option CloseRequest)
  | closeResponse (p : Option CloseResponse)
  | getProfilePackRequest (p : Option GetProfilePackRequest)
  | getProfilePackResponse (p : Option GetProfilePackResponse)
  | getProfileListRequest (p : Option GetProfilePackRequest)
  | getProfileListResponse (p : Option GetProfileListResponse)
  | getProcParameterRequest (p : Option GetProcParameterRequest)
  | getProcParameterResponse (p : Option GetProcParameterResponse)
  | setProcParameterRequest (p : Option SetProcParameterRequest)
  | getListRequest (p : Option GetListRequest)
  | getListResponse (p : Option GetListResponse)
  | attentionResponse (p : Option AttentionResponse)
deriving Repr

/-- `sml_message_body` (sml_message.h). -/
structure MessageBody where
  tag : Option Num
  data : BodyData
deriving Repr

def BodyData.blocks : BodyData → Nat
  | .null => 0
  | .openRequest p => own OpenRequest.blocks p
  | .openResponse p => own OpenResponse.blocks p
  | .closeRequest p => own CloseRequest.blocks p
  | .closeResponse p => own CloseResponse.blocks p
  | .getProfilePackRequest p => own GetProfilePackRequest.blocks p
  | .getProfilePackResponse p => own GetProfilePackResponse.blocks p
  | .getProfileListRequest p => own GetProfilePackRequest.blocks p
  | .getProfileListResponse p => own GetProfileListResponse.blocks p
  | .getProcParameterRequest p => own GetProcParameterRequest.blocks p
  | .getProcParameterResponse p => own GetProcParameterResponse.blocks p
  | .setProcParameterRequest p => own SetProcParameterRequest.blocks p
  | .getListRequest p => own GetListRequest.blocks p
  | .getListResponse p => own GetListResponse.blocks p
  | .attentionResponse p => own AttentionResponse.blocks p

def MessageBody.blocks (b : MessageBody) : Nat := 1 + own Num.blocks b.tag + b.data.blocks

/-- The switch sml_message.c:294-344 for a body with tag `tag`: blocks released. A
body whose data is of another kind than its tag says would be read as a foreign
object; parsing never builds one, and the model counts nothing for it. -/
def bodyDataFreed (tag : Nat) (d : BodyData) : Nat :=
  match d with
  | .null => 0
  | .openRequest p => if tag = tagOpenRequest then openRequestFreed p else 0
  | .openResponse p => if tag = tagOpenResponse then openResponseFreed p else 0
  | .closeRequest p => if tag = tagCloseRequest then closeRequestFreed p else 0
  | .closeResponse p => if tag = tagCloseResponse then closeResponseFreed p else 0
  | .getProfilePackRequest p => if tag = tagGetProfilePackRequest then getProfilePackRequestFreed p else 0
  | .getProfilePackResponse p => if tag = tagGetProfilePackResponse then getProfilePackResponseFreed p else 0
  | .getProfileListRequest p => if tag = tagGetProfileListRequest then getProfilePackRequestFreed p else 0
  | .getProfileListResponse p => if tag = tagGetProfileListResponse then getProfileListResponseFreed p else 0
  | .getProcParameterRequest p => if tag = tagGetProcParameterRequest then getProcParameterRequestFreed p else 0
  | .getProcParameterResponse p => if tag = tagGetProcParameterResponse then getProcParameterResponseFreed p else 0
  | .setProcParameterRequest p => if tag = tagSetProcParameterRequest then setProcParameterRequestFreed p else 0
  | .getListRequest p => if tag = tagGetListRequest then getListRequestFreed p else 0
  | .getListResponse p => if tag = tagGetListResponse then getListResponseFreed p else 0
  | .attentionResponse p => if tag = tagAttentionResponse then attentionResponseFreed p else 0

/-- `sml_message_body_free` (sml_message.c:292-348); a body without tag is
dereferenced (line 294). -/
def messageBodyFree (b : Option MessageBody) : M Unit :=
  match b with
  | none => pure ()
  | some b =>
    match b.tag with
    | none => undef .nullDeref
    | some t => release (bodyDataFreed t.val b.data + 1 + 1)

/-- The switch sml_message.c:172-218. -/
def bodyDataParse (depth : Nat) (tag : Nat) : M BodyData :=
  if tag = tagOpenRequest then do
    pure (.openRequest (← openRequestParse))
  else if tag = tagOpenResponse then do
    pure (.openResponse (← openResponseParse))
  else if tag = tagCloseRequest then do
    pure (.closeRequest (← closeRequestParse))
  else if tag = tagCloseResponse then do
    pure (.closeResponse (← closeResponseParse))
  else if tag = tagGetProfilePackRequest then do
    pure (.getProfilePackRequest (← getProfilePackRequestParse depth))
  else if tag = tagGetProfilePackResponse then do
    pure (.getProfilePackResponse (← getProfilePackResponseParse))
  else if tag = tagGetProfileListRequest then do
    pure (.getProfileListRequest (← getProfilePackRequestParse depth))
  else if tag = tagGetProfileListResponse then do
    pure (.getProfileListResponse (← getProfileListResponseParse))
  else if tag = tagGetProcParameterRequest then do
    pure (.getProcParameterRequest (← getProcParameterRequestParse))
  else if tag = tagGetProcParameterResponse then do
    pure (.getProcParameterResponse (← getProcParameterResponseParse depth))
  else if tag = tagSetProcParameterRequest then do
    pure (.setProcParameterRequest (← setProcParameterRequestParse depth))
  else if tag = tagGetListRequest then do
    pure (.getListRequest (← getListRequestParse))
  else if tag = tagGetListResponse then do
    pure (.getListResponse (← getListResponseParse))
  else if tag = tagAttentionResponse then do
    pure (.attentionResponse (← attentionResponseParse depth))
  else pure .null

/-- `sml_message_body_parse` (sml_message.c:149-225). -/
def messageBodyParse (depth : Nat) : M (Option MessageBody) := do
  alloc 1
  let st ← getSt
  if st.cursor + 1 > st.data.length then failWith 1
  else
    expectList 2 1 <|
    field u32Parse (fun tag => tag) (fun _ => 1) fun tag =>
    match tag with
    | none => do
      -- `|| msg_body->tag == NULL`: goto error without setting the error flag
      release 1
      pure none
    | some t => do
      let d ← bodyDataParse depth t.val
      pure (some { tag := some t, data := d })

/-- The switch sml_message.c:237-289. -/
def bodyDataWrite (tag : Nat) (d : BodyData) : M Unit :=
  if tag = tagOpenRequest then
    match d with
    | .openRequest p => openRequestWrite p
    | .null => undef .nullDeref
    | _ => undef .confusion
  else if tag = tagOpenResponse then
    match d with
    | .openResponse p => openResponseWrite p
    | .null => undef .nullDeref
    | _ => undef .confusion
  else if tag = tagCloseRequest then
    match d with
    | .closeRequest p => closeRequestWrite p
    | .null => undef .nullDeref
    | _ => undef .confusion
  else if tag = tagCloseResponse then
    match d with
    | .closeResponse p => closeResponseWrite p
    | .null => undef .nullDeref
    | _ => undef .confusion
  else if tag = tagGetProfilePackRequest then
    match d with
    | .getProfilePackRequest p => getProfilePackRequestWrite p
    | .null => undef .nullDeref
    | _ => undef .confusion
  else if tag = tagGetProfilePackResponse then
    match d with
    | .getProfilePackResponse p => getProfilePackResponseWrite p
    | .null => undef .nullDeref
    | _ => undef .confusion
  else if tag = tagGetProfileListRequest then
    match d with
    | .getProfileListRequest p => getProfilePackRequestWrite p
    | .null => undef .nullDeref
    | _ => undef .confusion
  else if tag = tagGetProfileListResponse then
    match d with
    | .getProfileListResponse p => getProfileListResponseWrite p
    | .null => undef .nullDeref
    | _ => undef .confusion
  else if tag = tagGetProcParameterRequest then
    match d with
    | .getProcParameterRequest p => getProcParameterRequestWrite p
    | .null => undef .nullDeref
    | _ => undef .confusion
  else if tag = tagGetProcParameterResponse then
    match d with
    | .getProcParameterResponse p => getProcParameterResponseWrite p
    | .null => undef .nullDeref
    | _ => undef .confusion
  else if tag = tagSetProcParameterRequest then
    match d with
    | .setProcParameterRequest p => setProcParameterRequestWrite p
    | .null => undef .nullDeref
    | _ => undef .confusion
  else if tag = tagGetListRequest then
    match d with
    | .getListRequest p => getListRequestWrite p
    | .null => undef .nullDeref
    | _ => undef .confusion
  else if tag = tagGetListResponse then
    match d with
    | .getListResponse p => getListResponseWrite p
    | .null => undef .nullDeref
    | _ => undef .confusion
  else if tag = tagAttentionResponse then
    match d with
    | .attentionResponse p => attentionResponseWrite p
    | .null => undef .nullDeref
    | _ => undef .confusion
  else pure ()

/-- `sml_message_body_write` (sml_message.c:233-290); a NULL body and a NULL tag are
dereferenced. -/
def messageBodyWrite (b : Option MessageBody) : M Unit := do
  setTypeAndLength tyList 2
  match b with
  | none => undef .nullDeref
  | some b => do
    u32Write b.tag
    match b.tag with
    | none => undef .nullDeref
    | some t => bodyDataWrite t.val b.data

/-! ## Messages -/

/-- `sml_message` (sml_message.h). -/
structure Message where
  transactionId : Option OctetString := none
  groupId : Option Num := none
  abortOnError : Option Num := none
  messageBody : Option MessageBody := none
  crc : Option Num := none
deriving Repr

def Message.blocks (m : Message) : Nat :=
  1 + own OctetString.blocks m.transactionId + own Num.blocks m.groupId
    + own Num.blocks m.abortOnError + own MessageBody.blocks m.messageBody
    + own Num.blocks m.crc

/-- `sml_message_free` (sml_message.c:118-127). -/
def messageFree (m : Message) : M Unit := do
  release (octetStringFreed m.transactionId)
  release (numberFreed m.groupId)
  release (numberFreed m.abortOnError)
  messageBodyFree m.messageBody
  release (numberFreed m.crc)
  release 1

/-- `goto error;` in `sml_message_parse` (sml_message.c:102-104). -/
def messageFail (m : Message) : M (Option Message) := do
  messageFree m
  pure none

/-- `msg->f = p(buf); if (sml_buf_has_errors(buf)) goto error; ...` in `sml_message_parse`. -/
def messageField (p : M α) (set : α → Message) (k : Message → M (Option Message)) :
    M (Option Message) := do
  let v ← p
  if ← hasErrors then messageFail (set v) else k (set v)

/-- `int msg_start = buf->cursor;` (sml_message.c:39, 130). -/
def cursorAsInt : M Nat := do
  let st ← getSt
  if st.cursor > 2147483647 then undef .narrowing else pure st.cursor

/-- The `len` bytes of the buffer from `start` on, as read by the checksum functions. -/
def bufferSlice (start len : Nat) : M (List UInt8) := fun st =>
  if start + len ≤ st.data.length then .ok ((st.data.drop start).take len) st else .ub .oobRead

/-- sml_message.c:68-100, the part after the body. -/
def messageParseTail (msgStart : Nat) (m : Message) : M (Option Message) := do
  let st ← getSt
  let len := st.cursor - msgStart
  if st.cursor > 2147483647 then undef .narrowing
  else if st.data.length - st.cursor < 3 then do
    setError
    messageFail m
  else
  let crc ← u16Parse
  let m := { m with crc := crc }
  let bad ← hasErrors
  match bad, crc with
  | false, some c => do
    let bytes ← bufferSlice msgStart len
    if c.val ≠ (crc16 bytes).toNat ∧ c.val ≠ (crc16kermit bytes).toNat then
      messageFail m
    else
      let st ← getSt
      if st.cursor ≥ st.data.length then do
        setError
        messageFail m
      else
        let b ← getCurrentByte
        if b = 0x00 then do
          updateBytesRead 1
          pure (some m)
        else pure (some m)
  | _, _ => do
    setError
    messageFail m

/-- `sml_message_parse` (sml_message.c:32-105). The diagnostic of line 87 is not modelled. -/
def messageParse (depth : Nat) : M (Option Message) := do
  alloc 1
  let msgStart ← cursorAsInt
  if (← getNextType) ≠ tyList then do
    setError
    messageFail {}
  else if (← getNextLength) ≠ 6 then do
    setError
    messageFail {}
  else
    messageField octetStringParse (fun v => { transactionId := v }) fun m =>
    messageField u8Parse (fun v => { m with groupId := v }) fun m =>
    messageField u8Parse (fun v => { m with abortOnError := v }) fun m =>
    messageField (messageBodyParse depth) (fun v => { m with messageBody := v }) fun m =>
    messageParseTail msgStart m

/-- `sml_message_write` (sml_message.c:129-145). The result is the message with
its new checksum object; the pointer to an earlier one is overwritten. -/
def messageWrite (m : Message) : M Message := do
  let msgStart ← cursorAsInt
  setTypeAndLength tyList 6
  octetStringWrite m.transactionId
  u8Write m.groupId
  u8Write m.abortOnError
  messageBodyWrite m.messageBody
  let st ← getSt
  if st.cursor > 2147483647 then undef .narrowing
  else
    let bytes ← bufferSlice msgStart (st.cursor - msgStart)
    alloc 1
    let crc := numberInit (crc16 bytes).toNat 2
    u16Write (some crc)
    setByte 0x00
    advance
    pure { m with crc := some crc }

/-! ## Files -/

/-- `sml_file` (sml_file.h) without its `buf`, which is the machine state `St`;
`messages_len` is the length of the list. -/
structure File where
  messages : List Message
deriving Repr

/-- Blocks owned by a file: `sml_file`, `sml_buffer`, its array (sml_shared.c:119-128), the
message array once it exists, the messages. -/
def File.blocks (f : File) : Nat :=
  3 + (match f.messages with | [] => 0 | _ :: _ => 1) + (f.messages.map Message.blocks).sum

/-- `sml_file_add_message` (sml_file.c:73-78). `messages_len` is a `short`: the increment
from 32767 wraps (implementation-defined) to -32768 and is then used as a size. -/
def fileAddMessage (f : File) (m : Message) : M File :=
  if f.messages.length ≥ 32767 then undef .counter
  else do
    if f.messages.isEmpty then alloc 1 else pure ()
    pure { messages := f.messages ++ [m] }

/-- The loop sml_file.c:41-58. `fuel` bounds the rounds. -/
def fileLoop (depth : Nat) : (fuel : Nat) → File → M File
  | 0, _ => undef .fuel
  | fuel + 1, f => do
    let st ← getSt
    if st.cursor < st.data.length then
      let b ← getCurrentByte
      if b = 0x00 then do
        updateBytesRead 1
        fileLoop depth fuel f
      else
        let msg ← messageParse depth
        if ← hasErrors then pure f
        else
          match msg with
          | some m => do
            let f ← fileAddMessage f m
            fileLoop depth fuel f
          | none => fileLoop depth fuel f
    else pure f

/-- `sml_file_parse` (sml_file.c:30-61): the copied buffer is the initial state, with the three
blocks of lines 31 and 34 allocated. The warning of line 52 is not modelled. -/
def fileParse (depth : Nat) (buffer : List UInt8) : Res File :=
  fileLoop depth (buffer.length + 1) { messages := [] } { data := buffer, live := 3 }

/-- `sml_file_init` (sml_file.c:63-71): `sml_buffer_init` zeroes the array (sml_shared.c:119-128). -/
def fileInit : File × St := ({ messages := [] }, { data := List.replicate 512 0, live := 3 })

/-- The loop sml_file.c:84-86. -/
def fileWriteLoop : List Message → M (List Message)
  | [] => pure []
  | m :: ms => do
    let m ← messageWrite m
    let ms ← fileWriteLoop ms
    pure (m :: ms)

/-- `sml_file_write` (sml_file.c:80-88). -/
def fileWrite (f : File) : M File := do
  let ms ← fileWriteLoop f.messages
  pure { messages := ms }

/-- The loop sml_file.c:94-96. -/
def messagesFree : List Message → M Unit
  | [] => pure ()
  | m :: ms => do
    messageFree m
    messagesFree ms

/-- `sml_file_free` (sml_file.c:90-106) with `sml_buffer_free` (sml_shared.c:135-143). -/
def fileFree (f : File) : M Unit := do
  match f.messages with
  | [] => pure ()
  | ms => do
    messagesFree ms
    release 1
  release 2
  release 1

end Sml
