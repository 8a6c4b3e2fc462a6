import Verif.Model.HeapWrite

/-!
# Writing when memory runs out

`sml_message_write` asks for memory once, for the checksum, through `sml_number_init`, which returns NULL if there is none
(sml_number.c:56-66).
-/

namespace Sml

/-- `sml_message_write` (sml_message.c:129-145) when the request is refused: `msg->crc` becomes NULL, and `sml_number_write` writes
NULL as a value that is left out (sml_number.c:131-135). The checksum is computed all the same. -/
def messageWriteBare (m : Message) : M Message := do
  let msgStart ← cursorAsInt
  setTypeAndLength tyList 6
  octetStringWrite m.transactionId
  u8Write m.groupId
  u8Write m.abortOnError
  messageBodyWrite m.messageBody
  let st ← getSt
  if st.cursor > 2147483647 then undef .narrowing
  else
    let _ ← bufferSlice msgStart (st.cursor - msgStart)
    u16Write none
    setByte 0x00
    advance
    pure { m with crc := none }

/-- `sml_message_write` when the request is met or not. -/
def messageWriteAsked (met : Bool) (m : Message) : M Message := if met then messageWrite m else messageWriteBare m

/-- The loop sml_file.c:84-86: request `i` is the one for the first message. -/
def fileWriteScarce (av : Nat → Bool) : Nat → List Message → M (List Message)
  | _, [] => pure []
  | i, m :: ms => do
    let m ← messageWriteAsked (av i) m
    let ms ← fileWriteScarce av (i + 1) ms
    pure (m :: ms)

/-- A refused request: NULL, and the number of the request is used up. -/
def pRefused : P Addr := fun st h => .ok 0 st { h with next := h.next + 1 }

/-- `messageWriteBare` through pointers. -/
def pMessageWriteBare (a : Addr) : P Unit := do
  let msgStart ← lift cursorAsInt
  pWriteStruct 6 [pOctetStringWrite, pU8Write, pU8Write, pMessageBodyWrite] a
  let st ← lift getSt
  if st.cursor > 2147483647 then fault (.buf .narrowing)
  else do
    let _ ← lift (bufferSlice msgStart (st.cursor - msgStart))
    let crc ← pRefused
    writePtr a 4 crc
    pU16Write (← readPtr a 4)
    lift (setByte 0x00)
    lift advance

end Sml
