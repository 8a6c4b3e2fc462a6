import Verif.Model.HeapBuild
import Verif.Spec.Syntax

/-!
# A client that builds what it sends

How a client makes a file with the constructors of the library. A description of the file (the values of
`Verif.Model.Message`) says what is to be built; the functions `c...` are the client's code. `...Typed` says that a description
fits into the types of C: numbers have the size of their member, tags match what they label, counters do not
overflow.
-/

namespace Sml

open Spec

/-! ## Descriptions -/

/-- A number of `k` bytes. -/
def NumTyped (k : Nat) (n : Num) : Prop := n.size = k ∧ n.val < 256 ^ k

/-- The length is an `int`. -/
def StrTyped (s : OctetString) : Prop := s.str.length ≤ 2147483647

def TimeTyped (t : Time) : Prop := Opt (NumTyped 1) t.tag ∧ Opt (NumTyped 4) t.data

def ValueTyped (v : Value) : Prop :=
  match v.data with
  | .bytes p => v.type = 0x00 ∧ Opt StrTyped p
  | .boolean _ => v.type = 0x40
  | .num p => ∃ k, k ∈ sizes ∧ (v.type = 0x50 + k ∨ v.type = 0x60 + k) ∧ Opt (NumTyped k) p

def StatusTyped (v : Status) : Prop := ∃ k, k ∈ sizes ∧ v.type = 0x60 + k ∧ Opt (NumTyped k) v.data

def SeqTyped (P : α → Prop) (q : Sequence α) : Prop := q.elems.length ≤ 2147483647 ∧ ∀ e ∈ q.elems, Opt P e

def PathTyped (p : TreePath) : Prop := p.entries.length ≤ 2147483647 ∧ ∀ e ∈ p.entries, Opt StrTyped e

def EntryTyped (e : ListEntry) : Prop :=
  Opt StrTyped e.objName ∧ Opt StatusTyped e.status ∧ Opt TimeTyped e.valTime ∧ Opt (NumTyped 1) e.unit ∧
    Opt (NumTyped 1) e.scaler ∧ Opt ValueTyped e.value ∧ Opt StrTyped e.valueSignature

def PeriodEntryTyped (m : PeriodEntry) : Prop :=
  Opt StrTyped m.objName ∧ Opt (NumTyped 1) m.unit ∧ Opt (NumTyped 1) m.scaler ∧ Opt ValueTyped m.value ∧
  Opt StrTyped m.valueSignature

def TupelEntryTyped (m : TupelEntry) : Prop :=
  Opt StrTyped m.serverId ∧ Opt TimeTyped m.secIndex ∧ Opt (NumTyped 8) m.status ∧ Opt (NumTyped 1) m.unit_pA ∧
  Opt (NumTyped 1) m.scaler_pA ∧ Opt (NumTyped 8) m.value_pA ∧ Opt (NumTyped 1) m.unit_R1 ∧
  Opt (NumTyped 1) m.scaler_R1 ∧ Opt (NumTyped 8) m.value_R1 ∧ Opt (NumTyped 1) m.unit_R4 ∧
  Opt (NumTyped 1) m.scaler_R4 ∧ Opt (NumTyped 8) m.value_R4 ∧ Opt StrTyped m.signature_pA_R1_R4 ∧
  Opt (NumTyped 1) m.unit_mA ∧ Opt (NumTyped 1) m.scaler_mA ∧ Opt (NumTyped 8) m.value_mA ∧
  Opt (NumTyped 1) m.unit_R2 ∧ Opt (NumTyped 1) m.scaler_R2 ∧ Opt (NumTyped 8) m.value_R2 ∧
  Opt (NumTyped 1) m.unit_R3 ∧ Opt (NumTyped 1) m.scaler_R3 ∧ Opt (NumTyped 8) m.value_R3 ∧
  Opt StrTyped m.signature_mA_R2_R3

/-- The tag says what the union holds. -/
def PpvTyped (v : ProcParValue) : Prop :=
  Opt (NumTyped 1) v.tag ∧
    match v.data with
    | .null => True
    | .value p => (∃ t, v.tag = some t ∧ t.val = 1) ∧ Opt ValueTyped p
    | .periodEntry p => (∃ t, v.tag = some t ∧ t.val = 2) ∧ Opt PeriodEntryTyped p
    | .tupelEntry p => (∃ t, v.tag = some t ∧ t.val = 3) ∧ Opt TupelEntryTyped p
    | .time p => (∃ t, v.tag = some t ∧ t.val = 4) ∧ Opt TimeTyped p

inductive TreeTyped : Tree → Prop where
  | mk {n : Option OctetString} {v : Option ProcParValue} {cs : List Tree} : Opt StrTyped n → Opt PpvTyped v →
      cs.length ≤ 2147483647 → (∀ c, c ∈ cs → TreeTyped c) → TreeTyped (.mk n v cs)

def OpenRequestTyped (m : OpenRequest) : Prop :=
  Opt StrTyped m.codepage ∧ Opt StrTyped m.clientId ∧ Opt StrTyped m.reqFileId ∧ Opt StrTyped m.serverId ∧
  Opt StrTyped m.username ∧ Opt StrTyped m.password ∧ Opt (NumTyped 1) m.smlVersion

def OpenResponseTyped (m : OpenResponse) : Prop :=
  Opt StrTyped m.codepage ∧ Opt StrTyped m.clientId ∧ Opt StrTyped m.reqFileId ∧ Opt StrTyped m.serverId ∧
  Opt TimeTyped m.refTime ∧ Opt (NumTyped 1) m.smlVersion

def CloseRequestTyped (m : CloseRequest) : Prop :=
  Opt StrTyped m.globalSignature

def CloseResponseTyped (m : CloseResponse) : Prop :=
  Opt StrTyped m.globalSignature

def ValueEntryTyped (m : ValueEntry) : Prop :=
  Opt ValueTyped m.value ∧ Opt StrTyped m.valueSignature

def ProfObjHeaderEntryTyped (m : ProfObjHeaderEntry) : Prop :=
  Opt StrTyped m.objName ∧ Opt (NumTyped 1) m.unit ∧ Opt (NumTyped 1) m.scaler

def ProfObjPeriodEntryTyped (m : ProfObjPeriodEntry) : Prop :=
  Opt TimeTyped m.valTime ∧ Opt (NumTyped 8) m.status ∧ Opt (SeqTyped ValueEntryTyped) m.valueList ∧
  Opt StrTyped m.periodSignature

def GetProfilePackResponseTyped (m : GetProfilePackResponse) : Prop :=
  Opt StrTyped m.serverId ∧ Opt TimeTyped m.actTime ∧ Opt (NumTyped 4) m.regPeriod ∧
  Opt PathTyped m.parameterTreePath ∧ Opt (SeqTyped ProfObjHeaderEntryTyped) m.headerList ∧
  Opt (SeqTyped ProfObjPeriodEntryTyped) m.periodList ∧ Opt StrTyped m.rawdata ∧ Opt StrTyped m.profileSignature

def GetProfileListResponseTyped (m : GetProfileListResponse) : Prop :=
  Opt StrTyped m.serverId ∧ Opt TimeTyped m.actTime ∧ Opt (NumTyped 4) m.regPeriod ∧
  Opt PathTyped m.parameterTreePath ∧ Opt TimeTyped m.valTime ∧ Opt (NumTyped 8) m.status ∧
  Opt (SeqTyped PeriodEntryTyped) m.periodList ∧ Opt StrTyped m.rawdata ∧ Opt StrTyped m.periodSignature

def GetProcParameterRequestTyped (m : GetProcParameterRequest) : Prop :=
  Opt StrTyped m.serverId ∧ Opt StrTyped m.username ∧ Opt StrTyped m.password ∧ Opt PathTyped m.parameterTreePath ∧
  Opt StrTyped m.attr

def GetProcParameterResponseTyped (m : GetProcParameterResponse) : Prop :=
  Opt StrTyped m.serverId ∧ Opt PathTyped m.parameterTreePath ∧ Opt TreeTyped m.parameterTree

def SetProcParameterRequestTyped (m : SetProcParameterRequest) : Prop :=
  Opt StrTyped m.serverId ∧ Opt StrTyped m.username ∧ Opt StrTyped m.password ∧ Opt PathTyped m.parameterTreePath ∧
  Opt TreeTyped m.parameterTree

def GetListRequestTyped (m : GetListRequest) : Prop :=
  Opt StrTyped m.clientId ∧ Opt StrTyped m.serverId ∧ Opt StrTyped m.username ∧ Opt StrTyped m.password ∧
  Opt StrTyped m.listName

def GetListResponseTyped (m : GetListResponse) : Prop :=
  Opt StrTyped m.clientId ∧ Opt StrTyped m.serverId ∧ Opt StrTyped m.listName ∧ Opt TimeTyped m.actSensorTime ∧
  (∀ e ∈ m.valList, EntryTyped e) ∧ Opt StrTyped m.listSignature ∧ Opt TimeTyped m.actGatewayTime

def AttentionResponseTyped (m : AttentionResponse) : Prop :=
  Opt StrTyped m.serverId ∧ Opt StrTyped m.attentionNumber ∧ Opt StrTyped m.attentionMessage ∧
  Opt TreeTyped m.attentionDetails

def GetProfilePackRequestTyped (m : GetProfilePackRequest) : Prop :=
  Opt StrTyped m.serverId ∧ Opt StrTyped m.username ∧ Opt StrTyped m.password ∧ Opt TimeTyped m.beginTime ∧
  Opt TimeTyped m.endTime ∧ Opt PathTyped m.parameterTreePath ∧ (∀ e ∈ m.objectList, Opt StrTyped e) ∧
  Opt TreeTyped m.dasDetails

/-- The tag says what the body is. -/
def BodyDataTyped (tag : Nat) : BodyData → Prop
  | .null => True
  | .openRequest p => tag = 0x100 ∧ Opt OpenRequestTyped p
  | .openResponse p => tag = 0x101 ∧ Opt OpenResponseTyped p
  | .closeRequest p => tag = 0x200 ∧ Opt CloseRequestTyped p
  | .closeResponse p => tag = 0x201 ∧ Opt CloseResponseTyped p
  | .getProfilePackRequest p => tag = 0x300 ∧ Opt GetProfilePackRequestTyped p
  | .getProfilePackResponse p => tag = 0x301 ∧ Opt GetProfilePackResponseTyped p
  | .getProfileListRequest p => tag = 0x400 ∧ Opt GetProfilePackRequestTyped p
  | .getProfileListResponse p => tag = 0x401 ∧ Opt GetProfileListResponseTyped p
  | .getProcParameterRequest p => tag = 0x500 ∧ Opt GetProcParameterRequestTyped p
  | .getProcParameterResponse p => tag = 0x501 ∧ Opt GetProcParameterResponseTyped p
  | .setProcParameterRequest p => tag = 0x600 ∧ Opt SetProcParameterRequestTyped p
  | .getListRequest p => tag = 0x700 ∧ Opt GetListRequestTyped p
  | .getListResponse p => tag = 0x701 ∧ Opt GetListResponseTyped p
  | .attentionResponse p => tag = 0xFF01 ∧ Opt AttentionResponseTyped p

def BodyTyped (b : MessageBody) : Prop := ∃ t, b.tag = some t ∧ NumTyped 4 t ∧ BodyDataTyped t.val b.data

/-- A message to be built; its checksum is not there yet. -/
def MessageTyped (m : Message) : Prop :=
  Opt StrTyped m.transactionId ∧ Opt (NumTyped 1) m.groupId ∧ Opt (NumTyped 1) m.abortOnError ∧
    Opt BodyTyped m.messageBody ∧ m.crc = none

/-! ## The client -/

/-- A part that may be left out. -/
def cOpt (b : α → P Addr) : Option α → P Addr
  | none => pure 0
  | some v => b v

/-- Make the parts and assign them to the pointer members from the `i`-th on. -/
def cMembers (a : Addr) : (i : Nat) → List (P Addr) → P Unit
  | _, [] => pure ()
  | i, p :: ps => do
    let v ← p
    writePtr a i v
    cMembers a (i + 1) ps

/-- Make a structure and its parts. -/
def cStruct (init : P Addr) (ps : List (P Addr)) : P Addr := do
  let a ← init
  cMembers a 0 ps
  pure a

/-- Make elements and add them one after the other. -/
def cAddAll (add : Addr → Addr → P Unit) (s : Addr) : List (P Addr) → P Unit
  | [] => pure ()
  | p :: ps => do
    let e ← p
    add s e
    cAddAll add s ps

/-- A call of `sml_octet_string_init`, whose length is an `int`. -/
def cStr (s : OctetString) : P Addr :=
  if s.str.length > 2147483647 then fault (.buf .narrowing) else pOctetStringInit s.str

/-- A call of `sml_u8_init` ... `sml_i64_init`. -/
def cNum (size : Nat) (n : Num) : P Addr := pNumberInit n.val size

def cTime (t : Time) : P Addr := cStruct pTimeInit [cOpt (cNum 1) t.tag, cOpt (cNum 4) t.data]

def cVData (type : Nat) : VData → P Addr
  | .bytes p => cOpt cStr p
  | .boolean p => cOpt pBooleanInit p
  | .num p => cOpt (cNum (type % 16)) p

/-- The type is set before the data. -/
def cValue (v : Value) : P Addr := do
  let a ← pValueInit
  writeInt a 0 v.type
  cMembers a 0 [cVData v.type v.data]
  pure a

def cStatus (v : Status) : P Addr := do
  let a ← pStatusInit
  writeInt a 0 v.type
  cMembers a 0 [cOpt (cNum (v.type % 16)) v.data]
  pure a

/-- The client names the function `f` for the elements, as the parser does. -/
def cSequence (f : C.Fn) (c : Option α → P Addr) (q : Sequence α) : P Addr := do
  let a ← pSequenceInit f
  cAddAll pSequenceAdd a (q.elems.map c)
  pure a

def cTreePath (p : TreePath) : P Addr := do
  let a ← pTreePathInit
  cAddAll pTreePathAdd a (p.entries.map (cOpt cStr))
  pure a

def cEntry (e : ListEntry) : P Addr :=
  cStruct pListInit [cOpt cStr e.objName, cOpt cStatus e.status, cOpt cTime e.valTime, cOpt (cNum 1) e.unit,
    cOpt (cNum 1) e.scaler, cOpt cValue e.value, cOpt cStr e.valueSignature]

/-- Further entries behind the entry `last`: each is added to the one before it. -/
def cListFrom (last : Addr) : List ListEntry → P Unit
  | [] => pure ()
  | e :: es => do
    let x ← cEntry e
    pListAdd last x
    cListFrom x es

def cList : List ListEntry → P Addr
  | [] => pure 0
  | e :: es => do
    let x ← cEntry e
    cListFrom x es
    pure x

def cPeriodEntry (m : PeriodEntry) : P Addr :=
  cStruct pPeriodEntryInit [
    cOpt cStr m.objName, cOpt (cNum 1) m.unit, cOpt (cNum 1) m.scaler, cOpt cValue m.value, cOpt cStr m.valueSignature]

def cTupelEntry (m : TupelEntry) : P Addr :=
  cStruct pTupelEntryInit [
    cOpt cStr m.serverId, cOpt cTime m.secIndex, cOpt (cNum 8) m.status, cOpt (cNum 1) m.unit_pA,
    cOpt (cNum 1) m.scaler_pA, cOpt (cNum 8) m.value_pA, cOpt (cNum 1) m.unit_R1, cOpt (cNum 1) m.scaler_R1,
    cOpt (cNum 8) m.value_R1, cOpt (cNum 1) m.unit_R4, cOpt (cNum 1) m.scaler_R4, cOpt (cNum 8) m.value_R4,
    cOpt cStr m.signature_pA_R1_R4, cOpt (cNum 1) m.unit_mA, cOpt (cNum 1) m.scaler_mA, cOpt (cNum 8) m.value_mA,
    cOpt (cNum 1) m.unit_R2, cOpt (cNum 1) m.scaler_R2, cOpt (cNum 8) m.value_R2, cOpt (cNum 1) m.unit_R3,
    cOpt (cNum 1) m.scaler_R3, cOpt (cNum 8) m.value_R3, cOpt cStr m.signature_mA_R2_R3]

def cPpvData : PpvData → P Addr
  | .null => pure 0
  | .value p => cOpt cValue p
  | .periodEntry p => cOpt cPeriodEntry p
  | .tupelEntry p => cOpt cTupelEntry p
  | .time p => cOpt cTime p

def cPpv (v : ProcParValue) : P Addr := cStruct pProcParValueInit [cOpt (cNum 1) v.tag, cPpvData v.data]

mutual
def cTree : Tree → P Addr
  | .mk n v cs => do
    let t ← pTreeInit
    cMembers t 0 [cOpt cStr n, cOpt cPpv v]
    cChildren t cs
    pure t
def cChildren (t : Addr) : List Tree → P Unit
  | [] => pure ()
  | c :: cs => do
    let x ← cTree c
    pTreeAddTree t x
    cChildren t cs
end

/-- The object list; the library has no constructor for its nodes. -/
def cObjs : List (Option OctetString) → P Addr
  | [] => pure 0
  | e :: es => cStruct (malloc (.struct [0, 0] [])) [cOpt cStr e, cObjs es]

def cOpenRequest (m : OpenRequest) : P Addr :=
  cStruct pOpenRequestInit [
    cOpt cStr m.codepage, cOpt cStr m.clientId, cOpt cStr m.reqFileId, cOpt cStr m.serverId, cOpt cStr m.username,
    cOpt cStr m.password, cOpt (cNum 1) m.smlVersion]

def cOpenResponse (m : OpenResponse) : P Addr :=
  cStruct pOpenResponseInit [
    cOpt cStr m.codepage, cOpt cStr m.clientId, cOpt cStr m.reqFileId, cOpt cStr m.serverId, cOpt cTime m.refTime,
    cOpt (cNum 1) m.smlVersion]

def cCloseRequest (m : CloseRequest) : P Addr :=
  cStruct pCloseRequestInit [
    cOpt cStr m.globalSignature]

def cCloseResponse (m : CloseResponse) : P Addr :=
  cStruct pCloseResponseInit [
    cOpt cStr m.globalSignature]

def cValueEntry (m : ValueEntry) : P Addr :=
  cStruct pValueEntryInit [
    cOpt cValue m.value, cOpt cStr m.valueSignature]

def cProfObjHeaderEntry (m : ProfObjHeaderEntry) : P Addr :=
  cStruct pProfObjHeaderEntryInit [
    cOpt cStr m.objName, cOpt (cNum 1) m.unit, cOpt (cNum 1) m.scaler]

def cProfObjPeriodEntry (m : ProfObjPeriodEntry) : P Addr :=
  cStruct pProfObjPeriodEntryInit [
    cOpt cTime m.valTime, cOpt (cNum 8) m.status, cOpt (cSequence .sml_value_entry_free_ (cOpt cValueEntry)) m.valueList,
    cOpt cStr m.periodSignature]

def cGetProfilePackResponse (m : GetProfilePackResponse) : P Addr :=
  cStruct pGetProfilePackResponseInit [
    cOpt cStr m.serverId, cOpt cTime m.actTime, cOpt (cNum 4) m.regPeriod, cOpt cTreePath m.parameterTreePath,
    cOpt (cSequence .sml_prof_obj_header_entry_free_ (cOpt cProfObjHeaderEntry)) m.headerList,
    cOpt (cSequence .sml_prof_obj_period_entry_free_ (cOpt cProfObjPeriodEntry)) m.periodList, cOpt cStr m.rawdata, cOpt cStr m.profileSignature]

def cGetProfileListResponse (m : GetProfileListResponse) : P Addr :=
  cStruct pGetProfileListResponseInit [
    cOpt cStr m.serverId, cOpt cTime m.actTime, cOpt (cNum 4) m.regPeriod, cOpt cTreePath m.parameterTreePath,
    cOpt cTime m.valTime, cOpt (cNum 8) m.status, cOpt (cSequence .sml_period_entry_free_get (cOpt cPeriodEntry)) m.periodList,
    cOpt cStr m.rawdata, cOpt cStr m.periodSignature]

def cGetProcParameterRequest (m : GetProcParameterRequest) : P Addr :=
  cStruct pGetProcParameterRequestInit [
    cOpt cStr m.serverId, cOpt cStr m.username, cOpt cStr m.password, cOpt cTreePath m.parameterTreePath,
    cOpt cStr m.attr]

def cGetProcParameterResponse (m : GetProcParameterResponse) : P Addr :=
  cStruct pGetProcParameterResponseInit [
    cOpt cStr m.serverId, cOpt cTreePath m.parameterTreePath, cOpt cTree m.parameterTree]

def cSetProcParameterRequest (m : SetProcParameterRequest) : P Addr :=
  cStruct pSetProcParameterRequestInit [
    cOpt cStr m.serverId, cOpt cStr m.username, cOpt cStr m.password, cOpt cTreePath m.parameterTreePath,
    cOpt cTree m.parameterTree]

def cGetListRequest (m : GetListRequest) : P Addr :=
  cStruct pGetListRequestInit [
    cOpt cStr m.clientId, cOpt cStr m.serverId, cOpt cStr m.username, cOpt cStr m.password, cOpt cStr m.listName]

def cGetListResponse (m : GetListResponse) : P Addr :=
  cStruct pGetListResponseInit [
    cOpt cStr m.clientId, cOpt cStr m.serverId, cOpt cStr m.listName, cOpt cTime m.actSensorTime, cList m.valList,
    cOpt cStr m.listSignature, cOpt cTime m.actGatewayTime]

def cAttentionResponse (m : AttentionResponse) : P Addr :=
  cStruct pAttentionResponseInit [
    cOpt cStr m.serverId, cOpt cStr m.attentionNumber, cOpt cStr m.attentionMessage, cOpt cTree m.attentionDetails]

def cGetProfilePackRequest (m : GetProfilePackRequest) : P Addr :=
  cStruct pGetProfilePackRequestInit [
    cOpt cStr m.serverId, cOpt cStr m.username, cOpt cStr m.password, cOpt pBooleanInit m.withRawdata,
    cOpt cTime m.beginTime, cOpt cTime m.endTime, cOpt cTreePath m.parameterTreePath, cObjs m.objectList,
    cOpt cTree m.dasDetails]

def cBodyData : BodyData → P Addr
  | .null => pure 0
  | .openRequest p => cOpt cOpenRequest p
  | .openResponse p => cOpt cOpenResponse p
  | .closeRequest p => cOpt cCloseRequest p
  | .closeResponse p => cOpt cCloseResponse p
  | .getProfilePackRequest p => cOpt cGetProfilePackRequest p
  | .getProfilePackResponse p => cOpt cGetProfilePackResponse p
  | .getProfileListRequest p => cOpt cGetProfilePackRequest p
  | .getProfileListResponse p => cOpt cGetProfileListResponse p
  | .getProcParameterRequest p => cOpt cGetProcParameterRequest p
  | .getProcParameterResponse p => cOpt cGetProcParameterResponse p
  | .setProcParameterRequest p => cOpt cSetProcParameterRequest p
  | .getListRequest p => cOpt cGetListRequest p
  | .getListResponse p => cOpt cGetListResponse p
  | .attentionResponse p => cOpt cAttentionResponse p

/-- The body, for which `sml_message_body_init` makes the tag. -/
def cBody (b : MessageBody) : P Addr := do
  let d ← cBodyData b.data
  pMessageBodyInit (b.tag.elim 0 Num.val) d

/-- What is to be sent: a message, the bytes the random source delivers for it, and whether the generated
transaction id stays. -/
structure Draft where
  message : Message
  rnd : List UInt8
  keepId : Bool

/-- The generated id: random bytes with the version and variant of RFC 4122. -/
def uuidOf (rnd : List UInt8) : OctetString :=
  ⟨(rnd.set 6 (rnd.getD 6 0 % 16 + 0x40)).set 8 (rnd.getD 8 0 % 64 + 0x80)⟩

/-- The message that is meant. -/
def Draft.result (d : Draft) : Message :=
  if d.keepId then { d.message with transactionId := some (uuidOf d.rnd) } else d.message

/-- A message: either the generated id stays, or it is freed and replaced. -/
def cMessage (d : Draft) : P Addr := do
  let m ← pMessageInit d.rnd
  (if d.keepId then pure () else do
    pOctetStringFree (← readPtr m 0)
    let id ← cOpt cStr d.message.transactionId
    writePtr m 0 id : P Unit)
  cMembers m 1 [cOpt (cNum 1) d.message.groupId, cOpt (cNum 1) d.message.abortOnError,
    cOpt cBody d.message.messageBody]
  pure m

/-- A file. -/
def cFile (ds : List Draft) : P Addr := do
  let f ← pFileInit
  cAddAll pFileAddMessage f (ds.map cMessage)
  pure f

end Sml
