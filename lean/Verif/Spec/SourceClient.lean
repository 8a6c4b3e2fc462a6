import Verif.Spec.Client
import Verif.Source.Program

/-!
# A client of the C library

The client of `Verif.Spec.Client` once more, on the memory of the C semantics: it calls the functions of the library (`Γ`), assigns members of the
structures it gets, keeps strings in local arrays and allocates the nodes of object lists itself.
-/

namespace Sml.C

/-- Code of the client: it calls functions of the library. -/
abbrev Code : Type := Calls → X Val

/-- A part that may be left out. -/
def xOpt (b : α → Code) : Option α → Code
  | none => fun _ => pure nullPtr
  | some v => b v

/-- Make the parts and assign them to the pointer members from the `i`-th on. -/
def xMembers (a : Val) : Nat → List Code → Calls → X Unit
  | _, [], _ => pure ()
  | i, p :: ps, Γ => do
    let v ← p Γ
    storePtr a i v
    xMembers a (i + 1) ps Γ

/-- Make a structure and its parts. -/
def xStruct (init : Fn) (ps : List Code) : Code := fun Γ => do
  let a ← Γ init []
  xMembers a 0 ps Γ
  pure a

/-- Make elements and add them one after the other. -/
def xAddAll (add : Fn) (s : Val) : List Code → Calls → X Unit
  | [], _ => pure ()
  | p :: ps, Γ => do
    let e ← p Γ
    let _ ← Γ add [s, e]
    xAddAll add s ps Γ

/-- `unsigned char s[] = "..."; sml_octet_string_init(s, n)`: the text is in a local array with a 0 behind it. -/
def xStr (s : OctetString) : Code := fun Γ => inFrame [] do
  let p ← newLocal (.raw ((s.str ++ [0]).map some))
  Γ .sml_octet_string_init [p, .int .i32 s.str.length]

/-- `sml_u8_init(n)` ... `sml_u64_init(n)` (sml_number.h:39-46), which are calls of `sml_number_init`. -/
def xNum (size : Nat) (n : Num) : Code := fun Γ => Γ .sml_number_init [.int .u64 n.val, .int .i32 96, .int .u64 size]

def xBool (b : UInt8) : Code := fun Γ => Γ .sml_boolean_init [.int .i32 b.toNat]

def xTime (t : Time) : Code := xStruct .sml_time_init [xOpt (xNum 1) t.tag, xOpt (xNum 4) t.data]

def xVData (type : Nat) : VData → Code
  | .bytes p => xOpt xStr p
  | .boolean p => xOpt xBool p
  | .num p => xOpt (xNum (type % 16)) p

/-- The type is set before the data. -/
def xTagged (init : Fn) (type : Nat) (data : Code) : Code := fun Γ => do
  let a ← Γ init []
  storeInt a 0 type
  xMembers a 0 [data] Γ
  pure a

def xValue (v : Value) : Code := xTagged .sml_value_init v.type (xVData v.type v.data)

def xStatus (v : Status) : Code := xTagged .sml_status_init v.type (xOpt (xNum (v.type % 16)) v.data)

/-- The client names the function `f` for the elements, as the parser does. -/
def xSequence (f : Fn) (c : Option α → Code) (q : Sequence α) : Code := fun Γ => do
  let a ← Γ .sml_sequence_init [.fn f]
  xAddAll .sml_sequence_add a (q.elems.map c) Γ
  pure a

def xTreePath (p : TreePath) : Code := fun Γ => do
  let a ← Γ .sml_tree_path_init []
  xAddAll .sml_tree_path_add_path_entry a (p.entries.map (xOpt xStr)) Γ
  pure a

def xEntry (e : ListEntry) : Code :=
  xStruct .sml_list_init [xOpt xStr e.objName, xOpt xStatus e.status, xOpt xTime e.valTime, xOpt (xNum 1) e.unit,
    xOpt (xNum 1) e.scaler, xOpt xValue e.value, xOpt xStr e.valueSignature]

/-- Further entries behind the entry `last`: each is added to the one before it. -/
def xListFrom (last : Val) : List ListEntry → Calls → X Unit
  | [], _ => pure ()
  | e :: es, Γ => do
    let x ← xEntry e Γ
    let _ ← Γ .sml_list_add [last, x]
    xListFrom x es Γ

def xList : List ListEntry → Code
  | [], _ => pure nullPtr
  | e :: es, Γ => do
    let x ← xEntry e Γ
    xListFrom x es Γ
    pure x

def xPeriodEntry (m : PeriodEntry) : Code :=
  xStruct .sml_period_entry_init [
    xOpt xStr m.objName, xOpt (xNum 1) m.unit, xOpt (xNum 1) m.scaler, xOpt xValue m.value, xOpt xStr m.valueSignature]

def xTupelEntry (m : TupelEntry) : Code :=
  xStruct .sml_tupel_entry_init [
    xOpt xStr m.serverId, xOpt xTime m.secIndex, xOpt (xNum 8) m.status, xOpt (xNum 1) m.unit_pA,
    xOpt (xNum 1) m.scaler_pA, xOpt (xNum 8) m.value_pA, xOpt (xNum 1) m.unit_R1, xOpt (xNum 1) m.scaler_R1,
    xOpt (xNum 8) m.value_R1, xOpt (xNum 1) m.unit_R4, xOpt (xNum 1) m.scaler_R4, xOpt (xNum 8) m.value_R4,
    xOpt xStr m.signature_pA_R1_R4, xOpt (xNum 1) m.unit_mA, xOpt (xNum 1) m.scaler_mA, xOpt (xNum 8) m.value_mA,
    xOpt (xNum 1) m.unit_R2, xOpt (xNum 1) m.scaler_R2, xOpt (xNum 8) m.value_R2, xOpt (xNum 1) m.unit_R3,
    xOpt (xNum 1) m.scaler_R3, xOpt (xNum 8) m.value_R3, xOpt xStr m.signature_mA_R2_R3]

def xPpvData : PpvData → Code
  | .null => fun _ => pure nullPtr
  | .value p => xOpt xValue p
  | .periodEntry p => xOpt xPeriodEntry p
  | .tupelEntry p => xOpt xTupelEntry p
  | .time p => xOpt xTime p

def xPpv (v : ProcParValue) : Code := xStruct .sml_proc_par_value_init [xOpt (xNum 1) v.tag, xPpvData v.data]

mutual
def xTree : Tree → Code
  | .mk n v cs, Γ => do
    let t ← Γ .sml_tree_init []
    xMembers t 0 [xOpt xStr n, xOpt xPpv v] Γ
    xChildren t cs Γ
    pure t
def xChildren (t : Val) : List Tree → Calls → X Unit
  | [], _ => pure ()
  | c :: cs, Γ => do
    let x ← xTree c Γ
    let _ ← Γ .sml_tree_add_tree [t, x]
    xChildren t cs Γ
end

/-- A node of the object list, for which the library has no constructor: the client allocates it. -/
def xNode (ps : List Code) : Code := fun Γ => do
  let a ← newHeap .fresh
  storeRec a [nullPtr, nullPtr] []
  xMembers a 0 ps Γ
  pure a

/-- The object list. -/
def xObjs : List (Option OctetString) → Code
  | [] => fun _ => pure nullPtr
  | e :: es => xNode [xOpt xStr e, xObjs es]

def xOpenRequest (m : OpenRequest) : Code :=
  xStruct .sml_open_request_init [
    xOpt xStr m.codepage, xOpt xStr m.clientId, xOpt xStr m.reqFileId, xOpt xStr m.serverId, xOpt xStr m.username,
    xOpt xStr m.password, xOpt (xNum 1) m.smlVersion]

def xOpenResponse (m : OpenResponse) : Code :=
  xStruct .sml_open_response_init [
    xOpt xStr m.codepage, xOpt xStr m.clientId, xOpt xStr m.reqFileId, xOpt xStr m.serverId, xOpt xTime m.refTime,
    xOpt (xNum 1) m.smlVersion]

def xCloseRequest (m : CloseRequest) : Code :=
  xStruct .sml_close_request_init [
    xOpt xStr m.globalSignature]

def xCloseResponse (m : CloseResponse) : Code :=
  xStruct .sml_close_response_init [
    xOpt xStr m.globalSignature]

def xValueEntry (m : ValueEntry) : Code :=
  xStruct .sml_value_entry_init [
    xOpt xValue m.value, xOpt xStr m.valueSignature]

def xProfObjHeaderEntry (m : ProfObjHeaderEntry) : Code :=
  xStruct .sml_prof_obj_header_entry_init [
    xOpt xStr m.objName, xOpt (xNum 1) m.unit, xOpt (xNum 1) m.scaler]

def xProfObjPeriodEntry (m : ProfObjPeriodEntry) : Code :=
  xStruct .sml_prof_obj_period_entry_init [
    xOpt xTime m.valTime, xOpt (xNum 8) m.status, xOpt (xSequence .sml_value_entry_free_ (xOpt xValueEntry)) m.valueList,
    xOpt xStr m.periodSignature]

def xGetProfilePackResponse (m : GetProfilePackResponse) : Code :=
  xStruct .sml_get_profile_pack_response_init [
    xOpt xStr m.serverId, xOpt xTime m.actTime, xOpt (xNum 4) m.regPeriod, xOpt xTreePath m.parameterTreePath,
    xOpt (xSequence .sml_prof_obj_header_entry_free_ (xOpt xProfObjHeaderEntry)) m.headerList,
    xOpt (xSequence .sml_prof_obj_period_entry_free_ (xOpt xProfObjPeriodEntry)) m.periodList, xOpt xStr m.rawdata, xOpt xStr m.profileSignature]

def xGetProfileListResponse (m : GetProfileListResponse) : Code :=
  xStruct .sml_get_profile_list_response_init [
    xOpt xStr m.serverId, xOpt xTime m.actTime, xOpt (xNum 4) m.regPeriod, xOpt xTreePath m.parameterTreePath,
    xOpt xTime m.valTime, xOpt (xNum 8) m.status, xOpt (xSequence .sml_period_entry_free_get (xOpt xPeriodEntry)) m.periodList,
    xOpt xStr m.rawdata, xOpt xStr m.periodSignature]

def xGetProcParameterRequest (m : GetProcParameterRequest) : Code :=
  xStruct .sml_get_proc_parameter_request_init [
    xOpt xStr m.serverId, xOpt xStr m.username, xOpt xStr m.password, xOpt xTreePath m.parameterTreePath,
    xOpt xStr m.attr]

def xGetProcParameterResponse (m : GetProcParameterResponse) : Code :=
  xStruct .sml_get_proc_parameter_response_init [
    xOpt xStr m.serverId, xOpt xTreePath m.parameterTreePath, xOpt xTree m.parameterTree]

def xSetProcParameterRequest (m : SetProcParameterRequest) : Code :=
  xStruct .sml_set_proc_parameter_request_init [
    xOpt xStr m.serverId, xOpt xStr m.username, xOpt xStr m.password, xOpt xTreePath m.parameterTreePath,
    xOpt xTree m.parameterTree]

def xGetListRequest (m : GetListRequest) : Code :=
  xStruct .sml_get_list_request_init [
    xOpt xStr m.clientId, xOpt xStr m.serverId, xOpt xStr m.username, xOpt xStr m.password, xOpt xStr m.listName]

def xGetListResponse (m : GetListResponse) : Code :=
  xStruct .sml_get_list_response_init [
    xOpt xStr m.clientId, xOpt xStr m.serverId, xOpt xStr m.listName, xOpt xTime m.actSensorTime, xList m.valList,
    xOpt xStr m.listSignature, xOpt xTime m.actGatewayTime]

def xAttentionResponse (m : AttentionResponse) : Code :=
  xStruct .sml_attention_response_init [
    xOpt xStr m.serverId, xOpt xStr m.attentionNumber, xOpt xStr m.attentionMessage, xOpt xTree m.attentionDetails]

def xGetProfilePackRequest (m : GetProfilePackRequest) : Code :=
  xStruct .sml_get_profile_pack_request_init [
    xOpt xStr m.serverId, xOpt xStr m.username, xOpt xStr m.password, xOpt xBool m.withRawdata,
    xOpt xTime m.beginTime, xOpt xTime m.endTime, xOpt xTreePath m.parameterTreePath, xObjs m.objectList,
    xOpt xTree m.dasDetails]

def xBodyData : BodyData → Code
  | .null => fun _ => pure nullPtr
  | .openRequest p => xOpt xOpenRequest p
  | .openResponse p => xOpt xOpenResponse p
  | .closeRequest p => xOpt xCloseRequest p
  | .closeResponse p => xOpt xCloseResponse p
  | .getProfilePackRequest p => xOpt xGetProfilePackRequest p
  | .getProfilePackResponse p => xOpt xGetProfilePackResponse p
  | .getProfileListRequest p => xOpt xGetProfilePackRequest p
  | .getProfileListResponse p => xOpt xGetProfileListResponse p
  | .getProcParameterRequest p => xOpt xGetProcParameterRequest p
  | .getProcParameterResponse p => xOpt xGetProcParameterResponse p
  | .setProcParameterRequest p => xOpt xSetProcParameterRequest p
  | .getListRequest p => xOpt xGetListRequest p
  | .getListResponse p => xOpt xGetListResponse p
  | .attentionResponse p => xOpt xAttentionResponse p

/-- The body, for which `sml_message_body_init` makes the tag. -/
def xBody (b : MessageBody) : Code := fun Γ => do
  let d ← xBodyData b.data Γ
  Γ .sml_message_body_init [.int .u32 (b.tag.elim 0 Num.val : Nat), d]

/-- A message: either the generated id stays, or it is freed and replaced. -/
def xMessage (d : Draft) : Code := fun Γ => do
  let m ← Γ .sml_message_init []
  (if d.keepId then pure () else do
    let _ ← Γ .sml_octet_string_free [← loadPtr m 0]
    let id ← xOpt xStr d.message.transactionId Γ
    storePtr m 0 id : X Unit)
  xMembers m 1 [xOpt (xNum 1) d.message.groupId, xOpt (xNum 1) d.message.abortOnError, xOpt xBody d.message.messageBody] Γ
  pure m

/-- The bytes `uuid_generate` has to make for the ids of all messages. -/
def ids (ds : List Draft) : List UInt8 := (ds.map fun d => (uuidOf d.rnd).str).flatten

/-- A file. -/
def xFile (ds : List Draft) : Code := fun Γ => do
  let f ← Γ .sml_file_init []
  xAddAll .sml_file_add_message f (ds.map xMessage) Γ
  pure f

end Sml.C
