import Verif.Model.Heap

/-!
# What it means for a heap to hold an object

`R… v a B`: the blocks `B` are those of the object `v` at address `a`. The addresses of all parts of an object are distinct
when `B` has no address twice; so this describes trees of blocks without sharing.
-/

namespace Sml

/-- An address with the block it holds. -/
abbrev Blk := Addr × HCell

/-- How a pointer and a list of blocks represent something. -/
abbrev Rep := Addr → List Blk → Prop

/-- NULL. -/
def nullRep : Rep := fun a B => a = 0 ∧ B = []

/-- A pointer that may be NULL. -/
def repOpt (r : α → Rep) : Option α → Rep
  | none => nullRep
  | some v => r v

/-- Members of a structure, or elements of an array: pointers and the blocks behind all of them. -/
def Fields : List Rep → List Addr → List Blk → Prop
  | [], ps, B => ps = [] ∧ B = []
  | r :: rs, ps, B => ∃ p ps' B1 B2, ps = p :: ps' ∧ r p B1 ∧ Fields rs ps' B2 ∧ B = B1 ++ B2

/-- A structure with the given pointer members and integer members. -/
def Rec (rs : List Rep) (ints : List Nat) : Rep := fun a B =>
  ∃ ps B', Fields rs ps B' ∧ B = (a, .struct ps ints) :: B'

/-- An array of pointers in a block of its own; NULL when there are no elements. -/
def RArr (rs : List Rep) : Rep := fun a B =>
  if rs = [] then nullRep a B else Rec rs [] a B

/-- A number object. -/
def RNum (n : Num) : Rep := fun a B => B = [(a, .num n)]

/-- A boolean. -/
def RBool (b : UInt8) : Rep := fun a B => B = [(a, .num { size := 1, val := b.toNat })]

/-- The bytes of an octet string: NULL when there are none. -/
def RData (bs : List UInt8) : Rep := fun a B =>
  if bs = [] then nullRep a B else B = [(a, .bytes bs)]

def RStr (s : OctetString) : Rep := Rec [RData s.str] [s.str.length]

/-- What the union of a value refers to. -/
def RVData : VData → Rep
  | .bytes p => repOpt RStr p
  | .boolean p => repOpt RBool p
  | .num p => repOpt RNum p

/-- A value; when the type says octet string, the union holds one. -/
def RValue (v : Value) : Rep := fun a B =>
  (v.type = tyOctet → ∃ p, v.data = .bytes p) ∧ Rec [RVData v.data] [v.type] a B

def RStatus (s : Status) : Rep := Rec [repOpt RNum s.data] [s.type]

def RTime (t : Time) : Rep := Rec [repOpt RNum t.tag, repOpt RNum t.data] []

/-- A sequence; `c` is the function that frees an element. -/
def RSequence (c : C.Fn) (r : Option α → Rep) (s : Sequence α) : Rep := Rec [RArr (s.elems.map r)] [s.elems.length, c.code]

/-- The members of a list entry in front of `next`. -/
def entryReps (e : ListEntry) : List Rep :=
  [repOpt RStr e.objName, repOpt RStatus e.status, repOpt RTime e.valTime, repOpt RNum e.unit, repOpt RNum e.scaler,
    repOpt RValue e.value, repOpt RStr e.valueSignature]

/-- A linked list. -/
def RList : List ListEntry → Rep
  | [] => nullRep
  | e :: es => Rec (entryReps e ++ [RList es]) []

def RTreePath (p : TreePath) : Rep := Rec [RArr (p.entries.map (repOpt RStr))] [p.entries.length]

def RPeriodEntry (p : PeriodEntry) : Rep :=
  Rec [repOpt RStr p.objName, repOpt RNum p.unit, repOpt RNum p.scaler, repOpt RValue p.value,
    repOpt RStr p.valueSignature] []

def RTupelEntry (t : TupelEntry) : Rep :=
  Rec [repOpt RStr t.serverId, repOpt RTime t.secIndex, repOpt RNum t.status,
    repOpt RNum t.unit_pA, repOpt RNum t.scaler_pA, repOpt RNum t.value_pA,
    repOpt RNum t.unit_R1, repOpt RNum t.scaler_R1, repOpt RNum t.value_R1,
    repOpt RNum t.unit_R4, repOpt RNum t.scaler_R4, repOpt RNum t.value_R4, repOpt RStr t.signature_pA_R1_R4,
    repOpt RNum t.unit_mA, repOpt RNum t.scaler_mA, repOpt RNum t.value_mA,
    repOpt RNum t.unit_R2, repOpt RNum t.scaler_R2, repOpt RNum t.value_R2,
    repOpt RNum t.unit_R3, repOpt RNum t.scaler_R3, repOpt RNum t.value_R3, repOpt RStr t.signature_mA_R2_R3] []

def RPpvData : PpvData → Rep
  | .null => nullRep
  | .value p => repOpt RValue p
  | .periodEntry p => repOpt RPeriodEntry p
  | .tupelEntry p => repOpt RTupelEntry p
  | .time p => repOpt RTime p

/-- A number that fits into the `w` bytes of its object. -/
def Sized (w : Nat) (t : Num) : Prop := t.size = w ∧ t.val < 256 ^ w

/-- The tag says what the union holds. -/
def PpvWf (v : ProcParValue) : Prop :=
  (∀ t, v.tag = some t → Sized 1 t) ∧
  match v.data with
  | .null => True
  | .value _ => ∃ t, v.tag = some t ∧ t.val = 1
  | .periodEntry _ => ∃ t, v.tag = some t ∧ t.val = 2
  | .tupelEntry _ => ∃ t, v.tag = some t ∧ t.val = 3
  | .time _ => ∃ t, v.tag = some t ∧ t.val = 4

def RPpv (v : ProcParValue) : Rep := fun a B => PpvWf v ∧ Rec [repOpt RNum v.tag, RPpvData v.data] [] a B

mutual
def RTree : Tree → Rep
  | .mk n v cs => Rec [repOpt RStr n, repOpt RPpv v, RArr (RTrees cs)] [cs.length]
def RTrees : List Tree → List Rep
  | [] => []
  | t :: ts => RTree t :: RTrees ts
end

def ROpenRequest (m : OpenRequest) : Rep :=
  Rec [repOpt RStr m.codepage,
    repOpt RStr m.clientId,
    repOpt RStr m.reqFileId,
    repOpt RStr m.serverId,
    repOpt RStr m.username,
    repOpt RStr m.password,
    repOpt RNum m.smlVersion] []

def ROpenResponse (m : OpenResponse) : Rep :=
  Rec [repOpt RStr m.codepage,
    repOpt RStr m.clientId,
    repOpt RStr m.reqFileId,
    repOpt RStr m.serverId,
    repOpt RTime m.refTime,
    repOpt RNum m.smlVersion] []

def RCloseRequest (m : CloseRequest) : Rep :=
  Rec [repOpt RStr m.globalSignature] []

def RCloseResponse (m : CloseResponse) : Rep :=
  Rec [repOpt RStr m.globalSignature] []

def RValueEntry (m : ValueEntry) : Rep :=
  Rec [repOpt RValue m.value,
    repOpt RStr m.valueSignature] []

def RProfObjHeaderEntry (m : ProfObjHeaderEntry) : Rep :=
  Rec [repOpt RStr m.objName,
    repOpt RNum m.unit,
    repOpt RNum m.scaler] []

def RProfObjPeriodEntry (m : ProfObjPeriodEntry) : Rep :=
  Rec [repOpt RTime m.valTime,
    repOpt RNum m.status,
    repOpt (RSequence .sml_value_entry_free_ (repOpt RValueEntry)) m.valueList,
    repOpt RStr m.periodSignature] []

def RGetProfilePackResponse (m : GetProfilePackResponse) : Rep :=
  Rec [repOpt RStr m.serverId,
    repOpt RTime m.actTime,
    repOpt RNum m.regPeriod,
    repOpt RTreePath m.parameterTreePath,
    repOpt (RSequence .sml_prof_obj_header_entry_free_ (repOpt RProfObjHeaderEntry)) m.headerList,
    repOpt (RSequence .sml_prof_obj_period_entry_free_ (repOpt RProfObjPeriodEntry)) m.periodList,
    repOpt RStr m.rawdata,
    repOpt RStr m.profileSignature] []

def RGetProfileListResponse (m : GetProfileListResponse) : Rep :=
  Rec [repOpt RStr m.serverId,
    repOpt RTime m.actTime,
    repOpt RNum m.regPeriod,
    repOpt RTreePath m.parameterTreePath,
    repOpt RTime m.valTime,
    repOpt RNum m.status,
    repOpt (RSequence .sml_period_entry_free_get (repOpt RPeriodEntry)) m.periodList,
    repOpt RStr m.rawdata,
    repOpt RStr m.periodSignature] []

def RGetProcParameterRequest (m : GetProcParameterRequest) : Rep :=
  Rec [repOpt RStr m.serverId,
    repOpt RStr m.username,
    repOpt RStr m.password,
    repOpt RTreePath m.parameterTreePath,
    repOpt RStr m.attr] []

def RGetProcParameterResponse (m : GetProcParameterResponse) : Rep :=
  Rec [repOpt RStr m.serverId,
    repOpt RTreePath m.parameterTreePath,
    repOpt RTree m.parameterTree] []

def RSetProcParameterRequest (m : SetProcParameterRequest) : Rep :=
  Rec [repOpt RStr m.serverId,
    repOpt RStr m.username,
    repOpt RStr m.password,
    repOpt RTreePath m.parameterTreePath,
    repOpt RTree m.parameterTree] []

def RGetListRequest (m : GetListRequest) : Rep :=
  Rec [repOpt RStr m.clientId,
    repOpt RStr m.serverId,
    repOpt RStr m.username,
    repOpt RStr m.password,
    repOpt RStr m.listName] []

def RGetListResponse (m : GetListResponse) : Rep :=
  Rec [repOpt RStr m.clientId,
    repOpt RStr m.serverId,
    repOpt RStr m.listName,
    repOpt RTime m.actSensorTime,
    RList m.valList,
    repOpt RStr m.listSignature,
    repOpt RTime m.actGatewayTime] []

def RAttentionResponse (m : AttentionResponse) : Rep :=
  Rec [repOpt RStr m.serverId,
    repOpt RStr m.attentionNumber,
    repOpt RStr m.attentionMessage,
    repOpt RTree m.attentionDetails] []

/-- The object list: nodes with members `object_list_entry` and `next`. -/
def RObjs : List (Option OctetString) → Rep
  | [] => nullRep
  | e :: es => Rec [repOpt RStr e, RObjs es] []

def RGetProfilePackRequest (m : GetProfilePackRequest) : Rep :=
  Rec [repOpt RStr m.serverId,
    repOpt RStr m.username,
    repOpt RStr m.password,
    repOpt RBool m.withRawdata,
    repOpt RTime m.beginTime,
    repOpt RTime m.endTime,
    repOpt RTreePath m.parameterTreePath,
    RObjs m.objectList,
    repOpt RTree m.dasDetails] []

def RBodyData : BodyData → Rep
  | .null => nullRep
  | .openRequest p => repOpt ROpenRequest p
  | .openResponse p => repOpt ROpenResponse p
  | .closeRequest p => repOpt RCloseRequest p
  | .closeResponse p => repOpt RCloseResponse p
  | .getProfilePackRequest p => repOpt RGetProfilePackRequest p
  | .getProfilePackResponse p => repOpt RGetProfilePackResponse p
  | .getProfileListRequest p => repOpt RGetProfilePackRequest p
  | .getProfileListResponse p => repOpt RGetProfileListResponse p
  | .getProcParameterRequest p => repOpt RGetProcParameterRequest p
  | .getProcParameterResponse p => repOpt RGetProcParameterResponse p
  | .setProcParameterRequest p => repOpt RSetProcParameterRequest p
  | .getListRequest p => repOpt RGetListRequest p
  | .getListResponse p => repOpt RGetListResponse p
  | .attentionResponse p => repOpt RAttentionResponse p

/-- The tag says what the `void *` refers to. -/
def BodyDataWf (tag : Nat) : BodyData → Prop
  | .null => True
  | .openRequest _ => tag = tagOpenRequest
  | .openResponse _ => tag = tagOpenResponse
  | .closeRequest _ => tag = tagCloseRequest
  | .closeResponse _ => tag = tagCloseResponse
  | .getProfilePackRequest _ => tag = tagGetProfilePackRequest
  | .getProfilePackResponse _ => tag = tagGetProfilePackResponse
  | .getProfileListRequest _ => tag = tagGetProfileListRequest
  | .getProfileListResponse _ => tag = tagGetProfileListResponse
  | .getProcParameterRequest _ => tag = tagGetProcParameterRequest
  | .getProcParameterResponse _ => tag = tagGetProcParameterResponse
  | .setProcParameterRequest _ => tag = tagSetProcParameterRequest
  | .getListRequest _ => tag = tagGetListRequest
  | .getListResponse _ => tag = tagGetListResponse
  | .attentionResponse _ => tag = tagAttentionResponse

def RMessageBody (b : MessageBody) : Rep := fun a B => (∃ t, b.tag = some t ∧ Sized 4 t ∧ BodyDataWf t.val b.data) ∧
  Rec [repOpt RNum b.tag, RBodyData b.data] [] a B

def RMessage (m : Message) : Rep :=
  Rec [repOpt RStr m.transactionId, repOpt RNum m.groupId, repOpt RNum m.abortOnError, repOpt RMessageBody m.messageBody,
    repOpt RNum m.crc] []

/-- A `sml_buffer`: members `buffer` and `error_msg`. -/
def RBuffer (bytes : List UInt8) : Rep := Rec [fun a B => B = [(a, .bytes bytes)], nullRep] []

def RFile (bytes : List UInt8) (f : File) : Rep :=
  Rec [RArr (f.messages.map RMessage), RBuffer bytes] [f.messages.length]

end Sml
