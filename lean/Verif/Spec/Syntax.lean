import Verif.Model.Message
import Verif.Spec.Term
import Verif.Spec.Content
import Verif.Spec.Crc

/-!
# Messages as SML terms

Which term each object stands for, and which objects can be represented. The conditions come in two
strengths: with `s = false`, the object can be encoded; with `s = true` it can also be recovered from
its encoding (an empty string and an absent one, for example, have the same encoding).
-/

namespace Sml.Spec

/-- Something optional: absent, or its term. -/
def opt (f : α → Term) : Option α → Term
  | none => .absent
  | some a => f a

/-- `n` bytes, most significant first. -/
def bigEndian (n v : Nat) : List UInt8 := ((List.range n).reverse.map fun i => UInt8.ofNat (v / 256 ^ i % 256))

def strTerm (s : OctetString) : Term := .octets s.str
def uintTerm (size : Nat) (n : Num) : Term := .uint (bigEndian size n.val)
def intTerm (size : Nat) (n : Num) : Term := .int (bigEndian size n.val)
def boolTerm (b : UInt8) : Term := .bool (decide (b ≠ 0))

/-- A time is a choice: tag, and seconds index or timestamp. -/
def timeTerm (t : Time) : Term := .list [opt (uintTerm 1) t.tag, opt (uintTerm 4) t.data]

/-- A value; the low digit of `type` is the size of a number, the high digit its sign. -/
def valueTerm (v : Value) : Term :=
  match v.data with
  | .bytes p => opt strTerm p
  | .boolean p => opt boolTerm p
  | .num p => opt (if v.type / 16 = 5 then intTerm (v.type % 16) else uintTerm (v.type % 16)) p

def statusTerm (v : Status) : Term := opt (uintTerm (v.type % 16)) v.data

/-- An optional field satisfies `P` if it is there. -/
def Opt (P : α → Prop) (o : Option α) : Prop := ∀ a, o = some a → P a

/-- The field is there and satisfies `P`. -/
def Some (P : α → Prop) (o : Option α) : Prop := ∃ a, o = some a ∧ P a

def StrOk (s : Bool) (x : OctetString) : Prop :=
  (s = true → x.str ≠ []) ∧ NoCarry x.str.length ∧ x.str.length + 1 < 16 ^ 6

def NumOk (s : Bool) (size : Nat) (n : Num) : Prop := size ≤ n.size ∧ (s = true → n.size = size ∧ n.val < 256 ^ size)

def BoolOk (s : Bool) (b : UInt8) : Prop := s = true → b = 0x00 ∨ b = 0xFF

def TimeOk (s : Bool) (t : Time) : Prop :=
  Opt (NumOk s 1) t.tag ∧ Opt (NumOk s 4) t.data ∧ (s = true → t.tag.isSome ∧ t.data.isSome)

/-- The sizes numbers come in. -/
def sizes : List Nat := [1, 2, 4, 8]

def ValOk (s : Bool) (v : Value) : Prop :=
  match v.data with
  | .bytes p => v.type = 0x00 ∧ Opt (StrOk s) p ∧ (s = true → p.isSome)
  | .boolean p => v.type = 0x40 ∧ Opt (BoolOk s) p ∧ (s = true → p.isSome)
  | .num p => ∃ k, k ∈ sizes ∧ (v.type = 0x50 + k ∨ v.type = 0x60 + k) ∧ Opt (NumOk s k) p ∧ (s = true → p.isSome)

def StatusOk (s : Bool) (v : Status) : Prop :=
  ∃ k, k ∈ sizes ∧ v.type = 0x60 + k ∧ Opt (NumOk s k) v.data ∧ (s = true → v.data.isSome)

/-! ## Sequences, paths, lists -/

def seqTerm (f : Option α → Term) (q : Sequence α) : Term := .list (q.elems.map f)

def SeqOk (s : Bool) (P : Option α → Prop) (q : Option (Sequence α)) : Prop :=
  Opt (fun x => x.elems.length < 16 ∧ ∀ e ∈ x.elems, P e) q ∧ (s = true → q.isSome)

def pathTerm (p : TreePath) : Term := .list (p.entries.map (opt strTerm))

def PathOk (s : Bool) (p : TreePath) : Prop :=
  p.entries ≠ [] ∧ p.entries.length < 16 ∧ ∀ e ∈ p.entries, Opt (StrOk s) e ∧ (s = true → e.isSome)

def listEntryTerm (e : ListEntry) : Term :=
  .list [opt strTerm e.objName, opt statusTerm e.status, opt timeTerm e.valTime, opt (uintTerm 1) e.unit,
    opt (intTerm 1) e.scaler, opt valueTerm e.value, opt strTerm e.valueSignature]

def ListEntryOk (s : Bool) (e : ListEntry) : Prop :=
  Opt (StrOk s) e.objName ∧ Opt (StatusOk s) e.status ∧ Opt (TimeOk s) e.valTime ∧ Opt (NumOk s 1) e.unit ∧
    Opt (NumOk s 1) e.scaler ∧ Opt (ValOk s) e.value ∧ Opt (StrOk s) e.valueSignature

/-- The value occupies at most two bytes. -/
def Short (v : Value) : Prop :=
  match v.data with
  | .bytes (some s) => s.str.length ≤ 2
  | .num _ => v.type % 16 ≤ 2
  | _ => True

/-- The workaround for the DZG DVS74 changes `b` if it comes after `a`; a value that is unsigned already stays as it is. -/
def DzgHits (a b : ListEntry) : Prop := IsDzgSerial a ∧ IsPower b ∧ ∃ v, b.value = some v ∧ Short v ∧ v.type / 16 ≠ 6

/-- A list; the library has no empty list, it is absent. -/
def listTerm (es : List ListEntry) : Term :=
  match es with
  | [] => .absent
  | es => .list (es.map listEntryTerm)

def ListOk (s : Bool) (es : List ListEntry) : Prop :=
  es.length < 16 ∧ (∀ e ∈ es, ListEntryOk s e) ∧ (s = true → es.Pairwise fun a b => ¬ DzgHits a b)

/-! ## Trees -/

/-- `PeriodEntry` as an SML term. -/
def periodEntryTerm (m : PeriodEntry) : Term := .list [opt strTerm m.objName, opt (uintTerm 1) m.unit, opt (intTerm 1) m.scaler, opt valueTerm m.value, opt strTerm m.valueSignature]

def PeriodEntryOk (s : Bool) (m : PeriodEntry) : Prop :=
  Opt (StrOk s) m.objName ∧ Opt (NumOk s 1) m.unit ∧ Opt (NumOk s 1) m.scaler ∧ Opt (ValOk s) m.value ∧ Opt (StrOk s) m.valueSignature

/-- What a parameter value holds. -/
def ppvDataTerm (d : PpvData) : Term :=
  match d with
  | .value p => opt valueTerm p
  | .periodEntry p => opt periodEntryTerm p
  | .time p => opt timeTerm p
  | .tupelEntry _ => .absent
  | .null => .absent

def ppvTerm (v : ProcParValue) : Term := .list [opt (uintTerm 1) v.tag, ppvDataTerm v.data]

/-- Plain values, period entries and times, each with its tag. Tuple entries are excluded: their
header is written wrong. -/
def PpvOk (s : Bool) (v : ProcParValue) : Prop :=
  ∃ t, v.tag = some t ∧ NumOk s 1 t ∧
    match v.data with
    | .value p => t.val = 1 ∧ Opt (ValOk s) p
    | .periodEntry p => t.val = 2 ∧ Opt (PeriodEntryOk s) p
    | .time p => t.val = 4 ∧ Opt (TimeOk s) p
    | .tupelEntry _ => False
    | .null => False

mutual
def treeTerm : Tree → Term
  | .mk n v cs => .list [opt strTerm n, opt ppvTerm v, match cs with | [] => .absent | c :: cs => .list (treeTerm c :: treeTerms cs)]
def treeTerms : List Tree → List Term
  | [] => []
  | t :: ts => treeTerm t :: treeTerms ts
end

inductive TreeFits (s : Bool) : Tree → Prop where
  | mk {n : Option OctetString} {v : Option ProcParValue} {cs : List Tree} : Opt (StrOk s) n → Opt (PpvOk s) v →
      cs.length < 16 → (∀ c, c ∈ cs → TreeFits s c) → TreeFits s (.mk n v cs)

mutual
/-- The number of levels. -/
def treeDepth : Tree → Nat
  | .mk _ _ cs => 1 + treesDepth cs
def treesDepth : List Tree → Nat
  | [] => 0
  | t :: ts => Nat.max (treeDepth t) (treesDepth ts)
end

/-! ## Message bodies -/

/-- `OpenRequest` as an SML term. -/
def openRequestTerm (m : OpenRequest) : Term := .list [opt strTerm m.codepage, opt strTerm m.clientId, opt strTerm m.reqFileId, opt strTerm m.serverId, opt strTerm m.username, opt strTerm m.password, opt (uintTerm 1) m.smlVersion]

def OpenRequestOk (s : Bool) (m : OpenRequest) : Prop :=
  Opt (StrOk s) m.codepage ∧ Opt (StrOk s) m.clientId ∧ Opt (StrOk s) m.reqFileId ∧ Opt (StrOk s) m.serverId ∧ Opt (StrOk s) m.username ∧ Opt (StrOk s) m.password ∧ Opt (NumOk s 1) m.smlVersion

/-- `OpenResponse` as an SML term. -/
def openResponseTerm (m : OpenResponse) : Term := .list [opt strTerm m.codepage, opt strTerm m.clientId, opt strTerm m.reqFileId, opt strTerm m.serverId, opt timeTerm m.refTime, opt (uintTerm 1) m.smlVersion]

def OpenResponseOk (s : Bool) (m : OpenResponse) : Prop :=
  Opt (StrOk s) m.codepage ∧ Opt (StrOk s) m.clientId ∧ Opt (StrOk s) m.reqFileId ∧ Opt (StrOk s) m.serverId ∧ Opt (TimeOk s) m.refTime ∧ Opt (NumOk s 1) m.smlVersion

/-- `CloseRequest` as an SML term. -/
def closeRequestTerm (m : CloseRequest) : Term := .list [opt strTerm m.globalSignature]

def CloseRequestOk (s : Bool) (m : CloseRequest) : Prop :=
  Opt (StrOk s) m.globalSignature

/-- `CloseResponse` as an SML term. -/
def closeResponseTerm (m : CloseResponse) : Term := .list [opt strTerm m.globalSignature]

def CloseResponseOk (s : Bool) (m : CloseResponse) : Prop :=
  Opt (StrOk s) m.globalSignature

/-- `ValueEntry` as an SML term. -/
def valueEntryTerm (m : ValueEntry) : Term := .list [opt valueTerm m.value, opt strTerm m.valueSignature]

def ValueEntryOk (s : Bool) (m : ValueEntry) : Prop :=
  Opt (ValOk s) m.value ∧ Opt (StrOk s) m.valueSignature

/-- `ProfObjHeaderEntry` as an SML term. -/
def profObjHeaderEntryTerm (m : ProfObjHeaderEntry) : Term := .list [opt strTerm m.objName, opt (uintTerm 1) m.unit, opt (intTerm 1) m.scaler]

def ProfObjHeaderEntryOk (s : Bool) (m : ProfObjHeaderEntry) : Prop :=
  Opt (StrOk s) m.objName ∧ Opt (NumOk s 1) m.unit ∧ Opt (NumOk s 1) m.scaler

/-- `ProfObjPeriodEntry` as an SML term. -/
def profObjPeriodEntryTerm (m : ProfObjPeriodEntry) : Term := .list [opt timeTerm m.valTime, opt (uintTerm 8) m.status, opt (seqTerm (opt valueEntryTerm)) m.valueList, opt strTerm m.periodSignature]

def ProfObjPeriodEntryOk (s : Bool) (m : ProfObjPeriodEntry) : Prop :=
  Opt (TimeOk s) m.valTime ∧ Opt (NumOk s 8) m.status ∧ SeqOk s (Some (ValueEntryOk s)) m.valueList ∧ Opt (StrOk s) m.periodSignature

/-- `GetProfilePackResponse` as an SML term. -/
def getProfilePackResponseTerm (m : GetProfilePackResponse) : Term := .list [opt strTerm m.serverId, opt timeTerm m.actTime, opt (uintTerm 4) m.regPeriod, opt pathTerm m.parameterTreePath, opt (seqTerm (opt profObjHeaderEntryTerm)) m.headerList, opt (seqTerm (opt profObjPeriodEntryTerm)) m.periodList, opt strTerm m.rawdata, opt strTerm m.profileSignature]

def GetProfilePackResponseOk (s : Bool) (m : GetProfilePackResponse) : Prop :=
  Opt (StrOk s) m.serverId ∧ Opt (TimeOk s) m.actTime ∧ Opt (NumOk s 4) m.regPeriod ∧ Opt (PathOk s) m.parameterTreePath ∧ SeqOk s (Some (ProfObjHeaderEntryOk s)) m.headerList ∧ SeqOk s (Some (ProfObjPeriodEntryOk s)) m.periodList ∧ Opt (StrOk s) m.rawdata ∧ Opt (StrOk s) m.profileSignature

/-- `GetProfileListResponse` as an SML term. -/
def getProfileListResponseTerm (m : GetProfileListResponse) : Term := .list [opt strTerm m.serverId, opt timeTerm m.actTime, opt (uintTerm 4) m.regPeriod, opt pathTerm m.parameterTreePath, opt timeTerm m.valTime, opt (uintTerm 8) m.status, opt (seqTerm (opt periodEntryTerm)) m.periodList, opt strTerm m.rawdata, opt strTerm m.periodSignature]

def GetProfileListResponseOk (s : Bool) (m : GetProfileListResponse) : Prop :=
  Opt (StrOk s) m.serverId ∧ Opt (TimeOk s) m.actTime ∧ Opt (NumOk s 4) m.regPeriod ∧ Opt (PathOk s) m.parameterTreePath ∧ Opt (TimeOk s) m.valTime ∧ Opt (NumOk s 8) m.status ∧ SeqOk s (Opt (PeriodEntryOk s)) m.periodList ∧ Opt (StrOk s) m.rawdata ∧ Opt (StrOk s) m.periodSignature

/-- `GetProcParameterRequest` as an SML term. -/
def getProcParameterRequestTerm (m : GetProcParameterRequest) : Term := .list [opt strTerm m.serverId, opt strTerm m.username, opt strTerm m.password, opt pathTerm m.parameterTreePath, opt strTerm m.attr]

def GetProcParameterRequestOk (s : Bool) (m : GetProcParameterRequest) : Prop :=
  Opt (StrOk s) m.serverId ∧ Opt (StrOk s) m.username ∧ Opt (StrOk s) m.password ∧ Opt (PathOk s) m.parameterTreePath ∧ Opt (StrOk s) m.attr

/-- `GetProcParameterResponse` as an SML term. -/
def getProcParameterResponseTerm (m : GetProcParameterResponse) : Term := .list [opt strTerm m.serverId, opt pathTerm m.parameterTreePath, opt treeTerm m.parameterTree]

def GetProcParameterResponseOk (s : Bool) (m : GetProcParameterResponse) : Prop :=
  Opt (StrOk s) m.serverId ∧ Opt (PathOk s) m.parameterTreePath ∧ Opt (TreeFits s) m.parameterTree

/-- `SetProcParameterRequest` as an SML term. -/
def setProcParameterRequestTerm (m : SetProcParameterRequest) : Term := .list [opt strTerm m.serverId, opt strTerm m.username, opt strTerm m.password, opt pathTerm m.parameterTreePath, opt treeTerm m.parameterTree]

def SetProcParameterRequestOk (s : Bool) (m : SetProcParameterRequest) : Prop :=
  Opt (StrOk s) m.serverId ∧ Opt (StrOk s) m.username ∧ Opt (StrOk s) m.password ∧ Opt (PathOk s) m.parameterTreePath ∧ Opt (TreeFits s) m.parameterTree

/-- `GetListRequest` as an SML term. -/
def getListRequestTerm (m : GetListRequest) : Term := .list [opt strTerm m.clientId, opt strTerm m.serverId, opt strTerm m.username, opt strTerm m.password, opt strTerm m.listName]

def GetListRequestOk (s : Bool) (m : GetListRequest) : Prop :=
  Opt (StrOk s) m.clientId ∧ Opt (StrOk s) m.serverId ∧ Opt (StrOk s) m.username ∧ Opt (StrOk s) m.password ∧ Opt (StrOk s) m.listName

/-- `GetListResponse` as an SML term. -/
def getListResponseTerm (m : GetListResponse) : Term := .list [opt strTerm m.clientId, opt strTerm m.serverId, opt strTerm m.listName, opt timeTerm m.actSensorTime, listTerm m.valList, opt strTerm m.listSignature, opt timeTerm m.actGatewayTime]

def GetListResponseOk (s : Bool) (m : GetListResponse) : Prop :=
  Opt (StrOk s) m.clientId ∧ Opt (StrOk s) m.serverId ∧ Opt (StrOk s) m.listName ∧ Opt (TimeOk s) m.actSensorTime ∧ ListOk s m.valList ∧ Opt (StrOk s) m.listSignature ∧ Opt (TimeOk s) m.actGatewayTime

/-- `AttentionResponse` as an SML term. -/
def attentionResponseTerm (m : AttentionResponse) : Term := .list [opt strTerm m.serverId, opt strTerm m.attentionNumber, opt strTerm m.attentionMessage, opt treeTerm m.attentionDetails]

def AttentionResponseOk (s : Bool) (m : AttentionResponse) : Prop :=
  Opt (StrOk s) m.serverId ∧ Opt (StrOk s) m.attentionNumber ∧ Opt (StrOk s) m.attentionMessage ∧ Opt (TreeFits s) m.attentionDetails

/-- The object list of a profile request. -/
def objectsTerm (os : List (Option OctetString)) : Term :=
  match os with
  | [] => .absent
  | os => .list (os.map (opt strTerm))

/-- `GetProfilePackRequest` as an SML term. -/
def getProfilePackRequestTerm (m : GetProfilePackRequest) : Term := .list [opt strTerm m.serverId, opt strTerm m.username, opt strTerm m.password, opt boolTerm m.withRawdata, opt timeTerm m.beginTime, opt timeTerm m.endTime, opt pathTerm m.parameterTreePath, objectsTerm m.objectList, opt treeTerm m.dasDetails]

def GetProfilePackRequestOk (s : Bool) (m : GetProfilePackRequest) : Prop :=
  Opt (StrOk s) m.serverId ∧ Opt (StrOk s) m.username ∧ Opt (StrOk s) m.password ∧ Opt (BoolOk s) m.withRawdata ∧ Opt (TimeOk s) m.beginTime ∧ Opt (TimeOk s) m.endTime ∧ Opt (PathOk s) m.parameterTreePath ∧ m.objectList = [] ∧ Opt (TreeFits s) m.dasDetails

def bodyDataTerm (d : BodyData) : Term :=
  match d with
  | .null => .absent
  | .openRequest p => opt openRequestTerm p
  | .openResponse p => opt openResponseTerm p
  | .closeRequest p => opt closeRequestTerm p
  | .closeResponse p => opt closeResponseTerm p
  | .getProfilePackRequest p => opt getProfilePackRequestTerm p
  | .getProfilePackResponse p => opt getProfilePackResponseTerm p
  | .getProfileListRequest p => opt getProfilePackRequestTerm p
  | .getProfileListResponse p => opt getProfileListResponseTerm p
  | .getProcParameterRequest p => opt getProcParameterRequestTerm p
  | .getProcParameterResponse p => opt getProcParameterResponseTerm p
  | .setProcParameterRequest p => opt setProcParameterRequestTerm p
  | .getListRequest p => opt getListRequestTerm p
  | .getListResponse p => opt getListResponseTerm p
  | .attentionResponse p => opt attentionResponseTerm p

/-- The code and the kind of body agree; the body is there and can be represented. -/
def BodyDataOk (s : Bool) (tag : Nat) (d : BodyData) : Prop :=
  match d with
  | .null => False
  | .openRequest p => tag = 0x100 ∧ Some (OpenRequestOk s) p
  | .openResponse p => tag = 0x101 ∧ Some (OpenResponseOk s) p
  | .closeRequest p => tag = 0x200 ∧ Some (CloseRequestOk s) p
  | .closeResponse p => tag = 0x201 ∧ Some (CloseResponseOk s) p
  | .getProfilePackRequest p => tag = 0x300 ∧ Some (GetProfilePackRequestOk s) p
  | .getProfilePackResponse p => tag = 0x301 ∧ Some (GetProfilePackResponseOk s) p
  | .getProfileListRequest p => tag = 0x400 ∧ Some (GetProfilePackRequestOk s) p
  | .getProfileListResponse p => tag = 0x401 ∧ Some (GetProfileListResponseOk s) p
  | .getProcParameterRequest p => tag = 0x500 ∧ Some (GetProcParameterRequestOk s) p
  | .getProcParameterResponse p => tag = 0x501 ∧ Some (GetProcParameterResponseOk s) p
  | .setProcParameterRequest p => tag = 0x600 ∧ Some (SetProcParameterRequestOk s) p
  | .getListRequest p => tag = 0x700 ∧ Some (GetListRequestOk s) p
  | .getListResponse p => tag = 0x701 ∧ Some (GetListResponseOk s) p
  | .attentionResponse p => tag = 0xFF01 ∧ Some (AttentionResponseOk s) p

def messageBodyTerm (b : MessageBody) : Term := .list [opt (uintTerm 4) b.tag, bodyDataTerm b.data]

def MessageBodyOk (s : Bool) (b : MessageBody) : Prop :=
  ∃ t, b.tag = some t ∧ NumOk s 4 t ∧ BodyDataOk s t.val b.data

/-- The levels of the parameter tree in a body. -/
def bodyDepth (d : BodyData) : Nat :=
  match d with
  | .getProfilePackRequest (some m) => (m.dasDetails.map treeDepth).getD 0
  | .getProfileListRequest (some m) => (m.dasDetails.map treeDepth).getD 0
  | .getProcParameterResponse (some m) => (m.parameterTree.map treeDepth).getD 0
  | .setProcParameterRequest (some m) => (m.parameterTree.map treeDepth).getD 0
  | .attentionResponse (some m) => (m.attentionDetails.map treeDepth).getD 0
  | _ => 0

/-! ## Messages and files -/

/-- The first four of the six elements of a message. -/
def messageFields (m : Message) : List Term :=
  [opt strTerm m.transactionId, opt (uintTerm 1) m.groupId, opt (uintTerm 1) m.abortOnError, opt messageBodyTerm m.messageBody]

def MessageOk (s : Bool) (m : Message) : Prop :=
  Opt (StrOk s) m.transactionId ∧ Opt (NumOk s 1) m.groupId ∧ Opt (NumOk s 1) m.abortOnError ∧
    Some (MessageBodyOk s) m.messageBody

/-- The bytes of a message up to its checksum. -/
def messageHead (m : Message) : List UInt8 := encHeader 7 6 ++ encAll (messageFields m)

/-- The checksum of a message: CRC-16/X-25 with its bytes in transmission order. -/
def checksum (m : Message) : Nat := (swap16 (crcX25 (messageHead m))).toNat

/-- A message on the wire: a list of six, the fifth element being a checksum and the sixth the end mark
0x00. -/
def messageBytes (c : Nat) (m : Message) : List UInt8 := messageHead m ++ enc (.uint (bigEndian 2 c)) ++ [0x00]

/-- A file is its messages with their checksums, one after the other. -/
def fileBytes (ms : List Message) : List UInt8 := (ms.map fun m => messageBytes (checksum m) m).flatten

/-- The message with its checksum. -/
def sealed (m : Message) : Message := { m with crc := some { size := 2, val := checksum m } }

/-- The levels of parameter trees in a message. -/
def messageDepth (m : Message) : Nat := (m.messageBody.map fun b => bodyDepth b.data).getD 0

end Sml.Spec
