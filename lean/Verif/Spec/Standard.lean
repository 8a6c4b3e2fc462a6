import Verif.Model.Message
import Verif.Spec.Term
import Verif.Spec.Number
import Verif.Spec.Content
import Verif.Spec.Crc

/-!
# Telegrams of any conforming sender

SML 1.04 written down for the sender: which bytes may stand for a term, which terms are messages, and what they say.
A sender is free to use long headers for strings and lists and to leave out leading bytes of numbers. What a message says is given
as the structure a program should get. Nothing here refers to the library's parser or to the grammar of what it accepts.
-/

namespace Sml.Spec.Standard

/-- A header, of any number of bytes, for something of type `ty` and length `n`. -/
def Header (ty n : Nat) (h : List UInt8) : Prop := IsHeader h ∧ headerType h = ty ∧ headerLength h = n

mutual
/-- `bs` is an encoding of the term. A number is so short that its header is one byte. The byte 01 is the mark of something omitted
and no empty string. -/
def Encodes : Term → List UInt8 → Prop
  | .absent, bs => bs = [0x01]
  | .octets s, bs => ∃ h, Header 0 s.length h ∧ h ≠ [0x01] ∧ bs = h ++ s
  | .bool b, bs => ∃ h x, Header 4 1 h ∧ b = decide (x ≠ 0x00) ∧ bs = h ++ [x]
  | .int s, bs => ∃ h, Header 5 s.length h ∧ h.length = 1 ∧ bs = h ++ s
  | .uint s, bs => ∃ h, Header 6 s.length h ∧ h.length = 1 ∧ bs = h ++ s
  | .list ts, bs => ∃ h r, Header 7 ts.length h ∧ EncodeAll ts r ∧ bs = h ++ r
/-- `bs` is an encoding of the terms, one after the other. -/
def EncodeAll : List Term → List UInt8 → Prop
  | [], bs => bs = []
  | t :: ts, bs => ∃ x y, Encodes t x ∧ EncodeAll ts y ∧ bs = x ++ y
end

/-- Each term is of its kind. -/
def Each : List (Term → Prop) → List Term → Prop
  | [], [] => True
  | p :: ps, t :: ts => p t ∧ Each ps ts
  | _, _ => False

/-- A list with the given elements. -/
def record (ps : List (Term → Prop)) (t : Term) : Prop := ∃ ts, t = .list ts ∧ Each ps ts

/-- Something that may be omitted. -/
def optional (p : α → Term → Prop) : Option α → Term → Prop
  | none, t => t = .absent
  | some a, t => p a t

/-- Something that must not be omitted. -/
def required (p : α → Term → Prop) (o : Option α) (t : Term) : Prop := ∃ a, o = some a ∧ p a t

/-! ## Simple types -/

def str (s : OctetString) (t : Term) : Prop := t = .octets s.str

/-- Unsigned number of type `Unsigned8` to `Unsigned64`; leading zero bytes may be left out. -/
def uint (size : Nat) (n : Num) (t : Term) : Prop :=
  ∃ bs, t = .uint bs ∧ bs ≠ [] ∧ bs.length ≤ size ∧ n = ⟨size, unsignedOf bs⟩

/-- Signed number of type `Integer8` to `Integer64`; leading bytes that only repeat the sign may be left out. In memory it is in two's
complement. -/
def int (size : Nat) (n : Num) (t : Term) : Prop :=
  ∃ bs, t = .int bs ∧ bs ≠ [] ∧ bs.length ≤ size ∧ n = ⟨size, (signedOf bs % 256 ^ size).toNat⟩

def boolean (b : UInt8) (t : Term) : Prop := ∃ x, t = .bool x ∧ b = if x then 0xFF else 0x00

/-- The least of the sizes 1, 2, 4, 8 that holds `n` bytes. -/
def sizeFor (n : Nat) : Nat := if n ≤ 1 then 1 else if n ≤ 2 then 2 else if n ≤ 4 then 4 else 8

/-- Value: string, boolean, or number of up to eight bytes. -/
def value (v : Value) (t : Term) : Prop :=
  match v.data with
  | .bytes p => v.type = 0x00 ∧ required str p t
  | .boolean p => v.type = 0x40 ∧ required boolean p t
  | .num p => ∃ bs, bs ≠ [] ∧ bs.length ≤ 8 ∧
      (t = .int bs ∧ v.type = 0x50 + sizeFor bs.length ∧ required (int (sizeFor bs.length)) p t ∨
       t = .uint bs ∧ v.type = 0x60 + sizeFor bs.length ∧ required (uint (sizeFor bs.length)) p t)

def status (v : Status) (t : Term) : Prop :=
  ∃ bs, bs ≠ [] ∧ bs.length ≤ 8 ∧ t = .uint bs ∧ v.type = 0x60 + sizeFor bs.length ∧ required (uint (sizeFor bs.length)) v.data t

/-- Time: seconds (1), time stamp (2), or local time stamp (3). The library does not keep local times. -/
def time (v : Time) (t : Term) : Prop :=
  ∃ tag, v.tag = some tag ∧
    ((tag.val = 1 ∨ tag.val = 2) ∧ record [uint 1 tag, required (uint 4) v.data] t ∨
     tag.val = 3 ∧ v.data = none ∧ ∃ a b c, record [uint 1 tag, record [uint 4 a, int 2 b, int 2 c]] t)

/-! ## Lists -/

def many (p : α → Term → Prop) (as : List α) (t : Term) : Prop := ∃ ts, t = .list ts ∧ Each (as.map p) ts

def sequence (p : α → Term → Prop) (q : Sequence α) (t : Term) : Prop := many (required p) q.elems t

def listEntry (e : ListEntry) : Term → Prop :=
  record [required str e.objName, optional status e.status, optional time e.valTime, optional (uint 1) e.unit,
    optional (int 1) e.scaler, required value e.value, optional str e.valueSignature]

/-- A measurement list. Meters for which the library changes what was sent are left out; see C46 for them. -/
def list (es : List ListEntry) (t : Term) : Prop :=
  many listEntry es t ∧ es.Pairwise fun a b => ¬ (IsDzgSerial a ∧ IsPower b)

/-! ## Parameter trees -/

def path (p : TreePath) (t : Term) : Prop := many (required str) p.entries t

def periodEntry (m : PeriodEntry) : Term → Prop :=
  record [required str m.objName, required (uint 1) m.unit, required (int 1) m.scaler, required value m.value, optional str m.valueSignature]

def tupelEntry (m : TupelEntry) : Term → Prop :=
  record [required str m.serverId, required time m.secIndex, required (uint 8) m.status,
    required (uint 1) m.unit_pA, required (int 1) m.scaler_pA, required (int 8) m.value_pA,
    required (uint 1) m.unit_R1, required (int 1) m.scaler_R1, required (int 8) m.value_R1,
    required (uint 1) m.unit_R4, required (int 1) m.scaler_R4, required (int 8) m.value_R4,
    required str m.signature_pA_R1_R4,
    required (uint 1) m.unit_mA, required (int 1) m.scaler_mA, required (int 8) m.value_mA,
    required (uint 1) m.unit_R2, required (int 1) m.scaler_R2, required (int 8) m.value_R2,
    required (uint 1) m.unit_R3, required (int 1) m.scaler_R3, required (int 8) m.value_R3,
    required str m.signature_mA_R2_R3]

/-- Parameter value: a choice of value, period entry, tuple entry and time. -/
def procParValue (v : ProcParValue) (t : Term) : Prop :=
  ∃ tag, v.tag = some tag ∧
    match v.data with
    | .null => False
    | .value p => tag.val = 1 ∧ record [uint 1 tag, required value p] t
    | .periodEntry p => tag.val = 2 ∧ record [uint 1 tag, required periodEntry p] t
    | .tupelEntry p => tag.val = 3 ∧ record [uint 1 tag, required tupelEntry p] t
    | .time p => tag.val = 4 ∧ record [uint 1 tag, required time p] t

mutual
/-- Parameter tree: name, optional value, optional list of children. -/
def tree : Tree → Term → Prop
  | .mk name v cs, t => ∃ a b c, t = .list [a, b, c] ∧ required str name a ∧ optional procParValue v b ∧
      (cs = [] ∧ c = .absent ∨ ∃ ts, c = .list ts ∧ trees cs ts)
def trees : List Tree → List Term → Prop
  | [], ts => ts = []
  | c :: cs, ts => ∃ t ts', ts = t :: ts' ∧ tree c t ∧ trees cs ts'
end

/-! ## Message bodies -/

def openRequest (m : OpenRequest) : Term → Prop :=
  record [optional str m.codepage, required str m.clientId, required str m.reqFileId, optional str m.serverId, optional str m.username,
    optional str m.password, optional (uint 1) m.smlVersion]

def openResponse (m : OpenResponse) : Term → Prop :=
  record [optional str m.codepage, optional str m.clientId, required str m.reqFileId, required str m.serverId, optional time m.refTime,
    optional (uint 1) m.smlVersion]

def closeRequest (m : CloseRequest) : Term → Prop := record [optional str m.globalSignature]

def closeResponse (m : CloseResponse) : Term → Prop := record [optional str m.globalSignature]

/-- The objects asked for, if the request names any. -/
def objects : List (Option OctetString) → Term → Prop
  | [], t => t = .absent ∨ t = .list []
  | os, t => many (required str) os t

def getProfilePackRequest (m : GetProfilePackRequest) : Term → Prop :=
  record [optional str m.serverId, optional str m.username, optional str m.password, optional boolean m.withRawdata, optional time m.beginTime,
    optional time m.endTime, required path m.parameterTreePath, objects m.objectList, optional tree m.dasDetails]

def profObjHeaderEntry (m : ProfObjHeaderEntry) : Term → Prop :=
  record [required str m.objName, required (uint 1) m.unit, required (int 1) m.scaler]

def valueEntry (m : ValueEntry) : Term → Prop := record [required value m.value, optional str m.valueSignature]

def profObjPeriodEntry (m : ProfObjPeriodEntry) : Term → Prop :=
  record [required time m.valTime, required (uint 8) m.status, required (sequence valueEntry) m.valueList, optional str m.periodSignature]

def getProfilePackResponse (m : GetProfilePackResponse) : Term → Prop :=
  record [required str m.serverId, required time m.actTime, required (uint 4) m.regPeriod, required path m.parameterTreePath,
    required (sequence profObjHeaderEntry) m.headerList, required (sequence profObjPeriodEntry) m.periodList, optional str m.rawdata,
    optional str m.profileSignature]

def getProfileListResponse (m : GetProfileListResponse) : Term → Prop :=
  record [required str m.serverId, required time m.actTime, required (uint 4) m.regPeriod, required path m.parameterTreePath,
    required time m.valTime, required (uint 8) m.status, required (sequence periodEntry) m.periodList, optional str m.rawdata,
    optional str m.periodSignature]

def getProcParameterRequest (m : GetProcParameterRequest) : Term → Prop :=
  record [optional str m.serverId, optional str m.username, optional str m.password, required path m.parameterTreePath, optional str m.attr]

def getProcParameterResponse (m : GetProcParameterResponse) : Term → Prop :=
  record [required str m.serverId, required path m.parameterTreePath, required tree m.parameterTree]

def setProcParameterRequest (m : SetProcParameterRequest) : Term → Prop :=
  record [optional str m.serverId, optional str m.username, optional str m.password, required path m.parameterTreePath,
    required tree m.parameterTree]

def getListRequest (m : GetListRequest) : Term → Prop :=
  record [required str m.clientId, optional str m.serverId, optional str m.username, optional str m.password, optional str m.listName]

def getListResponse (m : GetListResponse) : Term → Prop :=
  record [optional str m.clientId, required str m.serverId, optional str m.listName, optional time m.actSensorTime, list m.valList,
    optional str m.listSignature, optional time m.actGatewayTime]

def attentionResponse (m : AttentionResponse) : Term → Prop :=
  record [required str m.serverId, required str m.attentionNumber, optional str m.attentionMessage, optional tree m.attentionDetails]

/-- The second element of a message body, chosen by the tag. -/
def bodyData (tag : Nat) : BodyData → Term → Prop
  | .null, _ => False
  | .openRequest p, t => tag = 0x100 ∧ required openRequest p t
  | .openResponse p, t => tag = 0x101 ∧ required openResponse p t
  | .closeRequest p, t => tag = 0x200 ∧ required closeRequest p t
  | .closeResponse p, t => tag = 0x201 ∧ required closeResponse p t
  | .getProfilePackRequest p, t => tag = 0x300 ∧ required getProfilePackRequest p t
  | .getProfilePackResponse p, t => tag = 0x301 ∧ required getProfilePackResponse p t
  | .getProfileListRequest p, t => tag = 0x400 ∧ required getProfilePackRequest p t
  | .getProfileListResponse p, t => tag = 0x401 ∧ required getProfileListResponse p t
  | .getProcParameterRequest p, t => tag = 0x500 ∧ required getProcParameterRequest p t
  | .getProcParameterResponse p, t => tag = 0x501 ∧ required getProcParameterResponse p t
  | .setProcParameterRequest p, t => tag = 0x600 ∧ required setProcParameterRequest p t
  | .getListRequest p, t => tag = 0x700 ∧ required getListRequest p t
  | .getListResponse p, t => tag = 0x701 ∧ required getListResponse p t
  | .attentionResponse p, t => tag = 0xFF01 ∧ required attentionResponse p t

def body (b : MessageBody) (t : Term) : Prop := ∃ tag, b.tag = some tag ∧ record [uint 4 tag, bodyData tag.val b.data] t

/-! ## Messages and telegrams -/

/-- The bytes `bs` are the message `m`: a list of six, the fifth element being the checksum over the four before and the header of the list, the sixth
the end mark. -/
def Message (m : Sml.Message) (bs : List UInt8) : Prop :=
  ∃ h ts r c crc, m.crc = some crc ∧ Header 7 6 h ∧
    Each [required str m.transactionId, required (uint 1) m.groupId, required (uint 1) m.abortOnError, required body m.messageBody] ts ∧
    EncodeAll ts r ∧ (∃ t, uint 2 crc t ∧ Encodes t c) ∧ crc.val = (swap16 (crcX25 (h ++ r))).toNat ∧ bs = h ++ r ++ c ++ [0x00]

/-- A telegram: messages, one after the other, and zero bytes to fill it up. -/
inductive Telegram : List Sml.Message → List UInt8 → Prop where
  | fill (n : Nat) : Telegram [] (List.replicate n 0x00)
  | message {m : Sml.Message} {ms : List Sml.Message} {bs rest : List UInt8} : Message m bs → Telegram ms rest → Telegram (m :: ms) (bs ++ rest)

end Sml.Spec.Standard
