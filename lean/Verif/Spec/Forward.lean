import Verif.Spec.Syntax

/-!
# What a received message must satisfy to be passed on

A message that comes out of the parser already has numbers of the right size, normalised booleans, tags
that match, labels that match. What is left are the limits of the encoder and what the encoder forgets:
strings must not be empty (an empty string is written like an absent one) and not hit the defect of the
length bytes, lists must have less than 16 elements, times need a tag and seconds, numbers need at most 8 bytes,
and so on. Nothing here speaks of sizes of numbers.
-/

namespace Sml.Spec

/-- A string is not empty and its length is one the library writes right. -/
def StrFits (x : OctetString) : Prop := x.str ≠ [] ∧ NoCarry x.str.length ∧ x.str.length + 1 < 16 ^ 6

/-- A time has a tag and seconds; a local timestamp leaves no seconds behind. -/
def TimeFits (t : Time) : Prop := t.tag.isSome ∧ t.data.isSome

/-- A number has at most eight bytes; only numbers carry the label of a number. -/
def ValueFits (v : Value) : Prop :=
  match v.data with
  | .bytes p => v.type = 0x00 ∧ Opt StrFits p
  | .boolean _ => v.type = 0x40
  | .num _ => v.type % 16 ≠ 0

def StatusFits (v : Status) : Prop := v.type % 16 ≠ 0

def SeqFits (P : α → Prop) (q : Option (Sequence α)) : Prop := Opt (fun x => x.elems.length < 16 ∧ ∀ e ∈ x.elems, Opt P e) q

def PathFits (p : TreePath) : Prop := p.entries ≠ [] ∧ p.entries.length < 16 ∧ ∀ e ∈ p.entries, Opt StrFits e

def ListEntryFits (e : ListEntry) : Prop :=
  Opt StrFits e.objName ∧ Opt StatusFits e.status ∧ Opt TimeFits e.valTime ∧ Opt ValueFits e.value ∧ Opt StrFits e.valueSignature

/-- The workaround for the DZG DVS74 would not change the entries a second time. -/
def ListFits (es : List ListEntry) : Prop :=
  es.length < 16 ∧ (∀ e ∈ es, ListEntryFits e) ∧ es.Pairwise fun a b => ¬ DzgHits a b

def PeriodEntryFits (m : PeriodEntry) : Prop :=
  Opt StrFits m.objName ∧ Opt ValueFits m.value ∧ Opt StrFits m.valueSignature

/-- Tuple entries are written with a wrong header. -/
def PpvFits (v : ProcParValue) : Prop :=
  match v.data with
  | .value p => Opt ValueFits p
  | .periodEntry p => Opt PeriodEntryFits p
  | .time p => Opt TimeFits p
  | .tupelEntry _ => False
  | .null => False

inductive TreePlain : Tree → Prop where
  | mk {n : Option OctetString} {v : Option ProcParValue} {cs : List Tree} : Opt StrFits n → Opt PpvFits v →
      cs.length < 16 → (∀ c, c ∈ cs → TreePlain c) → TreePlain (.mk n v cs)

def OpenRequestFits (m : OpenRequest) : Prop :=
  Opt StrFits m.codepage ∧ Opt StrFits m.clientId ∧ Opt StrFits m.reqFileId ∧ Opt StrFits m.serverId ∧ Opt StrFits m.username ∧ Opt StrFits m.password

def OpenResponseFits (m : OpenResponse) : Prop :=
  Opt StrFits m.codepage ∧ Opt StrFits m.clientId ∧ Opt StrFits m.reqFileId ∧ Opt StrFits m.serverId ∧ Opt TimeFits m.refTime

def CloseRequestFits (m : CloseRequest) : Prop :=
  Opt StrFits m.globalSignature

def CloseResponseFits (m : CloseResponse) : Prop :=
  Opt StrFits m.globalSignature

def ValueEntryFits (m : ValueEntry) : Prop :=
  Opt ValueFits m.value ∧ Opt StrFits m.valueSignature

def ProfObjHeaderEntryFits (m : ProfObjHeaderEntry) : Prop :=
  Opt StrFits m.objName

def ProfObjPeriodEntryFits (m : ProfObjPeriodEntry) : Prop :=
  Opt TimeFits m.valTime ∧ SeqFits ValueEntryFits m.valueList ∧ Opt StrFits m.periodSignature

def GetProfilePackResponseFits (m : GetProfilePackResponse) : Prop :=
  Opt StrFits m.serverId ∧ Opt TimeFits m.actTime ∧ Opt PathFits m.parameterTreePath ∧ SeqFits ProfObjHeaderEntryFits m.headerList ∧ SeqFits ProfObjPeriodEntryFits m.periodList ∧ Opt StrFits m.rawdata ∧ Opt StrFits m.profileSignature

def GetProfileListResponseFits (m : GetProfileListResponse) : Prop :=
  Opt StrFits m.serverId ∧ Opt TimeFits m.actTime ∧ Opt PathFits m.parameterTreePath ∧ Opt TimeFits m.valTime ∧ SeqFits PeriodEntryFits m.periodList ∧ Opt StrFits m.rawdata ∧ Opt StrFits m.periodSignature

def GetProcParameterRequestFits (m : GetProcParameterRequest) : Prop :=
  Opt StrFits m.serverId ∧ Opt StrFits m.username ∧ Opt StrFits m.password ∧ Opt PathFits m.parameterTreePath ∧ Opt StrFits m.attr

def GetProcParameterResponseFits (m : GetProcParameterResponse) : Prop :=
  Opt StrFits m.serverId ∧ Opt PathFits m.parameterTreePath ∧ Opt TreePlain m.parameterTree

def SetProcParameterRequestFits (m : SetProcParameterRequest) : Prop :=
  Opt StrFits m.serverId ∧ Opt StrFits m.username ∧ Opt StrFits m.password ∧ Opt PathFits m.parameterTreePath ∧ Opt TreePlain m.parameterTree

def GetListRequestFits (m : GetListRequest) : Prop :=
  Opt StrFits m.clientId ∧ Opt StrFits m.serverId ∧ Opt StrFits m.username ∧ Opt StrFits m.password ∧ Opt StrFits m.listName

def GetListResponseFits (m : GetListResponse) : Prop :=
  Opt StrFits m.clientId ∧ Opt StrFits m.serverId ∧ Opt StrFits m.listName ∧ Opt TimeFits m.actSensorTime ∧ ListFits m.valList ∧ Opt StrFits m.listSignature ∧ Opt TimeFits m.actGatewayTime

def AttentionResponseFits (m : AttentionResponse) : Prop :=
  Opt StrFits m.serverId ∧ Opt StrFits m.attentionNumber ∧ Opt StrFits m.attentionMessage ∧ Opt TreePlain m.attentionDetails

def GetProfilePackRequestFits (m : GetProfilePackRequest) : Prop :=
  Opt StrFits m.serverId ∧ Opt StrFits m.username ∧ Opt StrFits m.password ∧ Opt TimeFits m.beginTime ∧ Opt TimeFits m.endTime ∧ Opt PathFits m.parameterTreePath ∧ m.objectList = [] ∧ Opt TreePlain m.dasDetails

/-- The body is there and of a known kind. -/
def BodyFits (b : MessageBody) : Prop :=
  match b.data with
  | .null => False
  | .openRequest p => Opt OpenRequestFits p
  | .openResponse p => Opt OpenResponseFits p
  | .closeRequest p => Opt CloseRequestFits p
  | .closeResponse p => Opt CloseResponseFits p
  | .getProfilePackRequest p => Opt GetProfilePackRequestFits p
  | .getProfilePackResponse p => Opt GetProfilePackResponseFits p
  | .getProfileListRequest p => Opt GetProfilePackRequestFits p
  | .getProfileListResponse p => Opt GetProfileListResponseFits p
  | .getProcParameterRequest p => Opt GetProcParameterRequestFits p
  | .getProcParameterResponse p => Opt GetProcParameterResponseFits p
  | .setProcParameterRequest p => Opt SetProcParameterRequestFits p
  | .getListRequest p => Opt GetListRequestFits p
  | .getListResponse p => Opt GetListResponseFits p
  | .attentionResponse p => Opt AttentionResponseFits p

/-- The received message can be passed on. -/
def MessageFits (m : Message) : Prop := Opt StrFits m.transactionId ∧ Some BodyFits m.messageBody

end Sml.Spec
