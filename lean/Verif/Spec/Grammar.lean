import Verif.Spec.Header
import Verif.Spec.Number
import Verif.Spec.Crc
import Verif.Spec.Dzg

/-!
# The language the library accepts

A grammar: for every kind of object the relation between the bytes in front of the reader (`i`), the
object, and the bytes that are left (`o`). It follows SML 1.04 where the library does; where the library
is more liberal, stricter or different, the rule says so. Nothing here refers to the parser: no state,
no cursor, no error flag.
-/

namespace Sml.Spec.Grammar

/-- What is read: the bytes before and the bytes after. -/
abbrev Rel : Type := List UInt8 → List UInt8 → Prop

/-- One thing after the other. -/
def Rel.andThen (a b : Rel) : Rel := fun i o => ∃ m, a i m ∧ b m o

@[inherit_doc] infixr:67 " ⟫ " => Rel.andThen

/-- A test of what comes next; nothing is read. -/
def ahead (P : List UInt8 → Prop) : Rel := fun i o => i = o ∧ P i

/-- The given bytes. -/
def bytes (bs : List UInt8) : Rel := fun i o => i = bs ++ o

/-- The mark of an omitted element. -/
def absent : Rel := fun i o => i = 0x01 :: o

/-- The length a header announces, as it ends up in a 32-bit `int`. -/
def announced (hdr : List UInt8) : Int := Int.bmod (headerLength hdr) 4294967296

/-- A header with type `ty` that announces `n`; any number of header bytes. -/
def header (ty : Nat) (n : Int) : Rel := fun i o =>
  ∃ hdr, IsHeader hdr ∧ headerType hdr = ty ∧ announced hdr = n ∧ i = hdr ++ o

/-- The type bits of the next byte. -/
def nextType (ty : Nat) (i : List UInt8) : Prop := ∃ b, i.head? = some b ∧ b.toNat / 16 % 8 = ty

/-- Any number of objects of one kind. -/
def times (g : α → Rel) : List α → Rel
  | [] => fun i o => i = o
  | a :: as => g a ⟫ times g as

/-- A list header and as many objects as it announces. -/
def listOf (g : α → Rel) (as : List α) : Rel := fun i o =>
  ∃ n : Int, as.length = n.toNat ∧ (header 7 n ⟫ times g as) i o

/-! ## Simple types -/

/-- Octet string. A string that ends with the input is not accepted. -/
def str : Option OctetString → Rel
  | none => absent
  | some s => ahead (fun i => i.head? ≠ some 0x01) ⟫ header 0 s.str.length ⟫ bytes s.str ⟫ ahead (fun i => i ≠ [])

/-- What `bs`, sent as a number of type `ty`, becomes in an object of `size` bytes: sign-extended if of
type integer (5). The sign of an integer without any byte is the top bit of the byte that follows. -/
def numberOf (ty size : Nat) (bs rest : List UInt8) : Nat :=
  if ty = 5 then
    match bs, rest with
    | [], [] => 0
    | [], b :: _ => if b.toNat < 128 then 0 else 256 ^ size - 1
    | _ :: _, _ => (signedOf bs % 256 ^ size).toNat
  else unsignedOf bs

/-- Number of type `ty` (5 integer, 6 unsigned) with at most `size` bytes; leading bytes may be omitted,
even all of them if something follows. -/
def num (ty size : Nat) : Option Num → Rel
  | none => absent
  | some n => fun i o => ∃ bs, bs.length ≤ size ∧ (header ty bs.length ⟫ ahead (fun i => i ≠ []) ⟫ bytes bs) i o ∧
      n = { size := size, val := numberOf ty size bs o }

/-- Boolean: any byte but 0 is true. -/
def boolean : Option UInt8 → Rel
  | none => absent
  | some b => header 4 1 ⟫ fun i o => ∃ x, i = x :: o ∧ b = if x = 0 then 0x00 else 0xFF

/-- The size of the object a number of unknown size is stored in, chosen by the low nibble of the first
header byte. -/
def room (b : UInt8) : Nat :=
  if b.toNat % 16 ≤ 2 then 1 else if b.toNat % 16 = 3 then 2 else if b.toNat % 16 ≤ 5 then 4
  else if b.toNat % 16 ≤ 9 then 8 else 16

/-- The label of a number: its type and, in the low nibble, its size. The size 16 has no place there. -/
def label (ty size : Nat) : Nat := if size = 16 then (if ty = 5 then 0x50 else 0x70) else 16 * ty + size

/-- Value: octet string, boolean, or number of any size. -/
def value : Option Value → Rel
  | none => absent
  | some v => fun i o => ∃ b, i.head? = some b ∧ b ≠ 0x01 ∧
      match v.data with
      | .bytes p => v.type = 0x00 ∧ str p i o
      | .boolean p => v.type = 0x40 ∧ boolean p i o
      | .num p => ∃ ty, (ty = 5 ∨ ty = 6) ∧ v.type = label ty (room b) ∧ num ty (room b) p i o

/-- Status: unsigned number of any size. -/
def status : Option Status → Rel
  | none => absent
  | some s => fun i o => ∃ b, i.head? = some b ∧ b ≠ 0x01 ∧ s.type = label 6 (room b) ∧ num 6 (room b) s.data i o

/-- What follows the tag of a time: seconds, or a local timestamp, whose content is thrown away. -/
def timeData (d : Option Num) : Rel := fun i o =>
  (∃ n, d = some n ∧ num 6 4 d i o) ∨
  (d = none ∧ ∃ n a b c, (header 7 n ⟫ num 6 4 a ⟫ num 5 2 b ⟫ num 5 2 c) i o)

/-- Time. Four bytes without tag are accepted (header 65). A time whose second element is neither a
number nor a list is taken as missing, and the element is left where it is. -/
def time : Option Time → Rel
  | none => fun i o => absent i o ∨
      ∃ tag, (header 7 2 ⟫ num 6 1 tag ⟫ ahead (fun i => i ≠ [] ∧ ¬ nextType 6 i ∧ ¬ nextType 7 i)) i o
  | some t => fun i o =>
      (i.head? = some 0x65 ∧ t.tag = some { size := 1, val := 1 } ∧ num 6 4 t.data i o) ∨
      (header 7 2 ⟫ num 6 1 t.tag ⟫ timeData t.data) i o

/-! ## Lists -/

/-- Sequence; it cannot be omitted. -/
def sequence (g : Option α → Rel) : Option (Sequence α) → Rel
  | none => fun _ _ => False
  | some q => listOf g q.elems

/-- An entry of a measurement list whose value has the header byte `h`. -/
def entry (x : ListEntry × UInt8) : Rel :=
  header 7 7 ⟫ str x.1.objName ⟫ status x.1.status ⟫ time x.1.valTime ⟫ num 6 1 x.1.unit ⟫ num 5 1 x.1.scaler ⟫
    ahead (fun i => i.head? = some x.2) ⟫ value x.1.value ⟫ str x.1.valueSignature

/-- What is made of the entries that were sent. `seen`: an affected meter has announced itself. -/
inductive Corrected : Bool → List (ListEntry × UInt8) → List ListEntry → Prop where
  | nil {seen : Bool} : Corrected seen [] []
  | serial {seen : Bool} {e : ListEntry} {h : UInt8} {sent : List (ListEntry × UInt8)} {es : List ListEntry} :
      IsDzgSerial e → Corrected true sent es → Corrected seen ((e, h) :: sent) (e :: es)
  | power {e : ListEntry} {h : UInt8} {sent : List (ListEntry × UInt8)} {es : List ListEntry} :
      ¬ IsDzgSerial e → IsPower e → ShortHeader h → Corrected true sent es →
      Corrected true ((e, h) :: sent) ({ e with value := e.value.map asUnsigned } :: es)
  | other {seen : Bool} {e : ListEntry} {h : UInt8} {sent : List (ListEntry × UInt8)} {es : List ListEntry} :
      ¬ IsDzgSerial e → ¬ (seen = true ∧ IsPower e ∧ ShortHeader h) → Corrected seen sent es →
      Corrected seen ((e, h) :: sent) (e :: es)

/-- Measurement list. An omitted and an empty list are the same. -/
def entries (es : List ListEntry) : Rel := fun i o =>
  (es = [] ∧ absent i o) ∨ ∃ sent, Corrected false sent es ∧ listOf entry sent i o

/-! ## Parameter trees -/

/-- Path. Omitted elements are dropped. -/
def path : Option TreePath → Rel
  | none => absent
  | some p => fun i o => ∃ es, p.entries = es.filter Option.isSome ∧ listOf str es i o

def periodEntry : Option PeriodEntry → Rel
  | none => absent
  | some p => header 7 5 ⟫ str p.objName ⟫ num 6 1 p.unit ⟫ num 5 1 p.scaler ⟫ value p.value ⟫ str p.valueSignature

def tupelEntry : Option TupelEntry → Rel
  | none => absent
  | some t => header 7 23 ⟫ str t.serverId ⟫ time t.secIndex ⟫ num 6 8 t.status ⟫
      num 6 1 t.unit_pA ⟫ num 5 1 t.scaler_pA ⟫ num 5 8 t.value_pA ⟫
      num 6 1 t.unit_R1 ⟫ num 5 1 t.scaler_R1 ⟫ num 5 8 t.value_R1 ⟫
      num 6 1 t.unit_R4 ⟫ num 5 1 t.scaler_R4 ⟫ num 5 8 t.value_R4 ⟫
      str t.signature_pA_R1_R4 ⟫
      num 6 1 t.unit_mA ⟫ num 5 1 t.scaler_mA ⟫ num 5 8 t.value_mA ⟫
      num 6 1 t.unit_R2 ⟫ num 5 1 t.scaler_R2 ⟫ num 5 8 t.value_R2 ⟫
      num 6 1 t.unit_R3 ⟫ num 5 1 t.scaler_R3 ⟫ num 5 8 t.value_R3 ⟫
      str t.signature_mA_R2_R3

/-- The second element of a parameter value, chosen by the tag. -/
def ppvData (tag : Nat) : PpvData → Rel
  | .null => fun _ _ => False
  | .value v => fun i o => tag = 1 ∧ value v i o
  | .periodEntry p => fun i o => tag = 2 ∧ periodEntry p i o
  | .tupelEntry t => fun i o => tag = 3 ∧ tupelEntry t i o
  | .time t => fun i o => tag = 4 ∧ time t i o

/-- Parameter value. One whose tag is omitted is taken as missing; its second element is left where it is. -/
def procParValue : Option ProcParValue → Rel
  | none => fun i o => absent i o ∨ (header 7 2 ⟫ absent) i o
  | some v => fun i o => ∃ t, v.tag = some t ∧ (header 7 2 ⟫ num 6 1 (some t) ⟫ ppvData t.val v.data) i o

/-- Parameter tree, nested less than `depth` levels deep. Omitted children are dropped; an omitted
list of children and an empty one are the same. -/
def tree : (depth : Nat) → Option Tree → Rel
  | 0, _ => fun _ _ => False
  | _ + 1, none => absent
  | depth + 1, some (.mk name v children) =>
    header 7 3 ⟫ str name ⟫ procParValue v ⟫ fun i o =>
      (children = [] ∧ absent i o) ∨ ∃ cs, children = cs.filterMap id ∧ listOf (tree depth) cs i o

/-! ## Message bodies -/

def openRequest (m : OpenRequest) : Rel :=
  header 7 7 ⟫ str m.codepage ⟫ str m.clientId ⟫ str m.reqFileId ⟫ str m.serverId ⟫ str m.username ⟫ str m.password ⟫
    num 6 1 m.smlVersion

def openResponse (m : OpenResponse) : Rel :=
  header 7 6 ⟫ str m.codepage ⟫ str m.clientId ⟫ str m.reqFileId ⟫ str m.serverId ⟫ time m.refTime ⟫ num 6 1 m.smlVersion

def closeRequest (m : CloseRequest) : Rel := header 7 1 ⟫ str m.globalSignature

def closeResponse (m : CloseResponse) : Rel := header 7 1 ⟫ str m.globalSignature

/-- Objects asked for; an omitted and an empty list are the same. -/
def objects (os : List (Option OctetString)) : Rel := fun i o => (os = [] ∧ absent i o) ∨ listOf str os i o

def getProfilePackRequest (depth : Nat) (m : GetProfilePackRequest) : Rel :=
  header 7 9 ⟫ str m.serverId ⟫ str m.username ⟫ str m.password ⟫ boolean m.withRawdata ⟫ time m.beginTime ⟫ time m.endTime ⟫
    path m.parameterTreePath ⟫ objects m.objectList ⟫ tree depth m.dasDetails

def profObjHeaderEntry : Option ProfObjHeaderEntry → Rel
  | none => fun _ _ => False
  | some m => header 7 3 ⟫ str m.objName ⟫ num 6 1 m.unit ⟫ num 5 1 m.scaler

def valueEntry : Option ValueEntry → Rel
  | none => fun _ _ => False
  | some m => header 7 2 ⟫ value m.value ⟫ str m.valueSignature

def profObjPeriodEntry : Option ProfObjPeriodEntry → Rel
  | none => fun _ _ => False
  | some m => header 7 4 ⟫ time m.valTime ⟫ num 6 8 m.status ⟫ sequence valueEntry m.valueList ⟫ str m.periodSignature

def getProfilePackResponse (m : GetProfilePackResponse) : Rel :=
  header 7 8 ⟫ str m.serverId ⟫ time m.actTime ⟫ num 6 4 m.regPeriod ⟫ path m.parameterTreePath ⟫
    sequence profObjHeaderEntry m.headerList ⟫ sequence profObjPeriodEntry m.periodList ⟫ str m.rawdata ⟫ str m.profileSignature

def getProfileListResponse (m : GetProfileListResponse) : Rel :=
  header 7 9 ⟫ str m.serverId ⟫ time m.actTime ⟫ num 6 4 m.regPeriod ⟫ path m.parameterTreePath ⟫ time m.valTime ⟫
    num 6 8 m.status ⟫ sequence periodEntry m.periodList ⟫ str m.rawdata ⟫ str m.periodSignature

def getProcParameterRequest (m : GetProcParameterRequest) : Rel :=
  header 7 5 ⟫ str m.serverId ⟫ str m.username ⟫ str m.password ⟫ path m.parameterTreePath ⟫ str m.attr

def getProcParameterResponse (depth : Nat) (m : GetProcParameterResponse) : Rel :=
  header 7 3 ⟫ str m.serverId ⟫ path m.parameterTreePath ⟫ tree depth m.parameterTree

def setProcParameterRequest (depth : Nat) (m : SetProcParameterRequest) : Rel :=
  header 7 5 ⟫ str m.serverId ⟫ str m.username ⟫ str m.password ⟫ path m.parameterTreePath ⟫ tree depth m.parameterTree

def getListRequest (m : GetListRequest) : Rel :=
  header 7 5 ⟫ str m.clientId ⟫ str m.serverId ⟫ str m.username ⟫ str m.password ⟫ str m.listName

def getListResponse (m : GetListResponse) : Rel :=
  header 7 7 ⟫ str m.clientId ⟫ str m.serverId ⟫ str m.listName ⟫ time m.actSensorTime ⟫ entries m.valList ⟫
    str m.listSignature ⟫ time m.actGatewayTime

def attentionResponse (depth : Nat) (m : AttentionResponse) : Rel :=
  header 7 4 ⟫ str m.serverId ⟫ str m.attentionNumber ⟫ str m.attentionMessage ⟫ tree depth m.attentionDetails

/-- The object must be there. -/
def must (g : α → Rel) : Option α → Rel
  | none => fun _ _ => False
  | some a => g a

/-- The second element of a message body, chosen by the tag. With an unknown tag nothing is read. -/
def bodyData (depth tag : Nat) : BodyData → Rel
  | .null => fun i o => tag ∉ knownTags ∧ i = o
  | .openRequest p => fun i o => tag = 0x100 ∧ must openRequest p i o
  | .openResponse p => fun i o => tag = 0x101 ∧ must openResponse p i o
  | .closeRequest p => fun i o => tag = 0x200 ∧ must closeRequest p i o
  | .closeResponse p => fun i o => tag = 0x201 ∧ must closeResponse p i o
  | .getProfilePackRequest p => fun i o => tag = 0x300 ∧ must (getProfilePackRequest depth) p i o
  | .getProfilePackResponse p => fun i o => tag = 0x301 ∧ must getProfilePackResponse p i o
  | .getProfileListRequest p => fun i o => tag = 0x400 ∧ must (getProfilePackRequest depth) p i o
  | .getProfileListResponse p => fun i o => tag = 0x401 ∧ must getProfileListResponse p i o
  | .getProcParameterRequest p => fun i o => tag = 0x500 ∧ must getProcParameterRequest p i o
  | .getProcParameterResponse p => fun i o => tag = 0x501 ∧ must (getProcParameterResponse depth) p i o
  | .setProcParameterRequest p => fun i o => tag = 0x600 ∧ must (setProcParameterRequest depth) p i o
  | .getListRequest p => fun i o => tag = 0x700 ∧ must getListRequest p i o
  | .getListResponse p => fun i o => tag = 0x701 ∧ must getListResponse p i o
  | .attentionResponse p => fun i o => tag = 0xFF01 ∧ must (attentionResponse depth) p i o

/-- Message body. One whose tag is omitted is taken as missing; its second element is left where it is. -/
def body (depth : Nat) : Option MessageBody → Rel
  | none => header 7 2 ⟫ absent
  | some b => fun i o => ∃ t, b.tag = some t ∧ (header 7 2 ⟫ num 6 4 (some t) ⟫ bodyData depth t.val b.data) i o

/-! ## Messages and telegrams -/

/-- A message up to its checksum. -/
def head (depth : Nat) (m : Message) : Rel :=
  header 7 6 ⟫ str m.transactionId ⟫ num 6 1 m.groupId ⟫ num 6 1 m.abortOnError ⟫ body depth m.messageBody

/-- What comes before the tag of the body of a message. -/
def beforeTag (tid : Option OctetString) (group abort : Option Num) : Rel :=
  header 7 6 ⟫ str tid ⟫ num 6 1 group ⟫ num 6 1 abort ⟫ header 7 2

/-- The checksum `c` belongs to the bytes `bs`. -/
def Matches (bs : List UInt8) (c : Num) : Prop := c.val = (swap16 (crcX25 bs)).toNat ∨ c.val = (crcKermit bs).toNat

/-- The bytes `bs` of a message, and its checksum. At least three bytes must follow `bs`. -/
def checked (depth : Nat) (m : Message) (c : Num) (bs : List UInt8) : Rel := fun i o =>
  ∃ mid, i = bs ++ mid ∧ head depth m i mid ∧ 3 ≤ mid.length ∧ num 6 2 (some c) mid o

/-- A message with its end mark, which may be missing if something else follows; or (`none`) a message
whose checksum is wrong. -/
def message (depth : Nat) : Option Message → Rel
  | some m => fun i o => ∃ c bs, m.crc = some c ∧ Matches bs c ∧
      (checked depth m c bs ⟫ fun i o => i = 0x00 :: o ∨ (i = o ∧ i ≠ [] ∧ i.head? ≠ some 0x00)) i o
  | none => fun i o => ∃ m c bs, ¬ Matches bs c ∧ checked depth m c bs i o

/-- A telegram and the messages delivered: padding is skipped, messages with a wrong checksum are
dropped, and the rest of the telegram is thrown away at the first thing that is no message. -/
inductive Telegram (depth : Nat) : List UInt8 → List Message → Prop where
  | done : Telegram depth [] []
  | padding {i : List UInt8} {ms : List Message} : Telegram depth i ms → Telegram depth (0x00 :: i) ms
  | deliver {i o : List UInt8} {m : Message} {ms : List Message} :
      message depth (some m) i o → Telegram depth o ms → Telegram depth i (m :: ms)
  | drop {i o : List UInt8} {ms : List Message} :
      message depth none i o → Telegram depth o ms → Telegram depth i ms
  | stop {i : List UInt8} : i ≠ [] → i.head? ≠ some 0x00 → (¬ ∃ r o, message depth r i o) → Telegram depth i []

end Sml.Spec.Grammar
