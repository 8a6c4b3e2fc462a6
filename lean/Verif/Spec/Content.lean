import Verif.Spec.Block
import Verif.Spec.Shape

/-!
# What a delivered message may contain

The unions of the SML objects (`void *data` of a message body, the union of a parameter value, the
union of a value) and the tags that name what is stored in them.
-/

namespace Sml.Spec

/-- A value, if there is one, is well typed. -/
def ValueOk (v : Option Value) : Prop := ∀ x, v = some x → WellTyped x

/-- The fourteen message types of SML 1.04. -/
def knownTags : List Nat :=
  [0x100, 0x101, 0x200, 0x201, 0x300, 0x301, 0x400, 0x401, 0x500, 0x501, 0x600, 0x700, 0x701, 0xFF01]

/-- The tag of a parameter value (1 value, 2 period entry, 3 tuple entry, 4 time) names what is stored. -/
def ParamOk (p : ProcParValue) : Prop :=
  ∃ t, p.tag = some t ∧
    match p.data with
    | .null => False
    | .value v => t.val = 1 ∧ ValueOk v
    | .periodEntry e => t.val = 2 ∧ ∀ x, e = some x → ValueOk x.value
    | .tupelEntry _ => t.val = 3
    | .time _ => t.val = 4

/-- All nodes of a parameter tree are consistent. -/
inductive TreeOk : Tree → Prop where
  | mk {name : Option OctetString} {value : Option ProcParValue} {children : List Tree} :
      (∀ p, value = some p → ParamOk p) → (∀ c, c ∈ children → TreeOk c) → TreeOk (.mk name value children)

/-- The entry announces a DZG DVS74 with a serial number in one of the two affected ranges:
name 1-0:96.1.0*255, value a server id `0A 01 "DZG"` followed by five bytes. -/
def IsDzgSerial (e : ListEntry) : Prop :=
  e.objName = some { str := [1, 0, 96, 1, 0, 255] } ∧
  ∃ v s, e.value = some v ∧ v.type = 0x00 ∧ v.data = .bytes (some s) ∧ s.str.length = 10 ∧
    s.str.take 5 = [0x0A, 0x01, 0x44, 0x5A, 0x47] ∧
    (42000000 ≤ number (s.str.drop 5) ∧ number (s.str.drop 5) ≤ 48999999 ∨
     55000000 ≤ number (s.str.drop 5) ∧ number (s.str.drop 5) ≤ 58999999)

/-- The entry is the power value 1-0:16.7.0*255. -/
def IsPower (e : ListEntry) : Prop := e.objName = some { str := [1, 0, 16, 7, 0, 255] }

/-- A value that is not a number but is labelled as an unsigned number of zero bytes. -/
def Mislabelled (v : Value) : Prop :=
  v.type = 0x60 ∧ ((∃ s, v.data = .bytes (some s)) ∨ (∃ b, v.data = .boolean (some b) ∧ (b = 0x00 ∨ b = 0xFF)))

/-- All values of a list are well typed, except that a power value which is not a number is
mislabelled if an affected meter announced itself earlier in the list. -/
def EntriesOk (es : List ListEntry) : Prop :=
  ∀ (i : Nat) (e : ListEntry) (v : Value), es[i]? = some e → e.value = some v → WellTyped v ∨
    (Mislabelled v ∧ IsPower e ∧ ∃ (j : Nat) (e' : ListEntry), j < i ∧ es[j]? = some e' ∧ IsDzgSerial e')

/-- The body is of the kind its tag names, is not NULL, and what is in it is consistent. A body with
an unknown tag is NULL. -/
def BodyOk (tag : Nat) : BodyData → Prop
  | .null => tag ∉ knownTags
  | .openRequest p => tag = 0x100 ∧ p.isSome
  | .openResponse p => tag = 0x101 ∧ p.isSome
  | .closeRequest p => tag = 0x200 ∧ p.isSome
  | .closeResponse p => tag = 0x201 ∧ p.isSome
  | .getProfilePackRequest p => tag = 0x300 ∧ ∃ m, p = some m ∧ ∀ t, m.dasDetails = some t → TreeOk t
  | .getProfilePackResponse p => tag = 0x301 ∧ ∃ m, p = some m ∧
      ∀ s, m.periodList = some s → ∀ x, some x ∈ s.elems → ∀ s', x.valueList = some s' →
        ∀ y, some y ∈ s'.elems → ValueOk y.value
  | .getProfileListRequest p => tag = 0x400 ∧ ∃ m, p = some m ∧ ∀ t, m.dasDetails = some t → TreeOk t
  | .getProfileListResponse p => tag = 0x401 ∧ ∃ m, p = some m ∧
      ∀ s, m.periodList = some s → ∀ x, some x ∈ s.elems → ValueOk x.value
  | .getProcParameterRequest p => tag = 0x500 ∧ p.isSome
  | .getProcParameterResponse p => tag = 0x501 ∧ ∃ m, p = some m ∧ ∀ t, m.parameterTree = some t → TreeOk t
  | .setProcParameterRequest p => tag = 0x600 ∧ ∃ m, p = some m ∧ ∀ t, m.parameterTree = some t → TreeOk t
  | .getListRequest p => tag = 0x700 ∧ p.isSome
  | .getListResponse p => tag = 0x701 ∧ ∃ m, p = some m ∧ EntriesOk m.valList
  | .attentionResponse p => tag = 0xFF01 ∧ ∃ m, p = some m ∧ ∀ t, m.attentionDetails = some t → TreeOk t

end Sml.Spec
