import Verif.Spec.Content

/-!
# Lists as they were sent

An entry is a list of seven elements, each read by the parser of its type. Nothing is said here about
what `sml_list_entry_parse` does afterwards.
-/

namespace Sml.Spec

/-- At the position of `st` there is the entry `e`, whose value has the header byte `h`; reading it leads to `s`. -/
structure EntryAt (st : St) (e : ListEntry) (h : UInt8) (s : St) : Prop where
  type : getNextType st = .ok 0x70 st
  steps : ∃ s0 s1 s2 s3 s4 s5 s6, getNextLength st = .ok 7 s0 ∧
    octetStringParse { s0 with live := s0.live + 1 } = .ok e.objName s1 ∧
    statusParse s1 = .ok e.status s2 ∧
    timeParse s2 = .ok e.valTime s3 ∧
    u8Parse s3 = .ok e.unit s4 ∧
    i8Parse s4 = .ok e.scaler s5 ∧
    s5.data[s5.cursor]? = some h ∧
    valueParse s5 = .ok e.value s6 ∧
    octetStringParse s6 = .ok e.valueSignature s
  error : s.error = false

/-- From `st` to `s` there are the entries `es`, one after the other. `confused` is no part of the program's state. -/
inductive EntriesAt : St → List (ListEntry × UInt8) → St → Prop where
  | nil {st : St} : EntriesAt st [] st
  | cons {st s s' : St} {e : ListEntry} {h : UInt8} {es : List (ListEntry × UInt8)} {c : Bool} :
      EntryAt st e h s → EntriesAt { s with confused := c } es s' → EntriesAt st ((e, h) :: es) s'

/-- A header of one byte with the length 1, 2 or 3. -/
def ShortHeader (h : UInt8) : Prop := h.toNat < 128 ∧ 1 ≤ h.toNat % 16 ∧ h.toNat % 16 ≤ 3

/-- The value with the type unsigned of the same size: for a number the same bytes without sign. -/
def asUnsigned (v : Value) : Value := { v with type := v.type % 16 + 0x60 }

/-- Entry `i` of the list is one the workaround is for. -/
def Affected (es : List (ListEntry × UInt8)) (i : Nat) : Prop :=
  (∃ j x, j < i ∧ es[j]? = some x ∧ IsDzgSerial x.1) ∧ ∃ x, es[i]? = some x ∧ IsPower x.1 ∧ ShortHeader x.2

end Sml.Spec
