import Verif.Model.Prim

/-!
# Sequences and measurement lists

Models `sml/src/sml_list.c`.
-/

namespace Sml

/-! ## Sequences -/

/-- `sml_sequence` (sml_list.h:32-36): the elements; each may be NULL. The element array
is a block of its own once something was added. -/
structure Sequence (α : Type) where
  elems : List (Option α)
deriving DecidableEq, Repr

def Sequence.blocks (f : α → Nat) (s : Sequence α) : Nat :=
  1 + (if s.elems = [] then 0 else 1) + (s.elems.map (own f)).sum

/-- `sml_sequence_free` (sml_list.c:77-90) with `elem_free` releasing `f` blocks. -/
def sequenceFreed (f : Option α → Nat) (s : Option (Sequence α)) : Nat :=
  match s with
  | none => 0
  | some s => (s.elems.map f).sum + (if s.elems ≠ [] then 1 else 0) + 1

/-- `sml_sequence_add` (sml_list.c:92-96): the first `realloc` (of NULL) allocates. -/
def sequenceAdd (s : Sequence α) (e : Option α) : M (Sequence α) := do
  if s.elems = [] then alloc 1 else pure ()
  pure { elems := s.elems ++ [e] }

/-- The loop sml_list.c:45-51 with `i` rounds left. -/
def sequenceLoop (p : M (Option α)) (freed : Option α → Nat) :
    (i : Nat) → Sequence α → M (Option (Sequence α))
  | 0, seq => pure (some seq)
  | i + 1, seq => do
    let e ← p
    if ← hasErrors then do
      -- haserrors: sml_sequence_free(seq); buf->error = 1; return NULL;
      -- (an element returned together with an error is not freed by the C code)
      release (sequenceFreed freed (some seq))
      setError
      pure none
    else do
      let seq ← sequenceAdd seq e
      sequenceLoop p freed i seq

/-- `sml_sequence_parse` (sml_list.c:36-60). -/
def sequenceParse (p : M (Option α)) (freed : Option α → Nat) : M (Option (Sequence α)) := do
  if (← getNextType) ≠ tyList then failWith 0
  else
    alloc 1
    let len ← getNextLength
    sequenceLoop p freed len.toNat { elems := [] }

/-- The loop sml_list.c:72-74. -/
def sequenceWriteLoop (w : Option α → M Unit) : List (Option α) → M Unit
  | [] => pure ()
  | e :: es => do
    w e
    sequenceWriteLoop w es

/-- `sml_sequence_write` (sml_list.c:62-75). -/
def sequenceWrite (w : Option α → M Unit) (s : Option (Sequence α)) : M Unit :=
  match s with
  | none => optionalWrite
  | some s => do
    setTypeAndLength tyList s.elems.length
    sequenceWriteLoop w s.elems

/-! ## List entries -/

/-- `sml_list` (sml_list.h:46-57) without its `next` pointer: a C list is a Lean
list of entries, NULL is the empty list. -/
structure ListEntry where
  objName : Option OctetString := none
  status : Option Status := none
  valTime : Option Time := none
  unit : Option Num := none
  scaler : Option Num := none
  value : Option Value := none
  valueSignature : Option OctetString := none
deriving DecidableEq, Repr

def ListEntry.blocks (l : ListEntry) : Nat :=
  1 + own OctetString.blocks l.objName + own Status.blocks l.status + own Time.blocks l.valTime
    + own Num.blocks l.unit + own Num.blocks l.scaler + own Value.blocks l.value
    + own OctetString.blocks l.valueSignature

/-- `sml_list_entry_free` (sml_list.c:334-346). -/
def listEntryFreed (l : ListEntry) : Nat :=
  octetStringFreed l.objName + statusFreed l.status + timeFreed l.valTime + numberFreed l.unit
    + numberFreed l.scaler + valueFreed l.value + octetStringFreed l.valueSignature + 1

/-- `sml_list_free` (sml_list.c:348-361). -/
def listFreed (l : List ListEntry) : Nat := (l.map listEntryFreed).sum

/-- Blocks owned by a list. -/
def listBlocks (l : List ListEntry) : Nat := (l.map ListEntry.blocks).sum

/-- `dzg_serial_oid` (sml_list.c:119). -/
def dzgSerialOid : List UInt8 := [1, 0, 96, 1, 0, 255]
/-- `dzg_serial_start` (sml_list.c:120): `0a 01 'D' 'Z' 'G'`. -/
def dzgSerialStart : List UInt8 := [0x0a, 0x01, 0x44, 0x5a, 0x47]
/-- `dzg_power_name` (sml_list.c:173). -/
def dzgPowerName : List UInt8 := [1, 0, 16, 7, 0, 255]

/-- The loop sml_list.c:149-152: `serial <<= 8; serial |= val[i]` on a `uint64_t`. -/
def dzgSerial (bs : List UInt8) : Nat :=
  bs.foldl (fun s b => (s * 256 % 18446744073709551616) ||| b.toNat) 0

/-- `detect_buggy_dzg_dvs74` (sml_list.c:116-166). The dereference of
`value->data.bytes` (line 139) is unchecked in C. -/
def detectBuggyDzgDvs74 (l : ListEntry) : M Bool :=
  match l.objName with
  | none => pure false
  | some name =>
    if name.str.length ≠ 6 ∨ name.str ≠ dzgSerialOid then pure false
    else match l.value with
      | none => pure false
      | some v =>
        if v.type ≠ tyOctet then pure false
        else match v.data with
          | .bytes (some s) =>
            if s.str.length ≠ 10 then pure false
            else if s.str.take 5 ≠ dzgSerialStart then pure false
            else
              let serial := dzgSerial (s.str.drop 5)
              pure ((decide (serial ≥ 42000000) && decide (serial ≤ 48999999)) ||
                    (decide (serial ≥ 55000000) && decide (serial ≤ 58999999)))
          | .bytes none => undef .nullDeref
          | _ => undef .confusion

/-- `l->value->type &= ~SML_TYPE_FIELD; l->value->type |= SML_TYPE_UNSIGNED;`
(sml_list.c:255-256) on a `u8`. -/
def retag (v : Value) : Value := { v with type := (v.type &&& 0x8F) ||| tyUnsigned }

/-- Ghost: record that a value which is not a number was re-labelled. -/
def noteConfused (v : Value) : M Unit :=
  match v.data with
  | .num _ => pure ()
  | _ => modSt fun st => { st with confused := true }

/-- sml_list.c:249-259: the workaround at the end of `sml_list_entry_parse`. -/
def listEntryFinish (l : ListEntry) (valueLenMore : UInt8) (wa : Bool) :
    M (Option (ListEntry × Bool)) := do
  if ← detectBuggyDzgDvs74 l then pure (some (l, true))
  else
    match wa, l.objName, l.value with
    | true, some name, some v =>
      if name.str.length = 6 ∧ name.str = dzgPowerName ∧
          (valueLenMore = 1 ∨ valueLenMore = 2 ∨ valueLenMore = 3) then do
        noteConfused v
        pure (some ({ l with value := some (retag v) }, wa))
      else pure (some (l, wa))
    | _, _, _ => pure (some (l, wa))

/-- `sml_list_entry_parse` (sml_list.c:172-267). `wa` is
`workarounds->old_dzg_dvs74` on entry; the result carries its value on exit. The label `error`
sets the error flag (line 262), which matters only for line 208. -/
def listEntryParse (wa : Bool) : M (Option (ListEntry × Bool)) :=
  let freed := listEntryFreed
  expectList 7 0 do
  alloc 1
  field octetStringParse (fun v => { objName := v : ListEntry }) freed fun l =>
  field statusParse (fun v => { l with status := v }) freed fun l =>
  field timeParse (fun v => { l with valTime := v }) freed fun l =>
  field u8Parse (fun v => { l with unit := v }) freed fun l =>
  field i8Parse (fun v => { l with scaler := v }) freed fun l => do
  let st ← getSt
  if st.cursor ≥ st.data.length then failWith (freed l)
  else do
  let valueTl ← getCurrentByte
  let valueLenMore := valueTl &&& 0x8F
  field valueParse (fun v => { l with value := v }) freed fun l =>
  field octetStringParse (fun v => { l with valueSignature := v }) freed fun l =>
  listEntryFinish l valueLenMore wa

/-- The loop sml_list.c:285-291 with `elems` rounds left; `acc` is the list built so far. -/
def listLoop : (elems : Nat) → (wa : Bool) → (acc : List ListEntry) → M (List ListEntry)
  | 0, _, acc => pure acc
  | elems + 1, wa, acc => do
    let e ← listEntryParse wa
    if ← hasErrors then do
      -- error: buf->error = 1; sml_list_free(ret); return NULL;
      setError
      release (listFreed (acc ++ (e.map (·.1)).toList))
      pure []
    else
      match e with
      | none => undef .nullDeref      -- `pos = &(*pos)->next` with `*pos == NULL`
      | some (e, wa) => listLoop elems wa (acc ++ [e])

/-- `sml_list_parse` (sml_list.c:269-299). -/
def listParse : M (List ListEntry) := do
  if ← optionalIsSkipped then pure []
  else if (← getNextType) ≠ tyList then do
    setError
    pure []
  else
    let elems ← getNextLength
    listLoop elems.toNat false []

/-- `sml_list_entry_write` (sml_list.c:301-310). -/
def listEntryWrite (l : ListEntry) : M Unit := do
  setTypeAndLength tyList 7
  octetStringWrite l.objName
  statusWrite l.status
  timeWrite l.valTime
  u8Write l.unit
  i8Write l.scaler
  valueWrite l.value
  octetStringWrite l.valueSignature

/-- The loop sml_list.c:328-331. -/
def listWriteLoop : List ListEntry → M Unit
  | [] => pure ()
  | e :: es => do
    listEntryWrite e
    listWriteLoop es

/-- `sml_list_write` (sml_list.c:312-332). -/
def listWrite (l : List ListEntry) : M Unit :=
  if l = [] then optionalWrite
  else do
    setTypeAndLength tyList l.length
    listWriteLoop l

end Sml
