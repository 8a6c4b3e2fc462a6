import Verif.Model.List

/-!
# Parameter trees

Models `sml/src/sml_tree.c`.
-/

namespace Sml

/-! ## Paths -/

/-- `sml_tree_path` (sml_tree.h): entries added by the library's own parser are never
NULL, but callers may add NULL entries. -/
structure TreePath where
  entries : List (Option OctetString)
deriving DecidableEq, Repr

def TreePath.blocks (p : TreePath) : Nat :=
  1 + (if p.entries = [] then 0 else 1) + (p.entries.map (own OctetString.blocks)).sum

/-- `sml_tree_path_free` (sml_tree.c:86-99). -/
def treePathFreed (p : Option TreePath) : Nat :=
  match p with
  | none => 0
  | some p => (if p.entries ≠ [] then (p.entries.map octetStringFreed).sum + 1 else 0) + 1

/-- `sml_tree_path_add_path_entry` (sml_tree.c:62-68). -/
def treePathAdd (p : TreePath) (e : Option OctetString) : M TreePath := do
  if p.entries = [] then alloc 1 else pure ()
  pure { entries := p.entries ++ [e] }

/-- The loop sml_tree.c:45-52 with `elems` rounds left. -/
def treePathLoop : (elems : Nat) → TreePath → M (Option TreePath)
  | 0, path => pure (some path)
  | elems + 1, path => do
    let s ← octetStringParse
    if ← hasErrors then failWith (treePathFreed (some path))
    else
      match s with
      | none => treePathLoop elems path
      | some s => do
        let path ← treePathAdd path (some s)
        treePathLoop elems path

/-- `sml_tree_path_parse` (sml_tree.c:32-60). -/
def treePathParse : M (Option TreePath) := optional do
  alloc 1
  if (← getNextType) ≠ tyList then failWith (treePathFreed (some { entries := [] }))
  else
    let elems ← getNextLength
    treePathLoop elems.toNat { entries := [] }

/-- The loop sml_tree.c:80-82. -/
def treePathWriteLoop : List (Option OctetString) → M Unit
  | [] => pure ()
  | e :: es => do
    octetStringWrite e
    treePathWriteLoop es

/-- `sml_tree_path_write` (sml_tree.c:70-84): an empty path writes nothing. -/
def treePathWrite (p : Option TreePath) : M Unit :=
  match p with
  | none => optionalWrite
  | some p =>
    if p.entries ≠ [] then do
      setTypeAndLength tyList p.entries.length
      treePathWriteLoop p.entries
    else pure ()

/-! ## Period entries -/

/-- `sml_period_entry` (sml_tree.h). -/
structure PeriodEntry where
  objName : Option OctetString := none
  unit : Option Num := none
  scaler : Option Num := none
  value : Option Value := none
  valueSignature : Option OctetString := none
deriving DecidableEq, Repr

def PeriodEntry.blocks (p : PeriodEntry) : Nat :=
  1 + own OctetString.blocks p.objName + own Num.blocks p.unit + own Num.blocks p.scaler
    + own Value.blocks p.value + own OctetString.blocks p.valueSignature

/-- `sml_period_entry_free` (sml_tree.c:605-619). -/
def periodEntryFreed (p : Option PeriodEntry) : Nat :=
  match p with
  | none => 0
  | some p => octetStringFreed p.objName + numberFreed p.unit + numberFreed p.scaler
      + valueFreed p.value + octetStringFreed p.valueSignature + 1

/-- `sml_period_entry_parse` (sml_tree.c:544-588). -/
def periodEntryParse : M (Option PeriodEntry) :=
  let freed := fun p => periodEntryFreed (some p)
  optional do
  alloc 1
  expectList 5 (freed {}) <|
    field octetStringParse (fun v => { objName := v : PeriodEntry }) freed fun p =>
    field u8Parse (fun v => { p with unit := v }) freed fun p =>
    field i8Parse (fun v => { p with scaler := v }) freed fun p =>
    field valueParse (fun v => { p with value := v }) freed fun p =>
    field octetStringParse (fun v => { p with valueSignature := v }) freed fun p =>
    pure (some p)

/-- `sml_period_entry_write` (sml_tree.c:590-603). -/
def periodEntryWrite (p : Option PeriodEntry) : M Unit :=
  match p with
  | none => optionalWrite
  | some p => do
    setTypeAndLength tyList 5
    octetStringWrite p.objName
    u8Write p.unit
    i8Write p.scaler
    valueWrite p.value
    octetStringWrite p.valueSignature

/-! ## Tuple entries -/

/-- `sml_tupel_entry` (sml_tree.h). -/
structure TupelEntry where
  serverId : Option OctetString := none
  secIndex : Option Time := none
  status : Option Num := none
  unit_pA : Option Num := none
  scaler_pA : Option Num := none
  value_pA : Option Num := none
  unit_R1 : Option Num := none
  scaler_R1 : Option Num := none
  value_R1 : Option Num := none
  unit_R4 : Option Num := none
  scaler_R4 : Option Num := none
  value_R4 : Option Num := none
  signature_pA_R1_R4 : Option OctetString := none
  unit_mA : Option Num := none
  scaler_mA : Option Num := none
  value_mA : Option Num := none
  unit_R2 : Option Num := none
  scaler_R2 : Option Num := none
  value_R2 : Option Num := none
  unit_R3 : Option Num := none
  scaler_R3 : Option Num := none
  value_R3 : Option Num := none
  signature_mA_R2_R3 : Option OctetString := none
deriving DecidableEq, Repr

def TupelEntry.blocks (t : TupelEntry) : Nat :=
  1 + own OctetString.blocks t.serverId + own Time.blocks t.secIndex + own Num.blocks t.status
    + own Num.blocks t.unit_pA + own Num.blocks t.scaler_pA + own Num.blocks t.value_pA
    + own Num.blocks t.unit_R1 + own Num.blocks t.scaler_R1 + own Num.blocks t.value_R1
    + own Num.blocks t.unit_R4 + own Num.blocks t.scaler_R4 + own Num.blocks t.value_R4
    + own OctetString.blocks t.signature_pA_R1_R4
    + own Num.blocks t.unit_mA + own Num.blocks t.scaler_mA + own Num.blocks t.value_mA
    + own Num.blocks t.unit_R2 + own Num.blocks t.scaler_R2 + own Num.blocks t.value_R2
    + own Num.blocks t.unit_R3 + own Num.blocks t.scaler_R3 + own Num.blocks t.value_R3
    + own OctetString.blocks t.signature_mA_R2_R3

/-- `sml_tupel_entry_free` (sml_tree.c:496-532). -/
def tupelEntryFreed (t : Option TupelEntry) : Nat :=
  match t with
  | none => 0
  | some t =>
    octetStringFreed t.serverId + timeFreed t.secIndex + numberFreed t.status
    + numberFreed t.unit_pA + numberFreed t.scaler_pA + numberFreed t.value_pA
    + numberFreed t.unit_R1 + numberFreed t.scaler_R1 + numberFreed t.value_R1
    + numberFreed t.unit_R4 + numberFreed t.scaler_R4 + numberFreed t.value_R4
    + octetStringFreed t.signature_pA_R1_R4
    + numberFreed t.unit_mA + numberFreed t.scaler_mA + numberFreed t.value_mA
    + numberFreed t.unit_R2 + numberFreed t.scaler_R2 + numberFreed t.value_R2
    + numberFreed t.unit_R3 + numberFreed t.scaler_R3 + numberFreed t.value_R3
    + octetStringFreed t.signature_mA_R2_R3 + 1

/-- `sml_tupel_entry_parse` (sml_tree.c:353-453). -/
def tupelEntryParse : M (Option TupelEntry) :=
  let freed := fun t => tupelEntryFreed (some t)
  optional do
  alloc 1
  expectList 23 (freed {}) <|
    field octetStringParse (fun v => { serverId := v : TupelEntry }) freed fun t =>
    field timeParse (fun v => { t with secIndex := v }) freed fun t =>
    field u64Parse (fun v => { t with status := v }) freed fun t =>
    field u8Parse (fun v => { t with unit_pA := v }) freed fun t =>
    field i8Parse (fun v => { t with scaler_pA := v }) freed fun t =>
    field i64Parse (fun v => { t with value_pA := v }) freed fun t =>
    field u8Parse (fun v => { t with unit_R1 := v }) freed fun t =>
    field i8Parse (fun v => { t with scaler_R1 := v }) freed fun t =>
    field i64Parse (fun v => { t with value_R1 := v }) freed fun t =>
    field u8Parse (fun v => { t with unit_R4 := v }) freed fun t =>
    field i8Parse (fun v => { t with scaler_R4 := v }) freed fun t =>
    field i64Parse (fun v => { t with value_R4 := v }) freed fun t =>
    field octetStringParse (fun v => { t with signature_pA_R1_R4 := v }) freed fun t =>
    field u8Parse (fun v => { t with unit_mA := v }) freed fun t =>
    field i8Parse (fun v => { t with scaler_mA := v }) freed fun t =>
    field i64Parse (fun v => { t with value_mA := v }) freed fun t =>
    field u8Parse (fun v => { t with unit_R2 := v }) freed fun t =>
    field i8Parse (fun v => { t with scaler_R2 := v }) freed fun t =>
    field i64Parse (fun v => { t with value_R2 := v }) freed fun t =>
    field u8Parse (fun v => { t with unit_R3 := v }) freed fun t =>
    field i8Parse (fun v => { t with scaler_R3 := v }) freed fun t =>
    field i64Parse (fun v => { t with value_R3 := v }) freed fun t =>
    field octetStringParse (fun v => { t with signature_mA_R2_R3 := v }) freed fun t =>
    pure (some t)

/-- `sml_tupel_entry_write` (sml_tree.c:455-494). -/
def tupelEntryWrite (t : Option TupelEntry) : M Unit :=
  match t with
  | none => optionalWrite
  | some t => do
    setTypeAndLength tyList 23
    octetStringWrite t.serverId
    timeWrite t.secIndex
    u64Write t.status
    u8Write t.unit_pA
    i8Write t.scaler_pA
    i64Write t.value_pA
    u8Write t.unit_R1
    i8Write t.scaler_R1
    i64Write t.value_R1
    u8Write t.unit_R4
    i8Write t.scaler_R4
    i64Write t.value_R4
    octetStringWrite t.signature_pA_R1_R4
    u8Write t.unit_mA
    i8Write t.scaler_mA
    i64Write t.value_mA
    u8Write t.unit_R2
    i8Write t.scaler_R2
    i64Write t.value_R2
    u8Write t.unit_R3
    i8Write t.scaler_R3
    i64Write t.value_R3
    octetStringWrite t.signature_mA_R2_R3

/-! ## Process parameter values -/

/-- The union `sml_proc_par_value.data` (sml_tree.h); `null` is its initial state. -/
inductive PpvData where
  | null
  | value (p : Option Value)
  | periodEntry (p : Option PeriodEntry)
  | tupelEntry (p : Option TupelEntry)
  | time (p : Option Time)
deriving DecidableEq, Repr

/-- `sml_proc_par_value` (sml_tree.h). -/
structure ProcParValue where
  tag : Option Num
  data : PpvData
deriving DecidableEq, Repr

def PpvData.blocks : PpvData → Nat
  | .null => 0
  | .value p => own Value.blocks p
  | .periodEntry p => own PeriodEntry.blocks p
  | .tupelEntry p => own TupelEntry.blocks p
  | .time p => own Time.blocks p

def ProcParValue.blocks (v : ProcParValue) : Nat := 1 + own Num.blocks v.tag + v.data.blocks

/-- `free(ppv->data.value)` when not NULL: one block. -/
def PpvData.ptrFreed : PpvData → Nat
  | .null => 0
  | .value p => own (fun _ => 1) p
  | .periodEntry p => own (fun _ => 1) p
  | .tupelEntry p => own (fun _ => 1) p
  | .time p => own (fun _ => 1) p

/-- `sml_proc_par_value_free` (sml_tree.c:289-320). Where tag and stored object
disagree the C code would read a foreign object; this is not reachable from
parsing and is counted as releasing one block. -/
def procParValueFreed (v : Option ProcParValue) : Nat :=
  match v with
  | none => 0
  | some v =>
    (match v.tag with
    | some t =>
      (match t.val, v.data with
      | 1, .value p => valueFreed p
      | 2, .periodEntry p => periodEntryFreed p
      | 3, .tupelEntry p => tupelEntryFreed p
      | 4, .time p => timeFreed p
      | _, d => d.ptrFreed) + 1
    | none => v.data.ptrFreed) + 1

/-- `sml_proc_par_value_parse` (sml_tree.c:216-260). -/
def procParValueParse : M (Option ProcParValue) :=
  let freed := fun v => procParValueFreed (some v)
  optional do
  alloc 1
  expectList 2 (freed ⟨none, .null⟩) <|
    field u8Parse (fun v => { tag := v, data := .null : ProcParValue }) freed fun ppv =>
    match ppv.tag with
    | none => do
      -- `|| !(ppv->tag)`: goto error without setting the error flag
      release (freed ppv)
      pure none
    | some tag =>
      match tag.val with
      | 1 => do
        let p ← valueParse
        pure (some { ppv with data := .value p })
      | 2 => do
        let p ← periodEntryParse
        pure (some { ppv with data := .periodEntry p })
      | 3 => do
        let p ← tupelEntryParse
        pure (some { ppv with data := .tupelEntry p })
      | 4 => do
        let p ← timeParse
        pure (some { ppv with data := .time p })
      | _ => failWith (freed ppv)

/-- `sml_proc_par_value_write` (sml_tree.c:262-287). -/
def procParValueWrite (v : Option ProcParValue) : M Unit :=
  match v with
  | none => optionalWrite
  | some v => do
    setTypeAndLength tyList 2
    u8Write v.tag
    match v.tag with
    | none => undef .nullDeref
    | some t =>
      match t.val, v.data with
      | 1, .value p => valueWrite p
      | 2, .periodEntry p => periodEntryWrite p
      | 3, .tupelEntry p => tupelEntryWrite p
      | 4, .time p => timeWrite p
      -- a NULL union member read under any tag
      | 1, .null => optionalWrite
      | 2, .null => optionalWrite
      | 3, .null => optionalWrite
      | 4, .null => optionalWrite
      | n, _ => if n = 1 ∨ n = 2 ∨ n = 3 ∨ n = 4 then undef .confusion else pure ()

/-! ## Trees -/

/-- `sml_tree` (sml_tree.h); the library never stores NULL children. -/
inductive Tree where
  | mk (name : Option OctetString) (value : Option ProcParValue) (children : List Tree)
deriving Repr

def Tree.name : Tree → Option OctetString | .mk n _ _ => n
def Tree.value : Tree → Option ProcParValue | .mk _ v _ => v
def Tree.children : Tree → List Tree | .mk _ _ c => c

mutual
/-- Blocks owned by a tree: the node, its name, its value, the child array (if any)
and the children. -/
def Tree.blocks : Tree → Nat
  | .mk n v cs =>
    1 + own OctetString.blocks n + own ProcParValue.blocks v
      + (match cs with | [] => 0 | _ :: _ => 1) + Tree.blocksList cs
def Tree.blocksList : List Tree → Nat
  | [] => 0
  | t :: ts => t.blocks + Tree.blocksList ts
end

mutual
/-- `sml_tree_free` (sml_tree.c:171-183); `free(NULL)` releases nothing. -/
def treeFreed1 : Tree → Nat
  | .mk n v cs =>
    octetStringFreed n + procParValueFreed v + treeFreedList cs
      + (match cs with | [] => 0 | _ :: _ => 1) + 1
def treeFreedList : List Tree → Nat
  | [] => 0
  | t :: ts => treeFreed1 t + treeFreedList ts
end

def treeFreed (t : Option Tree) : Nat :=
  match t with
  | none => 0
  | some t => treeFreed1 t

/-- `sml_tree_add_tree` (sml_tree.c:164-169). -/
def treeAddTree (t : Tree) (c : Tree) : M Tree :=
  match t with
  | .mk n v cs => do
    if cs.isEmpty then alloc 1 else pure ()
    pure (.mk n v (cs ++ [c]))

/-- The loop sml_tree.c:144-154 with `elems` rounds left; `p` is the recursive call. -/
def treeLoop (p : M (Option Tree)) : (elems : Nat) → Tree → M (Option Tree)
  | 0, tree => pure (some tree)
  | elems + 1, tree => do
    let c ← p
    if ← hasErrors then do
      release (treeFreed c)
      release (treeFreed (some tree))
      pure none
    else
      match c with
      | none => treeLoop p elems tree
      | some c => do
        let tree ← treeAddTree tree c
        treeLoop p elems tree

/-- `sml_tree_parse` (sml_tree.c:111-162). `depth` is the number of nested calls
the stack has room for. -/
def treeParse : (depth : Nat) → M (Option Tree)
  | 0 => undef .stack
  | depth + 1 =>
    let freed := fun t => treeFreed (some t)
    optional do
    alloc 1
    expectList 3 (freed (.mk none none [])) <|
      field octetStringParse (fun v => Tree.mk v none []) freed fun t =>
      field procParValueParse (fun v => Tree.mk t.name v []) freed fun t => do
      if ← optionalIsSkipped then pure (some t)
      else if (← getNextType) ≠ tyList then failWith (freed t)
      else
        let elems ← getNextLength
        treeLoop (treeParse depth) elems.toNat t

mutual
/-- `sml_tree_write` (sml_tree.c:185-206) for a non-NULL tree. -/
def treeWrite1 : Tree → M Unit
  | .mk n v cs => do
    setTypeAndLength tyList 3
    octetStringWrite n
    procParValueWrite v
    match cs with
    | [] => optionalWrite
    | c :: cs => do
      setTypeAndLength tyList (cs.length + 1)
      treeWrite1 c
      treeWriteList cs
def treeWriteList : List Tree → M Unit
  | [] => pure ()
  | t :: ts => do
    treeWrite1 t
    treeWriteList ts
end

/-- `sml_tree_write` (sml_tree.c:185-206). -/
def treeWrite (t : Option Tree) : M Unit :=
  match t with
  | none => optionalWrite
  | some t => treeWrite1 t

end Sml
