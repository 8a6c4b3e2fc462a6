import Verif.Model.Tree

/-!
# Message bodies

Models the files `sml_open_request.c` to `sml_attention_response.c` in `sml/src`,
one section per body type.
-/

namespace Sml

/-! ## `sml_open_request` -/

/-- `sml_open_request` (sml_open_request.h). -/
structure OpenRequest where
  codepage : Option OctetString := none
  clientId : Option OctetString := none
  reqFileId : Option OctetString := none
  serverId : Option OctetString := none
  username : Option OctetString := none
  password : Option OctetString := none
  smlVersion : Option Num := none
deriving DecidableEq, Repr

def OpenRequest.blocks (m : OpenRequest) : Nat :=
  1 + own OctetString.blocks m.codepage
    + own OctetString.blocks m.clientId
    + own OctetString.blocks m.reqFileId
    + own OctetString.blocks m.serverId
    + own OctetString.blocks m.username
    + own OctetString.blocks m.password
    + own Num.blocks m.smlVersion

/-- `sml_open_request_free` (sml_open_request.c:95-107). -/
def openRequestFreed (m : Option OpenRequest) : Nat :=
  match m with
  | none => 0
  | some m => octetStringFreed m.codepage
    + octetStringFreed m.clientId
    + octetStringFreed m.reqFileId
    + octetStringFreed m.serverId
    + octetStringFreed m.username
    + octetStringFreed m.password
    + numberFreed m.smlVersion + 1

/-- `sml_open_request_parse` (sml_open_request.c:35-81). -/
def openRequestParse : M (Option OpenRequest) :=
  let freed := fun m => openRequestFreed (some m)
  do
  alloc 1
  expectList 7 (freed {}) <|
    field octetStringParse (fun v => { codepage := v : OpenRequest }) freed fun m =>
    field octetStringParse (fun v => { m with clientId := v }) freed fun m =>
    field octetStringParse (fun v => { m with reqFileId := v }) freed fun m =>
    field octetStringParse (fun v => { m with serverId := v }) freed fun m =>
    field octetStringParse (fun v => { m with username := v }) freed fun m =>
    field octetStringParse (fun v => { m with password := v }) freed fun m =>
    field u8Parse (fun v => { m with smlVersion := v }) freed fun m =>
    pure (some m)

/-- `sml_open_request_write` (sml_open_request.c:83-93); a NULL pointer is dereferenced. -/
def openRequestWrite (m : Option OpenRequest) : M Unit :=
  match m with
  | none => undef .nullDeref
  | some m => do
    setTypeAndLength tyList 7
    octetStringWrite m.codepage
    octetStringWrite m.clientId
    octetStringWrite m.reqFileId
    octetStringWrite m.serverId
    octetStringWrite m.username
    octetStringWrite m.password
    u8Write m.smlVersion

/-! ## `sml_open_response` -/

/-- `sml_open_response` (sml_open_response.h). -/
structure OpenResponse where
  codepage : Option OctetString := none
  clientId : Option OctetString := none
  reqFileId : Option OctetString := none
  serverId : Option OctetString := none
  refTime : Option Time := none
  smlVersion : Option Num := none
deriving DecidableEq, Repr

def OpenResponse.blocks (m : OpenResponse) : Nat :=
  1 + own OctetString.blocks m.codepage
    + own OctetString.blocks m.clientId
    + own OctetString.blocks m.reqFileId
    + own OctetString.blocks m.serverId
    + own Time.blocks m.refTime
    + own Num.blocks m.smlVersion

/-- `sml_open_response_free` (sml_open_response.c:88-99). -/
def openResponseFreed (m : Option OpenResponse) : Nat :=
  match m with
  | none => 0
  | some m => octetStringFreed m.codepage
    + octetStringFreed m.clientId
    + octetStringFreed m.reqFileId
    + octetStringFreed m.serverId
    + timeFreed m.refTime
    + numberFreed m.smlVersion + 1

/-- `sml_open_response_parse` (sml_open_response.c:34-75). -/
def openResponseParse : M (Option OpenResponse) :=
  let freed := fun m => openResponseFreed (some m)
  do
  alloc 1
  expectList 6 (freed {}) <|
    field octetStringParse (fun v => { codepage := v : OpenResponse }) freed fun m =>
    field octetStringParse (fun v => { m with clientId := v }) freed fun m =>
    field octetStringParse (fun v => { m with reqFileId := v }) freed fun m =>
    field octetStringParse (fun v => { m with serverId := v }) freed fun m =>
    field timeParse (fun v => { m with refTime := v }) freed fun m =>
    field u8Parse (fun v => { m with smlVersion := v }) freed fun m =>
    pure (some m)

/-- `sml_open_response_write` (sml_open_response.c:77-86); a NULL pointer is dereferenced. -/
def openResponseWrite (m : Option OpenResponse) : M Unit :=
  match m with
  | none => undef .nullDeref
  | some m => do
    setTypeAndLength tyList 6
    octetStringWrite m.codepage
    octetStringWrite m.clientId
    octetStringWrite m.reqFileId
    octetStringWrite m.serverId
    timeWrite m.refTime
    u8Write m.smlVersion

/-! ## `sml_close_request` -/

/-- `sml_close_request` (sml_close_request.h). -/
structure CloseRequest where
  globalSignature : Option OctetString := none
deriving DecidableEq, Repr

def CloseRequest.blocks (m : CloseRequest) : Nat :=
  1 + own OctetString.blocks m.globalSignature

/-- `sml_close_request_free` (sml_close_request.c:58-63). -/
def closeRequestFreed (m : Option CloseRequest) : Nat :=
  match m with
  | none => 0
  | some m => octetStringFreed m.globalSignature + 1

/-- `sml_close_request_parse` (sml_close_request.c:29-51). -/
def closeRequestParse : M (Option CloseRequest) :=
  let freed := fun m => closeRequestFreed (some m)
  do
  alloc 1
  expectList 1 (freed {}) <|
    field octetStringParse (fun v => { globalSignature := v : CloseRequest }) freed fun m =>
    pure (some m)

/-- `sml_close_request_write` (sml_close_request.c:53-56); a NULL pointer is dereferenced. -/
def closeRequestWrite (m : Option CloseRequest) : M Unit :=
  match m with
  | none => undef .nullDeref
  | some m => do
    setTypeAndLength tyList 1
    octetStringWrite m.globalSignature

/-! ## `sml_close_response` -/

/-- `sml_close_response` (sml_close_response.h). -/
structure CloseResponse where
  globalSignature : Option OctetString := none
deriving DecidableEq, Repr

def CloseResponse.blocks (m : CloseResponse) : Nat :=
  1 + own OctetString.blocks m.globalSignature

/-- `sml_close_response_free` (sml_close_response.c:58-64). -/
def closeResponseFreed (m : Option CloseResponse) : Nat :=
  match m with
  | none => 0
  | some m => octetStringFreed m.globalSignature + 1

/-- `sml_close_response_parse` (sml_close_response.c:29-51). -/
def closeResponseParse : M (Option CloseResponse) :=
  let freed := fun m => closeResponseFreed (some m)
  do
  alloc 1
  expectList 1 (freed {}) <|
    field octetStringParse (fun v => { globalSignature := v : CloseResponse }) freed fun m =>
    pure (some m)

/-- `sml_close_response_write` (sml_close_response.c:53-56); a NULL pointer is dereferenced. -/
def closeResponseWrite (m : Option CloseResponse) : M Unit :=
  match m with
  | none => undef .nullDeref
  | some m => do
    setTypeAndLength tyList 1
    octetStringWrite m.globalSignature

/-! ## `sml_value_entry` -/

/-- `sml_value_entry` (sml_get_profile_pack_response.h). -/
structure ValueEntry where
  value : Option Value := none
  valueSignature : Option OctetString := none
deriving DecidableEq, Repr

def ValueEntry.blocks (m : ValueEntry) : Nat :=
  1 + own Value.blocks m.value
    + own OctetString.blocks m.valueSignature

/-- `sml_value_entry_free` (sml_get_profile_pack_response.c:141-150). -/
def valueEntryFreed (m : Option ValueEntry) : Nat :=
  match m with
  | none => 0
  | some m => valueFreed m.value
    + octetStringFreed m.valueSignature + 1

/-- `sml_value_entry_parse` (sml_get_profile_pack_response.c:105-131). -/
def valueEntryParse : M (Option ValueEntry) :=
  let freed := fun m => valueEntryFreed (some m)
  do
  alloc 1
  expectList 2 (freed {}) <|
    field valueParse (fun v => { value := v : ValueEntry }) freed fun m =>
    field octetStringParse (fun v => { m with valueSignature := v }) freed fun m =>
    pure (some m)

/-- `sml_value_entry_write` (sml_get_profile_pack_response.c:133-139); a NULL entry is dereferenced. -/
def valueEntryWrite (m : Option ValueEntry) : M Unit :=
  match m with
  | none => undef .nullDeref
  | some m => do
    setTypeAndLength tyList 2
    valueWrite m.value
    octetStringWrite m.valueSignature

/-! ## `sml_prof_obj_header_entry` -/

/-- `sml_prof_obj_header_entry` (sml_get_profile_pack_response.h). -/
structure ProfObjHeaderEntry where
  objName : Option OctetString := none
  unit : Option Num := none
  scaler : Option Num := none
deriving DecidableEq, Repr

def ProfObjHeaderEntry.blocks (m : ProfObjHeaderEntry) : Nat :=
  1 + own OctetString.blocks m.objName
    + own Num.blocks m.unit
    + own Num.blocks m.scaler

/-- `sml_prof_obj_header_entry_free` (sml_get_profile_pack_response.c:27-36). -/
def profObjHeaderEntryFreed (m : Option ProfObjHeaderEntry) : Nat :=
  match m with
  | none => 0
  | some m => octetStringFreed m.objName
    + numberFreed m.unit
    + numberFreed m.scaler + 1

/-- `sml_prof_obj_header_entry_parse` (sml_get_profile_pack_response.c:261-289). -/
def profObjHeaderEntryParse : M (Option ProfObjHeaderEntry) :=
  let freed := fun m => profObjHeaderEntryFreed (some m)
  do
  alloc 1
  expectList 3 (freed {}) <|
    field octetStringParse (fun v => { objName := v : ProfObjHeaderEntry }) freed fun m =>
    field u8Parse (fun v => { m with unit := v }) freed fun m =>
    field i8Parse (fun v => { m with scaler := v }) freed fun m =>
    pure (some m)

/-- `sml_prof_obj_header_entry_write` (sml_get_profile_pack_response.c:85-93); a NULL entry is dereferenced. -/
def profObjHeaderEntryWrite (m : Option ProfObjHeaderEntry) : M Unit :=
  match m with
  | none => undef .nullDeref
  | some m => do
    setTypeAndLength tyList 3
    octetStringWrite m.objName
    u8Write m.unit
    i8Write m.scaler

/-! ## `sml_prof_obj_period_entry` -/

/-- `sml_prof_obj_period_entry` (sml_get_profile_pack_response.h). -/
structure ProfObjPeriodEntry where
  valTime : Option Time := none
  status : Option Num := none
  valueList : Option (Sequence ValueEntry) := none
  periodSignature : Option OctetString := none
deriving DecidableEq, Repr

def ProfObjPeriodEntry.blocks (m : ProfObjPeriodEntry) : Nat :=
  1 + own Time.blocks m.valTime
    + own Num.blocks m.status
    + own (Sequence.blocks ValueEntry.blocks) m.valueList
    + own OctetString.blocks m.periodSignature

/-- `sml_prof_obj_period_entry_free` (sml_get_profile_pack_response.c:72-83). -/
def profObjPeriodEntryFreed (m : Option ProfObjPeriodEntry) : Nat :=
  match m with
  | none => 0
  | some m => timeFreed m.valTime
    + numberFreed m.status
    + sequenceFreed valueEntryFreed m.valueList
    + octetStringFreed m.periodSignature + 1

/-- `sml_prof_obj_period_entry_parse` (sml_get_profile_pack_response.c:38-70). -/
def profObjPeriodEntryParse : M (Option ProfObjPeriodEntry) :=
  let freed := fun m => profObjPeriodEntryFreed (some m)
  do
  alloc 1
  expectList 4 (freed {}) <|
    field timeParse (fun v => { valTime := v : ProfObjPeriodEntry }) freed fun m =>
    field u64Parse (fun v => { m with status := v }) freed fun m =>
    field (sequenceParse valueEntryParse valueEntryFreed) (fun v => { m with valueList := v }) freed fun m =>
    field octetStringParse (fun v => { m with periodSignature := v }) freed fun m =>
    pure (some m)

/-- `sml_prof_obj_period_entry_write` (sml_get_profile_pack_response.c:95-103); a NULL entry is dereferenced. -/
def profObjPeriodEntryWrite (m : Option ProfObjPeriodEntry) : M Unit :=
  match m with
  | none => undef .nullDeref
  | some m => do
    setTypeAndLength tyList 4
    timeWrite m.valTime
    u64Write m.status
    sequenceWrite valueEntryWrite m.valueList
    octetStringWrite m.periodSignature

/-! ## `sml_get_profile_pack_response` -/

/-- `sml_get_profile_pack_response` (sml_get_profile_pack_response.h). -/
structure GetProfilePackResponse where
  serverId : Option OctetString := none
  actTime : Option Time := none
  regPeriod : Option Num := none
  parameterTreePath : Option TreePath := none
  headerList : Option (Sequence ProfObjHeaderEntry) := none
  periodList : Option (Sequence ProfObjPeriodEntry) := none
  rawdata : Option OctetString := none
  profileSignature : Option OctetString := none
deriving DecidableEq, Repr

def GetProfilePackResponse.blocks (m : GetProfilePackResponse) : Nat :=
  1 + own OctetString.blocks m.serverId
    + own Time.blocks m.actTime
    + own Num.blocks m.regPeriod
    + own TreePath.blocks m.parameterTreePath
    + own (Sequence.blocks ProfObjHeaderEntry.blocks) m.headerList
    + own (Sequence.blocks ProfObjPeriodEntry.blocks) m.periodList
    + own OctetString.blocks m.rawdata
    + own OctetString.blocks m.profileSignature

/-- `sml_get_profile_pack_response_free` (sml_get_profile_pack_response.c:237-250). -/
def getProfilePackResponseFreed (m : Option GetProfilePackResponse) : Nat :=
  match m with
  | none => 0
  | some m => octetStringFreed m.serverId
    + timeFreed m.actTime
    + numberFreed m.regPeriod
    + treePathFreed m.parameterTreePath
    + sequenceFreed profObjHeaderEntryFreed m.headerList
    + sequenceFreed profObjPeriodEntryFreed m.periodList
    + octetStringFreed m.rawdata
    + octetStringFreed m.profileSignature + 1

/-- `sml_get_profile_pack_response_parse` (sml_get_profile_pack_response.c:169-222). -/
def getProfilePackResponseParse : M (Option GetProfilePackResponse) :=
  let freed := fun m => getProfilePackResponseFreed (some m)
  do
  alloc 1
  expectList 8 (freed {}) <|
    field octetStringParse (fun v => { serverId := v : GetProfilePackResponse }) freed fun m =>
    field timeParse (fun v => { m with actTime := v }) freed fun m =>
    field u32Parse (fun v => { m with regPeriod := v }) freed fun m =>
    field treePathParse (fun v => { m with parameterTreePath := v }) freed fun m =>
    field (sequenceParse profObjHeaderEntryParse profObjHeaderEntryFreed) (fun v => { m with headerList := v }) freed fun m =>
    field (sequenceParse profObjPeriodEntryParse profObjPeriodEntryFreed) (fun v => { m with periodList := v }) freed fun m =>
    field octetStringParse (fun v => { m with rawdata := v }) freed fun m =>
    field octetStringParse (fun v => { m with profileSignature := v }) freed fun m =>
    pure (some m)

/-- `sml_get_profile_pack_response_write` (sml_get_profile_pack_response.c:224-235); a NULL pointer is dereferenced. -/
def getProfilePackResponseWrite (m : Option GetProfilePackResponse) : M Unit :=
  match m with
  | none => undef .nullDeref
  | some m => do
    setTypeAndLength tyList 8
    octetStringWrite m.serverId
    timeWrite m.actTime
    u32Write m.regPeriod
    treePathWrite m.parameterTreePath
    sequenceWrite profObjHeaderEntryWrite m.headerList
    sequenceWrite profObjPeriodEntryWrite m.periodList
    octetStringWrite m.rawdata
    octetStringWrite m.profileSignature

/-! ## `sml_get_profile_list_response` -/

/-- `sml_get_profile_list_response` (sml_get_profile_list_response.h). -/
structure GetProfileListResponse where
  serverId : Option OctetString := none
  actTime : Option Time := none
  regPeriod : Option Num := none
  parameterTreePath : Option TreePath := none
  valTime : Option Time := none
  status : Option Num := none
  periodList : Option (Sequence PeriodEntry) := none
  rawdata : Option OctetString := none
  periodSignature : Option OctetString := none
deriving DecidableEq, Repr

def GetProfileListResponse.blocks (m : GetProfileListResponse) : Nat :=
  1 + own OctetString.blocks m.serverId
    + own Time.blocks m.actTime
    + own Num.blocks m.regPeriod
    + own TreePath.blocks m.parameterTreePath
    + own Time.blocks m.valTime
    + own Num.blocks m.status
    + own (Sequence.blocks PeriodEntry.blocks) m.periodList
    + own OctetString.blocks m.rawdata
    + own OctetString.blocks m.periodSignature

/-- `sml_get_profile_list_response_free` (sml_get_profile_list_response.c:115-129). -/
def getProfileListResponseFreed (m : Option GetProfileListResponse) : Nat :=
  match m with
  | none => 0
  | some m => octetStringFreed m.serverId
    + timeFreed m.actTime
    + numberFreed m.regPeriod
    + treePathFreed m.parameterTreePath
    + timeFreed m.valTime
    + numberFreed m.status
    + sequenceFreed periodEntryFreed m.periodList
    + octetStringFreed m.rawdata
    + octetStringFreed m.periodSignature + 1

/-- `sml_get_profile_list_response_parse` (sml_get_profile_list_response.c:42-97). -/
def getProfileListResponseParse : M (Option GetProfileListResponse) :=
  let freed := fun m => getProfileListResponseFreed (some m)
  do
  alloc 1
  expectList 9 (freed {}) <|
    field octetStringParse (fun v => { serverId := v : GetProfileListResponse }) freed fun m =>
    field timeParse (fun v => { m with actTime := v }) freed fun m =>
    field u32Parse (fun v => { m with regPeriod := v }) freed fun m =>
    field treePathParse (fun v => { m with parameterTreePath := v }) freed fun m =>
    field timeParse (fun v => { m with valTime := v }) freed fun m =>
    field u64Parse (fun v => { m with status := v }) freed fun m =>
    field (sequenceParse periodEntryParse periodEntryFreed) (fun v => { m with periodList := v }) freed fun m =>
    field octetStringParse (fun v => { m with rawdata := v }) freed fun m =>
    field octetStringParse (fun v => { m with periodSignature := v }) freed fun m =>
    pure (some m)

/-- `sml_get_profile_list_response_write` (sml_get_profile_list_response.c:101-113); a NULL pointer is dereferenced. -/
def getProfileListResponseWrite (m : Option GetProfileListResponse) : M Unit :=
  match m with
  | none => undef .nullDeref
  | some m => do
    setTypeAndLength tyList 9
    octetStringWrite m.serverId
    timeWrite m.actTime
    u32Write m.regPeriod
    treePathWrite m.parameterTreePath
    timeWrite m.valTime
    u64Write m.status
    sequenceWrite periodEntryWrite m.periodList
    octetStringWrite m.rawdata
    octetStringWrite m.periodSignature

/-! ## `sml_get_proc_parameter_request` -/

/-- `sml_get_proc_parameter_request` (sml_get_proc_parameter_request.h). -/
structure GetProcParameterRequest where
  serverId : Option OctetString := none
  username : Option OctetString := none
  password : Option OctetString := none
  parameterTreePath : Option TreePath := none
  attr : Option OctetString := none
deriving DecidableEq, Repr

def GetProcParameterRequest.blocks (m : GetProcParameterRequest) : Nat :=
  1 + own OctetString.blocks m.serverId
    + own OctetString.blocks m.username
    + own OctetString.blocks m.password
    + own TreePath.blocks m.parameterTreePath
    + own OctetString.blocks m.attr

/-- `sml_get_proc_parameter_request_free` (sml_get_proc_parameter_request.c:85-95). -/
def getProcParameterRequestFreed (m : Option GetProcParameterRequest) : Nat :=
  match m with
  | none => 0
  | some m => octetStringFreed m.serverId
    + octetStringFreed m.username
    + octetStringFreed m.password
    + treePathFreed m.parameterTreePath
    + octetStringFreed m.attr + 1

/-- `sml_get_proc_parameter_request_parse` (sml_get_proc_parameter_request.c:35-73). -/
def getProcParameterRequestParse : M (Option GetProcParameterRequest) :=
  let freed := fun m => getProcParameterRequestFreed (some m)
  do
  alloc 1
  expectList 5 (freed {}) <|
    field octetStringParse (fun v => { serverId := v : GetProcParameterRequest }) freed fun m =>
    field octetStringParse (fun v => { m with username := v }) freed fun m =>
    field octetStringParse (fun v => { m with password := v }) freed fun m =>
    field treePathParse (fun v => { m with parameterTreePath := v }) freed fun m =>
    field octetStringParse (fun v => { m with attr := v }) freed fun m =>
    pure (some m)

/-- `sml_get_proc_parameter_request_write` (sml_get_proc_parameter_request.c:75-83); a NULL pointer is dereferenced. -/
def getProcParameterRequestWrite (m : Option GetProcParameterRequest) : M Unit :=
  match m with
  | none => undef .nullDeref
  | some m => do
    setTypeAndLength tyList 5
    octetStringWrite m.serverId
    octetStringWrite m.username
    octetStringWrite m.password
    treePathWrite m.parameterTreePath
    octetStringWrite m.attr

/-! ## `sml_get_proc_parameter_response` -/

/-- `sml_get_proc_parameter_response` (sml_get_proc_parameter_response.h). -/
structure GetProcParameterResponse where
  serverId : Option OctetString := none
  parameterTreePath : Option TreePath := none
  parameterTree : Option Tree := none
deriving Repr

def GetProcParameterResponse.blocks (m : GetProcParameterResponse) : Nat :=
  1 + own OctetString.blocks m.serverId
    + own TreePath.blocks m.parameterTreePath
    + own Tree.blocks m.parameterTree

/-- `sml_get_proc_parameter_response_free` (sml_get_proc_parameter_response.c:70-78). -/
def getProcParameterResponseFreed (m : Option GetProcParameterResponse) : Nat :=
  match m with
  | none => 0
  | some m => octetStringFreed m.serverId
    + treePathFreed m.parameterTreePath
    + treeFreed m.parameterTree + 1

/-- `sml_get_proc_parameter_response_parse` (sml_get_proc_parameter_response.c:31-61). -/
def getProcParameterResponseParse (depth : Nat) : M (Option GetProcParameterResponse) :=
  let freed := fun m => getProcParameterResponseFreed (some m)
  do
  alloc 1
  expectList 3 (freed {}) <|
    field octetStringParse (fun v => { serverId := v : GetProcParameterResponse }) freed fun m =>
    field treePathParse (fun v => { m with parameterTreePath := v }) freed fun m =>
    field (treeParse depth) (fun v => { m with parameterTree := v }) freed fun m =>
    pure (some m)

/-- `sml_get_proc_parameter_response_write` (sml_get_proc_parameter_response.c:63-68); a NULL pointer is dereferenced. -/
def getProcParameterResponseWrite (m : Option GetProcParameterResponse) : M Unit :=
  match m with
  | none => undef .nullDeref
  | some m => do
    setTypeAndLength tyList 3
    octetStringWrite m.serverId
    treePathWrite m.parameterTreePath
    treeWrite m.parameterTree

/-! ## `sml_set_proc_parameter_request` -/

/-- `sml_set_proc_parameter_request` (sml_set_proc_parameter_request.h). -/
structure SetProcParameterRequest where
  serverId : Option OctetString := none
  username : Option OctetString := none
  password : Option OctetString := none
  parameterTreePath : Option TreePath := none
  parameterTree : Option Tree := none
deriving Repr

def SetProcParameterRequest.blocks (m : SetProcParameterRequest) : Nat :=
  1 + own OctetString.blocks m.serverId
    + own OctetString.blocks m.username
    + own OctetString.blocks m.password
    + own TreePath.blocks m.parameterTreePath
    + own Tree.blocks m.parameterTree

/-- `sml_set_proc_parameter_request_free` (sml_set_proc_parameter_request.c:82-92). -/
def setProcParameterRequestFreed (m : Option SetProcParameterRequest) : Nat :=
  match m with
  | none => 0
  | some m => octetStringFreed m.serverId
    + octetStringFreed m.username
    + octetStringFreed m.password
    + treePathFreed m.parameterTreePath
    + treeFreed m.parameterTree + 1

/-- `sml_set_proc_parameter_request_parse` (sml_set_proc_parameter_request.c:33-71). -/
def setProcParameterRequestParse (depth : Nat) : M (Option SetProcParameterRequest) :=
  let freed := fun m => setProcParameterRequestFreed (some m)
  do
  alloc 1
  expectList 5 (freed {}) <|
    field octetStringParse (fun v => { serverId := v : SetProcParameterRequest }) freed fun m =>
    field octetStringParse (fun v => { m with username := v }) freed fun m =>
    field octetStringParse (fun v => { m with password := v }) freed fun m =>
    field treePathParse (fun v => { m with parameterTreePath := v }) freed fun m =>
    field (treeParse depth) (fun v => { m with parameterTree := v }) freed fun m =>
    pure (some m)

/-- `sml_set_proc_parameter_request_write` (sml_set_proc_parameter_request.c:73-80); a NULL pointer is dereferenced. -/
def setProcParameterRequestWrite (m : Option SetProcParameterRequest) : M Unit :=
  match m with
  | none => undef .nullDeref
  | some m => do
    setTypeAndLength tyList 5
    octetStringWrite m.serverId
    octetStringWrite m.username
    octetStringWrite m.password
    treePathWrite m.parameterTreePath
    treeWrite m.parameterTree

/-! ## `sml_get_list_request` -/

/-- `sml_get_list_request` (sml_get_list_request.h). -/
structure GetListRequest where
  clientId : Option OctetString := none
  serverId : Option OctetString := none
  username : Option OctetString := none
  password : Option OctetString := none
  listName : Option OctetString := none
deriving DecidableEq, Repr

def GetListRequest.blocks (m : GetListRequest) : Nat :=
  1 + own OctetString.blocks m.clientId
    + own OctetString.blocks m.serverId
    + own OctetString.blocks m.username
    + own OctetString.blocks m.password
    + own OctetString.blocks m.listName

/-- `sml_get_list_request_free` (sml_get_list_request.c:88-97). -/
def getListRequestFreed (m : Option GetListRequest) : Nat :=
  match m with
  | none => 0
  | some m => octetStringFreed m.clientId
    + octetStringFreed m.serverId
    + octetStringFreed m.username
    + octetStringFreed m.password
    + octetStringFreed m.listName + 1

/-- `sml_get_list_request_parse` (sml_get_list_request.c:43-86). -/
def getListRequestParse : M (Option GetListRequest) :=
  let freed := fun m => getListRequestFreed (some m)
  do
  alloc 1
  expectList 5 (freed {}) <|
    field octetStringParse (fun v => { clientId := v : GetListRequest }) freed fun m =>
    field octetStringParse (fun v => { m with serverId := v }) freed fun m =>
    field octetStringParse (fun v => { m with username := v }) freed fun m =>
    field octetStringParse (fun v => { m with password := v }) freed fun m =>
    field octetStringParse (fun v => { m with listName := v }) freed fun m =>
    pure (some m)

/-- `sml_get_list_request_write` (sml_get_list_request.c:33-41); a NULL pointer is dereferenced. -/
def getListRequestWrite (m : Option GetListRequest) : M Unit :=
  match m with
  | none => undef .nullDeref
  | some m => do
    setTypeAndLength tyList 5
    octetStringWrite m.clientId
    octetStringWrite m.serverId
    octetStringWrite m.username
    octetStringWrite m.password
    octetStringWrite m.listName

/-! ## `sml_get_list_response` -/

/-- `sml_get_list_response` (sml_get_list_response.h). -/
structure GetListResponse where
  clientId : Option OctetString := none
  serverId : Option OctetString := none
  listName : Option OctetString := none
  actSensorTime : Option Time := none
  valList : List ListEntry := []
  listSignature : Option OctetString := none
  actGatewayTime : Option Time := none
deriving DecidableEq, Repr

def GetListResponse.blocks (m : GetListResponse) : Nat :=
  1 + own OctetString.blocks m.clientId
    + own OctetString.blocks m.serverId
    + own OctetString.blocks m.listName
    + own Time.blocks m.actSensorTime
    + listBlocks m.valList
    + own OctetString.blocks m.listSignature
    + own Time.blocks m.actGatewayTime

/-- `sml_get_list_response_free` (sml_get_list_response.c:94-106). -/
def getListResponseFreed (m : Option GetListResponse) : Nat :=
  match m with
  | none => 0
  | some m => octetStringFreed m.clientId
    + octetStringFreed m.serverId
    + octetStringFreed m.listName
    + timeFreed m.actSensorTime
    + listFreed m.valList
    + octetStringFreed m.listSignature
    + timeFreed m.actGatewayTime + 1

/-- `sml_get_list_response_parse` (sml_get_list_response.c:34-80). -/
def getListResponseParse : M (Option GetListResponse) :=
  let freed := fun m => getListResponseFreed (some m)
  do
  alloc 1
  expectList 7 (freed {}) <|
    field octetStringParse (fun v => { clientId := v : GetListResponse }) freed fun m =>
    field octetStringParse (fun v => { m with serverId := v }) freed fun m =>
    field octetStringParse (fun v => { m with listName := v }) freed fun m =>
    field timeParse (fun v => { m with actSensorTime := v }) freed fun m =>
    field listParse (fun v => { m with valList := v }) freed fun m =>
    field octetStringParse (fun v => { m with listSignature := v }) freed fun m =>
    field timeParse (fun v => { m with actGatewayTime := v }) freed fun m =>
    pure (some m)

/-- `sml_get_list_response_write` (sml_get_list_response.c:82-92); a NULL pointer is dereferenced. -/
def getListResponseWrite (m : Option GetListResponse) : M Unit :=
  match m with
  | none => undef .nullDeref
  | some m => do
    setTypeAndLength tyList 7
    octetStringWrite m.clientId
    octetStringWrite m.serverId
    octetStringWrite m.listName
    timeWrite m.actSensorTime
    listWrite m.valList
    octetStringWrite m.listSignature
    timeWrite m.actGatewayTime

/-! ## `sml_attention_response` -/

/-- `sml_attention_response` (sml_attention_response.h). -/
structure AttentionResponse where
  serverId : Option OctetString := none
  attentionNumber : Option OctetString := none
  attentionMessage : Option OctetString := none
  attentionDetails : Option Tree := none
deriving Repr

def AttentionResponse.blocks (m : AttentionResponse) : Nat :=
  1 + own OctetString.blocks m.serverId
    + own OctetString.blocks m.attentionNumber
    + own OctetString.blocks m.attentionMessage
    + own Tree.blocks m.attentionDetails

/-- `sml_attention_response_free` (sml_attention_response.c:77-86). -/
def attentionResponseFreed (m : Option AttentionResponse) : Nat :=
  match m with
  | none => 0
  | some m => octetStringFreed m.serverId
    + octetStringFreed m.attentionNumber
    + octetStringFreed m.attentionMessage
    + treeFreed m.attentionDetails + 1

/-- `sml_attention_response_parse` (sml_attention_response.c:32-66). -/
def attentionResponseParse (depth : Nat) : M (Option AttentionResponse) :=
  let freed := fun m => attentionResponseFreed (some m)
  do
  alloc 1
  expectList 4 (freed {}) <|
    field octetStringParse (fun v => { serverId := v : AttentionResponse }) freed fun m =>
    field octetStringParse (fun v => { m with attentionNumber := v }) freed fun m =>
    field octetStringParse (fun v => { m with attentionMessage := v }) freed fun m =>
    field (treeParse depth) (fun v => { m with attentionDetails := v }) freed fun m =>
    pure (some m)

/-- `sml_attention_response_write` (sml_attention_response.c:68-75); a NULL pointer is dereferenced. -/
def attentionResponseWrite (m : Option AttentionResponse) : M Unit :=
  match m with
  | none => undef .nullDeref
  | some m => do
    setTypeAndLength tyList 4
    octetStringWrite m.serverId
    octetStringWrite m.attentionNumber
    octetStringWrite m.attentionMessage
    treeWrite m.attentionDetails

/-! ## `sml_get_profile_pack_request` (also used as `sml_get_profile_list_request`,
sml_get_profile_list_request.h:31-34) -/

/-- `sml_get_profile_pack_request` (sml_get_profile_pack_request.h); the linked list
`sml_obj_req_entry_list` is a list of entries, each of which may be NULL. -/
structure GetProfilePackRequest where
  serverId : Option OctetString := none
  username : Option OctetString := none
  password : Option OctetString := none
  withRawdata : Option UInt8 := none
  beginTime : Option Time := none
  endTime : Option Time := none
  parameterTreePath : Option TreePath := none
  objectList : List (Option OctetString) := []
  dasDetails : Option Tree := none
deriving Repr

def objectListBlocks (l : List (Option OctetString)) : Nat :=
  (l.map fun e => own OctetString.blocks e + 1).sum

def GetProfilePackRequest.blocks (m : GetProfilePackRequest) : Nat :=
  1 + own OctetString.blocks m.serverId
    + own OctetString.blocks m.username
    + own OctetString.blocks m.password
    + own boolBlocks m.withRawdata
    + own Time.blocks m.beginTime
    + own Time.blocks m.endTime
    + own TreePath.blocks m.parameterTreePath
    + objectListBlocks m.objectList
    + own Tree.blocks m.dasDetails

/-- The loop sml_get_profile_pack_request.c:159-167. -/
def objectListFreed (l : List (Option OctetString)) : Nat :=
  (l.map fun e => octetStringFreed e + 1).sum

/-- `sml_get_profile_pack_request_free` (sml_get_profile_pack_request.c:149-172). -/
def getProfilePackRequestFreed (m : Option GetProfilePackRequest) : Nat :=
  match m with
  | none => 0
  | some m => octetStringFreed m.serverId
    + octetStringFreed m.username
    + octetStringFreed m.password
    + booleanFreed m.withRawdata
    + timeFreed m.beginTime
    + timeFreed m.endTime
    + treePathFreed m.parameterTreePath
    + objectListFreed m.objectList
    + treeFreed m.dasDetails + 1

/-- The loop sml_get_profile_pack_request.c:117-135 with `elems` rounds left. -/
def objectListLoop : (elems : Nat) → GetProfilePackRequest → M (Option GetProfilePackRequest)
  | 0, m => pure (some m)
  | elems + 1, m => do
    alloc 1
    let e ← octetStringParse
    if ← hasErrors then do
      release (octetStringFreed e + 1)
      release (getProfilePackRequestFreed (some m))
      pure none
    else objectListLoop elems { m with objectList := m.objectList ++ [e] }

/-- sml_get_profile_pack_request.c:110-136. The error flag is not checked when the
optional list is skipped or its header is cut off. -/
def objectListParse (m : GetProfilePackRequest) : M (Option GetProfilePackRequest) := do
  if ← optionalIsSkipped then pure (some m)
  else if (← getNextType) ≠ tyList then failWith (getProfilePackRequestFreed (some m))
  else
    let len ← getNextLength
    objectListLoop len.toNat m

/-- `sml_get_profile_pack_request_parse` (sml_get_profile_pack_request.c:69-147). -/
def getProfilePackRequestParse (depth : Nat) : M (Option GetProfilePackRequest) :=
  let freed := fun m => getProfilePackRequestFreed (some m)
  do
  alloc 1
  expectList 9 (freed {}) <|
    field octetStringParse (fun v => { serverId := v : GetProfilePackRequest }) freed fun m =>
    field octetStringParse (fun v => { m with username := v }) freed fun m =>
    field octetStringParse (fun v => { m with password := v }) freed fun m =>
    field booleanParse (fun v => { m with withRawdata := v }) freed fun m =>
    field timeParse (fun v => { m with beginTime := v }) freed fun m =>
    field timeParse (fun v => { m with endTime := v }) freed fun m =>
    field treePathParse (fun v => { m with parameterTreePath := v }) freed fun m => do
    match ← objectListParse m with
    | none => pure none
    | some m =>
      field (treeParse depth) (fun v => { m with dasDetails := v }) freed fun m =>
      pure (some m)

/-- The loop sml_get_profile_pack_request.c:59-61: `for (l = list; l->next; l = l->next)`
stops before the last node. -/
def objectListWriteLoop : List (Option OctetString) → M Unit
  | [] => pure ()
  | [_] => pure ()
  | e :: es => do
    octetStringWrite e
    objectListWriteLoop es

/-- `sml_get_profile_pack_request_write` (sml_get_profile_pack_request.c:41-67). -/
def getProfilePackRequestWrite (m : Option GetProfilePackRequest) : M Unit :=
  match m with
  | none => undef .nullDeref
  | some m => do
    setTypeAndLength tyList 9
    octetStringWrite m.serverId
    octetStringWrite m.username
    octetStringWrite m.password
    booleanWrite m.withRawdata
    timeWrite m.beginTime
    timeWrite m.endTime
    treePathWrite m.parameterTreePath
    if m.objectList ≠ [] then do
      setTypeAndLength tyList m.objectList.length
      objectListWriteLoop m.objectList
    else optionalWrite
    treeWrite m.dasDetails

end Sml
