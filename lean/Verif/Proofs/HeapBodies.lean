import Verif.Model.HeapMessage
import Verif.Proofs.HeapTree

/-!
# Message bodies on the heap
-/

namespace Sml

/-! ## `OpenRequest` -/

theorem frees_openRequest (m : OpenRequest) : Frees pOpenRequestFree (ROpenRequest m) (openRequestFreed (some m)) := by
  refine Frees.congr (Frees.struct (
    .cons (frees_octetStringOpt _) <|
    .cons (frees_octetStringOpt _) <|
    .cons (frees_octetStringOpt _) <|
    .cons (frees_octetStringOpt _) <|
    .cons (frees_octetStringOpt _) <|
    .cons (frees_octetStringOpt _) <|
    .cons (frees_numberOpt _) <|
    .nil)) ?_
  rw [openRequestFreed]
  omega

theorem frees_openRequestOpt : ∀ v : Option OpenRequest, Frees pOpenRequestFree (repOpt ROpenRequest v) (openRequestFreed v)
  | none => Frees.null (fun _ _ => rfl)
  | some v => frees_openRequest v

theorem sim_openRequest : Sim [] (openRequestParse) (pOpenRequestParse) (repOpt ROpenRequest) := by
  have hz : repOpt ROpenRequest none 0 [] := ⟨rfl, rfl⟩
  refine Sim.alloc fun a ha => ?_
  have h0 : ROpenRequest {} a [(a, .struct [0, 0, 0, 0, 0, 0, 0] [])] := Rec.empty 7 a []
  refine Sim.expectList (frees_openRequest _) h0 hz ?_
  refine Sim.field sim_octetString h0 rfl rfl (fun _ => rfl) frees_openRequest hz fun v B hB => ?_
  refine Sim.field sim_octetString hB rfl rfl (fun _ => rfl) frees_openRequest hz fun v B hB => ?_
  refine Sim.field sim_octetString hB rfl rfl (fun _ => rfl) frees_openRequest hz fun v B hB => ?_
  refine Sim.field sim_octetString hB rfl rfl (fun _ => rfl) frees_openRequest hz fun v B hB => ?_
  refine Sim.field sim_octetString hB rfl rfl (fun _ => rfl) frees_openRequest hz fun v B hB => ?_
  refine Sim.field sim_octetString hB rfl rfl (fun _ => rfl) frees_openRequest hz fun v B hB => ?_
  refine Sim.field (sim_number _ _) hB rfl rfl (fun _ => rfl) frees_openRequest hz fun v B hB => ?_
  exact Sim.ret hB

/-! ## `OpenResponse` -/

theorem frees_openResponse (m : OpenResponse) : Frees pOpenResponseFree (ROpenResponse m) (openResponseFreed (some m)) := by
  refine Frees.congr (Frees.struct (
    .cons (frees_octetStringOpt _) <|
    .cons (frees_octetStringOpt _) <|
    .cons (frees_octetStringOpt _) <|
    .cons (frees_octetStringOpt _) <|
    .cons (frees_timeOpt _) <|
    .cons (frees_numberOpt _) <|
    .nil)) ?_
  rw [openResponseFreed]
  omega

theorem frees_openResponseOpt : ∀ v : Option OpenResponse, Frees pOpenResponseFree (repOpt ROpenResponse v) (openResponseFreed v)
  | none => Frees.null (fun _ _ => rfl)
  | some v => frees_openResponse v

theorem sim_openResponse : Sim [] (openResponseParse) (pOpenResponseParse) (repOpt ROpenResponse) := by
  have hz : repOpt ROpenResponse none 0 [] := ⟨rfl, rfl⟩
  refine Sim.alloc fun a ha => ?_
  have h0 : ROpenResponse {} a [(a, .struct [0, 0, 0, 0, 0, 0] [])] := Rec.empty 6 a []
  refine Sim.expectList (frees_openResponse _) h0 hz ?_
  refine Sim.field sim_octetString h0 rfl rfl (fun _ => rfl) frees_openResponse hz fun v B hB => ?_
  refine Sim.field sim_octetString hB rfl rfl (fun _ => rfl) frees_openResponse hz fun v B hB => ?_
  refine Sim.field sim_octetString hB rfl rfl (fun _ => rfl) frees_openResponse hz fun v B hB => ?_
  refine Sim.field sim_octetString hB rfl rfl (fun _ => rfl) frees_openResponse hz fun v B hB => ?_
  refine Sim.field sim_time hB rfl rfl (fun _ => rfl) frees_openResponse hz fun v B hB => ?_
  refine Sim.field (sim_number _ _) hB rfl rfl (fun _ => rfl) frees_openResponse hz fun v B hB => ?_
  exact Sim.ret hB

/-! ## `CloseRequest` -/

theorem frees_closeRequest (m : CloseRequest) : Frees pCloseRequestFree (RCloseRequest m) (closeRequestFreed (some m)) := by
  refine Frees.congr (Frees.struct (
    .cons (frees_octetStringOpt _) <|
    .nil)) ?_
  simp only [closeRequestFreed]

theorem frees_closeRequestOpt : ∀ v : Option CloseRequest, Frees pCloseRequestFree (repOpt RCloseRequest v) (closeRequestFreed v)
  | none => Frees.null (fun _ _ => rfl)
  | some v => frees_closeRequest v

theorem sim_closeRequest : Sim [] (closeRequestParse) (pCloseRequestParse) (repOpt RCloseRequest) := by
  have hz : repOpt RCloseRequest none 0 [] := ⟨rfl, rfl⟩
  refine Sim.alloc fun a ha => ?_
  have h0 : RCloseRequest {} a [(a, .struct [0] [])] := Rec.empty 1 a []
  refine Sim.expectList (frees_closeRequest _) h0 hz ?_
  refine Sim.field sim_octetString h0 rfl rfl (fun _ => rfl) frees_closeRequest hz fun v B hB => ?_
  exact Sim.ret hB

/-! ## `CloseResponse` -/

theorem frees_closeResponse (m : CloseResponse) : Frees pCloseResponseFree (RCloseResponse m) (closeResponseFreed (some m)) := by
  refine Frees.congr (Frees.struct (
    .cons (frees_octetStringOpt _) <|
    .nil)) ?_
  simp only [closeResponseFreed]

theorem frees_closeResponseOpt : ∀ v : Option CloseResponse, Frees pCloseResponseFree (repOpt RCloseResponse v) (closeResponseFreed v)
  | none => Frees.null (fun _ _ => rfl)
  | some v => frees_closeResponse v

theorem sim_closeResponse : Sim [] (closeResponseParse) (pCloseResponseParse) (repOpt RCloseResponse) := by
  have hz : repOpt RCloseResponse none 0 [] := ⟨rfl, rfl⟩
  refine Sim.alloc fun a ha => ?_
  have h0 : RCloseResponse {} a [(a, .struct [0] [])] := Rec.empty 1 a []
  refine Sim.expectList (frees_closeResponse _) h0 hz ?_
  refine Sim.field sim_octetString h0 rfl rfl (fun _ => rfl) frees_closeResponse hz fun v B hB => ?_
  exact Sim.ret hB

/-! ## `ValueEntry` -/

theorem frees_valueEntry (m : ValueEntry) : Frees pValueEntryFree (RValueEntry m) (valueEntryFreed (some m)) := by
  refine Frees.congr (Frees.struct (
    .cons (frees_valueOpt _) <|
    .cons (frees_octetStringOpt _) <|
    .nil)) ?_
  rw [valueEntryFreed]
  omega

theorem frees_valueEntryOpt : ∀ v : Option ValueEntry, Frees pValueEntryFree (repOpt RValueEntry v) (valueEntryFreed v)
  | none => Frees.null (fun _ _ => rfl)
  | some v => frees_valueEntry v

theorem sim_valueEntry : Sim [] (valueEntryParse) (pValueEntryParse) (repOpt RValueEntry) := by
  have hz : repOpt RValueEntry none 0 [] := ⟨rfl, rfl⟩
  refine Sim.alloc fun a ha => ?_
  have h0 : RValueEntry {} a [(a, .struct [0, 0] [])] := Rec.empty 2 a []
  refine Sim.expectList (frees_valueEntry _) h0 hz ?_
  refine Sim.field sim_value h0 rfl rfl (fun _ => rfl) frees_valueEntry hz fun v B hB => ?_
  refine Sim.field sim_octetString hB rfl rfl (fun _ => rfl) frees_valueEntry hz fun v B hB => ?_
  exact Sim.ret hB

/-! ## `ProfObjHeaderEntry` -/

theorem frees_profObjHeaderEntry (m : ProfObjHeaderEntry) : Frees pProfObjHeaderEntryFree (RProfObjHeaderEntry m) (profObjHeaderEntryFreed (some m)) := by
  refine Frees.congr (Frees.struct (
    .cons (frees_octetStringOpt _) <|
    .cons (frees_numberOpt _) <|
    .cons (frees_numberOpt _) <|
    .nil)) ?_
  rw [profObjHeaderEntryFreed]
  omega

theorem frees_profObjHeaderEntryOpt : ∀ v : Option ProfObjHeaderEntry, Frees pProfObjHeaderEntryFree (repOpt RProfObjHeaderEntry v) (profObjHeaderEntryFreed v)
  | none => Frees.null (fun _ _ => rfl)
  | some v => frees_profObjHeaderEntry v

theorem sim_profObjHeaderEntry : Sim [] (profObjHeaderEntryParse) (pProfObjHeaderEntryParse) (repOpt RProfObjHeaderEntry) := by
  have hz : repOpt RProfObjHeaderEntry none 0 [] := ⟨rfl, rfl⟩
  refine Sim.alloc fun a ha => ?_
  have h0 : RProfObjHeaderEntry {} a [(a, .struct [0, 0, 0] [])] := Rec.empty 3 a []
  refine Sim.expectList (frees_profObjHeaderEntry _) h0 hz ?_
  refine Sim.field sim_octetString h0 rfl rfl (fun _ => rfl) frees_profObjHeaderEntry hz fun v B hB => ?_
  refine Sim.field (sim_number _ _) hB rfl rfl (fun _ => rfl) frees_profObjHeaderEntry hz fun v B hB => ?_
  refine Sim.field (sim_number _ _) hB rfl rfl (fun _ => rfl) frees_profObjHeaderEntry hz fun v B hB => ?_
  exact Sim.ret hB

/-! ## `ProfObjPeriodEntry` -/

theorem frees_profObjPeriodEntry (m : ProfObjPeriodEntry) : Frees pProfObjPeriodEntryFree (RProfObjPeriodEntry m) (profObjPeriodEntryFreed (some m)) := by
  refine Frees.congr (Frees.struct (
    .cons (frees_timeOpt _) <|
    .cons (frees_numberOpt _) <|
    .cons (frees_sequenceOpt frees_valueEntryOpt _) <|
    .cons (frees_octetStringOpt _) <|
    .nil)) ?_
  rw [profObjPeriodEntryFreed]
  omega

theorem frees_profObjPeriodEntryOpt : ∀ v : Option ProfObjPeriodEntry, Frees pProfObjPeriodEntryFree (repOpt RProfObjPeriodEntry v) (profObjPeriodEntryFreed v)
  | none => Frees.null (fun _ _ => rfl)
  | some v => frees_profObjPeriodEntry v

theorem sim_profObjPeriodEntry : Sim [] (profObjPeriodEntryParse) (pProfObjPeriodEntryParse) (repOpt RProfObjPeriodEntry) := by
  have hz : repOpt RProfObjPeriodEntry none 0 [] := ⟨rfl, rfl⟩
  refine Sim.alloc fun a ha => ?_
  have h0 : RProfObjPeriodEntry {} a [(a, .struct [0, 0, 0, 0] [])] := Rec.empty 4 a []
  refine Sim.expectList (frees_profObjPeriodEntry _) h0 hz ?_
  refine Sim.field sim_time h0 rfl rfl (fun _ => rfl) frees_profObjPeriodEntry hz fun v B hB => ?_
  refine Sim.field (sim_number _ _) hB rfl rfl (fun _ => rfl) frees_profObjPeriodEntry hz fun v B hB => ?_
  refine Sim.field (sim_sequence sim_valueEntry frees_valueEntryOpt) hB rfl rfl (fun _ => rfl) frees_profObjPeriodEntry hz fun v B hB => ?_
  refine Sim.field sim_octetString hB rfl rfl (fun _ => rfl) frees_profObjPeriodEntry hz fun v B hB => ?_
  exact Sim.ret hB

/-! ## `GetProfilePackResponse` -/

theorem frees_getProfilePackResponse (m : GetProfilePackResponse) : Frees pGetProfilePackResponseFree (RGetProfilePackResponse m) (getProfilePackResponseFreed (some m)) := by
  refine Frees.congr (Frees.struct (
    .cons (frees_octetStringOpt _) <|
    .cons (frees_timeOpt _) <|
    .cons (frees_numberOpt _) <|
    .cons (frees_treePathOpt _) <|
    .cons (frees_sequenceOpt frees_profObjHeaderEntryOpt _) <|
    .cons (frees_sequenceOpt frees_profObjPeriodEntryOpt _) <|
    .cons (frees_octetStringOpt _) <|
    .cons (frees_octetStringOpt _) <|
    .nil)) ?_
  rw [getProfilePackResponseFreed]
  omega

theorem frees_getProfilePackResponseOpt : ∀ v : Option GetProfilePackResponse, Frees pGetProfilePackResponseFree (repOpt RGetProfilePackResponse v) (getProfilePackResponseFreed v)
  | none => Frees.null (fun _ _ => rfl)
  | some v => frees_getProfilePackResponse v

theorem sim_getProfilePackResponse : Sim [] (getProfilePackResponseParse) (pGetProfilePackResponseParse) (repOpt RGetProfilePackResponse) := by
  have hz : repOpt RGetProfilePackResponse none 0 [] := ⟨rfl, rfl⟩
  refine Sim.alloc fun a ha => ?_
  have h0 : RGetProfilePackResponse {} a [(a, .struct [0, 0, 0, 0, 0, 0, 0, 0] [])] := Rec.empty 8 a []
  refine Sim.expectList (frees_getProfilePackResponse _) h0 hz ?_
  refine Sim.field sim_octetString h0 rfl rfl (fun _ => rfl) frees_getProfilePackResponse hz fun v B hB => ?_
  refine Sim.field sim_time hB rfl rfl (fun _ => rfl) frees_getProfilePackResponse hz fun v B hB => ?_
  refine Sim.field (sim_number _ _) hB rfl rfl (fun _ => rfl) frees_getProfilePackResponse hz fun v B hB => ?_
  refine Sim.field sim_treePath hB rfl rfl (fun _ => rfl) frees_getProfilePackResponse hz fun v B hB => ?_
  refine Sim.field (sim_sequence sim_profObjHeaderEntry frees_profObjHeaderEntryOpt) hB rfl rfl (fun _ => rfl) frees_getProfilePackResponse hz fun v B hB => ?_
  refine Sim.field (sim_sequence sim_profObjPeriodEntry frees_profObjPeriodEntryOpt) hB rfl rfl (fun _ => rfl) frees_getProfilePackResponse hz fun v B hB => ?_
  refine Sim.field sim_octetString hB rfl rfl (fun _ => rfl) frees_getProfilePackResponse hz fun v B hB => ?_
  refine Sim.field sim_octetString hB rfl rfl (fun _ => rfl) frees_getProfilePackResponse hz fun v B hB => ?_
  exact Sim.ret hB

/-! ## `GetProfileListResponse` -/

theorem frees_getProfileListResponse (m : GetProfileListResponse) : Frees pGetProfileListResponseFree (RGetProfileListResponse m) (getProfileListResponseFreed (some m)) := by
  refine Frees.congr (Frees.struct (
    .cons (frees_octetStringOpt _) <|
    .cons (frees_timeOpt _) <|
    .cons (frees_numberOpt _) <|
    .cons (frees_treePathOpt _) <|
    .cons (frees_timeOpt _) <|
    .cons (frees_numberOpt _) <|
    .cons (frees_sequenceOpt frees_periodEntryOpt _) <|
    .cons (frees_octetStringOpt _) <|
    .cons (frees_octetStringOpt _) <|
    .nil)) ?_
  rw [getProfileListResponseFreed]
  omega

theorem frees_getProfileListResponseOpt : ∀ v : Option GetProfileListResponse, Frees pGetProfileListResponseFree (repOpt RGetProfileListResponse v) (getProfileListResponseFreed v)
  | none => Frees.null (fun _ _ => rfl)
  | some v => frees_getProfileListResponse v

theorem sim_getProfileListResponse : Sim [] (getProfileListResponseParse) (pGetProfileListResponseParse) (repOpt RGetProfileListResponse) := by
  have hz : repOpt RGetProfileListResponse none 0 [] := ⟨rfl, rfl⟩
  refine Sim.alloc fun a ha => ?_
  have h0 : RGetProfileListResponse {} a [(a, .struct [0, 0, 0, 0, 0, 0, 0, 0, 0] [])] := Rec.empty 9 a []
  refine Sim.expectList (frees_getProfileListResponse _) h0 hz ?_
  refine Sim.field sim_octetString h0 rfl rfl (fun _ => rfl) frees_getProfileListResponse hz fun v B hB => ?_
  refine Sim.field sim_time hB rfl rfl (fun _ => rfl) frees_getProfileListResponse hz fun v B hB => ?_
  refine Sim.field (sim_number _ _) hB rfl rfl (fun _ => rfl) frees_getProfileListResponse hz fun v B hB => ?_
  refine Sim.field sim_treePath hB rfl rfl (fun _ => rfl) frees_getProfileListResponse hz fun v B hB => ?_
  refine Sim.field sim_time hB rfl rfl (fun _ => rfl) frees_getProfileListResponse hz fun v B hB => ?_
  refine Sim.field (sim_number _ _) hB rfl rfl (fun _ => rfl) frees_getProfileListResponse hz fun v B hB => ?_
  refine Sim.field (sim_sequence sim_periodEntry frees_periodEntryOpt) hB rfl rfl (fun _ => rfl) frees_getProfileListResponse hz fun v B hB => ?_
  refine Sim.field sim_octetString hB rfl rfl (fun _ => rfl) frees_getProfileListResponse hz fun v B hB => ?_
  refine Sim.field sim_octetString hB rfl rfl (fun _ => rfl) frees_getProfileListResponse hz fun v B hB => ?_
  exact Sim.ret hB

/-! ## `GetProcParameterRequest` -/

theorem frees_getProcParameterRequest (m : GetProcParameterRequest) : Frees pGetProcParameterRequestFree (RGetProcParameterRequest m) (getProcParameterRequestFreed (some m)) := by
  refine Frees.congr (Frees.struct (
    .cons (frees_octetStringOpt _) <|
    .cons (frees_octetStringOpt _) <|
    .cons (frees_octetStringOpt _) <|
    .cons (frees_treePathOpt _) <|
    .cons (frees_octetStringOpt _) <|
    .nil)) ?_
  rw [getProcParameterRequestFreed]
  omega

theorem frees_getProcParameterRequestOpt : ∀ v : Option GetProcParameterRequest, Frees pGetProcParameterRequestFree (repOpt RGetProcParameterRequest v) (getProcParameterRequestFreed v)
  | none => Frees.null (fun _ _ => rfl)
  | some v => frees_getProcParameterRequest v

theorem sim_getProcParameterRequest : Sim [] (getProcParameterRequestParse) (pGetProcParameterRequestParse) (repOpt RGetProcParameterRequest) := by
  have hz : repOpt RGetProcParameterRequest none 0 [] := ⟨rfl, rfl⟩
  refine Sim.alloc fun a ha => ?_
  have h0 : RGetProcParameterRequest {} a [(a, .struct [0, 0, 0, 0, 0] [])] := Rec.empty 5 a []
  refine Sim.expectList (frees_getProcParameterRequest _) h0 hz ?_
  refine Sim.field sim_octetString h0 rfl rfl (fun _ => rfl) frees_getProcParameterRequest hz fun v B hB => ?_
  refine Sim.field sim_octetString hB rfl rfl (fun _ => rfl) frees_getProcParameterRequest hz fun v B hB => ?_
  refine Sim.field sim_octetString hB rfl rfl (fun _ => rfl) frees_getProcParameterRequest hz fun v B hB => ?_
  refine Sim.field sim_treePath hB rfl rfl (fun _ => rfl) frees_getProcParameterRequest hz fun v B hB => ?_
  refine Sim.field sim_octetString hB rfl rfl (fun _ => rfl) frees_getProcParameterRequest hz fun v B hB => ?_
  exact Sim.ret hB

/-! ## `GetProcParameterResponse` -/

theorem frees_getProcParameterResponse (m : GetProcParameterResponse) : Frees pGetProcParameterResponseFree (RGetProcParameterResponse m) (getProcParameterResponseFreed (some m)) := by
  refine Frees.congr (Frees.struct (
    .cons (frees_octetStringOpt _) <|
    .cons (frees_treePathOpt _) <|
    .cons (frees_treeOpt _) <|
    .nil)) ?_
  rw [getProcParameterResponseFreed]
  omega

theorem frees_getProcParameterResponseOpt : ∀ v : Option GetProcParameterResponse, Frees pGetProcParameterResponseFree (repOpt RGetProcParameterResponse v) (getProcParameterResponseFreed v)
  | none => Frees.null (fun _ _ => rfl)
  | some v => frees_getProcParameterResponse v

theorem sim_getProcParameterResponse (depth : Nat) : Sim [] (getProcParameterResponseParse depth) (pGetProcParameterResponseParse depth) (repOpt RGetProcParameterResponse) := by
  have hz : repOpt RGetProcParameterResponse none 0 [] := ⟨rfl, rfl⟩
  refine Sim.alloc fun a ha => ?_
  have h0 : RGetProcParameterResponse {} a [(a, .struct [0, 0, 0] [])] := Rec.empty 3 a []
  refine Sim.expectList (frees_getProcParameterResponse _) h0 hz ?_
  refine Sim.field sim_octetString h0 rfl rfl (fun _ => rfl) frees_getProcParameterResponse hz fun v B hB => ?_
  refine Sim.field sim_treePath hB rfl rfl (fun _ => rfl) frees_getProcParameterResponse hz fun v B hB => ?_
  refine Sim.field (sim_tree _) hB rfl rfl (fun _ => rfl) frees_getProcParameterResponse hz fun v B hB => ?_
  exact Sim.ret hB

/-! ## `SetProcParameterRequest` -/

theorem frees_setProcParameterRequest (m : SetProcParameterRequest) : Frees pSetProcParameterRequestFree (RSetProcParameterRequest m) (setProcParameterRequestFreed (some m)) := by
  refine Frees.congr (Frees.struct (
    .cons (frees_octetStringOpt _) <|
    .cons (frees_octetStringOpt _) <|
    .cons (frees_octetStringOpt _) <|
    .cons (frees_treePathOpt _) <|
    .cons (frees_treeOpt _) <|
    .nil)) ?_
  rw [setProcParameterRequestFreed]
  omega

theorem frees_setProcParameterRequestOpt : ∀ v : Option SetProcParameterRequest, Frees pSetProcParameterRequestFree (repOpt RSetProcParameterRequest v) (setProcParameterRequestFreed v)
  | none => Frees.null (fun _ _ => rfl)
  | some v => frees_setProcParameterRequest v

theorem sim_setProcParameterRequest (depth : Nat) : Sim [] (setProcParameterRequestParse depth) (pSetProcParameterRequestParse depth) (repOpt RSetProcParameterRequest) := by
  have hz : repOpt RSetProcParameterRequest none 0 [] := ⟨rfl, rfl⟩
  refine Sim.alloc fun a ha => ?_
  have h0 : RSetProcParameterRequest {} a [(a, .struct [0, 0, 0, 0, 0] [])] := Rec.empty 5 a []
  refine Sim.expectList (frees_setProcParameterRequest _) h0 hz ?_
  refine Sim.field sim_octetString h0 rfl rfl (fun _ => rfl) frees_setProcParameterRequest hz fun v B hB => ?_
  refine Sim.field sim_octetString hB rfl rfl (fun _ => rfl) frees_setProcParameterRequest hz fun v B hB => ?_
  refine Sim.field sim_octetString hB rfl rfl (fun _ => rfl) frees_setProcParameterRequest hz fun v B hB => ?_
  refine Sim.field sim_treePath hB rfl rfl (fun _ => rfl) frees_setProcParameterRequest hz fun v B hB => ?_
  refine Sim.field (sim_tree _) hB rfl rfl (fun _ => rfl) frees_setProcParameterRequest hz fun v B hB => ?_
  exact Sim.ret hB

/-! ## `GetListRequest` -/

theorem frees_getListRequest (m : GetListRequest) : Frees pGetListRequestFree (RGetListRequest m) (getListRequestFreed (some m)) := by
  rintro a B hr st n0 c0 h L o
  obtain ⟨ps, B', ⟨p0, _, B0, _, rfl, h0, ⟨p1, _, B1, _, rfl, h1, ⟨p2, _, B2, _, rfl, h2, ⟨p3, _, B3, B4, rfl, h3, hF, rfl⟩,
    rfl⟩, rfl⟩, rfl⟩, rfl⟩ := hr
  obtain ⟨p4, rfl, h4⟩ := hF.one
  have hne := o.ne0
  rw [pGetListRequestFree, if_neg hne, P.bind_ok (readPtr_ok hne o.cell rfl)]
  obtain ⟨k0, g0, e0, o, l0⟩ := frees_octetStringOpt m.clientId p0 B0 h0 st n0 c0 h
    ((a, .struct [p0, p1, p2, p3, p4] []) :: (B1 ++ B2 ++ B3 ++ B4 ++ L)) (o.perm (by blocks_perm))
  have o : Own n0 c0 k0 ((a, .struct [p0, p1, p2, p3, p4] []) :: (g0 ++ B1 ++ B2 ++ B3 ++ B4 ++ L)) := o.perm (by blocks_perm)
  rw [P.bind_ok e0, P.bind_ok (readPtr_ok hne o.cell rfl)]
  obtain ⟨k1, g1, e1, o, l1⟩ := frees_octetStringOpt m.serverId p1 B1 h1 st n0 c0 k0
    ((a, .struct [p0, p1, p2, p3, p4] []) :: (g0 ++ B2 ++ B3 ++ B4 ++ L)) (o.perm (by blocks_perm))
  have o : Own n0 c0 k1 ((a, .struct [p0, p1, p2, p3, p4] []) :: (g0 ++ g1 ++ B2 ++ B3 ++ B4 ++ L)) := o.perm (by blocks_perm)
  rw [P.bind_ok e1, P.bind_ok (readPtr_ok hne o.cell rfl)]
  obtain ⟨k2, g2, e2, o, l2⟩ := frees_octetStringOpt m.listName p4 B4 h4 st n0 c0 k1
    ((a, .struct [p0, p1, p2, p3, p4] []) :: (g0 ++ g1 ++ B2 ++ B3 ++ L)) (o.perm (by blocks_perm))
  have o : Own n0 c0 k2 ((a, .struct [p0, p1, p2, p3, p4] []) :: (g0 ++ g1 ++ g2 ++ B2 ++ B3 ++ L)) := o.perm (by blocks_perm)
  rw [P.bind_ok e2, P.bind_ok (readPtr_ok hne o.cell rfl)]
  obtain ⟨k3, g3, e3, o, l3⟩ := frees_octetStringOpt m.username p2 B2 h2 st n0 c0 k2
    ((a, .struct [p0, p1, p2, p3, p4] []) :: (g0 ++ g1 ++ g2 ++ B3 ++ L)) (o.perm (by blocks_perm))
  have o : Own n0 c0 k3 ((a, .struct [p0, p1, p2, p3, p4] []) :: (g0 ++ g1 ++ g2 ++ g3 ++ B3 ++ L)) := o.perm (by blocks_perm)
  rw [P.bind_ok e3, P.bind_ok (readPtr_ok hne o.cell rfl)]
  obtain ⟨k4, g4, e4, o, l4⟩ := frees_octetStringOpt m.password p3 B3 h3 st n0 c0 k3
    ((a, .struct [p0, p1, p2, p3, p4] []) :: (g0 ++ g1 ++ g2 ++ g3 ++ L)) (o.perm (by blocks_perm))
  have o : Own n0 c0 k4 ((a, .struct [p0, p1, p2, p3, p4] []) :: (g0 ++ g1 ++ g2 ++ g3 ++ g4 ++ L)) := o.perm (by blocks_perm)
  rw [P.bind_ok e4]
  refine ⟨_, g0 ++ g1 ++ g2 ++ g3 ++ g4, free_ok hne o.cell, o.drop, ?_⟩
  rw [getListRequestFreed]
  simp only [List.length_append, List.length_cons] at *
  omega

theorem frees_getListRequestOpt : ∀ v : Option GetListRequest, Frees pGetListRequestFree (repOpt RGetListRequest v) (getListRequestFreed v)
  | none => Frees.null (fun _ _ => rfl)
  | some v => frees_getListRequest v

theorem sim_getListRequest : Sim [] (getListRequestParse) (pGetListRequestParse) (repOpt RGetListRequest) := by
  have hz : repOpt RGetListRequest none 0 [] := ⟨rfl, rfl⟩
  refine Sim.alloc fun a ha => ?_
  have h0 : RGetListRequest {} a [(a, .struct [0, 0, 0, 0, 0] [])] := Rec.empty 5 a []
  refine Sim.expectList (frees_getListRequest _) h0 hz ?_
  refine Sim.field sim_octetString h0 rfl rfl (fun _ => rfl) frees_getListRequest hz fun v B hB => ?_
  refine Sim.field sim_octetString hB rfl rfl (fun _ => rfl) frees_getListRequest hz fun v B hB => ?_
  refine Sim.field sim_octetString hB rfl rfl (fun _ => rfl) frees_getListRequest hz fun v B hB => ?_
  refine Sim.field sim_octetString hB rfl rfl (fun _ => rfl) frees_getListRequest hz fun v B hB => ?_
  refine Sim.field sim_octetString hB rfl rfl (fun _ => rfl) frees_getListRequest hz fun v B hB => ?_
  exact Sim.ret hB

/-! ## `GetListResponse` -/

theorem frees_getListResponse (m : GetListResponse) : Frees pGetListResponseFree (RGetListResponse m) (getListResponseFreed (some m)) := by
  refine Frees.congr (Frees.struct (
    .cons (frees_octetStringOpt _) <|
    .cons (frees_octetStringOpt _) <|
    .cons (frees_octetStringOpt _) <|
    .cons (frees_timeOpt _) <|
    .cons (frees_list _) <|
    .cons (frees_octetStringOpt _) <|
    .cons (frees_timeOpt _) <|
    .nil)) ?_
  rw [getListResponseFreed]
  omega

theorem frees_getListResponseOpt : ∀ v : Option GetListResponse, Frees pGetListResponseFree (repOpt RGetListResponse v) (getListResponseFreed v)
  | none => Frees.null (fun _ _ => rfl)
  | some v => frees_getListResponse v

theorem sim_getListResponse : Sim [] (getListResponseParse) (pGetListResponseParse) (repOpt RGetListResponse) := by
  have hz : repOpt RGetListResponse none 0 [] := ⟨rfl, rfl⟩
  refine Sim.alloc fun a ha => ?_
  have h0 : RGetListResponse {} a [(a, .struct [0, 0, 0, 0, 0, 0, 0] [])] := Rec.empty 7 a []
  refine Sim.expectList (frees_getListResponse _) h0 hz ?_
  refine Sim.field sim_octetString h0 rfl rfl (fun _ => rfl) frees_getListResponse hz fun v B hB => ?_
  refine Sim.field sim_octetString hB rfl rfl (fun _ => rfl) frees_getListResponse hz fun v B hB => ?_
  refine Sim.field sim_octetString hB rfl rfl (fun _ => rfl) frees_getListResponse hz fun v B hB => ?_
  refine Sim.field sim_time hB rfl rfl (fun _ => rfl) frees_getListResponse hz fun v B hB => ?_
  refine Sim.field sim_list hB rfl rfl (fun _ => rfl) frees_getListResponse hz fun v B hB => ?_
  refine Sim.field sim_octetString hB rfl rfl (fun _ => rfl) frees_getListResponse hz fun v B hB => ?_
  refine Sim.field sim_time hB rfl rfl (fun _ => rfl) frees_getListResponse hz fun v B hB => ?_
  exact Sim.ret hB

/-! ## `AttentionResponse` -/

theorem frees_attentionResponse (m : AttentionResponse) : Frees pAttentionResponseFree (RAttentionResponse m) (attentionResponseFreed (some m)) := by
  refine Frees.congr (Frees.struct (
    .cons (frees_octetStringOpt _) <|
    .cons (frees_octetStringOpt _) <|
    .cons (frees_octetStringOpt _) <|
    .cons (frees_treeOpt _) <|
    .nil)) ?_
  rw [attentionResponseFreed]
  omega

theorem frees_attentionResponseOpt : ∀ v : Option AttentionResponse, Frees pAttentionResponseFree (repOpt RAttentionResponse v) (attentionResponseFreed v)
  | none => Frees.null (fun _ _ => rfl)
  | some v => frees_attentionResponse v

theorem sim_attentionResponse (depth : Nat) : Sim [] (attentionResponseParse depth) (pAttentionResponseParse depth) (repOpt RAttentionResponse) := by
  have hz : repOpt RAttentionResponse none 0 [] := ⟨rfl, rfl⟩
  refine Sim.alloc fun a ha => ?_
  have h0 : RAttentionResponse {} a [(a, .struct [0, 0, 0, 0] [])] := Rec.empty 4 a []
  refine Sim.expectList (frees_attentionResponse _) h0 hz ?_
  refine Sim.field sim_octetString h0 rfl rfl (fun _ => rfl) frees_attentionResponse hz fun v B hB => ?_
  refine Sim.field sim_octetString hB rfl rfl (fun _ => rfl) frees_attentionResponse hz fun v B hB => ?_
  refine Sim.field sim_octetString hB rfl rfl (fun _ => rfl) frees_attentionResponse hz fun v B hB => ?_
  refine Sim.field (sim_tree _) hB rfl rfl (fun _ => rfl) frees_attentionResponse hz fun v B hB => ?_
  exact Sim.ret hB


/-! ## `GetProfilePackRequest` -/

theorem RObjs.cons (h : RObjs (e :: es) a B) : ∃ p n B1 B2, repOpt RStr e p B1 ∧ RObjs es n B2 ∧
    B = (a, .struct [p, n] []) :: (B1 ++ B2) := by
  obtain ⟨ps, B', hF, rfl⟩ := h
  obtain ⟨p, n, B1, B2, rfl, h1, h2, rfl⟩ := hF.two
  exact ⟨p, n, B1, B2, h1, h2, rfl⟩

theorem RObjs.mk (h1 : repOpt RStr e p B1) (h2 : RObjs es n B2) :
    RObjs (e :: es) a ((a, .struct [p, n] []) :: (B1 ++ B2)) :=
  ⟨_, _, ⟨p, _, B1, _, rfl, h1, Fields.single h2, rfl⟩, rfl⟩

theorem RObjs.length_le : ∀ {es a B}, RObjs es a B → es.length ≤ B.length
  | [], _, _, _ => Nat.zero_le _
  | e :: es, a, B, h => by
    obtain ⟨p, n, B1, B2, _, h2, rfl⟩ := h.cons
    have := h2.length_le
    simp only [List.length_cons, List.length_append]
    omega

theorem freeObjs_ok : ∀ (es : List (Option OctetString)) {a B fuel st n0 c0 h L}, RObjs es a B → Own n0 c0 h (B ++ L) →
    es.length < fuel → ∃ h' g, pObjectListFree fuel a st h = .ok () st h' ∧ Own n0 c0 h' (g ++ L) ∧
      g.length + objectListFreed es = B.length
  | [], a, B, fuel, st, n0, c0, h, L, hr, o, hfuel => by
    obtain ⟨rfl, rfl⟩ := hr
    obtain ⟨fuel, rfl⟩ : ∃ k, fuel = k + 1 := ⟨fuel - 1, by simp at hfuel; omega⟩
    exact ⟨h, [], rfl, o, rfl⟩
  | e :: es, a, B, fuel, st, n0, c0, h, L, hr, o, hfuel => by
    obtain ⟨fuel, rfl⟩ : ∃ k, fuel = k + 1 := ⟨fuel - 1, by simp at hfuel; omega⟩
    obtain ⟨p, n, B1, B2, hp, hn, rfl⟩ := hr.cons
    have hne : a ≠ 0 := o.ne0
    rw [pObjectListFree, if_pos hne, P.bind_ok (readPtr_ok hne o.cell rfl), P.bind_ok (readPtr_ok hne o.cell rfl)]
    obtain ⟨h1, g1, e1, o1, l1⟩ := frees_octetStringOpt e p B1 hp st n0 c0 h
      ((a, .struct [p, n] []) :: (B2 ++ L)) (o.perm (by blocks_perm))
    have o2 : Own n0 c0 h1 ((a, .struct [p, n] []) :: (B2 ++ (g1 ++ L))) := o1.perm (by blocks_perm)
    obtain ⟨h2, g2, e2, o3, l2⟩ := freeObjs_ok es (fuel := fuel) (st := st) hn o2.drop (by simp at hfuel; omega)
    rw [P.bind_ok e1, P.bind_ok (free_ok hne o2.cell)]
    refine ⟨h2, g2 ++ g1, e2, o3.perm (by blocks_perm), ?_⟩
    simp only [objectListFreed, List.map_cons, List.sum_cons, List.length_append, List.length_cons] at l2 ⊢
    omega

theorem frees_objs (es : List (Option OctetString)) : Frees pObjectsFree (RObjs es) (objectListFreed es) := by
  intro a B hr st n0 c0 h L o
  have h1 := hr.length_le
  have h2 := o.length_lt
  rw [List.length_append] at h2
  exact freeObjs_ok es hr o (by omega)

theorem frees_getProfilePackRequest (m : GetProfilePackRequest) :
    Frees pGetProfilePackRequestFree (RGetProfilePackRequest m) (getProfilePackRequestFreed (some m)) := by
  refine Frees.congr (Frees.struct (
    .cons (frees_octetStringOpt _) <|
    .cons (frees_octetStringOpt _) <|
    .cons (frees_octetStringOpt _) <|
    .cons (frees_boolOpt _) <|
    .cons (frees_timeOpt _) <|
    .cons (frees_timeOpt _) <|
    .cons (frees_treePathOpt _) <|
    .cons (frees_objs _) <|
    .cons (frees_treeOpt _) <|
    .nil)) ?_
  rw [getProfilePackRequestFreed]
  omega

theorem frees_getProfilePackRequestOpt : ∀ v : Option GetProfilePackRequest,
    Frees pGetProfilePackRequestFree (repOpt RGetProfilePackRequest v) (getProfilePackRequestFreed v)
  | none => Frees.null (fun _ _ => rfl)
  | some v => frees_getProfilePackRequest v

/-- The error branch sml_get_profile_pack_request.c:122-127 for a node that is not linked yet. -/
def objNodeFree (n : Nat) : P Unit := do
  let e ← readPtr n 0
  (if e ≠ 0 then pOctetStringFree e else pure () : P Unit)
  free n

theorem frees_objNode (e : Option OctetString) :
    Frees objNodeFree (Rec [repOpt RStr e, nullRep] []) (octetStringFreed e + 1) := by
  rintro a B ⟨ps, B', hF, rfl⟩ st n0 c0 h L o
  obtain ⟨p, q, B1, B2, rfl, hp, ⟨rfl, rfl⟩, rfl⟩ := hF.two
  have hne := o.ne0
  obtain ⟨h1, g1, e1, o1, l1⟩ := frees_octetStringOpt e p B1 hp st n0 c0 h
    ((a, .struct [p, 0] []) :: L) (o.perm (by blocks_perm))
  have o2 : Own n0 c0 h1 ((a, .struct [p, 0] []) :: (g1 ++ L)) := o1.perm (by blocks_perm)
  have e2 : (if p ≠ 0 then pOctetStringFree p else pure () : P Unit) st h = .ok () st h1 := by
    by_cases hp0 : p = 0
    · rw [if_neg (by simp [hp0])]
      subst hp0
      rw [← e1]
      rfl
    · rw [if_pos hp0, e1]
  refine ⟨_, g1, ?_, o2.drop, ?_⟩
  · rw [objNodeFree, P.bind_ok (readPtr_ok hne o.cell rfl), P.bind_ok e2]
    exact free_ok hne o2.cell
  · simp only [List.length_cons, List.length_append, List.length_nil]
    omega

/-- The request at `a` with its objects so far; `last` is their last node. -/
def ObjsAt (m : GetProfilePackRequest) (a last : Nat) (B : List Blk) : Prop :=
  (m.objectList = [] ∧ RGetProfilePackRequest m a B) ∨
  ∃ e rest ps hd, ps[7]? = some hd ∧ hd ≠ 0 ∧ (a, .struct ps []) ∈ rest ∧ B.Perm ((last, .struct [e, 0] []) :: rest) ∧
    ∀ es q Bq, RObjs es q Bq → ∃ B', RGetProfilePackRequest { m with objectList := m.objectList ++ es } a B' ∧
      B'.Perm ((last, .struct [e, q] []) :: (rest ++ Bq))

theorem ObjsAt.request (h : ObjsAt m a last B) : ∃ B', RGetProfilePackRequest m a B' ∧ B.Perm B' := by
  rcases h with ⟨_, h⟩ | ⟨e, rest, ps, hd, _, _, _, hp, hk⟩
  · exact ⟨B, h, List.Perm.refl _⟩
  · obtain ⟨B', h1, h2⟩ := hk [] 0 [] ⟨rfl, rfl⟩
    rw [List.append_nil] at h1 h2
    exact ⟨B', h1, hp.trans h2.symm⟩

theorem sim_objectListLoop {kf : Option GetProfilePackRequest → M (Option γ)} {pk : P Nat} {a : Nat}
    {R : Option γ → Nat → List Blk → Prop}
    (hz : R none 0 []) (hn : kf none = pure none)
    (hk : ∀ m B, m.dasDetails = none → RGetProfilePackRequest m a B → Sim B (kf (some m)) pk R) :
    ∀ elems m last B, a ≠ 0 → m.dasDetails = none → ObjsAt m a last B →
      Sim B (objectListLoop elems m >>= kf) (pObjectListLoop a (pAbort pGetProfilePackRequestFree a 0) pk elems last) R
  | 0, m, last, B, ha, hd, hA => by
    obtain ⟨B', h1, h2⟩ := hA.request
    exact Sim.perm h2 (hk m B' hd h1)
  | elems + 1, m, last, B, ha, hd, hA => by
    rw [objectListLoop, pObjectListLoop]
    simp only [M.assoc]
    refine Sim.alloc fun n hn0 => ?_
    refine Sim.call sim_octetString fun e p Bp hp => ?_
    refine Sim.perm (B1 := (n, .struct [0, 0] []) :: (Bp ++ B)) (by blocks_perm) ?_
    refine Sim.writePtr hn0 (by simp) ?_
    show Sim ((n, .struct [p, 0] []) :: (Bp ++ B)) _ _ R
    refine dry_hasErrors.sim fun b => ?_
    have hnode : Rec [repOpt RStr e, nullRep] [] n ((n, .struct [p, 0] []) :: Bp) :=
      ⟨_, _, ⟨p, _, Bp, [], rfl, hp, Fields.single ⟨rfl, rfl⟩, (List.append_nil _).symm⟩, rfl⟩
    by_cases hb : b = true
    · rw [if_pos hb, if_pos hb]
      obtain ⟨B', h1, h2⟩ := hA.request
      have e1 : (readPtr n 0 >>= fun e => (if e ≠ 0 then pOctetStringFree e else pure () : P Unit) >>= fun _ =>
          free n >>= fun _ => pAbort pGetProfilePackRequestFree a 0) =
          (objNodeFree n >>= fun _ => pAbort pGetProfilePackRequestFree a 0) := by
        simp only [objNodeFree, P.assoc]
      refine Eq.mpr (congrArg (fun x => Sim _ _ x R) e1) ?_
      simp only [M.assoc]
      refine Sim.perm (B1 := (n, .struct [p, 0] []) :: Bp ++ B') ?_ ?_
      · exact List.Perm.cons _ (h2.append_left _)
      · refine Sim.release (frees_objNode e) hnode ?_
        have e2 : (pure none >>= kf) = pure none := hn ▸ rfl
        rw [e2]
        exact Sim.abort (frees_getProfilePackRequest m) h1 hz
    · rw [if_neg hb, if_neg hb]
      have hone : RObjs [e] n ((n, .struct [p, 0] []) :: (Bp ++ [])) := RObjs.mk hp ⟨rfl, rfl⟩
      rcases hA with ⟨hnil, hr⟩ | ⟨e0, rest, ps, hd0, h7, hne, hmem, hperm, hsub⟩
      · obtain ⟨ps, B', hF, rfl⟩ := hr
        have h7 : [repOpt RStr m.serverId, repOpt RStr m.username, repOpt RStr m.password, repOpt RBool m.withRawdata,
            repOpt RTime m.beginTime, repOpt RTime m.endTime, repOpt RTreePath m.parameterTreePath, RObjs m.objectList,
            repOpt RTree m.dasDetails][7]? = some nullRep := by
          rw [hnil]
          rfl
        have hlen : ps.length = 9 := hF.length
        obtain ⟨q, B1, B2, hq, ⟨rfl, rfl⟩, hperm, hset⟩ := hF.split 7 h7
        refine Sim.perm (B1 := (a, .struct ps []) :: ((n, .struct [p, 0] []) :: (Bp ++ B2))) ?_ ?_
        · refine List.Perm.trans (List.Perm.cons _ (List.Perm.append_left _ (List.Perm.cons _ hperm))) ?_
          blocks_perm
        refine Sim.readPtr ha hq ?_
        rw [if_pos rfl]
        refine Sim.writePtr ha (by omega) ?_
        refine sim_objectListLoop hz hn hk elems { m with objectList := m.objectList ++ [e] } n _ ha hd (Or.inr ?_)
        refine ⟨p, (a, .struct (ps.set 7 n) []) :: (Bp ++ B2), ps.set 7 n, n, ?_, hn0, List.mem_cons_self, ?_, ?_⟩
        · rw [List.getElem?_set_self (by omega)]
        · exact List.Perm.swap _ _ _
        · intro es q Bq hq
          obtain ⟨B3, h1, h2⟩ := hset (RObjs (e :: es)) n ((n, .struct [p, q] []) :: (Bp ++ Bq)) (RObjs.mk hp hq)
          refine ⟨(a, .struct (ps.set 7 n) []) :: B3, ⟨_, _, ?_, rfl⟩, ?_⟩
          · rw [hnil]
            exact h1
          · refine List.Perm.trans (List.Perm.cons _ h2) ?_
            blocks_perm
      · refine Sim.perm (B1 := (last, .struct [e0, 0] []) :: (rest ++ ((n, .struct [p, 0] []) :: Bp))) ?_ ?_
        · refine List.Perm.trans (List.Perm.cons _ (hperm.append_left _)) ?_
          blocks_perm
        have hm1 : (last, HCell.struct [e0, 0] []) ∈ (last, .struct [e0, 0] []) :: (rest ++ ((n, .struct [p, 0] []) :: Bp)) :=
          List.mem_cons_self
        refine Sim.readPtrM (List.mem_cons_of_mem _ (List.mem_append_left _ hmem)) h7 ?_
        rw [if_neg hne]
        refine Sim.ne0 hm1 fun hl0 => ?_
        refine Sim.writePtr hl0 (by simp) ?_
        refine sim_objectListLoop hz hn hk elems { m with objectList := m.objectList ++ [e] } n _ ha hd (Or.inr ?_)
        refine ⟨p, (last, .struct [e0, n] []) :: (rest ++ Bp), ps, hd0, h7, hne,
          List.mem_cons_of_mem _ (List.mem_append_left _ hmem), ?_, ?_⟩
        · show List.Perm ((last, HCell.struct [e0, n] []) :: (rest ++ ((n, .struct [p, 0] []) :: Bp))) _
          blocks_perm
        · intro es q Bq hq
          obtain ⟨B', h1, h2⟩ := hsub (e :: es) n ((n, .struct [p, q] []) :: (Bp ++ Bq)) (RObjs.mk hp hq)
          refine ⟨B', ?_, h2.trans (by blocks_perm)⟩
          rw [List.append_assoc]
          exact h1

theorem objectListParse_bind (m : GetProfilePackRequest) (k : Option GetProfilePackRequest → M β) :
    (objectListParse m >>= k) = (optionalIsSkipped >>= fun b =>
      if b then k (some m) else getNextType >>= fun t =>
        if t ≠ tyList then failWith (getProfilePackRequestFreed (some m)) >>= k
        else getNextLength >>= fun len => objectListLoop len.toNat m >>= k) := by
  rw [objectListParse, M.assoc]
  refine congrArg _ (funext fun b => ?_)
  cases b
  · simp only [Bool.false_eq_true, if_false, M.assoc]
    refine congrArg _ (funext fun t => ?_)
    split
    · rfl
    · rw [M.assoc]
  · rfl

theorem RGetProfilePackRequest.open (hd : m.dasDetails = none) : RGetProfilePackRequest m =
    Rec [repOpt RStr m.serverId, repOpt RStr m.username, repOpt RStr m.password, repOpt RBool m.withRawdata,
      repOpt RTime m.beginTime, repOpt RTime m.endTime, repOpt RTreePath m.parameterTreePath, RObjs m.objectList,
      nullRep] [] := by
  rw [RGetProfilePackRequest, hd]
  rfl

theorem sim_getProfilePackRequest (depth : Nat) :
    Sim [] (getProfilePackRequestParse depth) (pGetProfilePackRequestParse depth) (repOpt RGetProfilePackRequest) := by
  have hz : repOpt RGetProfilePackRequest none 0 [] := ⟨rfl, rfl⟩
  have hf := frees_getProfilePackRequest
  refine Sim.alloc fun a ha => ?_
  have h0 : RGetProfilePackRequest {} a [(a, .struct [0, 0, 0, 0, 0, 0, 0, 0, 0] [])] := Rec.empty 9 a []
  refine Sim.expectList (hf _) h0 hz ?_
  refine Sim.field sim_octetString h0 rfl rfl (fun _ => rfl) hf hz fun v B hB => ?_
  refine Sim.field sim_octetString hB rfl rfl (fun _ => rfl) hf hz fun v B hB => ?_
  refine Sim.field sim_octetString hB rfl rfl (fun _ => rfl) hf hz fun v B hB => ?_
  refine Sim.field sim_boolean hB rfl rfl (fun _ => rfl) hf hz fun v B hB => ?_
  refine Sim.field sim_time hB rfl rfl (fun _ => rfl) hf hz fun v B hB => ?_
  refine Sim.field sim_time hB rfl rfl (fun _ => rfl) hf hz fun v B hB => ?_
  refine Sim.field sim_treePath hB rfl rfl (fun _ => rfl) hf hz fun v B hB => ?_
  have hk : ∀ m B, m.dasDetails = none → RGetProfilePackRequest m a B →
      Sim B (field (treeParse depth) (fun v => { m with dasDetails := v }) (fun m => getProfilePackRequestFreed (some m))
        fun m => pure (some m)) (pField (pTreeParse depth) a 8 (pAbort pGetProfilePackRequestFree a 0) (pure a))
        (repOpt RGetProfilePackRequest) := by
    intro m B hd hB
    exact Sim.field (sim_tree depth) hB (RGetProfilePackRequest.open hd) rfl (fun _ => rfl) hf hz fun v B hB => Sim.ret hB
  rw [objectListParse_bind]
  refine dry_optionalIsSkipped.sim fun b => Sim.ite (fun _ => hk _ _ rfl hB) fun _ => ?_
  refine dry_getNextType.sim fun ty => Sim.ite (fun _ => ?_) fun _ => ?_
  · have e1 : ∀ n, (failWith n >>= fun x : Option GetProfilePackRequest => match x with
        | none => pure none
        | some m => field (treeParse depth) (fun v => { m with dasDetails := v })
            (fun m => getProfilePackRequestFreed (some m)) fun m => pure (some m)) = failWith n := by
      intro n
      simp only [failWith, M.assoc]
      rfl
    refine Eq.mpr (congrArg (fun x => Sim _ x _ _) (e1 _)) ?_
    exact Sim.fail (hf _) hB hz
  · refine dry_getNextLength.sim fun len => ?_
    refine sim_objectListLoop hz ?_ ?_ _ _ _ _ ha rfl (Or.inl ⟨rfl, hB⟩)
    · rfl
    · exact hk

end Sml
