import Verif.Proofs.ReadsList

/-!
# Encoding and decoding of message bodies
-/

namespace Sml

open Spec

theorem emits_some {w : Option α → M Unit} {f : α → Term} {P : α → Prop} (h : ∀ a, P a → Emits (w (some a)) (cells (f a)))
    {o : Option α} (ho : Spec.Some P o) : Emits (w o) (cells (opt f o)) := by
  obtain ⟨a, rfl, ha⟩ := ho
  exact h a ha

theorem reads_some {p : M (Option α)} {f : α → Term} {P : α → Prop} {blk : α → Nat}
    (h : ∀ a, P a → Reads p (some a) (enc (f a)) (blk a)) {o : Option α} (ho : Spec.Some P o) :
    Reads p o (enc (opt f o)) (own blk o) := by
  obtain ⟨a, rfl, ha⟩ := ho
  exact h a ha

theorem emits_openRequest (s : Bool) (m : OpenRequest) (h : OpenRequestOk s m) : Emits (openRequestWrite (some m)) (cells (openRequestTerm m)) := by
  obtain ⟨h1, h2, h3, h4, h5, h6, h7⟩ := h
  refine emits_node rfl (by decide) ?_
  refine emits_cons (emits_octetString s _ h1) ?_
  refine emits_cons (emits_octetString s _ h2) ?_
  refine emits_cons (emits_octetString s _ h3) ?_
  refine emits_cons (emits_octetString s _ h4) ?_
  refine emits_cons (emits_octetString s _ h5) ?_
  refine emits_cons (emits_octetString s _ h6) ?_
  exact emits_one (emits_uint s (by decide) (by decide) _ h7)

theorem reads_openRequest (m : OpenRequest) (h : OpenRequestOk true m) : Reads openRequestParse (some m) (enc (openRequestTerm m)) m.blocks := by
  obtain ⟨h1, h2, h3, h4, h5, h6, h7⟩ := h
  unfold openRequestParse OpenRequest.blocks
  simp only [Nat.add_assoc]
  refine reads_node rfl (by decide) ?_
  refine reads_field (reads_octetString _ h1) ?_
  refine reads_field (reads_octetString _ h2) ?_
  refine reads_field (reads_octetString _ h3) ?_
  refine reads_field (reads_octetString _ h4) ?_
  refine reads_field (reads_octetString _ h5) ?_
  refine reads_field (reads_octetString _ h6) ?_
  exact reads_field_end (reads_uint (by decide) (by decide) _ h7) rfl

theorem emits_openResponse (s : Bool) (m : OpenResponse) (h : OpenResponseOk s m) : Emits (openResponseWrite (some m)) (cells (openResponseTerm m)) := by
  obtain ⟨h1, h2, h3, h4, h5, h6⟩ := h
  refine emits_node rfl (by decide) ?_
  refine emits_cons (emits_octetString s _ h1) ?_
  refine emits_cons (emits_octetString s _ h2) ?_
  refine emits_cons (emits_octetString s _ h3) ?_
  refine emits_cons (emits_octetString s _ h4) ?_
  refine emits_cons (emits_time s _ h5) ?_
  exact emits_one (emits_uint s (by decide) (by decide) _ h6)

theorem reads_openResponse (m : OpenResponse) (h : OpenResponseOk true m) : Reads openResponseParse (some m) (enc (openResponseTerm m)) m.blocks := by
  obtain ⟨h1, h2, h3, h4, h5, h6⟩ := h
  unfold openResponseParse OpenResponse.blocks
  simp only [Nat.add_assoc]
  refine reads_node rfl (by decide) ?_
  refine reads_field (reads_octetString _ h1) ?_
  refine reads_field (reads_octetString _ h2) ?_
  refine reads_field (reads_octetString _ h3) ?_
  refine reads_field (reads_octetString _ h4) ?_
  refine reads_field (reads_time _ h5) ?_
  exact reads_field_end (reads_uint (by decide) (by decide) _ h6) rfl

theorem emits_closeRequest (s : Bool) (m : CloseRequest) (h : CloseRequestOk s m) : Emits (closeRequestWrite (some m)) (cells (closeRequestTerm m)) := by
  have h1 := h
  refine emits_node rfl (by decide) ?_
  exact emits_one (emits_octetString s _ h1)

theorem reads_closeRequest (m : CloseRequest) (h : CloseRequestOk true m) : Reads closeRequestParse (some m) (enc (closeRequestTerm m)) m.blocks := by
  have h1 := h
  unfold closeRequestParse CloseRequest.blocks
  refine reads_node rfl (by decide) ?_
  exact reads_field_end (reads_octetString _ h1) rfl

theorem emits_closeResponse (s : Bool) (m : CloseResponse) (h : CloseResponseOk s m) : Emits (closeResponseWrite (some m)) (cells (closeResponseTerm m)) := by
  have h1 := h
  refine emits_node rfl (by decide) ?_
  exact emits_one (emits_octetString s _ h1)

theorem reads_closeResponse (m : CloseResponse) (h : CloseResponseOk true m) : Reads closeResponseParse (some m) (enc (closeResponseTerm m)) m.blocks := by
  have h1 := h
  unfold closeResponseParse CloseResponse.blocks
  refine reads_node rfl (by decide) ?_
  exact reads_field_end (reads_octetString _ h1) rfl

theorem emits_valueEntry (s : Bool) (m : ValueEntry) (h : ValueEntryOk s m) : Emits (valueEntryWrite (some m)) (cells (valueEntryTerm m)) := by
  obtain ⟨h1, h2⟩ := h
  refine emits_node rfl (by decide) ?_
  refine emits_cons (emits_value s _ h1) ?_
  exact emits_one (emits_octetString s _ h2)

theorem reads_valueEntry (m : ValueEntry) (h : ValueEntryOk true m) : Reads valueEntryParse (some m) (enc (valueEntryTerm m)) m.blocks := by
  obtain ⟨h1, h2⟩ := h
  unfold valueEntryParse ValueEntry.blocks
  simp only [Nat.add_assoc]
  refine reads_node rfl (by decide) ?_
  refine reads_field (reads_value _ h1) ?_
  exact reads_field_end (reads_octetString _ h2) rfl

theorem emits_profObjHeaderEntry (s : Bool) (m : ProfObjHeaderEntry) (h : ProfObjHeaderEntryOk s m) : Emits (profObjHeaderEntryWrite (some m)) (cells (profObjHeaderEntryTerm m)) := by
  obtain ⟨h1, h2, h3⟩ := h
  refine emits_node rfl (by decide) ?_
  refine emits_cons (emits_octetString s _ h1) ?_
  refine emits_cons (emits_uint s (by decide) (by decide) _ h2) ?_
  exact emits_one (emits_int s (by decide) (by decide) _ h3)

theorem reads_profObjHeaderEntry (m : ProfObjHeaderEntry) (h : ProfObjHeaderEntryOk true m) : Reads profObjHeaderEntryParse (some m) (enc (profObjHeaderEntryTerm m)) m.blocks := by
  obtain ⟨h1, h2, h3⟩ := h
  unfold profObjHeaderEntryParse ProfObjHeaderEntry.blocks
  simp only [Nat.add_assoc]
  refine reads_node rfl (by decide) ?_
  refine reads_field (reads_octetString _ h1) ?_
  refine reads_field (reads_uint (by decide) (by decide) _ h2) ?_
  exact reads_field_end (reads_int (by decide) (by decide) _ h3) rfl

theorem emits_profObjPeriodEntry (s : Bool) (m : ProfObjPeriodEntry) (h : ProfObjPeriodEntryOk s m) : Emits (profObjPeriodEntryWrite (some m)) (cells (profObjPeriodEntryTerm m)) := by
  obtain ⟨h1, h2, h3, h4⟩ := h
  refine emits_node rfl (by decide) ?_
  refine emits_cons (emits_time s _ h1) ?_
  refine emits_cons (emits_uint s (by decide) (by decide) _ h2) ?_
  refine emits_cons (emits_sequence s (fun e he => emits_some (emits_valueEntry s) he) _ h3) ?_
  exact emits_one (emits_octetString s _ h4)

theorem reads_profObjPeriodEntry (m : ProfObjPeriodEntry) (h : ProfObjPeriodEntryOk true m) : Reads profObjPeriodEntryParse (some m) (enc (profObjPeriodEntryTerm m)) m.blocks := by
  obtain ⟨h1, h2, h3, h4⟩ := h
  unfold profObjPeriodEntryParse ProfObjPeriodEntry.blocks
  simp only [Nat.add_assoc]
  refine reads_node rfl (by decide) ?_
  refine reads_field (reads_time _ h1) ?_
  refine reads_field (reads_uint (by decide) (by decide) _ h2) ?_
  refine reads_field (reads_sequence (fun e he => reads_some reads_valueEntry he) _ h3) ?_
  exact reads_field_end (reads_octetString _ h4) rfl

theorem emits_getProfilePackResponse (s : Bool) (m : GetProfilePackResponse) (h : GetProfilePackResponseOk s m) : Emits (getProfilePackResponseWrite (some m)) (cells (getProfilePackResponseTerm m)) := by
  obtain ⟨h1, h2, h3, h4, h5, h6, h7, h8⟩ := h
  refine emits_node rfl (by decide) ?_
  refine emits_cons (emits_octetString s _ h1) ?_
  refine emits_cons (emits_time s _ h2) ?_
  refine emits_cons (emits_uint s (by decide) (by decide) _ h3) ?_
  refine emits_cons (emits_path s _ h4) ?_
  refine emits_cons (emits_sequence s (fun e he => emits_some (emits_profObjHeaderEntry s) he) _ h5) ?_
  refine emits_cons (emits_sequence s (fun e he => emits_some (emits_profObjPeriodEntry s) he) _ h6) ?_
  refine emits_cons (emits_octetString s _ h7) ?_
  exact emits_one (emits_octetString s _ h8)

theorem reads_getProfilePackResponse (m : GetProfilePackResponse) (h : GetProfilePackResponseOk true m) : Reads getProfilePackResponseParse (some m) (enc (getProfilePackResponseTerm m)) m.blocks := by
  obtain ⟨h1, h2, h3, h4, h5, h6, h7, h8⟩ := h
  unfold getProfilePackResponseParse GetProfilePackResponse.blocks
  simp only [Nat.add_assoc]
  refine reads_node rfl (by decide) ?_
  refine reads_field (reads_octetString _ h1) ?_
  refine reads_field (reads_time _ h2) ?_
  refine reads_field (reads_uint (by decide) (by decide) _ h3) ?_
  refine reads_field (reads_path _ h4) ?_
  refine reads_field (reads_sequence (fun e he => reads_some reads_profObjHeaderEntry he) _ h5) ?_
  refine reads_field (reads_sequence (fun e he => reads_some reads_profObjPeriodEntry he) _ h6) ?_
  refine reads_field (reads_octetString _ h7) ?_
  exact reads_field_end (reads_octetString _ h8) rfl

theorem emits_getProfileListResponse (s : Bool) (m : GetProfileListResponse) (h : GetProfileListResponseOk s m) : Emits (getProfileListResponseWrite (some m)) (cells (getProfileListResponseTerm m)) := by
  obtain ⟨h1, h2, h3, h4, h5, h6, h7, h8, h9⟩ := h
  refine emits_node rfl (by decide) ?_
  refine emits_cons (emits_octetString s _ h1) ?_
  refine emits_cons (emits_time s _ h2) ?_
  refine emits_cons (emits_uint s (by decide) (by decide) _ h3) ?_
  refine emits_cons (emits_path s _ h4) ?_
  refine emits_cons (emits_time s _ h5) ?_
  refine emits_cons (emits_uint s (by decide) (by decide) _ h6) ?_
  refine emits_cons (emits_sequence s (fun e he => emits_periodEntry s e he) _ h7) ?_
  refine emits_cons (emits_octetString s _ h8) ?_
  exact emits_one (emits_octetString s _ h9)

theorem reads_getProfileListResponse (m : GetProfileListResponse) (h : GetProfileListResponseOk true m) : Reads getProfileListResponseParse (some m) (enc (getProfileListResponseTerm m)) m.blocks := by
  obtain ⟨h1, h2, h3, h4, h5, h6, h7, h8, h9⟩ := h
  unfold getProfileListResponseParse GetProfileListResponse.blocks
  simp only [Nat.add_assoc]
  refine reads_node rfl (by decide) ?_
  refine reads_field (reads_octetString _ h1) ?_
  refine reads_field (reads_time _ h2) ?_
  refine reads_field (reads_uint (by decide) (by decide) _ h3) ?_
  refine reads_field (reads_path _ h4) ?_
  refine reads_field (reads_time _ h5) ?_
  refine reads_field (reads_uint (by decide) (by decide) _ h6) ?_
  refine reads_field (reads_sequence (fun e he => reads_periodEntry e he) _ h7) ?_
  refine reads_field (reads_octetString _ h8) ?_
  exact reads_field_end (reads_octetString _ h9) rfl

theorem emits_getProcParameterRequest (s : Bool) (m : GetProcParameterRequest) (h : GetProcParameterRequestOk s m) : Emits (getProcParameterRequestWrite (some m)) (cells (getProcParameterRequestTerm m)) := by
  obtain ⟨h1, h2, h3, h4, h5⟩ := h
  refine emits_node rfl (by decide) ?_
  refine emits_cons (emits_octetString s _ h1) ?_
  refine emits_cons (emits_octetString s _ h2) ?_
  refine emits_cons (emits_octetString s _ h3) ?_
  refine emits_cons (emits_path s _ h4) ?_
  exact emits_one (emits_octetString s _ h5)

theorem reads_getProcParameterRequest (m : GetProcParameterRequest) (h : GetProcParameterRequestOk true m) : Reads getProcParameterRequestParse (some m) (enc (getProcParameterRequestTerm m)) m.blocks := by
  obtain ⟨h1, h2, h3, h4, h5⟩ := h
  unfold getProcParameterRequestParse GetProcParameterRequest.blocks
  simp only [Nat.add_assoc]
  refine reads_node rfl (by decide) ?_
  refine reads_field (reads_octetString _ h1) ?_
  refine reads_field (reads_octetString _ h2) ?_
  refine reads_field (reads_octetString _ h3) ?_
  refine reads_field (reads_path _ h4) ?_
  exact reads_field_end (reads_octetString _ h5) rfl

theorem emits_getProcParameterResponse (s : Bool) (m : GetProcParameterResponse) (h : GetProcParameterResponseOk s m) : Emits (getProcParameterResponseWrite (some m)) (cells (getProcParameterResponseTerm m)) := by
  obtain ⟨h1, h2, h3⟩ := h
  refine emits_node rfl (by decide) ?_
  refine emits_cons (emits_octetString s _ h1) ?_
  refine emits_cons (emits_path s _ h2) ?_
  exact emits_one (emits_tree s _ h3)

theorem reads_getProcParameterResponse {depth : Nat} (m : GetProcParameterResponse) (h : GetProcParameterResponseOk true m) (h0 : 0 < depth) (hd : (m.parameterTree.map treeDepth).getD 0 ≤ depth) : Reads (getProcParameterResponseParse depth) (some m) (enc (getProcParameterResponseTerm m)) m.blocks := by
  obtain ⟨h1, h2, h3⟩ := h
  unfold getProcParameterResponseParse GetProcParameterResponse.blocks
  simp only [Nat.add_assoc]
  refine reads_node rfl (by decide) ?_
  refine reads_field (reads_octetString _ h1) ?_
  refine reads_field (reads_path _ h2) ?_
  exact reads_field_end (reads_tree _ h3 h0 hd) rfl

theorem emits_setProcParameterRequest (s : Bool) (m : SetProcParameterRequest) (h : SetProcParameterRequestOk s m) : Emits (setProcParameterRequestWrite (some m)) (cells (setProcParameterRequestTerm m)) := by
  obtain ⟨h1, h2, h3, h4, h5⟩ := h
  refine emits_node rfl (by decide) ?_
  refine emits_cons (emits_octetString s _ h1) ?_
  refine emits_cons (emits_octetString s _ h2) ?_
  refine emits_cons (emits_octetString s _ h3) ?_
  refine emits_cons (emits_path s _ h4) ?_
  exact emits_one (emits_tree s _ h5)

theorem reads_setProcParameterRequest {depth : Nat} (m : SetProcParameterRequest) (h : SetProcParameterRequestOk true m) (h0 : 0 < depth) (hd : (m.parameterTree.map treeDepth).getD 0 ≤ depth) : Reads (setProcParameterRequestParse depth) (some m) (enc (setProcParameterRequestTerm m)) m.blocks := by
  obtain ⟨h1, h2, h3, h4, h5⟩ := h
  unfold setProcParameterRequestParse SetProcParameterRequest.blocks
  simp only [Nat.add_assoc]
  refine reads_node rfl (by decide) ?_
  refine reads_field (reads_octetString _ h1) ?_
  refine reads_field (reads_octetString _ h2) ?_
  refine reads_field (reads_octetString _ h3) ?_
  refine reads_field (reads_path _ h4) ?_
  exact reads_field_end (reads_tree _ h5 h0 hd) rfl

theorem emits_getListRequest (s : Bool) (m : GetListRequest) (h : GetListRequestOk s m) : Emits (getListRequestWrite (some m)) (cells (getListRequestTerm m)) := by
  obtain ⟨h1, h2, h3, h4, h5⟩ := h
  refine emits_node rfl (by decide) ?_
  refine emits_cons (emits_octetString s _ h1) ?_
  refine emits_cons (emits_octetString s _ h2) ?_
  refine emits_cons (emits_octetString s _ h3) ?_
  refine emits_cons (emits_octetString s _ h4) ?_
  exact emits_one (emits_octetString s _ h5)

theorem reads_getListRequest (m : GetListRequest) (h : GetListRequestOk true m) : Reads getListRequestParse (some m) (enc (getListRequestTerm m)) m.blocks := by
  obtain ⟨h1, h2, h3, h4, h5⟩ := h
  unfold getListRequestParse GetListRequest.blocks
  simp only [Nat.add_assoc]
  refine reads_node rfl (by decide) ?_
  refine reads_field (reads_octetString _ h1) ?_
  refine reads_field (reads_octetString _ h2) ?_
  refine reads_field (reads_octetString _ h3) ?_
  refine reads_field (reads_octetString _ h4) ?_
  exact reads_field_end (reads_octetString _ h5) rfl

theorem emits_getListResponse (s : Bool) (m : GetListResponse) (h : GetListResponseOk s m) : Emits (getListResponseWrite (some m)) (cells (getListResponseTerm m)) := by
  obtain ⟨h1, h2, h3, h4, h5, h6, h7⟩ := h
  refine emits_node rfl (by decide) ?_
  refine emits_cons (emits_octetString s _ h1) ?_
  refine emits_cons (emits_octetString s _ h2) ?_
  refine emits_cons (emits_octetString s _ h3) ?_
  refine emits_cons (emits_time s _ h4) ?_
  refine emits_cons (emits_listW s _ h5) ?_
  refine emits_cons (emits_octetString s _ h6) ?_
  exact emits_one (emits_time s _ h7)

theorem reads_getListResponse (m : GetListResponse) (h : GetListResponseOk true m) : Reads getListResponseParse (some m) (enc (getListResponseTerm m)) m.blocks := by
  obtain ⟨h1, h2, h3, h4, h5, h6, h7⟩ := h
  unfold getListResponseParse GetListResponse.blocks
  simp only [Nat.add_assoc]
  refine reads_node rfl (by decide) ?_
  refine reads_field (reads_octetString _ h1) ?_
  refine reads_field (reads_octetString _ h2) ?_
  refine reads_field (reads_octetString _ h3) ?_
  refine reads_field (reads_time _ h4) ?_
  refine reads_field (reads_list _ h5) ?_
  refine reads_field (reads_octetString _ h6) ?_
  exact reads_field_end (reads_time _ h7) rfl

theorem emits_attentionResponse (s : Bool) (m : AttentionResponse) (h : AttentionResponseOk s m) : Emits (attentionResponseWrite (some m)) (cells (attentionResponseTerm m)) := by
  obtain ⟨h1, h2, h3, h4⟩ := h
  refine emits_node rfl (by decide) ?_
  refine emits_cons (emits_octetString s _ h1) ?_
  refine emits_cons (emits_octetString s _ h2) ?_
  refine emits_cons (emits_octetString s _ h3) ?_
  exact emits_one (emits_tree s _ h4)

theorem reads_attentionResponse {depth : Nat} (m : AttentionResponse) (h : AttentionResponseOk true m) (h0 : 0 < depth) (hd : (m.attentionDetails.map treeDepth).getD 0 ≤ depth) : Reads (attentionResponseParse depth) (some m) (enc (attentionResponseTerm m)) m.blocks := by
  obtain ⟨h1, h2, h3, h4⟩ := h
  unfold attentionResponseParse AttentionResponse.blocks
  simp only [Nat.add_assoc]
  refine reads_node rfl (by decide) ?_
  refine reads_field (reads_octetString _ h1) ?_
  refine reads_field (reads_octetString _ h2) ?_
  refine reads_field (reads_octetString _ h3) ?_
  exact reads_field_end (reads_tree _ h4 h0 hd) rfl

theorem emits_getProfilePackRequest (s : Bool) (m : GetProfilePackRequest) (h : GetProfilePackRequestOk s m) :
    Emits (getProfilePackRequestWrite (some m)) (cells (getProfilePackRequestTerm m)) := by
  obtain ⟨h1, h2, h3, h4, h5, h6, h7, h8, h9⟩ := h
  obtain ⟨_, _, _, _, _, _, _, objs, _⟩ := m
  subst h8
  refine emits_node rfl (by decide) ?_
  refine emits_cons (emits_octetString s _ h1) ?_
  refine emits_cons (emits_octetString s _ h2) ?_
  refine emits_cons (emits_octetString s _ h3) ?_
  refine emits_cons (emits_boolean s _ h4) ?_
  refine emits_cons (emits_time s _ h5) ?_
  refine emits_cons (emits_time s _ h6) ?_
  refine emits_cons (emits_path s _ h7) ?_
  simp only [ne_eq, not_true_eq_false, if_false]
  refine emits_cons emits_optionalWrite ?_
  exact emits_one (emits_tree s _ h9)

theorem reads_objects_absent (m : GetProfilePackRequest) : Reads (objectListParse m) (some m) (enc .absent) 0 := by
  intro st rest hd _ _
  obtain ⟨h1, h2, _⟩ := drop_cons_get (show st.data.drop st.cursor = 1 :: rest by simpa [enc, opt] using hd)
  unfold objectListParse
  rw [run_bind, run_optionalIsSkipped h1, h2]
  rfl

theorem reads_getProfilePackRequest {depth : Nat} (m : GetProfilePackRequest) (h : GetProfilePackRequestOk true m) (h0 : 0 < depth)
    (hd : (m.dasDetails.map treeDepth).getD 0 ≤ depth) :
    Reads (getProfilePackRequestParse depth) (some m) (enc (getProfilePackRequestTerm m)) m.blocks := by
  obtain ⟨h1, h2, h3, h4, h5, h6, h7, h8, h9⟩ := h
  obtain ⟨a, b, c, d, e, f, g, objs, k⟩ := m
  subst h8
  unfold getProfilePackRequestParse GetProfilePackRequest.blocks
  simp only [Nat.add_assoc]
  refine reads_node rfl (by decide) ?_
  refine reads_field (reads_octetString _ h1) ?_
  refine reads_field (reads_octetString _ h2) ?_
  refine reads_field (reads_octetString _ h3) ?_
  refine reads_field (reads_boolean _ h4) ?_
  refine reads_field (reads_time _ h5) ?_
  refine reads_field (reads_time _ h6) ?_
  refine reads_field (reads_path _ h7) ?_
  refine reads_bind (bs := enc .absent) (n := 0) (v := some { serverId := a, username := b, password := c, withRawdata := d, beginTime := e, endTime := f, parameterTreePath := g }) ?hp ?hk
  case hp => exact reads_objects_absent _
  case hk =>
    refine reads_field_end (reads_tree _ h9 h0 hd) ?_
    rfl

end Sml
