import Verif.Proofs.GrammarEntries

/-!
# Message bodies
-/

namespace Sml

open Spec Spec.Grammar

theorem parses_openRequest : Parses openRequestParse (must openRequest) := by
  unfold openRequestParse
  refine Parses.congr (parses_alloc <| parses_expectList <|
    parses_fld parses_str fun _ => parses_fld parses_str fun _ => parses_fld parses_str fun _ => parses_fld parses_str fun _ => parses_fld parses_str fun _ => parses_fld parses_str fun _ => parses_fld (parses_u 1) fun r => parses_pure (some r)) fun v i o => ?_
  constructor
  · rintro ⟨m, h, a1, m1, h1, a2, m2, h2, a3, m3, h3, a4, m4, h4, a5, m5, h5, a6, m6, h6, a7, m7, h7, rfl, rfl⟩
    exact ⟨m, h, m1, h1, m2, h2, m3, h3, m4, h4, m5, h5, m6, h6, h7⟩
  · cases v with
    | none => intro h; exact h.elim
    | some v =>
      rintro ⟨m, h, m1, h1, m2, h2, m3, h3, m4, h4, m5, h5, m6, h6, h7⟩
      exact ⟨m, h, v.codepage, m1, h1, v.clientId, m2, h2, v.reqFileId, m3, h3, v.serverId, m4, h4, v.username, m5, h5, v.password, m6, h6, v.smlVersion, o, h7, rfl, rfl⟩

theorem parses_openResponse : Parses openResponseParse (must openResponse) := by
  unfold openResponseParse
  refine Parses.congr (parses_alloc <| parses_expectList <|
    parses_fld parses_str fun _ => parses_fld parses_str fun _ => parses_fld parses_str fun _ => parses_fld parses_str fun _ => parses_fld parses_time fun _ => parses_fld (parses_u 1) fun r => parses_pure (some r)) fun v i o => ?_
  constructor
  · rintro ⟨m, h, a1, m1, h1, a2, m2, h2, a3, m3, h3, a4, m4, h4, a5, m5, h5, a6, m6, h6, rfl, rfl⟩
    exact ⟨m, h, m1, h1, m2, h2, m3, h3, m4, h4, m5, h5, h6⟩
  · cases v with
    | none => intro h; exact h.elim
    | some v =>
      rintro ⟨m, h, m1, h1, m2, h2, m3, h3, m4, h4, m5, h5, h6⟩
      exact ⟨m, h, v.codepage, m1, h1, v.clientId, m2, h2, v.reqFileId, m3, h3, v.serverId, m4, h4, v.refTime, m5, h5, v.smlVersion, o, h6, rfl, rfl⟩

theorem parses_closeRequest : Parses closeRequestParse (must closeRequest) := by
  unfold closeRequestParse
  refine Parses.congr (parses_alloc <| parses_expectList <|
    parses_fld parses_str fun r => parses_pure (some r)) fun v i o => ?_
  constructor
  · rintro ⟨m, h, a1, m1, h1, rfl, rfl⟩
    exact ⟨m, h, h1⟩
  · cases v with
    | none => intro h; exact h.elim
    | some v =>
      rintro ⟨m, h, h1⟩
      exact ⟨m, h, v.globalSignature, o, h1, rfl, rfl⟩

theorem parses_closeResponse : Parses closeResponseParse (must closeResponse) := by
  unfold closeResponseParse
  refine Parses.congr (parses_alloc <| parses_expectList <|
    parses_fld parses_str fun r => parses_pure (some r)) fun v i o => ?_
  constructor
  · rintro ⟨m, h, a1, m1, h1, rfl, rfl⟩
    exact ⟨m, h, h1⟩
  · cases v with
    | none => intro h; exact h.elim
    | some v =>
      rintro ⟨m, h, h1⟩
      exact ⟨m, h, v.globalSignature, o, h1, rfl, rfl⟩

theorem parses_valueEntry : Parses valueEntryParse valueEntry := by
  unfold valueEntryParse
  refine Parses.congr (parses_alloc <| parses_expectList <|
    parses_fld parses_value fun _ => parses_fld parses_str fun r => parses_pure (some r)) fun v i o => ?_
  constructor
  · rintro ⟨m, h, a1, m1, h1, a2, m2, h2, rfl, rfl⟩
    exact ⟨m, h, m1, h1, h2⟩
  · cases v with
    | none => intro h; exact h.elim
    | some v =>
      rintro ⟨m, h, m1, h1, h2⟩
      exact ⟨m, h, v.value, m1, h1, v.valueSignature, o, h2, rfl, rfl⟩

theorem parses_profObjHeaderEntry : Parses profObjHeaderEntryParse profObjHeaderEntry := by
  unfold profObjHeaderEntryParse
  refine Parses.congr (parses_alloc <| parses_expectList <|
    parses_fld parses_str fun _ => parses_fld (parses_u 1) fun _ => parses_fld (parses_i 1) fun r => parses_pure (some r)) fun v i o => ?_
  constructor
  · rintro ⟨m, h, a1, m1, h1, a2, m2, h2, a3, m3, h3, rfl, rfl⟩
    exact ⟨m, h, m1, h1, m2, h2, h3⟩
  · cases v with
    | none => intro h; exact h.elim
    | some v =>
      rintro ⟨m, h, m1, h1, m2, h2, h3⟩
      exact ⟨m, h, v.objName, m1, h1, v.unit, m2, h2, v.scaler, o, h3, rfl, rfl⟩

theorem parses_profObjPeriodEntry : Parses profObjPeriodEntryParse profObjPeriodEntry := by
  unfold profObjPeriodEntryParse
  refine Parses.congr (parses_alloc <| parses_expectList <|
    parses_fld parses_time fun _ => parses_fld (parses_u 8) fun _ => parses_fld (parses_sequence parses_valueEntry _) fun _ => parses_fld parses_str fun r => parses_pure (some r)) fun v i o => ?_
  constructor
  · rintro ⟨m, h, a1, m1, h1, a2, m2, h2, a3, m3, h3, a4, m4, h4, rfl, rfl⟩
    exact ⟨m, h, m1, h1, m2, h2, m3, h3, h4⟩
  · cases v with
    | none => intro h; exact h.elim
    | some v =>
      rintro ⟨m, h, m1, h1, m2, h2, m3, h3, h4⟩
      exact ⟨m, h, v.valTime, m1, h1, v.status, m2, h2, v.valueList, m3, h3, v.periodSignature, o, h4, rfl, rfl⟩

theorem parses_getProfilePackResponse : Parses getProfilePackResponseParse (must getProfilePackResponse) := by
  unfold getProfilePackResponseParse
  refine Parses.congr (parses_alloc <| parses_expectList <|
    parses_fld parses_str fun _ => parses_fld parses_time fun _ => parses_fld (parses_u 4) fun _ => parses_fld parses_path fun _ => parses_fld (parses_sequence parses_profObjHeaderEntry _) fun _ => parses_fld (parses_sequence parses_profObjPeriodEntry _) fun _ => parses_fld parses_str fun _ => parses_fld parses_str fun r => parses_pure (some r)) fun v i o => ?_
  constructor
  · rintro ⟨m, h, a1, m1, h1, a2, m2, h2, a3, m3, h3, a4, m4, h4, a5, m5, h5, a6, m6, h6, a7, m7, h7, a8, m8, h8, rfl, rfl⟩
    exact ⟨m, h, m1, h1, m2, h2, m3, h3, m4, h4, m5, h5, m6, h6, m7, h7, h8⟩
  · cases v with
    | none => intro h; exact h.elim
    | some v =>
      rintro ⟨m, h, m1, h1, m2, h2, m3, h3, m4, h4, m5, h5, m6, h6, m7, h7, h8⟩
      exact ⟨m, h, v.serverId, m1, h1, v.actTime, m2, h2, v.regPeriod, m3, h3, v.parameterTreePath, m4, h4, v.headerList, m5, h5, v.periodList, m6, h6, v.rawdata, m7, h7, v.profileSignature, o, h8, rfl, rfl⟩

theorem parses_getProfileListResponse : Parses getProfileListResponseParse (must getProfileListResponse) := by
  unfold getProfileListResponseParse
  refine Parses.congr (parses_alloc <| parses_expectList <|
    parses_fld parses_str fun _ => parses_fld parses_time fun _ => parses_fld (parses_u 4) fun _ => parses_fld parses_path fun _ => parses_fld parses_time fun _ => parses_fld (parses_u 8) fun _ => parses_fld (parses_sequence parses_periodEntry _) fun _ => parses_fld parses_str fun _ => parses_fld parses_str fun r => parses_pure (some r)) fun v i o => ?_
  constructor
  · rintro ⟨m, h, a1, m1, h1, a2, m2, h2, a3, m3, h3, a4, m4, h4, a5, m5, h5, a6, m6, h6, a7, m7, h7, a8, m8, h8, a9, m9, h9, rfl, rfl⟩
    exact ⟨m, h, m1, h1, m2, h2, m3, h3, m4, h4, m5, h5, m6, h6, m7, h7, m8, h8, h9⟩
  · cases v with
    | none => intro h; exact h.elim
    | some v =>
      rintro ⟨m, h, m1, h1, m2, h2, m3, h3, m4, h4, m5, h5, m6, h6, m7, h7, m8, h8, h9⟩
      exact ⟨m, h, v.serverId, m1, h1, v.actTime, m2, h2, v.regPeriod, m3, h3, v.parameterTreePath, m4, h4, v.valTime, m5, h5, v.status, m6, h6, v.periodList, m7, h7, v.rawdata, m8, h8, v.periodSignature, o, h9, rfl, rfl⟩

theorem parses_getProcParameterRequest : Parses getProcParameterRequestParse (must getProcParameterRequest) := by
  unfold getProcParameterRequestParse
  refine Parses.congr (parses_alloc <| parses_expectList <|
    parses_fld parses_str fun _ => parses_fld parses_str fun _ => parses_fld parses_str fun _ => parses_fld parses_path fun _ => parses_fld parses_str fun r => parses_pure (some r)) fun v i o => ?_
  constructor
  · rintro ⟨m, h, a1, m1, h1, a2, m2, h2, a3, m3, h3, a4, m4, h4, a5, m5, h5, rfl, rfl⟩
    exact ⟨m, h, m1, h1, m2, h2, m3, h3, m4, h4, h5⟩
  · cases v with
    | none => intro h; exact h.elim
    | some v =>
      rintro ⟨m, h, m1, h1, m2, h2, m3, h3, m4, h4, h5⟩
      exact ⟨m, h, v.serverId, m1, h1, v.username, m2, h2, v.password, m3, h3, v.parameterTreePath, m4, h4, v.attr, o, h5, rfl, rfl⟩

theorem parses_getProcParameterResponse (depth : Nat) : Parses (getProcParameterResponseParse depth) (must (getProcParameterResponse depth)) := by
  unfold getProcParameterResponseParse
  refine Parses.congr (parses_alloc <| parses_expectList <|
    parses_fld parses_str fun _ => parses_fld parses_path fun _ => parses_fld (parses_tree depth) fun r => parses_pure (some r)) fun v i o => ?_
  constructor
  · rintro ⟨m, h, a1, m1, h1, a2, m2, h2, a3, m3, h3, rfl, rfl⟩
    exact ⟨m, h, m1, h1, m2, h2, h3⟩
  · cases v with
    | none => intro h; exact h.elim
    | some v =>
      rintro ⟨m, h, m1, h1, m2, h2, h3⟩
      exact ⟨m, h, v.serverId, m1, h1, v.parameterTreePath, m2, h2, v.parameterTree, o, h3, rfl, rfl⟩

theorem parses_setProcParameterRequest (depth : Nat) : Parses (setProcParameterRequestParse depth) (must (setProcParameterRequest depth)) := by
  unfold setProcParameterRequestParse
  refine Parses.congr (parses_alloc <| parses_expectList <|
    parses_fld parses_str fun _ => parses_fld parses_str fun _ => parses_fld parses_str fun _ => parses_fld parses_path fun _ => parses_fld (parses_tree depth) fun r => parses_pure (some r)) fun v i o => ?_
  constructor
  · rintro ⟨m, h, a1, m1, h1, a2, m2, h2, a3, m3, h3, a4, m4, h4, a5, m5, h5, rfl, rfl⟩
    exact ⟨m, h, m1, h1, m2, h2, m3, h3, m4, h4, h5⟩
  · cases v with
    | none => intro h; exact h.elim
    | some v =>
      rintro ⟨m, h, m1, h1, m2, h2, m3, h3, m4, h4, h5⟩
      exact ⟨m, h, v.serverId, m1, h1, v.username, m2, h2, v.password, m3, h3, v.parameterTreePath, m4, h4, v.parameterTree, o, h5, rfl, rfl⟩

theorem parses_getListRequest : Parses getListRequestParse (must getListRequest) := by
  unfold getListRequestParse
  refine Parses.congr (parses_alloc <| parses_expectList <|
    parses_fld parses_str fun _ => parses_fld parses_str fun _ => parses_fld parses_str fun _ => parses_fld parses_str fun _ => parses_fld parses_str fun r => parses_pure (some r)) fun v i o => ?_
  constructor
  · rintro ⟨m, h, a1, m1, h1, a2, m2, h2, a3, m3, h3, a4, m4, h4, a5, m5, h5, rfl, rfl⟩
    exact ⟨m, h, m1, h1, m2, h2, m3, h3, m4, h4, h5⟩
  · cases v with
    | none => intro h; exact h.elim
    | some v =>
      rintro ⟨m, h, m1, h1, m2, h2, m3, h3, m4, h4, h5⟩
      exact ⟨m, h, v.clientId, m1, h1, v.serverId, m2, h2, v.username, m3, h3, v.password, m4, h4, v.listName, o, h5, rfl, rfl⟩

theorem parses_getListResponse : Parses getListResponseParse (must getListResponse) := by
  unfold getListResponseParse
  refine Parses.congr (parses_alloc <| parses_expectList <|
    parses_fld parses_str fun _ => parses_fld parses_str fun _ => parses_fld parses_str fun _ => parses_fld parses_time fun _ => parses_fld parses_list fun _ => parses_fld parses_str fun _ => parses_fld parses_time fun r => parses_pure (some r)) fun v i o => ?_
  constructor
  · rintro ⟨m, h, a1, m1, h1, a2, m2, h2, a3, m3, h3, a4, m4, h4, a5, m5, h5, a6, m6, h6, a7, m7, h7, rfl, rfl⟩
    exact ⟨m, h, m1, h1, m2, h2, m3, h3, m4, h4, m5, h5, m6, h6, h7⟩
  · cases v with
    | none => intro h; exact h.elim
    | some v =>
      rintro ⟨m, h, m1, h1, m2, h2, m3, h3, m4, h4, m5, h5, m6, h6, h7⟩
      exact ⟨m, h, v.clientId, m1, h1, v.serverId, m2, h2, v.listName, m3, h3, v.actSensorTime, m4, h4, v.valList, m5, h5, v.listSignature, m6, h6, v.actGatewayTime, o, h7, rfl, rfl⟩

theorem parses_attentionResponse (depth : Nat) : Parses (attentionResponseParse depth) (must (attentionResponse depth)) := by
  unfold attentionResponseParse
  refine Parses.congr (parses_alloc <| parses_expectList <|
    parses_fld parses_str fun _ => parses_fld parses_str fun _ => parses_fld parses_str fun _ => parses_fld (parses_tree depth) fun r => parses_pure (some r)) fun v i o => ?_
  constructor
  · rintro ⟨m, h, a1, m1, h1, a2, m2, h2, a3, m3, h3, a4, m4, h4, rfl, rfl⟩
    exact ⟨m, h, m1, h1, m2, h2, m3, h3, h4⟩
  · cases v with
    | none => intro h; exact h.elim
    | some v =>
      rintro ⟨m, h, m1, h1, m2, h2, m3, h3, h4⟩
      exact ⟨m, h, v.serverId, m1, h1, v.attentionNumber, m2, h2, v.attentionMessage, m3, h3, v.attentionDetails, o, h4, rfl, rfl⟩

theorem parses_objectListLoop (n : Nat) : ∀ m, Parses (objectListLoop n m) (fun r i o => ∃ es, es.length = n ∧
    r = some { m with objectList := m.objectList ++ es } ∧ times str es i o) := by
  induction n with
  | zero =>
    intro m
    unfold objectListLoop
    refine (parses_pure (some m)).congr fun v i o => ?_
    constructor
    · rintro ⟨rfl, rfl⟩; exact ⟨[], rfl, by simp, rfl⟩
    · rintro ⟨es, h1, rfl, h2⟩
      cases es with
      | nil => exact ⟨by simp, h2⟩
      | cons _ _ => cases h1
  | succ n ih =>
    intro m
    unfold objectListLoop
    refine Parses.congr (parses_alloc <| parses_bind parses_str fun e => parses_ifError (by locs []) (ih _)) fun v i o => ?_
    constructor
    · rintro ⟨e, m, h1, es, rfl, rfl, h2⟩
      exact ⟨e :: es, rfl, by simp, m, h1, h2⟩
    · rintro ⟨es, h1, rfl, h2⟩
      cases es with
      | nil => cases h1
      | cons e es =>
        obtain ⟨m, h3, h4⟩ := h2
        exact ⟨e, m, h3, es, by simpa using h1, by simp, h4⟩

theorem parses_objectList (m : GetProfilePackRequest) :
    Parses (objectListParse m) (fun r i o => ∃ os, r = some { m with objectList := m.objectList ++ os } ∧ objects os i o) := by
  unfold objectListParse
  refine Parses.congr (parses_bind parses_skipped fun b => parses_ite (fun _ => parses_pure _) fun _ =>
    parses_next_list _ fun l => parses_objectListLoop l.toNat m) fun r i o => ?_
  constructor
  · rintro ⟨b, m, ⟨rfl, h1⟩ | ⟨rfl, rfl, h1, h2⟩, ⟨h3, rfl, rfl⟩ | ⟨h3, n, m', h4, es, h5, rfl, h6⟩⟩
    · exact ⟨[], by simp, Or.inl ⟨rfl, h1⟩⟩
    · exact absurd rfl h3
    · cases h3
    · exact ⟨es, rfl, Or.inr ⟨n, h5, m', h4, h6⟩⟩
  · rintro ⟨os, rfl, ⟨rfl, h⟩ | ⟨n, h1, m, h2, h3⟩⟩
    · exact ⟨true, o, Or.inl ⟨rfl, h⟩, Or.inl ⟨rfl, by simp, rfl⟩⟩
    · exact ⟨false, i, Or.inr ⟨rfl, rfl, nextType_ne_nil (header_next h2), header_not_absent h2 (by decide)⟩,
        Or.inr ⟨by simp, n, m, h2, os, h1, rfl, h3⟩⟩

theorem parses_getProfilePackRequest (depth : Nat) : Parses (getProfilePackRequestParse depth) (must (getProfilePackRequest depth)) := by
  unfold getProfilePackRequestParse
  refine Parses.congr (parses_alloc <| parses_expectList <| parses_fld parses_str fun _ => parses_fld parses_str fun _ => parses_fld parses_str fun _ =>
    parses_fld parses_boolean fun _ => parses_fld parses_time fun _ => parses_fld parses_time fun _ => parses_fld parses_path fun m =>
    parses_bind (parses_objectList m) (g' := fun x r i o => (x = none ∧ r = none ∧ i = o) ∨ ∃ m, x = some m ∧ ∃ d, tree depth d i o ∧ r = some { m with dasDetails := d })
      fun x => ?_) fun r i o => ?_
  · cases x with
    | none => exact (parses_pure none).congr fun v i o => by simp
    | some m =>
      refine Parses.congr (parses_fld (parses_tree depth) fun r => parses_pure (some r)) fun v i o => ?_
      constructor
      · rintro ⟨d, m', h1, rfl, rfl⟩
        exact Or.inr ⟨m, rfl, d, h1, rfl⟩
      · rintro (⟨h, _⟩ | ⟨_, hx, d, h1, rfl⟩)
        · cases h
        · cases hx; exact ⟨d, o, h1, rfl, rfl⟩
  constructor
  · rintro ⟨m, h, a1, m1, h1, a2, m2, h2, a3, m3, h3, a4, m4, h4, a5, m5, h5, a6, m6, h6, a7, m7, h7, x, m8, ⟨os, rfl, h8⟩, ⟨h9, _⟩ | ⟨_, hx, d, h9, rfl⟩⟩
    · cases h9
    · cases hx
      exact ⟨m, h, m1, h1, m2, h2, m3, h3, m4, h4, m5, h5, m6, h6, m7, h7, m8, h8, h9⟩
  · cases r with
    | none => intro h; exact h.elim
    | some v =>
      rintro ⟨m, h, m1, h1, m2, h2, m3, h3, m4, h4, m5, h5, m6, h6, m7, h7, m8, h8, h9⟩
      exact ⟨m, h, v.serverId, m1, h1, v.username, m2, h2, v.password, m3, h3, v.withRawdata, m4, h4, v.beginTime, m5, h5, v.endTime, m6, h6,
        v.parameterTreePath, m7, h7, _, m8, ⟨v.objectList, rfl, h8⟩, Or.inr ⟨_, rfl, v.dasDetails, h9, rfl⟩⟩

/-! ## The body of a message -/

theorem parses_bodyIf {p : M (Option α)} {g : Option α → Rel} (hp : Parses p g) (f : Option α → BodyData) :
    Parses (do pure (f (← p))) (fun d i o => ∃ x, d = f x ∧ g x i o) := by
  refine Parses.congr (parses_bind hp fun x => parses_pure (f x)) fun v i o => ?_
  constructor
  · rintro ⟨x, m, h, rfl, rfl⟩; exact ⟨x, rfl, h⟩
  · rintro ⟨x, rfl, h⟩; exact ⟨x, o, h, rfl, rfl⟩

theorem parses_bodyData (depth tag : Nat) : Parses (bodyDataParse depth tag) (bodyData depth tag) := by
  unfold bodyDataParse
  refine Parses.congr (parses_ite (fun _ => parses_bodyIf parses_openRequest _) fun _ => parses_ite (fun _ => parses_bodyIf parses_openResponse _) fun _ =>
    parses_ite (fun _ => parses_bodyIf parses_closeRequest _) fun _ => parses_ite (fun _ => parses_bodyIf parses_closeResponse _) fun _ =>
    parses_ite (fun _ => parses_bodyIf (parses_getProfilePackRequest depth) _) fun _ => parses_ite (fun _ => parses_bodyIf parses_getProfilePackResponse _) fun _ =>
    parses_ite (fun _ => parses_bodyIf (parses_getProfilePackRequest depth) _) fun _ => parses_ite (fun _ => parses_bodyIf parses_getProfileListResponse _) fun _ =>
    parses_ite (fun _ => parses_bodyIf parses_getProcParameterRequest _) fun _ => parses_ite (fun _ => parses_bodyIf (parses_getProcParameterResponse depth) _) fun _ =>
    parses_ite (fun _ => parses_bodyIf (parses_setProcParameterRequest depth) _) fun _ => parses_ite (fun _ => parses_bodyIf parses_getListRequest _) fun _ =>
    parses_ite (fun _ => parses_bodyIf parses_getListResponse _) fun _ => parses_ite (fun _ => parses_bodyIf (parses_attentionResponse depth) _) fun _ =>
    parses_pure BodyData.null) fun d i o => ?_
  constructor
  · intro h
    rcases h with ⟨ht, x, rfl, h⟩ | ⟨h_openRequest, h⟩
    · exact ⟨ht, h⟩
    rcases h with ⟨ht, x, rfl, h⟩ | ⟨h_openResponse, h⟩
    · exact ⟨ht, h⟩
    rcases h with ⟨ht, x, rfl, h⟩ | ⟨h_closeRequest, h⟩
    · exact ⟨ht, h⟩
    rcases h with ⟨ht, x, rfl, h⟩ | ⟨h_closeResponse, h⟩
    · exact ⟨ht, h⟩
    rcases h with ⟨ht, x, rfl, h⟩ | ⟨h_getProfilePackRequest, h⟩
    · exact ⟨ht, h⟩
    rcases h with ⟨ht, x, rfl, h⟩ | ⟨h_getProfilePackResponse, h⟩
    · exact ⟨ht, h⟩
    rcases h with ⟨ht, x, rfl, h⟩ | ⟨h_getProfileListRequest, h⟩
    · exact ⟨ht, h⟩
    rcases h with ⟨ht, x, rfl, h⟩ | ⟨h_getProfileListResponse, h⟩
    · exact ⟨ht, h⟩
    rcases h with ⟨ht, x, rfl, h⟩ | ⟨h_getProcParameterRequest, h⟩
    · exact ⟨ht, h⟩
    rcases h with ⟨ht, x, rfl, h⟩ | ⟨h_getProcParameterResponse, h⟩
    · exact ⟨ht, h⟩
    rcases h with ⟨ht, x, rfl, h⟩ | ⟨h_setProcParameterRequest, h⟩
    · exact ⟨ht, h⟩
    rcases h with ⟨ht, x, rfl, h⟩ | ⟨h_getListRequest, h⟩
    · exact ⟨ht, h⟩
    rcases h with ⟨ht, x, rfl, h⟩ | ⟨h_getListResponse, h⟩
    · exact ⟨ht, h⟩
    rcases h with ⟨ht, x, rfl, h⟩ | ⟨h_attentionResponse, h⟩
    · exact ⟨ht, h⟩
    obtain ⟨rfl, rfl⟩ := h
    refine ⟨?_, rfl⟩
    simp only [knownTags, List.mem_cons, List.not_mem_nil, or_false, not_or]
    exact ⟨h_openRequest, h_openResponse, h_closeRequest, h_closeResponse, h_getProfilePackRequest, h_getProfilePackResponse, h_getProfileListRequest, h_getProfileListResponse, h_getProcParameterRequest, h_getProcParameterResponse, h_setProcParameterRequest, h_getListRequest, h_getListResponse, h_attentionResponse⟩
  · intro h
    cases d with
    | null =>
      obtain ⟨h, rfl⟩ := h
      simp only [knownTags, List.mem_cons, List.not_mem_nil, or_false, not_or] at h
      obtain ⟨t0, t1, t2, t3, t4, t5, t6, t7, t8, t9, t10, t11, t12, t13⟩ := h
      exact Or.inr ⟨t0, Or.inr ⟨t1, Or.inr ⟨t2, Or.inr ⟨t3, Or.inr ⟨t4, Or.inr ⟨t5, Or.inr ⟨t6, Or.inr ⟨t7, Or.inr ⟨t8, Or.inr ⟨t9, Or.inr ⟨t10, Or.inr ⟨t11, Or.inr ⟨t12, Or.inr ⟨t13, ⟨rfl, rfl⟩⟩⟩⟩⟩⟩⟩⟩⟩⟩⟩⟩⟩⟩⟩
    | openRequest p =>
      obtain ⟨rfl, h⟩ := h
      exact Or.inl ⟨rfl, _, rfl, h⟩
    | openResponse p =>
      obtain ⟨rfl, h⟩ := h
      exact Or.inr ⟨by decide, Or.inl ⟨rfl, _, rfl, h⟩⟩
    | closeRequest p =>
      obtain ⟨rfl, h⟩ := h
      exact Or.inr ⟨by decide, Or.inr ⟨by decide, Or.inl ⟨rfl, _, rfl, h⟩⟩⟩
    | closeResponse p =>
      obtain ⟨rfl, h⟩ := h
      exact Or.inr ⟨by decide, Or.inr ⟨by decide, Or.inr ⟨by decide, Or.inl ⟨rfl, _, rfl, h⟩⟩⟩⟩
    | getProfilePackRequest p =>
      obtain ⟨rfl, h⟩ := h
      exact Or.inr ⟨by decide, Or.inr ⟨by decide, Or.inr ⟨by decide, Or.inr ⟨by decide, Or.inl ⟨rfl, _, rfl, h⟩⟩⟩⟩⟩
    | getProfilePackResponse p =>
      obtain ⟨rfl, h⟩ := h
      exact Or.inr ⟨by decide, Or.inr ⟨by decide, Or.inr ⟨by decide, Or.inr ⟨by decide, Or.inr ⟨by decide, Or.inl ⟨rfl, _, rfl, h⟩⟩⟩⟩⟩⟩
    | getProfileListRequest p =>
      obtain ⟨rfl, h⟩ := h
      exact Or.inr ⟨by decide, Or.inr ⟨by decide, Or.inr ⟨by decide, Or.inr ⟨by decide, Or.inr ⟨by decide, Or.inr ⟨by decide, Or.inl ⟨rfl, _, rfl, h⟩⟩⟩⟩⟩⟩⟩
    | getProfileListResponse p =>
      obtain ⟨rfl, h⟩ := h
      exact Or.inr ⟨by decide, Or.inr ⟨by decide, Or.inr ⟨by decide, Or.inr ⟨by decide, Or.inr ⟨by decide, Or.inr ⟨by decide, Or.inr ⟨by decide, Or.inl ⟨rfl, _, rfl, h⟩⟩⟩⟩⟩⟩⟩⟩
    | getProcParameterRequest p =>
      obtain ⟨rfl, h⟩ := h
      exact Or.inr ⟨by decide, Or.inr ⟨by decide, Or.inr ⟨by decide, Or.inr ⟨by decide, Or.inr ⟨by decide, Or.inr ⟨by decide, Or.inr ⟨by decide, Or.inr ⟨by decide, Or.inl ⟨rfl, _, rfl, h⟩⟩⟩⟩⟩⟩⟩⟩⟩
    | getProcParameterResponse p =>
      obtain ⟨rfl, h⟩ := h
      exact Or.inr ⟨by decide, Or.inr ⟨by decide, Or.inr ⟨by decide, Or.inr ⟨by decide, Or.inr ⟨by decide, Or.inr ⟨by decide, Or.inr ⟨by decide, Or.inr ⟨by decide, Or.inr ⟨by decide, Or.inl ⟨rfl, _, rfl, h⟩⟩⟩⟩⟩⟩⟩⟩⟩⟩
    | setProcParameterRequest p =>
      obtain ⟨rfl, h⟩ := h
      exact Or.inr ⟨by decide, Or.inr ⟨by decide, Or.inr ⟨by decide, Or.inr ⟨by decide, Or.inr ⟨by decide, Or.inr ⟨by decide, Or.inr ⟨by decide, Or.inr ⟨by decide, Or.inr ⟨by decide, Or.inr ⟨by decide, Or.inl ⟨rfl, _, rfl, h⟩⟩⟩⟩⟩⟩⟩⟩⟩⟩⟩
    | getListRequest p =>
      obtain ⟨rfl, h⟩ := h
      exact Or.inr ⟨by decide, Or.inr ⟨by decide, Or.inr ⟨by decide, Or.inr ⟨by decide, Or.inr ⟨by decide, Or.inr ⟨by decide, Or.inr ⟨by decide, Or.inr ⟨by decide, Or.inr ⟨by decide, Or.inr ⟨by decide, Or.inr ⟨by decide, Or.inl ⟨rfl, _, rfl, h⟩⟩⟩⟩⟩⟩⟩⟩⟩⟩⟩⟩
    | getListResponse p =>
      obtain ⟨rfl, h⟩ := h
      exact Or.inr ⟨by decide, Or.inr ⟨by decide, Or.inr ⟨by decide, Or.inr ⟨by decide, Or.inr ⟨by decide, Or.inr ⟨by decide, Or.inr ⟨by decide, Or.inr ⟨by decide, Or.inr ⟨by decide, Or.inr ⟨by decide, Or.inr ⟨by decide, Or.inr ⟨by decide, Or.inl ⟨rfl, _, rfl, h⟩⟩⟩⟩⟩⟩⟩⟩⟩⟩⟩⟩⟩
    | attentionResponse p =>
      obtain ⟨rfl, h⟩ := h
      exact Or.inr ⟨by decide, Or.inr ⟨by decide, Or.inr ⟨by decide, Or.inr ⟨by decide, Or.inr ⟨by decide, Or.inr ⟨by decide, Or.inr ⟨by decide, Or.inr ⟨by decide, Or.inr ⟨by decide, Or.inr ⟨by decide, Or.inr ⟨by decide, Or.inr ⟨by decide, Or.inr ⟨by decide, Or.inl ⟨rfl, _, rfl, h⟩⟩⟩⟩⟩⟩⟩⟩⟩⟩⟩⟩⟩⟩

/-- sml_message.c:165-215: the part of `sml_message_body_parse` after the tag. -/
def bodyTail (depth : Nat) (tag : Option Num) : M (Option MessageBody) :=
  match tag with
  | none => do
    release 1
    pure none
  | some t => do
    let d ← bodyDataParse depth t.val
    pure (some { tag := some t, data := d })

theorem body_eq (depth : Nat) : messageBodyParse depth = (do
    alloc 1
    let st ← getSt
    if st.cursor + 1 > st.data.length then failWith 1
    else expectList 2 1 (field u32Parse (fun tag => tag) (fun _ => 1) (bodyTail depth))) := rfl

theorem parses_tagged (depth : Nat) (t : Num) :
    Parses (bodyTail depth (some t)) (fun r i o => ∃ d, r = some { tag := some t, data := d } ∧ bodyData depth t.val d i o) := by
  refine Parses.congr (parses_bind (parses_bodyData depth t.val) fun d => parses_pure _) fun v i o => ?_
  constructor
  · rintro ⟨d, m, h, rfl, rfl⟩; exact ⟨d, rfl, h⟩
  · rintro ⟨d, rfl, h⟩; exact ⟨d, o, h, rfl, rfl⟩

theorem sound_guard {n : Nat} {p : M (Option α)} {g : Option α → Rel} (hl : Loc (do let st ← getSt; if st.cursor + 1 > st.data.length then failWith n else p)) (hp : Sound p g) :
    Sound (do let st ← getSt; if st.cursor + 1 > st.data.length then failWith n else p) g := by
  refine ⟨hl, fun st s v hc h he => ?_⟩
  rw [run_bind, run_getSt, Res.andThen_ok, run_ite] at h
  split at h
  · have := failWith_error h
    rw [this] at he; cases he
  · exact hp.sound st s v hc h he

theorem parses_body (depth : Nat) : Parses (messageBodyParse depth) (body depth) := by
  refine ⟨loc_messageBody depth, ?_, ?_⟩
  · have : Sound (messageBodyParse depth) (body depth) := by
      rw [body_eq]
      have hl : ∀ tag, Loc (bodyTail depth tag) := by
        intro tag
        cases tag with
        | none => exact loc_bind (loc_release _) fun _ => loc_pure _
        | some t => exact (parses_tagged depth t).loc
      have hx : Sound (expectList 2 1 (field u32Parse (fun tag => tag) (fun _ => 1) (bodyTail depth))) (body depth) := by
        refine Sound.mono (sound_expectList <|
          sound_field (g' := fun tag r i o => (tag = none ∧ r = none ∧ i = o) ∨ ∃ t d, tag = some t ∧ r = some { tag := tag, data := d } ∧ bodyData depth t.val d i o)
            (parses_u 4).toSound (fun tag => ?_) hl) ?_
        · cases tag with
          | none => exact (sound_release (sound_pure none)).mono fun v i o h => Or.inl ⟨rfl, h⟩
          | some t =>
            refine (parses_tagged depth t).toSound.mono fun v i o h => Or.inr ?_
            obtain ⟨d, rfl, h⟩ := h
            exact ⟨t, d, rfl, rfl, h⟩
        · rintro r i o ⟨m1, h1, tag, m2, h2, ⟨rfl, rfl, rfl⟩ | ⟨t, d, rfl, rfl, h3⟩⟩
          · exact ⟨m1, h1, h2⟩
          · exact ⟨t, rfl, m1, h1, m2, h2, h3⟩
      refine Sound.mono (sound_bind (sound_alloc 1) fun _ => sound_guard (loc_guard (by omega) hx.loc) hx) ?_
      rintro r i o ⟨_, _, rfl, h⟩
      exact h
    exact this.sound
  · intro st v o he hc h
    rw [body_eq, run_bind, run_alloc]
    run
    have start : ∀ {m}, header 7 2 st.rest m → ¬ st.cursor + 1 > st.data.length := by
      intro m h1
      obtain ⟨hlt, _⟩ := header_run h1
      omega
    cases v with
    | none =>
      obtain ⟨m, h1, h2⟩ := h
      rw [if_neg (start h1)]
      obtain ⟨s, h3, h4, h5, h6, _⟩ := tagged_run (st := { st with live := st.live + 1 }) (tag := none) (size := 4) (own := 1)
        (set := fun tag => tag) (freed := fun _ => 1) (k := bodyTail depth) he h1 h2
      refine ⟨{ s with live := s.live - 1 }, ?_, h4, h5, ?_⟩
      · refine h3.trans ?_
        simp only [numberFreed] at h6
        simp only [bodyTail]
        rw [run_bind, run_release (by omega)]
        rfl
      · simp only at h6 ⊢; omega
    | some v =>
      obtain ⟨t, h0, m, h1, m2, h2, h3⟩ := h
      rw [if_neg (start h1)]
      obtain ⟨s, h4, h5, h6, h7, h8⟩ := tagged_run (st := { st with live := st.live + 1 }) (tag := some t) (size := 4) (own := 1)
        (set := fun tag => tag) (freed := fun _ => 1) (k := bodyTail depth) he h1 h2
      rw [← h6] at h3
      obtain ⟨s', g1, g2, g3, g4⟩ := (parses_tagged depth t).complete s (some { tag := some t, data := v.data }) o h5 h8 ⟨v.data, rfl, h3⟩
      refine ⟨s', h4.trans ?_, g2, g3, by simp only at h7; omega⟩
      obtain ⟨tg, d⟩ := v
      simp only at h0
      subst h0
      exact g1

end Sml
