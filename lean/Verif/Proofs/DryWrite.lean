import Verif.Proofs.HeapUse

/-! # Writing neither allocates nor depends on the number of allocated blocks, except for the checksum -/

namespace Sml

theorem dry_numberWrite (v : Option Num) (type size : Nat) : Dry (numberWrite v type size) := by
  cases v with
  | none => exact dry_optionalWrite
  | some v =>
    refine (dry_setTypeAndLength _ _).bind fun _ => Dry.ite dry_undef (Dry.ite (dry_putBytes _) dry_undef)

theorem dry_octetStringWrite (v : Option OctetString) : Dry (octetStringWrite v) := by
  cases v with
  | none => exact dry_optionalWrite
  | some v => exact (dry_setTypeAndLength _ _).bind fun _ => dry_putBytes _

theorem dry_booleanWrite (v : Option UInt8) : Dry (booleanWrite v) := by
  cases v with
  | none => exact dry_optionalWrite
  | some v =>
    refine (dry_setTypeAndLength _ _).bind fun _ => ?_
    exact Dry.ite ((dry_setByte _).bind fun _ => dry_advance) ((dry_setByte _).bind fun _ => dry_advance)

theorem dry_valueWrite (v : Option Value) : Dry (valueWrite v) := by
  cases v with
  | none => exact dry_optionalWrite
  | some v =>
    rw [valueWrite]
    refine Dry.ite ?_ (Dry.ite ?_ (Dry.ite ?_ (Dry.ret _)))
    · cases v.data <;> first | exact dry_octetStringWrite _ | exact dry_undef
    · cases v.data <;> first | exact dry_booleanWrite _ | exact dry_undef
    · cases v.data with
      | bytes p => exact Dry.ite (dry_numberWrite _ _ _) dry_undef
      | boolean p => exact Dry.ite (dry_numberWrite _ _ _) dry_undef
      | num p => exact dry_numberWrite _ _ _

theorem dry_statusWrite (v : Option Status) : Dry (statusWrite v) := by
  cases v with
  | none => exact dry_optionalWrite
  | some v => exact dry_numberWrite _ _ _

theorem dry_timeWrite (v : Option Time) : Dry (timeWrite v) := by
  cases v with
  | none => exact dry_optionalWrite
  | some v =>
    exact (dry_setTypeAndLength _ _).bind fun _ => (dry_numberWrite _ _ _).bind fun _ => dry_numberWrite _ _ _

theorem dry_sequenceWriteLoop {w : Option α → M Unit} (hw : ∀ v, Dry (w v)) : ∀ es, Dry (sequenceWriteLoop w es)
  | [] => Dry.ret _
  | e :: es => (hw e).bind fun _ => dry_sequenceWriteLoop hw es

theorem dry_sequenceWrite {w : Option α → M Unit} (hw : ∀ v, Dry (w v)) (v : Option (Sequence α)) : Dry (sequenceWrite w v) := by
  cases v with
  | none => exact dry_optionalWrite
  | some v => exact (dry_setTypeAndLength _ _).bind fun _ => dry_sequenceWriteLoop hw _

/-- Goes through a write function step by step. -/
macro "dry_steps" : tactic => `(tactic| repeat' (first
  | exact dry_octetStringWrite _ | exact dry_numberWrite _ _ _ | exact dry_timeWrite _ | exact dry_statusWrite _
  | exact dry_valueWrite _ | exact dry_booleanWrite _ | exact dry_setTypeAndLength _ _ | exact dry_optionalWrite | exact dry_undef
  | exact Dry.ret _ | assumption | refine Dry.bind ?_ fun _ => ?_ | refine Dry.ite ?_ ?_))

theorem dry_listEntryWrite (e : ListEntry) : Dry (listEntryWrite e) := by
  rw [listEntryWrite]
  dry_steps

theorem dry_listWriteLoop : ∀ es, Dry (listWriteLoop es)
  | [] => Dry.ret _
  | e :: es => (dry_listEntryWrite e).bind fun _ => dry_listWriteLoop es

theorem dry_listWrite (es : List ListEntry) : Dry (listWrite es) := by
  rw [listWrite]
  exact Dry.ite dry_optionalWrite ((dry_setTypeAndLength _ _).bind fun _ => dry_listWriteLoop es)

theorem dry_treePathWriteLoop : ∀ es, Dry (treePathWriteLoop es)
  | [] => Dry.ret _
  | e :: es => (dry_octetStringWrite e).bind fun _ => dry_treePathWriteLoop es

theorem dry_treePathWrite (v : Option TreePath) : Dry (treePathWrite v) := by
  cases v with
  | none => exact dry_optionalWrite
  | some v => exact Dry.ite ((dry_setTypeAndLength _ _).bind fun _ => dry_treePathWriteLoop _) (Dry.ret _)

theorem dry_periodEntryWrite (v : Option PeriodEntry) : Dry (periodEntryWrite v) := by
  cases v with
  | none => exact dry_optionalWrite
  | some v => rw [periodEntryWrite]; dry_steps

theorem dry_tupelEntryWrite (v : Option TupelEntry) : Dry (tupelEntryWrite v) := by
  cases v with
  | none => exact dry_optionalWrite
  | some v => rw [tupelEntryWrite]; dry_steps

theorem dry_procParValueWrite (v : Option ProcParValue) : Dry (procParValueWrite v) := by
  cases v with
  | none => exact dry_optionalWrite
  | some v =>
    rw [procParValueWrite]
    refine (dry_setTypeAndLength _ _).bind fun _ => (dry_numberWrite _ _ _).bind fun _ => ?_
    cases v.tag with
    | none => exact dry_undef
    | some t =>
      dsimp only
      split <;> first
        | exact dry_valueWrite _ | exact dry_periodEntryWrite _ | exact dry_tupelEntryWrite _ | exact dry_timeWrite _
        | exact dry_optionalWrite | exact Dry.ite dry_undef (Dry.ret _)

mutual
theorem dry_treeWrite1 : ∀ t, Dry (treeWrite1 t)
  | .mk n v [] => by
    rw [treeWrite1]
    exact (dry_setTypeAndLength _ _).bind fun _ => (dry_octetStringWrite _).bind fun _ => (dry_procParValueWrite _).bind
      fun _ => dry_optionalWrite
  | .mk n v (c :: cs) => by
    rw [treeWrite1]
    exact (dry_setTypeAndLength _ _).bind fun _ => (dry_octetStringWrite _).bind fun _ => (dry_procParValueWrite _).bind
      fun _ => (dry_setTypeAndLength _ _).bind fun _ => (dry_treeWrite1 c).bind fun _ => dry_treeWriteList cs
theorem dry_treeWriteList : ∀ ts, Dry (treeWriteList ts)
  | [] => by rw [treeWriteList]; exact Dry.ret _
  | t :: ts => by
    rw [treeWriteList]
    exact (dry_treeWrite1 t).bind fun _ => dry_treeWriteList ts
end

theorem dry_treeWrite (v : Option Tree) : Dry (treeWrite v) := by
  cases v with
  | none => exact dry_optionalWrite
  | some v => exact dry_treeWrite1 v

theorem dry_objectListWriteLoop : ∀ es, Dry (objectListWriteLoop es)
  | [] => Dry.ret _
  | [_] => Dry.ret _
  | e :: e' :: es => by
    rw [objectListWriteLoop]
    · exact (dry_octetStringWrite e).bind fun _ => dry_objectListWriteLoop (e' :: es)
    · simp

/-- Goes through the write function of a body. -/
macro "dry_body" w:ident : tactic => `(tactic| (
  intro v
  cases v with
  | none => exact dry_undef
  | some m =>
    unfold $w
    dsimp only
    repeat' (first
    | exact dry_octetStringWrite _ | exact dry_numberWrite _ _ _ | exact dry_timeWrite _ | exact dry_statusWrite _
    | exact dry_valueWrite _ | exact dry_booleanWrite _ | exact dry_setTypeAndLength _ _ | exact dry_optionalWrite
    | exact dry_treePathWrite _ | exact dry_treeWrite _ | exact dry_listWrite _ | exact dry_objectListWriteLoop _
    | exact dry_sequenceWrite (by assumption) _ | refine Dry.bind ?_ fun _ => ?_ | refine Dry.ite ?_ ?_)))

theorem dry_openRequestWrite : ∀ v, Dry (openRequestWrite v) := by dry_body openRequestWrite
theorem dry_openResponseWrite : ∀ v, Dry (openResponseWrite v) := by dry_body openResponseWrite
theorem dry_closeRequestWrite : ∀ v, Dry (closeRequestWrite v) := by dry_body closeRequestWrite
theorem dry_closeResponseWrite : ∀ v, Dry (closeResponseWrite v) := by dry_body closeResponseWrite
theorem dry_valueEntryWrite : ∀ v, Dry (valueEntryWrite v) := by dry_body valueEntryWrite
theorem dry_profObjHeaderEntryWrite : ∀ v, Dry (profObjHeaderEntryWrite v) := by dry_body profObjHeaderEntryWrite
theorem dry_profObjPeriodEntryWrite : ∀ v, Dry (profObjPeriodEntryWrite v) := by
  have := dry_valueEntryWrite
  dry_body profObjPeriodEntryWrite
theorem dry_getProfilePackResponseWrite : ∀ v, Dry (getProfilePackResponseWrite v) := by
  have := dry_profObjHeaderEntryWrite
  have := dry_profObjPeriodEntryWrite
  dry_body getProfilePackResponseWrite
theorem dry_getProfileListResponseWrite : ∀ v, Dry (getProfileListResponseWrite v) := by
  have := dry_periodEntryWrite
  dry_body getProfileListResponseWrite
theorem dry_getProcParameterRequestWrite : ∀ v, Dry (getProcParameterRequestWrite v) := by dry_body getProcParameterRequestWrite
theorem dry_getProcParameterResponseWrite : ∀ v, Dry (getProcParameterResponseWrite v) := by dry_body getProcParameterResponseWrite
theorem dry_setProcParameterRequestWrite : ∀ v, Dry (setProcParameterRequestWrite v) := by dry_body setProcParameterRequestWrite
theorem dry_getListRequestWrite : ∀ v, Dry (getListRequestWrite v) := by dry_body getListRequestWrite
theorem dry_getListResponseWrite : ∀ v, Dry (getListResponseWrite v) := by dry_body getListResponseWrite
theorem dry_attentionResponseWrite : ∀ v, Dry (attentionResponseWrite v) := by dry_body attentionResponseWrite
theorem dry_getProfilePackRequestWrite : ∀ v, Dry (getProfilePackRequestWrite v) := by dry_body getProfilePackRequestWrite

theorem dry_bodyDataWrite (t : Nat) (d : BodyData) : Dry (bodyDataWrite t d) := by
  delta bodyDataWrite
  cases d <;> (
    dsimp only
    repeat' (first
      | exact dry_undef | exact Dry.ret _ | exact dry_openRequestWrite _ | exact dry_openResponseWrite _
      | exact dry_closeRequestWrite _ | exact dry_closeResponseWrite _ | exact dry_getProfilePackRequestWrite _
      | exact dry_getProfilePackResponseWrite _ | exact dry_getProfileListResponseWrite _
      | exact dry_getProcParameterRequestWrite _ | exact dry_getProcParameterResponseWrite _
      | exact dry_setProcParameterRequestWrite _ | exact dry_getListRequestWrite _ | exact dry_getListResponseWrite _
      | exact dry_attentionResponseWrite _ | refine Dry.ite ?_ ?_))

theorem dry_messageBodyWrite (v : Option MessageBody) : Dry (messageBodyWrite v) := by
  rw [messageBodyWrite.eq_def]
  refine (dry_setTypeAndLength _ _).bind fun _ => ?_
  cases v with
  | none => exact dry_undef
  | some b =>
    refine (dry_numberWrite _ _ _).bind fun _ => ?_
    cases b.tag with
    | none => exact dry_undef
    | some t => exact dry_bodyDataWrite _ _

/-- Writing a message allocates one block. -/
theorem messageWrite_live (h : messageWrite m st = .ok m' st') :
    st'.live = st.live + 1 ∧ ∃ c, m' = { m with crc := some c } := by
  rw [messageWrite] at h
  obtain ⟨_, s0, e0, h⟩ := M.bind_eq_ok h
  obtain ⟨_, s1, e1, h⟩ := M.bind_eq_ok h
  obtain ⟨_, s2, e2, h⟩ := M.bind_eq_ok h
  obtain ⟨_, s3, e3, h⟩ := M.bind_eq_ok h
  obtain ⟨_, s4, e4, h⟩ := M.bind_eq_ok h
  obtain ⟨_, s5, e5, h⟩ := M.bind_eq_ok h
  obtain ⟨x, s6, e6, h⟩ := M.bind_eq_ok h
  cases e6
  have l0 := (dry_cursorAsInt _ _ _ e0).2
  have l1 := (dry_setTypeAndLength _ _ _ _ _ e1).2
  have l2 := (dry_octetStringWrite _ _ _ _ e2).2
  have l3 := (dry_numberWrite _ _ _ _ _ _ e3).2
  have l4 := (dry_numberWrite _ _ _ _ _ _ e4).2
  have l5 := (dry_messageBodyWrite _ _ _ _ e5).2
  split at h
  · cases h
  obtain ⟨bytes, s7, e7, h⟩ := M.bind_eq_ok h
  obtain ⟨_, s8, e8, h⟩ := M.bind_eq_ok h
  obtain ⟨_, s9, e9, h⟩ := M.bind_eq_ok h
  obtain ⟨_, s10, e10, h⟩ := M.bind_eq_ok h
  obtain ⟨_, s11, e11, h⟩ := M.bind_eq_ok h
  have l7 := (dry_bufferSlice _ _ _ _ _ e7).2
  have l8 : s8.live = s7.live + 1 := by cases e8; rfl
  have l9 := (dry_numberWrite _ _ _ _ _ _ e9).2
  have l10 := (dry_setByte _ _ _ _ e10).2
  have l11 := (dry_advance _ _ _ e11).2
  cases h
  exact ⟨by omega, _, rfl⟩

theorem messageFreed1_crc (m : Message) (c : Num) (h : m.crc.isSome) : messageFreed1 { m with crc := some c } = messageFreed1 m := by
  rw [messageFreed1, messageFreed1]
  cases hc : m.crc with
  | none => rw [hc] at h; cases h
  | some c' => rfl

theorem fileWriteLoop_live : ∀ {ms : List Message} {ms' st st'}, fileWriteLoop ms st = .ok ms' st' → (∀ m ∈ ms, m.crc.isSome) →
    st'.live = st.live + ms.length ∧ ms'.length = ms.length ∧ (∀ m ∈ ms', m.crc.isSome) ∧
      (ms'.map messageFreed1).sum = (ms.map messageFreed1).sum
  | [], ms', st, st', h, _ => by
    cases h
    exact ⟨rfl, rfl, by simp, rfl⟩
  | m :: ms, ms', st, st', h, hs => by
    obtain ⟨m1, s1, e1, h⟩ := M.bind_eq_ok h
    obtain ⟨ms1, s2, e2, h⟩ := M.bind_eq_ok h
    cases h
    obtain ⟨l1, c, rfl⟩ := messageWrite_live e1
    obtain ⟨l2, l3, l4, l5⟩ := fileWriteLoop_live e2 fun m hm => hs m (List.mem_cons_of_mem _ hm)
    refine ⟨by rw [List.length_cons]; omega, by simp [l3], ?_, ?_⟩
    · intro x hx
      rcases List.mem_cons.mp hx with rfl | hx
      · rfl
      · exact l4 x hx
    · rw [List.map_cons, List.sum_cons, List.map_cons, List.sum_cons, l5, messageFreed1_crc _ _ (hs m List.mem_cons_self)]

/-- Writing a file allocates one block per message; as many as before are released with it if all messages had a checksum. -/
theorem fileWrite_live (h : fileWrite f st = .ok f' st') (hs : ∀ m ∈ f.messages, m.crc.isSome) :
    st'.live = st.live + f.messages.length ∧ f'.messages.length = f.messages.length ∧ (∀ m ∈ f'.messages, m.crc.isSome) ∧
      fileFreed f' = fileFreed f := by
  obtain ⟨ms, s1, e1, h⟩ := M.bind_eq_ok h
  cases h
  obtain ⟨l2, l3, l4, l5⟩ := fileWriteLoop_live e1 hs
  refine ⟨l2, l3, l4, ?_⟩
  rw [fileFreed, fileFreed, l5]
  by_cases h0 : f.messages = []
  · rw [h0, List.length_nil] at l3
    rw [if_pos h0, if_pos (List.length_eq_zero_iff.mp l3)]
  · rw [if_neg h0, if_neg fun h => h0 (List.length_eq_zero_iff.mp (by rw [← l3]; exact List.length_eq_zero_iff.mpr h))]

end Sml
