import Verif.Proofs.SourceWriteList

/-!
# The write functions of the message bodies, run from their source
-/

namespace Sml.C

theorem periodEntryWriteGet_src : WriteSpec .sml_period_entry_write_get pPeriodEntryWrite := .wrap rfl rfl rfl periodEntryWrite_src

theorem valueEntryWrite__src : WriteSpec .sml_value_entry_write_ pValueEntryWrite :=
  WriteSpec.struct' (fs := [(.sml_value_write, [.var 1]), (.sml_octet_string_write, [.var 1])]) rfl rfl rfl (by decide)
    ⟨.plain valueWrite_src, .plain octetStringWrite_src, trivial⟩

theorem headerEntryWrite__src : WriteSpec .sml_prof_obj_header_entry_write_ pProfObjHeaderEntryWrite :=
  WriteSpec.struct' (fs := [(.sml_octet_string_write, [.var 1]), (.sml_number_write, [.lit .i32 96, .lit .u64 1, .var 1]), (.sml_number_write, [.lit .i32 80, .lit .u64 1, .var 1])]) rfl rfl rfl (by decide)
    ⟨.plain octetStringWrite_src, .number (by decide) (by decide), .number (by decide) (by decide), trivial⟩

theorem profPeriodWrite__src : WriteSpec .sml_prof_obj_period_entry_write_ pProfObjPeriodEntryWrite :=
  WriteSpec.struct' (fs := [(.sml_time_write, [.var 1]), (.sml_number_write, [.lit .i32 96, .lit .u64 8, .var 1]), (.sml_sequence_write, [.var 1, .fn .sml_value_entry_write_]), (.sml_octet_string_write, [.var 1])]) rfl rfl rfl (by decide)
    ⟨.plain timeWrite_src, .number (by decide) (by decide), sequenceWrite_src valueEntryWrite__src keeps_valueEntry, .plain octetStringWrite_src, trivial⟩

theorem openRequestWrite_src : WriteSpec .sml_open_request_write pOpenRequestWrite :=
  WriteSpec.struct (fs := [(.sml_octet_string_write, [.var 1]), (.sml_octet_string_write, [.var 1]), (.sml_octet_string_write, [.var 1]), (.sml_octet_string_write, [.var 1]), (.sml_octet_string_write, [.var 1]), (.sml_octet_string_write, [.var 1]), (.sml_number_write, [.lit .i32 96, .lit .u64 1, .var 1])]) rfl rfl rfl (by decide)
    ⟨.plain octetStringWrite_src, .plain octetStringWrite_src, .plain octetStringWrite_src, .plain octetStringWrite_src, .plain octetStringWrite_src, .plain octetStringWrite_src, .number (by decide) (by decide), trivial⟩

theorem openResponseWrite_src : WriteSpec .sml_open_response_write pOpenResponseWrite :=
  WriteSpec.struct (fs := [(.sml_octet_string_write, [.var 1]), (.sml_octet_string_write, [.var 1]), (.sml_octet_string_write, [.var 1]), (.sml_octet_string_write, [.var 1]), (.sml_time_write, [.var 1]), (.sml_number_write, [.lit .i32 96, .lit .u64 1, .var 1])]) rfl rfl rfl (by decide)
    ⟨.plain octetStringWrite_src, .plain octetStringWrite_src, .plain octetStringWrite_src, .plain octetStringWrite_src, .plain timeWrite_src, .number (by decide) (by decide), trivial⟩

theorem closeRequestWrite_src : WriteSpec .sml_close_request_write pCloseRequestWrite :=
  WriteSpec.struct (fs := [(.sml_octet_string_write, [.var 1])]) rfl rfl rfl (by decide)
    ⟨.plain octetStringWrite_src, trivial⟩

theorem closeResponseWrite_src : WriteSpec .sml_close_response_write pCloseResponseWrite :=
  WriteSpec.struct (fs := [(.sml_octet_string_write, [.var 1])]) rfl rfl rfl (by decide)
    ⟨.plain octetStringWrite_src, trivial⟩

theorem getProfilePackResponseWrite_src : WriteSpec .sml_get_profile_pack_response_write pGetProfilePackResponseWrite :=
  WriteSpec.struct (fs := [(.sml_octet_string_write, [.var 1]), (.sml_time_write, [.var 1]), (.sml_number_write, [.lit .i32 96, .lit .u64 4, .var 1]), (.sml_tree_path_write, [.var 1]), (.sml_sequence_write, [.var 1, .fn .sml_prof_obj_header_entry_write_]), (.sml_sequence_write, [.var 1, .fn .sml_prof_obj_period_entry_write_]), (.sml_octet_string_write, [.var 1]), (.sml_octet_string_write, [.var 1])]) rfl rfl rfl (by decide)
    ⟨.plain octetStringWrite_src, .plain timeWrite_src, .number (by decide) (by decide), .plain treePathWrite_src, sequenceWrite_src headerEntryWrite__src keeps_header, sequenceWrite_src profPeriodWrite__src keeps_profPeriod, .plain octetStringWrite_src, .plain octetStringWrite_src, trivial⟩

theorem getProfileListResponseWrite_src : WriteSpec .sml_get_profile_list_response_write pGetProfileListResponseWrite :=
  WriteSpec.struct (fs := [(.sml_octet_string_write, [.var 1]), (.sml_time_write, [.var 1]), (.sml_number_write, [.lit .i32 96, .lit .u64 4, .var 1]), (.sml_tree_path_write, [.var 1]), (.sml_time_write, [.var 1]), (.sml_number_write, [.lit .i32 96, .lit .u64 8, .var 1]), (.sml_sequence_write, [.var 1, .fn .sml_period_entry_write_get]), (.sml_octet_string_write, [.var 1]), (.sml_octet_string_write, [.var 1])]) rfl rfl rfl (by decide)
    ⟨.plain octetStringWrite_src, .plain timeWrite_src, .number (by decide) (by decide), .plain treePathWrite_src, .plain timeWrite_src, .number (by decide) (by decide), sequenceWrite_src periodEntryWriteGet_src keeps_period, .plain octetStringWrite_src, .plain octetStringWrite_src, trivial⟩

theorem getProcParameterRequestWrite_src : WriteSpec .sml_get_proc_parameter_request_write pGetProcParameterRequestWrite :=
  WriteSpec.struct (fs := [(.sml_octet_string_write, [.var 1]), (.sml_octet_string_write, [.var 1]), (.sml_octet_string_write, [.var 1]), (.sml_tree_path_write, [.var 1]), (.sml_octet_string_write, [.var 1])]) rfl rfl rfl (by decide)
    ⟨.plain octetStringWrite_src, .plain octetStringWrite_src, .plain octetStringWrite_src, .plain treePathWrite_src, .plain octetStringWrite_src, trivial⟩

theorem getProcParameterResponseWrite_src : WriteSpec .sml_get_proc_parameter_response_write pGetProcParameterResponseWrite :=
  WriteSpec.struct (fs := [(.sml_octet_string_write, [.var 1]), (.sml_tree_path_write, [.var 1]), (.sml_tree_write, [.var 1])]) rfl rfl rfl (by decide)
    ⟨.plain octetStringWrite_src, .plain treePathWrite_src, .plain treeWrite_src, trivial⟩

theorem setProcParameterRequestWrite_src : WriteSpec .sml_set_proc_parameter_request_write pSetProcParameterRequestWrite :=
  WriteSpec.struct (fs := [(.sml_octet_string_write, [.var 1]), (.sml_octet_string_write, [.var 1]), (.sml_octet_string_write, [.var 1]), (.sml_tree_path_write, [.var 1]), (.sml_tree_write, [.var 1])]) rfl rfl rfl (by decide)
    ⟨.plain octetStringWrite_src, .plain octetStringWrite_src, .plain octetStringWrite_src, .plain treePathWrite_src, .plain treeWrite_src, trivial⟩

theorem getListRequestWrite_src : WriteSpec .sml_get_list_request_write pGetListRequestWrite :=
  WriteSpec.struct (fs := [(.sml_octet_string_write, [.var 1]), (.sml_octet_string_write, [.var 1]), (.sml_octet_string_write, [.var 1]), (.sml_octet_string_write, [.var 1]), (.sml_octet_string_write, [.var 1])]) rfl rfl rfl (by decide)
    ⟨.plain octetStringWrite_src, .plain octetStringWrite_src, .plain octetStringWrite_src, .plain octetStringWrite_src, .plain octetStringWrite_src, trivial⟩

theorem getListResponseWrite_src : WriteSpec .sml_get_list_response_write pGetListResponseWrite :=
  WriteSpec.struct (fs := [(.sml_octet_string_write, [.var 1]), (.sml_octet_string_write, [.var 1]), (.sml_octet_string_write, [.var 1]), (.sml_time_write, [.var 1]), (.sml_list_write, [.var 1]), (.sml_octet_string_write, [.var 1]), (.sml_time_write, [.var 1])]) rfl rfl rfl (by decide)
    ⟨.plain octetStringWrite_src, .plain octetStringWrite_src, .plain octetStringWrite_src, .plain timeWrite_src, .plain listWrite_src, .plain octetStringWrite_src, .plain timeWrite_src, trivial⟩

theorem attentionResponseWrite_src : WriteSpec .sml_attention_response_write pAttentionResponseWrite :=
  WriteSpec.struct (fs := [(.sml_octet_string_write, [.var 1]), (.sml_octet_string_write, [.var 1]), (.sml_octet_string_write, [.var 1]), (.sml_tree_write, [.var 1])]) rfl rfl rfl (by decide)
    ⟨.plain octetStringWrite_src, .plain octetStringWrite_src, .plain octetStringWrite_src, .plain treeWrite_src, trivial⟩

theorem valueEntryWrite_src : WriteSpec .sml_value_entry_write pValueEntryWrite := .wrap rfl rfl rfl valueEntryWrite__src
theorem headerEntryWrite_src : WriteSpec .sml_prof_obj_header_entry_write pProfObjHeaderEntryWrite := .wrap rfl rfl rfl headerEntryWrite__src
theorem profPeriodWrite_src : WriteSpec .sml_prof_obj_period_entry_write pProfObjPeriodEntryWrite := .wrap rfl rfl rfl profPeriodWrite__src

theorem writeFields_append (a : Addr) : (i : Nat) → (us ws : List (Addr → P Unit)) →
    pWriteFields a i (us ++ ws) = (pWriteFields a i us >>= fun _ => pWriteFields a (i + us.length) ws)
  | i, [], ws => by
    rw [pWriteFields, P_pure_bind]
    rfl
  | i, u :: us, ws => by
    rw [List.cons_append, pWriteFields, pWriteFields, P_bind_assoc]
    simp only [P_bind_assoc]
    simp only [writeFields_append a (i + 1) us ws, List.length_cons, Nat.add_assoc, Nat.add_comm 1]

/-- The members of a profile pack request in front of the list of object names. -/
def packCalls : List (Fn × List Expr) :=
  [(.sml_octet_string_write, [.var 1]), (.sml_octet_string_write, [.var 1]), (.sml_octet_string_write, [.var 1]), (.sml_boolean_write, [.var 1]), (.sml_time_write, [.var 1]), (.sml_time_write, [.var 1]), (.sml_tree_path_write, [.var 1])]

theorem getProfilePackRequestWrite_src : WriteSpec .sml_get_profile_pack_request_write pGetProfilePackRequestWrite := by
  refine WriteSpec.of rfl rfl fun a K => ?_
  have hb : (program .sml_get_profile_pack_request_write).body = .expr (.call .sml_buf_set_type_and_length [.var 1, .lit .i32 112, .lit .i32 9]) ::
      (C.writeStmts 0 0 packCalls ++ (objStmt :: [.expr (.call .sml_tree_write [.ldPtr (.var 0) 8, .var 1])])) := rfl
  have hm : pGetProfilePackRequestWrite a = (lift (setTypeAndLength tyList 9) >>= fun _ =>
      pWriteFields a 0 [pOctetStringWrite, pOctetStringWrite, pOctetStringWrite, pBooleanWrite, pTimeWrite, pTimeWrite, pTreePathWrite] >>= fun _ =>
      readPtr a 7 >>= fun l => pObjectsWrite l >>= fun _ => readPtr a 8 >>= fun v => pTreeWrite v) := by
    unfold pGetProfilePackRequestWrite pWriteStruct
    congr 1
    funext _
    rw [show [pOctetStringWrite, pOctetStringWrite, pOctetStringWrite, pBooleanWrite, pTimeWrite, pTimeWrite, pTreePathWrite, pObjectsWrite, pTreeWrite] =
      [pOctetStringWrite, pOctetStringWrite, pOctetStringWrite, pBooleanWrite, pTimeWrite, pTimeWrite, pTreePathWrite] ++ [pObjectsWrite, pTreeWrite] from rfl, writeFields_append]
    simp only [pWriteFields, List.length_cons, List.length_nil, Nat.zero_add, P_bind_unit]
  rw [hm, hb]
  refine Sem.hdr (by rfl) (by decide) (fun _ _ => rfl) ?_
  refine Sem.writeStmts (by rfl) (by rfl) ?_ 0 packCalls _
    ⟨.plain octetStringWrite_src, .plain octetStringWrite_src, .plain octetStringWrite_src, .plain booleanWrite_src, .plain timeWrite_src, .plain timeWrite_src, .plain treePathWrite_src, trivial⟩
  exact Sem.objects fun env h0 h1 => Sem.writeEnd h0 h1 (.plain treeWrite_src)

end Sml.C
