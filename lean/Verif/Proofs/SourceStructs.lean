import Verif.Proofs.SourceSeq

/-!
# The parse functions of structures from their source
-/

namespace Sml.C

/-! ## Members in a row -/

/-- The expression reads the next member from the buffer. -/
def FieldSpec (e : Expr) (p : P Addr) : Prop := ∀ (K : Ctx) (env : Env), env 0 = K.buf → ESem K e env anySt p ptrVal anyRes

theorem FieldSpec.call (h : ParseSpec f p) : FieldSpec (.call f [.var 0]) p := fun _ _ h0 => ESem.callBuf h0 h

theorem FieldSpec.num (type max : Nat) (ht : type < 256) (h1 : 1 ≤ max) (h2 : max ≤ 127) :
    FieldSpec (.call .sml_number_parse [.var 0, .lit .i32 type, .lit .u64 max]) (pNumberParse type max) := fun _ _ h0 => ESem.number h0 ht h1 h2

theorem FieldSpec.seq (h : FSpec f (fun K => [K.buf, .fn pf, .fn ff]) anySt p ptrVal anyRes) : FieldSpec (.call f [.var 0, .fn pf, .fn ff]) p :=
  fun _ _ h0 => ESem.call (as := fun K => [K.buf, .fn pf, .fn ff]) (fun _ _ => evals_cons (eval_of h0 ptr_ne) (evals_cons rfl (evals_cons rfl evals_nil))) h

/-- The members, one after the other. -/
inductive Fields : List Expr → List (P Addr) → Prop
  | nil : Fields [] []
  | cons (h : FieldSpec e p) (t : Fields es ps) : Fields (e :: es) (p :: ps)

/-- The statements that read the members from number `i` on. -/
def fieldStmts (x : Nat) (F : List Stmt) : Nat → List Expr → List Stmt → List Stmt
  | _, [], ss => ss
  | i, e :: es, ss => .stPtr (.var x) i e :: .ite (.call .sml_buf_has_errors [.var 0]) F [] :: fieldStmts x F (i + 1) es ss

/-- Their model. -/
def pFields (a : Addr) (err : P Addr) : Nat → List (P Addr) → P Addr → P Addr
  | _, [], k => k
  | i, p :: ps, k => pField p a i err (pFields a err (i + 1) ps k)

theorem Sem.fields {err k : P Addr} (h0 : env 0 = K.buf) (ha : env x = ptrVal a) (hF : ∀ ss, Sem K body (F ++ ss) env errSt err vl post)
    (hk : Sem K body ss env anySt k vl post) (h : Fields es ps) : (i : Nat) → Sem K body (fieldStmts x F i es ss) env anySt (pFields a err i ps k) vl post := by
  induction h with
  | nil => exact fun i => hk
  | cons hd tl ih => exact fun i => Sem.field h0 ha (hd K env h0) hF (ih (i + 1))

/-- The list of the members and the return. -/
theorem Sem.struct {err : P Addr} (h0 : env 0 = K.buf) (ha : env x = ptrVal a) (hF : ∀ ss, Sem K body (F ++ ss) env errSt err ptrVal anyRes)
    (n : Int) (hn : 0 ≤ n ∧ n < 256) (h : Fields es ps) :
    Sem K body (.ite (.bin .ne (.call .sml_buf_get_next_type [.var 0]) (.lit .i32 112)) (.stInt .i32 (.var 0) 2 (.lit .i32 1) :: F) [] ::
      .ite (.bin .ne (.call .sml_buf_get_next_length [.var 0]) (.lit .i32 n)) (.stInt .i32 (.var 0) 2 (.lit .i32 1) :: F) [] ::
      fieldStmts x F 0 es (.ret (.var x) :: ss)) env anySt (pExpectList n err (pFields a err 0 ps (pure a))) ptrVal anyRes :=
  Sem.expectList h0 n hn hF (Sem.fields h0 ha hF (Sem.retPtr ha) h 0)

/-! ## Entries -/

theorem periodEntryTreeInit_src : InitSpec .sml_period_entry_init (.struct [0, 0, 0, 0, 0] []) :=
  InitSpec.of [0, 0, 0, 0, 0] [] rfl rfl rfl (by simp) (fun _ _ _ => rfl) (fun _ _ _ => rfl)

theorem periodEntryTreeParse_src : ParseSpec .sml_period_entry_parse_tree pPeriodEntryParse := by
  refine ParseSpec.of rfl rfl fun K => ?_
  unfold pPeriodEntryParse pOptional
  refine Sem.opt (by rfl) rfl (fun _ => trivial) (Sem.init periodEntryTreeInit_src fun a => ?_)
  exact Sem.struct (by rfl) (by rfl) (Sem.abort rfl (by rfl) periodEntryFree_src rfl) 5 (by omega)
    (.cons (.call octetStringParse_src) <|
      .cons (.num 96 1 (by omega) (by omega) (by omega)) <|
      .cons (.num 80 1 (by omega) (by omega) (by omega)) <|
      .cons (.call valueParse_src) <|
      .cons (.call octetStringParse_src) <|
      .nil)

theorem periodEntryParse_src : ParseSpec .sml_period_entry_parse pPeriodEntryParse := ParseSpec.wrap (f := .sml_period_entry_parse_tree) rfl rfl rfl periodEntryTreeParse_src

theorem periodEntryParseGet_src : ParseSpec .sml_period_entry_parse_get pPeriodEntryParse := ParseSpec.wrap (f := .sml_period_entry_parse) rfl rfl rfl periodEntryParse_src

theorem tupelEntryInit_src : InitSpec .sml_tupel_entry_init (.struct [0, 0, 0, 0, 0, 0, 0, 0, 0, 0, 0, 0, 0, 0, 0, 0, 0, 0, 0, 0, 0, 0, 0] []) :=
  InitSpec.of [0, 0, 0, 0, 0, 0, 0, 0, 0, 0, 0, 0, 0, 0, 0, 0, 0, 0, 0, 0, 0, 0, 0] [] rfl rfl rfl (by simp) (fun _ _ _ => rfl) (fun _ _ _ => rfl)

theorem tupelEntryParse_src : ParseSpec .sml_tupel_entry_parse pTupelEntryParse := by
  refine ParseSpec.of rfl rfl fun K => ?_
  unfold pTupelEntryParse pOptional
  refine Sem.opt (by rfl) rfl (fun _ => trivial) (Sem.init tupelEntryInit_src fun a => ?_)
  exact Sem.struct (by rfl) (by rfl) (Sem.abort rfl (by rfl) tupelEntryFree_src rfl) 23 (by omega)
    (.cons (.call octetStringParse_src) <|
      .cons (.call timeParse_src) <|
      .cons (.num 96 8 (by omega) (by omega) (by omega)) <|
      .cons (.num 96 1 (by omega) (by omega) (by omega)) <|
      .cons (.num 80 1 (by omega) (by omega) (by omega)) <|
      .cons (.num 80 8 (by omega) (by omega) (by omega)) <|
      .cons (.num 96 1 (by omega) (by omega) (by omega)) <|
      .cons (.num 80 1 (by omega) (by omega) (by omega)) <|
      .cons (.num 80 8 (by omega) (by omega) (by omega)) <|
      .cons (.num 96 1 (by omega) (by omega) (by omega)) <|
      .cons (.num 80 1 (by omega) (by omega) (by omega)) <|
      .cons (.num 80 8 (by omega) (by omega) (by omega)) <|
      .cons (.call octetStringParse_src) <|
      .cons (.num 96 1 (by omega) (by omega) (by omega)) <|
      .cons (.num 80 1 (by omega) (by omega) (by omega)) <|
      .cons (.num 80 8 (by omega) (by omega) (by omega)) <|
      .cons (.num 96 1 (by omega) (by omega) (by omega)) <|
      .cons (.num 80 1 (by omega) (by omega) (by omega)) <|
      .cons (.num 80 8 (by omega) (by omega) (by omega)) <|
      .cons (.num 96 1 (by omega) (by omega) (by omega)) <|
      .cons (.num 80 1 (by omega) (by omega) (by omega)) <|
      .cons (.num 80 8 (by omega) (by omega) (by omega)) <|
      .cons (.call octetStringParse_src) <|
      .nil)

theorem valueEntryInit_src : InitSpec .sml_value_entry_init (.struct [0, 0] []) :=
  InitSpec.of [0, 0] [] rfl rfl rfl (by simp) (fun _ _ _ => rfl) (fun _ _ _ => rfl)

theorem valueEntryParse_src : ParseSpec .sml_value_entry_parse_ pValueEntryParse := by
  refine ParseSpec.of rfl rfl fun K => ?_
  unfold pValueEntryParse
  refine Sem.init valueEntryInit_src fun a => ?_
  exact Sem.struct (by rfl) (by rfl) (Sem.abort' rfl (by rfl) (by rfl) (FreeSpec.wrap (f' := .sml_value_entry_free) (f := .sml_value_entry_free_) rfl rfl rfl valueEntryFree_src) rfl) 2 (by omega)
    (.cons (.call valueParse_src) <|
      .cons (.call octetStringParse_src) <|
      .nil)

theorem headerEntryInit_src : InitSpec .sml_prof_obj_header_entry_init (.struct [0, 0, 0] []) :=
  InitSpec.of [0, 0, 0] [] rfl rfl rfl (by simp) (fun _ _ _ => rfl) (fun _ _ _ => rfl)

theorem headerEntryParse_src : ParseSpec .sml_prof_obj_header_entry_parse_ pProfObjHeaderEntryParse := by
  refine ParseSpec.of rfl rfl fun K => ?_
  unfold pProfObjHeaderEntryParse
  refine Sem.init headerEntryInit_src fun a => ?_
  exact Sem.struct (by rfl) (by rfl) (Sem.abort' rfl (by rfl) (by rfl) (FreeSpec.wrap (f' := .sml_prof_obj_header_entry_free) (f := .sml_prof_obj_header_entry_free_) rfl rfl rfl headerEntryFree_src) rfl) 3 (by omega)
    (.cons (.call octetStringParse_src) <|
      .cons (.num 96 1 (by omega) (by omega) (by omega)) <|
      .cons (.num 80 1 (by omega) (by omega) (by omega)) <|
      .nil)

theorem profPeriodEntryInit_src : InitSpec .sml_prof_obj_period_entry_init (.struct [0, 0, 0, 0] []) :=
  InitSpec.of [0, 0, 0, 0] [] rfl rfl rfl (by simp) (fun _ _ _ => rfl) (fun _ _ _ => rfl)

theorem profPeriodEntryParse_src : ParseSpec .sml_prof_obj_period_entry_parse_ pProfObjPeriodEntryParse := by
  refine ParseSpec.of rfl rfl fun K => ?_
  unfold pProfObjPeriodEntryParse
  refine Sem.init profPeriodEntryInit_src fun a => ?_
  exact Sem.struct (by rfl) (by rfl) (Sem.abort' rfl (by rfl) (by rfl) (FreeSpec.wrap (f' := .sml_prof_obj_period_entry_free) (f := .sml_prof_obj_period_entry_free_) rfl rfl rfl profPeriodEntryFree_src) rfl) 4 (by omega)
    (.cons (.call timeParse_src) <|
      .cons (.num 96 8 (by omega) (by omega) (by omega)) <|
      .cons (.seq (sequenceParse_src valueEntryParse_src valueEntryFree_src frees_valueEntry)) <|
      .cons (.call octetStringParse_src) <|
      .nil)

/-! ## Message bodies -/

theorem openRequestInit_src : InitSpec .sml_open_request_init (.struct [0, 0, 0, 0, 0, 0, 0] []) :=
  InitSpec.of [0, 0, 0, 0, 0, 0, 0] [] rfl rfl rfl (by simp) (fun _ _ _ => rfl) (fun _ _ _ => rfl)

theorem openRequestParse_src : ParseSpec .sml_open_request_parse pOpenRequestParse := by
  refine ParseSpec.of rfl rfl fun K => ?_
  unfold pOpenRequestParse
  refine Sem.init openRequestInit_src fun a => ?_
  exact Sem.struct (by rfl) (by rfl) (Sem.abort rfl (by rfl) openRequestFree_src rfl) 7 (by omega)
    (.cons (.call octetStringParse_src) <|
      .cons (.call octetStringParse_src) <|
      .cons (.call octetStringParse_src) <|
      .cons (.call octetStringParse_src) <|
      .cons (.call octetStringParse_src) <|
      .cons (.call octetStringParse_src) <|
      .cons (.num 96 1 (by omega) (by omega) (by omega)) <|
      .nil)

theorem openResponseInit_src : InitSpec .sml_open_response_init (.struct [0, 0, 0, 0, 0, 0] []) :=
  InitSpec.of [0, 0, 0, 0, 0, 0] [] rfl rfl rfl (by simp) (fun _ _ _ => rfl) (fun _ _ _ => rfl)

theorem openResponseParse_src : ParseSpec .sml_open_response_parse pOpenResponseParse := by
  refine ParseSpec.of rfl rfl fun K => ?_
  unfold pOpenResponseParse
  refine Sem.init openResponseInit_src fun a => ?_
  exact Sem.struct (by rfl) (by rfl) (Sem.abort rfl (by rfl) openResponseFree_src rfl) 6 (by omega)
    (.cons (.call octetStringParse_src) <|
      .cons (.call octetStringParse_src) <|
      .cons (.call octetStringParse_src) <|
      .cons (.call octetStringParse_src) <|
      .cons (.call timeParse_src) <|
      .cons (.num 96 1 (by omega) (by omega) (by omega)) <|
      .nil)

theorem closeRequestInit_src : InitSpec .sml_close_request_init (.struct [0] []) :=
  InitSpec.of [0] [] rfl rfl rfl (by simp) (fun _ _ _ => rfl) (fun _ _ _ => rfl)

theorem closeRequestParse_src : ParseSpec .sml_close_request_parse pCloseRequestParse := by
  refine ParseSpec.of rfl rfl fun K => ?_
  unfold pCloseRequestParse
  refine Sem.init closeRequestInit_src fun a => ?_
  exact Sem.struct (by rfl) (by rfl) (Sem.abort rfl (by rfl) closeRequestFree_src rfl) 1 (by omega)
    (.cons (.call octetStringParse_src) <|
      .nil)

theorem closeResponseInit_src : InitSpec .sml_close_response_init (.struct [0] []) :=
  InitSpec.of [0] [] rfl rfl rfl (by simp) (fun _ _ _ => rfl) (fun _ _ _ => rfl)

theorem closeResponseParse_src : ParseSpec .sml_close_response_parse pCloseResponseParse := by
  refine ParseSpec.of rfl rfl fun K => ?_
  unfold pCloseResponseParse
  refine Sem.init closeResponseInit_src fun a => ?_
  exact Sem.struct (by rfl) (by rfl) (Sem.abort rfl (by rfl) closeResponseFree_src rfl) 1 (by omega)
    (.cons (.call octetStringParse_src) <|
      .nil)

theorem packResponseInit_src : InitSpec .sml_get_profile_pack_response_init (.struct [0, 0, 0, 0, 0, 0, 0, 0] []) :=
  InitSpec.of [0, 0, 0, 0, 0, 0, 0, 0] [] rfl rfl rfl (by simp) (fun _ _ _ => rfl) (fun _ _ _ => rfl)

theorem packResponseParse_src : ParseSpec .sml_get_profile_pack_response_parse pGetProfilePackResponseParse := by
  refine ParseSpec.of rfl rfl fun K => ?_
  unfold pGetProfilePackResponseParse
  refine Sem.init packResponseInit_src fun a => ?_
  exact Sem.struct (by rfl) (by rfl) (Sem.abort' rfl (by rfl) (by rfl) packResponseFree_src rfl) 8 (by omega)
    (.cons (.call octetStringParse_src) <|
      .cons (.call timeParse_src) <|
      .cons (.num 96 4 (by omega) (by omega) (by omega)) <|
      .cons (.call treePathParse_src) <|
      .cons (.seq (sequenceParse_src headerEntryParse_src headerEntryFree_src frees_headerEntry)) <|
      .cons (.seq (sequenceParse_src profPeriodEntryParse_src profPeriodEntryFree_src frees_profPeriodEntry)) <|
      .cons (.call octetStringParse_src) <|
      .cons (.call octetStringParse_src) <|
      .nil)

theorem listResponseProfileInit_src : InitSpec .sml_get_profile_list_response_init (.struct [0, 0, 0, 0, 0, 0, 0, 0, 0] []) :=
  InitSpec.of [0, 0, 0, 0, 0, 0, 0, 0, 0] [] rfl rfl rfl (by simp) (fun _ _ _ => rfl) (fun _ _ _ => rfl)

theorem listResponseProfileParse_src : ParseSpec .sml_get_profile_list_response_parse pGetProfileListResponseParse := by
  refine ParseSpec.of rfl rfl fun K => ?_
  unfold pGetProfileListResponseParse
  refine Sem.init listResponseProfileInit_src fun a => ?_
  exact Sem.struct (by rfl) (by rfl) (Sem.abort' rfl (by rfl) (by rfl) listResponseProfileFree_src rfl) 9 (by omega)
    (.cons (.call octetStringParse_src) <|
      .cons (.call timeParse_src) <|
      .cons (.num 96 4 (by omega) (by omega) (by omega)) <|
      .cons (.call treePathParse_src) <|
      .cons (.call timeParse_src) <|
      .cons (.num 96 8 (by omega) (by omega) (by omega)) <|
      .cons (.seq (sequenceParse_src periodEntryParseGet_src periodEntryFreeGet_src frees_period)) <|
      .cons (.call octetStringParse_src) <|
      .cons (.call octetStringParse_src) <|
      .nil)

theorem procParameterRequestInit_src : InitSpec .sml_get_proc_parameter_request_init (.struct [0, 0, 0, 0, 0] []) :=
  InitSpec.of [0, 0, 0, 0, 0] [] rfl rfl rfl (by simp) (fun _ _ _ => rfl) (fun _ _ _ => rfl)

theorem procParameterRequestParse_src : ParseSpec .sml_get_proc_parameter_request_parse pGetProcParameterRequestParse := by
  refine ParseSpec.of rfl rfl fun K => ?_
  unfold pGetProcParameterRequestParse
  refine Sem.init procParameterRequestInit_src fun a => ?_
  exact Sem.struct (by rfl) (by rfl) (Sem.abort rfl (by rfl) procParameterRequestFree_src rfl) 5 (by omega)
    (.cons (.call octetStringParse_src) <|
      .cons (.call octetStringParse_src) <|
      .cons (.call octetStringParse_src) <|
      .cons (.call treePathParse_src) <|
      .cons (.call octetStringParse_src) <|
      .nil)

theorem getListRequestParse_src : ParseSpec .sml_get_list_request_parse pGetListRequestParse := by
  refine ParseSpec.of rfl rfl fun K => ?_
  unfold pGetListRequestParse
  refine Sem.mallocRec [0, 0, 0, 0, 0] [] (by simp) (fun _ _ _ => rfl) (fun _ _ _ => rfl) fun a => ?_
  exact Sem.struct (by rfl) (by rfl) (Sem.abort rfl (by rfl) getListRequestFree_src rfl) 5 (by omega)
    (.cons (.call octetStringParse_src) <|
      .cons (.call octetStringParse_src) <|
      .cons (.call octetStringParse_src) <|
      .cons (.call octetStringParse_src) <|
      .cons (.call octetStringParse_src) <|
      .nil)

end Sml.C
