import Verif.Proofs.SourceStructs

/-!
# Values of process parameters and trees from their source
-/

namespace Sml.C

theorem ptr_eq_null {v : Nat} : binOp .eq (ptrVal v) nullPtr env m = .ok (ofBool (decide (v = 0))) env m := by
  have : ((Loc.heap v = Loc.heap 0) ∧ 0 = 0) ↔ v = 0 := by simp
  show XRes.ok (ofBool (decide ((Loc.heap v = Loc.heap 0) ∧ 0 = 0))) env m = _
  rw [decide_eq_decide.mpr this]

/-- `!p->m` -/
theorem ESem.isNull (ha : env x = ptrVal a) : ESem K (.not (.ldPtr (.var x) i)) env pre (readPtr a i) (fun v => ofBool (decide (v = 0))) anyRes := by
  intro st h hi hp v st' h' hr
  obtain ⟨i1, _, r1⟩ := (ESem.not (K := K) (ESem.ldPtr (pre := pre) (i := i) ha) (fun _ => ptr_ne)).ev hi hp hr
  refine ⟨i1, trivial, ?_⟩
  have : (!(ptrVal v).isTrue) = decide (v = 0) := by
    by_cases hv : v = 0
    · subst hv
      rfl
    · have : (ptrVal v).isTrue = true := by simp [Val.isTrue, hv]
      rw [this]
      simp [hv]
  rw [this] at r1
  exact r1

/-- `p->m == NULL` -/
theorem ESem.eqNull (ha : env x = ptrVal a) : ESem K (.bin .eq (.ldPtr (.var x) i) .null) env pre (readPtr a i) (fun v => ofBool (decide (v = 0))) anyRes :=
  (ESem.binNull (vl := fun v => ofBool (decide (v = 0))) (ESem.ldPtr (pre := pre) (i := i) ha) fun _ _ _ _ => ptr_eq_null).consequence fun _ _ _ => trivial

/-- A member that must be there. -/
theorem Sem.errOrNull {k : Addr → P β} {err : P β} (h0 : env 0 = K.buf) (hc : ESem K c env anySt (readPtr a i) (fun v => ofBool (decide (v = 0))) anyRes)
    (hF : Sem K body (F ++ ss) env anySt err vl post) (hk : Sem K body ss env anySt (readPtr a i >>= k) vl post) :
    Sem K body (.ite (.or (.call .sml_buf_has_errors [.var 0]) c) F [] :: ss) env anySt
      (lift hasErrors >>= fun b => if b then err else readPtr a i >>= fun v => if v = 0 then err else k v) vl post := by
  intro st h hi _ r st' h' hr
  replace hr := P_bind_eq_ok hr
  obtain ⟨b, s1, h1, e1, hr⟩ := hr
  obtain ⟨i1, _, r1⟩ := (ESem.callM (K := K) h0 hasErrors_src).ev hi trivial e1
  cases b with
  | true =>
    obtain ⟨i2, q2, r2⟩ := hF.run i1 trivial hr
    exact ⟨i2, q2, RunTo.ite (.or_t r1 rfl) (truth_ofBool _) r2⟩
  | false =>
    replace hr := P_bind_eq_ok hr
    obtain ⟨v, s2, h2, e2, hr⟩ := hr
    obtain ⟨i2, _, r2⟩ := hc.ev i1 trivial e2
    have r3 := EvalTo.or_f r1 rfl r2 (truth_ofBool _)
    by_cases hv : v = 0
    · rw [if_pos hv] at hr
      obtain ⟨i3, q3, r4⟩ := hF.run i2 trivial hr
      refine ⟨i3, q3, RunTo.ite r3 (truth_ofBool _) ?_⟩
      rw [if_pos (by simp [hv])]
      exact r4
    · rw [if_neg hv] at hr
      have e2' := e2
      obtain ⟨_, rfl, rfl, _⟩ := readPtr_eq_ok e2'
      obtain ⟨i3, q3, r4⟩ := hk.run i2 trivial (by rw [P.bind_ok e2]; exact hr)
      refine ⟨i3, q3, RunTo.ite r3 (truth_ofBool _) ?_⟩
      rw [if_neg (by simp [hv])]
      exact r4

/-! ## `sml_proc_par_value` -/

theorem procParValueInit_src : InitSpec .sml_proc_par_value_init (.struct [0, 0] []) :=
  InitSpec.of [0, 0] [] rfl rfl rfl (by simp) (fun _ _ _ => rfl) (fun _ _ _ => rfl)

theorem procParValueParse_src : ParseSpec .sml_proc_par_value_parse pProcParValueParse := by
  refine ParseSpec.of rfl rfl fun K => ?_
  unfold pProcParValueParse pOptional
  refine Sem.opt (by rfl) rfl (fun _ => trivial) (Sem.init procParValueInit_src fun a => ?_)
  have errs : ∀ {pre} ss, Sem K (program .sml_proc_par_value_parse).body ([.goto 0] ++ ss) (upd (envOf [K.buf]) 1 (ptrVal a)) pre (pAbort pProcParValueFree a 0) ptrVal anyRes :=
    fun ss => Sem.goto rfl (Sem.freeRet (by rfl) procParValueFree_src rfl)
  refine Sem.expectList (by rfl) 2 (by omega) errs ?_
  refine Sem.stPtr (k := fun _ => lift hasErrors >>= fun b => if b then _ else _) (ESem.number (type := 96) (max := 1) (by rfl) (by omega) (by omega) (by omega)) (by rfl) fun _ => ?_
  refine Sem.errOrNull (by rfl) (ESem.isNull (a := a) (by rfl)) (errs _) ?_
  rw [← P_bind_assoc]
  refine Sem.switch (ESem.deref (w := 1) (ESem.ldPtr (a := a) (by rfl)) rfl conv_u8_nat) (fun _ => rfl) fun t => ?_
  have ok : ∀ {f p}, ParseSpec f p → Sem K (program .sml_proc_par_value_parse).body
      [.stPtr (.var 1) 1 (.call f [.var 0]), .ret (.var 1), .label 0, .expr (.call .sml_proc_par_value_free [.var 1]), .ret .null]
      (upd (envOf [K.buf]) 1 (ptrVal a)) anySt (p >>= fun d => writePtr a 1 d >>= fun _ => pure a) ptrVal anyRes :=
    fun hf => Sem.stPtr (ESem.callBuf (by rfl) hf) (by rfl) fun _ => Sem.retPtr (by rfl)
  split
  · rename_i h1
    rw [h1]
    exact ⟨[.stPtr (.var 1) 1 (.call .sml_value_parse [.var 0])], ⟨rfl, .inr ⟨_, rfl⟩⟩, ok valueParse_src⟩
  split
  · rename_i h1
    rw [h1]
    exact ⟨[.stPtr (.var 1) 1 (.call .sml_period_entry_parse [.var 0])], ⟨rfl, .inr ⟨_, rfl⟩⟩, ok periodEntryParse_src⟩
  split
  · rename_i h1
    rw [h1]
    exact ⟨[.stPtr (.var 1) 1 (.call .sml_tupel_entry_parse [.var 0])], ⟨rfl, .inr ⟨_, rfl⟩⟩, ok tupelEntryParse_src⟩
  split
  · rename_i h1
    rw [h1]
    exact ⟨[.stPtr (.var 1) 1 (.call .sml_time_parse [.var 0])], ⟨rfl, .inr ⟨_, rfl⟩⟩, ok timeParse_src⟩
  refine ⟨[.stInt .i32 (.var 0) 2 (.lit .i32 1), .goto 0], ⟨rfl, .inl (pick_dflt ?_)⟩, Sem.setErr (by rfl) (errs _)⟩
  simp only [hasCase, Bool.or_eq_false_iff, decide_eq_false_iff_not, and_true]
  omega

/-! ## Trees -/

/-- `if (!sml_buf_optional_is_skipped(buf)) A` -/
theorem Sem.notOpt {k k' : P β} (h0 : env 0 = K.buf) (hk : Sem K body ss env anySt k vl post) (hA : Sem K body (A ++ ss) env anySt k' vl post) :
    Sem K body (.ite (.not (.call .sml_buf_optional_is_skipped [.var 0])) A [] :: ss) env pre (lift optionalIsSkipped >>= fun b => if b then k else k') vl post := by
  intro st h hi hp b st' h' hr
  replace hr := P_bind_eq_ok hr
  obtain ⟨c, s, h1, e, hr⟩ := hr
  obtain ⟨rfl, t, et, rfl⟩ := opt_eq_ok e
  have el : lift optCode st h1 = .ok t s h1 := by unfold lift; rw [et]
  obtain ⟨i1, _, r1⟩ := (ESem.callM (K := K) h0 optCode_src).ev hi trivial el
  have r2 := EvalTo.not r1 truth_ne0
  by_cases ht : t = 0
  · rw [if_neg (by simp [ht])] at hr
    obtain ⟨i2, q2, r3⟩ := hA.run i1 trivial hr
    refine ⟨i2, q2, RunTo.ite r2 (truth_ofBool _) ?_⟩
    rw [if_pos (by simp [ht])]
    exact r3
  · rw [if_pos (by simp [ht])] at hr
    obtain ⟨i2, q2, r3⟩ := hk.run i1 trivial hr
    refine ⟨i2, q2, RunTo.ite r2 (truth_ofBool _) ?_⟩
    rw [if_neg (by simp [ht])]
    exact r3

theorem treeInit_src : InitSpec .sml_tree_init (.struct [0, 0, 0] [0]) :=
  InitSpec.of [0, 0, 0] [0] rfl rfl rfl (by simp) (fun _ _ _ => rfl) (fun _ _ _ => rfl)

theorem treeParse_src : (depth : Nat) → ParseSpec .sml_tree_parse (pTreeParse depth)
  | 0 => by
    intro K st h _ _ b st' h' hr
    cases hr
  | depth + 1 => by
    have ih := treeParse_src depth
    refine ParseSpec.of rfl rfl fun K => ?_
    unfold pTreeParse pOptional
    refine Sem.opt (by rfl) rfl (fun _ => trivial) (Sem.init treeInit_src fun tree => ?_)
    have errs : ∀ {pre} {env : Env}, env 1 = ptrVal tree → ∀ ss, Sem K (program .sml_tree_parse).body ([.goto 0] ++ ss) env pre
        (pAbort pTreeFree tree 0) ptrVal anyRes :=
      fun h1 ss => Sem.goto rfl (Sem.freeRet (z := 0) h1 treeFree_src rfl)
    refine Sem.expectList (by rfl) 3 (by omega) (errs (by rfl)) ?_
    refine Sem.field (by rfl) (by rfl) (ESem.callBuf (by rfl) octetStringParse_src) (errs (by rfl)) ?_
    refine Sem.field (by rfl) (by rfl) (ESem.callBuf (by rfl) procParValueParse_src) (errs (by rfl)) ?_
    refine Sem.notOpt (by rfl) (Sem.retPtr (by rfl)) ?_
    refine Sem.type (by rfl) 112 (by omega) (Sem.setErr (by rfl) (errs (by rfl) _)) ?_
    refine Sem.setLength (by rfl) fun l l1 l2 => ?_
    refine Sem.down (q := pTreeLoop (pTreeParse depth) tree) (U := fun env => env 0 = K.buf ∧ env 1 = ptrVal tree) rfl ?_ ?_ ?_
      l.toNat _ l ⟨rfl, rfl⟩ (by rfl) rfl (by omega) (by omega)
    · intro env v u
      exact ⟨(upd_other (by decide)).trans u.1, (upd_other (by decide)).trans u.2⟩
    · intro env u
      exact Sem.retPtr u.2
    · intro n env R u hk
      refine Sem.step (SSem.setPtr (ESem.callBuf u.1 ih)) fun s => ?_
      have e0 : upd env 2 (ptrVal s) 0 = K.buf := (upd_other (by decide)).trans u.1
      have e1 : upd env 2 (ptrVal s) 1 = ptrVal tree := (upd_other (by decide)).trans u.2
      refine Sem.hasErr e0 ?_ ?_
      · refine Sem.weaken (pre' := anySt) ?_ fun _ _ => trivial
        refine Sem.iteVar upd_same ?_ ?_
        · intro hs
          rw [if_pos hs]
          exact Sem.step (SSem.expr (ESem.callVar upd_same (treeFree_src s))) fun _ => errs e1 _
        · intro hs
          rw [if_neg (by simp [hs])]
          exact errs e1 _
      · refine Sem.iteVar upd_same ?_ ?_
        · intro hs
          rw [if_pos hs]
          exact Sem.add (p := fun s e => pArrayAdd s 2 e) treeAdd_src e1 upd_same (hk _ ⟨e0, e1⟩ (upd_other (by decide)))
        · intro hs
          rw [if_neg (by simp [hs])]
          exact hk _ ⟨e0, e1⟩ (upd_other (by decide))

/-! ## Message bodies with a tree -/

theorem procParameterResponseInit_src : InitSpec .sml_get_proc_parameter_response_init (.struct [0, 0, 0] []) :=
  InitSpec.of [0, 0, 0] [] rfl rfl rfl (by simp) (fun _ _ _ => rfl) (fun _ _ _ => rfl)

theorem procParameterResponseParse_src (depth : Nat) : ParseSpec .sml_get_proc_parameter_response_parse (pGetProcParameterResponseParse depth) := by
  refine ParseSpec.of rfl rfl fun K => ?_
  unfold pGetProcParameterResponseParse
  refine Sem.init procParameterResponseInit_src fun a => ?_
  exact Sem.struct (by rfl) (by rfl) (Sem.abort rfl (by rfl) procParameterResponseFree_src rfl) 3 (by omega)
    (.cons (.call octetStringParse_src) <|
      .cons (.call treePathParse_src) <|
      .cons (.call (treeParse_src depth)) <|
      .nil)

theorem setProcParameterRequestInit_src : InitSpec .sml_set_proc_parameter_request_init (.struct [0, 0, 0, 0, 0] []) :=
  InitSpec.of [0, 0, 0, 0, 0] [] rfl rfl rfl (by simp) (fun _ _ _ => rfl) (fun _ _ _ => rfl)

theorem setProcParameterRequestParse_src (depth : Nat) : ParseSpec .sml_set_proc_parameter_request_parse (pSetProcParameterRequestParse depth) := by
  refine ParseSpec.of rfl rfl fun K => ?_
  unfold pSetProcParameterRequestParse
  refine Sem.init setProcParameterRequestInit_src fun a => ?_
  exact Sem.struct (by rfl) (by rfl) (Sem.abort rfl (by rfl) setProcParameterRequestFree_src rfl) 5 (by omega)
    (.cons (.call octetStringParse_src) <|
      .cons (.call octetStringParse_src) <|
      .cons (.call octetStringParse_src) <|
      .cons (.call treePathParse_src) <|
      .cons (.call (treeParse_src depth)) <|
      .nil)

theorem attentionResponseInit_src : InitSpec .sml_attention_response_init (.struct [0, 0, 0, 0] []) :=
  InitSpec.of [0, 0, 0, 0] [] rfl rfl rfl (by simp) (fun _ _ _ => rfl) (fun _ _ _ => rfl)

theorem attentionResponseParse_src (depth : Nat) : ParseSpec .sml_attention_response_parse (pAttentionResponseParse depth) := by
  refine ParseSpec.of rfl rfl fun K => ?_
  unfold pAttentionResponseParse
  refine Sem.init attentionResponseInit_src fun a => ?_
  exact Sem.struct (by rfl) (by rfl) (Sem.abort rfl (by rfl) attentionResponseFree_src rfl) 4 (by omega)
    (.cons (.call octetStringParse_src) <|
      .cons (.call octetStringParse_src) <|
      .cons (.call octetStringParse_src) <|
      .cons (.call (treeParse_src depth)) <|
      .nil)

/-! ## `sml_get_profile_pack_request` -/

theorem read_written (hw : writePtr a i n st h = .ok u st' h') : readPtr a i st' h' = .ok n st' h' := by
  obtain ⟨ha, rfl, ps, is, hc, hl, rfl⟩ := writePtr_eq_ok hw
  refine readPtr_ok ha (ps := ps.set i n) (is := is) ?_ ?_
  · simp only [setCell, if_true]
  · rw [List.getElem?_set_self hl]

/-- The value just written is read back. -/
theorem Sem.readBack {k : Addr → P β} (hk : Sem K body ss env pre (writePtr a i n >>= fun _ => readPtr a i >>= k) vl post) :
    Sem K body ss env pre (writePtr a i n >>= fun _ => k n) vl post := by
  refine Sem.of_run fun st h b st' h' _ _ hr => ⟨_, ?_, hk⟩
  obtain ⟨u, s1, h1, e1, e2⟩ := P_bind_eq_ok hr
  rw [P.bind_ok e1, P.bind_ok (read_written e1)]
  exact e2

/-- A member is read twice. -/
theorem Sem.reread {k : Addr → P β} (hk : Sem K body ss env pre (readPtr a i >>= fun v => if v ≠ 0 then readPtr a i >>= k else k') vl post) :
    Sem K body ss env pre (readPtr a i >>= fun v => if v ≠ 0 then k v else k') vl post := by
  refine Sem.of_run fun st h b st' h' _ _ hr => ⟨_, ?_, hk⟩
  obtain ⟨v, s1, h1, e1, e2⟩ := P_bind_eq_ok hr
  have e1' := e1
  obtain ⟨_, rfl, rfl, _⟩ := readPtr_eq_ok e1'
  rw [P.bind_ok e1]
  by_cases hv : v ≠ 0
  · rw [if_pos hv] at e2 ⊢
    rw [P.bind_ok e1]
    exact e2
  · rw [if_neg hv] at e2 ⊢
    exact e2

/-- `for (...; x > 0; x--) B` where `B` keeps `U t` for some `t`. -/
theorem Sem.downWith {q : Nat → τ → P β} {U : τ → Env → Prop} {x : Nat} (hb : noBrks B = true) (hU : ∀ t env v, U t env → U t (upd env x v))
    (hd : ∀ t env, U t env → Sem K body ss env anySt (q 0 t) vl post)
    (hs : ∀ n t env R, U t env → (∀ t' env', U t' env' → env' x = env x → Sem K body R env' anySt (q n t') vl post) → Sem K body (B ++ R) env anySt (q (n + 1) t) vl post) :
    (n : Nat) → ∀ t env (l : Int), U t env → env x = .int .i32 l → l.toNat = n → -2147483648 ≤ l → l < 2147483648 →
      Sem K body (.loop (.bin .gt (.var x) (.lit .i32 0)) B [.set .i32 x (.bin .sub (.var x) (.lit .i32 1))] :: ss) env anySt (q n t) vl post := by
  intro n
  induction n with
  | zero =>
    intro t env l u hx hl l1 l2
    refine Sem.loop hb rfl (Sem.iteM (b := false) (fun m => .bin (.int hx) .lit (bin_gt_i32 ⟨l1, l2⟩ (by omega))) (fun m => truth_neg (by omega)) ?_)
    exact hd t env u
  | succ n ih =>
    intro t env l u hx hl l1 l2
    refine Sem.loop hb rfl (Sem.iteM (b := true) (fun m => .bin (.int hx) .lit (bin_gt_i32 ⟨l1, l2⟩ (by omega))) (fun m => truth_pos (by omega)) ?_)
    simp only [if_true, List.append_assoc]
    refine hs n t env _ u fun t' env' u' hx' => ?_
    refine Sem.vars (exec_decr (hx'.trans hx) (by omega) (by omega)) ?_
    exact ih t' _ (l - 1) (hU _ _ _ u') upd_same (by omega) (by omega) (by omega)

theorem packRequestInit_src : InitSpec .sml_get_profile_pack_request_init (.struct [0, 0, 0, 0, 0, 0, 0, 0, 0] []) :=
  InitSpec.of [0, 0, 0, 0, 0, 0, 0, 0, 0] [] rfl rfl rfl (by simp) (fun _ _ _ => rfl) (fun _ _ _ => rfl)

theorem packRequestParse_src (depth : Nat) : ParseSpec .sml_get_profile_pack_request_parse (pGetProfilePackRequestParse depth) := by
  refine ParseSpec.of rfl rfl fun K => ?_
  unfold pGetProfilePackRequestParse
  refine Sem.init packRequestInit_src fun a => ?_
  have errs : ∀ {pre} {env : Env}, env 1 = ptrVal a → ∀ ss, Sem K (program .sml_get_profile_pack_request_parse).body ([.goto 0] ++ ss) env pre
      (pAbort pGetProfilePackRequestFree a 0) ptrVal anyRes :=
    fun h1 ss => Sem.goto rfl (Sem.freeRet (z := 0) h1 packRequestFree_src rfl)
  have rest : ∀ {env : Env} ss, env 0 = K.buf → env 1 = ptrVal a → Sem K (program .sml_get_profile_pack_request_parse).body
      (.stPtr (.var 1) 8 (.call .sml_tree_parse [.var 0]) :: .ite (.call .sml_buf_has_errors [.var 0]) [.goto 0] [] :: .ret (.var 1) :: ss) env anySt
      (pField (pTreeParse depth) a 8 (pAbort pGetProfilePackRequestFree a 0) (pure a)) ptrVal anyRes :=
    fun ss h0 h1 => Sem.field h0 h1 (ESem.callBuf h0 (treeParse_src depth)) (errs h1) (Sem.retPtr h1)
  refine Sem.expectList (by rfl) 9 (by omega) (errs (by rfl)) ?_
  refine Sem.fields (a := a) (x := 1) (F := [.goto 0]) (es := [.call .sml_octet_string_parse [.var 0], .call .sml_octet_string_parse [.var 0], .call .sml_octet_string_parse [.var 0],
    .call .sml_boolean_parse [.var 0], .call .sml_time_parse [.var 0], .call .sml_time_parse [.var 0], .call .sml_tree_path_parse [.var 0]])
    (ps := [pOctetStringParse, pOctetStringParse, pOctetStringParse, pBooleanParse, pTimeParse, pTimeParse, pTreePathParse])
    (by rfl) (by rfl) (errs (by rfl)) ?_ (.cons (.call octetStringParse_src) (.cons (.call octetStringParse_src) (.cons (.call octetStringParse_src)
    (.cons (.call booleanParse_src) (.cons (.call timeParse_src) (.cons (.call timeParse_src) (.cons (.call treePathParse_src) .nil))))))) 0
  refine Sem.notOpt (by rfl) (rest _ (by rfl) (by rfl)) ?_
  refine Sem.type (by rfl) 112 (by omega) (Sem.setErr (by rfl) (errs (by rfl) _)) ?_
  refine Sem.setLength (by rfl) fun l l1 l2 => ?_
  refine Sem.vars (fun m => .setPtr .null) (Sem.vars (fun m => .setPtr .null) (Sem.vars (fun m => .set (.int (by rfl)) (conv_i32 l1 l2)) ?_))
  refine Sem.downWith (q := fun n last => pObjectListLoop a _ _ n last) (U := fun last env => env 0 = K.buf ∧ env 1 = ptrVal a ∧ env 4 = ptrVal last) rfl ?_ ?_ ?_
    l.toNat 0 _ l ⟨rfl, rfl, rfl⟩ (by rfl) rfl (by omega) (by omega)
  · intro last env v u
    exact ⟨(upd_other (by decide)).trans u.1, (upd_other (by decide)).trans u.2.1, (upd_other (by decide)).trans u.2.2⟩
  · intro last env u
    exact rest _ u.1 u.2.1
  · intro n last env R u hk
    unfold pObjectListLoop
    refine Sem.mallocRec [0, 0] [] (by simp) (fun _ _ _ => rfl) (fun _ _ _ => rfl) fun e => ?_
    have e0 : upd env 5 (ptrVal e) 0 = K.buf := (upd_other (by decide)).trans u.1
    have e1 : upd env 5 (ptrVal e) 1 = ptrVal a := (upd_other (by decide)).trans u.2.1
    have e4 : upd env 5 (ptrVal e) 4 = ptrVal last := (upd_other (by decide)).trans u.2.2
    have e2 : upd env 5 (ptrVal e) 2 = env 2 := upd_other (by decide)
    refine Sem.stPtr (ESem.callBuf e0 octetStringParse_src) upd_same fun s => ?_
    refine Sem.hasErr e0 ?_ ?_
    · refine Sem.weaken (pre' := anySt) ?_ fun _ _ => trivial
      have hF : ∀ ss, Sem K (program .sml_get_profile_pack_request_parse).body (.free (.var 5) :: .goto 0 :: ss) (upd env 5 (ptrVal e)) anySt
          (free e >>= fun _ => pAbort pGetProfilePackRequestFree a 0) ptrVal anyRes := fun ss => Sem.freeVar upd_same (errs e1 ss)
      have : ∀ v, ((if v ≠ 0 then pOctetStringFree v else pure () : P Unit) >>= fun _ => free e >>= fun _ => pAbort pGetProfilePackRequestFree a 0) =
          if v ≠ 0 then pOctetStringFree v >>= fun _ => free e >>= fun _ => pAbort pGetProfilePackRequestFree a 0 else free e >>= fun _ => pAbort pGetProfilePackRequestFree a 0 := by
        intro v
        split <;> rfl
      simp only [this]
      refine Sem.reread (Sem.iteLd upd_same (fun v hv => ?_) fun v hv => ?_)
      · rw [if_pos hv]
        exact Sem.freeField upd_same octetStringFree_src (hF _)
      · rw [if_neg (by simp [hv])]
        exact hF _
    · refine Sem.ite (ESem.eqNull e1) (fun _ => ofBool_ne) (fun v hv => ?_) fun v hv => ?_
      · rw [isTrue_ofBool, decide_eq_true_eq] at hv
        rw [if_pos hv]
        refine Sem.readBack ?_
        refine Sem.stPtr (p := pure e) (k := fun _ => readPtr a 7 >>= _) (ESem.pure fun _ _ => eval_var upd_same) e1 fun _ => ?_
        refine Sem.step (SSem.setPtr (ESem.ldPtr e1)) fun w => ?_
        exact hk w _ ⟨(upd_other (by decide)).trans e0, (upd_other (by decide)).trans e1, upd_same⟩ ((upd_other (by decide)).trans e2)
      · rw [isTrue_ofBool, decide_eq_false_iff_not] at hv
        rw [if_neg hv]
        refine Sem.stPtr (p := pure e) (k := fun _ => pObjectListLoop a _ _ n e) (ESem.pure fun _ _ => eval_var upd_same) e4 fun _ => ?_
        refine Sem.vars (fun m => .setPtr (.ptr upd_same)) ?_
        exact hk e _ ⟨(upd_other (by decide)).trans e0, (upd_other (by decide)).trans e1, upd_same⟩ ((upd_other (by decide)).trans e2)

end Sml.C
