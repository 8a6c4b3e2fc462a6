import Verif.Proofs.SourceParse

/-!
# `sml_time_parse` from its source
-/

namespace Sml.C

/-- A number is read into a new cell; the other cells stay as they are. -/
theorem numberParse_cell {type max : Nat} {r : Addr} (hr : pNumberParse type max st h = .ok r st' h') :
    h.next ≤ h'.next ∧ (∀ a, a < h.next → h'.cells a = h.cells a) ∧ (r ≠ 0 → r < h'.next ∧ ∃ v, h'.cells r = some (.num { size := max, val := v })) := by
  have none : ∀ {h : Heap}, (h.next ≤ h.next ∧ (∀ a, a < h.next → h.cells a = h.cells a) ∧ ((0 : Nat) ≠ 0 → 0 < h.next ∧ ∃ v, h.cells 0 = some (.num { size := max, val := v }))) :=
    fun {h} => ⟨Nat.le_refl _, fun _ _ => rfl, fun h => absurd rfl h⟩
  have freed : ∀ {s : St} {h : Heap}, (lift setError >>= fun _ => free h.next >>= fun _ => (pure 0 : P Addr)) s (grown h (.num { size := max, val := 0 })) = .ok r st' h' →
      h.next ≤ h'.next ∧ (∀ a, a < h.next → h'.cells a = h.cells a) ∧ (r ≠ 0 → r < h'.next ∧ ∃ v, h'.cells r = some (.num { size := max, val := v })) := by
    intro s h hr
    replace hr := P_bind_eq_ok hr
    obtain ⟨_, s1, h1, e1, hr⟩ := hr
    obtain ⟨rfl, rfl⟩ := setError_eq_ok e1
    replace hr := P_bind_eq_ok hr
    obtain ⟨_, s2, h2, e2, hr⟩ := hr
    cases hr
    unfold free at e2
    split at e2
    · cases e2
      refine ⟨Nat.le_succ _, fun a ha => ?_, fun h => absurd rfl h⟩
      simp only [setCell, grown]
      rw [if_neg (by omega)]
    · split at e2
      · cases e2
        refine ⟨Nat.le_succ _, fun a ha => ?_, fun h => absurd rfl h⟩
        simp only [setCell, grown]
        rw [if_neg (by omega), if_neg (by omega)]
      · cases e2
  unfold pNumberParse at hr
  replace hr := P_bind_eq_ok hr
  obtain ⟨skip, s1, h1, e1, hr⟩ := hr
  obtain ⟨_, rfl⟩ := lift_eq_ok e1
  split at hr
  · cases hr
    exact none
  replace hr := P_bind_eq_ok hr
  obtain ⟨s, s2, h2, e2, hr⟩ := hr
  obtain ⟨_, rfl⟩ := lift_eq_ok e2
  split at hr
  · replace hr := P_bind_eq_ok hr
    obtain ⟨_, s3, h3, e3, hr⟩ := hr
    obtain ⟨_, rfl⟩ := lift_eq_ok e3
    cases hr
    exact none
  replace hr := P_bind_eq_ok hr
  obtain ⟨t, s3, h3, e3, hr⟩ := hr
  obtain ⟨_, rfl⟩ := lift_eq_ok e3
  split at hr
  · replace hr := P_bind_eq_ok hr
    obtain ⟨_, s3, h3, e3, hr⟩ := hr
    obtain ⟨_, rfl⟩ := lift_eq_ok e3
    cases hr
    exact none
  replace hr := P_bind_eq_ok hr
  obtain ⟨l, s4, h4, e4, hr⟩ := hr
  obtain ⟨_, rfl⟩ := lift_eq_ok e4
  split at hr
  · replace hr := P_bind_eq_ok hr
    obtain ⟨_, s3, h3, e3, hr⟩ := hr
    obtain ⟨_, rfl⟩ := lift_eq_ok e3
    cases hr
    exact none
  replace hr := P_bind_eq_ok hr
  obtain ⟨np, s5, h5, e5, hr⟩ := hr
  obtain ⟨rfl, rfl, rfl⟩ : np = h4.next ∧ s5 = s4 ∧ h5 = grown h4 (.num { size := max, val := 0 }) := by cases e5; exact ⟨rfl, rfl, rfl⟩
  replace hr := P_bind_eq_ok hr
  obtain ⟨s, s6, h6, e6, hr⟩ := hr
  obtain ⟨_, rfl⟩ := lift_eq_ok e6
  split at hr
  · exact freed hr
  split at hr
  · exact freed hr
  replace hr := P_bind_eq_ok hr
  obtain ⟨b, s7, h7, e7, hr⟩ := hr
  obtain ⟨_, rfl⟩ := lift_eq_ok e7
  replace hr := P_bind_eq_ok hr
  obtain ⟨bs, s8, h8, e8, hr⟩ := hr
  obtain ⟨_, rfl⟩ := lift_eq_ok e8
  replace hr := P_bind_eq_ok hr
  obtain ⟨_, s9, h9, e9, hr⟩ := hr
  obtain ⟨_, rfl, _, rfl⟩ := store_eq_ok e9
  rw [grown_set] at hr
  replace hr := P_bind_eq_ok hr
  obtain ⟨_, s10, h10, e10, hr⟩ := hr
  obtain ⟨_, rfl⟩ := lift_eq_ok e10
  cases hr
  refine ⟨Nat.le_succ _, fun a ha => ?_, fun h0 => ⟨Nat.lt_succ_self _, _, grown_cell⟩⟩
  simp only [setCell, grown]
  rw [if_neg (by omega)]

/-- Every number of the size can be read. -/
theorem load_num {ty : ITy} (hi : Inv K st h) (ha : a ≠ 0) (hc : h.cells a = some (.num { size := ty.size, val := v })) :
    ∃ w, loadNum ty (ptrVal a) env (conc K st h) = .ok (.int ty w) env (conc K st h) := by
  refine ⟨ty.conv (leNat (leBytes ty.size v) : Nat), ?_⟩
  rw [loadNum, X_bind_ok (loadBytes_raw' (cs := leBytes ty.size v) (getBlock_cell hi ha hc) ?_ ?_)]
  · rfl
  · rw [List.length_map, leBytes_length]
    exact Nat.le_of_eq (Nat.zero_add _)
  · rw [List.drop_zero, List.take_of_length_le]
    rw [List.length_map, leBytes_length]
    exact Nat.le_refl _

/-- `t ? *t : 0` -/
theorem ev_show {ty : ITy} (hi : Inv K st h) (hx : env x = ptrVal a) (hc : a ≠ 0 → ∃ v, h.cells a = some (.num { size := ty.size, val := v })) :
    ∃ w, EvalTo (.cond (.var x) (.deref ty (.var x)) (.lit .i32 0)) env (conc K st h) w env (conc K st h) := by
  by_cases h0 : a = 0
  · subst h0
    exact ⟨_, .cond (t := false) (.ptr hx) rfl .lit⟩
  · obtain ⟨v, hv⟩ := hc h0
    obtain ⟨w, hw⟩ := load_num (env := env) hi h0 hv
    exact ⟨_, .cond (t := true) (.ptr hx) (truth_ptr h0) (.deref (.ptr hx) hw)⟩

/-- `if (t) sml_number_free(t);` -/
theorem Sem.guardNum {k : P β} (hx : env x = ptrVal a) (hk : Sem K body ss env anySt k vl post) :
    Sem K body (.ite (.var x) [.expr (.call .sml_number_free [.var x])] [] :: ss) env pre (pNumberFree a >>= fun _ => k) vl post := by
  refine Sem.weaken (pre' := anySt) ?_ fun _ _ => trivial
  refine Sem.iteVar hx (fun h0 => ?_) (fun h0 => ?_)
  · exact Sem.step (SSem.expr (ESem.callVar hx (numberFree_src a))) fun _ => hk
  · unfold pNumberFree
    rw [if_neg (by simp [h0]), P_pure_bind]
    exact hk

/-- A number read from the buffer. -/
theorem ESem.number {type max : Nat} (h0 : env 0 = K.buf) (ht : type < 256) (h1 : 1 ≤ max) (h2 : max ≤ 127) :
    ESem K (.call .sml_number_parse [.var 0, .lit .i32 type, .lit .u64 max]) env anySt (pNumberParse type max) ptrVal anyRes :=
  ESem.call (as := fun K => [K.buf, .int .i32 type, .int .u64 max]) (fun _ _ => evals_cons (eval_of h0 ptr_ne) (evals_cons rfl (evals_cons rfl evals_nil)))
    (numberParse_src .i32 .u64 ht h1 h2)

theorem timeInit_src : InitSpec .sml_time_init (.struct [0, 0] []) :=
  InitSpec.of [0, 0] [] rfl rfl rfl (by simp) (fun _ _ _ => rfl) fun _ _ _ => rfl

/-- The statements for a time with an offset: three numbers, which are read, shown and freed again. -/
def listStmts : List Stmt := [
  .expr (.call .sml_buf_get_next_length [.var 0]),
  .setPtr 3 (.call .sml_number_parse [.var 0, .lit .i32 96, .lit .u64 4]),
  .ite (.call .sml_buf_has_errors [.var 0]) [
    .ite (.var 3) [.expr (.call .sml_number_free [.var 3])] [],
    .goto 0] [],
  .setPtr 4 (.call .sml_number_parse [.var 0, .lit .i32 80, .lit .u64 2]),
  .ite (.call .sml_buf_has_errors [.var 0]) [
    .ite (.var 3) [.expr (.call .sml_number_free [.var 3])] [],
    .ite (.var 4) [.expr (.call .sml_number_free [.var 4])] [],
    .goto 0] [],
  .setPtr 5 (.call .sml_number_parse [.var 0, .lit .i32 80, .lit .u64 2]),
  .ite (.call .sml_buf_has_errors [.var 0]) [
    .ite (.var 3) [.expr (.call .sml_number_free [.var 3])] [],
    .ite (.var 4) [.expr (.call .sml_number_free [.var 4])] [],
    .ite (.var 5) [.expr (.call .sml_number_free [.var 5])] [],
    .goto 0] [],
  .print [.cond (.var 3) (.deref .u32 (.var 3)) (.lit .i32 0), .cond (.var 4) (.deref .i16 (.var 4)) (.lit .i32 0), .cond (.var 5) (.deref .i16 (.var 5)) (.lit .i32 0)],
  .ite (.var 3) [.expr (.call .sml_number_free [.var 3])] [],
  .ite (.var 4) [.expr (.call .sml_number_free [.var 4])] [],
  .ite (.var 5) [.expr (.call .sml_number_free [.var 5])] []]

/-- The corresponding part of the model. -/
def pTimeList (tme : Addr) : P Addr :=
  lift getNextLength >>= fun _ =>
  pU32Parse >>= fun t1 =>
  lift hasErrors >>= fun b => if b then pNumberFree t1 >>= fun _ => pAbort pTimeFree tme 0 else
  pI16Parse >>= fun t2 =>
  lift hasErrors >>= fun b => if b then pNumberFree t1 >>= fun _ => pNumberFree t2 >>= fun _ => pAbort pTimeFree tme 0 else
  pI16Parse >>= fun t3 =>
  lift hasErrors >>= fun b => if b then pNumberFree t1 >>= fun _ => pNumberFree t2 >>= fun _ => pNumberFree t3 >>= fun _ => pAbort pTimeFree tme 0 else
  pNumberFree t1 >>= fun _ => pNumberFree t2 >>= fun _ => pNumberFree t3 >>= fun _ => pure tme

theorem hasErrors_eq_ok (hr : lift hasErrors st h = .ok b st' h') : st' = st ∧ h' = h ∧ b = st.error := by
  obtain ⟨e, rfl⟩ := lift_eq_ok hr
  cases e
  exact ⟨rfl, rfl, rfl⟩

theorem timeList_src (K : Ctx) (env : Env) (h0 : env 0 = K.buf) (h1 : env 1 = ptrVal a) :
    Sem K (program .sml_time_parse).body (listStmts ++ [.ret (.var 1), .label 0, .expr (.call .sml_time_free [.var 1]), .ret .null]) env anySt (pTimeList a) ptrVal anyRes := by
  have errs : ∀ env : Env, env 1 = ptrVal a → ∀ ss, Sem K (program .sml_time_parse).body ([.goto 0] ++ ss) env anySt (pAbort pTimeFree a 0) ptrVal anyRes :=
    fun env h1 ss => Sem.goto rfl (Sem.freeRet (z := 0) h1 timeFree_src rfl)
  intro st h hi _ r st' h' hr
  unfold pTimeList at hr
  replace hr := P_bind_eq_ok hr
  obtain ⟨l, s1, g1, e1, hr⟩ := hr
  obtain ⟨i1, _, c1⟩ := (ESem.callM (K := K) h0 getNextLength_src).ev hi trivial e1
  replace hr := P_bind_eq_ok hr
  obtain ⟨t1, s2, g2, e2, hr⟩ := hr
  obtain ⟨i2, _, c2⟩ := (ESem.number (K := K) (env := env) (type := 96) (max := 4) h0 (by omega) (by omega) (by omega)).ev i1 trivial e2
  obtain ⟨n2, f2, v2⟩ := numberParse_cell e2
  let E1 := upd env 3 (ptrVal t1)
  have hE1 : E1 0 = K.buf := (upd_other (by decide)).trans h0
  have hE11 : E1 1 = ptrVal a := (upd_other (by decide)).trans h1
  replace hr := P_bind_eq_ok hr
  obtain ⟨b, s3, g3, e3, hr⟩ := hr
  obtain ⟨i3, _, c3⟩ := (ESem.callM (K := K) (env := E1) hE1 hasErrors_src).ev i2 trivial e3
  obtain ⟨rfl, rfl, hb⟩ := hasErrors_eq_ok e3
  cases b with
  | true =>
    obtain ⟨i4, q4, r4⟩ := (Sem.guardNum (K := K) (env := E1) (x := 3) (pre := anySt) upd_same (errs E1 hE11 _)).run i3 trivial hr
    exact ⟨i4, q4, RunTo.cons (.expr c1) (.cons (.setPtr c2) (.ite c3 (b := true) rfl r4))⟩
  | false =>
  simp only [Bool.false_eq_true, if_false] at hr
  suffices hs : Inv K st' h' ∧ RunTo (program .sml_time_parse).body (listStmts.drop 3 ++ [.ret (.var 1), .label 0, .expr (.call .sml_time_free [.var 1]), .ret .null]) E1
      (conc K s3 g3) (ptrVal r) (conc K st' h') by
    exact ⟨hs.1, trivial, RunTo.cons (.expr c1) (.cons (.setPtr c2) (.ite c3 (b := false) rfl hs.2))⟩
  clear c1 c2 c3 e1 e2 e3 hb
  replace hr := P_bind_eq_ok hr
  obtain ⟨t2, s4, g4, e4, hr⟩ := hr
  obtain ⟨i4, _, c4⟩ := (ESem.number (K := K) (env := E1) (type := 80) (max := 2) hE1 (by omega) (by omega) (by omega)).ev i3 trivial e4
  obtain ⟨n4, f4, v4⟩ := numberParse_cell e4
  let E2 := upd E1 4 (ptrVal t2)
  have hE2 : E2 0 = K.buf := (upd_other (by decide)).trans hE1
  have hE21 : E2 1 = ptrVal a := (upd_other (by decide)).trans hE11
  have hE23 : E2 3 = ptrVal t1 := (upd_other (by decide)).trans upd_same
  replace hr := P_bind_eq_ok hr
  obtain ⟨b, s5, g5, e5, hr⟩ := hr
  obtain ⟨i5, _, c5⟩ := (ESem.callM (K := K) (env := E2) hE2 hasErrors_src).ev i4 trivial e5
  obtain ⟨rfl, rfl, hb⟩ := hasErrors_eq_ok e5
  cases b with
  | true =>
    obtain ⟨i6, q6, r6⟩ := (Sem.guardNum (K := K) (env := E2) (x := 3) (pre := anySt) hE23 (Sem.guardNum (x := 4) upd_same (errs E2 hE21 _))).run i5 trivial hr
    exact ⟨i6, RunTo.cons (.setPtr c4) (.ite c5 (b := true) rfl r6)⟩
  | false =>
  simp only [Bool.false_eq_true, if_false] at hr
  suffices hs : Inv K st' h' ∧ RunTo (program .sml_time_parse).body (listStmts.drop 5 ++ [.ret (.var 1), .label 0, .expr (.call .sml_time_free [.var 1]), .ret .null]) E2
      (conc K s5 g5) (ptrVal r) (conc K st' h') by
    exact ⟨hs.1, RunTo.cons (.setPtr c4) (.ite c5 (b := false) rfl hs.2)⟩
  clear c4 c5 e4 e5 hb
  replace hr := P_bind_eq_ok hr
  obtain ⟨t3, s6, g6, e6, hr⟩ := hr
  obtain ⟨i6, _, c6⟩ := (ESem.number (K := K) (env := E2) (type := 80) (max := 2) hE2 (by omega) (by omega) (by omega)).ev i5 trivial e6
  obtain ⟨n6, f6, v6⟩ := numberParse_cell e6
  let E3 := upd E2 5 (ptrVal t3)
  have hE3 : E3 0 = K.buf := (upd_other (by decide)).trans hE2
  have hE31 : E3 1 = ptrVal a := (upd_other (by decide)).trans hE21
  have hE33 : E3 3 = ptrVal t1 := (upd_other (by decide)).trans hE23
  have hE34 : E3 4 = ptrVal t2 := (upd_other (by decide)).trans upd_same
  have hE35 : E3 5 = ptrVal t3 := upd_same
  replace hr := P_bind_eq_ok hr
  obtain ⟨b, s7, g7, e7, hr⟩ := hr
  obtain ⟨i7, _, c7⟩ := (ESem.callM (K := K) (env := E3) hE3 hasErrors_src).ev i6 trivial e7
  obtain ⟨rfl, rfl, hb⟩ := hasErrors_eq_ok e7
  cases b with
  | true =>
    obtain ⟨i8, q8, r8⟩ := (Sem.guardNum (K := K) (env := E3) (x := 3) (pre := anySt) hE33 (Sem.guardNum (x := 4) hE34 (Sem.guardNum (x := 5) hE35 (errs E3 hE31 _)))).run i7 trivial hr
    exact ⟨i8, RunTo.cons (.setPtr c6) (.ite c7 (b := true) rfl r8)⟩
  | false =>
  simp only [Bool.false_eq_true, if_false] at hr
  obtain ⟨i8, q8, r8⟩ := (Sem.guardNum (K := K) (body := (program .sml_time_parse).body) (env := E3) (x := 3) (pre := anySt) (post := anyRes) hE33 (Sem.guardNum (x := 4) hE34 (Sem.guardNum (x := 5) hE35
    (Sem.retPtr (ss := [.label 0, .expr (.call .sml_time_free [.var 1]), .ret .null]) hE31)))).run i7 trivial hr
  obtain ⟨w1, x1⟩ := ev_show (ty := .u32) (x := 3) (env := E3) (a := t1) i7 hE33 fun h0 => by
    obtain ⟨hl, v, hv⟩ := v2 h0
    exact ⟨v, by rw [f6 _ (by omega), f4 _ hl, hv]; rfl⟩
  obtain ⟨w2, x2⟩ := ev_show (ty := .i16) (x := 4) (env := E3) (a := t2) i7 hE34 fun h0 => by
    obtain ⟨hl, v, hv⟩ := v4 h0
    exact ⟨v, by rw [f6 _ hl, hv]; rfl⟩
  obtain ⟨w3, x3⟩ := ev_show (ty := .i16) (x := 5) (env := E3) (a := t3) i7 hE35 fun h0 => by
    obtain ⟨hl, v, hv⟩ := v6 h0
    exact ⟨v, hv⟩
  exact ⟨i8, RunTo.cons (.setPtr c6) (.ite c7 (b := false) rfl (.cons (.print (.cons x1 (.cons x2 (.cons x3 .nil)))) r8))⟩

theorem timeData_src (K : Ctx) (env : Env) (h0 : env 0 = K.buf) (h1 : env 1 = ptrVal a) :
    Sem K (program .sml_time_parse).body ((program .sml_time_parse).body.drop 3) env anySt (pTimeParseData a) ptrVal anyRes := by
  have errs : ∀ env : Env, env 1 = ptrVal a → ∀ ss, Sem K (program .sml_time_parse).body ([.goto 0] ++ ss) env anySt (pAbort pTimeFree a 0) ptrVal anyRes :=
    fun env h1 ss => Sem.goto rfl (Sem.freeRet (z := 0) h1 timeFree_src rfl)
  unfold pTimeParseData
  refine Sem.step (E := fun t => upd env 2 (.int .i32 (t : Nat))) (SSem.set (vt := fun t => .int .i32 (t : Nat)) (ESem.callM h0 getNextType_src) ?_) fun t => ?_
  · intro t st env m ht
    simp only [convTo, asInt, X_bind, X_pure]
    rw [conv_i32 (by omega) (by omega)]
  refine Sem.weaken (pre' := anySt) ?_ fun _ _ => trivial
  have e0 : upd env 2 (.int .i32 (t : Nat)) 0 = K.buf := (upd_other (by decide)).trans h0
  have e1 : upd env 2 (.int .i32 (t : Nat)) 1 = ptrVal a := (upd_other (by decide)).trans h1
  rw [show tyUnsigned = 96 from rfl, show tyList = 112 from rfl]
  by_cases ht : t = 96
  · rw [if_pos ht]
    subst ht
    refine Sem.switchVar upd_same (A := [.stPtr (.var 1) 1 (.call .sml_number_parse [.var 0, .lit .i32 96, .lit .u64 4]), .ite (.call .sml_buf_has_errors [.var 0]) [.goto 0] []])
      ⟨rfl, .inr ⟨_, rfl⟩⟩ ?_
    exact Sem.field e0 e1 (ESem.number (type := 96) (max := 4) e0 (by omega) (by omega) (by omega)) (fun ss => (errs _ e1 ss).weaken fun _ _ => trivial) (Sem.retPtr e1)
  rw [if_neg ht]
  by_cases ht2 : t = 112
  · rw [if_pos ht2]
    subst ht2
    exact Sem.switchVar upd_same (A := listStmts) ⟨rfl, .inr ⟨_, rfl⟩⟩ (timeList_src K _ e0 e1)
  · rw [if_neg ht2]
    refine Sem.switchVar upd_same (A := [.goto 0]) ⟨rfl, .inl (pick_dflt ?_)⟩ (errs _ e1 _)
    simp only [hasCase, Bool.or_eq_false_iff, decide_eq_false_iff_not, and_true]
    omega

theorem timeParse_src : ParseSpec .sml_time_parse pTimeParse := by
  refine ParseSpec.of rfl rfl fun K => ?_
  unfold pTimeParse pOptional
  refine Sem.opt (by rfl) rfl (fun _ => trivial) ?_
  intro st h hi _ r st' h' hr
  replace hr := P_bind_eq_ok hr
  obtain ⟨a, s1, h1, e1, hr⟩ := hr
  obtain ⟨i1, _, c1⟩ := (ESem.call (K := K) (env := envOf [K.buf]) (args := []) (as := fun _ => []) (fun _ _ => evals_nil) timeInit_src).ev hi trivial e1
  cases e1
  let E := upd (envOf [K.buf]) 1 (ptrVal h.next)
  replace hr := P_bind_eq_ok hr
  obtain ⟨b, s2, h2, e2, hr⟩ := hr
  obtain ⟨i2, _, c2⟩ := (ESem.callM (K := K) (env := E) (by rfl) getCurrentByte_src).ev i1 trivial e2
  obtain ⟨e2', rfl⟩ := lift_eq_ok e2
  obtain rfl := getCurrentByte_same e2'
  have hb := UInt8.toNat_lt b
  have x1 : EvalTo (.bin .eq (.call .sml_buf_get_current_byte [.var 0]) (.lit .i32 101)) E (conc K s2 (grown h (.struct [0, 0] []))) (ofBool (decide ((b.toNat : Int) = 101))) E
      (conc K s2 (grown h (.struct [0, 0] []))) := .bin c2 .lit (bin_eq (ta := .u8) (tb := .i32) (conv_i32 (by omega) (by omega)) rfl)
  have hbe : b = 0x65 ↔ (b.toNat : Int) = 101 := by
    constructor
    · intro h
      rw [h]
      rfl
    · intro h
      apply UInt8.toNat.inj
      show b.toNat = 101
      omega
  by_cases h65 : b = 0x65
  · rw [if_pos h65] at hr
    replace hr := P_bind_eq_ok hr
    obtain ⟨d, s3, h3, e3, hr⟩ := hr
    cases e3
    replace hr := P_bind_eq_ok hr
    obtain ⟨_, s4, h4, e4, hr⟩ := hr
    obtain ⟨hz, rfl, ps, is, hc4, hv4, rfl⟩ := writePtr_eq_ok e4
    have hcs : (grown h (.struct [0, 0] [])).cells h.next = some (.struct [0, 0] []) := grown_cell
    have hne : h.next ≠ (grown h (.struct [0, 0] [])).next := by show h.next ≠ h.next + 1; omega
    have hcs' : (grown (grown h (.struct [0, 0] [])) (.num { size := 1, val := 1 })).cells h.next = some (.struct [0, 0] []) := by
      rw [← hcs]
      simp only [grown, setCell]
      rw [if_neg (by omega)]
    obtain ⟨rfl, rfl⟩ : ps = [0, 0] ∧ is = [] := by
      have := hc4.symm.trans hcs'
      cases this
      exact ⟨rfl, rfl⟩
    have i4 : Inv K s4 { next := h.next + 2, cells := setCell (grown (grown h (.struct [0, 0] [])) (.num { size := 1, val := 1 })).cells h.next (some (.struct ([0, 0].set 0 (h.next + 1)) [])) } :=
      Inv.setPs (h := grown (grown h (.struct [0, 0] [])) (.num { size := 1, val := 1 })) (i1.grown trivial) hcs' [h.next + 1, 0]
    have y1 := exec_new (env := E) (x := 1) (i := 0) (n := 1) (e := .lit .u64 1) (t := .u64) i1 (by rfl) hz hne hcs (by simp) .lit
    have y2 : ExecTo (.stDeref .u8 (.ldPtr (.var 1) 0) (.lit .i32 1)) E (withNew K s4 (grown h (.struct [0, 0] [])) h.next (enc (.struct ([0, 0].set 0 (h.next + 1)) [])) 1) .next E
        (conc K s4 { next := h.next + 2, cells := setCell (grown (grown h (.struct [0, 0] [])) (.num { size := 1, val := 1 })).cells h.next (some (.struct ([0, 0].set 0 (h.next + 1)) [])) }) := by
      refine .stDeref .lit (.ldPtr (.ptr (by rfl)) (load_new hz (by simp))) ?_
      exact fill_new (K := K) (st := s4) (h := grown h (.struct [0, 0] [])) (s := h.next) (i := 0) (env := E) (bs := [1]) (c := .num { size := 1, val := 1 })
          i1 hne hcs (by simp) rfl
    obtain ⟨i5, q5, r5⟩ := (timeData_src K E (by rfl) (by rfl)).run i4 trivial hr
    exact ⟨i5, q5, RunTo.cons (.setPtr c1) (.ite x1 (truth_pos (hbe.mp h65)) (.cons y1 (.cons y2 r5)))⟩
  · rw [if_neg h65] at hr
    obtain ⟨i5, q5, r5⟩ := (Sem.expectList (K := K) (env := E) (F := [.goto 0]) (body := (program .sml_time_parse).body) (by rfl) 2 (by omega)
      (fun ss => Sem.abort (l := 0) (vl := ptrVal) rfl (by rfl) timeFree_src rfl ss)
      (Sem.field (x := 1) (F := [.goto 0]) (by rfl) (by rfl) (ESem.number (type := 96) (max := 1) (by rfl) (by omega) (by omega) (by omega))
        (fun ss => Sem.abort (l := 0) (vl := ptrVal) rfl (by rfl) timeFree_src rfl ss) (timeData_src K E (by rfl) (by rfl)))).run i2 trivial hr
    exact ⟨i5, q5, RunTo.cons (.setPtr c1) (.ite x1 (truth_neg (fun h => h65 (hbe.mpr h))) r5)⟩

end Sml.C
