import Verif.Proofs.SourceLoop

/-!
# Rules for the parse and free functions

The patterns of the parse functions (`pExpectList`, `pField`, `pOptional`, `pAbort`) and of the free functions (`pFreeStruct`)
in the C source.
-/

namespace Sml.C

/-- The error flag is set. -/
abbrev errSt : St → Prop := fun st => st.error = true

/-- A function that parses something from the buffer. -/
abbrev ParseSpec (f : Fn) (p : P Addr) : Prop := FSpec f (fun K => [K.buf]) anySt p ptrVal anyRes

/-- A function that frees something. -/
abbrev FreeSpec (f : Fn) (g : Addr → P Unit) : Prop := ∀ a, FSpec f (fun _ => [ptrVal a]) anySt (g a) (fun _ => .undef) anyRes

/-- A function that makes something. -/
abbrev InitSpec (f : Fn) (c : HCell) : Prop := FSpec f (fun _ => []) anySt (malloc c) ptrVal anyRes

theorem FSpec.run (hf : FSpec f as pre p vl post) (hi : Inv K st h) (hp : pre st) (hr : p st h = .ok b st' h') :
    Inv K st' h' ∧ post b st' ∧ CallTo f (as K) (conc K st h) (vl b) (conc K st' h') := hf K st h hi hp b st' h' hr

theorem evals_var (hv : env x = v) (hu : v ≠ .undef) : evals Γ [.var x] env m = .ok [v] env m := by
  rw [evals, eval, X_bind_ok (getVar_ok hv hu), evals]
  rfl

theorem ptr_ne : (.ptr l i : Val) ≠ .undef := by intro h; cases h

/-- A call with the buffer alone. -/
theorem ESem.callBuf (h0 : env 0 = K.buf) (hf : FSpec f (fun K => [K.buf]) pre p vl post) : ESem K (.call f [.var 0]) env pre p vl post :=
  ESem.call (fun _ _ => evals_var h0 ptr_ne) hf

theorem ESem.callM {m : M β} (h0 : env 0 = K.buf) (hf : MSpec f (fun K => [K.buf]) pre m vl post) : ESem K (.call f [.var 0]) env pre (lift m) vl post :=
  ESem.callBuf h0 (.of_M hf)

/-- A call with one variable that is a pointer. -/
theorem ESem.callVar {x : Nat} (ha : env x = ptrVal a) (hf : FSpec f (fun _ => [ptrVal a]) pre p vl post) : ESem K (.call f [.var x]) env pre p vl post :=
  ESem.call (as := fun _ => [ptrVal a]) (fun _ _ => evals_var ha ptr_ne) hf

/-! ## The error flag -/

theorem Sem.setErr (h0 : env 0 = K.buf) (hk : Sem K body ss env errSt p vl post) :
    Sem K body (.stInt .i32 (.var 0) 2 (.lit .i32 1) :: ss) env pre (lift setError >>= fun _ => p) vl post := by
  intro st h hi hp b st' h' hr
  replace hr := P_bind_eq_ok hr
  obtain ⟨u, s, h1, e, hr⟩ := hr
  obtain ⟨rfl, rfl⟩ := setError_eq_ok e
  obtain ⟨i1, q1, r1⟩ := hk.run (hi.of_good (st' := { st with error := true }) ⟨hi.good.cur, hi.good.len⟩ (Nat.le_refl _)) rfl hr
  exact ⟨i1, q1, RunTo.cons (ex_error K h0) r1⟩

/-- It may be set again. -/
theorem Sem.setErr' (h0 : env 0 = K.buf) (hk : Sem K body ss env errSt p vl post) :
    Sem K body (.stInt .i32 (.var 0) 2 (.lit .i32 1) :: ss) env errSt p vl post := by
  intro st h hi hp b st' h' hr
  obtain ⟨i1, q1, r1⟩ := hk.run hi hp hr
  have : ({ st with error := true } : St) = st := by
    cases st
    cases hp
    rfl
  refine ⟨i1, q1, RunTo.cons (env1 := env) (m1 := conc K st h) ?_ r1⟩
  have e := ex_error K (st := st) (nx := h.next) (c := K.blocks h) h0
  rwa [this] at e

theorem Sem.hasErr {k k' : P β} (h0 : env 0 = K.buf) (hF : Sem K body (A ++ ss) env errSt k vl post) (hk : Sem K body ss env anySt k' vl post) :
    Sem K body (.ite (.call .sml_buf_has_errors [.var 0]) A [] :: ss) env anySt (lift hasErrors >>= fun b => if b then k else k') vl post := by
  refine Sem.ite (ESem.callM h0 hasErrors_src) (fun b => by cases b <;> exact Val.noConfusion) ?_ ?_
  · intro b hb
    cases b with
    | false => cases hb
    | true => exact hF.weaken fun st h => h.symm
  · intro b hb
    cases b with
    | true => cases hb
    | false => exact hk.weaken fun st h => trivial

/-! ## Parse functions -/

theorem truth_ne0 {t : Int} : truth (.int ty t) env m = .ok (decide (t ≠ 0)) env m := rfl

theorem Sem.opt {vl : β → Val} {post : β → St → Prop} (h0 : env 0 = K.buf) (hz : vl z = nullPtr) (hq : ∀ st, post z st) (hk : Sem K body ss env anySt p vl post) :
    Sem K body (.ite (.call .sml_buf_optional_is_skipped [.var 0]) [.ret .null] [] :: ss) env pre
      (lift optionalIsSkipped >>= fun b => if b then pure z else p) vl post := by
  intro st h hi hp b st' h' hr
  replace hr := P_bind_eq_ok hr
  obtain ⟨c, s, h1, e, hr⟩ := hr
  obtain ⟨rfl, t, et, rfl⟩ := opt_eq_ok e
  have el : lift optCode st h1 = .ok t s h1 := by unfold lift; rw [et]
  obtain ⟨i1, _, r1⟩ := (ESem.callM (K := K) h0 optCode_src).ev hi trivial el
  by_cases ht : t = 0
  · rw [if_neg (by simp [ht])] at hr
    obtain ⟨i2, q2, r2⟩ := hk.run i1 trivial hr
    refine ⟨i2, q2, RunTo.ite r1 truth_ne0 ?_⟩
    rw [if_neg (by simp [ht])]
    exact r2
  · rw [if_pos (by simp [ht])] at hr
    cases hr
    refine ⟨i1, hq _, RunTo.ite r1 truth_ne0 ?_⟩
    rw [if_pos (by simp [ht]), hz]
    exact .ret .null

theorem ne_lit {n : Int} {t : Int} (h1 : -2147483648 ≤ t ∧ t < 2147483648) (h2 : -2147483648 ≤ n ∧ n < 2147483648) :
    binOp .ne (.int .i32 t) (.int .i32 n) env m = .ok (ofBool (decide (t ≠ n))) env m :=
  bin_ne (ta := .i32) (tb := .i32) (conv_i32 h1.1 h1.2) (conv_i32 h2.1 h2.2)

theorem ofBool_ne : ofBool b ≠ .undef := by cases b <;> exact Val.noConfusion

theorem isTrue_ofBool : (ofBool b).isTrue = b := by cases b <;> rfl

/-- A check of the type. -/
theorem Sem.type {k k' : P β} (h0 : env 0 = K.buf) (n : Nat) (hn : n < 256) (ht : Sem K body (A ++ ss) env anySt k vl post)
    (hf : Sem K body ss env anySt k' vl post) :
    Sem K body (.ite (.bin .ne (.call .sml_buf_get_next_type [.var 0]) (.lit .i32 n)) A [] :: ss) env anySt
      (lift getNextType >>= fun t => if t ≠ n then k else k') vl post := by
  refine Sem.ite (vc := fun t => ofBool (decide (t ≠ n))) (ESem.binLit (ESem.callM h0 getNextType_src) ?_) (fun b => ofBool_ne) ?_ ?_
  · intro t st m ht
    rw [ne_lit (by omega) (by omega)]
    simp only [Int.ofNat_inj, ne_eq]
  · intro t hb
    rw [isTrue_ofBool, decide_eq_true_eq] at hb
    rw [if_pos hb]
    exact ht.weaken fun _ _ => trivial
  · intro t hb
    rw [isTrue_ofBool, decide_eq_false_iff_not] at hb
    rw [if_neg hb]
    exact hf.weaken fun _ _ => trivial

/-- A check of the length. -/
theorem Sem.length {k k' : P β} (h0 : env 0 = K.buf) (n : Int) (hn : 0 ≤ n ∧ n < 256) (ht : Sem K body (A ++ ss) env anySt k vl post)
    (hf : Sem K body ss env anySt k' vl post) :
    Sem K body (.ite (.bin .ne (.call .sml_buf_get_next_length [.var 0]) (.lit .i32 n)) A [] :: ss) env anySt
      (lift getNextLength >>= fun t => if t ≠ n then k else k') vl post := by
  refine Sem.ite (vc := fun t => ofBool (decide (t ≠ n))) (ESem.binLit (ESem.callM h0 getNextLength_src) ?_) (fun b => ofBool_ne) ?_ ?_
  · intro t st m ht
    exact ne_lit ht (by omega)
  · intro t hb
    rw [isTrue_ofBool, decide_eq_true_eq] at hb
    rw [if_pos hb]
    exact ht.weaken fun _ _ => trivial
  · intro t hb
    rw [isTrue_ofBool, decide_eq_false_iff_not] at hb
    rw [if_neg hb]
    exact hf.weaken fun _ _ => trivial

theorem Sem.expectList (h0 : env 0 = K.buf) (n : Int) (hn : 0 ≤ n ∧ n < 256) (hF : ∀ ss, Sem K body (F ++ ss) env errSt err vl post)
    (hk : Sem K body ss env anySt k vl post) :
    Sem K body (.ite (.bin .ne (.call .sml_buf_get_next_type [.var 0]) (.lit .i32 112)) (.stInt .i32 (.var 0) 2 (.lit .i32 1) :: F) [] ::
      .ite (.bin .ne (.call .sml_buf_get_next_length [.var 0]) (.lit .i32 n)) (.stInt .i32 (.var 0) 2 (.lit .i32 1) :: F) [] :: ss) env anySt
      (pExpectList n err k) vl post :=
  Sem.type h0 112 (by omega) (Sem.setErr h0 (hF _)) (Sem.length h0 n hn (Sem.setErr h0 (hF _)) hk)

theorem Sem.field (h0 : env 0 = K.buf) (ha : env x = ptrVal a) (hx : ESem K e env anySt p ptrVal anyRes)
    (hF : ∀ ss, Sem K body (F ++ ss) env errSt err vl post) (hk : Sem K body ss env anySt k vl post) :
    Sem K body (.stPtr (.var x) i e :: .ite (.call .sml_buf_has_errors [.var 0]) F [] :: ss) env anySt (pField p a i err k) vl post :=
  Sem.stPtr (k := fun _ => lift hasErrors >>= fun b => if b then err else k) hx ha fun _ => Sem.hasErr h0 (hF _) hk

theorem Sem.weakenRes (hk : Sem K body ss env pre p vl post) (hp : ∀ b st, post b st → post' b st) : Sem K body ss env pre p vl post' := by
  intro st h hi hpre b st' h' hr
  obtain ⟨i, q, r⟩ := hk st h hi hpre b st' h' hr
  exact ⟨i, hp _ _ q, r⟩

/-- Behind the label: free and return NULL. -/
theorem Sem.freeRet {vl : β → Val} (ha : env x = ptrVal a) (hf : FreeSpec f g) (hz : vl z = nullPtr) :
    Sem K body (.expr (.call f [.var x]) :: .ret .null :: ss) env pre (pAbort g a z) vl anyRes := by
  refine Sem.weaken (pre' := anySt) ?_ fun _ _ => trivial
  refine Sem.step (k := fun _ => pure z) (E := fun _ => env) (SSem.expr (ESem.callVar ha (hf a))) fun _ => ?_
  exact Sem.retPure (fun Γ m => by rw [hz]; rfl) fun _ _ => trivial

theorem Sem.abort {vl : β → Val} (hb : behind l body = some (.expr (.call f [.var x]) :: .ret .null :: R)) (ha : env x = ptrVal a) (hf : FreeSpec f g)
    (hz : vl z = nullPtr) : ∀ ss, Sem K body ([.goto l] ++ ss) env errSt (pAbort g a z) vl anyRes :=
  fun _ => Sem.goto hb ((Sem.freeRet (pre := errSt) ha hf hz))

/-- The same where the flag is set behind the label. -/
theorem Sem.abort' {vl : β → Val} (hb : behind l body = some (.stInt .i32 (.var 0) 2 (.lit .i32 1) :: .expr (.call f [.var x]) :: .ret .null :: R))
    (h0 : env 0 = K.buf) (ha : env x = ptrVal a) (hf : FreeSpec f g)
    (hz : vl z = nullPtr) : ∀ ss, Sem K body ([.goto l] ++ ss) env errSt (pAbort g a z) vl anyRes :=
  fun _ => Sem.goto hb (Sem.setErr' h0 (Sem.freeRet (pre := errSt) ha hf hz))

theorem Sem.retPtr (ha : env x = ptrVal a) : Sem K body (.ret (.var x) :: ss) env pre (pure a : P Addr) ptrVal anyRes :=
  Sem.retPure (fun _ _ => eval_var ha) fun _ _ => trivial

theorem Sem.retNull : Sem K body (.ret .null :: ss) env pre (pure 0 : P Addr) ptrVal anyRes :=
  Sem.retPure (fun _ _ => rfl) fun _ _ => trivial

/-- `buf->error = 1; return NULL;` -/
theorem Sem.failRet (h0 : env 0 = K.buf) :
    Sem K body (.stInt .i32 (.var 0) 2 (.lit .i32 1) :: .ret .null :: ss) env pre (lift setError >>= fun _ => (pure 0 : P Addr)) ptrVal anyRes :=
  Sem.setErr h0 Sem.retNull

/-- Nothing is left: `buf->cursor >= buf->buffer_len`. -/
theorem Sem.atEnd {k k' : P β} (h0 : env 0 = K.buf) (ht : Sem K body (A ++ ss) env anySt k vl post)
    (hf : Sem K body ss env (fun st => st.cursor < st.data.length) k' vl post) :
    Sem K body (.ite (.bin .ge (.ldInt .u64 (.var 0) 1) (.ldInt .u64 (.var 0) 0)) A [] :: ss) env anySt
      (lift getSt >>= fun st => if st.cursor ≥ st.data.length then k else k') vl post := by
  intro st h hi hp b st' h' hr
  replace hr := P_bind_eq_ok hr
  obtain ⟨s, s1, h1, e, hr⟩ := hr
  obtain ⟨rfl, rfl, rfl⟩ := getSt_eq_ok e
  by_cases hc : s1.cursor ≥ s1.data.length
  · rw [if_pos hc] at hr
    obtain ⟨i2, q2, r2⟩ := ht.run hi trivial hr
    refine ⟨i2, q2, RunTo.ite (ev_atEnd K h0 hi.good) (truth_pos hc) ?_⟩
    exact r2
  · rw [if_neg hc] at hr
    obtain ⟨i2, q2, r2⟩ := hf.run hi (by omega) hr
    refine ⟨i2, q2, RunTo.ite (ev_atEnd K h0 hi.good) (truth_neg hc) ?_⟩
    exact r2

/-! ## New structures -/

theorem storeRec_fresh (hi : Inv K st h) (qs ns : List Nat) :
    storeRec (ptrVal h.next) (qs.map ptrVal) (ns.map Int.ofNat) env
      { conc K st h with next := h.next + 1, heap := setHeap (conc K st h).heap h.next (some .fresh) } =
      .ok () env (conc K st (grown h (.struct qs ns))) := by
  rw [storeRec, asPtr, X_bind_ok (X_pure _ _ _), ← conc_grown hi]
  have hg : getBlock (.heap h.next) env
      { conc K st h with next := h.next + 1, heap := setHeap (conc K st h).heap h.next (some .fresh) } = .ok .fresh env
      { conc K st h with next := h.next + 1, heap := setHeap (conc K st h).heap h.next (some .fresh) } := by
    simp only [getBlock, setHeap, hi.next_ne.1, if_false, if_true]
  simp only
  rw [X_bind_ok hg]
  simp only [if_true, setBlock, enc]
  congr 2
  funext a
  simp only [setHeap]
  split <;> rfl

/-- `T *x = malloc(sizeof(T)); *x = (T) { ... };` -/
theorem Sem.mallocRec {k : Addr → P β} (qs ns : List Nat) (hs : ∀ n ∈ ns, n ≤ 2147483647)
    (hp : ∀ a Γ m, evals Γ ps (upd env x (ptrVal a)) m = .ok (qs.map ptrVal) (upd env x (ptrVal a)) m)
    (hn : ∀ a Γ m, evalMembers Γ is (upd env x (ptrVal a)) m = .ok (ns.map Int.ofNat) (upd env x (ptrVal a)) m)
    (hk : ∀ a, Sem K body ss (upd env x (ptrVal a)) anySt (k a) vl post) :
    Sem K body (.setPtr x (.mallocRec np ni) :: .stRec (.var x) ps is :: ss) env pre (malloc (.struct qs ns) >>= k) vl post := by
  intro st h hi _ b st' h' hr
  replace hr := P_bind_eq_ok hr
  obtain ⟨a, s, h1, e, hr⟩ := hr
  cases e
  obtain ⟨i1, q1, r1⟩ := (hk h.next).run (hi.grown (c := .struct qs ns) hs) trivial hr
  refine ⟨i1, q1, RunTo.cons (.setPtr .mallocRec) (.cons (.stRec (.ptr (by exact upd_same)) ⟨0, fun n _ => hp _ _ _⟩ ⟨0, fun n _ => hn _ _ _⟩ (storeRec_fresh hi qs ns)) r1)⟩

theorem InitSpec.of {np ni : Nat} {ps : List Expr} {is : List (ITy × Expr)} (qs ns : List Nat) (hp : (program f).params = [])
    (hb : (program f).body = [.setPtr 0 (.mallocRec np ni), .stRec (.var 0) ps is, .ret (.var 0)])
    (hr : (program f).res = none) (hs : ∀ n ∈ ns, n ≤ 2147483647)
    (he : ∀ env Γ m, evals Γ ps env m = .ok (qs.map ptrVal) env m)
    (hn : ∀ env Γ m, evalMembers Γ is env m = .ok (ns.map Int.ofNat) env m) : InitSpec f (.struct qs ns) := by
  refine FSpec.of_body (vs := fun _ => []) (vb := ptrVal) (fun K env m => by rw [hp]; rfl) (fun K => ?_) (fun b st env m _ => by rw [hr]; rfl)
  rw [hb]
  have : malloc (.struct qs ns) = (malloc (.struct qs ns) >>= fun a => (pure a : P Addr)) := (P_bind_pure _).symm
  rw [this]
  exact Sem.mallocRec qs ns hs (fun _ _ _ => he _ _ _) (fun _ _ _ => hn _ _ _) fun a => Sem.retPtr upd_same

/-- `T *x = init();` -/
theorem Sem.init {k : Addr → P β} (hf : InitSpec f c) (hk : ∀ a, Sem K body ss (upd env x (ptrVal a)) anySt (k a) vl post) :
    Sem K body (.setPtr x (.call f []) :: ss) env pre (malloc c >>= k) vl post :=
  (Sem.step (SSem.setPtr (ESem.call (as := fun _ => []) (fun _ _ => by rw [evals]; rfl) hf)) hk).weaken fun _ _ => trivial

/-! ## Free functions -/

/-- The statements `f0(p->m0); f1(p->m1); ... free(p);` -/
def freeStmts (x : Nat) : Nat → List Fn → List Stmt
  | _, [] => [.free (.var x)]
  | i, f :: fs => .expr (.call f [.ldPtr (.var x) i]) :: freeStmts x (i + 1) fs

/-- The functions do what their models do. -/
def FreeSpecs : List Fn → List (Addr → P Unit) → Prop
  | [], [] => True
  | f :: fs, g :: gs => FreeSpec f g ∧ FreeSpecs fs gs
  | _, _ => False

theorem Sem.freeField {k : P β} (ha : env x = ptrVal a) (hf : FreeSpec f g) (hk : Sem K body ss env anySt k vl post) :
    Sem K body (.expr (.call f [.ldPtr (.var x) i]) :: ss) env pre (readPtr a i >>= fun v => g v >>= fun _ => k) vl post := by
  have := Sem.step (k := fun _ => k) (E := fun _ => env) (SSem.expr (ESem.callArg (k := g) (as := fun _ => []) (ESem.ldPtr (K := K) (pre := anySt) (i := i) ha)
    (fun _ _ => by rw [evals]; rfl) fun b => hf b)) fun _ => hk
  rw [P_bind_assoc] at this
  exact this.weaken fun _ _ => trivial

theorem Sem.freeStmts (ha : env x = ptrVal a) (hk : Sem K body ss env anySt k vl post) : (i : Nat) → (fs : List Fn) → (gs : List (Addr → P Unit)) → FreeSpecs fs gs →
    Sem K body (freeStmts x i fs ++ ss) env anySt (pFreeFields a i gs >>= fun _ => k) vl post
  | i, [], [], _ => by
    rw [pFreeFields, C.freeStmts]
    exact Sem.freeVar ha hk
  | i, f :: fs, g :: gs, h => by
    have ih := Sem.freeStmts ha hk (i + 1) fs gs h.2
    rw [pFreeFields, C.freeStmts, P_bind_assoc]
    simp only [P_bind_assoc]
    exact Sem.freeField ha h.1 ih

theorem FreeSpec.struct {fs : List Fn} {gs : List (Addr → P Unit)} (hp : (program f).params = [none]) (hr : (program f).res = none)
    (hb : (program f).body = [.ite (.var 0) (C.freeStmts 0 0 fs) []]) (h : FreeSpecs fs gs) : FreeSpec f (pFreeStruct gs) := by
  intro a
  refine FSpec.of_body (vs := fun _ => [ptrVal a]) (vb := fun _ => .undef) (fun K env m => by rw [hp]; rfl) (fun K => ?_) (fun b st env m _ => by rw [hr]; rfl)
  rw [hb]
  unfold pFreeStruct
  refine Sem.iteVar (a := a) rfl (fun h0 => ?_) (fun h0 => ?_)
  · rw [if_neg h0, ← P_bind_unit (pFreeFields a 0 gs)]
    exact Sem.freeStmts (by rfl) (Sem.done (vl := fun _ => .undef) (post := anyRes) (a := ()) rfl fun _ _ => trivial) 0 fs gs h
  · rw [if_pos h0]
    exact Sem.done rfl fun _ _ => trivial

/-- The functions whose names end in `_`. -/
theorem FreeSpec.struct' {fs : List Fn} {gs : List (Addr → P Unit)} (hp : (program f).params = [none]) (hr : (program f).res = none)
    (hb : (program f).body = [.setPtr 1 (.var 0), .ite (.var 1) (C.freeStmts 1 0 fs) []]) (h : FreeSpecs fs gs) : FreeSpec f (pFreeStruct gs) := by
  intro a
  refine FSpec.of_body (vs := fun _ => [ptrVal a]) (vb := fun _ => .undef) (fun K env m => by rw [hp]; rfl) (fun K => ?_) (fun b st env m _ => by rw [hr]; rfl)
  rw [hb]
  unfold pFreeStruct
  refine Sem.skip (env' := upd (envOf [ptrVal a]) 1 (ptrVal a)) (fun _ _ _ _ _ => rfl) (Sem.iteVar (a := a) rfl (fun h0 => ?_) (fun h0 => ?_))
  · rw [if_neg h0, ← P_bind_unit (pFreeFields a 0 gs)]
    exact Sem.freeStmts (by rfl) (Sem.done (vl := fun _ => .undef) (post := anyRes) (a := ()) rfl fun _ _ => trivial) 0 fs gs h
  · rw [if_pos h0]
    exact Sem.done rfl fun _ _ => trivial

/-- A function that only calls another. -/
theorem FreeSpec.wrap (hp : (program f').params = [none]) (hr : (program f').res = none) (hb : (program f').body = [.expr (.call f [.var 0])]) (h : FreeSpec f g) :
    FreeSpec f' g := by
  intro a
  refine FSpec.of_body (vs := fun _ => [ptrVal a]) (vb := fun _ => .undef) (fun K env m => by rw [hp]; rfl) (fun K => ?_) (fun b st env m _ => by rw [hr]; rfl)
  rw [hb, ← P_bind_unit (g a)]
  exact Sem.step (SSem.expr (ESem.callVar rfl (h a))) fun _ => Sem.done rfl fun _ _ => trivial

theorem ParseSpec.wrap (hp : (program f').params = [none]) (hr : (program f').res = none) (hb : (program f').body = [.ret (.call f [.var 0])]) (h : ParseSpec f p) :
    ParseSpec f' p := by
  refine FSpec.of_body (vs := fun K => [K.buf]) (vb := ptrVal) (fun K env m => by rw [hp]; rfl) (fun K => ?_) (fun b st env m _ => by rw [hr]; rfl)
  rw [hb]
  exact Sem.ret (ESem.callBuf rfl h)

/-- A parse function from its body. -/
theorem ParseSpec.of (hp : (program f).params = [none]) (hr : (program f).res = none)
    (hb : ∀ K : Ctx, Sem K (program f).body (program f).body (envOf [K.buf]) anySt p ptrVal anyRes) : ParseSpec f p :=
  FSpec.of_body (vs := fun K => [K.buf]) (vb := ptrVal) (fun K env m => by rw [hp]; rfl) hb (fun b st env m _ => by rw [hr]; rfl)

/-- A free function from its body. -/
theorem FreeSpec.of (hp : (program f).params = [none]) (hr : (program f).res = none)
    (hb : ∀ a, ∀ K : Ctx, Sem K (program f).body (program f).body (envOf [ptrVal a]) anySt (g a) (fun _ => .undef) anyRes) : FreeSpec f g :=
  fun a => FSpec.of_body (vs := fun _ => [ptrVal a]) (vb := fun _ => .undef) (fun K env m => by rw [hp]; rfl) (hb a) (fun b st env m _ => by rw [hr]; rfl)

end Sml.C
