import Verif.Proofs.SourceOverLeaf

/-!
# Rules for the write functions at the end of the buffer

The shapes of `SourceWriteRules` and `SourceWriteSeq`, for runs that leave the buffer.
-/

namespace Sml.C

/-! ## Members -/

theorem OSem.last {p : P Unit} (h : OSem K ss env (p >>= fun _ => Pure.pure ())) : OSem K ss env p := by
  rwa [P_bind_unit] at h

/-- `sml_buf_set_type_and_length(buf, SML_TYPE_LIST, n);` -/
theorem OSem.hdr {k : P β} {n : Nat} {e : Expr} {t : ITy} (h1 : env 1 = K.buf) (hn : n < 4294967296) (he : ∀ Γ m, eval Γ e env m = .ok (.int t (n : Nat)) env m)
    (hk : OSem K ss env k) :
    OSem K (.expr (.call .sml_buf_set_type_and_length [.var 1, .lit .i32 112, e]) :: ss) env (lift (setTypeAndLength tyList n) >>= fun _ => k) := by
  have ha : ∀ Γ m, evals Γ [.var 1, .lit .i32 112, e] env m = .ok [K.buf, .int .i32 112, .int t n] env m := fun _ _ =>
    evals_cons (eval_var h1) (evals_cons rfl (evals_cons (he _ _) evals_nil))
  exact OSem.expr (ESem.call (as := fun K => [K.buf, .int .i32 112, .int t n]) ha (.of_M (setTypeAndLength_src .i32 t (show tyList < 256 by decide) hn)))
    (OExp.call (as := fun K => [K.buf, .int .i32 112, .int t n]) ha (.of_M (setTypeAndLength_out .i32 t (show tyList < 256 by decide) hn))) .lift fun _ => hk

/-- `sml_buf_optional_write(buf);` -/
theorem OSem.optionalW {k : P β} (h1 : env 1 = K.buf) (hk : OSem K ss env k) :
    OSem K (.expr (.call .sml_buf_optional_write [.var 1]) :: ss) env (lift optionalWrite >>= fun _ => k) :=
  OSem.expr (ESem.call (as := fun K => [K.buf]) (fun _ _ => evals_var h1 ptr_ne) (.of_M optionalWrite_src))
    (OExp.call (as := fun K => [K.buf]) (fun _ _ => evals_var h1 ptr_ne) (.of_M optionalWrite_out)) .lift fun _ => hk

/-- Everything about a write function: what it does, what happens at the end of the buffer, that the heap is as before. -/
structure OWrite (f : Fn) (w : Addr → P Unit) : Prop where
  src : WriteSpec f w
  out : WriteOut f w
  keeps : ∀ a, Keeps (w a)

/-- The same for a call of a write function whose first argument is the value. -/
def OCall (f : Fn) (as : List Expr) (w : Addr → P Unit) : Prop :=
  ∃ vs : Ctx → List Val, (∀ K env, env 1 = K.buf → ∀ Γ m, evals Γ as env m = .ok (vs K) env m) ∧
    (∀ a, FSpec f (fun K => ptrVal a :: vs K) anySt (w a) (fun _ => .undef) anyRes) ∧ (∀ a, OFn f (fun K => ptrVal a :: vs K) (w a)) ∧ ∀ a, Keeps (w a)

theorem OCall.plain (h : OWrite f w) : OCall f [.var 1] w := ⟨fun K => [K.buf], fun _ _ h1 _ _ => evals_var h1 ptr_ne, h.src, h.out, h.keeps⟩

theorem OCall.number {type size : Nat} (ht : type < 256) (hs : size < 2147483647) :
    OCall .sml_number_write [.lit .i32 type, .lit .u64 size, .var 1] (pNumberWrite type size) := by
  refine ⟨fun K => [.int .i32 type, .int .u64 size, K.buf], fun K env h1 Γ m => ?_, fun a => numberWrite_src .i32 .u64 ht hs a, fun a => numberWrite_out .i32 .u64 ht hs a, keeps_number⟩
  exact evals_cons rfl (evals_cons rfl (evals_var h1 ptr_ne))

/-- `f(x->m, ...);` -/
theorem OSem.writeField {k : P β} (ha : env x = ptrVal a) (h1 : env 1 = K.buf) (hf : OCall f as w) (hk : OSem K ss env k) :
    OSem K (.expr (.call f (.ldPtr (.var x) i :: as)) :: ss) env (readPtr a i >>= fun v => w v >>= fun _ => k) := by
  obtain ⟨vs, he, hs, ho, hw⟩ := hf
  have := OSem.expr (K := K) (k := fun _ => k) (ESem.callArg (k := w) (as := vs) (ESem.ldPtr (K := K) (pre := anySt) (i := i) ha) (fun _ _ => he K env h1 _ _) fun b => hs b)
    (OExp.callArg (k := w) (as := vs) (ESem.ldPtr (K := K) (pre := anySt) (i := i) ha) .readPtr .readPtr (fun _ _ => he K env h1 _ _) fun b => ho b)
    (.bind .readPtr hw) fun _ => hk
  rwa [P_bind_assoc] at this

theorem OSem.writeEnd (ha : env x = ptrVal a) (h1 : env 1 = K.buf) (hf : OCall f as w) :
    OSem K (.expr (.call f (.ldPtr (.var x) i :: as)) :: ss) env (readPtr a i >>= fun v => w v) := by
  have : (readPtr a i >>= fun v => w v) = (readPtr a i >>= fun v => w v >>= fun _ => Pure.pure ()) := by
    congr 1
    funext v
    rw [P_bind_unit]
  rw [this]
  exact OSem.writeField ha h1 hf .pure

def OCalls : List (Fn × List Expr) → List (Addr → P Unit) → Prop
  | [], [] => True
  | f :: fs, w :: ws => OCall f.1 f.2 w ∧ OCalls fs ws
  | _, _ => False

theorem OSem.writeStmts (ha : env x = ptrVal a) (h1 : env 1 = K.buf) (hk : OSem K ss env k) : (i : Nat) → (fs : List (Fn × List Expr)) → (ws : List (Addr → P Unit)) →
    OCalls fs ws → OSem K (writeStmts x i fs ++ ss) env (pWriteFields a i ws >>= fun _ => k)
  | i, [], [], _ => by
    rw [pWriteFields, C.writeStmts, P_pure_bind]
    exact hk
  | i, f :: fs, w :: ws, h => by
    have ih := OSem.writeStmts ha h1 hk (i + 1) fs ws h.2
    rw [pWriteFields, C.writeStmts, P_bind_assoc]
    simp only [P_bind_assoc]
    exact OSem.writeField ha h1 h.1 ih

/-- A write function from its body. -/
theorem WriteOut.of (hp : (program f).params = [none, none])
    (hb : ∀ a, ∀ K : Ctx, OSem K (program f).body (envOf [ptrVal a, K.buf]) (w a)) : WriteOut f w :=
  fun a K st h hi hn hr => .of (vs := [ptrVal a, K.buf]) (fun _ _ => by rw [hp]; rfl) (hb a K st h hi hn hr)

/-- The header and the members. -/
theorem OSem.wstruct {n : Nat} {fs : List (Fn × List Expr)} {ws : List (Addr → P Unit)} (ha : env x = ptrVal a) (h1 : env 1 = K.buf) (hn : n < 4294967296) (h : OCalls fs ws) :
    OSem K (.expr (.call .sml_buf_set_type_and_length [.var 1, .lit .i32 112, .lit .i32 n]) :: C.writeStmts x 0 fs) env (pWriteStruct n ws a) := by
  refine OSem.hdr h1 hn (fun _ _ => rfl) ?_
  rw [← P_bind_unit (pWriteFields a 0 ws), ← List.append_nil (C.writeStmts x 0 fs)]
  exact OSem.writeStmts ha h1 .pure 0 fs ws h

theorem WriteOut.struct {n : Nat} {fs : List (Fn × List Expr)} {ws : List (Addr → P Unit)} (hp : (program f).params = [none, none])
    (hb : (program f).body = .expr (.call .sml_buf_set_type_and_length [.var 1, .lit .i32 112, .lit .i32 n]) :: C.writeStmts 0 0 fs)
    (hn : n < 4294967296) (h : OCalls fs ws) : WriteOut f (pWriteStruct n ws) := by
  refine WriteOut.of hp fun a K => ?_
  rw [hb]
  exact OSem.wstruct rfl rfl hn h

/-- The functions whose names end in `_`. -/
theorem WriteOut.struct' {n : Nat} {fs : List (Fn × List Expr)} {ws : List (Addr → P Unit)} (hp : (program f).params = [none, none])
    (hb : (program f).body = .setPtr 2 (.var 0) :: .expr (.call .sml_buf_set_type_and_length [.var 1, .lit .i32 112, .lit .i32 n]) :: C.writeStmts 2 0 fs)
    (hn : n < 4294967296) (h : OCalls fs ws) : WriteOut f (pWriteStruct n ws) := by
  refine WriteOut.of hp fun a K => ?_
  rw [hb]
  refine OSem.skip (env' := upd (envOf [ptrVal a, K.buf]) 2 (ptrVal a)) (fun _ _ _ _ => rfl) ?_
  exact OSem.wstruct upd_same rfl hn h

/-- `if (x == 0) { sml_buf_optional_write(buf); return; }` -/
theorem WriteOut.guard {S : List Stmt} {w q : Addr → P Unit} (hp : (program f).params = [none, none])
    (hb : (program f).body = .ite (.bin .eq (.var 0) .null) [.expr (.call .sml_buf_optional_write [.var 1]), .retVoid] [] :: S)
    (hw : ∀ a, w a = if a = 0 then lift optionalWrite else q a)
    (h : ∀ (K : Ctx) a, a ≠ 0 → OSem K S (envOf [ptrVal a, K.buf]) (q a)) : WriteOut f w := by
  refine WriteOut.of hp fun a K => ?_
  rw [hw, hb]
  intro st hp' hi hn hr
  by_cases ha : a = 0
  · rw [if_pos ha] at hr
    exact optional_out (x := 0) (y := 1) (env := envOf [ptrVal a, K.buf]) hi (by rfl) (by rfl) ha hr
  · rw [if_neg ha] at hr
    exact .ite (b := false) (ev_null0 (by rfl)) (truth_neg ha) (h K a ha st hp' hi hn hr)

/-- A function that only calls another. -/
theorem WriteOut.wrap (hp : (program f').params = [none, none]) (hb : (program f').body = [.expr (.call f [.var 0, .var 1])]) (h : OWrite f w) :
    WriteOut f' w := by
  refine WriteOut.of hp fun a K => ?_
  rw [hb]
  have ha : ∀ Γ m, evals Γ [.var 0, .var 1] (envOf [ptrVal a, K.buf]) m = .ok [ptrVal a, K.buf] (envOf [ptrVal a, K.buf]) m :=
    fun Γ m => evals_cons (eval_var rfl) (evals_var rfl ptr_ne)
  exact OSem.last (OSem.expr (ESem.call (as := fun K => [ptrVal a, K.buf]) ha (h.src a)) (OExp.call (as := fun K => [ptrVal a, K.buf]) ha (h.out a)) (h.keeps a) fun _ => .pure)

/-! ## Values -/

theorem numberType_out {n : Nat} {env : Env} (hi : Inv K st h) (hn : Few 0 h) (hx : env 0 = ptrVal a) (h1 : env 1 = K.buf) (e1 : readInt a 0 st h = .ok n st h)
    (e2 : readPtr a 0 st h = .ok d st h) (hr : pNumberWrite (n &&& 0x70) (n &&& 0xF) d st h = .bad overrun) :
    ExecOut (.expr (.call .sml_number_write [.ldPtr (.var 0) 0, .bin .band (.ldInt .u8 (.var 0) 0) (.lit .i32 112), .bin .band (.ldInt .u8 (.var 0) 0) (.lit .i32 15), .var 1]))
      env (conc K st h) := by
  have b1 : n &&& 0x70 < 256 := Nat.lt_of_le_of_lt Nat.and_le_right (by decide)
  have b2 : n &&& 0xF < 2147483647 := Nat.lt_of_le_of_lt Nat.and_le_right (by decide)
  exact .expr (.call (.cons (.ldPtr (.ptr hx) (loadPtr_cell hi e2)) (.cons (bandType hi hx e1 (by decide)) (.cons (bandType hi hx e1 (by decide)) (.one (ev_buf K h1)))))
    (numberWrite_out .i32 .i32 b1 b2 d K st h hi hn hr))

theorem statusWrite_out : WriteOut .sml_status_write pStatusWrite := by
  refine WriteOut.guard rfl rfl (fun _ => rfl) fun K a h0 => ?_
  intro st h hi hn hr
  replace hr := Tame.readInt.next hr
  obtain ⟨n, s1, h1, e1, hr⟩ := hr
  replace hr := Tame.readPtr.next hr
  obtain ⟨d, s2, h2, e2, hr⟩ := hr
  have e1' := e1
  obtain ⟨_, rfl, rfl, _⟩ := readInt_eq_ok e1'
  have e2' := e2
  obtain ⟨_, rfl, rfl, _⟩ := readPtr_eq_ok e2'
  exact .head (numberType_out (env := envOf [ptrVal a, K.buf]) hi hn (by rfl) (by rfl) e1 e2 hr)

theorem valueWrite_out : WriteOut .sml_value_write pValueWrite := by
  refine WriteOut.guard rfl rfl (fun _ => rfl) fun K a h0 => ?_
  intro st h hi hn hr
  replace hr := Tame.readInt.next hr
  obtain ⟨n, s1, h1, e1, hr⟩ := hr
  replace hr := Tame.readPtr.next hr
  obtain ⟨d, s2, h2, e2, hr⟩ := hr
  have e1' := e1
  obtain ⟨_, rfl, rfl, _⟩ := readInt_eq_ok e1'
  have e2' := e2
  obtain ⟨_, rfl, rfl, _⟩ := readPtr_eq_ok e2'
  have ev := bandType (env := envOf [ptrVal a, K.buf]) (x := 0) hi (by rfl) e1 (show 112 < 2147483648 by decide)
  have ed : EvalTo (.ldPtr (.var 0) 0) (envOf [ptrVal a, K.buf]) (conc K s2 h2) (ptrVal d) (envOf [ptrVal a, K.buf]) (conc K s2 h2) := .ldPtr (.ptr (by rfl)) (loadPtr_cell hi e2)
  by_cases h1 : n &&& 0x70 = tyOctet
  · rw [if_pos h1] at hr
    exact .switch (A := [.expr (.call .sml_octet_string_write [.ldPtr (.var 0) 0, .var 1])]) ⟨rfl, .inr ⟨_, by rw [h1]; rfl⟩⟩ ev
      (.head (.expr (.call (.cons ed (.one (ev_buf K (by rfl)))) (octetStringWrite_out d K _ _ hi hn hr))))
  rw [if_neg h1] at hr
  by_cases h2 : n &&& 0x70 = tyBoolean
  · rw [if_pos h2] at hr
    exact .switch (A := [.expr (.call .sml_boolean_write [.ldPtr (.var 0) 0, .var 1])]) ⟨rfl, .inr ⟨_, by rw [h2]; rfl⟩⟩ ev
      (.head (.expr (.call (.cons ed (.one (ev_buf K (by rfl)))) (booleanWrite_out d K _ _ hi hn hr))))
  rw [if_neg h2] at hr
  by_cases h3 : n &&& 0x70 = tyUnsigned ∨ n &&& 0x70 = tyInteger
  · rw [if_pos h3] at hr
    have r1 := numberType_out (env := envOf [ptrVal a, K.buf]) hi hn (by rfl) (by rfl) e1 e2 hr
    rcases h3 with h3 | h3
    · exact .switch (A := [.case 80, .expr (.call .sml_number_write [.ldPtr (.var 0) 0, .bin .band (.ldInt .u8 (.var 0) 0) (.lit .i32 112), .bin .band (.ldInt .u8 (.var 0) 0) (.lit .i32 15), .var 1])])
        ⟨rfl, .inr ⟨_, by rw [h3]; rfl⟩⟩ ev (.cons .case (.head r1))
    · exact .switch (A := [.expr (.call .sml_number_write [.ldPtr (.var 0) 0, .bin .band (.ldInt .u8 (.var 0) 0) (.lit .i32 112), .bin .band (.ldInt .u8 (.var 0) 0) (.lit .i32 15), .var 1])])
        ⟨rfl, .inr ⟨_, by rw [h3]; rfl⟩⟩ ev (.head r1)
  · rw [if_neg h3] at hr
    cases hr

theorem oOctet : OWrite .sml_octet_string_write pOctetStringWrite := ⟨octetStringWrite_src, octetStringWrite_out, keeps_octet⟩
theorem oBoolean : OWrite .sml_boolean_write pBooleanWrite := ⟨booleanWrite_src, booleanWrite_out, keeps_boolean⟩
theorem oStatus : OWrite .sml_status_write pStatusWrite := ⟨statusWrite_src, statusWrite_out, keeps_status⟩
theorem oValue : OWrite .sml_value_write pValueWrite := ⟨valueWrite_src, valueWrite_out, keeps_value⟩

theorem timeWrite_out : WriteOut .sml_time_write pTimeWrite := by
  refine WriteOut.guard rfl rfl (fun _ => rfl) fun K a h0 => ?_
  exact OSem.wstruct (fs := [(.sml_number_write, [.lit .i32 96, .lit .u64 1, .var 1]), (.sml_number_write, [.lit .i32 96, .lit .u64 4, .var 1])]) (x := 0) (by rfl) (by rfl) (by decide)
    ⟨.number (by decide) (by decide), .number (by decide) (by decide), trivial⟩

theorem oTime : OWrite .sml_time_write pTimeWrite := ⟨timeWrite_src, timeWrite_out, keeps_time⟩

/-! ## Loops over the elements of an array -/

theorem OSem.forEachW {ce : Expr} {g : Addr → P Unit} {t : ITy} {y : Nat} (hy : y ≠ 0) (ht : ITy.usual .i32 t = .i32) (h0 : env 0 = ptrVal s) (hg : ∀ a, Keeps (g a))
    (he : ∀ k, ESem K ce (upd env y (.int .i32 (k : Nat))) anySt ((readPtr s i >>= fun arr => readPtr arr k) >>= g) (fun _ => .undef) anyRes)
    (ho : ∀ k, OExp K ce (upd env y (.int .i32 (k : Nat))) ((readPtr s i >>= fun arr => readPtr arr k) >>= g)) (hs : s ≠ 0) :
    (j k : Nat) → (st : St) → (hp : Heap) → Inv K st hp → Few 0 hp → hp.cells s = some (.struct ps is) → is[0]? = some (k + j) → pForEach g s i j k st hp = .bad overrun →
    RunOut (.loop (.bin .lt (.var y) (.ldInt t (.var 0) 0)) [.expr ce] [.set .i32 y (.bin .add (.var y) (.lit .i32 1))] :: ss) (upd env y (.int .i32 (k : Nat))) (conc K st hp)
  | 0, k, st, hp, hi, hn, hc, hv, hr => by cases hr
  | j + 1, k, st, hp, hi, hn, hc, hv, hr => by
    have hb : k + (j + 1) ≤ 2147483647 := hi.ints _ _ hc _ (List.mem_of_getElem? hv)
    have e1 : readInt s 0 st hp = .ok (k + (j + 1)) st hp := by
      unfold readInt
      rw [P.bind_ok (show deref s st hp = .ok (.struct ps is) st hp by unfold Sml.deref; rw [if_neg hs, hc])]
      simp only [hv]
      rfl
    have ev : EvalTo (.bin .lt (.var y) (.ldInt t (.var 0) 0)) (upd env y (.int .i32 (k : Nat))) (conc K st hp) (ofBool (decide ((k : Int) < (k + (j + 1) : Nat))))
        (upd env y (.int .i32 (k : Nat))) (conc K st hp) := by
      refine .bin (.int upd_same) (.ldInt (.ptr ((upd_other (Ne.symm hy)).trans h0)) (loadInt_cell hi e1)) ?_
      exact bin_lt (ta := .i32) (tb := t) (by rw [ht]; exact conv_i32 (by omega) (by omega)) (by rw [ht]; exact conv_i32 (by omega) (by omega))
    refine .loop rfl rfl (.ite (b := true) ev (truth_pos (by omega)) ?_)
    rw [if_pos rfl]
    have hr' : (((readPtr s i >>= fun arr => readPtr arr k) >>= g) >>= fun _ => pForEach g s i j (k + 1)) st hp = .bad overrun := by
      rw [pForEach] at hr
      rw [P_bind_assoc, P_bind_assoc]
      exact hr
    replace hr' := P_bind_eq_bad hr'
    rcases hr' with hr' | ⟨u, s2, h2, e2, hr'⟩
    · exact .head (.expr (ho k st hp hi hn hr'))
    · obtain ⟨i2, _, r2⟩ := (he k).ev hi trivial e2
      obtain rfl := (Keeps.bind (.bind .readPtr fun _ => .readPtr) hg) _ _ _ _ _ e2
      refine .cons (.expr r2) (.cons (env1 := upd env y (.int .i32 (k + 1 : Nat))) ?_
        (OSem.forEachW hy ht h0 hg he ho hs j (k + 1) s2 _ i2 hn hc (by rw [hv]; congr 1; omega) hr'))
      have eb : binOp .add (.int .i32 k) (.int .i32 1) (upd env y (.int .i32 (k : Nat))) (conc K s2 h2) =
          .ok (.int .i32 (k + 1 : Nat)) (upd env y (.int .i32 (k : Nat))) (conc K s2 h2) := by
        rw [bin_add (ta := .i32) (tb := .i32) (conv_i32 (by omega) (by omega)) (conv_i32 (by omega) (by omega))]
        exact arith_i32 (n := (k : Int) + 1) (by omega) (by omega)
      have := ExecTo.set (ty := .i32) (x := y) (k' := (k + 1 : Nat)) (EvalTo.bin (a := .var y) (b := .lit .i32 1) (.int upd_same) .lit eb)
        (conv_i32 (by omega) (by omega))
      rwa [upd_upd] at this

/-- `for (i = 0; i < s->len; i++) w(s->arr[i], buf);` -/
theorem OSem.writeEach {ce : Expr} {g : Addr → P Unit} {t : ITy} {y : Nat} (hy : y ≠ 0) (ht : ITy.usual .i32 t = .i32) (h0 : env 0 = ptrVal s) (hg : ∀ a, Keeps (g a))
    (he : ∀ k, ESem K ce (upd env y (.int .i32 (k : Nat))) anySt ((readPtr s i >>= fun arr => readPtr arr k) >>= g) (fun _ => .undef) anyRes)
    (ho : ∀ k, OExp K ce (upd env y (.int .i32 (k : Nat))) ((readPtr s i >>= fun arr => readPtr arr k) >>= g)) :
    OSem K (.set .i32 y (.lit .i32 0) :: .loop (.bin .lt (.var y) (.ldInt t (.var 0) 0)) [.expr ce]
      [.set .i32 y (.bin .add (.var y) (.lit .i32 1))] :: ss) env (readInt s 0 >>= fun n => pForEach g s i n 0) := by
  intro st h hi hn hr
  replace hr := Tame.readInt.next hr
  obtain ⟨n, s1, h1, e1, hr⟩ := hr
  obtain ⟨hs, rfl, rfl, ps, is, hc, hv⟩ := readInt_eq_ok e1
  refine .cons (env1 := upd env y (.int .i32 (0 : Nat))) ⟨0, fun _ _ => rfl⟩ ?_
  exact OSem.forEachW hy ht h0 hg he ho hs n 0 _ _ hi hn hc (by rw [hv, Nat.zero_add]) hr

/-- The header of an array: its length is the number of elements. -/
theorem OSem.hdrLen {k : P β} (h0 : env 0 = ptrVal a) (h1 : env 1 = K.buf) (hk : OSem K ss env k) :
    OSem K (.expr (.call .sml_buf_set_type_and_length [.var 1, .lit .i32 112, .ldInt .i32 (.var 0) 0]) :: ss) env
      (readInt a 0 >>= fun n => lift (setTypeAndLength tyList n) >>= fun _ => k) := by
  intro st h hi hx hr
  replace hr := Tame.readInt.next hr
  obtain ⟨n, s1, h1', e1, hr⟩ := hr
  have e1' := e1
  obtain ⟨_, rfl, rfl, ps, is, hc, hv⟩ := readInt_eq_ok e1'
  have hn : n ≤ 2147483647 := hi.ints _ _ hc n (List.mem_of_getElem? hv)
  have ea : EvalsTo [.var 1, .lit .i32 112, .ldInt .i32 (.var 0) 0] env (conc K s1 h1') [K.buf, .int .i32 112, .int .i32 n] env (conc K s1 h1') :=
    .cons (ev_buf K h1) (.cons .lit (.one (.ldInt (.ptr h0) (loadInt_cell hi e1))))
  replace hr := P_bind_eq_bad hr
  rcases hr with hr | ⟨u, s2, h2, e2, hr⟩
  · exact .head (.expr (.call ea (setTypeAndLength_out .i32 .i32 (show tyList < 256 by decide) (show n < 4294967296 by omega) K s1 h1'.next (K.blocks h1') hi.good (lift_eq_bad hr))))
  have e2' := lift_eq_ok e2
  obtain ⟨e2', rfl⟩ := e2'
  obtain ⟨⟨g, l⟩, _, r⟩ := setTypeAndLength_src .i32 .i32 (show tyList < 256 by decide) (show n < 4294967296 by omega) K s1 h2.next (K.blocks h2) hi.good trivial _ _ e2'
  exact .cons (.expr (.call ea r)) (hk _ _ (hi.of_good g l) hx hr)

theorem OExp.elemW {g : Addr → P Unit} {y : Nat} (hy0 : y ≠ 0) (hy1 : y ≠ 1) (h0 : env 0 = ptrVal s) (h1 : env 1 = K.buf) (hf : WriteOut f g) (k : Nat) :
    OExp K (.call f [.elem (.ldPtr (.var 0) i) (.var y), .var 1]) (upd env y (.int .i32 (k : Nat))) ((readPtr s i >>= fun arr => readPtr arr k) >>= g) :=
  OExp.callArg (as := fun K => [K.buf]) (ESem.elem (ESem.ldPtr (K := K) (pre := anySt) ((upd_other (Ne.symm hy0)).trans h0)) upd_same)
    (.bind .readPtr fun _ => .readPtr) (.bind .readPtr fun _ => .readPtr) (fun _ _ => evals_var ((upd_other (Ne.symm hy1)).trans h1) ptr_ne) fun b => hf b

/-- `if (x->m && x->len > 0)`. -/
theorem OSem.iteBoth {i : Nat} {p q : P Unit} (h0 : env 0 = ptrVal a) (hp : OSem K (A ++ ss) env p) (hq : OSem K (B ++ ss) env q) :
    OSem K (.ite (.and (.ldPtr (.var 0) i) (.bin .gt (.ldInt .i32 (.var 0) 0) (.lit .i32 0))) A B :: ss) env
      (readPtr a i >>= fun v => readInt a 0 >>= fun n => if v ≠ 0 ∧ n > 0 then p else q) := by
  intro st h hi hx hr
  replace hr := Tame.readPtr.next hr
  obtain ⟨v, s1, h1, e1, hr⟩ := hr
  replace hr := Tame.readInt.next hr
  obtain ⟨n, s2, h2, e2, hr⟩ := hr
  have e1' := e1
  obtain ⟨_, rfl, rfl, _⟩ := readPtr_eq_ok e1'
  have e2' := e2
  obtain ⟨_, rfl, rfl, ps, is, hc, hv⟩ := readInt_eq_ok e2'
  have hn : n ≤ 2147483647 := hi.ints _ _ hc n (List.mem_of_getElem? hv)
  have ev1 : EvalTo (.ldPtr (.var 0) i) env (conc K s2 h2) (ptrVal v) env (conc K s2 h2) := .ldPtr (.ptr h0) (loadPtr_cell hi e1)
  have ev2 : EvalTo (.bin .gt (.ldInt .i32 (.var 0) 0) (.lit .i32 0)) env (conc K s2 h2) (ofBool (decide ((n : Int) > 0))) env (conc K s2 h2) :=
    .bin (.ldInt (.ptr h0) (loadInt_cell hi e2)) .lit (bin_gt (ta := .i32) (tb := .i32) (conv_i32 (by omega) (by omega)) (conv_i32 (by omega) (by omega)))
  by_cases hv0 : v = 0
  · rw [if_neg (by simp [hv0])] at hr
    exact .ite (.and_f ev1 (by subst hv0; rfl)) (truth_f rfl) (hq _ _ hi hx hr)
  by_cases hn0 : n > 0
  · rw [if_pos ⟨hv0, hn0⟩] at hr
    exact .ite (.and_t ev1 (truth_ptr hv0) ev2 (truth_pos (by omega))) (truth_t rfl) (hp _ _ hi hx hr)
  · rw [if_neg (by simp [hn0])] at hr
    exact .ite (.and_t ev1 (truth_ptr hv0) ev2 (truth_neg (by omega))) (truth_f rfl) (hq _ _ hi hx hr)

theorem treePathWrite_out : WriteOut .sml_tree_path_write pTreePathWrite := by
  refine WriteOut.guard rfl rfl (fun _ => rfl) fun K a h0 => ?_
  refine OSem.iteBoth (a := a) (by rfl) ?_ .pure
  refine OSem.hdrLen (by rfl) (by rfl) ?_
  exact OSem.writeEach (y := 2) (by decide) rfl (by rfl) keeps_octet (fun k => ESem.elemW (by decide) (by decide) (by rfl) (by rfl) octetStringWrite_src k)
    fun k => OExp.elemW (by decide) (by decide) (by rfl) (by rfl) octetStringWrite_out k

theorem sequenceWrite_out {g : Addr → P Unit} (hf : OWrite f g) (ht : f.byPtr = true := by first | rfl | assumption) :
    OCall .sml_sequence_write [.var 1, .fn f] (pSequenceWrite g) := by
  have hg := hf.keeps
  refine ⟨fun K => [K.buf, .fn f], fun _ _ h1 _ _ => evals_cons (eval_var h1) (evals_cons rfl evals_nil), ?_, fun a => ?_, keeps_seq hg⟩
  · obtain ⟨vs, he, hs⟩ := sequenceWrite_src hf.src hg ht
    intro a K st h hi hp b st' h' hr
    have hv : vs K = [K.buf, .fn f] := by
      have := he K (envOf [.undef, K.buf]) rfl (call program 0) (conc K st h)
      have h2 : evals (call program 0) [.var 1, .fn f] (envOf [.undef, K.buf]) (conc K st h) = .ok [K.buf, .fn f] (envOf [.undef, K.buf]) (conc K st h) :=
        evals_cons (eval_var rfl) (evals_cons rfl evals_nil)
      rw [h2] at this
      injection this with this
      exact this.symm
    have := hs a K st h hi hp b st' h' hr
    simp only [hv] at this
    exact this
  intro K st h hi hx hr
  refine .of (fun _ _ => rfl) ?_
  generalize hE : envOf [ptrVal a, K.buf, .fn f] = E
  have E0 : E 0 = ptrVal a := by subst hE; rfl
  have E1 : E 1 = K.buf := by subst hE; rfl
  have E2 : E 2 = .fn f := by subst hE; rfl
  unfold pSequenceWrite at hr
  by_cases ha : a = 0
  · rw [if_pos ha] at hr
    exact optional_out hi E0 E1 ha hr
  rw [if_neg ha] at hr
  refine .ite (b := false) (ev_null0 E0) (truth_neg ha) ?_
  refine OSem.hdrLen (K := K) (env := E) E0 E1 (OSem.writeEach (ss := []) (t := .i32) (y := 3) (i := 0) (ce := .callPtr (.var 2) [.elem (.ldPtr (.var 0) 0) (.var 3), .var 1])
    (by decide) rfl E0 hg (fun k => ?_) fun k => ?_) st h hi hx hr
  · intro st h hi _ b st' h' hr
    replace hr := P_bind_eq_ok hr
    obtain ⟨v, s1, h1, e1, hr⟩ := hr
    obtain ⟨i1, _, r1⟩ := (ESem.elem (K := K) (ESem.ldPtr (pre := anySt) (env := upd E 3 (.int .i32 (k : Nat))) (x := 0) ((upd_other (by decide)).trans E0)) upd_same).ev hi trivial e1
    obtain ⟨i2, _, c2⟩ := (hf.src v).run i1 trivial hr
    exact ⟨i2, trivial, EvalTo.callPtr (.var ((upd_other (by decide)).trans E2) (fun h => nomatch h)) (.cons r1 (.one (ev_buf K ((upd_other (by decide)).trans E1)))) c2⟩
  · intro st h hi hx hr
    replace hr := Tame.next (.bind .readPtr fun _ => .readPtr) hr
    obtain ⟨v, s1, h1, e1, hr⟩ := hr
    obtain ⟨i1, _, r1⟩ := (ESem.elem (K := K) (ESem.ldPtr (pre := anySt) (env := upd E 3 (.int .i32 (k : Nat))) (x := 0) ((upd_other (by decide)).trans E0)) upd_same).ev hi trivial e1
    obtain rfl := (Keeps.bind .readPtr fun _ => .readPtr) _ _ _ _ _ e1
    exact EvalOut.callPtr (.var ((upd_other (by decide)).trans E2) (fun h => nomatch h)) (.cons r1 (.one (ev_buf K ((upd_other (by decide)).trans E1)))) (hf.out v K _ _ i1 hx hr)

/-! ## Trees -/

theorem periodEntryWrite_out : WriteOut .sml_period_entry_write pPeriodEntryWrite := by
  refine WriteOut.guard rfl rfl (fun _ => rfl) fun K a h0 => ?_
  exact OSem.wstruct (fs := [(.sml_octet_string_write, [.var 1]), (.sml_number_write, [.lit .i32 96, .lit .u64 1, .var 1]), (.sml_number_write, [.lit .i32 80, .lit .u64 1, .var 1]),
      (.sml_value_write, [.var 1]), (.sml_octet_string_write, [.var 1])]) (x := 0) (by rfl) (by rfl) (by decide)
    ⟨.plain oOctet, .number (by decide) (by decide), .number (by decide) (by decide), .plain oValue, .plain oOctet, trivial⟩

theorem tupelEntryWrite_out : WriteOut .sml_tupel_entry_write pTupelEntryWrite := by
  refine WriteOut.guard rfl rfl (fun _ => rfl) fun K a h0 => ?_
  exact OSem.wstruct (fs := [(.sml_octet_string_write, [.var 1]), (.sml_time_write, [.var 1]), (.sml_number_write, [.lit .i32 96, .lit .u64 8, .var 1]),
      (.sml_number_write, [.lit .i32 96, .lit .u64 1, .var 1]), (.sml_number_write, [.lit .i32 80, .lit .u64 1, .var 1]), (.sml_number_write, [.lit .i32 80, .lit .u64 8, .var 1]),
      (.sml_number_write, [.lit .i32 96, .lit .u64 1, .var 1]), (.sml_number_write, [.lit .i32 80, .lit .u64 1, .var 1]), (.sml_number_write, [.lit .i32 80, .lit .u64 8, .var 1]),
      (.sml_number_write, [.lit .i32 96, .lit .u64 1, .var 1]), (.sml_number_write, [.lit .i32 80, .lit .u64 1, .var 1]), (.sml_number_write, [.lit .i32 80, .lit .u64 8, .var 1]),
      (.sml_octet_string_write, [.var 1]),
      (.sml_number_write, [.lit .i32 96, .lit .u64 1, .var 1]), (.sml_number_write, [.lit .i32 80, .lit .u64 1, .var 1]), (.sml_number_write, [.lit .i32 80, .lit .u64 8, .var 1]),
      (.sml_number_write, [.lit .i32 96, .lit .u64 1, .var 1]), (.sml_number_write, [.lit .i32 80, .lit .u64 1, .var 1]), (.sml_number_write, [.lit .i32 80, .lit .u64 8, .var 1]),
      (.sml_number_write, [.lit .i32 96, .lit .u64 1, .var 1]), (.sml_number_write, [.lit .i32 80, .lit .u64 1, .var 1]), (.sml_number_write, [.lit .i32 80, .lit .u64 8, .var 1]),
      (.sml_octet_string_write, [.var 1])]) (x := 0) (by rfl) (by rfl) (by decide)
    ⟨.plain oOctet, .plain oTime, .number (by decide) (by decide),
      .number (by decide) (by decide), .number (by decide) (by decide), .number (by decide) (by decide),
      .number (by decide) (by decide), .number (by decide) (by decide), .number (by decide) (by decide),
      .number (by decide) (by decide), .number (by decide) (by decide), .number (by decide) (by decide),
      .plain oOctet,
      .number (by decide) (by decide), .number (by decide) (by decide), .number (by decide) (by decide),
      .number (by decide) (by decide), .number (by decide) (by decide), .number (by decide) (by decide),
      .number (by decide) (by decide), .number (by decide) (by decide), .number (by decide) (by decide),
      .plain oOctet, trivial⟩

theorem oPeriod : OWrite .sml_period_entry_write pPeriodEntryWrite := ⟨periodEntryWrite_src, periodEntryWrite_out, keeps_period⟩
theorem oTupel : OWrite .sml_tupel_entry_write pTupelEntryWrite := ⟨tupelEntryWrite_src, tupelEntryWrite_out, keeps_tupel⟩
theorem oTreePath : OWrite .sml_tree_path_write pTreePathWrite := ⟨treePathWrite_src, treePathWrite_out, keeps_path⟩

theorem procParValueWrite_out : WriteOut .sml_proc_par_value_write pProcParValueWrite := by
  refine WriteOut.guard rfl rfl (fun _ => rfl) fun K a h0 => ?_
  refine OSem.hdr (n := 2) (by rfl) (by decide) (fun _ _ => rfl) ?_
  refine OSem.writeField (a := a) (by rfl) (by rfl) (OCall.number (type := 96) (size := 1) (by decide) (by decide)) ?_
  intro st h hi hx hr
  replace hr := Tame.readPtr.next hr
  obtain ⟨tag, s1, h1, e1, hr⟩ := hr
  replace hr := Tame.readTag.next hr
  obtain ⟨t, s2, h2, e2, hr⟩ := hr
  have e1' := e1
  obtain ⟨_, rfl, rfl, _⟩ := readPtr_eq_ok e1'
  have e2' := e2
  obtain ⟨_, rfl, rfl, _⟩ := readTag_eq_ok e2'
  have e3 : (readPtr a 0 >>= fun tag => readTag 1 tag) s2 h2 = .ok t s2 h2 := by rw [P.bind_ok e1, e2]
  obtain ⟨_, _, ev⟩ := (ESem.deref (K := K) (pre := anySt) (env := envOf [ptrVal a, K.buf]) (ty := .u8) (w := 1) (ESem.ldPtr (x := 0) (a := a) (by rfl)) rfl conv_u8_nat).ev hi trivial e3
  have hd : ∀ {f w}, OWrite f w → (readPtr a 1 >>= fun d => w d) s2 h2 = .bad overrun →
      RunOut [.expr (.call f [.ldPtr (.var 0) 1, .var 1])] (envOf [ptrVal a, K.buf]) (conc K s2 h2) := fun hw hr =>
    OSem.writeEnd (K := K) (ss := []) (x := 0) (a := a) (by rfl) (by rfl) (.plain hw) s2 h2 hi hx hr
  by_cases t1 : t.val = 1
  · simp only [if_pos t1] at hr
    rw [t1] at ev
    exact .switch (A := [.expr (.call .sml_value_write [.ldPtr (.var 0) 1, .var 1])]) ⟨rfl, .inr ⟨_, rfl⟩⟩ ev (hd oValue hr)
  simp only [if_neg t1] at hr
  by_cases t2 : t.val = 2
  · simp only [if_pos t2] at hr
    rw [t2] at ev
    exact .switch (A := [.expr (.call .sml_period_entry_write [.ldPtr (.var 0) 1, .var 1])]) ⟨rfl, .inr ⟨_, rfl⟩⟩ ev (hd oPeriod hr)
  simp only [if_neg t2] at hr
  by_cases t3 : t.val = 3
  · simp only [if_pos t3] at hr
    rw [t3] at ev
    exact .switch (A := [.expr (.call .sml_tupel_entry_write [.ldPtr (.var 0) 1, .var 1])]) ⟨rfl, .inr ⟨_, rfl⟩⟩ ev (hd oTupel hr)
  simp only [if_neg t3] at hr
  by_cases t4 : t.val = 4
  · simp only [if_pos t4] at hr
    rw [t4] at ev
    exact .switch (A := [.expr (.call .sml_time_write [.ldPtr (.var 0) 1, .var 1])]) ⟨rfl, .inr ⟨_, rfl⟩⟩ ev (hd oTime hr)
  simp only [if_neg t4] at hr
  exact absurd hr (Tame.bind .readPtr (fun _ => .pure) _ _)

theorem oPpv : OWrite .sml_proc_par_value_write pProcParValueWrite := ⟨procParValueWrite_src, procParValueWrite_out, keeps_ppv⟩

theorem treeWriteAux_out : (n : Nat) → WriteOut .sml_tree_write (pTreeWriteAux n)
  | 0 => fun a => by
    intro K st h _ _ hr
    cases hr
  | n + 1 => by
    have ih := treeWriteAux_out n
    refine WriteOut.guard rfl rfl (fun a => by rw [pTreeWriteAux]) fun K a h0 => ?_
    refine OSem.hdr (n := 3) (by rfl) (by decide) (fun _ _ => rfl) ?_
    refine OSem.writeField (a := a) (by rfl) (by rfl) (.plain oOctet) ?_
    refine OSem.writeField (a := a) (by rfl) (by rfl) (.plain oPpv) ?_
    refine OSem.iteBoth (a := a) (by rfl) ?_ ?_
    · refine OSem.hdrLen (by rfl) (by rfl) ?_
      exact OSem.writeEach (y := 2) (by decide) rfl (by rfl) (keeps_tree n) (fun k => ESem.elemW (by decide) (by decide) (by rfl) (by rfl) (treeWriteAux_src n) k)
        fun k => OExp.elemW (by decide) (by decide) (by rfl) (by rfl) ih k
    · rw [← P_bind_unit (lift optionalWrite)]
      exact OSem.optionalW (by rfl) .pure

theorem oTree : OWrite .sml_tree_write pTreeWrite :=
  ⟨treeWrite_src, fun a K st h hi hx hr => treeWriteAux_out (h.next + 1) a K st h hi hx hr, keeps_treeWrite⟩

end Sml.C
