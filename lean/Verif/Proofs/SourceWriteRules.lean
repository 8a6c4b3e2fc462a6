import Verif.Proofs.SourceWriteLeaf
import Verif.Proofs.SourceCrc

/-!
# Rules for the write functions

The shapes of the write functions in the C source: an omitted value, the header of a list, the members one after another, the
elements of an array.
-/

namespace Sml.C

/-! ## Write functions change the buffer only -/

/-- The heap is as before. -/
def Keeps (p : P α) : Prop := ∀ st h u st' h', p st h = .ok u st' h' → h' = h

theorem Keeps.bind {p : P α} {k : α → P β} (hp : Keeps p) (hk : ∀ a, Keeps (k a)) : Keeps (p >>= k) := by
  intro st h u st' h' hr
  obtain ⟨b, s, h1, e1, e2⟩ := P_bind_eq_ok hr
  exact (hk b _ _ _ _ _ e2).trans (hp _ _ _ _ _ e1)

theorem Keeps.pure : Keeps (pure a : P α) := by
  intro st h u st' h' hr
  cases hr
  rfl

theorem Keeps.fault : Keeps (fault e : P α) := by
  intro st h u st' h' hr
  cases hr

theorem Keeps.lift {m : M α} : Keeps (lift m) := fun _ _ _ _ _ hr => (lift_eq_ok hr).2

theorem Keeps.ite {p q : P α} (c : Prop) [Decidable c] (hp : Keeps p) (hq : Keeps q) : Keeps (if c then p else q) := by
  split <;> assumption

theorem Keeps.readPtr : Keeps (readPtr a i) := fun _ _ _ _ _ hr => (readPtr_eq_ok hr).2.2.1
theorem Keeps.readInt : Keeps (readInt a i) := fun _ _ _ _ _ hr => (readInt_eq_ok hr).2.2.1
theorem Keeps.readTag : Keeps (readTag w a) := fun _ _ _ _ _ hr => (readTag_eq_ok hr).2.2.1
theorem Keeps.readNum : Keeps (readNum a) := fun _ _ _ _ _ hr => (readNum_eq_ok hr).2.2.1
theorem Keeps.readRaw : Keeps (readRaw a n) := fun _ _ _ _ _ hr => (readRaw_eq_ok hr).2.2.1

theorem Keeps.frees {p : P α} (hp : Keeps p) : OnlyFrees p := fun st h u st' h' hr a => .inr (by rw [hp _ _ _ _ _ hr])

theorem Keeps.forEach {g : Addr → P Unit} (hg : ∀ a, Keeps (g a)) (s : Addr) (i : Nat) : (n k : Nat) → Keeps (pForEach g s i n k)
  | 0, _ => .pure
  | n + 1, k => .bind .readPtr fun _ => .bind .readPtr fun _ => .bind (hg _) fun _ => Keeps.forEach hg s i n (k + 1)

theorem Keeps.fields (a : Addr) : (i : Nat) → (ws : List (Addr → P Unit)) → (∀ w ∈ ws, ∀ b, Keeps (w b)) → Keeps (pWriteFields a i ws)
  | _, [], _ => .pure
  | i, w :: ws, h => .bind .readPtr fun v => .bind (h w (List.mem_cons_self ..) v) fun _ => Keeps.fields a (i + 1) ws fun g' hg => h g' (List.mem_cons_of_mem _ hg)

theorem Keeps.struct {n : Nat} (ws : List (Addr → P Unit)) (h : ∀ w ∈ ws, ∀ b, Keeps (w b)) (a : Addr) : Keeps (pWriteStruct n ws a) :=
  .bind .lift fun _ => .fields a 0 ws h

theorem Keeps.nil : ∀ g ∈ ([] : List (Addr → P Unit)), ∀ b, Keeps (g b) := fun _ h => nomatch h
theorem Keeps.cons {f : Addr → P Unit} {gs : List (Addr → P Unit)} (hf : ∀ b, Keeps (f b)) (hg : ∀ g ∈ gs, ∀ b, Keeps (g b)) :
    ∀ g ∈ f :: gs, ∀ b, Keeps (g b) := by
  intro g h
  rcases List.mem_cons.mp h with rfl | h
  · exact hf
  · exact hg g h

theorem keeps_number {type size : Nat} (a : Addr) : Keeps (pNumberWrite type size a) :=
  .ite _ .lift (.bind .lift fun _ => .ite _ .fault (.bind .readNum fun _ => .ite _ .lift .fault))
theorem keeps_octet (a : Addr) : Keeps (pOctetStringWrite a) :=
  .ite _ .lift (.bind .readInt fun _ => .bind .lift fun _ => .bind (.bind .readPtr fun _ => .bind .readInt fun _ => .ite _ .pure .readRaw) fun _ => .lift)
theorem keeps_boolean (a : Addr) : Keeps (pBooleanWrite a) :=
  .ite _ .lift (.bind .lift fun _ => .bind .readTag fun _ => .ite _ (.bind .lift fun _ => .lift) (.bind .lift fun _ => .lift))
theorem keeps_value (a : Addr) : Keeps (pValueWrite a) :=
  .ite _ .lift (.bind .readInt fun _ => .bind .readPtr fun d => .ite _ (keeps_octet d) (.ite _ (keeps_boolean d) (.ite _ (keeps_number d) .pure)))
theorem keeps_status (a : Addr) : Keeps (pStatusWrite a) := .ite _ .lift (.bind .readInt fun _ => .bind .readPtr fun _ => keeps_number _)
theorem keeps_seq {w : Addr → P Unit} (hw : ∀ a, Keeps (w a)) (a : Addr) : Keeps (pSequenceWrite w a) :=
  .ite _ .lift (.bind .readInt fun _ => .bind .lift fun _ => .bind .readInt fun _ => .forEach hw _ _ _ _)

macro "keeps_struct" : tactic => `(tactic| (
  refine Keeps.struct _ ?_ _
  repeat (first | exact Keeps.nil | refine Keeps.cons (by first | exact keeps_octet | exact fun _ => keeps_number _ | exact keeps_value | exact keeps_boolean | exact keeps_status | assumption) ?_)))

theorem keeps_time (a : Addr) : Keeps (pTimeWrite a) := by
  refine .ite _ .lift ?_
  keeps_struct
theorem keeps_listEntry (a : Addr) : Keeps (pListEntryWrite a) := by
  have := keeps_time
  unfold pListEntryWrite
  keeps_struct
theorem keeps_period (a : Addr) : Keeps (pPeriodEntryWrite a) := by
  refine .ite _ .lift ?_
  keeps_struct
theorem keeps_tupel (a : Addr) : Keeps (pTupelEntryWrite a) := by
  have := keeps_time
  refine .ite _ .lift ?_
  keeps_struct
theorem keeps_valueEntry (a : Addr) : Keeps (pValueEntryWrite a) := by
  unfold pValueEntryWrite
  keeps_struct
theorem keeps_header (a : Addr) : Keeps (pProfObjHeaderEntryWrite a) := by
  unfold pProfObjHeaderEntryWrite
  keeps_struct
theorem keeps_profPeriod (a : Addr) : Keeps (pProfObjPeriodEntryWrite a) := by
  have := keeps_time
  have := keeps_seq keeps_valueEntry
  unfold pProfObjPeriodEntryWrite
  keeps_struct
theorem keeps_path (a : Addr) : Keeps (pTreePathWrite a) :=
  .ite _ .lift (.bind .readPtr fun _ => .bind .readInt fun _ => .ite _ (.bind .readInt fun _ => .bind .lift fun _ => .bind .readInt fun _ => .forEach keeps_octet _ _ _ _) .pure)
theorem keeps_ppv (a : Addr) : Keeps (pProcParValueWrite a) :=
  .ite _ .lift (.bind .lift fun _ => .bind .readPtr fun _ => .bind (keeps_number _) fun _ => .bind .readPtr fun _ => .bind .readTag fun _ => .bind .readPtr fun d =>
    .ite _ (keeps_value d) (.ite _ (keeps_period d) (.ite _ (keeps_tupel d) (.ite _ (keeps_time d) .pure))))
theorem keeps_tree : (n : Nat) → (a : Addr) → Keeps (pTreeWriteAux n a)
  | 0, _ => .fault
  | n + 1, _ => .ite _ .lift (.bind .lift fun _ => .bind .readPtr fun _ => .bind (keeps_octet _) fun _ => .bind .readPtr fun _ => .bind (keeps_ppv _) fun _ =>
      .bind .readPtr fun _ => .bind .readInt fun _ => .ite _ (.bind .readInt fun _ => .bind .lift fun _ => .bind .readInt fun _ => .forEach (keeps_tree n) _ _ _ _) .lift)

/-! ## Members -/

/-- `sml_buf_set_type_and_length(buf, SML_TYPE_LIST, n);` -/
theorem Sem.hdr {k : P β} {n : Nat} {e : Expr} {t : ITy} (h1 : env 1 = K.buf) (hn : n < 4294967296) (he : ∀ Γ m, eval Γ e env m = .ok (.int t (n : Nat)) env m)
    (hk : Sem K body ss env anySt k vl post) :
    Sem K body (.expr (.call .sml_buf_set_type_and_length [.var 1, .lit .i32 112, e]) :: ss) env pre (lift (setTypeAndLength tyList n) >>= fun _ => k) vl post := by
  refine Sem.weaken (pre' := anySt) ?_ fun _ _ => trivial
  refine Sem.step (k := fun _ => k) (E := fun _ => env) (SSem.expr (ESem.call (as := fun K => [K.buf, .int .i32 112, .int t n]) (fun Γ m => ?_)
    (.of_M (setTypeAndLength_src .i32 t (show tyList < 256 by decide) hn)))) fun _ => hk
  exact evals_cons (eval_var h1) (evals_cons rfl (evals_cons (he _ _) evals_nil))

/-- `sml_buf_optional_write(buf);` -/
theorem Sem.optionalW {k : P β} (h1 : env 1 = K.buf) (hk : Sem K body ss env anySt k vl post) :
    Sem K body (.expr (.call .sml_buf_optional_write [.var 1]) :: ss) env pre (lift optionalWrite >>= fun _ => k) vl post := by
  refine Sem.weaken (pre' := anySt) ?_ fun _ _ => trivial
  exact Sem.step (k := fun _ => k) (E := fun _ => env) (SSem.expr (ESem.call (as := fun K => [K.buf]) (fun Γ m => evals_var h1 ptr_ne) (.of_M optionalWrite_src))) fun _ => hk

/-- A call of a write function whose first argument is the value. -/
def CallSpec (f : Fn) (as : List Expr) (w : Addr → P Unit) : Prop :=
  ∃ vs : Ctx → List Val, (∀ K env, env 1 = K.buf → ∀ Γ m, evals Γ as env m = .ok (vs K) env m) ∧
    ∀ a, FSpec f (fun K => ptrVal a :: vs K) anySt (w a) (fun _ => .undef) anyRes

theorem CallSpec.plain (h : WriteSpec f w) : CallSpec f [.var 1] w := ⟨fun K => [K.buf], fun _ _ h1 _ _ => evals_var h1 ptr_ne, h⟩

theorem CallSpec.number {type size : Nat} (ht : type < 256) (hs : size < 2147483647) :
    CallSpec .sml_number_write [.lit .i32 type, .lit .u64 size, .var 1] (pNumberWrite type size) := by
  refine ⟨fun K => [.int .i32 type, .int .u64 size, K.buf], fun K env h1 Γ m => ?_, fun a => numberWrite_src .i32 .u64 ht hs a⟩
  exact evals_cons rfl (evals_cons rfl (evals_var h1 ptr_ne))

/-- `f(x->m, ...);` -/
theorem Sem.writeField {k : P β} (ha : env x = ptrVal a) (h1 : env 1 = K.buf) (hf : CallSpec f as w) (hk : Sem K body ss env anySt k vl post) :
    Sem K body (.expr (.call f (.ldPtr (.var x) i :: as)) :: ss) env pre (readPtr a i >>= fun v => w v >>= fun _ => k) vl post := by
  obtain ⟨vs, he, hs⟩ := hf
  have := Sem.step (k := fun _ => k) (E := fun _ => env) (SSem.expr (ESem.callArg (k := w) (as := vs) (ESem.ldPtr (K := K) (pre := anySt) (i := i) ha)
    (fun _ _ => he K env h1 _ _) fun b => hs b)) fun _ => hk
  rw [P_bind_assoc] at this
  exact this.weaken fun _ _ => trivial

/-- The statements `f0(x->m0, ...); f1(x->m1, ...); ...` -/
def writeStmts (x : Nat) : Nat → List (Fn × List Expr) → List Stmt
  | _, [] => []
  | i, f :: fs => .expr (.call f.1 (.ldPtr (.var x) i :: f.2)) :: writeStmts x (i + 1) fs

/-- The calls do what their models do. -/
def CallSpecs : List (Fn × List Expr) → List (Addr → P Unit) → Prop
  | [], [] => True
  | f :: fs, w :: ws => CallSpec f.1 f.2 w ∧ CallSpecs fs ws
  | _, _ => False

theorem Sem.writeStmts (ha : env x = ptrVal a) (h1 : env 1 = K.buf) (hk : Sem K body ss env anySt k vl post) : (i : Nat) → (fs : List (Fn × List Expr)) → (ws : List (Addr → P Unit)) →
    CallSpecs fs ws → Sem K body (writeStmts x i fs ++ ss) env anySt (pWriteFields a i ws >>= fun _ => k) vl post
  | i, [], [], _ => by
    rw [pWriteFields, C.writeStmts, P_pure_bind]
    exact hk
  | i, f :: fs, w :: ws, h => by
    have ih := Sem.writeStmts ha h1 hk (i + 1) fs ws h.2
    rw [pWriteFields, C.writeStmts, P_bind_assoc]
    simp only [P_bind_assoc]
    exact Sem.writeField ha h1 h.1 ih

/-- A write function from its body. -/
theorem WriteSpec.of (hp : (program f).params = [none, none]) (hr : (program f).res = none)
    (hb : ∀ a, ∀ K : Ctx, Sem K (program f).body (program f).body (envOf [ptrVal a, K.buf]) anySt (w a) (fun _ => .undef) anyRes) : WriteSpec f w :=
  fun a => FSpec.of_body (vs := fun K => [ptrVal a, K.buf]) (vb := fun _ => .undef) (fun K env m => by rw [hp]; rfl) (hb a) (fun b st env m _ => by rw [hr]; rfl)

/-- The header and the members. -/
theorem Sem.wstruct {n : Nat} {fs : List (Fn × List Expr)} {ws : List (Addr → P Unit)} (ha : env x = ptrVal a) (h1 : env 1 = K.buf) (hn : n < 4294967296) (h : CallSpecs fs ws) :
    Sem K body (.expr (.call .sml_buf_set_type_and_length [.var 1, .lit .i32 112, .lit .i32 n]) :: C.writeStmts x 0 fs) env anySt (pWriteStruct n ws a) (fun _ => .undef) anyRes := by
  refine Sem.hdr h1 hn (fun _ _ => rfl) ?_
  rw [← P_bind_unit (pWriteFields a 0 ws), ← List.append_nil (C.writeStmts x 0 fs)]
  exact Sem.writeStmts ha h1 Sem.end_ 0 fs ws h

theorem WriteSpec.struct {n : Nat} {fs : List (Fn × List Expr)} {ws : List (Addr → P Unit)} (hp : (program f).params = [none, none]) (hr : (program f).res = none)
    (hb : (program f).body = .expr (.call .sml_buf_set_type_and_length [.var 1, .lit .i32 112, .lit .i32 n]) :: C.writeStmts 0 0 fs)
    (hn : n < 4294967296) (h : CallSpecs fs ws) : WriteSpec f (pWriteStruct n ws) := by
  refine WriteSpec.of hp hr fun a K => ?_
  rw [hb]
  exact Sem.wstruct rfl rfl hn h

/-- The functions whose names end in `_`. -/
theorem WriteSpec.struct' {n : Nat} {fs : List (Fn × List Expr)} {ws : List (Addr → P Unit)} (hp : (program f).params = [none, none]) (hr : (program f).res = none)
    (hb : (program f).body = .setPtr 2 (.var 0) :: .expr (.call .sml_buf_set_type_and_length [.var 1, .lit .i32 112, .lit .i32 n]) :: C.writeStmts 2 0 fs)
    (hn : n < 4294967296) (h : CallSpecs fs ws) : WriteSpec f (pWriteStruct n ws) := by
  refine WriteSpec.of hp hr fun a K => ?_
  rw [hb]
  refine Sem.skip (env' := upd (envOf [ptrVal a, K.buf]) 2 (ptrVal a)) (fun _ _ _ _ _ => rfl) ?_
  exact Sem.wstruct upd_same rfl hn h

/-- `if (x == 0) { sml_buf_optional_write(buf); return; }` -/
theorem WriteSpec.guard {S : List Stmt} {w q : Addr → P Unit} (hp : (program f).params = [none, none]) (hr : (program f).res = none)
    (hb : (program f).body = .ite (.bin .eq (.var 0) .null) [.expr (.call .sml_buf_optional_write [.var 1]), .retVoid] [] :: S)
    (hw : ∀ a, w a = if a = 0 then lift optionalWrite else q a)
    (h : ∀ (K : Ctx) a, a ≠ 0 → Sem K (program f).body S (envOf [ptrVal a, K.buf]) anySt (q a) (fun _ => .undef) anyRes) : WriteSpec f w := by
  refine WriteSpec.of hp hr fun a K => ?_
  rw [hw]
  have := h K a
  rw [hb] at this ⊢
  intro st h hi _ b st' h' hr
  by_cases ha : a = 0
  · rw [if_pos ha] at hr
    obtain ⟨i1, r1⟩ := optional_run (x := 0) (y := 1) (env := envOf [ptrVal a, K.buf]) (ss := S)
      (body := .ite (.bin .eq (.var 0) .null) [.expr (.call .sml_buf_optional_write [.var 1]), .retVoid] [] :: S) hi (by rfl) (by rfl) ha hr
    exact ⟨i1, trivial, r1⟩
  · rw [if_neg ha] at hr
    obtain ⟨i1, q1, r1⟩ := (this ha).run hi trivial hr
    exact ⟨i1, trivial, RunTo.ite (b := false) (ev_null0 (by rfl)) (truth_neg ha) r1⟩

/-- A function that only calls another. -/
theorem WriteSpec.wrap (hp : (program f').params = [none, none]) (hr : (program f').res = none) (hb : (program f').body = [.expr (.call f [.var 0, .var 1])]) (h : WriteSpec f w) :
    WriteSpec f' w := by
  refine WriteSpec.of hp hr fun a K => ?_
  rw [hb, ← P_bind_unit (w a)]
  refine Sem.step (SSem.expr (ESem.call (as := fun K => [ptrVal a, K.buf]) (fun Γ m => ?_) (h a))) fun _ => Sem.end_
  exact evals_cons (eval_var rfl) (evals_var rfl ptr_ne)

/-! ## Values -/

theorem bandType {n k : Nat} (hi : Inv K st h) (hx : env x = ptrVal a) (hr : readInt a 0 st h = .ok n st h) (hk : k < 2147483648) :
    EvalTo (.bin .band (.ldInt .u8 (.var x) 0) (.lit .i32 k)) env (conc K st h) (.int .i32 (n &&& k : Nat)) env (conc K st h) := by
  obtain ⟨_, _, _, ps, is, hc, hv⟩ := readInt_eq_ok hr
  have hn : n ≤ 2147483647 := hi.ints _ _ hc n (List.mem_of_getElem? hv)
  exact .bin (.ldInt (.ptr hx) (loadInt_cell hi hr)) .lit (band32 (b := k) .u8 .i32 rfl (by omega) hk)

theorem numberType_run {n : Nat} {env : Env} (hi : Inv K st h) (hx : env 0 = ptrVal a) (h1 : env 1 = K.buf) (e1 : readInt a 0 st h = .ok n st h) (e2 : readPtr a 0 st h = .ok d st h)
    (hr : pNumberWrite (n &&& 0x70) (n &&& 0xF) d st h = .ok u st' h') :
    Inv K st' h' ∧ ExecTo (.expr (.call .sml_number_write [.ldPtr (.var 0) 0, .bin .band (.ldInt .u8 (.var 0) 0) (.lit .i32 112), .bin .band (.ldInt .u8 (.var 0) 0) (.lit .i32 15), .var 1]))
      env (conc K st h) .next env (conc K st' h') := by
  have b1 : n &&& 0x70 < 256 := Nat.lt_of_le_of_lt Nat.and_le_right (by decide)
  have b2 : n &&& 0xF < 2147483647 := Nat.lt_of_le_of_lt Nat.and_le_right (by decide)
  obtain ⟨i1, _, c1⟩ := (numberWrite_src .i32 .i32 b1 b2 d).run hi trivial hr
  refine ⟨i1, .expr (.call (.cons (.ldPtr (.ptr hx) (loadPtr_cell hi e2)) (.cons (bandType hi hx e1 (by decide)) (.cons (bandType hi hx e1 (by decide)) (.one (ev_buf K h1))))) c1)⟩

theorem statusWrite_src : WriteSpec .sml_status_write pStatusWrite := by
  refine WriteSpec.guard rfl rfl rfl (fun _ => rfl) fun K a h0 => ?_
  intro st h hi _ b st' h' hr
  replace hr := P_bind_eq_ok hr
  obtain ⟨n, s1, h1, e1, hr⟩ := hr
  replace hr := P_bind_eq_ok hr
  obtain ⟨d, s2, h2, e2, hr⟩ := hr
  have e1' := e1
  obtain ⟨_, rfl, rfl, _⟩ := readInt_eq_ok e1'
  have e2' := e2
  obtain ⟨_, rfl, rfl, _⟩ := readPtr_eq_ok e2'
  obtain ⟨i1, r1⟩ := numberType_run (env := envOf [ptrVal a, K.buf]) hi (by rfl) (by rfl) e1 e2 hr
  exact ⟨i1, trivial, RunTo.cons r1 .nil⟩

theorem valueWrite_src : WriteSpec .sml_value_write pValueWrite := by
  refine WriteSpec.guard rfl rfl rfl (fun _ => rfl) fun K a h0 => ?_
  intro st h hi _ b st' h' hr
  replace hr := P_bind_eq_ok hr
  obtain ⟨n, s1, h1, e1, hr⟩ := hr
  replace hr := P_bind_eq_ok hr
  obtain ⟨d, s2, h2, e2, hr⟩ := hr
  have e1' := e1
  obtain ⟨_, rfl, rfl, _⟩ := readInt_eq_ok e1'
  have e2' := e2
  obtain ⟨_, rfl, rfl, _⟩ := readPtr_eq_ok e2'
  have ev := bandType (env := envOf [ptrVal a, K.buf]) (x := 0) hi (by rfl) e1 (show 112 < 2147483648 by decide)
  have ed : EvalTo (.ldPtr (.var 0) 0) (envOf [ptrVal a, K.buf]) (conc K s2 h2) (ptrVal d) (envOf [ptrVal a, K.buf]) (conc K s2 h2) := .ldPtr (.ptr (by rfl)) (loadPtr_cell hi e2)
  by_cases h1 : n &&& 0x70 = tyOctet
  · rw [if_pos h1] at hr
    obtain ⟨i1, _, c1⟩ := (octetStringWrite_src d).run hi trivial hr
    refine ⟨i1, trivial, RunTo.switch (A := [.expr (.call .sml_octet_string_write [.ldPtr (.var 0) 0, .var 1])]) ⟨rfl, .inr ⟨_, by rw [h1]; rfl⟩⟩ ev (.cons (.expr (.call (.cons ed (.one (ev_buf K (by rfl)))) c1)) .nil)⟩
  rw [if_neg h1] at hr
  by_cases h2 : n &&& 0x70 = tyBoolean
  · rw [if_pos h2] at hr
    obtain ⟨i1, _, c1⟩ := (booleanWrite_src d).run hi trivial hr
    refine ⟨i1, trivial, RunTo.switch (A := [.expr (.call .sml_boolean_write [.ldPtr (.var 0) 0, .var 1])]) ⟨rfl, .inr ⟨_, by rw [h2]; rfl⟩⟩ ev (.cons (.expr (.call (.cons ed (.one (ev_buf K (by rfl)))) c1)) .nil)⟩
  rw [if_neg h2] at hr
  by_cases h3 : n &&& 0x70 = tyUnsigned ∨ n &&& 0x70 = tyInteger
  · rw [if_pos h3] at hr
    obtain ⟨i1, r1⟩ := numberType_run (env := envOf [ptrVal a, K.buf]) hi (by rfl) (by rfl) e1 e2 hr
    rcases h3 with h3 | h3
    · refine ⟨i1, trivial, RunTo.switch (A := [.case 80, .expr (.call .sml_number_write [.ldPtr (.var 0) 0, .bin .band (.ldInt .u8 (.var 0) 0) (.lit .i32 112), .bin .band (.ldInt .u8 (.var 0) 0) (.lit .i32 15), .var 1])])
        ⟨rfl, .inr ⟨_, by rw [h3]; rfl⟩⟩ ev (.cons .case (.cons r1 .nil))⟩
    · refine ⟨i1, trivial, RunTo.switch (A := [.expr (.call .sml_number_write [.ldPtr (.var 0) 0, .bin .band (.ldInt .u8 (.var 0) 0) (.lit .i32 112), .bin .band (.ldInt .u8 (.var 0) 0) (.lit .i32 15), .var 1])])
        ⟨rfl, .inr ⟨_, by rw [h3]; rfl⟩⟩ ev (.cons r1 .nil)⟩
  · rw [if_neg h3] at hr
    cases hr
    refine ⟨hi, trivial, RunTo.switch (A := []) ⟨rfl, .inl ?_⟩ ev .nil⟩
    rw [pick_dflt]
    · rfl
    · simp only [hasCase, Bool.or_eq_false_iff, decide_eq_false_iff_not, and_true]
      simp only [tyOctet, tyBoolean, tyUnsigned, tyInteger] at h1 h2 h3
      omega

theorem timeWrite_src : WriteSpec .sml_time_write pTimeWrite := by
  refine WriteSpec.guard rfl rfl rfl (fun _ => rfl) fun K a h0 => ?_
  exact Sem.wstruct (fs := [(.sml_number_write, [.lit .i32 96, .lit .u64 1, .var 1]), (.sml_number_write, [.lit .i32 96, .lit .u64 4, .var 1])]) (x := 0) (by rfl) (by rfl) (by decide)
    ⟨.number (by decide) (by decide), .number (by decide) (by decide), trivial⟩

end Sml.C
