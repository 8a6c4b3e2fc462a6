import Verif.Proofs.Source

/-!
# Runs of the C source

Rules for what expressions, statements and calls lead to once there is enough fuel for nested calls and loops.
-/

namespace Sml.C

/-- Evaluation of an expression. -/
def EvalTo (e : Expr) (env : Env) (m : Mem) (v : Val) (env' : Env) (m' : Mem) : Prop :=
  ∃ N, ∀ n, N ≤ n → eval (call program n) e env m = .ok v env' m'

def EvalsTo (es : List Expr) (env : Env) (m : Mem) (vs : List Val) (env' : Env) (m' : Mem) : Prop :=
  ∃ N, ∀ n, N ≤ n → evals (call program n) es env m = .ok vs env' m'

/-- A statement. -/
def ExecTo (s : Stmt) (env : Env) (m : Mem) (o : Out) (env' : Env) (m' : Mem) : Prop :=
  ∃ N, ∀ n, N ≤ n → exec (call program n) n s env m = .ok o env' m'

def ExecsTo (ss : List Stmt) (env : Env) (m : Mem) (o : Out) (env' : Env) (m' : Mem) : Prop :=
  ∃ N, ∀ n, N ≤ n → execs (call program n) n ss env m = .ok o env' m'

/-- A call. -/
def CallTo (f : Fn) (vs : List Val) (m : Mem) (v : Val) (m' : Mem) : Prop :=
  ∃ N, ∀ n, N ≤ n → ∀ env, call program n f vs env m = .ok v env m'

/-- The rest of a function. -/
def RunTo (body ss : List Stmt) (env : Env) (m : Mem) (v : Val) (m' : Mem) : Prop :=
  ∃ N, ∀ n, N ≤ n → ∀ g, N ≤ g → ∃ env', runFrom (call program n) n body g ss env m = .ok v env' m'

/-- A loop. -/
def LoopTo (c : Expr) (body step : List Stmt) (env : Env) (m : Mem) (o : Out) (env' : Env) (m' : Mem) : Prop :=
  ∃ N, ∀ n, N ≤ n → ∀ k, N ≤ k →
    whileLoop (do truth (← eval (call program n) c)) (execs (call program n) n body) (execs (call program n) n step) k env m = .ok o env' m'

/-! ## Expressions -/

theorem EvalTo.of (h : ∀ Γ, eval Γ e env m = .ok v env' m') : EvalTo e env m v env' m' := ⟨0, fun _ _ => h _⟩

theorem EvalTo.lit : EvalTo (.lit t n) env m (.int t n) env m := .of fun Γ => by rw [eval]; rfl

theorem EvalTo.null : EvalTo .null env m nullPtr env m := .of fun Γ => by rw [eval]; rfl

theorem EvalTo.fn : EvalTo (.fn f) env m (.fn f) env m := .of fun Γ => by rw [eval]; rfl

theorem EvalTo.var (h : env x = v) (hv : v ≠ .undef) : EvalTo (.var x) env m v env m := .of fun Γ => by rw [eval]; exact getVar_ok h hv

theorem EvalTo.int {x : Nat} (h : env x = .int t n) : EvalTo (.var x) env m (.int t n) env m := .var h (by intro h; cases h)

theorem EvalTo.ptr {x : Nat} (h : env x = .ptr l i) : EvalTo (.var x) env m (.ptr l i) env m := .var h (by intro h; cases h)

theorem EvalTo.ldPtr (he : EvalTo e env m p env1 m1) (hl : loadPtr p i env1 m1 = .ok v env' m') : EvalTo (.ldPtr e i) env m v env' m' := by
  obtain ⟨N, r⟩ := he
  refine ⟨N, fun n hn => ?_⟩
  rw [eval, X_bind_ok (r n hn), hl]

theorem EvalTo.ldInt (he : EvalTo e env m p env1 m1) (hl : loadInt p i env1 m1 = .ok v env' m') : EvalTo (.ldInt t e i) env m (.int t v) env' m' := by
  obtain ⟨N, r⟩ := he
  refine ⟨N, fun n hn => ?_⟩
  rw [eval, X_bind_ok (r n hn), X_bind_ok hl]
  rfl

theorem EvalTo.ldFn (he : EvalTo e env m p env1 m1) (hl : loadInt p i env1 m1 = .ok (f.code : Int) env' m') (hf : Fn.ofCode f.code = some f) :
    EvalTo (.ldFn e i) env m (.fn f) env' m' := by
  obtain ⟨N, r⟩ := he
  refine ⟨N, fun n hn => ?_⟩
  rw [eval, X_bind_ok (r n hn), X_bind_ok hl, fnOf, Int.toNat_natCast, hf]
  rfl

theorem asNat_int {k : Nat} : asNat (.int t (k : Int)) env m = .ok k env m := by
  rw [asNat, asInt, X_bind_ok (X_pure _ _ _)]
  simp only
  rw [if_neg (show ¬ ((k : Int) < 0) by omega), X_pure, Int.toNat_natCast]

theorem asInt_int {k : Int} : asInt (.int t k) env m = .ok (t, k) env m := rfl

theorem EvalTo.elem {k : Nat} (he : EvalTo e env m p env1 m1) (hk : EvalTo i env1 m1 (.int t k) env2 m2) (hl : loadPtr p k env2 m2 = .ok v env' m') :
    EvalTo (.elem e i) env m v env' m' := by
  obtain ⟨N, r⟩ := he
  obtain ⟨N2, r2⟩ := hk
  refine ⟨max N N2, fun n hn => ?_⟩
  rw [eval, X_bind_ok (r n (by omega)), X_bind_ok (r2 n (by omega)), X_bind_ok asNat_int, hl]

theorem EvalTo.byte (he : EvalTo e env m p env1 m1) (hk : EvalTo i env1 m1 (.int t k) env2 m2) (ho : offset p k env2 m2 = .ok q env2 m2)
    (hl : loadNum ty q env2 m2 = .ok v env' m') : EvalTo (.byte ty e i) env m v env' m' := by
  obtain ⟨N, r⟩ := he
  obtain ⟨N2, r2⟩ := hk
  refine ⟨max N N2, fun n hn => ?_⟩
  rw [eval, X_bind_ok (r n (by omega)), X_bind_ok (r2 n (by omega)), X_bind_ok asInt_int]
  exact (X_bind_ok ho).trans hl

theorem EvalTo.deref (he : EvalTo e env m p env1 m1) (hl : loadNum ty p env1 m1 = .ok v env' m') : EvalTo (.deref ty e) env m v env' m' := by
  obtain ⟨N, r⟩ := he
  refine ⟨N, fun n hn => ?_⟩
  rw [eval, X_bind_ok (r n (by omega)), hl]

theorem EvalTo.addr (he : EvalTo e env m p env1 m1) (hk : EvalTo i env1 m1 (.int t k) env2 m2) (ho : offset p k env2 m2 = .ok q env' m') :
    EvalTo (.addr e i) env m q env' m' := by
  obtain ⟨N, r⟩ := he
  obtain ⟨N2, r2⟩ := hk
  refine ⟨max N N2, fun n hn => ?_⟩
  rw [eval, X_bind_ok (r n (by omega)), X_bind_ok (r2 n (by omega)), X_bind_ok asInt_int]
  exact ho

theorem EvalTo.addrPtr (he : EvalTo e env m p env1 m1) (ho : memberAddr p i env1 m1 = .ok q env' m') :
    EvalTo (.addrPtr e i) env m q env' m' := by
  obtain ⟨N, r⟩ := he
  refine ⟨N, fun n hn => ?_⟩
  rw [eval, X_bind_ok (r n (by omega)), ho]

theorem EvalTo.tab {k : Nat} (he : EvalTo e env m (.int t k) env1 m1) (hl : tabAt ty vs k env1 m1 = .ok v env' m') : EvalTo (.tab ty vs e) env m v env' m' := by
  obtain ⟨N, r⟩ := he
  refine ⟨N, fun n hn => ?_⟩
  rw [eval, X_bind_ok (r n (by omega)), X_bind_ok asNat_int, hl]

theorem EvalTo.not (he : EvalTo e env m v env' m') (ht : truth v env' m' = .ok b env' m') : EvalTo (.not e) env m (ofBool (!b)) env' m' := by
  obtain ⟨N, r⟩ := he
  refine ⟨N, fun n hn => ?_⟩
  rw [eval, X_bind_ok (r n hn), X_bind_ok ht]
  rfl

theorem EvalTo.bin (ha : EvalTo a env m x env1 m1) (hb : EvalTo b env1 m1 y env2 m2) (ho : binOp op x y env2 m2 = .ok z env' m') :
    EvalTo (.bin op a b) env m z env' m' := by
  obtain ⟨N, r⟩ := ha
  obtain ⟨N2, r2⟩ := hb
  refine ⟨max N N2, fun n hn => ?_⟩
  rw [eval, X_bind_ok (r n (by omega)), X_bind_ok (r2 n (by omega)), ho]

theorem EvalTo.and_f (ha : EvalTo a env m x env' m') (hx : truth x env' m' = .ok false env' m') : EvalTo (.and a b) env m (ofBool false) env' m' := by
  obtain ⟨N, r⟩ := ha
  refine ⟨N, fun n hn => ?_⟩
  rw [eval, X_bind_ok (r n hn), X_bind_ok hx]
  rfl

theorem EvalTo.and_t (ha : EvalTo a env m x env1 m1) (hx : truth x env1 m1 = .ok true env1 m1) (hb : EvalTo b env1 m1 y env' m')
    (hy : truth y env' m' = .ok t env' m') : EvalTo (.and a b) env m (ofBool t) env' m' := by
  obtain ⟨N, r⟩ := ha
  obtain ⟨N2, r2⟩ := hb
  refine ⟨max N N2, fun n hn => ?_⟩
  rw [eval, X_bind_ok (r n (by omega)), X_bind_ok hx]
  exact (X_bind_ok (r2 n (by omega))).trans (X_bind_ok hy)

theorem EvalTo.or_t (ha : EvalTo a env m x env' m') (hx : truth x env' m' = .ok true env' m') : EvalTo (.or a b) env m (ofBool true) env' m' := by
  obtain ⟨N, r⟩ := ha
  refine ⟨N, fun n hn => ?_⟩
  rw [eval, X_bind_ok (r n hn), X_bind_ok hx]
  rfl

theorem EvalTo.or_f (ha : EvalTo a env m x env1 m1) (hx : truth x env1 m1 = .ok false env1 m1) (hb : EvalTo b env1 m1 y env' m')
    (hy : truth y env' m' = .ok t env' m') : EvalTo (.or a b) env m (ofBool t) env' m' := by
  obtain ⟨N, r⟩ := ha
  obtain ⟨N2, r2⟩ := hb
  refine ⟨max N N2, fun n hn => ?_⟩
  rw [eval, X_bind_ok (r n (by omega)), X_bind_ok hx]
  exact (X_bind_ok (r2 n (by omega))).trans (X_bind_ok hy)

theorem EvalTo.cond (hc : EvalTo c env m x env1 m1) (hx : truth x env1 m1 = .ok t env1 m1) (hb : EvalTo (if t then a else b) env1 m1 y env' m') :
    EvalTo (.cond c a b) env m y env' m' := by
  obtain ⟨N, r⟩ := hc
  obtain ⟨N2, r2⟩ := hb
  refine ⟨max N N2, fun n hn => ?_⟩
  rw [eval, X_bind_ok (r n (by omega)), X_bind_ok hx]
  have := r2 n (by omega)
  cases t <;> exact this

theorem EvalTo.cast (he : EvalTo e env m (.int t k) env' m') : EvalTo (.cast ty e) env m (.int ty (ty.conv k)) env' m' := by
  obtain ⟨N, r⟩ := he
  refine ⟨N, fun n hn => ?_⟩
  rw [eval, X_bind_ok (r n (by omega))]
  rfl

theorem EvalTo.call (ha : EvalsTo es env m vs env' m1) (hc : CallTo f vs m1 v m') : EvalTo (.call f es) env m v env' m' := by
  obtain ⟨N, r⟩ := ha
  obtain ⟨N2, r2⟩ := hc
  refine ⟨max N N2, fun n hn => ?_⟩
  rw [eval, X_bind_ok (r n (by omega))]
  exact r2 n (by omega) env'

theorem EvalTo.callPtr (he : EvalTo e env m (.fn f) env1 m1) (ha : EvalsTo es env1 m1 vs env' m2) (hc : CallTo f vs m2 v m')
    (ht : f.byPtr = true := by first | rfl | assumption) : EvalTo (.callPtr e es) env m v env' m' := by
  obtain ⟨N0, r0⟩ := he
  obtain ⟨N, r⟩ := ha
  obtain ⟨N2, r2⟩ := hc
  refine ⟨max N0 (max N N2), fun n hn => ?_⟩
  rw [eval, X_bind_ok (r0 n (by omega)), X_bind_ok (r n (by omega)), callVal, if_pos ht]
  exact r2 n (by omega) env'

theorem room_call : room (call program n) env m = .ok true env m := rfl

theorem target_ok (h : p ≠ nullPtr) : target p env m = .ok () env m := by rw [target, if_neg h]; rfl

theorem heapPtr_ne (h : a ≠ 0) : Val.ptr (.heap a) i ≠ nullPtr := fun e => h (by injection e with e _; injection e)

/-- A pointer that is seen not to be `NULL`. -/
macro "nonnull" : tactic => `(tactic| first | assumption | exact heapPtr_ne (by assumption) | exact heapPtr_ne (by omega) | exact heapPtr_ne (Ctx.hA _) | (intro h; cases h; done))

theorem EvalTo.mallocRec : EvalTo (.mallocRec np ni) env m (ptrVal m.next) env { m with next := m.next + 1, heap := setHeap m.heap m.next (some .fresh) } :=
  ⟨0, fun n _ => by rw [eval, X_bind_ok room_call]; rfl⟩

theorem EvalTo.mallocBytes {k : Nat} (he : EvalTo e env m (.int t k) env' m') :
    EvalTo (.mallocBytes e) env m (ptrVal m'.next) env'
      { m' with next := m'.next + 1, heap := setHeap m'.heap m'.next (some (.raw (List.replicate k none))) } := by
  obtain ⟨N, r⟩ := he
  refine ⟨N, fun n hn => ?_⟩
  rw [eval, X_bind_ok (r n hn), X_bind_ok asNat_int]
  rfl

theorem EvalTo.realloc {k : Nat} (he : EvalTo e env m p env1 m1) (hk : EvalTo i env1 m1 (.int t k) env2 m2)
    (hl : reallocBlock p k env2 m2 = .ok v env' m') : EvalTo (.realloc e i) env m v env' m' := by
  obtain ⟨N, r⟩ := he
  obtain ⟨N2, r2⟩ := hk
  refine ⟨max N N2, fun n hn => ?_⟩
  rw [eval, X_bind_ok (r n (by omega)), X_bind_ok (r2 n (by omega)), X_bind_ok asNat_int, X_bind_ok room_call]
  exact hl

theorem EvalTo.memcmpTab {k : Nat} (he : EvalTo e env m p env1 m1) (hk : EvalTo i env1 m1 (.int t k) env2 m2)
    (hl : loadBytes p k env2 m2 = .ok bs env' m') (ht : k ≤ tb.length) :
    EvalTo (.memcmpTab e tb i) env m (.int .i32 (cmpBytes bs ((tb.take k).map fun n => UInt8.ofNat n.toNat))) env' m' := by
  obtain ⟨N, r⟩ := he
  obtain ⟨N2, r2⟩ := hk
  refine ⟨max N N2, fun n hn => ?_⟩
  rw [eval, X_bind_ok (r n (by omega)), X_bind_ok (r2 n (by omega)), X_bind_ok asNat_int, X_bind_ok hl, tabBytes,
    if_neg (show ¬ tb.length < k by omega), X_bind_ok (X_pure _ _ _)]
  rfl

theorem EvalsTo.nil : EvalsTo [] env m [] env m := ⟨0, fun _ _ => by rw [evals]; rfl⟩

theorem EvalsTo.cons (he : EvalTo e env m v env1 m1) (hs : EvalsTo es env1 m1 vs env' m') : EvalsTo (e :: es) env m (v :: vs) env' m' := by
  obtain ⟨N, r⟩ := he
  obtain ⟨N2, r2⟩ := hs
  refine ⟨max N N2, fun n hn => ?_⟩
  rw [evals, X_bind_ok (r n (by omega)), X_bind_ok (r2 n (by omega))]
  rfl

theorem EvalsTo.one (he : EvalTo e env m v env' m') : EvalsTo [e] env m [v] env' m' := .cons he .nil

theorem EvalTo.call1 (ha : EvalTo e env m w env' m1) (hc : CallTo f [w] m1 v m') : EvalTo (.call f [e]) env m v env' m' := .call (.one ha) hc

/-! ## Statements -/

theorem ExecTo.expr (he : EvalTo e env m v env' m') : ExecTo (.expr e) env m .next env' m' := by
  obtain ⟨N, r⟩ := he
  refine ⟨N, fun n hn => ?_⟩
  rw [exec, X_bind_ok (r n hn)]
  rfl

theorem ExecTo.set (he : EvalTo e env m (.int t k) env' m') (hc : ty.conv k = k') : ExecTo (.set ty x e) env m .next (upd env' x (.int ty k')) m' := by
  obtain ⟨N, r⟩ := he
  refine ⟨N, fun n hn => ?_⟩
  rw [exec, X_bind_ok (r n hn), ← hc]
  rfl

theorem ExecTo.setPtr (he : EvalTo e env m v env' m') : ExecTo (.setPtr x e) env m .next (upd env' x v) m' := by
  obtain ⟨N, r⟩ := he
  refine ⟨N, fun n hn => ?_⟩
  rw [exec, X_bind_ok (r n hn)]
  rfl

theorem ExecTo.stPtr (hv : EvalTo v env m w env1 m1) (he : EvalTo e env1 m1 p env2 m2) (hs : storePtr p i w env2 m2 = .ok () env' m') :
    ExecTo (.stPtr e i v) env m .next env' m' := by
  obtain ⟨N, r⟩ := hv
  obtain ⟨N2, r2⟩ := he
  refine ⟨max N N2, fun n hn => ?_⟩
  rw [exec, X_bind_ok (r n (by omega)), X_bind_ok (r2 n (by omega)), X_bind_ok hs]
  rfl

theorem ExecTo.stInt (hv : EvalTo v env m (.int t k) env1 m1) (he : EvalTo e env1 m1 p env2 m2) (hc : ty.conv k = k')
    (hs : storeInt p i k' env2 m2 = .ok () env' m') : ExecTo (.stInt ty e i v) env m .next env' m' := by
  obtain ⟨N, r⟩ := hv
  obtain ⟨N2, r2⟩ := he
  subst hc
  refine ⟨max N N2, fun n hn => ?_⟩
  rw [exec, X_bind_ok (r n (by omega)), X_bind_ok asInt_int, X_bind_ok (r2 n (by omega))]
  exact X_bind_ok hs

theorem ExecTo.stElem {k : Nat} (hv : EvalTo v env m w env1 m1) (he : EvalTo e env1 m1 p env2 m2) (hk : EvalTo i env2 m2 (.int t k) env3 m3)
    (hs : storePtr p k w env3 m3 = .ok () env' m') : ExecTo (.stElem e i v) env m .next env' m' := by
  obtain ⟨N, r⟩ := hv
  obtain ⟨N2, r2⟩ := he
  obtain ⟨N3, r3⟩ := hk
  refine ⟨max N (max N2 N3), fun n hn => ?_⟩
  rw [exec, X_bind_ok (r n (by omega)), X_bind_ok (r2 n (by omega)), X_bind_ok (r3 n (by omega)), X_bind_ok asNat_int, X_bind_ok hs]
  rfl

theorem ExecTo.stByte {k : Int} (hv : EvalTo v env m (.int t w) env1 m1) (he : EvalTo e env1 m1 p env2 m2) (hk : EvalTo i env2 m2 (.int t' k) env3 m3)
    (ho : offset p k env3 m3 = .ok q env3 m3) (hs : storeNum ty q w env3 m3 = .ok () env' m') : ExecTo (.stByte ty e i v) env m .next env' m' := by
  obtain ⟨N, r⟩ := hv
  obtain ⟨N2, r2⟩ := he
  obtain ⟨N3, r3⟩ := hk
  refine ⟨max N (max N2 N3), fun n hn => ?_⟩
  rw [exec, X_bind_ok (r n (by omega)), X_bind_ok asInt_int, X_bind_ok (r2 n (by omega)), X_bind_ok (r3 n (by omega)), X_bind_ok asInt_int]
  exact (X_bind_ok ho).trans (X_bind_ok hs)

theorem ExecTo.stDeref (hv : EvalTo v env m (.int t w) env1 m1) (he : EvalTo e env1 m1 p env2 m2)
    (hs : storeNum ty p w env2 m2 = .ok () env' m') : ExecTo (.stDeref ty e v) env m .next env' m' := by
  obtain ⟨N, r⟩ := hv
  obtain ⟨N2, r2⟩ := he
  refine ⟨max N N2, fun n hn => ?_⟩
  rw [exec, X_bind_ok (r n (by omega)), X_bind_ok asInt_int, X_bind_ok (r2 n (by omega))]
  exact X_bind_ok hs

theorem ExecTo.free (he : EvalTo e env m p env1 m1) (hs : freeBlock p env1 m1 = .ok () env' m') : ExecTo (.free e) env m .next env' m' := by
  obtain ⟨N, r⟩ := he
  refine ⟨N, fun n hn => ?_⟩
  rw [exec, X_bind_ok (r n hn), X_bind_ok hs]
  rfl

theorem ExecTo.memset {k : Nat} (hd : EvalTo d env m p env1 m1) (hc : EvalTo c env1 m1 (.int t w) env2 m2) (hk : EvalTo i env2 m2 (.int t' k) env3 m3)
    (hs : storeBytes p (List.replicate k (UInt8.ofNat (ITy.u8.toBits w))) env3 m3 = .ok () env' m') (hp : p ≠ nullPtr := by nonnull) :
    ExecTo (.memset d c i) env m .next env' m' := by
  obtain ⟨N, r⟩ := hd
  obtain ⟨N2, r2⟩ := hc
  obtain ⟨N3, r3⟩ := hk
  refine ⟨max N (max N2 N3), fun n hn => ?_⟩
  rw [exec, X_bind_ok (r n (by omega)), X_bind_ok (r2 n (by omega)), X_bind_ok asInt_int, X_bind_ok (r3 n (by omega)), X_bind_ok asNat_int, X_bind_ok (target_ok hp)]
  exact X_bind_ok hs

theorem ExecTo.memcpy {k : Nat} (hd : EvalTo d env m p env1 m1) (hc : EvalTo c env1 m1 q env2 m2) (hk : EvalTo i env2 m2 (.int t' k) env3 m3)
    (hl : loadBytes q k env3 m3 = .ok bs env3 m3) (hs : storeBytes p bs env3 m3 = .ok () env' m')
    (hp : p ≠ nullPtr := by nonnull) : ExecTo (.memcpy d c i) env m .next env' m' := by
  obtain ⟨N, r⟩ := hd
  obtain ⟨N2, r2⟩ := hc
  obtain ⟨N3, r3⟩ := hk
  refine ⟨max N (max N2 N3), fun n hn => ?_⟩
  rw [exec, X_bind_ok (r n (by omega)), X_bind_ok (r2 n (by omega)), X_bind_ok (r3 n (by omega)), X_bind_ok asNat_int, X_bind_ok (target_ok hp), X_bind_ok hl, X_bind_ok hs]
  rfl

theorem ExecTo.print (he : EvalsTo es env m vs env' m') : ExecTo (.print es) env m .next env' m' := by
  obtain ⟨N, r⟩ := he
  refine ⟨N, fun n hn => ?_⟩
  rw [exec, X_bind_ok (r n hn)]
  rfl

/-- The memory after more output. -/
def Mem.said (m : Mem) (bs : List UInt8) : Mem := { m with world := { m.world with out := m.world.out ++ bs } }

theorem ExecTo.printf (he : EvalsTo es env m vs env' m') (hr : render fmt vs env' m' = .ok bs env' m') : ExecTo (.printf fmt es) env m .next env' (m'.said bs) := by
  obtain ⟨N, r⟩ := he
  refine ⟨N, fun n hn => ?_⟩
  rw [exec, X_bind_ok (r n hn), X_bind_ok hr]
  rfl

theorem ExecTo.ptrVar : ExecTo (.ptrVar x) env m .next (upd env x (.ptr (.stack m.stack.length) 0)) { m with stack := m.stack ++ [.obj [.undef] []] } :=
  ⟨0, fun _ _ => rfl⟩

theorem ExecTo.bytes {k : Nat} (he : EvalTo e env m (.int t k) env' m') (h0 : k ≠ 0) :
    ExecTo (.bytes x e) env m .next (upd env' x (.ptr (.stack m'.stack.length) 0)) { m' with stack := m'.stack ++ [.raw (List.replicate k none)] } := by
  obtain ⟨N, r⟩ := he
  refine ⟨N, fun n hn => ?_⟩
  rw [exec, X_bind_ok (r n hn), X_bind_ok asNat_int, newArray, if_neg h0]
  rfl

theorem ExecTo.obj (he : EvalsTo ps env m vs env' m') :
    ExecTo (.obj x ps is) env m .next (upd env' x (.ptr (.stack m'.stack.length) 0)) { m' with stack := m'.stack ++ [.obj vs is] } := by
  obtain ⟨N, r⟩ := he
  refine ⟨N, fun n hn => ?_⟩
  rw [exec, X_bind_ok (r n hn)]
  rfl

theorem ExecTo.stRec {ns : List Int} (he : EvalTo e env m p env1 m1) (hp : EvalsTo ps env1 m1 vs env2 m2)
    (hi : ∃ N, ∀ n, N ≤ n → evalMembers (call program n) is env2 m2 = .ok ns env3 m3) (hs : storeRec p vs ns env3 m3 = .ok () env' m') :
    ExecTo (.stRec e ps is) env m .next env' m' := by
  obtain ⟨N, r⟩ := he
  obtain ⟨N2, r2⟩ := hp
  obtain ⟨N3, r3⟩ := hi
  refine ⟨max N (max N2 N3), fun n hn => ?_⟩
  rw [exec, X_bind_ok (r n (by omega)), X_bind_ok (r2 n (by omega)), X_bind_ok (r3 n (by omega)), X_bind_ok hs]
  rfl

theorem ExecTo.ite {A B : List Stmt} (hc : EvalTo c env m v env1 m1) (ht : truth v env1 m1 = .ok b env1 m1)
    (hs : ExecsTo (if b then A else B) env1 m1 o env' m') : ExecTo (.ite c A B) env m o env' m' := by
  obtain ⟨N, r⟩ := hc
  obtain ⟨N2, r2⟩ := hs
  refine ⟨max N N2, fun n hn => ?_⟩
  rw [exec, X_bind_ok (r n (by omega)), X_bind_ok ht]
  have := r2 n (by omega)
  cases b <;> exact this

theorem ExecTo.loop (h : LoopTo c b s env m o env' m') : ExecTo (.loop c b s) env m o env' m' := by
  obtain ⟨N, r⟩ := h
  refine ⟨N, fun n hn => ?_⟩
  rw [exec]
  exact r n hn n hn

theorem ExecTo.brk : ExecTo .brk env m .brk env m := ⟨0, fun _ _ => by rw [exec]; rfl⟩
theorem ExecTo.goto : ExecTo (.goto l) env m (.goto l) env m := ⟨0, fun _ _ => by rw [exec]; rfl⟩
theorem ExecTo.label : ExecTo (.label l) env m .next env m := ⟨0, fun _ _ => by rw [exec]; rfl⟩
theorem ExecTo.retVoid : ExecTo .retVoid env m (.ret .undef) env m := ⟨0, fun _ _ => by rw [exec]; rfl⟩
theorem ExecTo.case : ExecTo (.case n) env m .next env m := ⟨0, fun _ _ => by rw [exec]; rfl⟩
theorem ExecTo.dflt : ExecTo .dflt env m .next env m := ⟨0, fun _ _ => by rw [exec]; rfl⟩

theorem ExecTo.ret (he : EvalTo e env m v env' m') : ExecTo (.ret e) env m (.ret v) env' m' := by
  obtain ⟨N, r⟩ := he
  refine ⟨N, fun n hn => ?_⟩
  rw [exec, X_bind_ok (r n hn)]
  rfl

theorem ExecsTo.nil : ExecsTo [] env m .next env m := ⟨0, fun _ _ => by rw [execs]; rfl⟩

theorem ExecsTo.cons (hs : ExecTo s env m .next env1 m1) (hr : ExecsTo ss env1 m1 o env' m') : ExecsTo (s :: ss) env m o env' m' := by
  obtain ⟨N, r⟩ := hs
  obtain ⟨N2, r2⟩ := hr
  refine ⟨max N N2, fun n hn => ?_⟩
  rw [execs, X_bind_ok (r n (by omega))]
  exact r2 n (by omega)

theorem ExecsTo.stop (hs : ExecTo s env m o env' m') (ho : o ≠ .next) : ExecsTo (s :: ss) env m o env' m' := by
  obtain ⟨N, r⟩ := hs
  refine ⟨N, fun n hn => ?_⟩
  rw [execs, X_bind_ok (r n hn)]
  cases o <;> first | rfl | exact absurd rfl ho

theorem ExecsTo.last (hs : ExecTo s env m o env' m') : ExecsTo [s] env m o env' m' := by
  by_cases ho : o = .next
  · subst ho
    exact .cons hs .nil
  · exact .stop hs ho

theorem ExecsTo.append (hs : ExecsTo A env m .next env1 m1) (hr : ExecsTo B env1 m1 o env' m') : ExecsTo (A ++ B) env m o env' m' := by
  obtain ⟨N, r⟩ := hs
  obtain ⟨N2, r2⟩ := hr
  refine ⟨max N N2, fun n hn => ?_⟩
  rw [execs_append, r n (by omega)]
  exact r2 n (by omega)

/-! ## Loops -/

theorem LoopTo.done (hc : EvalTo c env m v env' m') (ht : truth v env' m' = .ok false env' m') : LoopTo c b s env m .next env' m' := by
  obtain ⟨N, r⟩ := hc
  refine ⟨N + 1, fun n hn k hk => ?_⟩
  obtain ⟨k, rfl⟩ : ∃ j, k = j + 1 := ⟨k - 1, by omega⟩
  rw [whileLoop, X_bind_ok ((X_bind_ok (r n (by omega))).trans ht)]
  rfl

theorem LoopTo.round (hc : EvalTo c env m v env1 m1) (ht : truth v env1 m1 = .ok true env1 m1) (hb : ExecsTo b env1 m1 .next env2 m2)
    (hs : ExecsTo s env2 m2 o' env3 m3) (hl : LoopTo c b s env3 m3 o env' m') : LoopTo c b s env m o env' m' := by
  obtain ⟨N, r⟩ := hc
  obtain ⟨N2, r2⟩ := hb
  obtain ⟨N3, r3⟩ := hs
  obtain ⟨N4, r4⟩ := hl
  refine ⟨max (max N N2) (max N3 N4) + 1, fun n hn k hk => ?_⟩
  obtain ⟨k, rfl⟩ : ∃ j, k = j + 1 := ⟨k - 1, by omega⟩
  rw [whileLoop, X_bind_ok ((X_bind_ok (r n (by omega))).trans ht)]
  refine (X_bind_ok (r2 n (by omega))).trans ((X_bind_ok (r3 n (by omega))).trans (r4 n (by omega) k (by omega)))

theorem LoopTo.stop (hc : EvalTo c env m v env1 m1) (ht : truth v env1 m1 = .ok true env1 m1) (hb : ExecsTo b env1 m1 o env' m')
    (ho : (o = .brk ∧ o' = .next) ∨ (∃ l, o = .goto l ∧ o' = .goto l) ∨ (∃ v, o = .ret v ∧ o' = .ret v)) : LoopTo c b s env m o' env' m' := by
  obtain ⟨N, r⟩ := hc
  obtain ⟨N2, r2⟩ := hb
  refine ⟨max N N2 + 1, fun n hn k hk => ?_⟩
  obtain ⟨k, rfl⟩ : ∃ j, k = j + 1 := ⟨k - 1, by omega⟩
  rw [whileLoop, X_bind_ok ((X_bind_ok (r n (by omega))).trans ht)]
  refine (X_bind_ok (r2 n (by omega))).trans ?_
  rcases ho with ⟨rfl, rfl⟩ | ⟨l, rfl, rfl⟩ | ⟨v, rfl, rfl⟩ <;> rfl

/-! ## Functions -/

theorem RunTo.cons (hs : ExecTo s env m .next env1 m1) (hr : RunTo body ss env1 m1 v m') : RunTo body (s :: ss) env m v m' := by
  obtain ⟨N, r⟩ := hs
  obtain ⟨N2, r2⟩ := hr
  refine ⟨max N N2, fun n hn g hg => ?_⟩
  obtain ⟨e, r⟩ := r2 n (by omega) g (by omega)
  exact ⟨e, (run_cons (by apply_assumption; omega)).trans r⟩

theorem RunTo.append (hs : ExecsTo A env m .next env1 m1) (hr : RunTo body B env1 m1 v m') : RunTo body (A ++ B) env m v m' := by
  obtain ⟨N, r⟩ := hs
  obtain ⟨N2, r2⟩ := hr
  refine ⟨max N N2, fun n hn g hg => ?_⟩
  obtain ⟨e, r3⟩ := r2 n (by omega) g (by omega)
  exact ⟨e, (run_append (r n (by omega))).trans r3⟩

theorem RunTo.ret (he : EvalTo e env m v env' m') : RunTo body (.ret e :: ss) env m v m' := by
  obtain ⟨N, r⟩ := he
  refine ⟨N + 1, fun n hn g hg => ⟨env', ?_⟩⟩
  obtain ⟨g, rfl⟩ : ∃ k, g = k + 1 := ⟨g - 1, by omega⟩
  exact run_ret (r n (by omega))

theorem RunTo.stop (hs : ExecTo s env m (.ret v) env' m') : RunTo body (s :: ss) env m v m' := by
  obtain ⟨N, r⟩ := hs
  refine ⟨N + 1, fun n hn g hg => ⟨env', ?_⟩⟩
  obtain ⟨g, rfl⟩ : ∃ k, g = k + 1 := ⟨g - 1, by omega⟩
  have h : execs (call program n) n (s :: ss) env m = .ok (.ret v) env' m' := by
    rw [execs, X_bind_ok (r n (by omega))]
    rfl
  rw [runFrom]
  exact X_bind_ok h

theorem RunTo.jump (hs : ExecTo s env m (.goto l) env1 m1) (hb : behind l body = some ss') (hr : RunTo body ss' env1 m1 v m') :
    RunTo body (s :: ss) env m v m' := by
  obtain ⟨N, r⟩ := hs
  obtain ⟨N2, r2⟩ := hr
  refine ⟨max N N2 + 1, fun n hn g hg => ?_⟩
  obtain ⟨g, rfl⟩ : ∃ k, g = k + 1 := ⟨g - 1, by omega⟩
  obtain ⟨e, r3⟩ := r2 n (by omega) g (by omega)
  refine ⟨e, ?_⟩
  have h : execs (call program n) n (s :: ss) env m = .ok (.goto l) env1 m1 := by
    rw [execs, X_bind_ok (r n (by omega))]
    rfl
  rw [runFrom]
  refine (X_bind_ok h).trans ?_
  simp only [hb]
  exact r3

theorem RunTo.retVoid : RunTo body (.retVoid :: ss) env m .undef m := by
  refine ⟨1, fun n hn g hg => ⟨env, ?_⟩⟩
  obtain ⟨g, rfl⟩ : ∃ k, g = k + 1 := ⟨g - 1, by omega⟩
  exact run_retVoid

theorem RunTo.nil : RunTo body [] env m .undef m := by
  refine ⟨1, fun n hn g hg => ⟨env, ?_⟩⟩
  obtain ⟨g, rfl⟩ : ∃ k, g = k + 1 := ⟨g - 1, by omega⟩
  exact run_nil

theorem RunTo.ite {A B : List Stmt} (hc : EvalTo c env m v env m1) (ht : truth v env m1 = .ok b env m1)
    (hr : RunTo body ((if b then A else B) ++ ss) env m1 w m') : RunTo body (.ite c A B :: ss) env m w m' := by
  obtain ⟨N, r⟩ := hc
  obtain ⟨N2, r2⟩ := hr
  refine ⟨max N N2, fun n hn g hg => ?_⟩
  obtain ⟨e, r3⟩ := r2 n (by omega) g (by omega)
  exact ⟨e, (run_ite b ((X_bind_ok (r n (by omega))).trans ht)).trans r3⟩

theorem CallTo.of {f : Fn} (hb : ∀ env m, bindArgs (program f).params args env m = .ok vs env m)
    (hr : RunTo (program f).body (program f).body (envOf vs) m v m1)
    (hv : ∀ env, resultOf (program f).res v env { m1 with stack := m1.stack.take m.stack.length } = .ok w env m') : CallTo f args m w m' := by
  obtain ⟨N, r⟩ := hr
  refine ⟨N + 1, fun n hn env => ?_⟩
  obtain ⟨n, rfl⟩ : ∃ k, n = k + 1 := ⟨n - 1, by omega⟩
  obtain ⟨e, r⟩ := r n (by omega) n (by omega)
  exact call_ok (hb env m) r (hv env)

end Sml.C
