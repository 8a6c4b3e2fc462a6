import Verif.Source.Program
import Verif.Model.HeapMessage

/-!
# Running the C source

How the memory of the C program corresponds to the buffer and heap of the model, and rules that take the source of a function and
the model of the function step by step.
-/

namespace Sml.C

/-! ## Memory -/

/-- The `sml_buffer` at `B` with its array at `A`, and the local objects of the functions that are active. -/
structure Ctx where
  B : Nat
  A : Nat
  σ : List Block
  /-- The cursor is not before this. -/
  lo : Nat
  hB : B ≠ 0
  hA : A ≠ 0
  hAB : A ≠ B
  /-- The blocks of the callers. -/
  base : Nat → Option Block
  /-- What is outside of the program. -/
  world : World

/-- The structure `sml_buffer`. -/
def bufBlock (A : Nat) (st : St) : Block :=
  .obj [.ptr (.heap A) 0, nullPtr] [st.data.length, st.cursor, if st.error then 1 else 0]

/-- Memory with a buffer and other blocks `c`. -/
def memOf (X : Ctx) (st : St) (nx : Nat) (c : Nat → Option Block) : Mem where
  next := nx
  heap := fun a => if a = X.B then some (bufBlock X.A st) else if a = X.A then some (.raw (st.data.map some)) else c a
  stack := X.σ
  sovf := st.sovf
  world := X.world

/-- The pointer to the buffer. -/
abbrev Ctx.buf (X : Ctx) : Val := .ptr (.heap X.B) 0

abbrev ptrVal (a : Nat) : Val := .ptr (.heap a) 0

/-- A block of the model in memory: numbers are stored with the least significant byte first. -/
def enc : HCell → Block
  | .bytes bs => .raw (bs.map some)
  | .num n => .raw ((leBytes n.size n.val).map some)
  | .struct ps is => .obj (ps.map ptrVal) (is.map Int.ofNat)

/-- What is at an address beside the buffer: a block of the model or one of the callers. -/
def Ctx.blocks (X : Ctx) (h : Heap) (a : Nat) : Option Block :=
  match h.cells a with
  | some c => some (enc c)
  | none => X.base a

/-- The memory that corresponds to a buffer and a heap. -/
def conc (X : Ctx) (st : St) (h : Heap) : Mem := memOf X st h.next (X.blocks h)

/-- The cursor is in the buffer, which is not too long for an `int`. -/
structure Good (st : St) : Prop where
  cur : st.cursor ≤ st.data.length
  len : st.data.length ≤ 2147483647

/-- The integer members fit into an `int`. -/
def Small : HCell → Prop
  | .struct _ is => ∀ n ∈ is, n ≤ 2147483647
  | _ => True

/-- The buffer is apart from the objects on the heap, and these hold no large integers. -/
structure Inv (X : Ctx) (st : St) (h : Heap) : Prop where
  good : Good st
  nB : h.cells X.B = none
  nA : h.cells X.A = none
  lB : X.B < h.next
  lA : X.A < h.next
  ints : ∀ a c, h.cells a = some c → Small c
  lo : X.lo ≤ st.cursor
  old : ∀ a, X.base a ≠ none → h.cells a = none ∧ a < h.next

theorem X_bind (x : X α) (f : α → X β) (env : Env) (m : Mem) :
    (x >>= f) env m = (match x env m with | .ok a e m' => f a e m' | .bad b => .bad b) := rfl

theorem X_bind_ok {x : X α} {f : α → X β} (h : x env m = .ok a env' m') : (x >>= f) env m = f a env' m' := by
  rw [X_bind, h]

theorem X_pure (a : α) (env : Env) (m : Mem) : (pure a : X α) env m = .ok a env m := rfl

theorem upd_same : upd env x v x = v := if_pos rfl
theorem upd_other (h : y ≠ x) : upd env x v y = env y := if_neg h

/-! ## Calls -/

theorem call_succ : call prog (n + 1) f args = runFun (call prog n) n (prog f) args := rfl

/-- A call, from a run of the body. -/
theorem call_ok {f : Fn} (hb : bindArgs (program f).params args env m = .ok vs env m)
    (hr : runFrom (call program n) n (program f).body n (program f).body (envOf vs) m = .ok v env' m')
    (hv : resultOf (program f).res v env { m' with stack := m'.stack.take m.stack.length } = .ok w env m'') :
    call program (n + 1) f args env m = .ok w env m'' := by
  rw [call_succ, runFun, X_bind_ok hb, X_bind]
  rw [inFrame, hr]
  exact hv

/-! ## The buffer -/

theorem getBlock_buf (X : Ctx) : getBlock (.heap X.B) env (memOf X st nx c) = .ok (bufBlock X.A st) env (memOf X st nx c) := by
  simp [getBlock, memOf, X.hB]

theorem getBlock_arr (X : Ctx) :
    getBlock (.heap X.A) env (memOf X st nx c) = .ok (.raw (st.data.map some)) env (memOf X st nx c) := by
  simp [getBlock, memOf, X.hA, X.hAB]

theorem setBlock_buf (X : Ctx) (h : b = bufBlock X.A st') (hd : st'.data = st.data) (hs : st'.sovf = st.sovf) :
    setBlock (.heap X.B) b env (memOf X st nx c) = .ok () env (memOf X st' nx c) := by
  subst h
  have : setHeap (memOf X st nx c).heap X.B (some (bufBlock X.A st')) = (memOf X st' nx c).heap := by
    funext a
    simp only [setHeap, memOf, hd]
    split <;> rfl
  simp only [setBlock, this]
  simp only [memOf, hs]

theorem setBlock_arr (X : Ctx) (h : b = .raw (st'.data.map some)) (hl : st'.data.length = st.data.length) (hc : st'.cursor = st.cursor)
    (he : st'.error = st.error) (hs : st'.sovf = st.sovf) :
    setBlock (.heap X.A) b env (memOf X st nx c) = .ok () env (memOf X st' nx c) := by
  subst h
  have : setHeap (memOf X st nx c).heap X.A (some (.raw (st'.data.map some))) = (memOf X st' nx c).heap := by
    funext a
    simp only [setHeap, memOf, bufBlock, hl, hc, he]
    by_cases h1 : a = X.A
    · simp [h1, X.hAB]
    · simp [h1]
  simp only [setBlock, this]
  simp only [memOf, hs]

theorem load_len (X : Ctx) : loadInt X.buf 0 env (memOf X st nx c) = .ok (st.data.length : Int) env (memOf X st nx c) := by
  rw [loadInt, asPtr, X_bind, X_pure]
  simp only
  rw [X_bind_ok (getBlock_buf X)]
  rfl

theorem load_cursor (X : Ctx) : loadInt X.buf 1 env (memOf X st nx c) = .ok (st.cursor : Int) env (memOf X st nx c) := by
  rw [loadInt, asPtr, X_bind, X_pure]
  simp only
  rw [X_bind_ok (getBlock_buf X)]
  rfl

theorem load_error (X : Ctx) : loadInt X.buf 2 env (memOf X st nx c) = .ok (if st.error then 1 else 0) env (memOf X st nx c) := by
  rw [loadInt, asPtr, X_bind, X_pure]
  simp only
  rw [X_bind_ok (getBlock_buf X)]
  rfl

theorem load_arr (X : Ctx) : loadPtr X.buf 0 env (memOf X st nx c) = .ok (ptrVal X.A) env (memOf X st nx c) := by
  rw [loadPtr, asPtr, X_bind, X_pure]
  simp only
  rw [X_bind_ok (getBlock_buf X)]
  rfl

theorem store_error (X : Ctx) :
    storeInt X.buf 2 1 env (memOf X st nx c) = .ok () env (memOf X { st with error := true } nx c) := by
  rw [storeInt, asPtr, X_bind, X_pure]
  simp only
  rw [X_bind_ok (getBlock_buf X)]
  exact setBlock_buf X rfl rfl rfl

theorem store_cursor (X : Ctx) (k : Nat) :
    storeInt X.buf 1 (k : Int) env (memOf X st nx c) = .ok () env (memOf X { st with cursor := k } nx c) := by
  rw [storeInt, asPtr, X_bind, X_pure]
  simp only
  rw [X_bind_ok (getBlock_buf X)]
  exact setBlock_buf X rfl rfl rfl

theorem allInit_some : (bs : List UInt8) → allInit (bs.map some) = some bs
  | [] => rfl
  | b :: bs => by rw [List.map_cons, allInit, allInit_some bs]; rfl

theorem loadBytes_raw {bs : List UInt8} (hg : getBlock l env m = .ok (.raw (bs.map some)) env m) (hle : i + n ≤ bs.length) :
    loadBytes (.ptr l i) n env m = .ok ((bs.drop i).take n) env m := by
  rw [loadBytes, asPtr, X_bind, X_pure]
  simp only
  by_cases h0 : n = 0
  · subst h0
    rw [if_pos rfl, List.take_zero, X_pure]
  · rw [if_neg h0, X_bind_ok hg]
    simp only [List.length_map, hle, if_true, ← List.map_drop, ← List.map_take, allInit_some, X_pure]

theorem load_byte (X : Ctx) (h : st.data[i]? = some b) :
    loadNum .u8 (.ptr (.heap X.A) i) env (memOf X st nx c) = .ok (.int .u8 b.toNat) env (memOf X st nx c) := by
  obtain ⟨hi, rfl⟩ := List.getElem?_eq_some_iff.mp h
  rw [loadNum, X_bind_ok (loadBytes_raw (getBlock_arr X) (show i + ITy.size .u8 ≤ st.data.length from hi)), X_pure]
  have : (st.data.drop i).take (ITy.size .u8) = [st.data[i]] := by
    rw [List.drop_eq_getElem_cons hi]
    rfl
  rw [this, leNat, leNat]
  have hb := UInt8.toNat_lt st.data[i]
  congr 2
  simp only [ITy.conv, ITy.signed, ITy.bits, Nat.mul_zero, Nat.add_zero]
  simp only [reduceCtorEq, if_false, Bool.false_eq_true]
  exact Int.emod_eq_of_lt (by omega) (by omega)

/-! ## Running statements -/

theorem execs_append (Γ : Calls) (fuel : Nat) : (a : List Stmt) → (b : List Stmt) → (env : Env) → (m : Mem) →
    execs Γ fuel (a ++ b) env m =
      (match execs Γ fuel a env m with
      | .ok .next e m' => execs Γ fuel b e m'
      | r => r)
  | [], b, env, m => by
    rw [List.nil_append]
    rfl
  | s :: a, b, env, m => by
    rw [List.cons_append, execs, execs, X_bind, X_bind]
    cases hs : exec Γ fuel s env m with
    | bad r => rfl
    | ok o e m' =>
      cases o with
      | next => exact execs_append Γ fuel a b e m'
      | _ => rfl

theorem run_cons (hs : exec Γ fuel s env m = .ok .next env' m') :
    runFrom Γ fuel body g (s :: ss) env m = runFrom Γ fuel body g ss env' m' := by
  cases g with
  | zero => rfl
  | succ g => rw [runFrom, runFrom, X_bind, X_bind, execs, X_bind_ok hs]

theorem run_append {a b : List Stmt} (hs : execs Γ fuel a env m = .ok .next env' m') :
    runFrom Γ fuel body g (a ++ b) env m = runFrom Γ fuel body g b env' m' := by
  cases g with
  | zero => rfl
  | succ g => rw [runFrom, runFrom, X_bind, X_bind, execs_append, hs]

theorem exec_ite_aux (Γ : Calls) (fuel : Nat) (x : Bool) (a b ss : List Stmt) (env : Env) (m : Mem)
    (hc : (do truth (← eval Γ c) : X Bool) env m0 = .ok x env m) :
    execs Γ fuel (.ite c a b :: ss) env m0 = execs Γ fuel ((if x then a else b) ++ ss) env m := by
  rw [execs_append, execs, X_bind, exec]
  rw [X_bind] at hc ⊢
  cases hv : eval Γ c env m0 with
  | bad r =>
    rw [hv] at hc
    cases hc
  | ok v e m1 =>
    rw [hv] at hc
    simp only at hc ⊢
    rw [X_bind_ok hc]
    cases x
    · simp only [Bool.false_eq_true, if_false]
      cases execs Γ fuel b env m with
      | bad r => rfl
      | ok o e m' => cases o <;> rfl
    · simp only [if_true]
      cases execs Γ fuel a env m with
      | bad r => rfl
      | ok o e m' => cases o <;> rfl

theorem run_ite (x : Bool) (hc : (do truth (← eval Γ c) : X Bool) env m0 = .ok x env m) :
    runFrom Γ fuel body g (.ite c a b :: ss) env m0 = runFrom Γ fuel body g ((if x then a else b) ++ ss) env m := by
  cases g with
  | zero => rfl
  | succ g => rw [runFrom, runFrom, X_bind, X_bind, exec_ite_aux Γ fuel x a b ss env m hc]

theorem run_goto (hb : behind l body = some ss') :
    runFrom Γ fuel body (g + 1) (.goto l :: ss) env m = runFrom Γ fuel body g ss' env m := by
  rw [runFrom, X_bind, execs, X_bind, exec, X_pure]
  simp only [X_pure, hb]

theorem run_ret (he : eval Γ e env m = .ok v env' m') :
    runFrom Γ fuel body (g + 1) (.ret e :: ss) env m = .ok v env' m' := by
  rw [runFrom, X_bind, execs, X_bind, exec, X_bind_ok he, X_pure]
  simp only [X_pure]

theorem run_retVoid : runFrom Γ fuel body (g + 1) (.retVoid :: ss) env m = .ok .undef env m := rfl

theorem run_nil : runFrom Γ fuel body (g + 1) [] env m = .ok .undef env m := rfl

theorem run_label : runFrom Γ fuel body g (.label l :: ss) env m = runFrom Γ fuel body g ss env m := run_cons rfl

/-! ## Source against model -/

/-- Calls of a function do what the model `p` does: when `p` ends with a result, so does the call, with the corresponding memory. -/
def FSpec (f : Fn) (args : Ctx → List Val) (pre : St → Prop) (p : P β) (vl : β → Val) (post : β → St → Prop) : Prop :=
  ∀ K st h, Inv K st h → pre st → ∀ b st' h', p st h = .ok b st' h' →
    Inv K st' h' ∧ post b st' ∧ ∃ N, ∀ n, N ≤ n → ∀ env, call program n f (args K) env (conc K st h) = .ok (vl b) env (conc K st' h')

/-- Evaluation of an expression does what `p` does. -/
def ESem (K : Ctx) (e : Expr) (env : Env) (pre : St → Prop) (p : P β) (vl : β → Val) (post : β → St → Prop) : Prop :=
  ∀ st h, Inv K st h → pre st → ∀ b st' h', p st h = .ok b st' h' →
    Inv K st' h' ∧ post b st' ∧ ∃ N, ∀ n, N ≤ n → eval (call program n) e env (conc K st h) = .ok (vl b) env (conc K st' h')

/-- A statement does what `p` does and continues with the next. -/
def SSem (K : Ctx) (s : Stmt) (env : Env) (pre : St → Prop) (p : P β) (E : β → Env) (post : β → St → Prop) : Prop :=
  ∀ st h, Inv K st h → pre st → ∀ b st' h', p st h = .ok b st' h' →
    Inv K st' h' ∧ post b st' ∧ ∃ N, ∀ n, N ≤ n → exec (call program n) n s env (conc K st h) = .ok .next (E b) (conc K st' h')

/-- The rest of a function does what `p` does. -/
def Sem (K : Ctx) (body ss : List Stmt) (env : Env) (pre : St → Prop) (p : P β) (vl : β → Val) (post : β → St → Prop) : Prop :=
  ∀ st h, Inv K st h → pre st → ∀ b st' h', p st h = .ok b st' h' →
    Inv K st' h' ∧ post b st' ∧ ∃ N, ∀ n, N ≤ n → ∀ g, N ≤ g → ∃ env', runFrom (call program n) n body g ss env (conc K st h) = .ok (vl b) env' (conc K st' h')

abbrev anySt : St → Prop := fun _ => True
abbrev anyRes : β → St → Prop := fun _ _ => True

theorem P_bind_eq_ok {p : P α} {k : α → P β} (h : (p >>= k) st hp = .ok b st' hp') :
    ∃ a st1 h1, p st hp = .ok a st1 h1 ∧ k a st1 h1 = .ok b st' hp' := by
  change P.bind p k st hp = _ at h
  rw [P.bind] at h
  cases hp1 : p st hp with
  | bad r =>
    rw [hp1] at h
    cases h
  | ok a st1 h1 =>
    rw [hp1] at h
    exact ⟨a, st1, h1, rfl, h⟩

theorem P_pure_bind (a : α) (k : α → P β) : ((pure a : P α) >>= k) = k a := rfl

theorem P_bind_assoc (p : P α) (k : α → P β) (l : β → P γ) : ((p >>= k) >>= l) = (p >>= fun a => k a >>= l) := by
  funext st h
  change P.bind (P.bind p k) l st h = P.bind p (fun a => P.bind (k a) l) st h
  rw [P.bind, P.bind, P.bind]
  cases p st h <;> rfl

theorem P_bind_pure (p : P α) : (p >>= fun a => (pure a : P α)) = p := by
  funext st h
  change P.bind p _ st h = _
  rw [P.bind]
  cases p st h <;> rfl

theorem P_bind_unit (p : P Unit) : (p >>= fun _ => (pure () : P Unit)) = p := P_bind_pure p

theorem P_ite_bind (c : Prop) [Decidable c] (p q : P α) (k : α → P β) : ((if c then p else q) >>= k) = if c then p >>= k else q >>= k := by
  split <;> rfl

theorem Sem.step (hx : SSem K s env pre p E post) (hk : ∀ b, Sem K body ss (E b) (post b) (k b) vl post') :
    Sem K body (s :: ss) env pre (p >>= k) vl post' := by
  intro st h hi hp b st' h' hr
  obtain ⟨a, st1, h1, e1, e2⟩ := P_bind_eq_ok hr
  obtain ⟨i1, q1, N1, r1⟩ := hx st h hi hp a st1 h1 e1
  obtain ⟨i2, q2, N2, r2⟩ := hk a st1 h1 i1 q1 b st' h' e2
  refine ⟨i2, q2, max N1 N2, fun n hn g hg => ?_⟩
  obtain ⟨env', r⟩ := r2 n (by omega) g (by omega)
  exact ⟨env', (run_cons (r1 n (by omega))).trans r⟩

/-- A statement that the model does not have. -/
theorem Sem.skip (hx : ∀ st h, Inv K st h → pre st → ∀ n, exec (call program n) n s env (conc K st h) = .ok .next env' (conc K st h))
    (hk : Sem K body ss env' pre p vl post) : Sem K body (s :: ss) env pre p vl post := by
  intro st h hi hp b st' h' hr
  obtain ⟨i2, q2, N2, r2⟩ := hk st h hi hp b st' h' hr
  refine ⟨i2, q2, N2, fun n hn g hg => ?_⟩
  obtain ⟨env', r⟩ := r2 n hn g hg
  exact ⟨env', (run_cons (hx st h hi hp n)).trans r⟩

theorem Sem.label (hk : Sem K body ss env pre p vl post) : Sem K body (.label l :: ss) env pre p vl post :=
  Sem.skip (fun _ _ _ _ _ => rfl) hk

/-- The truth value of a value. -/
def Val.isTrue : Val → Bool
  | .int _ n => decide (n ≠ 0)
  | .ptr l i => decide (¬ (l = .heap 0 ∧ i = 0))
  | .fn _ => true
  | .str _ => true
  | .dbl n _ => decide (n ≠ 0)
  | .undef => false

theorem truth_ok (h : v ≠ .undef) : truth v env m = .ok v.isTrue env m := by
  cases v <;> first | rfl | exact absurd rfl h

theorem Sem.ite {vc : α → Val} (hx : ESem K c env pre p vc post) (hu : ∀ b, vc b ≠ .undef)
    (ht : ∀ b, (vc b).isTrue = true → Sem K body (A ++ ss) env (post b) (k b) vl post')
    (hf : ∀ b, (vc b).isTrue = false → Sem K body (B ++ ss) env (post b) (k b) vl post') :
    Sem K body (.ite c A B :: ss) env pre (p >>= k) vl post' := by
  intro st h hi hp b st' h' hr
  obtain ⟨a, st1, h1, e1, e2⟩ := P_bind_eq_ok hr
  obtain ⟨i1, q1, N1, r1⟩ := hx st h hi hp a st1 h1 e1
  have hcond : ∀ n, N1 ≤ n → (do truth (← eval (call program n) c) : X Bool) env (conc K st h) = .ok (vc a).isTrue env (conc K st1 h1) :=
    fun n hn => (X_bind_ok (r1 n hn)).trans (truth_ok (hu a))
  cases hv : (vc a).isTrue with
  | true =>
    obtain ⟨i2, q2, N2, r2⟩ := ht a hv st1 h1 i1 q1 b st' h' e2
    refine ⟨i2, q2, max N1 N2, fun n hn g hg => ?_⟩
    obtain ⟨env', r⟩ := r2 n (by omega) g (by omega)
    exact ⟨env', (run_ite true ((hcond n (by omega)).trans (by rw [hv]))).trans r⟩
  | false =>
    obtain ⟨i2, q2, N2, r2⟩ := hf a hv st1 h1 i1 q1 b st' h' e2
    refine ⟨i2, q2, max N1 N2, fun n hn g hg => ?_⟩
    obtain ⟨env', r⟩ := r2 n (by omega) g (by omega)
    exact ⟨env', (run_ite false ((hcond n (by omega)).trans (by rw [hv]))).trans r⟩

theorem Sem.goto (hb : behind l body = some ss') (hk : Sem K body ss' env pre p vl post) : Sem K body (.goto l :: ss) env pre p vl post := by
  intro st h hi hp b st' h' hr
  obtain ⟨i2, q2, N2, r2⟩ := hk st h hi hp b st' h' hr
  refine ⟨i2, q2, N2 + 1, fun n hn g hg => ?_⟩
  obtain ⟨g, rfl⟩ : ∃ k, g = k + 1 := ⟨g - 1, by omega⟩
  obtain ⟨env', r⟩ := r2 n (by omega) g (by omega)
  exact ⟨env', (run_goto hb).trans r⟩

theorem Sem.ret (hx : ESem K e env pre p vl post) : Sem K body (.ret e :: ss) env pre p vl post := by
  intro st h hi hp b st' h' hr
  obtain ⟨i1, q1, N1, r1⟩ := hx st h hi hp b st' h' hr
  refine ⟨i1, q1, N1 + 1, fun n hn g hg => ⟨env, ?_⟩⟩
  obtain ⟨g, rfl⟩ : ∃ k, g = k + 1 := ⟨g - 1, by omega⟩
  exact run_ret (r1 n (by omega))

theorem Sem.retPure {vl : β → Val} {post : β → St → Prop} (hx : ∀ Γ m, eval Γ e env m = .ok (vl a) env m) (hq : ∀ st, pre st → post a st) :
    Sem K body (.ret e :: ss) env pre (pure a : P β) vl post := by
  refine Sem.ret fun st h hi hp b st' h' hr => ?_
  cases hr
  exact ⟨hi, hq _ hp, 0, fun n _ => hx _ _⟩

theorem Sem.done {vl : β → Val} {post : β → St → Prop} (hv : vl a = .undef) (hq : ∀ st, pre st → post a st) : Sem K body [] env pre (pure a : P β) vl post := by
  intro st h hi hp b st' h' hr
  cases hr
  refine ⟨hi, hq _ hp, 1, fun n hn g hg => ⟨env, ?_⟩⟩
  obtain ⟨g, rfl⟩ : ∃ k, g = k + 1 := ⟨g - 1, by omega⟩
  rw [run_nil, hv]

theorem Sem.retVoid {vl : β → Val} {post : β → St → Prop} (hv : vl a = .undef) (hq : ∀ st, pre st → post a st) :
    Sem K body (.retVoid :: ss) env pre (pure a : P β) vl post := by
  intro st h hi hp b st' h' hr
  cases hr
  refine ⟨hi, hq _ hp, 1, fun n hn g hg => ⟨env, ?_⟩⟩
  obtain ⟨g, rfl⟩ : ∃ k, g = k + 1 := ⟨g - 1, by omega⟩
  rw [run_retVoid, hv]

/-- A weaker condition in front, or a stronger one behind. -/
theorem Sem.weaken (hk : Sem K body ss env pre' p vl post) (hp : ∀ st, pre st → pre' st) : Sem K body ss env pre p vl post :=
  fun st h hi hpre => hk st h hi (hp st hpre)

/-- A function, from its body. -/
theorem FSpec.of_body {f : Fn} {args vs : Ctx → List Val} (hb : ∀ K env m, bindArgs (program f).params (args K) env m = .ok (vs K) env m)
    (hr : ∀ K, Sem K (program f).body (program f).body (envOf (vs K)) pre p vb post)
    (hv : ∀ b st env m, post b st → resultOf (program f).res (vb b) env m = .ok (vl b) env m) : FSpec f args pre p vl post := by
  intro K st h hi hp b st' h' hr'
  obtain ⟨i1, q1, N1, r1⟩ := hr K st h hi hp b st' h' hr'
  refine ⟨i1, q1, N1 + 1, fun n hn env => ?_⟩
  obtain ⟨n, rfl⟩ : ∃ k, n = k + 1 := ⟨n - 1, by omega⟩
  obtain ⟨env', r⟩ := r1 n (by omega) n (by omega)
  refine call_ok (hb K env _) r ?_
  rw [hv b st' _ _ q1]
  have : ({ conc K st' h' with stack := (conc K st' h').stack.take (conc K st h).stack.length } : Mem) = conc K st' h' := by
    simp only [conc, memOf, List.take_length]
  rw [this]

/-! ### Expressions -/

theorem ESem.call {as : Ctx → List Val} (ha : ∀ Γ m, evals Γ args env m = .ok (as K) env m) (hf : FSpec f as pre p vl post) :
    ESem K (.call f args) env pre p vl post := by
  intro st h hi hp b st' h' hr
  obtain ⟨i1, q1, N1, r1⟩ := hf K st h hi hp b st' h' hr
  refine ⟨i1, q1, N1, fun n hn => ?_⟩
  rw [eval, X_bind_ok (ha _ _)]
  exact r1 n hn env

/-- A call whose first argument is computed. -/
theorem ESem.callArg {as : Ctx → List Val} (hx : ESem K e env pre p va post) (ha : ∀ Γ m, evals Γ args env m = .ok (as K) env m)
    (hf : ∀ b, FSpec f (fun K => va b :: as K) (post b) (k b) vl post') :
    ESem K (.call f (e :: args)) env pre (p >>= k) vl post' := by
  intro st h hi hp b st' h' hr
  obtain ⟨a, st1, h1, e1, e2⟩ := P_bind_eq_ok hr
  obtain ⟨i1, q1, N1, r1⟩ := hx st h hi hp a st1 h1 e1
  obtain ⟨i2, q2, N2, r2⟩ := hf a K st1 h1 i1 q1 b st' h' e2
  refine ⟨i2, q2, max N1 N2, fun n hn => ?_⟩
  rw [eval, evals, X_bind, X_bind_ok (r1 n (by omega)), X_bind_ok (ha _ _), X_pure]
  exact r2 n (by omega) env

/-- A pure operation on the value of an expression. -/
theorem ESem.map (hx : ESem K e env pre p va post)
    (hv : ∀ Γ st, ∀ b, post b st → ∀ m m', eval Γ e env m = .ok (va b) env m' → eval Γ e' env m = .ok (vl b) env m') :
    ESem K e' env pre p vl post := by
  intro st h hi hp b st' h' hr
  obtain ⟨i1, q1, N1, r1⟩ := hx st h hi hp b st' h' hr
  exact ⟨i1, q1, N1, fun n hn => hv _ _ b q1 _ _ (r1 n hn)⟩

theorem ESem.not (hx : ESem K e env pre p va post) (hu : ∀ b, va b ≠ .undef) :
    ESem K (.not e) env pre p (fun b => ofBool (!(va b).isTrue)) post := by
  refine hx.map fun Γ st b _ m m' h => ?_
  rw [eval, X_bind_ok h, X_bind_ok (truth_ok (hu b))]
  rfl

theorem ESem.binLit (hx : ESem K e env pre p va post)
    (ho : ∀ b st m, post b st → binOp op (va b) (.int t n) env m = .ok (vl b) env m) : ESem K (.bin op e (.lit t n)) env pre p vl post := by
  refine hx.map fun Γ st b hq m m' h => ?_
  rw [eval, X_bind_ok h, eval, X_bind_ok (X_pure _ _ _)]
  exact ho b st _ hq

theorem ESem.binNull (hx : ESem K e env pre p va post)
    (ho : ∀ b st m, post b st → binOp op (va b) nullPtr env m = .ok (vl b) env m) : ESem K (.bin op e .null) env pre p vl post := by
  refine hx.map fun Γ st b hq m m' h => ?_
  rw [eval, X_bind_ok h, eval, X_bind_ok (X_pure _ _ _)]
  exact ho b st _ hq

theorem ESem.pure {vl : β → Val} (ha : ∀ Γ m, eval Γ e env m = .ok (vl a) env m) : ESem K e env pre (pure a : P β) vl (fun _ st => pre st) := by
  intro st h hi hp b st' h' hr
  cases hr
  exact ⟨hi, hp, 0, fun n _ => ha _ _⟩

theorem ESem.consequence (hx : ESem K e env pre p vl post) (hq : ∀ b st, post b st → post' b st) : ESem K e env pre p vl post' := by
  intro st h hi hp b st' h' hr
  obtain ⟨i1, q1, r1⟩ := hx st h hi hp b st' h' hr
  exact ⟨i1, hq _ _ q1, r1⟩

/-! ### Statements -/

theorem SSem.expr (hx : ESem K e env pre p vl post) : SSem K (.expr e) env pre p (fun _ => env) post := by
  intro st h hi hp b st' h' hr
  obtain ⟨i1, q1, N1, r1⟩ := hx st h hi hp b st' h' hr
  refine ⟨i1, q1, N1, fun n hn => ?_⟩
  rw [exec, X_bind_ok (r1 n hn)]
  rfl

theorem SSem.setPtr (hx : ESem K e env pre p vl post) : SSem K (.setPtr x e) env pre p (fun b => upd env x (vl b)) post := by
  intro st h hi hp b st' h' hr
  obtain ⟨i1, q1, N1, r1⟩ := hx st h hi hp b st' h' hr
  refine ⟨i1, q1, N1, fun n hn => ?_⟩
  rw [exec, X_bind_ok (r1 n hn)]
  rfl

theorem SSem.set {vl vt : β → Val} (hx : ESem K e env pre p vl post) (hv : ∀ b st env m, post b st → convTo (some t) (vl b) env m = .ok (vt b) env m) :
    SSem K (.set t x e) env pre p (fun b => upd env x (vt b)) post := by
  intro st h hi hp b st' h' hr
  obtain ⟨i1, q1, N1, r1⟩ := hx st h hi hp b st' h' hr
  refine ⟨i1, q1, N1, fun n hn => ?_⟩
  rw [exec, X_bind_ok (r1 n hn), X_bind_ok (hv b st' _ _ q1)]
  rfl

/-! ### The heap -/

theorem getBlock_cell (hi : Inv K st h) (ha : a ≠ 0) (hc : h.cells a = some c) :
    getBlock (.heap a) env (conc K st h) = .ok (enc c) env (conc K st h) := by
  have h1 : a ≠ K.B := fun e => by rw [e, hi.nB] at hc; cases hc
  have h2 : a ≠ K.A := fun e => by rw [e, hi.nA] at hc; cases hc
  simp only [getBlock, conc, memOf, Ctx.blocks, ha, h1, h2, hc, if_false]

/-- A new or changed block. -/
theorem conc_set (h1 : a ≠ K.B) (h2 : a ≠ K.A) (nx : Nat) (c : HCell) :
    ({ conc K st h with next := nx, heap := setHeap (conc K st h).heap a (some (enc c)) } : Mem) = conc K st { next := nx, cells := setCell h.cells a (some c) } := by
  simp only [conc, memOf, Mem.mk.injEq, and_self, and_true, true_and]
  funext b
  simp only [setHeap, Ctx.blocks, setCell]
  by_cases h3 : b = a
  · subst h3
    simp [h1, h2]
  · simp [h3]

/-- A block that is gone. -/
theorem conc_unset (h1 : a ≠ K.B) (h2 : a ≠ K.A) (h0 : K.base a = none) (nx : Nat) :
    ({ conc K st h with next := nx, heap := setHeap (conc K st h).heap a none } : Mem) = conc K st { next := nx, cells := setCell h.cells a none } := by
  simp only [conc, memOf, Mem.mk.injEq, and_self, and_true, true_and]
  funext b
  simp only [setHeap, Ctx.blocks, setCell]
  by_cases h3 : b = a
  · subst h3
    simp [h1, h2, h0]
  · simp [h3]

theorem deref_ok (hr : deref a st h = .ok c st' h') : a ≠ 0 ∧ h.cells a = some c ∧ st' = st ∧ h' = h := by
  unfold deref at hr
  split at hr
  · cases hr
  · split at hr
    · cases hr
      exact ⟨‹_›, ‹_›, rfl, rfl⟩
    · cases hr

theorem readPtr_eq_ok (hr : readPtr a i st h = .ok v st' h') :
    a ≠ 0 ∧ st' = st ∧ h' = h ∧ ∃ ps is, h.cells a = some (.struct ps is) ∧ ps[i]? = some v := by
  obtain ⟨c, st1, h1, e1, e2⟩ := P_bind_eq_ok hr
  obtain ⟨ha, hc, rfl, rfl⟩ := deref_ok e1
  cases c with
  | struct ps is =>
    refine ⟨ha, ?_⟩
    simp only at e2
    cases hv : ps[i]? with
    | none => rw [hv] at e2; cases e2
    | some w =>
      rw [hv] at e2
      cases e2
      exact ⟨rfl, rfl, _, _, hc, hv⟩
  | _ => cases e2

theorem readInt_eq_ok (hr : readInt a i st h = .ok v st' h') :
    a ≠ 0 ∧ st' = st ∧ h' = h ∧ ∃ ps is, h.cells a = some (.struct ps is) ∧ is[i]? = some v := by
  obtain ⟨c, st1, h1, e1, e2⟩ := P_bind_eq_ok hr
  obtain ⟨ha, hc, rfl, rfl⟩ := deref_ok e1
  cases c with
  | struct ps is =>
    refine ⟨ha, ?_⟩
    simp only at e2
    cases hv : is[i]? with
    | none => rw [hv] at e2; cases e2
    | some w =>
      rw [hv] at e2
      cases e2
      exact ⟨rfl, rfl, _, _, hc, hv⟩
  | _ => cases e2

theorem store_eq_ok (hr : store a c st h = .ok v st' h') :
    a ≠ 0 ∧ st' = st ∧ (∃ c0, h.cells a = some c0) ∧ h' = { h with cells := setCell h.cells a (some c) } := by
  obtain ⟨c0, st1, h1, e1, e2⟩ := P_bind_eq_ok hr
  obtain ⟨ha, hc, rfl, rfl⟩ := deref_ok e1
  cases e2
  exact ⟨ha, rfl, ⟨_, hc⟩, rfl⟩

theorem writePtr_eq_ok (hr : writePtr a i v st h = .ok u st' h') :
    a ≠ 0 ∧ st' = st ∧ ∃ ps is, h.cells a = some (.struct ps is) ∧ i < ps.length ∧
      h' = { h with cells := setCell h.cells a (some (.struct (ps.set i v) is)) } := by
  obtain ⟨c, st1, h1, e1, e2⟩ := P_bind_eq_ok hr
  obtain ⟨ha, hc, rfl, rfl⟩ := deref_ok e1
  split at e2
  · split at e2
    · obtain ⟨_, rfl, _, rfl⟩ := store_eq_ok e2
      exact ⟨ha, rfl, _, _, hc, ‹_›, rfl⟩
    · cases e2
  · cases e2

theorem writeInt_eq_ok (hr : writeInt a i v st h = .ok u st' h') :
    a ≠ 0 ∧ st' = st ∧ ∃ ps is, h.cells a = some (.struct ps is) ∧ i < is.length ∧
      h' = { h with cells := setCell h.cells a (some (.struct ps (is.set i v))) } := by
  obtain ⟨c, st1, h1, e1, e2⟩ := P_bind_eq_ok hr
  obtain ⟨ha, hc, rfl, rfl⟩ := deref_ok e1
  split at e2
  · split at e2
    · obtain ⟨_, rfl, _, rfl⟩ := store_eq_ok e2
      exact ⟨ha, rfl, _, _, hc, ‹_›, rfl⟩
    · cases e2
  · cases e2

/-- A change of a block that is in use. -/
theorem Inv.set (hi : Inv K st h) (hc : h.cells a = some c0) (c : Option HCell) (hs : ∀ c', c = some c' → Small c') :
    Inv K st { h with cells := setCell h.cells a c } := by
  have h1 : K.B ≠ a := fun e => by rw [← e, hi.nB] at hc; cases hc
  have h2 : K.A ≠ a := fun e => by rw [← e, hi.nA] at hc; cases hc
  refine ⟨hi.good, (if_neg h1).trans hi.nB, (if_neg h2).trans hi.nA, hi.lB, hi.lA, fun b c' hb => ?_, hi.lo, fun b hb => ?_⟩
  · simp only [setCell] at hb
    split at hb
    · exact hs c' hb
    · exact hi.ints b c' hb
  · obtain ⟨h3, h4⟩ := hi.old b hb
    refine ⟨(if_neg fun e => ?_).trans h3, h4⟩
    rw [e, hc] at h3
    cases h3

/-- A change of pointer members. -/
theorem Inv.setPs (hi : Inv K st h) (hc : h.cells a = some (.struct ps is)) (ps' : List Addr) :
    Inv K st { h with cells := setCell h.cells a (some (.struct ps' is)) } :=
  hi.set hc _ fun _ e => by cases e; exact (hi.ints a _ hc : Small (.struct ps is))

/-- A change of an integer member. -/
theorem Inv.setIs (hi : Inv K st h) (hc : h.cells a = some (.struct ps is)) (i n : Nat) (hn : n ≤ 2147483647) :
    Inv K st { h with cells := setCell h.cells a (some (.struct ps (is.set i n))) } := by
  refine hi.set hc _ fun _ e => ?_
  cases e
  intro k hk
  rcases List.mem_or_eq_of_mem_set hk with h1 | rfl
  · exact hi.ints a _ hc k h1
  · exact hn

/-- A new block. -/
theorem Inv.new (hi : Inv K st h) (c : HCell) (hs : Small c) : Inv K st { next := h.next + 1, cells := setCell h.cells h.next (some c) } := by
  have h1 : K.B ≠ h.next := Nat.ne_of_lt hi.lB
  have h2 : K.A ≠ h.next := Nat.ne_of_lt hi.lA
  refine ⟨hi.good, (if_neg h1).trans hi.nB, (if_neg h2).trans hi.nA, Nat.lt_succ_of_lt hi.lB, Nat.lt_succ_of_lt hi.lA, fun b c' hb => ?_, hi.lo, fun b hb => ?_⟩
  · simp only [setCell] at hb
    split at hb
    · cases hb
      exact hs
    · exact hi.ints b c' hb
  · obtain ⟨h3, h4⟩ := hi.old b hb
    exact ⟨(if_neg (by omega)).trans h3, Nat.lt_succ_of_lt h4⟩

theorem Inv.of_good (hi : Inv K st h) (hg : Good st') (hm : st.cursor ≤ st'.cursor) : Inv K st' h := ⟨hg, hi.nB, hi.nA, hi.lB, hi.lA, hi.ints, Nat.le_trans hi.lo hm, hi.old⟩

theorem Inv.ne (hi : Inv K st h) (hc : h.cells a = some c0) : a ≠ K.B ∧ a ≠ K.A :=
  ⟨fun e => (by rw [e, hi.nB] at hc; cases hc), fun e => (by rw [e, hi.nA] at hc; cases hc)⟩

/-- A block of the model is not one of the callers. -/
theorem Inv.own (hi : Inv K st h) (hc : h.cells a = some c0) : K.base a = none := by
  apply Decidable.byContradiction
  intro hn
  rw [(hi.old a hn).1] at hc
  cases hc

theorem setBlock_cell (hi : Inv K st h) (hc : h.cells a = some c0) (hb : b = enc c) :
    setBlock (.heap a) b env (conc K st h) = .ok () env (conc K st { h with cells := setCell h.cells a (some c) }) := by
  subst hb
  have := conc_set (K := K) (st := st) (h := h) (hi.ne hc).1 (hi.ne hc).2 h.next c
  rw [← this]
  rfl

theorem loadPtr_cell (hi : Inv K st h) (hr : readPtr a i st h = .ok v st' h') :
    loadPtr (ptrVal a) i env (conc K st h) = .ok (ptrVal v) env (conc K st h) := by
  obtain ⟨ha, rfl, rfl, ps, is, hc, hv⟩ := readPtr_eq_ok hr
  rw [loadPtr, asPtr, X_bind, X_pure]
  simp only
  rw [X_bind_ok (getBlock_cell hi ha hc)]
  simp only [enc, Nat.zero_add, List.getElem?_map, hv, Option.map_some, X_pure]

theorem loadInt_cell (hi : Inv K st h) (hr : readInt a i st h = .ok v st' h') :
    loadInt (ptrVal a) i env (conc K st h) = .ok (v : Int) env (conc K st h) := by
  obtain ⟨ha, rfl, rfl, ps, is, hc, hv⟩ := readInt_eq_ok hr
  rw [loadInt, asPtr, X_bind, X_pure]
  simp only
  rw [X_bind_ok (getBlock_cell hi ha hc)]
  simp only [enc, List.getElem?_map, hv, Option.map_some, X_pure, if_true]
  rfl

theorem storePtr_cell (hi : Inv K st h) (hr : writePtr a i v st h = .ok u st' h') :
    storePtr (ptrVal a) i (ptrVal v) env (conc K st h) = .ok () env (conc K st' h') := by
  obtain ⟨ha, rfl, ps, is, hc, hv, rfl⟩ := writePtr_eq_ok hr
  rw [storePtr, asPtr, X_bind, X_pure]
  simp only
  rw [X_bind_ok (getBlock_cell hi ha hc)]
  simp only [enc, Nat.zero_add, List.length_map, hv, if_true]
  exact setBlock_cell hi hc (by simp only [enc, List.map_set])

theorem storeInt_cell (hi : Inv K st h) (hr : writeInt a i v st h = .ok u st' h') :
    storeInt (ptrVal a) i (v : Int) env (conc K st h) = .ok () env (conc K st' h') := by
  obtain ⟨ha, rfl, ps, is, hc, hv, rfl⟩ := writeInt_eq_ok hr
  rw [storeInt, asPtr, X_bind, X_pure]
  simp only
  rw [X_bind_ok (getBlock_cell hi ha hc)]
  simp only [enc, List.length_map, hv, if_true, and_self]
  exact setBlock_cell hi hc (by simp only [enc, List.map_set, Int.ofNat_eq_natCast])

theorem free_cell (hi : Inv K st h) (hr : free a st h = .ok u st' h') :
    freeBlock (ptrVal a) env (conc K st h) = .ok () env (conc K st' h') ∧ Inv K st' h' := by
  unfold free at hr
  rw [freeBlock, asPtr, X_bind, X_pure]
  simp only
  by_cases ha : a = 0
  · rw [if_pos ha] at hr ⊢
    cases hr
    exact ⟨rfl, hi⟩
  · rw [if_neg ha] at hr ⊢
    rw [release]
    cases hc : h.cells a with
    | none =>
      rw [hc] at hr
      cases hr
    | some c =>
      rw [hc] at hr
      cases hr
      have hm : (conc K st h).heap a = some (enc c) := by
        simp only [conc, memOf, Ctx.blocks, (hi.ne hc).1, (hi.ne hc).2, if_false, hc]
      simp only [hm, if_true]
      refine ⟨?_, hi.set hc none (fun _ e => by cases e)⟩
      have := conc_unset (K := K) (st := st) (h := h) (hi.ne hc).1 (hi.ne hc).2 (hi.own hc) h.next
      rw [← this]
      rfl

/-! ### Rules for the heap -/

theorem getVar_ok (hv : env x = v) (hu : v ≠ .undef) : getVar x env m = .ok v env m := by
  subst hv
  unfold getVar
  split
  · exact absurd ‹_› hu
  · rfl

theorem eval_var (hv : env x = ptrVal a) : eval Γ (.var x) env m = .ok (ptrVal a) env m := getVar_ok hv (by intro h; cases h)

theorem ESem.ldPtr (hv : env x = ptrVal a) : ESem K (.ldPtr (.var x) i) env pre (readPtr a i) ptrVal (fun _ => pre) := by
  intro st h hi hp b st' h' hr
  obtain ⟨ha, rfl, rfl, _⟩ := readPtr_eq_ok hr
  refine ⟨hi, hp, 0, fun n _ => ?_⟩
  rw [eval, X_bind_ok (eval_var hv)]
  exact loadPtr_cell hi hr

theorem ESem.ldInt (hv : env x = ptrVal a) : ESem K (.ldInt t (.var x) i) env pre (readInt a i) (fun n => .int t n) (fun _ => pre) := by
  intro st h hi hp b st' h' hr
  obtain ⟨ha, rfl, rfl, _⟩ := readInt_eq_ok hr
  refine ⟨hi, hp, 0, fun n _ => ?_⟩
  rw [eval, X_bind_ok (eval_var hv), X_bind_ok (loadInt_cell hi hr)]
  rfl

/-- Through a pointer that is itself computed. -/
theorem ESem.ldPtr' (hx : ESem K e env pre p ptrVal post) : ESem K (.ldPtr e i) env pre (p >>= fun a => readPtr a i) ptrVal (fun _ => anySt) := by
  intro st h hi hp b st' h' hr
  obtain ⟨a, st1, h1, e1, e2⟩ := P_bind_eq_ok hr
  obtain ⟨i1, q1, N1, r1⟩ := hx st h hi hp a st1 h1 e1
  obtain ⟨ha, rfl, rfl, _⟩ := readPtr_eq_ok e2
  refine ⟨i1, trivial, N1, fun n hn => ?_⟩
  rw [eval, X_bind_ok (r1 n hn)]
  exact loadPtr_cell i1 e2

theorem ESem.ldInt' (hx : ESem K e env pre p ptrVal post) :
    ESem K (.ldInt t e i) env pre (p >>= fun a => readInt a i) (fun n => .int t n) (fun _ => anySt) := by
  intro st h hi hp b st' h' hr
  obtain ⟨a, st1, h1, e1, e2⟩ := P_bind_eq_ok hr
  obtain ⟨i1, q1, N1, r1⟩ := hx st h hi hp a st1 h1 e1
  obtain ⟨ha, rfl, rfl, _⟩ := readInt_eq_ok e2
  refine ⟨i1, trivial, N1, fun n hn => ?_⟩
  rw [eval, X_bind_ok (r1 n hn), X_bind_ok (loadInt_cell i1 e2)]
  rfl

/-- `x->m = e;` -/
theorem Sem.stPtr {k : Nat → P β} (hx : ESem K e env pre p ptrVal post) (hv : env x = ptrVal a) (hk : ∀ b, Sem K body ss env anySt (k b) vl post') :
    Sem K body (.stPtr (.var x) i e :: ss) env pre (p >>= fun b => writePtr a i b >>= fun _ => k b) vl post' := by
  intro st h hi hp b st' h' hr
  obtain ⟨c, st1, h1, e1, hr⟩ := P_bind_eq_ok hr
  obtain ⟨_, st2, h2, e2, e3⟩ := P_bind_eq_ok hr
  obtain ⟨i1, q1, N1, r1⟩ := hx st h hi hp c st1 h1 e1
  have hw := writePtr_eq_ok e2
  obtain ⟨_, rfl, _, _, hc, _, rfl⟩ := hw
  obtain ⟨i3, q3, N3, r3⟩ := hk c _ _ (i1.setPs hc _) trivial b st' h' e3
  refine ⟨i3, q3, max N1 N3, fun n hn g hg => ?_⟩
  obtain ⟨env', r⟩ := r3 n (by omega) g (by omega)
  refine ⟨env', (run_cons ?_).trans r⟩
  rw [exec, X_bind_ok (r1 n (by omega)), X_bind_ok (eval_var hv), X_bind_ok (storePtr_cell i1 e2)]
  rfl

/-- `x->m = n;` for an integer member -/
theorem Sem.stInt {vn : α → Val} {k : α → P β} {ty : α → ITy} {iv : α → Int} {nv : α → Nat} (hx : ESem K e env pre p vn post) (hv : env x = ptrVal a)
    (ht : ∀ b st env m, post b st → asInt (vn b) env m = .ok (ty b, iv b) env m ∧ t.conv (iv b) = Int.ofNat (nv b) ∧ nv b ≤ 2147483647)
    (hk : ∀ b, Sem K body ss env anySt (k b) vl post') :
    Sem K body (.stInt t (.var x) i e :: ss) env pre (p >>= fun b => writeInt a i (nv b) >>= fun _ => k b) vl post' := by
  intro st h hi hp b st' h' hr
  obtain ⟨c, st1, h1, e1, hr⟩ := P_bind_eq_ok hr
  obtain ⟨_, st2, h2, e2, e3⟩ := P_bind_eq_ok hr
  obtain ⟨i1, q1, N1, r1⟩ := hx st h hi hp c st1 h1 e1
  have hw := writeInt_eq_ok e2
  obtain ⟨_, rfl, _, _, hc, _, rfl⟩ := hw
  obtain ⟨i3, q3, N3, r3⟩ := hk c _ _ (i1.setIs hc _ _ (ht c _ env (conc K st h) q1).2.2) trivial b st' h' e3
  refine ⟨i3, q3, max N1 N3, fun n hn g hg => ?_⟩
  obtain ⟨env', r⟩ := r3 n (by omega) g (by omega)
  refine ⟨env', (run_cons ?_).trans r⟩
  rw [exec, X_bind_ok (r1 n (by omega)), X_bind_ok (ht c _ _ _ q1).1, X_bind_ok (eval_var hv)]
  have hs := storeInt_cell (env := env) i1 e2
  rw [show ((nv c : Nat) : Int) = t.conv (iv c) from (ht c _ env (conc K st h) q1).2.1.symm] at hs
  rw [X_bind_ok hs]
  rfl

/-- `free(e);` -/
theorem Sem.free {k : Nat → P β} (hx : ESem K e env pre p ptrVal post) (hk : ∀ b, Sem K body ss env anySt (k b) vl post') :
    Sem K body (.free e :: ss) env pre (p >>= fun b => Sml.free b >>= fun _ => k b) vl post' := by
  intro st h hi hp b st' h' hr
  obtain ⟨c, st1, h1, e1, hr⟩ := P_bind_eq_ok hr
  obtain ⟨_, st2, h2, e2, e3⟩ := P_bind_eq_ok hr
  obtain ⟨i1, q1, N1, r1⟩ := hx st h hi hp c st1 h1 e1
  obtain ⟨r2, i2⟩ := free_cell (env := env) i1 e2
  obtain ⟨i3, q3, N3, r3⟩ := hk c _ _ i2 trivial b st' h' e3
  refine ⟨i3, q3, max N1 N3, fun n hn g hg => ?_⟩
  obtain ⟨env', r⟩ := r3 n (by omega) g (by omega)
  refine ⟨env', (run_cons ?_).trans r⟩
  rw [exec, X_bind_ok (r1 n (by omega)), X_bind_ok r2]
  rfl

theorem Sem.freeVar (hv : env x = ptrVal a) (hk : Sem K body ss env anySt k vl post') :
    Sem K body (.free (.var x) :: ss) env pre (Sml.free a >>= fun _ => k) vl post' :=
  Sem.free (p := (Pure.pure a : P Nat)) (k := fun _ => k) (ESem.pure fun _ _ => eval_var hv) fun _ => hk

/-- A test of a variable. -/
theorem Sem.iteVar (hv : env x = ptrVal a) (ht : a ≠ 0 → Sem K body (A ++ ss) env pre p vl post)
    (hf : a = 0 → Sem K body (B ++ ss) env pre p vl post) : Sem K body (.ite (.var x) A B :: ss) env pre p vl post := by
  refine Sem.ite (p := (Pure.pure a : P Nat)) (k := fun _ => p) (vc := fun _ => ptrVal a) (ESem.pure fun _ _ => eval_var hv) (fun _ h => by cases h) ?_ ?_
  · intro _ h
    exact ht (by rintro rfl; simp [Val.isTrue] at h)
  · intro _ h
    exact hf (by simpa [Val.isTrue] using h)

end Sml.C
