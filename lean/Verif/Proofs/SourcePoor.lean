import Verif.Proofs.SourceMet
import Verif.Proofs.SourceCalm
import Verif.Proofs.SourceRun
import Verif.Proofs.SourceWriteMsg

/-!
# Runs in which some requests for memory are refused

The same judgements as in `SourceRun.lean`, for `scarce program av` instead of `call program`, and how to carry over what asks for
no memory.
-/

namespace Sml.C

/-- A call that has this result when requests for memory are met as `av` says. -/
def ScarceTo (av : Nat → Bool) (f : Fn) (vs : List Val) (m : Mem) (v : Val) (m' : Mem) : Prop :=
  ∃ N, ∀ n, N ≤ n → ∀ env, scarce program av n f vs env m = .ok v env m'

/-- A call that comes to this undefined step when requests for memory are met as `av` says. -/
def ScarceBad (av : Nat → Bool) (f : Fn) (vs : List Val) (m : Mem) (b : Bad) : Prop :=
  ∃ N, ∀ n, N ≤ n → ∀ env, scarce program av n f vs env m = .bad b

def PoorEval (av : Nat → Bool) (e : Expr) (env : Env) (m : Mem) (v : Val) (env' : Env) (m' : Mem) : Prop :=
  ∃ N, ∀ n, N ≤ n → eval (scarce program av n) e env m = .ok v env' m'

def PoorExec (av : Nat → Bool) (s : Stmt) (env : Env) (m : Mem) (o : Out) (env' : Env) (m' : Mem) : Prop :=
  ∃ N, ∀ n, N ≤ n → exec (scarce program av n) n s env m = .ok o env' m'

def PoorRun (av : Nat → Bool) (body ss : List Stmt) (env : Env) (m : Mem) (v : Val) (m' : Mem) : Prop :=
  ∃ N, ∀ n, N ≤ n → ∀ g, N ≤ g → ∃ env', runFrom (scarce program av n) n body g ss env m = .ok v env' m'

theorem ScarceTo.of_met (h : CallTo f vs m v m') (ha : AllMet av m.next m'.next) : ScarceTo av f vs m v m' := by
  obtain ⟨N, h⟩ := h
  exact ⟨N, fun n hn env => (((calls_met program av n).run f vs).run _ _ _ _ _ (h n hn env)).2 ha⟩

theorem ScarceTo.lift (h : CallTo f vs m v m') (hn : m'.next = m.next) : ScarceTo av f vs m v m' :=
  .of_met h (by rw [hn]; exact .none)

theorem PoorEval.lift (h : EvalTo e env m v env' m') (hn : m'.next = m.next) : PoorEval av e env m v env' m' := by
  obtain ⟨N, h⟩ := h
  exact ⟨N, fun n hm => ((eval_met (calls_met program av n) e).run _ _ _ _ _ (h n hm)).2 (by rw [hn]; exact .none)⟩

theorem PoorExec.lift (h : ExecTo s env m o env' m') (hn : m'.next = m.next) : PoorExec av s env m o env' m' := by
  obtain ⟨N, h⟩ := h
  exact ⟨N, fun n hm => ((exec_met (calls_met program av n) n s).run _ _ _ _ _ (h n hm)).2 (by rw [hn]; exact .none)⟩

theorem PoorExec.mallocBytes {k : Nat} (x : Nat) (he : PoorEval av e env m (.int t k) env m) (ha : av m.next = false) :
    PoorExec av (.setPtr x (.mallocBytes e)) env m .next (upd env x (ptrVal 0)) { m with next := m.next + 1 } := by
  obtain ⟨N, he⟩ := he
  refine ⟨N, fun n hn => ?_⟩
  have h1 : eval (scarce program av n) (.mallocBytes e) env m = .ok (ptrVal 0) env { m with next := m.next + 1 } := by
    rw [eval, X_bind_ok (he n hn), X_bind_ok asNat_int]
    have : room (scarce program av n) env m = .ok false env { m with next := m.next + 1 } := by
      rw [room, show (scarce program av n).avail = av from rfl, ha]
      rfl
    rw [X_bind_ok this]
    rfl
  rw [exec, X_bind_ok h1]
  rfl

theorem PoorRun.cons (hs : PoorExec av s env m .next env1 m1) (hr : PoorRun av body ss env1 m1 v m') : PoorRun av body (s :: ss) env m v m' := by
  obtain ⟨N, r⟩ := hs
  obtain ⟨N2, r2⟩ := hr
  refine ⟨max N N2 + 1, fun n hn g hg => ?_⟩
  obtain ⟨e, r3⟩ := r2 n (by omega) g (by omega)
  obtain ⟨g, rfl⟩ : ∃ k, g = k + 1 := ⟨g - 1, by omega⟩
  refine ⟨e, ?_⟩
  have h : execs (scarce program av n) n (s :: ss) env m = execs (scarce program av n) n ss env1 m1 := by
    rw [execs, X_bind_ok (r n (by omega))]
  rw [runFrom] at r3 ⊢
  rw [X_bind, h]
  exact r3

theorem PoorRun.jump (hs : PoorExec av s env m (.goto l) env1 m1) (hb : behind l body = some ss') (hr : PoorRun av body ss' env1 m1 v m') :
    PoorRun av body (s :: ss) env m v m' := by
  obtain ⟨N, r⟩ := hs
  obtain ⟨N2, r2⟩ := hr
  refine ⟨max N N2 + 1, fun n hn g hg => ?_⟩
  obtain ⟨g, rfl⟩ : ∃ k, g = k + 1 := ⟨g - 1, by omega⟩
  obtain ⟨e, r3⟩ := r2 n (by omega) g (by omega)
  refine ⟨e, ?_⟩
  have h : execs (scarce program av n) n (s :: ss) env m = .ok (.goto l) env1 m1 := by
    rw [execs, X_bind_ok (r n (by omega))]
    rfl
  rw [runFrom]
  refine (X_bind_ok h).trans ?_
  simp only [hb]
  exact r3

theorem PoorRun.stop (hs : PoorExec av s env m (.ret v) env' m') : PoorRun av body (s :: ss) env m v m' := by
  obtain ⟨N, r⟩ := hs
  refine ⟨N + 1, fun n hn g hg => ⟨env', ?_⟩⟩
  obtain ⟨g, rfl⟩ : ∃ k, g = k + 1 := ⟨g - 1, by omega⟩
  have h : execs (scarce program av n) n (s :: ss) env m = .ok (.ret v) env' m' := by
    rw [execs, X_bind_ok (r n (by omega))]
    rfl
  rw [runFrom]
  exact X_bind_ok h

theorem PoorRun.nil : PoorRun av body [] env m .undef m := by
  refine ⟨1, fun n hn g hg => ⟨env, ?_⟩⟩
  obtain ⟨g, rfl⟩ : ∃ k, g = k + 1 := ⟨g - 1, by omega⟩
  rw [runFrom]
  rfl

theorem PoorRun.ret (he : EvalTo e env m v env' m') (hn : m'.next = m.next) : PoorRun av body (.ret e :: ss) env m v m' := by
  refine .stop (env' := env') (.lift ?_ hn)
  obtain ⟨N, r⟩ := he
  refine ⟨N, fun n hn => ?_⟩
  rw [exec, X_bind_ok (r n hn)]
  rfl

theorem ScarceTo.run {f : Fn} (hb : ∀ env m, bindArgs (program f).params args env m = .ok vs env m)
    (hr : PoorRun av (program f).body (program f).body (envOf vs) m v m1)
    (hv : ∀ env, resultOf (program f).res v env { m1 with stack := m1.stack.take m.stack.length } = .ok w env m') : ScarceTo av f args m w m' := by
  obtain ⟨N, r⟩ := hr
  refine ⟨N + 1, fun n hn env => ?_⟩
  obtain ⟨n, rfl⟩ : ∃ k, n = k + 1 := ⟨n - 1, by omega⟩
  obtain ⟨e, r⟩ := r n (by omega) n (by omega)
  change runFun (scarce program av n) n (program f) args env m = _
  rw [runFun, X_bind_ok (hb env m), X_bind]
  rw [inFrame, r]
  exact hv env

/-- `sml_number_init` when its request is refused. -/
theorem numberInit_poor (m : Mem) (ha : av m.next = false) {k : Int} {v size : Nat} {t1 t2 t3 : ITy} (hk : ITy.conv .u64 k = v) (hv : v < 18446744073709551616) (hs : size ≤ 8) :
    ScarceTo av .sml_number_init [.int t1 k, .int t2 ty, .int t3 size] m (ptrVal 0) { m with next := m.next + 1 } := by
  have hb : ∀ env m, bindArgs [some .u64, some .u8, some .i32] [.int t1 k, .int t2 ty, .int t3 size] env m =
      .ok [.int .u64 v, .int .u8 (ITy.conv .u8 ty), .int .i32 size] env m := by
    intro env m
    simp only [bindArgs, convTo, asInt, X_bind, X_pure]
    rw [hk, conv_i32 (by omega) (by omega)]
  let σ := m.stack ++ [.raw ((leBytes 8 v).map some)]
  let m1 : Mem := { m with stack := m.stack ++ [.raw (List.replicate 8 none)] }
  let m2 : Mem := { m with stack := σ }
  let m3 : Mem := { m2 with next := m.next + 1 }
  let E0 := envOf [.int .u64 v, .int .u8 (ITy.conv .u8 ty), .int .i32 size]
  let E1 := upd E0 3 (.ptr (.stack m.stack.length) 0)
  let E2 := upd E1 4 (.ptr (.stack m.stack.length) 0)
  let E3 := upd E2 5 (ptrVal 0)
  have g1 : ∀ env, getBlock (.stack m.stack.length) env m1 = .ok (.raw (List.replicate 8 none)) env m1 := fun env => getBlock_stack (by simp [m1])
  have x1 : ExecTo (.bytes 3 (.lit .u64 8)) E0 m .next E1 m1 := .bytes (k := 8) .lit (by omega)
  have x2 : ExecTo (.stDeref .u64 (.var 3) (.var 0)) E1 m1 .next E1 m2 := by
    refine .stDeref (t := .u64) (w := v) (.int (by rfl)) (.ptr (l := .stack m.stack.length) (i := 0) (by rfl)) ?_
    rw [storeNum, toBits_u64 hv, show ITy.size .u64 = 8 from rfl]
    refine storeBytes_raw (g1 _) (fun h => ?_) (by rw [leBytes_length]; simp) ?_
    · have := leBytes_length 8 v
      rw [h] at this
      cases this
    · rw [setBlock_stack, leBytes_length]
      simp [m1, m2, σ]
  have x3 : ExecTo (.setPtr 4 (.var 3)) E1 m2 .next E2 m2 := .setPtr (.ptr rfl)
  have x4 : ExecTo (.ite (.bin .eq (.call .sml_number_endian []) (.lit .i32 1)) [.setPtr 4 (.addr (.var 4) (.bin .sub (.lit .u64 8) (.var 2)))] []) E2 m2 .next E2 m2 :=
    .ite (b := false) (.bin (.call .nil (call_endian _)) .lit (bin_eq (ta := .i32) (tb := .i32) rfl rfl)) (truth_neg (by decide)) .nil
  have x5 : PoorExec av (.setPtr 5 (.mallocBytes (.var 2))) E2 m2 .next E3 m3 := .mallocBytes 5 (t := .i32) (k := size) (.lift (.int (by rfl)) rfl) ha
  have x6 : ExecTo (.ite (.bin .eq (.var 5) .null) [.goto 0] []) E3 m3 (.goto 0) E3 m3 :=
    .ite (b := true) (ev_null0 (a := 0) (by rfl)) (truth_pos rfl) (.stop .goto (by intro h; cases h))
  refine .run (m1 := m3) hb (.cons (.lift x1 rfl) (.cons (.lift x2 rfl) (.cons (.lift x3 rfl) (.cons (.lift x4 rfl) (.cons x5 (.jump (.lift x6 rfl) rfl
    (.ret .null rfl))))))) fun env => ?_
  simp [m3, m2, σ]
  rfl

end Sml.C
