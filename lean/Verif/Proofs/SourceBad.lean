import Verif.Proofs.SourceMono

/-!
# Calls with an undefined step
-/

namespace Sml.C

theorem X_bad {x : X α} {f : α → X β} (h : x env m = .bad b) : (x >>= f) env m = .bad b := by
  rw [X_bind, h]

/-- With enough fuel the expression has the undefined step `b`. -/
def EvalBad (e : Expr) (env : Env) (m : Mem) (b : Bad) : Prop := ∃ N, ∀ n, N ≤ n → eval (call program n) e env m = .bad b

def EvalsBad (es : List Expr) (env : Env) (m : Mem) (b : Bad) : Prop := ∃ N, ∀ n, N ≤ n → evals (call program n) es env m = .bad b

def ExecBad (s : Stmt) (env : Env) (m : Mem) (b : Bad) : Prop := ∃ N, ∀ n, N ≤ n → exec (call program n) n s env m = .bad b

def ExecsBad (ss : List Stmt) (env : Env) (m : Mem) (b : Bad) : Prop := ∃ N, ∀ n, N ≤ n → execs (call program n) n ss env m = .bad b

/-- With enough fuel the call has the undefined step `b`. -/
def CallBad (f : Fn) (vs : List Val) (m : Mem) (b : Bad) : Prop := ∃ N, ∀ n, N ≤ n → ∀ env, call program n f vs env m = .bad b

theorem ExecsBad.head (h : ExecBad s env m b) : ExecsBad (s :: ss) env m b := by
  obtain ⟨N, r⟩ := h
  exact ⟨N, fun n hn => by rw [execs]; exact X_bad (r n hn)⟩

theorem ExecsBad.tail (hs : ExecTo s env m .next env1 m1) (h : ExecsBad ss env1 m1 b) : ExecsBad (s :: ss) env m b := by
  obtain ⟨N, r⟩ := hs
  obtain ⟨N2, r2⟩ := h
  exact ⟨max N N2, fun n hn => by rw [execs, X_bind_ok (r n (by omega))]; exact r2 n (by omega)⟩

theorem ExecBad.expr (h : EvalBad e env m b) : ExecBad (.expr e) env m b := by
  obtain ⟨N, r⟩ := h
  exact ⟨N, fun n hn => by rw [exec]; exact X_bad (r n hn)⟩

theorem ExecBad.setPtr (h : EvalBad e env m b) : ExecBad (.setPtr x e) env m b := by
  obtain ⟨N, r⟩ := h
  exact ⟨N, fun n hn => by rw [exec]; exact X_bad (r n hn)⟩

theorem ExecBad.set (h : EvalBad e env m b) : ExecBad (.set t x e) env m b := by
  obtain ⟨N, r⟩ := h
  exact ⟨N, fun n hn => by rw [exec]; exact X_bad (r n hn)⟩

theorem EvalBad.call (ha : EvalsTo es env m vs env' m1) (h : CallBad f vs m1 b) : EvalBad (.call f es) env m b := by
  obtain ⟨N, r⟩ := ha
  obtain ⟨N2, r2⟩ := h
  exact ⟨max N N2, fun n hn => by rw [eval, X_bind_ok (r n (by omega))]; exact r2 n (by omega) env'⟩

theorem EvalBad.assign (h : EvalBad e env m b) : EvalBad (.assign t x e) env m b := by
  obtain ⟨N, r⟩ := h
  exact ⟨N, fun n hn => by rw [eval]; exact X_bad (r n hn)⟩

theorem EvalBad.binL (h : EvalBad a env m b) : EvalBad (.bin o a c) env m b := by
  obtain ⟨N, r⟩ := h
  exact ⟨N, fun n hn => by rw [eval]; exact X_bad (r n hn)⟩

theorem ExecBad.fdAdd {k : Int} (hd : EvalTo d env m (.int t k) env1 m1) (he : EvalTo e env1 m1 p env2 m2) (hs : fdInsert k p env2 m2 = .bad b) : ExecBad (.fdAdd d e) env m b := by
  obtain ⟨N, r⟩ := hd
  obtain ⟨N2, r2⟩ := he
  exact ⟨max N N2, fun n hn => by rw [exec, X_bind_ok (r n (by omega)), X_bind_ok asInt_int, X_bind_ok (r2 n (by omega))]; exact X_bad hs⟩

/-- The condition of a loop. -/
theorem ExecBad.loop (h : EvalBad c env m b) : ExecBad (.loop c bd st) env m b := by
  obtain ⟨N, r⟩ := h
  refine ⟨N + 1, fun n hn => ?_⟩
  obtain ⟨n, rfl⟩ : ∃ k, n = k + 1 := ⟨n - 1, by omega⟩
  rw [exec, whileLoop]
  exact X_bad (X_bad (r (n + 1) (by omega)))

theorem CallBad.of {f : Fn} (hb : ∀ env m, bindArgs (program f).params args env m = .ok vs env m) (h : ExecsBad (program f).body (envOf vs) m b) : CallBad f args m b := by
  obtain ⟨N, r⟩ := h
  refine ⟨N + 2, fun n hn env => ?_⟩
  obtain ⟨n, rfl⟩ : ∃ k, n = k + 2 := ⟨n - 2, by omega⟩
  have h1 : runFrom (Sml.C.call program (n + 1)) (n + 1) (program f).body (n + 1) (program f).body (envOf vs) m = .bad b := by
    rw [runFrom]
    exact X_bad (r (n + 1) (by omega))
  rw [call_succ, runFun, X_bind_ok (hb env m)]
  refine X_bad ?_
  unfold inFrame
  rw [h1]

/-- Then the call has no result, whatever the fuel. -/
theorem CallBad.all (h : CallBad f vs m b) (n : Nat) (env : Env) : call program n f vs env m = .bad (.buf .fuel) ∨ call program n f vs env m = .bad b := by
  obtain ⟨N, r⟩ := h
  rcases (call_le program n (max n N) (by omega)).run f vs env m with h | h
  · exact .inl h
  · exact .inr (h.symm.trans (r (max n N) (by omega) env))

theorem CallBad.no (h : CallBad f vs m b) : ¬ ∃ v m', CallTo f vs m v m' := by
  rintro ⟨v, m', N, r⟩
  obtain ⟨N2, r2⟩ := h
  have := (r (max N N2) (by omega) (fun _ => .undef)).symm.trans (r2 (max N N2) (by omega) _)
  cases this

/-- The loop ends with an undefined step or with `exit`. -/
def LoopBad (c : Expr) (b s : List Stmt) (env : Env) (m : Mem) (x : Bad) : Prop :=
  ∃ N, ∀ n, N ≤ n → ∀ k, N ≤ k → whileLoop (do truth (← eval (call program n) c)) (execs (call program n) n b) (execs (call program n) n s) k env m = .bad x

theorem LoopBad.body (hc : EvalTo c env m v env1 m1) (ht : truth v env1 m1 = .ok true env1 m1) (hb : ExecsBad b env1 m1 x) : LoopBad c b s env m x := by
  obtain ⟨N, r⟩ := hc
  obtain ⟨N2, r2⟩ := hb
  refine ⟨max N N2 + 1, fun n hn k hk => ?_⟩
  obtain ⟨k, rfl⟩ : ∃ j, k = j + 1 := ⟨k - 1, by omega⟩
  rw [whileLoop, X_bind_ok ((X_bind_ok (r n (by omega))).trans ht)]
  exact X_bad (r2 n (by omega))

theorem LoopBad.round (hc : EvalTo c env m v env1 m1) (ht : truth v env1 m1 = .ok true env1 m1) (hb : ExecsTo b env1 m1 .next env2 m2)
    (hs : ExecsTo s env2 m2 o env3 m3) (h : LoopBad c b s env3 m3 x) : LoopBad c b s env m x := by
  obtain ⟨N, r⟩ := hc
  obtain ⟨N2, r2⟩ := hb
  obtain ⟨N3, r3⟩ := hs
  obtain ⟨N4, r4⟩ := h
  refine ⟨max (max N N2) (max N3 N4) + 1, fun n hn k hk => ?_⟩
  obtain ⟨k, rfl⟩ : ∃ j, k = j + 1 := ⟨k - 1, by omega⟩
  rw [whileLoop, X_bind_ok ((X_bind_ok (r n (by omega))).trans ht), if_pos rfl, X_bind_ok (r2 n (by omega))]
  exact (X_bind_ok (r3 n (by omega))).trans (r4 n (by omega) k (by omega))

theorem ExecBad.ofLoop (h : LoopBad c b s env m x) : ExecBad (.loop c b s) env m x := by
  obtain ⟨N, r⟩ := h
  refine ⟨N, fun n hn => ?_⟩
  rw [exec]
  exact r n hn n hn

theorem EvalBad.callPtr (hf : EvalTo e env m (.fn f) env1 m1) (ha : EvalsTo es env1 m1 vs env' m2) (h : CallBad f vs m2 b)
    (ht : f.byPtr = true := by first | rfl | assumption) : EvalBad (.callPtr e es) env m b := by
  obtain ⟨N, r⟩ := hf
  obtain ⟨N2, r2⟩ := ha
  obtain ⟨N3, r3⟩ := h
  exact ⟨max N (max N2 N3), fun n hn => by rw [eval, X_bind_ok (r n (by omega)), X_bind_ok (r2 n (by omega)), callVal, if_pos ht]; exact r3 n (by omega) env'⟩

end Sml.C
