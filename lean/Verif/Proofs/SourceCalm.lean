import Verif.Proofs.SourceAsk

/-!
# Functions that do not look at what `malloc` returns

`calms` is a condition on the text of a function. For functions that meet it and only call others that do, a run in which a request for
memory is not met writes through `NULL`, and any other run is as with enough memory (`calm_call`).
-/

namespace Sml.C

macro "sims" : tactic => `(tactic| repeat' (first | assumption | with_reducible apply Sim.bind | with_reducible apply Sim.ite | (with_reducible refine Sim.of ?_; first | exact Stays.pure _ | exact Stays.bad _ | stays1) | intro _))

/-- Functions in `S`, and functions of the types of those that are called through a pointer, with one argument. -/
structure CallsSim (S : Fn → Bool) (av : Nat → Bool) (Γ Γ' : Calls) : Prop where
  run : ∀ f, S f = true → ∀ vs, Sim av (Γ f vs) (Γ' f vs)
  ptr : ∀ f, f.byPtr = true → ∀ v, Sim av (Γ f [v]) (Γ' f [v])
  rich : Γ.avail = fun _ => true
  avail : Γ'.avail = av

mutual
/-- No memory is asked for, except by functions that are called, and all of these are in `S`. -/
def calmE (S : Fn → Bool) : Expr → Bool
  | .lit _ _ => true
  | .null => true
  | .fn _ => true
  | .var _ => true
  | .ldPtr e _ => calmE S e
  | .ldInt _ e _ => calmE S e
  | .ldFn e _ => calmE S e
  | .elem e k => calmE S e && calmE S k
  | .byte _ e k => calmE S e && calmE S k
  | .deref _ e => calmE S e
  | .addr e k => calmE S e && calmE S k
  | .addrPtr e _ => calmE S e
  | .tab _ _ k => calmE S k
  | .compl e => calmE S e
  | .neg e => calmE S e
  | .not e => calmE S e
  | .bin _ a b => calmE S a && calmE S b
  | .and a b => calmE S a && calmE S b
  | .or a b => calmE S a && calmE S b
  | .cond c a b => calmE S c && calmE S a && calmE S b
  | .cast _ e => calmE S e
  | .incVar _ _ _ => true
  | .incPtr _ => true
  | .incMem _ e _ => calmE S e
  | .call f args => S f && calmEs S args
  | .callPtr e args => decide (args.length = 1) && calmE S e && calmEs S args
  | .mallocRec _ _ => false
  | .mallocBytes _ => false
  | .realloc _ _ => false
  | .memcmp a b n => calmE S a && calmE S b && calmE S n
  | .memcmpTab a _ n => calmE S a && calmE S n
  | .strlen e => calmE S e
  | .assign _ _ e => calmE S e
  | .fdHas d e => calmE S d && calmE S e
  | .read d p n => calmE S d && calmE S p && calmE S n
  | .write d p n => calmE S d && calmE S p && calmE S n
  | .errno => true
  | .str _ => true
  | .strTab _ k => calmE S k
  | .assignPtr _ e => calmE S e
  | .flag _ => true
  | .toDbl e => calmE S e
  | .mulDbl a b => calmE S a && calmE S b
  | .pow10 e => calmE S e
  | .strcmp a b => calmE S a && calmE S b
  | .getopt n a _ => calmE S n && calmE S a
  | .openFile e fl => calmE S e && calmE S fl

def calmEs (S : Fn → Bool) : List Expr → Bool
  | [] => true
  | e :: es => calmE S e && calmEs S es
end

def calmMembers (S : Fn → Bool) : List (ITy × Expr) → Bool
  | [] => true
  | p :: es => calmE S p.2 && calmMembers S es

mutual
def calmS (S : Fn → Bool) : Stmt → Bool
  | .expr e => calmE S e
  | .set _ _ e => calmE S e
  | .setPtr _ e => calmE S e
  | .stPtr e _ v => calmE S e && calmE S v
  | .stInt _ e _ v => calmE S e && calmE S v
  | .stElem e k v => calmE S e && calmE S k && calmE S v
  | .stByte _ e k v => calmE S e && calmE S k && calmE S v
  | .stDeref _ e v => calmE S e && calmE S v
  | .stRec e ps is => calmE S e && calmEs S ps && calmMembers S is
  | .free e => calmE S e
  | .memset d c n => calmE S d && calmE S c && calmE S n
  | .memcpy d s n => calmE S d && calmE S s && calmE S n
  | .memcpyTab d _ n => calmE S d && calmE S n
  | .print args => calmEs S args
  | .printf _ args => calmEs S args
  | .exit _ => true
  | .bytes _ n => calmE S n
  | .obj _ ps _ => calmEs S ps
  | .ptrVar _ => true
  | .fdVar _ => true
  | .fdZero e => calmE S e
  | .fdAdd d e => calmE S d && calmE S e
  | .select n e => calmE S n && calmE S e
  | .uuid e => calmE S e
  | .setFlag _ e => calmE S e
  | .zeroRec e _ => calmE S e
  | .modemGet d p => calmE S d && calmE S p
  | .modemSet d p => calmE S d && calmE S p
  | .termGet d p => calmE S d && calmE S p
  | .termSet d p => calmE S d && calmE S p
  | .setSpeed p v => calmE S p && calmE S v
  | .close d => calmE S d
  | .ite c a b => calmE S c && calms S a && calms S b
  | .loop c body step => calmE S c && calms S body && calms S step
  | .doWhile body c => calms S body && calmE S c
  | .switch e body => calmE S e && calms S body
  | .case _ => true
  | .dflt => true
  | .brk => true
  | .cont => true
  | .ret e => calmE S e
  | .retVoid => true
  | .goto _ => true
  | .label _ => true

/-- Statements of that kind, between requests for memory with a write through the pointer right behind them. -/
def calms (S : Fn → Bool) : List Stmt → Bool
  | [] => true
  | s :: ss => (calmS S s || allocThen s ss) && calms S ss
end

theorem evals_length : (es : List Expr) → (∃ env m env' m', evals Γ es env m = .ok vs env' m') → vs.length = es.length
  | [], ⟨_, _, _, _, h⟩ => by rw [evals] at h; cases h; rfl
  | e :: es, ⟨_, _, _, _, h⟩ => by
    rw [evals] at h
    replace h := X_bind_eq_ok h
    obtain ⟨v, e1, m1, h1, h⟩ := h
    replace h := X_bind_eq_ok h
    obtain ⟨ws, e2, m2, h2, h⟩ := h
    cases h
    rw [List.length_cons, List.length_cons, evals_length es ⟨_, _, _, _, h2⟩]

theorem callVal_sim (hΓ : CallsSim S av Γ Γ') (p : Val) (vs : List Val) (hv : vs.length = 1) : Sim av (callVal Γ p vs) (callVal Γ' p vs) := by
  unfold callVal
  cases p with
  | fn f =>
    simp only
    match vs, hv with
    | [v], _ =>
      by_cases hf : f.byPtr = true
      · rw [if_pos hf, if_pos hf]
        exact hΓ.ptr f hf v
      · rw [if_neg hf, if_neg hf]
        exact .bad
  | _ => exact .bad

mutual
theorem eval_sim (hΓ : CallsSim S av Γ Γ') : (e : Expr) → calmE S e = true → Sim av (eval Γ e) (eval Γ' e)
  | .lit _ _, _ => by rw [eval, eval]; sims
  | .null, _ => by rw [eval, eval]; sims
  | .fn _, _ => by rw [eval, eval]; sims
  | .var _, _ => by rw [eval, eval]; sims
  | .ldPtr e _, h => by simp only [calmE] at h; have := eval_sim hΓ e h; rw [eval, eval]; sims
  | .ldInt _ e _, h => by simp only [calmE] at h; have := eval_sim hΓ e h; rw [eval, eval]; sims
  | .ldFn e _, h => by simp only [calmE] at h; have := eval_sim hΓ e h; rw [eval, eval]; sims
  | .elem e k, h => by simp only [calmE, Bool.and_eq_true] at h; have := eval_sim hΓ e h.1; have := eval_sim hΓ k h.2; rw [eval, eval]; sims
  | .byte _ e k, h => by simp only [calmE, Bool.and_eq_true] at h; have := eval_sim hΓ e h.1; have := eval_sim hΓ k h.2; rw [eval, eval]; sims
  | .deref _ e, h => by simp only [calmE] at h; have := eval_sim hΓ e h; rw [eval, eval]; sims
  | .addr e k, h => by simp only [calmE, Bool.and_eq_true] at h; have := eval_sim hΓ e h.1; have := eval_sim hΓ k h.2; rw [eval, eval]; sims
  | .addrPtr e _, h => by simp only [calmE] at h; have := eval_sim hΓ e h; rw [eval, eval]; sims
  | .tab _ _ k, h => by simp only [calmE] at h; have := eval_sim hΓ k h; rw [eval, eval]; sims
  | .compl e, h => by simp only [calmE] at h; have := eval_sim hΓ e h; rw [eval, eval]; sims
  | .neg e, h => by simp only [calmE] at h; have := eval_sim hΓ e h; rw [eval, eval]; sims
  | .not e, h => by simp only [calmE] at h; have := eval_sim hΓ e h; rw [eval, eval]; sims
  | .bin _ a b, h => by simp only [calmE, Bool.and_eq_true] at h; have := eval_sim hΓ a h.1; have := eval_sim hΓ b h.2; rw [eval, eval]; sims
  | .and a b, h => by simp only [calmE, Bool.and_eq_true] at h; have := eval_sim hΓ a h.1; have := eval_sim hΓ b h.2; rw [eval, eval]; sims
  | .or a b, h => by simp only [calmE, Bool.and_eq_true] at h; have := eval_sim hΓ a h.1; have := eval_sim hΓ b h.2; rw [eval, eval]; sims
  | .cond c a b, h => by simp only [calmE, Bool.and_eq_true] at h; have := eval_sim hΓ c h.1.1; have := eval_sim hΓ a h.1.2; have := eval_sim hΓ b h.2; rw [eval, eval]; sims
  | .cast _ e, h => by simp only [calmE] at h; have := eval_sim hΓ e h; rw [eval, eval]; sims
  | .incVar _ _ _, _ => by rw [eval, eval]; sims
  | .incPtr _, _ => by rw [eval, eval]; sims
  | .incMem _ e _, h => by simp only [calmE] at h; have := eval_sim hΓ e h; rw [eval, eval]; sims
  | .call f args, h => by
    rw [calmE, Bool.and_eq_true] at h
    have h1 := evals_sim hΓ args h.2
    rw [eval, eval]
    exact .bind h1 fun vs => hΓ.run f h.1 vs
  | .callPtr e args, h => by
    simp only [calmE, Bool.and_eq_true] at h
    have h1 := eval_sim hΓ e h.1.2
    have h2 := evals_sim hΓ args h.2
    rw [eval, eval]
    exact .bind h1 fun p => .bindOf h2 fun vs hv => callVal_sim hΓ p vs ((evals_length args hv).trans (of_decide_eq_true h.1.1))
  | .mallocRec _ _, h => by cases h
  | .mallocBytes _, h => by cases h
  | .realloc _ _, h => by cases h
  | .memcmp a b n, h => by simp only [calmE, Bool.and_eq_true] at h; have := eval_sim hΓ a h.1.1; have := eval_sim hΓ b h.1.2; have := eval_sim hΓ n h.2; rw [eval, eval]; sims
  | .memcmpTab a _ n, h => by simp only [calmE, Bool.and_eq_true] at h; have := eval_sim hΓ a h.1; have := eval_sim hΓ n h.2; rw [eval, eval]; sims
  | .strlen e, h => by simp only [calmE] at h; have := eval_sim hΓ e h; rw [eval, eval]; sims
  | .assign _ _ e, h => by simp only [calmE] at h; have := eval_sim hΓ e h; rw [eval, eval]; sims
  | .fdHas d e, h => by simp only [calmE, Bool.and_eq_true] at h; have := eval_sim hΓ d h.1; have := eval_sim hΓ e h.2; rw [eval, eval]; sims
  | .read d p n, h => by simp only [calmE, Bool.and_eq_true] at h; have := eval_sim hΓ d h.1.1; have := eval_sim hΓ p h.1.2; have := eval_sim hΓ n h.2; rw [eval, eval]; sims
  | .write d p n, h => by simp only [calmE, Bool.and_eq_true] at h; have := eval_sim hΓ d h.1.1; have := eval_sim hΓ p h.1.2; have := eval_sim hΓ n h.2; rw [eval, eval]; sims
  | .errno, _ => by rw [eval, eval]; sims
  | .str _, _ => by rw [eval, eval]; sims
  | .strTab _ k, h => by simp only [calmE] at h; have := eval_sim hΓ k h; rw [eval, eval]; sims
  | .assignPtr _ e, h => by simp only [calmE] at h; have := eval_sim hΓ e h; rw [eval, eval]; sims
  | .flag _, _ => by rw [eval, eval]; sims
  | .toDbl e, h => by simp only [calmE] at h; have := eval_sim hΓ e h; rw [eval, eval]; sims
  | .mulDbl a b, h => by simp only [calmE, Bool.and_eq_true] at h; have := eval_sim hΓ a h.1; have := eval_sim hΓ b h.2; rw [eval, eval]; sims
  | .pow10 e, h => by simp only [calmE] at h; have := eval_sim hΓ e h; rw [eval, eval]; sims
  | .strcmp a b, h => by simp only [calmE, Bool.and_eq_true] at h; have := eval_sim hΓ a h.1; have := eval_sim hΓ b h.2; rw [eval, eval]; sims
  | .getopt n a _, h => by simp only [calmE, Bool.and_eq_true] at h; have := eval_sim hΓ n h.1; have := eval_sim hΓ a h.2; rw [eval, eval]; sims
  | .openFile e fl, h => by simp only [calmE, Bool.and_eq_true] at h; have := eval_sim hΓ e h.1; have := eval_sim hΓ fl h.2; rw [eval, eval]; sims

theorem evals_sim (hΓ : CallsSim S av Γ Γ') : (es : List Expr) → calmEs S es = true → Sim av (evals Γ es) (evals Γ' es)
  | [], _ => by rw [evals, evals]; sims
  | e :: es, h => by rw [calmEs, Bool.and_eq_true] at h; have := eval_sim hΓ e h.1; have := evals_sim hΓ es h.2; rw [evals, evals]; sims
end

theorem members_sim (hΓ : CallsSim S av Γ Γ') : (es : List (ITy × Expr)) → calmMembers S es = true → Sim av (evalMembers Γ es) (evalMembers Γ' es)
  | [], _ => by rw [evalMembers, evalMembers]; sims
  | (t, e) :: es, h => by
    rw [calmMembers, Bool.and_eq_true] at h
    have := eval_sim hΓ e h.1
    have := members_sim hΓ es h.2
    rw [evalMembers, evalMembers]
    sims

theorem whileLoop_sim {c c' : X Bool} {b b' s s' : X Out} (hc : Sim av c c') (hb : Sim av b b') (hs : Sim av s s') :
    (k : Nat) → Sim av (whileLoop c b s k) (whileLoop c' b' s' k)
  | 0 => .bad
  | k + 1 => by
    have ih := whileLoop_sim hc hb hs k
    rw [whileLoop, whileLoop]
    refine .bind hc fun x => .ite _ (.bind hb fun o => ?_) (.of (.pure _))
    cases o <;> first | exact .of (.pure _) | exact .bind hs fun _ => ih

theorem doLoop_sim {c c' : X Bool} {b b' : X Out} (hc : Sim av c c') (hb : Sim av b b') : (k : Nat) → Sim av (doLoop c b k) (doLoop c' b' k)
  | 0 => .bad
  | k + 1 => by
    have ih := doLoop_sim hc hb k
    rw [doLoop, doLoop]
    refine .bind hb fun o => ?_
    cases o <;> first | exact .of (.pure _) | exact .bind hc fun _ => .ite _ ih (.of (.pure _))

theorem behind_calm : (body : List Stmt) → calms S body = true → behind l body = some ss → calms S ss = true
  | [], _, h => by cases h
  | s :: body, hb, h => by
    rw [calms, Bool.and_eq_true] at hb
    have ih := behind_calm (S := S) (l := l) (ss := ss) body hb.2
    cases s <;> simp only [behind] at h <;> first | exact ih h | skip
    split at h
    · cases h; exact hb.2
    · exact ih h

mutual
theorem exec_sim (hΓ : CallsSim S av Γ Γ') (k : Nat) : (s : Stmt) → calmS S s = true → Sim av (exec Γ k s) (exec Γ' k s)
  | .expr e, h => by simp only [calmS] at h; have := eval_sim hΓ e h; rw [exec, exec]; sims
  | .set _ _ e, h => by simp only [calmS] at h; have := eval_sim hΓ e h; rw [exec, exec]; sims
  | .setPtr _ e, h => by simp only [calmS] at h; have := eval_sim hΓ e h; rw [exec, exec]; sims
  | .stPtr e _ v, h => by simp only [calmS, Bool.and_eq_true] at h; have := eval_sim hΓ e h.1; have := eval_sim hΓ v h.2; rw [exec, exec]; sims
  | .stInt _ e _ v, h => by simp only [calmS, Bool.and_eq_true] at h; have := eval_sim hΓ e h.1; have := eval_sim hΓ v h.2; rw [exec, exec]; sims
  | .stElem e k v, h => by simp only [calmS, Bool.and_eq_true] at h; have := eval_sim hΓ e h.1.1; have := eval_sim hΓ k h.1.2; have := eval_sim hΓ v h.2; rw [exec, exec]; sims
  | .stByte _ e k v, h => by simp only [calmS, Bool.and_eq_true] at h; have := eval_sim hΓ e h.1.1; have := eval_sim hΓ k h.1.2; have := eval_sim hΓ v h.2; rw [exec, exec]; sims
  | .stDeref _ e v, h => by simp only [calmS, Bool.and_eq_true] at h; have := eval_sim hΓ e h.1; have := eval_sim hΓ v h.2; rw [exec, exec]; sims
  | .stRec e ps is, h => by simp only [calmS, Bool.and_eq_true] at h; have := eval_sim hΓ e h.1.1; have := evals_sim hΓ ps h.1.2; have := members_sim hΓ is h.2; rw [exec, exec]; sims
  | .free e, h => by simp only [calmS] at h; have := eval_sim hΓ e h; rw [exec, exec]; sims
  | .memset d c n, h => by simp only [calmS, Bool.and_eq_true] at h; have := eval_sim hΓ d h.1.1; have := eval_sim hΓ c h.1.2; have := eval_sim hΓ n h.2; rw [exec, exec]; sims
  | .memcpy d s n, h => by simp only [calmS, Bool.and_eq_true] at h; have := eval_sim hΓ d h.1.1; have := eval_sim hΓ s h.1.2; have := eval_sim hΓ n h.2; rw [exec, exec]; sims
  | .memcpyTab d _ n, h => by simp only [calmS, Bool.and_eq_true] at h; have := eval_sim hΓ d h.1; have := eval_sim hΓ n h.2; rw [exec, exec]; sims
  | .print args, h => by simp only [calmS] at h; have := evals_sim hΓ args h; rw [exec, exec]; sims
  | .printf _ args, h => by simp only [calmS] at h; have := evals_sim hΓ args h; rw [exec, exec]; sims
  | .exit _, _ => by rw [exec, exec]; sims
  | .bytes _ n, h => by simp only [calmS] at h; have := eval_sim hΓ n h; rw [exec, exec]; sims
  | .obj _ ps _, h => by simp only [calmS] at h; have := evals_sim hΓ ps h; rw [exec, exec]; sims
  | .ptrVar _, _ => by rw [exec, exec]; sims
  | .fdVar _, _ => by rw [exec, exec]; sims
  | .fdZero e, h => by simp only [calmS] at h; have := eval_sim hΓ e h; rw [exec, exec]; sims
  | .fdAdd d e, h => by simp only [calmS, Bool.and_eq_true] at h; have := eval_sim hΓ d h.1; have := eval_sim hΓ e h.2; rw [exec, exec]; sims
  | .select n e, h => by simp only [calmS, Bool.and_eq_true] at h; have := eval_sim hΓ n h.1; have := eval_sim hΓ e h.2; rw [exec, exec]; sims
  | .uuid e, h => by simp only [calmS] at h; have := eval_sim hΓ e h; rw [exec, exec]; sims
  | .setFlag _ e, h => by simp only [calmS] at h; have := eval_sim hΓ e h; rw [exec, exec]; sims
  | .zeroRec e _, h => by simp only [calmS] at h; have := eval_sim hΓ e h; rw [exec, exec]; sims
  | .modemGet d p, h => by simp only [calmS, Bool.and_eq_true] at h; have := eval_sim hΓ d h.1; have := eval_sim hΓ p h.2; rw [exec, exec]; sims
  | .modemSet d p, h => by simp only [calmS, Bool.and_eq_true] at h; have := eval_sim hΓ d h.1; have := eval_sim hΓ p h.2; rw [exec, exec]; sims
  | .termGet d p, h => by simp only [calmS, Bool.and_eq_true] at h; have := eval_sim hΓ d h.1; have := eval_sim hΓ p h.2; rw [exec, exec]; sims
  | .termSet d p, h => by simp only [calmS, Bool.and_eq_true] at h; have := eval_sim hΓ d h.1; have := eval_sim hΓ p h.2; rw [exec, exec]; sims
  | .setSpeed p v, h => by simp only [calmS, Bool.and_eq_true] at h; have := eval_sim hΓ p h.1; have := eval_sim hΓ v h.2; rw [exec, exec]; sims
  | .close d, h => by simp only [calmS] at h; have := eval_sim hΓ d h; rw [exec, exec]; sims
  | .ite c a b, h => by simp only [calmS, Bool.and_eq_true] at h; have := eval_sim hΓ c h.1.1; have := execs_sim hΓ k a h.1.2; have := execs_sim hΓ k b h.2; rw [exec, exec]; sims
  | .loop c body step, h => by
    simp only [calmS, Bool.and_eq_true] at h
    have h1 := eval_sim hΓ c h.1.1
    rw [exec, exec]
    exact whileLoop_sim (.bind h1 fun _ => .of stays_truth) (execs_sim hΓ k body h.1.2) (execs_sim hΓ k step h.2) k
  | .doWhile body c, h => by
    simp only [calmS, Bool.and_eq_true] at h
    have h1 := eval_sim hΓ c h.2
    rw [exec, exec]
    exact doLoop_sim (.bind h1 fun _ => .of stays_truth) (execs_sim hΓ k body h.1) k
  | .switch e body, h => by
    simp only [calmS, Bool.and_eq_true] at h
    have h1 := eval_sim hΓ e h.1
    have h2 := fun v => execSwitch_sim hΓ k v body h.2
    rw [exec, exec]
    exact .bind h1 fun _ => .bind (.of stays_asInt) fun v => .bind (h2 _) fun _ => .of (.pure _)
  | .case _, _ => by rw [exec, exec]; sims
  | .dflt, _ => by rw [exec, exec]; sims
  | .brk, _ => by rw [exec, exec]; sims
  | .cont, _ => by rw [exec, exec]; sims
  | .ret e, h => by simp only [calmS] at h; have := eval_sim hΓ e h; rw [exec, exec]; sims
  | .retVoid, _ => by rw [exec, exec]; sims
  | .goto _, _ => by rw [exec, exec]; sims
  | .label _, _ => by rw [exec, exec]; sims

theorem execs_sim (hΓ : CallsSim S av Γ Γ') (k : Nat) : (ss : List Stmt) → calms S ss = true → Sim av (execs Γ k ss) (execs Γ' k ss)
  | [], _ => by rw [execs, execs]; sims
  | s :: ss, h => by
    rw [calms, Bool.and_eq_true, Bool.or_eq_true] at h
    have h2 := execs_sim hΓ k ss h.2
    rcases h.1 with h1 | h1
    · have h1 := exec_sim hΓ k s h1
      rw [execs, execs]
      refine .bind h1 fun o => ?_
      cases o <;> first | exact h2 | exact .of (.pure _)
    · exact allocThen_sim hΓ.rich hΓ.avail h1 h2

theorem execSwitch_sim (hΓ : CallsSim S av Γ Γ') (k : Nat) (v : Option Int) : (ss : List Stmt) → calms S ss = true → Sim av (execSwitch Γ k v ss) (execSwitch Γ' k v ss)
  | [], _ => by rw [execSwitch, execSwitch]; sims
  | s :: ss, h => by
    rw [calms, Bool.and_eq_true] at h
    have h1 := execs_sim hΓ k ss h.2
    have h2 := execSwitch_sim hΓ k v ss h.2
    cases s <;> simp only [execSwitch] <;> first | exact h2 | exact .ite _ h1 h2
end

theorem runFrom_sim (hΓ : CallsSim S av Γ Γ') (k : Nat) (body : List Stmt) (hb : calms S body = true) : (g : Nat) → (ss : List Stmt) → calms S ss = true →
    Sim av (runFrom Γ k body g ss) (runFrom Γ' k body g ss)
  | 0, _, _ => .bad
  | g + 1, ss, h => by
    rw [runFrom, runFrom]
    refine .bind (execs_sim hΓ k ss h) fun o => ?_
    cases o with
    | goto l =>
      simp only
      cases hl : behind l body with
      | none => exact .bad
      | some ss' => exact runFrom_sim hΓ k body hb g ss' (behind_calm body hb hl)
    | _ => exact .of (.pure _)

theorem inFrame_sim {x y : X Val} (h : Sim av x y) (vs : List Val) : Sim av (inFrame vs x) (inFrame vs y) := by
  refine ⟨fun env m a env' m' ht e => ?_⟩
  unfold inFrame at e ⊢
  cases hx : x (envOf vs) m with
  | bad b => rw [hx] at e; cases e
  | ok v e1 m1 =>
    rw [hx] at e
    cases e
    obtain ⟨t1, l1, k1, n1⟩ := h.run _ _ _ _ _ ht hx
    exact ⟨⟨t1.pos, t1.none⟩, l1, fun ha => by rw [k1 ha], fun hn => by rw [n1 hn]⟩

/-- A set of functions that only call each other, and to which all functions of one parameter that are called through pointers belong. -/
structure CalmProg (prog : Fn → FunDef) (S : Fn → Bool) : Prop where
  text : ∀ f, S f = true → calms S (prog f).body = true
  ptr : ∀ f, f.byPtr = true → (prog f).params.length = 1 → S f = true

theorem bindArgs_length : (ts : List (Option ITy)) → (vs : List Val) → bindArgs ts vs env m = .ok ws env' m' → ts.length = vs.length := by
  intro ts vs
  fun_induction bindArgs ts vs generalizing env m ws env' m' with
  | case1 => intro _; rfl
  | case2 t ts v vs ih =>
    intro h
    replace h := X_bind_eq_ok h
    obtain ⟨w, e1, m1, h1, h⟩ := h
    replace h := X_bind_eq_ok h
    obtain ⟨ws, e2, m2, h2, h⟩ := h
    rw [List.length_cons, List.length_cons, ih h2]
  | case3 => intro h; cases h

theorem calls_sim (hC : CalmProg prog S) (av : Nat → Bool) : (n : Nat) → CallsSim S av (call prog n) (scarce prog av n)
  | 0 => ⟨fun _ _ _ => .bad, fun _ _ _ => .bad, rfl, rfl⟩
  | n + 1 => by
    have ih := calls_sim hC av n
    have run : ∀ f, S f = true → ∀ vs, Sim av (call prog (n + 1) f vs) (scarce prog av (n + 1) f vs) := by
      intro f hf vs
      change Sim av (runFun (call prog n) n (prog f) vs) (runFun (scarce prog av n) n (prog f) vs)
      unfold runFun
      exact .bind (.of (stays_bindArgs _ _)) fun ws => .bind (inFrame_sim (runFrom_sim ih n _ (hC.text f hf) n _ (hC.text f hf)) _) fun v => .of stays_resultOf
    refine ⟨run, fun f hf v => ?_, rfl, rfl⟩
    by_cases h1 : (prog f).params.length = 1
    · exact run f (hC.ptr f hf h1) [v]
    · refine ⟨fun env m a env' m' ht e => ?_⟩
      change runFun (call prog n) n (prog f) [v] env m = _ at e
      unfold runFun at e
      obtain ⟨ws, e1, m1, h2, _⟩ := X_bind_eq_ok e
      exact absurd (bindArgs_length _ _ h2) h1

/-- A call of such a function. -/
theorem calm_call (hC : CalmProg prog S) (hf : S f = true) (ht : Tidy m) (h : call prog n f vs env m = .ok v env' m') (av : Nat → Bool) :
    Tidy m' ∧ m.next ≤ m'.next ∧ (AllMet av m.next m'.next → scarce prog av n f vs env m = .ok v env' m') ∧
      (¬ AllMet av m.next m'.next → scarce prog av n f vs env m = .bad .null) :=
  ((calls_sim hC av n).run f hf vs).run _ _ _ _ _ ht h

end Sml.C
