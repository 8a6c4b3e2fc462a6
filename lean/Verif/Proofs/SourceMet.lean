import Verif.Proofs.SourceAsk

/-!
# Runs whose requests for memory are all met

They are the same as with enough memory, for every function.
-/

namespace Sml.C

/-- When `x` has a result and all requests on the way are met, `y` has the same result. -/
structure Met (av : Nat → Bool) (x y : X α) : Prop where
  run : ∀ env m a env' m', x env m = .ok a env' m' → m.next ≤ m'.next ∧ (AllMet av m.next m'.next → y env m = .ok a env' m')

theorem Met.of {x : X α} (h : Stays x) : Met av x x :=
  ⟨fun _ _ _ _ _ e => ⟨by rw [(h.run _ _ _ _ _ e).1]; exact Nat.le_refl _, fun _ => e⟩⟩

theorem Met.bad {y : X α} : Met av (C.bad b) y := ⟨fun _ _ _ _ _ e => by cases e⟩

theorem Met.bind {x y : X α} {f g : α → X β} (h : Met av x y) (hf : ∀ a, Met av (f a) (g a)) : Met av (x >>= f) (y >>= g) := by
  refine ⟨fun env m b env' m' e => ?_⟩
  obtain ⟨a, e1, m1, h1, h2⟩ := X_bind_eq_ok e
  obtain ⟨l1, k1⟩ := h.run _ _ _ _ _ h1
  obtain ⟨l2, k2⟩ := (hf a).run _ _ _ _ _ h2
  refine ⟨by omega, fun hall => ?_⟩
  obtain ⟨a1, a2⟩ := (AllMet.split l1 l2).mp hall
  rw [X_bind_ok (k1 a1)]
  exact k2 a2

theorem Met.ite {x y x' y' : X α} (c : Prop) [Decidable c] (h : Met av x x') (h' : Met av y y') : Met av (if c then x else y) (if c then x' else y') := by
  split <;> assumption

macro "mets" : tactic => `(tactic| repeat' (first | assumption | with_reducible apply Met.bind | with_reducible apply Met.ite | (with_reducible refine Met.of ?_; first | exact Stays.pure _ | exact Stays.bad _ | stays1) | intro _))

structure CallsMet (av : Nat → Bool) (Γ Γ' : Calls) : Prop where
  run : ∀ f vs, Met av (Γ f vs) (Γ' f vs)
  rich : Γ.avail = fun _ => true
  avail : Γ'.avail = av

theorem callVal_met (hΓ : CallsMet av Γ Γ') (p : Val) (vs : List Val) : Met av (callVal Γ p vs) (callVal Γ' p vs) := by
  unfold callVal
  cases p with
  | fn f =>
    simp only
    by_cases hf : f.byPtr = true
    · rw [if_pos hf, if_pos hf]
      exact hΓ.run f vs
    · rw [if_neg hf, if_neg hf]
      exact .bad
  | _ => exact .bad

theorem newHeap_next (h : newHeap b env m = .ok v env' m') : m'.next = m.next + 1 := by cases h; rfl

theorem reallocBlock_next (h : reallocBlock p k env m = .ok v env' m') : m'.next = m.next + 1 := by
  unfold reallocBlock at h
  replace h := X_bind_eq_ok h
  obtain ⟨⟨l, i⟩, e1, m1, h1, h⟩ := h
  obtain ⟨rfl, rfl, rfl⟩ := asPtr_eq_ok h1
  cases l with
  | stack k => cases h
  | heap a =>
    simp only at h
    by_cases h0 : a = 0
    · rw [if_pos h0] at h
      exact newHeap_next h
    · rw [if_neg h0] at h
      replace h := X_bind_eq_ok h
      obtain ⟨ps, e3, m3, h3, h⟩ := h
      have hm : m3 = m1 := by
        unfold movedElems at h3
        split at h3
        · split at h3 <;> cases h3
          rfl
        · cases h3
        · cases h3
      replace h := X_bind_eq_ok h
      obtain ⟨q, e4, m4, h4, h⟩ := h
      replace h := X_bind_eq_ok h
      obtain ⟨u, e5, m5, h5, h⟩ := h
      cases h
      have h6 := newHeap_next h4
      unfold release at h5
      split at h5
      · split at h5 <;> cases h5
        rw [← hm]
        exact h6
      · cases h5

theorem room_met {Γ Γ' : Calls} {x z z' : X Val} (hΓ : CallsMet av Γ Γ') (hx : ∀ {env m v env' m'}, x env m = .ok v env' m' → m'.next = m.next + 1) :
    Met av (do let r ← room Γ; if r then x else z) (do let r ← room Γ'; if r then x else z') := by
  refine ⟨fun env m a env' m' e => ?_⟩
  rw [X_bind_ok (room_rich hΓ.rich)] at e
  have e' : x env m = .ok a env' m' := e
  have hn := hx e'
  refine ⟨by omega, fun hall => ?_⟩
  have : room Γ' env m = .ok true env m := by
    unfold room
    rw [hΓ.avail, hall _ (Nat.le_refl _) (by omega)]
    rfl
  rw [X_bind_ok this]
  exact e

mutual
theorem eval_met (hΓ : CallsMet av Γ Γ') : (e : Expr) → Met av (eval Γ e) (eval Γ' e)
  | .lit _ _ => by rw [eval, eval]; mets
  | .null => by rw [eval, eval]; mets
  | .fn _ => by rw [eval, eval]; mets
  | .var _ => by rw [eval, eval]; mets
  | .ldPtr e _ => by have := eval_met hΓ e; rw [eval, eval]; mets
  | .ldInt _ e _ => by have := eval_met hΓ e; rw [eval, eval]; mets
  | .ldFn e _ => by have := eval_met hΓ e; rw [eval, eval]; mets
  | .elem e k => by have := eval_met hΓ e; have := eval_met hΓ k; rw [eval, eval]; mets
  | .byte _ e k => by have := eval_met hΓ e; have := eval_met hΓ k; rw [eval, eval]; mets
  | .deref _ e => by have := eval_met hΓ e; rw [eval, eval]; mets
  | .addr e k => by have := eval_met hΓ e; have := eval_met hΓ k; rw [eval, eval]; mets
  | .addrPtr e _ => by have := eval_met hΓ e; rw [eval, eval]; mets
  | .tab _ _ k => by have := eval_met hΓ k; rw [eval, eval]; mets
  | .compl e => by have := eval_met hΓ e; rw [eval, eval]; mets
  | .neg e => by have := eval_met hΓ e; rw [eval, eval]; mets
  | .not e => by have := eval_met hΓ e; rw [eval, eval]; mets
  | .bin _ a b => by have := eval_met hΓ a; have := eval_met hΓ b; rw [eval, eval]; mets
  | .and a b => by have := eval_met hΓ a; have := eval_met hΓ b; rw [eval, eval]; mets
  | .or a b => by have := eval_met hΓ a; have := eval_met hΓ b; rw [eval, eval]; mets
  | .cond c a b => by have := eval_met hΓ c; have := eval_met hΓ a; have := eval_met hΓ b; rw [eval, eval]; mets
  | .cast _ e => by have := eval_met hΓ e; rw [eval, eval]; mets
  | .incVar _ _ _ => by rw [eval, eval]; mets
  | .incPtr _ => by rw [eval, eval]; mets
  | .incMem _ e _ => by have := eval_met hΓ e; rw [eval, eval]; mets
  | .call f args => by
    have h1 := evals_met hΓ args
    rw [eval, eval]
    exact .bind h1 fun vs => hΓ.run f vs
  | .callPtr e args => by
    have h1 := eval_met hΓ e
    have h2 := evals_met hΓ args
    rw [eval, eval]
    exact .bind h1 fun p => .bind h2 fun vs => callVal_met hΓ p vs
  | .mallocRec _ _ => by rw [eval, eval]; exact room_met hΓ newHeap_next
  | .mallocBytes n => by
    have h1 := eval_met hΓ n
    rw [eval, eval]
    exact .bind h1 fun _ => .bind (.of stays_asNat) fun _ => room_met hΓ newHeap_next
  | .realloc e n => by
    have h1 := eval_met hΓ e
    have h2 := eval_met hΓ n
    rw [eval, eval]
    exact .bind h1 fun _ => .bind h2 fun _ => .bind (.of stays_asNat) fun _ => room_met hΓ reallocBlock_next
  | .memcmp a b n => by have := eval_met hΓ a; have := eval_met hΓ b; have := eval_met hΓ n; rw [eval, eval]; mets
  | .memcmpTab a _ n => by have := eval_met hΓ a; have := eval_met hΓ n; rw [eval, eval]; mets
  | .strlen e => by have := eval_met hΓ e; rw [eval, eval]; mets
  | .assign _ _ e => by have := eval_met hΓ e; rw [eval, eval]; mets
  | .fdHas d e => by have := eval_met hΓ d; have := eval_met hΓ e; rw [eval, eval]; mets
  | .read d p n => by have := eval_met hΓ d; have := eval_met hΓ p; have := eval_met hΓ n; rw [eval, eval]; mets
  | .write d p n => by have := eval_met hΓ d; have := eval_met hΓ p; have := eval_met hΓ n; rw [eval, eval]; mets
  | .errno => by rw [eval, eval]; mets
  | .str _ => by rw [eval, eval]; mets
  | .strTab _ k => by have := eval_met hΓ k; rw [eval, eval]; mets
  | .assignPtr _ e => by have := eval_met hΓ e; rw [eval, eval]; mets
  | .flag _ => by rw [eval, eval]; mets
  | .toDbl e => by have := eval_met hΓ e; rw [eval, eval]; mets
  | .mulDbl a b => by have := eval_met hΓ a; have := eval_met hΓ b; rw [eval, eval]; mets
  | .pow10 e => by have := eval_met hΓ e; rw [eval, eval]; mets
  | .strcmp a b => by have := eval_met hΓ a; have := eval_met hΓ b; rw [eval, eval]; mets
  | .getopt n a _ => by have := eval_met hΓ n; have := eval_met hΓ a; rw [eval, eval]; mets
  | .openFile e fl => by have := eval_met hΓ e; have := eval_met hΓ fl; rw [eval, eval]; mets

theorem evals_met (hΓ : CallsMet av Γ Γ') : (es : List Expr) → Met av (evals Γ es) (evals Γ' es)
  | [] => by rw [evals, evals]; mets
  | e :: es => by have := eval_met hΓ e; have := evals_met hΓ es; rw [evals, evals]; mets
end

theorem members_met (hΓ : CallsMet av Γ Γ') : (es : List (ITy × Expr)) → Met av (evalMembers Γ es) (evalMembers Γ' es)
  | [] => by rw [evalMembers, evalMembers]; mets
  | (t, e) :: es => by have := eval_met hΓ e; have := members_met hΓ es; rw [evalMembers, evalMembers]; mets

theorem whileLoop_met {c c' : X Bool} {b b' s s' : X Out} (hc : Met av c c') (hb : Met av b b') (hs : Met av s s') :
    (k : Nat) → Met av (whileLoop c b s k) (whileLoop c' b' s' k)
  | 0 => .bad
  | k + 1 => by
    have ih := whileLoop_met hc hb hs k
    rw [whileLoop, whileLoop]
    refine .bind hc fun x => .ite _ (.bind hb fun o => ?_) (.of (.pure _))
    cases o <;> first | exact .of (.pure _) | exact .bind hs fun _ => ih

theorem doLoop_met {c c' : X Bool} {b b' : X Out} (hc : Met av c c') (hb : Met av b b') : (k : Nat) → Met av (doLoop c b k) (doLoop c' b' k)
  | 0 => .bad
  | k + 1 => by
    have ih := doLoop_met hc hb k
    rw [doLoop, doLoop]
    refine .bind hb fun o => ?_
    cases o <;> first | exact .of (.pure _) | exact .bind hc fun _ => .ite _ ih (.of (.pure _))

mutual
theorem exec_met (hΓ : CallsMet av Γ Γ') (k : Nat) : (s : Stmt) → Met av (exec Γ k s) (exec Γ' k s)
  | .expr e => by have := eval_met hΓ e; rw [exec, exec]; mets
  | .set _ _ e => by have := eval_met hΓ e; rw [exec, exec]; mets
  | .setPtr _ e => by have := eval_met hΓ e; rw [exec, exec]; mets
  | .stPtr e _ v => by have := eval_met hΓ e; have := eval_met hΓ v; rw [exec, exec]; mets
  | .stInt _ e _ v => by have := eval_met hΓ e; have := eval_met hΓ v; rw [exec, exec]; mets
  | .stElem e k v => by have := eval_met hΓ e; have := eval_met hΓ k; have := eval_met hΓ v; rw [exec, exec]; mets
  | .stByte _ e k v => by have := eval_met hΓ e; have := eval_met hΓ k; have := eval_met hΓ v; rw [exec, exec]; mets
  | .stDeref _ e v => by have := eval_met hΓ e; have := eval_met hΓ v; rw [exec, exec]; mets
  | .stRec e ps is => by have := eval_met hΓ e; have := evals_met hΓ ps; have := members_met hΓ is; rw [exec, exec]; mets
  | .free e => by have := eval_met hΓ e; rw [exec, exec]; mets
  | .memset d c n => by have := eval_met hΓ d; have := eval_met hΓ c; have := eval_met hΓ n; rw [exec, exec]; mets
  | .memcpy d s n => by have := eval_met hΓ d; have := eval_met hΓ s; have := eval_met hΓ n; rw [exec, exec]; mets
  | .memcpyTab d _ n => by have := eval_met hΓ d; have := eval_met hΓ n; rw [exec, exec]; mets
  | .print args => by have := evals_met hΓ args; rw [exec, exec]; mets
  | .printf _ args => by have := evals_met hΓ args; rw [exec, exec]; mets
  | .exit _ => by rw [exec, exec]; mets
  | .bytes _ n => by have := eval_met hΓ n; rw [exec, exec]; mets
  | .obj _ ps _ => by have := evals_met hΓ ps; rw [exec, exec]; mets
  | .ptrVar _ => by rw [exec, exec]; mets
  | .fdVar _ => by rw [exec, exec]; mets
  | .fdZero e => by have := eval_met hΓ e; rw [exec, exec]; mets
  | .fdAdd d e => by have := eval_met hΓ d; have := eval_met hΓ e; rw [exec, exec]; mets
  | .select n e => by have := eval_met hΓ n; have := eval_met hΓ e; rw [exec, exec]; mets
  | .uuid e => by have := eval_met hΓ e; rw [exec, exec]; mets
  | .setFlag _ e => by have := eval_met hΓ e; rw [exec, exec]; mets
  | .zeroRec e _ => by have := eval_met hΓ e; rw [exec, exec]; mets
  | .modemGet d p => by have := eval_met hΓ d; have := eval_met hΓ p; rw [exec, exec]; mets
  | .modemSet d p => by have := eval_met hΓ d; have := eval_met hΓ p; rw [exec, exec]; mets
  | .termGet d p => by have := eval_met hΓ d; have := eval_met hΓ p; rw [exec, exec]; mets
  | .termSet d p => by have := eval_met hΓ d; have := eval_met hΓ p; rw [exec, exec]; mets
  | .setSpeed p v => by have := eval_met hΓ p; have := eval_met hΓ v; rw [exec, exec]; mets
  | .close d => by have := eval_met hΓ d; rw [exec, exec]; mets
  | .ite c a b => by have := eval_met hΓ c; have := execs_met hΓ k a; have := execs_met hΓ k b; rw [exec, exec]; mets
  | .loop c body step => by
    have h1 := eval_met hΓ c
    rw [exec, exec]
    exact whileLoop_met (.bind h1 fun _ => .of stays_truth) (execs_met hΓ k body) (execs_met hΓ k step) k
  | .doWhile body c => by
    have h1 := eval_met hΓ c
    rw [exec, exec]
    exact doLoop_met (.bind h1 fun _ => .of stays_truth) (execs_met hΓ k body) k
  | .switch e body => by
    have h1 := eval_met hΓ e
    have h2 := fun v => execSwitch_met hΓ k v body
    rw [exec, exec]
    exact .bind h1 fun _ => .bind (.of stays_asInt) fun v => .bind (h2 _) fun _ => .of (.pure _)
  | .case _ => by rw [exec, exec]; mets
  | .dflt => by rw [exec, exec]; mets
  | .brk => by rw [exec, exec]; mets
  | .cont => by rw [exec, exec]; mets
  | .ret e => by have := eval_met hΓ e; rw [exec, exec]; mets
  | .retVoid => by rw [exec, exec]; mets
  | .goto _ => by rw [exec, exec]; mets
  | .label _ => by rw [exec, exec]; mets

theorem execs_met (hΓ : CallsMet av Γ Γ') (k : Nat) : (ss : List Stmt) → Met av (execs Γ k ss) (execs Γ' k ss)
  | [] => by rw [execs, execs]; mets
  | s :: ss => by
    have h1 := exec_met hΓ k s
    have h2 := execs_met hΓ k ss
    rw [execs, execs]
    refine .bind h1 fun o => ?_
    cases o <;> first | exact h2 | exact .of (.pure _)

theorem execSwitch_met (hΓ : CallsMet av Γ Γ') (k : Nat) (v : Option Int) : (ss : List Stmt) → Met av (execSwitch Γ k v ss) (execSwitch Γ' k v ss)
  | [] => by rw [execSwitch, execSwitch]; mets
  | s :: ss => by
    have h1 := execs_met hΓ k ss
    have h2 := execSwitch_met hΓ k v ss
    cases s <;> simp only [execSwitch] <;> first | exact h2 | exact .ite _ h1 h2
end

theorem runFrom_met (hΓ : CallsMet av Γ Γ') (k : Nat) (body : List Stmt) : (g : Nat) → (ss : List Stmt) → Met av (runFrom Γ k body g ss) (runFrom Γ' k body g ss)
  | 0, _ => .bad
  | g + 1, ss => by
    rw [runFrom, runFrom]
    refine .bind (execs_met hΓ k ss) fun o => ?_
    cases o with
    | goto l =>
      simp only
      cases behind l body with
      | none => exact .bad
      | some ss' => exact runFrom_met hΓ k body g ss'
    | _ => exact .of (.pure _)

theorem inFrame_met {x y : X Val} (h : Met av x y) (vs : List Val) : Met av (inFrame vs x) (inFrame vs y) := by
  refine ⟨fun env m a env' m' e => ?_⟩
  unfold inFrame at e ⊢
  cases hx : x (envOf vs) m with
  | bad b => rw [hx] at e; cases e
  | ok v e1 m1 =>
    rw [hx] at e
    cases e
    obtain ⟨l1, k1⟩ := h.run _ _ _ _ _ hx
    exact ⟨l1, fun ha => by rw [k1 ha]⟩

theorem calls_met (prog : Fn → FunDef) (av : Nat → Bool) : (n : Nat) → CallsMet av (call prog n) (scarce prog av n)
  | 0 => ⟨fun _ _ => .bad, rfl, rfl⟩
  | n + 1 => by
    have ih := calls_met prog av n
    refine ⟨fun f vs => ?_, rfl, rfl⟩
    change Met av (runFun (call prog n) n (prog f) vs) (runFun (scarce prog av n) n (prog f) vs)
    unfold runFun
    exact .bind (.of (stays_bindArgs _ _)) fun ws => .bind (inFrame_met (runFrom_met ih n _ n _) _) fun v => .of stays_resultOf

end Sml.C
