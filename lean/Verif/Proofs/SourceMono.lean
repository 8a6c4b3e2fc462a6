import Verif.Proofs.SourceNum

/-!
# More fuel changes nothing

A run of the C source that does not run out of fuel ends in the same way with more fuel for nested calls and loops: with the same
result, or with the same undefined step. So a loop is the same as one round followed by the loop.
-/

namespace Sml.C

/-- Unless `x` runs out of fuel, `y` ends in the same way. -/
def XLe (x y : X α) : Prop := ∀ env m, x env m = .bad (.buf .fuel) ∨ y env m = x env m

theorem XLe.refl (x : X α) : XLe x x := fun _ _ => .inr rfl

theorem XLe.ok {x y : X α} (h : XLe x y) (e : x env m = .ok a env' m') : y env m = .ok a env' m' := by
  rcases h env m with h | h
  · rw [e] at h
    cases h
  · rw [h, e]

theorem X_bind_eq_ok {x : X α} {f : α → X β} (h : (x >>= f) env m = .ok b env' m') :
    ∃ a env1 m1, x env m = .ok a env1 m1 ∧ f a env1 m1 = .ok b env' m' := by
  rw [X_bind] at h
  cases hx : x env m with
  | bad r => rw [hx] at h; cases h
  | ok a env1 m1 => rw [hx] at h; exact ⟨a, env1, m1, rfl, h⟩

theorem XLe.bind {x y : X α} {f g : α → X β} (h : XLe x y) (hf : ∀ a, XLe (f a) (g a)) : XLe (x >>= f) (y >>= g) := by
  intro env m
  rw [X_bind, X_bind]
  rcases h env m with h | h
  · rw [h]
    exact .inl rfl
  · rw [h]
    cases x env m with
    | bad r => exact .inr rfl
    | ok a env1 m1 => exact hf a env1 m1

theorem XLe.ite {x y x' y' : X α} (c : Prop) [Decidable c] (h : XLe x x') (h' : XLe y y') : XLe (if c then x else y) (if c then x' else y') := by
  split <;> assumption

theorem XLe.bad {y : X α} : XLe (C.bad (.buf .fuel)) y := fun _ _ => .inl rfl

structure CallsLe (Γ Γ' : Calls) : Prop where
  run : ∀ f vs, XLe (Γ f vs) (Γ' f vs)
  avail : Γ.avail = Γ'.avail

theorem room_le (h : CallsLe Γ Γ') : XLe (room Γ) (room Γ') := by
  intro env m
  rw [room, room, h.avail]
  exact .inr rfl

theorem callVal_le (h : CallsLe Γ Γ') (p : Val) (vs : List Val) : XLe (callVal Γ p vs) (callVal Γ' p vs) := by
  unfold callVal
  cases p <;> first | exact XLe.ite _ (h.run _ _) (.refl _) | exact XLe.refl _

macro "xle" : tactic => `(tactic| repeat (first | exact XLe.refl _ | assumption | apply XLe.bind | apply XLe.ite | intro _))

mutual
theorem eval_le (h : CallsLe Γ Γ') : (e : Expr) → XLe (eval Γ e) (eval Γ' e)
  | .lit _ _ => by rw [eval, eval]; exact .refl _
  | .null => by rw [eval, eval]; exact .refl _
  | .fn _ => by rw [eval, eval]; exact .refl _
  | .var _ => by rw [eval, eval]; exact .refl _
  | .ldPtr e _ => by have := eval_le h e; rw [eval, eval]; xle
  | .ldInt _ e _ => by have := eval_le h e; rw [eval, eval]; xle
  | .ldFn e _ => by have := eval_le h e; rw [eval, eval]; xle
  | .elem e k => by have := eval_le h e; have := eval_le h k; rw [eval, eval]; xle
  | .byte _ e k => by have := eval_le h e; have := eval_le h k; rw [eval, eval]; xle
  | .deref _ e => by have := eval_le h e; rw [eval, eval]; xle
  | .addr e k => by have := eval_le h e; have := eval_le h k; rw [eval, eval]; xle
  | .addrPtr e _ => by have := eval_le h e; rw [eval, eval]; xle
  | .tab _ _ k => by have := eval_le h k; rw [eval, eval]; xle
  | .compl e => by have := eval_le h e; rw [eval, eval]; xle
  | .neg e => by have := eval_le h e; rw [eval, eval]; xle
  | .not e => by have := eval_le h e; rw [eval, eval]; xle
  | .bin _ a b => by have := eval_le h a; have := eval_le h b; rw [eval, eval]; xle
  | .and a b => by have := eval_le h a; have := eval_le h b; rw [eval, eval]; xle
  | .or a b => by have := eval_le h a; have := eval_le h b; rw [eval, eval]; xle
  | .cond c a b => by have := eval_le h c; have := eval_le h a; have := eval_le h b; rw [eval, eval]; xle
  | .cast _ e => by have := eval_le h e; rw [eval, eval]; xle
  | .incVar _ _ _ => by rw [eval, eval]; exact .refl _
  | .incPtr _ => by rw [eval, eval]; exact .refl _
  | .incMem _ e _ => by have := eval_le h e; rw [eval, eval]; xle
  | .call f args => by have := evals_le h args; rw [eval, eval]; exact .bind this fun vs => h.run f vs
  | .callPtr e args => by
    have h1 := eval_le h e
    have h2 := evals_le h args
    rw [eval, eval]
    exact .bind h1 fun p => .bind h2 fun vs => callVal_le h p vs
  | .mallocRec _ _ => by have := room_le h; rw [eval, eval]; xle
  | .mallocBytes n => by have := room_le h; have := eval_le h n; rw [eval, eval]; xle
  | .realloc e n => by have := room_le h; have := eval_le h e; have := eval_le h n; rw [eval, eval]; xle
  | .memcmp a b n => by have := eval_le h a; have := eval_le h b; have := eval_le h n; rw [eval, eval]; xle
  | .memcmpTab a _ n => by have := eval_le h a; have := eval_le h n; rw [eval, eval]; xle
  | .strlen e => by have := eval_le h e; rw [eval, eval]; xle
  | .assign _ _ e => by have := eval_le h e; rw [eval, eval]; xle
  | .fdHas d e => by have := eval_le h d; have := eval_le h e; rw [eval, eval]; xle
  | .read d p n => by have := eval_le h d; have := eval_le h p; have := eval_le h n; rw [eval, eval]; xle
  | .write d p n => by have := eval_le h d; have := eval_le h p; have := eval_le h n; rw [eval, eval]; xle
  | .errno => by rw [eval, eval]; exact .refl _
  | .str _ => by rw [eval, eval]; exact .refl _
  | .strTab _ k => by have := eval_le h k; rw [eval, eval]; xle
  | .assignPtr _ e => by have := eval_le h e; rw [eval, eval]; xle
  | .flag _ => by rw [eval, eval]; exact .refl _
  | .toDbl e => by have := eval_le h e; rw [eval, eval]; xle
  | .mulDbl a b => by have := eval_le h a; have := eval_le h b; rw [eval, eval]; xle
  | .pow10 e => by have := eval_le h e; rw [eval, eval]; xle
  | .strcmp a b => by have := eval_le h a; have := eval_le h b; rw [eval, eval]; xle
  | .getopt n a _ => by have := eval_le h n; have := eval_le h a; rw [eval, eval]; xle
  | .openFile e fl => by have := eval_le h e; have := eval_le h fl; rw [eval, eval]; xle

theorem evals_le (h : CallsLe Γ Γ') : (es : List Expr) → XLe (evals Γ es) (evals Γ' es)
  | [] => by rw [evals, evals]; exact .refl _
  | e :: es => by have := eval_le h e; have := evals_le h es; rw [evals, evals]; xle
end

theorem evalMembers_le (h : CallsLe Γ Γ') : (es : List (ITy × Expr)) → XLe (evalMembers Γ es) (evalMembers Γ' es)
  | [] => by rw [evalMembers, evalMembers]; exact .refl _
  | (_, e) :: es => by have := eval_le h e; have := evalMembers_le h es; rw [evalMembers, evalMembers]; xle

theorem whileLoop_le {c c' : X Bool} {b b' s s' : X Out} (hc : XLe c c') (hb : XLe b b') (hs : XLe s s') :
    (k k' : Nat) → k ≤ k' → XLe (whileLoop c b s k) (whileLoop c' b' s' k')
  | 0, _, _ => .bad
  | k + 1, k' + 1, hk => by
    have ih := whileLoop_le hc hb hs k k' (by omega)
    rw [whileLoop, whileLoop]
    refine .bind hc fun x => .ite _ (.bind hb fun o => ?_) (.refl _)
    cases o <;> first | exact .refl _ | exact .bind hs fun _ => ih

theorem doLoop_le {c c' : X Bool} {b b' : X Out} (hc : XLe c c') (hb : XLe b b') :
    (k k' : Nat) → k ≤ k' → XLe (doLoop c b k) (doLoop c' b' k')
  | 0, _, _ => .bad
  | k + 1, k' + 1, hk => by
    have ih := doLoop_le hc hb k k' (by omega)
    rw [doLoop, doLoop]
    refine .bind hb fun o => ?_
    cases o <;> first | exact .refl _ | exact .bind hc fun _ => .ite _ ih (.refl _)

mutual
theorem exec_le (h : CallsLe Γ Γ') (hk : k ≤ k') : (s : Stmt) → XLe (exec Γ k s) (exec Γ' k' s)
  | .expr e => by have := eval_le h e; rw [exec, exec]; xle
  | .set _ _ e => by have := eval_le h e; rw [exec, exec]; xle
  | .setPtr _ e => by have := eval_le h e; rw [exec, exec]; xle
  | .stPtr e _ v => by have := eval_le h e; have := eval_le h v; rw [exec, exec]; xle
  | .stInt _ e _ v => by have := eval_le h e; have := eval_le h v; rw [exec, exec]; xle
  | .stElem e i v => by have := eval_le h e; have := eval_le h v; have := eval_le h i; rw [exec, exec]; xle
  | .stByte _ e i v => by have := eval_le h e; have := eval_le h v; have := eval_le h i; rw [exec, exec]; xle
  | .stDeref _ e v => by have := eval_le h e; have := eval_le h v; rw [exec, exec]; xle
  | .stRec e ps is => by have := eval_le h e; have := evals_le h ps; have := evalMembers_le h is; rw [exec, exec]; xle
  | .free e => by have := eval_le h e; rw [exec, exec]; xle
  | .memset d c n => by have := eval_le h d; have := eval_le h c; have := eval_le h n; rw [exec, exec]; xle
  | .memcpy d c n => by have := eval_le h d; have := eval_le h c; have := eval_le h n; rw [exec, exec]; xle
  | .memcpyTab d _ n => by have := eval_le h d; have := eval_le h n; rw [exec, exec]; xle
  | .print args => by have := evals_le h args; rw [exec, exec]; xle
  | .printf _ args => by have := evals_le h args; rw [exec, exec]; xle
  | .exit _ => by rw [exec, exec]; exact .refl _
  | .ptrVar _ => by rw [exec, exec]; exact .refl _
  | .bytes _ n => by have := eval_le h n; rw [exec, exec]; xle
  | .obj _ ps _ => by have := evals_le h ps; rw [exec, exec]; xle
  | .fdVar _ => by rw [exec, exec]; exact .refl _
  | .fdZero e => by have := eval_le h e; rw [exec, exec]; xle
  | .fdAdd d e => by have := eval_le h d; have := eval_le h e; rw [exec, exec]; xle
  | .select n e => by have := eval_le h n; have := eval_le h e; rw [exec, exec]; xle
  | .uuid e => by have := eval_le h e; rw [exec, exec]; xle
  | .setFlag _ e => by have := eval_le h e; rw [exec, exec]; xle
  | .zeroRec e _ => by have := eval_le h e; rw [exec, exec]; xle
  | .modemGet d p => by have := eval_le h d; have := eval_le h p; rw [exec, exec]; xle
  | .modemSet d p => by have := eval_le h d; have := eval_le h p; rw [exec, exec]; xle
  | .termGet d p => by have := eval_le h d; have := eval_le h p; rw [exec, exec]; xle
  | .termSet d p => by have := eval_le h d; have := eval_le h p; rw [exec, exec]; xle
  | .setSpeed p v => by have := eval_le h p; have := eval_le h v; rw [exec, exec]; xle
  | .close d => by have := eval_le h d; rw [exec, exec]; xle
  | .ite c a b => by have := eval_le h c; have := execs_le h hk a; have := execs_le h hk b; rw [exec, exec]; xle
  | .loop c b s => by
    have h1 := eval_le h c
    rw [exec, exec]
    exact whileLoop_le (.bind h1 fun _ => .refl _) (execs_le h hk b) (execs_le h hk s) k k' hk
  | .doWhile b c => by
    have h1 := eval_le h c
    rw [exec, exec]
    exact doLoop_le (.bind h1 fun _ => .refl _) (execs_le h hk b) k k' hk
  | .switch e b => by
    have h1 := eval_le h e
    have h2 := fun v => execSwitch_le h hk v b
    rw [exec, exec]
    exact .bind h1 fun _ => .bind (.refl _) fun v => .bind (h2 _) fun _ => .refl _
  | .case _ => by rw [exec, exec]; exact .refl _
  | .dflt => by rw [exec, exec]; exact .refl _
  | .brk => by rw [exec, exec]; exact .refl _
  | .cont => by rw [exec, exec]; exact .refl _
  | .ret e => by have := eval_le h e; rw [exec, exec]; xle
  | .retVoid => by rw [exec, exec]; exact .refl _
  | .goto _ => by rw [exec, exec]; exact .refl _
  | .label _ => by rw [exec, exec]; exact .refl _

theorem execs_le (h : CallsLe Γ Γ') (hk : k ≤ k') : (ss : List Stmt) → XLe (execs Γ k ss) (execs Γ' k' ss)
  | [] => by rw [execs, execs]; exact .refl _
  | s :: ss => by
    have h1 := exec_le h hk s
    have h2 := execs_le h hk ss
    rw [execs, execs]
    refine .bind h1 fun o => ?_
    cases o <;> first | exact h2 | exact .refl _

theorem execSwitch_le (h : CallsLe Γ Γ') (hk : k ≤ k') (v : Option Int) : (ss : List Stmt) → XLe (execSwitch Γ k v ss) (execSwitch Γ' k' v ss)
  | [] => by rw [execSwitch, execSwitch]; exact .refl _
  | s :: ss => by
    have h1 := execs_le h hk ss
    have h2 := execSwitch_le h hk v ss
    cases s <;> simp only [execSwitch] <;> first | exact h2 | exact .ite _ h1 h2
end

theorem runFrom_le (h : CallsLe Γ Γ') (hk : k ≤ k') (body : List Stmt) : (g g' : Nat) → g ≤ g' → (ss : List Stmt) →
    XLe (runFrom Γ k body g ss) (runFrom Γ' k' body g' ss)
  | 0, _, _, _ => .bad
  | g + 1, g' + 1, hg, ss => by
    rw [runFrom, runFrom]
    refine .bind (execs_le h hk ss) fun o => ?_
    cases o with
    | goto l =>
      simp only
      cases behind l body with
      | none => exact .refl _
      | some ss' => exact runFrom_le h hk body g g' (by omega) ss'
    | _ => exact .refl _

theorem inFrame_le {x y : X Val} (h : XLe x y) (vs : List Val) : XLe (inFrame vs x) (inFrame vs y) := by
  intro env m
  unfold inFrame
  rcases h (envOf vs) m with h | h
  · rw [h]
    exact .inl rfl
  · rw [h]
    exact .inr rfl

theorem callIn_le (prog : Fn → FunDef) (av : Nat → Bool) : (n n' : Nat) → n ≤ n' → CallsLe (scarce prog av n) (scarce prog av n')
  | 0, _, _ => ⟨fun _ _ => .bad, rfl⟩
  | n + 1, n' + 1, hn => by
    have ih := callIn_le prog av n n' (by omega)
    refine ⟨fun f vs => ?_, rfl⟩
    change XLe (runFun (scarce prog av n) _ _ _) (runFun (scarce prog av n') _ _ _)
    unfold runFun
    exact .bind (.refl _) fun ws => .bind (inFrame_le (runFrom_le ih (by omega) _ _ _ (by omega) _) _) fun v => .refl _

theorem call_le (prog : Fn → FunDef) (n n' : Nat) (h : n ≤ n') : CallsLe (call prog n) (call prog n') := callIn_le prog _ n n' h

end Sml.C
