import Verif.Proofs.SourceMono

/-!
# Loops and switches of the C source

A loop whose body has no `break` or `continue` is the same as a test, a round and the loop; a `switch` is the same as the
statements behind the label up to `break`.
-/

namespace Sml.C

/-- All ends of `x` have the property. -/
def Outs (U : Out → Prop) (x : X Out) : Prop := ∀ env m o env' m', x env m = .ok o env' m' → U o

theorem Outs.bind {x : X α} {f : α → X Out} (h : ∀ a, Outs U (f a)) : Outs U (x >>= f) := by
  intro env m o env' m' hr
  obtain ⟨a, env1, m1, _, e2⟩ := X_bind_eq_ok hr
  exact h a _ _ _ _ _ e2

theorem Outs.bindOut {x : X Out} {f : Out → X Out} (hx : Outs Q x) (h : ∀ a, Q a → Outs U (f a)) : Outs U (x >>= f) := by
  intro env m o env' m' hr
  obtain ⟨a, env1, m1, e1, e2⟩ := X_bind_eq_ok hr
  exact h a (hx _ _ _ _ _ e1) _ _ _ _ _ e2

theorem Outs.pure (h : U o) : Outs U (pure o : X Out) := by
  intro env m o' env' m' hr
  cases hr
  exact h

theorem Outs.ite {x y : X Out} (c : Prop) [Decidable c] (h : Outs U x) (h' : Outs U y) : Outs U (if c then x else y) := by
  split <;> assumption

/-- Neither `break` nor `continue`. -/
def Out.leaves : Out → Prop
  | .brk => False
  | .cont => False
  | _ => True

mutual
/-- No `break` or `continue` outside of loops. -/
def noBrk : Stmt → Bool
  | .ite _ a b => noBrks a && noBrks b
  | .brk => false
  | .cont => false
  | .switch _ _ => false
  | _ => true

def noBrks : List Stmt → Bool
  | [] => true
  | s :: ss => noBrk s && noBrks ss
end

theorem whileLoop_leaves {c : X Bool} {b s : X Out} : (k : Nat) → Outs Out.leaves (whileLoop c b s k)
  | 0 => fun _ _ _ _ _ h => by cases h
  | k + 1 => by
    have ih := whileLoop_leaves (c := c) (b := b) (s := s) k
    rw [whileLoop]
    refine .bind fun x => .ite _ (.bind fun o => ?_) (.pure trivial)
    cases o <;> first | exact .pure trivial | exact .bind fun _ => ih

theorem doLoop_leaves {c : X Bool} {b : X Out} : (k : Nat) → Outs Out.leaves (doLoop c b k)
  | 0 => fun _ _ _ _ _ h => by cases h
  | k + 1 => by
    have ih := doLoop_leaves (c := c) (b := b) k
    rw [doLoop]
    refine .bind fun o => ?_
    cases o <;> first | exact .pure trivial | exact .bind fun _ => .ite _ ih (.pure trivial)

mutual
theorem exec_leaves (Γ : Calls) (k : Nat) : (s : Stmt) → noBrk s = true → Outs Out.leaves (exec Γ k s)
  | .ite c a b, h => by
    rw [noBrk, Bool.and_eq_true] at h
    have h1 := execs_leaves Γ k a h.1
    have h2 := execs_leaves Γ k b h.2
    rw [exec]
    exact .bind fun _ => .bind fun _ => .ite _ h1 h2
  | .brk, h => by cases h
  | .cont, h => by cases h
  | .switch _ _, h => by cases h
  | .loop _ _ _, _ => by rw [exec]; exact whileLoop_leaves _
  | .doWhile _ _, _ => by rw [exec]; exact doLoop_leaves _
  | .expr _, _ => by rw [exec]; exact .bind fun _ => .pure trivial
  | .set _ _ _, _ => by rw [exec]; exact .bind fun _ => .bind fun _ => .bind fun _ => .pure trivial
  | .setPtr _ _, _ => by rw [exec]; exact .bind fun _ => .bind fun _ => .pure trivial
  | .stPtr _ _ _, _ => by rw [exec]; exact .bind fun _ => .bind fun _ => .bind fun _ => .pure trivial
  | .stInt _ _ _ _, _ => by rw [exec]; exact .bind fun _ => .bind fun _ => .bind fun _ => .bind fun _ => .pure trivial
  | .stElem _ _ _, _ => by rw [exec]; exact .bind fun _ => .bind fun _ => .bind fun _ => .bind fun _ => .bind fun _ => .pure trivial
  | .stByte _ _ _ _, _ => by rw [exec]; exact .bind fun _ => .bind fun _ => .bind fun _ => .bind fun _ => .bind fun _ => .bind fun _ => .bind fun _ => .pure trivial
  | .stDeref _ _ _, _ => by rw [exec]; exact .bind fun _ => .bind fun _ => .bind fun _ => .bind fun _ => .pure trivial
  | .stRec _ _ _, _ => by rw [exec]; exact .bind fun _ => .bind fun _ => .bind fun _ => .bind fun _ => .pure trivial
  | .free _, _ => by rw [exec]; exact .bind fun _ => .bind fun _ => .pure trivial
  | .memset _ _ _, _ => by rw [exec]; exact .bind fun _ => .bind fun _ => .bind fun _ => .bind fun _ => .bind fun _ => .bind fun _ => .bind fun _ => .pure trivial
  | .memcpy _ _ _, _ => by rw [exec]; exact .bind fun _ => .bind fun _ => .bind fun _ => .bind fun _ => .bind fun _ => .bind fun _ => .bind fun _ => .pure trivial
  | .memcpyTab _ _ _, _ => by rw [exec]; exact .bind fun _ => .bind fun _ => .bind fun _ => .bind fun _ => .bind fun _ => .bind fun _ => .pure trivial
  | .print _, _ => by rw [exec]; exact .bind fun _ => .pure trivial
  | .printf _ _, _ => by rw [exec]; exact .bind fun _ => .bind fun _ => .bind fun _ => .pure trivial
  | .exit _, _ => by rw [exec]; exact fun _ _ _ _ _ h => by cases h
  | .ptrVar _, _ => by rw [exec]; exact .bind fun _ => .bind fun _ => .pure trivial
  | .bytes _ _, _ => by rw [exec]; exact .bind fun _ => .bind fun _ => .bind fun _ => .bind fun _ => .pure trivial
  | .obj _ _ _, _ => by rw [exec]; exact .bind fun _ => .bind fun _ => .bind fun _ => .pure trivial
  | .fdVar _, _ => by rw [exec]; exact .bind fun _ => .bind fun _ => .pure trivial
  | .fdZero _, _ => by rw [exec]; exact .bind fun _ => .bind fun _ => .pure trivial
  | .fdAdd _ _, _ => by rw [exec]; exact .bind fun _ => .bind fun _ => .bind fun _ => .bind fun _ => .pure trivial
  | .select _ _, _ => by rw [exec]; exact .bind fun _ => .bind fun _ => .bind fun _ => .bind fun _ => .pure trivial
  | .uuid _, _ => by rw [exec]; exact .bind fun _ => .bind fun _ => .pure trivial
  | .setFlag _ _, _ => by rw [exec]; exact .bind fun _ => .bind fun _ => .bind fun _ => .pure trivial
  | .zeroRec _ _, _ => by rw [exec]; exact .bind fun _ => .bind fun _ => .pure trivial
  | .modemGet _ _, _ => by rw [exec]; exact .bind fun _ => .bind fun _ => .bind fun _ => .bind fun _ => .pure trivial
  | .modemSet _ _, _ => by rw [exec]; exact .bind fun _ => .bind fun _ => .bind fun _ => .bind fun _ => .pure trivial
  | .termGet _ _, _ => by rw [exec]; exact .bind fun _ => .bind fun _ => .bind fun _ => .bind fun _ => .pure trivial
  | .termSet _ _, _ => by rw [exec]; exact .bind fun _ => .bind fun _ => .bind fun _ => .bind fun _ => .pure trivial
  | .setSpeed _ _, _ => by rw [exec]; exact .bind fun _ => .bind fun _ => .bind fun _ => .bind fun _ => .pure trivial
  | .close _, _ => by rw [exec]; exact .bind fun _ => .bind fun _ => .bind fun _ => .pure trivial
  | .case _, _ => by rw [exec]; exact .pure trivial
  | .dflt, _ => by rw [exec]; exact .pure trivial
  | .ret _, _ => by rw [exec]; exact .bind fun _ => .pure trivial
  | .retVoid, _ => by rw [exec]; exact .pure trivial
  | .goto _, _ => by rw [exec]; exact .pure trivial
  | .label _, _ => by rw [exec]; exact .pure trivial

theorem execs_leaves (Γ : Calls) (k : Nat) : (ss : List Stmt) → noBrks ss = true → Outs Out.leaves (execs Γ k ss)
  | [], _ => by rw [execs]; exact .pure trivial
  | s :: ss, h => by
    rw [noBrks, Bool.and_eq_true] at h
    have h1 := exec_leaves Γ k s h.1
    have h2 := execs_leaves Γ k ss h.2
    rw [execs]
    refine .bindOut h1 fun o ho => ?_
    cases o <;> first | exact h2 | exact .pure ho
end

/-- Statements that only continue with the next: assignments. -/
def simples : List Stmt → Bool
  | [] => true
  | .set _ _ _ :: ss => simples ss
  | .setPtr _ _ :: ss => simples ss
  | _ => false

theorem execs_simples (Γ : Calls) (k : Nat) : (ss : List Stmt) → simples ss = true → Outs (· = .next) (execs Γ k ss)
  | [], _ => by rw [execs]; exact .pure rfl
  | .set t x e :: ss, h => by
    have h2 := execs_simples Γ k ss h
    rw [execs, exec]
    refine .bindOut (Q := (· = .next)) (.bind fun _ => .bind fun _ => .bind fun _ => .pure rfl) fun o ho => ?_
    subst ho
    exact h2
  | .setPtr x e :: ss, h => by
    have h2 := execs_simples Γ k ss h
    rw [execs, exec]
    refine .bindOut (Q := (· = .next)) (.bind fun _ => .bind fun _ => .pure rfl) fun o ho => ?_
    subst ho
    exact h2

theorem execs_append_eq_ok {A B : List Stmt} (h : execs Γ k (A ++ B) env m = .ok o env' m') :
    (execs Γ k A env m = .ok o env' m' ∧ o ≠ .next) ∨ ∃ env1 m1, execs Γ k A env m = .ok .next env1 m1 ∧ execs Γ k B env1 m1 = .ok o env' m' := by
  rw [execs_append] at h
  cases hA : execs Γ k A env m with
  | bad b => rw [hA] at h; cases h
  | ok o1 env1 m1 =>
    rw [hA] at h
    cases o1 with
    | next => exact .inr ⟨_, _, rfl, h⟩
    | _ => cases h; exact .inl ⟨rfl, by intro h; cases h⟩

theorem execs_one {s : Stmt} : execs Γ k [s] env m = exec Γ k s env m := by
  rw [execs, X_bind]
  cases exec Γ k s env m with
  | bad b => rfl
  | ok o env1 m1 => cases o <;> rfl

/-- A loop from its first round. -/
theorem exec_unroll {b s : List Stmt} (hb : noBrks b = true) (hs : simples s = true) (n : Nat)
    (h : exec (call program n) n (.ite c (b ++ (s ++ [.loop c b s])) []) env m = .ok o env' m') :
    exec (call program (n + 1)) (n + 1) (.loop c b s) env m = .ok o env' m' := by
  have hΓ := call_le program n (n + 1) (by omega)
  rw [exec] at h
  rw [exec]
  obtain ⟨v, env1, m1, e1, h⟩ := X_bind_eq_ok h
  obtain ⟨x, env2, m2, e2, h⟩ := X_bind_eq_ok h
  rw [whileLoop, X_bind_ok ((X_bind_ok ((eval_le hΓ c).ok e1)).trans e2)]
  cases x with
  | false =>
    simp only [Bool.false_eq_true, if_false, execs] at h ⊢
    exact h
  | true =>
    simp only [if_true] at h ⊢
    rcases execs_append_eq_ok h with ⟨h1, ho⟩ | ⟨env3, m3, h1, h⟩
    · rw [X_bind_ok ((execs_le hΓ (by omega) b).ok h1)]
      have hl := execs_leaves _ _ b hb _ _ _ _ _ h1
      cases o <;> first | exact absurd rfl ho | exact hl.elim | rfl
    · rw [X_bind_ok ((execs_le hΓ (by omega) b).ok h1)]
      rcases execs_append_eq_ok h with ⟨h1, ho⟩ | ⟨env4, m4, h1, h⟩
      · exact absurd (execs_simples _ _ s hs _ _ _ _ _ h1) ho
      · simp only
        rw [X_bind_ok ((execs_le hΓ (by omega) s).ok h1)]
        rw [execs_one, exec] at h
        exact (whileLoop_le (.bind (eval_le hΓ c) fun _ => .refl _) (execs_le hΓ (by omega) b) (execs_le hΓ (by omega) s) n n (by omega)).ok h

theorem exec_unrollDo {b : List Stmt} (hb : noBrks b = true) (n : Nat)
    (h : execs (call program n) n (b ++ [.ite c [.doWhile b c] []]) env m = .ok o env' m') :
    exec (call program (n + 1)) (n + 1) (.doWhile b c) env m = .ok o env' m' := by
  have hΓ := call_le program n (n + 1) (by omega)
  rw [exec, doLoop]
  rcases execs_append_eq_ok h with ⟨h1, ho⟩ | ⟨env3, m3, h1, h⟩
  · rw [X_bind_ok ((execs_le hΓ (by omega) b).ok h1)]
    have hl := execs_leaves _ _ b hb _ _ _ _ _ h1
    cases o <;> first | exact absurd rfl ho | exact hl.elim | rfl
  · rw [X_bind_ok ((execs_le hΓ (by omega) b).ok h1)]
    rw [execs_one, exec] at h
    obtain ⟨v, env1, m1, e1, h⟩ := X_bind_eq_ok h
    obtain ⟨x, env2, m2, e2, h⟩ := X_bind_eq_ok h
    simp only
    rw [X_bind_ok ((X_bind_ok ((eval_le hΓ c).ok e1)).trans e2)]
    cases x with
    | false =>
      simp only [Bool.false_eq_true, if_false, execs] at h ⊢
      exact h
    | true =>
      simp only [if_true] at h ⊢
      rw [execs_one, exec] at h
      exact (doLoop_le (.bind (eval_le hΓ c) fun _ => .refl _) (execs_le hΓ (by omega) b) n n (by omega)).ok h

/-- The statements a `switch` runs. -/
def pickFrom (v : Option Int) : List Stmt → List Stmt
  | [] => []
  | .case n :: ss => if v = some n then ss else pickFrom v ss
  | .dflt :: ss => if v = none then ss else pickFrom v ss
  | _ :: ss => pickFrom v ss

def pick (v : Int) (cs : List Stmt) : List Stmt := pickFrom (if hasCase v cs then some v else none) cs

theorem execSwitch_pick (Γ : Calls) (k : Nat) (v : Option Int) (cs : List Stmt) : execSwitch Γ k v cs = execs Γ k (pickFrom v cs) := by
  induction cs with
  | nil => rw [execSwitch, pickFrom, execs]
  | cons s ss ih =>
    cases s <;> simp only [execSwitch, pickFrom] <;> first | exact ih | (split <;> first | rfl | exact ih)

/-- `A` are the statements up to `break`, or to the end. -/
def UpToBreak (A cs : List Stmt) : Prop := noBrks A = true ∧ (cs = A ∨ ∃ R, cs = A ++ .brk :: R)

theorem exec_switch (ha : UpToBreak A (pick v cs)) (he : eval Γ e env m = .ok (.int t v) env1 m1) (h : execs Γ k A env1 m1 = .ok o env' m') :
    exec Γ k (.switch e cs) env m = .ok o env' m' := by
  rw [exec, X_bind_ok he, X_bind_ok asInt_int, execSwitch_pick]
  have hl := execs_leaves _ _ A ha.1 _ _ _ _ _ h
  change ((execs Γ k (pick v cs) >>= _ : X Out)) _ _ = _
  rcases ha.2 with h1 | ⟨R, h1⟩
  · rw [h1, X_bind_ok h]
    cases o <;> first | exact hl.elim | rfl
  · rw [h1, X_bind, execs_append, h]
    cases o <;> first | exact hl.elim | rfl

/-! ## In front of other statements -/

theorem run_eq_ok (h : runFrom Γ k body g ss env m = .ok v env' m') :
    ∃ g', g = g' + 1 ∧ ∃ o env1 m1, execs Γ k ss env m = .ok o env1 m1 ∧
      (match o with
      | .ret v => pure v
      | .goto l =>
        match behind l body with
        | some ss' => runFrom Γ k body g' ss'
        | none => bad .kind
      | _ => pure .undef : X Val) env1 m1 = .ok v env' m' := by
  cases g with
  | zero => cases h
  | succ g' =>
    rw [runFrom] at h
    obtain ⟨o, env1, m1, e1, h⟩ := X_bind_eq_ok h
    exact ⟨g', rfl, o, env1, m1, e1, h⟩

/-- From runs of the statements to a run of others that do the same. -/
theorem run_of_execs (hx : ∀ o env1 m1, execs (call program n) n ss env m = .ok o env1 m1 → execs (call program n') n' ss' env m = .ok o env1 m1)
    (hn : n ≤ n') (hg : g ≤ g') (h : runFrom (call program n) n body g ss env m = .ok v env' m') :
    runFrom (call program n') n' body g' ss' env m = .ok v env' m' := by
  obtain ⟨g1, rfl, o, env1, m1, e1, h⟩ := run_eq_ok h
  obtain ⟨g', rfl⟩ : ∃ j, g' = j + 1 := ⟨g' - 1, by omega⟩
  rw [runFrom, X_bind_ok (hx _ _ _ e1)]
  cases o with
  | goto l =>
    simp only at h ⊢
    cases hb : behind l body with
    | none => rw [hb] at h; cases h
    | some ss' =>
      rw [hb] at h
      exact (runFrom_le (call_le program n n' hn) hn body g1 g' (by omega) ss').ok h
  | _ => exact h

theorem execs_cons_eq_ok {s : Stmt} (h : execs Γ k (s :: ss) env m = .ok o env' m') :
    (exec Γ k s env m = .ok o env' m' ∧ o ≠ .next) ∨ ∃ env1 m1, exec Γ k s env m = .ok .next env1 m1 ∧ execs Γ k ss env1 m1 = .ok o env' m' := by
  have := execs_append_eq_ok (A := [s]) (B := ss) h
  rwa [execs_one] at this

theorem execs_cons_of {s : Stmt} (h : (exec Γ k s env m = .ok o env' m' ∧ o ≠ .next) ∨
    ∃ env1 m1, exec Γ k s env m = .ok .next env1 m1 ∧ execs Γ k ss env1 m1 = .ok o env' m') : execs Γ k (s :: ss) env m = .ok o env' m' := by
  rcases h with ⟨h1, ho⟩ | ⟨env1, m1, h1, h2⟩
  · rw [execs, X_bind_ok h1]
    cases o <;> first | exact absurd rfl ho | rfl
  · rw [execs, X_bind_ok h1]
    exact h2

theorem execs_replace {A : List Stmt} {s : Stmt} (hn : n ≤ n')
    (hx : ∀ o env1 m1, execs (call program n) n A env m = .ok o env1 m1 → exec (call program n') n' s env m = .ok o env1 m1)
    (h : execs (call program n) n (A ++ ss) env m = .ok o env' m') : execs (call program n') n' (s :: ss) env m = .ok o env' m' := by
  refine execs_cons_of ?_
  rcases execs_append_eq_ok h with ⟨h1, ho⟩ | ⟨env1, m1, h1, h2⟩
  · exact .inl ⟨hx _ _ _ h1, ho⟩
  · exact .inr ⟨_, _, hx _ _ _ h1, (execs_le (call_le program n n' hn) hn ss).ok h2⟩

/-- One run is enough. -/
theorem RunTo.of_one (h : runFrom (call program n) n body g ss env m = .ok v env' m') : RunTo body ss env m v m' :=
  ⟨max n g, fun n' hn g' hg => ⟨env', (runFrom_le (call_le program n n' (by omega)) (by omega) body g g' (by omega) ss).ok h⟩⟩

theorem RunTo.loop {b s : List Stmt} (hb : noBrks b = true) (hs : simples s = true)
    (h : RunTo body (.ite c (b ++ (s ++ [.loop c b s])) [] :: ss) env m v m') : RunTo body (.loop c b s :: ss) env m v m' := by
  obtain ⟨N, h⟩ := h
  obtain ⟨env', h⟩ := h N (by omega) N (by omega)
  refine .of_one (n := N + 1) (g := N) (env' := env') (run_of_execs (fun o env1 m1 hx => ?_) (by omega) (by omega) h)
  exact execs_replace (A := [_]) (by omega) (fun o env1 m1 h => exec_unroll hb hs N (by rwa [execs_one] at h)) hx

theorem RunTo.doWhile {b : List Stmt} (hb : noBrks b = true)
    (h : RunTo body (b ++ (.ite c [.doWhile b c] [] :: ss)) env m v m') : RunTo body (.doWhile b c :: ss) env m v m' := by
  obtain ⟨N, h⟩ := h
  obtain ⟨env', h⟩ := h N (by omega) N (by omega)
  refine .of_one (n := N + 1) (g := N) (env' := env') (run_of_execs (fun o env1 m1 hx => ?_) (by omega) (by omega) h)
  exact execs_replace (A := b ++ [_]) (by omega) (fun o env1 m1 h => exec_unrollDo hb N h) (by rw [List.append_assoc]; exact hx)

theorem RunTo.switch (ha : UpToBreak A (pick k cs)) (he : EvalTo e env m (.int t k) env1 m1) (h : RunTo body (A ++ ss) env1 m1 v m') :
    RunTo body (.switch e cs :: ss) env m v m' := by
  obtain ⟨N1, he⟩ := he
  obtain ⟨N, h⟩ := h
  obtain ⟨env', h⟩ := h (max N N1) (by omega) N (by omega)
  obtain ⟨g1, rfl, o, env2, m2, e1, h⟩ := run_eq_ok h
  have : execs (call program (max (g1 + 1) N1)) (max (g1 + 1) N1) (.switch e cs :: ss) env m = .ok o env2 m2 := by
    refine execs_cons_of ?_
    rcases execs_append_eq_ok e1 with ⟨h1, ho⟩ | ⟨env3, m3, h1, h2⟩
    · exact .inl ⟨exec_switch ha (he _ (by omega)) h1, ho⟩
    · exact .inr ⟨_, _, exec_switch ha (he _ (by omega)) h1, h2⟩
  refine .of_one (n := max (g1 + 1) N1) (g := g1 + 1) (env' := env') ?_
  rw [runFrom, X_bind_ok this]
  exact h

theorem Sem.run (hk : Sem K body ss env pre p vl post) (hi : Inv K st h) (hp : pre st) (hr : p st h = .ok b st' h') :
    Inv K st' h' ∧ post b st' ∧ RunTo body ss env (conc K st h) (vl b) (conc K st' h') := hk st h hi hp b st' h' hr

theorem Sem.loop {b s : List Stmt} (hb : noBrks b = true) (hs : simples s = true)
    (hk : Sem K body (.ite c (b ++ (s ++ [.loop c b s])) [] :: ss) env pre p vl post) : Sem K body (.loop c b s :: ss) env pre p vl post := by
  intro st h hi hp r st' h' hr
  obtain ⟨i1, q1, r1⟩ := hk.run hi hp hr
  exact ⟨i1, q1, RunTo.loop hb hs r1⟩

theorem Sem.doWhile {b : List Stmt} (hb : noBrks b = true)
    (hk : Sem K body (b ++ (.ite c [.doWhile b c] [] :: ss)) env pre p vl post) : Sem K body (.doWhile b c :: ss) env pre p vl post := by
  intro st h hi hp r st' h' hr
  obtain ⟨i1, q1, r1⟩ := hk.run hi hp hr
  exact ⟨i1, q1, RunTo.doWhile hb r1⟩

theorem ESem.ev (hx : ESem K e env pre p vl post) (hi : Inv K st h) (hp : pre st) (hr : p st h = .ok b st' h') :
    Inv K st' h' ∧ post b st' ∧ EvalTo e env (conc K st h) (vl b) env (conc K st' h') := hx st h hi hp b st' h' hr

theorem Sem.switch {vn : α → Val} {k : α → P β} {ty : α → ITy} {iv : α → Int} (hx : ESem K e env pre p vn post)
    (hv : ∀ b, vn b = .int (ty b) (iv b))
    (hk : ∀ b, ∃ A, UpToBreak A (pick (iv b) cs) ∧ Sem K body (A ++ ss) env (post b) (k b) vl post') :
    Sem K body (.switch e cs :: ss) env pre (p >>= k) vl post' := by
  intro st h hi hp b st' h' hr
  obtain ⟨a, st1, h1, e1, e2⟩ := P_bind_eq_ok hr
  obtain ⟨i1, q1, r1⟩ := hx.ev hi hp e1
  obtain ⟨A, ha, hs⟩ := hk a
  obtain ⟨i2, q2, r2⟩ := hs.run i1 q1 e2
  rw [hv] at r1
  exact ⟨i2, q2, RunTo.switch ha r1 r2⟩

end Sml.C
