import Verif.Proofs.SourceBad
import Verif.Proofs.SourceWriteSeq

/-!
# The write functions at the end of the buffer, run from their source

Where the model of a write function leaves the buffer, so does its C source: with a write outside of the array, or with the read of
`buf->buffer[buf->cursor] |= ...` outside of it.
-/

namespace Sml.C

/-- The step is an access outside of an array. -/
def Outside (b : Bad) : Prop := b = .buf .oobRead ∨ b = .buf .oobWrite

theorem Outside.read : Outside (.buf .oobRead) := .inl rfl
theorem Outside.write : Outside (.buf .oobWrite) := .inr rfl

theorem Outside.ne (h : Outside b) : b ≠ .buf .fuel := by
  rcases h with rfl | rfl <;> exact fun h => nomatch h

def EvalOut (e : Expr) (env : Env) (m : Mem) : Prop := ∃ b, Outside b ∧ EvalBad e env m b
def ExecOut (s : Stmt) (env : Env) (m : Mem) : Prop := ∃ b, Outside b ∧ ExecBad s env m b
def RunOut (ss : List Stmt) (env : Env) (m : Mem) : Prop := ∃ b, Outside b ∧ ExecsBad ss env m b
/-- With enough fuel the call leaves an array. -/
def CallOut (f : Fn) (vs : List Val) (m : Mem) : Prop := ∃ b, Outside b ∧ CallBad f vs m b

/-! ## Rules -/

theorem XLe.isBad {x y : X α} (h : XLe x y) (e : x env m = .bad b) (hb : Outside b) : y env m = .bad b := by
  rcases h env m with h | h
  · rw [e] at h
    cases h
    exact absurd rfl hb.ne
  · rw [h, e]

theorem ExecsBad.of_one (hb : Outside b) (h : execs (call program n) n ss env m = .bad b) : ExecsBad ss env m b :=
  ⟨n, fun n' hn => (execs_le (call_le program n n' hn) hn ss).isBad h hb⟩

theorem RunOut.head (h : ExecOut s env m) : RunOut (s :: ss) env m := by
  obtain ⟨b, hb, h⟩ := h
  exact ⟨b, hb, .head h⟩

theorem RunOut.cons (hs : ExecTo s env m .next env1 m1) (h : RunOut ss env1 m1) : RunOut (s :: ss) env m := by
  obtain ⟨b, hb, h⟩ := h
  exact ⟨b, hb, .tail hs h⟩

theorem ExecOut.expr (h : EvalOut e env m) : ExecOut (.expr e) env m := by
  obtain ⟨b, hb, h⟩ := h
  exact ⟨b, hb, .expr h⟩

theorem EvalOut.call (ha : EvalsTo es env m vs env' m1) (h : CallOut f vs m1) : EvalOut (.call f es) env m := by
  obtain ⟨b, hb, h⟩ := h
  exact ⟨b, hb, .call ha h⟩

theorem EvalOut.callPtr (hf : EvalTo e env m (.fn f) env1 m1) (ha : EvalsTo es env1 m1 vs env' m2) (h : CallOut f vs m2)
    (ht : f.byPtr = true := by first | rfl | assumption) : EvalOut (.callPtr e es) env m := by
  obtain ⟨b, hb, h⟩ := h
  exact ⟨b, hb, .callPtr hf ha h⟩

theorem CallOut.of {f : Fn} (hb : ∀ env m, bindArgs (program f).params args env m = .ok vs env m) (h : RunOut (program f).body (envOf vs) m) : CallOut f args m := by
  obtain ⟨b, ho, h⟩ := h
  exact ⟨b, ho, .of hb h⟩

theorem RunOut.ite {A B : List Stmt} (hc : EvalTo c env m v env m1) (ht : truth v env m1 = .ok b env m1)
    (h : RunOut ((if b then A else B) ++ ss) env m1) : RunOut (.ite c A B :: ss) env m := by
  obtain ⟨N, r⟩ := hc
  obtain ⟨x, hx, N2, r2⟩ := h
  refine ⟨x, hx, max N N2, fun n hn => ?_⟩
  rw [exec_ite_aux _ _ b A B ss env m1 ((X_bind_ok (r n (by omega))).trans ht)]
  exact r2 n (by omega)

theorem X_bind_eq_bad {x : X α} {f : α → X β} (h : (x >>= f) env m = .bad r) :
    x env m = .bad r ∨ ∃ a env1 m1, x env m = .ok a env1 m1 ∧ f a env1 m1 = .bad r := by
  rw [X_bind] at h
  cases hx : x env m with
  | bad r' => rw [hx] at h; cases h; exact .inl rfl
  | ok a env1 m1 => rw [hx] at h; exact .inr ⟨a, env1, m1, rfl, h⟩

theorem execs_append_eq_bad {A B : List Stmt} (h : execs Γ k (A ++ B) env m = .bad r) :
    execs Γ k A env m = .bad r ∨ ∃ env1 m1, execs Γ k A env m = .ok .next env1 m1 ∧ execs Γ k B env1 m1 = .bad r := by
  rw [execs_append] at h
  cases hA : execs Γ k A env m with
  | bad b => rw [hA] at h; cases h; exact .inl rfl
  | ok o1 env1 m1 =>
    rw [hA] at h
    cases o1 with
    | next => exact .inr ⟨_, _, rfl, h⟩
    | _ => cases h

theorem exec_unroll_bad {b s : List Stmt} (ho : Outside r) (n : Nat)
    (h : exec (call program n) n (.ite c (b ++ (s ++ [.loop c b s])) []) env m = .bad r) :
    exec (call program (n + 1)) (n + 1) (.loop c b s) env m = .bad r := by
  have hΓ := call_le program n (n + 1) (by omega)
  rw [exec] at h
  rw [exec, whileLoop]
  rcases X_bind_eq_bad h with h | ⟨v, env1, m1, e1, h⟩
  · exact X_bad (X_bad ((eval_le hΓ c).isBad h ho))
  rcases X_bind_eq_bad h with h | ⟨x, env2, m2, e2, h⟩
  · exact X_bad ((X_bind_ok ((eval_le hΓ c).ok e1)).trans h)
  rw [X_bind_ok ((X_bind_ok ((eval_le hΓ c).ok e1)).trans e2)]
  cases x with
  | false =>
    simp only [Bool.false_eq_true, if_false, execs] at h
    cases h
  | true =>
    simp only [if_true] at h ⊢
    rcases execs_append_eq_bad h with h1 | ⟨env3, m3, h1, h⟩
    · exact X_bad ((execs_le hΓ (by omega) b).isBad h1 ho)
    · rw [X_bind_ok ((execs_le hΓ (by omega) b).ok h1)]
      simp only
      rcases execs_append_eq_bad h with h1 | ⟨env4, m4, h1, h⟩
      · exact X_bad ((execs_le hΓ (by omega) s).isBad h1 ho)
      · rw [X_bind_ok ((execs_le hΓ (by omega) s).ok h1)]
        rw [execs_one, exec] at h
        exact (whileLoop_le (.bind (eval_le hΓ c) fun _ => .refl _) (execs_le hΓ (by omega) b) (execs_le hΓ (by omega) s) n n (by omega)).isBad h ho

theorem RunOut.loop {b s : List Stmt} (hb : noBrks b = true) (hs : simples s = true)
    (h : RunOut (.ite c (b ++ (s ++ [.loop c b s])) [] :: ss) env m) : RunOut (.loop c b s :: ss) env m := by
  obtain ⟨x, hx, N, h⟩ := h
  refine ⟨x, hx, .of_one (n := N + 1) hx ?_⟩
  have hΓ := call_le program N (N + 1) (by omega)
  rcases execs_append_eq_bad (A := [_]) (h N (by omega)) with h1 | ⟨env1, m1, h1, h2⟩
  · rw [execs_one] at h1
    rw [execs]
    exact X_bad (exec_unroll_bad hx N h1)
  · rw [execs_one] at h1
    rw [execs, X_bind_ok (exec_unroll hb hs N h1)]
    exact (execs_le hΓ (by omega) ss).isBad h2 hx

theorem RunOut.switch (ha : UpToBreak A (pick k cs)) (he : EvalTo e env m (.int t k) env1 m1) (h : RunOut (A ++ ss) env1 m1) :
    RunOut (.switch e cs :: ss) env m := by
  obtain ⟨N1, he⟩ := he
  obtain ⟨x, hx, N, h⟩ := h
  refine ⟨x, hx, .of_one (n := max N N1) hx ?_⟩
  rcases execs_append_eq_bad (h (max N N1) (by omega)) with h1 | ⟨env2, m2, h1, h2⟩
  · rw [execs, exec]
    refine X_bad ?_
    rw [X_bind_ok (he _ (by omega)), X_bind_ok asInt_int, execSwitch_pick]
    change ((execs _ _ (pick k cs) >>= _ : X Out)) _ _ = _
    refine X_bad ?_
    rcases ha.2 with h3 | ⟨R, h3⟩
    · rw [h3, h1]
    · rw [h3, execs_append, h1]
  · rw [execs, X_bind_ok (exec_switch ha (he _ (by omega)) h1)]
    exact h2

/-! ## Against the model -/

/-- The undefined step of the model: a write outside of the buffer. -/
abbrev overrun : Bad := .buf .oobWrite

/-- The heap holds fewer than 2^31 - 1 - `k` blocks. The functions that count the entries of a list count them in an `int`. -/
def Few (k : Nat) (h : Heap) : Prop := ∃ D : List Nat, (∀ a, h.cells a ≠ none → a ∈ D) ∧ D.length + k < 2147483647

theorem Few.le (h : Few k hp) (hj : j ≤ k) : Few j hp := by
  obtain ⟨D, hd, hl⟩ := h
  exact ⟨D, hd, by omega⟩

/-- A list of distinct blocks is no longer than the number of blocks. -/
theorem nodup_length_le : (V D : List Nat) → V.Nodup → (∀ a ∈ V, a ∈ D) → V.length ≤ D.length
  | [], _, _, _ => by simp
  | v :: V, D, hn, hs => by
    obtain ⟨hv, hn⟩ := List.nodup_cons.mp hn
    have := nodup_length_le V (D.erase v) hn fun a ha => (List.mem_erase_of_ne (fun h : a = v => hv (h ▸ ha))).mpr (hs a (by simp [ha]))
    have hl := List.length_erase_of_mem (hs v (by simp))
    have := List.length_pos_of_mem (hs v (by simp))
    simp only [List.length_cons]
    omega

theorem Few.length (h : Few k hp) (V : List Nat) (hn : V.Nodup) (hv : ∀ a ∈ V, hp.cells a ≠ none) : V.length + k < 2147483647 := by
  obtain ⟨D, hd, hl⟩ := h
  have := nodup_length_le V D hn fun a ha => hd a (hv a ha)
  omega

theorem Few.alloc (h : Few (k + 1) hp) : Few k { next := n, cells := setCell hp.cells b c } := by
  obtain ⟨D, hd, hl⟩ := h
  refine ⟨b :: D, fun a ha => ?_, by simp only [List.length_cons]; omega⟩
  by_cases e : a = b
  · simp [e]
  · replace ha : setCell hp.cells b c a ≠ none := ha
    rw [show setCell hp.cells b c a = hp.cells a from if_neg e] at ha
    exact List.mem_cons_of_mem _ (hd a ha)

theorem Few.store (h : Few k hp) (hb : hp.cells b ≠ none) : Few k { next := n, cells := setCell hp.cells b c } := by
  obtain ⟨D, hd, hl⟩ := h
  refine ⟨D, fun a ha => ?_, hl⟩
  by_cases e : a = b
  · exact e ▸ hd b hb
  · replace ha : setCell hp.cells b c a ≠ none := ha
    rw [show setCell hp.cells b c a = hp.cells a from if_neg e] at ha
    exact hd a ha

/-- Calls leave the array where the model leaves the buffer. -/
def OFn (f : Fn) (args : Ctx → List Val) (p : P β) : Prop :=
  ∀ K st h, Inv K st h → Few 0 h → p st h = .bad overrun → CallOut f (args K) (conc K st h)

def OExp (K : Ctx) (e : Expr) (env : Env) (p : P β) : Prop :=
  ∀ st h, Inv K st h → Few 0 h → p st h = .bad overrun → EvalOut e env (conc K st h)

def OSem (K : Ctx) (ss : List Stmt) (env : Env) (p : P β) : Prop :=
  ∀ st h, Inv K st h → Few 0 h → p st h = .bad overrun → RunOut ss env (conc K st h)

/-- The step never leaves the buffer. -/
def Tame (p : P α) : Prop := ∀ st h, p st h ≠ .bad overrun

theorem P_bind_eq_bad {p : P α} {k : α → P β} (h : (p >>= k) st hp = .bad r) :
    p st hp = .bad r ∨ ∃ a st1 h1, p st hp = .ok a st1 h1 ∧ k a st1 h1 = .bad r := by
  change P.bind p k st hp = _ at h
  rw [P.bind] at h
  cases hp1 : p st hp with
  | bad r' => rw [hp1] at h; cases h; exact .inl rfl
  | ok a st1 h1 => rw [hp1] at h; exact .inr ⟨a, st1, h1, rfl, h⟩

theorem M_bind_eq_ub {m : M α} {k : α → M β} (h : (m >>= k) st = .ub r) : m st = .ub r ∨ ∃ a st1, m st = .ok a st1 ∧ k a st1 = .ub r := by
  change M.bind m k st = _ at h
  rw [M.bind] at h
  cases hm : m st with
  | ub r' => rw [hm] at h; cases h; exact .inl rfl
  | ok a s => rw [hm] at h; exact .inr ⟨a, s, rfl, h⟩

theorem Tame.next {p : P α} {k : α → P β} (hp : Tame p) (h : (p >>= k) st hp' = .bad overrun) : ∃ a st1 h1, p st hp' = .ok a st1 h1 ∧ k a st1 h1 = .bad overrun := by
  rcases P_bind_eq_bad h with h | h
  · exact absurd h (hp _ _)
  · exact h

theorem Tame.bind {p : P α} {k : α → P β} (hp : Tame p) (hk : ∀ a, Tame (k a)) : Tame (p >>= k) := by
  intro st h hr
  obtain ⟨a, s, h1, _, e⟩ := hp.next hr
  exact hk a _ _ e

theorem Tame.pure : Tame (pure a : P α) := fun _ _ h => by cases h

theorem Tame.ite {p q : P α} (c : Prop) [Decidable c] (hp : Tame p) (hq : Tame q) : Tame (if c then p else q) := by
  split <;> assumption

theorem Tame.fault (h : r ≠ overrun) : Tame (fault r : P α) := fun _ _ e => by
  cases e
  exact h rfl

theorem Tame.deref : Tame (deref a) := by
  intro st h hr
  unfold Sml.deref at hr
  split at hr
  · cases hr
  · split at hr <;> cases hr

theorem Tame.readPtr : Tame (readPtr a i) := by
  refine .bind .deref fun c => ?_
  cases c with
  | struct ps is =>
    simp only
    split
    · exact .pure
    · exact .fault (fun h => nomatch h)
  | _ => exact .fault (fun h => nomatch h)

theorem Tame.readInt : Tame (readInt a i) := by
  refine .bind .deref fun c => ?_
  cases c with
  | struct ps is =>
    simp only
    split
    · exact .pure
    · exact .fault (fun h => nomatch h)
  | _ => exact .fault (fun h => nomatch h)

theorem Tame.readNum : Tame (readNum a) := by
  refine .bind .deref fun c => ?_
  cases c with
  | num n => exact .pure
  | _ => exact .fault (fun h => nomatch h)

theorem Tame.readRaw : Tame (readRaw a n) := by
  refine .bind .deref fun c => ?_
  cases c with
  | bytes bs => exact .ite _ .pure (.fault (fun h => nomatch h))
  | _ => exact .fault (fun h => nomatch h)

theorem Tame.readTag : Tame (readTag w a) := .bind .readNum fun _ => .ite _ .pure (.fault (fun h => nomatch h))

theorem lift_eq_bad {m : M α} (hr : lift m st h = .bad (.buf r)) : m st = .ub r := by
  unfold lift at hr
  cases e : m st with
  | ub r' => rw [e] at hr; cases hr; rfl
  | ok b s => rw [e] at hr; cases hr

/-- For functions of the buffer alone. -/
def MOut (f : Fn) (args : Ctx → List Val) (m : M β) : Prop :=
  ∀ K st nx c, Good st → m st = .ub .oobWrite → CallOut f (args K) (memOf K st nx c)

theorem OFn.of_M {m : M β} (h : MOut f args m) : OFn f args (lift m) :=
  fun K _ hp hi _ hr => h K _ hp.next (K.blocks hp) hi.good (lift_eq_bad hr)

theorem OExp.call {as : Ctx → List Val} (ha : ∀ Γ m, evals Γ args env m = .ok (as K) env m) (hf : OFn f as p) : OExp K (.call f args) env p :=
  fun st h hi hn hr => .call ⟨0, fun _ _ => ha _ _⟩ (hf K st h hi hn hr)

theorem OExp.callArg {as : Ctx → List Val} (hx : ESem K e env anySt p va post) (hc : Tame p) (hp : Keeps p) (ha : ∀ Γ m, evals Γ args env m = .ok (as K) env m)
    (hf : ∀ b, OFn f (fun K => va b :: as K) (k b)) : OExp K (.call f (e :: args)) env (p >>= k) := by
  intro st h hi hn hr
  obtain ⟨a, st1, h1, e1, e2⟩ := hc.next hr
  obtain ⟨i1, _, N1, r1⟩ := hx st h hi trivial a st1 h1 e1
  obtain rfl := hp _ _ _ _ _ e1
  exact .call (vs := va a :: as K) (m1 := conc K st1 h1) (env' := env) ⟨N1, fun n hn => by rw [evals, X_bind_ok (r1 n hn), X_bind_ok (ha _ _), X_pure]⟩ (hf a K st1 h1 i1 hn e2)

theorem OSem.expr {p : P α} {k : α → P β} (hx : ESem K e env anySt p vl post) (ho : OExp K e env p) (hp : Keeps p) (hk : ∀ b, OSem K ss env (k b)) :
    OSem K (.expr e :: ss) env (p >>= k) := by
  intro st h hi hn hr
  rcases P_bind_eq_bad hr with hr | ⟨a, st1, h1, e1, e2⟩
  · exact .head (.expr (ho st h hi hn hr))
  · obtain ⟨i1, _, r1⟩ := hx.ev hi trivial e1
    obtain rfl := hp _ _ _ _ _ e1
    exact .cons (.expr r1) (hk a _ _ i1 hn e2)

theorem OSem.pure {a : β} : OSem K ss env (pure a : P β) := fun _ _ _ _ hr => by cases hr

/-- A statement that the model does not have. -/
theorem OSem.skip (hx : ∀ st h, Inv K st h → ∀ n, exec (call program n) n s env (conc K st h) = .ok .next env' (conc K st h)) (hk : OSem K ss env' p) :
    OSem K (s :: ss) env p := fun st h hi hn hr => .cons ⟨0, fun n _ => hx st h hi n⟩ (hk st h hi hn hr)

theorem OSem.read {p : P α} {k : α → P β} (hc : Tame p) (hp : ∀ st h a st' h', p st h = .ok a st' h' → st' = st ∧ h' = h) (hk : ∀ a, OSem K ss env (k a)) : OSem K ss env (p >>= k) := by
  intro st h hi hn hr
  obtain ⟨a, st1, h1, e1, e2⟩ := hc.next hr
  obtain ⟨rfl, rfl⟩ := hp _ _ _ _ _ e1
  exact hk a _ _ hi hn e2

end Sml.C
