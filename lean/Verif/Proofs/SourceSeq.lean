import Verif.Proofs.SourceArray

/-!
# Sequences, paths, period entries, tupel entries, values of process parameters and trees from their source
-/

namespace Sml.C

/-! ## Sequences -/

theorem fn_ne : (.fn f : Val) ≠ .undef := by intro h; cases h

theorem eval_fnVar {x : Nat} (hx : env x = .fn f) (m : Mem) : EvalTo (.var x) env m (.fn f) env m :=
  ⟨0, fun _ _ => by rw [eval]; exact getVar_ok hx fn_ne⟩

theorem sequenceInit_src (c : Fn) : FSpec .sml_sequence_init (fun _ => [.fn c]) anySt (malloc (.struct [0] [0, c.code])) ptrVal anyRes := by
  refine FSpec.of_body (vs := fun _ => [.fn c]) (vb := ptrVal) (fun K env m => rfl) (fun K => ?_) (fun b st env m _ => rfl)
  rw [← P_bind_pure (malloc _)]
  refine Sem.mallocRec [0] [0, c.code] ?_ (fun a Γ m => rfl) (fun a Γ m => ?_) fun a => Sem.retPtr upd_same
  · intro n hn
    have : c.code ≤ 2147483647 := by cases c <;> decide
    simp only [List.mem_cons, List.not_mem_nil, or_false] at hn
    omega
  · rfl

theorem sequenceParse_src {p : P Addr} {g : Addr → P Unit} (hp : ParseSpec pf p) (hf : FreeSpec ff g) (hg : ∀ a, OnlyFrees (g a))
    (hpt : pf.byPtr = true := by first | rfl | assumption) (hft : ff.byPtr = true := by first | rfl | assumption) :
    FSpec .sml_sequence_parse (fun K => [K.buf, .fn pf, .fn ff]) anySt (pSequenceParse p ff g) ptrVal anyRes := by
  refine FSpec.of_body (vs := fun K => [K.buf, .fn pf, .fn ff]) (vb := ptrVal) (fun K env m => rfl) (fun K => ?_) (fun b st env m _ => rfl)
  unfold pSequenceParse
  refine Sem.type (by rfl) 112 (by omega) (Sem.goto rfl (Sem.setErr (by rfl) Sem.retNull)) ?_
  refine Sem.weaken (pre' := anySt) ?_ fun _ _ => trivial
  refine Sem.step (E := fun a => upd (envOf [K.buf, .fn pf, .fn ff]) 3 (ptrVal a)) (SSem.setPtr (ESem.call (as := fun _ => [.fn ff]) (fun _ _ => evals_var (by rfl) fn_ne) (sequenceInit_src ff))) fun seq => ?_
  refine Sem.setLength (by rfl) fun l l1 l2 => ?_
  refine Sem.vars (env' := upd (upd (upd (envOf [K.buf, .fn pf, .fn ff]) 3 (ptrVal seq)) 5 (.int .i32 l)) 4 (.int .i32 0)) (fun m => .set .lit rfl) ?_
  refine Sem.up (q := pSequenceLoop p ff g seq) (U := fun env => env 0 = K.buf ∧ env 1 = .fn pf ∧ env 3 = ptrVal seq ∧ env 5 = .int .i32 l) (l := l) rfl ?_ (fun _ u => u.2.2.2) l2 l1 ?_ ?_
    l.toNat _ 0 ⟨rfl, rfl, rfl, rfl⟩ (by rfl) (by omega) (by omega) (by omega)
  · intro env v u
    exact ⟨(upd_other (by decide)).trans u.1, (upd_other (by decide)).trans u.2.1, (upd_other (by decide)).trans u.2.2.1, (upd_other (by decide)).trans u.2.2.2⟩
  · intro env u
    exact Sem.retPtr u.2.2.1
  · intro n env R u hk
    have hcall : ESem K (.callPtr (.var 1) [.var 0]) env anySt p ptrVal anyRes := by
      intro st h hi _ b st' h' hr
      obtain ⟨i1, q1, c1⟩ := hp.run hi trivial hr
      exact ⟨i1, q1, EvalTo.callPtr (eval_fnVar u.2.1 _) (.one (.ptr u.1)) c1⟩
    refine Sem.step (SSem.setPtr hcall) fun e => ?_
    have e0 : upd env 6 (ptrVal e) 0 = K.buf := (upd_other (by decide)).trans u.1
    have e3 : upd env 6 (ptrVal e) 3 = ptrVal seq := (upd_other (by decide)).trans u.2.2.1
    refine Sem.hasErr e0 ?_ ?_
    · refine Sem.weaken (pre' := anySt) (Sem.goto rfl ?_) fun _ _ => trivial
      refine Sem.step (SSem.expr (ESem.callVar e3 (sequenceFree_src hf hg hft seq))) fun _ => ?_
      exact Sem.label (Sem.setErr e0 Sem.retNull)
    · refine Sem.add (p := fun s e => pArrayAdd s 0 e) sequenceAdd_src e3 upd_same (hk _ ⟨e0, (upd_other (by decide)).trans u.2.1, e3, (upd_other (by decide)).trans u.2.2.2⟩ (upd_other (by decide)))

/-! ## Paths -/

theorem treePathInit_src : InitSpec .sml_tree_path_init (.struct [0] [0]) :=
  InitSpec.of [0] [0] rfl rfl rfl (by simp) (fun _ _ _ => rfl) (fun _ _ _ => rfl)

theorem treePathParse_src : ParseSpec .sml_tree_path_parse pTreePathParse := by
  refine ParseSpec.of rfl rfl fun K => ?_
  unfold pTreePathParse pOptional
  refine Sem.opt (by rfl) rfl (fun _ => trivial) (Sem.init treePathInit_src fun path => ?_)
  have errs : ∀ env : Env, env 0 = K.buf → env 1 = ptrVal path → ∀ ss, Sem K (program .sml_tree_path_parse).body ([.goto 0] ++ ss) env anySt
      (lift setError >>= fun _ => pAbort pTreePathFree path 0) ptrVal anyRes :=
    fun env h0 h1 ss => Sem.goto rfl (Sem.setErr h0 (Sem.freeRet (z := 0) h1 treePathFree_src rfl))
  refine Sem.type (by rfl) 112 (by omega) (errs _ (by rfl) (by rfl) _) ?_
  refine Sem.setLength (by rfl) fun l l1 l2 => ?_
  refine Sem.down (q := pTreePathLoop path) (U := fun env => env 0 = K.buf ∧ env 1 = ptrVal path) rfl ?_ ?_ ?_
    l.toNat _ l ⟨rfl, rfl⟩ (by rfl) rfl (by omega) (by omega)
  · intro env v u
    exact ⟨(upd_other (by decide)).trans u.1, (upd_other (by decide)).trans u.2⟩
  · intro env u
    exact Sem.retPtr u.2
  · intro n env R u hk
    refine Sem.step (SSem.setPtr (ESem.callBuf u.1 octetStringParse_src)) fun s => ?_
    have e0 : upd env 2 (ptrVal s) 0 = K.buf := (upd_other (by decide)).trans u.1
    have e1 : upd env 2 (ptrVal s) 1 = ptrVal path := (upd_other (by decide)).trans u.2
    refine Sem.hasErr e0 ((errs _ e0 e1 _).weaken fun _ _ => trivial) ?_
    refine Sem.iteVar upd_same ?_ ?_
    · intro hs
      rw [if_pos hs]
      exact Sem.add (p := fun s e => pArrayAdd s 0 e) treePathAdd_src e1 upd_same (hk _ ⟨e0, e1⟩ (upd_other (by decide)))
    · intro hs
      rw [if_neg (by simp [hs])]
      exact hk _ ⟨e0, e1⟩ (upd_other (by decide))

end Sml.C
