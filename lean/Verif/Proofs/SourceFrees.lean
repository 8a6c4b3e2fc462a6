import Verif.Proofs.SourceFree

/-!
# The free functions of trees, lists, messages, run from their source
-/

namespace Sml.C

/-! ## Trees -/

theorem SSem.print (hx : ESem K e env pre p vl post) : SSem K (.print [e]) env pre p (fun _ => env) post := by
  intro st h hi hp b st' h' hr
  obtain ⟨i1, q1, r1⟩ := hx.ev hi hp hr
  exact ⟨i1, q1, ExecTo.print (.one r1)⟩

theorem conv_u8_nat (v : Nat) (h : v < 256 ^ 1) : ITy.conv .u8 (v : Int) = v := by
  rw [conv_u8 (by omega) (by omega)]

theorem conv_u16_nat (v : Nat) (h : v < 256 ^ 2) : ITy.conv .u16 (v : Int) = v := by
  rw [conv_u16 (by omega) (by omega)]

theorem conv_u32_nat (v : Nat) (h : v < 256 ^ 4) : ITy.conv .u32 (v : Int) = v := by
  rw [conv_u32 (by omega) (by omega)]

/-- `pProcParValueFree`, reading the members as the C source does. -/
def pPpvFreeR (a : Addr) : P Unit := readPtr a 0 >>= fun tag =>
  if tag ≠ 0 then (readPtr a 0 >>= fun tag => readTag 1 tag) >>= fun t =>
    (if t.val = 1 then readPtr a 1 >>= fun d => pValueFree d >>= fun _ => readPtr a 0 >>= fun tag => pNumberFree tag >>= fun _ => free a
    else if t.val = 2 then readPtr a 1 >>= fun d => pPeriodEntryFree d >>= fun _ => readPtr a 0 >>= fun tag => pNumberFree tag >>= fun _ => free a
    else if t.val = 3 then readPtr a 1 >>= fun d => pTupelEntryFree d >>= fun _ => readPtr a 0 >>= fun tag => pNumberFree tag >>= fun _ => free a
    else if t.val = 4 then readPtr a 1 >>= fun d => pTimeFree d >>= fun _ => readPtr a 0 >>= fun tag => pNumberFree tag >>= fun _ => free a
    else readPtr a 1 >>= fun v => if v ≠ 0 then readPtr a 1 >>= fun d => free d >>= fun _ => readPtr a 0 >>= fun tag => pNumberFree tag >>= fun _ => free a
      else readPtr a 0 >>= fun tag => pNumberFree tag >>= fun _ => free a)
  else readPtr a 1 >>= fun v => if v ≠ 0 then readPtr a 1 >>= fun d => free d >>= fun _ => free a else free a

theorem ppv_reread {a : Addr} (h0 : a ≠ 0) (hr : pProcParValueFree a st h = .ok u st' h') : pPpvFreeR a st h = .ok u st' h' := by
  unfold pProcParValueFree at hr
  rw [if_pos h0] at hr
  replace hr := P_bind_eq_ok hr
  obtain ⟨tag, s1, h1, e1, hr⟩ := hr
  replace hr := P_bind_eq_ok hr
  obtain ⟨d, s2, h2, e2, hr⟩ := hr
  have e1' := e1
  obtain ⟨_, rfl, rfl, _⟩ := readPtr_eq_ok e1'
  have e2' := e2
  obtain ⟨_, rfl, rfl, _⟩ := readPtr_eq_ok e2'
  unfold pPpvFreeR
  rw [P.bind_ok e1]
  by_cases ht : tag ≠ 0
  · rw [if_pos ht] at hr ⊢
    replace hr := P_bind_eq_ok hr
    obtain ⟨t, s3, h3, e3, hr⟩ := hr
    have e3' := e3
    obtain ⟨_, rfl, rfl, _⟩ := readTag_eq_ok e3'
    have e13 : (readPtr a 0 >>= fun tag => readTag 1 tag) s3 h3 = .ok t s3 h3 := by rw [P.bind_ok e1, e3]
    rw [P.bind_ok e13]
    have key : ∀ {g : Addr → P Unit}, OnlyFrees (g d) → (g d >>= fun _ => pNumberFree tag >>= fun _ => free a) s3 h3 = .ok u st' h' →
        (readPtr a 1 >>= fun d => g d >>= fun _ => readPtr a 0 >>= fun tag => pNumberFree tag >>= fun _ => free a) s3 h3 = .ok u st' h' := by
      intro g hg hr
      rw [P.bind_ok e2]
      replace hr := P_bind_eq_ok hr
      obtain ⟨w, s4, h4, e4, hr⟩ := hr
      rw [P.bind_ok e4]
      replace hr := P_bind_eq_ok hr
      obtain ⟨x, s5, h5, e5, hr⟩ := hr
      have p5 := free_present h0 hr
      have p4 : h4.cells a ≠ none := by
        rcases frees_number tag _ _ _ _ _ e5 a with h6 | h6
        · exact absurd h6 p5
        · rwa [← h6]
      rw [P.bind_ok (reread hg e4 e1 p4), P.bind_ok e5]
      exact hr
    split
    · rw [if_pos ‹_›] at hr
      exact key (frees_value d) hr
    rw [if_neg ‹_›] at hr
    split
    · rw [if_pos ‹_›] at hr
      exact key (frees_period d) hr
    rw [if_neg ‹_›] at hr
    split
    · rw [if_pos ‹_›] at hr
      exact key (frees_tupel d) hr
    rw [if_neg ‹_›] at hr
    split
    · rw [if_pos ‹_›] at hr
      exact key (frees_time d) hr
    rw [if_neg ‹_›] at hr
    rw [P.bind_ok e2]
    by_cases hd : d ≠ 0
    · rw [if_pos hd]
      unfold pNumberFree at hr
      rw [if_pos hd] at hr
      exact key (g := free) OnlyFrees.free hr
    · rw [if_neg hd]
      unfold pNumberFree at hr
      rw [if_neg hd, P_pure_bind] at hr
      rw [P.bind_ok e1]
      exact hr
  · rw [if_neg ht] at hr ⊢
    rw [P.bind_ok e2]
    by_cases hd : d ≠ 0
    · rw [if_pos hd, P.bind_ok e2]
      unfold pNumberFree at hr
      rw [if_pos hd] at hr
      exact hr
    · rw [if_neg hd]
      unfold pNumberFree at hr
      rw [if_neg hd] at hr
      exact hr

theorem procParValueFree_src : FreeSpec .sml_proc_par_value_free pProcParValueFree := by
  refine FreeSpec.guard rfl rfl rfl (q := pProcParValueFree) (fun a => ?_) fun K a h0 => ?_
  · by_cases h0 : a ≠ 0
    · rw [if_pos h0]
    · rw [if_neg h0]
      unfold pProcParValueFree
      rw [if_neg h0]
  refine Sem.of_run fun st h b st' h' _ _ hr => ⟨_, ppv_reread h0 hr, ?_⟩
  have hn : ∀ {body}, Sem K body [.expr (.call .sml_number_free [.ldPtr (.var 0) 0]), .free (.var 0)] (envOf [ptrVal a]) anySt
      (readPtr a 0 >>= fun tag => pNumberFree tag >>= fun _ => free a) (fun _ => .undef) anyRes :=
    Sem.freeField (a := a) (by rfl) numberFree_src (Sem.freeEnd (by rfl))
  refine Sem.iteLd (a := a) (by rfl) (fun v hv => ?_) (fun v hv => ?_)
  · rw [if_pos hv]
    refine Sem.switch (ESem.deref (w := 1) (ESem.ldPtr (a := a) (by rfl)) rfl conv_u8_nat) (fun _ => rfl) fun t => ?_
    split
    · rename_i h1
      rw [h1]
      exact ⟨[.expr (.call .sml_value_free [.ldPtr (.var 0) 1])], ⟨rfl, .inr ⟨_, rfl⟩⟩, Sem.freeField (a := a) (by rfl) valueFree_src hn⟩
    split
    · rename_i h1
      rw [h1]
      exact ⟨[.expr (.call .sml_period_entry_free [.ldPtr (.var 0) 1])], ⟨rfl, .inr ⟨_, rfl⟩⟩, Sem.freeField (a := a) (by rfl) periodEntryFree_src hn⟩
    split
    · rename_i h1
      rw [h1]
      exact ⟨[.expr (.call .sml_tupel_entry_free [.ldPtr (.var 0) 1])], ⟨rfl, .inr ⟨_, rfl⟩⟩, Sem.freeField (a := a) (by rfl) tupelEntryFree_src hn⟩
    split
    · rename_i h1
      rw [h1]
      exact ⟨[.expr (.call .sml_time_free [.ldPtr (.var 0) 1])], ⟨rfl, .inr ⟨_, rfl⟩⟩, Sem.freeField (a := a) (by rfl) timeFree_src hn⟩
    refine ⟨[.ite (.ldPtr (.var 0) 1) [.free (.ldPtr (.var 0) 1)] []], ⟨rfl, .inl (pick_dflt ?_)⟩, Sem.iteFree (a := a) (by rfl) hn⟩
    simp only [hasCase, Bool.or_eq_false_iff, decide_eq_false_iff_not, and_true]
    omega
  · rw [if_neg (by simp [hv])]
    exact Sem.iteFree (a := a) (by rfl) (Sem.freeEnd (by rfl))

theorem treeFreeAux_src : (n : Nat) → FreeSpec .sml_tree_free (pTreeFreeAux n)
  | 0 => fun a => by
    intro K st h _ _ b st' h' hr
    cases hr
  | n + 1 => by
    have ih := treeFreeAux_src n
    refine FreeSpec.guard rfl rfl rfl (fun a => by rw [pTreeFreeAux]) fun K a h0 => ?_
    refine Sem.freeField (a := a) (by rfl) octetStringFree_src ?_
    refine Sem.freeField (a := a) (by rfl) procParValueFree_src ?_
    refine Sem.forEach (s := a) (i := 2) rfl (by rfl) ih (frees_tree n) (fun st h b st' h' hr => ?_) fun k => ?_
    · obtain ⟨v, s, h1, e, _⟩ := P_bind_eq_ok hr
      exact readPtr_present e
    · exact Sem.freeLd (a := a) (by rfl) (Sem.freeEnd (by rfl))

theorem treeFree_src : FreeSpec .sml_tree_free pTreeFree :=
  fun a K st h hi hp b st' h' hr => treeFreeAux_src (h.next + 1) a K st h hi hp b st' h' hr

/-! ## Sequences -/

theorem ptr_ne_null {v : Nat} : binOp .ne (ptrVal v) nullPtr env m = .ok (ofBool (decide (v ≠ 0))) env m := by
  have : ¬ ((Loc.heap v = Loc.heap 0) ∧ 0 = 0) ↔ v ≠ 0 := by simp
  show XRes.ok (ofBool (decide ¬ ((Loc.heap v = Loc.heap 0) ∧ 0 = 0))) env m = _
  rw [decide_eq_decide.mpr this]

theorem ofCode_code (f : Fn) : Fn.ofCode f.code = some f := by cases f <;> rfl

theorem sequenceFree_src {g : Addr → P Unit} (hf : FreeSpec f g) (hg : ∀ a, OnlyFrees (g a)) (ht : f.byPtr = true := by first | rfl | assumption) :
    FreeSpec .sml_sequence_free (pSequenceFree f g) := by
  refine FreeSpec.guard rfl rfl rfl (fun _ => rfl) fun K a h0 => ?_
  refine Sem.of_run fun st h b st' h' hi _ hr => ?_
  replace hr := P_bind_eq_ok hr
  obtain ⟨c, s1, h1, e1, hr⟩ := hr
  by_cases hc : c = f.code
  case neg => rw [if_pos hc] at hr; cases hr
  rw [if_neg (by simp [hc])] at hr
  replace hr := P_bind_eq_ok hr
  obtain ⟨n, s3, h3, e3, hr⟩ := hr
  replace hr := P_bind_eq_ok hr
  obtain ⟨u, s2, h2, e2, hr⟩ := hr
  obtain ⟨hs, rfl, rfl, ps, is, hcell, hv⟩ := readInt_eq_ok e1
  obtain ⟨_, rfl, rfl, ps', is', hcell', hv'⟩ := readInt_eq_ok e3
  rw [hcell] at hcell'
  cases hcell'
  subst hc
  let q : P Unit := readPtr a 0 >>= fun v => if v ≠ 0 then readPtr a 0 >>= fun v => free v >>= fun _ => free a else free a
  let cc : P Unit := readInt a 1 >>= fun c => if c = f.code then pure () else fault .kind
  refine ⟨pForEachR cc g a 0 (n + 1) 0 >>= fun _ => q, ?_, ?_⟩
  · have := forEach_reread (s := a) (i := 0) (c := cc) (ps := ps) (is := is) hg h0 (fun st h hc => ?_) n 0 _ _ hcell (by rw [hv', Nat.zero_add]) e2 ?_
    · rw [P.bind_ok this]
      exact hr
    · simp only [cc]
      rw [P.bind_ok (readInt_ok h0 hc hv), if_pos rfl]
      rfl
    · obtain ⟨v, s, h1, e, _⟩ := P_bind_eq_ok hr
      exact readPtr_present e
  · refine Sem.skip (env' := upd (envOf [ptrVal a]) 1 (.int .i32 (0 : Nat))) (fun _ _ _ _ _ => rfl) ?_
    refine Sem.forEachR (s := a) (t := .i32) rfl (by rfl) (fun k => ?_) (fun k => ?_) _ _ (by omega)
    · intro st h hi _ b st' h' hr
      replace hr := P_bind_eq_ok hr
      obtain ⟨u, s4, h4, e4, hr⟩ := hr
      replace e4 := P_bind_eq_ok e4
      obtain ⟨c, s5, h5, e5, e4⟩ := e4
      by_cases hc : c = f.code
      case neg => rw [if_neg hc] at e4; cases e4
      rw [if_pos hc] at e4
      cases e4
      subst hc
      have e5' := e5
      obtain ⟨_, rfl, rfl, _⟩ := readInt_eq_ok e5'
      rw [← P_bind_assoc] at hr
      replace hr := P_bind_eq_ok hr
      obtain ⟨v, s6, h6, e6, hr⟩ := hr
      obtain ⟨i6, _, r6⟩ := (ESem.elem (K := K) (y := 1) (t := .i32) (k := k) (env := upd (envOf [ptrVal a]) 1 (.int .i32 (k : Nat))) (ESem.ldPtr (K := K) (pre := anySt) (x := 0) (i := 0) (a := a) (by rfl)) (by rfl)).ev hi trivial e6
      obtain ⟨i7, q7, r7⟩ := (hf v).run i6 trivial hr
      exact ⟨i7, q7, EvalTo.callPtr (.ldFn (.ptr (by rfl)) (loadInt_cell hi e5) (ofCode_code f)) (.one r6) r7⟩
    · refine Sem.ite (vc := fun v => ofBool (decide (v ≠ 0))) (ESem.binNull (ESem.ldPtr (pre := anySt) (a := a) (by rfl)) (fun v st m _ => ptr_ne_null)) (fun _ => ofBool_ne) ?_ ?_
      · intro v hv
        rw [isTrue_ofBool, decide_eq_true_eq] at hv
        rw [if_pos hv]
        exact Sem.freeLd (a := a) (by rfl) (Sem.freeEnd (by rfl))
      · intro v hv
        rw [isTrue_ofBool, decide_eq_false_iff_not] at hv
        rw [if_neg hv]
        exact Sem.freeEnd (by rfl)

theorem OnlyFrees.seq {g : Addr → P Unit} (hg : ∀ a, OnlyFrees (g a)) (a : Addr) : OnlyFrees (pSequenceFree f g a) :=
  .ite _ (.bind .readInt fun _ => .ite _ .fault (.bind .readInt fun _ => .bind (.forEach hg _ _ _ _) fun _ => .bind .readPtr fun _ =>
    .ite _ (.bind .readPtr fun _ => .bind .free fun _ => .free) .free)) .pure

/-! ## Lists -/

theorem listFreeLoop_src {K : Ctx} {body : List Stmt} : (fuel : Nat) → (f n : Addr) → (env : Env) → env 1 = ptrVal f → env 2 = ptrVal n →
    Sem K body [.loop (.var 1) [.expr (.call .sml_list_entry_free [.var 1]), .setPtr 1 (.var 2), .ite (.var 1) [.setPtr 2 (.ldPtr (.var 1) 7)] []] []] env anySt
      (pListFreeLoop fuel f n) (fun _ => .undef) anyRes
  | 0, _, _, _, _, _ => by
    intro st h _ _ b st' h' hr
    cases hr
  | fuel + 1, f, n, env, hf, hn => by
    rw [pListFreeLoop]
    refine Sem.loop rfl rfl (Sem.iteVar hf (fun h0 => ?_) (fun h0 => ?_))
    · rw [if_pos h0]
      refine Sem.step (SSem.expr (ESem.callVar hf (listEntryFree_src f))) fun _ => ?_
      refine Sem.skip (env' := upd env 1 (ptrVal n)) (fun st h _ _ _ => ?_) (Sem.iteVar (a := n) (by exact upd_same) (fun h1 => ?_) (fun h1 => ?_))
      · rw [exec, X_bind_ok (eval_var hn)]
        rfl
      · rw [if_pos h1]
        refine Sem.step (SSem.setPtr (ESem.ldPtr (a := n) (by exact upd_same))) fun v => ?_
        exact listFreeLoop_src fuel n v _ (by rfl) (by rfl)
      · rw [if_neg (by simp [h1])]
        exact listFreeLoop_src fuel n n _ (by exact upd_same) (by exact hn)
    · rw [if_neg (by simp [h0])]
      exact Sem.end_

theorem listFree_src : FreeSpec .sml_list_free pListFree := by
  intro a K st h hi hp b st' h' hr
  have : FreeSpec .sml_list_free fun a => if a ≠ 0 then readPtr a 7 >>= fun n => pListFreeLoop (h.next + 1) a n else pure () := by
    refine FreeSpec.guard rfl rfl rfl (fun _ => rfl) fun K a h0 => ?_
    refine Sem.skip (env' := upd (envOf [ptrVal a]) 1 (ptrVal a)) (fun _ _ _ _ _ => rfl) ?_
    refine Sem.step (SSem.setPtr (ESem.ldPtr (a := a) (by rfl))) fun v => ?_
    exact listFreeLoop_src _ a v _ (by rfl) (by rfl)
  exact this a K st h hi hp b st' h' hr

theorem frees_listLoop : (fuel : Nat) → (f n : Addr) → OnlyFrees (pListFreeLoop fuel f n)
  | 0, _, _ => .fault
  | fuel + 1, _, _ => .ite _ (.bind (frees_listEntry _) fun _ => .ite _ (.bind .readPtr fun _ => frees_listLoop fuel _ _) (frees_listLoop fuel _ _)) .pure

theorem frees_list (a : Addr) : OnlyFrees (pListFree a) := by
  intro st h u st' h' hr
  exact (OnlyFrees.ite _ (.bind .readPtr fun n => frees_listLoop (h.next + 1) a n) .pure : OnlyFrees (if a ≠ 0 then readPtr a 7 >>= fun n => pListFreeLoop (h.next + 1) a n else pure ()))
    st h u st' h' hr

theorem frees_treeFree (a : Addr) : OnlyFrees (pTreeFree a) := fun st h u st' h' hr => frees_tree (h.next + 1) a st h u st' h' hr

theorem frees_treePath (a : Addr) : OnlyFrees (pTreePathFree a) :=
  .ite _ (.bind .readPtr fun _ => .bind .readInt fun _ => .ite _ (.bind .readInt fun _ => .bind (.forEach frees_octet _ _ _ _) fun _ => .bind .readPtr fun _ => .bind .free fun _ => .free) .free) .pure

theorem frees_objects : (fuel : Nat) → (d : Addr) → OnlyFrees (pObjectListFree fuel d)
  | 0, _ => .fault
  | fuel + 1, _ => .ite _ (.bind .readPtr fun _ => .bind .readPtr fun _ => .bind (frees_octet _) fun _ => .bind .free fun _ => frees_objects fuel _) .pure

theorem frees_objectsFree (a : Addr) : OnlyFrees (pObjectsFree a) := fun st h u st' h' hr => frees_objects (h.next + 1) a st h u st' h' hr

/-! ## Message bodies -/

theorem objectsLoop_src {K : Ctx} {body : List Stmt} {q : P Unit} {a : Addr} (hk : ∀ env, env 0 = ptrVal a → Sem K body ss env anySt q (fun _ => .undef) anyRes) :
    (fuel : Nat) → (d : Addr) → (env : Env) → d ≠ 0 → env 0 = ptrVal a → env 2 = ptrVal d →
    Sem K body (.doWhile [.setPtr 1 (.ldPtr (.var 2) 1), .expr (.call .sml_octet_string_free [.ldPtr (.var 2) 0]), .free (.var 2), .setPtr 2 (.var 1)] (.var 2) :: ss) env anySt
      (pObjectListFree fuel d >>= fun _ => q) (fun _ => .undef) anyRes
  | 0, _, _, _, _, _ => by
    intro st h _ _ b st' h' hr
    cases hr
  | fuel + 1, d, env, h0, ha, hd => by
    rw [pObjectListFree, if_pos h0]
    simp only [P_bind_assoc]
    refine Sem.doWhile rfl ?_
    refine Sem.step (SSem.setPtr (ESem.ldPtr hd)) fun n => ?_
    refine Sem.freeField (a := d) (by exact hd) octetStringFree_src ?_
    refine Sem.freeVar (a := d) (by exact hd) ?_
    refine Sem.skip (env' := upd (upd env 1 (ptrVal n)) 2 (ptrVal n)) (fun _ _ _ _ _ => rfl) ?_
    refine Sem.iteVar (a := n) (by rfl) (fun h1 => ?_) (fun h1 => ?_)
    · exact objectsLoop_src hk fuel n _ h1 (by exact ha) (by rfl)
    · subst h1
      cases fuel with
      | zero =>
        intro st h _ _ b st' h' hr
        cases hr
      | succ k =>
        rw [pObjectListFree, if_neg (by simp), P_pure_bind]
        exact hk _ (by exact ha)

theorem packRequestFree_src : FreeSpec .sml_get_profile_pack_request_free pGetProfilePackRequestFree := by
  refine FreeSpec.guard rfl rfl rfl (q := fun a => pFreeFields a 0 [pOctetStringFree, pOctetStringFree, pOctetStringFree, pNumberFree, pTimeFree, pTimeFree, pTreePathFree,
    pObjectsFree, pTreeFree]) (fun a => ?_) fun K a h0 => ?_
  · unfold pGetProfilePackRequestFree pFreeStruct
    by_cases h : a = 0 <;> simp [h]
  simp only [pFreeFields]
  refine Sem.freeField (a := a) (by rfl) octetStringFree_src ?_
  refine Sem.freeField (a := a) (by rfl) octetStringFree_src ?_
  refine Sem.freeField (a := a) (by rfl) octetStringFree_src ?_
  refine Sem.freeField (a := a) (by rfl) booleanFree_src ?_
  refine Sem.freeField (a := a) (by rfl) timeFree_src ?_
  refine Sem.freeField (a := a) (by rfl) timeFree_src ?_
  refine Sem.freeField (a := a) (by rfl) treePathFree_src ?_
  have hk : ∀ env, env 0 = ptrVal a → ∀ body, Sem K body [.expr (.call .sml_tree_free [.ldPtr (.var 0) 8]), .free (.var 0)] env anySt
      (readPtr a 8 >>= fun v => pTreeFree v >>= fun _ => free a) (fun _ => .undef) anyRes :=
    fun env he body => Sem.freeField (a := a) he treeFree_src (Sem.freeEnd he)
  refine Sem.of_run fun st h b st' h' hi _ hr => ?_
  refine ⟨readPtr a 7 >>= fun v => if v ≠ 0 then readPtr a 7 >>= fun v => if v ≠ 0 then pObjectListFree (h.next + 1) v >>= fun _ => readPtr a 8 >>= fun v => pTreeFree v >>= fun _ => free a else fault .null else
    readPtr a 8 >>= fun v => pTreeFree v >>= fun _ => free a, ?_, ?_⟩
  · replace hr := P_bind_eq_ok hr
    obtain ⟨v, s1, h1, e1, hr⟩ := hr
    have e1' := e1
    obtain ⟨_, rfl, rfl, _⟩ := readPtr_eq_ok e1'
    rw [P.bind_ok e1]
    by_cases hv : v ≠ 0
    · rw [if_pos hv, P.bind_ok e1, if_pos hv]
      exact hr
    · rw [if_neg hv]
      have : pObjectsFree v s1 h1 = .ok () s1 h1 := by
        unfold pObjectsFree
        rw [pObjectListFree, if_neg hv]
        rfl
      rwa [P.bind_ok this] at hr
  · refine Sem.iteLd (a := a) (by rfl) (fun v hv => ?_) (fun v hv => ?_)
    · rw [if_pos hv]
      refine Sem.skip (env' := upd (envOf [ptrVal a]) 1 nullPtr) (fun _ _ _ _ _ => rfl) ?_
      refine Sem.step (SSem.setPtr (ESem.ldPtr (pre := anySt) (a := a) (by rfl))) fun d => ?_
      by_cases hd : d ≠ 0
      · rw [if_pos hd]
        exact objectsLoop_src (a := a) (fun env he => hk env he _) (h.next + 1) d _ hd (by rfl) (by rfl)
      · rw [if_neg hd]
        intro st h _ _ b st' h' hr
        cases hr
    · rw [if_neg (by simp [hv])]
      exact hk _ (by rfl) _

theorem valueEntryFree_src : FreeSpec .sml_value_entry_free_ pValueEntryFree :=
  FreeSpec.struct' (fs := [.sml_value_free, .sml_octet_string_free]) rfl rfl rfl
    ⟨valueFree_src, octetStringFree_src, trivial⟩

theorem frees_valueEntry (a : Addr) : OnlyFrees (pValueEntryFree a) :=
  OnlyFrees.struct _ (.cons frees_value (.cons frees_octet (.nil))) a

theorem headerEntryFree_src : FreeSpec .sml_prof_obj_header_entry_free_ pProfObjHeaderEntryFree :=
  FreeSpec.struct' (fs := [.sml_octet_string_free, .sml_number_free, .sml_number_free]) rfl rfl rfl
    ⟨octetStringFree_src, numberFree_src, numberFree_src, trivial⟩

theorem frees_headerEntry (a : Addr) : OnlyFrees (pProfObjHeaderEntryFree a) :=
  OnlyFrees.struct _ (.cons frees_octet (.cons frees_number (.cons frees_number (.nil)))) a

theorem profPeriodEntryFree_src : FreeSpec .sml_prof_obj_period_entry_free_ pProfObjPeriodEntryFree :=
  FreeSpec.struct' (fs := [.sml_time_free, .sml_number_free, .sml_sequence_free, .sml_octet_string_free]) rfl rfl rfl
    ⟨timeFree_src, numberFree_src, (sequenceFree_src valueEntryFree_src frees_valueEntry), octetStringFree_src, trivial⟩

theorem frees_profPeriodEntry (a : Addr) : OnlyFrees (pProfObjPeriodEntryFree a) :=
  OnlyFrees.struct _ (.cons frees_time (.cons frees_number (.cons (OnlyFrees.seq frees_valueEntry) (.cons frees_octet (.nil))))) a

theorem periodEntryFreeGet_src : FreeSpec .sml_period_entry_free_get pPeriodEntryFree := FreeSpec.wrap (f := .sml_period_entry_free) rfl rfl rfl periodEntryFree_src

theorem openRequestFree_src : FreeSpec .sml_open_request_free pOpenRequestFree :=
  FreeSpec.struct (fs := [.sml_octet_string_free, .sml_octet_string_free, .sml_octet_string_free, .sml_octet_string_free, .sml_octet_string_free, .sml_octet_string_free, .sml_number_free]) rfl rfl rfl
    ⟨octetStringFree_src, octetStringFree_src, octetStringFree_src, octetStringFree_src, octetStringFree_src, octetStringFree_src, numberFree_src, trivial⟩

theorem frees_openRequest (a : Addr) : OnlyFrees (pOpenRequestFree a) :=
  OnlyFrees.struct _ (.cons frees_octet (.cons frees_octet (.cons frees_octet (.cons frees_octet (.cons frees_octet (.cons frees_octet (.cons frees_number (.nil)))))))) a

theorem openResponseFree_src : FreeSpec .sml_open_response_free pOpenResponseFree :=
  FreeSpec.struct (fs := [.sml_octet_string_free, .sml_octet_string_free, .sml_octet_string_free, .sml_octet_string_free, .sml_time_free, .sml_number_free]) rfl rfl rfl
    ⟨octetStringFree_src, octetStringFree_src, octetStringFree_src, octetStringFree_src, timeFree_src, numberFree_src, trivial⟩

theorem frees_openResponse (a : Addr) : OnlyFrees (pOpenResponseFree a) :=
  OnlyFrees.struct _ (.cons frees_octet (.cons frees_octet (.cons frees_octet (.cons frees_octet (.cons frees_time (.cons frees_number (.nil))))))) a

theorem closeRequestFree_src : FreeSpec .sml_close_request_free pCloseRequestFree :=
  FreeSpec.struct (fs := [.sml_octet_string_free]) rfl rfl rfl
    ⟨octetStringFree_src, trivial⟩

theorem frees_closeRequest (a : Addr) : OnlyFrees (pCloseRequestFree a) :=
  OnlyFrees.struct _ (.cons frees_octet (.nil)) a

theorem closeResponseFree_src : FreeSpec .sml_close_response_free pCloseResponseFree :=
  FreeSpec.struct (fs := [.sml_octet_string_free]) rfl rfl rfl
    ⟨octetStringFree_src, trivial⟩

theorem frees_closeResponse (a : Addr) : OnlyFrees (pCloseResponseFree a) :=
  OnlyFrees.struct _ (.cons frees_octet (.nil)) a

theorem packResponseFree_src : FreeSpec .sml_get_profile_pack_response_free pGetProfilePackResponseFree :=
  FreeSpec.struct (fs := [.sml_octet_string_free, .sml_time_free, .sml_number_free, .sml_tree_path_free, .sml_sequence_free, .sml_sequence_free, .sml_octet_string_free, .sml_octet_string_free]) rfl rfl rfl
    ⟨octetStringFree_src, timeFree_src, numberFree_src, treePathFree_src, (sequenceFree_src headerEntryFree_src frees_headerEntry), (sequenceFree_src profPeriodEntryFree_src frees_profPeriodEntry), octetStringFree_src, octetStringFree_src, trivial⟩

theorem frees_packResponse (a : Addr) : OnlyFrees (pGetProfilePackResponseFree a) :=
  OnlyFrees.struct _ (.cons frees_octet (.cons frees_time (.cons frees_number (.cons frees_treePath (.cons (OnlyFrees.seq frees_headerEntry) (.cons (OnlyFrees.seq frees_profPeriodEntry) (.cons frees_octet (.cons frees_octet (.nil))))))))) a

theorem listResponseProfileFree_src : FreeSpec .sml_get_profile_list_response_free pGetProfileListResponseFree :=
  FreeSpec.struct (fs := [.sml_octet_string_free, .sml_time_free, .sml_number_free, .sml_tree_path_free, .sml_time_free, .sml_number_free, .sml_sequence_free, .sml_octet_string_free, .sml_octet_string_free]) rfl rfl rfl
    ⟨octetStringFree_src, timeFree_src, numberFree_src, treePathFree_src, timeFree_src, numberFree_src, (sequenceFree_src periodEntryFreeGet_src frees_period), octetStringFree_src, octetStringFree_src, trivial⟩

theorem frees_listResponseProfile (a : Addr) : OnlyFrees (pGetProfileListResponseFree a) :=
  OnlyFrees.struct _ (.cons frees_octet (.cons frees_time (.cons frees_number (.cons frees_treePath (.cons frees_time (.cons frees_number (.cons (OnlyFrees.seq frees_period) (.cons frees_octet (.cons frees_octet (.nil)))))))))) a

theorem procParameterRequestFree_src : FreeSpec .sml_get_proc_parameter_request_free pGetProcParameterRequestFree :=
  FreeSpec.struct (fs := [.sml_octet_string_free, .sml_octet_string_free, .sml_octet_string_free, .sml_tree_path_free, .sml_octet_string_free]) rfl rfl rfl
    ⟨octetStringFree_src, octetStringFree_src, octetStringFree_src, treePathFree_src, octetStringFree_src, trivial⟩

theorem frees_procParameterRequest (a : Addr) : OnlyFrees (pGetProcParameterRequestFree a) :=
  OnlyFrees.struct _ (.cons frees_octet (.cons frees_octet (.cons frees_octet (.cons frees_treePath (.cons frees_octet (.nil)))))) a

theorem procParameterResponseFree_src : FreeSpec .sml_get_proc_parameter_response_free pGetProcParameterResponseFree :=
  FreeSpec.struct (fs := [.sml_octet_string_free, .sml_tree_path_free, .sml_tree_free]) rfl rfl rfl
    ⟨octetStringFree_src, treePathFree_src, treeFree_src, trivial⟩

theorem frees_procParameterResponse (a : Addr) : OnlyFrees (pGetProcParameterResponseFree a) :=
  OnlyFrees.struct _ (.cons frees_octet (.cons frees_treePath (.cons frees_treeFree (.nil)))) a

theorem setProcParameterRequestFree_src : FreeSpec .sml_set_proc_parameter_request_free pSetProcParameterRequestFree :=
  FreeSpec.struct (fs := [.sml_octet_string_free, .sml_octet_string_free, .sml_octet_string_free, .sml_tree_path_free, .sml_tree_free]) rfl rfl rfl
    ⟨octetStringFree_src, octetStringFree_src, octetStringFree_src, treePathFree_src, treeFree_src, trivial⟩

theorem frees_setProcParameterRequest (a : Addr) : OnlyFrees (pSetProcParameterRequestFree a) :=
  OnlyFrees.struct _ (.cons frees_octet (.cons frees_octet (.cons frees_octet (.cons frees_treePath (.cons frees_treeFree (.nil)))))) a

theorem getListResponseFree_src : FreeSpec .sml_get_list_response_free pGetListResponseFree :=
  FreeSpec.struct (fs := [.sml_octet_string_free, .sml_octet_string_free, .sml_octet_string_free, .sml_time_free, .sml_list_free, .sml_octet_string_free, .sml_time_free]) rfl rfl rfl
    ⟨octetStringFree_src, octetStringFree_src, octetStringFree_src, timeFree_src, listFree_src, octetStringFree_src, timeFree_src, trivial⟩

theorem frees_getListResponse (a : Addr) : OnlyFrees (pGetListResponseFree a) :=
  OnlyFrees.struct _ (.cons frees_octet (.cons frees_octet (.cons frees_octet (.cons frees_time (.cons frees_list (.cons frees_octet (.cons frees_time (.nil)))))))) a

theorem attentionResponseFree_src : FreeSpec .sml_attention_response_free pAttentionResponseFree :=
  FreeSpec.struct (fs := [.sml_octet_string_free, .sml_octet_string_free, .sml_octet_string_free, .sml_tree_free]) rfl rfl rfl
    ⟨octetStringFree_src, octetStringFree_src, octetStringFree_src, treeFree_src, trivial⟩

theorem frees_attentionResponse (a : Addr) : OnlyFrees (pAttentionResponseFree a) :=
  OnlyFrees.struct _ (.cons frees_octet (.cons frees_octet (.cons frees_octet (.cons frees_treeFree (.nil))))) a

theorem getListRequestFree_src : FreeSpec .sml_get_list_request_free pGetListRequestFree := by
  refine FreeSpec.guard rfl rfl rfl (q := fun a => readPtr a 0 >>= fun v => pOctetStringFree v >>= fun _ => readPtr a 1 >>= fun v => pOctetStringFree v >>= fun _ =>
    readPtr a 4 >>= fun v => pOctetStringFree v >>= fun _ => readPtr a 2 >>= fun v => pOctetStringFree v >>= fun _ =>
    readPtr a 3 >>= fun v => pOctetStringFree v >>= fun _ => free a) (fun a => ?_) fun K a h0 => ?_
  · unfold pGetListRequestFree
    by_cases h : a = 0 <;> simp [h]
  exact Sem.freeField (a := a) (by rfl) octetStringFree_src (Sem.freeField (a := a) (by rfl) octetStringFree_src (Sem.freeField (a := a) (by rfl) octetStringFree_src
    (Sem.freeField (a := a) (by rfl) octetStringFree_src (Sem.freeField (a := a) (by rfl) octetStringFree_src (Sem.freeEnd (by rfl))))))

theorem frees_getListRequest (a : Addr) : OnlyFrees (pGetListRequestFree a) :=
  .ite _ .pure (.bind .readPtr fun _ => .bind (frees_octet _) fun _ => .bind .readPtr fun _ => .bind (frees_octet _) fun _ => .bind .readPtr fun _ => .bind (frees_octet _) fun _ =>
    .bind .readPtr fun _ => .bind (frees_octet _) fun _ => .bind .readPtr fun _ => .bind (frees_octet _) fun _ => .free)

theorem frees_packRequest (a : Addr) : OnlyFrees (pGetProfilePackRequestFree a) :=
  OnlyFrees.struct _ (.cons frees_octet (.cons frees_octet (.cons frees_octet (.cons frees_number (.cons frees_time (.cons frees_time (.cons frees_treePath
    (.cons frees_objectsFree (.cons frees_treeFree .nil))))))))) a

theorem frees_bodyData (t : Nat) (d : Addr) : OnlyFrees (pBodyDataFree t d) :=
  .ite _ (frees_openRequest d) (.ite _ (frees_openResponse d) (.ite _ (frees_closeRequest d) (.ite _ (frees_closeResponse d) (.ite _ (frees_packRequest d)
    (.ite _ (frees_packResponse d) (.ite _ (frees_packRequest d) (.ite _ (frees_listResponseProfile d) (.ite _ (frees_procParameterRequest d)
    (.ite _ (frees_procParameterResponse d) (.ite _ (frees_setProcParameterRequest d) (.ite _ (frees_getListRequest d) (.ite _ (frees_getListResponse d)
    (.ite _ (frees_attentionResponse d) .pure)))))))))))))

theorem frees_messageBody (a : Addr) : OnlyFrees (pMessageBodyFree a) :=
  .ite _ (.bind .readPtr fun _ => .bind .readTag fun _ => .bind .readPtr fun _ => .bind (frees_bodyData _ _) fun _ => .bind .readPtr fun _ => .bind (frees_number _) fun _ => .free) .pure

/-- A switch for one value of the tag. -/
theorem Sem.switchTag {q : P β} {ty : ITy} {v : Nat} (A : List Stmt) (ha : env x = ptrVal a) (hw : ty.size = w) (hc : ∀ v : Nat, v < 256 ^ w → ty.conv v = v)
    (hA : UpToBreak A (pick v cs)) (hq : Sem K body (A ++ ss) env anySt q vl post) :
    Sem K body (.switch (.deref ty (.ldPtr (.var x) i)) cs :: ss) env anySt
      ((readPtr a i >>= fun tag => readTag w tag) >>= fun t => if t.val = v then q else fault .kind) vl post := by
  intro st h hi _ b st' h' hr
  replace hr := P_bind_eq_ok hr
  obtain ⟨t, s1, h1, e1, hr⟩ := hr
  obtain ⟨i1, _, r1⟩ := (ESem.deref (K := K) (ty := ty) (pre := anySt) (ESem.ldPtr ha) hw hc).ev hi trivial e1
  by_cases ht : t.val = v
  · rw [if_pos ht] at hr
    subst ht
    obtain ⟨i2, q2, r2⟩ := hq.run i1 trivial hr
    exact ⟨i2, q2, RunTo.switch hA r1 r2⟩
  · rw [if_neg ht] at hr
    cases hr

theorem messageBodyFree_src : FreeSpec .sml_message_body_free pMessageBodyFree := by
  refine FreeSpec.guard rfl rfl rfl (fun _ => rfl) fun K a h0 => ?_
  have hn : ∀ {body}, Sem K body [.expr (.call .sml_number_free [.ldPtr (.var 0) 0]), .free (.var 0)] (envOf [ptrVal a]) anySt
      (readPtr a 0 >>= fun tag => pNumberFree tag >>= fun _ => free a) (fun _ => .undef) anyRes :=
    Sem.freeField (a := a) (by rfl) numberFree_src (Sem.freeEnd (by rfl))
  have hd : ∀ {f g}, FreeSpec f g → ∀ {body}, Sem K body [.expr (.call f [.ldPtr (.var 0) 1]), .expr (.call .sml_number_free [.ldPtr (.var 0) 0]), .free (.var 0)] (envOf [ptrVal a]) anySt
      (readPtr a 1 >>= fun d => g d >>= fun _ => readPtr a 0 >>= fun tag => pNumberFree tag >>= fun _ => free a) (fun _ => .undef) anyRes :=
    fun hf _ => Sem.freeField (a := a) (by rfl) hf hn
  refine Sem.of_run fun st h b st' h' hi _ hr => ?_
  rw [← P_bind_assoc] at hr
  replace hr := P_bind_eq_ok hr
  obtain ⟨t, s1, h1, e1, hr⟩ := hr
  have key : ∀ {v : Nat} {q : P Unit}, t.val = v → q s1 h1 = .ok b st' h' →
      ((readPtr a 0 >>= fun tag => readTag 4 tag) >>= fun t => if t.val = v then q else fault .kind) st h = .ok b st' h' := by
    intro v q hv hq
    rw [P.bind_ok e1, if_pos hv]
    exact hq
  have hdata : ∀ {g : Addr → P Unit}, (∀ d, pBodyDataFree t.val d = g d) →
      (readPtr a 1 >>= fun d => g d >>= fun _ => readPtr a 0 >>= fun tag => pNumberFree tag >>= fun _ => free a) s1 h1 = .ok b st' h' := by
    intro g hg
    rw [← funext hg]
    exact hr
  by_cases h256 : t.val = 256
  · exact ⟨_, key h256 (hdata (g := pOpenRequestFree) fun d => by rw [h256]; rfl), Sem.switchTag (a := a) [.expr (.call .sml_open_request_free [.ldPtr (.var 0) 1])] (by rfl) rfl conv_u32_nat ⟨rfl, .inr ⟨_, rfl⟩⟩ (hd openRequestFree_src)⟩
  by_cases h257 : t.val = 257
  · exact ⟨_, key h257 (hdata (g := pOpenResponseFree) fun d => by rw [h257]; rfl), Sem.switchTag (a := a) [.expr (.call .sml_open_response_free [.ldPtr (.var 0) 1])] (by rfl) rfl conv_u32_nat ⟨rfl, .inr ⟨_, rfl⟩⟩ (hd openResponseFree_src)⟩
  by_cases h512 : t.val = 512
  · exact ⟨_, key h512 (hdata (g := pCloseRequestFree) fun d => by rw [h512]; rfl), Sem.switchTag (a := a) [.expr (.call .sml_close_request_free [.ldPtr (.var 0) 1])] (by rfl) rfl conv_u32_nat ⟨rfl, .inr ⟨_, rfl⟩⟩ (hd closeRequestFree_src)⟩
  by_cases h513 : t.val = 513
  · exact ⟨_, key h513 (hdata (g := pCloseResponseFree) fun d => by rw [h513]; rfl), Sem.switchTag (a := a) [.expr (.call .sml_close_response_free [.ldPtr (.var 0) 1])] (by rfl) rfl conv_u32_nat ⟨rfl, .inr ⟨_, rfl⟩⟩ (hd closeResponseFree_src)⟩
  by_cases h768 : t.val = 768
  · exact ⟨_, key h768 (hdata (g := pGetProfilePackRequestFree) fun d => by rw [h768]; rfl), Sem.switchTag (a := a) [.expr (.call .sml_get_profile_pack_request_free [.ldPtr (.var 0) 1])] (by rfl) rfl conv_u32_nat ⟨rfl, .inr ⟨_, rfl⟩⟩ (hd packRequestFree_src)⟩
  by_cases h769 : t.val = 769
  · exact ⟨_, key h769 (hdata (g := pGetProfilePackResponseFree) fun d => by rw [h769]; rfl), Sem.switchTag (a := a) [.expr (.call .sml_get_profile_pack_response_free [.ldPtr (.var 0) 1])] (by rfl) rfl conv_u32_nat ⟨rfl, .inr ⟨_, rfl⟩⟩ (hd packResponseFree_src)⟩
  by_cases h1024 : t.val = 1024
  · exact ⟨_, key h1024 (hdata (g := pGetProfilePackRequestFree) fun d => by rw [h1024]; rfl), Sem.switchTag (a := a) [.expr (.call .sml_get_profile_pack_request_free [.ldPtr (.var 0) 1])] (by rfl) rfl conv_u32_nat ⟨rfl, .inr ⟨_, rfl⟩⟩ (hd packRequestFree_src)⟩
  by_cases h1025 : t.val = 1025
  · exact ⟨_, key h1025 (hdata (g := pGetProfileListResponseFree) fun d => by rw [h1025]; rfl), Sem.switchTag (a := a) [.expr (.call .sml_get_profile_list_response_free [.ldPtr (.var 0) 1])] (by rfl) rfl conv_u32_nat ⟨rfl, .inr ⟨_, rfl⟩⟩ (hd listResponseProfileFree_src)⟩
  by_cases h1280 : t.val = 1280
  · exact ⟨_, key h1280 (hdata (g := pGetProcParameterRequestFree) fun d => by rw [h1280]; rfl), Sem.switchTag (a := a) [.expr (.call .sml_get_proc_parameter_request_free [.ldPtr (.var 0) 1])] (by rfl) rfl conv_u32_nat ⟨rfl, .inr ⟨_, rfl⟩⟩ (hd procParameterRequestFree_src)⟩
  by_cases h1281 : t.val = 1281
  · exact ⟨_, key h1281 (hdata (g := pGetProcParameterResponseFree) fun d => by rw [h1281]; rfl), Sem.switchTag (a := a) [.expr (.call .sml_get_proc_parameter_response_free [.ldPtr (.var 0) 1])] (by rfl) rfl conv_u32_nat ⟨rfl, .inr ⟨_, rfl⟩⟩ (hd procParameterResponseFree_src)⟩
  by_cases h1536 : t.val = 1536
  · exact ⟨_, key h1536 (hdata (g := pSetProcParameterRequestFree) fun d => by rw [h1536]; rfl), Sem.switchTag (a := a) [.expr (.call .sml_set_proc_parameter_request_free [.ldPtr (.var 0) 1])] (by rfl) rfl conv_u32_nat ⟨rfl, .inr ⟨_, rfl⟩⟩ (hd setProcParameterRequestFree_src)⟩
  by_cases h1792 : t.val = 1792
  · exact ⟨_, key h1792 (hdata (g := pGetListRequestFree) fun d => by rw [h1792]; rfl), Sem.switchTag (a := a) [.expr (.call .sml_get_list_request_free [.ldPtr (.var 0) 1])] (by rfl) rfl conv_u32_nat ⟨rfl, .inr ⟨_, rfl⟩⟩ (hd getListRequestFree_src)⟩
  by_cases h1793 : t.val = 1793
  · exact ⟨_, key h1793 (hdata (g := pGetListResponseFree) fun d => by rw [h1793]; rfl), Sem.switchTag (a := a) [.expr (.call .sml_get_list_response_free [.ldPtr (.var 0) 1])] (by rfl) rfl conv_u32_nat ⟨rfl, .inr ⟨_, rfl⟩⟩ (hd getListResponseFree_src)⟩
  by_cases h65281 : t.val = 65281
  · exact ⟨_, key h65281 (hdata (g := pAttentionResponseFree) fun d => by rw [h65281]; rfl), Sem.switchTag (a := a) [.expr (.call .sml_attention_response_free [.ldPtr (.var 0) 1])] (by rfl) rfl conv_u32_nat ⟨rfl, .inr ⟨_, rfl⟩⟩ (hd attentionResponseFree_src)⟩
  refine ⟨_, key (v := t.val) (q := (readPtr a 0 >>= fun tag => readTag 4 tag) >>= fun _ => readPtr a 0 >>= fun tag => pNumberFree tag >>= fun _ => free a) rfl ?_,
    Sem.switchTag (a := a) [.print [.deref .u32 (.ldPtr (.var 0) 0)]] (by rfl) rfl conv_u32_nat ⟨rfl, .inr ⟨[], pick_dflt ?_⟩⟩ ?_⟩
  · have hb : ∀ d, pBodyDataFree t.val d = pure () := by
      intro d
      unfold pBodyDataFree
      simp only [tagOpenRequest, tagOpenResponse, tagCloseRequest, tagCloseResponse, tagGetProfilePackRequest, tagGetProfilePackResponse, tagGetProfileListRequest, tagGetProfileListResponse, tagGetProcParameterRequest, tagGetProcParameterResponse, tagSetProcParameterRequest, tagGetListRequest, tagGetListResponse, tagAttentionResponse, h256, h257, h512, h513, h768, h769, h1024, h1025, h1280, h1281, h1536, h1792, h1793, h65281, if_false]
    have e2 := hdata hb
    replace e2 := P_bind_eq_ok e2
    obtain ⟨d, s2, h2, e3, e2⟩ := e2
    obtain ⟨_, rfl, rfl, _⟩ := readPtr_eq_ok e3
    obtain ⟨v, s4, h4, e4, e5⟩ := P_bind_eq_ok e1
    have e4' := e4
    obtain ⟨_, rfl, rfl, _⟩ := readPtr_eq_ok e4'
    have e5' := e5
    obtain ⟨_, rfl, rfl, _⟩ := readTag_eq_ok e5'
    rw [P.bind_ok e1]
    rwa [P_pure_bind] at e2
  · simp only [hasCase, Bool.or_eq_false_iff, decide_eq_false_iff_not, and_true]
    omega
  · exact Sem.step (SSem.print (ESem.deref (ESem.ldPtr (pre := anySt) (a := a) (by rfl)) rfl conv_u32_nat)) fun _ => hn

theorem messageFree_src : FreeSpec .sml_message_free pMessageFree :=
  FreeSpec.struct (fs := [.sml_octet_string_free, .sml_number_free, .sml_number_free, .sml_message_body_free, .sml_number_free]) rfl rfl rfl
    ⟨octetStringFree_src, numberFree_src, numberFree_src, messageBodyFree_src, numberFree_src, trivial⟩

theorem frees_message (a : Addr) : OnlyFrees (pMessageFree a) :=
  OnlyFrees.struct _ (.cons frees_octet (.cons frees_number (.cons frees_number (.cons frees_messageBody (.cons frees_number (.nil)))))) a

end Sml.C
