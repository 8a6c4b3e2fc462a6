import Verif.Proofs.SourceWriteRules

/-!
# The write functions of sequences, trees and lists, run from their source
-/

namespace Sml.C

/-! ## Loops over the elements of an array -/

theorem Sem.forEachW {q : P β} {ce : Expr} {g : Addr → P Unit} {t : ITy} {y : Nat} (hy : y ≠ 0) (ht : ITy.usual .i32 t = .i32) (h0 : env 0 = ptrVal s)
    (he : ∀ k, ESem K ce (upd env y (.int .i32 (k : Nat))) anySt (pure () >>= fun _ => readPtr s i >>= fun arr => readPtr arr k >>= g) (fun _ => .undef) anyRes)
    (hk : ∀ k, Sem K body ss (upd env y (.int .i32 (k : Nat))) anySt q vl post) : (fuel k : Nat) → k ≤ 2147483647 →
    Sem K body (.loop (.bin .lt (.var y) (.ldInt t (.var 0) 0)) [.expr ce] [.set .i32 y (.bin .add (.var y) (.lit .i32 1))] :: ss)
      (upd env y (.int .i32 (k : Nat))) anySt (pForEachR (pure ()) g s i fuel k >>= fun _ => q) vl post
  | 0, k, _ => by
    intro st h _ _ b st' h' hr
    obtain ⟨_, _, _, e, _⟩ := P_bind_eq_ok hr
    cases e
  | fuel + 1, k, hle => by
    refine Sem.loop rfl rfl ?_
    intro st h hi _ b st' h' hr
    rw [pForEachR, P_bind_assoc] at hr
    replace hr := P_bind_eq_ok hr
    obtain ⟨n, s1, h1, e1, hr⟩ := hr
    have e1' := e1
    obtain ⟨_, rfl, rfl, ps, is, hc, hv⟩ := readInt_eq_ok e1'
    have hn : n ≤ 2147483647 := hi.ints _ _ hc n (List.mem_of_getElem? hv)
    have ev : EvalTo (.bin .lt (.var y) (.ldInt t (.var 0) 0)) (upd env y (.int .i32 (k : Nat))) (conc K s1 h1) (ofBool (decide ((k : Int) < n)))
        (upd env y (.int .i32 (k : Nat))) (conc K s1 h1) := by
      refine .bin (.int upd_same) (.ldInt (.ptr ((upd_other (Ne.symm hy)).trans h0)) (loadInt_cell hi e1)) ?_
      exact bin_lt (ta := .i32) (tb := t) (by rw [ht]; exact conv_i32 (by omega) (by omega)) (by rw [ht]; exact conv_i32 (by omega) (by omega))
    by_cases hkn : k < n
    · rw [if_pos hkn, P_bind_assoc] at hr
      replace hr := P_bind_eq_ok hr
      obtain ⟨u, s2, h2, e2, hr⟩ := hr
      obtain ⟨i2, _, r2⟩ := (he k).ev hi trivial e2
      obtain ⟨i3, q3, r3⟩ := (Sem.forEachW (body := body) (ss := ss) hy ht h0 he hk fuel (k + 1) (by omega)).run i2 trivial hr
      refine ⟨i3, q3, RunTo.ite ev (truth_pos (by omega)) ?_⟩
      rw [if_pos rfl]
      refine RunTo.cons (.expr r2) (RunTo.cons (env1 := upd env y (.int .i32 (k + 1 : Nat))) ?_ r3)
      have eb : binOp .add (.int .i32 k) (.int .i32 1) (upd env y (.int .i32 (k : Nat))) (conc K s2 h2) =
          .ok (.int .i32 (k + 1 : Nat)) (upd env y (.int .i32 (k : Nat))) (conc K s2 h2) := by
        rw [bin_add (ta := .i32) (tb := .i32) (conv_i32 (by omega) (by omega)) (conv_i32 (by omega) (by omega))]
        exact arith_i32 (n := (k : Int) + 1) (by omega) (by omega)
      have := ExecTo.set (ty := .i32) (x := y) (k' := (k + 1 : Nat)) (EvalTo.bin (a := .var y) (b := .lit .i32 1) (.int upd_same) .lit eb)
        (conv_i32 (by omega) (by omega))
      rwa [upd_upd] at this
    · rw [if_neg hkn] at hr
      rw [P_pure_bind] at hr
      obtain ⟨i3, q3, r3⟩ := (hk k).run hi trivial hr
      refine ⟨i3, q3, RunTo.ite ev (truth_neg (by omega)) ?_⟩
      exact r3

/-- `for (i = 0; i < s->len; i++) w(s->arr[i], buf);` -/
theorem Sem.writeEach {ce : Expr} {g : Addr → P Unit} {t : ITy} {y : Nat} (hy : y ≠ 0) (ht : ITy.usual .i32 t = .i32) (h0 : env 0 = ptrVal s) (hg : ∀ a, Keeps (g a))
    (he : ∀ k, ESem K ce (upd env y (.int .i32 (k : Nat))) anySt ((readPtr s i >>= fun arr => readPtr arr k) >>= g) (fun _ => .undef) anyRes) :
    Sem K body [.set .i32 y (.lit .i32 0), .loop (.bin .lt (.var y) (.ldInt t (.var 0) 0)) [.expr ce]
      [.set .i32 y (.bin .add (.var y) (.lit .i32 1))]] env anySt (readInt s 0 >>= fun n => pForEach g s i n 0) (fun _ => .undef) anyRes := by
  refine Sem.of_run fun st h b st' h' hi _ hr => ?_
  replace hr := P_bind_eq_ok hr
  obtain ⟨n, s1, h1, e1, hr⟩ := hr
  obtain ⟨hs, rfl, rfl, ps, is, hc, hv⟩ := readInt_eq_ok e1
  have hh := Keeps.forEach hg s i _ _ _ _ _ _ _ hr
  refine ⟨pForEachR (pure ()) g s i (n + 1) 0 >>= fun _ => pure (), ?_, ?_⟩
  · rw [P_bind_unit]
    exact forEach_reread (fun a => (hg a).frees) hs (c := pure ()) (fun _ _ _ => rfl) n 0 _ _ hc (by rw [hv, Nat.zero_add]) hr (by rw [hh, hc]; exact fun h => nomatch h)
  · refine Sem.skip (env' := upd env y (.int .i32 (0 : Nat))) (fun _ _ _ _ _ => rfl) ?_
    refine Sem.forEachW hy ht h0 (fun k => ?_) (fun _ => Sem.end_) _ _ (by omega)
    have : (pure () >>= fun _ => readPtr s i >>= fun arr => readPtr arr k >>= g : P Unit) = ((readPtr s i >>= fun arr => readPtr arr k) >>= g) := by
      rw [P_pure_bind, P_bind_assoc]
    rw [this]
    exact he k

/-- The header of an array: its length is the number of elements. -/
theorem Sem.hdrLen {k : P β} (h0 : env 0 = ptrVal a) (h1 : env 1 = K.buf) (hk : Sem K body ss env anySt k vl post) :
    Sem K body (.expr (.call .sml_buf_set_type_and_length [.var 1, .lit .i32 112, .ldInt .i32 (.var 0) 0]) :: ss) env anySt
      (readInt a 0 >>= fun n => lift (setTypeAndLength tyList n) >>= fun _ => k) vl post := by
  intro st h hi _ b st' h' hr
  replace hr := P_bind_eq_ok hr
  obtain ⟨n, s1, h1', e1, hr⟩ := hr
  have e1' := e1
  obtain ⟨_, rfl, rfl, ps, is, hc, hv⟩ := readInt_eq_ok e1'
  have hn : n ≤ 2147483647 := hi.ints _ _ hc n (List.mem_of_getElem? hv)
  replace hr := P_bind_eq_ok hr
  obtain ⟨u, s2, h2, e2, hr⟩ := hr
  have e2' := lift_eq_ok e2
  obtain ⟨e2', rfl⟩ := e2'
  obtain ⟨⟨g, l⟩, _, r⟩ := setTypeAndLength_src .i32 .i32 (show tyList < 256 by decide) (show n < 4294967296 by omega) K s1 h2.next (K.blocks h2) hi.good trivial _ _ e2'
  obtain ⟨i3, q3, r3⟩ := hk.run (hi.of_good g l) trivial hr
  exact ⟨i3, q3, RunTo.cons (.expr (.call (.cons (ev_buf K h1) (.cons .lit (.one (.ldInt (.ptr h0) (loadInt_cell hi e1))))) r)) r3⟩

theorem ESem.elemW {g : Addr → P Unit} {y : Nat} (hy0 : y ≠ 0) (hy1 : y ≠ 1) (h0 : env 0 = ptrVal s) (h1 : env 1 = K.buf) (hf : WriteSpec f g) (k : Nat) :
    ESem K (.call f [.elem (.ldPtr (.var 0) i) (.var y), .var 1]) (upd env y (.int .i32 (k : Nat))) anySt ((readPtr s i >>= fun arr => readPtr arr k) >>= g) (fun _ => .undef) anyRes :=
  ESem.callArg (as := fun K => [K.buf]) (ESem.elem (ESem.ldPtr (K := K) (pre := anySt) ((upd_other (Ne.symm hy0)).trans h0)) upd_same)
    (fun _ _ => evals_var ((upd_other (Ne.symm hy1)).trans h1) ptr_ne) fun b => hf b

/-- `if (x->m && x->len > 0)`. -/
theorem Sem.iteBoth {i : Nat} {p q : P Unit} (h0 : env 0 = ptrVal a) (hp : Sem K body (A ++ ss) env anySt p vl post) (hq : Sem K body (B ++ ss) env anySt q vl post) :
    Sem K body (.ite (.and (.ldPtr (.var 0) i) (.bin .gt (.ldInt .i32 (.var 0) 0) (.lit .i32 0))) A B :: ss) env anySt
      (readPtr a i >>= fun v => readInt a 0 >>= fun n => if v ≠ 0 ∧ n > 0 then p else q) vl post := by
  intro st h hi _ b st' h' hr
  replace hr := P_bind_eq_ok hr
  obtain ⟨v, s1, h1, e1, hr⟩ := hr
  replace hr := P_bind_eq_ok hr
  obtain ⟨n, s2, h2, e2, hr⟩ := hr
  have e1' := e1
  obtain ⟨_, rfl, rfl, _⟩ := readPtr_eq_ok e1'
  have e2' := e2
  obtain ⟨_, rfl, rfl, ps, is, hc, hv⟩ := readInt_eq_ok e2'
  have hn : n ≤ 2147483647 := hi.ints _ _ hc n (List.mem_of_getElem? hv)
  have ev1 : EvalTo (.ldPtr (.var 0) i) env (conc K s2 h2) (ptrVal v) env (conc K s2 h2) := .ldPtr (.ptr h0) (loadPtr_cell hi e1)
  have ev2 : EvalTo (.bin .gt (.ldInt .i32 (.var 0) 0) (.lit .i32 0)) env (conc K s2 h2) (ofBool (decide ((n : Int) > 0))) env (conc K s2 h2) :=
    .bin (.ldInt (.ptr h0) (loadInt_cell hi e2)) .lit (bin_gt (ta := .i32) (tb := .i32) (conv_i32 (by omega) (by omega)) (conv_i32 (by omega) (by omega)))
  by_cases hv0 : v = 0
  · rw [if_neg (by simp [hv0])] at hr
    obtain ⟨i3, q3, r3⟩ := hq.run hi trivial hr
    exact ⟨i3, q3, RunTo.ite (.and_f ev1 (by subst hv0; rfl)) (truth_f rfl) r3⟩
  by_cases hn0 : n > 0
  · rw [if_pos ⟨hv0, hn0⟩] at hr
    obtain ⟨i3, q3, r3⟩ := hp.run hi trivial hr
    exact ⟨i3, q3, RunTo.ite (.and_t ev1 (truth_ptr hv0) ev2 (truth_pos (by omega))) (truth_t rfl) r3⟩
  · rw [if_neg (by simp [hn0])] at hr
    obtain ⟨i3, q3, r3⟩ := hq.run hi trivial hr
    exact ⟨i3, q3, RunTo.ite (.and_t ev1 (truth_ptr hv0) ev2 (truth_neg (by omega))) (truth_f rfl) r3⟩

theorem treePathWrite_src : WriteSpec .sml_tree_path_write pTreePathWrite := by
  refine WriteSpec.guard rfl rfl rfl (fun _ => rfl) fun K a h0 => ?_
  refine Sem.iteBoth (a := a) (by rfl) ?_ Sem.end_
  refine Sem.hdrLen (by rfl) (by rfl) ?_
  exact Sem.writeEach (y := 2) (by decide) rfl (by rfl) keeps_octet fun k => ESem.elemW (by decide) (by decide) (by rfl) (by rfl) octetStringWrite_src k

theorem sequenceWrite_src {g : Addr → P Unit} (hf : WriteSpec f g) (hg : ∀ a, Keeps (g a)) (ht : f.byPtr = true := by first | rfl | assumption) :
    CallSpec .sml_sequence_write [.var 1, .fn f] (pSequenceWrite g) := by
  refine ⟨fun K => [K.buf, .fn f], fun _ _ h1 _ _ => evals_cons (eval_var h1) (evals_cons rfl evals_nil), fun a => ?_⟩
  intro K st h hi _ b st' h' hr
  suffices hs : Inv K st' h' ∧ RunTo (program .sml_sequence_write).body (program .sml_sequence_write).body (envOf [ptrVal a, K.buf, .fn f])
      (conc K st h) .undef (conc K st' h') by
    exact ⟨hs.1, trivial, CallTo.of (fun _ _ => rfl) hs.2 (res_void K)⟩
  generalize hE : envOf [ptrVal a, K.buf, .fn f] = E
  have E0 : E 0 = ptrVal a := by subst hE; rfl
  have E1 : E 1 = K.buf := by subst hE; rfl
  have E2 : E 2 = .fn f := by subst hE; rfl
  unfold pSequenceWrite at hr
  by_cases ha : a = 0
  · rw [if_pos ha] at hr
    exact optional_run hi E0 E1 ha hr
  rw [if_neg ha] at hr
  have := Sem.hdrLen (K := K) (body := (program .sml_sequence_write).body) (ss := [.set .i32 3 (.lit .i32 0), .loop (.bin .lt (.var 3) (.ldInt .i32 (.var 0) 0)) [
      .expr (.callPtr (.var 2) [.elem (.ldPtr (.var 0) 0) (.var 3), .var 1])] [.set .i32 3 (.bin .add (.var 3) (.lit .i32 1))]]) (env := E) E0 E1
    (Sem.writeEach (y := 3) (i := 0) (by decide) rfl E0 hg fun k => ?_)
  · obtain ⟨i3, q3, r3⟩ := this.run hi trivial hr
    exact ⟨i3, RunTo.ite (b := false) (ev_null0 E0) (truth_neg ha) r3⟩
  · intro st h hi _ b st' h' hr
    replace hr := P_bind_eq_ok hr
    obtain ⟨v, s1, h1, e1, hr⟩ := hr
    obtain ⟨i1, _, r1⟩ := (ESem.elem (K := K) (ESem.ldPtr (pre := anySt) (env := upd E 3 (.int .i32 (k : Nat))) (x := 0) ((upd_other (by decide)).trans E0)) upd_same).ev hi trivial e1
    obtain ⟨i2, _, c2⟩ := (hf v).run i1 trivial hr
    exact ⟨i2, trivial, EvalTo.callPtr (.var ((upd_other (by decide)).trans E2) (fun h => nomatch h)) (.cons r1 (.one (ev_buf K ((upd_other (by decide)).trans E1)))) c2⟩

/-! ## Trees -/

theorem periodEntryWrite_src : WriteSpec .sml_period_entry_write pPeriodEntryWrite := by
  refine WriteSpec.guard rfl rfl rfl (fun _ => rfl) fun K a h0 => ?_
  exact Sem.wstruct (fs := [(.sml_octet_string_write, [.var 1]), (.sml_number_write, [.lit .i32 96, .lit .u64 1, .var 1]), (.sml_number_write, [.lit .i32 80, .lit .u64 1, .var 1]),
      (.sml_value_write, [.var 1]), (.sml_octet_string_write, [.var 1])]) (x := 0) (by rfl) (by rfl) (by decide)
    ⟨.plain octetStringWrite_src, .number (by decide) (by decide), .number (by decide) (by decide), .plain valueWrite_src, .plain octetStringWrite_src, trivial⟩

theorem tupelEntryWrite_src : WriteSpec .sml_tupel_entry_write pTupelEntryWrite := by
  refine WriteSpec.guard rfl rfl rfl (fun _ => rfl) fun K a h0 => ?_
  exact Sem.wstruct (fs := [(.sml_octet_string_write, [.var 1]), (.sml_time_write, [.var 1]), (.sml_number_write, [.lit .i32 96, .lit .u64 8, .var 1]),
      (.sml_number_write, [.lit .i32 96, .lit .u64 1, .var 1]), (.sml_number_write, [.lit .i32 80, .lit .u64 1, .var 1]), (.sml_number_write, [.lit .i32 80, .lit .u64 8, .var 1]),
      (.sml_number_write, [.lit .i32 96, .lit .u64 1, .var 1]), (.sml_number_write, [.lit .i32 80, .lit .u64 1, .var 1]), (.sml_number_write, [.lit .i32 80, .lit .u64 8, .var 1]),
      (.sml_number_write, [.lit .i32 96, .lit .u64 1, .var 1]), (.sml_number_write, [.lit .i32 80, .lit .u64 1, .var 1]), (.sml_number_write, [.lit .i32 80, .lit .u64 8, .var 1]),
      (.sml_octet_string_write, [.var 1]),
      (.sml_number_write, [.lit .i32 96, .lit .u64 1, .var 1]), (.sml_number_write, [.lit .i32 80, .lit .u64 1, .var 1]), (.sml_number_write, [.lit .i32 80, .lit .u64 8, .var 1]),
      (.sml_number_write, [.lit .i32 96, .lit .u64 1, .var 1]), (.sml_number_write, [.lit .i32 80, .lit .u64 1, .var 1]), (.sml_number_write, [.lit .i32 80, .lit .u64 8, .var 1]),
      (.sml_number_write, [.lit .i32 96, .lit .u64 1, .var 1]), (.sml_number_write, [.lit .i32 80, .lit .u64 1, .var 1]), (.sml_number_write, [.lit .i32 80, .lit .u64 8, .var 1]),
      (.sml_octet_string_write, [.var 1])]) (x := 0) (by rfl) (by rfl) (by decide)
    ⟨.plain octetStringWrite_src, .plain timeWrite_src, .number (by decide) (by decide),
      .number (by decide) (by decide), .number (by decide) (by decide), .number (by decide) (by decide),
      .number (by decide) (by decide), .number (by decide) (by decide), .number (by decide) (by decide),
      .number (by decide) (by decide), .number (by decide) (by decide), .number (by decide) (by decide),
      .plain octetStringWrite_src,
      .number (by decide) (by decide), .number (by decide) (by decide), .number (by decide) (by decide),
      .number (by decide) (by decide), .number (by decide) (by decide), .number (by decide) (by decide),
      .number (by decide) (by decide), .number (by decide) (by decide), .number (by decide) (by decide),
      .plain octetStringWrite_src, trivial⟩

theorem Sem.writeEnd (ha : env x = ptrVal a) (h1 : env 1 = K.buf) (hf : CallSpec f as w) :
    Sem K body [.expr (.call f (.ldPtr (.var x) i :: as))] env pre (readPtr a i >>= fun v => w v) (fun _ => .undef) anyRes := by
  have : (readPtr a i >>= fun v => w v) = (readPtr a i >>= fun v => w v >>= fun _ => pure ()) := by
    congr 1
    funext v
    rw [P_bind_unit]
  rw [this]
  exact Sem.writeField ha h1 hf Sem.end_

/-- `pProcParValueWrite` behind the tag, with the member read in each case as the C source does. -/
theorem ppvWrite_reread (hr : (readPtr a 1 >>= fun d => if t = 1 then pValueWrite d else if t = 2 then pPeriodEntryWrite d else if t = 3 then pTupelEntryWrite d
      else if t = 4 then pTimeWrite d else pure ()) st h = .ok u st' h') :
    (if t = 1 then readPtr a 1 >>= fun d => pValueWrite d else if t = 2 then readPtr a 1 >>= fun d => pPeriodEntryWrite d else if t = 3 then readPtr a 1 >>= fun d => pTupelEntryWrite d
      else if t = 4 then readPtr a 1 >>= fun d => pTimeWrite d else pure ()) st h = .ok u st' h' := by
  split
  · simpa only [if_pos ‹_›] using hr
  simp only [if_neg ‹_›] at hr
  split
  · simpa only [if_pos ‹_›] using hr
  simp only [if_neg ‹_›] at hr
  split
  · simpa only [if_pos ‹_›] using hr
  simp only [if_neg ‹_›] at hr
  split
  · simpa only [if_pos ‹_›] using hr
  simp only [if_neg ‹_›] at hr
  replace hr := P_bind_eq_ok hr
  obtain ⟨d, s1, h1, e1, hr⟩ := hr
  obtain ⟨_, rfl, rfl, _⟩ := readPtr_eq_ok e1
  exact hr

theorem P_bind_assoc' (p : P α) (k : α → P β) (l : β → P γ) : (p >>= fun a => k a >>= l) = ((p >>= k) >>= l) := (P_bind_assoc p k l).symm

theorem procParValueWrite_src : WriteSpec .sml_proc_par_value_write pProcParValueWrite := by
  refine WriteSpec.guard rfl rfl rfl (fun _ => rfl) fun K a h0 => ?_
  refine Sem.hdr (n := 2) (by rfl) (by decide) (fun _ _ => rfl) ?_
  refine Sem.writeField (a := a) (by rfl) (by rfl) (CallSpec.number (type := 96) (size := 1) (by decide) (by decide)) ?_
  refine Sem.of_run fun st h b st' h' _ _ hr => ⟨(readPtr a 0 >>= fun tag => readTag 1 tag) >>= fun t => if t.val = 1 then readPtr a 1 >>= fun d => pValueWrite d
    else if t.val = 2 then readPtr a 1 >>= fun d => pPeriodEntryWrite d else if t.val = 3 then readPtr a 1 >>= fun d => pTupelEntryWrite d
    else if t.val = 4 then readPtr a 1 >>= fun d => pTimeWrite d else pure (), ?_, ?_⟩
  · replace hr := P_bind_eq_ok hr
    obtain ⟨tag, s1, h1, e1, hr⟩ := hr
    replace hr := P_bind_eq_ok hr
    obtain ⟨t, s2, h2, e2, hr⟩ := hr
    have : (readPtr a 0 >>= fun tag => readTag 1 tag) st h = .ok t s2 h2 := by rw [P.bind_ok e1, e2]
    rw [P.bind_ok this]
    exact ppvWrite_reread hr
  refine Sem.switch (ESem.deref (w := 1) (ESem.ldPtr (a := a) (by rfl)) rfl conv_u8_nat) (fun _ => rfl) fun t => ?_
  split
  · rename_i h1
    rw [h1]
    exact ⟨[.expr (.call .sml_value_write [.ldPtr (.var 0) 1, .var 1])], ⟨rfl, .inr ⟨_, rfl⟩⟩, Sem.writeEnd (a := a) (by rfl) (by rfl) (.plain valueWrite_src)⟩
  split
  · rename_i h1
    rw [h1]
    exact ⟨[.expr (.call .sml_period_entry_write [.ldPtr (.var 0) 1, .var 1])], ⟨rfl, .inr ⟨_, rfl⟩⟩, Sem.writeEnd (a := a) (by rfl) (by rfl) (.plain periodEntryWrite_src)⟩
  split
  · rename_i h1
    rw [h1]
    exact ⟨[.expr (.call .sml_tupel_entry_write [.ldPtr (.var 0) 1, .var 1])], ⟨rfl, .inr ⟨_, rfl⟩⟩, Sem.writeEnd (a := a) (by rfl) (by rfl) (.plain tupelEntryWrite_src)⟩
  split
  · rename_i h1
    rw [h1]
    exact ⟨[.expr (.call .sml_time_write [.ldPtr (.var 0) 1, .var 1])], ⟨rfl, .inr ⟨_, rfl⟩⟩, Sem.writeEnd (a := a) (by rfl) (by rfl) (.plain timeWrite_src)⟩
  refine ⟨[.print []], ⟨rfl, .inl (pick_dflt ?_)⟩, Sem.skip (env' := envOf [ptrVal a, K.buf]) (fun _ _ _ _ _ => rfl) Sem.end_⟩
  simp only [hasCase, Bool.or_eq_false_iff, decide_eq_false_iff_not, and_true]
  omega

theorem treeWriteAux_src : (n : Nat) → WriteSpec .sml_tree_write (pTreeWriteAux n)
  | 0 => fun a => by
    intro K st h _ _ b st' h' hr
    cases hr
  | n + 1 => by
    have ih := treeWriteAux_src n
    refine WriteSpec.guard rfl rfl rfl (fun a => by rw [pTreeWriteAux]) fun K a h0 => ?_
    refine Sem.hdr (n := 3) (by rfl) (by decide) (fun _ _ => rfl) ?_
    refine Sem.writeField (a := a) (by rfl) (by rfl) (.plain octetStringWrite_src) ?_
    refine Sem.writeField (a := a) (by rfl) (by rfl) (.plain procParValueWrite_src) ?_
    refine Sem.iteBoth (a := a) (by rfl) ?_ ?_
    · refine Sem.hdrLen (by rfl) (by rfl) ?_
      exact Sem.writeEach (y := 2) (by decide) rfl (by rfl) (keeps_tree n) fun k => ESem.elemW (by decide) (by decide) (by rfl) (by rfl) ih k
    · rw [← P_bind_unit (lift optionalWrite)]
      exact Sem.optionalW (by rfl) Sem.end_

theorem treeWrite_src : WriteSpec .sml_tree_write pTreeWrite :=
  fun a K st h hi hp b st' h' hr => treeWriteAux_src (h.next + 1) a K st h hi hp b st' h' hr

theorem keeps_treeWrite (a : Addr) : Keeps (pTreeWrite a) := fun st h u st' h' hr => keeps_tree _ a st h u st' h' hr

end Sml.C
