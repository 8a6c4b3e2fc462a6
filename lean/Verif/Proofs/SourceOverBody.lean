import Verif.Proofs.SourceOverRules
import Verif.Proofs.SourceScarceWrite

/-!
# Lists, message bodies and messages at the end of the buffer, run from their source
-/

namespace Sml.C

/-! ## Lists -/

theorem listEntryWrite_out : WriteOut .sml_list_entry_write pListEntryWrite :=
  WriteOut.struct (fs := [(.sml_octet_string_write, [.var 1]), (.sml_status_write, [.var 1]), (.sml_time_write, [.var 1]),
      (.sml_number_write, [.lit .i32 96, .lit .u64 1, .var 1]), (.sml_number_write, [.lit .i32 80, .lit .u64 1, .var 1]), (.sml_value_write, [.var 1]), (.sml_octet_string_write, [.var 1])])
    rfl rfl (by decide)
    ⟨.plain oOctet, .plain oStatus, .plain oTime, .number (by decide) (by decide), .number (by decide) (by decide), .plain oValue, .plain oOctet, trivial⟩

theorem oListEntry : OWrite .sml_list_entry_write pListEntryWrite := ⟨listEntryWrite_src, listEntryWrite_out, keeps_listEntry⟩

/-- How many entries are left is a matter of the entry. -/
theorem listLen_det : (f1 f2 i k1 k2 : Nat) → pListLen f1 i k1 st h = .ok n1 st h → pListLen f2 i k2 st h = .ok n2 st h → n1 + k2 = n2 + k1
  | 0, _, _, _, _, hr, _ => by cases hr
  | _ + 1, 0, _, _, _, _, hr => by cases hr
  | f1 + 1, f2 + 1, i, k1, k2, hr, hq => by
    rw [pListLen] at hr hq
    by_cases h0 : i ≠ 0
    · rw [if_pos h0] at hr hq
      replace hr := P_bind_eq_ok hr
      obtain ⟨j, s1, h1, e1, hr⟩ := hr
      replace hq := P_bind_eq_ok hq
      obtain ⟨j', s2, h2, e2, hq⟩ := hq
      obtain ⟨_, rfl, rfl, _⟩ := readPtr_eq_ok e1
      rw [e1] at e2
      cases e2
      have := listLen_det f1 f2 j (k1 + 1) (k2 + 1) hr hq
      omega
    · rw [if_neg h0] at hr hq
      cases hr
      cases hq
      omega

/-- The entries that were counted are distinct blocks: a list that is counted to its end has no cycle. -/
theorem listLen_blocks : (fuel i k : Nat) → pListLen fuel i k st h = .ok n st h →
    ∃ V : List Nat, V.Nodup ∧ V.length + k = n ∧ ∀ a ∈ V, h.cells a ≠ none ∧ ∃ f' k', k ≤ k' ∧ pListLen f' a k' st h = .ok n st h
  | 0, _, _, hr => by cases hr
  | fuel + 1, i, k, hr => by
    have hr0 := hr
    rw [pListLen] at hr
    by_cases h0 : i ≠ 0
    · rw [if_pos h0] at hr
      replace hr := P_bind_eq_ok hr
      obtain ⟨j, s1, h1, e1, hr⟩ := hr
      obtain ⟨_, rfl, rfl, _, _, hc, _⟩ := readPtr_eq_ok e1
      obtain ⟨V, hn, hl, hv⟩ := listLen_blocks fuel j (k + 1) hr
      refine ⟨i :: V, List.nodup_cons.mpr ⟨fun hi => ?_, hn⟩, by simp only [List.length_cons]; omega, fun a ha => ?_⟩
      · obtain ⟨_, f', k', hk, e⟩ := hv i hi
        have := listLen_det _ _ _ _ _ hr0 e
        omega
      · rcases List.mem_cons.mp ha with rfl | ha
        · exact ⟨by rw [hc]; exact (fun h => nomatch h), _, _, Nat.le_refl _, hr0⟩
        · obtain ⟨hv, f', k', hk, e⟩ := hv a ha
          exact ⟨hv, f', k', by omega, e⟩
    · rw [if_neg h0] at hr
      cases hr
      exact ⟨[], .nil, by simp, by simp⟩

theorem listLen_few (hf : Few 0 h) (hr : pListLen fuel i 0 st h = .ok n st h) : n < 2147483647 := by
  obtain ⟨V, hn, hl, hv⟩ := listLen_blocks _ _ _ hr
  have := hf.length V hn fun a ha => (hv a ha).1
  omega

theorem Tame.listLen : (fuel i k : Nat) → Tame (pListLen fuel i k)
  | 0, _, _ => .fault (fun h => nomatch h)
  | fuel + 1, _, k => .ite _ (.bind .readPtr fun j => Tame.listLen fuel j (k + 1)) .pure

/-- The loop that counts, for a run that leaves the buffer behind it. -/
theorem listLen_out (hi : Inv K st h) (hn : n ≤ 2147483647) (hk : RunOut ss (loopEnv K a 0 n) (conc K st h)) : (fuel i k : Nat) →
    pListLen fuel i k st h = .ok n st h →
    RunOut (.loop (.var 2) [.setPtr 2 (.ldPtr (.var 2) 7), .set .i32 3 (.bin .add (.var 3) (.lit .i32 1))] [] :: ss) (loopEnv K a i k) (conc K st h)
  | 0, _, _, hr => by cases hr
  | fuel + 1, i, k, hr => by
    rw [pListLen] at hr
    refine RunOut.loop rfl rfl ?_
    by_cases h0 : i ≠ 0
    · rw [if_pos h0] at hr
      replace hr := P_bind_eq_ok hr
      obtain ⟨j, s1, h1, e1, hr⟩ := hr
      have e1' := e1
      obtain ⟨_, rfl, rfl, _⟩ := readPtr_eq_ok e1'
      have hkn := (listLen_keeps _ _ _ hr).2.2
      refine RunOut.ite (b := true) (ev_ptrVar (by rfl)) (truth_ptr h0) ?_
      have x1 : ExecTo (.setPtr 2 (.ldPtr (.var 2) 7)) (loopEnv K a i k) (conc K s1 h1) .next (loopEnv K a j k) (conc K s1 h1) := by
        have := ExecTo.setPtr (x := 2) (EvalTo.ldPtr (i := 7) (ev_ptrVar (env := loopEnv K a i k) (x := 2) (by rfl)) (loadPtr_cell hi e1))
        rwa [upd2] at this
      have x2 : ExecTo (.set .i32 3 (.bin .add (.var 3) (.lit .i32 1))) (loopEnv K a j k) (conc K s1 h1) .next (loopEnv K a j (k + 1)) (conc K s1 h1) := by
        have := ex_count (env := loopEnv K a j k) (x := 3) (k := k) (m := conc K s1 h1) (by rfl) (by omega)
        rwa [upd3] at this
      exact .cons x1 (.cons x2 (listLen_out hi hn hk fuel j (k + 1) hr))
    · rw [if_neg h0] at hr
      cases hr
      obtain rfl : i = 0 := by omega
      exact RunOut.ite (b := false) (ev_ptrVar (by rfl)) truth_ptr0 hk

theorem listWriteLoop_out : (fuel i : Nat) → (st : St) → (h : Heap) → Inv K st h → Few 0 h → pListWriteLoop fuel i st h = .bad overrun →
    RunOut [.loop (.var 2) [.expr (.call .sml_list_entry_write [.var 2, .var 1]), .setPtr 2 (.ldPtr (.var 2) 7)] []] (loopEnv K a i n) (conc K st h)
  | 0, _, _, _, _, _, hr => by cases hr
  | fuel + 1, i, st, h, hi, hn, hr => by
    rw [pListWriteLoop] at hr
    by_cases h0 : i ≠ 0
    · rw [if_pos h0] at hr
      refine RunOut.loop rfl rfl (RunOut.ite (b := true) (ev_ptrVar (by rfl)) (truth_ptr h0) ?_)
      replace hr := P_bind_eq_bad hr
      rcases hr with hr | ⟨_, s3, h3, e3, hr⟩
      · exact .head (.expr (.call (.cons (ev_ptrVar (by rfl)) (.one (ev_buf K (by rfl)))) (listEntryWrite_out i K st h hi hn hr)))
      obtain ⟨i3, _, c3⟩ := (listEntryWrite_src i).run hi trivial e3
      obtain rfl := keeps_listEntry _ _ _ _ _ _ e3
      replace hr := Tame.readPtr.next hr
      obtain ⟨j, s4, h4, e4, hr⟩ := hr
      have e4' := e4
      obtain ⟨_, rfl, rfl, _⟩ := readPtr_eq_ok e4'
      have x1 : ExecTo (.setPtr 2 (.ldPtr (.var 2) 7)) (loopEnv K a i n) (conc K s4 h4) .next (loopEnv K a j n) (conc K s4 h4) := by
        have := ExecTo.setPtr (x := 2) (EvalTo.ldPtr (i := 7) (ev_ptrVar (env := loopEnv K a i n) (x := 2) (by rfl)) (loadPtr_cell i3 e4))
        rwa [upd2] at this
      exact .cons (.expr (.call (.cons (ev_ptrVar (by rfl)) (.one (ev_buf K (by rfl)))) c3)) (.cons x1 (listWriteLoop_out fuel j _ _ i3 hn hr))
    · rw [if_neg h0] at hr
      cases hr

theorem listWrite_out : WriteOut .sml_list_write pListWrite := by
  refine WriteOut.guard rfl rfl (q := pListWriteBody) pListWrite_eq fun K a h0 => ?_
  intro st h hi hx hr
  replace hr := (Tame.listLen _ _ _).next hr
  obtain ⟨n, s1, h1, e1, hr⟩ := hr
  have e1' := e1
  obtain ⟨rfl, rfl, _⟩ := listLen_keeps _ _ _ e1'
  have hn := listLen_few hx e1
  have x1 : ExecTo (.setPtr 2 (.var 0)) (envOf [ptrVal a, K.buf]) (conc K s1 h1) .next (envOf [ptrVal a, K.buf, ptrVal a]) (conc K s1 h1) := by
    have := ExecTo.setPtr (x := 2) (m := conc K s1 h1) (ev_ptrVar (env := envOf [ptrVal a, K.buf]) (x := 0) (i := a) (by rfl))
    rwa [envOf_loop2] at this
  have x2 : ExecTo (.set .i32 3 (.lit .i32 0)) (envOf [ptrVal a, K.buf, ptrVal a]) (conc K s1 h1) .next (loopEnv K a a 0) (conc K s1 h1) := by
    have := ExecTo.set (ty := .i32) (x := 3) (k' := (0 : Nat)) (env := envOf [ptrVal a, K.buf, ptrVal a]) (m := conc K s1 h1) (EvalTo.lit (t := .i32) (n := 0)) rfl
    rwa [envOf_loop3] at this
  refine RunOut.cons x1 (.cons x2 (listLen_out hi (by omega) ?_ _ _ _ e1))
  replace hr := P_bind_eq_bad hr
  rcases hr with hr | ⟨_, s2, h2, e2, hr⟩
  · exact .head (.expr (.call (.cons (ev_buf K (by rfl)) (.cons .lit (.one (.int (by rfl)))))
      (setTypeAndLength_out .i32 .i32 (show tyList < 256 by decide) (show n < 4294967296 by omega) K s1 h1.next (K.blocks h1) hi.good (lift_eq_bad hr))))
  replace e2 := lift_eq_ok e2
  obtain ⟨e2, rfl⟩ := e2
  have i2 := hi.adv (adv_setTypeAndLength _ _) e2
  obtain ⟨_, _, c2⟩ := setTypeAndLength_src .i32 .i32 (show tyList < 256 by decide) (show n < 4294967296 by omega) K s1 h2.next (K.blocks h2) hi.good trivial _ _ e2
  have x3 : ExecTo (.setPtr 2 (.var 0)) (loopEnv K a 0 n) (conc K s2 h2) .next (loopEnv K a a n) (conc K s2 h2) := by
    have := ExecTo.setPtr (x := 2) (m := conc K s2 h2) (ev_ptrVar (env := loopEnv K a 0 n) (x := 0) (i := a) (by rfl))
    rwa [upd2] at this
  exact .cons (.expr (.call (.cons (ev_buf K (by rfl)) (.cons .lit (.one (.int (by rfl))))) c2)) (.cons x3 (listWriteLoop_out _ _ _ _ i2 hx hr))

theorem oList : OWrite .sml_list_write pListWrite := ⟨listWrite_src, listWrite_out, keeps_list⟩

/-! ## The list of object names of a profile pack request -/

theorem objectsLen_det : (f1 f2 i k1 k2 : Nat) → pObjectsLen f1 i k1 st h = .ok n1 st h → pObjectsLen f2 i k2 st h = .ok n2 st h → n1 + k2 = n2 + k1
  | 0, _, _, _, _, hr, _ => by cases hr
  | _ + 1, 0, _, _, _, _, hr => by cases hr
  | f1 + 1, f2 + 1, i, k1, k2, hr, hq => by
    rw [pObjectsLen] at hr hq
    replace hr := P_bind_eq_ok hr
    obtain ⟨j, s1, h1, e1, hr⟩ := hr
    replace hq := P_bind_eq_ok hq
    obtain ⟨j', s2, h2, e2, hq⟩ := hq
    obtain ⟨_, rfl, rfl, _⟩ := readPtr_eq_ok e1
    rw [e1] at e2
    cases e2
    by_cases h0 : j ≠ 0
    · rw [if_pos h0, P.bind_ok e1] at hr hq
      have := objectsLen_det f1 f2 j (k1 + 1) (k2 + 1) hr hq
      omega
    · rw [if_neg h0] at hr hq
      cases hr
      cases hq
      omega

theorem objectsLen_blocks : (fuel i k : Nat) → pObjectsLen fuel i k st h = .ok n st h →
    ∃ V : List Nat, V.Nodup ∧ V.length + k = n + 1 ∧ ∀ a ∈ V, h.cells a ≠ none ∧ ∃ f' k', k ≤ k' ∧ pObjectsLen f' a k' st h = .ok n st h
  | 0, _, _, hr => by cases hr
  | fuel + 1, i, k, hr => by
    have hr0 := hr
    rw [pObjectsLen] at hr
    replace hr := P_bind_eq_ok hr
    obtain ⟨j, s1, h1, e1, hr⟩ := hr
    obtain ⟨_, rfl, rfl, _, _, hc, _⟩ := readPtr_eq_ok e1
    have hc' : h1.cells i ≠ none := by rw [hc]; exact fun h => nomatch h
    by_cases h0 : j ≠ 0
    · rw [if_pos h0, P.bind_ok e1] at hr
      obtain ⟨V, hn, hl, hv⟩ := objectsLen_blocks fuel j (k + 1) hr
      refine ⟨i :: V, List.nodup_cons.mpr ⟨fun hi => ?_, hn⟩, by simp only [List.length_cons]; omega, fun a ha => ?_⟩
      · obtain ⟨_, f', k', hk, e⟩ := hv i hi
        have := objectsLen_det _ _ _ _ _ hr0 e
        omega
      · rcases List.mem_cons.mp ha with rfl | ha
        · exact ⟨hc', _, _, Nat.le_refl _, hr0⟩
        · obtain ⟨hv, f', k', hk, e⟩ := hv a ha
          exact ⟨hv, f', k', by omega, e⟩
    · rw [if_neg h0] at hr
      cases hr
      refine ⟨[i], by simp, by simp only [List.length_cons, List.length_nil]; omega, fun a ha => ?_⟩
      obtain rfl := List.mem_singleton.mp ha
      exact ⟨hc', _, _, Nat.le_refl _, hr0⟩

theorem objectsLen_few (hf : Few 0 h) (hr : pObjectsLen fuel i 1 st h = .ok n st h) : n < 2147483647 := by
  obtain ⟨V, hn, hl, hv⟩ := objectsLen_blocks _ _ _ hr
  have := hf.length V hn fun a ha => (hv a ha).1
  omega

theorem Tame.objectsLen : (fuel i k : Nat) → Tame (pObjectsLen fuel i k)
  | 0, _, _ => .fault (fun h => nomatch h)
  | fuel + 1, _, k => .bind .readPtr fun _ => .ite _ (.bind .readPtr fun j => Tame.objectsLen fuel j (k + 1)) .pure

theorem objectsLen_out (hi : Inv K st h) (hn : n ≤ 2147483647) (hk : ∀ l, RunOut ss (objEnv K a n l) (conc K st h)) : (fuel l k : Nat) →
    pObjectsLen fuel l k st h = .ok n st h →
    RunOut (.loop (.ldPtr (.var 3) 1) [.set .i32 2 (.bin .add (.var 2) (.lit .i32 1))] [.setPtr 3 (.ldPtr (.var 3) 1)] :: ss) (objEnv K a k l) (conc K st h)
  | 0, _, _, hr => by cases hr
  | fuel + 1, l, k, hr => by
    rw [pObjectsLen] at hr
    refine RunOut.loop rfl rfl ?_
    replace hr := P_bind_eq_ok hr
    obtain ⟨j, s1, h1, e1, hr⟩ := hr
    have e1' := e1
    obtain ⟨_, rfl, rfl, _⟩ := readPtr_eq_ok e1'
    have ev : EvalTo (.ldPtr (.var 3) 1) (objEnv K a k l) (conc K s1 h1) (ptrVal j) (objEnv K a k l) (conc K s1 h1) := .ldPtr (.ptr (by rfl)) (loadPtr_cell hi e1)
    by_cases h0 : j ≠ 0
    · rw [if_pos h0] at hr
      replace hr := P_bind_eq_ok hr
      obtain ⟨j', s2, h2, e2, hr⟩ := hr
      rw [e1] at e2
      cases e2
      have hkn := (objectsLen_keeps _ _ _ hr).2.2
      refine RunOut.ite (b := true) ev (truth_ptr h0) ?_
      have x2 : ExecTo (.set .i32 2 (.bin .add (.var 2) (.lit .i32 1))) (objEnv K a k l) (conc K s1 h1) .next (objEnv K a (k + 1) l) (conc K s1 h1) := by
        have := ex_count (env := objEnv K a k l) (x := 2) (k := k) (m := conc K s1 h1) (by rfl) (by omega)
        rwa [upd_obj2] at this
      exact .cons x2 (.cons (ex_next3 hi e1) (objectsLen_out hi hn hk fuel j (k + 1) hr))
    · rw [if_neg h0] at hr
      cases hr
      obtain rfl : j = 0 := by omega
      exact RunOut.ite (b := false) ev truth_ptr0 (hk l)

theorem objectsLoop_out : (fuel l : Nat) → (st : St) → (h : Heap) → Inv K st h → Few 0 h → pObjectsWriteLoop fuel l st h = .bad overrun →
    RunOut (.loop (.ldPtr (.var 3) 1) [.expr (.call .sml_octet_string_write [.ldPtr (.var 3) 0, .var 1])] [.setPtr 3 (.ldPtr (.var 3) 1)] :: ss) (objEnv K a n l) (conc K st h)
  | 0, _, _, _, _, _, hr => by cases hr
  | fuel + 1, l, st, h, hi, hx, hr => by
    rw [pObjectsWriteLoop] at hr
    replace hr := Tame.readPtr.next hr
    obtain ⟨j, s1, h1, e1, hr⟩ := hr
    have e1' := e1
    obtain ⟨_, rfl, rfl, _⟩ := readPtr_eq_ok e1'
    have ev : EvalTo (.ldPtr (.var 3) 1) (objEnv K a n l) (conc K s1 h1) (ptrVal j) (objEnv K a n l) (conc K s1 h1) := .ldPtr (.ptr (by rfl)) (loadPtr_cell hi e1)
    by_cases h0 : j ≠ 0
    · rw [if_pos h0] at hr
      replace hr := Tame.readPtr.next hr
      obtain ⟨o, s6, h6, e6, hr⟩ := hr
      have e6' := e6
      obtain ⟨_, rfl, rfl, _⟩ := readPtr_eq_ok e6'
      refine RunOut.loop rfl rfl (RunOut.ite (b := true) ev (truth_ptr h0) ?_)
      have ea : EvalsTo [.ldPtr (.var 3) 0, .var 1] (objEnv K a n l) (conc K s6 h6) [ptrVal o, K.buf] (objEnv K a n l) (conc K s6 h6) :=
        .cons (.ldPtr (.ptr (by rfl)) (loadPtr_cell hi e6)) (.one (ev_buf K (by rfl)))
      replace hr := P_bind_eq_bad hr
      rcases hr with hr | ⟨_, s3, h3, e3, hr⟩
      · exact .head (.expr (.call ea (octetStringWrite_out o K _ _ hi hx hr)))
      obtain ⟨i3, _, c3⟩ := (octetStringWrite_src o).run hi trivial e3
      obtain rfl := keeps_octet _ _ _ _ _ _ e3
      replace hr := Tame.readPtr.next hr
      obtain ⟨j', s4, h4, e4, hr⟩ := hr
      have e4' := e4
      obtain ⟨_, rfl, rfl, _⟩ := readPtr_eq_ok e4'
      exact .cons (.expr (.call ea c3)) (.cons (ex_next3 i3 e4) (objectsLoop_out fuel j' _ _ i3 hx hr))
    · rw [if_neg h0] at hr
      cases hr

theorem objectsLoop_past {k : P Unit} (hk : ∀ l, OSem K ss (objEnv K a n l) k) : (fuel l : Nat) → (st : St) → (h : Heap) → Inv K st h → Few 0 h →
    pObjectsWriteLoop fuel l st h = .ok u st' h' → k st' h' = .bad overrun →
    RunOut (.loop (.ldPtr (.var 3) 1) [.expr (.call .sml_octet_string_write [.ldPtr (.var 3) 0, .var 1])] [.setPtr 3 (.ldPtr (.var 3) 1)] :: ss) (objEnv K a n l) (conc K st h)
  | 0, _, _, _, _, _, hr, _ => by cases hr
  | fuel + 1, l, st, h, hi, hx, hr, hb => by
    rw [pObjectsWriteLoop] at hr
    replace hr := P_bind_eq_ok hr
    obtain ⟨j, s1, h1, e1, hr⟩ := hr
    have e1' := e1
    obtain ⟨_, rfl, rfl, _⟩ := readPtr_eq_ok e1'
    have ev : EvalTo (.ldPtr (.var 3) 1) (objEnv K a n l) (conc K s1 h1) (ptrVal j) (objEnv K a n l) (conc K s1 h1) := .ldPtr (.ptr (by rfl)) (loadPtr_cell hi e1)
    by_cases h0 : j ≠ 0
    · rw [if_pos h0] at hr
      replace hr := P_bind_eq_ok hr
      obtain ⟨o, s6, h6, e6, hr⟩ := hr
      have e6' := e6
      obtain ⟨_, rfl, rfl, _⟩ := readPtr_eq_ok e6'
      replace hr := P_bind_eq_ok hr
      obtain ⟨_, s3, h3, e3, hr⟩ := hr
      obtain ⟨i3, _, c3⟩ := (octetStringWrite_src o).run hi trivial e3
      obtain rfl := keeps_octet _ _ _ _ _ _ e3
      replace hr := P_bind_eq_ok hr
      obtain ⟨j', s4, h4, e4, hr⟩ := hr
      have e4' := e4
      obtain ⟨_, rfl, rfl, _⟩ := readPtr_eq_ok e4'
      refine RunOut.loop rfl rfl (RunOut.ite (b := true) ev (truth_ptr h0) ?_)
      exact .cons (.expr (.call (.cons (.ldPtr (.ptr (by rfl)) (loadPtr_cell hi e6)) (.one (ev_buf K (by rfl)))) c3))
        (.cons (ex_next3 i3 e4) (objectsLoop_past hk fuel j' _ _ i3 hx hr hb))
    · rw [if_neg h0] at hr
      cases hr
      obtain rfl : j = 0 := by omega
      exact RunOut.loop rfl rfl (RunOut.ite (b := false) ev truth_ptr0 (hk l _ _ hi hx hb))

theorem OSem.objects {k : P Unit} (hk : ∀ env, env 0 = ptrVal a → env 1 = K.buf → OSem K ss env k) :
    OSem K (objStmt :: ss) (envOf [ptrVal a, K.buf]) (readPtr a 7 >>= fun l => pObjectsWrite l >>= fun _ => k) := by
  intro st h hi hx hr
  replace hr := Tame.readPtr.next hr
  obtain ⟨l, s1, h1, e1, hr⟩ := hr
  have e1' := e1
  obtain ⟨_, rfl, rfl, _⟩ := readPtr_eq_ok e1'
  have ev : EvalTo (.ldPtr (.var 0) 7) (envOf [ptrVal a, K.buf]) (conc K s1 h1) (ptrVal l) (envOf [ptrVal a, K.buf]) (conc K s1 h1) := .ldPtr (.ptr (by rfl)) (loadPtr_cell hi e1)
  by_cases h0 : l ≠ 0
  · refine RunOut.ite (b := true) ev (truth_ptr h0) ?_
    have x1 : ExecTo (.set .i32 2 (.lit .i32 1)) (envOf [ptrVal a, K.buf]) (conc K s1 h1) .next (envOf [ptrVal a, K.buf, .int .i32 (1 : Nat)]) (conc K s1 h1) := by
      have := ExecTo.set (ty := .i32) (x := 2) (k' := (1 : Nat)) (env := envOf [ptrVal a, K.buf]) (m := conc K s1 h1) (EvalTo.lit (t := .i32) (n := 1)) rfl
      rwa [envOf_obj2] at this
    have x2 : ExecTo (.setPtr 3 (.ldPtr (.var 0) 7)) (envOf [ptrVal a, K.buf, .int .i32 (1 : Nat)]) (conc K s1 h1) .next (objEnv K a 1 l) (conc K s1 h1) := by
      have := ExecTo.setPtr (x := 3) (EvalTo.ldPtr (i := 7) (ev_ptrVar (env := envOf [ptrVal a, K.buf, .int .i32 (1 : Nat)]) (x := 0) (by rfl)) (loadPtr_cell hi e1))
      rwa [envOf_obj3] at this
    have x3 : ∀ n' l' s, Inv K s h1 → ExecTo (.setPtr 3 (.ldPtr (.var 0) 7)) (objEnv K a n' l') (conc K s h1) .next (objEnv K a n' l) (conc K s h1) := by
      intro n' l' s hs
      have := ExecTo.setPtr (x := 3) (EvalTo.ldPtr (i := 7) (ev_ptrVar (env := objEnv K a n' l') (x := 0) (by rfl)) (loadPtr_cell hs (readPtr_here e1 s)))
      rwa [upd_obj3] at this
    clear e1'
    obtain ⟨n, e3, hn, hq⟩ : ∃ n, pObjectsLen (h1.next + 1) l 1 s1 h1 = .ok n s1 h1 ∧ n ≤ 2147483647 ∧
        ((lift (setTypeAndLength tyList n) >>= fun _ => pObjectsWriteLoop (h1.next + 1) l) s1 h1 = .bad overrun ∨
          ∃ u s2 h2, (lift (setTypeAndLength tyList n) >>= fun _ => pObjectsWriteLoop (h1.next + 1) l) s1 h1 = .ok u s2 h2 ∧ k s2 h2 = .bad overrun) := by
      replace hr := P_bind_eq_bad hr
      rcases hr with hr | ⟨u, s2, h2, e2, hr⟩
      · unfold pObjectsWrite at hr
        rw [if_pos h0] at hr
        replace hr := (Tame.objectsLen _ _ _).next hr
        obtain ⟨n, s3, h3, e3, hr⟩ := hr
        have e3' := e3
        obtain ⟨rfl, rfl, _⟩ := objectsLen_keeps _ _ _ e3'
        have := objectsLen_few hx e3
        exact ⟨n, e3, by omega, .inl hr⟩
      · unfold pObjectsWrite at e2
        rw [if_pos h0] at e2
        replace e2 := P_bind_eq_ok e2
        obtain ⟨n, s3, h3, e3, e2⟩ := e2
        have e3' := e3
        obtain ⟨rfl, rfl, _⟩ := objectsLen_keeps _ _ _ e3'
        have := objectsLen_few hx e3
        exact ⟨n, e3, by omega, .inr ⟨u, s2, h2, e2, hr⟩⟩
    refine .cons x1 (.cons x2 (.cons (x3 _ _ _ hi) (objectsLen_out hi hn (fun l' => ?_) _ _ _ e3)))
    have ea : EvalsTo [.var 1, .lit .i32 112, .var 2] (objEnv K a n l') (conc K s1 h1) [K.buf, .int .i32 112, .int .i32 n] (objEnv K a n l') (conc K s1 h1) :=
      .cons (ev_buf K (by rfl)) (.cons .lit (.one (.int (by rfl))))
    clear hr
    rcases hq with hr | ⟨u, s2, h2, e2, hr⟩
    · replace hr := P_bind_eq_bad hr
      rcases hr with hr | ⟨_, s4, h4, e4, hr⟩
      · exact .head (.expr (.call ea (setTypeAndLength_out .i32 .i32 (show tyList < 256 by decide) (show n < 4294967296 by omega) K s1 h1.next (K.blocks h1) hi.good (lift_eq_bad hr))))
      replace e4 := lift_eq_ok e4
      obtain ⟨e4, rfl⟩ := e4
      have i4 := hi.adv (adv_setTypeAndLength _ _) e4
      obtain ⟨_, _, c4⟩ := setTypeAndLength_src .i32 .i32 (show tyList < 256 by decide) (show n < 4294967296 by omega) K s1 h4.next (K.blocks h4) hi.good trivial _ _ e4
      exact .cons (.expr (.call ea c4)) (.cons (x3 _ _ _ i4) (objectsLoop_out _ _ _ _ i4 hx hr))
    · replace e2 := P_bind_eq_ok e2
      obtain ⟨_, s4, h4, e4, e2⟩ := e2
      replace e4 := lift_eq_ok e4
      obtain ⟨e4, rfl⟩ := e4
      have i4 := hi.adv (adv_setTypeAndLength _ _) e4
      obtain ⟨_, _, c4⟩ := setTypeAndLength_src .i32 .i32 (show tyList < 256 by decide) (show n < 4294967296 by omega) K s1 h4.next (K.blocks h4) hi.good trivial _ _ e4
      refine .cons (.expr (.call ea c4)) (.cons (x3 _ _ _ i4) ?_)
      exact objectsLoop_past (n := n) (fun l => hk (objEnv K a n l) (by rfl) (by rfl)) _ _ _ _ i4 hx e2 hr
  · obtain rfl : l = 0 := by omega
    refine RunOut.ite (b := false) ev truth_ptr0 ?_
    exact OSem.optionalW (K := K) (by rfl) (hk _ (by rfl) (by rfl)) s1 h1 hi hx hr

/-! ## The bodies of the messages -/

theorem oPeriodGet : OWrite .sml_period_entry_write_get pPeriodEntryWrite := ⟨periodEntryWriteGet_src, .wrap rfl rfl oPeriod, keeps_period⟩

theorem valueEntryWrite__out : WriteOut .sml_value_entry_write_ pValueEntryWrite :=
  WriteOut.struct' (fs := [(.sml_value_write, [.var 1]), (.sml_octet_string_write, [.var 1])]) rfl rfl (by decide)
    ⟨.plain oValue, .plain oOctet, trivial⟩

theorem oValueEntry_ : OWrite .sml_value_entry_write_ pValueEntryWrite := ⟨valueEntryWrite__src, valueEntryWrite__out, keeps_valueEntry⟩

theorem headerEntryWrite__out : WriteOut .sml_prof_obj_header_entry_write_ pProfObjHeaderEntryWrite :=
  WriteOut.struct' (fs := [(.sml_octet_string_write, [.var 1]), (.sml_number_write, [.lit .i32 96, .lit .u64 1, .var 1]), (.sml_number_write, [.lit .i32 80, .lit .u64 1, .var 1])]) rfl rfl (by decide)
    ⟨.plain oOctet, .number (by decide) (by decide), .number (by decide) (by decide), trivial⟩

theorem oHeader_ : OWrite .sml_prof_obj_header_entry_write_ pProfObjHeaderEntryWrite := ⟨headerEntryWrite__src, headerEntryWrite__out, keeps_header⟩

theorem profPeriodWrite__out : WriteOut .sml_prof_obj_period_entry_write_ pProfObjPeriodEntryWrite :=
  WriteOut.struct' (fs := [(.sml_time_write, [.var 1]), (.sml_number_write, [.lit .i32 96, .lit .u64 8, .var 1]), (.sml_sequence_write, [.var 1, .fn .sml_value_entry_write_]), (.sml_octet_string_write, [.var 1])]) rfl rfl (by decide)
    ⟨.plain oTime, .number (by decide) (by decide), sequenceWrite_out oValueEntry_, .plain oOctet, trivial⟩

theorem oProfPeriod_ : OWrite .sml_prof_obj_period_entry_write_ pProfObjPeriodEntryWrite := ⟨profPeriodWrite__src, profPeriodWrite__out, keeps_profPeriod⟩

theorem openRequestWrite_out : WriteOut .sml_open_request_write pOpenRequestWrite :=
  WriteOut.struct (fs := [(.sml_octet_string_write, [.var 1]), (.sml_octet_string_write, [.var 1]), (.sml_octet_string_write, [.var 1]), (.sml_octet_string_write, [.var 1]), (.sml_octet_string_write, [.var 1]), (.sml_octet_string_write, [.var 1]), (.sml_number_write, [.lit .i32 96, .lit .u64 1, .var 1])]) rfl rfl (by decide)
    ⟨.plain oOctet, .plain oOctet, .plain oOctet, .plain oOctet, .plain oOctet, .plain oOctet, .number (by decide) (by decide), trivial⟩

theorem oOpenRequest : OWrite .sml_open_request_write pOpenRequestWrite := ⟨openRequestWrite_src, openRequestWrite_out, fun _ => by unfold pOpenRequestWrite; keeps_body⟩

theorem openResponseWrite_out : WriteOut .sml_open_response_write pOpenResponseWrite :=
  WriteOut.struct (fs := [(.sml_octet_string_write, [.var 1]), (.sml_octet_string_write, [.var 1]), (.sml_octet_string_write, [.var 1]), (.sml_octet_string_write, [.var 1]), (.sml_time_write, [.var 1]), (.sml_number_write, [.lit .i32 96, .lit .u64 1, .var 1])]) rfl rfl (by decide)
    ⟨.plain oOctet, .plain oOctet, .plain oOctet, .plain oOctet, .plain oTime, .number (by decide) (by decide), trivial⟩

theorem oOpenResponse : OWrite .sml_open_response_write pOpenResponseWrite := ⟨openResponseWrite_src, openResponseWrite_out, fun _ => by unfold pOpenResponseWrite; keeps_body⟩

theorem closeRequestWrite_out : WriteOut .sml_close_request_write pCloseRequestWrite :=
  WriteOut.struct (fs := [(.sml_octet_string_write, [.var 1])]) rfl rfl (by decide)
    ⟨.plain oOctet, trivial⟩

theorem oCloseRequest : OWrite .sml_close_request_write pCloseRequestWrite := ⟨closeRequestWrite_src, closeRequestWrite_out, fun _ => by unfold pCloseRequestWrite; keeps_body⟩

theorem closeResponseWrite_out : WriteOut .sml_close_response_write pCloseResponseWrite :=
  WriteOut.struct (fs := [(.sml_octet_string_write, [.var 1])]) rfl rfl (by decide)
    ⟨.plain oOctet, trivial⟩

theorem oCloseResponse : OWrite .sml_close_response_write pCloseResponseWrite := ⟨closeResponseWrite_src, closeResponseWrite_out, fun _ => by unfold pCloseResponseWrite; keeps_body⟩

theorem getProfilePackResponseWrite_out : WriteOut .sml_get_profile_pack_response_write pGetProfilePackResponseWrite :=
  WriteOut.struct (fs := [(.sml_octet_string_write, [.var 1]), (.sml_time_write, [.var 1]), (.sml_number_write, [.lit .i32 96, .lit .u64 4, .var 1]), (.sml_tree_path_write, [.var 1]), (.sml_sequence_write, [.var 1, .fn .sml_prof_obj_header_entry_write_]), (.sml_sequence_write, [.var 1, .fn .sml_prof_obj_period_entry_write_]), (.sml_octet_string_write, [.var 1]), (.sml_octet_string_write, [.var 1])]) rfl rfl (by decide)
    ⟨.plain oOctet, .plain oTime, .number (by decide) (by decide), .plain oTreePath, sequenceWrite_out oHeader_, sequenceWrite_out oProfPeriod_, .plain oOctet, .plain oOctet, trivial⟩

theorem oGetProfilePackResponse : OWrite .sml_get_profile_pack_response_write pGetProfilePackResponseWrite := ⟨getProfilePackResponseWrite_src, getProfilePackResponseWrite_out, fun _ => by unfold pGetProfilePackResponseWrite; keeps_body⟩

theorem getProfileListResponseWrite_out : WriteOut .sml_get_profile_list_response_write pGetProfileListResponseWrite :=
  WriteOut.struct (fs := [(.sml_octet_string_write, [.var 1]), (.sml_time_write, [.var 1]), (.sml_number_write, [.lit .i32 96, .lit .u64 4, .var 1]), (.sml_tree_path_write, [.var 1]), (.sml_time_write, [.var 1]), (.sml_number_write, [.lit .i32 96, .lit .u64 8, .var 1]), (.sml_sequence_write, [.var 1, .fn .sml_period_entry_write_get]), (.sml_octet_string_write, [.var 1]), (.sml_octet_string_write, [.var 1])]) rfl rfl (by decide)
    ⟨.plain oOctet, .plain oTime, .number (by decide) (by decide), .plain oTreePath, .plain oTime, .number (by decide) (by decide), sequenceWrite_out oPeriodGet, .plain oOctet, .plain oOctet, trivial⟩

theorem oGetProfileListResponse : OWrite .sml_get_profile_list_response_write pGetProfileListResponseWrite := ⟨getProfileListResponseWrite_src, getProfileListResponseWrite_out, fun _ => by unfold pGetProfileListResponseWrite; keeps_body⟩

theorem getProcParameterRequestWrite_out : WriteOut .sml_get_proc_parameter_request_write pGetProcParameterRequestWrite :=
  WriteOut.struct (fs := [(.sml_octet_string_write, [.var 1]), (.sml_octet_string_write, [.var 1]), (.sml_octet_string_write, [.var 1]), (.sml_tree_path_write, [.var 1]), (.sml_octet_string_write, [.var 1])]) rfl rfl (by decide)
    ⟨.plain oOctet, .plain oOctet, .plain oOctet, .plain oTreePath, .plain oOctet, trivial⟩

theorem oGetProcParameterRequest : OWrite .sml_get_proc_parameter_request_write pGetProcParameterRequestWrite := ⟨getProcParameterRequestWrite_src, getProcParameterRequestWrite_out, fun _ => by unfold pGetProcParameterRequestWrite; keeps_body⟩

theorem getProcParameterResponseWrite_out : WriteOut .sml_get_proc_parameter_response_write pGetProcParameterResponseWrite :=
  WriteOut.struct (fs := [(.sml_octet_string_write, [.var 1]), (.sml_tree_path_write, [.var 1]), (.sml_tree_write, [.var 1])]) rfl rfl (by decide)
    ⟨.plain oOctet, .plain oTreePath, .plain oTree, trivial⟩

theorem oGetProcParameterResponse : OWrite .sml_get_proc_parameter_response_write pGetProcParameterResponseWrite := ⟨getProcParameterResponseWrite_src, getProcParameterResponseWrite_out, fun _ => by unfold pGetProcParameterResponseWrite; keeps_body⟩

theorem setProcParameterRequestWrite_out : WriteOut .sml_set_proc_parameter_request_write pSetProcParameterRequestWrite :=
  WriteOut.struct (fs := [(.sml_octet_string_write, [.var 1]), (.sml_octet_string_write, [.var 1]), (.sml_octet_string_write, [.var 1]), (.sml_tree_path_write, [.var 1]), (.sml_tree_write, [.var 1])]) rfl rfl (by decide)
    ⟨.plain oOctet, .plain oOctet, .plain oOctet, .plain oTreePath, .plain oTree, trivial⟩

theorem oSetProcParameterRequest : OWrite .sml_set_proc_parameter_request_write pSetProcParameterRequestWrite := ⟨setProcParameterRequestWrite_src, setProcParameterRequestWrite_out, fun _ => by unfold pSetProcParameterRequestWrite; keeps_body⟩

theorem getListRequestWrite_out : WriteOut .sml_get_list_request_write pGetListRequestWrite :=
  WriteOut.struct (fs := [(.sml_octet_string_write, [.var 1]), (.sml_octet_string_write, [.var 1]), (.sml_octet_string_write, [.var 1]), (.sml_octet_string_write, [.var 1]), (.sml_octet_string_write, [.var 1])]) rfl rfl (by decide)
    ⟨.plain oOctet, .plain oOctet, .plain oOctet, .plain oOctet, .plain oOctet, trivial⟩

theorem oGetListRequest : OWrite .sml_get_list_request_write pGetListRequestWrite := ⟨getListRequestWrite_src, getListRequestWrite_out, fun _ => by unfold pGetListRequestWrite; keeps_body⟩

theorem getListResponseWrite_out : WriteOut .sml_get_list_response_write pGetListResponseWrite :=
  WriteOut.struct (fs := [(.sml_octet_string_write, [.var 1]), (.sml_octet_string_write, [.var 1]), (.sml_octet_string_write, [.var 1]), (.sml_time_write, [.var 1]), (.sml_list_write, [.var 1]), (.sml_octet_string_write, [.var 1]), (.sml_time_write, [.var 1])]) rfl rfl (by decide)
    ⟨.plain oOctet, .plain oOctet, .plain oOctet, .plain oTime, .plain oList, .plain oOctet, .plain oTime, trivial⟩

theorem oGetListResponse : OWrite .sml_get_list_response_write pGetListResponseWrite := ⟨getListResponseWrite_src, getListResponseWrite_out, fun _ => by unfold pGetListResponseWrite; keeps_body⟩

theorem attentionResponseWrite_out : WriteOut .sml_attention_response_write pAttentionResponseWrite :=
  WriteOut.struct (fs := [(.sml_octet_string_write, [.var 1]), (.sml_octet_string_write, [.var 1]), (.sml_octet_string_write, [.var 1]), (.sml_tree_write, [.var 1])]) rfl rfl (by decide)
    ⟨.plain oOctet, .plain oOctet, .plain oOctet, .plain oTree, trivial⟩

theorem oAttentionResponse : OWrite .sml_attention_response_write pAttentionResponseWrite := ⟨attentionResponseWrite_src, attentionResponseWrite_out, fun _ => by unfold pAttentionResponseWrite; keeps_body⟩

theorem valueEntryWrite_out : WriteOut .sml_value_entry_write pValueEntryWrite := .wrap rfl rfl oValueEntry_
theorem headerEntryWrite_out : WriteOut .sml_prof_obj_header_entry_write pProfObjHeaderEntryWrite := .wrap rfl rfl oHeader_
theorem profPeriodWrite_out : WriteOut .sml_prof_obj_period_entry_write pProfObjPeriodEntryWrite := .wrap rfl rfl oProfPeriod_

theorem getProfilePackRequestWrite_out : WriteOut .sml_get_profile_pack_request_write pGetProfilePackRequestWrite := by
  refine WriteOut.of rfl fun a K => ?_
  have hb : (program .sml_get_profile_pack_request_write).body = .expr (.call .sml_buf_set_type_and_length [.var 1, .lit .i32 112, .lit .i32 9]) ::
      (C.writeStmts 0 0 packCalls ++ (objStmt :: [.expr (.call .sml_tree_write [.ldPtr (.var 0) 8, .var 1])])) := rfl
  have hm : pGetProfilePackRequestWrite a = (lift (setTypeAndLength tyList 9) >>= fun _ =>
      pWriteFields a 0 [pOctetStringWrite, pOctetStringWrite, pOctetStringWrite, pBooleanWrite, pTimeWrite, pTimeWrite, pTreePathWrite] >>= fun _ =>
      readPtr a 7 >>= fun l => pObjectsWrite l >>= fun _ => readPtr a 8 >>= fun v => pTreeWrite v) := by
    unfold pGetProfilePackRequestWrite pWriteStruct
    congr 1
    funext _
    rw [show [pOctetStringWrite, pOctetStringWrite, pOctetStringWrite, pBooleanWrite, pTimeWrite, pTimeWrite, pTreePathWrite, pObjectsWrite, pTreeWrite] =
      [pOctetStringWrite, pOctetStringWrite, pOctetStringWrite, pBooleanWrite, pTimeWrite, pTimeWrite, pTreePathWrite] ++ [pObjectsWrite, pTreeWrite] from rfl, writeFields_append]
    simp only [pWriteFields, List.length_cons, List.length_nil, Nat.zero_add, P_bind_unit]
  rw [hm, hb]
  refine OSem.hdr (by rfl) (by decide) (fun _ _ => rfl) ?_
  refine OSem.writeStmts (by rfl) (by rfl) ?_ 0 packCalls _
    ⟨.plain oOctet, .plain oOctet, .plain oOctet, .plain oBoolean, .plain oTime, .plain oTime, .plain oTreePath, trivial⟩
  exact OSem.objects fun env h0 h1 => OSem.writeEnd h0 h1 (.plain oTree)

theorem oGetProfilePackRequest : OWrite .sml_get_profile_pack_request_write pGetProfilePackRequestWrite :=
  ⟨getProfilePackRequestWrite_src, getProfilePackRequestWrite_out, fun _ => by unfold pGetProfilePackRequestWrite; keeps_body⟩

theorem Tame.tag : Tame (Sml.readPtr a 0 >>= fun tag => Sml.readTag 4 tag) := .bind .readPtr fun _ => .readTag

theorem messageBodyWrite_out : WriteOut .sml_message_body_write pMessageBodyWrite := by
  refine WriteOut.of rfl fun a K => ?_
  refine OSem.hdr (n := 2) (by rfl) (by decide) (fun _ _ => rfl) ?_
  refine OSem.writeField (a := a) (by rfl) (by rfl) (OCall.number (type := 96) (size := 4) (by decide) (by decide)) ?_
  intro st h hi hx hr
  rw [← P_bind_assoc] at hr
  replace hr := Tame.tag.next hr
  obtain ⟨t, s1, h1, e1, hr⟩ := hr
  obtain ⟨i1, _, ev⟩ := (ESem.deref (K := K) (pre := anySt) (env := envOf [ptrVal a, K.buf]) (ty := .u32) (w := 4) (ESem.ldPtr (x := 0) (a := a) (by rfl)) rfl conv_u32_nat).ev hi trivial e1
  have hx1 : Few 0 h1 := by rw [(Keeps.bind .readPtr fun _ => .readTag : Keeps (readPtr a 0 >>= fun tag => readTag 4 tag)) _ _ _ _ _ e1]; exact hx
  have hd : ∀ {f g}, OWrite f g → (∀ d, pBodyDataWrite t.val d = g d) → RunOut [.expr (.call f [.ldPtr (.var 0) 1, .var 1])] (envOf [ptrVal a, K.buf]) (conc K s1 h1) := by
    intro f g hf hg
    refine OSem.writeEnd (K := K) (ss := []) (x := 0) (a := a) (i := 1) (by rfl) (by rfl) (.plain hf) s1 _ i1 hx1 ?_
    rw [← funext hg]
    exact hr
  by_cases h256 : t.val = 256
  · rw [h256] at ev
    exact .switch (A := [.expr (.call .sml_open_request_write [.ldPtr (.var 0) 1, .var 1])]) ⟨rfl, .inr ⟨_, rfl⟩⟩ ev (hd oOpenRequest fun d => by rw [h256]; rfl)
  by_cases h257 : t.val = 257
  · rw [h257] at ev
    exact .switch (A := [.expr (.call .sml_open_response_write [.ldPtr (.var 0) 1, .var 1])]) ⟨rfl, .inr ⟨_, rfl⟩⟩ ev (hd oOpenResponse fun d => by rw [h257]; rfl)
  by_cases h512 : t.val = 512
  · rw [h512] at ev
    exact .switch (A := [.expr (.call .sml_close_request_write [.ldPtr (.var 0) 1, .var 1])]) ⟨rfl, .inr ⟨_, rfl⟩⟩ ev (hd oCloseRequest fun d => by rw [h512]; rfl)
  by_cases h513 : t.val = 513
  · rw [h513] at ev
    exact .switch (A := [.expr (.call .sml_close_response_write [.ldPtr (.var 0) 1, .var 1])]) ⟨rfl, .inr ⟨_, rfl⟩⟩ ev (hd oCloseResponse fun d => by rw [h513]; rfl)
  by_cases h768 : t.val = 768
  · rw [h768] at ev
    exact .switch (A := [.expr (.call .sml_get_profile_pack_request_write [.ldPtr (.var 0) 1, .var 1])]) ⟨rfl, .inr ⟨_, rfl⟩⟩ ev (hd oGetProfilePackRequest fun d => by rw [h768]; rfl)
  by_cases h769 : t.val = 769
  · rw [h769] at ev
    exact .switch (A := [.expr (.call .sml_get_profile_pack_response_write [.ldPtr (.var 0) 1, .var 1])]) ⟨rfl, .inr ⟨_, rfl⟩⟩ ev (hd oGetProfilePackResponse fun d => by rw [h769]; rfl)
  by_cases h1024 : t.val = 1024
  · rw [h1024] at ev
    exact .switch (A := [.expr (.call .sml_get_profile_pack_request_write [.ldPtr (.var 0) 1, .var 1])]) ⟨rfl, .inr ⟨_, rfl⟩⟩ ev (hd oGetProfilePackRequest fun d => by rw [h1024]; rfl)
  by_cases h1025 : t.val = 1025
  · rw [h1025] at ev
    exact .switch (A := [.expr (.call .sml_get_profile_list_response_write [.ldPtr (.var 0) 1, .var 1])]) ⟨rfl, .inr ⟨_, rfl⟩⟩ ev (hd oGetProfileListResponse fun d => by rw [h1025]; rfl)
  by_cases h1280 : t.val = 1280
  · rw [h1280] at ev
    exact .switch (A := [.expr (.call .sml_get_proc_parameter_request_write [.ldPtr (.var 0) 1, .var 1])]) ⟨rfl, .inr ⟨_, rfl⟩⟩ ev (hd oGetProcParameterRequest fun d => by rw [h1280]; rfl)
  by_cases h1281 : t.val = 1281
  · rw [h1281] at ev
    exact .switch (A := [.expr (.call .sml_get_proc_parameter_response_write [.ldPtr (.var 0) 1, .var 1])]) ⟨rfl, .inr ⟨_, rfl⟩⟩ ev (hd oGetProcParameterResponse fun d => by rw [h1281]; rfl)
  by_cases h1536 : t.val = 1536
  · rw [h1536] at ev
    exact .switch (A := [.expr (.call .sml_set_proc_parameter_request_write [.ldPtr (.var 0) 1, .var 1])]) ⟨rfl, .inr ⟨_, rfl⟩⟩ ev (hd oSetProcParameterRequest fun d => by rw [h1536]; rfl)
  by_cases h1792 : t.val = 1792
  · rw [h1792] at ev
    exact .switch (A := [.expr (.call .sml_get_list_request_write [.ldPtr (.var 0) 1, .var 1])]) ⟨rfl, .inr ⟨_, rfl⟩⟩ ev (hd oGetListRequest fun d => by rw [h1792]; rfl)
  by_cases h1793 : t.val = 1793
  · rw [h1793] at ev
    exact .switch (A := [.expr (.call .sml_get_list_response_write [.ldPtr (.var 0) 1, .var 1])]) ⟨rfl, .inr ⟨_, rfl⟩⟩ ev (hd oGetListResponse fun d => by rw [h1793]; rfl)
  by_cases h65281 : t.val = 65281
  · rw [h65281] at ev
    exact .switch (A := [.expr (.call .sml_attention_response_write [.ldPtr (.var 0) 1, .var 1])]) ⟨rfl, .inr ⟨_, rfl⟩⟩ ev (hd oAttentionResponse fun d => by rw [h65281]; rfl)
  have hb : ∀ d, pBodyDataWrite t.val d = pure () := by
    intro d
    unfold pBodyDataWrite
    simp only [tagOpenRequest, tagOpenResponse, tagCloseRequest, tagCloseResponse, tagGetProfilePackRequest, tagGetProfilePackResponse, tagGetProfileListRequest, tagGetProfileListResponse, tagGetProcParameterRequest, tagGetProcParameterResponse, tagSetProcParameterRequest, tagGetListRequest, tagGetListResponse, tagAttentionResponse, h256, h257, h512, h513, h768, h769, h1024, h1025, h1280, h1281, h1536, h1792, h1793, h65281, if_false]
  replace hr := Tame.readPtr.next hr
  obtain ⟨d, s2, h2, _, hr⟩ := hr
  rw [hb] at hr
  cases hr

theorem oMessageBody : OWrite .sml_message_body_write pMessageBodyWrite := ⟨messageBodyWrite_src, messageBodyWrite_out, keeps_messageBody⟩

/-! ## Messages -/

theorem Tame.lift {m : M α} (h : ∀ st, m st ≠ .ub .oobWrite) : Tame (lift m) := fun st _ hr => h st (lift_eq_bad hr)

theorem Tame.crcObject (n : Nat) : Tame (pCrcObject n) := by
  refine .bind (.lift fun _ h => nomatch h) fun st => .ite _ (.fault (fun h => nomatch h)) (.bind (.lift fun st h => ?_) fun _ => ?_)
  · unfold bufferSlice at h
    split at h <;> cases h
  · intro st h hr
    cases hr

theorem Tame.writePtr : Tame (writePtr a i v) := by
  refine .bind .deref fun c => ?_
  cases c with
  | struct ps is => exact .ite _ (.bind .deref fun _ _ _ h => nomatch h) (.fault (fun h => nomatch h))
  | _ => exact .fault (fun h => nomatch h)

theorem Tame.cursorAsInt : Tame (Sml.lift Sml.cursorAsInt) := by
  refine .lift fun st h => ?_
  replace h := M_bind_eq_ub h
  rcases h with h | ⟨_, _, e, h⟩
  · cases h
  · split at h <;> cases h

theorem OSem.endByte (h1 : env 1 = K.buf) : OSem K (.stByte .u8 (.ldPtr (.var 1) 0) (.ldInt .u64 (.var 1) 1) (.lit .i32 0) :: ss) env (lift (setByte 0x00) >>= fun _ => lift advance) := by
  intro st h hi _ hr
  replace hr := P_bind_eq_bad hr
  rcases hr with hr | ⟨_, s1, h1', e1, hr⟩
  · exact .head (out_setByte K h1 (setByte_eq_ub (lift_eq_bad hr)) (w := 0) .lit)
  · cases hr

theorem P_bind_bad_of {m : P α} {f : α → P β} (h : m st hp = .bad b) : (m >>= f) st hp = .bad b := by
  show (match m st hp with | .ok a st' hp' => f a st' hp' | .bad b => .bad b) = _
  rw [h]

/-- The part `k` where one more block can be counted. -/
noncomputable def bounded (k : P Unit) : P Unit := fun st h => open Classical in if Few 1 h then k st h else .bad (.buf .fuel)

/-- Behind a part that leaves the heap alone a stronger bound on the number of blocks is still at hand. -/
theorem OSem.bounded {p : P Unit} {k : P Unit} (hp : Keeps p) (hs : OSem K ss env (p >>= fun _ => bounded k))
    (hi : Inv K st h) (hx : Few 1 h) (hr : (p >>= fun _ => k) st h = .bad overrun) : RunOut ss env (conc K st h) := by
  refine hs st h hi (hx.le (by omega)) ?_
  replace hr := P_bind_eq_bad hr
  rcases hr with hr | ⟨u, s1, h1, e1, hr⟩
  · exact P_bind_bad_of hr
  · rw [P.bind_ok e1]
    obtain rfl := hp _ _ _ _ _ e1
    exact (if_pos hx).trans hr

theorem keeps_messageFront (a : Addr) :
    Keeps (lift (setTypeAndLength tyList 6) >>= fun _ => pWriteFields a 0 [pOctetStringWrite, pU8Write, pU8Write, pMessageBodyWrite]) :=
  .bind .lift fun _ => .fields a 0 _ (.cons keeps_octet (.cons keeps_number (.cons keeps_number (.cons keeps_messageBody .nil))))

theorem crcObject_few (hf : Few (k + 1) h) (hr : pCrcObject n st h = .ok crc st' h') : Few k h' := by
  replace hr := P_bind_eq_ok hr
  obtain ⟨s, s1, g1, e, hr⟩ := hr
  obtain ⟨rfl, rfl, rfl⟩ := getSt_eq_ok e
  split at hr
  · cases hr
  replace hr := P_bind_eq_ok hr
  obtain ⟨bs, s2, g2, e2, hr⟩ := hr
  obtain ⟨_, rfl, rfl, rfl⟩ := bufferSlice_eq_ok e2
  cases hr
  exact hf.alloc

/-- The message function asks for one block, the checksum. -/
theorem messageWrite_out : ∀ a (K : Ctx) st h, Inv K st h → Few 1 h → pMessageWrite a st h = .bad overrun → CallOut .sml_message_write [ptrVal a, K.buf] (conc K st h) := by
  intro a K st h hi hx hr
  refine .of (vs := [ptrVal a, K.buf]) (fun _ _ => rfl) ?_
  rw [messageWrite_eq] at hr
  replace hr := Tame.cursorAsInt.next hr
  obtain ⟨n, s1, h1, e1, hr⟩ := hr
  obtain ⟨rfl, rfl, rfl⟩ := cursorAsInt_eq_ok e1
  have i1 : Inv { K with lo := s1.cursor } s1 h1 := ⟨hi.good, hi.nB, hi.nA, hi.lB, hi.lA, hi.ints, Nat.le_refl _, hi.old⟩
  have g1 := hi.good.cur
  have g2 := hi.good.len
  refine RunOut.cons (.set (ev_cursor K (by rfl)) (conv_i32 (n := (s1.cursor : Nat)) (by omega) (by omega))) ?_
  show RunOut _ _ (conc { K with lo := s1.cursor } s1 h1)
  generalize hK : ({ K with lo := s1.cursor } : Ctx) = K1 at i1 ⊢
  have hlo : K1.lo = s1.cursor := by rw [← hK]
  have hbuf : K1.buf = K.buf := by rw [← hK]
  rw [← hlo] at hr ⊢
  rw [← hbuf]
  rw [← P_bind_assoc] at hr
  refine OSem.bounded (keeps_messageFront a) ?_ i1 hx hr
  rw [P_bind_assoc]
  refine OSem.hdr (n := 6) (by rfl) (by decide) (fun _ _ => rfl) ?_
  refine OSem.writeStmts (x := 0) (by rfl) (by rfl) ?_ 0 messageCalls _ ⟨.plain oOctet, .number (by decide) (by decide), .number (by decide) (by decide), .plain oMessageBody, trivial⟩
  intro st h hi _ hr
  by_cases hx : Few 1 h
  case neg =>
    exact nomatch (if_neg hx).symm.trans hr
  replace hr := (if_pos hx).symm.trans hr
  replace hr := (Tame.crcObject _).next hr
  obtain ⟨crc, s2, h2, e2, hr⟩ := hr
  replace hr := Tame.writePtr.next hr
  obtain ⟨_, s3, h3, e3, hr⟩ := hr
  obtain ⟨i2, _, ev⟩ := (ESem.crcObject (K := K1) (env := upd (envOf [ptrVal a, K1.buf]) 2 (.int .i32 (K1.lo : Nat))) (by rfl) (by rfl)).ev hi trivial e2
  have e3' := e3
  obtain ⟨_, rfl, _, _, hc, _, rfl⟩ := writePtr_eq_ok e3'
  refine RunOut.cons (.stPtr ev (ev_ptrVar (by rfl)) (storePtr_cell i2 e3)) ?_
  refine OSem.writeField (K := K1) (x := 0) (a := a) (by rfl) (by rfl) (OCall.number (type := 96) (size := 2) (by decide) (by decide)) (OSem.endByte (by rfl)) _ _ (i2.setPs hc _) ?_ hr
  exact (crcObject_few (k := 0) hx e2).store (by rw [hc]; exact fun h => nomatch h)

theorem messageWrite_few {h : Heap} (hf : Few (k + 1) h) (hr : pMessageWrite a st h = .ok u st' h') : Few k h' := by
  rw [messageWrite_eq] at hr
  obtain ⟨n, s1, h1, e1, hr⟩ := P_bind_eq_ok hr
  replace hr := P_bind_eq_ok hr
  obtain ⟨_, s2, h2, e2, hr⟩ := hr
  replace hr := P_bind_eq_ok hr
  obtain ⟨_, s3, h3, e3, hr⟩ := hr
  replace hr := P_bind_eq_ok hr
  obtain ⟨c, s4, h4, e4, hr⟩ := hr
  replace hr := P_bind_eq_ok hr
  obtain ⟨_, s5, h5, e5, hr⟩ := hr
  have k1 : h1 = h := Keeps.lift _ _ _ _ _ e1
  have k2 : h2 = h1 := Keeps.lift _ _ _ _ _ e2
  have k3 : h3 = h2 := Keeps.fields _ _ _ (.cons keeps_octet (.cons (fun _ => keeps_number _) (.cons (fun _ => keeps_number _) (.cons keeps_messageBody .nil)))) _ _ _ _ _ e3
  have k6 : h' = h5 := (Keeps.bind .readPtr fun _ => .bind (keeps_number _) fun _ => .bind .lift fun _ => .lift : Keeps _) _ _ _ _ _ hr
  subst k1 k2 k3 k6
  obtain ⟨_, _, _, _, hc, _, rfl⟩ := writePtr_eq_ok e5
  exact (crcObject_few hf e4).store (by rw [hc]; exact fun h => nomatch h)

end Sml.C
