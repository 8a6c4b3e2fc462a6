import Verif.Proofs.SourceWriteMsg
import Verif.Proofs.HeapWriteFile

/-! `sml_file_write` run from its source. -/

namespace Sml.C

theorem EvalsTo.two (h1 : EvalTo a env m v env1 m1) (h2 : EvalTo b env1 m1 w env' m') : EvalsTo [a, b] env m [v, w] env' m' := .cons h1 (.one h2)

/-- The loop over the messages `ms` that are left, the others are the ones `qs` points to. -/
theorem writeLoop_run (K : Ctx) (n0 : Nat) (c0 : Nat → Option HCell) {a arr N : Nat} (hN : N ≤ 2147483647) : ∀ (ms : List Message) (qs ps : List Addr) (C X g : List Blk) (s : St) (h : Heap) (env : Env)
    (ms' : List Message) (s' : St), qs.length + ms.length = N → Sml.Fields (ms.map RMessage) ps C → (a, .struct [arr, K.B] [N]) ∈ X → (arr, .struct (qs ++ ps) []) ∈ X →
    Own n0 c0 h (C ++ X ++ g) → Inv K s.dry h → env 0 = ptrVal a → env 1 = .int .i32 qs.length → fileWriteLoop ms s = .ok ms' s' →
    ∃ h' C' g' env', Sml.Fields (ms'.map RMessage) ps C' ∧ ms'.length = ms.length ∧ Own n0 c0 h' (C' ++ X ++ g') ∧ Inv K s'.dry h' ∧
      s'.live + (C.length + g.length) = s.live + (C'.length + g'.length) ∧
      LoopTo (.bin .lt (.var 1) (.ldInt .i16 (.var 0) 0)) [.expr (.call .sml_message_write [.elem (.ldPtr (.var 0) 0) (.var 1), .ldPtr (.var 0) 1])]
        [.set .i32 1 (.bin .add (.var 1) (.lit .i32 1))] env (conc K s.dry h) .next env' (conc K s'.dry h')
  | [], qs, ps, C, X, g, s, h, env, ms', s', hl, hF, ha, harr, o, hi, h0, h1, hr => by
    cases hr
    have hc := o.mem _ (List.mem_append_left g (List.mem_append_right C ha))
    have hz : a ≠ 0 := by
      have := o.pos
      have := (o.key _ (List.mem_append_left g (List.mem_append_right C ha))).1
      simp only at this
      omega
    have e1 : readInt a 0 s.dry h = .ok N s.dry h := readInt_ok hz hc rfl
    refine ⟨h, C, g, env, hF, rfl, o, hi, by omega, .done (.bin (.int h1) (ev_ldInt hi (.ptr h0) e1)
      (bin_lt (ta := .i32) (tb := .i16) (conv_i32 (by omega) (by simp at hl; omega)) (conv_i32 (by omega) (by omega)))) ?_⟩
    rw [truth_ofBool, decide_eq_false]
    simp at hl
    omega
  | m :: ms, qs, ps, C, X, g, s, h, env, ms', s', hl, hF, ha, harr, o, hi, h0, h1, hr => by
    obtain ⟨p, ps', B1, B2, rfl, hrm, hF', rfl⟩ := hF
    obtain ⟨m', s1, e1, hr⟩ := M.bind_eq_ok hr
    obtain ⟨ms1, s2, e2, hr⟩ := M.bind_eq_ok hr
    obtain ⟨rfl, rfl⟩ := M.pure_eq_ok hr
    have nz : ∀ {x}, x ∈ B1 ++ B2 ++ X ++ g → x.1 ≠ 0 := fun hx => by
      have := o.pos
      have := (o.key _ hx).1
      omega
    have ma : (a, HCell.struct [arr, K.B] [N]) ∈ B1 ++ B2 ++ X ++ g := by simp [ha]
    have mr : (arr, HCell.struct (qs ++ p :: ps') []) ∈ B1 ++ B2 ++ X ++ g := by simp [harr]
    have rn : readInt a 0 s.dry h = .ok N s.dry h := readInt_ok (nz ma) (o.mem _ ma) rfl
    have r0 : readPtr a 0 s.dry h = .ok arr s.dry h := readPtr_ok (nz ma) (o.mem _ ma) rfl
    have r1 : readPtr a 1 s.dry h = .ok K.B s.dry h := readPtr_ok (nz ma) (o.mem _ ma) rfl
    have r2 : readPtr arr qs.length s.dry h = .ok p s.dry h := readPtr_ok (nz mr) (o.mem _ mr) (by simp)
    obtain ⟨_, k1, B1', g1, w1, ⟨B1'', hrm', rfl⟩, o1, l1⟩ := sim_messageWrite (B := B1) (D := B2 ++ X) m p hrm s n0 c0 h g (o.perm (by blocks_perm)) m' s1 e1
    obtain ⟨i1, _, c1⟩ := (messageWrite_src p).run hi trivial w1
    have hk : qs.length < N := by simp at hl; omega
    have harr' : (arr, HCell.struct ((qs ++ [p]) ++ ps') []) ∈ B1'' ++ X := by simp [harr]
    obtain ⟨k2, C', g', env', hF2, hl2, o2, i2, l2, lp⟩ := writeLoop_run K n0 c0 hN ms (qs ++ [p]) ps' B2 (B1'' ++ X) g1 s1 k1
      (upd env 1 (.int .i32 ((qs ++ [p]).length : Nat))) ms1 _ (by simp at hl ⊢; omega) hF' (List.mem_append_right _ ha) harr'
      (o1.perm (by blocks_perm)) i1 ((upd_other (by decide)).trans h0) upd_same e2
    refine ⟨k2, B1'' ++ C', g', env', ⟨p, ps', B1'', C', rfl, hrm', hF2, rfl⟩, by simp [hl2], o2.perm (by blocks_perm), i2, ?_, ?_⟩
    · simp only [List.length_append] at l1 l2 ⊢
      omega
    · refine .round (.bin (.int h1) (ev_ldInt hi (.ptr h0) rn) (bin_lt (ta := .i32) (tb := .i16) (conv_i32 (by omega) (by omega)) (conv_i32 (by omega) (by omega)))) ?_
        (.last (.expr (.call (.two (.elem (k := qs.length) (ev_ldPtr hi (.ptr h0) r0) (.int h1) (loadPtr_cell hi r2)) (ev_ldPtr hi (.ptr h0) r1)) c1)))
        (.last (.set (k := ((qs ++ [p]).length : Nat)) (t := .i32) (.bin (.int h1) .lit ?_) (conv_i32 (by omega) (by simp; omega)))) lp
      · rw [truth_ofBool, decide_eq_true]
        omega
      · rw [bin_add (ta := .i32) (tb := .i32) (conv_i32 (by omega) (by omega)) rfl]
        refine (arith_i32 (by omega) (by omega)).trans ?_
        rw [List.length_append, Int.natCast_add]
        rfl

/-- `sml_file_write` on a file `f` in a heap. -/
theorem fileWrite_run (K : Ctx) (hr : RFileOf (rawRep K.B) f a L) (hi : Inv K s.dry h) (o : Own n0 c0 h (L ++ g)) (hw : fileWrite f s = .ok f' s') :
    ∃ h' L' g', RFileOf (rawRep K.B) f' a L' ∧ Own n0 c0 h' (L' ++ g') ∧ Inv K s'.dry h' ∧ s'.live + (L.length + g.length) = s.live + (L'.length + g'.length) ∧
      CallTo .sml_file_write [ptrVal a] (conc K s.dry h) .undef (conc K s'.dry h') := by
  obtain ⟨ps, B', hF, rfl⟩ := hr
  obtain ⟨arr, buf, B1, B2, rfl, harr, ⟨rfl, rfl⟩, rfl⟩ := hF.two
  obtain ⟨ms', s1, e1, e2⟩ := M.bind_eq_ok hw
  cases e2
  have ma : (a, HCell.struct [arr, K.B] [f.messages.length]) ∈ (a, HCell.struct [arr, K.B] [f.messages.length]) :: (B1 ++ []) ++ g := by simp
  have hz : a ≠ 0 := by
    have := o.pos
    have := (o.key _ ma).1
    simp only at this
    omega
  have hc := o.mem _ ma
  have rn : readInt a 0 s.dry h = .ok f.messages.length s.dry h := readInt_ok hz hc rfl
  have r0 : readPtr a 0 s.dry h = .ok arr s.dry h := readPtr_ok hz hc rfl
  have hN := readInt_small hi rn
  by_cases hs : f.messages = []
  · rw [hs] at e1
    cases e1
    have h0 : arr = 0 := by
      rw [hs] at harr
      exact harr.1
    subst h0
    have hf : f = { messages := [] } := by
      cases f
      exact congrArg File.mk hs
    subst hf
    refine ⟨h, _, g, ⟨_, _, hF, rfl⟩, o, hi, rfl, .of (fun _ _ => bind_ptr1) (v := .undef) (m1 := conc K s.dry h) ?_ fun env => congrArg (XRes.ok _ env) (mem_stack (conc K s.dry h) (s := K.σ) rfl)⟩
    exact .cons (.ite (b := false) (.and_f (ev_ldPtr hi (.ptr (by rfl)) r0) rfl) rfl .nil) .nil
  · have hra := harr
    rw [RArr.ne (by simpa using hs)] at hra
    obtain ⟨qs, C, hq, rfl⟩ := hra
    have hna : arr ≠ 0 := by
      have := o.pos
      have := (o.key (arr, .struct qs []) (by simp)).1
      simp only at this
      omega
    obtain ⟨h', C', g', env', hF', hl, o', hi', l', lp⟩ := writeLoop_run K n0 c0 (a := a) (arr := arr) hN f.messages [] qs C [(a, .struct [arr, K.B] [f.messages.length]), (arr, .struct qs [])] g s h
      (upd (envOf [ptrVal a]) 1 (.int .i32 ((([] : List Addr).length : Nat) : Int))) ms' s' (by simp) hq (by simp) (by simp) (o.perm (by blocks_perm)) hi (by rfl) upd_same e1
    have hne : ms' ≠ [] := fun h => hs (List.length_eq_zero_iff.mp (by rw [← hl, h]; rfl))
    refine ⟨h', _, g', ⟨[arr, K.B], ((arr, .struct qs []) :: C') ++ [], ⟨arr, [K.B], (arr, .struct qs []) :: C', [], rfl, ?_, Sml.Fields.single ⟨rfl, rfl⟩, rfl⟩, rfl⟩, ?_, hi', ?_,
      .of (fun _ _ => bind_ptr1) (v := .undef) (m1 := conc K s'.dry h') ?_ fun env => congrArg (XRes.ok _ env) (mem_stack (conc K s'.dry h') (s := K.σ) rfl)⟩
    · rw [RArr.ne (by simpa using hne)]
      exact ⟨qs, C', hF', rfl⟩
    · rw [hl]
      exact o'.perm (by blocks_perm)
    · simp only [List.length_cons, List.length_append, List.length_nil] at l' ⊢
      omega
    · have hpos : 0 < f.messages.length := List.length_pos_iff.mpr hs
      have hgt : EvalTo (.bin .gt (.ldInt .i16 (.var 0) 0) (.lit .i32 0)) (envOf [ptrVal a]) (conc K s.dry h) (ofBool true) (envOf [ptrVal a]) (conc K s.dry h) := by
        refine .bin (ev_ldInt hi (.ptr (by rfl)) rn) .lit ?_
        rw [bin_gt (ta := .i16) (tb := .i32) (conv_i32 (by omega) (by omega)) rfl, decide_eq_true (by omega)]
      exact .cons (.ite (b := true) (.and_t (ev_ldPtr hi (.ptr (by rfl)) r0) (truth_ptr hna) hgt (truth_ofBool true)) (truth_ofBool true)
        (.cons (.set (k := 0) (t := .i32) .lit rfl) (.last (.loop lp)))) .nil

end Sml.C
