import Verif.Proofs.SourceCut
import Verif.Proofs.SourceWriteFile

/-! `sml_file_write` at the end of the buffer, run from its source. -/

namespace Sml.C

open Spec in
/-- The loop over the messages `ms` that are left, the others are the ones `qs` points to. -/
theorem writeLoop_out (K : Ctx) (n0 : Nat) (c0 : Nat → Option HCell) {a arr N : Nat} (b : Bool) (hN : N ≤ 2147483647) : ∀ (ms : List Message) (qs ps : List Addr) (C X g : List Blk) (s : St) (h : Heap) (env : Env),
    qs.length + ms.length = N → Sml.Fields (ms.map RMessage) ps C → (a, .struct [arr, K.B] [N]) ∈ X → (arr, .struct (qs ++ ps) []) ∈ X →
    Own n0 c0 h (C ++ X ++ g) → Inv K s.dry h → env 0 = ptrVal a → env 1 = .int .i32 qs.length → (∀ m ∈ ms, MessageOk b m) →
    s.data.length < s.cursor + (fileBytes ms).length → s.cursor + (fileBytes ms).length ≤ 2147483647 → Few ms.length h →
    RunOut [.loop (.bin .lt (.var 1) (.ldInt .i16 (.var 0) 0)) [.expr (.call .sml_message_write [.elem (.ldPtr (.var 0) 0) (.var 1), .ldPtr (.var 0) 1])]
        [.set .i32 1 (.bin .add (.var 1) (.lit .i32 1))]] env (conc K s.dry h)
  | [], qs, ps, C, X, g, s, h, env, hl, hF, ha, harr, o, hi, h0, h1, hok, hlt, hle, hx => by
    have := hi.good.cur
    replace hlt : s.data.length < s.cursor + 0 := hlt
    have h2 : s.dry.cursor = s.cursor := rfl
    have h3 : s.dry.data = s.data := rfl
    rw [h2, h3] at this
    omega
  | m :: ms, qs, ps, C, X, g, s, h, env, hl, hF, ha, harr, o, hi, h0, h1, hok, hlt, hle, hx => by
    obtain ⟨p, ps', B1, B2, rfl, hrm, hF', rfl⟩ := hF
    have nz : ∀ {x}, x ∈ B1 ++ B2 ++ X ++ g → x.1 ≠ 0 := fun hx => by
      have := o.pos
      have := (o.key _ hx).1
      omega
    have ma : (a, HCell.struct [arr, K.B] [N]) ∈ B1 ++ B2 ++ X ++ g := by simp [ha]
    have mr : (arr, HCell.struct (qs ++ p :: ps') []) ∈ B1 ++ B2 ++ X ++ g := by simp [harr]
    have rn : readInt a 0 s.dry h = .ok N s.dry h := readInt_ok (nz ma) (o.mem _ ma) rfl
    have r0 : readPtr a 0 s.dry h = .ok arr s.dry h := readPtr_ok (nz ma) (o.mem _ ma) rfl
    have r1 : readPtr a 1 s.dry h = .ok K.B s.dry h := readPtr_ok (nz ma) (o.mem _ ma) rfl
    have r2 : readPtr arr qs.length s.dry h = .ok p s.dry h := readPtr_ok (nz mr) (o.mem _ mr) (by simp)
    have hk : qs.length < N := by simp at hl; omega
    have hb : (fileBytes (m :: ms)).length = (messageBytes (checksum m) m).length + (fileBytes ms).length := by simp [fileBytes]
    have hcu : s.cursor ≤ s.data.length := hi.good.cur
    have hln : s.data.length ≤ 2147483647 := hi.good.len
    have hx' : Few (ms.length + 1) h := hx
    refine RunOut.loop rfl rfl (RunOut.ite (b := true) (.bin (.int h1) (ev_ldInt hi (.ptr h0) rn) (bin_lt (ta := .i32) (tb := .i16) (conv_i32 (by omega) (by omega)) (conv_i32 (by omega) (by omega)))) ?_ ?_)
    · rw [truth_ofBool, decide_eq_true]
      omega
    have ea : EvalsTo [.elem (.ldPtr (.var 0) 0) (.var 1), .ldPtr (.var 0) 1] env (conc K s.dry h) [ptrVal p, K.buf] env (conc K s.dry h) :=
      .two (.elem (k := qs.length) (ev_ldPtr hi (.ptr h0) r0) (.int h1) (loadPtr_cell hi r2)) (ev_ldPtr hi (.ptr h0) r1)
    by_cases hfit : s.cursor + (messageBytes (checksum m) m).length ≤ s.data.length
    · obtain ⟨m', s1, e1, hcur, hun, _⟩ := (c31_message b m (hok m (by simp)) s hcu hln).1 hfit
      obtain ⟨_, k1, B1', g1, w1, ⟨B1'', hrm', rfl⟩, o1, l1⟩ := sim_messageWrite (B := B1) (D := B2 ++ X) m p hrm s n0 c0 h g (o.perm (by blocks_perm)) m' s1 e1
      obtain ⟨i1, _, c1⟩ := (messageWrite_src p).run hi trivial w1
      have hnx := messageWrite_few hx' w1
      have harr' : (arr, HCell.struct ((qs ++ [p]) ++ ps') []) ∈ B1'' ++ X := by simp [harr]
      refine .cons (.expr (.call ea c1)) (.cons (env1 := upd env 1 (.int .i32 ((qs ++ [p]).length : Nat))) (m1 := conc K s1.dry k1) (.set (k := ((qs ++ [p]).length : Nat)) (t := .i32) (.bin (.int h1) .lit ?_) (conv_i32 (by omega) (by simp; omega))) ?_)
      · rw [bin_add (ta := .i32) (tb := .i32) (conv_i32 (by omega) (by omega)) rfl]
        refine (arith_i32 (by omega) (by omega)).trans ?_
        rw [List.length_append, Int.natCast_add]
        rfl
      · exact writeLoop_out K n0 c0 b hN ms (qs ++ [p]) ps' B2 (B1'' ++ X) g1 s1 k1
          (upd env 1 (.int .i32 ((qs ++ [p]).length : Nat))) (by simp at hl ⊢; omega) hF' (List.mem_append_right _ ha) harr'
          (o1.perm (by blocks_perm)) i1 ((upd_other (by decide)).trans h0) upd_same (fun x hx => hok x (by simp [hx])) (by omega) (by omega) hnx
    · refine .head (.expr (.call ea (messageWrite_out p K s.dry h hi (hx'.le (by omega)) ?_)))
      exact messageWrite_over b m (hok m (by simp)) hrm (o := (o.perm (by blocks_perm) : Own n0 c0 h (B1 ++ (B2 ++ X ++ g)))) s hcu (by omega) (by omega)

open Spec in
/-- `sml_file_write` on a file `f` in a heap whose buffer has not enough room. -/
theorem fileWrite_out {s : St} {f : File} (K : Ctx) (b : Bool) (hr : RFileOf (rawRep K.B) f a L) (hi : Inv K s.dry h) (o : Own n0 c0 h (L ++ g)) (hok : ∀ m ∈ f.messages, MessageOk b m)
    (hlt : s.data.length < s.cursor + (fileBytes f.messages).length) (hle : s.cursor + (fileBytes f.messages).length ≤ 2147483647) (hx : Few f.messages.length h) :
    CallOut .sml_file_write [ptrVal a] (conc K s.dry h) := by
  obtain ⟨ps, B', hF, rfl⟩ := hr
  obtain ⟨arr, buf, B1, B2, rfl, harr, ⟨rfl, rfl⟩, rfl⟩ := hF.two
  have ma : (a, HCell.struct [arr, K.B] [f.messages.length]) ∈ (a, HCell.struct [arr, K.B] [f.messages.length]) :: (B1 ++ []) ++ g := by simp
  have hz : a ≠ 0 := by
    have := o.pos
    have := (o.key _ ma).1
    simp only at this
    omega
  have hc := o.mem _ ma
  have rn : readInt a 0 s.dry h = .ok f.messages.length s.dry h := readInt_ok hz hc rfl
  have r0 : readPtr a 0 s.dry h = .ok arr s.dry h := readPtr_ok hz hc rfl
  have hN := readInt_small hi rn
  have hs : f.messages ≠ [] := by
    intro hs
    have hcu : s.cursor ≤ s.data.length := hi.good.cur
    rw [hs] at hlt
    replace hlt : s.data.length < s.cursor + 0 := hlt
    omega
  have hra := harr
  rw [RArr.ne (by simpa using hs)] at hra
  obtain ⟨qs, C, hq, rfl⟩ := hra
  have hna : arr ≠ 0 := by
    have := o.pos
    have := (o.key (arr, .struct qs []) (by simp)).1
    simp only at this
    omega
  refine .of (fun _ _ => bind_ptr1) ?_
  have hpos : 0 < f.messages.length := List.length_pos_iff.mpr hs
  have hgt : EvalTo (.bin .gt (.ldInt .i16 (.var 0) 0) (.lit .i32 0)) (envOf [ptrVal a]) (conc K s.dry h) (ofBool true) (envOf [ptrVal a]) (conc K s.dry h) := by
    refine .bin (ev_ldInt hi (.ptr (by rfl)) rn) .lit ?_
    rw [bin_gt (ta := .i16) (tb := .i32) (conv_i32 (by omega) (by omega)) rfl, decide_eq_true (by omega)]
  refine RunOut.ite (b := true) (.and_t (ev_ldPtr hi (.ptr (by rfl)) r0) (truth_ptr hna) hgt (truth_ofBool true)) (truth_ofBool true) ?_
  refine .cons (.set (k := 0) (t := .i32) .lit rfl) ?_
  exact writeLoop_out K n0 c0 (a := a) (arr := arr) b hN f.messages [] qs C [(a, .struct [arr, K.B] [f.messages.length]), (arr, .struct qs [])] g s h
      (upd (envOf [ptrVal a]) 1 (.int .i32 ((([] : List Addr).length : Nat) : Int))) (by simp) hq (by simp) (by simp) (o.perm (by blocks_perm)) hi (by rfl) upd_same hok hlt hle hx

end Sml.C
