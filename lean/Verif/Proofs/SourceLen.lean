import Verif.Proofs.SourceLeaf
import Verif.Proofs.Heap

/-!
# `sml_buf_get_next_length`, run from its source
-/

namespace Sml.C

theorem toI32_range {L : Nat} (h : L < 4294967296) : -2147483648 ≤ toI32 L ∧ toI32 L < 2147483648 := by
  unfold toI32
  split <;> omega

theorem conv_i32_def (n : Int) : ITy.conv .i32 n = n.bmod 4294967296 := rfl

theorem conv_i32_nat {L : Nat} (h : L < 4294967296) : ITy.conv .i32 (L : Int) = toI32 L := by
  rw [conv_i32_def]
  unfold toI32
  split
  · rw [Int.bmod_eq_of_le] <;> omega
  · rw [← Int.sub_bmod_right, Int.bmod_eq_of_le] <;> omega

theorem conv_shl (L : Nat) : ITy.conv .i32 (toI32 L * 2 ^ (4 : Int).toNat) = toI32 (L * 16 % 4294967296) := by
  rw [← conv_i32_nat (L := L * 16 % 4294967296) (by omega)]
  rw [conv_i32_def, conv_i32_def, show (2 : Int) ^ (4 : Int).toNat = 16 from rfl]
  have h2 : ((L * 16 % 4294967296 : Nat) : Int) = ((L : Int) * 16) % 4294967296 := by omega
  rw [h2, show (4294967296 : Int) = ((4294967296 : Nat) : Int) from rfl, Int.emod_bmod]
  unfold toI32
  split
  · rfl
  · rw [Int.sub_mul]
    rw [show (4294967296 : Int) * 16 = ((4294967296 : Nat) : Int) * 16 from rfl]
    exact Int.sub_mul_bmod_self_left _ _ _

theorem toBits_toI32 {L : Nat} (h : L < 4294967296) : ITy.toBits .i32 (toI32 L) = L := by
  unfold toI32 ITy.toBits
  simp only [ITy.bits]
  split
  · exact bits32 h
  · have : ((L : Int) - 4294967296).emod (2 ^ 32) = L := by
      show ((L : Int) - 4294967296) % 4294967296 = L
      omega
    rw [this]
    rfl

theorem note_mem (K : Ctx) (b : Bool) : note b env (memOf K st nx c) = .ok () env (memOf K { st with sovf := st.sovf || b } nx c) := rfl

/-- `length <<= 4` -/
theorem shl_len (K : Ctx) {L : Nat} (_h : L < 4294967296) :
    binOp .shl (.int .i32 (toI32 L)) (.int .i32 4) env (memOf K st nx c) =
      .ok (.int .i32 (toI32 (L * 16 % 4294967296))) env (memOf K { st with sovf := st.sovf || decide (L * 16 ≥ 2147483648) } nx c) := by
  have hp : ITy.promote .i32 = .i32 := rfl
  simp only [binOp, intOp, hp]
  have hb : (ITy.signed .i32 && (decide (toI32 L < 0) || !ITy.fits .i32 (toI32 L * 2 ^ (4 : Int).toNat))) = decide (L * 16 ≥ 2147483648) := by
    have hf : ITy.fits .i32 (toI32 L * 2 ^ (4 : Int).toNat) = decide (-2147483648 ≤ toI32 L * 16 ∧ toI32 L * 16 < 2147483648) := rfl
    rw [hf, show ITy.signed .i32 = true from rfl, Bool.true_and, Bool.eq_iff_iff]
    simp only [Bool.or_eq_true, decide_eq_true_eq, Bool.not_eq_true', decide_eq_false_iff_not]
    unfold toI32
    split <;> omega
  rw [hb]
  refine (X_bind_ok (note_mem K _)).trans ?_
  rw [conv_shl L]
  rfl

theorem bor_len {L b : Nat} (h : L < 4294967296) (hb : b < 256) :
    binOp .bor (.int .i32 (toI32 L)) (.int .i32 (b : Int)) env m = .ok (.int .i32 (toI32 (L ||| b))) env m := by
  simp only [binOp, intOp, ITy.usual, ITy.promote, bitop]
  have hr := toI32_range h
  rw [conv_i32 hr.1 hr.2, conv_i32 (n := (b : Int)) (by omega) (by omega), toBits_toI32 h]
  have : ITy.toBits .i32 (b : Int) = b := bits32 (by omega)
  rw [this]
  have : L ||| b < 2 ^ 32 := Nat.or_lt_two_pow h (by omega)
  rw [conv_i32_nat this, X_pure]

/-- The condition that ends the loop. -/
theorem more_tl {b : UInt8} : (b &&& 0x80 ≠ 0x80) ↔ ((b.toNat &&& 128 : Nat) : Int) ≠ 128 := by
  refine not_congr ?_
  constructor
  · intro h
    have := congrArg UInt8.toNat h
    rw [UInt8.toNat_and] at this
    exact congrArg Int.ofNat this
  · intro h
    refine UInt8.toNat.inj ?_
    rw [UInt8.toNat_and]
    exact Int.ofNat.inj h

abbrev lenCond : Expr := .bin .lt (.ldInt .u64 (.var 0) 1) (.ldInt .u64 (.var 0) 0)

abbrev lenBody : List Stmt := [
  .set .u8 2 (.call .sml_buf_get_current_byte [.var 0]),
  .set .i32 1 (.bin .shl (.var 1) (.lit .i32 4)),
  .set .i32 1 (.bin .bor (.var 1) (.bin .band (.var 2) (.lit .i32 15))),
  .ite (.bin .ne (.bin .band (.var 2) (.lit .i32 128)) (.lit .i32 128)) [
    .brk] [],
  .expr (.call .sml_buf_update_bytes_read [.var 0, .lit .i32 1]),
  .ite (.var 3) [
    .set .i32 3 (.bin .add (.var 3) (.lit .i32 (-1)))] []]

theorem lenLoop_src (K : Ctx) : (fuel : Nat) → (L : Nat) → (l : Int) → (st : St) → (env : Env) → Good st → L < 4294967296 →
    -(st.cursor : Int) - 1 ≤ l → l ≤ 0 → env 0 = K.buf → env 1 = .int .i32 (toI32 L) → env 3 = .int .i32 l →
    ∀ r st', lenLoop fuel L l st = .ok r st' → (Good st' ∧ st.cursor ≤ st'.cursor) ∧ r.1 < 4294967296 ∧ -2147483648 ≤ r.2 ∧ r.2 ≤ 0 ∧
      ∃ env', env' 0 = K.buf ∧ env' 1 = .int .i32 (toI32 r.1) ∧ env' 3 = .int .i32 r.2 ∧
        LoopTo lenCond lenBody [] env (memOf K st nx c) .next env' (memOf K st' nx c)
  | 0, L, l, st, env, hg, hL, hl, hl0, h0, h1, h3, r, st', hr => by cases hr
  | fuel + 1, L, l, st, env, hg, hL, hl, hl0, h0, h1, h3, r, st', hr => by
    have hlen := hg.len
    have hcur := hg.cur
    unfold lenLoop at hr
    obtain ⟨s, s1, e1, hr⟩ := M.bind_eq_ok hr
    cases e1
    by_cases h : st.cursor < st.data.length
    · rw [if_pos h] at hr
      obtain ⟨b, s1, e1, hr1⟩ := M.bind_eq_ok hr
      clear hr
      have hb : st.data[st.cursor]? = some b ∧ s1 = st := by
        unfold getCurrentByte at e1
        cases hx : st.data[st.cursor]? with
        | none => rw [hx] at e1; cases e1
        | some x => rw [hx] at e1; cases e1; exact ⟨rfl, rfl⟩
      obtain ⟨hb, rfl⟩ := hb
      simp only at hr1
      obtain ⟨u, s2, e2, hr⟩ := M.bind_eq_ok hr1
      cases e2
      have hx := UInt8.toNat_lt b
      have hle : b.toNat &&& 15 ≤ 15 := Nat.and_le_right
      have hL' : L * 16 % 4294967296 ||| b.toNat &&& 15 < 2 ^ 32 := Nat.or_lt_two_pow (by omega) (by omega)
      -- the first three statements
      let env1 := upd env 2 (.int .u8 b.toNat)
      let env2 := upd env1 1 (.int .i32 (toI32 (L * 16 % 4294967296)))
      let env3 := upd env2 1 (.int .i32 (toI32 (L * 16 % 4294967296 ||| b.toNat &&& 15)))
      let st2 : St := { s1 with sovf := s1.sovf || decide (L * 16 ≥ 2147483648) }
      have x1 : ExecTo (.set .u8 2 (.call .sml_buf_get_current_byte [.var 0])) env (memOf K s1 nx c) .next env1 (memOf K s1 nx c) :=
        .set (.call1 (ev_buf K h0) (call_byte K hb)) (conv_u8 (by omega) (by omega))
      have hr2 := toI32_range (L := L * 16 % 4294967296) (by omega)
      have x2 : ExecTo (.set .i32 1 (.bin .shl (.var 1) (.lit .i32 4))) env1 (memOf K s1 nx c) .next env2 (memOf K st2 nx c) :=
        .set (.bin (.int h1) .lit (shl_len K hL)) (conv_i32 hr2.1 hr2.2)
      have hr3 := toI32_range hL'
      have x3 : ExecTo (.set .i32 1 (.bin .bor (.var 1) (.bin .band (.var 2) (.lit .i32 15)))) env2 (memOf K st2 nx c) .next env3 (memOf K st2 nx c) :=
        .set (.bin (.int rfl) (.bin (.int rfl) .lit (band_i32 (by omega) 15 (by omega))) (bor_len (by omega) (by omega)))
          (conv_i32 hr3.1 hr3.2)
      have h128 : b.toNat &&& 128 ≤ 128 := Nat.and_le_right
      have c4 : EvalTo (.bin .ne (.bin .band (.var 2) (.lit .i32 128)) (.lit .i32 128)) env3 (memOf K st2 nx c)
          (ofBool (decide (((b.toNat &&& 128 : Nat) : Int) ≠ 128))) env3 (memOf K st2 nx c) :=
        .bin (.bin (.int rfl) .lit (band_i32 (by omega) 128 (by omega))) .lit (bin_ne (ta := .i32) (tb := .i32) (conv_i32 (by omega) (by omega)) rfl)
      have hcond := ev_inside K h0 hg (nx := nx) (c := c)
      by_cases hm : b &&& 0x80 ≠ 0x80
      · rw [if_pos hm] at hr
        cases hr
        refine ⟨⟨⟨hcur, hlen⟩, Nat.le_refl _⟩, hL', by simp only; omega, hl0, env3, h0, rfl, h3, ?_⟩
        exact .stop hcond (truth_pos h)
          (.cons x1 (.cons x2 (.cons x3 (.stop (.ite c4 (truth_pos (more_tl.mp hm)) (.last .brk)) (by intro h; cases h))))) (.inl ⟨rfl, rfl⟩)
      · rw [if_neg hm] at hr
        obtain ⟨u, s3, e3, hr⟩ := M.bind_eq_ok hr
        cases e3
        have x5 : ExecTo (.expr (.call .sml_buf_update_bytes_read [.var 0, .lit .i32 1])) env3 (memOf K st2 nx c) .next env3
            (memOf K { st2 with cursor := st2.cursor + 1 } nx c) :=
          .expr (.call (.cons (ev_buf K (by exact h0)) (.one .lit)) (call_update K 1 .i32 (by omega) (by simp only [st2]; omega)))
        have hne : ¬ ((b.toNat &&& 128 : Nat) : Int) ≠ 128 := fun h => hm (more_tl.mpr h)
        have x4 : ExecTo (.ite (.bin .ne (.bin .band (.var 2) (.lit .i32 128)) (.lit .i32 128)) [.brk] []) env3 (memOf K st2 nx c) .next env3 (memOf K st2 nx c) :=
          .ite c4 (truth_neg hne) .nil
        by_cases hz : l = 0
        · subst hz
          obtain ⟨⟨g, gm⟩, q1, q2, q3, env', w0, w1, w3, hl⟩ := lenLoop_src K fuel _ 0 { st2 with cursor := st2.cursor + 1 } env3 (nx := nx) (c := c) ⟨by simp only [st2]; omega, hlen⟩ hL' (by simp only [st2]; omega) (by omega) h0 rfl h3 r st' hr
          refine ⟨⟨g, Nat.le_of_succ_le gm⟩, q1, q2, q3, env', w0, w1, w3, ?_⟩
          exact .round hcond (truth_pos h) (.cons x1 (.cons x2 (.cons x3 (.cons x4 (.cons x5 (.last (.ite (.int h3) rfl .nil))))))) .nil hl
        · rw [if_pos hz] at hr
          let env4 := upd env3 3 (.int .i32 (l - 1))
          obtain ⟨⟨g, gm⟩, q1, q2, q3, env', w0, w1, w3, hl⟩ := lenLoop_src K fuel _ (l - 1) { st2 with cursor := st2.cursor + 1 } env4 (nx := nx) (c := c) ⟨by simp only [st2]; omega, hlen⟩ hL' (by simp only [st2]; omega) (by omega) h0 rfl rfl r st' hr
          refine ⟨⟨g, Nat.le_of_succ_le gm⟩, q1, q2, q3, env', w0, w1, w3, ?_⟩
          have x6 : ExecTo (.ite (.var 3) [.set .i32 3 (.bin .add (.var 3) (.lit .i32 (-1)))] []) env3 (memOf K { st2 with cursor := st2.cursor + 1 } nx c) .next env4
              (memOf K { st2 with cursor := st2.cursor + 1 } nx c) := by
            refine .ite (b := true) (.int h3) (by rw [truth, decide_eq_true hz]; rfl) (.last (.set (t := .i32) (k := l - 1) (.bin (.int h3) .lit ?_) (conv_i32 (by omega) (by omega))))
            rw [bin_add (ta := .i32) (tb := .i32) (conv_i32 (by omega) (by omega)) rfl]
            exact arith_i32 (by omega) (by omega)
          exact .round hcond (truth_pos h) (.cons x1 (.cons x2 (.cons x3 (.cons x4 (.cons x5 (.last x6)))))) .nil hl
    · rw [if_neg h] at hr
      cases hr
      exact ⟨⟨hg, Nat.le_refl _⟩, hL, by simp only; omega, hl0, env, h0, h1, h3, .done (ev_inside K h0 hg) (truth_neg h)⟩

theorem getNextLength_src : MSpec .sml_buf_get_next_length (fun K => [K.buf]) anySt getNextLength (fun l => .int .i32 l)
    (fun l _ => -2147483648 ≤ l ∧ l < 2147483648) := by
  intro K st nx c hg _ b st' hr
  have hl := hg.len
  have hc := hg.cur
  unfold getNextLength at hr
  obtain ⟨s, s1, e1, hr⟩ := M.bind_eq_ok hr
  cases e1
  let env1 := upd (envOf [K.buf]) 1 (.int .i32 0)
  have x1 : ∀ m, ExecTo (.set .i32 1 (.lit .i32 0)) (envOf [K.buf]) m .next env1 m := fun m => .set .lit rfl
  have c2 : EvalTo (.bin .gt (.bin .add (.ldInt .u64 (.var 0) 1) (.lit .i32 1)) (.ldInt .u64 (.var 0) 0)) env1 (memOf K st nx c)
      (ofBool (decide (st.cursor + 1 > st.data.length))) env1 (memOf K st nx c) := ev_noRoom K (by rfl) hg (k := 1) .lit (by omega)
  have fin : ∀ st, ExecTo (.stInt .i32 (.var 0) 2 (.lit .i32 1)) env1 (memOf K st nx c) .next env1 (memOf K { st with error := true } nx c) :=
    fun st => ex_error K (by rfl)
  by_cases h : st.cursor + 1 > st.data.length
  · rw [if_pos h] at hr
    cases hr
    exact ⟨⟨⟨hc, hl⟩, Nat.le_refl _⟩, by omega, .of (fun _ _ => bind_ptr1) (.cons (x1 _) (.ite c2 (truth_pos h) (.cons (fin _) (.ret .lit)))) (res_int K rfl)⟩
  · rw [if_neg h] at hr
    obtain ⟨x, s1, e1, hr⟩ := M.bind_eq_ok hr
    have hb : st.data[st.cursor]? = some x ∧ s1 = st := by
      unfold getCurrentByte at e1
      cases hx : st.data[st.cursor]? with
      | none => rw [hx] at e1; cases e1
      | some y => rw [hx] at e1; cases e1; exact ⟨rfl, rfl⟩
    obtain ⟨hb, rfl⟩ := hb
    simp only at hr
    obtain ⟨r, s2, e2, hr⟩ := M.bind_eq_ok hr
    obtain ⟨s, s3, e3, hr⟩ := M.bind_eq_ok hr
    cases e3
    have hx := UInt8.toNat_lt x
    let env2 := upd env1 2 (.int .u8 x.toNat)
    have x3 : ExecTo (.set .u8 2 (.call .sml_buf_get_current_byte [.var 0])) env1 (memOf K s1 nx c) .next env2 (memOf K s1 nx c) :=
      .set (.call1 (ev_buf K (by rfl)) (call_byte K hb)) (conv_u8 (by omega) (by omega))
    let l0 : Int := if x.toNat &&& 0x70 = tyList then 0 else -1
    let env3 := upd env2 3 (.int .i32 l0)
    have h112 : x.toNat &&& 112 ≤ 112 := Nat.and_le_right
    have x4 : ExecTo (.set .i32 3 (.cond (.bin .eq (.bin .band (.var 2) (.lit .i32 112)) (.lit .i32 112)) (.lit .i32 0) (.lit .i32 (-1)))) env2 (memOf K s1 nx c)
        .next env3 (memOf K s1 nx c) := by
      refine .set (t := .i32) (k := l0) (.cond (t := decide (((x.toNat &&& 112 : Nat) : Int) = 112)) (.bin (.bin (.int rfl) .lit (band_i32 (by omega) 112 (by omega))) .lit
        (bin_eq (ta := .i32) (tb := .i32) (conv_i32 (by omega) (by omega)) rfl)) (truth_ofBool _) ?_) ?_
      · by_cases hlst : x.toNat &&& 112 = tyList
        · have h2 : ((x.toNat &&& 112 : Nat) : Int) = 112 := congrArg Int.ofNat hlst
          rw [decide_eq_true h2]
          simp only [l0, if_pos hlst, if_true]
          exact .lit
        · have h2 : ¬ ((x.toNat &&& 112 : Nat) : Int) = 112 := fun h => hlst (Int.ofNat.inj h)
          rw [decide_eq_false h2]
          simp only [l0, if_neg hlst, Bool.false_eq_true, if_false]
          exact .lit
      · simp only [l0]
        split <;> rfl
    have hl0 : -(s1.cursor : Int) - 1 ≤ l0 ∧ l0 ≤ 0 := by
      simp only [l0]
      split <;> omega
    obtain ⟨⟨g, gm⟩, q1, q2, q3, env', w0, w1, w3, hloop⟩ := lenLoop_src K _ 0 l0 s1 env3 (nx := nx) (c := c) hg (by omega) hl0.1 hl0.2 rfl rfl rfl r s2 e2
    have hri := toI32_range q1
    have gc := g.cur
    have gl := g.len
    have c6 := ev_inside K w0 g (nx := nx) (c := c)
    have x5 : ExecTo (.loop lenCond lenBody []) env3 (memOf K s1 nx c) .next env' (memOf K s2 nx c) := .loop hloop
    by_cases h6 : s2.cursor < s2.data.length
    · rw [if_pos h6] at hr
      cases hr
      have hw : ∀ n, ITy.conv .i32 n = wrap32 n := fun _ => rfl
      have hrange : ∀ n, -2147483648 ≤ wrap32 n ∧ wrap32 n < 2147483648 := by
        intro n
        have h1 := Int.le_bmod (x := n) (m := 4294967296) (by omega)
        have h2 := Int.bmod_lt (x := n) (m := 4294967296) (by omega)
        unfold wrap32
        omega
      refine ⟨⟨⟨by simp only; omega, gl⟩, by simp only; omega⟩, hrange _, .of (fun _ _ => bind_ptr1) (v := .int .i32 (wrap32 (toI32 r.1 + r.2)))
        (.cons (x1 _) (.ite c2 (truth_neg h) (.cons x3 (.cons x4 (.cons x5 (.ite c6 (truth_pos h6)
          (.cons (.expr (.call (.cons (ev_buf K w0) (.one .lit)) (call_update K 1 .i32 (by omega) (by omega))))
            (.ret (env' := env') (.bin (.int w1) (.int w3) ?_)))))))))
        (res_int K (conv_i32 (hrange _).1 (hrange _).2))⟩
      rw [bin_add (ta := .i32) (tb := .i32) (conv_i32 hri.1 hri.2) (conv_i32 (by omega) (by omega)), arith]
      have hn : (ITy.signed (ITy.usual .i32 .i32) && !ITy.fits (ITy.usual .i32 .i32) (toI32 r.1 + r.2)) = decide (toI32 r.1 + r.2 < -2147483648) := by
        have hf : ITy.fits (ITy.usual .i32 .i32) (toI32 r.1 + r.2) = decide (-2147483648 ≤ toI32 r.1 + r.2 ∧ toI32 r.1 + r.2 < 2147483648) := rfl
        rw [hf, show ITy.signed (ITy.usual .i32 .i32) = true from rfl, Bool.true_and, Bool.eq_iff_iff]
        simp only [Bool.not_eq_true', decide_eq_false_iff_not, decide_eq_true_eq]
        omega
      rw [hn]
      exact (X_bind_ok (note_mem K _)).trans rfl
    · rw [if_neg h6] at hr
      cases hr
      exact ⟨⟨⟨gc, gl⟩, gm⟩, by omega, .of (fun _ _ => bind_ptr1)
        (.cons (x1 _) (.ite c2 (truth_neg h) (.cons x3 (.cons x4 (.cons x5 (.ite c6 (truth_neg h6) (.cons (ex_error K w0) (.ret .lit)))))))) (res_int K rfl)⟩

end Sml.C
