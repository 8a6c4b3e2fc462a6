import Verif.Proofs.SourceOver

/-!
# Lengths, numbers, octet strings and booleans at the end of the buffer, run from their source
-/

namespace Sml.C

theorem storeBytes_out (K : Ctx) {bs : List UInt8} (h : st.data.length < st.cursor + bs.length) (h0 : bs ≠ []) :
    storeBytes (.ptr (.heap K.A) st.cursor) bs env (memOf K st nx c) = .bad (.buf .oobWrite) := by
  rw [storeBytes, asPtr, X_bind, X_pure]
  simp only
  rw [if_neg h0, X_bind_ok (getBlock_arr K)]
  simp only
  rw [if_neg (by rw [List.length_map]; omega)]
  rfl

theorem loadNum_out (K : Ctx) (h : st.data.length ≤ st.cursor) : loadNum .u8 (.ptr (.heap K.A) st.cursor) env (memOf K st nx c) = .bad (.buf .oobRead) := by
  rw [loadNum]
  refine X_bad ?_
  rw [loadBytes, asPtr, X_bind, X_pure]
  simp only
  rw [if_neg (show ¬ ITy.u8.size = 0 by decide), X_bind_ok (getBlock_arr K)]
  simp only
  rw [if_neg (by rw [List.length_map, show ITy.u8.size = 1 from rfl]; omega)]
  rfl

section
variable (K : Ctx) {env : Env} (h : env x = K.buf)
include h

/-- `buf->buffer[buf->cursor] = e;` at the end. -/
theorem out_setByte {t : ITy} {w : Nat} (hc : st.data.length ≤ st.cursor)
    (he : EvalTo e env (memOf K st nx c) (.int t w) env (memOf K st nx c)) :
    ExecOut (.stByte .u8 (.ldPtr (.var x) 0) (.ldInt .u64 (.var x) 1) e) env (memOf K st nx c) := by
  obtain ⟨N, r⟩ := he
  obtain ⟨N2, r2⟩ := ev_arr K (st := st) (nx := nx) (c := c) h
  obtain ⟨N3, r3⟩ := ev_cursor K (st := st) (nx := nx) (c := c) h
  refine ⟨_, .write, max N (max N2 N3), fun n hn => ?_⟩
  rw [exec, X_bind_ok (r n (by omega)), X_bind_ok asInt_int, X_bind_ok (r2 n (by omega)), X_bind_ok (r3 n (by omega)), X_bind_ok asInt_int]
  refine (X_bind_ok (offset_ok _ _ _)).trans (X_bad ?_)
  rw [storeNum, Nat.zero_add]
  exact storeBytes_out K (by rw [leBytes_length, show ITy.u8.size = 1 from rfl]; omega) (fun h => nomatch h)

/-- `buf->buffer[buf->cursor] |= e;` at the end. -/
theorem out_orByte (hc : st.data.length ≤ st.cursor) :
    ExecOut (.stByte .u8 (.ldPtr (.var x) 0) (.ldInt .u64 (.var x) 1) (.bin .bor (.byte .u8 (.ldPtr (.var x) 0) (.ldInt .u64 (.var x) 1)) e)) env (memOf K st nx c) := by
  obtain ⟨N2, r2⟩ := ev_arr K (st := st) (nx := nx) (c := c) h
  obtain ⟨N3, r3⟩ := ev_cursor K (st := st) (nx := nx) (c := c) h
  refine ⟨_, .read, max N2 N3, fun n hn => ?_⟩
  rw [exec]
  refine X_bad ?_
  rw [eval]
  refine X_bad ?_
  rw [eval, X_bind_ok (r2 n (by omega)), X_bind_ok (r3 n (by omega)), X_bind_ok asInt_int]
  refine (X_bind_ok (offset_ok _ _ _)).trans ?_
  rw [Nat.zero_add]
  exact loadNum_out K hc

end

theorem setByte_eq_ub (hr : setByte b st = .ub r) : st.data.length ≤ st.cursor := by
  unfold setByte at hr
  split at hr
  · cases hr
  · omega

theorem orByte_eq_ub (hr : orByte b st = .ub r) : st.data.length ≤ st.cursor := by
  unfold orByte at hr
  split at hr
  · cases hr
  · exact List.getElem?_eq_none_iff.mp ‹_›

theorem putBytes_eq_ub (hr : putBytes bs st = .ub r) : st.data.length < st.cursor + bs.length := by
  unfold putBytes at hr
  split at hr
  · cases hr
  · omega

theorem optionalWrite_out : MOut .sml_buf_optional_write (fun K => [K.buf]) optionalWrite := by
  intro K st nx c hg hr
  replace hr := M_bind_eq_ub hr
  rcases hr with hr | ⟨_, s, _, hr⟩
  · exact .of (fun _ _ => bind_ptr1) (.head (out_setByte K (env0 K) (setByte_eq_ub hr) (w := 1) .lit))
  · cases hr

/-! ## Types and lengths -/

theorem copyLoop_out {K : Ctx} {l : Nat} (hl : l < 4294967296) : (fuel q pos : Nat) → (env : Env) → (st : St) → q ≤ pos → pos ≤ 7 → Good st →
    copyLoop fuel (15 * 16 ^ q) pos l st = .ub .oobWrite →
    env 0 = K.buf → env 2 = .int .u32 l → env 3 = .int .i32 pos → env 4 = .int .u32 (15 * 16 ^ q : Nat) →
    ∃ b, Outside b ∧ LoopBad (.bin .gt (.var 4) (.lit .i32 15)) [
        .stByte .u8 (.ldPtr (.var 0) 0) (.ldInt .u64 (.var 0) 1) (.bin .bor (.byte .u8 (.ldPtr (.var 0) 0) (.ldInt .u64 (.var 0) 1)) (.lit .i32 128)),
        .stByte .u8 (.ldPtr (.var 0) 0) (.ldInt .u64 (.var 0) 1) (.bin .bor (.byte .u8 (.ldPtr (.var 0) 0) (.ldInt .u64 (.var 0) 1)) (.bin .shr (.bin .band (.var 4) (.var 2)) (.bin .mul (.lit .i32 4) (.var 3)))),
        .set .u32 4 (.bin .shr (.var 4) (.lit .i32 4)),
        .set .i32 3 (.bin .sub (.var 3) (.lit .i32 1)),
        .stInt .u64 (.var 0) 1 (.bin .add (.ldInt .u64 (.var 0) 1) (.lit .i32 1))] [] env (memOf K st nx c) b
  | 0, q, pos, env, st, _, _, _, hr, _, _, _, _ => by cases hr
  | fuel + 1, q, pos, env, st, h3, h4, hg, hr, e0, e2, e3, e4 => by
    have hm := mask_lt (q := q) (by omega)
    have ev : EvalTo (.bin .gt (.var 4) (.lit .i32 15)) env (memOf K st nx c) (ofBool (decide (((15 * 16 ^ q : Nat) : Int) > 15))) env (memOf K st nx c) :=
      .bin (.int e4) .lit (bin_gt (ta := .u32) (tb := .i32) (conv_u32 (by omega) (by omega)) rfl)
    rw [copyLoop] at hr
    by_cases hq : 15 * 16 ^ q > 0xF
    · rw [if_pos hq] at hr
      obtain ⟨q, rfl⟩ : ∃ r, q = r + 1 := ⟨q - 1, by
        cases q with
        | zero => simp at hq
        | succ q => rfl⟩
      obtain ⟨pos, rfl⟩ : ∃ r, pos = r + 1 := ⟨pos - 1, by omega⟩
      rw [mask_shr] at hr
      replace hr := M_bind_eq_ub hr
      rcases hr with hr | ⟨_, s1, f1, hr⟩
      · obtain ⟨b, hb, r⟩ := out_orByte K e0 (nx := nx) (c := c) (e := .lit .i32 128) (orByte_eq_ub hr)
        exact ⟨b, hb, .body ev (truth_pos (by omega)) (.head r)⟩
      obtain ⟨o1, g1, c1, rfl⟩ := orByte_eq_ok f1
      replace hr := M_bind_eq_ub hr
      rcases hr with hr | ⟨_, s2, f2, hr⟩
      · have := orByte_eq_ub hr
        simp only [List.length_set] at this
        omega
      obtain ⟨o2, g2, c2, rfl⟩ := orByte_eq_ok f2
      replace hr := M_bind_eq_ub hr
      rcases hr with hr | ⟨_, s3, f3, hr⟩
      · cases hr
      cases f3
      have hm' := mask_lt (q := q) (by omega)
      have hand : 15 * 16 ^ (q + 1) &&& l ≤ l := Nat.and_le_right
      have x1 := ex_orByte K e0 (nx := nx) (c := c) (t := .i32) (w := 128) g1 (.inl ⟨rfl, by omega⟩) .lit
      have x2 := ex_orByte K e0 (nx := nx) (c := c) (t := .u32) (w := (15 * 16 ^ (q + 1) &&& l) >>> (4 * (pos + 1))) (e := .bin .shr (.bin .band (.var 4) (.var 2)) (.bin .mul (.lit .i32 4) (.var 3)))
        g2 (.inr ⟨rfl, by
          rw [Nat.shiftRight_eq_div_pow]
          exact Nat.lt_of_le_of_lt (Nat.div_le_self _ _) (by omega)⟩) (by
          refine .bin (.bin (.int e4) (.int e2) (band_u32 _ _ rfl hm hl)) (.bin (z := .int .i32 (4 * (pos + 1) : Nat)) .lit (.int e3) ?_) (shr_u32 (by omega))
          simp only [binOp, intOp, ITy.usual, ITy.promote]
          rw [conv_i32 (n := 4) (by omega) (by omega), conv_i32 (n := ((pos + 1 : Nat) : Int)) (by omega) (by omega)]
          exact arith_i32 (n := 4 * ((pos + 1 : Nat) : Int)) (by omega) (by omega))
      have x3 : ∀ m, ExecTo (.set .u32 4 (.bin .shr (.var 4) (.lit .i32 4))) env m .next (upd env 4 (.int .u32 (15 * 16 ^ q : Nat))) m := by
        intro m
        refine .set (t := .u32) (k := ((15 * 16 ^ q : Nat) : Int)) (.bin (.int e4) .lit ?_) (conv_u32 (by omega) (by omega))
        have := shr_u32 (a := 15 * 16 ^ (q + 1)) (k := 4) (env := env) (m := m) (by omega)
        rwa [mask_shr] at this
      have x4 : ∀ m, ExecTo (.set .i32 3 (.bin .sub (.var 3) (.lit .i32 1))) (upd env 4 (.int .u32 (15 * 16 ^ q : Nat))) m .next
          (upd (upd env 4 (.int .u32 (15 * 16 ^ q : Nat))) 3 (.int .i32 pos)) m := by
        intro m
        refine .set (t := .i32) (k := (pos : Int)) (.bin (.int ((upd_other (by decide)).trans e3)) .lit ?_) (conv_i32 (by omega) (by omega))
        rw [bin_sub (ta := .i32) (tb := .i32) (conv_i32 (by omega) (by omega)) rfl, show ((pos + 1 : Nat) : Int) - 1 = pos by omega]
        exact arith_i32 (by omega) (by omega)
      have hl2 := hg.len
      have g5 := (hg.set (i := st.cursor) (b := o1 ||| 0x80)).set (i := st.cursor) (b := o2 ||| UInt8.ofNat ((15 * 16 ^ (q + 1) &&& l) >>> (4 * (pos + 1))))
      have x5 := ex_next K (nx := nx) (c := c) (env := upd (upd env 4 (.int .u32 (15 * 16 ^ q : Nat))) 3 (.int .i32 pos)) (x := 0) e0
        (st := { st with data := (st.data.set st.cursor (o1 ||| 0x80)).set st.cursor (o2 ||| UInt8.ofNat ((15 * 16 ^ (q + 1) &&& l) >>> (4 * (pos + 1)))) })
        (by simpa using c1) (by simpa using hl2)
      obtain ⟨b, hb, r⟩ := copyLoop_out hl fuel q pos (upd (upd env 4 (.int .u32 (15 * 16 ^ q : Nat))) 3 (.int .i32 pos))
        { st with data := (st.data.set st.cursor (o1 ||| 0x80)).set st.cursor (o2 ||| UInt8.ofNat ((15 * 16 ^ (q + 1) &&& l) >>> (4 * (pos + 1)))), cursor := st.cursor + 1 } (by omega) (by omega)
        ⟨by simp only [List.length_set]; exact c1, g5.len⟩ hr e0 e2 upd_same rfl
      exact ⟨b, hb, .round ev (truth_pos (by omega)) (.cons x1 (.cons x2 (.cons (x3 _) (.cons (x4 _) (.last x5))))) .nil r⟩
    · rw [if_neg hq] at hr
      cases hr

theorem lastDigit_out {K : Ctx} {l : Nat} (e0 : env 0 = K.buf)
    (hr : (orByte (UInt8.ofNat (l &&& 0xF)) >>= fun _ => advance) st = .ub .oobWrite) :
    RunOut (.stByte .u8 (.ldPtr (.var 0) 0) (.ldInt .u64 (.var 0) 1) (.bin .bor (.byte .u8 (.ldPtr (.var 0) 0) (.ldInt .u64 (.var 0) 1)) (.bin .band (.var 2) (.lit .i32 15))) :: ss)
      env (memOf K st nx c) := by
  replace hr := M_bind_eq_ub hr
  rcases hr with hr | ⟨_, s, _, hr⟩
  · exact .head (out_orByte K e0 (orByte_eq_ub hr))
  · cases hr

theorem ExecOut.ite {A B : List Stmt} (hc : EvalTo c env m v env m1) (ht : truth v env m1 = .ok b env m1)
    (h : RunOut (if b then A else B) env m1) : ExecOut (.ite c A B) env m := by
  obtain ⟨N, r⟩ := hc
  obtain ⟨x, hx, N2, r2⟩ := h
  refine ⟨x, hx, max N N2, fun n hn => ?_⟩
  rw [exec, X_bind_ok (r n (by omega)), X_bind_ok ht]
  cases b with
  | true => exact r2 n (by omega)
  | false => exact r2 n (by omega)

theorem setTypeAndLength_out {type l : Nat} (t1 t2 : ITy) (ht : type < 256) (hl : l < 4294967296) :
    MOut .sml_buf_set_type_and_length (fun K => [K.buf, .int t1 type, .int t2 l]) (setTypeAndLength type l) := by
  intro K st nx c hg hr
  refine .of (fun _ _ => bind_typeLen t1 t2 ht hl _) ?_
  unfold setTypeAndLength at hr
  replace hr := M_bind_eq_ub hr
  rcases hr with hr | ⟨_, s1, f1, hr⟩
  · exact .head (out_setByte K (by rfl) (setByte_eq_ub hr) (t := .u32) (w := type) (.int (by rfl)))
  obtain ⟨c1, rfl⟩ := setByte_eq_ok f1
  have x1 := ex_setByte K (env := envOf [K.buf, .int .u32 type, .int .u32 l]) (x := 0) (by rfl) (nx := nx) (c := c) c1 (e := .var 1) (t := .u32) (w := type) (.int (by rfl))
  have g1 := hg.set (i := st.cursor) (b := UInt8.ofNat type)
  obtain ⟨L, hL, hLl, env1, x2, e0, e2⟩ : ∃ L, L = (if type ≠ tyList then (l + 1) % 4294967296 else l) ∧ L < 4294967296 ∧
      ∃ env1, (∀ m, ExecTo (.ite (.bin .ne (.var 1) (.lit .i32 112)) [.set .u32 2 (.bin .add (.var 2) (.lit .i32 1))] []) (envOf [K.buf, .int .u32 type, .int .u32 l]) m .next env1 m) ∧
        env1 0 = K.buf ∧ env1 2 = .int .u32 L := by
    have ev : ∀ m, EvalTo (.bin .ne (.var 1) (.lit .i32 112)) (envOf [K.buf, .int .u32 type, .int .u32 l]) m (ofBool (decide ((type : Int) ≠ 112)))
        (envOf [K.buf, .int .u32 type, .int .u32 l]) m := fun m =>
      .bin (.int (by rfl)) .lit (bin_ne (ta := .u32) (tb := .i32) (conv_u32 (by omega) (by omega)) rfl)
    by_cases h : type = tyList
    · refine ⟨l, by rw [if_neg (by simp [h])], hl, envOf [K.buf, .int .u32 type, .int .u32 l], fun m => ?_, rfl, rfl⟩
      exact .ite (b := false) (ev m) (truth_neg (by simp only [tyList] at h; omega)) .nil
    · refine ⟨(l + 1) % 4294967296, by rw [if_pos h], by omega, upd (envOf [K.buf, .int .u32 type, .int .u32 l]) 2 (.int .u32 ((l + 1) % 4294967296 : Nat)), fun m => ?_, rfl, rfl⟩
      refine .ite (b := true) (ev m) (truth_pos (by simp only [tyList] at h; omega)) (.last ?_)
      exact .set (t := .u32) (k := ((l + 1) % 4294967296 : Nat)) (.bin (.int (by rfl)) .lit (add_u32 (b := 1) .i32 (.inr rfl) hl (by omega))) (conv_u32 (by omega) (by omega))
  simp only at hr
  rw [← hL] at hr
  have ev : ∀ m, EvalTo (.bin .gt (.var 2) (.lit .i32 15)) env1 m (ofBool (decide ((L : Int) > 15))) env1 m := fun m =>
    .bin (.int e2) .lit (bin_gt (ta := .u32) (tb := .i32) (conv_u32 (by omega) (by omega)) rfl)
  by_cases h15 : L > 0xF
  · rw [if_pos h15] at hr
    obtain ⟨p, hp1, hp2⟩ := exists_pos L (by omega)
    have hp7 : p ≤ 7 := by
      refine Nat.le_of_not_lt fun hge => ?_
      have := Nat.pow_le_pow_right (show 0 < 16 by decide) hge
      omega
    have hmask := findMask_eq p L hp1 hp2 8 7 (by omega) (by omega)
    rw [show 15 * 16 ^ 7 = 0xF0000000 by decide] at hmask
    rw [hmask] at hr
    simp only at hr
    by_cases h8 : p + 1 ≥ 8
    · rw [if_pos h8] at hr
      cases hr
    rw [if_neg h8] at hr
    replace hr := M_bind_eq_ub hr
    rcases hr with hr | ⟨_, s2, f2, hr⟩
    · cases hr
    cases f2
    have x3 : ∀ m, ExecTo (.set .i32 3 (.lit .u64 7)) env1 m .next (upd env1 3 (.int .i32 7)) m := fun m => .set .lit rfl
    have x4 : ∀ m, ExecTo (.set .u32 4 (.lit .i32 (-268435456))) (upd env1 3 (.int .i32 7)) m .next (upd (upd env1 3 (.int .i32 7)) 4 (.int .u32 (15 * 16 ^ 7 : Nat))) m :=
      fun m => .set .lit rfl
    obtain ⟨env2, x5, e0', e2', e3', e4'⟩ := findMask_run (m := memOf K { st with data := st.data.set st.cursor (UInt8.ofNat type) } nx c) hp1 hp2 hLl 7
      (upd (upd env1 3 (.int .i32 7)) 4 (.int .u32 (15 * 16 ^ 7 : Nat))) (by omega) (by omega) e0 e2 rfl rfl
    have x6 : ExecTo (.set .u32 2 (.bin .add (.var 2) (.var 3))) env2 (memOf K { st with data := st.data.set st.cursor (UInt8.ofNat type) } nx c) .next
        (upd env2 2 (.int .u32 ((L + p) % 4294967296 : Nat))) (memOf K { st with data := st.data.set st.cursor (UInt8.ofNat type) } nx c) :=
      .set (t := .u32) (k := ((L + p) % 4294967296 : Nat)) (.bin (.int e2') (.int e3') (add_u32 .i32 (.inr rfl) hLl (by omega))) (conv_u32 (by omega) (by omega))
    have hM : (L + p) % 4294967296 < 4294967296 := Nat.mod_lt _ (by omega)
    generalize hMd : (L + p) % 4294967296 = M at *
    have ev7 : EvalTo (.bin .band (.bin .shl (.lit .i32 15) (.bin .mul (.lit .i32 4) (.bin .add (.var 3) (.lit .i32 1)))) (.var 2)) (upd env2 2 (.int .u32 (M : Nat)))
        (memOf K { st with data := st.data.set st.cursor (UInt8.ofNat type) } nx c) (.int .u32 (15 * 16 ^ (p + 1) &&& M : Nat)) (upd env2 2 (.int .u32 (M : Nat)))
        (memOf K { st with data := st.data.set st.cursor (UInt8.ofNat type), sovf := st.sovf || decide (p = 6) } nx c) := by
      have ea : ∀ m, EvalTo (.bin .add (.var 3) (.lit .i32 1)) (upd env2 2 (.int .u32 (M : Nat))) m (.int .i32 (p + 1 : Nat)) (upd env2 2 (.int .u32 (M : Nat))) m := fun m => by
        refine .bin (.int ((upd_other (by decide)).trans e3')) .lit ?_
        rw [bin_add (ta := .i32) (tb := .i32) (conv_i32 (by omega) (by omega)) rfl]
        exact arith_i32 (n := (p : Int) + 1) (by omega) (by omega)
      have em : ∀ m, EvalTo (.bin .mul (.lit .i32 4) (.bin .add (.var 3) (.lit .i32 1))) (upd env2 2 (.int .u32 (M : Nat))) m (.int .i32 (4 * (p + 1) : Nat)) (upd env2 2 (.int .u32 (M : Nat))) m := fun m => by
        refine .bin .lit (ea m) ?_
        simp only [binOp, intOp, ITy.usual, ITy.promote]
        rw [conv_i32 (n := 4) (by omega) (by omega), conv_i32 (n := ((p + 1 : Nat) : Int)) (by omega) (by omega)]
        exact arith_i32 (n := 4 * ((p + 1 : Nat) : Int)) (by omega) (by omega)
      have es := shl_mask K (st := { st with data := st.data.set st.cursor (UInt8.ofNat type) }) (nx := nx) (c := c) (env := upd env2 2 (.int .u32 (M : Nat))) (pos := p) (by omega)
      exact .bin (.bin .lit (em _) es) (.int upd_same) (band_mask (v := 15 * 16 ^ (p + 1)) (l := M) (mask_lt (q := p + 1) (by omega)) hM)
    have hsh : 0xF <<< (4 * (p + 1)) = 15 * 16 ^ (p + 1) := by rw [Nat.shiftLeft_eq, Nat.pow_mul]
    rw [hsh] at hr
    have g3 : Good { st with data := st.data.set st.cursor (UInt8.ofNat type), sovf := st.sovf || decide (p = 6) } := ⟨g1.cur, g1.len⟩
    obtain ⟨pos, N, env3, hpos, hN, x7, f0, f2, f3, f4, hr⟩ : ∃ pos N env3, (p ≤ pos ∧ pos ≤ 7) ∧ N < 4294967296 ∧
        ExecTo (.ite (.bin .band (.bin .shl (.lit .i32 15) (.bin .mul (.lit .i32 4) (.bin .add (.var 3) (.lit .i32 1)))) (.var 2))
          [.set .i32 3 (.bin .add (.var 3) (.lit .i32 1)), .set .u32 2 (.bin .add (.var 2) (.lit .i32 1))] []) (upd env2 2 (.int .u32 (M : Nat)))
          (memOf K { st with data := st.data.set st.cursor (UInt8.ofNat type) } nx c) .next env3
          (memOf K { st with data := st.data.set st.cursor (UInt8.ofNat type), sovf := st.sovf || decide (p = 6) } nx c) ∧
        env3 0 = K.buf ∧ env3 2 = .int .u32 (N : Nat) ∧ env3 3 = .int .i32 (pos : Nat) ∧ env3 4 = .int .u32 (15 * 16 ^ p : Nat) ∧
        (copyLoop 9 (15 * 16 ^ p) pos N >>= fun _ => orByte (UInt8.ofNat (N &&& 0xF)) >>= fun _ => advance)
          { st with data := st.data.set st.cursor (UInt8.ofNat type), sovf := st.sovf || decide (p = 6) } = .ub .oobWrite := by
      by_cases h0 : 15 * 16 ^ (p + 1) &&& M ≠ 0
      · rw [if_pos h0] at hr
        refine ⟨p + 1, (M + 1) % 4294967296, upd (upd (upd env2 2 (.int .u32 (M : Nat))) 3 (.int .i32 (p + 1 : Nat))) 2 (.int .u32 ((M + 1) % 4294967296 : Nat)), ⟨by omega, by omega⟩, by omega, ?_,
          e0', upd_same, rfl, e4', hr⟩
        have y1 : ∀ m, ExecTo (.set .i32 3 (.bin .add (.var 3) (.lit .i32 1))) (upd env2 2 (.int .u32 (M : Nat))) m .next (upd (upd env2 2 (.int .u32 (M : Nat))) 3 (.int .i32 (p + 1 : Nat))) m := fun m => by
          refine .set (t := .i32) (k := (p + 1 : Nat)) (.bin (.int ((upd_other (by decide)).trans e3')) .lit ?_) (conv_i32 (by omega) (by omega))
          rw [bin_add (ta := .i32) (tb := .i32) (conv_i32 (by omega) (by omega)) rfl]
          exact arith_i32 (n := (p : Int) + 1) (by omega) (by omega)
        refine .ite (b := true) ev7 (by rw [truth_ne0, decide_eq_true (by omega)]) (.cons (y1 _) (.last ?_))
        exact .set (t := .u32) (k := ((M + 1) % 4294967296 : Nat)) (.bin (.int (by rfl)) .lit (add_u32 (b := 1) .i32 (.inr rfl) hM (by omega))) (conv_u32 (by omega) (by omega))
      · rw [if_neg h0] at hr
        refine ⟨p, M, upd env2 2 (.int .u32 (M : Nat)), ⟨by omega, by omega⟩, hM, ?_, e0', upd_same, e3', e4', hr⟩
        refine .ite (b := false) ev7 (by rw [truth_ne0, decide_eq_false (by omega)]) .nil
    replace hr := M_bind_eq_ub hr
    rcases hr with hr | ⟨_, s3, f5, hr⟩
    · obtain ⟨b, hb, r⟩ := copyLoop_out (K := K) (nx := nx) (c := c) hN 9 p pos env3 _ hpos.1 hpos.2 g3 hr f0 f2 f3 f4
      refine .cons x1 (.cons (x2 _) (.head (.ite (b := true) (ev _) (truth_pos (by omega)) (.cons (x3 _) (.cons (x4 _) (.cons (.loop x5) (.cons x6 (.cons x7 (.head ⟨b, hb, .ofLoop r⟩)))))))))
    · obtain ⟨_, env4, x8, k0, k2⟩ := copyLoop_run (K := K) (nx := nx) (c := c) hN 9 p pos env3 _ hpos.1 hpos.2 g3 f5 f0 f2 f3 f4
      refine .cons x1 (.cons (x2 _) (.cons ?_ (lastDigit_out (nx := nx) (c := c) k0 hr)))
      exact .ite (b := true) (ev _) (truth_pos (by omega)) (.cons (x3 _) (.cons (x4 _) (.cons (.loop x5) (.cons x6 (.cons x7 (.last (.loop x8)))))))
  · rw [if_neg h15] at hr
    exact .cons x1 (.cons (x2 _) (.cons (.ite (b := false) (ev _) (truth_neg (by omega)) .nil) (lastDigit_out e0 hr)))

/-! ## Numbers, octet strings, booleans -/

/-- A function that writes something to the buffer. -/
abbrev WriteOut (f : Fn) (w : Addr → P Unit) : Prop := ∀ a, OFn f (fun K => [ptrVal a, K.buf]) (w a)

/-- `if (p == 0) { sml_buf_optional_write(buf); return; }` -/
theorem optional_out {x y : Nat} (hi : Inv K st h) (hx : env x = ptrVal a) (hy : env y = K.buf) (ha : a = 0) (hr : lift optionalWrite st h = .bad overrun) :
    RunOut (.ite (.bin .eq (.var x) .null) [.expr (.call .sml_buf_optional_write [.var y]), .retVoid] [] :: ss) env (conc K st h) :=
  .ite (b := true) (ev_null0 hx) (truth_pos ha) (.head (.expr (.call (.one (ev_buf K hy)) (optionalWrite_out K st h.next (K.blocks h) hi.good (lift_eq_bad hr)))))

theorem ExecOut.memcpy {k : Nat} (hd : EvalTo d env m p env1 m1) (hc : EvalTo c env1 m1 q env2 m2) (hk : EvalTo i env2 m2 (.int t' k) env3 m3)
    (hl : loadBytes q k env3 m3 = .ok bs env3 m3) (hs : storeBytes p bs env3 m3 = .bad (.buf .oobWrite))
    (hp : p ≠ nullPtr := by nonnull) : ExecOut (.memcpy d c i) env m := by
  obtain ⟨N, r⟩ := hd
  obtain ⟨N2, r2⟩ := hc
  obtain ⟨N3, r3⟩ := hk
  refine ⟨_, .write, max N (max N2 N3), fun n hn => ?_⟩
  rw [exec, X_bind_ok (r n (by omega)), X_bind_ok (r2 n (by omega)), X_bind_ok (r3 n (by omega)), X_bind_ok asNat_int, X_bind_ok (target_ok hp), X_bind_ok hl]
  exact X_bad hs

theorem numberWrite_out {type size : Nat} (t1 t2 : ITy) (ht : type < 256) (hs : size < 2147483647) (a : Addr) :
    OFn .sml_number_write (fun K => [ptrVal a, .int t1 type, .int t2 size, K.buf]) (pNumberWrite type size a) := by
  intro K st h hi _ hr
  have hb : ∀ env m, bindArgs [none, some .u8, some .i32, none] [ptrVal a, .int t1 type, .int t2 size, K.buf] env m =
      .ok [ptrVal a, .int .u8 type, .int .i32 size, K.buf] env m := by
    intro env m
    simp only [bindArgs, convTo, asInt, X_bind, X_pure]
    rw [conv_i32 (by omega) (by omega), conv_u8 (by omega) (by omega)]
  refine .of hb ?_
  generalize hE : envOf [ptrVal a, .int .u8 type, .int .i32 size, K.buf] = E
  have E0 : E 0 = ptrVal a := by subst hE; rfl
  have E1 : E 1 = .int .u8 type := by subst hE; rfl
  have E2 : E 2 = .int .i32 size := by subst hE; rfl
  have E3 : E 3 = K.buf := by subst hE; rfl
  unfold pNumberWrite at hr
  by_cases ha : a = 0
  · rw [if_pos ha] at hr
    exact optional_out hi E0 E3 ha hr
  rw [if_neg ha] at hr
  refine .ite (b := false) (ev_null0 E0) (truth_neg ha) ?_
  replace hr := P_bind_eq_bad hr
  rcases hr with hr | ⟨_, s1, h1, e1, hr⟩
  · exact .head (.expr (.call (.cons (ev_buf K E3) (.cons (.int E1) (.one (.int E2))))
      (setTypeAndLength_out .u8 .i32 ht (by omega) K st h.next (K.blocks h) hi.good (lift_eq_bad hr))))
  replace e1 := lift_eq_ok e1
  obtain ⟨e1, rfl⟩ := e1
  obtain ⟨⟨g1, l1⟩, _, c1⟩ := setTypeAndLength_src .u8 .i32 ht (by omega) K st h1.next (K.blocks h1) hi.good trivial _ _ e1
  have i1 := hi.of_good g1 l1
  by_cases h0 : size = 0
  · rw [if_pos h0] at hr
    cases hr
  rw [if_neg h0] at hr
  replace hr := Tame.readNum.next hr
  obtain ⟨n, s2, h2, e2, hr⟩ := hr
  obtain ⟨_, rfl, rfl, hc⟩ := readNum_eq_ok e2
  by_cases hn : size ≤ n.size
  · rw [if_pos hn] at hr
    have hlt := putBytes_eq_ub (lift_eq_bad hr)
    have hlen : (beBytes size n.val).length = size := by rw [← leBytes_reverse, List.length_reverse, leBytes_length]
    have hll : (leBytes size n.val).length = size := leBytes_length ..
    rw [hlen] at hlt
    refine .cons (.expr (.call (.cons (ev_buf K E3) (.cons (.int E1) (.one (.int E2)))) c1)) (.head ?_)
    refine .memcpy (k := size) (.call1 (ev_buf K E3) (call_curBuf K)) (.ptr E0) (.int E2) (bs := leBytes size n.val)
      (loadBytes_raw' (getBlock_cell i1 ha hc) ?_ ?_) (storeBytes_out K (by rw [hll]; exact hlt) (fun h => h0 (by rw [← hll, h]; rfl)))
    · simp only [List.length_map, leBytes_length]
      omega
    · rw [List.drop_zero, ← List.map_take, leBytes_take _ _ _ hn]
  · rw [if_neg hn] at hr
    cases hr

theorem octetStringWrite_out : WriteOut .sml_octet_string_write pOctetStringWrite := by
  intro a K st h hi _ hr
  refine .of (fun _ _ => rfl) ?_
  generalize hE : envOf [ptrVal a, K.buf] = E
  have E0 : E 0 = ptrVal a := by subst hE; rfl
  have E1 : E 1 = K.buf := by subst hE; rfl
  unfold pOctetStringWrite at hr
  by_cases ha : a = 0
  · rw [if_pos ha] at hr
    exact optional_out hi E0 E1 ha hr
  rw [if_neg ha] at hr
  refine .ite (b := false) (ev_null0 E0) (truth_neg ha) ?_
  replace hr := Tame.readInt.next hr
  obtain ⟨n, s0, h0, e0, hr⟩ := hr
  have e0' := e0
  obtain ⟨_, rfl, rfl, ps, is, hc, hv⟩ := readInt_eq_ok e0'
  have hn : n ≤ 2147483647 := hi.ints _ _ hc n (List.mem_of_getElem? hv)
  have hcast : EvalTo (.cast .u32 (.ldInt .i32 (.var 0) 0)) E (conc K s0 h0) (.int .u32 (n : Nat)) E (conc K s0 h0) := by
    have := EvalTo.cast (ty := .u32) (EvalTo.ldInt (t := .i32) (.ptr E0) (loadInt_cell (env := E) hi e0))
    rwa [conv_u32 (by omega) (by omega)] at this
  replace hr := P_bind_eq_bad hr
  rcases hr with hr | ⟨_, s1, h1, e1, hr⟩
  · exact .head (.expr (.call (.cons (ev_buf K E1) (.cons .lit (.one hcast)))
      (setTypeAndLength_out .i32 .u32 (show tyOctet < 256 by decide) (by omega) K s0 h0.next (K.blocks h0) hi.good (lift_eq_bad hr))))
  replace e1 := lift_eq_ok e1
  obtain ⟨e1, rfl⟩ := e1
  obtain ⟨⟨g1, l1⟩, _, c1⟩ := setTypeAndLength_src .i32 .u32 (show tyOctet < 256 by decide) (by omega) K s0 h1.next (K.blocks h1) hi.good trivial _ _ e1
  have i1 := hi.of_good g1 l1
  have x1 : ExecTo (.expr (.call .sml_buf_set_type_and_length [.var 1, .lit .i32 0, .cast .u32 (.ldInt .i32 (.var 0) 0)])) E (conc K s0 h1) .next E (conc K s1 h1) :=
    .expr (.call (.cons (ev_buf K E1) (.cons .lit (.one hcast))) c1)
  replace hr := Tame.next (.bind .readPtr fun _ => .bind .readInt fun _ => .ite _ .pure .readRaw) hr
  obtain ⟨bs, s2, h2, e2, hr⟩ := hr
  replace e2 := P_bind_eq_ok e2
  obtain ⟨str, s3, h3, e3, e2⟩ := e2
  have e3' := e3
  obtain ⟨_, rfl, rfl, _⟩ := readPtr_eq_ok e3'
  replace e2 := P_bind_eq_ok e2
  obtain ⟨n', s4, h4, e4, e2⟩ := e2
  have e4' := e4
  obtain ⟨_, rfl, rfl, ps', is', hc', hv'⟩ := readInt_eq_ok e4'
  obtain rfl : n' = n := by
    rw [hc] at hc'
    cases hc'
    rw [hv] at hv'
    cases hv'
    rfl
  obtain ⟨rfl, rfl, hbl, hld⟩ : s2 = s4 ∧ h2 = h4 ∧ bs.length = n' ∧ loadBytes (ptrVal str) n' E (conc K s4 h4) = .ok bs E (conc K s4 h4) := by
    by_cases h0 : n' = 0
    · rw [if_pos h0] at e2
      cases e2
      subst h0
      exact ⟨rfl, rfl, rfl, loadBytes_zero⟩
    · rw [if_neg h0] at e2
      obtain ⟨h5, rfl, rfl, cs, hcs, hle, rfl⟩ := readRaw_eq_ok e2
      refine ⟨rfl, rfl, by simp; omega, loadBytes_raw' (getBlock_cell i1 h5 hcs) (by simpa using hle) ?_⟩
      rw [List.drop_zero, List.map_take]
  have hlt := putBytes_eq_ub (lift_eq_bad hr)
  have gc := g1.cur
  refine .cons x1 (.head (.memcpy (k := n') (.call1 (ev_buf K E1) (call_curBuf K)) (.ldPtr (.ptr E0) (loadPtr_cell i1 e3)) (.ldInt (.ptr E0) (loadInt_cell i1 e4)) hld
    (storeBytes_out K hlt ?_)))
  intro h
  subst h
  simp only [List.length_nil] at hlt
  omega

theorem booleanWrite_out : WriteOut .sml_boolean_write pBooleanWrite := by
  intro a K st h hi _ hr
  refine .of (fun _ _ => rfl) ?_
  generalize hE : envOf [ptrVal a, K.buf] = E
  have E0 : E 0 = ptrVal a := by subst hE; rfl
  have E1 : E 1 = K.buf := by subst hE; rfl
  unfold pBooleanWrite at hr
  by_cases ha : a = 0
  · rw [if_pos ha] at hr
    exact optional_out hi E0 E1 ha hr
  rw [if_neg ha] at hr
  refine .ite (b := false) (ev_null0 E0) (truth_neg ha) ?_
  replace hr := P_bind_eq_bad hr
  rcases hr with hr | ⟨_, s1, h1, e1, hr⟩
  · exact .head (.expr (.call (.cons (ev_buf K E1) (.cons .lit (.one .lit)))
      (setTypeAndLength_out .i32 .i32 (show tyBoolean < 256 by decide) (show 1 < 4294967296 by decide) K st h.next (K.blocks h) hi.good (lift_eq_bad hr))))
  replace e1 := lift_eq_ok e1
  obtain ⟨e1, rfl⟩ := e1
  obtain ⟨⟨g1, l1⟩, _, c1⟩ := setTypeAndLength_src .i32 .i32 (show tyBoolean < 256 by decide) (show 1 < 4294967296 by decide) K st h1.next (K.blocks h1) hi.good trivial _ _ e1
  have i1 := hi.of_good g1 l1
  replace hr := Tame.readTag.next hr
  obtain ⟨t, s2, h2, e2, hr⟩ := hr
  obtain ⟨_, rfl, rfl, hc, hsz, hval⟩ := readTag_eq_ok e2
  have x1 : ExecTo (.expr (.call .sml_buf_set_type_and_length [.var 1, .lit .i32 64, .lit .i32 1])) E (conc K st h2) .next E (conc K s2 h2) :=
    .expr (.call (.cons (ev_buf K E1) (.cons .lit (.one .lit))) c1)
  have ev : EvalTo (.bin .eq (.deref .u8 (.var 0)) (.lit .i32 0)) E (conc K s2 h2) (ofBool (decide (((t.val : Nat) : Int) = 0))) E (conc K s2 h2) :=
    .bin (.deref (.ptr E0) (load_tag (ty := .u8) i1 ha hc hsz hval (conv_u8 (by omega) (by omega)))) .lit (bin_eq (ta := .u8) (tb := .i32) (conv_i32 (by omega) (by omega)) rfl)
  by_cases h0 : t.val = 0
  · rw [if_pos h0] at hr
    replace hr := P_bind_eq_bad hr
    rcases hr with hr | ⟨_, s3, h3, _, hr⟩
    · exact .cons x1 (.ite (b := true) ev (truth_pos (by omega)) (.head (out_setByte K E1 (t := .i32) (w := 0) (setByte_eq_ub (lift_eq_bad hr)) .lit)))
    · cases hr
  · rw [if_neg h0] at hr
    replace hr := P_bind_eq_bad hr
    rcases hr with hr | ⟨_, s3, h3, _, hr⟩
    · exact .cons x1 (.ite (b := false) ev (truth_neg (by omega)) (.head (out_setByte K E1 (t := .i32) (w := 255) (setByte_eq_ub (lift_eq_bad hr)) .lit)))
    · cases hr

end Sml.C
