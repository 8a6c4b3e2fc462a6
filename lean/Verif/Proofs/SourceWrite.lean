import Verif.Model.HeapWrite
import Verif.Proofs.Emits
import Verif.Proofs.SourceFrees

/-!
# Writing lengths, numbers, octet strings and booleans, run from their source
-/

namespace Sml.C

/-! ## Operators -/

theorem band_u32 {a b : Nat} (ta tb : ITy) (hu : ITy.usual ta tb = .u32) (ha : a < 4294967296) (hb : b < 4294967296) :
    binOp .band (.int ta a) (.int tb b) env m = .ok (.int .u32 (a &&& b : Nat)) env m := by
  simp only [binOp, intOp, hu, bitop, ITy.toBits, ITy.bits]
  rw [conv_u32 (n := (a : Int)) (by omega) (by omega), conv_u32 (n := (b : Int)) (by omega) (by omega)]
  rw [bits32 (a := a) (by omega), bits32 (a := b) (by omega)]
  have : a &&& b ≤ a := Nat.and_le_left
  rw [conv_u32 (by omega) (by omega), X_pure]

theorem bor_u32 {a b : Nat} (ta tb : ITy) (hu : ITy.usual ta tb = .u32) (ha : a < 4294967296) (hb : b < 4294967296) :
    binOp .bor (.int ta a) (.int tb b) env m = .ok (.int .u32 (a ||| b : Nat)) env m := by
  simp only [binOp, intOp, hu, bitop, ITy.toBits, ITy.bits]
  rw [conv_u32 (n := (a : Int)) (by omega) (by omega), conv_u32 (n := (b : Int)) (by omega) (by omega)]
  rw [bits32 (a := a) (by omega), bits32 (a := b) (by omega)]
  have : a ||| b < 2 ^ 32 := Nat.or_lt_two_pow ha hb
  rw [conv_u32 (by omega) (by omega), X_pure]

theorem shr_u32 {a k : Nat} (hk : k < 32) : binOp .shr (.int .u32 a) (.int .i32 k) env m = .ok (.int .u32 (a >>> k : Nat)) env m := by
  have h : ¬ ((k : Int) < 0 ∨ ((ITy.promote .u32).bits : Int) ≤ k) := by
    show ¬ ((k : Int) < 0 ∨ (32 : Int) ≤ k)
    omega
  simp only [binOp, intOp]
  rw [if_neg h, X_pure, Nat.shiftRight_eq_div_pow]
  simp only [Int.toNat_natCast, ITy.promote]
  congr 2

theorem add_u32 {a b : Nat} (t : ITy) (ht : t = .u32 ∨ t = .i32) (ha : a < 4294967296) (hb : b < 4294967296) :
    binOp .add (.int .u32 a) (.int t b) env m = .ok (.int .u32 ((a + b) % 4294967296 : Nat)) env m := by
  have hu : ITy.usual .u32 t = .u32 := by rcases ht with rfl | rfl <;> rfl
  simp only [binOp, intOp, hu]
  rw [conv_u32 (n := (a : Int)) (by omega) (by omega), conv_u32 (n := (b : Int)) (by omega) (by omega)]
  refine (X_bind_ok (note_false env m)).trans ?_
  rw [X_pure]
  have : ITy.conv .u32 ((a : Int) + b) = ((a + b) % 4294967296 : Nat) := by
    show ((a : Int) + b) % 4294967296 = _
    omega
  rw [this]

/-! ## Single bytes of the buffer -/

theorem ofNat_toBits (w : Nat) : leBytes (ITy.size .u8) (ITy.toBits .u8 (w : Int)) = [UInt8.ofNat w] := by
  show [UInt8.ofNat (ITy.toBits .u8 (w : Int))] = _
  congr 1
  have : ITy.toBits .u8 (w : Int) = w % 256 := by
    show ((w : Int) % 256).toNat = _
    omega
  rw [this]
  apply UInt8.toNat.inj
  simp

theorem store_cur (K : Ctx) (hc : st.cursor < st.data.length) (w : Nat) :
    storeNum .u8 (.ptr (.heap K.A) (0 + st.cursor)) w env (memOf K st nx c) =
      .ok () env (memOf K { st with data := st.data.set st.cursor (UInt8.ofNat w) } nx c) := by
  rw [storeNum, ofNat_toBits, Nat.zero_add]
  refine storeBytes_raw (getBlock_arr K) (by simp) (by rw [List.length_map]; exact hc) ?_
  refine setBlock_arr K ?_ (List.length_set ..) rfl rfl rfl
  simp only
  rw [List.map_set, List.set_eq_take_append_cons_drop, if_pos (by simpa using hc)]
  simp

section
variable (K : Ctx) {env : Env} (h : env x = K.buf)
include h

/-- `buf->buffer[buf->cursor] = e;` -/
theorem ex_setByte {t : ITy} {w : Nat} (hc : st.cursor < st.data.length)
    (he : EvalTo e env (memOf K st nx c) (.int t w) env (memOf K st nx c)) :
    ExecTo (.stByte .u8 (.ldPtr (.var x) 0) (.ldInt .u64 (.var x) 1) e) env (memOf K st nx c) .next env
      (memOf K { st with data := st.data.set st.cursor (UInt8.ofNat w) } nx c) :=
  .stByte he (ev_arr K h) (ev_cursor K h) (offset_ok _ _ _) (store_cur K hc w)

/-- `buf->buffer[buf->cursor] |= e;` -/
theorem ex_orByte {t : ITy} {w : Nat} (hb : st.data[st.cursor]? = some o) (hw : (ITy.usual .u8 t = .i32 ∧ w < 2147483648) ∨ (ITy.usual .u8 t = .u32 ∧ w < 4294967296))
    (he : EvalTo e env (memOf K st nx c) (.int t w) env (memOf K st nx c)) :
    ExecTo (.stByte .u8 (.ldPtr (.var x) 0) (.ldInt .u64 (.var x) 1) (.bin .bor (.byte .u8 (.ldPtr (.var x) 0) (.ldInt .u64 (.var x) 1)) e)) env (memOf K st nx c) .next env
      (memOf K { st with data := st.data.set st.cursor (o ||| UInt8.ofNat w) } nx c) := by
  have hlt := (List.getElem?_eq_some_iff.mp hb).1
  have ho := UInt8.toNat_lt o
  have e8 : o ||| UInt8.ofNat w = UInt8.ofNat (o.toNat ||| w) := by
    apply UInt8.toNat.inj
    rw [UInt8.toNat_or, UInt8.toNat_ofNat', UInt8.toNat_ofNat', Nat.or_mod_two_pow (n := 8)]
    congr 1
    omega
  rw [e8]
  rcases hw with ⟨hu, hw⟩ | ⟨hu, hw⟩
  · exact ex_setByte K h hlt (.bin (ev_current K h hb) he (bor_i32 _ _ hu (by omega) hw))
  · exact ex_setByte K h hlt (.bin (ev_current K h hb) he (bor_u32 _ _ hu (by omega) hw))

/-- `buf->cursor++;` -/
theorem ex_next (hc : st.cursor < st.data.length) (hl : st.data.length ≤ 2147483647) :
    ExecTo (.stInt .u64 (.var x) 1 (.bin .add (.ldInt .u64 (.var x) 1) (.lit .i32 1))) env (memOf K st nx c) .next env
      (memOf K { st with cursor := st.cursor + 1 } nx c) :=
  ex_advance K h (k := 1) (by omega) .lit (.inr rfl)

end

theorem setByte_eq_ok (hr : setByte b st = .ok u st') : st.cursor < st.data.length ∧ st' = { st with data := st.data.set st.cursor b } := by
  unfold setByte at hr
  split at hr
  · cases hr
    exact ⟨‹_›, rfl⟩
  · cases hr

theorem orByte_eq_ok (hr : orByte b st = .ok u st') :
    ∃ o, st.data[st.cursor]? = some o ∧ st.cursor < st.data.length ∧ st' = { st with data := st.data.set st.cursor (o ||| b) } := by
  unfold orByte at hr
  split at hr
  · cases hr
    exact ⟨_, ‹_›, (List.getElem?_eq_some_iff.mp ‹_›).1, rfl⟩
  · cases hr

theorem M_bind_eq_ok {m : M α} {k : α → M β} (h : (m >>= k) st = .ok b st') : ∃ a st1, m st = .ok a st1 ∧ k a st1 = .ok b st' := by
  change M.bind m k st = _ at h
  rw [M.bind] at h
  cases hm : m st with
  | ub r => rw [hm] at h; cases h
  | ok a s => rw [hm] at h; exact ⟨a, s, rfl, h⟩

theorem Good.set (hg : Good st) : Good { st with data := st.data.set i b } := ⟨by simpa using hg.cur, by simpa using hg.len⟩

theorem optionalWrite_src : MSpec .sml_buf_optional_write (fun K => [K.buf]) anySt optionalWrite (fun _ => .undef) anyRes := by
  intro K st nx c hg _ b st' hr
  obtain ⟨_, s, e, hr⟩ := M_bind_eq_ok hr
  obtain ⟨hc, rfl⟩ := setByte_eq_ok e
  cases hr
  have hl := hg.len
  refine ⟨⟨⟨by simp only [List.length_set]; exact hc, by simpa using hl⟩, Nat.le_succ _⟩, trivial, .of (fun _ _ => bind_ptr1) (.cons (ex_setByte K (env0 K) hc (w := 1) .lit)
    (.cons (ex_next K (env0 K) (by simpa using hc) (by simpa using hl)) .nil)) (res_void K)⟩

/-! ## Types and lengths -/

theorem mask_lt {q : Nat} (h : q ≤ 7) : 15 * 16 ^ q < 4294967296 := by
  have : 16 ^ q ≤ 16 ^ 7 := Nat.pow_le_pow_right (by omega) h
  omega

theorem mask_shr (q : Nat) : (15 * 16 ^ (q + 1)) >>> 4 = 15 * 16 ^ q := by
  rw [Nat.shiftRight_eq_div_pow, Nat.pow_succ]
  omega

section
variable {K : Ctx}

/-- The loop that finds the first digit. -/
theorem findMask_run {p l : Nat} (h1 : 16 ^ p ≤ l) (h2 : l < 16 ^ (p + 1)) (hl : l < 4294967296) : (q : Nat) → (env : Env) → p ≤ q → q ≤ 7 →
    env 0 = K.buf → env 2 = .int .u32 l → env 3 = .int .i32 q → env 4 = .int .u32 (15 * 16 ^ q : Nat) →
    ∃ env', LoopTo (.not (.bin .band (.var 4) (.var 2))) [.set .u32 4 (.bin .shr (.var 4) (.lit .i32 4)), .set .i32 3 (.bin .sub (.var 3) (.lit .i32 1))] [] env m .next env' m ∧
      env' 0 = K.buf ∧ env' 2 = .int .u32 l ∧ env' 3 = .int .i32 p ∧ env' 4 = .int .u32 (15 * 16 ^ p : Nat)
  | q, env, h3, h4, e0, e2, e3, e4 => by
    have hm := mask_lt h4
    have ev : EvalTo (.bin .band (.var 4) (.var 2)) env m (.int .u32 (15 * 16 ^ q &&& l : Nat)) env m := .bin (.int e4) (.int e2) (band_u32 _ _ rfl hm hl)
    rw [mask_and] at ev
    by_cases hq : q = p
    · subst hq
      have h5 : 0 < l / 16 ^ q := Nat.div_pos h1 (Nat.pow_pos (by decide))
      have h6 : l / 16 ^ q < 16 := by
        rw [Nat.div_lt_iff_lt_mul (Nat.pow_pos (by decide)), ← Nat.pow_succ']; exact h2
      have h7 : ((l / 16 ^ q % 16 * 16 ^ q : Nat) : Int) ≠ 0 := by
        rw [Nat.mod_eq_of_lt h6]
        have := Nat.mul_pos h5 (Nat.pow_pos (n := q) (show 0 < 16 by decide))
        omega
      exact ⟨env, .done (.not (b := true) ev (by rw [truth_ne0, decide_eq_true h7])) (truth_f rfl), e0, e2, e3, e4⟩
    · have h5 : l / 16 ^ q = 0 := Nat.div_eq_of_lt (Nat.lt_of_lt_of_le h2 (Nat.pow_le_pow_right (by decide) (by omega)))
      obtain ⟨q, rfl⟩ : ∃ r, q = r + 1 := ⟨q - 1, by omega⟩
      rw [h5, Nat.zero_mod, Nat.zero_mul] at ev
      have hm' := mask_lt (q := q) (by omega)
      have x1 : ExecTo (.set .u32 4 (.bin .shr (.var 4) (.lit .i32 4))) env m .next (upd env 4 (.int .u32 (15 * 16 ^ q : Nat))) m := by
        refine .set (t := .u32) (k := ((15 * 16 ^ q : Nat) : Int)) (.bin (.int e4) .lit ?_) (conv_u32 (by omega) (by omega))
        have := shr_u32 (a := 15 * 16 ^ (q + 1)) (k := 4) (env := env) (m := m) (by omega)
        rwa [mask_shr] at this
      have x2 : ExecTo (.set .i32 3 (.bin .sub (.var 3) (.lit .i32 1))) (upd env 4 (.int .u32 (15 * 16 ^ q : Nat))) m .next
          (upd (upd env 4 (.int .u32 (15 * 16 ^ q : Nat))) 3 (.int .i32 q)) m := by
        refine .set (t := .i32) (k := (q : Int)) (.bin (.int ((upd_other (by decide)).trans e3)) .lit ?_) (conv_i32 (by omega) (by omega))
        rw [bin_sub (ta := .i32) (tb := .i32) (conv_i32 (by omega) (by omega)) rfl, show ((q + 1 : Nat) : Int) - 1 = q by omega]
        exact arith_i32 (by omega) (by omega)
      obtain ⟨env', r, e0', e2', e3', e4'⟩ := findMask_run h1 h2 hl q (upd (upd env 4 (.int .u32 (15 * 16 ^ q : Nat))) 3 (.int .i32 q)) (by omega) (by omega)
        e0 e2 upd_same rfl
      exact ⟨env', .round (.not (b := false) ev rfl) (truth_t rfl) (.cons x1 (.last x2)) .nil r, e0', e2', e3', e4'⟩

/-- The loop that writes all digits but the last. -/
theorem copyLoop_run {l : Nat} (hl : l < 4294967296) : (fuel q pos : Nat) → (env : Env) → (st : St) → q ≤ pos → pos ≤ 7 → Good st → copyLoop fuel (15 * 16 ^ q) pos l st = .ok u st' →
    env 0 = K.buf → env 2 = .int .u32 l → env 3 = .int .i32 pos → env 4 = .int .u32 (15 * 16 ^ q : Nat) →
    (Good st' ∧ st.cursor ≤ st'.cursor) ∧ ∃ env', LoopTo (.bin .gt (.var 4) (.lit .i32 15)) [
        .stByte .u8 (.ldPtr (.var 0) 0) (.ldInt .u64 (.var 0) 1) (.bin .bor (.byte .u8 (.ldPtr (.var 0) 0) (.ldInt .u64 (.var 0) 1)) (.lit .i32 128)),
        .stByte .u8 (.ldPtr (.var 0) 0) (.ldInt .u64 (.var 0) 1) (.bin .bor (.byte .u8 (.ldPtr (.var 0) 0) (.ldInt .u64 (.var 0) 1)) (.bin .shr (.bin .band (.var 4) (.var 2)) (.bin .mul (.lit .i32 4) (.var 3)))),
        .set .u32 4 (.bin .shr (.var 4) (.lit .i32 4)),
        .set .i32 3 (.bin .sub (.var 3) (.lit .i32 1)),
        .stInt .u64 (.var 0) 1 (.bin .add (.ldInt .u64 (.var 0) 1) (.lit .i32 1))] [] env (memOf K st nx c) .next env' (memOf K st' nx c) ∧
      env' 0 = K.buf ∧ env' 2 = .int .u32 l
  | 0, q, pos, env, st, _, _, _, hr, _, _, _, _ => by cases hr
  | fuel + 1, q, pos, env, st, h3, h4, hg, hr, e0, e2, e3, e4 => by
    have hm := mask_lt (q := q) (by omega)
    have ev : EvalTo (.bin .gt (.var 4) (.lit .i32 15)) env (memOf K st nx c) (ofBool (decide (((15 * 16 ^ q : Nat) : Int) > 15))) env (memOf K st nx c) :=
      .bin (.int e4) .lit (bin_gt (ta := .u32) (tb := .i32) (conv_u32 (by omega) (by omega)) rfl)
    rw [copyLoop] at hr
    by_cases hq : 15 * 16 ^ q > 0xF
    · rw [if_pos hq] at hr
      obtain ⟨q, rfl⟩ : ∃ r, q = r + 1 := ⟨q - 1, by
        cases q with
        | zero => simp at hq
        | succ q => rfl⟩
      obtain ⟨pos, rfl⟩ : ∃ r, pos = r + 1 := ⟨pos - 1, by omega⟩
      rw [mask_shr] at hr
      replace hr := M_bind_eq_ok hr
      obtain ⟨_, s1, f1, hr⟩ := hr
      replace hr := M_bind_eq_ok hr
      obtain ⟨_, s2, f2, hr⟩ := hr
      replace hr := M_bind_eq_ok hr
      obtain ⟨_, s3, f3, hr⟩ := hr
      obtain ⟨o1, g1, c1, rfl⟩ := orByte_eq_ok f1
      obtain ⟨o2, g2, c2, rfl⟩ := orByte_eq_ok f2
      cases f3
      have hm' := mask_lt (q := q) (by omega)
      have hand : 15 * 16 ^ (q + 1) &&& l ≤ l := Nat.and_le_right
      have x1 := ex_orByte K e0 (nx := nx) (c := c) (t := .i32) (w := 128) g1 (.inl ⟨rfl, by omega⟩) .lit
      have x2 := ex_orByte K e0 (nx := nx) (c := c) (t := .u32) (w := (15 * 16 ^ (q + 1) &&& l) >>> (4 * (pos + 1))) (e := .bin .shr (.bin .band (.var 4) (.var 2)) (.bin .mul (.lit .i32 4) (.var 3)))
        g2 (.inr ⟨rfl, by
          rw [Nat.shiftRight_eq_div_pow]
          exact Nat.lt_of_le_of_lt (Nat.div_le_self _ _) (by omega)⟩) (by
          refine .bin (.bin (.int e4) (.int e2) (band_u32 _ _ rfl hm hl)) (.bin (z := .int .i32 (4 * (pos + 1) : Nat)) .lit (.int e3) ?_) (shr_u32 (by omega))
          simp only [binOp, intOp, ITy.usual, ITy.promote]
          rw [conv_i32 (n := 4) (by omega) (by omega), conv_i32 (n := ((pos + 1 : Nat) : Int)) (by omega) (by omega)]
          exact arith_i32 (n := 4 * ((pos + 1 : Nat) : Int)) (by omega) (by omega))
      have x3 : ∀ m, ExecTo (.set .u32 4 (.bin .shr (.var 4) (.lit .i32 4))) env m .next (upd env 4 (.int .u32 (15 * 16 ^ q : Nat))) m := by
        intro m
        refine .set (t := .u32) (k := ((15 * 16 ^ q : Nat) : Int)) (.bin (.int e4) .lit ?_) (conv_u32 (by omega) (by omega))
        have := shr_u32 (a := 15 * 16 ^ (q + 1)) (k := 4) (env := env) (m := m) (by omega)
        rwa [mask_shr] at this
      have x4 : ∀ m, ExecTo (.set .i32 3 (.bin .sub (.var 3) (.lit .i32 1))) (upd env 4 (.int .u32 (15 * 16 ^ q : Nat))) m .next
          (upd (upd env 4 (.int .u32 (15 * 16 ^ q : Nat))) 3 (.int .i32 pos)) m := by
        intro m
        refine .set (t := .i32) (k := (pos : Int)) (.bin (.int ((upd_other (by decide)).trans e3)) .lit ?_) (conv_i32 (by omega) (by omega))
        rw [bin_sub (ta := .i32) (tb := .i32) (conv_i32 (by omega) (by omega)) rfl, show ((pos + 1 : Nat) : Int) - 1 = pos by omega]
        exact arith_i32 (by omega) (by omega)
      have hl2 := hg.len
      have g5 := (hg.set (i := st.cursor) (b := o1 ||| 0x80)).set (i := st.cursor) (b := o2 ||| UInt8.ofNat ((15 * 16 ^ (q + 1) &&& l) >>> (4 * (pos + 1))))
      have x5 := ex_next K (nx := nx) (c := c) (env := upd (upd env 4 (.int .u32 (15 * 16 ^ q : Nat))) 3 (.int .i32 pos)) (x := 0) e0
        (st := { st with data := (st.data.set st.cursor (o1 ||| 0x80)).set st.cursor (o2 ||| UInt8.ofNat ((15 * 16 ^ (q + 1) &&& l) >>> (4 * (pos + 1)))) })
        (by simpa using c1) (by simpa using hl2)
      obtain ⟨⟨i1, i2⟩, env', r, e0', e2'⟩ := copyLoop_run hl fuel q pos (upd (upd env 4 (.int .u32 (15 * 16 ^ q : Nat))) 3 (.int .i32 pos))
        { st with data := (st.data.set st.cursor (o1 ||| 0x80)).set st.cursor (o2 ||| UInt8.ofNat ((15 * 16 ^ (q + 1) &&& l) >>> (4 * (pos + 1)))), cursor := st.cursor + 1 } (by omega) (by omega)
        ⟨by simp only [List.length_set]; exact c1, g5.len⟩ hr e0 e2 upd_same rfl
      refine ⟨⟨i1, Nat.le_trans (Nat.le_succ _) i2⟩, env', .round ev (truth_pos (by omega)) (.cons x1 (.cons x2 (.cons (x3 _) (.cons (x4 _) (.last x5))))) .nil r, e0', e2'⟩
    · rw [if_neg hq] at hr
      cases hr
      exact ⟨⟨hg, Nat.le_refl _⟩, env, .done ev (truth_neg (by omega)), e0, e2⟩

end

theorem conv_u32_toI32 {v : Nat} (h : v < 4294967296) : ITy.conv .u32 (toI32 v) = v := by
  show toI32 v % 4294967296 = v
  unfold toI32
  split <;> omega

/-- `0x0F << (4 * (mask_pos + 1))` -/
theorem shl_mask (K : Ctx) {pos : Nat} (h : pos ≤ 6) :
    binOp .shl (.int .i32 15) (.int .i32 (4 * (pos + 1) : Nat)) env (memOf K st nx c) =
      .ok (.int .i32 (toI32 (15 * 16 ^ (pos + 1)))) env (memOf K { st with sovf := st.sovf || decide (pos = 6) } nx c) := by
  have : pos = 0 ∨ pos = 1 ∨ pos = 2 ∨ pos = 3 ∨ pos = 4 ∨ pos = 5 ∨ pos = 6 := by omega
  rcases this with rfl | rfl | rfl | rfl | rfl | rfl | rfl <;> rfl

theorem band_mask {v l : Nat} (hv : v < 4294967296) (hl : l < 4294967296) :
    binOp .band (.int .i32 (toI32 v)) (.int .u32 l) env m = .ok (.int .u32 (v &&& l : Nat)) env m := by
  simp only [binOp, intOp, ITy.usual, ITy.promote, bitop, ITy.toBits, ITy.bits]
  rw [conv_u32_toI32 hv, conv_u32 (n := (l : Int)) (by omega) (by omega)]
  rw [bits32 (a := v) (by omega), bits32 (a := l) (by omega)]
  have : v &&& l ≤ v := Nat.and_le_left
  rw [conv_u32 (by omega) (by omega), X_pure]

theorem lastDigit_run {K : Ctx} {l : Nat} (hl : l < 4294967296) (hg : Good st) (e0 : env 0 = K.buf) (e2 : env 2 = .int .u32 l)
    (hr : (orByte (UInt8.ofNat (l &&& 0xF)) >>= fun _ => advance) st = .ok u st') :
    (Good st' ∧ st.cursor ≤ st'.cursor) ∧ RunTo body [
      .stByte .u8 (.ldPtr (.var 0) 0) (.ldInt .u64 (.var 0) 1) (.bin .bor (.byte .u8 (.ldPtr (.var 0) 0) (.ldInt .u64 (.var 0) 1)) (.bin .band (.var 2) (.lit .i32 15))),
      .stInt .u64 (.var 0) 1 (.bin .add (.ldInt .u64 (.var 0) 1) (.lit .i32 1))] env (memOf K st nx c) .undef (memOf K st' nx c) := by
  obtain ⟨_, s, e, hr⟩ := M_bind_eq_ok hr
  obtain ⟨o, g1, c1, rfl⟩ := orByte_eq_ok e
  cases hr
  have hl2 := hg.len
  have hle : l &&& 15 ≤ 15 := Nat.and_le_right
  refine ⟨⟨⟨by simp only [List.length_set]; exact c1, by simpa using hl2⟩, Nat.le_succ _⟩, ?_⟩
  exact .cons (ex_orByte K e0 (t := .u32) (w := l &&& 15) g1 (.inr ⟨rfl, by omega⟩) (.bin (.int e2) .lit (band_u32 (b := 15) _ _ rfl hl (by omega))))
    (.cons (ex_next K e0 (by simpa using c1) (by simpa using hl2)) .nil)

theorem bind_typeLen {type l : Nat} (t1 t2 : ITy) (ht : type < 256) (hl : l < 4294967296) (p : Val) :
    bindArgs (program .sml_buf_set_type_and_length).params [p, .int t1 type, .int t2 l] env m = .ok [p, .int .u32 type, .int .u32 l] env m := by
  simp only [program, sml_buf_set_type_and_length, bindArgs, convTo, asInt, X_bind, X_pure]
  rw [conv_u32 (by omega) (by omega), conv_u32 (by omega) (by omega)]

theorem setTypeAndLength_src {type l : Nat} (t1 t2 : ITy) (ht : type < 256) (hl : l < 4294967296) :
    MSpec .sml_buf_set_type_and_length (fun K => [K.buf, .int t1 type, .int t2 l]) anySt (setTypeAndLength type l) (fun _ => .undef) anyRes := by
  intro K st nx c hg _ b st' hr
  suffices h : ∀ body, body = (program .sml_buf_set_type_and_length).body → (Good st' ∧ st.cursor ≤ st'.cursor) ∧ RunTo body (program .sml_buf_set_type_and_length).body
      (envOf [K.buf, .int .u32 type, .int .u32 l]) (memOf K st nx c) .undef (memOf K st' nx c) by
    obtain ⟨h1, h2⟩ := h _ rfl
    exact ⟨h1, trivial, .of (fun _ _ => bind_typeLen t1 t2 ht hl _) h2 (res_void K)⟩
  intro body _
  unfold setTypeAndLength at hr
  obtain ⟨_, s1, f1, hr⟩ := M_bind_eq_ok hr
  obtain ⟨c1, rfl⟩ := setByte_eq_ok f1
  have x1 := ex_setByte K (env := envOf [K.buf, .int .u32 type, .int .u32 l]) (x := 0) (by rfl) (nx := nx) (c := c) c1 (e := .var 1) (t := .u32) (w := type) (.int (by rfl))
  have g1 := hg.set (i := st.cursor) (b := UInt8.ofNat type)
  -- the length that is written
  obtain ⟨L, hL, hLl, env1, x2, e0, e2⟩ : ∃ L, L = (if type ≠ tyList then (l + 1) % 4294967296 else l) ∧ L < 4294967296 ∧
      ∃ env1, (∀ m, ExecTo (.ite (.bin .ne (.var 1) (.lit .i32 112)) [.set .u32 2 (.bin .add (.var 2) (.lit .i32 1))] []) (envOf [K.buf, .int .u32 type, .int .u32 l]) m .next env1 m) ∧
        env1 0 = K.buf ∧ env1 2 = .int .u32 L := by
    have ev : ∀ m, EvalTo (.bin .ne (.var 1) (.lit .i32 112)) (envOf [K.buf, .int .u32 type, .int .u32 l]) m (ofBool (decide ((type : Int) ≠ 112)))
        (envOf [K.buf, .int .u32 type, .int .u32 l]) m := fun m =>
      .bin (.int (by rfl)) .lit (bin_ne (ta := .u32) (tb := .i32) (conv_u32 (by omega) (by omega)) rfl)
    by_cases h : type = tyList
    · refine ⟨l, by rw [if_neg (by simp [h])], hl, envOf [K.buf, .int .u32 type, .int .u32 l], fun m => ?_, rfl, rfl⟩
      exact .ite (b := false) (ev m) (truth_neg (by simp only [tyList] at h; omega)) .nil
    · refine ⟨(l + 1) % 4294967296, by rw [if_pos h], by omega, upd (envOf [K.buf, .int .u32 type, .int .u32 l]) 2 (.int .u32 ((l + 1) % 4294967296 : Nat)), fun m => ?_, rfl, rfl⟩
      refine .ite (b := true) (ev m) (truth_pos (by simp only [tyList] at h; omega)) (.last ?_)
      exact .set (t := .u32) (k := ((l + 1) % 4294967296 : Nat)) (.bin (.int (by rfl)) .lit (add_u32 (b := 1) .i32 (.inr rfl) hl (by omega))) (conv_u32 (by omega) (by omega))
  simp only at hr
  rw [← hL] at hr
  have ev : ∀ m, EvalTo (.bin .gt (.var 2) (.lit .i32 15)) env1 m (ofBool (decide ((L : Int) > 15))) env1 m := fun m =>
    .bin (.int e2) .lit (bin_gt (ta := .u32) (tb := .i32) (conv_u32 (by omega) (by omega)) rfl)
  by_cases h15 : L > 0xF
  · rw [if_pos h15] at hr
    obtain ⟨p, hp1, hp2⟩ := exists_pos L (by omega)
    have hp7 : p ≤ 7 := by
      refine Nat.le_of_not_lt fun hge => ?_
      have := Nat.pow_le_pow_right (show 0 < 16 by decide) hge
      omega
    have hp0 : 0 < p := by
      refine Nat.pos_of_ne_zero fun h0 => ?_
      subst h0
      simp at hp2; omega
    have hmask := findMask_eq p L hp1 hp2 8 7 (by omega) (by omega)
    rw [show 15 * 16 ^ 7 = 0xF0000000 by decide] at hmask
    rw [hmask] at hr
    simp only at hr
    by_cases h8 : p + 1 ≥ 8
    · rw [if_pos h8] at hr
      cases hr
    rw [if_neg h8] at hr
    obtain ⟨_, s2, f2, hr⟩ := M_bind_eq_ok hr
    cases f2
    -- the first digit
    have x3 : ∀ m, ExecTo (.set .i32 3 (.lit .u64 7)) env1 m .next (upd env1 3 (.int .i32 7)) m := fun m => .set .lit rfl
    have x4 : ∀ m, ExecTo (.set .u32 4 (.lit .i32 (-268435456))) (upd env1 3 (.int .i32 7)) m .next (upd (upd env1 3 (.int .i32 7)) 4 (.int .u32 (15 * 16 ^ 7 : Nat))) m :=
      fun m => .set .lit rfl
    obtain ⟨env2, x5, e0', e2', e3', e4'⟩ := findMask_run (m := memOf K { st with data := st.data.set st.cursor (UInt8.ofNat type) } nx c) hp1 hp2 hLl 7
      (upd (upd env1 3 (.int .i32 7)) 4 (.int .u32 (15 * 16 ^ 7 : Nat))) (by omega) (by omega) e0 e2 rfl rfl
    have x6 : ExecTo (.set .u32 2 (.bin .add (.var 2) (.var 3))) env2 (memOf K { st with data := st.data.set st.cursor (UInt8.ofNat type) } nx c) .next
        (upd env2 2 (.int .u32 ((L + p) % 4294967296 : Nat))) (memOf K { st with data := st.data.set st.cursor (UInt8.ofNat type) } nx c) :=
      .set (t := .u32) (k := ((L + p) % 4294967296 : Nat)) (.bin (.int e2') (.int e3') (add_u32 .i32 (.inr rfl) hLl (by omega))) (conv_u32 (by omega) (by omega))
    have hM : (L + p) % 4294967296 < 4294967296 := Nat.mod_lt _ (by omega)
    generalize hMd : (L + p) % 4294967296 = M at *
    have ev7 : EvalTo (.bin .band (.bin .shl (.lit .i32 15) (.bin .mul (.lit .i32 4) (.bin .add (.var 3) (.lit .i32 1)))) (.var 2)) (upd env2 2 (.int .u32 (M : Nat)))
        (memOf K { st with data := st.data.set st.cursor (UInt8.ofNat type) } nx c) (.int .u32 (15 * 16 ^ (p + 1) &&& M : Nat)) (upd env2 2 (.int .u32 (M : Nat)))
        (memOf K { st with data := st.data.set st.cursor (UInt8.ofNat type), sovf := st.sovf || decide (p = 6) } nx c) := by
      have ea : ∀ m, EvalTo (.bin .add (.var 3) (.lit .i32 1)) (upd env2 2 (.int .u32 (M : Nat))) m (.int .i32 (p + 1 : Nat)) (upd env2 2 (.int .u32 (M : Nat))) m := fun m => by
        refine .bin (.int ((upd_other (by decide)).trans e3')) .lit ?_
        rw [bin_add (ta := .i32) (tb := .i32) (conv_i32 (by omega) (by omega)) rfl]
        exact arith_i32 (n := (p : Int) + 1) (by omega) (by omega)
      have em : ∀ m, EvalTo (.bin .mul (.lit .i32 4) (.bin .add (.var 3) (.lit .i32 1))) (upd env2 2 (.int .u32 (M : Nat))) m (.int .i32 (4 * (p + 1) : Nat)) (upd env2 2 (.int .u32 (M : Nat))) m := fun m => by
        refine .bin .lit (ea m) ?_
        simp only [binOp, intOp, ITy.usual, ITy.promote]
        rw [conv_i32 (n := 4) (by omega) (by omega), conv_i32 (n := ((p + 1 : Nat) : Int)) (by omega) (by omega)]
        exact arith_i32 (n := 4 * ((p + 1 : Nat) : Int)) (by omega) (by omega)
      have es := shl_mask K (st := { st with data := st.data.set st.cursor (UInt8.ofNat type) }) (nx := nx) (c := c) (env := upd env2 2 (.int .u32 (M : Nat))) (pos := p) (by omega)
      exact .bin (.bin .lit (em _) es) (.int upd_same) (band_mask (v := 15 * 16 ^ (p + 1)) (l := M) (mask_lt (q := p + 1) (by omega)) hM)
    have hsh : 0xF <<< (4 * (p + 1)) = 15 * 16 ^ (p + 1) := by rw [Nat.shiftLeft_eq, Nat.pow_mul]
    rw [hsh] at hr
    have g3 : Good { st with data := st.data.set st.cursor (UInt8.ofNat type), sovf := st.sovf || decide (p = 6) } := ⟨g1.cur, g1.len⟩
    -- both ways
    obtain ⟨pos, N, env3, hpos, hN, x7, f0, f2, f3, f4, hr⟩ : ∃ pos N env3, (p ≤ pos ∧ pos ≤ 7) ∧ N < 4294967296 ∧
        ExecTo (.ite (.bin .band (.bin .shl (.lit .i32 15) (.bin .mul (.lit .i32 4) (.bin .add (.var 3) (.lit .i32 1)))) (.var 2))
          [.set .i32 3 (.bin .add (.var 3) (.lit .i32 1)), .set .u32 2 (.bin .add (.var 2) (.lit .i32 1))] []) (upd env2 2 (.int .u32 (M : Nat)))
          (memOf K { st with data := st.data.set st.cursor (UInt8.ofNat type) } nx c) .next env3
          (memOf K { st with data := st.data.set st.cursor (UInt8.ofNat type), sovf := st.sovf || decide (p = 6) } nx c) ∧
        env3 0 = K.buf ∧ env3 2 = .int .u32 (N : Nat) ∧ env3 3 = .int .i32 (pos : Nat) ∧ env3 4 = .int .u32 (15 * 16 ^ p : Nat) ∧
        (copyLoop 9 (15 * 16 ^ p) pos N >>= fun _ => orByte (UInt8.ofNat (N &&& 0xF)) >>= fun _ => advance)
          { st with data := st.data.set st.cursor (UInt8.ofNat type), sovf := st.sovf || decide (p = 6) } = .ok b st' := by
      by_cases h0 : 15 * 16 ^ (p + 1) &&& M ≠ 0
      · rw [if_pos h0] at hr
        refine ⟨p + 1, (M + 1) % 4294967296, upd (upd (upd env2 2 (.int .u32 (M : Nat))) 3 (.int .i32 (p + 1 : Nat))) 2 (.int .u32 ((M + 1) % 4294967296 : Nat)), ⟨by omega, by omega⟩, by omega, ?_,
          e0', upd_same, rfl, e4', hr⟩
        have y1 : ∀ m, ExecTo (.set .i32 3 (.bin .add (.var 3) (.lit .i32 1))) (upd env2 2 (.int .u32 (M : Nat))) m .next (upd (upd env2 2 (.int .u32 (M : Nat))) 3 (.int .i32 (p + 1 : Nat))) m := fun m => by
          refine .set (t := .i32) (k := (p + 1 : Nat)) (.bin (.int ((upd_other (by decide)).trans e3')) .lit ?_) (conv_i32 (by omega) (by omega))
          rw [bin_add (ta := .i32) (tb := .i32) (conv_i32 (by omega) (by omega)) rfl]
          exact arith_i32 (n := (p : Int) + 1) (by omega) (by omega)
        refine .ite (b := true) ev7 (by rw [truth_ne0, decide_eq_true (by omega)]) (.cons (y1 _) (.last ?_))
        exact .set (t := .u32) (k := ((M + 1) % 4294967296 : Nat)) (.bin (.int (by rfl)) .lit (add_u32 (b := 1) .i32 (.inr rfl) hM (by omega))) (conv_u32 (by omega) (by omega))
      · rw [if_neg h0] at hr
        refine ⟨p, M, upd env2 2 (.int .u32 (M : Nat)), ⟨by omega, by omega⟩, hM, ?_, e0', upd_same, e3', e4', hr⟩
        refine .ite (b := false) ev7 (by rw [truth_ne0, decide_eq_false (by omega)]) .nil
    replace hr := M_bind_eq_ok hr
    obtain ⟨_, s3, f5, hr⟩ := hr
    obtain ⟨⟨i1, i2⟩, env4, x8, k0, k2⟩ := copyLoop_run (K := K) (nx := nx) (c := c) hN 9 p pos env3 _ hpos.1 hpos.2 g3 f5 f0 f2 f3 f4
    obtain ⟨⟨i3, i4⟩, r⟩ := lastDigit_run (K := K) (nx := nx) (c := c) (body := body) hN i1 k0 k2 hr
    refine ⟨⟨i3, Nat.le_trans i2 i4⟩, .cons x1 (.cons (x2 _) (.cons ?_ r))⟩
    exact .ite (b := true) (ev _) (truth_pos (by omega)) (.cons (x3 _) (.cons (x4 _) (.cons (.loop x5) (.cons x6 (.cons x7 (.last (.loop x8)))))))
  · rw [if_neg h15] at hr
    obtain ⟨⟨i1, i2⟩, r⟩ := lastDigit_run (K := K) (nx := nx) (c := c) (body := body) hLl g1 e0 e2 hr
    exact ⟨⟨i1, i2⟩, .cons x1 (.cons (x2 _) (.cons (.ite (b := false) (ev _) (truth_neg (by omega)) .nil) r))⟩

end Sml.C
