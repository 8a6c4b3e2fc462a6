import Verif.Proofs.SourceRun

/-!
# The functions of `sml_shared.c` that reading uses, run from their source
-/

namespace Sml.C

/-! ## Integers -/

theorem conv_u64 (h0 : 0 ≤ n) (h1 : n < 18446744073709551616) : ITy.conv .u64 n = n := by
  simp only [ITy.conv, ITy.signed, ITy.bits, reduceCtorEq, if_false, Bool.false_eq_true]
  exact Int.emod_eq_of_lt h0 (by omega)

theorem conv_u32 (h0 : 0 ≤ n) (h1 : n < 4294967296) : ITy.conv .u32 n = n := by
  simp only [ITy.conv, ITy.signed, ITy.bits, reduceCtorEq, if_false, Bool.false_eq_true]
  exact Int.emod_eq_of_lt h0 (by omega)

theorem conv_u16 (h0 : 0 ≤ n) (h1 : n < 65536) : ITy.conv .u16 n = n := by
  simp only [ITy.conv, ITy.signed, ITy.bits, reduceCtorEq, if_false, Bool.false_eq_true]
  exact Int.emod_eq_of_lt h0 (by omega)

theorem conv_u8 (h0 : 0 ≤ n) (h1 : n < 256) : ITy.conv .u8 n = n := by
  simp only [ITy.conv, ITy.signed, ITy.bits, reduceCtorEq, if_false, Bool.false_eq_true]
  exact Int.emod_eq_of_lt h0 (by omega)

theorem conv_i32 (h0 : -2147483648 ≤ n) (h1 : n < 2147483648) : ITy.conv .i32 n = n := by
  simp only [ITy.conv, ITy.signed, ITy.bits, reduceCtorEq, if_false, if_true]
  rw [Int.bmod_eq_of_le] <;> omega

theorem conv_i16 (h0 : -32768 ≤ n) (h1 : n < 32768) : ITy.conv .i16 n = n := by
  simp only [ITy.conv, ITy.signed, ITy.bits, reduceCtorEq, if_false, if_true]
  rw [Int.bmod_eq_of_le] <;> omega

theorem fits_i32 (h0 : -2147483648 ≤ n) (h1 : n < 2147483648) : ITy.fits .i32 n = true := by
  exact decide_eq_true (show -2 ^ (32 - 1) ≤ n ∧ n < 2 ^ (32 - 1) by omega)

theorem note_false (env : Env) (m : Mem) : note false env m = .ok () env m := by
  simp only [note, Bool.or_false]

theorem arith_u64 (h0 : 0 ≤ n) (h1 : n < 18446744073709551616) : arith .u64 n env m = .ok (.int .u64 n) env m := by
  refine (X_bind_ok (note_false env m)).trans ?_
  rw [conv_u64 h0 h1]
  rfl

theorem arith_u32 (h0 : 0 ≤ n) (h1 : n < 4294967296) : arith .u32 n env m = .ok (.int .u32 n) env m := by
  refine (X_bind_ok (note_false env m)).trans ?_
  rw [conv_u32 h0 h1]
  rfl

theorem arith_i32 (h0 : -2147483648 ≤ n) (h1 : n < 2147483648) : arith .i32 n env m = .ok (.int .i32 n) env m := by
  rw [arith, fits_i32 h0 h1]
  refine (X_bind_ok (note_false env m)).trans ?_
  rw [conv_i32 h0 h1]
  rfl

theorem ofBool_isTrue (b : Bool) : (ofBool b).isTrue = b := by cases b <;> rfl

theorem truth_ofBool (b : Bool) : truth (ofBool b) env m = .ok b env m := by cases b <;> rfl

/-! ## Functions that work on the buffer only -/

/-- Calls of a function do what the model `m` does, whatever else is in memory. -/
def MSpec (f : Fn) (args : Ctx → List Val) (pre : St → Prop) (m : M β) (vl : β → Val) (post : β → St → Prop) : Prop :=
  ∀ K st nx c, Good st → pre st → ∀ b st', m st = .ok b st' →
    (Good st' ∧ st.cursor ≤ st'.cursor) ∧ post b st' ∧
      CallTo f (args K) (memOf K st nx c) (vl b) (memOf K st' nx c)

theorem FSpec.of_M {m : M β} (hm : MSpec f args pre m vl post) : FSpec f args pre (lift m) vl post := by
  intro K st h hi hp b st' h' hr
  unfold lift at hr
  cases e : m st with
  | ub r =>
    rw [e] at hr
    cases hr
  | ok a s =>
    rw [e] at hr
    cases hr
    obtain ⟨⟨g, l⟩, q, N, r⟩ := hm K st h.next (K.blocks h) hi.good hp _ _ e
    exact ⟨hi.of_good g l, q, N, r⟩

/-- What `call_ok` needs when all arguments and the result are pointers. -/
theorem memOf_take (K : Ctx) (st st' : St) :
    ({ memOf K st' nx' c' with stack := (memOf K st' nx' c').stack.take (memOf K st nx c).stack.length } : Mem) = memOf K st' nx' c' := by
  simp only [memOf, List.take_length]

section
variable {ta tb : ITy} {a b : Int} (ha : (ITy.usual ta tb).conv a = a) (hb : (ITy.usual ta tb).conv b = b)
include ha hb

theorem bin_lt : binOp .lt (.int ta a) (.int tb b) env m = .ok (ofBool (decide (a < b))) env m := by
  simp only [binOp, intOp, ha, hb, X_pure]

theorem bin_le : binOp .le (.int ta a) (.int tb b) env m = .ok (ofBool (decide (a ≤ b))) env m := by
  simp only [binOp, intOp, ha, hb, X_pure]

theorem bin_gt : binOp .gt (.int ta a) (.int tb b) env m = .ok (ofBool (decide (a > b))) env m := by
  simp only [binOp, intOp, ha, hb, X_pure]

theorem bin_ge : binOp .ge (.int ta a) (.int tb b) env m = .ok (ofBool (decide (a ≥ b))) env m := by
  simp only [binOp, intOp, ha, hb, X_pure]

theorem bin_eq : binOp .eq (.int ta a) (.int tb b) env m = .ok (ofBool (decide (a = b))) env m := by
  simp only [binOp, intOp, ha, hb, X_pure]

theorem bin_ne : binOp .ne (.int ta a) (.int tb b) env m = .ok (ofBool (decide (a ≠ b))) env m := by
  simp only [binOp, intOp, ha, hb, X_pure]

theorem bin_add : binOp .add (.int ta a) (.int tb b) env m = arith (ITy.usual ta tb) (a + b) env m := by
  simp only [binOp, intOp, ha, hb]

theorem bin_sub : binOp .sub (.int ta a) (.int tb b) env m = arith (ITy.usual ta tb) (a - b) env m := by
  simp only [binOp, intOp, ha, hb]

end

theorem natConv_u64 {a : Nat} (h : a < 18446744073709551616) : ITy.conv .u64 (a : Int) = a := conv_u64 (by omega) (by omega)

theorem cmp_u64 {a b : Nat} (ha : a < 18446744073709551616) (hb : b < 18446744073709551616) :
    binOp .lt (.int .u64 a) (.int .u64 b) env m = .ok (ofBool (decide (a < b))) env m ∧
    binOp .ge (.int .u64 a) (.int .u64 b) env m = .ok (ofBool (decide (a ≥ b))) env m ∧
    binOp .gt (.int .u64 a) (.int .u64 b) env m = .ok (ofBool (decide (a > b))) env m := by
  refine ⟨?_, ?_, ?_⟩
  · rw [bin_lt (ta := .u64) (tb := .u64) (natConv_u64 ha) (natConv_u64 hb)]
    simp only [Int.ofNat_lt]
  · rw [bin_ge (ta := .u64) (tb := .u64) (natConv_u64 ha) (natConv_u64 hb)]
    simp only [ge_iff_le, Int.ofNat_le]
  · rw [bin_gt (ta := .u64) (tb := .u64) (natConv_u64 ha) (natConv_u64 hb)]
    simp only [gt_iff_lt, Int.ofNat_lt]

theorem add_u64 {a b : Nat} (h : a + b < 18446744073709551616) (t : ITy) (ht : t = .u64 ∨ t = .i32) :
    binOp .add (.int .u64 a) (.int t b) env m = .ok (.int .u64 (a + b : Nat)) env m := by
  have hu : ITy.usual .u64 t = .u64 := by rcases ht with rfl | rfl <;> rfl
  simp only [binOp, intOp, hu]
  rw [conv_u64 (by omega) (by omega), conv_u64 (by omega) (by omega), arith_u64 (by omega) (by omega)]
  rfl

theorem offset_ok (l : Loc) (i : Nat) (k : Nat) : offset (.ptr l i) (k : Int) env m = .ok (.ptr l (i + k)) env m := by
  rw [offset, asPtr, X_bind_ok (X_pure _ _ _)]
  simp only
  rw [if_neg (show ¬ ((i : Int) + k < 0) by omega), X_pure]
  congr 2

theorem bits32 {a : Nat} (ha : a < 4294967296) : ((a : Int).emod (2 ^ 32)).toNat = a := by
  have : (a : Int).emod (2 ^ 32) = a := Int.emod_eq_of_lt (by omega) (show (a : Int) < 4294967296 by omega)
  rw [this]
  rfl

theorem band_i32 {a : Nat} (ha : a < 256) (b : Nat) (hb : b < 256) :
    binOp .band (.int .u8 a) (.int .i32 b) env m = .ok (.int .i32 (a &&& b : Nat)) env m := by
  simp only [binOp, intOp, ITy.usual, ITy.promote, bitop, ITy.toBits, ITy.bits]
  rw [conv_i32 (n := (a : Int)) (by omega) (by omega), conv_i32 (n := (b : Int)) (by omega) (by omega)]
  rw [bits32 (a := a) (by omega), bits32 (a := b) (by omega)]
  have : a &&& b ≤ a := Nat.and_le_left
  rw [conv_i32 (by omega) (by omega), X_pure]


theorem bor_i32 {a b : Nat} (ta tb : ITy) (hu : ITy.usual ta tb = .i32) (ha : a < 2147483648) (hb : b < 2147483648) :
    binOp .bor (.int ta a) (.int tb b) env m = .ok (.int .i32 (a ||| b : Nat)) env m := by
  simp only [binOp, intOp, hu, bitop, ITy.toBits, ITy.bits]
  rw [conv_i32 (n := (a : Int)) (by omega) (by omega), conv_i32 (n := (b : Int)) (by omega) (by omega)]
  rw [bits32 (a := a) (by omega), bits32 (a := b) (by omega)]
  have : a ||| b < 2 ^ 31 := Nat.or_lt_two_pow ha hb
  rw [conv_i32 (by omega) (by omega), X_pure]

theorem truth_t {d : Bool} (h : d = true) : truth (ofBool d) env m = .ok true env m := by subst h; rfl
theorem truth_f {d : Bool} (h : d = false) : truth (ofBool d) env m = .ok false env m := by subst h; rfl

theorem truth_pos {d : Prop} [Decidable d] (h : d) : truth (ofBool (decide d)) env m = .ok true env m := truth_t (decide_eq_true h)
theorem truth_neg {d : Prop} [Decidable d] (h : ¬ d) : truth (ofBool (decide d)) env m = .ok false env m := truth_f (decide_eq_false h)

/-! ## The members of the buffer -/

section
variable (K : Ctx) {env : Env} (h : env x = K.buf)
include h

theorem ev_buf : EvalTo (.var x) env m K.buf env m := .ptr h

theorem ev_cursor : EvalTo (.ldInt .u64 (.var x) 1) env (memOf K st nx c) (.int .u64 st.cursor) env (memOf K st nx c) :=
  .ldInt (ev_buf K h) (load_cursor K)

theorem ev_len : EvalTo (.ldInt .u64 (.var x) 0) env (memOf K st nx c) (.int .u64 st.data.length) env (memOf K st nx c) :=
  .ldInt (ev_buf K h) (load_len K)

theorem ev_arr : EvalTo (.ldPtr (.var x) 0) env (memOf K st nx c) (ptrVal K.A) env (memOf K st nx c) :=
  .ldPtr (ev_buf K h) (load_arr K)

theorem ev_error : EvalTo (.ldInt .i32 (.var x) 2) env (memOf K st nx c) (.int .i32 (if st.error then 1 else 0)) env (memOf K st nx c) :=
  .ldInt (ev_buf K h) (load_error K)

/-- `buf->error = 1;` -/
theorem ex_error : ExecTo (.stInt .i32 (.var x) 2 (.lit .i32 1)) env (memOf K st nx c) .next env (memOf K { st with error := true } nx c) :=
  .stInt .lit (ev_buf K h) rfl (store_error K)

theorem ev_current (hb : st.data[st.cursor]? = some b) :
    EvalTo (.byte .u8 (.ldPtr (.var x) 0) (.ldInt .u64 (.var x) 1)) env (memOf K st nx c) (.int .u8 b.toNat) env (memOf K st nx c) :=
  .byte (ev_arr K h) (ev_cursor K h) (offset_ok _ _ _) (by rw [Nat.zero_add]; exact load_byte K hb)

/-- `buf->cursor += e;` -/
theorem ex_advance {k : Nat} {t : ITy} (hk : st.cursor + k < 18446744073709551616)
    (he : EvalTo e env (memOf K st nx c) (.int t k) env (memOf K st nx c)) (ht : t = .u64 ∨ t = .i32) :
    ExecTo (.stInt .u64 (.var x) 1 (.bin .add (.ldInt .u64 (.var x) 1) e)) env (memOf K st nx c) .next env
      (memOf K { st with cursor := st.cursor + k } nx c) :=
  .stInt (.bin (ev_cursor K h) he (add_u64 hk t ht)) (ev_buf K h) (natConv_u64 hk) (store_cursor K _)

section
variable (hg : Good st)
include hg

/-- `buf->cursor >= buf->buffer_len` -/
theorem ev_atEnd : EvalTo (.bin .ge (.ldInt .u64 (.var x) 1) (.ldInt .u64 (.var x) 0)) env (memOf K st nx c)
    (ofBool (decide (st.cursor ≥ st.data.length))) env (memOf K st nx c) :=
  have hl := hg.len
  have hc := hg.cur
  .bin (ev_cursor K h) (ev_len K h) (cmp_u64 (a := st.cursor) (b := st.data.length) (by omega) (by omega)).2.1

/-- `buf->cursor < buf->buffer_len` -/
theorem ev_inside : EvalTo (.bin .lt (.ldInt .u64 (.var x) 1) (.ldInt .u64 (.var x) 0)) env (memOf K st nx c)
    (ofBool (decide (st.cursor < st.data.length))) env (memOf K st nx c) :=
  have hl := hg.len
  have hc := hg.cur
  .bin (ev_cursor K h) (ev_len K h) (cmp_u64 (a := st.cursor) (b := st.data.length) (by omega) (by omega)).1

/-- `buf->cursor + e > buf->buffer_len` -/
theorem ev_noRoom {k : Nat} (he : EvalTo e env (memOf K st nx c) (.int .i32 k) env (memOf K st nx c)) (hk : k < 2147483648) :
    EvalTo (.bin .gt (.bin .add (.ldInt .u64 (.var x) 1) e) (.ldInt .u64 (.var x) 0)) env (memOf K st nx c)
      (ofBool (decide (st.cursor + k > st.data.length))) env (memOf K st nx c) :=
  have hl := hg.len
  have hc := hg.cur
  .bin (.bin (ev_cursor K h) he (add_u64 (a := st.cursor) (b := k) (by omega) .i32 (.inr rfl))) (ev_len K h)
    (cmp_u64 (a := st.cursor + k) (b := st.data.length) (by omega) (by omega)).2.2

end
end

theorem env0 (K : Ctx) : envOf [K.buf] 0 = K.buf := rfl

theorem bind_ptr1 : bindArgs [none] [v] env m = .ok [v] env m := rfl

/-- Results: nothing is left on the stack. -/
theorem res_void (K : Ctx) : ∀ env, resultOf none v env { memOf K st' nx' c' with stack := (memOf K st' nx' c').stack.take (memOf K st nx c).stack.length } =
    .ok v env (memOf K st' nx' c') := fun env => by
  rw [memOf_take]
  cases v <;> rfl

theorem res_int (K : Ctx) {k : Int} (h : ty.conv k = k') :
    ∀ env, resultOf (some ty) (.int t k) env { memOf K st' nx' c' with stack := (memOf K st' nx' c').stack.take (memOf K st nx c).stack.length } =
      .ok (.int ty k') env (memOf K st' nx' c') := fun env => by
  rw [memOf_take, ← h]
  rfl

/-! ## Functions -/

theorem hasErrors_src : MSpec .sml_buf_has_errors (fun K => [K.buf]) anySt hasErrors (fun b => ofBool b) (fun b st => b = st.error) := by
  intro K st nx c hg _ b st' hr
  cases hr
  have h : (ITy.usual .i32 .i32).conv (if st.error then 1 else 0) = if st.error then 1 else 0 := by cases st.error <;> rfl
  refine ⟨⟨hg, Nat.le_refl _⟩, rfl, .of (fun _ _ => bind_ptr1) (.ret (.bin (ev_error K (env0 K)) .lit (bin_ne h rfl))) (res_int K ?_)⟩
  cases st.error <;> rfl

theorem getNextType_src : MSpec .sml_buf_get_next_type (fun K => [K.buf]) anySt getNextType (fun t => .int .i32 t)
    (fun t st => t ≤ 256 ∧ (st.cursor < st.data.length → t < 128)) := by
  intro K st nx c hg _ b st' hr
  have hl := hg.len
  have hc := hg.cur
  unfold getNextType at hr
  by_cases h : st.cursor ≥ st.data.length
  · rw [if_pos h] at hr
    cases hr
    refine ⟨⟨⟨hc, hl⟩, Nat.le_refl _⟩, ⟨by omega, fun h' => absurd h' (by simp only; omega)⟩, .of (fun _ _ => bind_ptr1)
      (.ite (ev_atEnd K (env0 K) hg) (truth_pos h) (.cons (ex_error K (env0 K)) (.ret .lit))) (res_int K rfl)⟩
  · rw [if_neg h] at hr
    cases hb : st.data[st.cursor]? with
    | none => rw [hb] at hr; cases hr
    | some x =>
      rw [hb] at hr
      cases hr
      have hx := UInt8.toNat_lt x
      have hle : x.toNat &&& 112 ≤ 112 := Nat.and_le_right
      refine ⟨⟨⟨hc, hl⟩, Nat.le_refl _⟩, ⟨by omega, fun _ => by omega⟩, .of (fun _ _ => bind_ptr1)
        (.ite (ev_atEnd K (env0 K) hg) (truth_neg h) (.ret (.bin (ev_current K (env0 K) hb) .lit (band_i32 (by omega) 112 (by omega)))))
        (res_int K (conv_i32 (by omega) (by omega)))⟩

theorem getCurrentByte_src : MSpec .sml_buf_get_current_byte (fun K => [K.buf]) anySt getCurrentByte (fun b => .int .u8 b.toNat)
    (fun b st => st.data[st.cursor]? = some b) := by
  intro K st nx c hg _ b st' hr
  unfold getCurrentByte at hr
  cases hb : st.data[st.cursor]? with
  | none => rw [hb] at hr; cases hr
  | some x =>
    rw [hb] at hr
    cases hr
    have hx := UInt8.toNat_lt b
    exact ⟨⟨hg, Nat.le_refl _⟩, hb, .of (fun _ _ => bind_ptr1) (.ret (ev_current K (env0 K) hb)) (res_int K (conv_u8 (by omega) (by omega)))⟩

theorem call_byte (K : Ctx) (hb : st.data[st.cursor]? = some b) :
    CallTo .sml_buf_get_current_byte [K.buf] (memOf K st nx c) (.int .u8 b.toNat) (memOf K st nx c) := by
  have hx := UInt8.toNat_lt b
  exact .of (fun _ _ => bind_ptr1) (.ret (ev_current K (env0 K) hb)) (res_int K (conv_u8 (by omega) (by omega)))

theorem call_update (K : Ctx) (k : Nat) (t : ITy) (hk : k < 2147483648) (hc : st.cursor < 2147483648) :
    CallTo .sml_buf_update_bytes_read [K.buf, .int t k] (memOf K st nx c) .undef (memOf K { st with cursor := st.cursor + k } nx c) := by
  refine .of (vs := [K.buf, .int .i32 k]) (fun env m => ?_) (.cons (ex_advance K (st := st) (k := k) (t := .i32) (by rfl) (by omega) (.int (by rfl)) (.inr rfl)) .nil) (res_void K)
  simp only [program, sml_buf_update_bytes_read, bindArgs, convTo, asInt, X_bind, X_pure]
  rw [conv_i32 (by omega) (by omega)]

theorem updateBytesRead_src (k : Nat) : MSpec .sml_buf_update_bytes_read (fun K => [K.buf, .int .i32 k])
    (fun st => st.cursor + k ≤ st.data.length) (updateBytesRead k) (fun _ => .undef) (fun _ _ => True) := by
  intro K st nx c hg hp b st' hr
  cases hr
  have hl := hg.len
  exact ⟨⟨⟨hp, hl⟩, Nat.le_add_right _ _⟩, trivial, call_update K k .i32 (by omega) (by omega)⟩

theorem call_curBuf (K : Ctx) : CallTo .sml_buf_get_current_buf [K.buf] (memOf K st nx c) (.ptr (.heap K.A) st.cursor) (memOf K st nx c) := by
  refine .of (fun _ _ => bind_ptr1) (.ret (.addr (ev_arr K (env0 K)) (ev_cursor K (env0 K)) (offset_ok _ _ _))) ?_
  rw [Nat.zero_add]
  exact res_void K

/-- `sml_buf_optional_is_skipped` with the value it returns. -/
def optCode : M Int := fun st =>
  if st.cursor ≥ st.data.length then .ok (-1) { st with error := true }
  else match st.data[st.cursor]? with
    | some b =>
      if b = 0x01 then
        if st.cursor + 1 > st.data.length then .ok (-1) { st with error := true }
        else .ok 1 { st with cursor := st.cursor + 1 }
      else .ok 0 st
    | none => .ub .oobRead

theorem optionalIsSkipped_code : optionalIsSkipped = (do pure (decide ((← optCode) ≠ 0))) := by
  funext st
  change _ = M.bind optCode _ st
  unfold optionalIsSkipped optCode M.bind
  simp only
  by_cases h : st.cursor ≥ st.data.length
  · rw [if_pos h, if_pos h]
    rfl
  · rw [if_neg h, if_neg h]
    cases hb : st.data[st.cursor]? with
    | none => rfl
    | some x =>
      simp only
      split
      · split <;> rfl
      · rfl

theorem optCode_src : MSpec .sml_buf_optional_is_skipped (fun K => [K.buf]) anySt optCode (fun t => .int .i32 t) (fun _ _ => True) := by
  intro K st nx c hg _ b st' hr
  have hl := hg.len
  have hc := hg.cur
  unfold optCode at hr
  by_cases h : st.cursor ≥ st.data.length
  · rw [if_pos h] at hr
    cases hr
    exact ⟨⟨⟨hc, hl⟩, Nat.le_refl _⟩, trivial, .of (fun _ _ => bind_ptr1)
      (.ite (ev_atEnd K (env0 K) hg) (truth_pos h) (.cons (ex_error K (env0 K)) (.ret .lit))) (res_int K rfl)⟩
  · rw [if_neg h] at hr
    cases hb : st.data[st.cursor]? with
    | none => rw [hb] at hr; cases hr
    | some x =>
      rw [hb] at hr
      simp only at hr
      rw [if_neg (show ¬ (st.cursor + 1 > st.data.length) by omega)] at hr
      have hx := UInt8.toNat_lt x
      have h2 : EvalTo (.bin .eq (.call .sml_buf_get_current_byte [.var 0]) (.lit .i32 1)) (envOf [K.buf]) (memOf K st nx c)
          (ofBool (decide ((x.toNat : Int) = 1))) (envOf [K.buf]) (memOf K st nx c) :=
        .bin (.call1 (ev_buf K (env0 K)) (call_byte K hb)) .lit (bin_eq (ta := .u8) (tb := .i32) (conv_i32 (by omega) (by omega)) rfl)
      by_cases h1 : x = 1
      · rw [if_pos h1] at hr
        cases hr
        subst h1
        refine ⟨⟨⟨by simp only; omega, hl⟩, Nat.le_add_right _ _⟩, trivial, .of (fun _ _ => bind_ptr1)
          (.ite (ev_atEnd K (env0 K) hg) (truth_neg h) (.ite h2 (truth_pos rfl)
            (.ite (ev_noRoom K (env0 K) hg (k := 1) .lit (by omega)) (truth_neg (by omega))
              (.cons (.expr (.call (.cons (ev_buf K (env0 K)) (.one .lit)) (call_update K 1 .i32 (by omega) (by omega)))) (.ret .lit))))) (res_int K rfl)⟩
      · rw [if_neg h1] at hr
        cases hr
        have h3 : ¬ ((x.toNat : Int) = 1) := fun h => h1 (UInt8.toNat.inj (by rw [show x.toNat = 1 by omega]; rfl))
        exact ⟨⟨hg, Nat.le_refl _⟩, trivial, .of (fun _ _ => bind_ptr1)
          (.ite (ev_atEnd K (env0 K) hg) (truth_neg h) (.ite h2 (truth_neg h3) (.ret .lit))) (res_int K rfl)⟩

end Sml.C
