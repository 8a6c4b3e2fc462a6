import Verif.Proofs.SourceWrite

/-!
# `sml_number_write`, `sml_octet_string_write` and `sml_boolean_write`, run from their source
-/

namespace Sml.C

/-- A function that writes something to the buffer. -/
abbrev WriteSpec (f : Fn) (w : Addr → P Unit) : Prop :=
  ∀ a, FSpec f (fun K => [ptrVal a, K.buf]) anySt (w a) (fun _ => .undef) anyRes

/-- The bytes `bs` at the cursor. -/
abbrev putAt (st : St) (bs : List UInt8) : St :=
  { st with data := st.data.take st.cursor ++ bs ++ st.data.drop (st.cursor + bs.length) }

theorem putAt_length (h : st.cursor + bs.length ≤ st.data.length) : (putAt st bs).data.length = st.data.length := by
  simp only [List.length_append, List.length_take, List.length_drop]
  omega

theorem storeBytes_arr (K : Ctx) {bs : List UInt8} (h : st.cursor + bs.length ≤ st.data.length) :
    storeBytes (.ptr (.heap K.A) st.cursor) bs env (memOf K st nx c) = .ok () env (memOf K (putAt st bs) nx c) := by
  by_cases h0 : bs = []
  · subst h0
    rw [storeBytes_nil]
    simp [putAt]
  · refine storeBytes_raw (getBlock_arr K) h0 (by simpa using h) (setBlock_arr K ?_ (putAt_length h) rfl rfl rfl)
    simp only [List.map_append, List.map_take, List.map_drop]

theorem swap_arr (K : Ctx) {bs : List UInt8} (t : ITy) (h : st.cursor + bs.length ≤ st.data.length) (h0 : bs ≠ []) (hl : bs.length < 2147483648) :
    CallTo .sml_number_byte_swap [.ptr (.heap K.A) st.cursor, .int t bs.length] (memOf K (putAt st bs) nx c) .undef (memOf K (putAt st bs.reverse) nx c) := by
  have hm : (memOf K (putAt st bs) nx c).heap K.A = some (.raw ((st.data.take st.cursor).map some ++ bs.map some ++ (st.data.drop (st.cursor + bs.length)).map some)) := by
    simp [memOf, K.hAB]
  have r := call_byteSwap (m := memOf K (putAt st bs) nx c) (pre := (st.data.take st.cursor).map some) t K.hA hm h0 hl
  have hlen : ((st.data.take st.cursor).map some).length = st.cursor := by
    simp only [List.length_map, List.length_take]
    omega
  rw [hlen] at r
  have e := setBlock_arr K (env := envOf []) (st := putAt st bs) (st' := putAt st bs.reverse) (nx := nx) (c := c)
    (b := .raw ((st.data.take st.cursor).map some ++ bs.reverse.map some ++ (st.data.drop (st.cursor + bs.length)).map some))
    (by simp only [List.map_append, List.length_reverse]) (by rw [putAt_length h, putAt_length (by simpa using h)]) rfl rfl rfl
  replace e := setBlock_heap.symm.trans e
  injection e with _ _ e'
  rw [e'] at r
  exact r

theorem leBytes_snoc : (n v : Nat) → leBytes (n + 1) v = leBytes n v ++ [UInt8.ofNat (v / 256 ^ n)]
  | 0, v => by simp [leBytes]
  | n + 1, v => by
    rw [leBytes, leBytes_snoc n (v / 256), leBytes, List.cons_append, Nat.div_div_eq_div_mul, Nat.pow_succ, Nat.mul_comm 256]

theorem leBytes_take (s : Nat) : (n v : Nat) → s ≤ n → (leBytes n v).take s = leBytes s v
  | 0, v, h => by
    obtain rfl : s = 0 := by omega
    rfl
  | n + 1, v, h => by
    by_cases hs : s = n + 1
    · subst hs
      rw [List.take_of_length_le (by rw [leBytes_length]; omega)]
    · rw [leBytes_snoc, List.take_append_of_le_length (by rw [leBytes_length]; omega)]
      exact leBytes_take s n v (by omega)

theorem leBytes_reverse : (n v : Nat) → (leBytes n v).reverse = beBytes n v
  | 0, _ => rfl
  | n + 1, v => by
    rw [leBytes_snoc, List.reverse_append, leBytes_reverse n v, beBytes]
    rfl

theorem putBytes_eq_ok (hr : putBytes bs st = .ok u st') :
    st.cursor + bs.length ≤ st.data.length ∧ st' = { putAt st bs with cursor := st.cursor + bs.length } := by
  unfold putBytes at hr
  split at hr
  · cases hr
    exact ⟨‹_›, rfl⟩
  · cases hr

theorem readNum_eq_ok (hr : readNum a st h = .ok n st' h') : a ≠ 0 ∧ st' = st ∧ h' = h ∧ h.cells a = some (.num n) := by
  unfold readNum at hr
  obtain ⟨c, s2, h2, e3, e4⟩ := P_bind_eq_ok hr
  obtain ⟨ha, hc, rfl, rfl⟩ := deref_ok e3
  cases c with
  | num n' =>
    cases e4
    exact ⟨ha, rfl, rfl, hc⟩
  | _ => cases e4

theorem ev_null0 (h : env x = ptrVal a) : EvalTo (.bin .eq (.var x) .null) env m (ofBool (decide (a = 0))) env m := by
  refine .bin (.ptr h) .null ?_
  simp only [binOp, nullPtr, X_pure, Loc.heap.injEq, and_true]

/-- `if (p == 0) { sml_buf_optional_write(buf); return; }` -/
theorem optional_run {x y : Nat} (hi : Inv K st h) (hx : env x = ptrVal a) (hy : env y = K.buf) (ha : a = 0) (hr : lift optionalWrite st h = .ok u st' h') :
    Inv K st' h' ∧ RunTo body (.ite (.bin .eq (.var x) .null) [.expr (.call .sml_buf_optional_write [.var y]), .retVoid] [] :: ss) env (conc K st h) .undef (conc K st' h') := by
  have hr' := lift_eq_ok hr
  obtain ⟨e, rfl⟩ := hr'
  obtain ⟨⟨g, l⟩, _, r⟩ := optionalWrite_src K st h'.next (K.blocks h') hi.good trivial _ _ e
  exact ⟨hi.of_good g l, .ite (b := true) (ev_null0 hx) (truth_pos ha) (.cons (.expr (.call1 (ev_buf K hy) r)) .retVoid)⟩

theorem numberWrite_src {type size : Nat} (t1 t2 : ITy) (ht : type < 256) (hs : size < 2147483647) (a : Addr) :
    FSpec .sml_number_write (fun K => [ptrVal a, .int t1 type, .int t2 size, K.buf]) anySt (pNumberWrite type size a) (fun _ => .undef) anyRes := by
  intro K st h hi _ b st' h' hr
  have hb : ∀ env m, bindArgs [none, some .u8, some .i32, none] [ptrVal a, .int t1 type, .int t2 size, K.buf] env m =
      .ok [ptrVal a, .int .u8 type, .int .i32 size, K.buf] env m := by
    intro env m
    simp only [bindArgs, convTo, asInt, X_bind, X_pure]
    rw [conv_i32 (by omega) (by omega), conv_u8 (by omega) (by omega)]
  suffices hs : Inv K st' h' ∧ RunTo (program .sml_number_write).body (program .sml_number_write).body (envOf [ptrVal a, .int .u8 type, .int .i32 size, K.buf])
      (conc K st h) .undef (conc K st' h') by
    exact ⟨hs.1, trivial, CallTo.of hb hs.2 (res_void K)⟩
  generalize hE : envOf [ptrVal a, .int .u8 type, .int .i32 size, K.buf] = E
  have E0 : E 0 = ptrVal a := by subst hE; rfl
  have E1 : E 1 = .int .u8 type := by subst hE; rfl
  have E2 : E 2 = .int .i32 size := by subst hE; rfl
  have E3 : E 3 = K.buf := by subst hE; rfl
  unfold pNumberWrite at hr
  by_cases ha : a = 0
  · rw [if_pos ha] at hr
    exact optional_run hi E0 E3 ha hr
  rw [if_neg ha] at hr
  replace hr := P_bind_eq_ok hr
  obtain ⟨_, s1, h1, e1, hr⟩ := hr
  replace e1 := lift_eq_ok e1
  obtain ⟨e1, rfl⟩ := e1
  obtain ⟨⟨g1, l1⟩, _, c1⟩ := setTypeAndLength_src .u8 .i32 ht (by omega) K st h1.next (K.blocks h1) hi.good trivial _ _ e1
  have i1 := hi.of_good g1 l1
  by_cases h0 : size = 0
  · rw [if_pos h0] at hr
    cases hr
  rw [if_neg h0] at hr
  replace hr := P_bind_eq_ok hr
  obtain ⟨n, s2, h2, e2, hr⟩ := hr
  obtain ⟨_, rfl, rfl, hc⟩ := readNum_eq_ok e2
  by_cases hn : size ≤ n.size
  · rw [if_pos hn] at hr
    replace hr := lift_eq_ok hr
    obtain ⟨e3, rfl⟩ := hr
    obtain ⟨hle, rfl⟩ := putBytes_eq_ok e3
    have hlen : (beBytes size n.val).length = size := by rw [← leBytes_reverse, List.length_reverse, leBytes_length]
    have hll : (leBytes size n.val).length = size := leBytes_length ..
    rw [hlen] at hle
    have gl := g1.len
    have hput : putAt s2 (beBytes size n.val) = putAt s2 (leBytes size n.val).reverse := by rw [leBytes_reverse]
    have gd : (putAt s2 (leBytes size n.val).reverse).data.length = s2.data.length := putAt_length (by rw [List.length_reverse, hll]; exact hle)
    have x1 : ExecTo (.expr (.call .sml_buf_set_type_and_length [.var 3, .var 1, .var 2])) E (conc K st h') .next E (conc K s2 h') :=
      .expr (.call (.cons (ev_buf K E3) (.cons (.int E1) (.one (.int E2)))) c1)
    have x2 : ExecTo (.memcpy (.call .sml_buf_get_current_buf [.var 3]) (.var 0) (.var 2)) E (conc K s2 h') .next E (conc K (putAt s2 (leBytes size n.val)) h') := by
      refine .memcpy (k := size) (.call1 (ev_buf K E3) (call_curBuf K)) (.ptr E0) (.int E2) (bs := leBytes size n.val)
        (loadBytes_raw' (getBlock_cell i1 ha hc) ?_ ?_) (storeBytes_arr K (by rw [hll]; exact hle))
      · simp only [List.length_map, leBytes_length]
        omega
      · rw [List.drop_zero, ← List.map_take, leBytes_take _ _ _ hn]
    have x3 : ExecTo (.ite (.not (.bin .eq (.call .sml_number_endian []) (.lit .i32 1))) [
        .expr (.call .sml_number_byte_swap [.call .sml_buf_get_current_buf [.var 3], .var 2])] []) E (conc K (putAt s2 (leBytes size n.val)) h') .next E
        (conc K (putAt s2 (leBytes size n.val).reverse) h') := by
      refine .ite (b := true) (.not (b := false) (.bin (.call .nil (call_endian _)) .lit (bin_eq (ta := .i32) (tb := .i32) rfl rfl)) (truth_neg (by decide))) rfl (.last (.expr (v := .undef) ?_))
      have := swap_arr K (st := s2) (nx := h'.next) (c := K.blocks h') (bs := leBytes size n.val) .i32 (by rw [hll]; exact hle)
        (fun h => h0 (by rw [← hll, h]; rfl)) (by omega)
      rw [hll] at this
      exact .call (.cons (.call1 (ev_buf K E3) (call_curBuf (st := putAt s2 (leBytes size n.val)) K)) (.one (.int E2))) this
    have x4 : ExecTo (.expr (.call .sml_buf_update_bytes_read [.var 3, .var 2])) E (conc K (putAt s2 (leBytes size n.val).reverse) h') .next E
        (conc K { putAt s2 (leBytes size n.val).reverse with cursor := s2.cursor + size } h') :=
      .expr (.call (.cons (ev_buf K E3) (.one (.int E2))) (call_update K (st := putAt s2 (leBytes size n.val).reverse) size .i32 (by omega) (by simp only; omega)))
    rw [hput, hlen]
    refine ⟨i1.of_good (st' := { putAt s2 (leBytes size n.val).reverse with cursor := s2.cursor + size }) ⟨by simp only [gd]; exact hle, by simp only [gd]; exact gl⟩ (Nat.le_add_right _ _), ?_⟩
    exact .ite (b := false) (ev_null0 E0) (truth_neg ha) (.cons x1 (.cons x2 (.cons x3 (.cons x4 .nil))))
  · rw [if_neg hn] at hr
    cases hr

theorem readRaw_eq_ok (hr : readRaw a n st h = .ok bs st' h') :
    a ≠ 0 ∧ st' = st ∧ h' = h ∧ ∃ cs, h.cells a = some (.bytes cs) ∧ n ≤ cs.length ∧ bs = cs.take n := by
  unfold readRaw at hr
  obtain ⟨c, s2, h2, e3, e4⟩ := P_bind_eq_ok hr
  obtain ⟨ha, hc, rfl, rfl⟩ := deref_ok e3
  cases c with
  | bytes cs =>
    simp only at e4
    split at e4
    · cases e4
      exact ⟨ha, rfl, rfl, cs, hc, ‹_›, rfl⟩
    · cases e4
  | _ => cases e4

theorem loadBytes_zero : loadBytes (.ptr l i) 0 env m = .ok [] env m := by
  rw [loadBytes, asPtr, X_bind, X_pure]
  rfl

theorem octetStringWrite_src : WriteSpec .sml_octet_string_write pOctetStringWrite := by
  intro a K st h hi _ b st' h' hr
  suffices hs : Inv K st' h' ∧ RunTo (program .sml_octet_string_write).body (program .sml_octet_string_write).body (envOf [ptrVal a, K.buf])
      (conc K st h) .undef (conc K st' h') by
    exact ⟨hs.1, trivial, CallTo.of (fun _ _ => rfl) hs.2 (res_void K)⟩
  generalize hE : envOf [ptrVal a, K.buf] = E
  have E0 : E 0 = ptrVal a := by subst hE; rfl
  have E1 : E 1 = K.buf := by subst hE; rfl
  unfold pOctetStringWrite at hr
  by_cases ha : a = 0
  · rw [if_pos ha] at hr
    exact optional_run hi E0 E1 ha hr
  rw [if_neg ha] at hr
  replace hr := P_bind_eq_ok hr
  obtain ⟨n, s0, h0, e0, hr⟩ := hr
  have e0' := e0
  obtain ⟨_, rfl, rfl, ps, is, hc, hv⟩ := readInt_eq_ok e0'
  have hn : n ≤ 2147483647 := hi.ints _ _ hc n (List.mem_of_getElem? hv)
  replace hr := P_bind_eq_ok hr
  obtain ⟨_, s1, h1, e1, hr⟩ := hr
  replace e1 := lift_eq_ok e1
  obtain ⟨e1, rfl⟩ := e1
  obtain ⟨⟨g1, l1⟩, _, c1⟩ := setTypeAndLength_src .i32 .u32 (show tyOctet < 256 by decide) (by omega) K s0 h1.next (K.blocks h1) hi.good trivial _ _ e1
  have i1 := hi.of_good g1 l1
  have x1 : ExecTo (.expr (.call .sml_buf_set_type_and_length [.var 1, .lit .i32 0, .cast .u32 (.ldInt .i32 (.var 0) 0)])) E (conc K s0 h1) .next E (conc K s1 h1) := by
    have hcast : EvalTo (.cast .u32 (.ldInt .i32 (.var 0) 0)) E (conc K s0 h1) (.int .u32 (n : Nat)) E (conc K s0 h1) := by
      have := EvalTo.cast (ty := .u32) (EvalTo.ldInt (t := .i32) (.ptr E0) (loadInt_cell (env := E) hi e0))
      rwa [conv_u32 (by omega) (by omega)] at this
    exact .expr (.call (.cons (ev_buf K E1) (.cons .lit (.one hcast))) c1)
  replace hr := P_bind_eq_ok hr
  obtain ⟨bs, s2, h2, e2, hr⟩ := hr
  unfold pOctetBytes at e2
  replace e2 := P_bind_eq_ok e2
  obtain ⟨str, s3, h3, e3, e2⟩ := e2
  have e3' := e3
  obtain ⟨_, rfl, rfl, _⟩ := readPtr_eq_ok e3'
  replace e2 := P_bind_eq_ok e2
  obtain ⟨n', s4, h4, e4, e2⟩ := e2
  have e4' := e4
  obtain ⟨_, rfl, rfl, ps', is', hc', hv'⟩ := readInt_eq_ok e4'
  obtain rfl : n' = n := by
    rw [hc] at hc'
    cases hc'
    rw [hv] at hv'
    cases hv'
    rfl
  obtain ⟨rfl, rfl, hbl, hld⟩ : s2 = s4 ∧ h2 = h4 ∧ bs.length = n' ∧ loadBytes (ptrVal str) n' E (conc K s4 h4) = .ok bs E (conc K s4 h4) := by
    by_cases h0 : n' = 0
    · rw [if_pos h0] at e2
      cases e2
      subst h0
      exact ⟨rfl, rfl, rfl, loadBytes_zero⟩
    · rw [if_neg h0] at e2
      obtain ⟨h5, rfl, rfl, cs, hcs, hle, rfl⟩ := readRaw_eq_ok e2
      refine ⟨rfl, rfl, by simp; omega, loadBytes_raw' (getBlock_cell i1 h5 hcs) (by simpa using hle) ?_⟩
      rw [List.drop_zero, List.map_take]
  replace hr := lift_eq_ok hr
  obtain ⟨e5, rfl⟩ := hr
  obtain ⟨hle, rfl⟩ := putBytes_eq_ok e5
  rw [hbl] at hle
  have gl := g1.len
  have gd : (putAt s2 bs).data.length = s2.data.length := putAt_length (by rw [hbl]; exact hle)
  have x2 : ExecTo (.memcpy (.call .sml_buf_get_current_buf [.var 1]) (.ldPtr (.var 0) 0) (.ldInt .i32 (.var 0) 0)) E (conc K s2 h') .next E (conc K (putAt s2 bs) h') :=
    .memcpy (k := n') (.call1 (ev_buf K E1) (call_curBuf K)) (.ldPtr (.ptr E0) (loadPtr_cell i1 e3)) (.ldInt (.ptr E0) (loadInt_cell i1 e4)) hld
      (storeBytes_arr K (by rw [hbl]; exact hle))
  have i2 : Inv K (putAt s2 bs) h' := i1.of_good ⟨by rw [gd]; simp only; omega, by rw [gd]; exact gl⟩ (Nat.le_refl _)
  have e6 : readInt a 0 (putAt s2 bs) h' = .ok n' (putAt s2 bs) h' := readInt_ok ha hc hv
  have x3 : ExecTo (.stInt .u64 (.var 1) 1 (.bin .add (.ldInt .u64 (.var 1) 1) (.ldInt .i32 (.var 0) 0))) E (conc K (putAt s2 bs) h') .next E
      (conc K { putAt s2 bs with cursor := s2.cursor + n' } h') :=
    ex_advance K E1 (st := putAt s2 bs) (k := n') (t := .i32) (by simp only; omega) (.ldInt (.ptr E0) (loadInt_cell i2 e6)) (.inr rfl)
  rw [hbl]
  refine ⟨i2.of_good (st' := { putAt s2 bs with cursor := s2.cursor + n' }) ⟨by simp only [gd]; exact hle, by simp only [gd]; exact gl⟩ (Nat.le_add_right _ _), ?_⟩
  exact .ite (b := false) (ev_null0 E0) (truth_neg ha) (.cons x1 (.cons x2 (.cons x3 .nil)))

theorem booleanWrite_src : WriteSpec .sml_boolean_write pBooleanWrite := by
  intro a K st h hi _ b st' h' hr
  suffices hs : Inv K st' h' ∧ RunTo (program .sml_boolean_write).body (program .sml_boolean_write).body (envOf [ptrVal a, K.buf])
      (conc K st h) .undef (conc K st' h') by
    exact ⟨hs.1, trivial, CallTo.of (fun _ _ => rfl) hs.2 (res_void K)⟩
  generalize hE : envOf [ptrVal a, K.buf] = E
  have E0 : E 0 = ptrVal a := by subst hE; rfl
  have E1 : E 1 = K.buf := by subst hE; rfl
  unfold pBooleanWrite at hr
  by_cases ha : a = 0
  · rw [if_pos ha] at hr
    exact optional_run hi E0 E1 ha hr
  rw [if_neg ha] at hr
  replace hr := P_bind_eq_ok hr
  obtain ⟨_, s1, h1, e1, hr⟩ := hr
  replace e1 := lift_eq_ok e1
  obtain ⟨e1, rfl⟩ := e1
  obtain ⟨⟨g1, l1⟩, _, c1⟩ := setTypeAndLength_src .i32 .i32 (show tyBoolean < 256 by decide) (show 1 < 4294967296 by decide) K st h1.next (K.blocks h1) hi.good trivial _ _ e1
  have i1 := hi.of_good g1 l1
  replace hr := P_bind_eq_ok hr
  obtain ⟨t, s2, h2, e2, hr⟩ := hr
  obtain ⟨_, rfl, rfl, hc, hsz, hval⟩ := readTag_eq_ok e2
  have x1 : ExecTo (.expr (.call .sml_buf_set_type_and_length [.var 1, .lit .i32 64, .lit .i32 1])) E (conc K st h2) .next E (conc K s2 h2) :=
    .expr (.call (.cons (ev_buf K E1) (.cons .lit (.one .lit))) c1)
  have ev : EvalTo (.bin .eq (.deref .u8 (.var 0)) (.lit .i32 0)) E (conc K s2 h2) (ofBool (decide (((t.val : Nat) : Int) = 0))) E (conc K s2 h2) :=
    .bin (.deref (.ptr E0) (load_tag (ty := .u8) i1 ha hc hsz hval (conv_u8 (by omega) (by omega)))) .lit (bin_eq (ta := .u8) (tb := .i32) (conv_i32 (by omega) (by omega)) rfl)
  by_cases h0 : t.val = 0
  · rw [if_pos h0] at hr
    replace hr := P_bind_eq_ok hr
    obtain ⟨_, s3, h3, e3, hr⟩ := hr
    replace hr := lift_eq_ok hr
    obtain ⟨e4, rfl⟩ := hr
    cases e4
    replace e3 := lift_eq_ok e3
    obtain ⟨e3, rfl⟩ := e3
    obtain ⟨hcur, rfl⟩ := setByte_eq_ok e3
    refine ⟨i1.of_good ⟨by simp only [List.length_set]; exact hcur, by simp only [List.length_set]; exact g1.len⟩ (Nat.le_succ _), ?_⟩
    refine .ite (b := false) (ev_null0 E0) (truth_neg ha) (.cons x1 (.ite (b := true) ev (truth_pos (by omega)) (.cons (ex_setByte K E1 (t := .i32) (w := 0) hcur .lit) (.cons (ex_next K E1 ?_ ?_) .nil))))
    · simpa using hcur
    · simpa using g1.len
  · rw [if_neg h0] at hr
    replace hr := P_bind_eq_ok hr
    obtain ⟨_, s3, h3, e3, hr⟩ := hr
    replace hr := lift_eq_ok hr
    obtain ⟨e4, rfl⟩ := hr
    cases e4
    replace e3 := lift_eq_ok e3
    obtain ⟨e3, rfl⟩ := e3
    obtain ⟨hcur, rfl⟩ := setByte_eq_ok e3
    refine ⟨i1.of_good ⟨by simp only [List.length_set]; exact hcur, by simp only [List.length_set]; exact g1.len⟩ (Nat.le_succ _), ?_⟩
    refine .ite (b := false) (ev_null0 E0) (truth_neg ha) (.cons x1 (.ite (b := false) ev (truth_neg (by omega)) (.cons (ex_setByte K E1 (t := .i32) (w := 255) hcur .lit) (.cons (ex_next K E1 ?_ ?_) .nil))))
    · simpa using hcur
    · simpa using g1.len

end Sml.C
