import Verif.Proofs.SourceRaw

/-!
# The functions for numbers, run from their source
-/

namespace Sml.C

/-! ## Steps of the model -/

theorem lift_eq_ok {m : M α} (hr : lift m st h = .ok a st' h') : m st = .ok a st' ∧ h' = h := by
  unfold lift at hr
  cases e : m st with
  | ub r => rw [e] at hr; cases hr
  | ok b s => rw [e] at hr; cases hr; exact ⟨rfl, rfl⟩

theorem getSt_eq_ok (hr : lift getSt st h = .ok s st' h') : s = st ∧ st' = st ∧ h' = h := by
  cases hr
  exact ⟨rfl, rfl, rfl⟩

theorem setError_eq_ok (hr : lift setError st h = .ok u st' h') : st' = { st with error := true } ∧ h' = h := by
  cases hr
  exact ⟨rfl, rfl⟩

theorem opt_eq_ok (hr : lift optionalIsSkipped st h = .ok c st' h') : h' = h ∧ ∃ t, optCode st = .ok t st' ∧ c = decide (t ≠ 0) := by
  rw [optionalIsSkipped_code] at hr
  obtain ⟨e1, e2⟩ := lift_eq_ok hr
  obtain ⟨t, s, e3, e4⟩ := M.bind_eq_ok e1
  cases e4
  exact ⟨e2, t, e3, rfl⟩

/-! ## A block that was just allocated -/

/-- The heap with one more block. -/
def grown (h : Heap) (c : HCell) : Heap := { next := h.next + 1, cells := setCell h.cells h.next (some c) }

theorem grown_cell : (grown h c).cells h.next = some c := if_pos rfl

theorem setCell_same : setCell (setCell f a x) a y = setCell f a y := by
  funext b
  simp only [setCell]
  split <;> rfl

theorem grown_set : ({ grown h c with cells := setCell (grown h c).cells h.next (some c') } : Heap) = grown h c' := by
  simp only [grown, setCell_same]

theorem Inv.grown (hi : Inv K st h) (hs : Small c) : Inv K st (grown h c) := hi.new c hs

theorem Inv.next_ne (hi : Inv K st h) : h.next ≠ 0 ∧ h.next ≠ K.B ∧ h.next ≠ K.A := by
  have := hi.lB
  have := hi.lA
  exact ⟨by omega, by omega, by omega⟩

theorem conc_grown (hi : Inv K st h) (c : HCell) :
    ({ conc K st h with next := h.next + 1, heap := setHeap (conc K st h).heap h.next (some (enc c)) } : Mem) = conc K st (grown h c) :=
  conc_set hi.next_ne.2.1 hi.next_ne.2.2 (h.next + 1) c

theorem conc_congr (he : enc c = enc c') : conc K st (grown h c) = conc K st (grown h c') := by
  simp only [conc, grown, memOf, Ctx.blocks, setCell]
  congr 1
  funext a
  split
  · rfl
  · split
    · rfl
    · by_cases h3 : a = h.next
      · simp only [if_pos h3, he]
      · simp only [if_neg h3]

theorem getBlock_grown (hi : Inv K st h) (hs : Small c) : getBlock (.heap h.next) env (conc K st (grown h c)) = .ok (enc c) env (conc K st (grown h c)) :=
  getBlock_cell (hi.grown hs) hi.next_ne.1 grown_cell

theorem setBlock_grown (hi : Inv K st h) (hs : Small c) (hb : b = enc c') :
    setBlock (.heap h.next) b env (conc K st (grown h c)) = .ok () env (conc K st (grown h c')) := by
  rw [setBlock_cell (hi.grown hs) grown_cell hb, grown_set]

theorem storeBytes_grown (hi : Inv K st h) {bs cs : List UInt8} (hle : i + cs.length ≤ bs.length) :
    storeBytes (.ptr (.heap h.next) i) cs env (conc K st (grown h (.bytes bs))) =
      .ok () env (conc K st (grown h (.bytes (bs.take i ++ cs ++ bs.drop (i + cs.length))))) := by
  by_cases h0 : cs = []
  · subst h0
    rw [storeBytes_nil]
    simp
  · refine storeBytes_raw (getBlock_grown hi trivial) h0 (by simpa using hle) (setBlock_grown hi trivial ?_)
    simp [enc]

theorem storeByte_grown (hi : Inv K st h) {bs : List UInt8} {b : UInt8} (hle : i < bs.length) :
    storeNum .u8 (.ptr (.heap h.next) i) b.toNat env (conc K st (grown h (.bytes bs))) =
      .ok () env (conc K st (grown h (.bytes (bs.set i b)))) := by
  refine storeByte_raw (getBlock_grown hi trivial) (by simpa using hle) (setBlock_grown hi trivial ?_)
  simp [enc]

/-- `calloc` in two steps. -/
theorem malloc_zero (hi : Inv K st h) {n : Nat} (h7 : upd env x (ptrVal h.next) y = .int t n) (h8 : env y = .int t n) :
    ExecsTo [.setPtr x (.mallocBytes (.var y)), .memset (.var x) (.lit .i32 0) (.var y)] env (conc K st h) .next
      (upd env x (ptrVal h.next)) (conc K st (grown h (.bytes (List.replicate n 0)))) := by
  let m1 : Mem := { conc K st h with next := h.next + 1, heap := setHeap (conc K st h).heap h.next (some (.raw (List.replicate n none))) }
  have x1 : ExecTo (.setPtr x (.mallocBytes (.var y))) env (conc K st h) .next (upd env x (ptrVal h.next)) m1 := .setPtr (.mallocBytes (.int h8))
  have hz := hi.next_ne.1
  refine .cons x1 (.last (.memset (.ptr (upd_same ..)) .lit (.int h7) ?_))
  by_cases h0 : n = 0
  · subst h0
    rw [List.replicate_zero, storeBytes_nil, ← conc_grown hi]
    rfl
  · refine storeBytes_raw (bs := List.replicate n none) (getBlock_heap hi.next_ne.1 (if_pos rfl)) (by cases n <;> simp at h0 ⊢) (by simp) ?_
    rw [setBlock_heap, ← conc_grown hi]
    simp only [m1, enc, List.take_zero, List.nil_append, List.length_replicate, Nat.zero_add, List.drop_replicate, Nat.sub_self, List.replicate_zero, List.append_nil]
    congr 2
    funext a
    simp only [setHeap]
    split <;> rfl

/-! ## Byte order -/

theorem leBytes_zero (n : Nat) : leBytes n 0 = List.replicate n 0 := by
  induction n with
  | zero => rfl
  | succ n ih =>
    rw [leBytes, Nat.zero_div, ih]
    rfl

theorem beNat_snoc (bs : List UInt8) (b : UInt8) : beNat (bs ++ [b]) = beNat bs * 256 + b.toNat := by
  simp only [beNat, List.foldl_append, List.foldl_cons, List.foldl_nil]

theorem leBytes_rev (r : List UInt8) : leBytes r.length (beNat r.reverse) = r := by
  induction r with
  | nil => rfl
  | cons b r ih =>
    have hb := UInt8.toNat_lt b
    rw [List.reverse_cons, beNat_snoc, List.length_cons, leBytes, show (beNat r.reverse * 256 + b.toNat) / 256 = beNat r.reverse by omega, ih]
    congr 1
    apply UInt8.toNat.inj
    rw [UInt8.toNat_ofNat']
    omega

theorem leBytes_beNat (bs : List UInt8) : leBytes bs.length (beNat bs) = bs.reverse := by
  have := leBytes_rev bs.reverse
  rwa [List.reverse_reverse, List.length_reverse] at this

/-- After the bytes are swapped, they are those of the number. -/
theorem call_swapped (hi : Inv K st h) {bs : List UInt8} (t : ITy) (h0 : bs ≠ []) (hl : bs.length < 2147483648) :
    CallTo .sml_number_byte_swap [ptrVal h.next, .int t bs.length] (conc K st (grown h (.bytes bs))) .undef
      (conc K st (grown h (.num { size := bs.length, val := beNat bs }))) := by
  have hm : (conc K st (grown h (.bytes bs))).heap h.next = some (.raw ([] ++ bs.map some ++ [])) := by
    simp only [conc, memOf, Ctx.blocks, hi.next_ne.2.1, hi.next_ne.2.2, if_false, grown_cell, enc, List.nil_append, List.append_nil]
  have := call_byteSwap (pre := []) (post := []) t hi.next_ne.1 hm h0 hl
  rw [List.nil_append, List.append_nil] at this
  have he : enc (.num { size := bs.length, val := beNat bs }) = .raw (bs.reverse.map some) := by
    simp only [enc, leBytes_beNat]
  rw [← he] at this
  have h2 := conc_set (K := K) (st := st) (h := grown h (.bytes bs)) hi.next_ne.2.1 hi.next_ne.2.2 (h.next + 1) (.num { size := bs.length, val := beNat bs })
  rw [show ({ next := h.next + 1, cells := setCell (grown h (.bytes bs)).cells h.next (some (.num { size := bs.length, val := beNat bs })) } : Heap) =
    grown h (.num { size := bs.length, val := beNat bs }) from grown_set] at h2
  rw [← h2]
  exact this

/-! ## Filling -/

theorem fill_loop (hi : Inv K st h) {bs : List UInt8} {n : Nat} (hn : n ≤ bs.length) (hl : n < 2147483648) (h7 : env 7 = ptrVal h.next) (h8 : env 8 = .int .i32 n)
    (k : Nat) : ∀ i, i + k = n → LoopTo (.bin .lt (.var 4) (.var 8)) [.stByte .u8 (.var 7) (.var 4) (.lit .i32 255)] [.set .i32 4 (.bin .add (.var 4) (.lit .i32 1))]
      (upd env 4 (.int .i32 i)) (conc K st (grown h (.bytes (List.replicate i 255 ++ bs.drop i)))) .next
      (upd env 4 (.int .i32 n)) (conc K st (grown h (.bytes (List.replicate n 255 ++ bs.drop n)))) := by
  induction k with
  | zero =>
    intro i hi'
    obtain rfl : i = n := by omega
    exact .done (.bin (.int (upd_same ..)) (.int h8) (bin_lt (ta := .i32) (tb := .i32) (conv_i32 (by omega) (by omega)) (conv_i32 (by omega) (by omega)))) (truth_neg (by omega))
  | succ k ih =>
    intro i hi'
    have y : ∀ m, EvalTo (.bin .add (.var 4) (.lit .i32 1)) (upd env 4 (.int .i32 i)) m (.int .i32 (i + 1 : Nat)) (upd env 4 (.int .i32 i)) m := by
      intro m
      refine .bin (.int (upd_same ..)) .lit ?_
      rw [bin_add (ta := .i32) (tb := .i32) (conv_i32 (by omega) (by omega)) rfl]
      exact arith_i32 (by omega) (by omega)
    have z : ∀ m, ExecTo (.set .i32 4 (.bin .add (.var 4) (.lit .i32 1))) (upd env 4 (.int .i32 i)) m .next (upd env 4 (.int .i32 (i + 1 : Nat))) m := by
      intro m
      have : upd env 4 (.int .i32 (i + 1 : Nat)) = upd (upd env 4 (.int .i32 i)) 4 (.int .i32 (i + 1 : Nat)) := by
        funext x
        simp only [upd]
        split <;> rfl
      rw [this]
      exact .set (y m) (conv_i32 (by omega) (by omega))
    have w : ExecTo (.stByte .u8 (.var 7) (.var 4) (.lit .i32 255)) (upd env 4 (.int .i32 i)) (conc K st (grown h (.bytes (List.replicate i 255 ++ bs.drop i)))) .next
        (upd env 4 (.int .i32 i)) (conc K st (grown h (.bytes (List.replicate (i + 1) 255 ++ bs.drop (i + 1))))) := by
      have e : (List.replicate i 255 ++ bs.drop i).set i (255 : UInt8) = List.replicate (i + 1) 255 ++ bs.drop (i + 1) := by
        rw [List.set_append_right _ _ (by simp), List.length_replicate, Nat.sub_self, List.drop_eq_getElem_cons (by omega), List.set_cons_zero,
          List.replicate_succ', List.append_assoc]
        rfl
      rw [← e]
      refine .stByte .lit (.ptr (l := .heap h.next) (i := 0) h7) (.int (upd_same ..)) (offset_ok _ _ _) ?_
      rw [Nat.zero_add]
      exact storeByte_grown (b := 255) hi (by simp; omega)
    exact .round (.bin (.int (upd_same ..)) (.int h8) (bin_lt (ta := .i32) (tb := .i32) (conv_i32 (by omega) (by omega)) (conv_i32 (by omega) (by omega))))
      (truth_pos (by omega)) (.last w) (.last (z _)) (ih (i + 1) (by omega))

/-! ## Numbers -/

theorem bin_lt_i32 {a b : Int} (h0 : -2147483648 ≤ a ∧ a < 2147483648) (h1 : -2147483648 ≤ b ∧ b < 2147483648) :
    binOp .lt (.int .i32 a) (.int .i32 b) env m = .ok (ofBool (decide (a < b))) env m :=
  bin_lt (ta := .i32) (tb := .i32) (conv_i32 h0.1 h0.2) (conv_i32 h1.1 h1.2)

theorem bin_gt_i32 {a b : Int} (h0 : -2147483648 ≤ a ∧ a < 2147483648) (h1 : -2147483648 ≤ b ∧ b < 2147483648) :
    binOp .gt (.int .i32 a) (.int .i32 b) env m = .ok (ofBool (decide (a > b))) env m :=
  bin_gt (ta := .i32) (tb := .i32) (conv_i32 h0.1 h0.2) (conv_i32 h1.1 h1.2)

/-- `l < 0 || l > max` -/
theorem ev_range {l k : Int} (h0 : -2147483648 ≤ l ∧ l < 2147483648) (h1 : -2147483648 ≤ k ∧ k < 2147483648) (hx : env x = .int .i32 l)
    (hy : env y = .int .i32 k) :
    EvalTo (.or (.bin .lt (.var x) (.lit .i32 0)) (.bin .gt (.var x) (.var y))) env m (ofBool (decide (l < 0 ∨ l > k))) env m := by
  have c1 : EvalTo (.bin .lt (.var x) (.lit .i32 0)) env m (ofBool (decide (l < 0))) env m := .bin (.int hx) .lit (bin_lt_i32 h0 (by omega))
  by_cases h : l < 0
  · rw [decide_eq_true (show l < 0 ∨ l > k from .inl h)]
    exact .or_t c1 (truth_pos h)
  · rw [show decide (l < 0 ∨ l > k) = decide (l > k) by simp [h]]
    exact .or_f c1 (truth_neg h) (.bin (.int hx) (.int hy) (bin_gt_i32 h0 h1)) (truth_ofBool _)

/-- A failed `if`: the error is set, and `NULL` is returned. -/
theorem run_fail (K : Ctx) {env : Env} (h : env 0 = K.buf) :
    RunTo body ([.stInt .i32 (.var 0) 2 (.lit .i32 1), .ret .null] ++ ss) env (memOf K st nx c) nullPtr (memOf K { st with error := true } nx c) :=
  .cons (ex_error K h) (.ret .null)

theorem band_ne (b : UInt8) : decide (((b.toNat &&& 128 : Nat) : Int) ≠ 0) = decide (b &&& 128 ≠ 0) := by
  have h : (b &&& 128).toNat = b.toNat &&& 128 := UInt8.toNat_and ..
  by_cases h1 : b &&& 128 = 0
  · rw [← h, h1]
    rfl
  · have h2 : (b &&& 128).toNat ≠ 0 := fun h => h1 (UInt8.toNat.inj h)
    rw [h] at h2
    rw [decide_eq_true h1, decide_eq_true]
    omega

theorem numberParse_src {type max : Nat} (ta tb : ITy) (ht : type < 256) (h1 : 1 ≤ max) (h2 : max ≤ 127) :
    FSpec .sml_number_parse (fun K => [K.buf, .int ta type, .int tb max]) anySt (pNumberParse type max) ptrVal anyRes := by
  intro K st h hi _ r st' h' hr
  have hb : ∀ env m, bindArgs [none, some .u8, some .i32] [K.buf, .int ta type, .int tb max] env m = .ok [K.buf, .int .u8 type, .int .i32 max] env m := by
    intro env m
    simp only [bindArgs, convTo, asInt, X_bind, X_pure]
    rw [conv_i32 (by omega) (by omega), conv_u8 (by omega) (by omega)]
  let E0 := envOf [K.buf, .int .u8 type, .int .i32 max]
  suffices hs : Inv K st' h' ∧ RunTo (program .sml_number_parse).body (program .sml_number_parse).body E0 (conc K st h) (ptrVal r) (conc K st' h') by
    exact ⟨hs.1, trivial, CallTo.of hb hs.2 (res_void K)⟩
  unfold pNumberParse at hr
  replace hr := P_bind_eq_ok hr
  obtain ⟨skip, st1, h1', e1, hr⟩ := hr
  obtain ⟨rfl, t, e2, rfl⟩ := opt_eq_ok e1
  obtain ⟨⟨g1, m1⟩, _, c1⟩ := optCode_src K st h1'.next _ hi.good trivial t st1 e2
  have hi1 : Inv K st1 h1' := hi.of_good g1 m1
  have x1 : EvalTo (.call .sml_buf_optional_is_skipped [.var 0]) E0 (conc K st h1') (.int .i32 t) E0 (conc K st1 h1') := .call1 (ev_buf K (by rfl)) c1
  by_cases ht0 : t ≠ 0
  · rw [if_pos (decide_eq_true ht0)] at hr
    cases hr
    exact ⟨hi1, .ite x1 (b := true) (by rw [truth, decide_eq_true ht0]; rfl) (.ret .null)⟩
  rw [if_neg (by simpa using ht0)] at hr
  have t0 : t = 0 := by omega
  subst t0
  suffices hs : Inv K st' h' ∧ RunTo (program .sml_number_parse).body ((program .sml_number_parse).body.drop 1) E0 (conc K st1 h1') (ptrVal r) (conc K st' h') by
    exact ⟨hs.1, .ite x1 (b := false) rfl hs.2⟩
  let E1 := upd E0 6 (.int .i16 0)
  have hl := g1.len
  have hc := g1.cur
  suffices hs : Inv K st' h' ∧ RunTo (program .sml_number_parse).body ((program .sml_number_parse).body.drop 2) E1 (conc K st1 h1') (ptrVal r) (conc K st' h') by
    exact ⟨hs.1, .cons (.set .lit rfl) hs.2⟩
  replace hr := P_bind_eq_ok hr
  obtain ⟨s, s1, h3, e3, hr⟩ := hr
  obtain ⟨rfl, rfl, rfl⟩ := getSt_eq_ok e3
  have x2 : ∀ env, env 0 = K.buf → EvalTo (.bin .gt (.bin .add (.ldInt .u64 (.var 0) 1) (.lit .i32 1)) (.ldInt .u64 (.var 0) 0)) env (conc K s1 h3)
      (ofBool (decide (s1.cursor + 1 > s1.data.length))) env (conc K s1 h3) := fun env h0 => ev_noRoom K h0 g1 (k := 1) .lit (by omega)
  by_cases hd : s1.cursor + 1 > s1.data.length
  · rw [if_pos hd] at hr
    replace hr := P_bind_eq_ok hr
    obtain ⟨_, s2, h4, e4, hr⟩ := hr
    obtain ⟨rfl, rfl⟩ := setError_eq_ok e4
    cases hr
    exact ⟨hi1.of_good ⟨hc, hl⟩ (Nat.le_refl _), .ite (x2 E1 rfl) (truth_pos hd) (run_fail K (by rfl))⟩
  rw [if_neg hd] at hr
  suffices hs : Inv K st' h' ∧ RunTo (program .sml_number_parse).body ((program .sml_number_parse).body.drop 3) E1 (conc K s1 h3) (ptrVal r) (conc K st' h') by
    exact ⟨hs.1, .ite (x2 E1 rfl) (truth_neg hd) hs.2⟩
  replace hr := P_bind_eq_ok hr
  obtain ⟨ty, s2, h4, e4, hr⟩ := hr
  replace e4 := lift_eq_ok e4
  obtain ⟨e4, rfl⟩ := e4
  obtain ⟨⟨g2, m2⟩, hty, c2⟩ := getNextType_src K s1 h4.next _ g1 trivial ty s2 e4
  have x3 : EvalTo (.bin .ne (.call .sml_buf_get_next_type [.var 0]) (.var 1)) E1 (conc K s1 h4) (ofBool (decide ((ty : Int) ≠ type))) E1 (conc K s2 h4) :=
    .bin (.call1 (ev_buf K (by rfl)) c2) (.int (t := .u8) (n := type) (by rfl)) (bin_ne (ta := .i32) (tb := .u8) (conv_i32 (by omega) (by omega)) (conv_i32 (by omega) (by omega)))
  have hi2 : Inv K s2 h4 := hi1.of_good g2 m2
  by_cases hne : ty ≠ type
  · rw [if_pos hne] at hr
    replace hr := P_bind_eq_ok hr
    obtain ⟨_, s3, h5, e5, hr⟩ := hr
    obtain ⟨rfl, rfl⟩ := setError_eq_ok e5
    cases hr
    exact ⟨hi2.of_good ⟨g2.cur, g2.len⟩ (Nat.le_refl _), .ite x3 (truth_pos (by omega)) (run_fail K (by rfl))⟩
  rw [if_neg hne] at hr
  suffices hs : Inv K st' h' ∧ RunTo (program .sml_number_parse).body ((program .sml_number_parse).body.drop 4) E1 (conc K s2 h4) (ptrVal r) (conc K st' h') by
    exact ⟨hs.1, .ite x3 (truth_neg (by omega)) hs.2⟩
  replace hr := P_bind_eq_ok hr
  obtain ⟨l, s3, h5, e5, hr⟩ := hr
  replace e5 := lift_eq_ok e5
  obtain ⟨e5, rfl⟩ := e5
  obtain ⟨⟨g3, m3⟩, hlr, c3⟩ := getNextLength_src K s2 h5.next _ g2 trivial l s3 e5
  have hi3 : Inv K s3 h5 := hi2.of_good g3 m3
  let E2 := upd E1 3 (.int .i32 l)
  have x4 : ExecTo (.set .i32 3 (.call .sml_buf_get_next_length [.var 0])) E1 (conc K s2 h5) .next E2 (conc K s3 h5) :=
    .set (.call1 (ev_buf K (by rfl)) c3) (conv_i32 hlr.1 hlr.2)
  have x5 : EvalTo (.or (.bin .lt (.var 3) (.lit .i32 0)) (.bin .gt (.var 3) (.var 2))) E2 (conc K s3 h5) (ofBool (decide (l < 0 ∨ l > (max : Int)))) E2 (conc K s3 h5) :=
    ev_range hlr (by omega) (by rfl) (by rfl)
  by_cases hrange : l < 0 ∨ l > (max : Int)
  · rw [if_pos hrange] at hr
    replace hr := P_bind_eq_ok hr
    obtain ⟨_, s4, h6, e6, hr⟩ := hr
    obtain ⟨rfl, rfl⟩ := setError_eq_ok e6
    cases hr
    exact ⟨hi3.of_good ⟨g3.cur, g3.len⟩ (Nat.le_refl _), .cons x4 (.ite x5 (truth_pos hrange) (run_fail K (by rfl)))⟩
  rw [if_neg hrange] at hr
  simp only at hr
  obtain ⟨k, rfl⟩ : ∃ k : Nat, l = k := ⟨l.toNat, by omega⟩
  rw [Int.toNat_natCast] at hr
  let E3 := upd E2 7 (ptrVal h5.next)
  replace hr := P_bind_eq_ok hr
  obtain ⟨np, s4, h6, e6, hr⟩ := hr
  obtain ⟨rfl, rfl, rfl⟩ : np = h5.next ∧ s4 = s3 ∧ h6 = grown h5 (.num { size := max, val := 0 }) := by cases e6; exact ⟨rfl, rfl, rfl⟩
  have hz : enc (.num { size := max, val := 0 }) = enc (.bytes (List.replicate max 0)) := by simp only [enc, leBytes_zero]
  have x6 := malloc_zero (K := K) (st := s4) (h := h5) (env := E2) (x := 7) (y := 2) (t := .i32) (n := max) hi3 (by rfl) (by rfl)
  have hig : Inv K s4 (grown h5 (.num { size := max, val := 0 })) := hi3.grown trivial
  suffices hs : Inv K st' h' ∧ RunTo (program .sml_number_parse).body ((program .sml_number_parse).body.drop 8) E3 (conc K s4 (grown h5 (.bytes (List.replicate max 0)))) (ptrVal r) (conc K st' h') by
    exact ⟨hs.1, .cons x4 (.ite x5 (truth_neg hrange) (RunTo.append (A := [.setPtr 7 (.mallocBytes (.var 2)), .memset (.var 7) (.lit .i32 0) (.var 2)]) x6 hs.2))⟩
  change (P.bind _ _) s4 (grown h5 (.num { size := max, val := 0 })) = _ at hr
  replace hr := P_bind_eq_ok hr
  obtain ⟨s, s5, h7, e7, hr⟩ := hr
  obtain ⟨rfl, rfl, rfl⟩ := getSt_eq_ok e7
  have fail : ∀ ss, (do lift setError; free h5.next; pure 0 : P Addr) s5 (grown h5 (.num { size := max, val := 0 })) = .ok r st' h' →
      Inv K st' h' ∧ RunTo (program .sml_number_parse).body ([.stInt .i32 (.var 0) 2 (.lit .i32 1), .free (.var 7), .ret .null] ++ ss) E3
        (conc K s5 (grown h5 (.bytes (List.replicate max 0)))) (ptrVal r) (conc K st' h') := by
    intro ss hr
    replace hr := P_bind_eq_ok hr
    obtain ⟨_, s6, h8, e8, hr⟩ := hr
    obtain ⟨rfl, rfl⟩ := setError_eq_ok e8
    replace hr := P_bind_eq_ok hr
    obtain ⟨_, s7, h9, e9, hr⟩ := hr
    cases hr
    obtain ⟨f1, f2⟩ := free_cell (env := E3) (hig.of_good (st' := { s5 with error := true }) ⟨g3.cur, g3.len⟩ (Nat.le_refl _)) e9
    rw [← conc_congr hz]
    exact ⟨f2, .cons (ex_error K (by rfl)) (.cons (.free (.ptr (by rfl)) f1) (.ret .null))⟩
  rw [← conc_congr hz]
  have x7 : EvalTo (.bin .gt (.bin .add (.ldInt .u64 (.var 0) 1) (.var 3)) (.ldInt .u64 (.var 0) 0)) E3 (conc K s5 (grown h5 (.num { size := max, val := 0 })))
      (ofBool (decide (s5.cursor + k > s5.data.length))) E3 (conc K s5 (grown h5 (.num { size := max, val := 0 }))) :=
    ev_noRoom K (by rfl) g3 (.int (by rfl)) (by omega)
  have x8 : EvalTo (.bin .gt (.bin .add (.ldInt .u64 (.var 0) 1) (.lit .i32 1)) (.ldInt .u64 (.var 0) 0)) E3 (conc K s5 (grown h5 (.num { size := max, val := 0 })))
      (ofBool (decide (s5.cursor + 1 > s5.data.length))) E3 (conc K s5 (grown h5 (.num { size := max, val := 0 }))) :=
    ev_noRoom K (by rfl) g3 (k := 1) .lit (by omega)
  by_cases hk1 : s5.cursor + k > s5.data.length
  · rw [if_pos hk1] at hr
    have := fail ((program .sml_number_parse).body.drop 9) hr
    rw [← conc_congr hz] at this
    exact ⟨this.1, .ite x7 (truth_pos hk1) this.2⟩
  rw [if_neg hk1] at hr
  by_cases hk2 : s5.cursor + 1 > s5.data.length
  · rw [if_pos hk2] at hr
    have := fail ((program .sml_number_parse).body.drop 10) hr
    rw [← conc_congr hz] at this
    exact ⟨this.1, .ite x7 (truth_neg hk1) (.ite x8 (truth_pos hk2) this.2)⟩
  rw [if_neg hk2] at hr
  suffices hs : Inv K st' h' ∧ RunTo (program .sml_number_parse).body ((program .sml_number_parse).body.drop 10) E3 (conc K s5 (grown h5 (.bytes (List.replicate max 0)))) (ptrVal r) (conc K st' h') by
    refine ⟨hs.1, .ite x7 (truth_neg hk1) (.ite x8 (truth_neg hk2) ?_)⟩
    rw [conc_congr hz]
    exact hs.2
  replace hr := P_bind_eq_ok hr
  obtain ⟨b, s6, h8, e8, hr⟩ := hr
  replace e8 := lift_eq_ok e8
  obtain ⟨e8, rfl⟩ := e8
  obtain ⟨⟨g4, _⟩, hbyte, _⟩ := getCurrentByte_src K s5 0 (fun _ => none) g3 trivial b s6 e8
  have hs6 : s6 = s5 := by
    unfold getCurrentByte at e8
    split at e8 <;> cases e8
    rfl
  subst hs6
  replace hr := P_bind_eq_ok hr
  obtain ⟨bytes, s7, h9, e9, hr⟩ := hr
  replace e9 := lift_eq_ok e9
  obtain ⟨e9, rfl⟩ := e9
  unfold readBytes at e9
  rw [if_pos (by omega)] at e9
  cases e9
  have hbl : ((s6.data.drop s6.cursor).take k).length = k := by simp; omega
  replace hr := P_bind_eq_ok hr
  obtain ⟨_, s8, h10, e10, hr⟩ := hr
  obtain ⟨_, rfl, _, rfl⟩ := store_eq_ok e10
  rw [grown_set] at hr
  replace hr := P_bind_eq_ok hr
  obtain ⟨_, s9, h11, e11, hr⟩ := hr
  replace e11 := lift_eq_ok e11
  obtain ⟨e11, rfl⟩ := e11
  cases e11
  cases hr
  have hbt := UInt8.toNat_lt b
  have hl3 := g3.len
  let neg := decide (type = tyInteger) && decide (b &&& 128 ≠ 0)
  let mem0 := List.replicate (max - k) 0 ++ (s8.data.drop s8.cursor).take k
  let mem := List.replicate (max - k) (if neg then 0xFF else 0x00) ++ (s8.data.drop s8.cursor).take k
  let E4 := upd E3 5 (.int .u8 b.toNat)
  let E5 := upd E4 6 (.int .i16 (if neg then 1 else 0))
  let E6 := upd E5 8 (.int .i32 (max - k : Nat))
  let E7 := if neg then upd E6 4 (.int .i32 (max - k : Nat)) else E6
  have hi6 : Inv K s8 h5 := hi3
  have y1 : ∀ m, m = conc K s8 (grown h5 (.bytes (List.replicate max 0))) → ExecTo (.set .u8 5 (.call .sml_buf_get_current_byte [.var 0])) E3 m .next E4 m := by
    rintro m rfl
    exact .set (.call1 (ev_buf K (by rfl)) (call_byte K hbyte)) (conv_u8 (by omega) (by omega))
  have y2 : ∀ m, ExecTo (.ite (.and (.bin .eq (.var 1) (.lit .i32 80)) (.bin .band (.var 5) (.lit .i32 128))) [.set .i16 6 (.lit .i32 1)] []) E4 m .next E5 m := by
    intro m
    have c1 : EvalTo (.bin .eq (.var 1) (.lit .i32 80)) E4 m (ofBool (decide ((type : Int) = 80))) E4 m :=
      .bin (.int (t := .u8) (n := type) (by rfl)) .lit (bin_eq (ta := .u8) (tb := .i32) (conv_i32 (by omega) (by omega)) rfl)
    have c2 : EvalTo (.bin .band (.var 5) (.lit .i32 128)) E4 m (.int .i32 (b.toNat &&& 128 : Nat)) E4 m :=
      .bin (.int (t := .u8) (n := b.toNat) (by rfl)) .lit (band_i32 hbt 128 (by omega))
    have c3 : EvalTo (.and (.bin .eq (.var 1) (.lit .i32 80)) (.bin .band (.var 5) (.lit .i32 128))) E4 m (ofBool neg) E4 m := by
      by_cases h80 : type = tyInteger
      · have : neg = decide (((b.toNat &&& 128 : Nat) : Int) ≠ 0) := by
          simp only [neg, h80, decide_true, Bool.true_and]
          rw [band_ne]
        rw [this]
        exact .and_t c1 (truth_pos (by rw [h80]; rfl)) c2 rfl
      · have : neg = false := by simp only [neg, h80, decide_false, Bool.false_and]
        rw [this]
        refine .and_f c1 (truth_neg fun h => h80 ?_)
        have : type = 80 := by omega
        exact this
    cases hn : neg with
    | true =>
      rw [hn] at c3
      refine .ite c3 (truth_t rfl) ?_
      have : E5 = upd E4 6 (.int .i16 1) := by simp only [E5, hn, if_true]
      rw [this]
      exact .last (.set .lit rfl)
    | false =>
      rw [hn] at c3
      refine .ite c3 (truth_f rfl) ?_
      have : E5 = E4 := by
        simp only [E5, hn]
        funext x
        simp only [upd]
        split
        · rename_i h; subst h; rfl
        · rfl
      rw [this]
      exact .nil
  have y3 : ∀ m, ExecTo (.set .i32 8 (.bin .sub (.var 2) (.var 3))) E5 m .next E6 m := by
    intro m
    refine .set (t := .i32) (k := (max - k : Nat)) (.bin (.int (t := .i32) (n := max) (by rfl)) (.int (t := .i32) (n := k) (by rfl)) ?_) (conv_i32 (by omega) (by omega))
    rw [bin_sub (ta := .i32) (tb := .i32) (conv_i32 (by omega) (by omega)) (conv_i32 (by omega) (by omega)), show (max : Int) - k = (max - k : Nat) by omega]
    exact arith_i32 (by omega) (by omega)
  have y4 : ExecTo (.memcpy (.addr (.var 7) (.var 8)) (.call .sml_buf_get_current_buf [.var 0]) (.var 3)) E6 (conc K s8 (grown h5 (.bytes (List.replicate max 0)))) .next
      E6 (conc K s8 (grown h5 (.bytes mem0))) := by
    refine .memcpy (k := k) (.addr (.ptr (l := .heap h5.next) (i := 0) (by rfl)) (.int (t := .i32) (n := (max - k : Nat)) (by rfl)) (offset_ok _ _ _)) (.call1 (ev_buf K (by rfl)) (call_curBuf K)) (.int (by rfl))
      (loadBytes_raw' (cs := (s8.data.drop s8.cursor).take k) (getBlock_arr K) (by simp; omega) (by simp)) ?_
    have e1 := storeBytes_grown (env := E6) hi6 (bs := List.replicate max 0) (cs := (s8.data.drop s8.cursor).take k) (i := max - k) (by rw [hbl, List.length_replicate]; omega)
    have : (List.replicate max (0 : UInt8)).take (max - k) ++ (s8.data.drop s8.cursor).take k ++
        (List.replicate max 0).drop (max - k + ((s8.data.drop s8.cursor).take k).length) = mem0 := by
      rw [hbl, List.take_replicate, List.drop_replicate, show max - (max - k + k) = 0 by omega, show min (max - k) max = max - k by omega]
      simp only [mem0, List.replicate_zero, List.append_nil]
    rw [this] at e1
    rw [Nat.zero_add]
    exact e1
  have y5 : ExecTo (.ite (.var 6) [.set .i32 4 (.lit .i32 0), .loop (.bin .lt (.var 4) (.var 8)) [.stByte .u8 (.var 7) (.var 4) (.lit .i32 255)]
        [.set .i32 4 (.bin .add (.var 4) (.lit .i32 1))]] []) E6 (conc K s8 (grown h5 (.bytes mem0))) .next E7 (conc K s8 (grown h5 (.bytes mem))) := by
    have c6 : EvalTo (.var 6) E6 (conc K s8 (grown h5 (.bytes mem0))) (.int .i16 (if neg then 1 else 0)) E6 (conc K s8 (grown h5 (.bytes mem0))) := .int (by rfl)
    cases hn : neg with
    | true =>
      rw [hn] at c6
      refine .ite (b := true) c6 rfl ?_
      have e1 : E7 = upd E6 4 (.int .i32 (max - k : Nat)) := by simp only [E7, hn, if_true]
      have e2 : mem = List.replicate (max - k) 255 ++ mem0.drop (max - k) := by
        simp only [mem, mem0, hn, if_true]
        rw [List.drop_left' (by simp)]
      rw [e1, e2]
      exact .cons (.set .lit rfl) (.last (.loop (fill_loop hi6 (n := max - k) (env := E6) (by simp) (by omega) (by rfl) (by rfl) (max - k) 0 (by omega))))
    | false =>
      rw [hn] at c6
      refine .ite (b := false) c6 rfl ?_
      have e1 : E7 = E6 := by simp only [E7, hn]; rfl
      have e2 : mem = mem0 := by simp only [mem, mem0, hn]; rfl
      rw [e1, e2]
      exact .nil
  have h77 : E7 7 = ptrVal h5.next := by simp only [E7]; split <;> rfl
  have h72 : E7 2 = .int .i32 max := by simp only [E7]; split <;> rfl
  have h70 : E7 0 = K.buf := by simp only [E7]; split <;> rfl
  have h73 : E7 3 = .int .i32 k := by simp only [E7]; split <;> rfl
  have hml : mem.length = max := by simp only [mem, List.length_append, List.length_replicate, hbl]; omega
  have y6 : ExecTo (.ite (.not (.bin .eq (.call .sml_number_endian []) (.lit .i32 1))) [.expr (.call .sml_number_byte_swap [.var 7, .var 2])] []) E7
      (conc K s8 (grown h5 (.bytes mem))) .next E7 (conc K s8 (grown h5 (.num { size := max, val := beNat mem }))) := by
    refine .ite (b := true) (.not (.bin (.call .nil (call_endian _)) .lit (bin_eq (ta := .i32) (tb := .i32) rfl rfl)) (truth_ofBool _)) rfl ?_
    have := call_swapped (K := K) (st := s8) (h := h5) (bs := mem) hi6 .i32 (by intro h; rw [h] at hml; simp at hml; omega) (by omega)
    rw [hml] at this
    exact .last (.expr (.call (.cons (.ptr h77) (.one (.int h72))) this))
  have y7 : ExecTo (.expr (.call .sml_buf_update_bytes_read [.var 0, .var 3])) E7 (conc K s8 (grown h5 (.num { size := max, val := beNat mem }))) .next E7
      (conc K { s8 with cursor := s8.cursor + k } (grown h5 (.num { size := max, val := beNat mem }))) :=
    .expr (.call (.cons (ev_buf K h70) (.one (.int h73))) (call_update K k .i32 (by omega) (by omega)))
  have hg9 : Good { s8 with cursor := s8.cursor + k } := ⟨(by simp only; omega), g3.len⟩
  exact ⟨(hi6.of_good hg9 (Nat.le_add_right _ _)).grown (c := .num { size := max, val := beNat mem }) trivial, .cons (y1 _ rfl) (.cons (y2 _) (.cons (y3 _) (.cons y4 (.cons y5 (.cons y6 (.cons y7 (.ret (.ptr h77))))))))⟩

end Sml.C
