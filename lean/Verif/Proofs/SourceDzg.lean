import Verif.Proofs.SourceTree

/-!
# `detect_buggy_dzg_dvs74` from its source
-/

namespace Sml.C

/-! ## Reads in expressions -/

theorem ev_ldPtr (hi : Inv K st h) (he : EvalTo e env (conc K st h) (ptrVal a) env (conc K st h)) (hr : readPtr a i st h = .ok v st' h') :
    EvalTo (.ldPtr e i) env (conc K st h) (ptrVal v) env (conc K st h) := he.ldPtr (loadPtr_cell hi hr)

theorem ev_ldInt (hi : Inv K st h) (he : EvalTo e env (conc K st h) (ptrVal a) env (conc K st h)) (hr : readInt a i st h = .ok v st' h') :
    EvalTo (.ldInt t e i) env (conc K st h) (.int t v) env (conc K st h) := he.ldInt (loadInt_cell hi hr)

theorem readInt_small (hi : Inv K st h) (hr : readInt a i st h = .ok v st' h') : v ≤ 2147483647 := by
  obtain ⟨_, _, _, ps, is, hc, hv⟩ := readInt_eq_ok hr
  exact hi.ints a _ hc v (List.mem_of_getElem? hv)

theorem readRaw_eq_ok (hr : readRaw a n st h = .ok v st' h') :
    a ≠ 0 ∧ st' = st ∧ h' = h ∧ ∃ bs, h.cells a = some (.bytes bs) ∧ n ≤ bs.length ∧ v = bs.take n := by
  replace hr := P_bind_eq_ok hr
  obtain ⟨c, st1, h1, e1, e2⟩ := hr
  obtain ⟨ha, hc, rfl, rfl⟩ := deref_ok e1
  cases c with
  | bytes bs =>
    simp only at e2
    split at e2
    · cases e2
      exact ⟨ha, rfl, rfl, bs, hc, ‹_›, rfl⟩
    · cases e2
  | _ => cases e2

theorem loadBytes_cell (hi : Inv K st h) (ha : a ≠ 0) (hc : h.cells a = some (.bytes bs)) (hn : i + n ≤ bs.length) :
    loadBytes (.ptr (.heap a) i) n env (conc K st h) = .ok ((bs.drop i).take n) env (conc K st h) :=
  loadBytes_raw (getBlock_cell hi ha hc) hn

theorem cmpBytes_eq : (x y : List UInt8) → x.length = y.length → (cmpBytes x y = 0 ↔ x = y)
  | [], [], _ => by simp [cmpBytes]
  | [], _ :: _, h => by simp at h
  | _ :: _, [], h => by simp at h
  | a :: x, b :: y, h => by
    rw [cmpBytes]
    by_cases hab : a = b
    · rw [if_pos hab, cmpBytes_eq x y (by simpa using h)]
      simp [hab]
    · rw [if_neg hab]
      have : a.toNat ≠ b.toNat := fun e => hab (UInt8.toNat_inj.mp e)
      constructor
      · intro e
        omega
      · intro e
        exact absurd (List.cons.inj e).1 hab

theorem cmpBytes_range : (x y : List UInt8) → -255 ≤ cmpBytes x y ∧ cmpBytes x y ≤ 255
  | [], _ => by simp [cmpBytes]
  | _ :: _, [] => by simp [cmpBytes]
  | a :: x, b :: y => by
    rw [cmpBytes]
    have h1 := UInt8.toNat_lt a
    have h2 := UInt8.toNat_lt b
    split
    · exact cmpBytes_range x y
    · omega

/-- `memcmp` with a constant array, from the bytes of an octet string. -/
theorem ev_memcmp (hi : Inv K st h) (he : EvalTo e env (conc K st h) (ptrVal a) env (conc K st h)) (ha : a ≠ 0) (hc : h.cells a = some (.bytes bs))
    (hn : k ≤ bs.length) (hk : k ≤ tb.length) :
    ∃ z, EvalTo (.memcmpTab e tb (.lit t k)) env (conc K st h) (.int .i32 z) env (conc K st h) ∧
      (z = 0 ↔ bs.take k = (tb.take k).map fun n => UInt8.ofNat n.toNat) ∧ -255 ≤ z ∧ z ≤ 255 := by
  have hl := loadBytes_cell (env := env) hi ha hc (i := 0) (n := k) (by omega)
  rw [List.drop_zero] at hl
  refine ⟨_, EvalTo.memcmpTab he .lit hl hk, cmpBytes_eq _ _ ?_, cmpBytes_range _ _⟩
  simp only [List.length_take, List.length_map]
  omega

theorem ne_i32_u64 {n : Nat} {z : Nat} (hn : n ≤ 2147483647) (hz : z ≤ 2147483647) : binOp .ne (.int .i32 n) (.int .u64 z) env m = .ok (ofBool (decide (n ≠ z))) env m := by
  rw [bin_ne (ta := .i32) (tb := .u64) (conv_u64 (by omega) (by omega)) (conv_u64 (by omega) (by omega))]
  simp only [ne_eq, Int.ofNat_inj]

theorem eq_i32_u64 {n : Nat} {z : Nat} (hn : n ≤ 2147483647) (hz : z ≤ 2147483647) : binOp .eq (.int .i32 n) (.int .u64 z) env m = .ok (ofBool (decide (n = z))) env m := by
  rw [bin_eq (ta := .i32) (tb := .u64) (conv_u64 (by omega) (by omega)) (conv_u64 (by omega) (by omega))]
  simp only [Int.ofNat_inj]

theorem ne_small {ty : ITy} (ht : ty = .u8 ∨ ty = .i32) {n z : Nat} (hn : n ≤ 2147483647) (hz : z ≤ 2147483647) :
    binOp .ne (.int ty n) (.int .i32 z) env m = .ok (ofBool (decide (n ≠ z))) env m := by
  have hu : ITy.usual ty .i32 = .i32 := by rcases ht with rfl | rfl <;> rfl
  rw [bin_ne (ta := ty) (tb := .i32) (by rw [hu]; exact conv_i32 (by omega) (by omega)) (by rw [hu]; exact conv_i32 (by omega) (by omega))]
  simp only [ne_eq, Int.ofNat_inj]

theorem eq_small {ty : ITy} (ht : ty = .u8 ∨ ty = .i32) {n z : Nat} (hn : n ≤ 2147483647) (hz : z ≤ 2147483647) :
    binOp .eq (.int ty n) (.int .i32 z) env m = .ok (ofBool (decide (n = z))) env m := by
  have hu : ITy.usual ty .i32 = .i32 := by rcases ht with rfl | rfl <;> rfl
  rw [bin_eq (ta := ty) (tb := .i32) (by rw [hu]; exact conv_i32 (by omega) (by omega)) (by rw [hu]; exact conv_i32 (by omega) (by omega))]
  simp only [Int.ofNat_inj]

theorem truth_not_ptr {a : Nat} : truth (ofBool (!(decide (a ≠ 0)))) env m = .ok (decide (a = 0)) env m := by
  rw [truth_ofBool]
  congr 1
  by_cases h : a = 0 <;> simp [h]

/-! ## The serial number -/

theorem shl8_u64 {s : Nat} :
    binOp .shl (.int .u64 s) (.int .i32 8) env m = .ok (.int .u64 ((s * 256 % 18446744073709551616 : Nat) : Int)) env m := by
  show intOp .shl .u64 s .i32 8 env m = _
  rw [intOp]
  show (if (8 : Int) < 0 ∨ ((64 : Nat) : Int) ≤ 8 then bad (.buf .shiftRange) else _ : X Val) env m = _
  rw [if_neg (by decide)]
  refine (X_bind_ok (note_false env m)).trans ?_
  rw [X_pure]
  congr 2

theorem bor_u64_u8 {s b : Nat} (hs : s < 18446744073709551616) (hb : b < 256) :
    binOp .bor (.int .u64 s) (.int .u8 b) env m = .ok (.int .u64 ((s ||| b : Nat) : Int)) env m := by
  show intOp .bor .u64 s .u8 b env m = _
  rw [intOp]
  show (pure (bitop (· ||| ·) .u64 (ITy.conv .u64 s) (ITy.conv .u64 b)) : X Val) env m = _
  rw [natConv_u64 hs, natConv_u64 (by omega), X_pure]
  congr 1
  have h1 : ITy.toBits .u64 (s : Int) = s := by
    show ((s : Int) % (2 ^ 64)).toNat = s
    omega
  have h2 : ITy.toBits .u64 (b : Int) = b := by
    show ((b : Int) % (2 ^ 64)).toNat = b
    omega
  have h3 : s ||| b < 2 ^ 64 := Nat.or_lt_two_pow (by omega) (by omega)
  rw [bitop, h1, h2, natConv_u64 (by omega)]

/-- One byte more. -/
def serialStep (s : Nat) (b : UInt8) : Nat := (s * 256 % 18446744073709551616) ||| b.toNat

theorem serialStep_lt (s : Nat) (b : UInt8) : serialStep s b < 18446744073709551616 := by
  have h := UInt8.toNat_lt b
  exact Nat.or_lt_two_pow (n := 64) (by omega) (by omega)

theorem lt_u32_i32 {i z : Nat} (hi : i ≤ 2147483647) (hz : z ≤ 2147483647) :
    binOp .lt (.int .u32 i) (.int .i32 z) env m = .ok (ofBool (decide (i < z))) env m := by
  rw [bin_lt (ta := .u32) (tb := .i32) (conv_u32 (by omega) (by omega)) (conv_u32 (by omega) (by omega))]
  simp only [Int.ofNat_lt]

theorem lt_u32_u64 {i z : Nat} (hi : i ≤ 2147483647) (hz : z ≤ 2147483647) :
    binOp .lt (.int .u32 i) (.int .u64 z) env m = .ok (ofBool (decide (i < z))) env m := by
  rw [bin_lt (ta := .u32) (tb := .u64) (conv_u64 (by omega) (by omega)) (conv_u64 (by omega) (by omega))]
  simp only [Int.ofNat_lt]

theorem exec_inc_u32 {i x : Nat} (hx : env x = .int .u32 i) (hi : i ≤ 2147483647) :
    ExecTo (.set .u32 x (.bin .add (.var x) (.lit .i32 1))) env m .next (upd env x (.int .u32 ((i + 1 : Nat) : Int))) m := by
  refine .set (t := .u32) (k := ((i + 1 : Nat) : Int)) (.bin (z := .int .u32 ((i + 1 : Nat) : Int)) (.int hx) .lit ?_) (conv_u32 (by omega) (by omega))
  exact (bin_add (ta := .u32) (tb := .i32) (conv_u32 (by omega) (by omega)) (conv_u32 (by omega) (by omega))).trans (arith_u32 (by omega) (by omega))

theorem load_u8_cell (hi : Inv K st h) (ha : a ≠ 0) (hc : h.cells a = some (.bytes bs)) (hb : bs[i]? = some b) :
    loadNum .u8 (.ptr (.heap a) i) env (conc K st h) = .ok (.int .u8 b.toNat) env (conc K st h) := by
  obtain ⟨hl, rfl⟩ := List.getElem?_eq_some_iff.mp hb
  rw [loadNum, X_bind_ok (loadBytes_cell hi ha hc (show i + ITy.size .u8 ≤ bs.length from hl)), X_pure]
  have : (bs.drop i).take (ITy.size .u8) = [bs[i]] := by
    rw [List.drop_eq_getElem_cons hl]
    rfl
  rw [this, conv_u8_byte]

theorem serialLoop (hi : Inv K st h) (ha : a ≠ 0) (hc : h.cells a = some (.bytes bs)) (hl : 10 ≤ bs.length) :
    (k : Nat) → (i : Nat) → i + k = 10 → (env : Env) → (s : Nat) → s < 18446744073709551616 →
    env 1 = ptrVal a → env 2 = .int .u64 s → env 3 = .int .u32 i →
    ∃ env', LoopTo (.bin .lt (.var 3) (.lit .i32 10))
      [.set .u64 2 (.bin .shl (.var 2) (.lit .i32 8)), .set .u64 2 (.bin .bor (.var 2) (.byte .u8 (.var 1) (.var 3)))]
      [.set .u32 3 (.bin .add (.var 3) (.lit .i32 1))] env (conc K st h) .next env' (conc K st h) ∧
      env' 2 = .int .u64 ((((bs.take 10).drop i).foldl serialStep s : Nat) : Int)
  | 0, i, hk, env, s, hs, h1, h2, h3 => by
    obtain rfl : i = 10 := by omega
    refine ⟨env, .done (.bin (.int h3) .lit (lt_u32_i32 (z := 10) (by omega) (by omega))) (truth_ofBool _), ?_⟩
    rw [h2]
    have : (bs.take 10).drop 10 = [] := List.drop_eq_nil_iff.mpr (by simp only [List.length_take]; omega)
    rw [this]
    rfl
  | k + 1, i, hk, env, s, hs, h1, h2, h3 => by
    have hb : bs[i]? = some bs[i] := List.getElem?_eq_getElem (by omega)
    have hbl := UInt8.toNat_lt bs[i]
    obtain ⟨env', r, q⟩ := serialLoop hi ha hc hl k (i + 1) (by omega)
      (upd (upd (upd env 2 (.int .u64 ((s * 256 % 18446744073709551616 : Nat) : Int))) 2 (.int .u64 ((serialStep s bs[i] : Nat) : Int))) 3 (.int .u32 ((i + 1 : Nat) : Int)))
      (serialStep s bs[i]) (serialStep_lt _ _) h1 rfl rfl
    refine ⟨env', ?_, ?_⟩
    · refine .round (.bin (.int h3) .lit (lt_u32_i32 (z := 10) (by omega) (by omega))) ((truth_ofBool _).trans (by rw [decide_eq_true (by omega)]))
        (.cons (.set (.bin (.int h2) .lit shl8_u64) (natConv_u64 (by omega))) (.cons (.set (.bin (.int (by rfl)) (.byte (.ptr h1) (.int h3) (q := .ptr (.heap a) i) ?_ (load_u8_cell hi ha hc hb)) (bor_u64_u8 (by omega) hbl)) (natConv_u64 (serialStep_lt s bs[i]))) .nil))
        (.cons (exec_inc_u32 h3 (by omega)) .nil) r
      rw [offset, asPtr, X_bind_ok (X_pure _ _ _)]
      simp only
      rw [if_neg (by omega), X_pure]
      congr 2
      omega
    · rw [q]
      have : (bs.take 10).drop i = bs[i] :: (bs.take 10).drop (i + 1) := by
        rw [List.drop_eq_getElem_cons (by simp only [List.length_take]; omega), List.getElem_take]
      rw [this, List.foldl_cons]

/-! ## The ranges -/

theorem tab_u64 {vs : List Int} {i : Nat} (hv : vs[i]? = some n) : tabAt .u64 vs i env m = .ok (.int .u64 n) env m := by
  rw [tabAt, hv]
  rfl

/-- Is the number in a range? -/
def inRange (s lo hi : Nat) : Bool := decide (s ≥ lo) && decide (s ≤ hi)

theorem ev_inRange {s i lo up : Nat} {ls us : List Int} (h2 : env 2 = .int .u64 s) (h3 : env 3 = .int .u32 i) (hs : s < 18446744073709551616)
    (hl : ls[i]? = some (lo : Int)) (hu : us[i]? = some (up : Int)) (h1 : lo < 18446744073709551616) (h4 : up < 18446744073709551616) :
    EvalTo (.and (.bin .ge (.var 2) (.tab .u64 ls (.var 3))) (.bin .le (.var 2) (.tab .u64 us (.var 3)))) env m (ofBool (inRange s lo up)) env m := by
  have e1 : EvalTo (.bin .ge (.var 2) (.tab .u64 ls (.var 3))) env m (ofBool (decide (s ≥ lo))) env m :=
    .bin (.int h2) (.tab (.int h3) (tab_u64 hl)) (cmp_u64 hs h1).2.1
  have e2 : EvalTo (.bin .le (.var 2) (.tab .u64 us (.var 3))) env m (ofBool (decide (s ≤ up))) env m := by
    refine .bin (.int h2) (.tab (.int h3) (tab_u64 hu)) ?_
    rw [bin_le (ta := .u64) (tb := .u64) (natConv_u64 hs) (natConv_u64 h4)]
    simp only [Int.ofNat_le]
  by_cases hc : s ≥ lo
  · have := EvalTo.and_t e1 ((truth_ofBool _).trans (by rw [decide_eq_true hc])) e2 (truth_ofBool _)
    rw [inRange, decide_eq_true hc, Bool.true_and]
    exact this
  · have := EvalTo.and_f (b := .bin .le (.var 2) (.tab .u64 us (.var 3))) e1 ((truth_ofBool _).trans (by rw [decide_eq_false hc]))
    rw [inRange, decide_eq_false hc, Bool.false_and]
    exact this

theorem rangeLoop {s : Nat} {body : List Stmt} (h2 : env 2 = .int .u64 s) (hs : s < 18446744073709551616) :
    RunTo body [.set .u32 3 (.lit .i32 0),
      .loop (.bin .lt (.var 3) (.lit .u64 2)) [
        .ite (.and (.bin .ge (.var 2) (.tab .u64 [42000000, 55000000] (.var 3))) (.bin .le (.var 2) (.tab .u64 [48999999, 58999999] (.var 3)))) [
          .ret (.lit .i32 1)] []] [
        .set .u32 3 (.bin .add (.var 3) (.lit .i32 1))],
      .ret (.lit .i32 0)] env m (.int .i32 (if inRange s 42000000 48999999 || inRange s 55000000 58999999 then 1 else 0)) m := by
  refine .cons (.set .lit (k' := (0 : Nat)) (conv_u32 (n := (0 : Nat)) (by omega) (by omega))) ?_
  have c0 : EvalTo (.bin .lt (.var 3) (.lit .u64 2)) (upd env 3 (.int .u32 (0 : Nat))) m (ofBool (decide (0 < 2))) (upd env 3 (.int .u32 (0 : Nat))) m :=
    .bin (.int rfl) .lit (lt_u32_u64 (i := 0) (z := 2) (by omega) (by omega))
  have e0 := ev_inRange (env := upd env 3 (.int .u32 (0 : Nat))) (m := m) (s := s) (i := 0) (lo := 42000000) (up := 48999999) (ls := [42000000, 55000000]) (us := [48999999, 58999999])
    h2 rfl hs rfl rfl (by omega) (by omega)
  have st0 : ExecTo (.set .u32 3 (.bin .add (.var 3) (.lit .i32 1))) (upd env 3 (.int .u32 (0 : Nat))) m .next (upd (upd env 3 (.int .u32 (0 : Nat))) 3 (.int .u32 (1 : Nat))) m :=
    exec_inc_u32 (i := 0) rfl (by omega)
  have c1 : EvalTo (.bin .lt (.var 3) (.lit .u64 2)) (upd (upd env 3 (.int .u32 (0 : Nat))) 3 (.int .u32 (1 : Nat))) m (ofBool (decide (1 < 2))) (upd (upd env 3 (.int .u32 (0 : Nat))) 3 (.int .u32 (1 : Nat))) m :=
    .bin (.int rfl) .lit (lt_u32_u64 (i := 1) (z := 2) (by omega) (by omega))
  have e1 := ev_inRange (env := upd (upd env 3 (.int .u32 (0 : Nat))) 3 (.int .u32 (1 : Nat))) (m := m) (s := s) (i := 1) (lo := 55000000) (up := 58999999) (ls := [42000000, 55000000]) (us := [48999999, 58999999])
    h2 rfl hs rfl rfl (by omega) (by omega)
  have st1 : ExecTo (.set .u32 3 (.bin .add (.var 3) (.lit .i32 1))) (upd (upd env 3 (.int .u32 (0 : Nat))) 3 (.int .u32 (1 : Nat))) m .next
      (upd (upd (upd env 3 (.int .u32 (0 : Nat))) 3 (.int .u32 (1 : Nat))) 3 (.int .u32 (2 : Nat))) m :=
    exec_inc_u32 (i := 1) rfl (by omega)
  have c2 : EvalTo (.bin .lt (.var 3) (.lit .u64 2)) (upd (upd (upd env 3 (.int .u32 (0 : Nat))) 3 (.int .u32 (1 : Nat))) 3 (.int .u32 (2 : Nat))) m (ofBool (decide (2 < 2)))
      (upd (upd (upd env 3 (.int .u32 (0 : Nat))) 3 (.int .u32 (1 : Nat))) 3 (.int .u32 (2 : Nat))) m :=
    .bin (.int rfl) .lit (lt_u32_u64 (i := 2) (z := 2) (by omega) (by omega))
  cases r0 : inRange s 42000000 48999999 with
  | true =>
    rw [r0] at e0
    exact .stop (.loop (.stop c0 (truth_ofBool _) (.last (.ite e0 (truth_ofBool _) (.last (.ret .lit)))) (.inr (.inr ⟨_, rfl, rfl⟩))))
  | false =>
    rw [r0] at e0
    cases r1 : inRange s 55000000 58999999 with
    | true =>
      rw [r1] at e1
      exact .stop (.loop (.round c0 (truth_ofBool _) (.last (.ite e0 (truth_ofBool _) .nil)) (.last st0)
        (.stop c1 (truth_ofBool _) (.last (.ite e1 (truth_ofBool _) (.last (.ret .lit)))) (.inr (.inr ⟨_, rfl, rfl⟩)))))
    | false =>
      rw [r1] at e1
      exact .cons (.loop (.round c0 (truth_ofBool _) (.last (.ite e0 (truth_ofBool _) .nil)) (.last st0)
        (.round c1 (truth_ofBool _) (.last (.ite e1 (truth_ofBool _) .nil)) (.last st1) (.done c2 (truth_ofBool _))))) (.ret .lit)

/-! ## The function -/

theorem name_map : ([1, 0, 96, 1, 0, 255].take 6 : List Int).map (fun n => UInt8.ofNat n.toNat) = dzgSerialOid := by decide

theorem start_map : ([10, 1, 68, 90, 71].take 5 : List Int).map (fun n => UInt8.ofNat n.toNat) = dzgSerialStart := by decide

/-- The value part, from `val` on. -/
theorem detect_tail {body : List Stmt} (hi : Inv K st h) (ha : a ≠ 0) (hc : h.cells a = some (.bytes bs)) (hl : 10 ≤ bs.length)
    (h1 : env 1 = ptrVal a) (h2 : env 2 = .int .u64 (0 : Nat))
    (hb : b = if (bs.take 10).take 5 ≠ dzgSerialStart then false else
      (decide (dzgSerial ((bs.take 10).drop 5) ≥ 42000000) && decide (dzgSerial ((bs.take 10).drop 5) ≤ 48999999)) ||
                (decide (dzgSerial ((bs.take 10).drop 5) ≥ 55000000) && decide (dzgSerial ((bs.take 10).drop 5) ≤ 58999999))) :
    RunTo body ([
    .ite (.memcmpTab (.var 1) [10, 1, 68, 90, 71] (.lit .u64 5)) [
      .ret (.lit .i32 0)] [],
    .set .u32 3 (.lit .u64 5),
    .loop (.bin .lt (.var 3) (.lit .i32 10)) [
      .set .u64 2 (.bin .shl (.var 2) (.lit .i32 8)),
      .set .u64 2 (.bin .bor (.var 2) (.byte .u8 (.var 1) (.var 3)))] [
      .set .u32 3 (.bin .add (.var 3) (.lit .i32 1))],
    .set .u32 3 (.lit .i32 0),
    .loop (.bin .lt (.var 3) (.lit .u64 2)) [
      .ite (.and (.bin .ge (.var 2) (.tab .u64 [42000000, 55000000] (.var 3))) (.bin .le (.var 2) (.tab .u64 [48999999, 58999999] (.var 3)))) [
        .ret (.lit .i32 1)] []] [
      .set .u32 3 (.bin .add (.var 3) (.lit .i32 1))],
    .ret (.lit .i32 0)]) env (conc K st h) (.int .i32 (if b then 1 else 0)) (conc K st h) := by
  obtain ⟨z, ez, hz, _⟩ := ev_memcmp (K := K) (env := env) (e := .var 1) (t := .u64) (tb := [10, 1, 68, 90, 71]) (k := 5) hi (.ptr h1) ha hc (by omega) (by decide)
  rw [start_map] at hz
  have ht : (bs.take 10).take 5 = bs.take 5 := by rw [List.take_take]; rfl
  rw [ht] at hb
  by_cases hs : bs.take 5 = dzgSerialStart
  · rw [if_neg (by simp [hs])] at hb
    have z0 := hz.mpr hs
    refine .ite ez (b := false) (by rw [z0]; rfl) ?_
    refine .cons (.set .lit (k' := (5 : Nat)) (conv_u32 (n := (5 : Nat)) (by omega) (by omega))) ?_
    obtain ⟨env', r, q⟩ := serialLoop hi ha hc hl 5 5 rfl (upd env 3 (.int .u32 (5 : Nat))) 0 (by omega) h1 h2 rfl
    refine .cons (.loop r) ?_
    have hlt : dzgSerial ((bs.take 10).drop 5) < 18446744073709551616 := by
      have hll : ((bs.take 10).drop 5).length = 5 := by simp only [List.length_drop, List.length_take]; omega
      generalize (bs.take 10).drop 5 = l at hll ⊢
      match l, hll with
      | [a, b, c, d, e], _ => exact serialStep_lt _ _
    have := rangeLoop (body := body) (m := conc K st h) q hlt
    rw [hb]
    exact this
  · rw [if_pos hs] at hb
    rw [hb]
    have z0 : z ≠ 0 := fun e => hs (hz.mp e)
    refine .ite ez (b := true) (by rw [truth_ne0, decide_eq_true z0]) ?_
    exact .ret .lit

theorem detectDzg_run (hi : Inv K st h) (hr : pDetectBuggyDzgDvs74 l st h = .ok b st' h') :
    st' = st ∧ h' = h ∧ RunTo (program .detect_buggy_dzg_dvs74).body (program .detect_buggy_dzg_dvs74).body (envOf [ptrVal l]) (conc K st h)
      (.int .i32 (if b then 1 else 0)) (conc K st h) := by
  unfold pDetectBuggyDzgDvs74 at hr
  have hset : ExecTo (.set .u64 2 (.lit .i32 0)) (envOf [ptrVal l]) (conc K st h) .next (upd (envOf [ptrVal l]) 2 (.int .u64 (0 : Nat))) (conc K st h) :=
    .set .lit (k' := (0 : Nat)) (conv_u64 (n := (0 : Nat)) (by omega) (by omega))
  have vl : ∀ i v s1 h1, readPtr l i st h = .ok v s1 h1 → EvalTo (.ldPtr (.var 0) i) (upd (envOf [ptrVal l]) 2 (.int .u64 (0 : Nat))) (conc K st h) (ptrVal v)
      (upd (envOf [ptrVal l]) 2 (.int .u64 (0 : Nat))) (conc K st h) := fun i v s1 h1 e => ev_ldPtr hi (.ptr (by rfl)) e
  replace hr := P_bind_eq_ok hr
  obtain ⟨name, s1, h1, e1, hr⟩ := hr
  have e1' := e1
  obtain ⟨_, rfl, rfl, _⟩ := readPtr_eq_ok e1'
  have vname := vl _ _ _ _ e1
  -- name
  by_cases hn : name = 0
  · rw [if_pos hn] at hr
    cases hr
    refine ⟨rfl, rfl, .cons hset (.ite (b := true) (.or_t (.or_t (.not vname (b := false) (by rw [hn]; rfl)) (by rfl)) (by rfl)) (by rfl) (.ret .lit))⟩
  rw [if_neg hn] at hr
  have nn : EvalTo (.not (.ldPtr (.var 0) 0)) (upd (envOf [ptrVal l]) 2 (.int .u64 (0 : Nat))) (conc K s1 h1) (ofBool false)
      (upd (envOf [ptrVal l]) 2 (.int .u64 (0 : Nat))) (conc K s1 h1) := .not vname (truth_ptr hn)
  replace hr := P_bind_eq_ok hr
  obtain ⟨len, s2, h2, e2, hr⟩ := hr
  have e2' := e2
  obtain ⟨_, rfl, rfl, _⟩ := readInt_eq_ok e2'
  have hlen := readInt_small hi e2
  have vlen := EvalTo.bin (ev_ldInt (t := .i32) hi vname e2) .lit (ne_i32_u64 (z := 6) hlen (by omega))
  by_cases hl6 : len ≠ 6
  · rw [if_pos hl6] at hr
    cases hr
    refine ⟨rfl, rfl, .cons hset (.ite (b := true) (.or_t (.or_f nn (by rfl) vlen (truth_ofBool _)) ?_) (truth_ofBool _) (.ret .lit))⟩
    rw [truth_ofBool, decide_eq_true hl6]
  rw [if_neg hl6] at hr
  have c1 := EvalTo.or_f nn (by rfl) vlen (truth_ofBool _)
  rw [decide_eq_false hl6] at c1
  replace hr := P_bind_eq_ok hr
  obtain ⟨str, s3, h3, e3, hr⟩ := hr
  have e3' := e3
  obtain ⟨_, rfl, rfl, _⟩ := readPtr_eq_ok e3'
  replace hr := P_bind_eq_ok hr
  obtain ⟨nm, s4, h4, e4, hr⟩ := hr
  obtain ⟨ha4, rfl, rfl, bs4, hc4, hl4, rfl⟩ := readRaw_eq_ok e4
  obtain ⟨z, ez, hz, _⟩ := ev_memcmp (t := .u64) (tb := [1, 0, 96, 1, 0, 255]) (k := 6) hi (ev_ldPtr hi vname e3) ha4 hc4 hl4 (by decide)
  rw [name_map] at hz
  by_cases hz0 : bs4.take 6 ≠ dzgSerialOid
  · rw [if_pos hz0] at hr
    cases hr
    have z0 : z ≠ 0 := fun e => hz0 (hz.mp e)
    refine ⟨rfl, rfl, .cons hset (.ite (b := true) (.or_f c1 (by rfl) ez truth_ne0) ?_ (.ret .lit))⟩
    rw [truth_ofBool, decide_eq_true z0]
  rw [if_neg hz0] at hr
  have z0 : z = 0 := hz.mpr (Decidable.not_not.mp hz0)
  have c2 := EvalTo.or_f c1 (by rfl) ez truth_ne0
  rw [z0, decide_eq_false (by simp)] at c2
  replace hr := P_bind_eq_ok hr
  obtain ⟨value, s5, h5, e5, hr⟩ := hr
  have e5' := e5
  obtain ⟨_, rfl, rfl, _⟩ := readPtr_eq_ok e5'
  have vvalue := vl _ _ _ _ e5
  by_cases hv : value = 0
  · rw [if_pos hv] at hr
    cases hr
    refine ⟨rfl, rfl, .cons hset (.ite (b := false) c2 (by rfl) (.ite (b := true) (.or_t (.or_t (.not vvalue (b := false) (by rw [hv]; rfl)) (by rfl)) (by rfl)) (by rfl) (.ret .lit)))⟩
  rw [if_neg hv] at hr
  have nv : EvalTo (.not (.ldPtr (.var 0) 5)) (upd (envOf [ptrVal l]) 2 (.int .u64 (0 : Nat))) (conc K s5 h5) (ofBool false)
      (upd (envOf [ptrVal l]) 2 (.int .u64 (0 : Nat))) (conc K s5 h5) := .not vvalue (truth_ptr hv)
  replace hr := P_bind_eq_ok hr
  obtain ⟨ty, s6, h6, e6, hr⟩ := hr
  have e6' := e6
  obtain ⟨_, rfl, rfl, _⟩ := readInt_eq_ok e6'
  have hty := readInt_small hi e6
  have vty := EvalTo.bin (ev_ldInt (t := .u8) hi vvalue e6) .lit (ne_small (.inl rfl) (z := 0) hty (by omega))
  by_cases ht : ty ≠ tyOctet
  · rw [if_pos ht] at hr
    cases hr
    refine ⟨rfl, rfl, .cons hset (.ite (b := false) c2 (by rfl) (.ite (b := true) (.or_t (.or_f nv (by rfl) vty (truth_ofBool _)) ?_) (truth_ofBool _) (.ret .lit)))⟩
    rw [truth_ofBool, decide_eq_true ht]
  rw [if_neg ht] at hr
  have c3 := EvalTo.or_f nv (by rfl) vty (truth_ofBool _)
  rw [decide_eq_false ht] at c3
  replace hr := P_bind_eq_ok hr
  obtain ⟨bytes, s7, h7, e7, hr⟩ := hr
  have e7' := e7
  obtain ⟨_, rfl, rfl, _⟩ := readPtr_eq_ok e7'
  have vbytes := ev_ldPtr hi vvalue e7
  replace hr := P_bind_eq_ok hr
  obtain ⟨bl, s8, h8, e8, hr⟩ := hr
  have e8' := e8
  obtain ⟨_, rfl, rfl, _⟩ := readInt_eq_ok e8'
  have hbl := readInt_small hi e8
  have vbl := EvalTo.bin (ev_ldInt (t := .i32) hi vbytes e8) .lit (ne_small (.inr rfl) (z := 10) hbl (by omega))
  have c4 := EvalTo.or_f c3 (by rfl) vbl (truth_ofBool _)
  by_cases hl10 : bl ≠ 10
  · rw [if_pos hl10] at hr
    cases hr
    refine ⟨rfl, rfl, .cons hset (.ite (b := false) c2 (by rfl) (.ite (b := true) c4 ?_ (.ret .lit)))⟩
    rw [truth_ofBool, decide_eq_true hl10]
  rw [if_neg hl10] at hr
  rw [decide_eq_false hl10] at c4
  replace hr := P_bind_eq_ok hr
  obtain ⟨val, s9, h9, e9, hr⟩ := hr
  have e9' := e9
  obtain ⟨_, rfl, rfl, _⟩ := readPtr_eq_ok e9'
  have vval := ev_ldPtr hi vbytes e9
  replace hr := P_bind_eq_ok hr
  obtain ⟨vs, s10, h10, e10, hr⟩ := hr
  obtain ⟨ha10, rfl, rfl, bs, hc10, hl10', rfl⟩ := readRaw_eq_ok e10
  have hfin : st' = s10 ∧ h' = h10 ∧ b = if (bs.take 10).take 5 ≠ dzgSerialStart then false else
      (decide (dzgSerial ((bs.take 10).drop 5) ≥ 42000000) && decide (dzgSerial ((bs.take 10).drop 5) ≤ 48999999)) ||
                (decide (dzgSerial ((bs.take 10).drop 5) ≥ 55000000) && decide (dzgSerial ((bs.take 10).drop 5) ≤ 58999999)) := by
    split at hr
    · cases hr
      exact ⟨rfl, rfl, (if_pos ‹_›).symm⟩
    · cases hr
      exact ⟨rfl, rfl, (if_neg ‹_›).symm⟩
  obtain ⟨rfl, rfl, hb⟩ := hfin
  refine ⟨rfl, rfl, .cons hset (.ite (b := false) c2 (by rfl) (.ite (b := false) c4 (by rfl) (.cons (.setPtr vval) ?_)))⟩
  exact detect_tail hi ha10 hc10 hl10' rfl rfl hb

theorem detectDzg_src (l : Addr) : FSpec .detect_buggy_dzg_dvs74 (fun _ => [ptrVal l]) anySt (pDetectBuggyDzgDvs74 l)
    (fun b => .int .bool (if b then 1 else 0)) anyRes := by
  intro K st h hi _ b st' h' hr
  obtain ⟨rfl, rfl, r⟩ := detectDzg_run hi hr
  refine ⟨hi, trivial, CallTo.of (fun _ _ => rfl) r fun env => ?_⟩
  have : ({ conc K st' h' with stack := (conc K st' h').stack.take (conc K st' h').stack.length } : Mem) = conc K st' h' := by
    simp only [conc, memOf, List.take_length]
  rw [this]
  cases b <;> rfl

end Sml.C
