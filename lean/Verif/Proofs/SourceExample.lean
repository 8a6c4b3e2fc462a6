import Verif.Proofs.SourceDump
import Verif.Proofs.SourceStrhex
import Verif.Proofs.HeapExample

/-!
# The example program, run from its source: what it reads and prints
-/

namespace Sml.C

open Spec (rendering WellTyped Mislabelled)

/-! ## Memory while the program prints -/

/-- The memory after output, `k` blocks that have been allocated and freed again and the local objects `j`. -/
def Mem.after (m : Mem) (o : List UInt8) (k : Nat) (j : List Block) : Mem :=
  { m with next := m.next + k, stack := m.stack ++ j, world := { m.world with out := m.world.out ++ o } }

theorem Mem.after_after (m : Mem) : (m.after o k j).after o' k' j' = m.after (o ++ o') (k + k') (j ++ j') := by
  simp only [Mem.after, List.append_assoc, Nat.add_assoc]

theorem Mem.said_eq (m : Mem) : m.said o = m.after o 0 [] := by
  simp only [Mem.after, Mem.said, List.append_nil, Nat.add_zero]

theorem Mem.after_nil (m : Mem) : m.after [] 0 [] = m := by
  simp only [Mem.after, List.append_nil, Nat.add_zero]

/-- A memory with the blocks `S`. -/
structure Ready (S : List Blk) (m : Mem) : Prop where
  pos : 0 < m.next
  has : ∀ a c, (a, c) ∈ S → a ≠ 0 ∧ m.heap a = some (enc c)
  fresh : ∀ a, m.next ≤ a → m.heap a = none

theorem Ready.after (r : Ready S m) : Ready S (m.after o k j) :=
  ⟨Nat.lt_of_lt_of_le r.pos (Nat.le_add_right _ _), r.has, fun a ha => r.fresh a (Nat.le_trans (Nat.le_add_right _ _) ha)⟩

theorem Ready.ptr (r : Ready S m) (hm : (a, .struct ps is) ∈ S) (hi : ps[i]? = some p) (he : EvalTo e env m (ptrVal a) env' m) :
    EvalTo (.ldPtr e i) env m (ptrVal p) env' m :=
  .ldPtr he (loadPtr_put (r.has _ _ hm).1 (r.has _ _ hm).2 (by rw [List.getElem?_map, hi]; rfl))

theorem Ready.int (r : Ready S m) {n : Nat} (hm : (a, .struct ps is) ∈ S) (hi : is[i]? = some n) (he : EvalTo e env m (ptrVal a) env' m) :
    EvalTo (.ldInt t e i) env m (.int t n) env' m :=
  .ldInt he (loadInt_put (r.has _ _ hm).1 (r.has _ _ hm).2 (by rw [List.getElem?_map, hi]; rfl))

theorem Ready.num (r : Ready S m) {ty : ITy} (hm : (a, .num n) ∈ S) (hn : Sized ty.size n) (he : EvalTo e env m (ptrVal a) env' m) :
    EvalTo (.deref ty e) env m (.int ty (ty.conv n.val)) env' m := by
  refine .deref he ?_
  obtain ⟨h1, h2⟩ := hn
  have hl := leBytes_length n.size n.val
  rw [loadNum, X_bind_ok (loadBytes_raw' (cs := leBytes n.size n.val) (getBlock_heap (r.has _ _ hm).1 (r.has _ _ hm).2) ?_ ?_)]
  · rw [leNat_leBytes _ _ (by rw [h1]; exact h2)]
    rfl
  · rw [List.length_map, hl, h1]
    exact Nat.le_of_eq (Nat.zero_add _)
  · rw [List.drop_zero, List.take_of_length_le]
    rw [List.length_map, hl, h1]
    exact Nat.le_refl _

/-- The signed value of a number. -/
theorem conv_signed (ty : ITy) (hs : ty = .i8 ∨ ty = .i16 ∨ ty = .i32 ∨ ty = .i64) (hn : Sized ty.size n) : ty.conv (n.val : Int) = n.toInt := by
  obtain ⟨sz, v⟩ := n
  obtain ⟨h1, h2⟩ := hn
  simp only at h1 h2
  subst h1
  rw [Num.toInt]
  by_cases hv : v < 2 ^ (8 * ty.size - 1)
  · rw [if_pos hv]
    rcases hs with rfl | rfl | rfl | rfl <;> simp only [ITy.size, ITy.bits, ITy.conv, ITy.signed, reduceCtorEq, if_true, if_false, Int.reducePow, Nat.reducePow, Nat.reduceMul, Nat.reduceSub, Nat.reduceDiv] at h2 hv ⊢ <;> rw [Int.bmod_def] <;> split <;> omega
  · rw [if_neg hv]
    rcases hs with rfl | rfl | rfl | rfl <;> simp only [ITy.size, ITy.bits, ITy.conv, ITy.signed, reduceCtorEq, if_true, if_false, Int.reducePow, Nat.reducePow, Nat.reduceMul, Nat.reduceSub, Nat.reduceDiv] at h2 hv ⊢ <;> rw [Int.bmod_def] <;> split <;> omega

theorem conv_unsigned (ty : ITy) (hs : ty = .u8 ∨ ty = .u16 ∨ ty = .u32 ∨ ty = .u64) (hn : Sized ty.size n) : ty.conv (n.val : Int) = n.val := by
  obtain ⟨sz, v⟩ := n
  obtain ⟨h1, h2⟩ := hn
  simp only at h1 h2 ⊢
  rcases hs with rfl | rfl | rfl | rfl
  · exact conv_u8 (by omega) (by have : v < 256 := h2; omega)
  · exact conv_u16 (by omega) (by have : v < 65536 := h2; omega)
  · exact conv_u32 (by omega) (by have : v < 4294967296 := h2; omega)
  · exact conv_u64 (by omega) (by have : v < 18446744073709551616 := h2; omega)

/-! ## Rules -/

theorem EvalTo.str : EvalTo (.str s) env m (.str s) env m := .of fun Γ => by rw [eval]; rfl

theorem EvalTo.strTab {k : Nat} (he : EvalTo e env m (.int t k) env' m') (hs : ss[k]? = some s) : EvalTo (.strTab ss e) env m (.str s) env' m' := by
  obtain ⟨N, r⟩ := he
  refine ⟨N, fun n hn => ?_⟩
  rw [eval, X_bind_ok (r n hn), X_bind_ok asNat_int, strAt, hs]
  rfl

theorem EvalTo.assignPtr (he : EvalTo e env m v env' m') : EvalTo (.assignPtr x e) env m v (upd env' x v) m' := by
  obtain ⟨N, r⟩ := he
  refine ⟨N, fun n hn => ?_⟩
  rw [eval, X_bind_ok (r n hn)]
  rfl

theorem EvalTo.flag : EvalTo (.flag i) env m (.int .i32 (m.world.flags i)) env m := .of fun Γ => by rw [eval]; rfl

theorem EvalTo.toDbl (he : EvalTo e env m (.int t k) env' m') : EvalTo (.toDbl e) env m (.dbl (toDouble k) 0) env' m' := by
  obtain ⟨N, r⟩ := he
  refine ⟨N, fun n hn => ?_⟩
  rw [eval, X_bind_ok (r n hn)]
  rfl

theorem EvalTo.mulDbl (ha : EvalTo a env m (.dbl x i) env1 m1) (hb : EvalTo b env1 m1 (.dbl y j) env' m') :
    EvalTo (.mulDbl a b) env m (.dbl (toDouble (x * y)) (i + j)) env' m' := by
  obtain ⟨N, r⟩ := ha
  obtain ⟨N2, r2⟩ := hb
  refine ⟨max N N2, fun n hn => ?_⟩
  rw [eval, X_bind_ok (r n (by omega)), X_bind_ok (show asDbl (.dbl x i) env1 m1 = .ok (x, i) env1 m1 from rfl), X_bind_ok (r2 n (by omega))]
  rfl

theorem EvalTo.pow10 (he : EvalTo e env m (.int t k) env' m') : EvalTo (.pow10 e) env m (.dbl (m'.world.pow k).m (m'.world.pow k).e) env' m' := by
  obtain ⟨N, r⟩ := he
  refine ⟨N, fun n hn => ?_⟩
  rw [eval, X_bind_ok (r n hn)]
  rfl

theorem EvalTo.neg {k : Int} (he : EvalTo e env m (.int .i32 k) env' m') (h0 : -2147483648 < k) (h1 : k ≤ 2147483648) :
    EvalTo (.neg e) env m (.int .i32 (-k)) env' m' := by
  obtain ⟨N, r⟩ := he
  refine ⟨N, fun n hn => ?_⟩
  rw [eval, X_bind_ok (r n hn), X_bind_ok asInt_int]
  exact arith_i32 (by omega) (by omega)

/-- A call whose arguments are converted to those of another. -/
theorem CallTo.args {f : Fn} (h : ∀ env m, bindArgs (program f).params as env m = bindArgs (program f).params bs env m) (c : CallTo f bs m v m') : CallTo f as m v m' := by
  obtain ⟨N, r⟩ := c
  refine ⟨N + 1, fun n hn env => ?_⟩
  obtain ⟨n, rfl⟩ : ∃ k, n = k + 1 := ⟨n - 1, by omega⟩
  have r := r (n + 1) (by omega) env
  rw [call_succ, runFun] at r ⊢
  rw [X_bind] at r ⊢
  rw [h]
  exact r

/-- A run of a `do` loop. -/
def DoTo (b : List Stmt) (c : Expr) (env : Env) (m : Mem) (o : Out) (env' : Env) (m' : Mem) : Prop :=
  ∃ N, ∀ n, N ≤ n → ∀ k, N ≤ k → doLoop (do truth (← eval (call program n) c)) (execs (call program n) n b) k env m = .ok o env' m'

theorem ExecTo.doWhile (h : DoTo b c env m o env' m') : ExecTo (.doWhile b c) env m o env' m' := by
  obtain ⟨N, r⟩ := h
  refine ⟨N, fun n hn => ?_⟩
  rw [exec]
  exact r n hn n hn

theorem DoTo.round (hb : ExecsTo b env m .next env1 m1) (hc : EvalTo c env1 m1 v env2 m2) (ht : truth v env2 m2 = .ok true env2 m2)
    (hl : DoTo b c env2 m2 o env' m') : DoTo b c env m o env' m' := by
  obtain ⟨N, r⟩ := hb
  obtain ⟨N2, r2⟩ := hc
  obtain ⟨N3, r3⟩ := hl
  refine ⟨max N (max N2 N3) + 1, fun n hn k hk => ?_⟩
  obtain ⟨k, rfl⟩ : ∃ j, k = j + 1 := ⟨k - 1, by omega⟩
  rw [doLoop, X_bind_ok (r n (by omega))]
  exact (X_bind_ok ((X_bind_ok (r2 n (by omega))).trans ht)).trans (r3 n (by omega) k (by omega))

theorem DoTo.done (hb : ExecsTo b env m .next env1 m1) (hc : EvalTo c env1 m1 v env' m') (ht : truth v env' m' = .ok false env' m') : DoTo b c env m .next env' m' := by
  obtain ⟨N, r⟩ := hb
  obtain ⟨N2, r2⟩ := hc
  refine ⟨max N N2 + 1, fun n hn k hk => ?_⟩
  obtain ⟨k, rfl⟩ : ∃ j, k = j + 1 := ⟨k - 1, by omega⟩
  rw [doLoop, X_bind_ok (r n (by omega))]
  exact X_bind_ok ((X_bind_ok (r2 n (by omega))).trans ht)

theorem DoTo.ret (hb : ExecsTo b env m (.ret v) env' m') : DoTo b c env m (.ret v) env' m' := by
  obtain ⟨N, r⟩ := hb
  refine ⟨N + 1, fun n hn k hk => ?_⟩
  obtain ⟨k, rfl⟩ : ∃ j, k = j + 1 := ⟨k - 1, by omega⟩
  rw [doLoop, X_bind_ok (r n (by omega))]
  rfl

/-! ## `dlms_get_unit` -/

/-- What `dlms_get_unit` returns. -/
def unitVal : Option String → Val
  | some s => .str s
  | none => nullPtr

abbrev unitBody : List Stmt := [.ite (.bin .eq (.tab .u8 dlms_units_code (.var 1)) (.var 0)) [.ret (.strTab dlms_units_unit (.var 1))] []]

abbrev unitCond : Expr := .tab .u8 dlms_units_code (.assign .i64 1 (.bin .add (.var 1) (.lit .i32 1)))

theorem units_table : ∀ i : Fin 66, dlms_units_code[i.val]? = some ((dlmsUnits[i.val]?.map Prod.fst).getD 1000 : Nat) ∧ dlms_units_unit[i.val]? = dlmsUnits[i.val]?.map Prod.snd ∧
    (dlmsUnits[i.val]?.map Prod.fst).getD 1000 < 256 ∧ ((dlmsUnits[i.val]?.map Prod.fst).getD 1000 = 0 ↔ i.val = 65) := by decide +kernel

theorem units_at (i : Nat) (h : i < 66) : ∃ c u, dlmsUnits.drop i = (c, u) :: dlmsUnits.drop (i + 1) ∧ dlms_units_code[i]? = some (c : Int) ∧ dlms_units_unit[i]? = some u ∧ c < 256 ∧
    (c = 0 ↔ i = 65) := by
  have key := units_table ⟨i, h⟩
  simp only at key
  have hl : i < dlmsUnits.length := h
  rw [List.getElem?_eq_getElem hl] at key
  exact ⟨dlmsUnits[i].1, dlmsUnits[i].2, List.drop_eq_getElem_cons hl, key.1, key.2.1, key.2.2.1, key.2.2.2⟩

theorem unitBody_run {code i c : Nat} {u : String} {m : Mem} {env : Env} (hc : code < 256) (h0 : env 0 = .int .u8 code) (h1 : env 1 = .int .i64 i) (e1 : dlms_units_code[i]? = some (c : Int))
    (e2 : dlms_units_unit[i]? = some u) (hlt : c < 256) : ExecsTo unitBody env m (if c = code then .ret (.str u) else .next) env m := by
  have hv : EvalTo (.bin .eq (.tab .u8 dlms_units_code (.var 1)) (.var 0)) env m (ofBool (decide ((c : Int) = code))) env m :=
    .bin (.tab (.int h1) (by rw [tabAt, e1]; rfl)) (.int h0) (bin_eq (ta := .u8) (tb := .u8) (conv_i32 (by omega) (by omega)) (conv_i32 (by omega) (by omega)))
  by_cases h : c = code
  · rw [if_pos h]
    exact .last (.ite hv (truth_pos (by omega)) (.last (.ret (.strTab (.int h1) e2))))
  · rw [if_neg h]
    exact .last (.ite hv (truth_neg (by omega)) .nil)

theorem arith_i64 (h0 : -9223372036854775808 ≤ n) (h1 : n < 9223372036854775808) : arith .i64 n env m = .ok (.int .i64 n) env m := by
  have hf : ITy.fits .i64 n = true := decide_eq_true (show -2 ^ (64 - 1) ≤ n ∧ n < 2 ^ (64 - 1) by omega)
  rw [arith, hf]
  refine (X_bind_ok (note_false env m)).trans ?_
  rw [conv_i64 h0 h1]
  rfl

theorem unitCond_run {i c : Nat} {m : Mem} {env : Env} (hi : i < 66) (h1 : env 1 = .int .i64 i) (e1 : dlms_units_code[i + 1]? = some (c : Int)) :
    EvalTo unitCond env m (.int .u8 c) (upd env 1 (.int .i64 (i + 1 : Nat))) m := by
  refine .tab (.assign (t := .i64) (k := ((i + 1 : Nat) : Int)) (.bin (.int h1) .lit ?_) (conv_i64 (by omega) (by omega))) (by rw [tabAt, e1]; rfl)
  rw [bin_add (ta := .i64) (tb := .i32) (conv_i64 (by omega) (by omega)) rfl]
  show arith .i64 (((i + 1 : Nat) : Int)) env m = _
  exact arith_i64 (by omega) (by omega)

theorem unitLoop_run {code : Nat} (hc : code < 256) : ∀ (k i : Nat) (env : Env), i + k = 64 → env 0 = .int .u8 code → env 1 = .int .i64 i →
    ∃ r env', dlmsGetUnit code (dlmsUnits.drop i) = .ok r ∧ DoTo unitBody unitCond env m (match r with | some s => .ret (.str s) | none => .next) env' m := by
  intro k
  induction k with
  | zero =>
    intro i env hi h0 h1
    obtain ⟨c, u, hd, e1, e2, hlt, hz⟩ := units_at i (by omega)
    obtain ⟨c', u', hd', e1', _, hlt', hz'⟩ := units_at (i + 1) (by omega)
    have hb := unitBody_run (m := m) hc h0 h1 e1 e2 hlt
    rw [hd, hd', dlmsGetUnit]
    by_cases h : c = code
    · rw [if_pos h] at hb ⊢
      exact ⟨some u, env, rfl, .ret hb⟩
    · rw [if_neg h] at hb ⊢
      have hc0 : c' = 0 := hz'.mpr (by omega)
      simp only [hc0, ne_eq, not_true, if_false]
      refine ⟨none, _, rfl, .done hb (unitCond_run (by omega) h1 e1') ?_⟩
      rw [hc0]
      rfl
  | succ k ih =>
    intro i env hi h0 h1
    obtain ⟨c, u, hd, e1, e2, hlt, hz⟩ := units_at i (by omega)
    obtain ⟨c', u', hd', e1', _, hlt', hz'⟩ := units_at (i + 1) (by omega)
    have hb := unitBody_run (m := m) hc h0 h1 e1 e2 hlt
    rw [hd, hd', dlmsGetUnit]
    by_cases h : c = code
    · rw [if_pos h] at hb ⊢
      exact ⟨some u, env, rfl, .ret hb⟩
    · rw [if_neg h] at hb ⊢
      have hc0 : c' ≠ 0 := fun e => by have := hz'.mp e; omega
      obtain ⟨r, env', e3, l3⟩ := ih (i + 1) (upd env 1 (.int .i64 (i + 1 : Nat))) (by omega) ((upd_other (by decide)).trans h0) upd_same
      rw [hd'] at e3
      simp only [hc0, ne_eq, not_false_eq_true, if_true]
      refine ⟨r, env', e3, .round hb (unitCond_run (by omega) h1 e1') ?_ l3⟩
      exact congrArg (XRes.ok · _ _) (decide_eq_true (by omega))

/-- `dlms_get_unit` finds what the model of the table finds. -/
theorem unit_run {code : Nat} (hc : code < 256) (m : Mem) : ∃ r, dlmsGetUnit code dlmsUnits = .ok r ∧ CallTo .dlms_get_unit [.int .u8 code] m (unitVal r) m := by
  obtain ⟨r, env', e, l⟩ := unitLoop_run (m := m) hc 64 0 (upd (envOf [.int .u8 code]) 1 (.int .i64 0)) rfl rfl upd_same
  refine ⟨r, e, ?_⟩
  refine .of (vs := [.int .u8 code]) (fun env m => ?_) (.cons (.set .lit rfl) (?_ : RunTo _ _ _ _ (unitVal r) m)) fun env => ?_
  · simp only [program, dlms_get_unit, bindArgs, convTo, asInt, X_bind, X_pure]
    rw [conv_u8 (by omega) (by omega)]
  · cases r with
    | none => exact .cons (.doWhile l) (.ret .null)
    | some s => exact .stop (.doWhile l)
  · rw [List.take_length]
    cases r <;> rfl

/-! ## `sml_value_to_double` -/

/-- The type of a value that was parsed. -/
theorem type_lt {v : Value} (h : WellTyped v ∨ Mislabelled v) : v.type < 256 := by
  rcases h with h | h
  · unfold Spec.WellTyped at h
    split at h
    · omega
    · omega
    · omega
    · exact h.elim
  · rw [h.1]
    omega

theorem double_run {v : Value} (r : Ready S m) (hr : RValue v a B) (hB : Sml.Within B S) (hg : WellTyped v ∨ Mislabelled v) (hd : valueToDouble v st = .ok d st') :
    CallTo .sml_value_to_double [ptrVal a] m (.dbl d 0) m := by
  obtain ⟨_, ps, B', hF, rfl⟩ := hr
  obtain ⟨q, rfl, hq⟩ := hF.one
  obtain ⟨ty, data⟩ := v
  have hv := hB.head
  have et : EvalTo (.ldInt .u8 (.var 0) 0) (envOf [ptrVal a]) m (.int .u8 (ty : Nat)) (envOf [ptrVal a]) m := r.int hv rfl (.ptr (by rfl))
  have ep : EvalTo (.ldPtr (.var 0) 0) (envOf [ptrVal a]) m (ptrVal q) (envOf [ptrVal a]) m := r.ptr hv rfl (.ptr (by rfl))
  refine .of (vs := [ptrVal a]) (v := .dbl d 0) (m1 := m) (fun env m => rfl) ?_ (fun env => by rw [List.take_length]; rfl)
  have dflt : valueToDouble ⟨ty, data⟩ st = .ok 0 st → UpToBreak [.print [.ldInt .u8 (.var 0) 0], .ret (.toDbl (.lit .i32 0))] (pick (ty : Int) [
      .case 81, .ret (.toDbl (.deref .i8 (.ldPtr (.var 0) 0))), .brk, .case 82, .ret (.toDbl (.deref .i16 (.ldPtr (.var 0) 0))), .brk,
      .case 84, .ret (.toDbl (.deref .i32 (.ldPtr (.var 0) 0))), .brk, .case 88, .ret (.toDbl (.deref .i64 (.ldPtr (.var 0) 0))), .brk,
      .case 97, .ret (.toDbl (.deref .u8 (.ldPtr (.var 0) 0))), .brk, .case 98, .ret (.toDbl (.deref .u16 (.ldPtr (.var 0) 0))), .brk,
      .case 100, .ret (.toDbl (.deref .u32 (.ldPtr (.var 0) 0))), .brk, .case 104, .ret (.toDbl (.deref .u64 (.ldPtr (.var 0) 0))), .brk,
      .dflt, .print [.ldInt .u8 (.var 0) 0], .ret (.toDbl (.lit .i32 0))]) →
      RunTo (program .sml_value_to_double).body (program .sml_value_to_double).body (envOf [ptrVal a]) m (.dbl d 0) m := by
    intro h hu
    rw [h] at hd
    cases hd
    exact RunTo.switch hu et (.cons (.print (.one et)) (.ret (.toDbl .lit)))
  have num : ∀ {n : Num} (ity : ITy), (q, .num n) ∈ S → Sized ity.size n → d = toDouble (ity.conv n.val) →
      UpToBreak [.ret (.toDbl (.deref ity (.ldPtr (.var 0) 0)))] (pick (ty : Int) [
      .case 81, .ret (.toDbl (.deref .i8 (.ldPtr (.var 0) 0))), .brk, .case 82, .ret (.toDbl (.deref .i16 (.ldPtr (.var 0) 0))), .brk,
      .case 84, .ret (.toDbl (.deref .i32 (.ldPtr (.var 0) 0))), .brk, .case 88, .ret (.toDbl (.deref .i64 (.ldPtr (.var 0) 0))), .brk,
      .case 97, .ret (.toDbl (.deref .u8 (.ldPtr (.var 0) 0))), .brk, .case 98, .ret (.toDbl (.deref .u16 (.ldPtr (.var 0) 0))), .brk,
      .case 100, .ret (.toDbl (.deref .u32 (.ldPtr (.var 0) 0))), .brk, .case 104, .ret (.toDbl (.deref .u64 (.ldPtr (.var 0) 0))), .brk,
      .dflt, .print [.ldInt .u8 (.var 0) 0], .ret (.toDbl (.lit .i32 0))]) →
      RunTo (program .sml_value_to_double).body (program .sml_value_to_double).body (envOf [ptrVal a]) m (.dbl d 0) m := by
    intro n ity hm hs hd hu
    rw [hd]
    exact RunTo.switch hu et (.ret (.toDbl (r.num hm hs ep)))
  rcases hg with hw | hw
  · cases data with
    | bytes x =>
      cases x with
      | none => exact hw.elim
      | some x =>
        obtain rfl : ty = 0 := hw
        exact dflt rfl ⟨rfl, .inl rfl⟩
    | boolean x =>
      cases x with
      | none => exact hw.elim
      | some x =>
        obtain rfl : ty = 0x40 := hw.1
        exact dflt rfl ⟨rfl, .inl rfl⟩
    | num x =>
      cases x with
      | none => exact hw.elim
      | some n =>
        obtain rfl : B' = [(q, .num n)] := hq
        have hm := hB.tail.head
        obtain ⟨hlt, hw⟩ := hw
        simp only at hw
        rcases hw with ⟨hn | hn | hn | hn, hw | hw⟩ | ⟨hn, hw | hw⟩ <;> rw [hn] at hlt <;> (try rw [hn] at hw) <;> subst hw
        · refine num .i8 hm ⟨hn, hlt⟩ ?_ ⟨rfl, .inr ⟨_, rfl⟩⟩
          rw [conv_signed .i8 (by simp) ⟨hn, hlt⟩]
          have : valueToDouble ⟨0x51, .num (some n)⟩ st = (if n.size = 1 then pure (toDouble n.toInt) else Sml.undef .confusion : M Int) st := rfl
          rw [this, if_pos hn] at hd
          cases hd
          rfl
        · refine num .u8 hm ⟨hn, hlt⟩ ?_ ⟨rfl, .inr ⟨_, rfl⟩⟩
          rw [conv_unsigned .u8 (by simp) ⟨hn, hlt⟩]
          have : valueToDouble ⟨0x61, .num (some n)⟩ st = (if n.size = 1 then pure (toDouble (n.val : Int)) else Sml.undef .confusion : M Int) st := rfl
          rw [this, if_pos hn] at hd
          cases hd
          rfl
        · refine num .i16 hm ⟨hn, hlt⟩ ?_ ⟨rfl, .inr ⟨_, rfl⟩⟩
          rw [conv_signed .i16 (by simp) ⟨hn, hlt⟩]
          have : valueToDouble ⟨0x52, .num (some n)⟩ st = (if n.size = 2 then pure (toDouble n.toInt) else Sml.undef .confusion : M Int) st := rfl
          rw [this, if_pos hn] at hd
          cases hd
          rfl
        · refine num .u16 hm ⟨hn, hlt⟩ ?_ ⟨rfl, .inr ⟨_, rfl⟩⟩
          rw [conv_unsigned .u16 (by simp) ⟨hn, hlt⟩]
          have : valueToDouble ⟨0x62, .num (some n)⟩ st = (if n.size = 2 then pure (toDouble (n.val : Int)) else Sml.undef .confusion : M Int) st := rfl
          rw [this, if_pos hn] at hd
          cases hd
          rfl
        · refine num .i32 hm ⟨hn, hlt⟩ ?_ ⟨rfl, .inr ⟨_, rfl⟩⟩
          rw [conv_signed .i32 (by simp) ⟨hn, hlt⟩]
          have : valueToDouble ⟨0x54, .num (some n)⟩ st = (if n.size = 4 then pure (toDouble n.toInt) else Sml.undef .confusion : M Int) st := rfl
          rw [this, if_pos hn] at hd
          cases hd
          rfl
        · refine num .u32 hm ⟨hn, hlt⟩ ?_ ⟨rfl, .inr ⟨_, rfl⟩⟩
          rw [conv_unsigned .u32 (by simp) ⟨hn, hlt⟩]
          have : valueToDouble ⟨0x64, .num (some n)⟩ st = (if n.size = 4 then pure (toDouble (n.val : Int)) else Sml.undef .confusion : M Int) st := rfl
          rw [this, if_pos hn] at hd
          cases hd
          rfl
        · refine num .i64 hm ⟨hn, hlt⟩ ?_ ⟨rfl, .inr ⟨_, rfl⟩⟩
          rw [conv_signed .i64 (by simp) ⟨hn, hlt⟩]
          have : valueToDouble ⟨0x58, .num (some n)⟩ st = (if n.size = 8 then pure (toDouble n.toInt) else Sml.undef .confusion : M Int) st := rfl
          rw [this, if_pos hn] at hd
          cases hd
          rfl
        · refine num .u64 hm ⟨hn, hlt⟩ ?_ ⟨rfl, .inr ⟨_, rfl⟩⟩
          rw [conv_unsigned .u64 (by simp) ⟨hn, hlt⟩]
          have : valueToDouble ⟨0x68, .num (some n)⟩ st = (if n.size = 8 then pure (toDouble (n.val : Int)) else Sml.undef .confusion : M Int) st := rfl
          rw [this, if_pos hn] at hd
          cases hd
          rfl
        · exact dflt rfl ⟨rfl, .inl rfl⟩
        · exact dflt rfl ⟨rfl, .inl rfl⟩
  · obtain rfl : ty = 0x60 := hw.1
    exact dflt rfl ⟨rfl, .inl rfl⟩

/-! ## Rendering -/

theorem convert_dec (b : UInt8) : convert .dec (.int .u8 b.toNat) env m = .ok (decText b.toNat) env m := by
  have h : convert .dec (.int .u8 b.toNat) env m = .ok ((if (b.toNat : Int) < 0 then [0x2D] else []) ++ decText (b.toNat : Int).natAbs) env m := rfl
  rw [h, if_neg (by omega), List.nil_append, Int.natAbs_natCast]

theorem convert_i16 {n : Nat} : convert .dec (.int .i16 n) env m = .ok (decText n) env m := by
  have h : convert .dec (.int .i16 n) env m = .ok ((if (n : Int) < 0 then [0x2D] else []) ++ decText (n : Int).natAbs) env m := rfl
  rw [h, if_neg (by omega), List.nil_append, Int.natAbs_natCast]

theorem convert_size {n : Nat} : convert .size (.int .u64 n) env m = .ok (decText n) env m := by
  have h : convert .size (.int .u64 n) env m = .ok (decText (n : Int).natAbs) env m := rfl
  rw [h, Int.natAbs_natCast]

theorem convert_hex4 {n : Nat} : convert .hex4 (.int .u32 n) env m = .ok (Sml.hex4 n) env m := by
  have h : convert .hex4 (.int .u32 n) env m = (if (ITy.promote .u32 = .i32 ∨ ITy.promote .u32 = .u32) ∧ 0 ≤ (n : Int) then pure (Sml.hex4 (n : Int).natAbs) else bad .kind : X (List UInt8)) env m := rfl
  rw [h, if_pos ⟨.inr rfl, by omega⟩, Int.natAbs_natCast]
  rfl

theorem convert_str {s : String} : convert .str (.str s) env m = .ok s.toUTF8.toList env m := rfl

theorem utf8_dash : "-".toUTF8.toList = [0x2D] := by decide +kernel
theorem utf8_colon : ":".toUTF8.toList = [0x3A] := by decide +kernel
theorem utf8_dot : ".".toUTF8.toList = [0x2E] := by decide +kernel
theorem utf8_star : "*".toUTF8.toList = [0x2A] := by decide +kernel
theorem utf8_hash : "#".toUTF8.toList = [0x23] := by decide +kernel
theorem utf8_hashnl : "#\n".toUTF8.toList = [0x23, 0x0A] := by decide +kernel
theorem utf8_true : "true".toUTF8.toList = [0x74, 0x72, 0x75, 0x65] := by decide +kernel
theorem utf8_false : "false".toUTF8.toList = [0x66, 0x61, 0x6C, 0x73, 0x65] := by decide +kernel

theorem render_dec {b : UInt8} (h : render qs vs env m = .ok r env m) : render (.dec :: qs) (.int .u8 b.toNat :: vs) env m = .ok (decText b.toNat ++ r) env m :=
  render_conv (by simp) (by simp) (convert_dec b) h

/-- The six numbers of an OBIS code. -/
theorem render_obis {a b c d e f : UInt8} {r : List UInt8} (h : render qs vs env m = .ok r env m) :
    render (.dec :: .text "-" :: .dec :: .text ":" :: .dec :: .text "." :: .dec :: .text "." :: .dec :: .text "*" :: .dec :: .text "#" :: qs)
      (.int .u8 a.toNat :: .int .u8 b.toNat :: .int .u8 c.toNat :: .int .u8 d.toNat :: .int .u8 e.toNat :: .int .u8 f.toNat :: vs) env m =
      .ok (obisText [a, b, c, d, e, f] ++ r) env m := by
  rw [render_dec (render_text_cons (render_dec (render_text_cons (render_dec (render_text_cons (render_dec (render_text_cons (render_dec (render_text_cons (render_dec (render_text_cons h)))))))))))]
  rw [utf8_dash, utf8_colon, utf8_dot, utf8_star, utf8_hash, obisText]
  simp only [List.append_assoc]

/-- `%.*f` -/
theorem render_fixed {p v e : Int} (hp : 0 ≤ p) (h : render qs vs env m = .ok r env m) :
    render (.fixed :: qs) (.int .i32 p :: .dbl v e :: vs) env m = .ok (fixedText p.toNat v e ++ r) env m := by
  have h1 : fixedOf (.int .i32 p) (.dbl v e) env m = .ok (fixedText (if p < 0 then 6 else p.toNat) v e) env m := rfl
  rw [if_neg (by omega)] at h1
  rw [render, X_bind_ok h1, X_bind_ok h]
  rfl

/-- `entry->obj_name->str[j]` -/
abbrev obisByte (j : Nat) : Expr := .byte .u8 (.ldPtr (.ldPtr (.var 5) 0) 0) (.lit .i32 j)

theorem obisByte_run {m : Mem} {env : Env} {bs : List UInt8} (r : Ready S m) (h5 : env 5 = ptrVal a) (he : (a, .struct ps is) ∈ S) (h0 : ps[0]? = some nm) (hn : (nm, .struct [q] [l]) ∈ S)
    (hq : (q, .bytes bs) ∈ S) {j : Nat} {b : UInt8} (hj : bs[j]? = some b) : EvalTo (obisByte j) env m (.int .u8 b.toNat) env m := by
  refine .byte (r.ptr hn rfl (r.ptr he h0 (.ptr h5))) .lit ((offset_ok _ _ _).trans (by rw [Nat.zero_add])) (loadByte_raw (getBlock_heap (r.has _ _ hq).1 (r.has _ _ hq).2) ?_)
  rw [List.getElem?_map, hj]
  rfl

/-- All six, and further arguments. -/
theorem obis_run {m m' : Mem} {env env' : Env} (r : Ready S m) (h5 : env 5 = ptrVal p) (he : (p, .struct ps is) ∈ S) (h0 : ps[0]? = some nm) {name : Option OctetString} (hr : repOpt RStr name nm B)
    (hB : Sml.Within B S) (ho : obisOf name st = .ok o st') :
    ∃ a b c d e f : UInt8, o = [a, b, c, d, e, f] ∧ ∀ es vs, EvalsTo es env m vs env' m' →
      EvalsTo (obisByte 0 :: obisByte 1 :: obisByte 2 :: obisByte 3 :: obisByte 4 :: obisByte 5 :: es) env m
        (.int .u8 a.toNat :: .int .u8 b.toNat :: .int .u8 c.toNat :: .int .u8 d.toNat :: .int .u8 e.toNat :: .int .u8 f.toNat :: vs) env' m' := by
  cases name with
  | none => cases ho
  | some s =>
    obtain ⟨q, hq, hs⟩ := RStr.cells hr
    have hq := hB.mem hq
    rw [obisOf] at ho
    split at ho
    · cases ho
    · rename_i hne
      have hs := hB.mem (hs hne)
      split at ho
      · rename_i h6
        cases ho
        obtain ⟨str⟩ := s
        match str, h6, hs with
        | a :: b :: c :: d :: e :: f :: rest, _, hs =>
          refine ⟨a, b, c, d, e, f, rfl, fun es vs hes => ?_⟩
          exact .cons (obisByte_run r h5 he h0 hq hs rfl) (.cons (obisByte_run r h5 he h0 hq hs rfl) (.cons (obisByte_run r h5 he h0 hq hs rfl)
            (.cons (obisByte_run r h5 he h0 hq hs rfl) (.cons (obisByte_run r h5 he h0 hq hs rfl) (.cons (obisByte_run r h5 he h0 hq hs rfl) hes)))))
      · cases ho

/-! ## An entry -/

abbrev obisFmt (qs : List Piece) : List Piece := .dec :: .text "-" :: .dec :: .text ":" :: .dec :: .text "." :: .dec :: .text "." :: .dec :: .text "*" :: .dec :: .text "#" :: qs

abbrev obisArgs (es : List Expr) : List Expr := obisByte 0 :: obisByte 1 :: obisByte 2 :: obisByte 3 :: obisByte 4 :: obisByte 5 :: es

/-- examples/sml_server.c:112-119 -/
abbrev textPart : List Stmt := [
  .ptrVar 7,
  .printf (obisFmt [.str, .text "#\n"]) (obisArgs [.call .sml_value_to_strhex [.ldPtr (.var 5) 5, .var 7, .lit .i32 1]]),
  .free (.ldPtr (.var 7) 0)]

/-- examples/sml_server.c:121-125 -/
abbrev boolPart : List Stmt := [
  .printf (obisFmt [.str, .text "#\n"]) (obisArgs [.cond (.ldPtr (.ldPtr (.var 5) 5) 0) (.str "true") (.str "false")])]

/-- examples/sml_server.c:128-145 -/
abbrev numPart : List Stmt := [
  .setPtr 8 (.call .sml_value_to_double [.ldPtr (.var 5) 5]),
  .set .i32 9 (.cond (.ldPtr (.var 5) 4) (.deref .i8 (.ldPtr (.var 5) 4)) (.lit .i32 0)),
  .set .i32 10 (.neg (.var 9)),
  .ite (.bin .lt (.var 10) (.lit .i32 0)) [
    .set .i32 10 (.lit .i32 0)] [],
  .setPtr 8 (.mulDbl (.var 8) (.pow10 (.var 9))),
  .printf (obisFmt [.fixed, .text "#"]) (obisArgs [.var 10, .var 8]),
  .setPtr 11 .null,
  .ite (.and (.ldPtr (.var 5) 3) (.bin .ne (.assignPtr 11 (.call .dlms_get_unit [.cast .u8 (.deref .u8 (.ldPtr (.var 5) 3))])) .null)) [
    .printf [.str] [.var 11]] [],
  .printf [.text "\n"] [],
  .print []]

/-- examples/sml_server.c:107-146 -/
abbrev entryBody : List Stmt := [
  .ite (.not (.ldPtr (.var 5) 5)) [.print [], .cont] [],
  .ite (.bin .eq (.ldInt .u8 (.ldPtr (.var 5) 5) 0) (.lit .i32 0)) textPart [
    .ite (.bin .eq (.ldInt .u8 (.ldPtr (.var 5) 5) 0) (.lit .i32 64)) boolPart [
      .ite (.or (.bin .eq (.bin .band (.ldInt .u8 (.ldPtr (.var 5) 5) 0) (.lit .i32 112)) (.lit .i32 80)) (.bin .eq (.bin .band (.ldInt .u8 (.ldPtr (.var 5) 5) 0) (.lit .i32 112)) (.lit .i32 96)))
        numPart []]]]

theorem textOf_at {m : Mem} (h : TextAt m a text) : convert .str (ptrVal a) env m = .ok text env m := by
  obtain ⟨ha, hz, rest, hm⟩ := id h
  have h1 : textOf (ptrVal a) env m = (lengthOf (ptrVal a) >>= fun v => asNat v >>= fun n => loadBytes (ptrVal a) n) env m := rfl
  show textOf (ptrVal a) env m = _
  rw [h1, X_bind_ok h.length, X_bind_ok asNat_int]
  refine loadBytes_raw' (getBlock_heap ha hm) (by simp) ?_
  rw [List.drop_zero, List.take_append_of_le_length (by simp), List.take_of_length_le (by simp)]

theorem text_run {env : Env} (r : Ready S m) (h5 : env 5 = ptrVal a) (he : (a, .struct ps is) ∈ S) (h0 : ps[0]? = some nm) (hv : ps[5]? = some v) {e : ListEntry}
    (rn : repOpt RStr e.objName nm Bn) (wn : Sml.Within Bn S) {x : Value} (rv : RValue x v Bv) (wv : Sml.Within Bv S) (ht : x.type = tyOctet)
    (ho : obisOf e.objName st = .ok o st1) (hs : valueToStrhex (some x) true st1 = .ok (some t) st2) :
    ∃ env', ExecsTo textPart env m .next env' (m.after (lineText m.world.pow (.text o t)) 1 [.obj [ptrVal m.next] []]) ∧ ∀ y, y < 7 → env' y = env y := by
  obtain ⟨hd, qs, B', hF, rfl⟩ := rv
  obtain ⟨d, rfl, hdd⟩ := hF.one
  obtain ⟨y, hy⟩ := hd ht
  obtain ⟨ty, data⟩ := x
  simp only at hy ht
  subst hy ht
  have hne : m.next ≠ 0 := Nat.pos_iff_ne_zero.mp r.pos
  cases y with
  | none => cases hs
  | some s =>
    by_cases hs0 : s.str = []
    · rw [valueToStrhex] at hs
      simp only [if_pos hs0] at hs
      cases hs
    · by_cases hl : s.str.length * 3 + 1 > 2147483647
      · rw [valueToStrhex] at hs
        simp only [if_neg hs0, if_pos hl] at hs
        cases hs
      · rw [(c44_rendering s tyOctet true hs0 (by omega) st1).1] at hs
        cases hs
        obtain ⟨q, hq, hqs⟩ := RStr.cells hdd
        have hq := wv.tail.mem hq
        have hqs := wv.tail.mem (hqs hs0)
        let E : Env := upd env 7 (.ptr (.stack m.stack.length) 0)
        let m1 : Mem := { m with stack := m.stack ++ [.obj [.undef] []] }
        have r1 : Ready S m1 := ⟨r.pos, r.has, r.fresh⟩
        have c := strhex_run (m := m1) (k := m.stack.length) (mixed := true) (w := .undef) hne (r1.has _ _ hqs).1 (r1.has _ _ hqs).2 (r1.has _ _ wv.head).1 (r1.has _ _ hq).1 r1.fresh
          (r1.has _ _ wv.head).2 (r1.has _ _ hq).2 (by simp [m1]) (by omega)
        generalize hm2 : strMem m1 m.stack.length (s.str.length * 3 + 1) (rendering true s.str ++ [0]) = m2 at c
        have ec : EvalTo (.call .sml_value_to_strhex [.ldPtr (.var 5) 5, .var 7, .lit .i32 1]) E m1 (ptrVal m.next) E m2 :=
          .call (.cons (r1.ptr he hv (.ptr (by exact h5))) (.cons (.ptr (by rfl)) (.cons .lit .nil))) (.args (bs := [ptrVal v, .ptr (.stack m.stack.length) 0, boolVal true]) (fun _ _ => rfl) c)
        obtain ⟨a0, a1, a2, a3, a4, a5, rfl, hobis⟩ := obis_run (env' := E) (m' := m2) r1 (env := E) (by exact h5) he h0 rn wn ho
        have hat : TextAt m2 m.next (rendering true s.str) := by
          refine ⟨hne, fun h => rendering_ne0 true s.str 0 h rfl, List.replicate (s.str.length * 3 + 1 - (rendering true s.str ++ [0]).length) none, ?_⟩
          rw [← hm2]
          show setHeap m.heap m.next _ m.next = _
          rw [setHeap_same, textSoFar]
          simp
        have x2 := ExecTo.printf (hobis _ _ (.one ec)) (render_obis (render_conv (q := .str) (by simp) (by simp) (textOf_at hat) (render_text (s := "#\n"))))
        generalize hout : obisText [a0, a1, a2, a3, a4, a5] ++ (rendering true s.str ++ "#\n".toUTF8.toList) = out at x2
        have hst : m2.stack[m.stack.length]? = some (.obj [ptrVal m.next] []) := by
          rw [← hm2]
          simp [strMem, m1]
        have hbl : m2.heap m.next = some (.raw (textSoFar (s.str.length * 3 + 1) (rendering true s.str ++ [0]))) := by
          rw [← hm2]
          exact setHeap_same
        have x3 : ExecTo (.free (.ldPtr (.var 7) 0)) E (m2.said out) .next E { m2.said out with heap := setHeap m2.heap m.next none } := by
          refine .free (.ldPtr (v := ptrVal m.next) (.ptr (l := .stack m.stack.length) (i := 0) (by rfl)) ?_) (release_put hne hbl)
          rw [loadPtr, asPtr, X_bind, X_pure]
          simp only
          rw [X_bind_ok (getBlock_stack (m := m2.said out) hst)]
          rfl
        have hend : { m2.said out with heap := setHeap m2.heap m.next none } = m.after (lineText m.world.pow (.text [a0, a1, a2, a3, a4, a5] (rendering true s.str))) 1 [.obj [ptrVal m.next] []] := by
          rw [← hm2, ← hout, utf8_hashnl]
          have e1 : setHeap (setHeap m.heap m.next (some (.raw (textSoFar (s.str.length * 3 + 1) (rendering true s.str ++ [0]))))) m.next none = m.heap := by
            rw [setHeap_twice]
            funext z
            by_cases hz : z = m.next
            · rw [hz, setHeap_same, r.fresh _ (Nat.le_refl _)]
            · rw [setHeap_other hz]
          have e2 : (m.stack ++ [Block.obj [.undef] []]).set m.stack.length (.obj [ptrVal m.next] []) = m.stack ++ [.obj [ptrVal m.next] []] := by simp
          simp only [strMem, m1, Mem.said, Mem.after, e1, e2, lineText, List.append_assoc]
        rw [hend] at x3
        exact ⟨E, .cons .ptrVar (.cons x2 (.last x3)), fun y hy => upd_other (by omega)⟩

theorem bool_run {env : Env} (r : Ready S m) (h5 : env 5 = ptrVal a) (he : (a, .struct ps is) ∈ S) (h0 : ps[0]? = some nm) (hv : ps[5]? = some v) {e : ListEntry}
    (rn : repOpt RStr e.objName nm Bn) (wn : Sml.Within Bn S) (hx : (v, .struct [d] js) ∈ S) (ho : obisOf e.objName st = .ok o st1) :
    ExecsTo boolPart env m .next env (m.after (lineText m.world.pow (.bool o (decide (d ≠ 0)))) 0 []) := by
  obtain ⟨a0, a1, a2, a3, a4, a5, rfl, hobis⟩ := obis_run (env' := env) (m' := m) r h5 he h0 rn wn ho
  have ed : EvalTo (.ldPtr (.ldPtr (.var 5) 5) 0) env m (ptrVal d) env m := r.ptr hx rfl (r.ptr he hv (.ptr h5))
  have ec : EvalTo (.cond (.ldPtr (.ldPtr (.var 5) 5) 0) (.str "true") (.str "false")) env m (.str (if d ≠ 0 then "true" else "false")) env m := by
    by_cases hd : d = 0
    · subst hd
      exact .cond ed truth_ptr0 .str
    · rw [if_pos hd]
      exact .cond ed (truth_ptr hd) .str
  have x := ExecTo.printf (hobis _ _ (.one ec)) (render_obis (render_conv (q := .str) (by simp) (by simp) convert_str (render_text (s := "#\n"))))
  rw [Mem.said_eq] at x
  have : lineText m.world.pow (.bool [a0, a1, a2, a3, a4, a5] (decide (d ≠ 0))) =
      obisText [a0, a1, a2, a3, a4, a5] ++ ((if d ≠ 0 then "true" else "false").toUTF8.toList ++ "#\n".toUTF8.toList) := by
    rw [lineText, utf8_hashnl]
    by_cases hd : d = 0
    · simp only [hd, ne_eq, not_true, decide_false, if_false, utf8_false, List.append_assoc, Bool.false_eq_true]
    · simp only [hd, ne_eq, not_false_eq_true, decide_true, if_true, utf8_true, List.append_assoc]
  rw [this]
  exact .last x

theorem scaler_run {env : Env} (r : Ready S m) (h5 : env 5 = ptrVal a) (he : (a, .struct ps is) ∈ S) (h4 : ps[4]? = some sc) {scaler : Option Num} (rs : repOpt RNum scaler sc B)
    (hB : Sml.Within B S) (hs : ∀ x, scaler = some x → Sized 1 x) :
    -128 ≤ scalerInt scaler ∧ scalerInt scaler < 128 ∧ ∃ t, EvalTo (.cond (.ldPtr (.var 5) 4) (.deref .i8 (.ldPtr (.var 5) 4)) (.lit .i32 0)) env m (.int t (scalerInt scaler)) env m := by
  have ep := r.ptr he h4 (.ptr h5)
  cases scaler with
  | none =>
    obtain ⟨rfl, rfl⟩ := rs
    exact ⟨by decide, by decide, .i32, .cond ep truth_ptr0 .lit⟩
  | some n =>
    obtain rfl : B = [(sc, .num n)] := rs
    have hn : Sized (ITy.size .i8) n := hs n rfl
    have hc := conv_signed .i8 (.inl rfl) hn
    have hb : -128 ≤ n.toInt ∧ n.toInt < 128 := by
      obtain ⟨h1, h2⟩ := hs n rfl
      rw [Num.toInt, h1]
      simp only [Nat.reducePow, Nat.reduceMul, Nat.reduceSub, Int.reducePow] at h2 ⊢
      split <;> omega
    refine ⟨hb.1, hb.2, .i8, ?_⟩
    have := r.num hB.head hn ep
    rw [hc] at this
    exact .cond ep (truth_ptr (r.has _ _ hB.head).1) this

/-- `entry->unit && (unit = dlms_get_unit(*entry->unit)) != NULL` -/
theorem unitText_run {env : Env} (r : Ready S m) (h5 : env 5 = ptrVal a) (h11 : env 11 = nullPtr) (he : (a, .struct ps is) ∈ S) (h3 : ps[3]? = some un) {unit : Option Num} (ru : repOpt RNum unit un B)
    (hB : Sml.Within B S) (hs : ∀ x, unit = some x → Sized 1 x) (hu : unitText unit st = .ok u st') :
    EvalTo (.and (.ldPtr (.var 5) 3) (.bin .ne (.assignPtr 11 (.call .dlms_get_unit [.cast .u8 (.deref .u8 (.ldPtr (.var 5) 3))])) .null)) env m (ofBool u.isSome)
      (upd env 11 (unitVal u)) m := by
  have ep := r.ptr he h3 (.ptr h5)
  cases unit with
  | none =>
    obtain ⟨rfl, rfl⟩ := ru
    cases hu
    have : upd env 11 (unitVal none) = env := by
      funext x
      by_cases hx : x = 11
      · rw [hx, upd_same, h11]
        rfl
      · rw [upd_other hx]
    rw [this]
    exact .and_f ep truth_ptr0
  | some n =>
    obtain rfl : B = [(un, .num n)] := ru
    have hn : Sized (ITy.size .u8) n := hs n rfl
    have hlt : n.val < 256 := (hs n rfl).2
    obtain ⟨u', e, c⟩ := unit_run hlt m
    rw [unitText] at hu
    simp only [e] at hu
    cases hu
    have ed := r.num hB.head hn ep
    rw [conv_unsigned .u8 (.inl rfl) hn] at ed
    have ec := EvalTo.cast (ty := .u8) ed
    rw [conv_u8 (by omega) (by omega)] at ec
    refine .and_t ep (truth_ptr (r.has _ _ hB.head).1) (.bin (.assignPtr (.call1 ec c)) .null (z := ofBool u.isSome) ?_) (truth_ofBool _)
    cases u <;> rfl

/-- The text of a unit. -/
def unitOut : Option String → List UInt8
  | some s => s.toUTF8.toList
  | none => []

theorem lineText_number : lineText pow (.number o d i p u) = obisText o ++ fixedText p.toNat (mulDouble d (pow i)) (pow i).e ++ [0x23] ++ unitOut u ++ [0x0A] := by
  cases u <;> rfl

theorem num_run {env : Env} (r : Ready S m) (h5 : env 5 = ptrVal a) (he : (a, .struct ps is) ∈ S) (h0 : ps[0]? = some nm) (h3 : ps[3]? = some un) (h4 : ps[4]? = some sc) (hv : ps[5]? = some v)
    {e : ListEntry} (rn : repOpt RStr e.objName nm Bn) (wn : Sml.Within Bn S) (ru : repOpt RNum e.unit un Bu) (wu : Sml.Within Bu S) (rs : repOpt RNum e.scaler sc Bs) (ws : Sml.Within Bs S)
    {x : Value} (rv : RValue x v Bv) (wv : Sml.Within Bv S) (hg : GoodEntry e) (hx : e.value = some x) (hd : valueToDouble x st = .ok d st1)
    (ho : obisOf e.objName st1 = .ok o st2) (hu : unitText e.unit st2 = .ok u st3) :
    ∃ env', ExecsTo numPart env m .next env' (m.after (lineText m.world.pow (.number o d (scalerInt e.scaler) (if -scalerInt e.scaler < 0 then 0 else -scalerInt e.scaler) u)) 0 []) ∧
      ∀ y, y < 7 → env' y = env y := by
  let E1 : Env := upd env 8 (.dbl d 0)
  obtain ⟨b1, b2, t, es⟩ := scaler_run (env := E1) r ((upd_other (by decide)).trans h5) he h4 rs ws hg.scaler
  generalize scalerInt e.scaler = i at b1 b2 es
  let E2 : Env := upd E1 9 (.int .i32 i)
  let E3 : Env := upd E2 10 (.int .i32 (-i))
  generalize hp : (if -i < 0 then 0 else -i) = p
  have hp0 : 0 ≤ p := by rw [← hp]; split <;> omega
  let E4 : Env := upd E2 10 (.int .i32 p)
  let E5 : Env := upd E4 8 (.dbl (mulDouble d (m.world.pow i)) (m.world.pow i).e)
  let E6 : Env := upd E5 11 nullPtr
  have x1 : ExecTo (.setPtr 8 (.call .sml_value_to_double [.ldPtr (.var 5) 5])) env m .next E1 m := .setPtr (.call1 (r.ptr he hv (.ptr h5)) (double_run r rv wv (hg.value x hx) hd))
  have x2 : ExecTo (.set .i32 9 (.cond (.ldPtr (.var 5) 4) (.deref .i8 (.ldPtr (.var 5) 4)) (.lit .i32 0))) E1 m .next E2 m := .set es (conv_i32 (by omega) (by omega))
  have x3 : ExecTo (.set .i32 10 (.neg (.var 9))) E2 m .next E3 m := .set (.neg (.int upd_same) (by omega) (by omega)) (conv_i32 (by omega) (by omega))
  have x4 : ExecTo (.ite (.bin .lt (.var 10) (.lit .i32 0)) [.set .i32 10 (.lit .i32 0)] []) E3 m .next E4 m := by
    have hc : EvalTo (.bin .lt (.var 10) (.lit .i32 0)) E3 m (ofBool (decide (-i < 0))) E3 m := .bin (.int upd_same) .lit (bin_lt_i32 ⟨by omega, by omega⟩ ⟨by omega, by omega⟩)
    by_cases h : -i < 0
    · rw [if_pos h] at hp
      have : E4 = upd E3 10 (.int .i32 0) := by
        funext y
        by_cases hy : y = 10
        · simp only [E4, E3, hy, upd_same, ← hp]
        · simp only [E4, E3, upd_other hy]
      rw [this]
      exact .ite hc (truth_pos h) (.last (.set .lit rfl))
    · rw [if_neg h] at hp
      have : E4 = E3 := by rw [show E4 = upd E2 10 (.int .i32 p) from rfl, ← hp]
      rw [this]
      exact .ite hc (truth_neg h) .nil
  have x5 : ExecTo (.setPtr 8 (.mulDbl (.var 8) (.pow10 (.var 9)))) E4 m .next E5 m := by
    have := ExecTo.setPtr (x := 8) (EvalTo.mulDbl (.var (env := E4) (m := m) (x := 8) (v := .dbl d 0) (by rfl) (by simp)) (.pow10 (.int (x := 9) (t := .i32) (n := i) (by rfl))))
    rwa [Int.zero_add] at this
  obtain ⟨a0, a1, a2, a3, a4, a5, rfl, hobis⟩ := obis_run (env := E5) (env' := E5) (m' := m) r (by exact h5) he h0 rn wn ho
  have x6 := ExecTo.printf (hobis _ _ (.cons (.int (x := 10) (t := .i32) (n := p) (by rfl)) (.one (.var (x := 8) (v := .dbl (mulDouble d (m.world.pow i)) (m.world.pow i).e) (by rfl) (by simp)))))
    (render_obis (render_fixed hp0 (render_text (s := "#"))))
  generalize hout : obisText [a0, a1, a2, a3, a4, a5] ++ (fixedText p.toNat (mulDouble d (m.world.pow i)) (m.world.pow i).e ++ "#".toUTF8.toList) = out at x6
  rw [Mem.said_eq] at x6
  have x7 : ExecTo (.setPtr 11 .null) E5 (m.after out 0 []) .next E6 (m.after out 0 []) := .setPtr .null
  have r' : Ready S (m.after out 0 []) := r.after
  have eu := unitText_run (env := E6) r' (by exact h5) upd_same he h3 ru wu hg.unit hu
  let E7 : Env := upd E6 11 (unitVal u)
  have x8 : ExecTo (.ite (.and (.ldPtr (.var 5) 3) (.bin .ne (.assignPtr 11 (.call .dlms_get_unit [.cast .u8 (.deref .u8 (.ldPtr (.var 5) 3))])) .null)) [.printf [.str] [.var 11]] []) E6 (m.after out 0 []) .next
      E7 (m.after (out ++ unitOut u) 0 []) := by
    refine .ite eu (truth_ofBool _) ?_
    cases u with
    | none =>
      rw [unitOut, List.append_nil]
      exact .nil
    | some s =>
      have := ExecTo.printf (fmt := [.str]) (env := E7) (m := m.after out 0 []) (.one (.var (x := 11) (v := .str s) upd_same (by simp))) (render_conv (q := .str) (by simp) (by simp) convert_str (qs := []) (vs := []) rfl)
      rw [Mem.said_eq, Mem.after_after, List.append_nil] at this
      exact .last this
  have x9 : ∀ o', ExecTo (.printf [.text "\n"] []) E7 (m.after o' 0 []) .next E7 (m.after (o' ++ [0x0A]) 0 []) := fun o' => by
    have := ExecTo.printf (fmt := [.text "\n"]) (env := E7) (m := m.after o' 0 []) .nil render_text
    rwa [Mem.said_eq, Mem.after_after, utf8_newline] at this
  have hline : lineText m.world.pow (.number [a0, a1, a2, a3, a4, a5] d i p u) = out ++ unitOut u ++ [0x0A] := by
    rw [lineText_number, ← hout, utf8_hash]
    simp only [List.append_assoc]
  rw [hline]
  refine ⟨E7, .cons x1 (.cons x2 (.cons x3 (.cons x4 (.cons x5 (.cons x6 (.cons x7 (.cons x8 (.cons (x9 _) (.last (.print .nil)))))))))), fun y hy => ?_⟩
  simp only [E7, E6, E5, E4, E2, E1]
  rw [upd_other (by omega), upd_other (by omega), upd_other (by omega), upd_other (by omega), upd_other (by omega), upd_other (by omega)]

end Sml.C
