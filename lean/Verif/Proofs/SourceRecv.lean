import Verif.Proofs.SourceSend
import Verif.Model.Select

/-!
# `sml_read`, run from its source
-/

namespace Sml.C

/-! ## More rules -/

theorem ExecTo.select {k : Nat} (hn : EvalTo i env m (.int t k) env1 m1) (hp : EvalTo e env1 m1 p env2 m2) (hs : selectOn k p env2 m2 = .ok () env' m') :
    ExecTo (.select i e) env m .next env' m' := by
  obtain ⟨N, r⟩ := hn
  obtain ⟨N2, r2⟩ := hp
  refine ⟨max N N2, fun n hn => ?_⟩
  rw [exec, X_bind_ok (r n (by omega)), X_bind_ok asNat_int, X_bind_ok (r2 n (by omega)), X_bind_ok hs]
  rfl

theorem EvalTo.fdHas {k : Int} (hd : EvalTo d env m (.int t k) env1 m1) (hp : EvalTo e env1 m1 p env2 m2) (hs : fdMember k p env2 m2 = .ok v env' m') :
    EvalTo (.fdHas d e) env m v env' m' := by
  obtain ⟨N, r⟩ := hd
  obtain ⟨N2, r2⟩ := hp
  refine ⟨max N N2, fun n hn => ?_⟩
  rw [eval, X_bind_ok (r n (by omega)), X_bind_ok asInt_int, X_bind_ok (r2 n (by omega)), hs]

theorem EvalTo.read {k : Nat} {d' : Int} (hd : EvalTo d env m (.int t d') env1 m1) (hp : EvalTo e env1 m1 p env2 m2) (hn : EvalTo i env2 m2 (.int t' k) env3 m3)
    (hr : readInto d' p k env3 m3 = .ok v env' m') : EvalTo (.read d e i) env m v env' m' := by
  obtain ⟨N, r⟩ := hd
  obtain ⟨N2, r2⟩ := hp
  obtain ⟨N3, r3⟩ := hn
  refine ⟨max N (max N2 N3), fun n hn => ?_⟩
  rw [eval, X_bind_ok (r n (by omega)), X_bind_ok asInt_int, X_bind_ok (r2 n (by omega)), X_bind_ok (r3 n (by omega)), X_bind_ok asNat_int, hr]

theorem EvalTo.errno : EvalTo .errno env m (.int .i32 m.world.errno) env m := .of fun Γ => by rw [eval]; rfl

theorem ExecTo.fdVar : ExecTo (.fdVar x) env m .next (upd env x (.ptr (.stack m.stack.length) 0)) { m with stack := m.stack ++ [.fresh] } :=
  ⟨0, fun _ _ => by rw [exec]; rfl⟩

theorem ExecTo.fdZero (he : EvalTo e env m p env1 m1) (hs : storeRec p [] (List.replicate 1024 0) env1 m1 = .ok () env' m') : ExecTo (.fdZero e) env m .next env' m' := by
  obtain ⟨N, r⟩ := he
  refine ⟨N, fun n hn => ?_⟩
  rw [exec, X_bind_ok (r n (by omega)), X_bind_ok hs]
  rfl

theorem ExecTo.fdAdd {k : Int} (hd : EvalTo d env m (.int t k) env1 m1) (he : EvalTo e env1 m1 p env2 m2) (hs : fdInsert k p env2 m2 = .ok () env' m') :
    ExecTo (.fdAdd d e) env m .next env' m' := by
  obtain ⟨N, r⟩ := hd
  obtain ⟨N2, r2⟩ := he
  refine ⟨max N N2, fun n hn => ?_⟩
  rw [exec, X_bind_ok (r n (by omega)), X_bind_ok asInt_int, X_bind_ok (r2 n (by omega)), X_bind_ok hs]
  rfl

/-! ## The memory while a frame is read -/

/-- The members of a set. -/
abbrev bitsOf (set : List Bool) : List Int := set.map fun b => if b then 1 else 0

/-- Memory with the two local variables `readfds` and `buf` of `sml_transport_read`. -/
abbrev rdMem (m : Mem) (set : List Bool) (w : World) (buf : List UInt8) : Mem :=
  { m with stack := m.stack ++ [.obj [] (bitsOf set), .raw (buf.map some)], world := w }

/-- The world with a descriptor of the model. -/
abbrev World.at (w : World) (fd : SFd) (ev : Option Ev) (e : Int) : World := { w with input := fd.pending, turns := fd.turns, ev := ev, errno := e }

/-- The bytes `bs` from `i` on. -/
abbrev putIn (buf : List UInt8) (i : Nat) (bs : List UInt8) : List UInt8 := buf.take i ++ bs ++ buf.drop (i + bs.length)

theorem putIn_length (h : i + bs.length ≤ buf.length) : (putIn buf i bs).length = buf.length := by
  simp only [List.length_append, List.length_take, List.length_drop]
  omega

theorem putIn_nil : putIn buf i [] = buf := by simp [putIn]

theorem putIn_append (h : i + (bs ++ cs).length ≤ buf.length) : putIn (putIn buf i bs) (i + bs.length) cs = putIn buf i (bs ++ cs) := by
  rw [List.length_append] at h
  have h1 : (buf.take i ++ bs).length = i + bs.length := by
    rw [List.length_append, List.length_take]
    omega
  unfold putIn
  rw [List.take_append_of_le_length (by omega), List.take_of_length_le (by omega), List.drop_append, h1, List.drop_of_length_le (by omega), List.nil_append, List.drop_drop,
    List.length_append, show i + bs.length + (i + bs.length + cs.length - (i + bs.length)) = i + (bs.length + cs.length) by omega]
  simp only [List.append_assoc]

theorem bits_bool (set : List Bool) : (bitsOf set).map (fun k => decide (k ≠ 0)) = set := by
  induction set with
  | nil => rfl
  | cons b bs ih =>
    show decide ((if b then (1 : Int) else 0) ≠ 0) :: (bitsOf bs).map (fun k => decide (k ≠ 0)) = b :: bs
    rw [ih]
    cases b <;> rfl

section
variable (m : Mem) (set : List Bool) (w : World) (buf : List UInt8)

theorem rd_set : getBlock (.stack m.stack.length) env (rdMem m set w buf) = .ok (.obj [] (bitsOf set)) env (rdMem m set w buf) :=
  getBlock_stack (by simp)

theorem rd_buf : getBlock (.stack (m.stack.length + 1)) env (rdMem m set w buf) = .ok (.raw (buf.map some)) env (rdMem m set w buf) :=
  getBlock_stack (by simp)

theorem rd_setSet (set' : List Bool) : setBlock (.stack m.stack.length) (.obj [] (bitsOf set')) env (rdMem m set w buf) = .ok () env (rdMem m set' w buf) := by
  rw [setBlock_stack]
  congr 2
  simp

theorem rd_setBuf (buf' : List UInt8) : setBlock (.stack (m.stack.length + 1)) (.raw (buf'.map some)) env (rdMem m set w buf) = .ok () env (rdMem m set w buf') := by
  rw [setBlock_stack]
  congr 2
  simp [List.set_append_right]

theorem rd_load : loadSet (.ptr (.stack m.stack.length) 0) env (rdMem m set w buf) = .ok (bitsOf set) env (rdMem m set w buf) := by
  rw [loadSet, asPtr, X_bind_ok (X_pure _ _ _)]
  simp only
  rw [X_bind_ok (rd_set m set w buf)]
  rfl

theorem rd_storeRec (set' : List Bool) : storeRec (.ptr (.stack m.stack.length) 0) [] (bitsOf set') env (rdMem m set w buf) = .ok () env (rdMem m set' w buf) := by
  rw [storeRec, asPtr, X_bind_ok (X_pure _ _ _)]
  simp only
  rw [X_bind_ok (rd_set m set w buf)]
  exact rd_setSet m set w buf set'

theorem rd_store {bs : List UInt8} (h : i + bs.length ≤ buf.length) :
    storeBytes (.ptr (.stack (m.stack.length + 1)) i) bs env (rdMem m set w buf) = .ok () env (rdMem m set w (putIn buf i bs)) := by
  by_cases h0 : bs = []
  · subst h0
    rw [storeBytes_nil, putIn_nil]
  · refine storeBytes_raw (rd_buf m set w buf) h0 (by rw [List.length_map]; exact h) ?_
    rw [← rd_setBuf m set w buf]
    simp only [List.map_append, List.map_take, List.map_drop]

theorem rd_select {n : Nat} (hs : Sml.select n set ((w.turns.head?.map Turn.wait).getD []) = some set') :
    selectOn n (.ptr (.stack m.stack.length) 0) env (rdMem m set w buf) =
      .ok () env (rdMem m set' { w with turns := w.turns.tail, ev := w.turns.head?.map Turn.ev } buf) := by
  rw [selectOn, X_bind_ok (rd_load m set w buf)]
  have e : waitFor n ((bitsOf set).map fun k => decide (k ≠ 0)) env (rdMem m set w buf) =
      .ok set' env (rdMem m set { w with turns := w.turns.tail, ev := w.turns.head?.map Turn.ev } buf) := by
    rw [bits_bool, waitFor]
    rw [show (rdMem m set w buf).world = w from rfl, hs]
  rw [X_bind_ok e]
  exact rd_storeRec m set _ buf set'

theorem rd_member {d : Nat} {b : Bool} (hb : set[d]? = some b) :
    fdMember (d : Int) (.ptr (.stack m.stack.length) 0) env (rdMem m set w buf) = .ok (.int .i32 (if b then 1 else 0)) env (rdMem m set w buf) := by
  rw [fdMember, X_bind_ok (rd_load m set w buf), if_neg (by omega), Int.toNat_natCast]
  have : (bitsOf set)[d]? = some (if b then 1 else 0) := by simp [hb]
  rw [this]
  rfl

end

/-! ## A round of the loop in `sml_read` -/

abbrev readCond : Expr := .bin .lt (.var 5) (.var 3)

abbrev readBody : List Stmt := [
  .select (.bin .add (.var 0) (.lit .i32 1)) (.var 1),
  .ite (.fdHas (.var 0) (.var 1)) [
    .set .i64 4 (.read (.var 0) (.addr (.var 2) (.var 5)) (.bin .sub (.var 3) (.var 5))),
    .ite (.bin .eq (.var 4) (.lit .i32 0)) [
      .ret (.lit .i32 0)] [],
    .ite (.bin .lt (.var 4) (.lit .i32 0)) [
      .ite (.or (.bin .eq .errno (.lit .i32 4)) (.bin .eq .errno (.lit .i32 11))) [
        .cont] [],
      .print [],
      .ret (.lit .i32 0)] [],
    .set .u64 5 (.bin .add (.var 5) (.var 4))] []]

/-- The variables of `sml_read`. -/
structure ReadEnv (m : Mem) (d i len tr : Nat) (env : Env) : Prop where
  h0 : env 0 = .int .i32 d
  h1 : env 1 = .ptr (.stack m.stack.length) 0
  h2 : env 2 = .ptr (.stack (m.stack.length + 1)) i
  h3 : env 3 = .int .u64 len
  h5 : env 5 = .int .u64 tr

theorem conv_i64 (h0 : -9223372036854775808 ≤ n) (h1 : n < 9223372036854775808) : ITy.conv .i64 n = n := by
  simp only [ITy.conv, ITy.signed, ITy.bits, reduceCtorEq, if_false, if_true]
  rw [Int.bmod_eq_of_le] <;> omega

section
variable {m : Mem} {d i len tr : Nat} {env : Env} {set set' : List Bool} {w : World} {buf : List UInt8} (he : ReadEnv m d i len tr env)
include he

theorem cond_run {b : Bool} (hl : len < 9223372036854775808) (ht : tr ≤ len) (hb : decide (tr < len) = b) : EvalTo readCond env m' (ofBool b) env m' := by
  subst hb
  exact .bin (.int he.h5) (.int he.h3) (cmp_u64 (by omega) (by omega)).1

theorem sel_run (hd : d < 1024) (hs : Sml.select (d + 1) set ((w.turns.head?.map Turn.wait).getD []) = some set') :
    ExecTo (.select (.bin .add (.var 0) (.lit .i32 1)) (.var 1)) env (rdMem m set w buf) .next env
      (rdMem m set' { w with turns := w.turns.tail, ev := w.turns.head?.map Turn.ev } buf) := by
  refine .select (t := .i32) (k := d + 1) (.bin (.int he.h0) .lit ?_) (.ptr he.h1) (rd_select m set w buf hs)
  rw [bin_add (ta := .i32) (tb := .i32) (conv_i32 (by omega) (by omega)) rfl]
  exact arith_i32 (by omega) (by omega)

theorem has_run {b : Bool} (hb : set[d]? = some b) :
    EvalTo (.fdHas (.var 0) (.var 1)) env (rdMem m set w buf) (.int .i32 (if b then 1 else 0)) env (rdMem m set w buf) :=
  .fdHas (.int he.h0) (.ptr he.h1) (rd_member m set w buf hb)

/-- The call of `read`. -/
theorem call_read (hl : len < 9223372036854775808) (ht : tr ≤ len)
    (hr : readInto d (.ptr (.stack (m.stack.length + 1)) (i + tr)) (len - tr) env (rdMem m set w buf) = .ok (.int .i64 k) env m1)
    (hk : -9223372036854775808 ≤ k ∧ k < 9223372036854775808) :
    ExecTo (.set .i64 4 (.read (.var 0) (.addr (.var 2) (.var 5)) (.bin .sub (.var 3) (.var 5)))) env (rdMem m set w buf) .next (upd env 4 (.int .i64 k)) m1 := by
  refine .set (t := .i64) (k := k) (.read (.int he.h0) (.addr (.ptr he.h2) (.int he.h5) (offset_ok _ _ _)) (k := len - tr) (t' := .u64) (.bin (.int he.h3) (.int he.h5) ?_) hr) (conv_i64 hk.1 hk.2)
  rw [bin_sub (ta := .u64) (tb := .u64) (natConv_u64 (by omega)) (natConv_u64 (by omega))]
  refine (arith_u64 (by omega) (by omega)).trans ?_
  rw [show ((len : Int) - (tr : Int)) = ((len - tr : Nat) : Int) by omega]

theorem ReadEnv.four : ReadEnv m d i len tr (upd env 4 v) := ⟨he.h0, he.h1, he.h2, he.h3, he.h5⟩

end

theorem cmp4 {k : Int} (hk : -9223372036854775808 ≤ k ∧ k < 9223372036854775808) :
    EvalTo (.bin .eq (.var 4) (.lit .i32 0)) (upd env 4 (.int .i64 k)) m (ofBool (decide (k = 0))) (upd env 4 (.int .i64 k)) m ∧
    EvalTo (.bin .lt (.var 4) (.lit .i32 0)) (upd env 4 (.int .i64 k)) m (ofBool (decide (k < 0))) (upd env 4 (.int .i64 k)) m :=
  ⟨.bin (.int upd_same) .lit (bin_eq (ta := .i64) (tb := .i32) (conv_i64 hk.1 hk.2) rfl), .bin (.int upd_same) .lit (bin_lt (ta := .i64) (tb := .i32) (conv_i64 hk.1 hk.2) rfl)⟩

theorem eq_i32 {k : Int} (hk : ITy.conv .i32 k = k) : binOp .eq (.int .i32 k) (.int .i32 j) env m = .ok (ofBool (decide (k = ITy.conv .i32 j))) env m := by
  simp only [binOp, intOp, ITy.usual, ITy.promote]
  show XRes.ok (ofBool (decide (ITy.conv .i32 k = ITy.conv .i32 j))) env m = _
  rw [hk]

section
variable {m : Mem} {d i len tr : Nat} {env : Env} {set : List Bool} {w : World} {buf : List UInt8} (he : ReadEnv m d i len tr env) (hb : set[d]? = some true)
  (hl : len < 9223372036854775808) (ht : tr < len)
include he hb hl ht

/-- The statement after `select` when `read` was interrupted or failed. -/
theorem round_none {no : Int} (hc : ITy.conv .i32 no = no) (hr : deliver d (len - tr) env (rdMem m set w buf) = .ok none env (rdMem m set { w with errno := no } buf)) :
    ExecTo (readBody.getD 1 .retVoid) env (rdMem m set w buf) (if no = 4 ∨ no = 11 then .cont else .ret (.int .i32 0)) (upd env 4 (.int .i64 (-1))) (rdMem m set { w with errno := no } buf) := by
  refine .ite (b := true) (has_run he hb) rfl ?_
  have r1 : readInto d (.ptr (.stack (m.stack.length + 1)) (i + tr)) (len - tr) env (rdMem m set w buf) = .ok (.int .i64 (-1)) env (rdMem m set { w with errno := no } buf) := by
    rw [readInto, X_bind_ok hr]
    rfl
  have x1 := call_read he hl (by omega) r1 (by omega)
  obtain ⟨ce, cl⟩ := cmp4 (env := env) (m := rdMem m set { w with errno := no } buf) (k := -1) (by omega)
  have hor : EvalTo (.or (.bin .eq .errno (.lit .i32 4)) (.bin .eq .errno (.lit .i32 11))) (upd env 4 (.int .i64 (-1))) (rdMem m set { w with errno := no } buf)
      (ofBool (decide (no = 4 ∨ no = 11))) (upd env 4 (.int .i64 (-1))) (rdMem m set { w with errno := no } buf) := by
    by_cases h4 : no = 4
    · rw [decide_eq_true (Or.inl h4)]
      exact .or_t (.bin .errno .lit (eq_i32 hc)) (truth_pos h4)
    · rw [show decide (no = 4 ∨ no = 11) = decide (no = 11) from decide_eq_decide.mpr ⟨fun h => h.resolve_left h4, Or.inr⟩]
      exact .or_f (.bin .errno .lit (eq_i32 hc)) (truth_neg h4) (.bin .errno .lit (eq_i32 hc)) (truth_ofBool _)
  refine .cons x1 (.cons (.ite (b := false) ce rfl .nil) (.stop (.ite (b := true) cl rfl ?_) (by split <;> intro h <;> cases h)))
  by_cases hno : no = 4 ∨ no = 11
  · rw [if_pos hno]
    rw [decide_eq_true hno] at hor
    exact .stop (.ite hor rfl (.last .cont)) (by intro h; cases h)
  · rw [if_neg hno]
    rw [decide_eq_false hno] at hor
    exact .cons (.ite hor rfl .nil) (.cons (.print .nil) (.last (.ret .lit)))

/-- The statement after `select` when `read` delivered something. -/
theorem round_some {w' : World} {bs : List UInt8} (hi : i + len ≤ buf.length) (hs : bs.length ≤ len - tr)
    (hr : deliver d (len - tr) env (rdMem m set w buf) = .ok (some bs) env (rdMem m set w' buf)) :
    ExecTo (readBody.getD 1 .retVoid) env (rdMem m set w buf) (if bs = [] then .ret (.int .i32 0) else .next)
      (if bs = [] then upd env 4 (.int .i64 0) else upd (upd env 4 (.int .i64 bs.length)) 5 (.int .u64 (tr + bs.length : Nat))) (rdMem m set w' (putIn buf (i + tr) bs)) := by
  refine .ite (b := true) (has_run he hb) rfl ?_
  have r1 : readInto d (.ptr (.stack (m.stack.length + 1)) (i + tr)) (len - tr) env (rdMem m set w buf) = .ok (.int .i64 bs.length) env (rdMem m set w' (putIn buf (i + tr) bs)) := by
    rw [readInto, X_bind_ok hr]
    simp only
    rw [X_bind_ok (rd_store m set w' buf (by omega))]
    rfl
  have x1 := call_read he hl (by omega) r1 (by omega)
  obtain ⟨ce, cl⟩ := cmp4 (env := env) (m := rdMem m set w' (putIn buf (i + tr) bs)) (k := bs.length) (by omega)
  by_cases h0 : bs = []
  · subst h0
    rw [if_pos rfl, if_pos rfl]
    exact .cons x1 (.stop (.ite (b := true) ce rfl (.last (.ret .lit))) (by intro h; cases h))
  · rw [if_neg h0, if_neg h0]
    have hp : 0 < bs.length := List.length_pos_iff.mpr h0
    refine .cons x1 (.cons (.ite (b := false) ce (truth_neg (by omega)) .nil) (.cons (.ite (b := false) cl (truth_neg (by omega)) .nil) (.last ?_)))
    refine .set (t := .u64) (k := ((tr + bs.length : Nat) : Int)) (.bin (.int he.four.h5) (.int upd_same) ?_) (natConv_u64 (by omega))
    rw [bin_add (ta := .u64) (tb := .i64) (natConv_u64 (by omega)) (natConv_u64 (by omega))]
    exact arith_u64 (by omega) (by omega)

end

/-! ## The loop -/

theorem fdIsSet_ok {α} {set : List Bool} {f : Bool → TRes α} {x : α} (h : (fdIsSet d set).bind f = .ok x) : ∃ b, set[d]? = some b ∧ f b = .ok x := by
  unfold fdIsSet at h
  cases e : set[d]? with
  | none =>
    rw [e] at h
    cases h
  | some b =>
    rw [e] at h
    exact ⟨b, rfl, h⟩

/-- What the values of `errno` have to be. -/
structure Errs (w : World) : Prop where
  intr : w.intrNo = 4 ∨ w.intrNo = 11
  fail : ITy.conv .i32 w.failNo = w.failNo ∧ w.failNo ≠ 4 ∧ w.failNo ≠ 11

abbrev loopOut (got : Option (List UInt8)) : Out := match got with
  | some _ => .next
  | none => .ret (.int .i32 0)

/-- The end of the loop. -/
theorem loop_end {acc : List UInt8} (he : ReadEnv m d i len acc.length env) (hl : len < 9223372036854775808) (ha : acc.length = len) :
    LoopTo readCond readBody [] env m' .next env m' :=
  .done (cond_run he hl (by omega) (decide_eq_false (by omega))) rfl

/-- One round in which a byte came. -/
theorem loop_give (m : Mem) (d i len : Nat) (buf0 : List UInt8) (hd : d < 1024) (hl : len < 9223372036854775808) (hib : i + len ≤ buf0.length)
    {set set' : List Bool} {acc bs : List UInt8} {w1 w2 : World} (he : ReadEnv m d i len acc.length env) (ha : acc.length < len)
    (hs : Sml.select (d + 1) set ((w1.turns.head?.map Turn.wait).getD []) = some set') (hb : set'[d]? = some true)
    (hr : deliver d (len - acc.length) env (rdMem m set' { w1 with turns := w1.turns.tail, ev := w1.turns.head?.map Turn.ev } (putIn buf0 i acc)) = .ok (some bs) env (rdMem m set' w2 (putIn buf0 i acc)))
    (hbl : bs.length ≤ len - acc.length) :
    (bs = [] → ∃ env', LoopTo readCond readBody [] env (rdMem m set w1 (putIn buf0 i acc)) (.ret (.int .i32 0)) env' (rdMem m set' w2 (putIn buf0 i acc))) ∧
    (bs ≠ [] → ∃ env1, ReadEnv m d i len (acc ++ bs).length env1 ∧ ∀ o env' m', LoopTo readCond readBody [] env1 (rdMem m set' w2 (putIn buf0 i (acc ++ bs))) o env' m' →
      LoopTo readCond readBody [] env (rdMem m set w1 (putIn buf0 i acc)) o env' m') := by
  have hc : EvalTo readCond env (rdMem m set w1 (putIn buf0 i acc)) (ofBool true) env (rdMem m set w1 (putIn buf0 i acc)) := cond_run he hl (by omega) (decide_eq_true ha)
  have x0 := sel_run (w := w1) (buf := putIn buf0 i acc) he hd hs
  have x1 := round_some he hb hl ha (by rw [putIn_length (by omega)]; omega) hbl hr
  constructor
  · rintro rfl
    rw [if_pos rfl, if_pos rfl, putIn_nil] at x1
    exact ⟨_, .stop hc rfl (.cons x0 (.last x1)) (.inr (.inr ⟨_, rfl, rfl⟩))⟩
  · intro h0
    rw [if_neg h0, if_neg h0, putIn_append (by rw [List.length_append]; omega)] at x1
    refine ⟨_, ?_, fun o env' m' lp => .round hc rfl (.cons x0 (.last x1)) .nil lp⟩
    rw [List.length_append]
    exact ⟨he.h0, he.h1, he.h2, he.h3, upd_same⟩

section
variable (m : Mem) (d i len : Nat) (w : World) (buf0 : List UInt8) (hd : d < 1024) (hl : len < 9223372036854775808) (hn : w.num = d) (hib : i + len ≤ buf0.length)
include hd hl hn hib

/-- The loop when everything comes at once. -/
theorem loop_plain : ∀ (set : List Bool) (pending : List UInt8) (need : Nat) (acc : List UInt8) (ev : Option Ev) (e : Int) (env : Env) (r : SelResult),
    ReadEnv m d i len acc.length env → acc.length + need = len → smlReadLoopS d [] set pending need acc = .ok r →
    ∃ ev' e' buf' env', LoopTo readCond readBody [] env (rdMem m set (w.at ⟨pending, []⟩ ev e) (putIn buf0 i acc)) (loopOut r.got) env' (rdMem m r.set (w.at r.fd ev' e') buf') ∧
      buf'.length = buf0.length ∧ ∀ bs, r.got = some bs → bs.length = len ∧ buf' = putIn buf0 i bs ∧ env' 5 = .int .u64 len := by
  intro set pending need acc ev e env r he ha hr
  unfold smlReadLoopS at hr
  by_cases h0 : need = 0
  · rw [if_pos h0] at hr
    cases hr
    refine ⟨ev, e, _, env, loop_end he hl (by omega), putIn_length (by omega), fun bs hbs => ?_⟩
    cases hbs
    have := he.h5
    rw [show acc.length = len by omega] at this
    exact ⟨by omega, rfl, this⟩
  · rw [if_neg h0] at hr
    cases hs : Sml.select (d + 1) set [] with
    | none =>
      rw [hs] at hr
      cases hr
    | some set' =>
      rw [hs] at hr
      obtain ⟨b, hb, hr⟩ := fdIsSet_ok hr
      cases b with
      | false => cases hr
      | true =>
        rw [if_pos rfl] at hr
        have hset : set' = set ∧ Sml.select (d + 1) set' [] = some set' := by
          have h2 := hs
          unfold Sml.select at hs
          split at hs
          · cases hs
            exact ⟨rfl, h2⟩
          · cases hs
        obtain ⟨k1, k2⟩ := loop_give m d i len buf0 hd hl hib (w1 := w.at ⟨pending, []⟩ ev e) (w2 := w.at ⟨pending.drop need, []⟩ none e) (bs := pending.take need) he (by omega) hs hb
          (by
            rw [show len - acc.length = need by omega, deliver, if_pos hn.symm]
            rfl)
          (by rw [List.length_take]; omega)
        by_cases hp : pending.length ≥ need
        · rw [if_pos hp] at hr
          cases hr
          obtain ⟨env1, he1, lp⟩ := k2 (fun h => by have := congrArg List.length h; rw [List.length_take, List.length_nil] at this; omega)
          have hlen : (acc ++ pending.take need).length = len := by rw [List.length_append, List.length_take]; omega
          refine ⟨none, e, _, env1, lp _ _ _ (loop_end he1 hl hlen), putIn_length (by omega), fun bs hbs => ?_⟩
          cases hbs
          have := he1.h5
          rw [hlen] at this
          exact ⟨hlen, rfl, this⟩
        · rw [if_neg hp] at hr
          cases hr
          have ht : pending.take need = pending := List.take_of_length_le (by omega)
          have hdr : pending.drop need = [] := List.drop_of_length_le (by omega)
          rw [ht, hdr] at k1 k2
          by_cases hpe : pending = []
          · obtain ⟨env', lp⟩ := k1 hpe
            exact ⟨none, e, _, env', lp, putIn_length (by omega), fun bs hbs => by cases hbs⟩
          · obtain ⟨env1, he1, lp⟩ := k2 hpe
            have hal : (acc ++ pending).length < len := by rw [List.length_append]; omega
            obtain ⟨k1, -⟩ := loop_give m d i len buf0 hd hl hib (w1 := w.at ⟨[], []⟩ none e) (w2 := w.at ⟨[], []⟩ none e) (bs := []) he1 hal hset.2 hb
              (by
                rw [deliver, if_pos hn.symm]
                simp)
              (by simp)
            obtain ⟨env', lp'⟩ := k1 rfl
            exact ⟨none, e, _, env', lp _ _ _ lp', putIn_length (by omega), fun bs hbs => by cases hbs⟩

/-- The loop. -/
theorem readLoop_run (hE : Errs w) : ∀ (turns : List Turn) (set : List Bool) (pending : List UInt8) (need : Nat) (acc : List UInt8) (ev : Option Ev) (e : Int) (env : Env) (r : SelResult),
    ReadEnv m d i len acc.length env → acc.length + need = len → smlReadLoopS d turns set pending need acc = .ok r →
    ∃ ev' e' buf' env', LoopTo readCond readBody [] env (rdMem m set (w.at ⟨pending, turns⟩ ev e) (putIn buf0 i acc)) (loopOut r.got) env' (rdMem m r.set (w.at r.fd ev' e') buf') ∧
      buf'.length = buf0.length ∧ ∀ bs, r.got = some bs → bs.length = len ∧ buf' = putIn buf0 i bs ∧ env' 5 = .int .u64 len
  | [], set, pending, need, acc, ev, e, env, r, he, ha, hr => loop_plain m d i len w buf0 hd hl hn hib set pending need acc ev e env r he ha hr
  | t :: ts, set, pending, need, acc, ev, e, env, r, he, ha, hr => by
    unfold smlReadLoopS at hr
    by_cases h0 : need = 0
    · rw [if_pos h0] at hr
      cases hr
      refine ⟨ev, e, _, env, loop_end he hl (by omega), putIn_length (by omega), fun bs hbs => ?_⟩
      cases hbs
      have := he.h5
      rw [show acc.length = len by omega] at this
      exact ⟨by omega, rfl, this⟩
    · rw [if_neg h0] at hr
      have hlt : acc.length < len := by omega
      have hc : ∀ m', EvalTo readCond env m' (ofBool true) env m' := fun m' => cond_run he hl (by omega) (decide_eq_true hlt)
      cases hs : Sml.select (d + 1) set t.wait with
      | none =>
        rw [hs] at hr
        cases hr
      | some set' =>
        rw [hs] at hr
        have x0 := sel_run (w := w.at ⟨pending, t :: ts⟩ ev e) (buf := putIn buf0 i acc) he hd hs
        obtain ⟨b, hb, hr⟩ := fdIsSet_ok hr
        cases b with
        | false =>
          rw [if_neg (by decide)] at hr
          obtain ⟨ev', e', buf', env', lp, hbl, hg⟩ := readLoop_run hE ts set' pending need acc (some t.ev) e env r he ha hr
          exact ⟨ev', e', buf', env', .round (hc _) rfl (.cons x0 (.last (.ite (b := false) (has_run he hb) rfl .nil))) .nil lp, hbl, hg⟩
        | true =>
          rw [if_pos rfl] at hr
          cases hev : t.ev with
          | intr =>
            rw [hev] at hr
            have x1 := round_none (w := w.at ⟨pending, ts⟩ (some t.ev) e) (buf := putIn buf0 i acc) (no := w.intrNo) he hb hl hlt (by rcases hE.intr with h | h <;> rw [h] <;> rfl)
              (by rw [deliver, if_pos hn.symm, hev])
            rw [if_pos hE.intr] at x1
            obtain ⟨ev', e', buf', env', lp, hbl, hg⟩ := readLoop_run hE ts set' pending need acc (some t.ev) w.intrNo _ r he.four ha hr
            exact ⟨ev', e', buf', env', .again (hc _) rfl (.cons x0 (.last x1)) .nil lp, hbl, hg⟩
          | fail =>
            rw [hev] at hr
            cases hr
            have x1 := round_none (w := w.at ⟨pending, ts⟩ (some t.ev) e) (buf := putIn buf0 i acc) (no := w.failNo) he hb hl hlt hE.fail.1
              (by rw [deliver, if_pos hn.symm, hev])
            rw [if_neg (fun h => h.elim hE.fail.2.1 hE.fail.2.2)] at x1
            exact ⟨_, _, _, _, .stop (hc _) rfl (.cons x0 (.last x1)) (.inr (.inr ⟨_, rfl, rfl⟩)), putIn_length (by omega), fun bs hbs => by cases hbs⟩
          | give k =>
            rw [hev] at hr
            obtain ⟨k1, k2⟩ := loop_give m d i len buf0 hd hl hib (w1 := w.at ⟨pending, t :: ts⟩ ev e) (w2 := w.at ⟨pending.drop (min (k + 1) need), ts⟩ (some t.ev) e)
              (bs := pending.take (min (k + 1) need)) he hlt hs hb
              (by
                rw [show len - acc.length = need by omega, deliver, if_pos hn.symm]
                simp only [List.head?_cons, Option.map_some, hev]
                rfl)
              (by rw [List.length_take]; omega)
            by_cases hp : pending = []
            · simp only [hp, if_true] at hr
              cases hr
              subst hp
              obtain ⟨env', lp⟩ := k1 (by simp)
              rw [List.drop_nil] at lp
              exact ⟨_, _, _, env', lp, putIn_length (by omega), fun bs hbs => by cases hbs⟩
            · simp only [if_neg hp] at hr
              have hpl : 0 < pending.length := List.length_pos_iff.mpr hp
              have hne : pending.take (min (k + 1) need) ≠ [] := fun h => by
                have := congrArg List.length h
                rw [List.length_take, List.length_nil] at this
                omega
              have e1 : pending.take (min (min (k + 1) need) pending.length) = pending.take (min (k + 1) need) := by
                rw [List.take_eq_take_min, Nat.min_assoc, Nat.min_self, ← List.take_eq_take_min]
              have e2 : pending.drop (min (min (k + 1) need) pending.length) = pending.drop (min (k + 1) need) := by
                rcases Nat.le_total (min (k + 1) need) pending.length with h | h
                · rw [Nat.min_eq_left h]
                · rw [Nat.min_eq_right h, List.drop_length, List.drop_of_length_le h]
              rw [e1, e2] at hr
              obtain ⟨env1, he1, lp1⟩ := k2 hne
              obtain ⟨ev', e', buf', env', lp, hbl, hg⟩ := readLoop_run hE ts set' _ _ _ (some t.ev) e env1 r he1 (by rw [List.length_append, List.length_take]; omega) hr
              exact ⟨ev', e', buf', env', lp1 _ _ _ lp, hbl, hg⟩

/-- `sml_read` with the local variables of `sml_transport_read`. -/
theorem smlRead_run (hE : Errs w) {set : List Bool} {fd : SFd} {r : SelResult} {t1 t2 : ITy} {ev : Option Ev} {e : Int} (hr : smlReadS d set fd len = .ok r) :
    ∃ ev' e' buf', CallTo .sml_read [.int t1 d, .ptr (.stack m.stack.length) 0, .ptr (.stack (m.stack.length + 1)) i, .int t2 len] (rdMem m set (w.at fd ev e) buf0)
        (.int .u64 (match r.got with | some _ => (len : Int) | none => 0)) (rdMem m r.set (w.at r.fd ev' e') buf') ∧
      buf'.length = buf0.length ∧ ∀ bs, r.got = some bs → bs.length = len ∧ buf' = putIn buf0 i bs := by
  have he : ReadEnv m d i len ([] : List UInt8).length (upd (upd (envOf [.int .i32 d, .ptr (.stack m.stack.length) 0, .ptr (.stack (m.stack.length + 1)) i, .int .u64 len]) 4 (.int .i64 0)) 5 (.int .u64 0)) :=
    ⟨rfl, rfl, rfl, rfl, rfl⟩
  obtain ⟨ev', e', buf', env', lp, hbl, hg⟩ := readLoop_run m d i len w buf0 hd hl hn hib hE fd.turns set fd.pending len [] ev e _ r he (by simp) hr
  rw [putIn_nil] at lp
  refine ⟨ev', e', buf', ?_, hbl, fun bs hbs => ⟨(hg bs hbs).1, (hg bs hbs).2.1⟩⟩
  have hb : ∀ env m', bindArgs (program .sml_read).params [.int t1 d, .ptr (.stack m.stack.length) 0, .ptr (.stack (m.stack.length + 1)) i, .int t2 len] env m' =
      .ok [.int .i32 d, .ptr (.stack m.stack.length) 0, .ptr (.stack (m.stack.length + 1)) i, .int .u64 len] env m' := by
    intro env m'
    have h1 : ITy.conv .i32 (d : Int) = d := conv_i32 (by omega) (by omega)
    have h2 : ITy.conv .u64 (len : Int) = len := natConv_u64 (by omega)
    simp only [program, sml_read, bindArgs, convTo, asInt, X_bind, X_pure, h1, h2]
  have hst : ∀ (s1 s2 : List Bool) (w1 w2 : World) (b1 b2 : List UInt8), ({ rdMem m s2 w2 b2 with stack := (rdMem m s2 w2 b2).stack.take (rdMem m s1 w1 b1).stack.length } : Mem) = rdMem m s2 w2 b2 := by
    intro s1 s2 w1 w2 b1 b2
    have : (rdMem m s2 w2 b2).stack.take (rdMem m s1 w1 b1).stack.length = (rdMem m s2 w2 b2).stack := List.take_of_length_le (by simp)
    rw [this]
  cases hgot : r.got with
  | none =>
    rw [hgot] at lp
    refine .of hb (.cons (.set (t := .i32) (k := 0) .lit rfl) (.cons (.set (t := .i32) (k := 0) .lit rfl) (.stop (.loop lp)))) fun env => ?_
    rw [hst]
    rfl
  | some bs =>
    rw [hgot] at lp
    refine .of hb (.cons (.set (t := .i32) (k := 0) .lit rfl) (.cons (.set (t := .i32) (k := 0) .lit rfl) (.cons (.loop lp) (.ret (.int (hg bs hgot).2.2))))) fun env => ?_
    rw [hst]
    have : ITy.conv .u64 (len : Int) = len := natConv_u64 (by omega)
    simp only [program, sml_read, resultOf, convTo, asInt, X_bind, X_pure, this]

end

end Sml.C
