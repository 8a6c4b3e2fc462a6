import Verif.Proofs.SourceWriteSeq

/-!
# The write functions of lists, run from their source

Both loops over a list count its entries in an `int`. An entry takes at least one byte of the buffer, so the counter cannot run over
when all of them have been written.
-/

namespace Sml.C

/-! ## The cursor moves -/

/-- The cursor moves at least `k` bytes and stays in the buffer. -/
def Adv (k : Nat) (m : M Unit) : Prop :=
  ∀ st u st', m st = .ok u st' → st'.data.length = st.data.length ∧ st.cursor + k ≤ st'.cursor ∧ (st.cursor ≤ st.data.length → st'.cursor ≤ st'.data.length)

theorem Adv.bind {p q : M Unit} (hp : Adv i p) (hq : Adv j q) : Adv (i + j) (p >>= fun _ => q) := by
  intro st u st' hr
  obtain ⟨_, s1, e1, e2⟩ := M_bind_eq_ok hr
  obtain ⟨a1, a2, a3⟩ := hp _ _ _ e1
  obtain ⟨b1, b2, b3⟩ := hq _ _ _ e2
  exact ⟨b1.trans a1, by omega, fun h => b3 (a3 h)⟩

theorem Adv.ite {p q : M Unit} (c : Prop) [Decidable c] (hp : Adv k p) (hq : Adv k q) : Adv k (if c then p else q) := by
  split <;> assumption

theorem Adv.undef : Adv k (undef r) := by
  intro st u st' hr
  cases hr

theorem adv_setByte (b : UInt8) : Adv 0 (setByte b) := by
  intro st u st' hr
  obtain ⟨_, rfl⟩ := setByte_eq_ok hr
  exact ⟨List.length_set, Nat.le_refl _, fun h => by simpa using h⟩

theorem adv_orByte (b : UInt8) : Adv 0 (orByte b) := by
  intro st u st' hr
  obtain ⟨_, _, _, rfl⟩ := orByte_eq_ok hr
  exact ⟨List.length_set, Nat.le_refl _, fun h => by simpa using h⟩

theorem adv_last (b : UInt8) : Adv 1 (orByte b >>= fun _ => advance) := by
  intro st u st' hr
  obtain ⟨_, s1, e1, e2⟩ := M_bind_eq_ok hr
  obtain ⟨_, hc, _, rfl⟩ := orByte_eq_ok e1
  cases e2
  exact ⟨List.length_set, Nat.le_refl _, fun _ => by simp only [List.length_set]; omega⟩

theorem adv_note (b : Bool) : Adv 0 (noteOvf b) := by
  intro st u st' hr
  cases hr
  exact ⟨rfl, Nat.le_refl _, fun h => h⟩

theorem adv_copyLoop : (fuel mask pos l : Nat) → Adv 0 (copyLoop fuel mask pos l)
  | 0, _, _, _ => .undef
  | fuel + 1, mask, pos, l => by
    rw [copyLoop]
    refine .ite _ ?_ ?_
    · intro st u st' hr
      have e : (orByte 0x80 >>= fun _ => (orByte (UInt8.ofNat ((mask &&& l) >>> (4 * pos))) >>= fun _ => advance) >>= fun _ => copyLoop fuel (mask >>> 4) (pos - 1) l) st = .ok u st' := by
        rw [← hr]
        replace hr := M_bind_eq_ok hr
        obtain ⟨_, s1, e1, hr⟩ := hr
        rw [M.bind_ok e1, M.bind_ok e1]
        replace hr := M_bind_eq_ok hr
        obtain ⟨_, s2, e2, hr⟩ := hr
        replace hr := M_bind_eq_ok hr
        obtain ⟨_, s3, e3, hr⟩ := hr
        have e23 : (orByte (UInt8.ofNat ((mask &&& l) >>> (4 * pos))) >>= fun _ => advance) s1 = .ok () s3 := by rw [M.bind_ok e2, e3]
        rw [M.bind_ok e23, M.bind_ok e2, M.bind_ok e3]
      have := ((adv_orByte _).bind ((adv_last _).bind (adv_copyLoop fuel _ _ _))) _ _ _ e
      exact ⟨this.1, by omega, this.2.2⟩
    · intro st u st' hr
      cases hr
      exact ⟨rfl, Nat.le_refl _, fun h => h⟩

theorem adv_setTypeAndLength (type l : Nat) : Adv 1 (setTypeAndLength type l) := by
  rw [setTypeAndLength]
  refine (adv_setByte _).bind (j := 1) (.ite _ (.ite _ .undef ?_) (adv_last _))
  refine (adv_note _).bind (j := 1) (.ite _ ?_ ?_)
  · exact (adv_copyLoop _ _ _ _).bind (j := 1) (adv_last _)
  · exact (adv_copyLoop _ _ _ _).bind (j := 1) (adv_last _)

theorem adv_optional : Adv 1 optionalWrite := by
  intro st u st' hr
  obtain ⟨_, s1, e1, e2⟩ := M_bind_eq_ok hr
  obtain ⟨hc, rfl⟩ := setByte_eq_ok e1
  cases e2
  exact ⟨List.length_set, Nat.le_refl _, fun _ => by simp only [List.length_set]; omega⟩

theorem Inv.adv (hi : Inv K st h) (ha : Adv k m) (hr : m st = .ok u st') : Inv K st' h := by
  obtain ⟨a1, a2, a3⟩ := ha _ _ _ hr
  exact hi.of_good ⟨a3 hi.good.cur, by rw [a1]; exact hi.good.len⟩ (by omega)

/-- The same context with the cursor as a lower bound. -/
theorem Inv.at (hi : Inv K st h) : Inv { K with lo := st.cursor } st h := ⟨hi.good, hi.nB, hi.nA, hi.lB, hi.lA, hi.ints, Nat.le_refl _, hi.old⟩

theorem WriteSpec.mono (hw : WriteSpec f w) (hi : Inv K st h) (hr : w a st h = .ok u st' h') : st.cursor ≤ st'.cursor :=
  ((hw a).run hi.at trivial hr).1.lo

theorem octetWrite_adv (hi : Inv K st h) (hr : pOctetStringWrite a st h = .ok u st' h') : st.cursor + 1 ≤ st'.cursor := by
  unfold pOctetStringWrite at hr
  by_cases ha : a = 0
  · rw [if_pos ha] at hr
    exact (adv_optional _ _ _ (lift_eq_ok hr).1).2.1
  rw [if_neg ha] at hr
  replace hr := P_bind_eq_ok hr
  obtain ⟨n, s1, h1, e1, hr⟩ := hr
  obtain ⟨_, rfl, rfl, _⟩ := readInt_eq_ok e1
  replace hr := P_bind_eq_ok hr
  obtain ⟨_, s2, h2, e2, hr⟩ := hr
  have l2 := (adv_setTypeAndLength _ _ _ _ _ (lift_eq_ok e2).1).2.1
  replace hr := P_bind_eq_ok hr
  obtain ⟨bs, s3, h3, e3, hr⟩ := hr
  have e3' : s3 = s2 := by
    unfold pOctetBytes at e3
    replace e3 := P_bind_eq_ok e3
    obtain ⟨_, s4, h4, e4, e3⟩ := e3
    obtain ⟨_, rfl, rfl, _⟩ := readPtr_eq_ok e4
    replace e3 := P_bind_eq_ok e3
    obtain ⟨_, s5, h5, e5, e3⟩ := e3
    obtain ⟨_, rfl, rfl, _⟩ := readInt_eq_ok e5
    split at e3
    · cases e3
      rfl
    · exact (readRaw_eq_ok e3).2.1
  subst e3'
  obtain ⟨_, rfl⟩ := putBytes_eq_ok (lift_eq_ok hr).1
  simp only
  omega

/-! ## Lists -/

theorem listCalls : CallSpecs [(.sml_octet_string_write, [.var 1]), (.sml_status_write, [.var 1]), (.sml_time_write, [.var 1]),
      (.sml_number_write, [.lit .i32 96, .lit .u64 1, .var 1]), (.sml_number_write, [.lit .i32 80, .lit .u64 1, .var 1]), (.sml_value_write, [.var 1]), (.sml_octet_string_write, [.var 1])]
    [pOctetStringWrite, pStatusWrite, pTimeWrite, pU8Write, pI8Write, pValueWrite, pOctetStringWrite] :=
  ⟨.plain octetStringWrite_src, .plain statusWrite_src, .plain timeWrite_src, .number (by decide) (by decide), .number (by decide) (by decide), .plain valueWrite_src,
    .plain octetStringWrite_src, trivial⟩

theorem listEntryWrite_src : WriteSpec .sml_list_entry_write pListEntryWrite :=
  WriteSpec.struct rfl rfl rfl (by decide) listCalls

theorem listEntryWrite_adv (hi : Inv K st h) (hr : pListEntryWrite a st h = .ok u st' h') : st.cursor + 1 ≤ st'.cursor := by
  unfold pListEntryWrite pWriteStruct at hr
  replace hr := P_bind_eq_ok hr
  obtain ⟨_, s1, h1, e1, hr⟩ := hr
  replace e1 := lift_eq_ok e1
  obtain ⟨e1, rfl⟩ := e1
  have l1 := (adv_setTypeAndLength _ _ _ _ _ e1).2.1
  have i1 := (hi.adv (adv_setTypeAndLength _ _) e1).at
  rw [← P_bind_unit (pWriteFields a 0 _)] at hr
  have := (Sem.writeStmts (K := { K with lo := s1.cursor }) (body := []) (x := 0) (a := a) (env := envOf [ptrVal a, K.buf]) (by rfl) (by rfl) Sem.end_ 0 _ _ listCalls).run i1 trivial hr
  have := this.1.lo
  simp only at this
  omega

theorem listLen_keeps : (fuel i k : Nat) → pListLen fuel i k st h = .ok n st' h' → st' = st ∧ h' = h ∧ k ≤ n
  | 0, _, _, hr => by cases hr
  | fuel + 1, i, k, hr => by
    rw [pListLen] at hr
    split at hr
    · replace hr := P_bind_eq_ok hr
      obtain ⟨j, s1, h1, e1, hr⟩ := hr
      obtain ⟨_, rfl, rfl, _⟩ := readPtr_eq_ok e1
      obtain ⟨rfl, rfl, h3⟩ := listLen_keeps fuel j (k + 1) hr
      exact ⟨rfl, rfl, by omega⟩
    · cases hr
      exact ⟨rfl, rfl, Nat.le_refl _⟩

theorem readPtr_here (hr : readPtr a i st h = .ok v st' h') (s : St) : readPtr a i s h = .ok v s h := by
  obtain ⟨h0, _, _, ps, is, hc, hv⟩ := readPtr_eq_ok hr
  have e : deref a s h = .ok (.struct ps is) s h := by
    unfold Sml.deref
    rw [if_neg h0, hc]
  unfold readPtr
  rw [P.bind_ok e]
  simp only [hv]
  rfl

theorem listLen_bound : (fuel i k : Nat) → pListLen fuel i k st h = .ok n st0 h0 → ∀ fuel' st1, Inv K st1 h → pListWriteLoop fuel' i st1 h = .ok u st2 h2 →
    st1.cursor + n ≤ st2.cursor + k ∧ Inv K st2 h2
  | 0, _, _, hr => by cases hr
  | fuel + 1, i, k, hr => by
    intro fuel' st1 hi hw
    rw [pListLen] at hr
    cases fuel' with
    | zero => cases hw
    | succ fuel' =>
      rw [pListWriteLoop] at hw
      by_cases h0 : i ≠ 0
      · rw [if_pos h0] at hr hw
        replace hr := P_bind_eq_ok hr
        obtain ⟨j, s1, h1, e1, hr⟩ := hr
        have e1' := e1
        obtain ⟨_, rfl, rfl, _⟩ := readPtr_eq_ok e1'
        replace hw := P_bind_eq_ok hw
        obtain ⟨_, s3, h3, e3, hw⟩ := hw
        have l3 := listEntryWrite_adv hi e3
        have i3 := ((listEntryWrite_src i).run hi trivial e3).1
        obtain rfl := keeps_listEntry _ _ _ _ _ _ e3
        replace hw := P_bind_eq_ok hw
        obtain ⟨j', s4, h4, e4, hw⟩ := hw
        rw [readPtr_here e1 s3] at e4
        cases e4
        have := listLen_bound fuel j (k + 1) hr fuel' s3 i3 hw
        exact ⟨by omega, this.2⟩
      · rw [if_neg h0] at hr hw
        cases hr
        cases hw
        exact ⟨Nat.le_refl _, hi⟩

theorem ev_ptrVar {x : Nat} (hx : env x = ptrVal i) : EvalTo (.var x) env m (ptrVal i) env m := .ptr hx

theorem truth_ptr0 : truth (ptrVal 0) env m = .ok false env m := rfl

/-- The counter goes up. -/
theorem ex_count {k : Nat} (hx : env x = .int .i32 k) (hk : k < 2147483647) :
    ExecTo (.set .i32 x (.bin .add (.var x) (.lit .i32 1))) env m .next (upd env x (.int .i32 (k + 1 : Nat))) m := by
  have eb : binOp .add (.int .i32 k) (.int .i32 1) env m = .ok (.int .i32 (k + 1 : Nat)) env m := by
    rw [bin_add (ta := .i32) (tb := .i32) (conv_i32 (by omega) (by omega)) (conv_i32 (by omega) (by omega))]
    exact arith_i32 (n := (k : Int) + 1) (by omega) (by omega)
  exact ExecTo.set (ty := .i32) (x := x) (k' := (k + 1 : Nat)) (EvalTo.bin (a := .var x) (b := .lit .i32 1) (.int hx) .lit eb) (conv_i32 (by omega) (by omega))

/-- The environment of the loops. -/
abbrev loopEnv (K : Ctx) (a i n : Nat) : Env := envOf [ptrVal a, K.buf, ptrVal i, .int .i32 (n : Nat)]

theorem upd2 : upd (loopEnv K a i n) 2 (ptrVal j) = loopEnv K a j n := by
  funext x
  match x with
  | 0 => rfl
  | 1 => rfl
  | 2 => rfl
  | 3 => rfl
  | x + 4 => rfl

theorem upd3 : upd (loopEnv K a i n) 3 (.int .i32 (k : Nat)) = loopEnv K a i k := by
  funext x
  match x with
  | 0 => rfl
  | 1 => rfl
  | 2 => rfl
  | 3 => rfl
  | x + 4 => rfl

theorem listLen_run (hi : Inv K st h) (hn : n ≤ 2147483647) (hk : RunTo body ss (loopEnv K a 0 n) (conc K st h) v m') : (fuel i k : Nat) →
    pListLen fuel i k st h = .ok n st h →
    RunTo body (.loop (.var 2) [.setPtr 2 (.ldPtr (.var 2) 7), .set .i32 3 (.bin .add (.var 3) (.lit .i32 1))] [] :: ss) (loopEnv K a i k) (conc K st h) v m'
  | 0, _, _, hr => by cases hr
  | fuel + 1, i, k, hr => by
    rw [pListLen] at hr
    refine RunTo.loop rfl rfl ?_
    by_cases h0 : i ≠ 0
    · rw [if_pos h0] at hr
      replace hr := P_bind_eq_ok hr
      obtain ⟨j, s1, h1, e1, hr⟩ := hr
      have e1' := e1
      obtain ⟨_, rfl, rfl, _⟩ := readPtr_eq_ok e1'
      have hkn := (listLen_keeps _ _ _ hr).2.2
      refine RunTo.ite (b := true) (ev_ptrVar (by rfl)) (truth_ptr h0) ?_
      have x1 : ExecTo (.setPtr 2 (.ldPtr (.var 2) 7)) (loopEnv K a i k) (conc K s1 h1) .next (loopEnv K a j k) (conc K s1 h1) := by
        have := ExecTo.setPtr (x := 2) (EvalTo.ldPtr (i := 7) (ev_ptrVar (env := loopEnv K a i k) (x := 2) (by rfl)) (loadPtr_cell hi e1))
        rwa [upd2] at this
      have x2 : ExecTo (.set .i32 3 (.bin .add (.var 3) (.lit .i32 1))) (loopEnv K a j k) (conc K s1 h1) .next (loopEnv K a j (k + 1)) (conc K s1 h1) := by
        have := ex_count (env := loopEnv K a j k) (x := 3) (k := k) (m := conc K s1 h1) (by rfl) (by omega)
        rwa [upd3] at this
      exact .cons x1 (.cons x2 (listLen_run hi hn hk fuel j (k + 1) hr))
    · rw [if_neg h0] at hr
      cases hr
      obtain rfl : i = 0 := by omega
      exact RunTo.ite (b := false) (ev_ptrVar (by rfl)) truth_ptr0 hk

theorem listWriteLoop_run : (fuel i : Nat) → (st : St) → (h : Heap) → Inv K st h → pListWriteLoop fuel i st h = .ok u st' h' →
    Inv K st' h' ∧ RunTo body [.loop (.var 2) [.expr (.call .sml_list_entry_write [.var 2, .var 1]), .setPtr 2 (.ldPtr (.var 2) 7)] []] (loopEnv K a i n) (conc K st h)
      .undef (conc K st' h')
  | 0, _, _, _, _, hr => by cases hr
  | fuel + 1, i, st, h, hi, hr => by
    rw [pListWriteLoop] at hr
    by_cases h0 : i ≠ 0
    · rw [if_pos h0] at hr
      replace hr := P_bind_eq_ok hr
      obtain ⟨_, s3, h3, e3, hr⟩ := hr
      obtain ⟨i3, _, c3⟩ := (listEntryWrite_src i).run hi trivial e3
      replace hr := P_bind_eq_ok hr
      obtain ⟨j, s4, h4, e4, hr⟩ := hr
      have e4' := e4
      obtain ⟨_, rfl, rfl, _⟩ := readPtr_eq_ok e4'
      obtain ⟨i5, r5⟩ := listWriteLoop_run fuel j _ _ i3 hr
      refine ⟨i5, RunTo.loop rfl rfl (RunTo.ite (b := true) (ev_ptrVar (by rfl)) (truth_ptr h0) ?_)⟩
      have x1 : ExecTo (.setPtr 2 (.ldPtr (.var 2) 7)) (loopEnv K a i n) (conc K s4 h4) .next (loopEnv K a j n) (conc K s4 h4) := by
        have := ExecTo.setPtr (x := 2) (EvalTo.ldPtr (i := 7) (ev_ptrVar (env := loopEnv K a i n) (x := 2) (by rfl)) (loadPtr_cell i3 e4))
        rwa [upd2] at this
      exact .cons (.expr (.call (.cons (ev_ptrVar (by rfl)) (.one (ev_buf K (by rfl)))) c3)) (.cons x1 r5)
    · rw [if_neg h0] at hr
      cases hr
      obtain rfl : i = 0 := by omega
      exact ⟨hi, RunTo.loop rfl rfl (RunTo.ite (b := false) (ev_ptrVar (by rfl)) truth_ptr0 .nil)⟩

theorem envOf_loop2 {K : Ctx} : upd (envOf [ptrVal a, K.buf]) 2 (ptrVal i) = envOf [ptrVal a, K.buf, ptrVal i] := by
  funext x
  match x with
  | 0 => rfl
  | 1 => rfl
  | 2 => rfl
  | x + 3 => rfl

theorem envOf_loop3 {K : Ctx} : upd (envOf [ptrVal a, K.buf, ptrVal i]) 3 (.int .i32 (n : Nat)) = loopEnv K a i n := by
  funext x
  match x with
  | 0 => rfl
  | 1 => rfl
  | 2 => rfl
  | 3 => rfl
  | x + 4 => rfl

/-- The body of `pListWrite` for a pointer that is not null. -/
def pListWriteBody (a : Addr) : P Unit := fun st h =>
  (pListLen (h.next + 1) a 0 >>= fun len => lift (setTypeAndLength tyList len) >>= fun _ => pListWriteLoop (h.next + 1) a : P Unit) st h

theorem pListWrite_eq (a : Addr) : pListWrite a = if a = 0 then lift optionalWrite else pListWriteBody a := by
  by_cases h0 : a = 0
  · rw [if_pos h0]
    funext st h
    unfold pListWrite
    exact congrFun (congrFun (if_pos h0) st) h
  · rw [if_neg h0]
    funext st h
    unfold pListWrite pListWriteBody
    exact congrFun (congrFun (if_neg h0) st) h

theorem listWrite_src : WriteSpec .sml_list_write pListWrite := by
  refine WriteSpec.guard rfl rfl rfl (q := pListWriteBody) pListWrite_eq fun K a h0 => ?_
  intro st h hi _ b st' h' hr
  replace hr := P_bind_eq_ok hr
  obtain ⟨n, s1, h1, e1, hr⟩ := hr
  have e1' := e1
  obtain ⟨rfl, rfl, _⟩ := listLen_keeps _ _ _ e1'
  replace hr := P_bind_eq_ok hr
  obtain ⟨_, s2, h2, e2, hr⟩ := hr
  replace e2 := lift_eq_ok e2
  obtain ⟨e2, rfl⟩ := e2
  have i2 := hi.adv (adv_setTypeAndLength _ _) e2
  have hb := listLen_bound _ _ _ e1 _ _ i2 hr
  have hn : n ≤ 2147483647 := by
    have := hb.2.good.cur
    have := hb.2.good.len
    omega
  obtain ⟨i3, r3⟩ := listWriteLoop_run (body := (program .sml_list_write).body) (a := a) (n := n) _ _ _ _ i2 hr
  obtain ⟨_, _, c2⟩ := setTypeAndLength_src .i32 .i32 (show tyList < 256 by decide) (show n < 4294967296 by omega) K s1 h2.next (K.blocks h2) hi.good trivial _ _ e2
  refine ⟨i3, trivial, ?_⟩
  have x1 : ExecTo (.setPtr 2 (.var 0)) (envOf [ptrVal a, K.buf]) (conc K s1 h2) .next (envOf [ptrVal a, K.buf, ptrVal a]) (conc K s1 h2) := by
    have := ExecTo.setPtr (x := 2) (m := conc K s1 h2) (ev_ptrVar (env := envOf [ptrVal a, K.buf]) (x := 0) (i := a) (by rfl))
    rwa [envOf_loop2] at this
  have x2 : ExecTo (.set .i32 3 (.lit .i32 0)) (envOf [ptrVal a, K.buf, ptrVal a]) (conc K s1 h2) .next (loopEnv K a a 0) (conc K s1 h2) := by
    have := ExecTo.set (ty := .i32) (x := 3) (k' := (0 : Nat)) (env := envOf [ptrVal a, K.buf, ptrVal a]) (m := conc K s1 h2) (EvalTo.lit (t := .i32) (n := 0)) rfl
    rwa [envOf_loop3] at this
  have x3 : ExecTo (.setPtr 2 (.var 0)) (loopEnv K a 0 n) (conc K s2 h2) .next (loopEnv K a a n) (conc K s2 h2) := by
    have := ExecTo.setPtr (x := 2) (m := conc K s2 h2) (ev_ptrVar (env := loopEnv K a 0 n) (x := 0) (i := a) (by rfl))
    rwa [upd2] at this
  refine RunTo.cons x1 (.cons x2 (listLen_run hi hn ?_ _ _ _ e1))
  exact .cons (.expr (.call (.cons (ev_buf K (by rfl)) (.cons .lit (.one (.int (by rfl))))) c2)) (.cons x3 r3)

/-! ## The list of object names of a profile pack request -/

theorem objectsLen_keeps : (fuel l k : Nat) → pObjectsLen fuel l k st h = .ok n st' h' → st' = st ∧ h' = h ∧ k ≤ n
  | 0, _, _, hr => by cases hr
  | fuel + 1, l, k, hr => by
    rw [pObjectsLen] at hr
    replace hr := P_bind_eq_ok hr
    obtain ⟨j, s1, h1, e1, hr⟩ := hr
    obtain ⟨_, rfl, rfl, _⟩ := readPtr_eq_ok e1
    split at hr
    · replace hr := P_bind_eq_ok hr
      obtain ⟨j', s2, h2, e2, hr⟩ := hr
      obtain ⟨_, rfl, rfl, _⟩ := readPtr_eq_ok e2
      obtain ⟨rfl, rfl, h3⟩ := objectsLen_keeps fuel j' (k + 1) hr
      exact ⟨rfl, rfl, by omega⟩
    · cases hr
      exact ⟨rfl, rfl, Nat.le_refl _⟩

theorem objectsLen_bound : (fuel l k : Nat) → pObjectsLen fuel l k st h = .ok n st0 h0 → ∀ fuel' st1, Inv K st1 h → pObjectsWriteLoop fuel' l st1 h = .ok u st2 h2 →
    st1.cursor + n ≤ st2.cursor + k ∧ Inv K st2 h2
  | 0, _, _, hr => by cases hr
  | fuel + 1, l, k, hr => by
    intro fuel' st1 hi hw
    rw [pObjectsLen] at hr
    cases fuel' with
    | zero => cases hw
    | succ fuel' =>
      rw [pObjectsWriteLoop] at hw
      replace hr := P_bind_eq_ok hr
      obtain ⟨j, s1, h1, e1, hr⟩ := hr
      have e1' := e1
      obtain ⟨_, rfl, rfl, _⟩ := readPtr_eq_ok e1'
      replace hw := P_bind_eq_ok hw
      obtain ⟨j', s4, h4, e4, hw⟩ := hw
      rw [readPtr_here e1 st1] at e4
      cases e4
      by_cases h0 : j ≠ 0
      · rw [if_pos h0] at hr hw
        replace hr := P_bind_eq_ok hr
        obtain ⟨j', s5, h5, e5, hr⟩ := hr
        rw [e1] at e5
        cases e5
        replace hw := P_bind_eq_ok hw
        obtain ⟨o, s6, h6, e6, hw⟩ := hw
        have e6' := e6
        obtain ⟨_, rfl, rfl, _⟩ := readPtr_eq_ok e6'
        replace hw := P_bind_eq_ok hw
        obtain ⟨_, s3, h3, e3, hw⟩ := hw
        have l3 := octetWrite_adv hi e3
        have i3 := ((octetStringWrite_src o).run hi trivial e3).1
        obtain rfl := keeps_octet _ _ _ _ _ _ e3
        replace hw := P_bind_eq_ok hw
        obtain ⟨j', s4, h4, e4, hw⟩ := hw
        rw [readPtr_here e1 s3] at e4
        cases e4
        have := objectsLen_bound fuel j (k + 1) hr fuel' s3 i3 hw
        exact ⟨by omega, this.2⟩
      · rw [if_neg h0] at hr hw
        cases hr
        cases hw
        exact ⟨Nat.le_refl _, hi⟩

/-- The environment of the loops. -/
abbrev objEnv (K : Ctx) (a n l : Nat) : Env := envOf [ptrVal a, K.buf, .int .i32 (n : Nat), ptrVal l]

theorem upd_obj2 : upd (objEnv K a n l) 2 (.int .i32 (k : Nat)) = objEnv K a k l := by
  funext x
  match x with
  | 0 => rfl
  | 1 => rfl
  | 2 => rfl
  | 3 => rfl
  | x + 4 => rfl

theorem upd_obj3 : upd (objEnv K a n l) 3 (ptrVal j) = objEnv K a n j := by
  funext x
  match x with
  | 0 => rfl
  | 1 => rfl
  | 2 => rfl
  | 3 => rfl
  | x + 4 => rfl

/-- `x = x->next` -/
theorem ex_next3 (hi : Inv K st h) (e : readPtr l i st h = .ok j st h) :
    ExecTo (.setPtr 3 (.ldPtr (.var 3) i)) (objEnv K a n l) (conc K st h) .next (objEnv K a n j) (conc K st h) := by
  have := ExecTo.setPtr (x := 3) (EvalTo.ldPtr (i := i) (ev_ptrVar (env := objEnv K a n l) (x := 3) (by rfl)) (loadPtr_cell hi e))
  rwa [upd_obj3] at this

theorem objectsLen_run (hi : Inv K st h) (hn : n ≤ 2147483647) (hk : ∀ l, RunTo body ss (objEnv K a n l) (conc K st h) v m') : (fuel l k : Nat) →
    pObjectsLen fuel l k st h = .ok n st h →
    RunTo body (.loop (.ldPtr (.var 3) 1) [.set .i32 2 (.bin .add (.var 2) (.lit .i32 1))] [.setPtr 3 (.ldPtr (.var 3) 1)] :: ss) (objEnv K a k l) (conc K st h) v m'
  | 0, _, _, hr => by cases hr
  | fuel + 1, l, k, hr => by
    rw [pObjectsLen] at hr
    refine RunTo.loop rfl rfl ?_
    replace hr := P_bind_eq_ok hr
    obtain ⟨j, s1, h1, e1, hr⟩ := hr
    have e1' := e1
    obtain ⟨_, rfl, rfl, _⟩ := readPtr_eq_ok e1'
    have ev : EvalTo (.ldPtr (.var 3) 1) (objEnv K a k l) (conc K s1 h1) (ptrVal j) (objEnv K a k l) (conc K s1 h1) := .ldPtr (.ptr (by rfl)) (loadPtr_cell hi e1)
    by_cases h0 : j ≠ 0
    · rw [if_pos h0] at hr
      replace hr := P_bind_eq_ok hr
      obtain ⟨j', s2, h2, e2, hr⟩ := hr
      rw [e1] at e2
      cases e2
      have hkn := (objectsLen_keeps _ _ _ hr).2.2
      refine RunTo.ite (b := true) ev (truth_ptr h0) ?_
      have x2 : ExecTo (.set .i32 2 (.bin .add (.var 2) (.lit .i32 1))) (objEnv K a k l) (conc K s1 h1) .next (objEnv K a (k + 1) l) (conc K s1 h1) := by
        have := ex_count (env := objEnv K a k l) (x := 2) (k := k) (m := conc K s1 h1) (by rfl) (by omega)
        rwa [upd_obj2] at this
      exact .cons x2 (.cons (ex_next3 hi e1) (objectsLen_run hi hn hk fuel j (k + 1) hr))
    · rw [if_neg h0] at hr
      cases hr
      obtain rfl : j = 0 := by omega
      exact RunTo.ite (b := false) ev truth_ptr0 (hk l)

theorem objectsLoop_run (body ss : List Stmt) (v : Val) (m' : Mem) : (fuel l : Nat) → (st : St) → (h : Heap) → Inv K st h → pObjectsWriteLoop fuel l st h = .ok u st' h' →
    Inv K st' h' ∧ ((∀ l, RunTo body ss (objEnv K a n l) (conc K st' h') v m') →
      RunTo body (.loop (.ldPtr (.var 3) 1) [.expr (.call .sml_octet_string_write [.ldPtr (.var 3) 0, .var 1])] [.setPtr 3 (.ldPtr (.var 3) 1)] :: ss) (objEnv K a n l) (conc K st h) v m')
  | 0, _, _, _, _, hr => by cases hr
  | fuel + 1, l, st, h, hi, hr => by
    rw [pObjectsWriteLoop] at hr
    replace hr := P_bind_eq_ok hr
    obtain ⟨j, s1, h1, e1, hr⟩ := hr
    have e1' := e1
    obtain ⟨_, rfl, rfl, _⟩ := readPtr_eq_ok e1'
    have ev : EvalTo (.ldPtr (.var 3) 1) (objEnv K a n l) (conc K s1 h1) (ptrVal j) (objEnv K a n l) (conc K s1 h1) := .ldPtr (.ptr (by rfl)) (loadPtr_cell hi e1)
    by_cases h0 : j ≠ 0
    · rw [if_pos h0] at hr
      replace hr := P_bind_eq_ok hr
      obtain ⟨o, s6, h6, e6, hr⟩ := hr
      have e6' := e6
      obtain ⟨_, rfl, rfl, _⟩ := readPtr_eq_ok e6'
      replace hr := P_bind_eq_ok hr
      obtain ⟨_, s3, h3, e3, hr⟩ := hr
      obtain ⟨i3, _, c3⟩ := (octetStringWrite_src o).run hi trivial e3
      replace hr := P_bind_eq_ok hr
      obtain ⟨j', s4, h4, e4, hr⟩ := hr
      have e4' := e4
      obtain ⟨_, rfl, rfl, _⟩ := readPtr_eq_ok e4'
      obtain ⟨i5, r5⟩ := objectsLoop_run body ss v m' fuel j' _ _ i3 hr
      refine ⟨i5, fun hk => RunTo.loop rfl rfl (RunTo.ite (b := true) ev (truth_ptr h0) ?_)⟩
      exact .cons (.expr (.call (.cons (.ldPtr (.ptr (by rfl)) (loadPtr_cell hi e6)) (.one (ev_buf K (by rfl)))) c3)) (.cons (ex_next3 i3 e4) (r5 hk))
    · rw [if_neg h0] at hr
      cases hr
      obtain rfl : j = 0 := by omega
      exact ⟨hi, fun hk => RunTo.loop rfl rfl (RunTo.ite (b := false) ev truth_ptr0 (hk l))⟩

theorem envOf_obj2 {K : Ctx} : upd (envOf [ptrVal a, K.buf]) 2 (.int .i32 (n : Nat)) = envOf [ptrVal a, K.buf, .int .i32 (n : Nat)] := by
  funext x
  match x with
  | 0 => rfl
  | 1 => rfl
  | 2 => rfl
  | x + 3 => rfl

theorem envOf_obj3 {K : Ctx} : upd (envOf [ptrVal a, K.buf, .int .i32 (n : Nat)]) 3 (ptrVal l) = objEnv K a n l := by
  funext x
  match x with
  | 0 => rfl
  | 1 => rfl
  | 2 => rfl
  | 3 => rfl
  | x + 4 => rfl

abbrev objStmt : Stmt := .ite (.ldPtr (.var 0) 7) [
      .set .i32 2 (.lit .i32 1),
      .setPtr 3 (.ldPtr (.var 0) 7),
      .setPtr 3 (.ldPtr (.var 0) 7),
      .loop (.ldPtr (.var 3) 1) [
        .set .i32 2 (.bin .add (.var 2) (.lit .i32 1))] [
        .setPtr 3 (.ldPtr (.var 3) 1)],
      .expr (.call .sml_buf_set_type_and_length [.var 1, .lit .i32 112, .var 2]),
      .setPtr 3 (.ldPtr (.var 0) 7),
      .loop (.ldPtr (.var 3) 1) [
        .expr (.call .sml_octet_string_write [.ldPtr (.var 3) 0, .var 1])] [
        .setPtr 3 (.ldPtr (.var 3) 1)]] [
      .expr (.call .sml_buf_optional_write [.var 1])]

theorem Sem.objects {k : P β} (hk : ∀ env, env 0 = ptrVal a → env 1 = K.buf → Sem K body ss env anySt k vl post) :
    Sem K body (objStmt :: ss) (envOf [ptrVal a, K.buf]) anySt (readPtr a 7 >>= fun l => pObjectsWrite l >>= fun _ => k) vl post := by
  intro st h hi _ b st' h' hr
  replace hr := P_bind_eq_ok hr
  obtain ⟨l, s1, h1, e1, hr⟩ := hr
  have e1' := e1
  obtain ⟨_, rfl, rfl, _⟩ := readPtr_eq_ok e1'
  replace hr := P_bind_eq_ok hr
  obtain ⟨_, s2, h2, e2, hr⟩ := hr
  have ev : EvalTo (.ldPtr (.var 0) 7) (envOf [ptrVal a, K.buf]) (conc K s1 h1) (ptrVal l) (envOf [ptrVal a, K.buf]) (conc K s1 h1) := .ldPtr (.ptr (by rfl)) (loadPtr_cell hi e1)
  unfold pObjectsWrite at e2
  by_cases h0 : l ≠ 0
  · rw [if_pos h0] at e2
    replace e2 := P_bind_eq_ok e2
    obtain ⟨n, s3, h3, e3, e2⟩ := e2
    have e3' := e3
    obtain ⟨rfl, rfl, _⟩ := objectsLen_keeps _ _ _ e3'
    replace e2 := P_bind_eq_ok e2
    obtain ⟨_, s4, h4, e4, e2⟩ := e2
    replace e4 := lift_eq_ok e4
    obtain ⟨e4, rfl⟩ := e4
    have l4 := (adv_setTypeAndLength _ _ _ _ _ e4).2.1
    have i4 := hi.adv (adv_setTypeAndLength _ _) e4
    have hb := objectsLen_bound _ _ _ e3 _ _ i4 e2
    have hn : n ≤ 2147483647 := by
      have := hb.2.good.cur
      have := hb.2.good.len
      omega
    obtain ⟨_, _, c4⟩ := setTypeAndLength_src .i32 .i32 (show tyList < 256 by decide) (show n < 4294967296 by omega) K s3 h4.next (K.blocks h4) hi.good trivial _ _ e4
    have l5 := objectsLoop_run (a := a) (n := n) body ss (vl b) (conc K st' h') _ _ _ _ i4 e2
    obtain ⟨i5, r5⟩ := l5
    have hk' := fun l => (hk (objEnv K a n l) (by rfl) (by rfl)).run i5 trivial hr
    refine ⟨(hk' 0).1, (hk' 0).2.1, RunTo.ite (b := true) ev (truth_ptr h0) ?_⟩
    have x1 : ExecTo (.set .i32 2 (.lit .i32 1)) (envOf [ptrVal a, K.buf]) (conc K s3 h4) .next (envOf [ptrVal a, K.buf, .int .i32 (1 : Nat)]) (conc K s3 h4) := by
      have := ExecTo.set (ty := .i32) (x := 2) (k' := (1 : Nat)) (env := envOf [ptrVal a, K.buf]) (m := conc K s3 h4) (EvalTo.lit (t := .i32) (n := 1)) rfl
      rwa [envOf_obj2] at this
    have x2 : ExecTo (.setPtr 3 (.ldPtr (.var 0) 7)) (envOf [ptrVal a, K.buf, .int .i32 (1 : Nat)]) (conc K s3 h4) .next (objEnv K a 1 l) (conc K s3 h4) := by
      have := ExecTo.setPtr (x := 3) (EvalTo.ldPtr (i := 7) (ev_ptrVar (env := envOf [ptrVal a, K.buf, .int .i32 (1 : Nat)]) (x := 0) (by rfl)) (loadPtr_cell hi e1))
      rwa [envOf_obj3] at this
    have x3 : ∀ n' l' s, Inv K s h4 → ExecTo (.setPtr 3 (.ldPtr (.var 0) 7)) (objEnv K a n' l') (conc K s h4) .next (objEnv K a n' l) (conc K s h4) := by
      intro n' l' s hs
      have := ExecTo.setPtr (x := 3) (EvalTo.ldPtr (i := 7) (ev_ptrVar (env := objEnv K a n' l') (x := 0) (by rfl)) (loadPtr_cell hs (readPtr_here e1 s)))
      rwa [upd_obj3] at this
    refine .cons x1 (.cons x2 (.cons (x3 _ _ _ hi) (objectsLen_run hi hn (fun l' => ?_) _ _ _ e3)))
    refine .cons (.expr (.call (.cons (ev_buf K (by rfl)) (.cons .lit (.one (.int (by rfl))))) c4)) (.cons (x3 _ _ _ i4) ?_)
    exact r5 fun l => (hk' l).2.2
  · rw [if_neg h0] at e2
    replace e2 := lift_eq_ok e2
    obtain ⟨e2, rfl⟩ := e2
    obtain ⟨⟨g, l'⟩, _, c⟩ := optionalWrite_src K s1 h2.next (K.blocks h2) hi.good trivial _ _ e2
    obtain ⟨i5, q5, r5⟩ := (hk (envOf [ptrVal a, K.buf]) (by rfl) (by rfl)).run (hi.of_good g l') trivial hr
    obtain rfl : l = 0 := by omega
    exact ⟨i5, q5, RunTo.ite (b := false) ev truth_ptr0 (.cons (.expr (.call1 (ev_buf K (by rfl)) c)) r5)⟩

end Sml.C
