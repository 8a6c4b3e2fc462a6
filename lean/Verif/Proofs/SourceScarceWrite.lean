import Verif.Proofs.SourcePoor
import Verif.Proofs.SourceWriteFile
import Verif.Proofs.ScarceWrite

/-!
# `sml_message_write` and `sml_file_write` from their source when memory requests are refused
-/

namespace Sml.C

/-! ## No write function asks for memory, apart from the checksum -/

theorem keeps_treeWrite' (a : Addr) : Keeps (pTreeWrite a) := fun st h _ _ _ hr => keeps_tree (h.next + 1) a st h _ _ _ hr

theorem keeps_listLen : (fuel : Nat) → (i : Addr) → (len : Nat) → Keeps (pListLen fuel i len)
  | 0, _, _ => .fault
  | n + 1, _, _ => by
    unfold pListLen
    exact .ite _ (.bind .readPtr fun _ => keeps_listLen n _ _) .pure

theorem keeps_listLoop : (fuel : Nat) → (i : Addr) → Keeps (pListWriteLoop fuel i)
  | 0, _ => .fault
  | n + 1, i => by
    unfold pListWriteLoop
    exact .ite _ (.bind (keeps_listEntry i) fun _ => .bind .readPtr fun _ => keeps_listLoop n _) .pure

theorem keeps_list (a : Addr) : Keeps (pListWrite a) := by
  intro st h u st' h' hr
  unfold pListWrite at hr
  exact (Keeps.ite _ .lift (.bind (keeps_listLen _ _ _) fun _ => .bind .lift fun _ => keeps_listLoop _ _) : Keeps _) _ _ _ _ _ hr

theorem keeps_objectsLen : (fuel : Nat) → (i : Addr) → (len : Nat) → Keeps (pObjectsLen fuel i len)
  | 0, _, _ => .fault
  | n + 1, _, _ => by
    unfold pObjectsLen
    exact .bind .readPtr fun _ => .ite _ (.bind .readPtr fun _ => keeps_objectsLen n _ _) .pure

theorem keeps_objectsLoop : (fuel : Nat) → (i : Addr) → Keeps (pObjectsWriteLoop fuel i)
  | 0, _ => .fault
  | n + 1, i => by
    unfold pObjectsWriteLoop
    exact .bind .readPtr fun _ => .ite _ (.bind .readPtr fun _ => .bind (keeps_octet _) fun _ => .bind .readPtr fun _ => keeps_objectsLoop n _) .pure

theorem keeps_objects (a : Addr) : Keeps (pObjectsWrite a) := by
  intro st h u st' h' hr
  unfold pObjectsWrite at hr
  exact (Keeps.ite _ (.bind (keeps_objectsLen _ _ _) fun _ => .bind .lift fun _ => keeps_objectsLoop _ _) .lift : Keeps _) _ _ _ _ _ hr

macro "keeps_body" : tactic => `(tactic| (
  have := keeps_time
  have := keeps_path
  have := keeps_treeWrite'
  have := keeps_list
  have := keeps_objects
  have := keeps_seq keeps_header
  have := keeps_seq keeps_profPeriod
  have := keeps_seq keeps_period
  keeps_struct))

theorem keeps_bodyData (t : Nat) (a : Addr) : Keeps (pBodyDataWrite t a) := by
  unfold pBodyDataWrite
  refine .ite _ ?_ <| .ite _ ?_ <| .ite _ ?_ <| .ite _ ?_ <| .ite _ ?_ <| .ite _ ?_ <| .ite _ ?_ <| .ite _ ?_ <| .ite _ ?_ <| .ite _ ?_ <|
    .ite _ ?_ <| .ite _ ?_ <| .ite _ ?_ <| .ite _ ?_ .pure
  · unfold pOpenRequestWrite; keeps_body
  · unfold pOpenResponseWrite; keeps_body
  · unfold pCloseRequestWrite; keeps_body
  · unfold pCloseResponseWrite; keeps_body
  · unfold pGetProfilePackRequestWrite; keeps_body
  · unfold pGetProfilePackResponseWrite; keeps_body
  · unfold pGetProfilePackRequestWrite; keeps_body
  · unfold pGetProfileListResponseWrite; keeps_body
  · unfold pGetProcParameterRequestWrite; keeps_body
  · unfold pGetProcParameterResponseWrite; keeps_body
  · unfold pSetProcParameterRequestWrite; keeps_body
  · unfold pGetListRequestWrite; keeps_body
  · unfold pGetListResponseWrite; keeps_body
  · unfold pAttentionResponseWrite; keeps_body

theorem keeps_messageBody (a : Addr) : Keeps (pMessageBodyWrite a) :=
  .bind .lift fun _ => .bind .readPtr fun _ => .bind (keeps_number _) fun _ => .bind .readPtr fun _ => .bind .readTag fun _ => .bind .readPtr fun _ => keeps_bodyData _ _

/-! ## Runs of the rest of a function -/

/-- The rest of a function does what `p` does when the next request is number `N`. -/
def PSem (av : Nat → Bool) (N : Nat) (K : Ctx) (body ss : List Stmt) (env : Env) (p : P Unit) : Prop :=
  ∀ st h, Inv K st h → h.next = N → ∀ u st' h', p st h = .ok u st' h' → Inv K st' h' ∧ PoorRun av body ss env (conc K st h) .undef (conc K st' h')

theorem PSem.step {p : P α} {k : α → P Unit} (hx : SSem K s env anySt p E anyRes) (hp : Keeps p) (hk : ∀ b, PSem av N K body ss (E b) (k b)) :
    PSem av N K body (s :: ss) env (p >>= k) := by
  intro st h hi hn u st' h' hr
  obtain ⟨b, s1, h1, e1, e2⟩ := P_bind_eq_ok hr
  obtain ⟨i1, _, r1⟩ := hx st h hi trivial b s1 h1 e1
  have := hp _ _ _ _ _ e1
  subst this
  obtain ⟨i2, r2⟩ := hk b s1 h1 i1 hn u st' h' e2
  exact ⟨i2, .cons (.lift r1 rfl) r2⟩

theorem PoorRun.lift (h : RunTo body ss env m v m') (hn : m'.next = m.next) : PoorRun av body ss env m v m' := by
  obtain ⟨N, h⟩ := h
  refine ⟨N, fun n hm g hg => ?_⟩
  obtain ⟨env', r⟩ := h n hm g hg
  exact ⟨env', ((runFrom_met (calls_met program av n) n body g ss).run _ _ _ _ _ r).2 (by rw [hn]; exact .none)⟩

theorem PSem.of_Sem {p : P Unit} (hs : Sem K body ss env anySt p (fun _ => .undef) anyRes) (hp : Keeps p) : PSem av N K body ss env p := by
  intro st h hi hn u st' h' hr
  obtain ⟨i1, _, r1⟩ := hs st h hi trivial u st' h' hr
  have := hp _ _ _ _ _ hr
  subst this
  exact ⟨i1, .lift r1 rfl⟩

/-- `int n = buf->cursor;` -/
theorem PSem.cursorInt {k : Nat → P Unit} (h1 : env y = K.buf)
    (hk : ∀ n : Nat, PSem av N { K with lo := n } body ss (upd env x (.int .i32 n)) (k n)) :
    PSem av N K body (.set .i32 x (.ldInt .u64 (.var y) 1) :: ss) env (lift cursorAsInt >>= k) := by
  intro st h hi hn u st' h' hr
  replace hr := P_bind_eq_ok hr
  obtain ⟨n, s1, h1', e, hr⟩ := hr
  obtain ⟨rfl, rfl, rfl⟩ := cursorAsInt_eq_ok e
  have hi' : Inv { K with lo := s1.cursor } s1 h1' := ⟨hi.good, hi.nB, hi.nA, hi.lB, hi.lA, hi.ints, Nat.le_refl _, hi.old⟩
  obtain ⟨i2, r2⟩ := hk s1.cursor s1 h1' hi' hn u st' h' hr
  have g1 := hi.good.cur
  have g2 := hi.good.len
  exact ⟨⟨i2.good, i2.nB, i2.nA, i2.lB, i2.lA, i2.ints, Nat.le_trans hi.lo i2.lo, i2.old⟩,
    .cons (.lift (.set (ev_cursor K h1) (conv_i32 (by omega) (by omega))) rfl) r2⟩

/-- `sml_buf_set_type_and_length(buf, SML_TYPE_LIST, n);` -/
theorem PSem.hdr {k : P Unit} {n : Nat} {t : ITy} (h1 : env 1 = K.buf) (hn : n < 4294967296) (hk : PSem av N K body ss env k) :
    PSem av N K body (.expr (.call .sml_buf_set_type_and_length [.var 1, .lit .i32 112, .lit t n]) :: ss) env (lift (setTypeAndLength tyList n) >>= fun _ => k) := by
  refine PSem.step (k := fun _ => k) (E := fun _ => env) (SSem.expr (ESem.call (as := fun K => [K.buf, .int .i32 112, .int t n]) (fun Γ m => ?_)
    (.of_M (setTypeAndLength_src .i32 t (show tyList < 256 by decide) hn)))) .lift fun _ => hk
  exact evals_cons (eval_var h1) (evals_cons rfl (evals_cons rfl evals_nil))

/-- `f(x->m, ...);` -/
theorem PSem.writeField {k : P Unit} (ha : env x = ptrVal a) (h1 : env 1 = K.buf) (hf : CallSpec f as w) (hw : ∀ b, Keeps (w b)) (hk : PSem av N K body ss env k) :
    PSem av N K body (.expr (.call f (.ldPtr (.var x) i :: as)) :: ss) env (readPtr a i >>= fun v => w v >>= fun _ => k) := by
  obtain ⟨vs, he, hs⟩ := hf
  have := PSem.step (k := fun _ => k) (E := fun _ => env) (SSem.expr (ESem.callArg (k := w) (as := vs) (ESem.ldPtr (K := K) (pre := anySt) (i := i) ha)
    (fun _ _ => he K env h1 _ _) fun b => hs b)) (.bind .readPtr hw) fun _ => hk
  rw [P_bind_assoc] at this
  exact this

theorem PSem.writeStmts (ha : env x = ptrVal a) (h1 : env 1 = K.buf) (hk : PSem av N K body ss env k) : (i : Nat) → (fs : List (Fn × List Expr)) → (ws : List (Addr → P Unit)) →
    CallSpecs fs ws → (∀ w ∈ ws, ∀ b, Keeps (w b)) → PSem av N K body (C.writeStmts x i fs ++ ss) env (pWriteFields a i ws >>= fun _ => k)
  | i, [], [], _, _ => by
    rw [pWriteFields, C.writeStmts, P_pure_bind]
    exact hk
  | i, f :: fs, w :: ws, h, hw => by
    have ih := PSem.writeStmts ha h1 hk (i + 1) fs ws h.2 fun v hv => hw v (List.mem_cons_of_mem _ hv)
    rw [pWriteFields, C.writeStmts, P_bind_assoc]
    simp only [P_bind_assoc]
    exact PSem.writeField ha h1 h.1 (hw w List.mem_cons_self) ih

/-! ## `sml_message_write` when its request is refused -/

/-- What remains of `pCrcObject` when the request is refused. -/
def pCrcRefused (start : Nat) : P Addr :=
  lift getSt >>= fun st => if st.cursor > 2147483647 then fault (.buf .narrowing)
    else lift (bufferSlice start (st.cursor - start)) >>= fun _ => pRefused

theorem Inv.skipped (hi : Inv K st h) : Inv K st { h with next := h.next + 1 } :=
  ⟨hi.good, hi.nB, hi.nA, Nat.lt_succ_of_lt hi.lB, Nat.lt_succ_of_lt hi.lA, hi.ints, hi.lo, fun a h => ⟨(hi.old a h).1, Nat.lt_succ_of_lt (hi.old a h).2⟩⟩

/-- The checksum is computed, and the pointer is NULL. -/
theorem crcRefused_run {h : Heap} (h1 : env 1 = K.buf) (h2 : env 2 = .int .i32 K.lo) (hav : av h.next = false) (hi : Inv K st h) (hr : pCrcRefused K.lo st h = .ok b st' h') :
    b = 0 ∧ st' = st ∧ h' = { h with next := h.next + 1 } ∧
    PoorEval av (.call .sml_number_init [.call .sml_crc16_calculate [.addr (.ldPtr (.var 1) 0) (.var 2), .bin .sub (.ldInt .u64 (.var 1) 1) (.var 2)], .lit .i32 96, .lit .u64 2])
      env (conc K st h) (ptrVal 0) env (conc K st { h with next := h.next + 1 }) := by
  replace hr := P_bind_eq_ok hr
  obtain ⟨s, s1, g1, e, hr⟩ := hr
  obtain ⟨rfl, rfl, rfl⟩ := getSt_eq_ok e
  have hc := hi.good.cur
  have hl := hi.good.len
  have hlo := hi.lo
  rw [if_neg (by omega)] at hr
  replace hr := P_bind_eq_ok hr
  obtain ⟨bs, s2, g2, e2, hr⟩ := hr
  obtain ⟨hle, rfl, rfl, rfl⟩ := bufferSlice_eq_ok e2
  cases hr
  have ea : EvalsTo [.addr (.ldPtr (.var 1) 0) (.var 2), .bin .sub (.ldInt .u64 (.var 1) 1) (.var 2)] env (conc K st' g2)
      [.ptr (.heap K.A) K.lo, .int .u64 (st'.cursor - K.lo : Nat)] env (conc K st' g2) := by
    have := offset_ok (env := env) (m := conc K st' g2) (.heap K.A) 0 K.lo
    rw [Nat.zero_add] at this
    refine .cons (.addr (ev_arr K h1) (.int h2) this) (.one ?_)
    refine .bin (ev_cursor K h1) (.int h2) ((bin_sub (ta := .u64) (tb := .i32) (conv_u64 (by omega) (by omega)) (conv_u64 (by omega) (by omega))).trans ?_)
    refine (arith_u64 (by omega) (by omega)).trans ?_
    congr 2
    omega
  have hq := (crc16 ((st'.data.drop K.lo).take (st'.cursor - K.lo))).isLt
  have hargs : EvalsTo [.call .sml_crc16_calculate [.addr (.ldPtr (.var 1) 0) (.var 2), .bin .sub (.ldInt .u64 (.var 1) 1) (.var 2)], .lit .i32 96, .lit .u64 2] env (conc K st' g2)
      [_, .int .i32 96, .int .u64 2] env (conc K st' g2) := .cons (.call ea (crc16_run (K := K) (by omega) (by omega))) (.cons .lit (.one .lit))
  obtain ⟨N1, c1⟩ := numberInit_poor (av := av) (ty := 96) (t1 := .u16) (t2 := .i32) (t3 := .u64) (size := 2) (conc K st' g2) hav
    (conv_u64 (n := (crc16 ((st'.data.drop K.lo).take (st'.cursor - K.lo))).toNat) (by omega) (by omega)) (by omega) (by omega)
  obtain ⟨N2, c2⟩ := hargs
  refine ⟨rfl, rfl, rfl, max N1 N2, fun n hn => ?_⟩
  rw [eval, X_bind_ok (((evals_met (calls_met program av n) _).run _ _ _ _ _ (c2 n (by omega))).2 (by exact .none))]
  exact c1 n (by omega) env

theorem messageWriteBare_eq (a : Addr) : pMessageWriteBare a = (lift cursorAsInt >>= fun n => lift (setTypeAndLength tyList 6) >>= fun _ =>
    pWriteFields a 0 [pOctetStringWrite, pU8Write, pU8Write, pMessageBodyWrite] >>= fun _ => pCrcRefused n >>= fun crc => writePtr a 4 crc >>= fun _ =>
    readPtr a 4 >>= fun v => pU16Write v >>= fun _ => lift (setByte 0x00) >>= fun _ => lift advance) := by
  unfold pMessageWriteBare pWriteStruct pCrcRefused
  congr 1
  funext n
  rw [P_bind_assoc]
  congr 1
  funext _
  congr 1
  funext _
  rw [P_bind_assoc]
  congr 1
  funext st
  rw [P_ite_bind]
  congr 1
  rw [P_bind_assoc]

theorem keepsNext_writePtr (e : writePtr a i b st h = .ok u st' h') : h'.next = h.next := by
  obtain ⟨_, _, _, _, _, _, rfl⟩ := writePtr_eq_ok e
  rfl

/-- `msg->crc = sml_number_init(...)` when the request is refused. -/
theorem PSem.crcRefused {k : P Unit} (h0 : env 0 = ptrVal a) (h1 : env 1 = K.buf) (h2 : env 2 = .int .i32 K.lo) (hav : av N = false) (hk : PSem av (N + 1) K body ss env k) :
    PSem av N K body (.stPtr (.var 0) 4 (.call .sml_number_init [.call .sml_crc16_calculate [.addr (.ldPtr (.var 1) 0) (.var 2), .bin .sub (.ldInt .u64 (.var 1) 1) (.var 2)], .lit .i32 96, .lit .u64 2]) :: ss) env
      (pCrcRefused K.lo >>= fun b => writePtr a 4 b >>= fun _ => k) := by
  intro st h hi hn u st' h' hr
  obtain ⟨c, st1, g1, e1, hr⟩ := P_bind_eq_ok hr
  obtain ⟨_, st2, g2, e2, e3⟩ := P_bind_eq_ok hr
  subst hn
  obtain ⟨rfl, rfl, rfl, N1, r1⟩ := crcRefused_run h1 h2 hav hi e1
  have i1 := hi.skipped
  have hw := writePtr_eq_ok e2
  have hnx := keepsNext_writePtr e2
  obtain ⟨_, rfl, _, _, hc, _, rfl⟩ := hw
  obtain ⟨i3, r3⟩ := hk _ _ (i1.setPs hc _) hnx u st' h' e3
  refine ⟨i3, .cons ⟨N1, fun n hn => ?_⟩ r3⟩
  rw [exec, X_bind_ok (r1 n (by omega)), X_bind_ok (eval_var h0), X_bind_ok (storePtr_cell i1 e2)]
  rfl

/-- `sml_message_write` when its request is refused. -/
theorem messageWriteBare_run {h : Heap} (hav : av h.next = false) (hi : Inv K st h) (hr : pMessageWriteBare a st h = .ok u st' h') :
    Inv K st' h' ∧ ScarceTo av .sml_message_write [ptrVal a, K.buf] (conc K st h) .undef (conc K st' h') := by
  have key : PSem av h.next K (program .sml_message_write).body (program .sml_message_write).body (envOf [ptrVal a, K.buf]) (pMessageWriteBare a) := by
    rw [messageWriteBare_eq]
    refine PSem.cursorInt (by rfl) fun n => ?_
    generalize hK : ({ K with lo := n } : Ctx) = K1
    have hlo : K1.lo = n := by rw [← hK]
    have hbuf : K1.buf = K.buf := by rw [← hK]
    rw [← hlo, ← hbuf]
    refine PSem.hdr (by rfl) (by decide) ?_
    refine PSem.writeStmts (x := 0) (by rfl) (by rfl) ?_ 0 messageCalls _
      ⟨.plain octetStringWrite_src, .number (by decide) (by decide), .number (by decide) (by decide), .plain messageBodyWrite_src, trivial⟩
      (.cons keeps_octet (.cons (fun _ => keeps_number _) (.cons (fun _ => keeps_number _) (.cons keeps_messageBody .nil))))
    refine PSem.crcRefused (by rfl) (by rfl) (by rfl) hav ?_
    refine .of_Sem ?_ (.bind .readPtr fun _ => .bind (keeps_number _) fun _ => .bind .lift fun _ => .lift)
    refine Sem.writeField (x := 0) (by rfl) (by rfl) (CallSpec.number (type := 96) (size := 2) (by decide) (by decide)) ?_
    exact Sem.endByte (by rfl)
  obtain ⟨i1, r1⟩ := key st h hi rfl u st' h' hr
  exact ⟨i1, .run (fun _ _ => rfl) r1 fun env => congrArg (XRes.ok _ env) (mem_stack (conc K st' h') (s := K.σ) rfl)⟩

/-! ## One request for each message -/

theorem bare_next {h : Heap} (hr : pMessageWriteBare a st h = .ok u st' h') : h'.next = h.next + 1 := by
  rw [messageWriteBare_eq] at hr
  obtain ⟨n, s1, h1, e1, hr⟩ := P_bind_eq_ok hr
  replace hr := P_bind_eq_ok hr
  obtain ⟨_, s2, h2, e2, hr⟩ := hr
  replace hr := P_bind_eq_ok hr
  obtain ⟨_, s3, h3, e3, hr⟩ := hr
  replace hr := P_bind_eq_ok hr
  obtain ⟨c, s4, h4, e4, hr⟩ := hr
  replace hr := P_bind_eq_ok hr
  obtain ⟨_, s5, h5, e5, hr⟩ := hr
  have k1 : h1 = h := Keeps.lift _ _ _ _ _ e1
  have k2 : h2 = h1 := Keeps.lift _ _ _ _ _ e2
  have k3 : h3 = h2 := Keeps.fields _ _ _ (.cons keeps_octet (.cons (fun _ => keeps_number _) (.cons (fun _ => keeps_number _) (.cons keeps_messageBody .nil)))) _ _ _ _ _ e3
  have k5 := keepsNext_writePtr e5
  have k6 : h' = h5 := (Keeps.bind .readPtr fun _ => .bind (keeps_number _) fun _ => .bind .lift fun _ => .lift : Keeps _) _ _ _ _ _ hr
  have k4 : h4.next = h3.next + 1 := by
    replace e4 := P_bind_eq_ok e4
    obtain ⟨x, s6, h6, e6, e4⟩ := e4
    have k7 : h6 = h3 := Keeps.lift _ _ _ _ _ e6
    subst k7
    split at e4
    · cases e4
    · replace e4 := P_bind_eq_ok e4
      obtain ⟨_, s8, h8, e8, e4⟩ := e4
      have k8 : h8 = h6 := Keeps.lift _ _ _ _ _ e8
      subst k8
      cases e4
      rfl
  subst k1 k2 k3 k6
  rw [k5, k4]

theorem messageWrite_next {h : Heap} (hr : pMessageWrite a st h = .ok u st' h') : h'.next = h.next + 1 := by
  rw [messageWrite_eq] at hr
  obtain ⟨n, s1, h1, e1, hr⟩ := P_bind_eq_ok hr
  replace hr := P_bind_eq_ok hr
  obtain ⟨_, s2, h2, e2, hr⟩ := hr
  replace hr := P_bind_eq_ok hr
  obtain ⟨_, s3, h3, e3, hr⟩ := hr
  replace hr := P_bind_eq_ok hr
  obtain ⟨c, s4, h4, e4, hr⟩ := hr
  replace hr := P_bind_eq_ok hr
  obtain ⟨_, s5, h5, e5, hr⟩ := hr
  have k1 : h1 = h := Keeps.lift _ _ _ _ _ e1
  have k2 : h2 = h1 := Keeps.lift _ _ _ _ _ e2
  have k3 : h3 = h2 := Keeps.fields _ _ _ (.cons keeps_octet (.cons (fun _ => keeps_number _) (.cons (fun _ => keeps_number _) (.cons keeps_messageBody .nil)))) _ _ _ _ _ e3
  have k5 := keepsNext_writePtr e5
  have k6 : h' = h5 := (Keeps.bind .readPtr fun _ => .bind (keeps_number _) fun _ => .bind .lift fun _ => .lift : Keeps _) _ _ _ _ _ hr
  have k4 : h4.next = h3.next + 1 := by
    replace e4 := P_bind_eq_ok e4
    obtain ⟨x, s6, h6, e6, e4⟩ := e4
    have k7 : h6 = h3 := Keeps.lift _ _ _ _ _ e6
    subst k7
    split at e4
    · cases e4
    · replace e4 := P_bind_eq_ok e4
      obtain ⟨_, s8, h8, e8, e4⟩ := e4
      have k8 : h8 = h6 := Keeps.lift _ _ _ _ _ e8
      subst k8
      cases e4
      rfl
  subst k1 k2 k3 k6
  rw [k5, k4]

/-- `sml_message_write` with its request met or not. -/
theorem messageWriteAsked_run (K : Ctx) (av : Nat → Bool) {n0 : Nat} {c0 : Nat → Option HCell} {m : Message} {B D g : List Blk} {s : St} {h : Heap}
    (hrm : RMessage m p B) (o : Own n0 c0 h (B ++ D ++ g)) (hi : Inv K s.dry h) (e : messageWriteAsked (av h.next) m s = .ok m' s') :
    ∃ h' B' g', RMessage m' p B' ∧ Own n0 c0 h' (B' ++ D ++ g') ∧ Inv K s'.dry h' ∧ h'.next = h.next + 1 ∧
      s'.live + ((B ++ D).length + g.length) = s.live + ((B' ++ D).length + g'.length) ∧
      ScarceTo av .sml_message_write [ptrVal p, K.buf] (conc K s.dry h) .undef (conc K s'.dry h') := by
  unfold messageWriteAsked at e
  cases hav : av h.next with
  | true =>
    rw [hav, if_pos rfl] at e
    obtain ⟨_, k1, B1', g1, w1, ⟨B1'', hrm', rfl⟩, o1, l1⟩ := sim_messageWrite m p hrm s n0 c0 h g o m' s' e
    obtain ⟨i1, _, c1⟩ := (messageWrite_src p).run hi trivial w1
    have hn := messageWrite_next w1
    refine ⟨k1, B1'', g1, hrm', o1, i1, hn, l1, .of_met c1 fun i h1 h2 => ?_⟩
    have h1' : h.next ≤ i := h1
    have h2' : i < k1.next := h2
    rw [show i = h.next by omega]
    exact hav
  | false =>
    rw [hav, if_neg (by decide)] at e
    obtain ⟨_, k1, B1', g1, w1, ⟨B1'', hrm', rfl⟩, o1, l1⟩ := sim_messageWriteBare m p hrm s n0 c0 h g o m' s' e
    obtain ⟨i1, c1⟩ := messageWriteBare_run hav hi w1
    exact ⟨k1, B1'', g1, hrm', o1, i1, bare_next w1, l1, c1⟩

/-! ## Loops -/

def PoorExecs (av : Nat → Bool) (ss : List Stmt) (env : Env) (m : Mem) (o : Out) (env' : Env) (m' : Mem) : Prop :=
  ∃ N, ∀ n, N ≤ n → execs (scarce program av n) n ss env m = .ok o env' m'

def PoorLoop (av : Nat → Bool) (c : Expr) (body step : List Stmt) (env : Env) (m : Mem) (o : Out) (env' : Env) (m' : Mem) : Prop :=
  ∃ N, ∀ n, N ≤ n → ∀ k, N ≤ k →
    whileLoop (do truth (← eval (scarce program av n) c)) (execs (scarce program av n) n body) (execs (scarce program av n) n step) k env m = .ok o env' m'

theorem PoorExecs.nil : PoorExecs av [] env m .next env m := ⟨0, fun _ _ => by rw [execs]; rfl⟩

theorem PoorExecs.cons (hs : PoorExec av s env m .next env1 m1) (hr : PoorExecs av ss env1 m1 o env' m') : PoorExecs av (s :: ss) env m o env' m' := by
  obtain ⟨N, r⟩ := hs
  obtain ⟨N2, r2⟩ := hr
  refine ⟨max N N2, fun n hn => ?_⟩
  rw [execs, X_bind_ok (r n (by omega))]
  exact r2 n (by omega)

theorem PoorLoop.done (hc : PoorEval av c env m v env' m') (ht : truth v env' m' = .ok false env' m') : PoorLoop av c b s env m .next env' m' := by
  obtain ⟨N, r⟩ := hc
  refine ⟨N + 1, fun n hn k hk => ?_⟩
  obtain ⟨k, rfl⟩ : ∃ j, k = j + 1 := ⟨k - 1, by omega⟩
  rw [whileLoop, X_bind_ok ((X_bind_ok (r n (by omega))).trans ht)]
  rfl

theorem PoorLoop.round (hc : PoorEval av c env m v env1 m1) (ht : truth v env1 m1 = .ok true env1 m1) (hb : PoorExecs av b env1 m1 .next env2 m2)
    (hs : PoorExecs av s env2 m2 o' env3 m3) (hl : PoorLoop av c b s env3 m3 o env' m') : PoorLoop av c b s env m o env' m' := by
  obtain ⟨N, r⟩ := hc
  obtain ⟨N2, r2⟩ := hb
  obtain ⟨N3, r3⟩ := hs
  obtain ⟨N4, r4⟩ := hl
  refine ⟨max (max N N2) (max N3 N4) + 1, fun n hn k hk => ?_⟩
  obtain ⟨k, rfl⟩ : ∃ j, k = j + 1 := ⟨k - 1, by omega⟩
  rw [whileLoop, X_bind_ok ((X_bind_ok (r n (by omega))).trans ht)]
  refine (X_bind_ok (r2 n (by omega))).trans ((X_bind_ok (r3 n (by omega))).trans (r4 n (by omega) k (by omega)))

theorem PoorExec.loop (h : PoorLoop av c b s env m o env' m') : PoorExec av (.loop c b s) env m o env' m' := by
  obtain ⟨N, r⟩ := h
  refine ⟨N, fun n hn => ?_⟩
  rw [exec]
  exact r n hn n hn

theorem PoorExec.ite {A B : List Stmt} (hc : PoorEval av c env m v env1 m1) (ht : truth v env1 m1 = .ok b env1 m1)
    (hs : PoorExecs av (if b then A else B) env1 m1 o env' m') : PoorExec av (.ite c A B) env m o env' m' := by
  obtain ⟨N, r⟩ := hc
  obtain ⟨N2, r2⟩ := hs
  refine ⟨max N N2, fun n hn => ?_⟩
  rw [exec, X_bind_ok (r n (by omega)), X_bind_ok ht]
  have := r2 n (by omega)
  cases b <;> exact this

/-- `f(...);` with arguments that ask for no memory. -/
theorem PoorExec.call (ha : EvalsTo as env m vs env m) (hf : ScarceTo av f vs m v m') : PoorExec av (.expr (.call f as)) env m .next env m' := by
  obtain ⟨N, r⟩ := ha
  obtain ⟨N2, r2⟩ := hf
  refine ⟨max N N2, fun n hn => ?_⟩
  have h1 : eval (scarce program av n) (.call f as) env m = .ok v env m' := by
    rw [eval, X_bind_ok (((evals_met (calls_met program av n) as).run _ _ _ _ _ (r n (by omega))).2 .none)]
    exact r2 n (by omega) env
  rw [exec, X_bind_ok h1]
  rfl

/-! ## `sml_file_write` -/

/-- The loop over the messages `ms` that are left, the others are the ones `qs` points to. -/
theorem poorLoop_run (K : Ctx) (av : Nat → Bool) (n0 : Nat) (c0 : Nat → Option HCell) {a arr N : Nat} (hN : N ≤ 2147483647) : ∀ (ms : List Message) (qs ps : List Addr) (C X g : List Blk) (s : St) (h : Heap) (env : Env)
    (ms' : List Message) (s' : St), qs.length + ms.length = N → Sml.Fields (ms.map RMessage) ps C → (a, .struct [arr, K.B] [N]) ∈ X → (arr, .struct (qs ++ ps) []) ∈ X →
    Own n0 c0 h (C ++ X ++ g) → Inv K s.dry h → env 0 = ptrVal a → env 1 = .int .i32 qs.length → fileWriteScarce av h.next ms s = .ok ms' s' →
    ∃ h' C' g' env', Sml.Fields (ms'.map RMessage) ps C' ∧ ms'.length = ms.length ∧ Own n0 c0 h' (C' ++ X ++ g') ∧ Inv K s'.dry h' ∧ h'.next = h.next + ms.length ∧
      s'.live + (C.length + g.length) = s.live + (C'.length + g'.length) ∧
      PoorLoop av (.bin .lt (.var 1) (.ldInt .i16 (.var 0) 0)) [.expr (.call .sml_message_write [.elem (.ldPtr (.var 0) 0) (.var 1), .ldPtr (.var 0) 1])]
        [.set .i32 1 (.bin .add (.var 1) (.lit .i32 1))] env (conc K s.dry h) .next env' (conc K s'.dry h')
  | [], qs, ps, C, X, g, s, h, env, ms', s', hl, hF, ha, harr, o, hi, h0, h1, hr => by
    cases hr
    have hc := o.mem _ (List.mem_append_left g (List.mem_append_right C ha))
    have hz : a ≠ 0 := by
      have := o.pos
      have := (o.key _ (List.mem_append_left g (List.mem_append_right C ha))).1
      simp only at this
      omega
    have e1 : readInt a 0 s.dry h = .ok N s.dry h := readInt_ok hz hc rfl
    refine ⟨h, C, g, env, hF, rfl, o, hi, rfl, by omega, .done (.lift (.bin (.int h1) (ev_ldInt hi (.ptr h0) e1)
      (bin_lt (ta := .i32) (tb := .i16) (conv_i32 (by omega) (by simp at hl; omega)) (conv_i32 (by omega) (by omega)))) rfl) ?_⟩
    rw [truth_ofBool, decide_eq_false]
    simp at hl
    omega
  | m :: ms, qs, ps, C, X, g, s, h, env, ms', s', hl, hF, ha, harr, o, hi, h0, h1, hr => by
    obtain ⟨p, ps', B1, B2, rfl, hrm, hF', rfl⟩ := hF
    obtain ⟨m', s1, e1, hr⟩ := M.bind_eq_ok hr
    obtain ⟨ms1, s2, e2, hr⟩ := M.bind_eq_ok hr
    obtain ⟨rfl, rfl⟩ := M.pure_eq_ok hr
    have nz : ∀ {x}, x ∈ B1 ++ B2 ++ X ++ g → x.1 ≠ 0 := fun hx => by
      have := o.pos
      have := (o.key _ hx).1
      omega
    have ma : (a, HCell.struct [arr, K.B] [N]) ∈ B1 ++ B2 ++ X ++ g := by simp [ha]
    have mr : (arr, HCell.struct (qs ++ p :: ps') []) ∈ B1 ++ B2 ++ X ++ g := by simp [harr]
    have rn : readInt a 0 s.dry h = .ok N s.dry h := readInt_ok (nz ma) (o.mem _ ma) rfl
    have r0 : readPtr a 0 s.dry h = .ok arr s.dry h := readPtr_ok (nz ma) (o.mem _ ma) rfl
    have r1 : readPtr a 1 s.dry h = .ok K.B s.dry h := readPtr_ok (nz ma) (o.mem _ ma) rfl
    have r2 : readPtr arr qs.length s.dry h = .ok p s.dry h := readPtr_ok (nz mr) (o.mem _ mr) (by simp)
    obtain ⟨k1, B1'', g1, hrm', o1, i1, hn1, l1, c1⟩ := messageWriteAsked_run K av (D := B2 ++ X) (g := g) hrm (o.perm (by blocks_perm)) hi e1
    have hk : qs.length < N := by simp at hl; omega
    have harr' : (arr, HCell.struct ((qs ++ [p]) ++ ps') []) ∈ B1'' ++ X := by simp [harr]
    obtain ⟨k2, C', g', env', hF2, hl2, o2, i2, hn2, l2, lp⟩ := poorLoop_run K av n0 c0 hN ms (qs ++ [p]) ps' B2 (B1'' ++ X) g1 s1 k1
      (upd env 1 (.int .i32 ((qs ++ [p]).length : Nat))) ms1 _ (by simp at hl ⊢; omega) hF' (List.mem_append_right _ ha) harr'
      (o1.perm (by blocks_perm)) i1 ((upd_other (by decide)).trans h0) upd_same (by rw [hn1]; exact e2)
    refine ⟨k2, B1'' ++ C', g', env', ⟨p, ps', B1'', C', rfl, hrm', hF2, rfl⟩, by simp [hl2], o2.perm (by blocks_perm), i2, ?_, ?_, ?_⟩
    · simp only [List.length_cons]
      omega
    · simp only [List.length_append] at l1 l2 ⊢
      omega
    · refine .round (.lift (.bin (.int h1) (ev_ldInt hi (.ptr h0) rn) (bin_lt (ta := .i32) (tb := .i16) (conv_i32 (by omega) (by omega)) (conv_i32 (by omega) (by omega)))) rfl) ?_
        (.cons (.call (.two (.elem (k := qs.length) (ev_ldPtr hi (.ptr h0) r0) (.int h1) (loadPtr_cell hi r2)) (ev_ldPtr hi (.ptr h0) r1)) c1) .nil)
        (.cons (.lift (.set (k := ((qs ++ [p]).length : Nat)) (t := .i32) (.bin (.int h1) .lit ?_) (conv_i32 (by omega) (by simp; omega))) rfl) .nil) lp
      · rw [truth_ofBool, decide_eq_true]
        omega
      · rw [bin_add (ta := .i32) (tb := .i32) (conv_i32 (by omega) (by omega)) rfl]
        refine (arith_i32 (by omega) (by omega)).trans ?_
        rw [List.length_append, Int.natCast_add]
        rfl

/-- `sml_file_write` on a file `f` in a heap, with the requests met as `av` says. -/
theorem fileWriteScarce_run (K : Ctx) (av : Nat → Bool) (hr : RFileOf (rawRep K.B) f a L) (hi : Inv K s.dry h) (o : Own n0 c0 h (L ++ g))
    (hw : fileWriteScarce av h.next f.messages s = .ok ms' s') :
    ∃ h' L' g', RFileOf (rawRep K.B) { messages := ms' } a L' ∧ Own n0 c0 h' (L' ++ g') ∧ Inv K s'.dry h' ∧ h'.next = h.next + f.messages.length ∧
      s'.live + (L.length + g.length) = s.live + (L'.length + g'.length) ∧
      ScarceTo av .sml_file_write [ptrVal a] (conc K s.dry h) .undef (conc K s'.dry h') := by
  obtain ⟨ps, B', hF, rfl⟩ := hr
  obtain ⟨arr, buf, B1, B2, rfl, harr, ⟨rfl, rfl⟩, rfl⟩ := hF.two
  have ma : (a, HCell.struct [arr, K.B] [f.messages.length]) ∈ (a, HCell.struct [arr, K.B] [f.messages.length]) :: (B1 ++ []) ++ g := by simp
  have hz : a ≠ 0 := by
    have := o.pos
    have := (o.key _ ma).1
    simp only at this
    omega
  have hc := o.mem _ ma
  have rn : readInt a 0 s.dry h = .ok f.messages.length s.dry h := readInt_ok hz hc rfl
  have r0 : readPtr a 0 s.dry h = .ok arr s.dry h := readPtr_ok hz hc rfl
  have hN := readInt_small hi rn
  by_cases hs : f.messages = []
  · rw [hs] at hw
    cases hw
    have h0 : arr = 0 := by
      rw [hs] at harr
      exact harr.1
    subst h0
    have hf : f = { messages := [] } := by
      cases f
      exact congrArg File.mk hs
    subst hf
    refine ⟨h, _, g, ⟨_, _, hF, rfl⟩, o, hi, rfl, rfl, .run (fun _ _ => bind_ptr1) (v := .undef) (m1 := conc K s.dry h) ?_ fun env => congrArg (XRes.ok _ env) (mem_stack (conc K s.dry h) (s := K.σ) rfl)⟩
    exact .cons (.lift (.ite (b := false) (.and_f (ev_ldPtr hi (.ptr (by rfl)) r0) rfl) rfl .nil) rfl) .nil
  · have hra := harr
    rw [RArr.ne (by simpa using hs)] at hra
    obtain ⟨qs, C, hq, rfl⟩ := hra
    have hna : arr ≠ 0 := by
      have := o.pos
      have := (o.key (arr, .struct qs []) (by simp)).1
      simp only at this
      omega
    obtain ⟨h', C', g', env', hF', hl, o', hi', hn', l', lp⟩ := poorLoop_run K av n0 c0 (a := a) (arr := arr) hN f.messages [] qs C [(a, .struct [arr, K.B] [f.messages.length]), (arr, .struct qs [])] g s h
      (upd (envOf [ptrVal a]) 1 (.int .i32 ((([] : List Addr).length : Nat) : Int))) ms' s' (by simp) hq (by simp) (by simp) (o.perm (by blocks_perm)) hi (by rfl) upd_same hw
    have hne : ms' ≠ [] := fun h => hs (List.length_eq_zero_iff.mp (by rw [← hl, h]; rfl))
    refine ⟨h', _, g', ⟨[arr, K.B], ((arr, .struct qs []) :: C') ++ [], ⟨arr, [K.B], (arr, .struct qs []) :: C', [], rfl, ?_, Sml.Fields.single ⟨rfl, rfl⟩, rfl⟩, rfl⟩, ?_, hi', hn', ?_,
      .run (fun _ _ => bind_ptr1) (v := .undef) (m1 := conc K s'.dry h') ?_ fun env => congrArg (XRes.ok _ env) (mem_stack (conc K s'.dry h') (s := K.σ) rfl)⟩
    · rw [RArr.ne (by simpa using hne)]
      exact ⟨qs, C', hF', rfl⟩
    · rw [hl]
      exact o'.perm (by blocks_perm)
    · simp only [List.length_cons, List.length_append, List.length_nil] at l' ⊢
      omega
    · have hpos : 0 < f.messages.length := List.length_pos_iff.mpr hs
      have hgt : EvalTo (.bin .gt (.ldInt .i16 (.var 0) 0) (.lit .i32 0)) (envOf [ptrVal a]) (conc K s.dry h) (ofBool true) (envOf [ptrVal a]) (conc K s.dry h) := by
        refine .bin (ev_ldInt hi (.ptr (by rfl)) rn) .lit ?_
        rw [bin_gt (ta := .i16) (tb := .i32) (conv_i32 (by omega) (by omega)) rfl, decide_eq_true (by omega)]
      exact .cons (.ite (b := true) (.lift (.and_t (ev_ldPtr hi (.ptr (by rfl)) r0) (truth_ptr hna) hgt (truth_ofBool true)) rfl) (truth_ofBool true)
        (.cons (.lift (.set (k := 0) (t := .i32) .lit rfl) rfl) (.cons (.loop lp) .nil))) .nil

end Sml.C
