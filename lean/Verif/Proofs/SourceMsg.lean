import Verif.Proofs.SourceCrc

/-!
# `sml_message_parse` from its source
-/

namespace Sml.C

theorem cursorAsInt_eq_ok (hr : lift cursorAsInt st h = .ok n st' h') : n = st.cursor ∧ st' = st ∧ h' = h := by
  obtain ⟨e, rfl⟩ := lift_eq_ok hr
  unfold cursorAsInt at e
  rw [M.bind_ok (show getSt st = .ok st st from rfl)] at e
  split at e
  · cases e
  · cases e
    exact ⟨rfl, rfl, rfl⟩

/-- `int n = buf->cursor;` The cursor does not move back behind it. -/
theorem Sem.cursorInt {k : Nat → P β} (h0 : env 0 = K.buf)
    (hk : ∀ n : Nat, Sem { K with lo := n } body ss (upd env x (.int .i32 n)) anySt (k n) vl post) :
    Sem K body (.set .i32 x (.ldInt .u64 (.var 0) 1) :: ss) env pre (lift cursorAsInt >>= k) vl post := by
  intro st h hi hp b st' h' hr
  replace hr := P_bind_eq_ok hr
  obtain ⟨n, s1, h1, e, hr⟩ := hr
  obtain ⟨rfl, rfl, rfl⟩ := cursorAsInt_eq_ok e
  have hi' : Inv { K with lo := s1.cursor } s1 h1 := ⟨hi.good, hi.nB, hi.nA, hi.lB, hi.lA, hi.ints, Nat.le_refl _, hi.old⟩
  obtain ⟨i2, q2, r2⟩ := (hk s1.cursor).run hi' trivial hr
  have h1 := hi.good.cur
  have h2 := hi.good.len
  exact ⟨⟨i2.good, i2.nB, i2.nA, i2.lB, i2.lA, i2.ints, Nat.le_trans hi.lo i2.lo, i2.old⟩, q2, RunTo.cons (.set (ev_cursor K h0) (conv_i32 (by omega) (by omega))) r2⟩

/-- The length of the message so far and the room for the checksum. -/
theorem Sem.msgLen {k : P β} {k' : Nat → P β} (h0 : env 0 = K.buf) (h2 : env 2 = .int .i32 K.lo)
    (ht : ∀ l : Nat, Sem K body (A ++ ss) (upd env 3 (.int .i32 l)) anySt k vl post) (hf : ∀ l : Nat, Sem K body ss (upd env 3 (.int .i32 l)) anySt (k' l) vl post) :
    Sem K body (.set .i32 3 (.bin .sub (.ldInt .u64 (.var 0) 1) (.var 2)) ::
      .ite (.bin .lt (.bin .sub (.ldInt .u64 (.var 0) 0) (.ldInt .u64 (.var 0) 1)) (.lit .i32 3)) A [] :: ss) env pre
      (lift getSt >>= fun st => if st.cursor > 2147483647 then fault u else if st.data.length - st.cursor < 3 then k else k' (st.cursor - K.lo)) vl post := by
  intro st h hi hp b st' h' hr
  replace hr := P_bind_eq_ok hr
  obtain ⟨s, s1, h1, e, hr⟩ := hr
  obtain ⟨rfl, rfl, rfl⟩ := getSt_eq_ok e
  have hc := hi.good.cur
  have hl := hi.good.len
  have hlo := hi.lo
  rw [if_neg (by omega)] at hr
  have e1 : EvalTo (.bin .sub (.ldInt .u64 (.var 0) 1) (.var 2)) env (conc K s1 h1) (.int .u64 (s1.cursor - K.lo : Nat)) env (conc K s1 h1) := by
    refine .bin (ev_cursor K h0) (.int h2) ((bin_sub (ta := .u64) (tb := .i32) (conv_u64 (by omega) (by omega)) (conv_u64 (by omega) (by omega))).trans ?_)
    refine (arith_u64 (by omega) (by omega)).trans ?_
    congr 2
    omega
  have e2 : ∀ env, env 0 = K.buf → EvalTo (.bin .lt (.bin .sub (.ldInt .u64 (.var 0) 0) (.ldInt .u64 (.var 0) 1)) (.lit .i32 3)) env (conc K s1 h1)
      (ofBool (decide (s1.data.length - s1.cursor < 3))) env (conc K s1 h1) := by
    intro env h0
    refine .bin (x := .int .u64 (s1.data.length - s1.cursor : Nat)) (env1 := env) (m1 := conc K s1 h1) (env2 := env) (m2 := conc K s1 h1) (.bin (ev_len K h0) (ev_cursor K h0) ((bin_sub (ta := .u64) (tb := .u64) (conv_u64 (by omega) (by omega)) (conv_u64 (by omega) (by omega))).trans ?_)) .lit ?_
    · refine (arith_u64 (by omega) (by omega)).trans ?_
      congr 2
      omega
    · refine (bin_lt (ta := .u64) (tb := .i32) (conv_u64 (by omega) (by omega)) (conv_u64 (by omega) (by omega))).trans ?_
      congr 3
      apply propext
      omega
  have e3 : ITy.conv .i32 ((s1.cursor - K.lo : Nat) : Int) = (s1.cursor - K.lo : Nat) := conv_i32 (by omega) (by omega)
  by_cases hd : s1.data.length - s1.cursor < 3
  · rw [if_pos hd] at hr
    obtain ⟨i2, q2, r2⟩ := (ht (s1.cursor - K.lo)).run hi trivial hr
    exact ⟨i2, q2, RunTo.cons (.set e1 e3) (RunTo.ite (e2 _ ((upd_other (by decide)).trans h0)) (truth_pos hd) r2)⟩
  · rw [if_neg hd] at hr
    obtain ⟨i2, q2, r2⟩ := (hf (s1.cursor - K.lo)).run hi trivial hr
    exact ⟨i2, q2, RunTo.cons (.set e1 e3) (RunTo.ite (e2 _ ((upd_other (by decide)).trans h0)) (truth_neg hd) r2)⟩

/-- The flag is set or the member is NULL; the model reads both. -/
theorem Sem.errOrNull' {k err : P β} (h0 : env 0 = K.buf) (hc : ESem K c env anySt (readPtr a i) (fun v => ofBool (decide (v = 0))) anyRes)
    (hF : Sem K body (F ++ ss) env anySt err vl post) (hk : Sem K body ss env anySt k vl post) :
    Sem K body (.ite (.or (.call .sml_buf_has_errors [.var 0]) c) F [] :: ss) env anySt
      (lift hasErrors >>= fun b => readPtr a i >>= fun v => if b = true ∨ v = 0 then err else k) vl post := by
  have hk' : Sem K body ss env anySt (readPtr a i >>= fun _ => k) vl post := by
    intro st h hi hp r st' h' hr
    replace hr := P_bind_eq_ok hr
    obtain ⟨v, s1, h1, e1, hr⟩ := hr
    obtain ⟨_, rfl, rfl, _⟩ := readPtr_eq_ok e1
    exact hk.run hi hp hr
  have := Sem.errOrNull (k := fun _ => k) h0 hc hF hk'
  intro st h hi hp r st' h' hr
  refine this.run hi hp ?_
  replace hr := P_bind_eq_ok hr
  obtain ⟨b, s1, h1, e1, hr⟩ := hr
  rw [P.bind_ok e1]
  have hr' := hr
  replace hr := P_bind_eq_ok hr
  obtain ⟨v, s2, h2, e2, hr⟩ := hr
  cases b with
  | true =>
    obtain ⟨_, rfl, rfl, _⟩ := readPtr_eq_ok e2
    rw [if_pos (.inl rfl)] at hr
    exact hr
  | false =>
    rw [if_neg (by decide), P.bind_ok e2]
    by_cases hv : v = 0
    · rw [if_pos (.inr hv)] at hr
      rw [if_pos hv]
      exact hr
    · rw [if_neg (by simp [hv])] at hr
      rw [if_neg hv]
      exact hr

theorem bufferSlice_eq_ok (hr : lift (bufferSlice s l) st h = .ok bs st' h') : s + l ≤ st.data.length ∧ bs = (st.data.drop s).take l ∧ st' = st ∧ h' = h := by
  obtain ⟨e, rfl⟩ := lift_eq_ok hr
  unfold bufferSlice at e
  split at e
  · cases e
    exact ⟨by assumption, rfl, rfl, rfl⟩
  · cases e

/-- The comparison with both checksums. -/
theorem Sem.checksum {k err : P β} (h0 : env 0 = K.buf) (h1 : env 1 = ptrVal a) (h2 : env 2 = .int .i32 (n : Nat)) (h3 : env 3 = .int .i32 (l : Nat))
    (hF : Sem K body (A ++ ss) env anySt err vl post) (hk : Sem K body ss env anySt k vl post) :
    Sem K body (.ite (.and (.bin .ne (.deref .u16 (.ldPtr (.var 1) 4)) (.call .sml_crc16_calculate [.addr (.ldPtr (.var 0) 0) (.var 2), .var 3]))
      (.bin .ne (.deref .u16 (.ldPtr (.var 1) 4)) (.call .sml_crc16kermit_calculate [.addr (.ldPtr (.var 0) 0) (.var 2), .var 3]))) A [] :: ss) env anySt
      (lift (bufferSlice n l) >>= fun bytes => readPtr a 4 >>= fun v => readTag 2 v >>= fun c =>
        if c.val ≠ (crc16 bytes).toNat ∧ c.val ≠ (crc16kermit bytes).toNat then err else k) vl post := by
  intro st h hi hp r st' h' hr
  replace hr := P_bind_eq_ok hr
  obtain ⟨bs, s1, g1, e1, hr⟩ := hr
  obtain ⟨hle, rfl, rfl, rfl⟩ := bufferSlice_eq_ok e1
  replace hr := P_bind_eq_ok hr
  obtain ⟨v, s2, g2, e2, hr⟩ := hr
  have e2' := e2
  obtain ⟨_, rfl, rfl, _⟩ := readPtr_eq_ok e2'
  replace hr := P_bind_eq_ok hr
  obtain ⟨c, s3, g3, e3, hr⟩ := hr
  obtain ⟨ha, rfl, rfl, hcell, hs, hv⟩ := readTag_eq_ok e3
  have hl := hi.good.len
  have ec : EvalTo (.deref .u16 (.ldPtr (.var 1) 4)) env (conc K s3 g3) (.int .u16 (c.val : Nat)) env (conc K s3 g3) :=
    .deref (ev_ldPtr hi (.ptr h1) e2) (load_tag hi ha hcell hs hv (conv_u16 (by omega) (by omega)))
  have ea : EvalsTo [.addr (.ldPtr (.var 0) 0) (.var 2), .var 3] env (conc K s3 g3) [.ptr (.heap K.A) n, .int .i32 (l : Nat)] env (conc K s3 g3) := by
    have := offset_ok (env := env) (m := conc K s3 g3) (.heap K.A) 0 n
    rw [Nat.zero_add] at this
    exact .cons (.addr (ev_arr K h0) (.int h2) this) (.one (.int h3))
  have hA := (crc16 ((s3.data.drop n).take l)).isLt
  have hB := (crc16kermit ((s3.data.drop n).take l)).isLt
  have hne : ∀ q : Nat, q < 65536 → binOp .ne (.int .u16 (c.val : Nat)) (.int .u16 (q : Nat)) env (conc K s3 g3) = .ok (ofBool (decide (c.val ≠ q))) env (conc K s3 g3) := by
    intro q hq
    refine (bin_ne (ta := .u16) (tb := .u16) (conv_i32 (by omega) (by omega)) (conv_i32 (by omega) (by omega))).trans ?_
    congr 3
    apply propext
    omega
  have x1 := EvalTo.bin ec (.call ea (crc16_run (K := K) (by omega) (by omega))) (hne _ hA)
  have x2 := EvalTo.bin ec (.call ea (crc16kermit_run (K := K) (by omega) (by omega))) (hne _ hB)
  by_cases c1 : c.val ≠ (crc16 ((s3.data.drop n).take l)).toNat
  · by_cases c2 : c.val ≠ (crc16kermit ((s3.data.drop n).take l)).toNat
    · rw [if_pos ⟨c1, c2⟩] at hr
      obtain ⟨i4, q4, r4⟩ := hF.run hi trivial hr
      exact ⟨i4, q4, RunTo.ite (.and_t x1 (truth_pos c1) x2 (truth_pos c2)) (truth_ofBool _) r4⟩
    · rw [if_neg fun h => c2 h.2] at hr
      obtain ⟨i4, q4, r4⟩ := hk.run hi trivial hr
      exact ⟨i4, q4, RunTo.ite (.and_t x1 (truth_pos c1) x2 (truth_neg c2)) (truth_ofBool _) r4⟩
  · rw [if_neg fun h => c1 h.1] at hr
    obtain ⟨i4, q4, r4⟩ := hk.run hi trivial hr
    exact ⟨i4, q4, RunTo.ite (.and_f x1 (truth_neg c1)) (truth_ofBool _) r4⟩

/-- `sml_buf_get_current_byte(buf) == 0` -/
theorem Sem.zeroByte {k k' : P β} (h0 : env x = K.buf) (ht : Sem K body (A ++ ss) env (fun st => st.cursor + 1 ≤ st.data.length) k vl post)
    (hf : Sem K body ss env anySt k' vl post) :
    Sem K body (.ite (.bin .eq (.call .sml_buf_get_current_byte [.var x]) (.lit .i32 0)) A [] :: ss) env anySt
      (lift getCurrentByte >>= fun b => if b = 0x00 then k else k') vl post := by
  refine Sem.ite (vc := fun b => ofBool (decide (b = 0x00))) (ESem.binLit (ESem.call (fun _ _ => evals_var h0 ptr_ne) (.of_M getCurrentByte_src)) ?_) (fun b => ofBool_ne) ?_ ?_
  · intro b st m _
    have hb := UInt8.toNat_lt b
    refine (bin_eq (ta := .u8) (tb := .i32) (conv_i32 (by omega) (by omega)) (conv_i32 (by omega) (by omega))).trans ?_
    congr 3
    apply propext
    rw [← UInt8.toNat_inj]
    show (b.toNat : Int) = 0 ↔ b.toNat = 0
    omega
  · intro b hb
    rw [isTrue_ofBool, decide_eq_true_eq] at hb
    rw [if_pos hb]
    exact ht.weaken fun st h => (List.getElem?_eq_some_iff.mp h).1
  · intro b hb
    rw [isTrue_ofBool, decide_eq_false_iff_not] at hb
    rw [if_neg hb]
    exact hf.weaken fun _ _ => trivial

/-- `sml_buf_update_bytes_read(buf, 1);` -/
theorem Sem.update1 {k : P β} (h0 : env x = K.buf) (hk : Sem K body ss env anySt k vl post) :
    Sem K body (.expr (.call .sml_buf_update_bytes_read [.var x, .lit .i32 1]) :: ss) env (fun st => st.cursor + 1 ≤ st.data.length)
      (lift (updateBytesRead 1) >>= fun _ => k) vl post :=
  Sem.step (SSem.expr (ESem.call (as := fun K => [K.buf, .int .i32 1]) (fun _ _ => evals_cons (eval_of h0 ptr_ne) (evals_cons rfl evals_nil)) (.of_M (updateBytesRead_src 1)))) fun _ => hk

theorem messageParse_src (depth : Nat) : ParseSpec .sml_message_parse (pMessageParse depth) := by
  refine ParseSpec.of rfl rfl fun K => ?_
  unfold pMessageParse
  refine Sem.mallocRec [0, 0, 0, 0, 0] [] (by simp) (fun _ _ _ => rfl) (fun _ _ _ => rfl) fun a => ?_
  refine Sem.cursorInt (by rfl) fun n => ?_
  generalize hK : ({ K with lo := n } : Ctx) = K1
  have hlo : K1.lo = n := by rw [← hK]
  have hbuf : K1.buf = K.buf := by rw [← hK]
  rw [← hlo, ← hbuf]
  have errs : ∀ {env : Env} {pre} ss, env 1 = ptrVal a → Sem K1 (program .sml_message_parse).body ([.goto 0] ++ ss) env pre (pAbort pMessageFree a 0) ptrVal anyRes :=
    fun ss h1 => Sem.goto rfl (Sem.freeRet h1 messageFree_src rfl)
  refine Sem.expectList (by rfl) 6 (by omega) (fun ss => errs ss (by rfl)) ?_
  refine Sem.fields (ps := [pOctetStringParse, pU8Parse, pU8Parse, pMessageBodyParse depth]) (by rfl) (by rfl) (fun ss => errs ss (by rfl)) ?_
    (.cons (.call octetStringParse_src) <| .cons (.num 96 1 (by omega) (by omega) (by omega)) <| .cons (.num 96 1 (by omega) (by omega) (by omega)) <|
      .cons (.call (messageBodyParse_src depth)) .nil) 0
  refine Sem.msgLen (k' := fun len => pU16Parse >>= fun crc => writePtr a 4 crc >>= fun _ => lift hasErrors >>= fun e => readPtr a 4 >>= fun v =>
    if e = true ∨ v = 0 then lift setError >>= fun _ => pAbort pMessageFree a 0
    else lift (bufferSlice K1.lo len) >>= fun bytes => readPtr a 4 >>= fun v => readTag 2 v >>= fun c =>
      if c.val ≠ (crc16 bytes).toNat ∧ c.val ≠ (crc16kermit bytes).toNat then pAbort pMessageFree a 0
      else lift getSt >>= fun st =>
        if st.cursor ≥ st.data.length then lift setError >>= fun _ => pAbort pMessageFree a 0
        else lift getCurrentByte >>= fun b => if b = 0x00 then lift (updateBytesRead 1) >>= fun _ => pure a else pure a) (by rfl) (by rfl) (fun l => Sem.setErr (by rfl) (errs _ (by rfl))) fun l => ?_
  refine Sem.stPtr (FieldSpec.num 96 2 (by omega) (by omega) (by omega) _ _ (by rfl)) (by rfl) fun v => ?_
  refine Sem.errOrNull' (by rfl) (ESem.isNull (by rfl)) (Sem.setErr (by rfl) (errs _ (by rfl))) ?_
  refine Sem.checksum (by rfl) (by rfl) (by rfl) (by rfl) (Sem.skip (fun _ _ _ _ _ => rfl) (errs _ (by rfl))) ?_
  refine Sem.atEnd (by rfl) (Sem.setErr (by rfl) (errs _ (by rfl))) (Sem.weaken (pre' := anySt) ?_ fun _ _ => trivial)
  exact Sem.zeroByte (by rfl) (Sem.update1 (by rfl) (Sem.retPtr (by rfl))) (Sem.retPtr (by rfl))

end Sml.C
