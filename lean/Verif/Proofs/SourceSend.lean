import Verif.Proofs.SourceWriteFile
import Verif.Model.Transport

/-!
# `sml_transport_write`, run from its source
-/

namespace Sml.C

/-! ## More rules -/

theorem ExecTo.memcpyTab {k : Nat} (hd : EvalTo d env m p env1 m1) (hk : EvalTo i env1 m1 (.int t k) env2 m2) (ht : k ≤ tb.length)
    (hs : storeBytes p ((tb.take k).map fun n => UInt8.ofNat n.toNat) env2 m2 = .ok () env' m') (hp : p ≠ nullPtr := by nonnull) :
    ExecTo (.memcpyTab d tb i) env m .next env' m' := by
  obtain ⟨N, r⟩ := hd
  obtain ⟨N2, r2⟩ := hk
  refine ⟨max N N2, fun n hn => ?_⟩
  rw [exec, X_bind_ok (r n (by omega)), X_bind_ok (r2 n (by omega)), X_bind_ok asNat_int, tabBytes, if_neg (show ¬ tb.length < k by omega), X_bind_ok (X_pure _ _ _), X_bind_ok (target_ok hp), X_bind_ok hs]
  rfl

theorem EvalTo.incMem {k : Int} (he : EvalTo e env m p env1 m1) (hl : loadInt p i env1 m1 = .ok k env1 m1) (ha : binOp .add (.int t k) (.int .i32 1) env1 m1 = .ok (.int t' k') env1 m1)
    (hs : storeInt p i (t.conv k') env1 m1 = .ok () env' m') : EvalTo (.incMem t e i) env m (.int t k) env' m' := by
  obtain ⟨N, r⟩ := he
  refine ⟨N, fun n hn => ?_⟩
  rw [eval, X_bind_ok (r n (by omega)), X_bind_ok hl, X_bind_ok ha, X_bind_ok asInt_int, X_bind_ok hs]
  rfl

theorem EvalTo.write {k : Nat} {d' : Int} (hd : EvalTo d env m (.int t d') env1 m1) (hp : EvalTo e env1 m1 p env2 m2) (hn : EvalTo i env2 m2 (.int t' k) env3 m3)
    (hl : loadBytes p k env3 m3 = .ok bs env3 m3) (hd' : d' = m3.world.num) :
    EvalTo (.write d e i) env m (.int .i64 (m3.world.accept bs)) env3 { m3 with world := { m3.world with sent := bs :: m3.world.sent } } := by
  obtain ⟨N, r⟩ := hd
  obtain ⟨N2, r2⟩ := hp
  obtain ⟨N3, r3⟩ := hn
  refine ⟨max N (max N2 N3), fun n hn => ?_⟩
  rw [eval, X_bind_ok (r n (by omega)), X_bind_ok asInt_int, X_bind_ok (r2 n (by omega)), X_bind_ok (r3 n (by omega)), X_bind_ok asNat_int, X_bind_ok hl]
  exact if_pos hd'

theorem bin_mod4 {a : Nat} (ha : a < 18446744073709551616) : binOp .mod (.int .u64 a) (.int .i32 4) env m = .ok (.int .u64 (a % 4 : Nat)) env m := by
  have h : binOp .mod (.int .u64 a) (.int .i32 4) env m = arith .u64 ((ITy.conv .u64 (a : Int)).tmod 4) env m := rfl
  rw [h, natConv_u64 ha, show ((a : Int).tmod 4) = ((a % 4 : Nat) : Int) from rfl]
  exact arith_u64 (by omega) (by omega)

theorem fourMinus {a : Nat} (ha : a ≤ 4) : binOp .sub (.int .i32 4) (.int .u64 a) env m = .ok (.int .u64 (4 - a : Nat)) env m := by
  rw [bin_sub (ta := .i32) (tb := .u64) (a := 4) rfl (natConv_u64 (a := a) (by omega))]
  refine (arith_u64 (by omega) (by omega)).trans ?_
  rw [show ((4 : Int) - (a : Int)) = ((4 - a : Nat) : Int) by omega]

section
variable (K : Ctx) {env : Env} (h : env x = K.buf)
include h

/-- `memcpy(sml_buf_get_current_buf(buf), tb, k); buf->cursor += k;` -/
theorem ex_copyTab {k : Nat} (tb : List Int) (bs : List UInt8) (ht : k = tb.length) (hb : tb.map (fun n => UInt8.ofNat n.toNat) = bs) (hr : st.cursor + bs.length ≤ st.data.length) :
    ExecTo (.memcpyTab (.call .sml_buf_get_current_buf [.var x]) tb (.lit .i32 (k : Nat))) env (memOf K st nx c) .next env (memOf K (putAt st bs) nx c) := by
  refine .memcpyTab (.call1 (.ptr h) (call_curBuf K)) .lit (by omega) ?_
  rw [ht, List.take_length, hb]
  exact storeBytes_arr K hr

/-- `buf->buffer[buf->cursor++] = e;` -/
theorem ex_putByte {t : ITy} {w : Nat} (hc : st.cursor < st.data.length) (hl : st.data.length ≤ 2147483647)
    (he : EvalTo e env (memOf K st nx c) (.int t w) env (memOf K st nx c)) :
    ExecTo (.stByte .u8 (.ldPtr (.var x) 0) (.incMem .u64 (.var x) 1) e) env (memOf K st nx c) .next env
      (memOf K { putAt st [UInt8.ofNat w] with cursor := st.cursor + 1 } nx c) := by
  have ha : binOp .add (.int .u64 (st.cursor : Nat)) (.int .i32 ((1 : Nat) : Int)) env (memOf K st nx c) = .ok (.int .u64 ((st.cursor + 1 : Nat) : Int)) env (memOf K st nx c) :=
    add_u64 (by omega) .i32 (.inr rfl)
  have hs : storeInt K.buf 1 (ITy.conv .u64 ((st.cursor + 1 : Nat) : Int)) env (memOf K st nx c) = .ok () env (memOf K { st with cursor := st.cursor + 1 } nx c) := by
    rw [natConv_u64 (by omega)]
    exact store_cursor K _
  refine .stByte he (ev_arr K h) (.incMem (.ptr h) (load_cursor K) ha hs) (offset_ok _ _ _) ?_
  rw [storeNum, ofNat_toBits, Nat.zero_add]
  refine storeBytes_raw (getBlock_arr K) (by simp) (by rw [List.length_map]; exact hc) ?_
  refine setBlock_arr K ?_ ?_ rfl rfl rfl
  · simp only [List.map_append, List.map_take, List.map_drop]
  · exact putAt_length (st := st) hc

end

theorem start_eq : start_seq.map (fun n => UInt8.ofNat n.toNat) = startSeq := by decide
theorem end_eq : end_seq.map (fun n => UInt8.ofNat n.toNat) = endSeq := by decide

/-- The number of bytes of padding. -/
def padOf (n : Nat) : Nat := if n % 4 ≠ 0 then 4 - n % 4 else 0

/-- What `sml_transport_write` does after the padding. -/
def frameEnd (pad : Nat) : M (List UInt8) :=
  putBytes endSeq >>= fun _ => putBytes [UInt8.ofNat pad] >>= fun _ => getSt >>= fun st => bufferSlice 0 st.cursor >>= fun bs =>
  putBytes [UInt8.ofNat (((crc16 bs).toNat &&& 0xFF00) >>> 8)] >>= fun _ => putBytes [UInt8.ofNat ((crc16 bs).toNat &&& 0x00FF)] >>= fun _ =>
  getSt >>= fun st => bufferSlice 0 st.cursor

/-- What `sml_transport_write` does after `sml_file_write`. -/
def frameTail : M (List UInt8) :=
  getSt >>= fun st => (if padOf st.cursor ≠ 0 then putBytes (List.replicate (padOf st.cursor) 0) else pure ()) >>= fun _ => frameEnd (padOf st.cursor)

theorem M_bind_assoc (m : M α) (f : α → M β) (g : β → M γ) : (m >>= f) >>= g = m >>= fun a => f a >>= g := by
  funext s
  show (match (match m s with | .ok a s => f a s | .ub u => .ub u) with | .ok a s => g a s | .ub u => .ub u) = (match m s with | .ok a s => (f a >>= g) s | .ub u => .ub u)
  cases m s <;> rfl

theorem transportFrame_eq (f : File) : transportFrame f = (modSt (fun st => { st with cursor := 0 }) >>= fun _ => putBytes startSeq >>= fun _ => fileWrite f >>= fun f =>
    frameTail >>= fun bs => pure (f, bs)) := by
  unfold transportFrame frameTail
  congr 1
  funext _
  congr 1
  funext _
  congr 1
  funext f'
  rw [M_bind_assoc]
  congr 1
  funext st
  rw [show (if st.cursor % 4 ≠ 0 then 4 - st.cursor % 4 else 0) = padOf st.cursor from rfl]
  simp only [M_bind_assoc, frameEnd]
  split <;> rfl

theorem dry_frameEnd (pad : Nat) : Dry (frameEnd pad) := by
  refine (dry_putBytes _).bind fun _ => (dry_putBytes _).bind fun _ => ?_
  refine Dry.getSt (fun s => ?_) (fun s => rfl)
  refine (dry_bufferSlice _ _).bind fun _ => (dry_putBytes _).bind fun _ => (dry_putBytes _).bind fun _ => ?_
  exact Dry.getSt (fun s => dry_bufferSlice _ _) (fun s => rfl)

theorem dry_frameTail : Dry frameTail := by
  refine Dry.getSt (fun s => ?_) (fun s => rfl)
  exact Dry.bind (Dry.ite (dry_putBytes _) (Dry.ret ())) fun _ => dry_frameEnd _

theorem sliceM_eq_ok (hr : bufferSlice i n st = .ok bs st') : i + n ≤ st.data.length ∧ bs = (st.data.drop i).take n ∧ st' = st := by
  unfold bufferSlice at hr
  split at hr
  · cases hr
    exact ⟨‹_›, rfl, rfl⟩
  · cases hr

/-- The statements of `sml_transport_write` after the call of `sml_file_write`. -/
abbrev sendTail : List Stmt := (sml_transport_write.body.drop 5)

theorem loadBytes_arr (K : Ctx) {n : Nat} (h : n ≤ st.data.length) : loadBytes (ptrVal K.A) n env (memOf K st nx c) = .ok ((st.data.drop 0).take n) env (memOf K st nx c) := by
  refine loadBytes_raw' (getBlock_arr K) (by rw [List.length_map]; omega) ?_
  rw [List.map_take, List.map_drop]

theorem hi_byte {n : Nat} : (n &&& 65280) / 256 < 256 := by
  have : n &&& 65280 ≤ 65280 := Nat.and_le_right
  omega

theorem putBytes_good (hg : Good st) (hr : putBytes bs st = .ok u st') :
    Good st' ∧ st'.cursor = st.cursor + bs.length ∧ st' = { putAt st bs with cursor := st.cursor + bs.length } := by
  obtain ⟨c1, rfl⟩ := putBytes_eq_ok hr
  have hl := putAt_length c1
  exact ⟨⟨by simp only at hl ⊢; omega, hl ▸ hg.len⟩, rfl, rfl⟩

theorem padSet_run (K : Ctx) {env : Env} (h2 : env 2 = K.buf) (hc : st.cursor < 18446744073709551616) :
    ExecTo (.set .i32 3 (.cond (.bin .mod (.ldInt .u64 (.var 2) 1) (.lit .i32 4)) (.bin .sub (.lit .i32 4) (.bin .mod (.ldInt .u64 (.var 2) 1) (.lit .i32 4))) (.lit .i32 0)))
      env (memOf K st nx c) .next (upd env 3 (.int .i32 (padOf st.cursor))) (memOf K st nx c) := by
  have hm : EvalTo (.bin .mod (.ldInt .u64 (.var 2) 1) (.lit .i32 4)) env (memOf K st nx c) (.int .u64 (st.cursor % 4 : Nat)) env (memOf K st nx c) := .bin (ev_cursor K h2) .lit (bin_mod4 hc)
  by_cases hz : st.cursor % 4 = 0
  · rw [padOf, if_neg (by omega)]
    refine .set (t := .i32) (k := 0) (.cond (t := false) hm ?_ .lit) rfl
    rw [hz]
    rfl
  · rw [padOf, if_pos hz]
    refine .set (t := .u64) (k := (4 - st.cursor % 4 : Nat)) (.cond (t := true) hm ?_ (.bin .lit hm (fourMinus (by omega)))) (conv_i32 (by omega) (by omega))
    exact congrArg (XRes.ok · _ _) (decide_eq_true (by omega))

theorem pad_run (K : Ctx) {env : Env} (h2 : env 2 = K.buf) (h3 : env 3 = .int .i32 (padOf st.cursor)) (hg : Good st)
    (hw : (if padOf st.cursor ≠ 0 then putBytes (List.replicate (padOf st.cursor) 0) else pure ()) st = .ok () st') :
    Good st' ∧ st.cursor ≤ st'.cursor ∧
    ExecTo (.ite (.var 3) [.memset (.call .sml_buf_get_current_buf [.var 2]) (.lit .i32 0) (.var 3), .stInt .u64 (.var 2) 1 (.bin .add (.ldInt .u64 (.var 2) 1) (.var 3))] [])
      env (memOf K st nx c) .next env (memOf K st' nx c) := by
  obtain ⟨gc, gl⟩ := hg
  by_cases hz : padOf st.cursor = 0
  · rw [if_neg (by omega)] at hw
    cases hw
    refine ⟨⟨gc, gl⟩, Nat.le_refl _, .ite (b := false) (.int h3) ?_ .nil⟩
    rw [hz]
    rfl
  · rw [if_pos hz] at hw
    obtain ⟨c1, rfl⟩ := putBytes_eq_ok hw
    have hl := putAt_length c1
    rw [List.length_replicate] at c1
    refine ⟨⟨?_, ?_⟩, ?_, .ite (b := true) (.int h3) ?_ (.cons (.memset (.call1 (.ptr h2) (call_curBuf K)) .lit (.int h3) (storeBytes_arr K (by rw [List.length_replicate]; exact c1)))
      (.last ?_))⟩
    · simp only [List.length_replicate] at hl ⊢
      omega
    · exact hl ▸ gl
    · simp
    · exact congrArg (XRes.ok · _ _) (decide_eq_true (by omega))
    · have r := ex_advance K h2 (st := putAt st (List.replicate (padOf st.cursor) 0)) (k := padOf st.cursor) (nx := nx) (c := c) (by simp only; omega) (.int h3) (.inr rfl)
      rw [List.length_replicate]
      exact r

theorem sendTail_run (K : Ctx) {env : Env} {st st' : St} {body : List Stmt} (h0 : env 0 = .int .i32 K.world.num) (h2 : env 2 = K.buf) (hg : Good st) (hw : frameTail st = .ok bs st')
    (hwr : -9223372036854775808 ≤ K.world.accept bs ∧ K.world.accept bs < 9223372036854775808) :
    Good st' ∧ st.cursor ≤ st'.cursor ∧ bs.length ≤ 2147483647 ∧
    ∃ t, RunTo body sendTail env (memOf K st nx c) (.int t (if K.world.accept bs = bs.length then bs.length else 0))
      (memOf { K with world := { K.world with sent := bs :: K.world.sent } } st' nx c) := by
  replace hw := M.bind_eq_ok hw
  obtain ⟨_, s0, e0, hw⟩ := hw
  cases e0
  replace hw := M.bind_eq_ok hw
  obtain ⟨_, s1, e1, hw⟩ := hw
  obtain ⟨g1, m1, r1⟩ := pad_run K (env := upd env 3 (.int .i32 (padOf st.cursor))) (nx := nx) (c := c) h2 upd_same hg e1
  obtain ⟨gc, gl⟩ := hg
  have hpad : padOf st.cursor < 4 := by unfold padOf; split <;> omega
  have r0 := padSet_run K (st := st) (nx := nx) (c := c) h2 (by omega)
  generalize padOf st.cursor = pad at *
  have k0 : upd env 3 (.int .i32 pad) 0 = .int .i32 K.world.num := h0
  have k2 : upd env 3 (.int .i32 pad) 2 = K.buf := h2
  have k3 : upd env 3 (.int .i32 pad) 3 = .int .i32 pad := upd_same
  generalize upd env 3 (.int .i32 pad) = env1 at *
  replace hw := M.bind_eq_ok hw
  obtain ⟨_, s2, e2, hw⟩ := hw
  replace hw := M.bind_eq_ok hw
  obtain ⟨_, s3, e3, hw⟩ := hw
  replace hw := M.bind_eq_ok hw
  obtain ⟨_, s3', e4, hw⟩ := hw
  cases e4
  replace hw := M.bind_eq_ok hw
  obtain ⟨cs, s3', e4, hw⟩ := hw
  obtain ⟨l4, hcs, rfl⟩ := sliceM_eq_ok e4
  replace hw := M.bind_eq_ok hw
  obtain ⟨_, s4, e5, hw⟩ := hw
  replace hw := M.bind_eq_ok hw
  obtain ⟨_, s5, e6, hw⟩ := hw
  replace hw := M.bind_eq_ok hw
  obtain ⟨_, s5', e7, hw⟩ := hw
  cases e7
  obtain ⟨l7, hbs, rfl⟩ := sliceM_eq_ok hw
  obtain ⟨g2, c2, q2⟩ := putBytes_good g1 e2
  obtain ⟨g3, c3, q3⟩ := putBytes_good g2 e3
  obtain ⟨g4, c4, q4⟩ := putBytes_good g3 e5
  obtain ⟨g5, c5, q5⟩ := putBytes_good g4 e6
  have hbl : bs.length = st'.cursor := by
    rw [hbs, List.drop_zero, List.length_take]
    omega
  simp only [List.length_cons, List.length_nil, show endSeq.length = 5 from rfl] at c2 c3 c4 c5
  have x2 : ExecTo (.memcpyTab (.call .sml_buf_get_current_buf [.var 2]) end_seq (.lit .i32 5)) env1 (memOf K s1 nx c) .next env1 (memOf K (putAt s1 endSeq) nx c) :=
    ex_copyTab K k2 (k := 5) end_seq endSeq rfl end_eq (putBytes_eq_ok e2).1
  have x2' : ExecTo (.stInt .u64 (.var 2) 1 (.bin .add (.ldInt .u64 (.var 2) 1) (.lit .i32 5))) env1 (memOf K (putAt s1 endSeq) nx c) .next env1 (memOf K s2 nx c) := by
    have := ex_advance K k2 (st := putAt s1 endSeq) (k := 5) (nx := nx) (c := c) (by have := g2.cur; have := g2.len; simp only; omega) .lit (.inr rfl)
    rw [q2]
    exact this
  have b3 := putBytes_eq_ok e3
  have x3 := ex_putByte K k2 (st := s2) (nx := nx) (c := c) (t := .u8) (w := pad) b3.1 g2.len
    (by have h := EvalTo.cast (ty := .u8) (EvalTo.int (m := memOf K s2 nx c) k3); rw [conv_u8 (by omega) (by omega)] at h; exact h)
  have q3' : ({ putAt s2 [UInt8.ofNat pad] with cursor := s2.cursor + 1 } : St) = s3' := q3.symm
  rw [q3'] at x3
  have hcrc : EvalTo (.call .sml_crc16_calculate [.ldPtr (.var 2) 0, .ldInt .u64 (.var 2) 1]) env1 (memOf K s3' nx c) (.int .u16 (crc16 cs).toNat) env1 (memOf K s3' nx c) := by
    rw [hcs]
    exact .call (.cons (ev_arr K k2) (.one (ev_cursor K k2))) (crc16_run l4 (by have := g3.cur; have := g3.len; omega))
  have hx := (crc16 cs).isLt
  have x4 : ExecTo (.set .u16 4 (.call .sml_crc16_calculate [.ldPtr (.var 2) 0, .ldInt .u64 (.var 2) 1])) env1 (memOf K s3' nx c) .next (upd env1 4 (.int .u16 (crc16 cs).toNat)) (memOf K s3' nx c) :=
    .set (t := .u16) (k := (crc16 cs).toNat) hcrc (conv_u16 (by omega) (by omega))
  have j0 : upd env1 4 (.int .u16 (crc16 cs).toNat) 0 = .int .i32 K.world.num := k0
  have j2 : upd env1 4 (.int .u16 (crc16 cs).toNat) 2 = K.buf := k2
  have j4 : upd env1 4 (.int .u16 (crc16 cs).toNat) 4 = .int .u16 (crc16 cs).toNat := upd_same
  generalize upd env1 4 (.int .u16 (crc16 cs).toNat) = env2 at *
  generalize (crc16 cs).toNat = w at *
  have b5 := putBytes_eq_ok e5
  have x5 := ex_putByte K j2 (st := s3') (nx := nx) (c := c) (t := .u8) (w := (w &&& 65280) / 256) (e := .cast .u8 (.bin .shr (.bin .band (.var 4) (.lit .i32 65280)) (.lit .i32 8))) b5.1 g3.len
    (by
      have h := EvalTo.cast (ty := .u8) (EvalTo.bin (EvalTo.bin (EvalTo.int (m := memOf K s3' nx c) j4) .lit (band32 (b := 65280) .u16 .i32 rfl (by omega) (by omega))) .lit (shr8 .i32 rfl))
      rw [conv_u8 (by omega) (by have := hi_byte (n := w); omega)] at h
      exact h)
  rw [show (w &&& 65280) / 256 = (w &&& 65280) >>> 8 from (Nat.shiftRight_eq_div_pow _ 8).symm] at x5
  have q4' : ({ putAt s3' [UInt8.ofNat ((w &&& 65280) >>> 8)] with cursor := s3'.cursor + 1 } : St) = s4 := q4.symm
  rw [q4'] at x5
  have b6 := putBytes_eq_ok e6
  have x6 := ex_putByte K j2 (st := s4) (nx := nx) (c := c) (t := .u8) (w := w &&& 255) (e := .cast .u8 (.bin .band (.var 4) (.lit .i32 255))) b6.1 g4.len
    (by
      have h := EvalTo.cast (ty := .u8) (EvalTo.bin (EvalTo.int (m := memOf K s4 nx c) j4) .lit (band32 (b := 255) .u16 .i32 rfl (by omega) (by omega)))
      rw [conv_u8 (by omega) (by have : w &&& 255 ≤ 255 := Nat.and_le_right; omega)] at h
      exact h)
  have q5' : ({ putAt s4 [UInt8.ofNat (w &&& 255)] with cursor := s4.cursor + 1 } : St) = st' := q5.symm
  rw [q5'] at x6
  have hle := g5.len
  have hlc := g5.cur
  refine ⟨g5, by omega, by omega, ?_⟩
  have hload : loadBytes (ptrVal K.A) st'.cursor env2 (memOf K st' nx c) = .ok bs env2 (memOf K st' nx c) := by
    rw [hbs]
    exact loadBytes_arr K g5.cur
  have hwrite := EvalTo.write (EvalTo.int (m := memOf K st' nx c) j0) (ev_arr K j2) (ev_cursor K j2) hload rfl
  have hm : ({ memOf K st' nx c with world := { (memOf K st' nx c).world with sent := bs :: (memOf K st' nx c).world.sent } } : Mem) =
      memOf { K with world := { K.world with sent := bs :: K.world.sent } } st' nx c := rfl
  rw [hm] at hwrite
  have hacc : (memOf K st' nx c).world.accept bs = K.world.accept bs := rfl
  rw [hacc] at hwrite
  have x7 := ExecTo.set (x := 5) (ty := .u64) hwrite rfl
  have i2 : upd env2 5 (.int .u64 (ITy.conv .u64 (K.world.accept bs))) 2 = K.buf := j2
  have i5 : upd env2 5 (.int .u64 (ITy.conv .u64 (K.world.accept bs))) 5 = .int .u64 (ITy.conv .u64 (K.world.accept bs)) := upd_same
  have hcv : 0 ≤ ITy.conv .u64 (K.world.accept bs) ∧ ITy.conv .u64 (K.world.accept bs) < 18446744073709551616 ∧
      (ITy.conv .u64 (K.world.accept bs) = bs.length ↔ K.world.accept bs = bs.length) := by
    have : ITy.conv .u64 (K.world.accept bs) = K.world.accept bs % 18446744073709551616 := rfl
    omega
  have hcmp : EvalTo (.bin .eq (.var 5) (.ldInt .u64 (.var 2) 1)) (upd env2 5 (.int .u64 (ITy.conv .u64 (K.world.accept bs)))) (memOf { K with world := { K.world with sent := bs :: K.world.sent } } st' nx c)
      (ofBool (decide (K.world.accept bs = bs.length))) (upd env2 5 (.int .u64 (ITy.conv .u64 (K.world.accept bs)))) (memOf { K with world := { K.world with sent := bs :: K.world.sent } } st' nx c) := by
    refine .bin (.int i5) (ev_cursor { K with world := { K.world with sent := bs :: K.world.sent } } i2) ?_
    rw [bin_eq (ta := .u64) (tb := .u64) (conv_u64 hcv.1 hcv.2.1) (natConv_u64 (by omega)), ← hbl]
    simp only [hcv.2.2]
  by_cases hok : K.world.accept bs = bs.length
  · refine ⟨.u64, .cons r0 (.cons r1 (.cons x2 (.cons x2' (.cons x3 (.cons x4 (.cons x5 (.cons x6 (.cons x7 (.ite hcmp (truth_ofBool _) ?_)))))))))⟩
    rw [decide_eq_true hok, if_pos rfl, if_pos hok]
    rw [hcv.2.2.mpr hok] at i5 ⊢
    exact .ret (.int i5)
  · refine ⟨.i32, .cons r0 (.cons r1 (.cons x2 (.cons x2' (.cons x3 (.cons x4 (.cons x5 (.cons x6 (.cons x7 (.ite hcmp (truth_ofBool _) ?_)))))))))⟩
    rw [decide_eq_false hok, if_neg (by decide), if_neg hok]
    exact .ret .lit

/-- `sml_transport_write` on a file `f` in a heap. -/
theorem transportWrite_run (K : Ctx) (hlo : K.lo = 0) (hr : RFileOf (rawRep K.B) f a L) (hi : Inv K s.dry h) (o : Own n0 c0 h (L ++ g)) {t : ITy} {d : Int}
    (hd : ITy.conv .i32 d = K.world.num) (hw : transportFrame f s = .ok (f', bs) s')
    (hwr : -9223372036854775808 ≤ K.world.accept bs ∧ K.world.accept bs < 9223372036854775808) :
    ∃ h' L' g', RFileOf (rawRep K.B) f' a L' ∧ Own n0 c0 h' (L' ++ g') ∧ Inv K s'.dry h' ∧ s'.live + (L.length + g.length) = s.live + (L'.length + g'.length) ∧
      CallTo .sml_transport_write [.int t d, ptrVal a] (conc K s.dry h) (.int .i32 (if K.world.accept bs = bs.length then bs.length else 0))
        (conc { K with world := { K.world with sent := bs :: K.world.sent } } s'.dry h') := by
  rw [transportFrame_eq] at hw
  obtain ⟨_, s1, e1, hw⟩ := M.bind_eq_ok hw
  cases e1
  obtain ⟨_, s2, e2, hw⟩ := M.bind_eq_ok hw
  obtain ⟨f2, s3, e3, hw⟩ := M.bind_eq_ok hw
  obtain ⟨bs', s4, e4, hw⟩ := M.bind_eq_ok hw
  cases hw
  obtain ⟨d2, l2⟩ := dry_putBytes _ _ _ _ e2
  obtain ⟨d4, l4⟩ := dry_frameTail _ _ _ e4
  have gs : Good ({ s.dry with cursor := 0 } : St) := ⟨Nat.zero_le _, hi.good.len⟩
  obtain ⟨g2, c2, q2⟩ := putBytes_good (st := { s.dry with cursor := 0 }) gs d2
  have hi2 : Inv K s2.dry h := ⟨g2, hi.nB, hi.nA, hi.lB, hi.lA, hi.ints, by omega, hi.old⟩
  obtain ⟨h', L', g', R', o', hi', lv, call⟩ := fileWrite_run K hr hi2 o e3
  obtain ⟨ps, B', hF, hL⟩ := hr
  have hbuf : ∃ arr, (a, HCell.struct [arr, K.B] [f.messages.length]) ∈ L := by
    obtain ⟨arr, buf, B1, B2, rfl, harr, ⟨rfl, rfl⟩, rfl⟩ := hF.two
    exact ⟨arr, by rw [hL]; simp⟩
  obtain ⟨arr, ma⟩ := hbuf
  replace ma := List.mem_append_left g ma
  have hz : a ≠ 0 := by
    have := o.pos
    have := (o.key _ ma).1
    simp only at this
    omega
  have r1 : readPtr a 1 s.dry h = .ok K.B s.dry h := readPtr_ok hz (o.mem _ ma) rfl
  have key : ∀ n1 c1, ∃ t', RunTo (program .sml_transport_write).body sendTail (upd (envOf [.int .i32 K.world.num, ptrVal a]) 2 K.buf) (memOf K s3.dry n1 c1)
      (.int t' (if K.world.accept bs = bs.length then bs.length else 0)) (memOf { K with world := { K.world with sent := bs :: K.world.sent } } s'.dry n1 c1) :=
    fun n1 c1 => (sendTail_run K (by rfl) upd_same hi'.good d4 hwr).2.2.2
  obtain ⟨g4, m4, lb, -⟩ := sendTail_run (nx := 0) (c := fun _ => none) (body := []) K (env := upd (envOf [.int .i32 K.world.num, ptrVal a]) 2 K.buf) (by rfl) upd_same hi'.good d4 hwr
  obtain ⟨t', rt⟩ := key h'.next (K.blocks h')
  refine ⟨h', L', g', R', o', hi'.of_good g4 m4, by have e := l2; simp only at e; omega, ?_⟩
  refine .of (vs := [.int .i32 K.world.num, ptrVal a]) (fun env m => ?_) (.cons (.setPtr (ev_ldPtr hi (.ptr (by rfl)) r1)) (.cons (.stInt (k := 0) (k' := 0) .lit (.ptr upd_same) rfl (store_cursor K _))
    (.cons (ex_copyTab K (st := { s.dry with cursor := 0 }) (k := 8) upd_same start_seq startSeq rfl start_eq (putBytes_eq_ok d2).1)
    (.cons (m1 := conc K s2.dry h) ?_ (.cons (.expr (.call1 (.ptr (by rfl)) call)) rt))))) ?_
  · simp only [program, sml_transport_write, bindArgs, convTo, asInt, X_bind, X_pure, hd]
  · have := ex_advance K (env := upd (envOf [.int .i32 K.world.num, ptrVal a]) 2 K.buf) upd_same (st := putAt { s.dry with cursor := 0 } startSeq) (k := 8) (nx := h.next) (c := K.blocks h)
      (by simp only; omega) .lit (.inr rfl)
    rw [conc, q2]
    exact this
  · exact res_int { K with world := { K.world with sent := bs :: K.world.sent } } (st := s.dry) (nx := h.next) (c := K.blocks h) (st' := s'.dry) (nx' := h'.next) (c' := K.blocks h')
      (by split <;> exact conv_i32 (by omega) (by omega))

end Sml.C
