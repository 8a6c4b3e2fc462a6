import Verif.Proofs.SourceOverFile
import Verif.Proofs.SourceSend
import Verif.Props.Transport

/-! `sml_transport_write` at the end of the buffer, run from its source. -/

namespace Sml.C

theorem ExecOut.memcpyTab {k : Nat} (hd : EvalTo d env m p env1 m1) (hk : EvalTo i env1 m1 (.int t k) env2 m2) (ht : k ≤ tb.length)
    (hs : storeBytes p ((tb.take k).map fun n => UInt8.ofNat n.toNat) env2 m2 = .bad (.buf .oobWrite)) (hp : p ≠ nullPtr := by nonnull) :
    ExecOut (.memcpyTab d tb i) env m := by
  obtain ⟨N, r⟩ := hd
  obtain ⟨N2, r2⟩ := hk
  refine ⟨_, .write, max N N2, fun n hn => ?_⟩
  rw [exec, X_bind_ok (r n (by omega)), X_bind_ok (r2 n (by omega)), X_bind_ok asNat_int, tabBytes, if_neg (show ¬ tb.length < k by omega), X_bind_ok (X_pure _ _ _), X_bind_ok (target_ok hp)]
  exact X_bad hs

theorem ExecOut.memset {k : Nat} (hd : EvalTo d env m p env1 m1) (hc : EvalTo c env1 m1 (.int t w) env2 m2) (hk : EvalTo i env2 m2 (.int t' k) env3 m3)
    (hs : storeBytes p (List.replicate k (UInt8.ofNat (ITy.u8.toBits w))) env3 m3 = .bad (.buf .oobWrite)) (hp : p ≠ nullPtr := by nonnull) :
    ExecOut (.memset d c i) env m := by
  obtain ⟨N, r⟩ := hd
  obtain ⟨N2, r2⟩ := hc
  obtain ⟨N3, r3⟩ := hk
  refine ⟨_, .write, max N (max N2 N3), fun n hn => ?_⟩
  rw [exec, X_bind_ok (r n (by omega)), X_bind_ok (r2 n (by omega)), X_bind_ok asInt_int, X_bind_ok (r3 n (by omega)), X_bind_ok asNat_int, X_bind_ok (target_ok hp)]
  exact X_bad hs

section
variable (K : Ctx) {env : Env} (h : env x = K.buf)
include h

theorem out_copyTab {k : Nat} (tb : List Int) (bs : List UInt8) (ht : k = tb.length) (hb : tb.map (fun n => UInt8.ofNat n.toNat) = bs) (h0 : bs ≠ []) (hr : st.data.length < st.cursor + bs.length) :
    ExecOut (.memcpyTab (.call .sml_buf_get_current_buf [.var x]) tb (.lit .i32 (k : Nat))) env (memOf K st nx c) := by
  refine .memcpyTab (.call1 (.ptr h) (call_curBuf K)) .lit (by omega) ?_
  rw [ht, List.take_length, hb]
  exact storeBytes_out K hr h0

/-- `buf->buffer[buf->cursor++] = e;` at the end. -/
theorem out_putByte {t : ITy} {w : Nat} (hc : st.data.length ≤ st.cursor) (hl : st.cursor ≤ 2147483647)
    (he : EvalTo e env (memOf K st nx c) (.int t w) env (memOf K st nx c)) :
    ExecOut (.stByte .u8 (.ldPtr (.var x) 0) (.incMem .u64 (.var x) 1) e) env (memOf K st nx c) := by
  have ha : binOp .add (.int .u64 (st.cursor : Nat)) (.int .i32 ((1 : Nat) : Int)) env (memOf K st nx c) = .ok (.int .u64 ((st.cursor + 1 : Nat) : Int)) env (memOf K st nx c) :=
    add_u64 (by omega) .i32 (.inr rfl)
  have hs : storeInt K.buf 1 (ITy.conv .u64 ((st.cursor + 1 : Nat) : Int)) env (memOf K st nx c) = .ok () env (memOf K { st with cursor := st.cursor + 1 } nx c) := by
    rw [natConv_u64 (by omega)]
    exact store_cursor K _
  obtain ⟨N, r⟩ := he
  obtain ⟨N2, r2⟩ := ev_arr K (st := st) (nx := nx) (c := c) h
  obtain ⟨N3, r3⟩ := EvalTo.incMem (.ptr h) (load_cursor K) ha hs
  refine ⟨_, .write, max N (max N2 N3), fun n hn => ?_⟩
  rw [exec, X_bind_ok (r n (by omega)), X_bind_ok asInt_int, X_bind_ok (r2 n (by omega)), X_bind_ok (r3 n (by omega)), X_bind_ok asInt_int]
  refine (X_bind_ok (offset_ok _ _ _)).trans (X_bad ?_)
  rw [storeNum, Nat.zero_add, storeBytes, asPtr, X_bind, X_pure]
  simp only
  rw [if_neg (fun h => nomatch h), X_bind_ok (getBlock_arr K)]
  simp only
  rw [if_neg (by rw [List.length_map, leBytes_length, show ITy.u8.size = 1 from rfl]; omega)]
  rfl

end

theorem pad_out (K : Ctx) {env : Env} (h2 : env 2 = K.buf) (h3 : env 3 = .int .i32 (padOf st.cursor))
    (hw : (if padOf st.cursor ≠ 0 then putBytes (List.replicate (padOf st.cursor) 0) else pure ()) st = .ub r) :
    RunOut (.ite (.var 3) [.memset (.call .sml_buf_get_current_buf [.var 2]) (.lit .i32 0) (.var 3), .stInt .u64 (.var 2) 1 (.bin .add (.ldInt .u64 (.var 2) 1) (.var 3))] [] :: ss)
      env (memOf K st nx c) := by
  by_cases hz : padOf st.cursor = 0
  · rw [if_neg (by omega)] at hw
    cases hw
  · rw [if_pos hz] at hw
    have hub := putBytes_eq_ub hw
    refine RunOut.ite (b := true) (.int h3) (congrArg (XRes.ok · _ _) (decide_eq_true (by omega))) (.head (.memset (.call1 (.ptr h2) (call_curBuf K)) .lit (.int h3) (storeBytes_out K hub ?_)))
    intro hn
    have := congrArg List.length hn
    simp at this
    exact hz this

theorem sendTail_out (K : Ctx) {env : Env} {st : St} (h2 : env 2 = K.buf) (hg : Good st) (hw : frameTail st = .ub .oobWrite) : RunOut sendTail env (memOf K st nx c) := by
  have hpad : padOf st.cursor < 4 := by unfold padOf; split <;> omega
  have r0 := padSet_run K (st := st) (nx := nx) (c := c) h2 (by have := hg.cur; have := hg.len; omega)
  refine .cons r0 ?_
  replace hw := M_bind_eq_ub hw
  rcases hw with hw | ⟨_, s0, e0, hw⟩
  · cases hw
  cases e0
  replace hw := M_bind_eq_ub hw
  rcases hw with hw | ⟨_, s1, e1, hw⟩
  · exact pad_out K (env := upd env 3 (.int .i32 (padOf st.cursor))) h2 upd_same hw
  obtain ⟨g1, m1, r1⟩ := pad_run K (env := upd env 3 (.int .i32 (padOf st.cursor))) (nx := nx) (c := c) h2 upd_same hg e1
  refine .cons r1 ?_
  generalize padOf st.cursor = pad at *
  have k2 : upd env 3 (.int .i32 pad) 2 = K.buf := h2
  have k3 : upd env 3 (.int .i32 pad) 3 = .int .i32 pad := upd_same
  generalize upd env 3 (.int .i32 pad) = env1 at *
  replace hw := M_bind_eq_ub hw
  rcases hw with hw | ⟨_, s2, e2, hw⟩
  · exact .head (out_copyTab K k2 (k := 5) end_seq endSeq rfl end_eq (by decide) (putBytes_eq_ub hw))
  obtain ⟨g2, c2, q2⟩ := putBytes_good g1 e2
  have x2 : ExecTo (.memcpyTab (.call .sml_buf_get_current_buf [.var 2]) end_seq (.lit .i32 5)) env1 (memOf K s1 nx c) .next env1 (memOf K (putAt s1 endSeq) nx c) :=
    ex_copyTab K k2 (k := 5) end_seq endSeq rfl end_eq (putBytes_eq_ok e2).1
  have c2' : s2.cursor = s1.cursor + 5 := c2
  have x2' : ExecTo (.stInt .u64 (.var 2) 1 (.bin .add (.ldInt .u64 (.var 2) 1) (.lit .i32 5))) env1 (memOf K (putAt s1 endSeq) nx c) .next env1 (memOf K s2 nx c) := by
    have := ex_advance K k2 (st := putAt s1 endSeq) (k := 5) (nx := nx) (c := c) (by have := g2.cur; have := g2.len; simp only; omega) .lit (.inr rfl)
    rw [q2]
    exact this
  refine .cons x2 (.cons x2' ?_)
  have y3 : EvalTo (.cast .u8 (.var 3)) env1 (memOf K s2 nx c) (.int .u8 (pad : Nat)) env1 (memOf K s2 nx c) := by
    have h := EvalTo.cast (ty := .u8) (EvalTo.int (m := memOf K s2 nx c) k3)
    rw [conv_u8 (by omega) (by omega)] at h
    exact h
  replace hw := M_bind_eq_ub hw
  rcases hw with hw | ⟨_, s3, e3, hw⟩
  · have := putBytes_eq_ub hw
    exact .head (out_putByte K k2 (by simp only [List.length_cons, List.length_nil] at this; omega) (Nat.le_trans g2.cur g2.len) y3)
  obtain ⟨g3, c3, q3⟩ := putBytes_good g2 e3
  have x3 := ex_putByte K k2 (st := s2) (nx := nx) (c := c) (t := .u8) (w := pad) (putBytes_eq_ok e3).1 g2.len y3
  have q3' : ({ putAt s2 [UInt8.ofNat pad] with cursor := s2.cursor + 1 } : St) = s3 := q3.symm
  rw [q3'] at x3
  refine .cons x3 ?_
  replace hw := M_bind_eq_ub hw
  rcases hw with hw | ⟨_, s3', e4, hw⟩
  · cases hw
  cases e4
  replace hw := M_bind_eq_ub hw
  rcases hw with hw | ⟨cs, s3', e4, hw⟩
  · unfold bufferSlice at hw
    split at hw <;> cases hw
  obtain ⟨l4, hcs, rfl⟩ := sliceM_eq_ok e4
  have hcrc : EvalTo (.call .sml_crc16_calculate [.ldPtr (.var 2) 0, .ldInt .u64 (.var 2) 1]) env1 (memOf K s3' nx c) (.int .u16 (crc16 cs).toNat) env1 (memOf K s3' nx c) := by
    rw [hcs]
    exact .call (.cons (ev_arr K k2) (.one (ev_cursor K k2))) (crc16_run l4 (by have := g3.cur; have := g3.len; omega))
  have hx := (crc16 cs).isLt
  have x4 : ExecTo (.set .u16 4 (.call .sml_crc16_calculate [.ldPtr (.var 2) 0, .ldInt .u64 (.var 2) 1])) env1 (memOf K s3' nx c) .next (upd env1 4 (.int .u16 (crc16 cs).toNat)) (memOf K s3' nx c) :=
    .set (t := .u16) (k := (crc16 cs).toNat) hcrc (conv_u16 (by omega) (by omega))
  refine .cons x4 ?_
  have j2 : upd env1 4 (.int .u16 (crc16 cs).toNat) 2 = K.buf := k2
  have j4 : upd env1 4 (.int .u16 (crc16 cs).toNat) 4 = .int .u16 (crc16 cs).toNat := upd_same
  generalize upd env1 4 (.int .u16 (crc16 cs).toNat) = env2 at *
  generalize (crc16 cs).toNat = w at *
  have y5 : EvalTo (.cast .u8 (.bin .shr (.bin .band (.var 4) (.lit .i32 65280)) (.lit .i32 8))) env2 (memOf K s3' nx c) (.int .u8 ((w &&& 65280) / 256 : Nat)) env2 (memOf K s3' nx c) := by
    have h := EvalTo.cast (ty := .u8) (EvalTo.bin (EvalTo.bin (EvalTo.int (m := memOf K s3' nx c) j4) .lit (band32 (b := 65280) .u16 .i32 rfl (by omega) (by omega))) .lit (shr8 .i32 rfl))
    rw [conv_u8 (by omega) (by have := hi_byte (n := w); omega)] at h
    exact h
  replace hw := M_bind_eq_ub hw
  rcases hw with hw | ⟨_, s4, e5, hw⟩
  · have := putBytes_eq_ub hw
    exact .head (out_putByte K j2 (by simp only [List.length_cons, List.length_nil] at this; omega) (Nat.le_trans g3.cur g3.len) y5)
  obtain ⟨g4, c4, q4⟩ := putBytes_good g3 e5
  have x5 := ex_putByte K j2 (st := s3') (nx := nx) (c := c) (t := .u8) (w := (w &&& 65280) / 256) (e := .cast .u8 (.bin .shr (.bin .band (.var 4) (.lit .i32 65280)) (.lit .i32 8))) (putBytes_eq_ok e5).1 g3.len y5
  rw [show (w &&& 65280) / 256 = (w &&& 65280) >>> 8 from (Nat.shiftRight_eq_div_pow _ 8).symm] at x5
  have q4' : ({ putAt s3' [UInt8.ofNat ((w &&& 65280) >>> 8)] with cursor := s3'.cursor + 1 } : St) = s4 := q4.symm
  rw [q4'] at x5
  refine .cons x5 ?_
  have y6 : EvalTo (.cast .u8 (.bin .band (.var 4) (.lit .i32 255))) env2 (memOf K s4 nx c) (.int .u8 (w &&& 255 : Nat)) env2 (memOf K s4 nx c) := by
    have h := EvalTo.cast (ty := .u8) (EvalTo.bin (EvalTo.int (m := memOf K s4 nx c) j4) .lit (band32 (b := 255) .u16 .i32 rfl (by omega) (by omega)))
    rw [conv_u8 (by omega) (by have : w &&& 255 ≤ 255 := Nat.and_le_right; omega)] at h
    exact h
  replace hw := M_bind_eq_ub hw
  rcases hw with hw | ⟨_, s5, e6, hw⟩
  · have := putBytes_eq_ub hw
    exact .head (out_putByte K j2 (by simp only [List.length_cons, List.length_nil] at this; omega) (Nat.le_trans g4.cur g4.len) y6)
  exfalso
  replace hw := M_bind_eq_ub hw
  rcases hw with hw | ⟨_, s5', e7, hw⟩
  · cases hw
  unfold bufferSlice at hw
  split at hw <;> cases hw

/-- Not having a result does not depend on the count of live objects either. -/
def DryUb (m : M α) : Prop := ∀ s e, m s = .ub e → m s.dry = .ub e

theorem DryUb.bind {m : M α} {f : α → M β} (hd : Dry m) (hm : DryUb m) (hf : ∀ a, DryUb (f a)) : DryUb (m >>= f) := by
  intro s e h
  rcases M_bind_eq_ub h with h | ⟨a, s1, e1, h⟩
  · exact M_bind_ub_of (hm s e h)
  · rw [M.bind_ok (hd s a s1 e1).1]
    exact hf a s1 e h

theorem DryUb.getSt {f : St → M β} (hf : ∀ s, DryUb (f s)) (hd : ∀ s : St, f s = f s.dry) : DryUb (getSt >>= f) := by
  intro s e h
  show f s.dry s.dry = _
  rw [← hd]
  exact hf s s e h

theorem dryUb_putBytes (bs : List UInt8) : DryUb (putBytes bs) := by
  intro s e h
  unfold putBytes at h ⊢
  split at h
  · cases h
  · next hc =>
    exact (if_neg hc).trans h

theorem dryUb_slice (i k : Nat) : DryUb (bufferSlice i k) := by
  intro s e h
  unfold bufferSlice at h ⊢
  split at h
  · cases h
  · next hc =>
    exact (if_neg hc).trans h

theorem dryUb_frameTail : DryUb frameTail := by
  refine .getSt (fun st => .bind (.ite (dry_putBytes _) (.ret _)) ?_ fun _ => ?_) fun _ => rfl
  · split
    · exact dryUb_putBytes _
    · intro s e h
      cases h
  · exact .bind (dry_putBytes _) (dryUb_putBytes _) fun _ => .bind (dry_putBytes _) (dryUb_putBytes _) fun _ => .getSt (fun s => .bind (dry_bufferSlice _ _) (dryUb_slice _ _) fun _ =>
      .bind (dry_putBytes _) (dryUb_putBytes _) fun _ => .bind (dry_putBytes _) (dryUb_putBytes _) fun _ => .getSt (fun _ => dryUb_slice _ _) fun _ => rfl) fun _ => rfl

open Spec in
/-- `sml_transport_write` on a file `f` in a heap whose buffer has not enough room. -/
theorem transportWrite_out {s : St} {f : File} (K : Ctx) (hlo : K.lo = 0) (b : Bool) (hr : RFileOf (rawRep K.B) f a L) (hi : Inv K s.dry h) (o : Own n0 c0 h (L ++ g)) {t : ITy} {d : Int}
    (hd : ITy.conv .i32 d = K.world.num) (hok : ∀ m ∈ f.messages, MessageOk b m) (hlt : s.data.length < (sentFrame (fileBytes f.messages)).length)
    (hle : 8 + (fileBytes f.messages).length ≤ 2147483647) (hx : Few f.messages.length h) :
    CallOut .sml_transport_write [.int t d, ptrVal a] (conc K s.dry h) := by
  have hw := (c39_shape b f hok s hi.good.len).2 (by rw [← (c39_length _).2.1]; exact hlt)
  have hR := hr
  obtain ⟨ps, B', hF, hL⟩ := hr
  have hbuf : ∃ arr, (a, HCell.struct [arr, K.B] [f.messages.length]) ∈ L := by
    obtain ⟨arr, buf, B1, B2, rfl, harr, ⟨rfl, rfl⟩, rfl⟩ := hF.two
    exact ⟨arr, by rw [hL]; simp⟩
  obtain ⟨arr, ma⟩ := hbuf
  replace ma := List.mem_append_left g ma
  have hz : a ≠ 0 := by
    have := o.pos
    have := (o.key _ ma).1
    simp only at this
    omega
  have r1 : readPtr a 1 s.dry h = .ok K.B s.dry h := readPtr_ok hz (o.mem _ ma) rfl
  refine .of (vs := [.int .i32 K.world.num, ptrVal a]) (fun env m => ?_) (.cons (.setPtr (ev_ldPtr hi (.ptr (by rfl)) r1)) (.cons (.stInt (k := 0) (k' := 0) .lit (.ptr upd_same) rfl (store_cursor K _)) ?_))
  · simp only [program, sml_transport_write, bindArgs, convTo, asInt, X_bind, X_pure, hd]
  rw [transportFrame_eq] at hw
  replace hw := M_bind_eq_ub hw
  rcases hw with hw | ⟨_, s1, e1, hw⟩
  · cases hw
  cases e1
  replace hw := M_bind_eq_ub hw
  rcases hw with hw | ⟨_, s2, e2, hw⟩
  · exact .head (out_copyTab K (st := { s.dry with cursor := 0 }) (k := 8) upd_same start_seq startSeq rfl start_eq (by decide) (putBytes_eq_ub (st := { s with cursor := 0 }) hw))
  obtain ⟨d2, l2⟩ := dry_putBytes _ _ _ _ e2
  have gs : Good ({ s.dry with cursor := 0 } : St) := ⟨Nat.zero_le _, hi.good.len⟩
  obtain ⟨g2, c2, q2⟩ := putBytes_good (st := { s.dry with cursor := 0 }) gs d2
  have hi2 : Inv K s2.dry h := ⟨g2, hi.nB, hi.nA, hi.lB, hi.lA, hi.ints, by omega, hi.old⟩
  refine .cons (ex_copyTab K (st := { s.dry with cursor := 0 }) (k := 8) upd_same start_seq startSeq rfl start_eq (putBytes_eq_ok d2).1) (.cons (m1 := conc K s2.dry h) (env1 := upd (envOf [.int .i32 K.world.num, ptrVal a]) 2 K.buf) ?_ ?_)
  · have := ex_advance K (env := upd (envOf [.int .i32 K.world.num, ptrVal a]) 2 K.buf) upd_same (st := putAt { s.dry with cursor := 0 } startSeq) (k := 8) (nx := h.next) (c := K.blocks h)
      (by simp only; omega) .lit (.inr rfl)
    rw [conc, q2]
    exact this
  have c8 : s2.cursor = 8 := c2
  by_cases hfit : s2.cursor + (fileBytes f.messages).length ≤ s2.data.length
  · obtain ⟨f', s3, e3, _⟩ := (c31_file b f hok s2 g2.cur g2.len).1 hfit
    obtain ⟨h', L', g', R', o', hi', lv, call⟩ := fileWrite_run K hR hi2 o e3
    refine .cons (.expr (.call1 (.ptr (by rfl)) call)) (sendTail_out K upd_same hi'.good ?_)
    replace hw := M_bind_eq_ub hw
    rcases hw with hw | ⟨_, s4, e4, hw⟩
    · rw [e3] at hw
      cases hw
    rw [e3] at e4
    cases e4
    replace hw := M_bind_eq_ub hw
    rcases hw with hw | ⟨_, s5, e5, hw⟩
    · exact dryUb_frameTail _ _ hw
    · cases hw
  · exact .head (.expr (.call (.one (.ptr (by rfl))) (fileWrite_out K b hR hi2 o hok (by show s2.data.length < s2.cursor + _; omega) (by show s2.cursor + _ ≤ _; omega) hx)))

end Sml.C
