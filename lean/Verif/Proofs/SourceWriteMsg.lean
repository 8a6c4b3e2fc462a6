import Verif.Proofs.SourceWriteBody
import Verif.Proofs.SourceFile

/-!
# `sml_message_write` and `sml_file_write` from their source
-/

namespace Sml.C

/-! ## The body of a message -/

theorem messageBodyWrite_src : WriteSpec .sml_message_body_write pMessageBodyWrite := by
  refine WriteSpec.of rfl rfl fun a K => ?_
  refine Sem.hdr (n := 2) (by rfl) (by decide) (fun _ _ => rfl) ?_
  refine Sem.writeField (a := a) (by rfl) (by rfl) (CallSpec.number (type := 96) (size := 4) (by decide) (by decide)) ?_
  have hd : ∀ {f g}, WriteSpec f g → ∀ {body}, Sem K body [.expr (.call f [.ldPtr (.var 0) 1, .var 1])] (envOf [ptrVal a, K.buf]) anySt
      (readPtr a 1 >>= fun d => g d) (fun _ => .undef) anyRes :=
    fun hf _ => Sem.writeEnd (a := a) (by rfl) (by rfl) (.plain hf)
  refine Sem.of_run fun st h b st' h' hi _ hr => ?_
  rw [← P_bind_assoc] at hr
  replace hr := P_bind_eq_ok hr
  obtain ⟨t, s1, h1, e1, hr⟩ := hr
  have key : ∀ {v : Nat} {q : P Unit}, t.val = v → q s1 h1 = .ok b st' h' →
      ((readPtr a 0 >>= fun tag => readTag 4 tag) >>= fun t => if t.val = v then q else fault .kind) st h = .ok b st' h' := by
    intro v q hv hq
    rw [P.bind_ok e1, if_pos hv]
    exact hq
  have hdata : ∀ {g : Addr → P Unit}, (∀ d, pBodyDataWrite t.val d = g d) → (readPtr a 1 >>= fun d => g d) s1 h1 = .ok b st' h' := by
    intro g hg
    rw [← funext hg]
    exact hr
  by_cases h256 : t.val = 256
  · exact ⟨_, key h256 (hdata (g := pOpenRequestWrite) fun d => by rw [h256]; rfl), Sem.switchTag (a := a) [.expr (.call .sml_open_request_write [.ldPtr (.var 0) 1, .var 1])] (by rfl) rfl conv_u32_nat ⟨rfl, .inr ⟨_, rfl⟩⟩ (hd openRequestWrite_src)⟩
  by_cases h257 : t.val = 257
  · exact ⟨_, key h257 (hdata (g := pOpenResponseWrite) fun d => by rw [h257]; rfl), Sem.switchTag (a := a) [.expr (.call .sml_open_response_write [.ldPtr (.var 0) 1, .var 1])] (by rfl) rfl conv_u32_nat ⟨rfl, .inr ⟨_, rfl⟩⟩ (hd openResponseWrite_src)⟩
  by_cases h512 : t.val = 512
  · exact ⟨_, key h512 (hdata (g := pCloseRequestWrite) fun d => by rw [h512]; rfl), Sem.switchTag (a := a) [.expr (.call .sml_close_request_write [.ldPtr (.var 0) 1, .var 1])] (by rfl) rfl conv_u32_nat ⟨rfl, .inr ⟨_, rfl⟩⟩ (hd closeRequestWrite_src)⟩
  by_cases h513 : t.val = 513
  · exact ⟨_, key h513 (hdata (g := pCloseResponseWrite) fun d => by rw [h513]; rfl), Sem.switchTag (a := a) [.expr (.call .sml_close_response_write [.ldPtr (.var 0) 1, .var 1])] (by rfl) rfl conv_u32_nat ⟨rfl, .inr ⟨_, rfl⟩⟩ (hd closeResponseWrite_src)⟩
  by_cases h768 : t.val = 768
  · exact ⟨_, key h768 (hdata (g := pGetProfilePackRequestWrite) fun d => by rw [h768]; rfl), Sem.switchTag (a := a) [.expr (.call .sml_get_profile_pack_request_write [.ldPtr (.var 0) 1, .var 1])] (by rfl) rfl conv_u32_nat ⟨rfl, .inr ⟨_, rfl⟩⟩ (hd getProfilePackRequestWrite_src)⟩
  by_cases h769 : t.val = 769
  · exact ⟨_, key h769 (hdata (g := pGetProfilePackResponseWrite) fun d => by rw [h769]; rfl), Sem.switchTag (a := a) [.expr (.call .sml_get_profile_pack_response_write [.ldPtr (.var 0) 1, .var 1])] (by rfl) rfl conv_u32_nat ⟨rfl, .inr ⟨_, rfl⟩⟩ (hd getProfilePackResponseWrite_src)⟩
  by_cases h1024 : t.val = 1024
  · exact ⟨_, key h1024 (hdata (g := pGetProfilePackRequestWrite) fun d => by rw [h1024]; rfl), Sem.switchTag (a := a) [.expr (.call .sml_get_profile_pack_request_write [.ldPtr (.var 0) 1, .var 1])] (by rfl) rfl conv_u32_nat ⟨rfl, .inr ⟨_, rfl⟩⟩ (hd getProfilePackRequestWrite_src)⟩
  by_cases h1025 : t.val = 1025
  · exact ⟨_, key h1025 (hdata (g := pGetProfileListResponseWrite) fun d => by rw [h1025]; rfl), Sem.switchTag (a := a) [.expr (.call .sml_get_profile_list_response_write [.ldPtr (.var 0) 1, .var 1])] (by rfl) rfl conv_u32_nat ⟨rfl, .inr ⟨_, rfl⟩⟩ (hd getProfileListResponseWrite_src)⟩
  by_cases h1280 : t.val = 1280
  · exact ⟨_, key h1280 (hdata (g := pGetProcParameterRequestWrite) fun d => by rw [h1280]; rfl), Sem.switchTag (a := a) [.expr (.call .sml_get_proc_parameter_request_write [.ldPtr (.var 0) 1, .var 1])] (by rfl) rfl conv_u32_nat ⟨rfl, .inr ⟨_, rfl⟩⟩ (hd getProcParameterRequestWrite_src)⟩
  by_cases h1281 : t.val = 1281
  · exact ⟨_, key h1281 (hdata (g := pGetProcParameterResponseWrite) fun d => by rw [h1281]; rfl), Sem.switchTag (a := a) [.expr (.call .sml_get_proc_parameter_response_write [.ldPtr (.var 0) 1, .var 1])] (by rfl) rfl conv_u32_nat ⟨rfl, .inr ⟨_, rfl⟩⟩ (hd getProcParameterResponseWrite_src)⟩
  by_cases h1536 : t.val = 1536
  · exact ⟨_, key h1536 (hdata (g := pSetProcParameterRequestWrite) fun d => by rw [h1536]; rfl), Sem.switchTag (a := a) [.expr (.call .sml_set_proc_parameter_request_write [.ldPtr (.var 0) 1, .var 1])] (by rfl) rfl conv_u32_nat ⟨rfl, .inr ⟨_, rfl⟩⟩ (hd setProcParameterRequestWrite_src)⟩
  by_cases h1792 : t.val = 1792
  · exact ⟨_, key h1792 (hdata (g := pGetListRequestWrite) fun d => by rw [h1792]; rfl), Sem.switchTag (a := a) [.expr (.call .sml_get_list_request_write [.ldPtr (.var 0) 1, .var 1])] (by rfl) rfl conv_u32_nat ⟨rfl, .inr ⟨_, rfl⟩⟩ (hd getListRequestWrite_src)⟩
  by_cases h1793 : t.val = 1793
  · exact ⟨_, key h1793 (hdata (g := pGetListResponseWrite) fun d => by rw [h1793]; rfl), Sem.switchTag (a := a) [.expr (.call .sml_get_list_response_write [.ldPtr (.var 0) 1, .var 1])] (by rfl) rfl conv_u32_nat ⟨rfl, .inr ⟨_, rfl⟩⟩ (hd getListResponseWrite_src)⟩
  by_cases h65281 : t.val = 65281
  · exact ⟨_, key h65281 (hdata (g := pAttentionResponseWrite) fun d => by rw [h65281]; rfl), Sem.switchTag (a := a) [.expr (.call .sml_attention_response_write [.ldPtr (.var 0) 1, .var 1])] (by rfl) rfl conv_u32_nat ⟨rfl, .inr ⟨_, rfl⟩⟩ (hd attentionResponseWrite_src)⟩
  refine ⟨_, key (v := t.val) (q := (readPtr a 0 >>= fun tag => readTag 4 tag) >>= fun _ => pure ()) rfl ?_,
    Sem.switchTag (a := a) [.print [.deref .u32 (.ldPtr (.var 0) 0)]] (by rfl) rfl conv_u32_nat ⟨rfl, .inr ⟨[], pick_dflt ?_⟩⟩ ?_⟩
  · have hb : ∀ d, pBodyDataWrite t.val d = pure () := by
      intro d
      unfold pBodyDataWrite
      simp only [tagOpenRequest, tagOpenResponse, tagCloseRequest, tagCloseResponse, tagGetProfilePackRequest, tagGetProfilePackResponse, tagGetProfileListRequest, tagGetProfileListResponse, tagGetProcParameterRequest, tagGetProcParameterResponse, tagSetProcParameterRequest, tagGetListRequest, tagGetListResponse, tagAttentionResponse, h256, h257, h512, h513, h768, h769, h1024, h1025, h1280, h1281, h1536, h1792, h1793, h65281, if_false]
    have e2 := hdata hb
    replace e2 := P_bind_eq_ok e2
    obtain ⟨d, s2, h2, e3, e2⟩ := e2
    obtain ⟨_, rfl, rfl, _⟩ := readPtr_eq_ok e3
    obtain ⟨v, s4, h4, e4, e5⟩ := P_bind_eq_ok e1
    have e4' := e4
    obtain ⟨_, rfl, rfl, _⟩ := readPtr_eq_ok e4'
    have e5' := e5
    obtain ⟨_, rfl, rfl, _⟩ := readTag_eq_ok e5'
    rw [P.bind_ok e1]
    exact e2
  · simp only [hasCase, Bool.or_eq_false_iff, decide_eq_false_iff_not, and_true]
    omega
  · exact Sem.step (SSem.print (ESem.deref (ESem.ldPtr (pre := anySt) (a := a) (by rfl)) rfl conv_u32_nat)) fun _ => Sem.end_

/-! ## `sml_number_init` -/

theorem leBytes_mod : (n v : Nat) → leBytes n (v % 256 ^ n) = leBytes n v
  | 0, _ => rfl
  | n + 1, v => by
    rw [leBytes, leBytes]
    have h1 : v % 256 ^ (n + 1) / 256 = v / 256 % 256 ^ n := by
      rw [Nat.pow_succ, Nat.mul_comm, Nat.mod_mul_right_div_self]
    have h2 : UInt8.ofNat (v % 256 ^ (n + 1)) = UInt8.ofNat v := by
      apply UInt8.toNat.inj
      rw [UInt8.toNat_ofNat', UInt8.toNat_ofNat']
      exact Nat.mod_mod_of_dvd _ (by rw [Nat.pow_succ]; exact Nat.dvd_mul_left ..)
    rw [h1, h2, leBytes_mod n]

theorem toBits_u64 {n : Nat} (h : n < 18446744073709551616) : ITy.toBits .u64 (n : Int) = n := by
  have : (n : Int).emod (2 ^ 64) = n := Int.emod_eq_of_lt (by omega) (show (n : Int) < 18446744073709551616 by omega)
  simp only [ITy.toBits, ITy.bits]
  rw [this]
  rfl

/-- The low bytes of a number, least significant first, in a new block. -/
theorem numberInit_run (m : Mem) (h0 : m.next ≠ 0) {k : Int} {v size : Nat} {t1 t2 t3 : ITy} (hk : ITy.conv .u64 k = v) (hv : v < 18446744073709551616) (hs : size ≤ 8) :
    CallTo .sml_number_init [.int t1 k, .int t2 ty, .int t3 size] m (ptrVal m.next)
      { m with next := m.next + 1, heap := setHeap m.heap m.next (some (.raw ((leBytes size v).map some))) } := by
  have hb : ∀ env m, bindArgs [some .u64, some .u8, some .i32] [.int t1 k, .int t2 ty, .int t3 size] env m =
      .ok [.int .u64 v, .int .u8 (ITy.conv .u8 ty), .int .i32 size] env m := by
    intro env m
    simp only [bindArgs, convTo, asInt, X_bind, X_pure]
    rw [hk, conv_i32 (by omega) (by omega)]
  let σ := m.stack ++ [.raw ((leBytes 8 v).map some)]
  let m1 : Mem := { m with stack := m.stack ++ [.raw (List.replicate 8 none)] }
  let m2 : Mem := { m with stack := σ }
  let m3 : Mem := { m2 with next := m.next + 1, heap := setHeap m.heap m.next (some (.raw (List.replicate size none))) }
  let m4 : Mem := { m2 with next := m.next + 1, heap := setHeap m.heap m.next (some (.raw ((leBytes size v).map some))) }
  let E0 := envOf [.int .u64 v, .int .u8 (ITy.conv .u8 ty), .int .i32 size]
  let E1 := upd E0 3 (.ptr (.stack m.stack.length) 0)
  let E2 := upd E1 4 (.ptr (.stack m.stack.length) 0)
  let E3 := upd E2 5 (ptrVal m.next)
  have g1 : ∀ env, getBlock (.stack m.stack.length) env m1 = .ok (.raw (List.replicate 8 none)) env m1 := fun env => getBlock_stack (by simp [m1])
  have g3 : ∀ env, getBlock (.stack m.stack.length) env m3 = .ok (.raw ((leBytes 8 v).map some)) env m3 := fun env => getBlock_stack (by simp [m3, m2, σ])
  have x1 : ExecTo (.bytes 3 (.lit .u64 8)) E0 m .next E1 m1 := .bytes (k := 8) .lit (by omega)
  have x2 : ExecTo (.stDeref .u64 (.var 3) (.var 0)) E1 m1 .next E1 m2 := by
    refine .stDeref (t := .u64) (w := v) (.int (by rfl)) (.ptr (l := .stack m.stack.length) (i := 0) (by rfl)) ?_
    rw [storeNum, toBits_u64 hv, show ITy.size .u64 = 8 from rfl]
    refine storeBytes_raw (g1 _) (fun h => ?_) (by rw [leBytes_length]; simp) ?_
    · have := leBytes_length 8 v
      rw [h] at this
      cases this
    · rw [setBlock_stack, leBytes_length]
      simp [m1, m2, σ]
  have x3 : ExecTo (.setPtr 4 (.var 3)) E1 m2 .next E2 m2 := .setPtr (.ptr rfl)
  have x4 : ExecTo (.ite (.bin .eq (.call .sml_number_endian []) (.lit .i32 1)) [.setPtr 4 (.addr (.var 4) (.bin .sub (.lit .u64 8) (.var 2)))] []) E2 m2 .next E2 m2 :=
    .ite (b := false) (.bin (.call .nil (call_endian _)) .lit (bin_eq (ta := .i32) (tb := .i32) rfl rfl)) (truth_neg (by decide)) .nil
  have x5 : ExecTo (.setPtr 5 (.mallocBytes (.var 2))) E2 m2 .next E3 m3 := .setPtr (.mallocBytes (t := .i32) (k := size) (.int (by rfl)))
  have x6 : ExecTo (.ite (.bin .eq (.var 5) .null) [.goto 0] []) E3 m3 .next E3 m3 :=
    .ite (b := false) (ev_null0 (a := m.next) (by rfl)) (truth_neg h0) .nil
  have x7 : ExecTo (.memcpy (.var 5) (.var 4) (.var 2)) E3 m3 .next E3 m4 := by
    refine .memcpy (t' := .i32) (k := size) (bs := leBytes size v) (.ptr (l := .heap m.next) (i := 0) (by rfl)) (.ptr (l := .stack m.stack.length) (i := 0) (by rfl)) (.int (by rfl)) (loadBytes_raw' (g3 _) ?_ ?_) ?_
    · rw [List.length_map, leBytes_length]
      omega
    · rw [List.drop_zero, ← List.map_take, leBytes_take _ _ _ hs]
    · refine (storeBytes_all h0 setHeap_same (by rw [leBytes_length, List.length_replicate])).trans ?_
      simp only [m3, m4, setHeap_twice]
  refine .of (m1 := m4) hb (.cons x1 (.cons x2 (.cons x3 (.cons x4 (.cons x5 (.cons x6 (.cons x7 (.ret (.ptr (l := .heap m.next) (i := 0) (by rfl)))))))))) fun env => ?_
  simp [m4, m2, σ]
  rfl

/-- `sml_number_init` as the model has it. -/
theorem numberInit_src {k : Int} {v size : Nat} {t1 t2 t3 : ITy} (hk : ITy.conv .u64 k = v) (hv : v < 18446744073709551616) (hs : size ≤ 8) :
    FSpec .sml_number_init (fun _ => [.int t1 k, .int t2 ty, .int t3 size]) anySt (malloc (.num (numberInit v size))) ptrVal anyRes := by
  intro K st h hi _ r st' h' hr
  cases hr
  have := numberInit_run (ty := ty) (t1 := t1) (t2 := t2) (t3 := t3) (conc K st h) hi.next_ne.1 hk hv hs
  rw [show (Block.raw ((leBytes size v).map some)) = enc (.num (numberInit v size)) by rw [enc, numberInit, leBytes_mod]] at this
  refine ⟨hi.grown trivial, trivial, ?_⟩
  rw [show ({ conc K st h with next := (conc K st h).next + 1, heap := setHeap (conc K st h).heap (conc K st h).next (some (enc (.num (numberInit v size)))) } : Mem) =
    conc K st (grown h (.num (numberInit v size))) from conc_grown hi _] at this
  exact this

/-! ## `sml_message_write` -/

/-- `int n = buf->cursor;` with the buffer in any variable. -/
theorem Sem.cursorIntW {k : Nat → P β} (h1 : env y = K.buf)
    (hk : ∀ n : Nat, Sem { K with lo := n } body ss (upd env x (.int .i32 n)) anySt (k n) vl post) :
    Sem K body (.set .i32 x (.ldInt .u64 (.var y) 1) :: ss) env pre (lift cursorAsInt >>= k) vl post := by
  intro st h hi hp b st' h' hr
  replace hr := P_bind_eq_ok hr
  obtain ⟨n, s1, h1', e, hr⟩ := hr
  obtain ⟨rfl, rfl, rfl⟩ := cursorAsInt_eq_ok e
  have hi' : Inv { K with lo := s1.cursor } s1 h1' := ⟨hi.good, hi.nB, hi.nA, hi.lB, hi.lA, hi.ints, Nat.le_refl _, hi.old⟩
  obtain ⟨i2, q2, r2⟩ := (hk s1.cursor).run hi' trivial hr
  have g1 := hi.good.cur
  have g2 := hi.good.len
  exact ⟨⟨i2.good, i2.nB, i2.nA, i2.lB, i2.lA, i2.ints, Nat.le_trans hi.lo i2.lo, i2.old⟩, q2, RunTo.cons (.set (ev_cursor K h1) (conv_i32 (by omega) (by omega))) r2⟩

/-- The checksum of the message as a new object. -/
def pCrcObject (start : Nat) : P Addr :=
  lift getSt >>= fun st => if st.cursor > 2147483647 then fault (.buf .narrowing)
    else lift (bufferSlice start (st.cursor - start)) >>= fun bytes => malloc (.num (numberInit (crc16 bytes).toNat 2))

theorem ESem.crcObject (h1 : env 1 = K.buf) (h2 : env 2 = .int .i32 K.lo) :
    ESem K (.call .sml_number_init [.call .sml_crc16_calculate [.addr (.ldPtr (.var 1) 0) (.var 2), .bin .sub (.ldInt .u64 (.var 1) 1) (.var 2)], .lit .i32 96, .lit .u64 2])
      env anySt (pCrcObject K.lo) ptrVal anyRes := by
  intro st h hi _ b st' h' hr
  replace hr := P_bind_eq_ok hr
  obtain ⟨s, s1, g1, e, hr⟩ := hr
  obtain ⟨rfl, rfl, rfl⟩ := getSt_eq_ok e
  have hc := hi.good.cur
  have hl := hi.good.len
  have hlo := hi.lo
  rw [if_neg (by omega)] at hr
  replace hr := P_bind_eq_ok hr
  obtain ⟨bs, s2, g2, e2, hr⟩ := hr
  obtain ⟨hle, rfl, rfl, rfl⟩ := bufferSlice_eq_ok e2
  have ea : EvalsTo [.addr (.ldPtr (.var 1) 0) (.var 2), .bin .sub (.ldInt .u64 (.var 1) 1) (.var 2)] env (conc K s2 g2)
      [.ptr (.heap K.A) K.lo, .int .u64 (s2.cursor - K.lo : Nat)] env (conc K s2 g2) := by
    have := offset_ok (env := env) (m := conc K s2 g2) (.heap K.A) 0 K.lo
    rw [Nat.zero_add] at this
    refine .cons (.addr (ev_arr K h1) (.int h2) this) (.one ?_)
    refine .bin (ev_cursor K h1) (.int h2) ((bin_sub (ta := .u64) (tb := .i32) (conv_u64 (by omega) (by omega)) (conv_u64 (by omega) (by omega))).trans ?_)
    refine (arith_u64 (by omega) (by omega)).trans ?_
    congr 2
    omega
  have hq := (crc16 ((s2.data.drop K.lo).take (s2.cursor - K.lo))).isLt
  obtain ⟨i3, _, c3⟩ := (numberInit_src (ty := 96) (t1 := .u16) (t2 := .i32) (t3 := .u64) (size := 2) (conv_u64 (by omega) (by omega)) (by omega) (by omega)).run hi trivial hr
  exact ⟨i3, trivial, EvalTo.call (.cons (.call ea (crc16_run (K := K) (by omega) (by omega))) (.cons .lit (.one .lit))) c3⟩

/-- `buf->buffer[buf->cursor] = 0; buf->cursor++;` -/
theorem Sem.endByte (h1 : env 1 = K.buf) :
    Sem K body [.stByte .u8 (.ldPtr (.var 1) 0) (.ldInt .u64 (.var 1) 1) (.lit .i32 0), .stInt .u64 (.var 1) 1 (.bin .add (.ldInt .u64 (.var 1) 1) (.lit .i32 1))] env anySt
      (lift (setByte 0x00) >>= fun _ => lift advance) (fun _ => .undef) anyRes := by
  intro st h hi _ b st' h' hr
  replace hr := P_bind_eq_ok hr
  obtain ⟨_, s1, g1, e1, hr⟩ := hr
  replace e1 := lift_eq_ok e1
  obtain ⟨e1, rfl⟩ := e1
  obtain ⟨hc, rfl⟩ := setByte_eq_ok e1
  replace hr := lift_eq_ok hr
  obtain ⟨e2, rfl⟩ := hr
  cases e2
  have hl := hi.good.len
  refine ⟨hi.of_good ⟨by simp only [List.length_set]; exact hc, by simpa using hl⟩ (Nat.le_succ _), trivial,
    RunTo.cons (ex_setByte K h1 hc (w := 0) .lit) (.cons (ex_next K h1 (by simpa using hc) (by simpa using hl)) .nil)⟩

theorem messageWrite_eq (a : Addr) : pMessageWrite a = (lift cursorAsInt >>= fun n => lift (setTypeAndLength tyList 6) >>= fun _ =>
    pWriteFields a 0 [pOctetStringWrite, pU8Write, pU8Write, pMessageBodyWrite] >>= fun _ => pCrcObject n >>= fun crc => writePtr a 4 crc >>= fun _ =>
    readPtr a 4 >>= fun v => pU16Write v >>= fun _ => lift (setByte 0x00) >>= fun _ => lift advance) := by
  unfold pMessageWrite pWriteStruct pCrcObject
  congr 1
  funext n
  rw [P_bind_assoc]
  congr 1
  funext _
  congr 1
  funext _
  rw [P_bind_assoc]
  congr 1
  funext st
  rw [P_ite_bind]
  congr 1
  rw [P_bind_assoc]

/-- The calls in front of the checksum. -/
def messageCalls : List (Fn × List Expr) :=
  [(.sml_octet_string_write, [.var 1]), (.sml_number_write, [.lit .i32 96, .lit .u64 1, .var 1]), (.sml_number_write, [.lit .i32 96, .lit .u64 1, .var 1]), (.sml_message_body_write, [.var 1])]

theorem messageWrite_src : WriteSpec .sml_message_write pMessageWrite := by
  refine WriteSpec.of rfl rfl fun a K => ?_
  rw [messageWrite_eq]
  refine Sem.cursorIntW (by rfl) fun n => ?_
  generalize hK : ({ K with lo := n } : Ctx) = K1
  have hlo : K1.lo = n := by rw [← hK]
  have hbuf : K1.buf = K.buf := by rw [← hK]
  rw [← hlo, ← hbuf]
  refine Sem.hdr (by rfl) (by decide) (fun _ _ => rfl) ?_
  refine Sem.writeStmts (x := 0) (by rfl) (by rfl) ?_ 0 messageCalls _
    ⟨.plain octetStringWrite_src, .number (by decide) (by decide), .number (by decide) (by decide), .plain messageBodyWrite_src, trivial⟩
  refine Sem.stPtr (k := fun _ => readPtr a 4 >>= fun v => pU16Write v >>= fun _ => lift (setByte 0x00) >>= fun _ => lift advance) (ESem.crcObject (by rfl) (by rfl)) (by rfl) fun v => ?_
  refine Sem.writeField (x := 0) (by rfl) (by rfl) (CallSpec.number (type := 96) (size := 2) (by decide) (by decide)) ?_
  exact Sem.endByte (by rfl)

end Sml.C
