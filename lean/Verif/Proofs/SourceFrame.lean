import Verif.Proofs.SourceRecv

/-!
# `sml_transport_read`, run from its source
-/

namespace Sml.C

/-- The variables of `sml_transport_read`. -/
structure FrameEnv (m : Mem) (d : Nat) (q : Val) (maxLen len : Nat) (env : Env) : Prop where
  h0 : env 0 = .int .i32 d
  h1 : env 1 = q
  h2 : env 2 = .int .u64 maxLen
  h3 : env 3 = .ptr (.stack m.stack.length) 0
  h4 : env 4 = .ptr (.stack (m.stack.length + 1)) 0
  h5 : env 5 = .int .u32 len

theorem FrameEnv.five (h : FrameEnv m d q maxLen len env) : FrameEnv m d q maxLen len' (upd env 5 (.int .u32 len')) := ⟨h.h0, h.h1, h.h2, h.h3, h.h4, rfl⟩

/-- `sml_read(fd, &readfds, &(buf[len]), k) == 0` -/
abbrev readZero (k : Int) : Expr := .bin .eq (.call .sml_read [.var 0, .var 3, .addr (.var 4) (.var 5), .lit .i32 k]) (.lit .i32 0)

theorem EvalsTo.four (h1 : EvalTo a env m v1 env m) (h2 : EvalTo b env m v2 env m) (h3 : EvalTo c env m v3 env m) (h4 : EvalTo d env m v4 env m) :
    EvalsTo [a, b, c, d] env m [v1, v2, v3, v4] env m := .cons h1 (.cons h2 (.cons h3 (.one h4)))

section
variable {m : Mem} {d maxLen len : Nat} {q : Val} {w : World} {buf : List UInt8} {env : Env} {set : List Bool} {fd : SFd} {ev : Option Ev} {e : Int}
  (hd : d < 1024) (hn : w.num = d) (hE : Errs w) (he : FrameEnv m d q maxLen len env)
include hd hn hE he

theorem readZero_run {k : Nat} {r : SelResult} (hk : 0 < k ∧ k < 9223372036854775808) (hb : len + k ≤ buf.length) (hr : smlReadS d set fd k = .ok r) :
    ∃ ev' e' buf', EvalTo (readZero k) env (rdMem m set (w.at fd ev e) buf) (ofBool r.got.isNone) env (rdMem m r.set (w.at r.fd ev' e') buf') ∧
      buf'.length = buf.length ∧ ∀ bs, r.got = some bs → bs.length = k ∧ buf' = putIn buf len bs := by
  obtain ⟨ev', e', buf', call, hl, hg⟩ := smlRead_run m d len k w buf hd hk.2 hn hb hE (t1 := .i32) (t2 := .i32) (ev := ev) (e := e) hr
  refine ⟨ev', e', buf', .bin (.call (.four (.int he.h0) (.ptr he.h3) (.addr (.ptr he.h4) (.int he.h5) ((offset_ok _ _ _).trans (by rw [Nat.zero_add]))) .lit) call) .lit ?_, hl, hg⟩
  cases r.got with
  | none => rfl
  | some bs =>
    simp only [Option.isNone_some]
    rw [bin_eq (ta := .u64) (tb := .i32) (natConv_u64 (by omega)) rfl, decide_eq_false (by omega)]

end

/-- `buf[len]` -/
theorem bufByte_run (he : FrameEnv m d q maxLen len env) {set : List Bool} {b : UInt8} {buf : List UInt8} (hb : buf[len]? = some b) :
    EvalTo (.byte .u8 (.var 4) (.var 5)) env (rdMem m set w buf) (.int .u8 b.toNat) env (rdMem m set w buf) := by
  refine .byte (.ptr he.h4) (.int he.h5) ((offset_ok _ _ _).trans (by rw [Nat.zero_add])) (loadByte_raw (rd_buf m set w buf) ?_)
  rw [List.getElem?_map, hb]
  rfl

theorem byte_is {b : UInt8} {n : Nat} (hn : n < 256) : binOp .eq (.int .u8 b.toNat) (.int .i32 n) env m = .ok (ofBool (decide (b = UInt8.ofNat n))) env m := by
  have hb := UInt8.toNat_lt b
  rw [bin_eq (ta := .u8) (tb := .i32) (conv_i32 (by omega) (by omega)) (conv_i32 (by omega) (by omega))]
  congr 2
  apply decide_eq_decide.mpr
  rw [← UInt8.toNat_inj, UInt8.toNat_ofNat']
  constructor <;> intro h <;> omega

theorem lt_u32 {a b : Nat} (ha : a < 4294967296) (hb : b < 4294967296) : binOp .lt (.int .u32 a) (.int .i32 b) env m = .ok (ofBool (decide (a < b))) env m ∧
    binOp .ge (.int .u32 a) (.int .i32 b) env m = .ok (ofBool (decide (a ≥ b))) env m := by
  constructor
  · rw [bin_lt (ta := .u32) (tb := .i32) (conv_u32 (by omega) (by omega)) (conv_u32 (by omega) (by omega))]
    simp only [Int.ofNat_lt]
  · rw [bin_ge (ta := .u32) (tb := .i32) (conv_u32 (by omega) (by omega)) (conv_u32 (by omega) (by omega))]
    simp only [ge_iff_le, Int.ofNat_le]

theorem plus_u32 {a b : Nat} (h : a + b < 4294967296) : binOp .add (.int .u32 a) (.int .i32 b) env m = .ok (.int .u32 (a + b : Nat)) env m := by
  rw [bin_add (ta := .u32) (tb := .i32) (conv_u32 (by omega) (by omega)) (conv_u32 (by omega) (by omega))]
  exact arith_u32 (by omega) (by omega)

/-- `len += k` -/
theorem lenAdd_run (he : FrameEnv m d q maxLen len env) {k : Nat} (h : len + k < 4294967296) :
    ExecTo (.set .u32 5 (.bin .add (.var 5) (.lit .i32 k))) env m' .next (upd env 5 (.int .u32 (len + k : Nat))) m' :=
  .set (t := .u32) (k := ((len + k : Nat) : Int)) (.bin (.int he.h5) .lit (plus_u32 h)) (conv_u32 (by omega) (by omega))

/-! ## The start sequence -/

abbrev startTest : Expr := .or (.and (.bin .eq (.byte .u8 (.var 4) (.var 5)) (.lit .i32 27)) (.bin .lt (.var 5) (.lit .i32 4)))
  (.and (.bin .eq (.byte .u8 (.var 4) (.var 5)) (.lit .i32 1)) (.bin .ge (.var 5) (.lit .i32 4)))

abbrev startCond : Expr := .bin .lt (.var 5) (.lit .i32 8)

abbrev startBody : List Stmt := [
  .ite (readZero 1) [.ret (.lit .i32 0)] [],
  .ite startTest [.set .u32 5 (.bin .add (.var 5) (.lit .i32 1))] [.set .u32 5 (.lit .i32 0)]]

theorem EvalTo.andB {p1 p2 : Bool} (ha : EvalTo a env m (ofBool p1) env m) (hb : EvalTo b env m (ofBool p2) env m) : EvalTo (.and a b) env m (ofBool (p1 && p2)) env m := by
  cases p1 with
  | false => exact .and_f ha rfl
  | true => exact .and_t ha rfl hb (truth_ofBool _)

theorem EvalTo.orB {p1 p2 : Bool} (ha : EvalTo a env m (ofBool p1) env m) (hb : EvalTo b env m (ofBool p2) env m) : EvalTo (.or a b) env m (ofBool (p1 || p2)) env m := by
  cases p1 with
  | true => exact .or_t ha rfl
  | false => exact .or_f ha rfl hb (truth_ofBool _)

theorem startTest_run (he : FrameEnv m d q maxLen len env) {set : List Bool} {b : UInt8} {buf : List UInt8} (hb : buf[len]? = some b) (hl : len < 4294967296) :
    EvalTo startTest env (rdMem m set w buf) (ofBool (decide ((b = 0x1b ∧ len < 4) ∨ (b = 0x01 ∧ len ≥ 4)))) env (rdMem m set w buf) := by
  have r := bufByte_run (set := set) (w := w) he hb
  have l : EvalTo (.var 5) env (rdMem m set w buf) (.int .u32 len) env (rdMem m set w buf) := .int he.h5
  have := EvalTo.orB (EvalTo.andB (.bin r .lit (byte_is (n := 27) (by decide))) (.bin l .lit (lt_u32 (b := 4) hl (by decide)).1))
    (EvalTo.andB (.bin r .lit (byte_is (n := 1) (by decide))) (.bin l .lit (lt_u32 (b := 4) hl (by decide)).2))
  rw [← Bool.decide_and, ← Bool.decide_and, ← Bool.decide_or] at this
  exact this

/-- The branch that sets `len`. -/
theorem startNext_run (he : FrameEnv m d q maxLen len env) {set : List Bool} {b : UInt8} {buf : List UInt8} (hb : buf[len]? = some b) (hl : len < 8) :
    ExecTo (startBody.getD 1 .retVoid) env (rdMem m set w buf) .next (upd env 5 (.int .u32 (startNext len b))) (rdMem m set w buf) := by
  refine .ite (startTest_run he hb (by omega)) (truth_ofBool _) ?_
  unfold startNext
  by_cases h : (b = 0x1b ∧ len < 4) ∨ (b = 0x01 ∧ len ≥ 4)
  · rw [decide_eq_true h, if_pos rfl, if_pos h]
    exact .last (lenAdd_run he (k := 1) (by omega))
  · rw [decide_eq_false h, if_neg (by decide), if_neg h]
    exact .last (.set (t := .i32) (k := 0) .lit rfl)

theorem startNext_le {len : Nat} {b : UInt8} (h : len < 8) : startNext len b ≤ 8 := by
  unfold startNext
  split <;> omega

theorem TRes_bind_ok {x : TRes α} {f : α → TRes β} {y : β} (h : x.bind f = .ok y) : ∃ a, x = .ok a ∧ f a = .ok y := by
  cases x with
  | ok a => exact ⟨a, rfl, h⟩
  | ub u => cases h

theorem storeAt_ok (h : storeAt buf i bs = .ok buf') : i + bs.length ≤ buf.length ∧ buf' = putIn buf i bs := by
  unfold storeAt at h
  split at h
  · cases h
    exact ⟨‹_›, rfl⟩
  · cases h

theorem loadAt_ok (h : loadAt buf i = .ok b) : buf[i]? = some b := by
  unfold loadAt at h
  cases e : buf[i]? with
  | none =>
    rw [e] at h
    cases h
  | some c =>
    rw [e] at h
    cases h
    rfl

section
variable (m : Mem) (d maxLen : Nat) (q : Val) (w : World) (hd : d < 1024) (hn : w.num = d) (hE : Errs w) (hm : 8 ≤ maxLen)
include hd hn hE hm

theorem startLoop_run : ∀ (fuel : Nat) (set : List Bool) (fd : SFd) (buf : List UInt8) (len : Nat) (ev : Option Ev) (e : Int) (env : Env) (r : Option (List UInt8) × SFd × List Bool),
    FrameEnv m d q maxLen len env → len ≤ 8 → buf.length = maxLen → findStartS d fuel set fd buf len = .ok r →
    ∃ ev' e' buf' env', LoopTo startCond startBody [] env (rdMem m set (w.at fd ev e) buf) (loopOut r.1) env' (rdMem m r.2.2 (w.at r.2.1 ev' e') buf') ∧
      ∀ b, r.1 = some b → buf' = b ∧ b.length = maxLen ∧ FrameEnv m d q maxLen 8 env'
  | 0, set, fd, buf, len, ev, e, env, r, he, hl, hb, hr => by cases hr
  | fuel + 1, set, fd, buf, len, ev, e, env, r, he, hl, hb, hr => by
    unfold findStartS at hr
    have hc : ∀ m', EvalTo startCond env m' (ofBool (decide (len < 8))) env m' := fun m' => .bin (.int he.h5) .lit (lt_u32 (b := 8) (by omega) (by decide)).1
    by_cases h8 : len < 8
    · rw [if_pos h8] at hr
      rw [decide_eq_true h8] at hc
      obtain ⟨r1, e1, hr⟩ := TRes_bind_ok hr
      obtain ⟨ev1, e1', buf1, rz, hbl, hg⟩ := readZero_run hd hn hE he (buf := buf) (ev := ev) (e := e) (k := 1) (by omega) (by omega) e1
      cases hgot : r1.got with
      | none =>
        rw [hgot] at hr rz
        cases hr
        exact ⟨ev1, e1', buf1, env, .stop (hc _) rfl (.stop (.ite (b := true) rz rfl (.last (.ret .lit))) (by intro h; cases h)) (.inr (.inr ⟨_, rfl, rfl⟩)), fun b hb => by cases hb⟩
      | some bs =>
        simp only [hgot] at hr
        rw [hgot] at rz
        obtain ⟨hbs, rfl⟩ := hg bs hgot
        obtain ⟨buf2, e2, hr⟩ := TRes_bind_ok hr
        obtain ⟨hle, rfl⟩ := storeAt_ok e2
        obtain ⟨b, e3, hr⟩ := TRes_bind_ok hr
        obtain ⟨ev', e', buf', env', lp, hf⟩ := startLoop_run fuel r1.set r1.fd (putIn buf len bs) (startNext len b) ev1 e1' (upd env 5 (.int .u32 (startNext len b))) r he.five (startNext_le h8)
          (by rw [putIn_length hle, hb]) hr
        exact ⟨ev', e', buf', env', .round (hc _) rfl (.cons (.ite (b := false) rz rfl .nil) (.last (startNext_run he (loadAt_ok e3) h8))) .nil lp, hf⟩
    · rw [if_neg h8] at hr
      cases hr
      rw [decide_eq_false h8] at hc
      obtain rfl : len = 8 := by omega
      exact ⟨ev, e, buf, env, .done (hc _) rfl, fun b hb' => by cases hb'; exact ⟨rfl, hb, he⟩⟩

end

/-! ## The blocks of four bytes -/

abbrev blockCond : Expr := .bin .lt (.bin .add (.var 5) (.lit .i32 8)) (.var 2)

abbrev endBody : List Stmt := [
  .set .u32 5 (.bin .add (.var 5) (.lit .i32 4)),
  .ite (readZero 4) [.ret (.lit .i32 0)] [],
  .ite (.bin .eq (.byte .u8 (.var 4) (.var 5)) (.lit .i32 26)) [
    .set .u32 5 (.bin .add (.var 5) (.lit .i32 4)),
    .memcpy (.var 1) (.addr (.var 4) (.lit .i32 0)) (.var 5),
    .ret (.var 5)] [
    .print [],
    .ret (.lit .i32 0)]]

abbrev isEsc : Expr := .bin .eq (.memcmpTab (.addr (.var 4) (.var 5)) esc_seq (.lit .i32 4)) (.lit .i32 0)

abbrev blockBody : List Stmt := [
  .ite (readZero 4) [.ret (.lit .i32 0)] [],
  .ite isEsc endBody [],
  .set .u32 5 (.bin .add (.var 5) (.lit .i32 4))]

/-- The memory of the caller after a frame was copied to it. -/
abbrev outMem (m : Mem) (dst : List UInt8 → Mem) (out : List UInt8) : Mem := if out = [] then m else dst out

/-- The bytes can be copied to `q`: then the memory is `dst bs`. -/
structure Dest (m : Mem) (q : Val) (maxLen : Nat) (dst : List UInt8 → Mem) : Prop where
  isPtr : q ≠ .undef
  isSome : q ≠ nullPtr
  len : ∀ bs, (dst bs).stack.length = m.stack.length
  store : ∀ bs, bs ≠ [] → bs.length ≤ maxLen → ∀ env set w buf, storeBytes q bs env (rdMem m set w buf) = .ok () env (rdMem (dst bs) set w buf)

theorem loadBytesT_ok (h : Sml.loadBytes buf i n = .ok bs) : i + n ≤ buf.length ∧ bs = (buf.drop i).take n := by
  unfold Sml.loadBytes at h
  split at h
  · cases h
    exact ⟨‹_›, rfl⟩
  · cases h

theorem rd_bytes {set : List Bool} {buf : List UInt8} (h : i + n ≤ buf.length) :
    loadBytes (.ptr (.stack (m.stack.length + 1)) i) n env (rdMem m set w buf) = .ok ((buf.drop i).take n) env (rdMem m set w buf) := by
  refine loadBytes_raw' (rd_buf m set w buf) (by rw [List.length_map]; exact h) ?_
  rw [List.map_take, List.map_drop]

theorem isEsc_run (he : FrameEnv m d q maxLen len env) {set : List Bool} {buf : List UInt8} (h : len + 4 ≤ buf.length) :
    EvalTo isEsc env (rdMem m set w buf) (ofBool (decide ((buf.drop len).take 4 = escSeq))) env (rdMem m set w buf) := by
  refine .bin (.memcmpTab (k := 4) (.addr (.ptr he.h4) (.int he.h5) ((offset_ok _ _ _).trans (by rw [Nat.zero_add]))) .lit (rd_bytes h) (by decide)) .lit ?_
  have hc := cmpBytes_range ((buf.drop len).take 4) escSeq
  have hq := cmpBytes_eq ((buf.drop len).take 4) escSeq (by rw [List.length_take, List.length_drop]; show _ = 4; omega)
  rw [show ((esc_seq.take 4).map fun n => UInt8.ofNat n.toNat) = escSeq by decide]
  rw [bin_eq (ta := .i32) (tb := .i32) (conv_i32 (by omega) (by omega)) rfl]
  simp only [hq]

section
variable (m : Mem) (d maxLen : Nat) (q : Val) (w : World) (dst : List UInt8 → Mem) (hd : d < 1024) (hn : w.num = d) (hE : Errs w) (hm : maxLen < 4294967288) (hq : Dest m q maxLen dst)
include hd hn hE hm hq

theorem blockLoop_run : ∀ (fuel : Nat) (set : List Bool) (fd : SFd) (buf : List UInt8) (len : Nat) (ev : Option Ev) (e : Int) (env : Env) (r : List UInt8 × SFd),
    FrameEnv m d q maxLen len env → len < 4294967288 → buf.length = maxLen → readBlocksS d maxLen fuel set fd buf len = .ok r →
    ∃ ev' e' set' buf' env' o, LoopTo blockCond blockBody [] env (rdMem m set (w.at fd ev e) buf) o env' (rdMem (outMem m dst r.1) set' (w.at r.2 ev' e') buf') ∧
      ((o = .next ∧ r.1 = []) ∨ ∃ t, o = .ret (.int t r.1.length)) ∧ r.1.length < 4294967296
  | 0, set, fd, buf, len, ev, e, env, r, he, hl, hb, hr => by cases hr
  | fuel + 1, set, fd, buf, len, ev, e, env, r, he, hl, hb, hr => by
    unfold readBlocksS at hr
    have hc : ∀ m', EvalTo blockCond env m' (ofBool (decide (len + 8 < maxLen))) env m' := fun m' => by
      refine .bin (.bin (.int he.h5) .lit (plus_u32 (b := 8) (by omega))) (.int he.h2) ?_
      rw [bin_lt (ta := .u32) (tb := .u64) (natConv_u64 (by omega)) (natConv_u64 (by omega))]
      simp only [Int.ofNat_lt]
    by_cases h8 : len + 8 < maxLen
    · rw [if_pos h8] at hr
      rw [decide_eq_true h8] at hc
      obtain ⟨r1, e1, hr⟩ := TRes_bind_ok hr
      obtain ⟨ev1, e1', buf1, rz, hbl, hg⟩ := readZero_run hd hn hE he (buf := buf) (ev := ev) (e := e) (k := 4) (by omega) (by omega) e1
      cases hgot : r1.got with
      | none =>
        rw [hgot] at hr rz
        cases hr
        exact ⟨ev1, e1', r1.set, buf1, env, _, .stop (hc _) rfl (.stop (.ite (b := true) rz rfl (.last (.ret .lit))) (by intro h; cases h)) (.inr (.inr ⟨_, rfl, rfl⟩)),
          .inr ⟨.i32, rfl⟩, by simp⟩
      | some bs =>
        simp only [hgot] at hr
        rw [hgot] at rz
        obtain ⟨hbs, rfl⟩ := hg bs hgot
        obtain ⟨buf2, e2, hr⟩ := TRes_bind_ok hr
        obtain ⟨hle, rfl⟩ := storeAt_ok e2
        obtain ⟨four, e3, hr⟩ := TRes_bind_ok hr
        obtain ⟨hl4, rfl⟩ := loadBytesT_ok e3
        have hesc := isEsc_run (w := w.at r1.fd ev1 e1') (set := r1.set) he hl4
        by_cases h4 : ((putIn buf len bs).drop len).take 4 = escSeq
        · rw [if_pos h4] at hr
          rw [decide_eq_true h4] at hesc
          obtain ⟨r2, e4, hr⟩ := TRes_bind_ok hr
          have x1 := lenAdd_run (m' := rdMem m r1.set (w.at r1.fd ev1 e1') (putIn buf len bs)) he (k := 4) (by omega)
          have he' : FrameEnv m d q maxLen (len + 4) (upd env 5 (.int .u32 (len + 4 : Nat))) := he.five
          obtain ⟨ev2, e2', buf2, rz2, hbl2, hg2⟩ := readZero_run hd hn hE he' (buf := putIn buf len bs) (ev := ev1) (e := e1') (k := 4) (by omega) (by omega) e4
          cases hgot2 : r2.got with
          | none =>
            rw [hgot2] at hr rz2
            cases hr
            exact ⟨ev2, e2', r2.set, buf2, _, _, .stop (hc _) rfl (.cons (.ite (b := false) rz rfl .nil) (.stop (.ite (b := true) hesc rfl (.cons x1
              (.stop (.ite (b := true) rz2 rfl (.last (.ret .lit))) (by intro h; cases h)))) (by intro h; cases h))) (.inr (.inr ⟨_, rfl, rfl⟩)),
              .inr ⟨.i32, rfl⟩, by simp⟩
          | some cs =>
            simp only [hgot2] at hr
            rw [hgot2] at rz2
            obtain ⟨hcs, rfl⟩ := hg2 cs hgot2
            obtain ⟨buf3, e5, hr⟩ := TRes_bind_ok hr
            obtain ⟨hle2, rfl⟩ := storeAt_ok e5
            obtain ⟨b, e6, hr⟩ := TRes_bind_ok hr
            have hby : EvalTo (.bin .eq (.byte .u8 (.var 4) (.var 5)) (.lit .i32 26)) (upd env 5 (.int .u32 (len + 4 : Nat))) (rdMem m r2.set (w.at r2.fd ev2 e2') (putIn (putIn buf len bs) (len + 4) cs))
                (ofBool (decide (b = 0x1a))) (upd env 5 (.int .u32 (len + 4 : Nat))) (rdMem m r2.set (w.at r2.fd ev2 e2') (putIn (putIn buf len bs) (len + 4) cs)) :=
              .bin (bufByte_run he' (loadAt_ok e6)) .lit (byte_is (n := 26) (by decide))
            have hlen3 : (putIn (putIn buf len bs) (len + 4) cs).length = maxLen := by rw [putIn_length hle2, putIn_length hle, hb]
            by_cases h1a : b = 0x1a
            · rw [if_pos h1a] at hr
              rw [decide_eq_true h1a] at hby
              obtain ⟨out, e7, hr⟩ := TRes_bind_ok hr
              obtain ⟨hl7, rfl⟩ := loadBytesT_ok e7
              split at hr
              · cases hr
                have x2 := lenAdd_run (m' := rdMem m r2.set (w.at r2.fd ev2 e2') (putIn (putIn buf len bs) (len + 4) cs)) he' (k := 4) (by omega)
                have he2 : FrameEnv m d q maxLen (len + 4 + 4) (upd (upd env 5 (.int .u32 (len + 4 : Nat))) 5 (.int .u32 (len + 4 + 4 : Nat))) := he'.five
                have hol : (((putIn (putIn buf len bs) (len + 4) cs).drop 0).take (len + 4 + 4)).length = len + 4 + 4 := by
                  rw [List.length_take, List.drop_zero, hlen3]
                  omega
                have hone : ((putIn (putIn buf len bs) (len + 4) cs).drop 0).take (len + 4 + 4) ≠ [] := fun h => by
                  have := congrArg List.length h
                  rw [hol, List.length_nil] at this
                  omega
                have x3 : ExecTo (.memcpy (.var 1) (.addr (.var 4) (.lit .i32 0)) (.var 5)) (upd (upd env 5 (.int .u32 (len + 4 : Nat))) 5 (.int .u32 (len + 4 + 4 : Nat)))
                    (rdMem m r2.set (w.at r2.fd ev2 e2') (putIn (putIn buf len bs) (len + 4) cs)) .next (upd (upd env 5 (.int .u32 (len + 4 : Nat))) 5 (.int .u32 (len + 4 + 4 : Nat)))
                    (rdMem (dst (((putIn (putIn buf len bs) (len + 4) cs).drop 0).take (len + 4 + 4))) r2.set (w.at r2.fd ev2 e2') (putIn (putIn buf len bs) (len + 4) cs)) :=
                  .memcpy (.var he2.h1 hq.isPtr) (.addr (.ptr he2.h4) .lit (offset_ok _ _ 0)) (.int he2.h5) (rd_bytes hl7) (hq.store _ hone (by omega) _ _ _ _) hq.isSome
                have hx : outMem m dst (((putIn (putIn buf len bs) (len + 4) cs).drop 0).take (len + 4 + 4)) = dst (((putIn (putIn buf len bs) (len + 4) cs).drop 0).take (len + 4 + 4)) := if_neg hone
                refine ⟨ev2, e2', r2.set, putIn (putIn buf len bs) (len + 4) cs, upd (upd env 5 (.int .u32 (len + 4 : Nat))) 5 (.int .u32 (len + 4 + 4 : Nat)), .ret (.int .u32 (len + 4 + 4 : Nat)), ?_,
                  .inr ⟨.u32, ?_⟩, ?_⟩
                · simp only
                  rw [hx]
                  exact .stop (hc _) rfl (.cons (.ite (b := false) rz rfl .nil) (.stop (.ite (b := true) hesc rfl (.cons x1 (.cons
                    (.ite (b := false) rz2 rfl .nil) (.stop (.ite (b := true) hby rfl (.cons x2 (.cons x3 (.last (.ret (.int he2.h5)))))) (by intro h; cases h))))) (by intro h; cases h)))
                    (.inr (.inr ⟨_, rfl, rfl⟩))
                · simp only
                  rw [hol]
                · simp only
                  omega
              · cases hr
            · rw [if_neg h1a] at hr
              rw [decide_eq_false h1a] at hby
              cases hr
              exact ⟨ev2, e2', r2.set, _, _, _, .stop (hc _) rfl (.cons (.ite (b := false) rz rfl .nil) (.stop (.ite (b := true) hesc rfl (.cons x1 (.cons (.ite (b := false) rz2 rfl .nil)
                (.stop (.ite (b := false) hby rfl (.cons (.print .nil) (.last (.ret .lit)))) (by intro h; cases h))))) (by intro h; cases h))) (.inr (.inr ⟨_, rfl, rfl⟩)),
                .inr ⟨.i32, rfl⟩, by simp⟩
        · rw [if_neg h4] at hr
          rw [decide_eq_false h4] at hesc
          have x1 := lenAdd_run (m' := rdMem m r1.set (w.at r1.fd ev1 e1') (putIn buf len bs)) he (k := 4) (by omega)
          obtain ⟨ev', e', set', buf', env', o, lp, ho⟩ := blockLoop_run fuel r1.set r1.fd (putIn buf len bs) (len + 4) ev1 e1' _ r he.five (by omega) (by rw [putIn_length hle, hb]) hr
          exact ⟨ev', e', set', buf', env', o, .round (hc _) rfl (.cons (.ite (b := false) rz rfl .nil) (.cons (.ite (b := false) hesc rfl .nil) (.last x1))) .nil lp, ho⟩
    · rw [if_neg h8] at hr
      cases hr
      rw [decide_eq_false h8] at hc
      exact ⟨ev, e, set, buf, env, .next, .done (hc _) rfl, .inl ⟨rfl, rfl⟩, by simp⟩

/-- `sml_transport_read`. -/
theorem transportRead_run {fd fd' : SFd} {out : List UInt8} {t1 t2 : ITy} (ev : Option Ev) (e : Int) (hr : transportReadS d fd maxLen = .ok (out, fd')) :
    ∃ ev' e', CallTo .sml_transport_read [.int t1 d, q, .int t2 maxLen] { m with world := w.at fd ev e } (.int .u64 out.length) { outMem m dst out with world := w.at fd' ev' e' } := by
  unfold transportReadS at hr
  obtain ⟨set, e1, hr⟩ := TRes_bind_ok hr
  unfold fdSet at e1
  rw [if_pos ⟨by omega, by rw [Int.toNat_natCast, fdZero, List.length_replicate]; exact hd⟩] at e1
  cases e1
  rw [Int.toNat_natCast] at hr
  by_cases h0 : maxLen = 0
  · rw [if_pos h0] at hr
    cases hr
  rw [if_neg h0, if_neg (by omega)] at hr
  simp only at hr
  generalize hset : fdZero.set d true = set at hr
  have hb : ∀ env m', bindArgs (program .sml_transport_read).params [.int t1 d, q, .int t2 maxLen] env m' = .ok [.int .i32 d, q, .int .u64 maxLen] env m' := by
    intro env m'
    have h1 : ITy.conv .i32 (d : Int) = d := conv_i32 (by omega) (by omega)
    have h2 : ITy.conv .u64 (maxLen : Int) = maxLen := natConv_u64 (by omega)
    simp only [program, sml_transport_read, bindArgs, convTo, asInt, X_bind, X_pure, h1, h2]
  -- the declarations
  have init : ∀ ss v m1, RunTo (program .sml_transport_read).body ss (upd (upd (upd (envOf [.int .i32 d, q, .int .u64 maxLen]) 3 (.ptr (.stack m.stack.length) 0)) 4 (.ptr (.stack (m.stack.length + 1)) 0)) 5 (.int .u32 0))
      (rdMem m set (w.at fd ev e) (List.replicate maxLen 0)) v m1 →
      RunTo (program .sml_transport_read).body (sml_transport_read.body.take 6 ++ ss) (envOf [.int .i32 d, q, .int .u64 maxLen]) { m with world := w.at fd ev e } v m1 := by
    intro ss v m1 r
    have g1 : ∀ b env, getBlock (.stack m.stack.length) env { m with stack := m.stack ++ [b], world := w.at fd ev e } = .ok b env { m with stack := m.stack ++ [b], world := w.at fd ev e } :=
      fun b env => getBlock_stack (by simp)
    have g2 : ∀ b b' env, setBlock (.stack m.stack.length) b' env { m with stack := m.stack ++ [b], world := w.at fd ev e } = .ok () env { m with stack := m.stack ++ [b'], world := w.at fd ev e } :=
      fun b b' env => by
        rw [setBlock_stack]
        simp
    have z1 : ∀ env, storeRec (.ptr (.stack m.stack.length) 0) [] (List.replicate 1024 0) env { m with stack := m.stack ++ [.fresh], world := w.at fd ev e } =
        .ok () env { m with stack := m.stack ++ [.obj [] (bitsOf fdZero)], world := w.at fd ev e } := fun env => by
      rw [storeRec, asPtr, X_bind_ok (X_pure _ _ _)]
      simp only
      rw [X_bind_ok (g1 _ _), show bitsOf fdZero = List.replicate 1024 0 by rw [fdZero, bitsOf, List.map_replicate]; rfl]
      exact g2 _ _ _
    have z2 : ∀ env, fdInsert d (.ptr (.stack m.stack.length) 0) env { m with stack := m.stack ++ [.obj [] (bitsOf fdZero)], world := w.at fd ev e } =
        .ok () env { m with stack := m.stack ++ [.obj [] (bitsOf set)], world := w.at fd ev e } := fun env => by
      have hload : loadSet (.ptr (.stack m.stack.length) 0) env { m with stack := m.stack ++ [.obj [] (bitsOf fdZero)], world := w.at fd ev e } =
          .ok (bitsOf fdZero) env { m with stack := m.stack ++ [.obj [] (bitsOf fdZero)], world := w.at fd ev e } := by
        rw [loadSet, asPtr, X_bind_ok (X_pure _ _ _)]
        simp only
        rw [X_bind_ok (g1 _ _)]
        rfl
      rw [fdInsert, X_bind_ok hload, if_neg (by rw [List.length_map, fdZero, List.length_replicate]; omega), storeRec, asPtr, X_bind_ok (X_pure _ _ _)]
      simp only
      rw [X_bind_ok (g1 _ _), Int.toNat_natCast, show (bitsOf fdZero).set d 1 = bitsOf set by rw [← hset, bitsOf, bitsOf, List.map_set]; rfl]
      exact g2 _ _ _
    have z3 : ∀ env, storeBytes (.ptr (.stack (m.stack.length + 1)) 0) (List.replicate maxLen (UInt8.ofNat (ITy.u8.toBits 0))) env
        { m with stack := m.stack ++ [.obj [] (bitsOf set)] ++ [.raw (List.replicate maxLen none)], world := w.at fd ev e } = .ok () env (rdMem m set (w.at fd ev e) (List.replicate maxLen 0)) := fun env => by
      refine storeBytes_raw (bs := List.replicate maxLen none) (getBlock_stack (by simp)) (by simp; exact h0) (by simp) ?_
      rw [setBlock_stack]
      simp [rdMem]
      exact .inr rfl
    have hlen : (m.stack ++ [Block.obj [] (bitsOf set)]).length = m.stack.length + 1 := by simp
    rw [← hlen] at r z3
    exact .cons .fdVar (.cons (.fdZero (.ptr upd_same) (z1 _)) (.cons (.fdAdd (.int (by rfl)) (.ptr upd_same) (z2 _)) (.cons (.bytes (k := maxLen) (.int (by rfl)) h0) (.cons
      (.memset (.ptr upd_same) .lit (.int (by rfl)) (z3 _)) (.cons (.set (t := .i32) (k := 0) .lit rfl) r)))))
  have fin : ∀ ev' e' set' buf' t, out.length < 4294967296 →
      RunTo (program .sml_transport_read).body (sml_transport_read.body.drop 6) (upd (upd (upd (envOf [.int .i32 d, q, .int .u64 maxLen]) 3 (.ptr (.stack m.stack.length) 0)) 4 (.ptr (.stack (m.stack.length + 1)) 0)) 5 (.int .u32 0))
        (rdMem m set (w.at fd ev e) (List.replicate maxLen 0)) (.int t out.length) (rdMem (outMem m dst out) set' (w.at fd' ev' e') buf') →
      ∃ ev' e', CallTo .sml_transport_read [.int t1 d, q, .int t2 maxLen] { m with world := w.at fd ev e } (.int .u64 out.length) { outMem m dst out with world := w.at fd' ev' e' } := by
    intro ev' e' set' buf' t ho r
    refine ⟨ev', e', .of hb (init _ _ _ r) fun env => ?_⟩
    have hs : (outMem m dst out).stack.length = m.stack.length := by
      unfold outMem
      split
      · rfl
      · exact hq.len out
    have hv : resultOf (program .sml_transport_read).res (.int t out.length) env = fun m' => .ok (.int .u64 out.length) env m' := by
      funext m'
      show XRes.ok (Val.int .u64 (ITy.conv .u64 out.length)) env m' = _
      rw [natConv_u64 (by omega)]
    rw [hv]
    simp only
    rw [List.take_append_of_le_length (by omega), ← hs, List.take_length]
  have he : FrameEnv m d q maxLen 0 (upd (upd (upd (envOf [.int .i32 d, q, .int .u64 maxLen]) 3 (.ptr (.stack m.stack.length) 0)) 4 (.ptr (.stack (m.stack.length + 1)) 0)) 5 (.int .u32 0)) :=
    ⟨rfl, rfl, rfl, rfl, rfl, rfl⟩
  generalize upd (upd (upd (envOf [.int .i32 d, q, .int .u64 maxLen]) 3 (.ptr (.stack m.stack.length) 0)) 4 (.ptr (.stack (m.stack.length + 1)) 0)) 5 (.int .u32 0) = env0 at he fin
  have hc : EvalTo (.bin .lt (.var 2) (.lit .i32 8)) env0 (rdMem m set (w.at fd ev e) (List.replicate maxLen 0)) (ofBool (decide (maxLen < 8))) env0 (rdMem m set (w.at fd ev e) (List.replicate maxLen 0)) := by
    refine .bin (.int he.h2) .lit ?_
    have h : decide ((maxLen : Int) < 8) = decide (maxLen < 8) := decide_eq_decide.mpr (by omega)
    rw [← h]
    exact bin_lt (ta := .u64) (tb := .i32) (natConv_u64 (by omega)) rfl
  by_cases h8 : maxLen < 8
  · rw [if_pos h8] at hr
    cases hr
    rw [decide_eq_true h8] at hc
    exact fin ev e set (List.replicate maxLen 0) .i32 (by decide) (.stop (.ite (b := true) hc rfl (.cons (.print .nil) (.last (.ret .lit)))))
  · rw [if_neg h8] at hr
    rw [decide_eq_false h8] at hc
    obtain ⟨r, e1, hr⟩ := TRes_bind_ok hr
    obtain ⟨ev1, e1', buf1, env1, lp, hg⟩ := startLoop_run m d maxLen q w hd hn hE (by omega) _ set fd (List.replicate maxLen 0) 0 ev e _ r he (by omega) (by simp) e1
    obtain ⟨r1, fd1, set1⟩ := r
    cases r1 with
    | none =>
      cases hr
      exact fin ev1 e1' set1 buf1 .i32 (by decide) (.cons (.ite (b := false) hc rfl .nil) (.stop (.loop lp)))
    | some b =>
      simp only at hr
      obtain ⟨rfl, hbl, he1⟩ := hg b rfl
      obtain ⟨ev2, e2, set2, buf2, env2, o, lp2, ho, hol⟩ := blockLoop_run m d maxLen q w dst hd hn hE hm hq _ set1 fd1 buf1 8 ev1 e1' env1 (out, fd') he1 (by omega) hbl hr
      rcases ho with ⟨rfl, h⟩ | ⟨t, rfl⟩
      · simp only at h
        subst h
        exact fin ev2 e2 set2 buf2 .i32 (by decide) (.cons (.ite (b := false) hc rfl .nil) (.cons (.loop lp) (.cons (.loop lp2) (.ret .lit))))
      · exact fin ev2 e2 set2 buf2 t hol (.cons (.ite (b := false) hc rfl .nil) (.cons (.loop lp) (.stop (.loop lp2))))

end

end Sml.C
