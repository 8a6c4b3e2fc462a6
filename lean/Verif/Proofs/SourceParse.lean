import Verif.Proofs.SourceFrees

/-!
# The parse functions from their source: strings, booleans, values, status words and times
-/

namespace Sml.C

/-! ## Blocks that are filled after they were made -/

/-- A new block of bytes that is filled at once. -/
theorem storeBytes_new (hi : Inv K st h) {bs : List UInt8} (h0 : bs ≠ []) (hc : enc c = .raw (bs.map some)) :
    storeBytes (ptrVal h.next) bs env
      { conc K st h with next := h.next + 1, heap := setHeap (conc K st h).heap h.next (some (.raw (List.replicate bs.length none))) } =
      .ok () env (conc K st (grown h c)) := by
  refine storeBytes_raw (bs := List.replicate bs.length none) (getBlock_heap hi.next_ne.1 (if_pos rfl)) h0 (by simp) ?_
  rw [setBlock_heap, ← conc_grown hi, hc]
  simp only [List.take_zero, List.nil_append, Nat.zero_add, List.drop_replicate, Nat.sub_self, List.replicate_zero, List.append_nil]
  congr 2
  funext a
  simp only [setHeap]
  split <;> rfl

/-- The memory after `s->m = malloc(n)`. -/
def withNew (K : Ctx) (st : St) (h : Heap) (s : Addr) (b : Block) (n : Nat) : Mem :=
  { conc K st h with next := h.next + 1, heap := setHeap (setHeap (conc K st h).heap h.next (some (.raw (List.replicate n none)))) s (some b) }

theorem exec_new {x i n : Nat} (hi : Inv K st h) (hx : env x = ptrVal s) (h0 : s ≠ 0) (hs : s ≠ h.next) (hc : h.cells s = some (.struct ps is)) (hl : i < ps.length)
    (he : EvalTo e env (conc K st h) (.int t n) env (conc K st h)) :
    ExecTo (.stPtr (.var x) i (.mallocBytes e)) env (conc K st h) .next env (withNew K st h s (enc (.struct (ps.set i h.next) is)) n) := by
  refine .stPtr (.mallocBytes he) (.ptr hx) ?_
  rw [storePtr, asPtr, X_bind, X_pure]
  simp only
  have hg := getBlock_cell (env := env) hi h0 hc
  have hm : (conc K st h).heap s = some (enc (.struct ps is)) := by
    have h1 : s ≠ K.B := hi.ne hc |>.1
    have h2 : s ≠ K.A := hi.ne hc |>.2
    simp only [conc, memOf, Ctx.blocks, h1, h2, if_false, hc]
  rw [X_bind_ok (getBlock_heap h0 (b := enc (.struct ps is)) ((if_neg (show ¬ s = (conc K st h).next from hs)).trans hm))]
  simp only [enc, Nat.zero_add, List.length_map, hl, if_true]
  rw [setBlock_heap, withNew]
  simp only [List.map_set]
  rfl

theorem load_new {i n : Nat} {ps : List Nat} (h0 : s ≠ 0) (hl : i < ps.length) :
    loadPtr (ptrVal s) i env (withNew K st h s (enc (.struct (ps.set i d) is)) n) = .ok (ptrVal d) env (withNew K st h s (enc (.struct (ps.set i d) is)) n) := by
  rw [loadPtr, asPtr, X_bind, X_pure]
  simp only
  rw [X_bind_ok (getBlock_heap h0 (if_pos rfl))]
  simp only [enc, Nat.zero_add, List.getElem?_map, List.getElem?_set_self hl, Option.map_some, X_pure]

theorem fill_new {i : Nat} (hi : Inv K st h) (hs : s ≠ h.next) (hc : h.cells s = some (.struct ps is)) {bs : List UInt8} (h0 : bs ≠ [])
    (he : enc c = .raw (bs.map some)) :
    storeBytes (ptrVal h.next) bs env (withNew K st h s (enc (.struct (ps.set i h.next) is)) bs.length) =
      .ok () env (conc K st { next := h.next + 1, cells := setCell (grown h c).cells s (some (.struct (ps.set i h.next) is)) }) := by
  have h1 : s ≠ K.B := hi.ne hc |>.1
  have h2 : s ≠ K.A := hi.ne hc |>.2
  refine storeBytes_raw (bs := List.replicate bs.length none) (getBlock_heap hi.next_ne.1 ?_) h0 (by simp) ?_
  · simp only [withNew, setHeap, if_neg (Ne.symm hs), if_true]
  · rw [setBlock_heap, ← conc_set h1 h2, ← conc_grown hi, he]
    simp only [List.take_zero, List.nil_append, Nat.zero_add, List.drop_replicate, Nat.sub_self, List.replicate_zero, List.append_nil, withNew]
    congr 2
    funext a
    simp only [setHeap]
    by_cases ha : a = s
    · subst ha
      simp [hs]
    · simp only [ha, if_false]
      split <;> rfl

/-! ## Octet strings -/

theorem gt_i32 {a b : Nat} (ha : a < 2147483648) (hb : b < 2147483648) :
    binOp .gt (.int .i32 (a : Int)) (.int .i32 (b : Int)) env m = .ok (ofBool (decide (a > b))) env m := by
  rw [bin_gt_i32 (by omega) (by omega)]
  simp only [gt_iff_lt, Int.ofNat_lt]

/-- `sml_octet_string_init` of bytes from the buffer. -/
theorem call_octetInit (hi : Inv K st h) {n : Nat} (hn : st.cursor + n ≤ st.data.length)
    (hr : pOctetStringInit ((st.data.drop st.cursor).take n) st h = .ok a st' h') :
    Inv K st' h' ∧ st' = st ∧ CallTo .sml_octet_string_init [.ptr (.heap K.A) st.cursor, .int .i32 n] (conc K st h) (ptrVal a) (conc K st' h') := by
  have hl := hi.good.len
  have hbl : ((st.data.drop st.cursor).take n).length = n := by simp; omega
  have hb : ∀ env m, bindArgs [none, some .i32] [.ptr (.heap K.A) st.cursor, .int .i32 n] env m = .ok [.ptr (.heap K.A) st.cursor, .int .i32 n] env m := by
    intro env m
    simp only [bindArgs, convTo, asInt, X_bind, X_pure]
    rw [conv_i32 (by omega) (by omega)]
  let E0 := envOf [.ptr (.heap K.A) st.cursor, .int .i32 n]
  suffices hs : Inv K st' h' ∧ st' = st ∧ RunTo (program .sml_octet_string_init).body (program .sml_octet_string_init).body E0 (conc K st h) (ptrVal a) (conc K st' h') by
    exact ⟨hs.1, hs.2.1, CallTo.of hb hs.2.2 (res_void K)⟩
  unfold pOctetStringInit at hr
  rw [hbl] at hr
  replace hr := P_bind_eq_ok hr
  obtain ⟨s, s1, h1, e, hr⟩ := hr
  cases e
  have i1 : Inv K st (grown h (.struct [0] [0])) := hi.grown (fun n hn => by simp at hn; omega)
  let E1 := upd E0 2 (ptrVal h.next)
  have x1 : ∀ {v m ss}, RunTo (program .sml_octet_string_init).body ss E1 (conc K st (grown h (.struct [0] [0]))) v m →
      RunTo (program .sml_octet_string_init).body (.setPtr 2 (.mallocRec 1 1) :: .stRec (.var 2) [.null] [(.i32, .lit .i32 0)] :: ss) E0 (conc K st h) v m := by
    intro v m ss r
    exact .cons (.setPtr .mallocRec) (.cons (.stRec (.ptr (by exact upd_same)) ⟨0, fun n _ => rfl⟩ ⟨0, fun n _ => rfl⟩ (storeRec_fresh hi [0] [0])) r)
  have x2 : ∀ m, EvalTo (.bin .gt (.var 1) (.lit .i32 0)) E1 m (ofBool (decide (n > 0))) E1 m := fun m =>
    .bin (.int (t := .i32) (n := n) (by rfl)) (.lit (n := (0 : Nat))) (gt_i32 (by omega) (by omega))
  by_cases h0 : n > 0
  · rw [if_pos h0] at hr
    replace hr := P_bind_eq_ok hr
    obtain ⟨d, s2, h2, e, hr⟩ := hr
    cases e
    replace hr := P_bind_eq_ok hr
    obtain ⟨_, s3, h3, e3, hr⟩ := hr
    obtain ⟨hz, rfl, ps, is, hc3, hv3, rfl⟩ := writePtr_eq_ok e3
    replace hr := P_bind_eq_ok hr
    obtain ⟨_, s4, h4, e4, hr⟩ := hr
    cases hr
    have hcs : (grown h (.struct [0] [0])).cells h.next = some (.struct [0] [0]) := grown_cell
    have hne : h.next ≠ (grown h (.struct [0] [0])).next := by show h.next ≠ h.next + 1; omega
    have hcs' : (grown (grown h (.struct [0] [0])) (.bytes ((s3.data.drop s3.cursor).take n))).cells h.next = some (.struct [0] [0]) := by
      rw [← hcs]
      simp only [grown, setCell]
      rw [if_neg (by omega)]
    obtain ⟨rfl, rfl⟩ : ps = [0] ∧ is = [0] := by
      have := hc3.symm.trans hcs'
      cases this
      exact ⟨rfl, rfl⟩
    have i3 : Inv K s3 { next := h.next + 2, cells := setCell (grown (grown h (.struct [0] [0])) (.bytes ((s3.data.drop s3.cursor).take n))).cells h.next (some (.struct ([0].set 0 (h.next + 1)) [0])) } :=
      Inv.setPs (h := grown (grown h (.struct [0] [0])) (.bytes ((s3.data.drop s3.cursor).take n))) (i1.grown trivial) hcs' [h.next + 1]
    have y1 := exec_new (env := E1) (x := 2) (i := 0) (n := n) (e := .var 1) (t := .i32) i1 (by rfl) hz hne hcs (by simp) (.int (by rfl))
    have y2 : ExecTo (.memcpy (.ldPtr (.var 2) 0) (.var 0) (.var 1)) E1 (withNew K s3 (grown h (.struct [0] [0])) h.next (enc (.struct ([0].set 0 (h.next + 1)) [0])) n) .next E1
        (conc K s3 { next := h.next + 2, cells := setCell (grown (grown h (.struct [0] [0])) (.bytes ((s3.data.drop s3.cursor).take n))).cells h.next (some (.struct ([0].set 0 (h.next + 1)) [0])) }) := by
      refine .memcpy (.ldPtr (.ptr (by rfl)) (load_new hz (by simp))) (.ptr (by rfl)) (.int (t := .i32) (n := n) (by rfl)) (loadBytes_raw (bs := s3.data) (getBlock_heap K.hA ?_) hn) ?_
      · have n1 : K.A ≠ h.next := Ne.symm hi.next_ne.2.2
        have n2 : K.A ≠ h.next + 1 := Ne.symm i1.next_ne.2.2
        simp only [withNew, setHeap, if_neg n1, conc, memOf, grown, if_neg n2, if_true, if_neg K.hAB]
      · have := fill_new (K := K) (st := s3) (h := grown h (.struct [0] [0])) (s := h.next) (i := 0) (env := E1) (bs := (s3.data.drop s3.cursor).take n) (c := .bytes ((s3.data.drop s3.cursor).take n))
          i1 hne hcs (by intro e; rw [e] at hbl; simp at hbl; omega) rfl
        rw [hbl] at this
        exact this
    have y3 := storeInt_cell (env := E1) i3 e4
    obtain ⟨_, rfl, ps', is', hc4, _, rfl⟩ := writeInt_eq_ok e4
    refine ⟨Inv.setIs (h := { next := h.next + 2, cells := setCell (grown (grown h (.struct [0] [0])) (.bytes ((st'.data.drop st'.cursor).take n))).cells h.next (some (.struct ([0].set 0 (h.next + 1)) [0])) })
      i3 hc4 0 n (by omega), rfl, ?_⟩
    refine x1 (RunTo.ite (x2 _) (truth_pos h0) (.cons y1 (.cons y2 (.cons (.stInt (.int (t := .i32) (n := n) (by rfl)) (.ptr (by rfl)) (conv_i32 (by omega) (by omega)) y3) (.ret (.ptr (by rfl)))))))
  · rw [if_neg h0] at hr
    cases hr
    exact ⟨i1, rfl, x1 (RunTo.ite (x2 _) (truth_neg h0) (.ret (.ptr (by rfl))))⟩

/-- `int l = sml_buf_get_next_length(buf);` -/
theorem Sem.setLength {k : Int → P β} (h0 : env 0 = K.buf)
    (hk : ∀ l : Int, -2147483648 ≤ l → l < 2147483648 → Sem K body ss (upd env x (.int .i32 l)) anySt (k l) vl post) :
    Sem K body (.set .i32 x (.call .sml_buf_get_next_length [.var 0]) :: ss) env pre (lift getNextLength >>= k) vl post := by
  intro st h hi _ b st' h' hr
  replace hr := P_bind_eq_ok hr
  obtain ⟨l, s, h1, e, hr⟩ := hr
  obtain ⟨i1, hl, r1⟩ := (ESem.callM (K := K) h0 getNextLength_src).ev hi trivial e
  obtain ⟨i2, q2, r2⟩ := (hk l hl.1 hl.2).run i1 trivial hr
  exact ⟨i2, q2, RunTo.cons (.set r1 (conv_i32 hl.1 hl.2)) r2⟩

/-- `l < 0 || l >= buf->buffer_len - buf->cursor` -/
theorem ev_tooLong {l : Int} (K : Ctx) (h : env 0 = K.buf) (hg : Good st) (hx : env x = .int .i32 l) (hl : -2147483648 ≤ l ∧ l < 2147483648) :
    EvalTo (.or (.bin .lt (.var x) (.lit .i32 0)) (.bin .ge (.var x) (.bin .sub (.ldInt .u64 (.var 0) 0) (.ldInt .u64 (.var 0) 1)))) env (memOf K st nx c)
      (ofBool (decide (l < 0 ∨ l ≥ ((st.data.length - st.cursor : Nat) : Int)))) env (memOf K st nx c) := by
  have hl1 := hg.len
  have hc1 := hg.cur
  have c1 : EvalTo (.bin .lt (.var x) (.lit .i32 0)) env (memOf K st nx c) (ofBool (decide (l < 0))) env (memOf K st nx c) := .bin (.int hx) .lit (bin_lt_i32 hl (by omega))
  by_cases h0 : l < 0
  · rw [decide_eq_true (show l < 0 ∨ _ from .inl h0)]
    exact .or_t c1 (truth_pos h0)
  · rw [show decide (l < 0 ∨ l ≥ ((st.data.length - st.cursor : Nat) : Int)) = decide (l ≥ ((st.data.length - st.cursor : Nat) : Int)) by simp [h0]]
    have c2 : EvalTo (.bin .sub (.ldInt .u64 (.var 0) 0) (.ldInt .u64 (.var 0) 1)) env (memOf K st nx c) (.int .u64 (st.data.length - st.cursor : Nat)) env (memOf K st nx c) := by
      refine .bin (ev_len K h) (ev_cursor K h) ?_
      rw [bin_sub (ta := .u64) (tb := .u64) (conv_u64 (by omega) (by omega)) (conv_u64 (by omega) (by omega))]
      rw [show ((st.data.length : Int) - st.cursor) = ((st.data.length - st.cursor : Nat) : Int) by omega]
      exact arith_u64 (by omega) (by omega)
    exact .or_f c1 (truth_neg h0) (.bin (.int hx) c2 (bin_ge (ta := .i32) (tb := .u64) (conv_u64 (by omega) (by omega)) (conv_u64 (by omega) (by omega)))) (truth_ofBool _)

theorem octetStringParse_src : ParseSpec .sml_octet_string_parse pOctetStringParse := by
  refine ParseSpec.of rfl rfl fun K => ?_
  unfold pOctetStringParse
  refine Sem.opt (by rfl) rfl (fun _ => trivial) (Sem.type (by rfl) 0 (by omega) (Sem.failRet (by rfl)) (Sem.setLength (by rfl) fun l hl1 hl2 => ?_))
  intro st h hi _ r st' h' hr
  replace hr := P_bind_eq_ok hr
  obtain ⟨s, s1, h1, e, hr⟩ := hr
  obtain ⟨rfl, rfl, rfl⟩ := getSt_eq_ok e
  have hg := hi.good
  have x1 := ev_tooLong (env := upd (envOf [K.buf]) 1 (.int .i32 l)) (x := 1) (nx := h1.next) (c := K.blocks h1) K (by rfl) hg (by rfl) ⟨hl1, hl2⟩
  by_cases hb : l < 0 ∨ l ≥ ((s1.data.length - s1.cursor : Nat) : Int)
  · rw [if_pos hb] at hr
    obtain ⟨i2, q2, r2⟩ := (Sem.failRet (K := K) (env := upd (envOf [K.buf]) 1 (.int .i32 l)) (pre := anySt) (by rfl)).run hi trivial hr
    exact ⟨i2, q2, RunTo.ite x1 (truth_pos hb) r2⟩
  rw [if_neg hb] at hr
  obtain ⟨n, rfl⟩ : ∃ n : Nat, l = n := ⟨l.toNat, by omega⟩
  rw [Int.toNat_natCast] at hr
  have hl := hg.len
  have hc := hg.cur
  replace hr := P_bind_eq_ok hr
  obtain ⟨bs, s2, h2, e2, hr⟩ := hr
  replace e2 := lift_eq_ok e2
  obtain ⟨e2, rfl⟩ := e2
  unfold readBytes at e2
  rw [if_pos (by omega)] at e2
  cases e2
  replace hr := P_bind_eq_ok hr
  obtain ⟨d, s3, h3, e3, hr⟩ := hr
  obtain ⟨i3, rfl, c3⟩ := call_octetInit hi (by omega) e3
  replace hr := P_bind_eq_ok hr
  obtain ⟨_, s4, h4, e4, hr⟩ := hr
  cases hr
  obtain ⟨i4, _, c4⟩ := (FSpec.of_M (updateBytesRead_src n)).run i3 (by show _ + _ ≤ _; omega) e4
  refine ⟨i4, trivial, RunTo.ite x1 (truth_neg hb) (.cons (.setPtr (.call (.cons (.call1 (ev_buf K (by rfl)) (call_curBuf K)) (.cons (.int (by rfl)) .nil)) c3))
    (.cons (.expr (.call (.cons (ev_buf K (by rfl)) (.cons (.int (by rfl)) .nil)) c4)) (.ret (.ptr (by rfl)))))⟩

/-! ## Booleans -/

theorem booleanInit_src {v : Nat} (hv : v < 256) : FSpec .sml_boolean_init (fun _ => [.int .i32 v]) anySt (malloc (.num { size := 1, val := v })) ptrVal anyRes := by
  intro K st h hi _ r st' h' hr
  cases hr
  have hb : ∀ env m, bindArgs [some .u8] [.int .i32 v] env m = .ok [.int .u8 v] env m := by
    intro env m
    simp only [bindArgs, convTo, asInt, X_bind, X_pure]
    rw [conv_u8 (by omega) (by omega)]
  let E1 := upd (envOf [.int .u8 v]) 1 (ptrVal h.next)
  have x1 : ExecTo (.setPtr 1 (.mallocBytes (.lit .u64 1))) (envOf [.int .u8 v]) (conc K st h) .next E1
      { conc K st h with next := h.next + 1, heap := setHeap (conc K st h).heap h.next (some (.raw (List.replicate 1 none))) } :=
    .setPtr (.mallocBytes (k := 1) .lit)
  have x2 : ExecTo (.stDeref .u8 (.var 1) (.var 0)) E1 { conc K st h with next := h.next + 1, heap := setHeap (conc K st h).heap h.next (some (.raw (List.replicate 1 none))) }
      .next E1 (conc K st (grown h (.num { size := 1, val := v }))) := by
    refine .stDeref (.int (t := .u8) (n := v) (by rfl)) (.ptr (l := .heap h.next) (i := 0) (by rfl)) ?_
    have hw : ITy.toBits .u8 v = v := by
      show ((v : Int) % 256).toNat = v
      omega
    rw [storeNum, hw]
    exact storeBytes_new hi (bs := leBytes 1 v) (c := .num { size := 1, val := v }) (by simp [leBytes]) rfl
  exact ⟨hi.grown trivial, trivial, CallTo.of hb (.cons x1 (.cons x2 (.ret (.ptr (by rfl))))) (res_void K)⟩

theorem truth_byte {b : UInt8} : truth (.int .u8 b.toNat) env m = .ok (decide (b ≠ 0)) env m := by
  rw [truth_ne0]
  congr 2
  have : b = 0 ↔ b.toNat = 0 := ⟨fun h => by rw [h]; rfl, fun h => UInt8.toNat.inj h⟩
  rw [ne_eq, ne_eq, this]
  simp only [eq_iff_iff]
  omega

theorem booleanParse_src : ParseSpec .sml_boolean_parse pBooleanParse := by
  refine ParseSpec.of rfl rfl fun K => ?_
  unfold pBooleanParse
  refine Sem.opt (by rfl) rfl (fun _ => trivial) (Sem.type (by rfl) 64 (by omega) (Sem.failRet (by rfl)) (Sem.setLength (by rfl) fun l hl1 hl2 => ?_))
  have hlen : ∀ m, EvalTo (.bin .ne (.var 1) (.lit .i32 1)) (upd (envOf [K.buf]) 1 (.int .i32 l)) m (ofBool (decide (l ≠ 1))) (upd (envOf [K.buf]) 1 (.int .i32 l)) m := fun m =>
    .bin (.int (by rfl)) .lit (ne_lit ⟨hl1, hl2⟩ (by omega))
  intro st h hi _ r st' h' hr
  by_cases h1 : l ≠ 1
  · rw [if_pos h1] at hr
    obtain ⟨i2, q2, r2⟩ := (Sem.failRet (K := K) (env := upd (envOf [K.buf]) 1 (.int .i32 l)) (pre := anySt) (by rfl)).run hi trivial hr
    exact ⟨i2, q2, RunTo.ite (hlen _) (truth_pos h1) r2⟩
  rw [if_neg h1] at hr
  refine (fun x => ⟨x.1, x.2.1, RunTo.ite (hlen _) (truth_neg h1) x.2.2⟩ : Inv K st' h' ∧ anyRes r st' ∧ RunTo _ _ _ _ _ _ → _) ?_
  refine (Sem.atEnd (by rfl) (Sem.failRet (by rfl)) ?_).run hi trivial hr
  clear hr hi
  intro st h hi hcur r st' h' hr
  replace hr := P_bind_eq_ok hr
  obtain ⟨b, s1, h1, e1, hr⟩ := hr
  obtain ⟨i1, hb, c1⟩ := (ESem.callM (K := K) (env := upd (envOf [K.buf]) 1 (.int .i32 l)) (by rfl) getCurrentByte_src).ev hi trivial e1
  replace hr := P_bind_eq_ok hr
  obtain ⟨_, s2, h2, e2, hr⟩ := hr
  have hlt : s1.cursor + 1 ≤ s1.data.length := by
    have := (List.getElem?_eq_some_iff.mp hb).1
    omega
  obtain ⟨i2, _, c2⟩ := (FSpec.of_M (updateBytesRead_src 1)).run i1 hlt e2
  have x2 : ExecTo (.expr (.call .sml_buf_update_bytes_read [.var 0, .lit .i32 1])) (upd (envOf [K.buf]) 1 (.int .i32 l)) (conc K s1 h1) .next (upd (envOf [K.buf]) 1 (.int .i32 l)) (conc K s2 h2) :=
    .expr (.call (.cons (ev_buf K (by rfl)) (.cons .lit .nil)) c2)
  by_cases h0 : b ≠ 0
  · rw [if_pos h0] at hr
    obtain ⟨i3, q3, c3⟩ := (booleanInit_src (v := 255) (by omega)).run i2 trivial hr
    exact ⟨i3, q3, RunTo.ite c1 (b := true) (truth_byte.trans (by rw [decide_eq_true h0])) (.cons x2 (.ret (.call1 .lit c3)))⟩
  · rw [if_neg h0] at hr
    obtain ⟨i3, q3, c3⟩ := (booleanInit_src (v := 0) (by omega)).run i2 trivial hr
    exact ⟨i3, q3, RunTo.ite c1 (b := false) (truth_byte.trans (by rw [decide_eq_false h0])) (.cons x2 (.ret (.call1 .lit c3)))⟩

/-! ## Values and status words -/

/-- A statement that only changes the variables. -/
theorem Sem.vars (hx : ∀ m, ExecTo s env m .next env' m) (hk : Sem K body ss env' pre p vl post) : Sem K body (s :: ss) env pre p vl post := by
  intro st h hi hp b st' h' hr
  obtain ⟨i1, q1, r1⟩ := hk.run hi hp hr
  exact ⟨i1, q1, RunTo.cons (hx _) r1⟩

/-- `switch` of a variable. -/
theorem Sem.switchVar {v : Int} (hx : env x = .int t v) (ha : UpToBreak A (pick v cs)) (hk : Sem K body (A ++ ss) env pre p vl post) :
    Sem K body (.switch (.var x) cs :: ss) env pre p vl post := by
  intro st h hi hp b st' h' hr
  obtain ⟨i1, q1, r1⟩ := hk.run hi hp hr
  exact ⟨i1, q1, RunTo.switch ha (.int hx) r1⟩

theorem getCurrentByte_same {st : St} (h : getCurrentByte st = .ok b st') : st' = st := by
  unfold getCurrentByte at h
  split at h <;> cases h
  rfl

/-- The type and the byte it is read from. -/
theorem Sem.typeByte {k : Nat → UInt8 → P β} (h0 : env 0 = K.buf) (hx : x ≠ 0)
    (hk : ∀ t, t < 128 → ∀ b : UInt8, Sem K body ss (upd (upd env x (.int .i32 (t : Nat))) y (.int .u8 b.toNat)) anySt (k t b) vl post) :
    Sem K body (.set .i32 x (.call .sml_buf_get_next_type [.var 0]) :: .set .u8 y (.call .sml_buf_get_current_byte [.var 0]) :: ss) env anySt
      (lift getNextType >>= fun t => lift getCurrentByte >>= fun b => k t b) vl post := by
  intro st h hi _ r st' h' hr
  replace hr := P_bind_eq_ok hr
  obtain ⟨t, s1, h1, e1, hr⟩ := hr
  obtain ⟨i1, q1, c1⟩ := (ESem.callM (K := K) h0 getNextType_src).ev hi trivial e1
  replace hr := P_bind_eq_ok hr
  obtain ⟨b, s2, h2, e2, hr⟩ := hr
  have e2' := lift_eq_ok e2
  have hs := getCurrentByte_same e2'.1
  have h0' : upd env x (.int .i32 (t : Nat)) 0 = K.buf := by rw [upd_other (Ne.symm hx), h0]
  obtain ⟨i2, q2, c2⟩ := (ESem.callM (K := K) h0' getCurrentByte_src).ev i1 trivial e2
  have ht : t < 128 := by
    refine q1.2 ?_
    rw [hs] at q2
    exact (List.getElem?_eq_some_iff.mp q2).1
  have hb := UInt8.toNat_lt b
  obtain ⟨i3, q3, r3⟩ := (hk t ht b).run i2 trivial hr
  exact ⟨i3, q3, RunTo.cons (.set c1 (conv_i32 (by omega) (by omega))) (.cons (.set c2 (conv_u8 (by omega) (by omega))) r3)⟩

theorem shl_one {a : Nat} (ha : a < 1073741824) : binOp .shl (.int .i32 a) (.int .i32 1) env m = .ok (.int .i32 (a * 2 : Nat)) env m := by
  have h1 : ((a : Int) * 2 ^ 1) = ((a * 2 : Nat) : Int) := by omega
  have h2 : binOp .shl (.int .i32 a) (.int .i32 1) = (do
      note (ITy.signed .i32 && (decide ((a : Int) < 0) || !ITy.fits .i32 ((a : Int) * 2 ^ 1)))
      pure (.int .i32 (ITy.conv .i32 ((a : Int) * 2 ^ 1))) : X Val) := rfl
  rw [h2, h1, fits_i32 (by omega) (by omega), decide_eq_false (by omega)]
  refine (X_bind_ok (note_false env m)).trans ?_
  rw [conv_i32 (by omega) (by omega)]
  rfl

/-- `while (max < ((byte & 15) - 1)) max <<= 1;` -/
theorem grow_loop {b : UInt8} (h3 : env 3 = .int .u8 b.toNat) : (f : Nat) → (k : Nat) → k < 1000 → 16 ≤ k * 2 ^ f →
    LoopTo (.bin .lt (.var 1) (.bin .sub (.bin .band (.var 3) (.lit .i32 15)) (.lit .i32 1))) [.set .i32 1 (.bin .shl (.var 1) (.lit .i32 1))] []
      (upd env 1 (.int .i32 k)) m .next (upd env 1 (.int .i32 (growMax f k b))) m := by
  have hb := UInt8.toNat_lt b
  have h15 : b.toNat &&& 15 < 16 := by
    have := Nat.and_le_right (n := b.toNat) (m := 15)
    omega
  have cond : ∀ k : Nat, k < 1000 → EvalTo (.bin .lt (.var 1) (.bin .sub (.bin .band (.var 3) (.lit .i32 15)) (.lit .i32 1))) (upd env 1 (.int .i32 k)) m
      (ofBool (decide ((k : Int) < ((b.toNat &&& 15 : Nat) : Int) - 1))) (upd env 1 (.int .i32 k)) m := by
    intro k hk
    have c1 : EvalTo (.bin .band (.var 3) (.lit .i32 15)) (upd env 1 (.int .i32 k)) m (.int .i32 (b.toNat &&& 15 : Nat)) (upd env 1 (.int .i32 k)) m :=
      .bin (.int (t := .u8) (n := b.toNat) ((upd_other (by decide)).trans h3)) .lit (band_i32 hb 15 (by omega))
    have c2 : EvalTo (.bin .sub (.bin .band (.var 3) (.lit .i32 15)) (.lit .i32 1)) (upd env 1 (.int .i32 k)) m (.int .i32 (((b.toNat &&& 15 : Nat) : Int) - 1)) (upd env 1 (.int .i32 k)) m := by
      refine .bin c1 .lit ?_
      rw [bin_sub (ta := .i32) (tb := .i32) (conv_i32 (by omega) (by omega)) rfl]
      exact arith_i32 (by omega) (by omega)
    exact .bin (.int upd_same) c2 (bin_lt_i32 (by omega) (by omega))
  intro f
  induction f with
  | zero =>
    intro k hk h
    rw [growMax]
    exact .done (cond k hk) (truth_neg (by omega))
  | succ f ih =>
    intro k hk h
    rw [growMax]
    by_cases hc : (k : Int) < ((b.toNat &&& 15 : Nat) : Int) - 1
    · rw [if_pos hc]
      refine .round (cond k hk) (truth_pos hc) (.last (env' := upd (upd env 1 (.int .i32 k)) 1 (.int .i32 (k * 2 : Nat))) (.set (.bin (.int upd_same) .lit (shl_one (by omega))) (conv_i32 (by omega) (by omega)))) .nil ?_
      rw [upd_upd]
      refine ih (k * 2) (by omega) ?_
      rw [Nat.pow_succ] at h
      calc 16 ≤ k * (2 ^ f * 2) := h
        _ = k * 2 * 2 ^ f := by ac_rfl
    · rw [if_neg hc]
      exact .done (cond k hk) (truth_neg hc)

theorem growMax_range (b : UInt8) : 1 ≤ growMax 4 1 b ∧ growMax 4 1 b ≤ 127 := by
  have key : ∀ n : Fin 256, 1 ≤ growMax 4 1 (UInt8.ofNat n) ∧ growMax 4 1 (UInt8.ofNat n) ≤ 127 := by decide +kernel
  have := key ⟨b.toNat, UInt8.toNat_lt b⟩
  simpa using this

theorem valueInit_src : InitSpec .sml_value_init (.struct [0] [0]) := by
  refine InitSpec.of [0] [0] rfl rfl rfl (by simp) (fun _ _ _ => rfl) fun _ _ _ => rfl

theorem statusInit_src : InitSpec .sml_status_init (.struct [0] [96]) := by
  refine InitSpec.of [0] [96] rfl rfl rfl (by simp) (fun _ _ _ => rfl) fun _ _ _ => rfl

/-- `value->type = type;` -/
theorem Sem.stVar {k : P β} {x y n : Nat} (hx : env x = ptrVal a) (hy : env y = .int t n) (hc : ty.conv (n : Int) = (n : Int)) (hn : n ≤ 2147483647) (hk : Sem K body ss env anySt k vl post) :
    Sem K body (.stInt ty (.var x) i (.var y) :: ss) env pre (writeInt a i n >>= fun _ => k) vl post := by
  intro st h hi _ b st' h' hr
  replace hr := P_bind_eq_ok hr
  obtain ⟨_, s1, h1, e1, hr⟩ := hr
  have y1 := storeInt_cell (env := env) hi e1
  obtain ⟨_, rfl, _, _, hc', _, rfl⟩ := writeInt_eq_ok e1
  obtain ⟨i2, q2, r2⟩ := hk.run (hi.setIs hc' i n hn) trivial hr
  exact ⟨i2, q2, RunTo.cons (.stInt (.int hy) (.ptr hx) hc y1) r2⟩

/-- `value->type |= max;` -/
theorem Sem.orType {k : P β} {x n : Nat} (hx : env x = ptrVal a) (hy : env y = .int .i32 n) (hn : n < 256) (hk : Sem K body ss env anySt k vl post) :
    Sem K body (.stInt .u8 (.var x) 0 (.bin .bor (.ldInt .u8 (.var x) 0) (.var y)) :: ss) env pre
      (readInt a 0 >>= fun t => writeInt a 0 ((t ||| n) % 256) >>= fun _ => k) vl post := by
  intro st h hi _ b st' h' hr
  replace hr := P_bind_eq_ok hr
  obtain ⟨t, s1, h1, e1, hr⟩ := hr
  have y1 := loadInt_cell (env := env) hi e1
  obtain ⟨_, rfl, rfl, ps, is, hc, ht⟩ := readInt_eq_ok e1
  have ht' : t ≤ 2147483647 := hi.ints a _ hc t (List.mem_of_getElem? ht)
  replace hr := P_bind_eq_ok hr
  obtain ⟨_, s2, h2, e2, hr⟩ := hr
  have y2 := storeInt_cell (env := env) hi e2
  obtain ⟨_, rfl, _, _, hc', _, rfl⟩ := writeInt_eq_ok e2
  obtain ⟨i2, q2, r2⟩ := hk.run (hi.setIs hc' 0 ((t ||| n) % 256) (by omega)) trivial hr
  have y3 : EvalTo (.bin .bor (.ldInt .u8 (.var x) 0) (.var y)) env (conc K s2 h1) (.int .i32 (t ||| n : Nat)) env (conc K s2 h1) :=
    .bin (.ldInt (.ptr hx) y1) (.int hy) (bor_i32 .u8 .i32 rfl (by omega) (by omega))
  exact ⟨i2, q2, RunTo.cons (.stInt y3 (.ptr hx) (k' := (((t ||| n) % 256 : Nat) : Int)) (by show ((t ||| n : Nat) : Int) % 256 = _; omega) y2) r2⟩

/-- The end of both functions. -/
theorem Sem.checked {f : Fn} {g : Addr → P Unit} (h0 : env 0 = K.buf) (hx : env x = ptrVal a) (hf : FreeSpec f g) :
    Sem K body [.ite (.call .sml_buf_has_errors [.var 0]) [.expr (.call f [.var x]), .ret .null] [], .ret (.var x)] env anySt
      (lift hasErrors >>= fun b => if b then g a >>= fun _ => pure 0 else pure a) ptrVal anyRes :=
  Sem.hasErr h0 (Sem.freeRet (z := 0) hx hf rfl) (Sem.retPtr hx)

theorem eval_of (hv : env x = v) (hu : v ≠ .undef) : eval Γ (.var x) env m = .ok v env m := by
  rw [eval]
  exact getVar_ok hv hu

theorem evals_nil : evals Γ [] env m = .ok [] env m := by
  rw [evals]
  rfl

theorem evals_cons (h1 : eval Γ e env m = .ok v env m) (h2 : evals Γ es env m = .ok vs env m) : evals Γ (e :: es) env m = .ok (v :: vs) env m := by
  rw [evals, X_bind_ok h1, X_bind_ok h2]
  rfl

/-- The case of numbers in both. -/
theorem Sem.sized {k : P β} {type : Nat} {b : UInt8} (h0 : env 0 = K.buf) (h1 : env 1 = .int .i32 1) (h2 : env 2 = .int .i32 type) (h3 : env 3 = .int .u8 b.toNat)
    (h4 : env 4 = ptrVal a) (ht : type < 128)
    (hk : Sem K body ss (upd env 1 (.int .i32 (growMax 4 1 b))) anySt k vl post) :
    Sem K body (.loop (.bin .lt (.var 1) (.bin .sub (.bin .band (.var 3) (.lit .i32 15)) (.lit .i32 1))) [.set .i32 1 (.bin .shl (.var 1) (.lit .i32 1))] [] ::
      .stPtr (.var 4) 0 (.call .sml_number_parse [.var 0, .var 2, .var 1]) ::
      .stInt .u8 (.var 4) 0 (.bin .bor (.ldInt .u8 (.var 4) 0) (.var 1)) :: ss) env anySt
      (pNumberParse type (growMax 4 1 b) >>= fun p => writePtr a 0 p >>= fun _ => readInt a 0 >>= fun t =>
        writeInt a 0 ((t ||| growMax 4 1 b) % 256) >>= fun _ => k) vl post := by
  obtain ⟨hg1, hg2⟩ := growMax_range b
  have he : env = upd env 1 (.int .i32 ((1 : Nat) : Int)) := by
    funext y
    by_cases hy : y = 1
    · rw [hy, upd_same, h1]
      rfl
    · rw [upd_other hy]
  refine Sem.vars (env' := upd env 1 (.int .i32 (growMax 4 1 b))) (fun m => ?_) ?_
  · have := grow_loop (m := m) h3 4 1 (by omega) (by omega)
    rw [← he] at this
    exact .loop this
  · refine Sem.stPtr (ESem.call (as := fun K => [K.buf, .int .i32 type, .int .i32 (growMax 4 1 b)]) (fun Γ m => ?_) (numberParse_src .i32 .i32 (by omega) hg1 hg2))
      ((upd_other (by decide)).trans h4) fun p => Sem.orType ((upd_other (by decide)).trans h4) upd_same (by omega) hk
    exact evals_cons (eval_of ((upd_other (by decide)).trans h0) ptr_ne) (evals_cons (eval_of ((upd_other (by decide)).trans h2) Val.noConfusion)
      (evals_cons (eval_of upd_same Val.noConfusion) evals_nil))

theorem valueParse_src : ParseSpec .sml_value_parse pValueParse := by
  refine ParseSpec.of rfl rfl fun K => ?_
  unfold pValueParse
  refine Sem.opt (by rfl) rfl (fun _ => trivial) (Sem.vars (env' := upd (envOf [K.buf]) 1 (.int .i32 1)) (fun m => .set .lit rfl) ?_)
  refine Sem.typeByte (by rfl) (by decide) fun t ht b => Sem.init valueInit_src fun a => ?_
  refine Sem.stVar (n := t) (by rfl) (by rfl) (conv_u8 (by omega) (by omega)) (by omega) ?_
  by_cases h0 : t = 0
  · subst h0
    simp only [tyOctet, if_true, P_bind_assoc]
    exact Sem.switchVar (by rfl) (A := [.stPtr (.var 4) 0 (.call .sml_octet_string_parse [.var 0])]) ⟨rfl, .inr ⟨_, rfl⟩⟩
      (Sem.stPtr (ESem.callBuf (by rfl) octetStringParse_src) (by rfl) fun _ => Sem.checked (by rfl) (by rfl) valueFree_src)
  rw [show tyOctet = 0 from rfl, if_neg h0]
  by_cases h1 : t = 64
  · subst h1
    simp only [tyBoolean, if_true, P_bind_assoc]
    exact Sem.switchVar (by rfl) (A := [.stPtr (.var 4) 0 (.call .sml_boolean_parse [.var 0])]) ⟨rfl, .inr ⟨_, rfl⟩⟩
      (Sem.stPtr (ESem.callBuf (by rfl) booleanParse_src) (by rfl) fun _ => Sem.checked (by rfl) (by rfl) valueFree_src)
  rw [show tyBoolean = 64 from rfl, if_neg h1]
  have hsized : Sem K (program .sml_value_parse).body ([.loop (.bin .lt (.var 1) (.bin .sub (.bin .band (.var 3) (.lit .i32 15)) (.lit .i32 1))) [.set .i32 1 (.bin .shl (.var 1) (.lit .i32 1))] [],
      .stPtr (.var 4) 0 (.call .sml_number_parse [.var 0, .var 2, .var 1]),
      .stInt .u8 (.var 4) 0 (.bin .bor (.ldInt .u8 (.var 4) 0) (.var 1))] ++ [.ite (.call .sml_buf_has_errors [.var 0]) [.expr (.call .sml_value_free [.var 4]), .ret .null] [], .ret (.var 4)])
      (upd (upd (upd (upd (envOf [K.buf]) 1 (.int .i32 1)) 2 (.int .i32 t)) 3 (.int .u8 b.toNat)) 4 (ptrVal a)) anySt
      (pNumberParse t (growMax 4 1 b) >>= fun p => writePtr a 0 p >>= fun _ => readInt a 0 >>= fun t =>
        writeInt a 0 ((t ||| growMax 4 1 b) % 256) >>= fun _ => lift hasErrors >>= fun b => if b then pValueFree a >>= fun _ => pure 0 else pure a) ptrVal anyRes :=
    Sem.sized (by rfl) (by rfl) (by rfl) (by rfl) (by rfl) ht (Sem.checked (by rfl) (by rfl) valueFree_src)
  by_cases h2 : t = 96 ∨ t = 80
  · rw [show tyUnsigned = 96 from rfl, show tyInteger = 80 from rfl, if_pos h2]
    simp only [P_bind_assoc]
    rcases h2 with rfl | rfl
    · exact Sem.switchVar (by rfl) (A := .case 80 :: _) ⟨rfl, .inr ⟨_, rfl⟩⟩ (Sem.vars (fun _ => .case) hsized)
    · exact Sem.switchVar (by rfl) ⟨rfl, .inr ⟨_, rfl⟩⟩ hsized
  · rw [show tyUnsigned = 96 from rfl, show tyInteger = 80 from rfl, if_neg h2]
    refine Sem.switchVar (by rfl) (A := [.stInt .i32 (.var 0) 2 (.lit .i32 1)]) ⟨rfl, .inr ⟨[], pick_dflt ?_⟩⟩
      (Sem.setErr (by rfl) ((Sem.checked (by rfl) (by rfl) valueFree_src).weaken fun _ _ => trivial))
    simp only [hasCase, Bool.or_eq_false_iff, decide_eq_false_iff_not, and_true]
    omega

theorem statusParse_src : ParseSpec .sml_status_parse pStatusParse := by
  refine ParseSpec.of rfl rfl fun K => ?_
  unfold pStatusParse
  refine Sem.opt (by rfl) rfl (fun _ => trivial) (Sem.vars (env' := upd (envOf [K.buf]) 1 (.int .i32 1)) (fun m => .set .lit rfl) ?_)
  refine Sem.typeByte (by rfl) (by decide) fun t ht b => Sem.init statusInit_src fun a => ?_
  refine Sem.stVar (n := t) (by rfl) (by rfl) (conv_u8 (by omega) (by omega)) (by omega) ?_
  by_cases h2 : t = 96
  · rw [show tyUnsigned = 96 from rfl, if_pos h2]
    simp only [P_bind_assoc]
    subst h2
    refine Sem.switchVar (by rfl) (A := [.loop (.bin .lt (.var 1) (.bin .sub (.bin .band (.var 3) (.lit .i32 15)) (.lit .i32 1))) [.set .i32 1 (.bin .shl (.var 1) (.lit .i32 1))] [],
      .stPtr (.var 4) 0 (.call .sml_number_parse [.var 0, .var 2, .var 1]),
      .stInt .u8 (.var 4) 0 (.bin .bor (.ldInt .u8 (.var 4) 0) (.var 1))]) ⟨rfl, .inr ⟨_, rfl⟩⟩ ?_
    exact Sem.sized (a := a) (b := b) (by rfl) (by rfl) (by rfl) (by rfl) (by rfl) ht (Sem.checked (by rfl) (by rfl) statusFree_src)
  · rw [show tyUnsigned = 96 from rfl, if_neg h2]
    refine Sem.switchVar (by rfl) (A := [.stInt .i32 (.var 0) 2 (.lit .i32 1)]) ⟨rfl, .inr ⟨[], pick_dflt ?_⟩⟩
      (Sem.setErr (by rfl) ((Sem.checked (by rfl) (by rfl) statusFree_src).weaken fun _ _ => trivial))
    simp only [hasCase, Bool.or_eq_false_iff, decide_eq_false_iff_not, and_true]
    omega

end Sml.C
