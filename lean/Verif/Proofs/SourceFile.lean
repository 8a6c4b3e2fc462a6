import Verif.Proofs.SourceMsg
import Verif.Proofs.HeapFile

/-!
# `sml_file_parse` and `sml_file_free` from their source
-/

namespace Sml.C

/-! ## Any memory -/

section
variable {m : Mem}

theorem storePtr_put (ha : a ≠ 0) (hm : m.heap a = some (.obj ps is)) (hi : i < ps.length) :
    storePtr (ptrVal a) i v env m = .ok () env { m with heap := setHeap m.heap a (some (.obj (ps.set i v) is)) } := by
  rw [storePtr, asPtr, X_bind, X_pure]
  simp only
  rw [X_bind_ok (getBlock_heap ha hm)]
  simp only [Nat.zero_add, hi, if_true]
  rfl

theorem storeInt_put (ha : a ≠ 0) (hm : m.heap a = some (.obj ps is)) (hi : i < is.length) :
    storeInt (ptrVal a) i v env m = .ok () env { m with heap := setHeap m.heap a (some (.obj ps (is.set i v))) } := by
  rw [storeInt, asPtr, X_bind, X_pure]
  simp only
  rw [X_bind_ok (getBlock_heap ha hm)]
  simp only [hi, and_self, if_true]
  rfl

theorem loadPtr_put (ha : a ≠ 0) (hm : m.heap a = some (.obj ps is)) (hi : ps[i]? = some (.ptr l j)) :
    loadPtr (ptrVal a) i env m = .ok (.ptr l j) env m := by
  rw [loadPtr, asPtr, X_bind, X_pure]
  simp only
  rw [X_bind_ok (getBlock_heap ha hm)]
  simp only [Nat.zero_add, hi]
  rfl

theorem loadInt_put (ha : a ≠ 0) (hm : m.heap a = some (.obj ps is)) (hi : is[i]? = some n) : loadInt (ptrVal a) i env m = .ok n env m := by
  rw [loadInt, asPtr, X_bind, X_pure]
  simp only
  rw [X_bind_ok (getBlock_heap ha hm)]
  simp only [hi, if_true]
  rfl

theorem storeRec_put (ha : a ≠ 0) (hm : m.heap a = some .fresh) :
    storeRec (ptrVal a) vs ns env m = .ok () env { m with heap := setHeap m.heap a (some (.obj vs ns)) } := by
  rw [storeRec, asPtr, X_bind, X_pure]
  simp only
  rw [X_bind_ok (getBlock_heap ha hm)]
  rfl

/-- All bytes of a block are written. -/
theorem storeBytes_all (ha : a ≠ 0) (hm : m.heap a = some (.raw bs)) (hl : cs.length = bs.length) :
    storeBytes (ptrVal a) cs env m = .ok () env { m with heap := setHeap m.heap a (some (.raw (cs.map some))) } := by
  cases cs with
  | nil =>
    rw [storeBytes_nil]
    obtain rfl : bs = [] := List.length_eq_zero_iff.mp hl.symm
    have e : setHeap m.heap a (some (.raw [])) = m.heap := by
      funext x
      rw [setHeap]
      split
      · subst_vars
        exact hm.symm
      · rfl
    rw [List.map_nil, e]
  | cons c cs =>
    refine storeBytes_raw (getBlock_heap ha hm) (by simp) (by omega) ?_
    rw [List.take_zero, Nat.zero_add, hl, List.drop_length, List.nil_append, List.append_nil]
    rfl

theorem release_put (ha : a ≠ 0) (hm : m.heap a = some b) : freeBlock (ptrVal a) env m = .ok () env { m with heap := setHeap m.heap a none } := by
  rw [freeBlock, asPtr, X_bind, X_pure]
  simp only [if_neg ha, release, hm, if_true]

end

theorem setHeap_same : setHeap h a b a = b := if_pos rfl
theorem setHeap_other (hx : x ≠ a) : setHeap h a b x = h x := if_neg hx

theorem setHeap_twice : setHeap (setHeap h a b) a c = setHeap h a c := by
  funext x
  simp only [setHeap]
  split <;> rfl

theorem mem_stack (m : Mem) (h : m.stack = s) : { m with stack := m.stack.take s.length } = m := by
  subst h
  rw [List.take_length]

/-! ## `sml_buffer_init` -/

/-- Memory with another buffer of the bytes `bs`. -/
def withBuf (m : Mem) (bs : List UInt8) : Mem :=
  { m with
    next := m.next + 2
    heap := setHeap (setHeap m.heap m.next (some (.obj [ptrVal (m.next + 1), nullPtr] [bs.length, 0, 0]))) (m.next + 1) (some (.raw (bs.map some))) }

theorem bufferInit_run {t : ITy} (m : Mem) (h0 : m.next ≠ 0) (hn : n < 18446744073709551616) :
    CallTo .sml_buffer_init [.int t (n : Nat)] m (ptrVal m.next) (withBuf m (List.replicate n 0)) := by
  have hc : ITy.conv .u64 (n : Int) = n := conv_u64 (by omega) (by omega)
  refine .of (vs := [.int .u64 n]) (fun env m => ?_) (.cons (.setPtr .mallocRec) <| .cons (.stRec (.ptr (by rfl)) (.cons .null (.one .null)) ⟨0, fun _ _ => rfl⟩ (storeRec_put h0 setHeap_same)) <|
    .cons (.stPtr (.mallocBytes (.int (by rfl))) (.ptr (by rfl)) (storePtr_put h0 ((setHeap_other (by simp)).trans setHeap_same) (by simp))) <|
    .cons (.stInt (.int (by rfl)) (.ptr (by rfl)) hc (storeInt_put h0 setHeap_same (by simp))) <|
    .cons (.memset (.ldPtr (.ptr (by rfl)) (loadPtr_put h0 setHeap_same rfl)) .lit (.ldInt (.ptr (by rfl)) (loadInt_put h0 setHeap_same rfl))
      (storeBytes_all (a := m.next + 1) (bs := List.replicate n none) (by simp) ?_ (by simp))) <| .ret (.ptr (by rfl))) fun env => ?_
  · simp only [program, sml_buffer_init, bindArgs, convTo, asInt, X_bind, X_pure]
    rw [hc]
  · simp only
    rw [setHeap_other (by omega), setHeap_other (by omega), setHeap_same]
  · simp only [List.take_length]
    refine congrArg (XRes.ok (ptrVal m.next) env) ?_
    rw [withBuf]
    refine congrArg (fun hp => Mem.mk (m.next + 2) hp m.stack m.sovf m.world) ?_
    funext x
    simp only [setHeap, List.length_replicate]
    by_cases h1 : x = m.next + 1
    · simp only [h1, if_true]
      rw [show UInt8.ofNat (ITy.u8.toBits 0) = 0 from rfl]
    · by_cases h2 : x = m.next
      · subst h2
        simp only [if_neg h1, if_true]
        rfl
      · simp only [if_neg h1, if_neg h2]

/-! ## The loop over the messages -/

theorem ExecTo.cont : ExecTo .cont env m .cont env m := ⟨0, fun _ _ => by rw [exec]; rfl⟩

theorem LoopTo.again (hc : EvalTo c env m v env1 m1) (ht : truth v env1 m1 = .ok true env1 m1) (hb : ExecsTo b env1 m1 .cont env2 m2)
    (hs : ExecsTo s env2 m2 o' env3 m3) (hl : LoopTo c b s env3 m3 o env' m') : LoopTo c b s env m o env' m' := by
  obtain ⟨N, r⟩ := hc
  obtain ⟨N2, r2⟩ := hb
  obtain ⟨N3, r3⟩ := hs
  obtain ⟨N4, r4⟩ := hl
  refine ⟨max (max N N2) (max N3 N4) + 1, fun n hn k hk => ?_⟩
  obtain ⟨k, rfl⟩ : ∃ j, k = j + 1 := ⟨k - 1, by omega⟩
  rw [whileLoop, X_bind_ok ((X_bind_ok (r n (by omega))).trans ht)]
  refine (X_bind_ok (r2 n (by omega))).trans ((X_bind_ok (r3 n (by omega))).trans (r4 n (by omega) k (by omega)))

/-- `buf->cursor < buf->buffer_len` in sml_file.c:41. -/
abbrev fileCond : Expr := .bin .lt (.ldInt .u64 (.var 3) 1) (.ldInt .u64 (.var 3) 0)

/-- The body of the loop sml_file.c:41-58. -/
abbrev fileBody : List Stmt :=
  [.ite (.bin .eq (.call .sml_buf_get_current_byte [.var 3]) (.lit .i32 0)) [.expr (.call .sml_buf_update_bytes_read [.var 3, .lit .i32 1]), .cont] [],
   .setPtr 4 (.call .sml_message_parse [.var 3]),
   .ite (.call .sml_buf_has_errors [.var 3]) [.print [], .brk] [],
   .ite (.var 4) [.expr (.call .sml_file_add_message [.var 2, .var 4])] []]

theorem fileLoop_run (K : Ctx) (depth : Nat) (f : Addr) : ∀ fuel env st h r st' h', Inv K st h → env 2 = ptrVal f → env 3 = K.buf →
    pFileLoop depth f fuel st h = .ok r st' h' →
    Inv K st' h' ∧ r = f ∧ ∃ env', env' 2 = ptrVal f ∧ LoopTo fileCond fileBody [] env (conc K st h) .next env' (conc K st' h')
  | 0, _, _, _, _, _, _, _, _, _, hr => by cases hr
  | fuel + 1, env, st, h, r, st', h', hi, h2, h3, hr => by
    have hcond : EvalTo fileCond env (conc K st h) (ofBool (decide (st.cursor < st.data.length))) env (conc K st h) :=
      .bin (ev_cursor K h3) (ev_len K h3) (cmp_u64 (by have := hi.good.cur; have := hi.good.len; omega) (by have := hi.good.len; omega)).1
    rw [pFileLoop] at hr
    replace hr := P_bind_eq_ok hr
    obtain ⟨s0, s1, h1, e, hr⟩ := hr
    obtain ⟨rfl, rfl, rfl⟩ : s0 = st ∧ s1 = st ∧ h1 = h := by
      cases e
      exact ⟨rfl, rfl, rfl⟩
    by_cases hlt : s1.cursor < s1.data.length
    · rw [if_pos hlt] at hr
      rw [decide_eq_true hlt] at hcond
      replace hr := P_bind_eq_ok hr
      obtain ⟨b, s2, h2', e, hr⟩ := hr
      obtain ⟨eb, rfl⟩ := lift_eq_ok e
      have hb : s1.data[s1.cursor]? = some b ∧ s2 = s1 := by
        unfold getCurrentByte at eb
        cases hb : s1.data[s1.cursor]? with
        | none =>
          rw [hb] at eb
          cases eb
        | some x =>
          rw [hb] at eb
          cases eb
          exact ⟨rfl, rfl⟩
      obtain ⟨hb, rfl⟩ := hb
      have hzero : EvalTo (.bin .eq (.call .sml_buf_get_current_byte [.var 3]) (.lit .i32 0)) env (conc K s2 h2') (ofBool (decide (b = 0))) env (conc K s2 h2') := by
        have hx := UInt8.toNat_lt b
        refine .bin (.call1 (.ptr h3) (call_byte K hb)) .lit ((bin_eq (ta := .u8) (tb := .i32) (conv_i32 (by omega) (by omega)) (conv_i32 (by omega) (by omega))).trans ?_)
        congr 3
        apply propext
        rw [← UInt8.toNat_inj]
        show (b.toNat : Int) = 0 ↔ b.toNat = 0
        omega
      by_cases h0 : b = 0
      · rw [if_pos h0] at hr
        rw [decide_eq_true h0] at hzero
        replace hr := P_bind_eq_ok hr
        obtain ⟨u, s3, h4, e, hr⟩ := hr
        obtain ⟨i1, _, c1⟩ := FSpec.of_M (updateBytesRead_src 1) K _ _ hi (by omega) _ _ _ e
        obtain ⟨i2, r2, env', he, hl⟩ := fileLoop_run K depth f fuel env _ _ _ _ _ i1 h2 h3 hr
        exact ⟨i2, r2, env', he, .again hcond (truth_ofBool _) (.stop (.ite (b := true) hzero (truth_ofBool _) (.cons (.expr (.call (.cons (.ptr h3) (.one .lit)) c1)) (.stop .cont (by simp)))) (by simp)) .nil hl⟩
      · rw [if_neg h0] at hr
        rw [decide_eq_false h0] at hzero
        replace hr := P_bind_eq_ok hr
        obtain ⟨msg, s3, h4, e, hr⟩ := hr
        obtain ⟨i1, _, c1⟩ := messageParse_src depth K _ _ hi trivial _ _ _ e
        replace hr := P_bind_eq_ok hr
        obtain ⟨er, s4, h5, e, hr⟩ := hr
        obtain ⟨i2, _, c2⟩ := FSpec.of_M hasErrors_src K _ _ i1 trivial _ _ _ e
        have hx := fun {A ss o env' m'} (k : ExecsTo ss (upd env 4 (ptrVal msg)) (conc K s3 h4) o env' m') =>
          ExecsTo.cons (.ite (A := A) (B := []) (b := false) hzero (truth_ofBool _) .nil) (.cons (.setPtr (.call1 (.ptr h3) c1)) k)
        have h2' : upd env 4 (ptrVal msg) 2 = ptrVal f := (upd_other (by decide)).trans h2
        have h3' : upd env 4 (ptrVal msg) 3 = K.buf := (upd_other (by decide)).trans h3
        have c2' := EvalTo.call1 (.ptr h3') c2
        cases er with
        | true =>
          cases hr
          exact ⟨i2, rfl, _, h2', .stop hcond (truth_ofBool _) (hx (.stop (.ite (b := true) c2' (truth_ofBool _) (.cons (.print .nil) (.stop .brk (by simp)))) (by simp))) (.inl ⟨rfl, rfl⟩)⟩
        | false =>
          simp only [Bool.false_eq_true, if_false] at hr
          by_cases hm : msg = 0
          · rw [if_neg (by simpa using hm)] at hr
            obtain ⟨i3, r3, env', he, hl⟩ := fileLoop_run K depth f fuel _ _ _ _ _ _ i2 h2' h3' hr
            exact ⟨i3, r3, env', he, .round hcond (truth_ofBool _) (hx (.cons (.ite (b := false) c2' (truth_ofBool _) .nil) (.last (.ite (b := false) (.ptr upd_same) (by rw [hm]; rfl) .nil)))) .nil hl⟩
          · rw [if_pos hm] at hr
            replace hr := P_bind_eq_ok hr
            obtain ⟨u, s5, h6, e, hr⟩ := hr
            obtain ⟨i3, _, c3⟩ := fileAdd_src f msg K _ _ i2 trivial _ _ _ e
            obtain ⟨i4, r4, env', he, hl⟩ := fileLoop_run K depth f fuel _ _ _ _ _ _ i3 h2' h3' hr
            exact ⟨i4, r4, env', he, .round hcond (truth_ofBool _) (hx (.cons (.ite (b := false) c2' (truth_ofBool _) .nil)
              (.last (.ite (b := true) (.ptr upd_same) (truth_ptr hm) (.last (.expr (.call (.cons (.ptr h2') (.one (.ptr upd_same))) c3))))))) .nil hl⟩
    · rw [if_neg hlt] at hr
      rw [decide_eq_false hlt] at hcond
      cases hr
      exact ⟨hi, rfl, env, h2, .done hcond (truth_ofBool _)⟩

/-! ## `sml_file_parse` -/

/-- What can be read stays so when only new blocks are added. -/
theorem loadBytes_mono {m m' : Mem} (hh : ∀ a b, m.heap a = some b → m'.heap a = some b) (hs : m'.stack = m.stack)
    (hl : loadBytes p n env m = .ok bs env m) : loadBytes p n env m' = .ok bs env m' := by
  cases p with
  | undef => cases hl
  | int t k => cases hl
  | fn f => cases hl
  | str t => cases hl
  | dbl n e => cases hl
  | ptr l i =>
    rw [loadBytes, asPtr, X_bind, X_pure] at hl ⊢
    simp only at hl ⊢
    by_cases h0 : n = 0
    · rw [if_pos h0] at hl ⊢
      cases hl
      rfl
    · rw [if_neg h0] at hl ⊢
      have key : ∀ b, getBlock l env m = .ok b env m → getBlock l env m' = .ok b env m' := by
        intro b hb
        cases l with
        | stack k =>
          simp only [getBlock, hs] at hb ⊢
          split at hb
          · cases hb
            rfl
          · cases hb
        | heap a =>
          simp only [getBlock] at hb ⊢
          by_cases ha : a = 0
          · rw [if_pos ha] at hb
            cases hb
          · rw [if_neg ha] at hb ⊢
            cases hc : m.heap a with
            | none =>
              rw [hc] at hb
              cases hb
            | some c =>
              rw [hc] at hb
              cases hb
              rw [hh a _ hc]
      obtain ⟨b, env1, m1, e1, e2⟩ := X_bind_eq_ok hl
      have hbm : env1 = env ∧ m1 = m := by
        cases l with
        | stack k =>
          simp only [getBlock] at e1
          split at e1
          · cases e1
            exact ⟨rfl, rfl⟩
          · cases e1
        | heap a =>
          simp only [getBlock] at e1
          split at e1
          · cases e1
          · split at e1
            · cases e1
              exact ⟨rfl, rfl⟩
            · cases e1
      obtain ⟨rfl, rfl⟩ := hbm
      rw [X_bind_ok (key b e1)]
      cases b with
      | raw cs =>
        simp only at e2 ⊢
        split at e2
        · rw [if_pos ‹_›]
          cases ha : allInit ((cs.drop i).take n) with
          | none =>
            rw [ha] at e2
            cases e2
          | some bs' =>
            rw [ha] at e2
            cases e2
            rfl
        · cases e2
      | obj ps is => cases e2
      | fresh => cases e2

/-- Memory without a buffer. -/
def plain (K : Ctx) (ov : Bool) (h : Heap) : Mem where
  next := h.next
  heap := K.blocks h
  stack := K.σ
  sovf := ov
  world := K.world

/-- The buffer of `sml_file_parse`, called in memory `m`. -/
def fileCtx (m : Mem) : Ctx where
  B := m.next + 1
  A := m.next + 2
  σ := m.stack
  lo := 0
  hB := by omega
  hA := by omega
  hAB := by omega
  base := m.heap
  world := m.world

/-- The heap before the loop: the file is new, two more addresses are in use. -/
def fileHeap (n : Nat) : Heap where
  next := n + 3
  cells := setCell (fun _ => none) n (some (.struct [0, n + 1] [0]))

theorem Inv.start {m : Mem} (hw : ∀ a, m.next ≤ a → m.heap a = none) (hl : buffer.length ≤ 2147483647) : Inv (fileCtx m) { data := buffer } (fileHeap m.next) where
  good := ⟨Nat.zero_le _, hl⟩
  nB := if_neg (by simp [fileCtx])
  nA := if_neg (by simp [fileCtx])
  lB := by simp [fileCtx, fileHeap]
  lA := by simp [fileCtx, fileHeap]
  ints := fun a c ha => by
    simp only [fileHeap, setCell] at ha
    split at ha
    · cases ha
      simp [Small]
    · cases ha
  lo := Nat.zero_le _
  old := fun a ha => by
    have : a < m.next := Decidable.byContradiction fun hn => ha (hw a (by omega))
    exact ⟨if_neg (by omega), by simp only [fileHeap]; omega⟩

/-- `sml_file_parse` up to its loop (sml_file.c:31-40). -/
theorem fileParse_start {m : Mem} {p : Val} (h0 : m.next ≠ 0) (hw : ∀ a, m.next ≤ a → m.heap a = none) (hov : m.sovf = false)
    (hl : buffer.length ≤ 2147483647) (hp : ∀ env, loadBytes p buffer.length env m = .ok buffer env m) :
    (∀ env m, bindArgs [none, some .u64] [p, .int .u64 buffer.length] env m = .ok [p, .int .u64 buffer.length] env m) ∧
    ∃ E : Env, E 2 = ptrVal m.next ∧ E 3 = (fileCtx m).buf ∧ ExecsTo (sml_file_parse.body.take 5) (envOf [p, .int .u64 buffer.length]) m .next E (conc (fileCtx m) { data := buffer } (fileHeap m.next)) := by
  let m1 : Mem := { m with next := m.next + 1, heap := setHeap m.heap m.next (some (.obj [nullPtr, nullPtr] [0])) }
  let m2 : Mem := withBuf m1 (List.replicate buffer.length 0)
  let m3 : Mem := withBuf m1 buffer
  have hv : ∃ l i, p = .ptr l i := by
    have := hp (envOf [])
    cases p with
    | undef => cases this
    | int t k => cases this
    | fn f => cases this
    | str t => cases this
    | dbl n e => cases this
    | ptr l i => exact ⟨l, i, rfl⟩
  have hbind : ∀ env m, bindArgs [none, some .u64] [p, .int .u64 buffer.length] env m = .ok [p, .int .u64 buffer.length] env m := by
    intro env m
    obtain ⟨l, i, rfl⟩ := hv
    simp only [bindArgs, convTo, asInt, X_bind, X_pure]
    rw [conv_u64 (by omega) (by omega)]
  have hload : ∀ env, loadBytes p buffer.length env m2 = .ok buffer env m2 := by
    intro env
    refine loadBytes_mono (m := m) (fun a b hb => ?_) rfl (hp env)
    have hlt : a < m.next := by
      apply Decidable.byContradiction
      intro hn
      rw [hw a (by omega)] at hb
      cases hb
    show setHeap (setHeap (setHeap _ m.next _) (m.next + 1) _) (m.next + 1 + 1) _ a = _
    rw [setHeap_other (by omega), setHeap_other (by omega), setHeap_other (by omega), hb]
  have e1 : ∀ env, storeRec (ptrVal m.next) [nullPtr, nullPtr] [0] env { m with next := m.next + 1, heap := setHeap m.heap m.next (some .fresh) } =
      .ok () env m1 := by
    intro env
    rw [storeRec_put h0 setHeap_same]
    simp only [setHeap_twice]
    rfl
  have e2 : ∀ env, storeBytes (ptrVal (m.next + 2)) buffer env m2 = .ok () env m3 := by
    intro env
    rw [storeBytes_all (by omega) (bs := (List.replicate buffer.length 0).map some) setHeap_same (by simp)]
    simp only [m2, m3, withBuf, List.length_replicate, m1]
    rw [setHeap_twice]
  have e3 : ∀ env, storePtr (ptrVal m.next) 1 (ptrVal (m.next + 1)) env m3 = .ok () env (conc (fileCtx m) { data := buffer } (fileHeap m.next)) := by
    intro env
    have hm : m3.heap m.next = some (.obj [nullPtr, nullPtr] [0]) := by
      show setHeap (setHeap (setHeap _ m.next _) (m.next + 1) _) (m.next + 1 + 1) _ m.next = _
      rw [setHeap_other (by omega), setHeap_other (by omega), setHeap_same]
    rw [storePtr_put h0 hm (by simp)]
    refine congrArg (XRes.ok () env) ?_
    rw [show conc (fileCtx m) { data := buffer } (fileHeap m.next) = Mem.mk (m.next + 3) (conc (fileCtx m) { data := buffer } (fileHeap m.next)).heap m.stack m.sovf m.world by rw [hov]; rfl]
    refine congrArg (fun hp => Mem.mk (m.next + 3) hp m.stack m.sovf m.world) ?_
    funext x
    show setHeap (setHeap (setHeap (setHeap _ m.next _) (m.next + 1) _) (m.next + 1 + 1) _) m.next _ x = if x = m.next + 1 then _ else if x = m.next + 2 then _ else (fileCtx m).blocks (fileHeap m.next) x
    simp only [setHeap, Ctx.blocks, fileHeap, setCell]
    by_cases h1 : x = m.next
    · subst h1
      simp only [if_true, if_neg (show ¬ m.next = m.next + 1 by omega), if_neg (show ¬ m.next = m.next + 2 by omega)]
      rfl
    · by_cases h2 : x = m.next + 1
      · subst h2
        simp only [if_true, if_neg h1, if_neg (show ¬ m.next + 1 = m.next + 1 + 1 by omega)]
        rfl
      · by_cases h3 : x = m.next + 1 + 1
        · subst h3
          simp only [if_true, if_neg h1, if_neg h2]
        · simp only [if_neg h1, if_neg h2, if_neg h3]
          rfl
  obtain ⟨l, i, rfl⟩ := hv
  let E : Env := upd (upd (envOf [.ptr l i, .int .u64 buffer.length]) 2 (ptrVal m.next)) 3 (ptrVal (m.next + 1))
  exact ⟨hbind, E, by rfl, by rfl, .cons (.setPtr .mallocRec) <| .cons (.stRec (.ptr (by rfl)) (.cons .null (.one .null)) ⟨0, fun _ _ => rfl⟩ (e1 _)) <|
    .cons (.setPtr (.call1 (.int (by rfl)) (bufferInit_run m1 (by simp [m1]) (by omega)))) <|
    .cons (.memcpy (.ldPtr (.ptr (by rfl)) (loadPtr_put (by simp [m1]) ((setHeap_other (by omega)).trans setHeap_same) rfl)) (.ptr (by rfl)) (.int (by rfl)) (hload _) (e2 _)) <|
    .cons (.stPtr (.ptr (by rfl)) (.ptr (by rfl)) (e3 _)) .nil⟩

theorem fileParse_run {m : Mem} {p : Val} (h0 : m.next ≠ 0) (hw : ∀ a, m.next ≤ a → m.heap a = none) (hov : m.sovf = false)
    (hl : buffer.length ≤ 2147483647) (hp : ∀ env, loadBytes p buffer.length env m = .ok buffer env m)
    (hr : pFileLoop depth m.next fuel { data := buffer } (fileHeap m.next) = .ok r st' h') :
    Inv (fileCtx m) st' h' ∧ CallTo .sml_file_parse [p, .int .u64 buffer.length] m (ptrVal m.next) (conc (fileCtx m) st' h') := by
  obtain ⟨hbind, E, h2, h3, hs⟩ := fileParse_start h0 hw hov hl hp
  obtain ⟨i1, _, env', he, hloop⟩ := fileLoop_run (fileCtx m) depth m.next fuel E _ _ _ _ _ (Inv.start hw hl) h2 h3 hr
  refine ⟨i1, .of hbind (.append hs (.cons (.loop hloop) (.ret (.ptr he)))) fun env => ?_⟩
  exact congrArg (XRes.ok _ env) (mem_stack (conc (fileCtx m) st' h') (s := m.stack) rfl)

/-! ## `sml_file_free` -/

theorem bufferFree_run (K : Ctx) (hA : K.blocks h K.A = none) (hB : K.blocks h K.B = none) :
    CallTo .sml_buffer_free [K.buf] (conc K st h) .undef (plain K st.sovf h) := by
  let m1 : Mem := { conc K st h with heap := setHeap (conc K st h).heap K.A none }
  have hb : m1.heap K.B = some (bufBlock K.A st) := (setHeap_other (Ne.symm K.hAB)).trans (if_pos rfl)
  refine .of (fun _ _ => bind_ptr1) (.ite (b := true) (.ptr (by rfl)) (truth_ptr K.hB) <|
    .ite (b := true) (ev_arr K (env0 K)) (truth_ptr K.hA) <| .cons (.free (ev_arr K (env0 K)) (release_put (m := conc K st h) K.hA ((if_neg K.hAB).trans (if_pos rfl)))) <|
    .ite (b := false) (.ldPtr (m := m1) (.ptr (by rfl)) (loadPtr_put K.hB hb rfl)) rfl <| .cons (.free (.ptr (by rfl)) (release_put (m := m1) K.hB hb)) .nil) fun env => ?_
  refine congrArg (XRes.ok _ env) ?_
  refine (congrArg (fun hp => Mem.mk h.next hp (K.σ.take K.σ.length) st.sovf K.world) (?_ : _ = K.blocks h)).trans ?_
  · funext x
    show setHeap (setHeap (conc K st h).heap K.A none) K.B none x = _
    simp only [setHeap]
    by_cases h1 : x = K.B
    · rw [if_pos h1, h1, hB]
    · rw [if_neg h1]
      by_cases h2 : x = K.A
      · rw [if_pos h2, h2, hA]
      · rw [if_neg h2]
        exact (if_neg h1).trans (if_neg h2)
  · rw [List.take_length]
    rfl

theorem free_plain (ha : a ≠ 0) (hb : K.base a = none) (hr : Sml.free a st h = .ok u st' h') : freeBlock (ptrVal a) env (plain K ov h) = .ok () env (plain K ov h') := by
  unfold Sml.free at hr
  rw [if_neg ha] at hr
  cases hc : h.cells a with
  | none =>
    rw [hc] at hr
    cases hr
  | some c =>
    rw [hc] at hr
    cases hr
    rw [release_put ha (b := enc c) (by show K.blocks h a = _; simp only [Ctx.blocks, hc])]
    refine congrArg (XRes.ok () env) (congrArg (fun hp => Mem.mk h.next hp K.σ ov K.world) ?_)
    funext x
    simp only [setHeap, setCell, plain, Ctx.blocks]
    by_cases hx : x = a
    · rw [hx, if_pos rfl, if_pos rfl]
      exact hb.symm
    · rw [if_neg hx, if_neg hx]

/-- The loop sml_file.c:93-95. -/
theorem freeLoop_run (K : Ctx) {f : Fn} {g : Addr → P Unit} (hf : FreeSpec f g) {t : ITy} (ht : ITy.usual .i32 t = .i32) (s : Addr) (i : Nat) :
    ∀ fuel (k : Nat) env st h u st' h', k + fuel ≤ 2147483648 → Inv K st h → env 0 = ptrVal s → env 1 = .int .i32 k → pForEachR (pure ()) g s i fuel k st h = .ok u st' h' →
    Inv K st' h' ∧ ∃ env', env' 0 = ptrVal s ∧ LoopTo (.bin .lt (.var 1) (.ldInt t (.var 0) 0)) [.expr (.call f [.elem (.ldPtr (.var 0) i) (.var 1)])]
      [.set .i32 1 (.bin .add (.var 1) (.lit .i32 1))] env (conc K st h) .next env' (conc K st' h')
  | 0, _, _, _, _, _, _, _, _, _, _, _, hr => by cases hr
  | fuel + 1, k, env, st, h, u, st', h', hk, hi, h0, h1, hr => by
    rw [pForEachR] at hr
    replace hr := P_bind_eq_ok hr
    obtain ⟨n, s1, h1', e1, hr⟩ := hr
    have e1' := e1
    obtain ⟨_, rfl, rfl, ps, is, hc, hv⟩ := readInt_eq_ok e1'
    have hn : n ≤ 2147483647 := hi.ints _ _ hc n (List.mem_of_getElem? hv)
    have ev : EvalTo (.bin .lt (.var 1) (.ldInt t (.var 0) 0)) env (conc K s1 h1') (ofBool (decide ((k : Int) < n))) env (conc K s1 h1') := by
      refine .bin (.int h1) (.ldInt (.ptr h0) (loadInt_cell hi e1)) ?_
      exact bin_lt (ta := .i32) (tb := t) (by rw [ht]; exact conv_i32 (by omega) (by omega)) (by rw [ht]; exact conv_i32 (by omega) (by omega))
    by_cases hkn : k < n
    · rw [if_pos hkn] at hr
      rw [decide_eq_true (by omega)] at ev
      replace hr := P_bind_eq_ok hr
      obtain ⟨w, s2, h2, e2, hr⟩ := hr
      replace e2 := P_bind_eq_ok e2
      obtain ⟨_, s3, h3, e3, e2⟩ := e2
      cases e3
      replace e2 := P_bind_eq_ok e2
      obtain ⟨arr, s4, h4, e4, e2⟩ := e2
      have e4' := e4
      obtain ⟨_, rfl, rfl, _⟩ := readPtr_eq_ok e4'
      replace e2 := P_bind_eq_ok e2
      obtain ⟨v, s5, h5, e5, e2⟩ := e2
      have e5' := e5
      obtain ⟨_, rfl, rfl, _⟩ := readPtr_eq_ok e5'
      obtain ⟨i2, _, c2⟩ := hf v K _ _ hi trivial _ _ _ e2
      obtain ⟨i3, env', he, hl⟩ := freeLoop_run K hf ht s i fuel (k + 1) (upd env 1 (.int .i32 ((k + 1 : Nat) : Int))) _ _ _ _ _ (by omega) i2 ((upd_other (by decide)).trans h0) upd_same hr
      refine ⟨i3, env', he, .round ev (truth_ofBool _) (.last (.expr (.call1 (.elem (k := k) (ev_ldPtr hi (.ptr h0) e4) (.int h1) (loadPtr_cell hi e5)) c2))) (.last (.set (k := ((k + 1 : Nat) : Int)) (t := .i32) (.bin (.int h1) .lit ?_) (conv_i32 (by omega) (by omega)))) hl⟩
      rw [bin_add (ta := .i32) (tb := .i32) (conv_i32 (by omega) (by omega)) rfl]
      exact (arith_i32 (by omega) (by omega)).trans (by rw [Int.natCast_add]; rfl)
    · rw [if_neg hkn] at hr
      rw [decide_eq_false (by omega)] at ev
      cases hr
      exact ⟨hi, env, h0, .done ev (truth_ofBool _)⟩

theorem fileFree_run (K : Ctx) (hbA : K.base K.A = none) (hbB : K.base K.B = none) (hi : Inv K st h) (h0 : a ≠ 0) (hc : h.cells a = some (.struct [arr, K.B] is))
    (hr : pFileFreeOf (fun _ => pure ()) a st h = .ok u st' h') :
    CallTo .sml_file_free [ptrVal a] (conc K st h) .undef (plain K st'.sovf h') ∧ Inv K st' h' := by
  rw [pFileFreeOf, if_pos h0] at hr
  -- the part after the messages
  have tail : ∀ {s1 h1 u1 env}, Inv K s1 h1 → env 0 = ptrVal a → h1.cells a = some (.struct [arr, K.B] is) →
      (readPtr a 1 >>= fun q => if q ≠ 0 then (readPtr a 1 >>= fun _ => (pure () : P Unit) >>= fun _ => Sml.free a) else Sml.free a) s1 h1 = .ok u1 st' h' →
      ∃ env', ExecsTo [.ite (.ldPtr (.var 0) 1) [.expr (.call .sml_buffer_free [.ldPtr (.var 0) 1])] [], .free (.var 0)] env (conc K s1 h1) .next env' (plain K st'.sovf h') ∧ Inv K st' h' := by
    intro s1 h1 u1 env hi1 he hc1 hr1
    have hp : readPtr a 1 s1 h1 = .ok K.B s1 h1 := readPtr_ok h0 hc1 rfl
    rw [P.bind_ok hp, if_pos K.hB, P.bind_ok hp, P.bind_ok (show (pure () : P Unit) s1 h1 = .ok () s1 h1 from rfl)] at hr1
    have hs : st' = s1 := by
      unfold Sml.free at hr1
      rw [if_neg h0, hc1] at hr1
      cases hr1
      rfl
    subst hs
    have ev := ev_ldPtr (e := .var 0) (env := env) hi1 (.ptr he) hp
    exact ⟨env, .cons (.ite (b := true) ev (truth_ptr K.hB) (.last (.expr (.call1 ev (bufferFree_run K (by simp only [Ctx.blocks, hi1.nA, hbA]) (by simp only [Ctx.blocks, hi1.nB, hbB])))))) (.last (.free (.ptr he) (free_plain h0 (hi1.own hc1) hr1))), (free_cell (env := env) hi1 hr1).2⟩
  have done : ∀ {ss env'}, ExecsTo ss (envOf [ptrVal a]) (conc K st h) .next env' (plain K st'.sovf h') → (program .sml_file_free).body = [.ite (.var 0) ss []] →
      CallTo .sml_file_free [ptrVal a] (conc K st h) .undef (plain K st'.sovf h') := by
    intro ss env' hx hb
    refine .of (fun _ _ => bind_ptr1) (v := .undef) (m1 := plain K st'.sovf h') ?_ fun env => congrArg (XRes.ok _ env) (mem_stack (plain K st'.sovf h') (s := K.σ) rfl)
    have r : RunTo [.ite (.var 0) ss []] [.ite (.var 0) ss []] (envOf [ptrVal a]) (conc K st h) .undef (plain K st'.sovf h') :=
      .cons (.ite (b := true) (.ptr (by rfl)) (truth_ptr h0) hx) .nil
    rw [hb]
    exact r
  replace hr := P_bind_eq_ok hr
  obtain ⟨arr0, s1, h1, e1, hr⟩ := hr
  have e1' := e1
  obtain ⟨_, rfl, rfl, _⟩ := readPtr_eq_ok e1'
  by_cases ha : arr0 = 0
  · rw [if_neg (by simpa using ha)] at hr
    obtain ⟨env', ht, ht2⟩ := tail (env := envOf [ptrVal a]) hi (by rfl) hc hr
    refine ⟨?_, ht2⟩
    exact done (.cons (.ite (b := false) (ev_ldPtr hi (.ptr (by rfl)) e1) (by rw [ha]; rfl) .nil) ht) rfl
  · rw [if_pos ha] at hr
    replace hr := P_bind_eq_ok hr
    obtain ⟨n, s2, h2, e2, hr⟩ := hr
    have e2' := e2
    obtain ⟨_, rfl, rfl, ps, is', hc2, hv⟩ := readInt_eq_ok e2'
    replace hr := P_bind_eq_ok hr
    obtain ⟨u3, s3, h3, e3, hr⟩ := hr
    replace hr := P_bind_eq_ok hr
    obtain ⟨arr1, s4, h4, e4, hr⟩ := hr
    have e4' := e4
    obtain ⟨_, rfl, rfl, _, _, hc4, _⟩ := readPtr_eq_ok e4'
    replace hr := P_bind_eq_ok hr
    obtain ⟨u5, s5, h5, e5, hr⟩ := hr
    have hc4' : h4.cells a = some (.struct [arr, K.B] is) := by
      rcases OnlyFrees.forEach frees_message a 0 _ _ _ _ _ _ _ e3 a with h7 | h7
      · rw [h7] at hc4
        cases hc4
      · exact h7.trans hc
    have hn : n ≤ 2147483647 := readInt_small hi e2
    have e3' := forEach_reread frees_message h0 (c := pure ()) (fun _ _ _ => rfl) n 0 _ _ hc2 (by rw [hv, Nat.zero_add]) e3 (by rw [hc4]; simp)
    obtain ⟨i3, env3, he3, hl⟩ := freeLoop_run K messageFree_src (t := .i16) rfl a 0 (n + 1) 0 (upd (envOf [ptrVal a]) 1 (.int .i32 (0 : Nat))) _ _ _ _ _ (by omega) hi (by rfl) upd_same e3'
    obtain ⟨f5, i5⟩ := free_cell (env := env3) i3 e5
    have hr' : (readPtr a 1 >>= fun q => if q ≠ 0 then (readPtr a 1 >>= fun _ => (pure () : P Unit) >>= fun _ => Sml.free a) else Sml.free a) s5 h5 = .ok u st' h' := hr
    have hc5 : h5.cells a = some (.struct [arr, K.B] is) := by
      replace hr := P_bind_eq_ok hr'
      obtain ⟨_, _, _, e6, _⟩ := hr
      obtain ⟨_, _, _, _, _, hc6, _⟩ := readPtr_eq_ok e6
      rcases OnlyFrees.free _ _ _ _ _ e5 a with h7 | h7
      · rw [h7] at hc6
        cases hc6
      · exact h7.trans hc4'
    obtain ⟨env', ht, ht2⟩ := tail i5 he3 hc5 hr'
    refine ⟨?_, ht2⟩
    exact done (.cons (.ite (b := true) (ev_ldPtr hi (.ptr (by rfl)) e1) (truth_ptr ha) (.cons (.set (k := 0) (t := .i32) .lit rfl) (.cons (.loop hl) (.last (.free (ev_ldPtr i3 (.ptr he3) e4) f5))))) ht) rfl

/-- The buffer of the file, which the model on the heap keeps as `St`. -/
def rawRep (b : Nat) : Rep := fun p L => p = b ∧ L = []

theorem frees_raw (b : Nat) : Frees (fun _ => pure ()) (rawRep b) 0 := by
  rintro a B ⟨rfl, rfl⟩ st n0 c0 h L o
  exact ⟨h, [], rfl, o, rfl⟩

end Sml.C
