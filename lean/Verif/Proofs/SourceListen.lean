import Verif.Proofs.SourceFrame
import Verif.Proofs.SourceBad

/-!
# `sml_transport_listen`, run from its source
-/

namespace Sml.C

theorem EvalTo.assign (he : EvalTo e env m (.int t k) env' m') (hc : ty.conv k = k') : EvalTo (.assign ty x e) env m (.int ty k') (upd env' x (.int ty k')) m' := by
  obtain ⟨N, r⟩ := he
  refine ⟨N, fun n hn => ?_⟩
  rw [eval, X_bind_ok (r n hn), ← hc]
  rfl

/-- A block of bytes on the stack can take a frame. -/
theorem dest_stack {m : Mem} {σ : List Block} {old : List (Option UInt8)} (hs : m.stack = σ ++ [.raw old]) (ho : maxLen ≤ old.length) :
    Dest m (.ptr (.stack σ.length) 0) maxLen fun bs => { m with stack := σ ++ [.raw (bs.map some ++ old.drop bs.length)] } where
  isPtr := by intro h; cases h
  isSome := by nonnull
  len bs := by rw [hs, List.length_append, List.length_append, List.length_singleton, List.length_singleton]
  store bs h0 hb env set w buf := by
    refine storeBytes_raw (bs := old) (getBlock_stack ?_) h0 (by omega) ?_
    · rw [List.getElem?_append_left (by rw [hs, List.length_append, List.length_singleton]; omega), hs]
      simp
    · rw [setBlock_stack, List.set_append_left _ _ (by rw [hs, List.length_append, List.length_singleton]; omega), hs, List.set_append_right _ _ (Nat.le_refl _)]
      simp

/-- A block of bytes on the heap can. -/
theorem dest_heap {m : Mem} {a : Nat} {old : List (Option UInt8)} (ha : a ≠ 0) (hs : m.heap a = some (.raw old)) (ho : maxLen ≤ old.length) :
    Dest m (.ptr (.heap a) 0) maxLen fun bs => { m with heap := setHeap m.heap a (some (.raw (bs.map some ++ old.drop bs.length))) } where
  isPtr := by intro h; cases h
  isSome := by nonnull
  len _ := rfl
  store bs h0 hb env set w buf := by
    refine storeBytes_raw (bs := old) (getBlock_heap ha hs) h0 (by omega) ?_
    rw [setBlock_heap]
    simp

/-- `f` can be handed to `sml_transport_listen`: with a frame that is `P`, in the first bytes of the buffer, it ends without an undefined step. `R m fs` says what memory
is after the frames `fs`; it does not depend on what is still to be read, and `f` does not read. -/
structure Receiver (f : Fn) (S d : Nat) (P : List UInt8 → Prop) (R : Mem → List (List UInt8) → Prop) : Prop where
  byPtr : f.byPtr = true := by rfl
  depth : R m fs → m.stack.length = S
  num : R m fs → m.world.num = d
  errs : R m fs → Errs m.world
  world : R m fs → ∀ fd ev e, R { m with world := m.world.at fd ev e } fs
  step : R m fs → P frame → ∀ bs : List (Option UInt8), bs.length = 8096 → bs.take frame.length = frame.map some →
    ∃ v m' bs', CallTo f [.ptr (.stack S) 0, .int .u64 frame.length] { m with stack := m.stack ++ [.raw bs] } v { m' with stack := m'.stack ++ [.raw bs'] } ∧
      bs'.length = 8096 ∧ R m' (fs ++ [frame]) ∧ m'.world.input = m.world.input ∧ m'.world.turns = m.world.turns

abbrev listenCond : Expr := .bin .gt (.assign .u64 3 (.call .sml_transport_read [.var 0, .var 2, .lit .i32 8096])) (.lit .i32 0)

abbrev listenBody : List Stmt := [.expr (.callPtr (.var 1) [.var 2, .var 3])]

theorem world_at_eq {w : World} (h1 : w.input = fd.pending) (h2 : w.turns = fd.turns) : w = w.at fd w.ev w.errno := by
  cases w
  simp only at h1 h2
  simp only [World.at, h1, h2]

section
variable {f : Fn} {S d : Nat} {P : List UInt8 → Prop} {R : Mem → List (List UInt8) → Prop} (hf : Receiver f S d P R) (hd : d < 1024)
  (hP : ∀ fd out fd', transportReadS d fd 8096 = .ok (out, fd') → out ≠ [] → out.length ≤ 8096)
include hf hd hP

theorem listenLoop_run : ∀ (fuel : Nat) (fd : SFd) (m : Mem) (done frames : List (List UInt8)) (old : List (Option UInt8)) (env : Env),
    env 0 = .int .i32 d → env 1 = .fn f → env 2 = .ptr (.stack S) 0 → R m done → m.world.input = fd.pending → m.world.turns = fd.turns → old.length = 8096 →
    transportListenS d fuel fd = .ok frames → (∀ fr ∈ frames, P fr) →
    ∃ env' m' old', LoopTo listenCond listenBody [] env { m with stack := m.stack ++ [.raw old] } .next env' { m' with stack := m'.stack ++ [.raw old'] } ∧ R m' (done ++ frames) := by
  intro fuel
  induction fuel with
  | zero =>
    intro fd m done frames old env h0 h1 h2 hR hi ht ho hl _
    cases hl
  | succ fuel ih =>
    intro fd m done frames old env h0 h1 h2 hR hi ht ho hl hpf
    unfold transportListenS at hl
    obtain ⟨⟨frame, fd1⟩, e1, hl⟩ := TRes_bind_ok hl
    have hS := hf.depth hR
    have hw := world_at_eq hi ht
    have hD := dest_stack (m := { m with stack := m.stack ++ [.raw old] }) (σ := m.stack) (old := old) (maxLen := 8096) rfl (by omega)
    obtain ⟨ev', e', call⟩ := transportRead_run { m with stack := m.stack ++ [.raw old] } d 8096 (.ptr (.stack m.stack.length) 0) m.world _ hd (hf.num hR) (hf.errs hR) (by omega) hD
      (t1 := .i32) (t2 := .i32) m.world.ev m.world.errno e1
    simp only at hl
    rw [← hw, hS] at call
    have hn : frame.length < 18446744073709551616 := by
      by_cases h : frame = []
      · rw [h]
        decide
      · have := hP _ _ _ e1 h
        omega
    have hc : EvalTo listenCond env { m with stack := m.stack ++ [.raw old] } (ofBool (decide (frame.length > 0))) (upd env 3 (.int .u64 frame.length)) _ :=
      .bin (.assign (.call (.cons (.int h0) (.cons (.ptr h2) (.one .lit))) call) (natConv_u64 hn)) .lit (by
        have h : decide ((frame.length : Int) > 0) = decide (frame.length > 0) := decide_eq_decide.mpr (by omega)
        rw [← h]
        exact bin_gt (ta := .u64) (tb := .i32) (natConv_u64 hn) rfl)
    by_cases hz : frame.length > 0
    · rw [if_pos hz] at hl
      rw [decide_eq_true hz] at hc
      obtain ⟨rest, e2, hl⟩ := TRes_bind_ok hl
      cases hl
      have hne : frame ≠ [] := fun h => by rw [h] at hz; exact absurd hz (by decide)
      have hle := hP _ _ _ e1 hne
      have hp := hpf frame List.mem_cons_self
      obtain ⟨v, m', bs', c2, hb', hR', hi', ht'⟩ := hf.step (hf.world hR fd1 ev' e') hp (frame.map some ++ old.drop frame.length)
        (by rw [List.length_append, List.length_map, List.length_drop]; omega) (by rw [List.take_left' (by rw [List.length_map])])
      obtain ⟨env', m2, old', lp, hR2⟩ := ih fd1 m' (done ++ [frame]) rest bs' (upd env 3 (.int .u64 frame.length)) h0 h1 h2 hR' hi' ht' hb' e2 fun fr hfr => hpf fr (List.mem_cons_of_mem _ hfr)
      rw [List.append_assoc] at hR2
      rw [outMem, if_neg hne] at hc
      exact ⟨env', m2, old', .round hc rfl (.last (.expr (.callPtr (.var h1 (by intro h; cases h)) (.cons (.ptr h2) (.one (.int upd_same))) c2 hf.byPtr))) .nil lp, hR2⟩
    · rw [if_neg hz] at hl
      cases hl
      rw [decide_eq_false hz] at hc
      obtain rfl : frame = [] := List.length_eq_zero_iff.mp (by omega)
      rw [outMem, if_pos rfl] at hc
      exact ⟨_, { m with world := m.world.at fd1 ev' e' }, old, .done hc rfl, by rw [List.append_nil]; exact hf.world hR _ _ _⟩

/-- `sml_transport_listen`. -/
theorem transportListen_run {t : ITy} {fuel : Nat} {fd : SFd} {m : Mem} {frames : List (List UInt8)} (hR : R m []) (hi : m.world.input = fd.pending) (ht : m.world.turns = fd.turns)
    (hl : transportListenS d fuel fd = .ok frames) (hpf : ∀ fr ∈ frames, P fr) : ∃ m', CallTo .sml_transport_listen [.int t d, .fn f] m .undef m' ∧ R m' frames := by
  have hS := hf.depth hR
  obtain ⟨env', m', old', lp, hR'⟩ := listenLoop_run hf hd hP fuel fd m [] frames (List.replicate 8096 none) (upd (envOf [.int .i32 d, .fn f]) 2 (.ptr (.stack S) 0)) rfl rfl rfl hR hi ht
    (List.length_replicate) hl hpf
  refine ⟨m', ?_, hR'⟩
  rw [← hS] at lp
  refine .of (vs := [.int .i32 d, .fn f]) ?_ (.cons (.bytes (k := 8096) .lit (by decide)) (.cons (.loop lp) .nil)) fun env => ?_
  · intro env m
    have h1 : ITy.conv .i32 (d : Int) = d := conv_i32 (by omega) (by omega)
    simp only [program, sml_transport_listen, bindArgs, convTo, asInt, X_bind, X_pure, h1]
  · have h2 : m'.stack.length = m.stack.length := by rw [hf.depth hR', hS]
    show XRes.ok _ _ _ = _
    rw [List.take_append_of_le_length (by omega), ← h2, List.take_length]

/-- The receiver ends the program at a frame. -/
theorem listenLoop_bad {Q : Bad → Prop} : ∀ (fuel : Nat) (fd : SFd) (m : Mem) (done pre post : List (List UInt8)) (fr : List UInt8) (old : List (Option UInt8)) (env : Env),
    env 0 = .int .i32 d → env 1 = .fn f → env 2 = .ptr (.stack S) 0 → R m done → m.world.input = fd.pending → m.world.turns = fd.turns → old.length = 8096 →
    transportListenS d fuel fd = .ok (pre ++ fr :: post) → (∀ fr ∈ pre, P fr) →
    (∀ m' bs, R m' (done ++ pre) → bs.length = 8096 → bs.take fr.length = fr.map some → ∃ b, Q b ∧ CallBad f [.ptr (.stack S) 0, .int .u64 fr.length] { m' with stack := m'.stack ++ [.raw bs] } b) →
    ∃ b, Q b ∧ LoopBad listenCond listenBody [] env { m with stack := m.stack ++ [.raw old] } b := by
  intro fuel
  induction fuel with
  | zero =>
    intro fd m done pre post fr old env h0 h1 h2 hR hi ht ho hl _ _
    cases hl
  | succ fuel ih =>
    intro fd m done pre post fr old env h0 h1 h2 hR hi ht ho hl hpf hstop
    unfold transportListenS at hl
    obtain ⟨⟨frame, fd1⟩, e1, hl⟩ := TRes_bind_ok hl
    have hS := hf.depth hR
    have hw := world_at_eq hi ht
    have hD := dest_stack (m := { m with stack := m.stack ++ [.raw old] }) (σ := m.stack) (old := old) (maxLen := 8096) rfl (by omega)
    obtain ⟨ev', e', call⟩ := transportRead_run { m with stack := m.stack ++ [.raw old] } d 8096 (.ptr (.stack m.stack.length) 0) m.world _ hd (hf.num hR) (hf.errs hR) (by omega) hD
      (t1 := .i32) (t2 := .i32) m.world.ev m.world.errno e1
    simp only at hl
    rw [← hw, hS] at call
    by_cases hz : frame.length > 0
    · rw [if_pos hz] at hl
      obtain ⟨rest, e2, hl⟩ := TRes_bind_ok hl
      have hne : frame ≠ [] := fun h => by rw [h] at hz; exact absurd hz (by decide)
      have hle := hP _ _ _ e1 hne
      have hn : frame.length < 18446744073709551616 := by omega
      have hc : EvalTo listenCond env { m with stack := m.stack ++ [.raw old] } (ofBool (decide (frame.length > 0))) (upd env 3 (.int .u64 frame.length)) _ :=
        .bin (.assign (.call (.cons (.int h0) (.cons (.ptr h2) (.one .lit))) call) (natConv_u64 hn)) .lit (by
          have h : decide ((frame.length : Int) > 0) = decide (frame.length > 0) := decide_eq_decide.mpr (by omega)
          rw [← h]
          exact bin_gt (ta := .u64) (tb := .i32) (natConv_u64 hn) rfl)
      rw [decide_eq_true hz] at hc
      rw [outMem, if_neg hne] at hc
      have hbl : (frame.map some ++ old.drop frame.length).length = 8096 := by rw [List.length_append, List.length_map, List.length_drop]; omega
      have hbt : (frame.map some ++ old.drop frame.length).take frame.length = frame.map some := by rw [List.take_left' (by rw [List.length_map])]
      match pre, hl, hpf, hstop with
      | [], hl, hpf, hstop =>
        cases hl
        obtain ⟨b, hq, cb⟩ := hstop { m with world := m.world.at fd1 ev' e' } _ (by rw [List.append_nil]; exact hf.world hR fd1 ev' e') hbl hbt
        exact ⟨b, hq, .body hc rfl (.head (.expr (.callPtr (.var h1 (by intro h; cases h)) (.cons (.ptr h2) (.one (.int upd_same))) cb hf.byPtr)))⟩
      | p :: pre, hl, hpf, hstop =>
        cases hl
        obtain ⟨v, m', bs', c2, hb', hR', hi', ht'⟩ := hf.step (hf.world hR fd1 ev' e') (hpf frame List.mem_cons_self) (frame.map some ++ old.drop frame.length) hbl hbt
        obtain ⟨b, hq, lb⟩ := ih fd1 m' (done ++ [frame]) pre post fr bs' (upd env 3 (.int .u64 frame.length)) h0 h1 h2 hR' hi' ht' hb' e2 (fun fr hfr => hpf fr (List.mem_cons_of_mem _ hfr))
          fun m' bs hr => hstop m' bs (by rw [List.append_assoc] at hr; exact hr)
        exact ⟨b, hq, .round hc rfl (.last (.expr (.callPtr (.var h1 (by intro h; cases h)) (.cons (.ptr h2) (.one (.int upd_same))) c2 hf.byPtr))) .nil lb⟩
    · rw [if_neg hz] at hl
      cases pre <;> cases hl

theorem transportListen_bad {Q : Bad → Prop} {t : ITy} {fuel : Nat} {fd : SFd} {m : Mem} {pre post : List (List UInt8)} {fr : List UInt8} (hR : R m []) (hi : m.world.input = fd.pending) (ht : m.world.turns = fd.turns)
    (hl : transportListenS d fuel fd = .ok (pre ++ fr :: post)) (hpf : ∀ fr ∈ pre, P fr)
    (hstop : ∀ m' bs, R m' pre → bs.length = 8096 → bs.take fr.length = fr.map some → ∃ b, Q b ∧ CallBad f [.ptr (.stack S) 0, .int .u64 fr.length] { m' with stack := m'.stack ++ [.raw bs] } b) :
    ∃ b, Q b ∧ CallBad .sml_transport_listen [.int t d, .fn f] m b := by
  have hS := hf.depth hR
  obtain ⟨b, hq, lp⟩ := listenLoop_bad hf hd hP fuel fd m [] pre post fr (List.replicate 8096 none) (upd (envOf [.int .i32 d, .fn f]) 2 (.ptr (.stack S) 0)) rfl rfl rfl hR hi ht
    (List.length_replicate) hl hpf hstop
  rw [← hS] at lp
  refine ⟨b, hq, .of (vs := [.int .i32 d, .fn f]) ?_ (.tail (.bytes (k := 8096) .lit (by decide)) (.head (.ofLoop lp)))⟩
  intro env m
  have h1 : ITy.conv .i32 (d : Int) = d := conv_i32 (by omega) (by omega)
  simp only [program, sml_transport_listen, bindArgs, convTo, asInt, X_bind, X_pure, h1]

end

end Sml.C
