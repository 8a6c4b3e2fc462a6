import Verif.Proofs.SourceExample
import Verif.Proofs.SourceBad

/-!
# The example program, run from its source: the loops
-/

namespace Sml.C

open Spec (rendering WellTyped Mislabelled)

/-! ## Undefined steps and `exit` -/

theorem ExecBad.exit : ExecBad (.exit n) env m (.exited n m.world.out) := ⟨0, fun _ _ => by rw [exec]; rfl⟩

theorem ExecBad.branch {A B : List Stmt} (hc : EvalTo c env m v env1 m1) (ht : truth v env1 m1 = .ok p env1 m1) (h : ExecsBad (if p then A else B) env1 m1 b) :
    ExecBad (.ite c A B) env m b := by
  obtain ⟨N, r⟩ := hc
  obtain ⟨N2, r2⟩ := h
  refine ⟨max N N2, fun n hn => ?_⟩
  rw [exec, X_bind_ok (r n (by omega)), X_bind_ok ht]
  have := r2 n (by omega)
  cases p <;> exact this

/-! ## An entry -/

theorem entry_run {env : Env} (r : Ready S m) (h5 : env 5 = ptrVal a) (he : (a, .struct (ps ++ ts) is) ∈ S) (hF : Sml.Fields (entryReps e) ps B) (hB : Sml.Within B S)
    (hg : GoodEntry e) (hp : printEntry e st = .ok l st') :
    ∃ o env' k j, ExecsTo entryBody env m o env' (m.after (l.flatMap (lineText m.world.pow)) k j) ∧ (o = .next ∨ o = .cont) ∧ ∀ y, y < 7 → env' y = env y := by
  obtain ⟨nm, un, sc, v, Bn, Bu, Bs, Bv, hps, rn, ru, rs, rv, wn, wu, ws, wv⟩ := entry_ptrs hF hB
  obtain ⟨h0, h3, h4, hv⟩ := hps ts
  have ev := r.ptr he hv (.ptr h5)
  rw [printEntry] at hp
  cases hev : e.value with
  | none =>
    rw [hev] at rv hp
    obtain ⟨rfl, rfl⟩ := rv
    cases hp
    refine ⟨.cont, env, 0, [], ?_, .inr rfl, fun _ _ => rfl⟩
    rw [show ([] : List Line).flatMap (lineText m.world.pow) = [] from rfl, Mem.after_nil]
    exact .stop (.ite (b := true) (.not ev truth_ptr0) rfl (.cons (.print .nil) (.stop .cont (by simp)))) (by simp)
  | some x =>
    rw [hev] at rv hp
    have rv' : RValue x v Bv := rv
    obtain ⟨hx, qs, B', hF', rfl⟩ := id rv'
    obtain ⟨d, rfl, hd⟩ := hF'.one
    have hne := (r.has _ _ wv.head).1
    have hlt := type_lt (hg.value x hev)
    have s1 : ExecTo (.ite (.not (.ldPtr (.var 5) 5)) [.print [], .cont] []) env m .next env m := .ite (b := false) (.not ev (truth_ptr hne)) rfl .nil
    have ety : EvalTo (.ldInt .u8 (.ldPtr (.var 5) 5) 0) env m (.int .u8 x.type) env m := r.int wv.head rfl ev
    have eeq : ∀ k : Nat, k < 256 → EvalTo (.bin .eq (.ldInt .u8 (.ldPtr (.var 5) 5) 0) (.lit .i32 k)) env m (ofBool (decide (x.type = k))) env m := fun k hk => by
      have := bin_eq (env := env) (m := m) (ta := .u8) (tb := .i32) (a := (x.type : Int)) (b := (k : Int)) (conv_i32 (by omega) (by omega)) (conv_i32 (by omega) (by omega))
      rw [decide_eq_decide.mpr (show ((x.type : Int) = k) ↔ x.type = k by omega)] at this
      exact .bin ety .lit this
    simp only at hp
    by_cases ht : x.type = tyOctet
    · rw [if_pos ht] at hp
      obtain ⟨o, st1, ho, hp⟩ := M.bind_eq_ok hp
      obtain ⟨s, st2, hs, hp⟩ := M.bind_eq_ok hp
      cases s with
      | none => cases hp
      | some t =>
        obtain ⟨_, _, _, hp⟩ := M.bind_eq_ok hp
        obtain ⟨rfl, rfl⟩ := M.pure_eq_ok hp
        obtain ⟨env', c, hk⟩ := text_run r h5 he h0 hv rn wn rv' wv ht ho hs
        refine ⟨.next, env', 1, [.obj [ptrVal m.next] []], .cons s1 (.last (.ite (b := true) (eeq 0 (by omega)) (truth_pos ht) ?_)), .inl rfl, hk⟩
        rw [List.flatMap_cons, List.flatMap_nil, List.append_nil]
        exact c
    rw [if_neg ht] at hp
    have n1 : truth (ofBool (decide (x.type = 0))) env m = .ok false env m := by rw [decide_eq_false (by simpa [tyOctet] using ht)]; rfl
    by_cases ht2 : x.type = tyBoolean
    · rw [if_pos ht2] at hp
      obtain ⟨o, st1, ho, hp⟩ := M.bind_eq_ok hp
      obtain ⟨rfl, rfl⟩ := M.pure_eq_ok hp
      have key : ∀ {β : Type} {R : β → Rep} (q : Option β), repOpt R q d B' → (∀ v a B, R v a B → ∃ c, (a, c) ∈ B) → q.isSome = decide (d ≠ 0) := by
        intro β R q hq hh
        cases q with
        | none =>
          obtain ⟨rfl, rfl⟩ := hq
          rfl
        | some y =>
          obtain ⟨c, hc⟩ := hh y d B' hq
          exact (decide_eq_true (r.has _ _ (wv.tail.mem hc)).1).symm
      have ht3 : (match x.data with
        | .boolean p => p.isSome
        | .bytes p => p.isSome
        | .num p => p.isSome) = decide (d ≠ 0) := by
        cases hxd : x.data with
        | bytes q => rw [hxd] at hd; exact key (R := RStr) q hd fun _ _ _ h => Rec.head h
        | boolean q => rw [hxd] at hd; exact key (R := RBool) q hd fun _ _ _ h => RBool.head h
        | num q => rw [hxd] at hd; exact key (R := RNum) q hd fun _ _ _ h => RNum.head h
      have c := bool_run r h5 he h0 hv rn wn wv.head ho
      refine ⟨.next, env, 0, [], .cons s1 (.last (.ite (eeq 0 (by omega)) n1 (.last (.ite (b := true) (eeq 64 (by omega)) (truth_pos ht2) ?_)))), .inl rfl, fun _ _ => rfl⟩
      rw [List.flatMap_cons, List.flatMap_nil, List.append_nil]
      rw [← ht3] at c
      exact c
    rw [if_neg ht2] at hp
    have n2 : truth (ofBool (decide (x.type = 64))) env m = .ok false env m := by rw [decide_eq_false (by simpa [tyBoolean] using ht2)]; rfl
    have eband : ∀ k : Nat, k < 256 → EvalTo (.bin .eq (.bin .band (.ldInt .u8 (.ldPtr (.var 5) 5) 0) (.lit .i32 112)) (.lit .i32 k)) env m (ofBool (decide (x.type &&& 0x70 = k))) env m := fun k hk => by
      have hb : x.type &&& 112 < 256 := Nat.lt_of_le_of_lt Nat.and_le_left hlt
      have := bin_eq (env := env) (m := m) (ta := .i32) (tb := .i32) (a := ((x.type &&& 112 : Nat) : Int)) (b := (k : Int)) (conv_i32 (by omega) (by omega)) (conv_i32 (by omega) (by omega))
      rw [decide_eq_decide.mpr (show (((x.type &&& 112 : Nat) : Int) = k) ↔ x.type &&& 0x70 = k by omega)] at this
      exact .bin (.bin ety .lit (band_i32 hlt 112 (by omega))) .lit this
    have eor := EvalTo.orB (eband 80 (by omega)) (eband 96 (by omega))
    by_cases ht3 : x.type &&& 0x70 = tyInteger ∨ x.type &&& 0x70 = tyUnsigned
    · rw [if_pos ht3] at hp
      obtain ⟨dv, st1, hdv, hp⟩ := M.bind_eq_ok hp
      obtain ⟨o, st2, ho, hp⟩ := M.bind_eq_ok hp
      obtain ⟨u, st3, hu, hp⟩ := M.bind_eq_ok hp
      obtain ⟨rfl, rfl⟩ := M.pure_eq_ok hp
      obtain ⟨env', c, hk⟩ := num_run r h5 he h0 h3 h4 hv rn wn ru wu rs ws rv' wv hg hev hdv ho hu
      refine ⟨.next, env', 0, [], .cons s1 (.last (.ite (eeq 0 (by omega)) n1 (.last (.ite (eeq 64 (by omega)) n2 (.last (.ite (b := true) eor ?_ ?_)))))), .inl rfl, hk⟩
      · rw [show (decide (x.type &&& 0x70 = 80) || decide (x.type &&& 0x70 = 96)) = true by
          rw [Bool.or_eq_true, decide_eq_true_eq, decide_eq_true_eq]
          exact ht3]
        rfl
      · rw [List.flatMap_cons, List.flatMap_nil, List.append_nil]
        exact c
    · rw [if_neg ht3] at hp
      obtain ⟨rfl, rfl⟩ := M.pure_eq_ok hp
      refine ⟨.next, env, 0, [], .cons s1 (.last (.ite (eeq 0 (by omega)) n1 (.last (.ite (eeq 64 (by omega)) n2 (.last (.ite (b := false) eor ?_ ?_)))))), .inl rfl, fun _ _ => rfl⟩
      · rw [show (decide (x.type &&& 0x70 = 80) || decide (x.type &&& 0x70 = 96)) = false by
          rw [Bool.or_eq_false_iff, decide_eq_false_iff_not, decide_eq_false_iff_not]
          exact not_or.mp ht3]
        rfl
      · rw [List.flatMap_nil, Mem.after_nil]
        exact .nil

theorem entries_run : ∀ (es : List ListEntry) {a : Nat} {B : List Blk} {m : Mem} {env : Env} {st : St} {ls st'}, Ready S m → env 5 = ptrVal a → RList es a B → Sml.Within B S →
    (∀ e ∈ es, GoodEntry e) → printEntries es st = .ok ls st' →
    ∃ env' k j, LoopTo (.bin .ne (.var 5) .null) entryBody [.setPtr 5 (.ldPtr (.var 5) 7)] env m .next env' (m.after (ls.flatMap (lineText m.world.pow)) k j) ∧ ∀ y, y < 5 → env' y = env y
  | [], a, B, m, env, st, ls, st', r, h5, hr, hB, hg, hp => by
    obtain ⟨rfl, rfl⟩ := hr
    cases hp
    refine ⟨env, 0, [], ?_, fun _ _ => rfl⟩
    rw [List.flatMap_nil, Mem.after_nil]
    exact .done (.bin (.ptr h5) .null ptr_ne_null) rfl
  | e :: es, a, B, m, env, st, ls, st', r, h5, hr, hB, hg, hp => by
    obtain ⟨ps, n, B1, B2, hF, hl, hn, rfl⟩ := hr.cons
    rw [printEntries] at hp
    obtain ⟨l, st1, h1, hp⟩ := M.bind_eq_ok hp
    obtain ⟨ls', st2, h2, hp⟩ := M.bind_eq_ok hp
    obtain ⟨rfl, rfl⟩ := M.pure_eq_ok hp
    have hne := (r.has _ _ hB.head).1
    obtain ⟨o, env1, k, j, c1, ho, k1⟩ := entry_run r h5 hB.head hF hB.tail.left (hg e List.mem_cons_self) h1
    have r1 : Ready S (m.after (l.flatMap (lineText m.world.pow)) k j) := r.after
    have s1 : ExecsTo [.setPtr 5 (.ldPtr (.var 5) 7)] env1 (m.after (l.flatMap (lineText m.world.pow)) k j) .next (upd env1 5 (ptrVal n)) (m.after (l.flatMap (lineText m.world.pow)) k j) :=
      .last (.setPtr (r1.ptr (p := n) hB.head (by rw [← hl]; simp) (.ptr ((k1 5 (by omega)).trans h5))))
    obtain ⟨env2, k', j', c2, k2⟩ := entries_run es r1 upd_same hn hB.tail.right (fun e' he' => hg e' (List.mem_cons_of_mem _ he')) h2
    have hc : EvalTo (.bin .ne (.var 5) .null) env m (ofBool (decide (a ≠ 0))) env m := .bin (.ptr h5) .null ptr_ne_null
    rw [Mem.after_after] at c2
    refine ⟨env2, k + k', j ++ j', ?_, fun y hy => (k2 y hy).trans ((upd_other (by omega)).trans (k1 y (by omega)))⟩
    rw [List.flatMap_append]
    rcases ho with rfl | rfl
    · exact .round hc (truth_pos hne) c1 s1 c2
    · exact .again hc (truth_pos hne) c1 s1 c2

/-! ## Messages -/

/-- examples/sml_server.c:103-149 -/
abbrev messageBody : List Stmt := [
  .setPtr 4 (.elem (.ldPtr (.var 3) 0) (.var 2)),
  .ite (.bin .eq (.deref .u32 (.ldPtr (.ldPtr (.var 4) 3) 0)) (.lit .i32 1793)) [
    .setPtr 6 (.ldPtr (.ldPtr (.var 4) 3) 1),
    .setPtr 5 (.ldPtr (.var 6) 4),
    .loop (.bin .ne (.var 5) .null) entryBody [.setPtr 5 (.ldPtr (.var 5) 7)],
    .ite (.flag 0) [.exit 0] []] []]

/-- How the round for a message ends. -/
theorem message_run {env : Env} {msg : Message} (r : Ready S m) (single : Bool) (hflag : m.world.flags 0 = if single then 1 else 0)
    (he : EvalTo (.elem (.ldPtr (.var 3) 0) (.var 2)) env m (ptrVal a) env m)
    (hr : RMessage msg a B) (hB : Sml.Within B S) (hg : GoodValues msg) (hp : printMessage msg st = .ok x st') :
    (∃ env' k j, (x = none ∨ single = false) ∧ ExecsTo messageBody env m .next env' (m.after ((x.getD []).flatMap (lineText m.world.pow)) k j) ∧ ∀ y, y < 4 → env' y = env y) ∨
    (x.isSome = true ∧ single = true ∧ ExecsBad messageBody env m (.exited 0 (m.world.out ++ (x.getD []).flatMap (lineText m.world.pow)))) := by
  obtain ⟨ps, b, Bb, ha, h3, hb, wb⟩ := message_body hr hB
  have s1 : ExecTo (.setPtr 4 (.elem (.ldPtr (.var 3) 0) (.var 2))) env m .next (upd env 4 (ptrVal a)) m := .setPtr he
  generalize hE : upd env 4 (ptrVal a) = E at s1
  have h4 : E 4 = ptrVal a := by rw [← hE, upd_same]
  have kE : ∀ y, y < 4 → E y = env y := fun y hy => by rw [← hE, upd_other (by omega)]
  have eb := r.ptr ha h3 (.ptr h4)
  rw [printMessage] at hp
  cases hmb : msg.messageBody with
  | none => rw [hmb] at hp; cases hp
  | some body =>
    rw [hmb] at hb hp
    obtain ⟨⟨t, ht, hsz, hwf⟩, qs, B', hF, rfl⟩ := hb
    obtain ⟨p, q, B1, B2, rfl, hpp, hq, rfl⟩ := hF.two
    rw [ht] at hpp
    obtain rfl : B1 = [(p, .num t)] := hpp
    simp only [ht] at hp
    have et := r.num (ty := .u32) wb.tail.left.head hsz (r.ptr (i := 0) wb.head rfl eb)
    rw [conv_unsigned .u32 (by simp) hsz] at et
    have hlt : t.val < 4294967296 := hsz.2
    have ec : EvalTo (.bin .eq (.deref .u32 (.ldPtr (.ldPtr (.var 4) 3) 0)) (.lit .i32 1793)) E m (ofBool (decide (t.val = 1793))) E m := by
      have := bin_eq (env := E) (m := m) (ta := .u32) (tb := .i32) (a := (t.val : Int)) (b := 1793) (conv_u32 (by omega) (by omega)) (conv_u32 (by omega) (by omega))
      rw [decide_eq_decide.mpr (show ((t.val : Int) = 1793) ↔ t.val = 1793 by omega)] at this
      exact .bin et .lit this
    by_cases htag : t.val = tagGetListResponse
    · rw [if_pos htag] at hp
      rw [htag] at hwf
      cases hdat : body.data with
      | getListResponse y =>
        rw [hdat] at hq hp
        cases y with
        | none => cases hp
        | some y =>
          simp only at hp
          obtain ⟨ls, st1, h1, hp⟩ := M.bind_eq_ok hp
          obtain ⟨rfl, rfl⟩ := M.pure_eq_ok hp
          obtain ⟨ps', B', ⟨p0, _, C0, _, rfl, _, ⟨p1, _, C1, _, rfl, _, ⟨p2, _, C2, _, rfl, _, ⟨p3, _, C3, _, rfl, _, ⟨p4, _, C4, _, rfl, r4, _, rfl⟩, rfl⟩, rfl⟩, rfl⟩, rfl⟩, rfl⟩ := hq
          have wq := wb.tail.right
          have w4 := wq.tail.right.right.right.right.left
          have s2 : ExecTo (.setPtr 6 (.ldPtr (.ldPtr (.var 4) 3) 1)) E m .next (upd E 6 (ptrVal q)) m := .setPtr (r.ptr wb.head rfl eb)
          have s3 : ExecTo (.setPtr 5 (.ldPtr (.var 6) 4)) (upd E 6 (ptrVal q)) m .next (upd (upd E 6 (ptrVal q)) 5 (ptrVal p4)) m := .setPtr (r.ptr wq.head rfl (.ptr upd_same))
          obtain ⟨env', k, j, c, kk⟩ := entries_run y.valList (env := upd (upd E 6 (ptrVal q)) 5 (ptrVal p4)) r upd_same r4 w4 (hg body y hmb hdat) h1
          have kk' : ∀ z, z < 4 → env' z = env z := fun z hz => by
            rw [kk z (by omega), upd_other (by omega), upd_other (by omega), kE z hz]
          have hf : (m.after (ls.flatMap (lineText m.world.pow)) k j).world.flags 0 = if single then 1 else 0 := hflag
          have tc : truth (ofBool (decide (t.val = 1793))) E m = .ok true E m := truth_pos htag
          cases single with
          | false =>
            refine .inl ⟨env', k, j, .inr rfl, .cons s1 (.last (.ite ec tc (.cons s2 (.cons s3 (.cons (.loop c) (.last (.ite (b := false) .flag ?_ .nil))))))), kk'⟩
            rw [hf]
            rfl
          | true =>
            refine .inr ⟨rfl, rfl, .tail s1 (.head (.branch ec tc (.tail s2 (.tail s3 (.tail (.loop c) (.head (.branch (p := true) .flag ?_ (.head .exit))))))))⟩
            rw [hf]
            rfl
      | null => rw [hdat] at hp; cases hp
      | _ => rw [hdat] at hwf; exact absurd (show _ = _ from hwf) (by decide)
    · rw [if_neg htag] at hp
      obtain ⟨rfl, rfl⟩ := M.pure_eq_ok hp
      refine .inl ⟨E, 0, [], .inl rfl, .cons s1 (.last (.ite (b := false) ec (truth_neg htag) ?_)), kE⟩
      rw [show (Option.getD (none : Option (List Line)) []).flatMap (lineText m.world.pow) = [] from rfl, Mem.after_nil]
      exact .nil

/-- The loop over the messages (examples/sml_server.c:101-150). -/
theorem messages_run (single : Bool) {n : Nat} (hn : n < 32768) (ha : (a, .struct sp [n]) ∈ S) (h0 : sp[0]? = some arr) : ∀ (ms : List Message) {qs ps : List Nat} {C : List Blk} {m : Mem} {env : Env} {st : St} {ls ex st'},
    Ready S m → m.world.flags 0 = (if single then 1 else 0) → env 2 = .int .i32 qs.length → env 3 = ptrVal a → Sml.Fields (ms.map RMessage) ps C → Sml.Within C S →
    (ms ≠ [] → (arr, .struct (qs ++ ps) []) ∈ S) → qs.length + ms.length = n → (∀ x ∈ ms, GoodValues x) → printMessages single ms st = .ok (ls, ex) st' →
    if ex then LoopBad (.bin .lt (.var 2) (.ldInt .i16 (.var 3) 0)) messageBody [.set .i32 2 (.bin .add (.var 2) (.lit .i32 1))] env m (.exited 0 (m.world.out ++ ls.flatMap (lineText m.world.pow)))
    else ∃ env' k j, LoopTo (.bin .lt (.var 2) (.ldInt .i16 (.var 3) 0)) messageBody [.set .i32 2 (.bin .add (.var 2) (.lit .i32 1))] env m .next env' (m.after (ls.flatMap (lineText m.world.pow)) k j) ∧
      env' 3 = env 3
  | [], qs, ps, C, m, env, st, ls, ex, st', r, hf, h2, h3, hF, hC, harr, hl, hg, hp => by
    obtain ⟨hp, _⟩ := M.pure_eq_ok hp
    cases hp
    refine ⟨env, 0, [], ?_, rfl⟩
    rw [List.flatMap_nil, Mem.after_nil]
    simp only [List.length_nil] at hl
    exact .done (.bin (.int h2) (r.int ha rfl (.ptr h3)) (bin_lt (ta := .i32) (tb := .i16) (conv_i32 (by omega) (by omega)) (conv_i32 (by omega) (by omega)))) (truth_neg (by omega))
  | x :: ms, qs, ps, C, m, env, st, ls, ex, st', r, hf, h2, h3, hF, hC, harr, hl, hg, hp => by
    obtain ⟨p, ps', B1, B2, rfl, hr, hF', rfl⟩ := hF
    have harr := harr (by simp)
    have harr' : (arr, HCell.struct ((qs ++ [p]) ++ ps') []) ∈ S := by simpa using harr
    simp only [List.length_cons] at hl
    have hc : EvalTo (.bin .lt (.var 2) (.ldInt .i16 (.var 3) 0)) env m (ofBool (decide ((qs.length : Int) < n))) env m :=
      .bin (.int h2) (r.int ha rfl (.ptr h3)) (bin_lt (ta := .i32) (tb := .i16) (conv_i32 (by omega) (by omega)) (conv_i32 (by omega) (by omega)))
    have hc1 : truth (ofBool (decide ((qs.length : Int) < n))) env m = .ok true env m := truth_pos (by omega)
    have he : EvalTo (.elem (.ldPtr (.var 3) 0) (.var 2)) env m (ptrVal p) env m :=
      .elem (r.ptr ha h0 (.ptr h3)) (.int h2) (loadPtr_put (r.has _ _ harr).1 (r.has _ _ harr).2 (by rw [List.getElem?_map]; simp))
    rw [printMessages] at hp
    obtain ⟨y, st1, h1, hp⟩ := M.bind_eq_ok hp
    have step : ∀ {E : Env} {M : Mem}, E 2 = .int .i32 qs.length → ExecsTo [.set .i32 2 (.bin .add (.var 2) (.lit .i32 1))] E M .next (upd E 2 (.int .i32 ((qs ++ [p]).length : Nat))) M := by
      intro E M h
      refine .last (.set (.bin (.int h) .lit (bin_incr (.inl rfl) (by omega))) ?_)
      rw [List.length_append, List.length_singleton]
      exact conv_i32 (by omega) (by omega)
    rcases message_run r single hf he hr hC.left (hg x List.mem_cons_self) h1 with ⟨env1, k, j, hs, c1, k1⟩ | ⟨hs, rfl, c1⟩
    · have r1 : Ready S (m.after ((y.getD []).flatMap (lineText m.world.pow)) k j) := r.after
      have hrest : ∃ ls', ls = y.getD [] ++ ls' ∧ printMessages single ms st1 = .ok (ls', ex) st' := by
        cases y with
        | none => exact ⟨ls, rfl, hp⟩
        | some y =>
          rcases hs with hs | rfl
          · cases hs
          · obtain ⟨z, st2, h2, hp⟩ := M.bind_eq_ok hp
            obtain ⟨hp, rfl⟩ := M.pure_eq_ok hp
            cases hp
            exact ⟨z.1, rfl, h2⟩
      obtain ⟨ls', rfl, hm⟩ := hrest
      have ih := messages_run single hn ha h0 ms (qs := qs ++ [p]) (env := upd env1 2 (.int .i32 ((qs ++ [p]).length : Nat))) r1 hf upd_same ((upd_other (by decide)).trans ((k1 3 (by omega)).trans h3))
        hF' hC.right (fun _ => harr') (by rw [List.length_append, List.length_singleton]; omega) (fun x' hx' => hg x' (List.mem_cons_of_mem _ hx')) hm
      have s1 := step (M := m.after ((y.getD []).flatMap (lineText m.world.pow)) k j) ((k1 2 (by omega)).trans h2)
      rw [List.flatMap_append]
      cases ex with
      | true =>
        rw [if_pos rfl] at ih ⊢
        rw [← List.append_assoc]
        exact .round hc hc1 c1 s1 ih
      | false =>
        obtain ⟨env2, k', j', c2, k2⟩ := ih
        rw [Mem.after_after] at c2
        exact ⟨env2, k + k', j ++ j', .round hc hc1 c1 s1 c2, k2.trans ((upd_other (by decide)).trans (k1 3 (by omega)))⟩
    · cases y with
      | none => cases hs
      | some y =>
        simp only [if_true] at hp
        obtain ⟨hp, rfl⟩ := M.pure_eq_ok hp
        cases hp
        rw [if_pos rfl]
        exact .body hc hc1 c1

/-! ## `sml_file_print` -/

/-- The loop sml_file.c:112-114. -/
theorem tags_run {n : Nat} (hn : n < 32768) (ha : (a, .struct sp [n]) ∈ S) (h0 : sp[0]? = some arr) : ∀ (ms : List Message) {qs ps : List Nat} {C : List Blk} {m : Mem} {env : Env} {st : St} {ts st'},
    Ready S m → env 1 = .int .i32 qs.length → env 0 = ptrVal a → Sml.Fields (ms.map RMessage) ps C → Sml.Within C S →
    (ms ≠ [] → (arr, .struct (qs ++ ps) []) ∈ S) → qs.length + ms.length = n → printTags ms st = .ok ts st' →
    ∃ env', LoopTo (.bin .lt (.var 1) (.ldInt .i16 (.var 0) 0)) [.printf [.text "SML message ", .hex4, .text "\n"] [.deref .u32 (.ldPtr (.ldPtr (.elem (.ldPtr (.var 0) 0) (.var 1)) 3) 0)]]
      [.set .i32 1 (.bin .add (.var 1) (.lit .i32 1))] env m .next env' (m.after (ts.flatMap fun t => "SML message ".toUTF8.toList ++ Sml.hex4 t ++ [0x0A]) 0 [])
  | [], qs, ps, C, m, env, st, ts, st', r, h1, h0', hF, hC, harr, hl, hp => by
    obtain ⟨rfl, _⟩ := M.pure_eq_ok hp
    refine ⟨env, ?_⟩
    rw [List.flatMap_nil, Mem.after_nil]
    simp only [List.length_nil] at hl
    exact .done (.bin (.int h1) (r.int ha rfl (.ptr h0')) (bin_lt (ta := .i32) (tb := .i16) (conv_i32 (by omega) (by omega)) (conv_i32 (by omega) (by omega)))) (truth_neg (by omega))
  | x :: ms, qs, ps, C, m, env, st, ts, st', r, h1, h0', hF, hC, harr, hl, hp => by
    obtain ⟨p, ps', B1, B2, rfl, hr, hF', rfl⟩ := hF
    have harr := harr (by simp)
    have harr' : (arr, HCell.struct ((qs ++ [p]) ++ ps') []) ∈ S := by simpa using harr
    simp only [List.length_cons] at hl
    have hc : EvalTo (.bin .lt (.var 1) (.ldInt .i16 (.var 0) 0)) env m (ofBool (decide ((qs.length : Int) < n))) env m :=
      .bin (.int h1) (r.int ha rfl (.ptr h0')) (bin_lt (ta := .i32) (tb := .i16) (conv_i32 (by omega) (by omega)) (conv_i32 (by omega) (by omega)))
    have hc1 : truth (ofBool (decide ((qs.length : Int) < n))) env m = .ok true env m := truth_pos (by omega)
    have he : EvalTo (.elem (.ldPtr (.var 0) 0) (.var 1)) env m (ptrVal p) env m :=
      .elem (r.ptr ha h0 (.ptr h0')) (.int h1) (loadPtr_put (r.has _ _ harr).1 (r.has _ _ harr).2 (by rw [List.getElem?_map]; simp))
    obtain ⟨ps3, b, Bb, hm, h3, hb, wb⟩ := message_body hr hC.left
    rw [printTags] at hp
    cases hmb : x.messageBody with
    | none => rw [hmb] at hp; cases hp
    | some body =>
      rw [hmb] at hb hp
      obtain ⟨⟨t, ht, hsz, _⟩, qs2, B', hF2, rfl⟩ := hb
      obtain ⟨p2, q2, D1, D2, rfl, hpp, hq, rfl⟩ := hF2.two
      rw [ht] at hpp
      obtain rfl : D1 = [(p2, .num t)] := hpp
      simp only [ht] at hp
      obtain ⟨ts', st1, h4, hp⟩ := M.bind_eq_ok hp
      obtain ⟨rfl, rfl⟩ := M.pure_eq_ok hp
      have et := r.num (ty := .u32) wb.tail.left.head hsz (r.ptr (i := 0) wb.head rfl (r.ptr hm h3 he))
      rw [conv_unsigned .u32 (by simp) hsz] at et
      have x1 := ExecTo.printf (EvalsTo.one et) (render_text_cons (s := "SML message ") (render_conv (q := .hex4) (by simp) (by simp) convert_hex4 (render_text (s := "\n"))))
      rw [Mem.said_eq] at x1
      generalize hout : "SML message ".toUTF8.toList ++ (Sml.hex4 t.val ++ "\n".toUTF8.toList) = out at x1
      have r1 : Ready S (m.after out 0 []) := r.after
      obtain ⟨env2, c2⟩ := tags_run hn ha h0 ms (qs := qs ++ [p]) (env := upd env 1 (.int .i32 ((qs ++ [p]).length : Nat))) r1 upd_same ((upd_other (by decide)).trans h0')
        hF' hC.right (fun _ => harr') (by rw [List.length_append, List.length_singleton]; omega) h4
      have s1 : ExecsTo [.set .i32 1 (.bin .add (.var 1) (.lit .i32 1))] env (m.after out 0 []) .next (upd env 1 (.int .i32 ((qs ++ [p]).length : Nat))) (m.after out 0 []) := by
        refine .last (.set (.bin (.int h1) .lit (bin_incr (.inl rfl) (by omega))) ?_)
        rw [List.length_append, List.length_singleton]
        exact conv_i32 (by omega) (by omega)
      rw [Mem.after_after] at c2
      refine ⟨env2, ?_⟩
      rw [List.flatMap_cons]
      rw [← hout, utf8_newline, ← List.append_assoc] at c2 x1 s1
      exact .round hc hc1 (.last x1) s1 c2

theorem EvalBad.ldPtr_null (he : EvalTo e env m nullPtr env1 m1) : EvalBad (.ldPtr e i) env m .null := by
  obtain ⟨N, r⟩ := he
  exact ⟨N, fun n hn => by rw [eval, X_bind_ok (r n hn)]; rfl⟩

theorem EvalBad.deref (h : EvalBad e env m b) : EvalBad (.deref t e) env m b := by
  obtain ⟨N, r⟩ := h
  exact ⟨N, fun n hn => by rw [eval, X_bind, r n hn]⟩

theorem ExecBad.printf1 (h : EvalBad e env m b) : ExecBad (.printf fmt [e]) env m b := by
  obtain ⟨N, r⟩ := h
  exact ⟨N, fun n hn => by rw [exec, X_bind, evals, X_bind, r n hn]⟩

/-- A message without body is read through. -/
theorem tags_bad {n : Nat} (hn : n < 32768) (ha : (a, .struct sp [n]) ∈ S) (h0 : sp[0]? = some arr) : ∀ (ms : List Message) {qs ps : List Nat} {C : List Blk} {m : Mem} {env : Env},
    Ready S m → env 1 = .int .i32 qs.length → env 0 = ptrVal a → Sml.Fields (ms.map RMessage) ps C → Sml.Within C S →
    (arr, .struct (qs ++ ps) []) ∈ S → qs.length + ms.length = n → (∃ x ∈ ms, x.messageBody = none) →
    LoopBad (.bin .lt (.var 1) (.ldInt .i16 (.var 0) 0)) [.printf [.text "SML message ", .hex4, .text "\n"] [.deref .u32 (.ldPtr (.ldPtr (.elem (.ldPtr (.var 0) 0) (.var 1)) 3) 0)]]
      [.set .i32 1 (.bin .add (.var 1) (.lit .i32 1))] env m .null
  | [], _, _, _, _, _, _, _, _, _, _, _, _, hx => by obtain ⟨_, h, _⟩ := hx; cases h
  | x :: ms, qs, ps, C, m, env, r, h1, h0', hF, hC, harr, hl, hx => by
    obtain ⟨p, ps', B1, B2, rfl, hr, hF', rfl⟩ := hF
    have harr' : (arr, HCell.struct ((qs ++ [p]) ++ ps') []) ∈ S := by simpa using harr
    simp only [List.length_cons] at hl
    have hc : EvalTo (.bin .lt (.var 1) (.ldInt .i16 (.var 0) 0)) env m (ofBool (decide ((qs.length : Int) < n))) env m :=
      .bin (.int h1) (r.int ha rfl (.ptr h0')) (bin_lt (ta := .i32) (tb := .i16) (conv_i32 (by omega) (by omega)) (conv_i32 (by omega) (by omega)))
    have hc1 : truth (ofBool (decide ((qs.length : Int) < n))) env m = .ok true env m := truth_pos (by omega)
    have he : EvalTo (.elem (.ldPtr (.var 0) 0) (.var 1)) env m (ptrVal p) env m :=
      .elem (r.ptr ha h0 (.ptr h0')) (.int h1) (loadPtr_put (r.has _ _ harr).1 (r.has _ _ harr).2 (by rw [List.getElem?_map]; simp))
    obtain ⟨ps3, b, Bb, hm, h3, hb, wb⟩ := message_body hr hC.left
    cases hmb : x.messageBody with
    | none =>
      rw [hmb] at hb
      obtain ⟨rfl, _⟩ := hb
      exact .body hc hc1 (.head (.printf1 (.deref (.ldPtr_null (r.ptr hm h3 he)))))
    | some body =>
      rw [hmb] at hb
      obtain ⟨⟨t, ht, hsz, _⟩, qs2, B', hF2, rfl⟩ := hb
      obtain ⟨p2, q2, D1, D2, rfl, hpp, hq, rfl⟩ := hF2.two
      rw [ht] at hpp
      obtain rfl : D1 = [(p2, .num t)] := hpp
      have et := r.num (ty := .u32) wb.tail.left.head hsz (r.ptr (i := 0) wb.head rfl (r.ptr hm h3 he))
      rw [conv_unsigned .u32 (by simp) hsz] at et
      have x1 := ExecTo.printf (EvalsTo.one et) (render_text_cons (s := "SML message ") (render_conv (q := .hex4) (by simp) (by simp) convert_hex4 (render_text (s := "\n"))))
      rw [Mem.said_eq] at x1
      generalize hout : "SML message ".toUTF8.toList ++ (Sml.hex4 t.val ++ "\n".toUTF8.toList) = out at x1
      have r1 : Ready S (m.after out 0 []) := r.after
      have s1 : ExecsTo [.set .i32 1 (.bin .add (.var 1) (.lit .i32 1))] env (m.after out 0 []) .next (upd env 1 (.int .i32 ((qs ++ [p]).length : Nat))) (m.after out 0 []) := by
        refine .last (.set (.bin (.int h1) .lit (bin_incr (.inl rfl) (by omega))) ?_)
        rw [List.length_append, List.length_singleton]
        exact conv_i32 (by omega) (by omega)
      have hx' : ∃ y ∈ ms, y.messageBody = none := by
        obtain ⟨y, hy, hn⟩ := hx
        rcases List.mem_cons.1 hy with rfl | hy
        · rw [hmb] at hn; cases hn
        · exact ⟨y, hy, hn⟩
      exact .round hc hc1 (.last x1) s1 (tags_bad hn ha h0 ms (qs := qs ++ [p]) r1 upd_same ((upd_other (by decide)).trans h0')
        hF' hC.right harr' (by rw [List.length_append, List.length_singleton]; omega) hx')

end Sml.C
