import Verif.Proofs.SourcePrint
import Verif.Props.Source
import Verif.Props.Example

/-!
# `sml_file_print` and `transport_receiver`, run from their source
-/

namespace Sml.C

open Spec (frame)

theorem Within.none {S : List Blk} : Sml.Within [] S := ⟨S, .refl _⟩

theorem ExecsBad.after (hs : ExecsTo A env m .next env1 m1) (h : ExecsBad B env1 m1 b) : ExecsBad (A ++ B) env m b := by
  obtain ⟨N, r⟩ := hs
  obtain ⟨N2, r2⟩ := h
  refine ⟨max N N2, fun n hn => ?_⟩
  rw [execs_append, r n (by omega)]
  exact r2 n (by omega)

/-- The blocks of a parsed file are in memory. -/
theorem ready_parsed (hi : Inv K st h) (o : Own n0 c0 h S) (hb : ∀ a, h.next ≤ a → K.base a = none) (hc : ∀ a, n0 ≤ a → c0 a = none) : Ready S (conc K st h) := by
  refine ⟨Nat.lt_of_lt_of_le o.pos o.le, fun a c hm => ⟨o.ne0_of_mem hm, ?_⟩, fun a ha => ?_⟩
  · have hcell := o.cell_of_mem hm
    have h1 : a ≠ K.B := fun e => by rw [e, hi.nB] at hcell; cases hcell
    have h2 : a ≠ K.A := fun e => by rw [e, hi.nA] at hcell; cases hcell
    show (if a = K.B then _ else if a = K.A then _ else K.blocks h a) = _
    rw [if_neg h1, if_neg h2]
    simp only [Ctx.blocks, hcell]
  · have ha' : h.next ≤ a := ha
    have h1 := hi.lB
    have h2 := hi.lA
    show (if a = K.B then _ else if a = K.A then _ else K.blocks h a) = _
    rw [if_neg (by omega), if_neg (by omega)]
    have hnot : a ∉ S.map Prod.fst := fun hmem => by
      obtain ⟨x, hx, rfl⟩ := List.mem_map.mp hmem
      have := (o.key x hx).2
      omega
    have hcell : h.cells a = none := (o.rest a hnot).trans (hc a (Nat.le_trans o.le ha'))
    simp only [Ctx.blocks, hcell]
    exact hb a ha'

/-- `sml_file_print` (sml_file.c:108-115). -/
theorem filePrint_run {f : File} (r : Ready S m) (hr : RFileOf (rawRep b) f a L) (hL : Sml.Within L S) (hn : f.messages.length < 32768) (hb : b ≠ 0) {cur : Nat}
    (hbuf : m.heap b = some (.obj bps bis)) (hcur : bis[1]? = some (cur : Int)) (hp : printTags f.messages st = .ok ts st') :
    CallTo .sml_file_print [ptrVal a] m .undef (m.after (fileInfoText ⟨f.messages.length, cur, ts⟩) 0 []) := by
  obtain ⟨ps, B', hF, rfl⟩ := hr
  obtain ⟨arr, buf, B1, B2, rfl, harr, ⟨rfl, rfl⟩, rfl⟩ := hF.two
  let E0 : Env := envOf [ptrVal a]
  have e1 : EvalTo (.ldInt .i16 (.var 0) 0) E0 m (.int .i16 f.messages.length) E0 m := r.int hL.head rfl (.ptr rfl)
  have e2 : EvalTo (.ldInt .u64 (.ldPtr (.var 0) 1) 1) E0 m (.int .u64 cur) E0 m := .ldInt (r.ptr hL.head rfl (.ptr rfl)) (loadInt_put hb hbuf hcur)
  have x1 := ExecTo.printf (EvalsTo.cons e1 (.one e2)) (render_text_cons (s := "SML file (") (render_conv (q := .dec) (by simp) (by simp) convert_i16
    (render_text_cons (s := " SML messages, ") (render_conv (q := .size) (by simp) (by simp) convert_size (render_text (s := " bytes)\n"))))))
  rw [Mem.said_eq] at x1
  generalize hout : "SML file (".toUTF8.toList ++ (decText f.messages.length ++ (" SML messages, ".toUTF8.toList ++ (decText cur ++ " bytes)\n".toUTF8.toList))) = out at x1
  have r1 : Ready S (m.after out 0 []) := r.after
  have hloop : ∃ env', LoopTo (.bin .lt (.var 1) (.ldInt .i16 (.var 0) 0)) [.printf [.text "SML message ", .hex4, .text "\n"] [.deref .u32 (.ldPtr (.ldPtr (.elem (.ldPtr (.var 0) 0) (.var 1)) 3) 0)]]
      [.set .i32 1 (.bin .add (.var 1) (.lit .i32 1))] (upd E0 1 (.int .i32 0)) (m.after out 0 []) .next env' ((m.after out 0 []).after (ts.flatMap fun t => "SML message ".toUTF8.toList ++ Sml.hex4 t ++ [0x0A]) 0 []) := by
    by_cases hs : f.messages = []
    · exact tags_run (arr := arr) hn hL.head rfl f.messages (qs := []) (ps := []) (C := []) (S := S) r1 upd_same rfl (by rw [hs]; exact ⟨rfl, rfl⟩) Within.none (fun h => absurd hs h) (by simp) hp
    · rw [RArr.ne (by simpa using hs)] at harr
      obtain ⟨rs, D, hD, rfl⟩ := harr
      exact tags_run (arr := arr) hn hL.head rfl f.messages (qs := []) (S := S) r1 upd_same rfl hD hL.tail.left.tail (fun _ => hL.tail.left.head) (by simp) hp
  obtain ⟨env', lp⟩ := hloop
  rw [Mem.after_after] at lp
  have hinfo : fileInfoText ⟨f.messages.length, cur, ts⟩ = out ++ ts.flatMap fun t => "SML message ".toUTF8.toList ++ Sml.hex4 t ++ [0x0A] := by
    rw [fileInfoText, ← hout]
    simp only [List.append_assoc]
  rw [hinfo]
  refine .of (vs := [ptrVal a]) (fun _ _ => rfl) (.cons x1 (.cons (.set (t := .i32) (k := 0) .lit rfl) (.cons (.loop lp) .nil))) fun env => ?_
  show XRes.ok _ _ _ = _
  simp only [Mem.after, List.append_nil, List.take_length]

/-- With a message without body it reads through NULL. -/
theorem filePrint_bad {f : File} (r : Ready S m) (hr : RFileOf (rawRep b) f a L) (hL : Sml.Within L S) (hn : f.messages.length < 32768) (hb : b ≠ 0) {cur : Nat}
    (hbuf : m.heap b = some (.obj bps bis)) (hcur : bis[1]? = some (cur : Int)) (hx : ∃ x ∈ f.messages, x.messageBody = none) : CallBad .sml_file_print [ptrVal a] m .null := by
  obtain ⟨ps, B', hF, rfl⟩ := hr
  obtain ⟨arr, buf, B1, B2, rfl, harr, ⟨rfl, rfl⟩, rfl⟩ := hF.two
  let E0 : Env := envOf [ptrVal a]
  have e1 : EvalTo (.ldInt .i16 (.var 0) 0) E0 m (.int .i16 f.messages.length) E0 m := r.int hL.head rfl (.ptr rfl)
  have e2 : EvalTo (.ldInt .u64 (.ldPtr (.var 0) 1) 1) E0 m (.int .u64 cur) E0 m := .ldInt (r.ptr hL.head rfl (.ptr rfl)) (loadInt_put hb hbuf hcur)
  have x1 := ExecTo.printf (EvalsTo.cons e1 (.one e2)) (render_text_cons (s := "SML file (") (render_conv (q := .dec) (by simp) (by simp) convert_i16
    (render_text_cons (s := " SML messages, ") (render_conv (q := .size) (by simp) (by simp) convert_size (render_text (s := " bytes)\n"))))))
  rw [Mem.said_eq] at x1
  have hne : f.messages ≠ [] := by
    obtain ⟨y, hy, _⟩ := hx
    intro h
    rw [h] at hy
    cases hy
  rw [RArr.ne (by simpa using hne)] at harr
  obtain ⟨rs, D, hD, rfl⟩ := harr
  exact .of (vs := [ptrVal a]) (fun _ _ => rfl) (.tail x1 (.tail (.set (t := .i32) (k := 0) .lit rfl)
    (.head (.ofLoop (tags_bad (arr := arr) hn hL.head rfl f.messages (qs := []) (S := S) r.after upd_same rfl hD hL.tail.left.tail hL.tail.left.head (by simp) hx)))))

/-- The part of `transport_receiver` that prints. -/
theorem printing_run {f : File} (r : Ready S m) (verbose single : Bool) (hf0 : m.world.flags 0 = if single then 1 else 0) (hf1 : m.world.flags 1 = if verbose then 1 else 0) (hr : RFileOf (rawRep b) f a L)
    (hL : Sml.Within L S) (hn : f.messages.length < 32768) (hb : b ≠ 0) {cur : Nat} (hbuf : m.heap b = some (.obj bps bis)) (hcur : bis[1]? = some (cur : Int)) (hg : ∀ x ∈ f.messages, GoodValues x)
    (hi : (if verbose then (do let i ← filePrint f; pure (some i)) else pure none : M (Option FileInfo)) st = .ok info st1) (hst : st.cursor = cur) (hp : printMessages single f.messages st1 = .ok (ls, ex) st2)
    {env : Env} (h3 : env 3 = ptrVal a) (rest : List Stmt) : 
    let ss : List Stmt := .ite (.flag 1) [.expr (.call .sml_file_print [.var 3])] [] :: .ite (.flag 1) [.printf [.text "OBIS data\n"] []] [] :: .set .i32 2 (.lit .i32 0) ::
      .loop (.bin .lt (.var 2) (.ldInt .i16 (.var 3) 0)) messageBody [.set .i32 2 (.bin .add (.var 2) (.lit .i32 1))] :: []
    if ex then ExecsBad (ss ++ rest) env m (.exited 0 (m.world.out ++ receiverText m.world.pow (info, ls, ex)))
    else ∃ env' k j, ExecsTo ss env m .next env' (m.after (receiverText m.world.pow (info, ls, ex)) k j) ∧ env' 3 = env 3 := by
  intro ss
  let head : Option FileInfo → List UInt8 := fun i => match i with
    | some i => fileInfoText i ++ "OBIS data\n".toUTF8.toList
    | none => []
  have hstart : ExecsTo [.ite (.flag 1) [.expr (.call .sml_file_print [.var 3])] [], .ite (.flag 1) [.printf [.text "OBIS data\n"] []] []] env m .next env (m.after (head info) 0 []) := by
    cases verbose with
    | false =>
      obtain ⟨rfl, _⟩ := M.pure_eq_ok hi
      rw [show head none = [] from rfl, Mem.after_nil]
      exact .cons (.ite (b := false) .flag (by rw [hf1]; rfl) .nil) (.last (.ite (b := false) .flag (by rw [hf1]; rfl) .nil))
    | true =>
      simp only [if_true] at hi
      obtain ⟨i, s1, h1, hi⟩ := M.bind_eq_ok hi
      obtain ⟨rfl, rfl⟩ := M.pure_eq_ok hi
      rw [filePrint] at h1
      obtain ⟨_, _, hgs, h1⟩ := M.bind_eq_ok h1
      cases hgs
      obtain ⟨ts, s2, h2, h1⟩ := M.bind_eq_ok h1
      obtain ⟨rfl, rfl⟩ := M.pure_eq_ok h1
      have c := filePrint_run r hr hL hn hb hbuf hcur h2
      have x2 := ExecTo.printf (fmt := [.text "OBIS data\n"]) (env := env) (m := m.after (fileInfoText ⟨f.messages.length, cur, ts⟩) 0 []) .nil render_text
      rw [Mem.said_eq, Mem.after_after] at x2
      rw [hst]
      exact .cons (.ite (b := true) .flag (by rw [hf1]; rfl) (.last (.expr (.call1 (.ptr h3) c)))) (.last (.ite (b := true) (.flag (i := 1)) (by
        show truth (.int .i32 (m.world.flags 1)) _ _ = _
        rw [hf1]; rfl) (.last x2)))
  have r1 : Ready S (m.after (head info) 0 []) := r.after
  have s3 : ExecTo (.set .i32 2 (.lit .i32 0)) env (m.after (head info) 0 []) .next (upd env 2 (.int .i32 0)) (m.after (head info) 0 []) := .set (t := .i32) (k := 0) .lit rfl
  have hL' := id hL
  obtain ⟨ps, B', hF, rfl⟩ := hr
  obtain ⟨arr, buf, B1, B2, rfl, harr, ⟨rfl, rfl⟩, rfl⟩ := hF.two
  have key : ∀ (qs ps : List Nat) (C : List Blk), qs = [] → Sml.Fields (f.messages.map RMessage) ps C → Sml.Within C S → (f.messages ≠ [] → (arr, .struct (qs ++ ps) []) ∈ S) → _ := fun qs ps C hq hF hC harr =>
    messages_run single hn hL.head rfl f.messages (qs := qs) (env := upd env 2 (.int .i32 0)) r1 hf0 (by rw [hq]; exact upd_same) ((upd_other (by decide)).trans h3) hF hC harr (by simp [hq]) hg hp
  have main : ∃ (qs ps : List Nat) (C : List Blk), qs = [] ∧ Sml.Fields (f.messages.map RMessage) ps C ∧ Sml.Within C S ∧ (f.messages ≠ [] → (arr, .struct (qs ++ ps) []) ∈ S) := by
    by_cases hs : f.messages = []
    · exact ⟨[], [], [], rfl, by rw [hs]; exact ⟨rfl, rfl⟩, Within.none, fun h => absurd hs h⟩
    · rw [RArr.ne (by simpa using hs)] at harr
      obtain ⟨rs, D, hD, rfl⟩ := harr
      exact ⟨[], rs, D, rfl, hD, hL.tail.left.tail, fun _ => hL.tail.left.head⟩
  obtain ⟨qs, ps, C, hq, hF1, hC1, harr1⟩ := main
  have fin := key qs ps C hq hF1 hC1 harr1
  have htext : receiverText m.world.pow (info, ls, ex) = head info ++ ls.flatMap (lineText m.world.pow) := rfl
  rw [htext]
  cases ex with
  | true =>
    rw [if_pos rfl] at fin ⊢
    rw [← List.append_assoc]
    have hb : ExecsBad (.set .i32 2 (.lit .i32 0) :: .loop (.bin .lt (.var 2) (.ldInt .i16 (.var 3) 0)) messageBody [.set .i32 2 (.bin .add (.var 2) (.lit .i32 1))] :: rest) env (m.after (head info) 0 [])
      (.exited 0 (m.world.out ++ head info ++ ls.flatMap (lineText m.world.pow))) := .tail s3 (.head (.ofLoop fin))
    exact ExecsBad.after (A := [_, _]) hstart hb
  | false =>
    obtain ⟨env', k, j, lp, h⟩ := fin
    rw [Mem.after_after] at lp
    exact ⟨env', 0 + k, [] ++ j, hstart.append (.cons s3 (.last (.loop lp))), h.trans (upd_other (by decide))⟩

/-- Between two heaps `n` blocks have come and stay, and nothing else has changed. -/
def LostBlocks (c c' : Nat → Option Block) (n : Nat) : Prop :=
  ∃ lost : List Nat, lost.Nodup ∧ (∀ a, a ∈ lost ↔ c' a ≠ c a) ∧ (∀ a ∈ lost, c a = none) ∧ lost.length = n

theorem LostBlocks.refl (c : Nat → Option Block) : LostBlocks c c 0 := ⟨[], by simp, by simp, by simp, rfl⟩

theorem LostBlocks.eq {c c' : Nat → Option Block} (h : LostBlocks c c' 0) : c' = c := by
  obtain ⟨lost, _, hm, _, hl⟩ := h
  obtain rfl := List.length_eq_zero_iff.mp hl
  exact funext fun a => Decidable.byContradiction fun hx => absurd ((hm a).2 hx) (by simp)

theorem LostBlocks.trans {c c' c'' : Nat → Option Block} {n n' : Nat} (h : LostBlocks c c' n) (h' : LostBlocks c' c'' n') : LostBlocks c c'' (n + n') := by
  obtain ⟨lost, hn, hm, hnew, rfl⟩ := h
  obtain ⟨lost', hn', hm', hnew', rfl⟩ := h'
  have dis : ∀ a ∈ lost, a ∉ lost' := fun a ha hx => (hm a).1 ha (by rw [hnew' a hx, hnew a ha])
  refine ⟨lost ++ lost', List.nodup_append.mpr ⟨hn, hn', fun a ha b hb h => dis a ha (h ▸ hb)⟩, fun a => ?_, fun a ha => ?_, List.length_append⟩
  · rw [List.mem_append]
    constructor
    · rintro (ha | ha)
      · have : c'' a = c' a := Decidable.byContradiction fun hx => dis a ha ((hm' a).2 hx)
        rw [this]
        exact (hm a).1 ha
      · have h1 : c' a = c a := Decidable.byContradiction fun hx => dis a ((hm a).2 hx) ha
        rw [← h1]
        exact (hm' a).1 ha
    · intro ha
      apply Decidable.byContradiction
      intro hx
      have h1 : c'' a = c' a := Decidable.byContradiction fun h => hx (.inr ((hm' a).2 h))
      have h2 : c' a = c a := Decidable.byContradiction fun h => hx (.inl ((hm a).2 h))
      exact ha (by rw [h1, h2])
  · rcases List.mem_append.mp ha with ha | ha
    · exact hnew a ha
    · have h1 : c' a = c a := Decidable.byContradiction fun hx => dis a ((hm a).2 hx) ha
      rw [← h1]
      exact hnew' a ha

/-- `transport_receiver` (examples/sml_server.c:87-154): it does what the model does. -/
theorem receiver_run {m : Mem} {l : Loc} {blk : List (Option UInt8)} {body : List UInt8} {x y z : UInt8} {depth : Nat} {verbose single : Bool} {t : ITy} (h0 : 0 < m.next) (hw : ∀ a, m.next ≤ a → m.heap a = none) (hov : m.sovf = false)
    (hf0 : m.world.flags 0 = if single then 1 else 0) (hf1 : m.world.flags 1 = if verbose then 1 else 0)
    (hlen : (frame body x y z).length < 8096) (hdepth : body.length < 4 * depth) (hb : ∀ env, getBlock l env m = .ok (.raw blk) env m) (ht : blk.take (frame body x y z).length = (frame body x y z).map some)
    (hr : transportReceiver depth verbose single (frame body x y z) = .ok r s') :
    if r.2.2 then CallBad .transport_receiver [.ptr l 0, .int t (frame body x y z).length] m (.exited 0 (m.world.out ++ receiverText m.world.pow r))
    else ∃ m2, CallTo .transport_receiver [.ptr l 0, .int t (frame body x y z).length] m .undef m2 ∧ m2.stack = m.stack ∧ m2.world = { m.world with out := m.world.out ++ receiverText m.world.pow r } ∧
      m.next ≤ m2.next ∧ (∀ a, m2.next ≤ a → m2.heap a = none) ∧ (∀ a c, m.heap a = some c → m2.heap a = some c) ∧
      ∀ f s, fileParse depth body = .ok f s → LostBlocks m.heap m2.heap (s.live - fileFreed f) ∧ m2.sovf = s.sovf := by
  have hl : (frame body x y z).length = 16 + body.length := frame_length body x y z
  have hblk : 16 + body.length ≤ blk.length := by
    have := congrArg List.length ht
    rw [List.length_take, List.length_map] at this
    omega
  have hbody : ((frame body x y z).drop 8).take body.length = body := by
    have := frame_body body x y z
    rwa [hl, Nat.add_sub_cancel_left] at this
  have hp : ∀ env, loadBytes (.ptr l 8) body.length env m = .ok body env m := fun env => by
    refine loadBytes_raw' (hb env) (by omega) ?_
    have : (blk.drop 8).take body.length = ((blk.take (frame body x y z).length).drop 8).take body.length := by
      rw [List.drop_take, List.take_take, Nat.min_eq_left (by omega)]
    rw [this, ht, ← List.map_drop, ← List.map_take, hbody]
  obtain ⟨f, s, h1, h2, L, g, g', e, c1, _, i1, hrep, o1, _, l1, _⟩ := source_run h0 hw hov (by omega) hdepth hp
  obtain ⟨f', s1, e', hst, _, hfr, hex, _, hcount, _⟩ := fileParse_post (buffer := body) (by omega) hdepth
  rw [e] at e'
  cases e'
  have hcur := i1.good.cur
  have hlo : s.data = body := by
    have := hst.data
    exact this
  have hn : f.messages.length < 32768 := by
    rw [hlo] at hcur
    omega
  have harr := fileParse_arrived (by omega) e
  -- the run of the model
  rw [transportReceiver, if_neg (by omega), hl, Nat.add_sub_cancel_left, hbody, e] at hr
  simp only at hr
  obtain ⟨info, sa, ha, hr⟩ := M.bind_eq_ok hr
  obtain ⟨⟨ls, ex⟩, sb, hpm, hr⟩ := M.bind_eq_ok hr
  have hres : r = (info, ls, ex) := by
    cases ex with
    | true =>
      simp only [if_true] at hr
      exact (M.pure_eq_ok hr).1.symm
    | false =>
      simp only [Bool.false_eq_true, if_false] at hr
      obtain ⟨_, _, _, hr⟩ := M.bind_eq_ok hr
      exact (M.pure_eq_ok hr).1.symm
  subst hres
  have rdy : Ready (L ++ g) (conc (fileCtx m) s h1) := ready_parsed i1 o1 (fun a ha => hw a (Nat.le_trans o1.le ha)) fun _ _ => rfl
  have hK : (fileCtx m).B = m.next + 1 := rfl
  have hwin : Sml.Within L (L ++ g) := ⟨g, .refl _⟩
  -- the start
  have st1 : ExecTo (.setPtr 3 (.call .sml_file_parse [.addr (.var 0) (.lit .i32 8), .bin .sub (.var 1) (.lit .i32 16)])) (envOf [.ptr l 0, .int .u64 (frame body x y z).length]) m .next
      (upd (envOf [.ptr l 0, .int .u64 (frame body x y z).length]) 3 (ptrVal m.next)) (conc (fileCtx m) s h1) := by
    refine .setPtr (.call (.cons (.addr (.var (v := .ptr l 0) rfl (by simp)) .lit (offset_ok l 0 8)) (.one (.bin (.int (t := .u64) (n := ((frame body x y z).length : Int)) rfl) .lit ?_))) c1)
    have h1 : ITy.conv (ITy.usual .u64 .i32) ((frame body x y z).length : Int) = (frame body x y z).length := natConv_u64 (by omega)
    rw [bin_sub (ta := .u64) (tb := .i32) h1 (show ITy.conv (ITy.usual .u64 .i32) 16 = 16 from rfl)]
    rw [show ((frame body x y z).length : Int) - 16 = (body.length : Nat) by omega]
    exact arith_u64 (by omega) (by omega)
  have hbind : ∀ env m', bindArgs (program .transport_receiver).params [.ptr l 0, .int t (frame body x y z).length] env m' = .ok [.ptr l 0, .int .u64 (frame body x y z).length] env m' := by
    intro env m'
    have h1 : ITy.conv .u64 ((frame body x y z).length : Int) = (frame body x y z).length := natConv_u64 (by omega)
    simp only [program, transport_receiver, bindArgs, convTo, asInt, X_bind, X_pure, h1]
  have main := printing_run rdy verbose single hf0 hf1 hrep hwin hn (by omega) (cur := s.cursor) (bps := [.ptr (.heap (m.next + 2)) 0, nullPtr]) (bis := [s.data.length, s.cursor, if s.error then 1 else 0])
    (by
      show (if m.next + 1 = m.next + 1 then _ else _) = _
      rw [if_pos rfl]
      rfl) rfl (fun x hx => (harr x hx).good) ha rfl hpm (env := upd (envOf [.ptr l 0, .int .u64 (frame body x y z).length]) 3 (ptrVal m.next)) upd_same [.expr (.call .sml_file_free [.var 3])]
  simp only
  cases ex with
  | true =>
    rw [if_pos rfl] at main ⊢
    exact .of hbind (.tail st1 main)
  | false =>
    obtain ⟨env', k, j, c2, h3⟩ := main
    have hpow : (conc (fileCtx m) s h1).world = m.world := rfl
    rw [hpow] at c2
    generalize receiverText m.world.pow (info, ls, false) = out at c2 ⊢
    let K' : Ctx := { fileCtx m with σ := m.stack ++ j, world := { m.world with out := m.world.out ++ out } }
    let h1' : Heap := { h1 with next := h1.next + k }
    have hmem : (conc (fileCtx m) s h1).after out k j = conc K' s h1' := rfl
    rw [hmem] at c2
    have o1' : Own m.next (fun _ => none) h1' (L ++ g) := ⟨o1.pos, Nat.le_trans o1.le (Nat.le_add_right _ _), o1.base, fun x hx => ⟨(o1.key x hx).1, Nat.lt_of_lt_of_le (o1.key x hx).2 (Nat.le_add_right _ _)⟩, o1.nodup, o1.mem, o1.rest⟩
    have i1' : Inv K' s h1' := ⟨i1.good, i1.nB, i1.nA, Nat.lt_of_lt_of_le i1.lB (Nat.le_add_right _ _), Nat.lt_of_lt_of_le i1.lA (Nat.le_add_right _ _), i1.ints, i1.lo,
      fun a ha => ⟨(i1.old a ha).1, Nat.lt_of_lt_of_le (i1.old a ha).2 (Nat.le_add_right _ _)⟩⟩
    obtain ⟨k2, g2, e2, o2, l2⟩ := frees_fileOf (frees_raw (m.next + 1)) (fun q B n0 c0 h' L hq _ => by rw [hq.1]; omega) f m.next L hrep s m.next (fun _ => none) h1' g o1'
    have hc : ∃ arr is, h1'.cells m.next = some (.struct [arr, m.next + 1] is) := by
      obtain ⟨ps, B', hF, rfl⟩ := hrep
      obtain ⟨arr, buf, B1, B2, rfl, _, ⟨rfl, rfl⟩, rfl⟩ := hF.two
      exact ⟨arr, [f.messages.length], o1.mem (m.next, _) (by simp)⟩
    obtain ⟨arr, is, hc⟩ := hc
    obtain ⟨c3, _⟩ := fileFree_run K' (hw _ (by simp [K', fileCtx])) (hw _ (by simp [K', fileCtx])) i1' (by omega) hc e2
    have rt : RunTo (program .transport_receiver).body (program .transport_receiver).body (envOf [.ptr l 0, .int .u64 (frame body x y z).length]) m .undef (plain K' s.sovf k2) :=
      .cons st1 (.append c2 (.cons (.expr (.call1 (.ptr (h3.trans upd_same)) c3)) .nil))
    have old : ∀ a b, m.heap a = some b → a < m.next := by
      intro a b hb
      apply Decidable.byContradiction
      intro hn
      rw [hw a (by omega)] at hb
      cases hb
    refine ⟨{ plain K' s.sovf k2 with stack := m.stack }, .of hbind rt fun env => ?_, rfl, rfl, o2.le, fun a ha => ?_, fun a b hb => ?_, fun f' s' hfs => ?_⟩
    · show XRes.ok _ _ _ = _
      rw [show (plain K' s.sovf k2).stack.take m.stack.length = m.stack from List.take_left]
    · have ha' : k2.next ≤ a := ha
      have hnot : a ∉ (g2 ++ g).map Prod.fst := fun hmem => by
        obtain ⟨x, hx, rfl⟩ := List.mem_map.mp hmem
        have := (o2.key x hx).2
        omega
      show K'.blocks k2 a = none
      simp only [Ctx.blocks, o2.rest a hnot]
      exact hw a (Nat.le_trans o2.le ha')
    · show K'.blocks k2 a = _
      simp only [Ctx.blocks, o2.old a (old a b hb)]
      exact hb
    · rw [e] at hfs
      cases hfs
      have h2f : 2 ≤ fileFreed f := by
        rw [fileFreed]
        omega
      have new : ∀ a ∈ (g2 ++ g).map Prod.fst, m.heap a = none := by
        intro a ha
        obtain ⟨x, hx, rfl⟩ := List.mem_map.mp ha
        exact hw _ (o2.key x hx).1
      refine ⟨⟨(g2 ++ g).map Prod.fst, o2.nodup, fun a => ⟨fun ha => ?_, fun ha => ?_⟩, new, ?_⟩, rfl⟩
      · have hn := new a ha
        obtain ⟨x, hx, rfl⟩ := List.mem_map.mp ha
        show K'.blocks k2 x.1 ≠ _
        simp only [Ctx.blocks, o2.mem x hx, hn]
        simp
      · apply Decidable.byContradiction
        intro hx
        refine ha ?_
        show K'.blocks k2 a = _
        simp only [Ctx.blocks, o2.rest a hx]
        rfl
      · rw [List.length_map, List.length_append]
        omega

end Sml.C
