import Verif.Proofs.SourceBad
import Verif.Proofs.SourceFile
import Verif.Proofs.FileRun

/-!
# The message counter of `sml_file_add_message` at its limit
-/

namespace Sml.C

theorem ExecBad.stElem (hv : EvalTo v env m w env1 m1) (he : EvalTo e env1 m1 p env2 m2) (hk : EvalTo i env2 m2 (.int t k) env3 m3)
    (hs : k < 0) : ExecBad (.stElem e i v) env m (.buf .oobRead) := by
  obtain ⟨N, r⟩ := hv
  obtain ⟨N2, r2⟩ := he
  obtain ⟨N3, r3⟩ := hk
  refine ⟨max N (max N2 N3), fun n hn => ?_⟩
  rw [exec, X_bind_ok (r n (by omega)), X_bind_ok (r2 n (by omega)), X_bind_ok (r3 n (by omega))]
  refine X_bad ?_
  rw [asNat, X_bind_ok asInt_int, if_pos hs]
  rfl

/-- `realloc` of an array of pointers. -/
theorem realloc_any (ha : arr ≠ 0) (hc : m.heap arr = some (.obj ps [])) (hn : arr ≠ m.next) (n : Nat) : ∃ qs, ∀ env, reallocBlock (ptrVal arr) n env m =
    .ok (ptrVal m.next) env { m with next := m.next + 1, heap := setHeap (setHeap m.heap m.next (some (.obj qs []))) arr none } := by
  refine ⟨(ps ++ List.replicate (n / 8) Val.undef).take (n / 8), fun env => ?_⟩
  unfold reallocBlock
  generalize n / 8 = k
  have e1 : movedElems arr 0 env m = .ok ps env m := by
    simp only [movedElems, hc, if_true]
  rw [show asPtr (ptrVal arr) = pure (Loc.heap arr, 0) from rfl, X_bind, X_pure]
  simp only [if_neg ha]
  rw [X_bind_ok e1, X_bind]
  simp only [newHeap]
  refine (X_bind_ok (a := ()) ?_).trans rfl
  show release arr 0 env { m with next := m.next + 1, heap := setHeap m.heap m.next _ } = _
  rw [release]
  simp only [setHeap_other hn, hc, if_true]

/-- With 32767 messages in the file, `sml_file_add_message` makes the counter negative and stores before the array. -/
theorem fileAdd_bad {m : Mem} (ha : a ≠ 0) (hr : arr ≠ 0) (hne : a ≠ arr) (han : a ≠ m.next) (hrn : arr ≠ m.next)
    (hc : m.heap a = some (.obj [ptrVal arr, q] [32767])) (hc2 : m.heap arr = some (.obj ps [])) :
    CallBad .sml_file_add_message [ptrVal a, ptrVal e] m (.buf .oobRead) := by
  let m1 : Mem := { m with heap := setHeap m.heap a (some (.obj [ptrVal arr, q] [-32768])) }
  have h1 : m1.heap a = some (.obj [ptrVal arr, q] [-32768]) := setHeap_same
  obtain ⟨qs, hre⟩ := realloc_any (m := m1) hr ((setHeap_other (Ne.symm hne)).trans hc2) hrn 18446744073709289472
  let m2 : Mem := { m1 with next := m1.next + 1, heap := setHeap (setHeap m1.heap m1.next (some (.obj qs []))) arr none }
  have h2 : m2.heap a = some (.obj [ptrVal arr, q] [-32768]) := (setHeap_other hne).trans ((setHeap_other han).trans h1)
  have h3 : (setHeap m2.heap a (some (.obj [ptrVal m.next, q] [-32768]))) a = some (.obj [ptrVal m.next, q] [-32768]) := setHeap_same
  let E : Env := envOf [ptrVal a, ptrVal e]
  have v0 : ∀ M, EvalTo (.var 0) E M (ptrVal a) E M := fun M => .ptr (by rfl)
  have v1 : ∀ M, EvalTo (.var 1) E M (ptrVal e) E M := fun M => .ptr (by rfl)
  have a1 : ∀ M, binOp .add (.int .i16 32767) (.int .i32 1) E M = .ok (.int .i32 32768) E M := fun M => (X_bind_ok (note_false E M)).trans rfl
  have a2 : ∀ M, binOp .mul (.int .u64 8) (.int .i16 (-32768)) E M = .ok (.int .u64 (18446744073709289472 : Nat)) E M := fun M => (X_bind_ok (note_false E M)).trans rfl
  have a3 : ∀ M, binOp .sub (.int .i16 (-32768)) (.int .i32 1) E M = .ok (.int .i32 (-32769)) E M := fun M => (X_bind_ok (note_false E M)).trans rfl
  have s1 : ExecTo (.stInt .i16 (.var 0) 0 (.bin .add (.ldInt .i16 (.var 0) 0) (.lit .i32 1))) E m .next E m1 :=
    .stInt (k := 32768) (t := .i32) (k' := -32768) (.bin (.ldInt (v0 _) (loadInt_put ha hc rfl)) .lit (a1 _)) (v0 _) (by decide) (storeInt_put (i := 0) ha hc (by simp))
  have s2 : ExecTo (.stPtr (.var 0) 0 (.realloc (.ldPtr (.var 0) 0) (.bin .mul (.lit .u64 8) (.ldInt .i16 (.var 0) 0)))) E m1 .next E
      { m2 with heap := setHeap m2.heap a (some (.obj [ptrVal m.next, q] [-32768])) } :=
    .stPtr (w := ptrVal m.next) (.realloc (t := .u64) (.ldPtr (v0 _) (loadPtr_put ha h1 rfl)) (.bin .lit (.ldInt (v0 _) (loadInt_put ha h1 rfl)) (a2 _)) (hre _)) (v0 _) (storePtr_put (m := m2) ha h2 (by simp))
  have s3 : ExecBad (.stElem (.ldPtr (.var 0) 0) (.bin .sub (.ldInt .i16 (.var 0) 0) (.lit .i32 1)) (.var 1)) E { m2 with heap := setHeap m2.heap a (some (.obj [ptrVal m.next, q] [-32768])) } (.buf .oobRead) :=
    .stElem (k := -32769) (t := .i32) (v1 _) (.ldPtr (v0 _) (loadPtr_put ha h3 rfl)) (.bin (.ldInt (v0 _) (loadInt_put ha h3 rfl)) .lit (a3 _)) (by decide)
  exact .of (vs := [ptrVal a, ptrVal e]) (fun env m => rfl) (.tail s1 (.tail s2 (.head s3)))

theorem LoopBad.skip (hc : EvalTo c env m v env1 m1) (ht : truth v env1 m1 = .ok true env1 m1) (hb : ExecsTo b env1 m1 .cont env2 m2)
    (hs : ExecsTo s env2 m2 o' env3 m3) (hl : LoopBad c b s env3 m3 x) : LoopBad c b s env m x := by
  obtain ⟨N, r⟩ := hc
  obtain ⟨N2, r2⟩ := hb
  obtain ⟨N3, r3⟩ := hs
  obtain ⟨N4, r4⟩ := hl
  refine ⟨max (max N N2) (max N3 N4) + 1, fun n hn k hk => ?_⟩
  obtain ⟨k, rfl⟩ : ∃ j, k = j + 1 := ⟨k - 1, by omega⟩
  rw [whileLoop, X_bind_ok ((X_bind_ok (r n (by omega))).trans ht)]
  refine (X_bind_ok (r2 n (by omega))).trans ((X_bind_ok (r3 n (by omega))).trans (r4 n (by omega) k (by omega)))

theorem ExecBad.inside {b : Bool} (hc : EvalTo c env m v env1 m1) (ht : truth v env1 m1 = .ok b env1 m1) (h : ExecsBad (if b then A else B) env1 m1 x) : ExecBad (.ite c A B) env m x := by
  obtain ⟨N, r⟩ := hc
  obtain ⟨N2, r2⟩ := h
  refine ⟨max N N2, fun n hn => ?_⟩
  rw [exec, X_bind_ok (r n (by omega)), X_bind_ok ht]
  have := r2 n (by omega)
  cases b <;> exact this

/-- A cell of the model in the memory of the source. -/
theorem conc_cell {K : Ctx} (hi : Inv K st h) (hc : h.cells a = some c) : (conc K st h).heap a = some (enc c) := by
  have hB : a ≠ K.B := by
    rintro rfl
    rw [hi.nB] at hc
    cases hc
  have hA : a ≠ K.A := by
    rintro rfl
    rw [hi.nA] at hc
    cases hc
  refine ((if_neg hB).trans (if_neg hA)).trans ?_
  simp only [Ctx.blocks, hc]

/-- With 32767 messages in the file, one more leads to an undefined step. -/
theorem fileAdd_full {K : Ctx} {r : Rep} {f : File} (hi : Inv K st h) (o : Own n0 c0 h L) (hr : RFileOf r f a B) (hsub : ∀ x ∈ B, x ∈ L) (hnd : (B.map Prod.fst).Nodup)
    (hl : f.messages.length = 32767) : CallBad .sml_file_add_message [ptrVal a, ptrVal e] (conc K st h) (.buf .oobRead) := by
  obtain ⟨ps, B', hF, rfl⟩ := hr
  obtain ⟨arr, q, B1, B2, rfl, h1, _, rfl⟩ := hF.two
  have hm : f.messages.map RMessage ≠ [] := by
    intro hn
    have : f.messages.length = 0 := by simpa using congrArg List.length hn
    omega
  obtain ⟨qs, C, _, rfl⟩ := (RArr.ne hm).mp h1
  have ca := o.mem _ (hsub _ List.mem_cons_self)
  have cr := o.mem (arr, .struct qs []) (hsub _ (by simp))
  have ka := o.key _ (hsub _ List.mem_cons_self)
  have kr := o.key (arr, .struct qs []) (hsub _ (by simp))
  have hp := o.pos
  simp only at ca cr ka kr
  have hne : a ≠ arr := by
    rintro rfl
    simp at hnd
  have ea := conc_cell hi ca
  rw [hl] at ea
  exact fileAdd_bad (m := conc K st h) (by omega) (by omega) hne (show a ≠ h.next by omega) (show arr ≠ h.next by omega) ea (conc_cell hi cr)

/-- When the model of the loop overflows the counter of messages, the source of the loop gets to an undefined step. -/
theorem fileLoop_full (K : Ctx) (depth : Nat) (r : Rep) (a : Addr) (ha : a ≠ 0) : ∀ fuel f st h B g n0 c0 env, st.data.length ≤ 2147483647 → Pre (4 * depth) st →
    Inv K st.dry h → Own n0 c0 h (B ++ g) → RFileOf r f a B → f.messages.length ≤ 32767 → env 2 = ptrVal a → env 3 = K.buf →
    fileLoop depth fuel f st = .ub .counter → LoopBad fileCond fileBody [] env (conc K st.dry h) (.buf .oobRead)
  | 0, _, _, _, _, _, _, _, _, _, _, _, _, _, _, _, _, hr => by cases hr
  | fuel + 1, f, st, h, B, g, n0, c0, env, hN, hpre, hi, o, hrep, hcnt, h2, h3, hr => by
    have hb := hpre.bound
    have hcond : EvalTo fileCond env (conc K st.dry h) (ofBool (decide (st.cursor < st.data.length))) env (conc K st.dry h) :=
      .bin (ev_cursor K h3) (ev_len K h3) (cmp_u64 (by show st.cursor < _; omega) (by show st.data.length < _; omega)).1
    by_cases hlt : st.cursor < st.data.length
    · rw [decide_eq_true hlt] at hcond
      have hbyte : st.dry.data[st.dry.cursor]? = some st.data[st.cursor] := List.getElem?_eq_getElem hlt
      have hzero : EvalTo (.bin .eq (.call .sml_buf_get_current_byte [.var 3]) (.lit .i32 0)) env (conc K st.dry h) (ofBool (decide (st.data[st.cursor] = 0))) env (conc K st.dry h) := by
        have hx := UInt8.toNat_lt st.data[st.cursor]
        refine .bin (.call1 (.ptr h3) (call_byte K hbyte)) .lit ((bin_eq (ta := .u8) (tb := .i32) (conv_i32 (by omega) (by omega)) (conv_i32 (by omega) (by omega))).trans ?_)
        congr 3
        apply propext
        rw [← UInt8.toNat_inj]
        show (st.data[st.cursor].toNat : Int) = 0 ↔ st.data[st.cursor].toNat = 0
        omega
      by_cases hz : st.data[st.cursor] = 0
      · have h1 : Step st { st with cursor := st.cursor + 1 } :=
          ⟨rfl, by simp, by simp; omega, by simp, Or.inl, Or.inl, id⟩
        have e : fileLoop depth (fuel + 1) f st = fileLoop depth fuel f { st with cursor := st.cursor + 1 } := by
          conv => lhs; unfold fileLoop
          simp [bind, M.bind, getSt, hlt, getCurrentByte, hz, updateBytesRead, modSt]
        rw [e] at hr
        rw [decide_eq_true hz] at hzero
        obtain ⟨i1, _, c1⟩ := FSpec.of_M (updateBytesRead_src 1) K st.dry h hi (by show st.cursor + 1 ≤ st.data.length; omega) () { st.dry with cursor := st.cursor + 1 } h rfl
        have := fileLoop_full K depth r a ha fuel f { st with cursor := st.cursor + 1 } h B g n0 c0 env hN (hpre.step h1 hpre.clean) i1 o hrep hcnt h2 h3 hr
        exact .skip hcond (truth_ofBool _) (.stop (.ite (b := true) hzero (truth_ofBool _) (.cons (.expr (.call (.cons (.ptr h3) (.one .lit)) c1)) (.stop .cont (by simp)))) (by simp)) .nil this
      · obtain ⟨msg, s1, hm, h1, _, _, _, h5⟩ := post_iff.1 (good_message depth st hN (by omega) hpre (by omega))
        have hlen : s1.data.length = st.data.length := by rw [h1.data]
        rw [decide_eq_false hz] at hzero
        have e : fileLoop depth (fuel + 1) f st = (if s1.error then .ok f s1 else
            match msg with
            | some m => (fileAddMessage f m >>= fileLoop depth fuel) s1
            | none => fileLoop depth fuel f s1) := by
          conv => lhs; unfold fileLoop
          simp [bind, M.bind, getSt, hlt, getCurrentByte, hz, hm, hasErrors]
          split
          · rfl
          · cases msg <;> rfl
        rw [e] at hr
        obtain ⟨p, k1, Bm, g1, ep, hp, o1, _⟩ := sim_message depth st h.next h.cells h [] o.here msg s1 hm
        obtain ⟨i1, _, c1⟩ := messageParse_src depth K _ _ hi trivial _ _ _ ep
        obtain ⟨i2, _, c2⟩ := FSpec.of_M hasErrors_src K s1.dry k1 i1 trivial s1.error s1.dry k1 rfl
        have o2 := o.trans o1
        have hx := fun {A ss x} (k : ExecsBad ss (upd env 4 (ptrVal p)) (conc K s1.dry k1) x) =>
          ExecsBad.tail (.ite (A := A) (B := []) (b := false) hzero (truth_ofBool _) .nil) (.tail (.setPtr (.call1 (.ptr h3) c1)) k)
        have hy := fun {A ss o env' m'} (k : ExecsTo ss (upd env 4 (ptrVal p)) (conc K s1.dry k1) o env' m') =>
          ExecsTo.cons (.ite (A := A) (B := []) (b := false) hzero (truth_ofBool _) .nil) (.cons (.setPtr (.call1 (.ptr h3) c1)) k)
        have h2' : upd env 4 (ptrVal p) 2 = ptrVal a := (upd_other (by decide)).trans h2
        have h3' : upd env 4 (ptrVal p) 3 = K.buf := (upd_other (by decide)).trans h3
        have c2' := EvalTo.call1 (.ptr h3') c2
        by_cases he : s1.error = true
        · rw [if_pos he] at hr
          cases hr
        · have he' : s1.error = false := by simpa using he
          rw [if_neg he] at hr
          rw [he'] at c2'
          cases msg with
          | none =>
            obtain ⟨rfl, rfl⟩ := hp
            have := fileLoop_full K depth r a ha fuel f s1 k1 B (g1 ++ g) n0 c0 _ (by omega) (hpre.step h1 he') i2 (o2.perm (by blocks_perm)) hrep hcnt h2' h3' hr
            exact .round hcond (truth_ofBool _) (hy (.cons (.ite (b := false) c2' (truth_ofBool _) .nil) (.last (.ite (b := false) (.ptr upd_same) rfl .nil)))) .nil this
          | some m =>
            have hp0 : p ≠ 0 := by
              obtain ⟨ps, B', hF, rfl⟩ := hp
              exact o1.ne0
            have o3 : Own n0 c0 k1 ((Bm ++ B) ++ (g1 ++ g)) := o2.perm (by blocks_perm)
            simp only [fileAdd_bind] at hr
            by_cases hge : f.messages.length ≥ 32767
            · have hnd : (B.map Prod.fst).Nodup := by
                have := o.nodup
                rw [List.map_append] at this
                exact (List.nodup_append.mp this).1
              have hb := fileAdd_full (e := p) i2 o3 hrep (fun x hx => by simp [hx]) hnd (by omega)
              exact .body hcond (truth_ofBool _) (hx (.tail (.ite (b := false) c2' (truth_ofBool _) .nil) (.head (.inside (b := true) (.ptr upd_same) (truth_ptr hp0)
                (.head (.expr (.call (.cons (.ptr h2') (.one (.ptr upd_same))) hb)))))))
            · rw [if_neg hge] at hr
              obtain ⟨s2, es, hs2⟩ : ∃ s2, (if f.messages.isEmpty then alloc 1 else pure ()) s1 = .ok () s2 ∧ s2 = { s1 with live := s2.live } := by
                by_cases hnil : f.messages.isEmpty
                · rw [if_pos hnil]
                  exact ⟨_, rfl, rfl⟩
                · rw [if_neg hnil]
                  exact ⟨_, rfl, rfl⟩
              have hsim : Sim (Bm ++ B) ((if f.messages.isEmpty then alloc 1 else pure ()) >>= fun _ => pure { messages := f.messages ++ [m] }) (pArrayAdd a 0 p >>= fun _ => pure ()) (fun f' _ B => RFileOf r f' a B) := by
                refine sim_arrayAdd (r := RMessage m) hrep ha rfl (by simp) (by omega) (by simp) hp fun B' hB' => Sim.ret ?_
                rw [RFileOf, List.map_append, List.length_append]
                exact hB'
              obtain ⟨u, k2, B3, g3, e3, hr3, o4, _⟩ := hsim s1 n0 c0 k1 (g1 ++ g) o3 _ s2 ((M.bind_ok es).trans rfl)
              replace e3 := P_bind_eq_ok e3
              obtain ⟨_, s4, k4, e3, e4⟩ := e3
              cases e4
              have e5 : pFileAddMessage a p s1.dry k1 = .ok () s2.dry k2 := by
                have hc : ∃ ps, k1.cells a = some (.struct ps [f.messages.length]) := by
                  obtain ⟨ps, B', hF, rfl⟩ := hrep
                  exact ⟨ps, o3.mem (a, .struct ps [f.messages.length]) (by simp)⟩
                obtain ⟨ps, hc⟩ := hc
                rw [pFileAddMessage, P.bind_ok (readInt_ok (i := 0) ha hc rfl), if_neg hge]
                exact e3
              obtain ⟨i3, _, c3⟩ := fileAdd_src a p K _ _ i2 trivial _ _ _ e5
              have hd : s2.data = s1.data := by rw [hs2]
              have hr2 : fileLoop depth fuel { messages := f.messages ++ [m] } s2 = .ub .counter := by
                rw [M.bind_ok es] at hr
                exact hr
              have := fileLoop_full K depth r a ha fuel { messages := f.messages ++ [m] } s2 k2 B3 g3 n0 c0 _ (by rw [hd]; omega) (by rw [hs2]; exact hpre.step (h1.liveR _) he') i3 o4 hr3 (by simp; omega) h2' h3' hr2
              exact .round hcond (truth_ofBool _) (hy (.cons (.ite (b := false) c2' (truth_ofBool _) .nil)
                (.last (.ite (b := true) (.ptr upd_same) (truth_ptr hp0) (.last (.expr (.call (.cons (.ptr h2') (.one (.ptr upd_same))) c3))))))) .nil this
    · exfalso
      unfold fileLoop at hr
      simp [bind, M.bind, getSt, hlt, pure] at hr

theorem ExecsBad.append (hs : ExecsTo A env m .next env1 m1) (hb : ExecsBad B env1 m1 b) : ExecsBad (A ++ B) env m b := by
  obtain ⟨N, r⟩ := hs
  obtain ⟨N2, r2⟩ := hb
  refine ⟨max N N2, fun n hn => ?_⟩
  rw [execs_append, r n (by omega)]
  exact r2 n (by omega)

/-- `sml_file_parse` on a telegram with too many messages. -/
theorem fileParse_full {m : Mem} {p : Val} (h0 : m.next ≠ 0) (hw : ∀ a, m.next ≤ a → m.heap a = none) (hov : m.sovf = false)
    (hl : buffer.length ≤ 2147483647) (hdepth : buffer.length < 4 * depth) (hp : ∀ env, loadBytes p buffer.length env m = .ok buffer env m)
    (hr : fileParse depth buffer = .ub .counter) : CallBad .sml_file_parse [p, .int .u64 buffer.length] m (.buf .oobRead) := by
  obtain ⟨hbind, E, h2, h3, hs⟩ := fileParse_start h0 hw hov hl hp
  have o : Own m.next (fun _ => none) (fileHeap m.next) ([(m.next, .struct [0, m.next + 1] [0])] ++ []) := by
    refine ⟨by omega, by simp [fileHeap], fun _ _ => rfl, by simp [fileHeap], by simp, by simp [fileHeap, setCell], fun a ha => ?_⟩
    exact if_neg (by simpa using ha)
  have hb := fileLoop_full (fileCtx m) depth (rawRep (m.next + 1)) m.next h0 (buffer.length + 1) { messages := [] } { data := buffer, live := 3 } (fileHeap m.next) _ _ _ _ E
    hl ⟨by simp, rfl, by simpa using hdepth⟩ (Inv.start hw hl) o ⟨[0, m.next + 1], [], ⟨0, [m.next + 1], [], _, rfl, RArr.nil, Fields.single ⟨rfl, rfl⟩, rfl⟩, rfl⟩ (by simp) h2 h3 hr
  exact .of hbind (.append hs (.head (.ofLoop hb)))

end Sml.C
