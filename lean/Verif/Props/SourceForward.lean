import Verif.Props.SourceLong
import Verif.Props.SourceOver

/-!
# C87: passing a received file on

The buffer of a file made by `sml_file_parse` has the length of the telegram, and its cursor is where the parser stopped. The writers write into
this buffer, `sml_file_write` at the cursor and `sml_transport_write` from the beginning. So the file as it was received cannot be sent:
the frame is at least sixteen bytes longer than the telegram in it.
-/

namespace Sml

/-- Without an error the loop stops at the end of the buffer. -/
theorem fileLoop_stop {depth : Nat} (fuel : Nat) : ∀ (f f' : File) (st s : St), fileLoop depth fuel f st = .ok f' s → s.error = false → s.data.length ≤ s.cursor := by
  induction fuel with
  | zero => intro f f' st s h; cases h
  | succ fuel ih =>
    intro f f' st s h he
    by_cases hlt : st.cursor < st.data.length
    · by_cases hz : st.data[st.cursor] = 0
      · rw [fileLoop_skip hlt hz] at h
        exact ih _ _ _ _ h he
      · cases hm : messageParse depth st with
        | ub u =>
          unfold fileLoop at h
          simp [bind, M.bind, getSt, hlt, getCurrentByte, hz, hm] at h
        | ok msg s1 =>
          rw [fileLoop_round hlt hz hm] at h
          split at h
          · cases h
            simp_all
          · cases msg with
            | none => exact ih _ _ _ _ h he
            | some x =>
              obtain ⟨f1, s2, _, h2⟩ := C.M_bind_eq_ok h
              exact ih _ _ _ _ h2 he
    · unfold fileLoop at h
      simp only [bind, M.bind, getSt, hlt, if_false] at h
      cases h
      omega

/-- The blocks the loop adds are at most two for every byte it goes over, and one for the array. -/
theorem fileLoop_live {depth : Nat} (fuel : Nat) : ∀ (f f' : File) (st s : St), st.data.length ≤ 2147483647 → Pre (4 * depth) st → fileLoop depth fuel f st = .ok f' s →
    st.cursor ≤ s.cursor ∧ s.live ≤ st.live + 2 * (s.cursor - st.cursor) + if f.messages.isEmpty then 1 else 0 := by
  induction fuel with
  | zero => intro f f' st s _ _ h; cases h
  | succ fuel ih =>
    intro f f' st s hN hpre hr
    have hb := hpre.bound
    by_cases hlt : st.cursor < st.data.length
    · by_cases hz : st.data[st.cursor] = 0
      · have h1 : Step st { st with cursor := st.cursor + 1 } :=
          ⟨rfl, by simp, by simp; omega, by simp, Or.inl, Or.inl, id⟩
        rw [fileLoop_skip hlt hz] at hr
        have := ih f f' { st with cursor := st.cursor + 1 } s hN (hpre.step h1 hpre.clean) hr
        simp only at this
        omega
      · obtain ⟨msg, s1, hm, h1, h2, h3, h4, h5⟩ := post_iff.1 (good_message depth st hN (by omega) hpre (by omega))
        have hc1 := h1.mono
        have hN1 : s1.data.length ≤ 2147483647 := by rw [h1.data]; exact hN
        rw [fileLoop_round hlt hz hm] at hr
        by_cases he : s1.error = true
        · rw [if_pos he] at hr
          cases hr
          omega
        · rw [if_neg he] at hr
          have he' : s1.error = false := by simpa using he
          cases msg with
          | none =>
            have := ih f f' s1 s hN1 (hpre.step h1 he') hr
            omega
          | some x =>
            obtain ⟨ms⟩ := f
            by_cases hge : ms.length ≥ 32767
            · simp only [fileAddMessage, if_pos hge] at hr
              cases hr
            simp only [fileAddMessage, if_neg hge] at hr
            cases ms with
            | nil =>
              have := ih _ f' { s1 with live := s1.live + 1 } s hN1 (hpre.step (h1.liveR _) he') hr
              simp at this ⊢
              omega
            | cons y ys =>
              have := ih _ f' s1 s hN1 (hpre.step h1 he') hr
              simp at this ⊢
              omega
    · unfold fileLoop at hr
      simp [bind, M.bind, getSt, hlt, pure] at hr
      obtain ⟨rfl, rfl⟩ := hr
      omega

end Sml

namespace Sml.C

open Spec Samples

variable {m : Mem}

/-- What `sml_file_parse` leaves in memory, with the buffer. -/
theorem parsed_holding (hz : m.heap 0 = none) (h0 : 0 < m.next) (hw : ∀ a, m.next ≤ a → m.heap a = none) (hov : m.sovf = false) {buffer : List UInt8} {depth : Nat}
    (hlen : buffer.length ≤ 2147483647) (hd : buffer.length < 4 * depth) {p : Val} (hp : ∀ env, loadBytes p buffer.length env m = .ok buffer env m) {f : File} {s : St}
    (e : fileParse depth buffer = .ok f s) :
    ∃ m1 L, CallTo .sml_file_parse [p, .int .u64 buffer.length] m (.ptr (.heap m.next) 0) m1 ∧ Holding m1 m.next (m.next + 1) (m.next + 2) f.messages L s ∧ s.data = buffer ∧
      s.cursor ≤ buffer.length ∧ m1.world = m.world ∧ (s.error = false → s.cursor = buffer.length) ∧ L.length ≤ 2 * buffer.length + 2 := by
  obtain ⟨h1, h2, L, g, g', c1, c2, i1, hr, o1, o2, l1, l2, _⟩ := source_run_ok h0 hw hov hlen hp e
  obtain ⟨hst, _⟩ := fileParse_ok hlen hd e
  have H : Holding (conc (fileCtx m) s.dry h1) m.next (m.next + 1) (m.next + 2) f.messages L s :=
    Holding.of_conc (fileCtx m) hz hr o1 ⟨⟨i1.good.cur, i1.good.len⟩, i1.nB, i1.nA, i1.lB, i1.lA, i1.ints, i1.lo, i1.old⟩
  have hc := H.cur
  have hdt : s.data = buffer := hst.data
  rw [hdt] at hc
  refine ⟨_, L, c1, H, hdt, hc, rfl, fun he => ?_, ?_⟩
  · have := fileLoop_stop _ _ _ _ _ e he
    rw [hdt] at this
    omega
  · have := (fileLoop_live (depth := depth) _ _ _ { data := buffer, live := 3 } s hlen ⟨by simp, rfl, by simpa using hd⟩ e).2
    simp at this
    omega

/-- The descriptor to write to and what `write` returns. -/
structure Writable (w : World) (d : Int) : Prop where
  num : ITy.conv .i32 d = w.num
  acc : ∀ bs, bs.length ≤ 2147483647 → -9223372036854775808 ≤ w.accept bs ∧ w.accept bs < 9223372036854775808

/-- C87: a telegram of any bytes is parsed by the source of `sml_file_parse` and its messages can be represented. Then the source of `sml_file_write` on the file returns
if and only if they fit behind the position `cur` at which the parser stopped, and the source of `sml_transport_write` if and only if the frame is not longer than the telegram was; otherwise they
leave the buffer. -/
theorem c87_exact (hz : m.heap 0 = none) (h0 : 0 < m.next) (hw : ∀ a, m.next ≤ a → m.heap a = none) (hov : m.sovf = false) (buffer : List UInt8)
    (hlen : buffer.length ≤ 1000000000) (p : Val) (hp : ∀ env, loadBytes p buffer.length env m = .ok buffer env m) (ms : List Message)
    (ht : Grammar.Telegram (buffer.length + 1) buffer ms) (hc : ms.length ≤ 32767) (hf : ∀ x ∈ ms, MessageFits x)
    (hle : (fileBytes ms).length ≤ 1000000000) :
    ∃ file buf bytes cur err m1, CallTo .sml_file_parse [p, .int .u64 buffer.length] m (.ptr (.heap file) 0) m1 ∧
      m1.heap buf = some (.obj [.ptr (.heap bytes) 0, nullPtr] [buffer.length, (cur : Nat), err]) ∧ m1.heap bytes = some (.raw (buffer.map some)) ∧ cur ≤ buffer.length ∧
      ((∃ v m2, CallTo .sml_file_write [.ptr (.heap file) 0] m1 v m2) ↔ cur + (fileBytes ms).length ≤ buffer.length) ∧
      (CallOut .sml_file_write [.ptr (.heap file) 0] m1 ↔ buffer.length < cur + (fileBytes ms).length) ∧
      ∀ w d t, Writable w d →
        ((∃ v m2, CallTo .sml_transport_write [.int t d, .ptr (.heap file) 0] { m1 with world := w } v m2) ↔ (sentFrame (fileBytes ms)).length ≤ buffer.length) ∧
        (CallOut .sml_transport_write [.int t d, .ptr (.heap file) 0] { m1 with world := w } ↔ buffer.length < (sentFrame (fileBytes ms)).length) := by
  obtain ⟨s, e⟩ : ∃ s, fileParse (buffer.length + 1) buffer = .ok { messages := ms } s := by
    rcases c85_model buffer (by omega) ms ht with ⟨_, h⟩ | ⟨h, _⟩
    · exact h
    · omega
  have hok : ∀ x ∈ ms, MessageOk true x := fun x hx => by
    obtain ⟨i, o, hg⟩ := telegram_mem ht x hx
    exact (fits_message hg).2 (hf x hx)
  obtain ⟨m1, L, c1, H, hdt, hcur, _, _, hL⟩ := parsed_holding hz h0 hw hov (by omega) (by omega) hp e
  have hb := H.hbuf
  have hb2 := H.hbytes
  rw [hdt] at hb hb2
  refine ⟨_, _, _, s.cursor, _, m1, c1, hb, hb2, hcur, ?_⟩
  have a := c84_file H true hok (by show s.cursor + (fileBytes ms).length ≤ _; omega) (by show _ + ms.length < _; omega)
  rw [hdt] at a
  refine ⟨a.1, a.2, fun w d t hwr => ?_⟩
  have b := c84_transport (H.world w) true hok (by show 8 + (fileBytes ms).length ≤ _; omega) (by show _ + ms.length < _; omega) t d hwr.num hwr.acc
  rw [hdt] at b
  exact b

/-- The telegram of a DZG meter, followed by `k` zero bytes, read for the examples. -/
theorem dzg_read (k n : Nat) (hk : k ≤ 1000)
    (h : holds (fileParse ((dzgNumMsg ++ List.replicate k 0).length + 1) (dzgNumMsg ++ List.replicate k 0)) (fun f _ => match f.messages with
      | [⟨some t, _, _, some ⟨_, .getListResponse (some r)⟩, _⟩] => decide (t = ⟨[0x01, 0x05]⟩ ∧ r = { valList := dzgPassed }) && decide ((sentFrame (fileBytes f.messages)).length = n)
      | _ => false) = true) :
    ∃ ms, Grammar.Telegram ((dzgNumMsg ++ List.replicate k 0).length + 1) (dzgNumMsg ++ List.replicate k 0) ms ∧ ms.length = 1 ∧ (∀ m ∈ ms, MessageFits m) ∧ (sentFrame (fileBytes ms)).length = n := by
  have hl : (dzgNumMsg ++ List.replicate k (0 : UInt8)).length ≤ 2147483647 := by
    rw [List.length_append, List.length_replicate]
    have : dzgNumMsg.length ≤ 100 := by decide
    omega
  obtain ⟨ms, ht, _⟩ := c85_reading _ hl
  refine ⟨ms, ht, ?_⟩
  rcases c85_model _ hl ms ht with ⟨_, s, e⟩ | ⟨_, e⟩
  · rw [e] at h
    simp only [holds] at h
    split at h
    next t g a tag r c =>
      simp only [Bool.and_eq_true, decide_eq_true_eq] at h
      obtain ⟨⟨h1, h2⟩, h3⟩ := h
      refine ⟨rfl, fun m hm => ?_, h3⟩
      simp only [List.mem_singleton] at hm
      subst hm
      subst h1
      subst h2
      refine ⟨?_, _, rfl, ?_⟩
      · rintro x ⟨⟩
        exact ⟨by decide, noCarry_small (by decide), by decide⟩
      · rintro x ⟨⟩
        exact ⟨by simp [Opt], by simp [Opt], by simp [Opt], by simp [Opt], dzgPassed_fits, by simp [Opt], by simp [Opt]⟩
    next => cases h
  · rw [e] at h
    cases h

/-- As the meter sends it the telegram cannot be sent on; with 64 bytes of padding behind it, it can. -/
example : (∃ file m1, CallTo .sml_file_parse [.ptr (.heap 1) 0, .int .u64 (dzgNumMsg ++ List.replicate 0 0 : List UInt8).length] (bytesMem (dzgNumMsg ++ List.replicate 0 0)) (.ptr (.heap file) 0) m1 ∧
      CallOut .sml_transport_write [.int .i32 0, .ptr (.heap file) 0] { m1 with world := {} }) ∧
    ∃ file m1 v m2, CallTo .sml_file_parse [.ptr (.heap 1) 0, .int .u64 (dzgNumMsg ++ List.replicate 64 0 : List UInt8).length] (bytesMem (dzgNumMsg ++ List.replicate 64 0)) (.ptr (.heap file) 0) m1 ∧
      CallTo .sml_transport_write [.int .i32 0, .ptr (.heap file) 0] { m1 with world := {} } v m2 := by
  have hwr : Writable ({} : World) 0 := ⟨rfl, fun bs h => ⟨by show _ ≤ (bs.length : Int); omega, by show (bs.length : Int) < _; omega⟩⟩
  have hl : dzgNumMsg.length = 66 := by decide
  have hk : ∀ k, (dzgNumMsg ++ List.replicate k (0 : UInt8)).length = 66 + k := fun k => by rw [List.length_append, List.length_replicate, hl]
  have hw : ∀ bs a, (bytesMem bs).next ≤ a → (bytesMem bs).heap a = none := fun bs a ha => if_neg (by simp only [bytesMem] at ha; omega)
  have hb : ∀ bs : List UInt8, bs.length ≤ (sentFrame bs).length := fun bs => by rw [(c39_length _).2.1]; omega
  refine ⟨?_, ?_⟩
  · obtain ⟨ms, ht, hc, hf, hn⟩ := dzg_read 0 84 (by decide) (by decide +kernel)
    obtain ⟨file, _, _, _, _, m1, c, _, _, _, _, _, h⟩ := c87_exact (m := bytesMem (dzgNumMsg ++ List.replicate 0 0)) rfl Nat.zero_lt_two (hw _) rfl (dzgNumMsg ++ List.replicate 0 0)
      (by rw [hk]; omega) _ (bytesMem_load _) ms ht (by omega) hf (by have := hb (fileBytes ms); omega)
    exact ⟨file, m1, c, (h _ _ _ hwr).2.2 (by rw [hk]; omega)⟩
  · obtain ⟨ms, ht, hc, hf, hn⟩ := dzg_read 64 84 (by decide) (by decide +kernel)
    obtain ⟨file, _, _, _, _, m1, c, _, _, _, _, _, h⟩ := c87_exact (m := bytesMem (dzgNumMsg ++ List.replicate 64 0)) rfl Nat.zero_lt_two (hw _) rfl (dzgNumMsg ++ List.replicate 64 0)
      (by rw [hk]; omega) _ (bytesMem_load _) ms ht (by omega) hf (by have := hb (fileBytes ms); omega)
    obtain ⟨v, m2, c2⟩ := (h {} 0 .i32 hwr).1.2 (by rw [hk]; omega)
    exact ⟨file, m1, v, m2, c, c2⟩

/-- C87: a telegram in the form in which the library itself writes, with `k` bytes of padding, `k < 16`: as long as it has a message, the source of `sml_file_write` leaves the buffer of the received file; that of
`sml_transport_write` always does. -/
theorem c87_own_form (hz : m.heap 0 = none) (h0 : 0 < m.next) (hw : ∀ a, m.next ≤ a → m.heap a = none) (hov : m.sovf = false) (ms : List Message) (hok : ∀ x ∈ ms, MessageOk true x)
    (hc : ms.length ≤ 32767) (k : Nat) (hk : k < 16) (hle : (fileBytes ms).length ≤ 1000000000) (p : Val)
    (hp : ∀ env, loadBytes p (fileBytes ms ++ List.replicate k 0).length env m = .ok (fileBytes ms ++ List.replicate k 0) env m) :
    ∃ file buf bytes L st m1, CallTo .sml_file_parse [p, .int .u64 (fileBytes ms ++ List.replicate k 0).length] m (.ptr (.heap file) 0) m1 ∧ Holding m1 file buf bytes (ms.map sealed) L st ∧
      st.data = fileBytes ms ++ List.replicate k 0 ∧ st.cursor = (fileBytes ms).length + k ∧ m1.world = m.world ∧
      (ms ≠ [] → CallOut .sml_file_write [.ptr (.heap file) 0] m1) ∧
      ∀ w d t, Writable w d → CallOut .sml_transport_write [.int t d, .ptr (.heap file) 0] { m1 with world := w } := by
  obtain ⟨depth, hdp, hdep⟩ := depth_bound ms ((fileBytes ms).length + 16)
  have hl : (fileBytes ms ++ List.replicate k 0).length = (fileBytes ms).length + k := by rw [List.length_append, List.length_replicate]
  obtain ⟨s, e, he, _⟩ := parse_padded depth ms (fun x hx => ⟨hok x hx, hdep x hx⟩) (by omega) hc k (by omega)
  obtain ⟨m1, L, c1, H, hdt, hcur, hwd, hend, hL⟩ := parsed_holding hz h0 hw hov (by omega) (by omega) hp e
  have hok' : ∀ x ∈ ms.map sealed, MessageOk true x := fun x hx => by
    obtain ⟨y, hy, rfl⟩ := List.mem_map.mp hx
    exact hok y hy
  have hs := fileBytes_sealed ms
  refine ⟨_, _, _, L, s, m1, c1, H, hdt, (hend he).trans hl, hwd, fun hne => ?_, fun w d t hwr => ?_⟩
  · have a := c84_file H true hok' (by rw [hs, hend he]; omega) (by rw [List.length_map]; omega)
    rw [hs, hdt, hend he] at a
    refine a.2.2 ?_
    have : 0 < (fileBytes ms).length := by
      cases ms with
      | nil => exact absurd rfl hne
      | cons x xs =>
        simp [fileBytes, messageBytes]
        omega
    omega
  · have b := c84_transport (H.world w) true hok' (by rw [hs]; omega) (by rw [List.length_map]; omega) t d hwr.num hwr.acc
    rw [hs, hdt] at b
    exact b.2.2 (by rw [sentFrame_length]; omega)

/-! ## With another buffer -/

/-- `sml_buffer_free(file->buf); file->buf = sml_buffer_init(n);` with the file in variable 0. -/
def rebuffer (n : Nat) : List Stmt :=
  [.expr (.call .sml_buffer_free [.ldPtr (.var 0) 1]), .stPtr (.var 0) 1 (.call .sml_buffer_init [.lit .u64 n])]

variable {file buf bytes : Nat} {ms : List Message} {L : List (Nat × HCell)} {st : St}

/-- C87: these two statements free the old buffer and give the file a new one; everything else stays. -/
theorem c87_rebuffer (H : Holding m file buf bytes ms L st) (n : Nat) (hn : n ≤ 2147483647) :
    ∃ m' L' env, ExecsTo (rebuffer n) (envOf [.ptr (.heap file) 0]) m .next env m' ∧ Holding m' file m.next (m.next + 1) ms L' { data := List.replicate n 0, sovf := st.sovf } ∧
      L'.map Prod.fst = L.map Prod.fst ∧ m'.world = m.world ∧ m'.stack = m.stack ∧ m'.next = m.next + 2 ∧ m'.heap buf = none ∧ m'.heap bytes = none ∧
      ∀ a, a < m.next → a ≠ file → a ≠ buf → a ≠ bytes → m'.heap a = m.heap a := by
  obtain ⟨⟨ps, B', hF, hL⟩, hnd, hcells⟩ := H.holds
  obtain ⟨arr, b, B1, B2, rfl, hr1, ⟨rfl, rfl⟩, rfl⟩ := hF.two
  rw [List.append_nil] at hL
  have hin : (file, HCell.struct [arr, b] [ms.length]) ∈ L := by
    rw [hL]
    exact List.mem_cons_self
  have hfile : m.heap file = some (.obj [ptrVal arr, ptrVal b] [(ms.length : Int)]) := hcells _ hin
  have hfp := H.lt hfile
  have hbp := H.lt H.hbuf
  have hyp := H.lt H.hbytes
  have hfa := H.apart _ hin
  have hmem : ∀ a, a ≠ b → a ≠ bytes → H.ctx.blocks (Holding.heap m L) a = m.heap a := by
    intro a h1 h2
    have := congrFun (congrArg Mem.heap H.mem) a
    exact ((if_neg h2).symm.trans ((if_neg h1).symm)).trans this
  have hnB : H.ctx.blocks (Holding.heap m L) b = none := by
    simp only [Ctx.blocks, show (Holding.heap m L).cells b = none from H.inv.nB]
    exact (if_pos (.inl rfl) : Holding.rest m b bytes L b = none)
  have hnA : H.ctx.blocks (Holding.heap m L) bytes = none := by
    simp only [Ctx.blocks, show (Holding.heap m L).cells bytes = none from H.inv.nA]
    exact (if_pos (.inr (.inl rfl)) : Holding.rest m b bytes L bytes = none)
  have c1 := bufferFree_run (st := st.dry) H.ctx hnA hnB
  rw [H.mem] at c1
  generalize hmf : plain H.ctx st.dry.sovf (Holding.heap m L) = mf at c1
  have hfn : mf.next = m.next := by rw [← hmf]; rfl
  have hfh : ∀ a, mf.heap a = H.ctx.blocks (Holding.heap m L) a := by intro a; rw [← hmf]; rfl
  have c2 := bufferInit_run (t := .u64) (n := n) mf (by omega) (by omega)
  have hm2 : (withBuf mf (List.replicate n 0)).heap file = some (.obj [ptrVal arr, ptrVal b] [(ms.length : Int)]) := by
    refine (setHeap_other (by omega)).trans ((setHeap_other (by omega)).trans ?_)
    rw [hfh, hmem file hfa.1 hfa.2]
    exact hfile
  let m' : Mem := { withBuf mf (List.replicate n 0) with heap := setHeap (withBuf mf (List.replicate n 0)).heap file (some (.obj [ptrVal arr, ptrVal m.next] [(ms.length : Int)])) }
  have hne : file ≠ 0 := by omega
  have hs : ∀ env, storePtr (ptrVal file) 1 (ptrVal mf.next) env (withBuf mf (List.replicate n 0)) = .ok () env m' := by
    intro env
    rw [storePtr_put hne hm2 (by simp), hfn]
    rfl
  have e0 : envOf [Val.ptr (.heap file) 0] 0 = ptrVal file := rfl
  have hold : ∀ a, a < m.next → a ≠ file → a ≠ b → a ≠ bytes → m'.heap a = m.heap a := by
    intro a h1 h2 h3 h4
    refine (setHeap_other h2).trans ((setHeap_other (by omega)).trans ((setHeap_other (by omega)).trans ?_))
    rw [hfh, hmem a h3 h4]
  refine ⟨m', (file, .struct [arr, m.next] [ms.length]) :: B1, _, .cons (.expr (.call1 (.ldPtr (.ptr e0) (loadPtr_put hne hfile ?_)) c1)) (.last (.stPtr (.call1 .lit c2) (.ptr e0) (hs _))),
    ⟨⟨⟨[arr, m.next], B1, ⟨arr, [m.next], B1, [], rfl, hr1, Fields.single ⟨rfl, rfl⟩, (List.append_nil _).symm⟩, rfl⟩, ?_, ?_⟩, ?_, ?_, ?_, ?_, ?_, ?_, ?_, ?_, ?_, ?_⟩, ?_, ?_, ?_, ?_, ?_, ?_, hold⟩
  · rfl
  · rw [hL] at hnd
    exact hnd
  · intro x hx
    rcases List.mem_cons.mp hx with rfl | hx
    · exact setHeap_same
    · have hxL : x ∈ L := by
        rw [hL]
        exact List.mem_cons_of_mem _ hx
      have hne2 : x.1 ≠ file := fun h => by
        rw [hL, List.map_cons, List.nodup_cons] at hnd
        exact hnd.1 (h ▸ List.mem_map.mpr ⟨x, hx, rfl⟩)
      rw [hold x.1 (H.lt (hcells x hxL)).2 hne2 (H.apart x hxL).1 (H.apart x hxL).2]
      exact hcells x hxL
  · intro x hx
    have hx' : x.1 < m.next := by
      rcases List.mem_cons.mp hx with rfl | hx
      · exact hfp.2
      · exact (H.lt (hcells x (by rw [hL]; exact List.mem_cons_of_mem _ hx))).2
    exact ⟨by omega, by omega⟩
  · omega
  · refine (setHeap_other (by omega)).trans ?_
    show setHeap (setHeap mf.heap mf.next _) (mf.next + 1) _ m.next = _
    rw [setHeap_other (by omega), ← hfn, setHeap_same]
    rfl
  · refine (setHeap_other (by omega)).trans ?_
    show setHeap _ (mf.next + 1) _ (m.next + 1) = _
    rw [← hfn]
    exact setHeap_same
  · exact Nat.zero_le _
  · show (List.replicate n (0 : UInt8)).length ≤ _
    rw [List.length_replicate]
    exact hn
  · show mf.sovf = st.sovf
    rw [← hmf]
    rfl
  · rw [hold 0 (by omega) (by omega) (by omega) (by omega)]
    exact H.zero
  · intro a ha
    have ha' : m.next + 2 ≤ a := by
      change mf.next + 2 ≤ a at ha
      omega
    refine (setHeap_other (by omega)).trans ((setHeap_other (by omega)).trans ((setHeap_other (by omega)).trans ?_))
    rw [hfh, hmem a (by omega) (by omega)]
    exact H.free a (by omega)
  · intro x hx
    rcases List.mem_cons.mp hx with rfl | hx
    · have := H.ints _ hin
      exact this
    · exact H.ints x (by rw [hL]; exact List.mem_cons_of_mem _ hx)
  · rw [hL]
    rfl
  · show mf.world = m.world
    rw [← hmf]
    rfl
  · show mf.stack = m.stack
    rw [← hmf]
    rfl
  · show mf.next + 2 = _
    omega
  · refine (setHeap_other (Ne.symm hfa.1)).trans ((setHeap_other (by omega)).trans ((setHeap_other (by omega)).trans ?_))
    rw [hfh, hnB]
  · refine (setHeap_other (Ne.symm hfa.2)).trans ((setHeap_other (by omega)).trans ((setHeap_other (by omega)).trans ?_))
    rw [hfh, hnA]

/-- C87: with a new buffer that is long enough for the frame, the received file is sent as it came: the frame is that of the sender. -/
theorem c87_sent (H : Holding m file buf bytes (ms.map sealed) L st) (hok : ∀ x ∈ ms, MessageOk true x) (n : Nat) (hn : n ≤ 2147483647) (hfit : (sentFrame (fileBytes ms)).length ≤ n)
    (w : World) (d : Int) (t : ITy) (hd : ITy.conv .i32 d = w.num) (hall : w.accept (sentFrame (fileBytes ms)) = (sentFrame (fileBytes ms)).length) :
    ∃ m' m2 env, ExecsTo (rebuffer n) (envOf [.ptr (.heap file) 0]) m .next env m' ∧
      CallTo .sml_transport_write [.int t d, .ptr (.heap file) 0] { m' with world := w } (.int .i32 (sentFrame (fileBytes ms)).length) m2 ∧
      m2.world = { w with sent := sentFrame (fileBytes ms) :: w.sent } := by
  obtain ⟨m', L', env, e, H', _⟩ := c87_rebuffer H n hn
  have hok' : ∀ x ∈ ms.map sealed, MessageOk true x := fun x hx => by
    obtain ⟨y, hy, rfl⟩ := List.mem_map.mp hx
    exact hok y hy
  have hs := fileBytes_sealed ms
  obtain ⟨m2, L2, st2, c, hw, _⟩ := c72_frame (H'.world w) true hok' (by rw [hs, List.length_replicate]; exact hfit)
    (zeros_covered _ _ fun b hb => (List.mem_replicate.mp (List.mem_of_mem_drop (List.mem_of_mem_take hb))).2) t d hd (by rw [hs]; exact hall)
  rw [hs] at c hw
  exact ⟨m', m2, env, e, c, hw⟩

/-- The sample message as the library writes it, and then from a new buffer of 512 bytes. -/
example : ∃ file m1 m2 m3 env, CallTo .sml_file_parse [.ptr (.heap 1) 0, .int .u64 (fileBytes [sampleMessage] ++ List.replicate 0 0).length] (bytesMem (fileBytes [sampleMessage] ++ List.replicate 0 0))
      (.ptr (.heap file) 0) m1 ∧ CallOut .sml_file_write [.ptr (.heap file) 0] m1 ∧ CallOut .sml_transport_write [.int .i32 0, .ptr (.heap file) 0] { m1 with world := {} } ∧
    ExecsTo (rebuffer 512) (envOf [.ptr (.heap file) 0]) m1 .next env m2 ∧
    CallTo .sml_transport_write [.int .i32 0, .ptr (.heap file) 0] { m2 with world := {} } (.int .i32 (sentFrame (fileBytes [sampleMessage])).length) m3 ∧
    m3.world = { ({} : World) with sent := [sentFrame (fileBytes [sampleMessage])] } := by
  have hwr : Writable ({} : World) 0 := ⟨rfl, fun bs h => ⟨by show _ ≤ (bs.length : Int); omega, by show (bs.length : Int) < _; omega⟩⟩
  have hl : (fileBytes [sampleMessage]).length ≤ 400 := by decide +kernel
  have hs : (sentFrame (fileBytes [sampleMessage])).length ≤ 512 := by decide +kernel
  have hok : ∀ x ∈ [sampleMessage], MessageOk true x := fun x hx => by
    obtain rfl := List.mem_singleton.mp hx
    exact sampleMessage_ok true
  obtain ⟨file, _, _, _, _, m1, c, H, _, _, _, h1, h2⟩ := c87_own_form (m := bytesMem (fileBytes [sampleMessage] ++ List.replicate 0 0)) rfl Nat.zero_lt_two
    (fun a ha => if_neg (by simp only [bytesMem] at ha; omega)) rfl [sampleMessage] hok (by decide) 0 (by decide) (by omega) _ (bytesMem_load _)
  obtain ⟨m2, m3, env, e, c2, w2⟩ := c87_sent H hok 512 (by decide) hs {} 0 .i32 rfl rfl
  exact ⟨file, m1, m2, m3, env, c, h1 (by simp), h2 _ _ _ hwr, e, c2, w2⟩

/-! ## A gateway -/

/-- C87: a gateway. The frame of a sender comes in, in any pieces, after harmless noise and before anything else. The source of `sml_transport_read` and `sml_file_parse` get the messages. Sending the file with
the source of `sml_transport_write` leaves its buffer, to whatever device; after its buffer is replaced by one of `n` bytes, `n` at least the length of the frame, what is sent is the frame that came in. -/
theorem c87_gateway (ms : List Message) (hok : ∀ x ∈ ms, MessageOk true x) (hcnt : ms.length ≤ 32767) (hesc : NoEscape (fileBytes ms)) (hlen : (fileBytes ms).length ≤ 1000000000)
    (m2 : Mem) (d2 a maxLen : Nat) (old : List (Option UInt8)) (noise rest : List UInt8) (t1 t2 : ITy) (hd2 : d2 < 1024) (hn2 : m2.world.num = d2) (hE : Errs m2.world)
    (hok2 : ∀ u ∈ m2.world.turns, u.ev ≠ .fail) (hin : m2.world.input = noise ++ sentFrame (fileBytes ms) ++ rest) (hno : Harmless noise) (hlt : (sentFrame (fileBytes ms)).length < maxLen)
    (hm : maxLen < 4294967288) (hblk : m2.heap a = some (.raw old)) (hold : maxLen ≤ old.length) (hz : m2.heap 0 = none) (h0 : 0 < m2.next) (hfree : ∀ b, m2.next ≤ b → m2.heap b = none)
    (hov : m2.sovf = false) :
    ∃ m3 file m4, CallTo .sml_transport_read [.int t1 d2, .ptr (.heap a) 0, .int t2 maxLen] m2 (.int .u64 (sentFrame (fileBytes ms)).length) m3 ∧ m3.world.input = rest ∧
      CallTo .sml_file_parse [.ptr (.heap a) 8, .int .u64 ((sentFrame (fileBytes ms)).length - 16 : Nat)] m3 (.ptr (.heap file) 0) m4 ∧
      (∀ w d t, Writable w d → CallOut .sml_transport_write [.int t d, .ptr (.heap file) 0] { m4 with world := w }) ∧
      ∀ n, n ≤ 2147483647 → (sentFrame (fileBytes ms)).length ≤ n → ∀ (w : World) d t, ITy.conv .i32 d = w.num → w.accept (sentFrame (fileBytes ms)) = (sentFrame (fileBytes ms)).length →
        ∃ m5 m6 env, ExecsTo (rebuffer n) (envOf [.ptr (.heap file) 0]) m4 .next env m5 ∧
          CallTo .sml_transport_write [.int t d, .ptr (.heap file) 0] { m5 with world := w } (.int .i32 (sentFrame (fileBytes ms)).length) m6 ∧
          m6.world.sent = sentFrame (fileBytes ms) :: w.sent := by
  have ha : a ≠ 0 := fun h => by
    rw [h, hz] at hblk
    cases hblk
  obtain ⟨x, y, z, hf⟩ := sentFrame_frame (fileBytes ms)
  have hsl := sentFrame_length (fileBytes ms)
  have hpad : padding (fileBytes ms).length ≤ 3 := (c39_length _).2.2
  rw [hf] at hin hlt
  obtain ⟨turns, ev, e', c3⟩ := c73_found d2 hd2 hn2 hE maxLen hm (.ptr (.heap a) 0) _ (dest_heap ha hblk hold) t1 t2 hin hno ((padded_plain _).2 hesc) hlt hok2
  rw [← hf] at c3
  have hpay : ((sentFrame (fileBytes ms)).drop 8).take ((sentFrame (fileBytes ms)).length - 16) = fileBytes ms ++ List.replicate (padding (fileBytes ms).length) 0 := by
    rw [hf, frame_payload]
  generalize hbs : sentFrame (fileBytes ms) = bs at hsl hpay c3
  generalize hm3 : ({ m2 with heap := setHeap m2.heap a (some (.raw (bs.map some ++ old.drop bs.length))), world := m2.world.at ⟨rest, turns⟩ ev e' } : Mem) = m3 at c3
  have hpl : (fileBytes ms ++ List.replicate (padding (fileBytes ms).length) 0).length = bs.length - 16 := by
    rw [List.length_append, List.length_replicate]
    omega
  have hlt' : bs.length < maxLen := by
    rw [← hbs, hf]
    exact hlt
  have hp : ∀ env, loadBytes (.ptr (.heap a) 8) (fileBytes ms ++ List.replicate (padding (fileBytes ms).length) 0).length env m3 = .ok (fileBytes ms ++ List.replicate (padding (fileBytes ms).length) 0) env m3 := by
    intro env
    rw [hpl, ← hpay]
    refine loadBytes_raw' (bs := bs.map some ++ old.drop bs.length) (getBlock_heap ha (by rw [← hm3]; exact setHeap_same)) ?_ ?_
    · rw [List.length_append, List.length_map]
      omega
    · rw [List.map_take, List.map_drop, List.drop_append_of_le_length (by rw [List.length_map]; omega), List.take_append_of_le_length (by rw [List.length_drop, List.length_map]; omega)]
  have hlt2 : ∀ b, m3.next ≤ b → m3.heap b = none := by
    intro b hb
    rw [← hm3] at hb ⊢
    change m2.next ≤ b at hb
    have : b ≠ a := fun h => by
      rw [h] at hb
      rw [hfree a hb] at hblk
      cases hblk
    exact (setHeap_other this).trans (hfree b hb)
  have hz3 : m3.heap 0 = none := by
    rw [← hm3]
    exact (setHeap_other (Ne.symm ha)).trans hz
  obtain ⟨file, buf, bytes, L, st, m4, c4, H4, _, _, _, hbad⟩ := c87_own_form hz3 (by rw [← hm3]; exact h0) hlt2 (by rw [← hm3]; exact hov) ms hok hcnt _ (by omega) (by omega) _ hp
  rw [hpl] at c4
  refine ⟨m3, file, m4, c3, by rw [← hm3], c4, hbad.2, fun n hn hfit w d t hd hall => ?_⟩
  rw [← hbs] at hfit hall ⊢
  obtain ⟨m5, m6, env, e, c, hw⟩ := c87_sent H4 hok n hn hfit w d t hd hall
  exact ⟨m5, m6, env, e, c, by rw [hw]⟩

/-- The gateway in the memory of C75. -/
example : ∃ m2 m3 file m4, CallTo .sml_transport_read [.int .i32 3, .ptr (.heap 1) 0, .int .i32 512] m2 (.int .u64 (sentFrame (fileBytes [sampleMessage])).length) m3 ∧
    CallTo .sml_file_parse [.ptr (.heap 1) 8, .int .u64 ((sentFrame (fileBytes [sampleMessage])).length - 16 : Nat)] m3 (.ptr (.heap file) 0) m4 ∧
    CallOut .sml_transport_write [.int .i32 0, .ptr (.heap file) 0] { m4 with world := {} } := by
  have hwr : Writable ({} : World) 0 := ⟨rfl, fun bs h => ⟨by show _ ≤ (bs.length : Int); omega, by show (bs.length : Int) < _; omega⟩⟩
  have hl : (fileBytes [sampleMessage]).length ≤ 400 := by decide +kernel
  have hs : (sentFrame (fileBytes [sampleMessage])).length < 512 := by decide +kernel
  have hok : ∀ x ∈ [sampleMessage], MessageOk true x := fun x hx => by
    obtain rfl := List.mem_singleton.mp hx
    exact sampleMessage_ok true
  obtain ⟨m3, file, m4, c3, _, c4, h, _⟩ := c87_gateway [sampleMessage] hok (by decide) ((noEscape_iff _).2 (by decide +kernel)) (by omega)
    { next := 2, heap := fun a => if a = 1 then some (.raw (List.replicate 512 none)) else none,
      world := { num := 3, input := [0x55] ++ sentFrame (fileBytes [sampleMessage]) ++ [0x66], turns := [⟨[], .give 4⟩, ⟨[], .intr⟩] } }
    3 1 512 (List.replicate 512 none) [0x55] [0x66] .i32 .i32 (by decide) rfl ⟨.inl rfl, by decide⟩ (by simp) rfl ⟨not_occurs_short (by decide), by decide⟩ hs (by decide) rfl
    (by rw [List.length_replicate]; omega) rfl (by decide) (fun b hb => if_neg (by simp only at hb; omega)) rfl
  exact ⟨_, m3, file, m4, c3, c4, h _ _ _ hwr⟩

end Sml.C
