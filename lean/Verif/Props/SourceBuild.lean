import Verif.Proofs.SourceClient
import Verif.Props.SourceTransport
import Verif.Props.HeapBuild

/-!
# The C source of the constructors, run as it is written

A client (`xFile`) makes a file with the constructors of the library, sends it and frees it; all functions of the library are run from their source.
-/

namespace Sml.C

open Sml.Spec

variable {m : Mem} {file buf bytes : Nat} {ms : List Message} {L : List (Nat × HCell)} {st : St}

/-- The buffer of a new file. -/
def newBuf (m : Mem) : St := { data := List.replicate 512 0, sovf := m.sovf }

theorem newBuf_len : (newBuf m).data.length = 512 := List.length_replicate

theorem fileInit_conc (h0 : 0 < m.next) :
    CallTo .sml_file_init [] m (ptrVal m.next) (conc (fileCtx m) (newBuf m) (fileHeap m.next)) := by
  have hc := fileInit_run m (by omega)
  refine cast (congrArg (CallTo _ _ _ _) ?_) hc
  simp only [conc, memOf, fileHeap, fileCtx, bufBlock, newBuf, Mem.mk.injEq, and_true, true_and, List.length_replicate]
  generalize (List.replicate 512 (0 : UInt8)).map some = B
  funext a
  simp only [setHeap, Ctx.blocks, setCell]
  by_cases h1 : a = m.next + 1
  · subst h1
    simp
  · by_cases h2 : a = m.next + 2
    · subst h2
      simp
    · by_cases h3 : a = m.next
      · subst h3
        simp [enc]
        rfl
      · simp [h1, h2, h3]

/-- The number after the last block when the file is made. -/
def nextMade (ds : List Draft) (m : Mem) : Nat :=
  match cAddAll pFileAddMessage m.next (ds.map cMessage) (newBuf m) (fileHeap m.next) with
  | .ok _ _ h => h.next
  | .bad _ => 0

/-- `c76_built`, and the number after the last block. -/
theorem built (hz : m.heap 0 = none) (h0 : 0 < m.next) (hw : ∀ a, m.next ≤ a → m.heap a = none) (ds : List Draft) (hd : ∀ d ∈ ds, DraftTyped d) (hl : ds.length ≤ 32767)
    (rest : List UInt8) (hr : m.world.random = ids ds ++ rest) :
    ∃ file buf bytes m1 L, (∃ N, ∀ n, N ≤ n → ∀ env, xFile ds (call program n) env m = .ok (.ptr (.heap file) 0) env m1) ∧
      Holding m1 file buf bytes (ds.map Draft.result) L (newBuf m) ∧ m1.stack = m.stack ∧ m1.world = { m.world with random := rest } ∧
      (∀ a b, m.heap a = some b → m1.heap a = some b ∧ a ≠ buf ∧ a ≠ bytes ∧ a ∉ L.map Prod.fst) ∧
      (∀ a, m1.heap a ≠ none → a = buf ∨ a = bytes ∨ a ∈ L.map Prod.fst ∨ m.heap a ≠ none) ∧
      fileFreed { messages := ds.map Draft.result } = L.length + 2 ∧ m1.next = nextMade ds m := by
  have i0 : Inv (fileCtx m) (newBuf m) (fileHeap m.next) := by
    have := Inv.start hw (buffer := (newBuf m).data) (by rw [newBuf_len]; decide)
    exact ⟨⟨this.good.cur, this.good.len⟩, this.nB, this.nA, this.lB, this.lA, this.ints, this.lo, this.old⟩
  have o : Own m.next (fun _ => none) (fileHeap m.next) ([(m.next, .struct [0, m.next + 1] [0])] ++ []) := by
    refine ⟨h0, by simp [fileHeap], fun _ _ => rfl, by simp [fileHeap], by simp, by simp [fileHeap, setCell], fun a ha => ?_⟩
    exact if_neg (by simpa using ha)
  have hr0 : Rec [RArr [], rawRep (m.next + 1)] [([] : List Rep).length] m.next [(m.next, .struct [0, m.next + 1] [0])] :=
    ⟨[0, m.next + 1], [], ⟨0, [m.next + 1], [], _, rfl, RArr.nil, Fields.single ⟨rfl, rfl⟩, rfl⟩, rfl⟩
  obtain ⟨h1, L, e1, hr1, o1, l1⟩ := addAll_ok (add := pFileAddMessage) (bound := 32767) (st := newBuf m) (by decide) fileAdd_ok
    (buildsAll_map builds_message ds hd) hr0 rfl (by simpa using hl) o
  obtain ⟨N0, r0⟩ := fileInit_conc h0
  obtain ⟨i1, N1, r1⟩ := runs_messages ds hd i0 (rest := rest) hr e1
  have hR : RFileOf (rawRep (m.next + 1)) { messages := ds.map Draft.result } m.next L := by
    rw [RFileOf]
    simp only [List.map_map, List.length_map]
    rw [List.nil_append, List.length_map] at hr1
    exact hr1
  have H := Holding.of_conc ((fileCtx m).drawn rest) (st' := newBuf m) hz hR o1 ⟨⟨i1.good.cur, i1.good.len⟩, i1.nB, i1.nA, i1.lB, i1.lA, i1.ints, i1.lo, i1.old⟩
  refine ⟨m.next, m.next + 1, m.next + 2, _, L, ⟨max N0 N1, fun n hn env => ?_⟩, H, rfl, rfl, ?_, ?_, ?_, ?_⟩
  · rw [xFile, X_bind_ok (r0 n (by omega) env), X_bind_ok (r1 n (by omega) env)]
    rfl
  · intro a b hb
    have ha : a < m.next := Decidable.byContradiction fun hn => by
      rw [hw a (by omega)] at hb
      cases hb
    refine ⟨?_, by omega, by omega, fun h => ?_⟩
    · refine (if_neg (show a ≠ m.next + 1 by omega)).trans ((if_neg (show a ≠ m.next + 2 by omega)).trans ?_)
      simp only [Ctx.blocks, show h1.cells a = none from o1.old a ha]
      exact hb
    · obtain ⟨x, hx, rfl⟩ := List.mem_map.mp h
      have := (o1.key x (by simp [hx])).1
      omega
  · intro a ha
    by_cases hB : a = m.next + 1
    · exact .inl hB
    · by_cases hA : a = m.next + 2
      · exact .inr (.inl hA)
      · by_cases hL : a ∈ L.map Prod.fst
        · exact .inr (.inr (.inl hL))
        · refine .inr (.inr (.inr fun h => ha ?_))
          refine (if_neg hB).trans ((if_neg hA).trans ?_)
          have hc : h1.cells a = none := o1.rest a (by simpa using hL)
          simp only [Ctx.blocks, hc]
          exact h
  · simp only [List.length_cons, List.length_nil, if_true, List.nil_append, List.map_eq_nil_iff] at l1
    simp only [fileFreed, List.map_map, List.map_eq_nil_iff]
    have : (ds.map (messageFreed1 ∘ Draft.result)).sum = (ds.map fun v => messageFreed1 v.result).sum := rfl
    omega
  · show h1.next = _
    rw [nextMade, e1]

/-- C76: whatever is in memory, a client that makes a file of at most 32767 messages with the constructors of the library gets, without an undefined step of their source, a
file with exactly these messages and an empty buffer of 512 bytes. Everything is in new blocks, there are as many as `sml_file_free` frees, and the blocks and local objects
that were there are as they were. The ids the client keeps are those `uuid_generate` made. -/
theorem c76_built (hz : m.heap 0 = none) (h0 : 0 < m.next) (hw : ∀ a, m.next ≤ a → m.heap a = none) (ds : List Draft) (hd : ∀ d ∈ ds, DraftTyped d) (hl : ds.length ≤ 32767)
    (rest : List UInt8) (hr : m.world.random = ids ds ++ rest) :
    ∃ file buf bytes m1 L, (∃ N, ∀ n, N ≤ n → ∀ env, xFile ds (call program n) env m = .ok (.ptr (.heap file) 0) env m1) ∧
      Holding m1 file buf bytes (ds.map Draft.result) L (newBuf m) ∧ m1.stack = m.stack ∧ m1.world = { m.world with random := rest } ∧
      (∀ a b, m.heap a = some b → m1.heap a = some b ∧ a ≠ buf ∧ a ≠ bytes ∧ a ∉ L.map Prod.fst) ∧
      (∀ a, m1.heap a ≠ none → a = buf ∨ a = bytes ∨ a ∈ L.map Prod.fst ∨ m.heap a ≠ none) ∧
      fileFreed { messages := ds.map Draft.result } = L.length + 2 := by
  obtain ⟨file, buf, bytes, m1, L, h1, h2, h3, h4, h5, h6, h7, _⟩ := built hz h0 hw ds hd hl rest hr
  exact ⟨file, buf, bytes, m1, L, h1, h2, h3, h4, h5, h6, h7⟩

/-- C77: a client makes a file of messages the format can represent, sends it with `sml_transport_write` and frees it with `sml_file_free`, all from the source. There is no
undefined step, `write` is called once, with exactly the frame that belongs to the messages, and afterwards memory is what it was before: every block that was made is gone and no
other block has changed. -/
theorem c77_sent (hz : m.heap 0 = none) (h0 : 0 < m.next) (hw : ∀ a, m.next ≤ a → m.heap a = none) (ds : List Draft) (hd : ∀ d ∈ ds, DraftTyped d ∧ MessageOk true d.result)
    (hl : ds.length ≤ 32767) (rest : List UInt8) (hr : m.world.random = ids ds ++ rest) (hfit : (sentFrame (fileBytes (ds.map Draft.result))).length ≤ 512) (t : ITy) (d : Int)
    (hfd : ITy.conv .i32 d = m.world.num) (hall : ∀ bs, m.world.accept bs = bs.length) :
    ∃ file m1 m2 m3, (∃ N, ∀ n, N ≤ n → ∀ env, xFile ds (call program n) env m = .ok (.ptr (.heap file) 0) env m1) ∧
      CallTo .sml_transport_write [.int t d, .ptr (.heap file) 0] m1 (.int .i32 (sentFrame (fileBytes (ds.map Draft.result))).length) m2 ∧
      m2.world = { m.world with random := rest, sent := sentFrame (fileBytes (ds.map Draft.result)) :: m.world.sent } ∧
      CallTo .sml_file_free [.ptr (.heap file) 0] m2 .undef m3 ∧ m3.heap = m.heap ∧ m3.stack = m.stack ∧ m3.sovf = m.sovf := by
  obtain ⟨file, buf, bytes, m1, L, hx, H, s1, w1, k1, n1, f1⟩ := c76_built hz h0 hw ds (fun d h => (hd d h).1) hl rest hr
  have hok : ∀ x ∈ ds.map Draft.result, MessageOk true x := fun x hx => by
    obtain ⟨d, hdm, rfl⟩ := List.mem_map.mp hx
    exact (hd d hdm).2
  have et := transportFrame_clean true { messages := ds.map Draft.result } hok (newBuf m) H.len (by rw [newBuf_len]; exact hfit) (zeros_covered _ _ fun b hb => by
    have := List.mem_of_mem_take hb
    rw [newBuf, List.drop_replicate] at this
    exact (List.mem_replicate.1 this).2)
  have hacc : m1.world.accept (sentFrame (fileBytes (ds.map Draft.result))) = (sentFrame (fileBytes (ds.map Draft.result))).length := by
    rw [w1]
    exact hall _
  have hnum : m1.world.num = m.world.num := by rw [w1]
  obtain ⟨h', L', g', hR, o, hi, hlen, hc⟩ := transportWrite_run (t := t) H.ctx rfl H.holds.1 H.inv H.own (hfd.trans hnum.symm) et
    (by
      show _ ≤ m1.world.accept (sentFrame (fileBytes (ds.map Draft.result))) ∧ m1.world.accept (sentFrame (fileBytes (ds.map Draft.result))) < _
      rw [hacc]
      omega)
  rw [H.mem] at hc
  change CallTo _ _ _ (.int .i32 (if m1.world.accept (sentFrame (fileBytes (ds.map Draft.result))) = (sentFrame (fileBytes (ds.map Draft.result))).length then _ else 0)) _ at hc
  rw [if_pos hacc] at hc
  obtain ⟨a1, a2, a3, a4, a5⟩ := H.written hR o hi
  obtain ⟨m3, lost, c3, s3, b1, b2, b3, b4, b5, b6, b7, b8, _⟩ := c71_free (a1.world { m1.world with sent := sentFrame (fileBytes (ds.map Draft.result)) :: m1.world.sent })
  -- nothing is lost
  have hz := fileFreed_sealed (ds.map Draft.result) (by
    intro x hx
    obtain ⟨d, hdm, rfl⟩ := List.mem_map.mp hx
    exact draft_crc (hd d hdm).1)
  simp only [begun, List.length_map, List.length_nil] at hlen b7 hz
  have hg : g' = [] := List.length_eq_zero_iff.mp (by omega)
  have hl0 : lost = [] := List.length_eq_zero_iff.mp (by omega)
  subst hg hl0
  refine ⟨file, m1, _, m3, hx, hc, ?_, c3, ?_, s3.trans s1, ?_⟩
  · show ({ m1.world with sent := sentFrame (fileBytes (ds.map Draft.result)) :: m1.world.sent } : World) = _
    rw [w1]
  · funext a
    by_cases hB : a = buf
    · rw [hB, b1]
      cases hm : m.heap buf with
      | none => rfl
      | some b => exact absurd rfl (k1 buf b hm).2.1
    · by_cases hA : a = bytes
      · rw [hA, b2]
        cases hm : m.heap bytes with
        | none => rfl
        | some b => exact absurd rfl (k1 bytes b hm).2.2.1
      · cases hm : m.heap a with
        | some b =>
          obtain ⟨p1, _, _, p2⟩ := k1 a b hm
          have hL' : a ∉ L'.map Prod.fst := fun hin => by
            obtain ⟨x, hx, rfl⟩ := List.mem_map.mp hin
            have q1 : H.ctx.base x.1 ≠ none := by
              show Holding.rest m1 buf bytes L x.1 ≠ none
              rw [Holding.rest, if_neg (by simp [hB, hA, p2]), p1]
              simp
            have q2 := o.mem x (by simp [hx])
            rw [(hi.old x.1 q1).1] at q2
            cases q2
          rw [b3 a hB hA hL']
          exact a2 a b hB hA p2 p1
        | none =>
          by_cases hL' : a ∈ L'.map Prod.fst
          · rcases b4 a hL' with h | h
            · exact h
            · cases h
          · rw [b3 a hB hA hL']
            apply Classical.byContradiction
            intro hne
            rcases a3 a hne with h | h | h | h | ⟨h1, h2⟩
            · exact hB h
            · exact hA h
            · exact hL' h
            · cases h
            · rcases n1 a h2 with h | h | h | h
              · exact hB h
              · exact hA h
              · exact h1 h
              · exact h hm
  · exact b8.trans rfl

/-- C77: what one program makes and sends, another one that reads the descriptor gets, parses and frees: its `sml_transport_read` returns the frame, whatever harmless bytes come
before it, and its `sml_file_parse` makes a file with the messages of the client, now with their checksums. -/
theorem c77_received (hz : m.heap 0 = none) (h0 : 0 < m.next) (hw : ∀ a, m.next ≤ a → m.heap a = none) (ds : List Draft) (hd : ∀ d ∈ ds, DraftTyped d ∧ MessageOk true d.result)
    (hl : ds.length ≤ 32767) (rest : List UInt8) (hr : m.world.random = ids ds ++ rest) (hfit : (sentFrame (fileBytes (ds.map Draft.result))).length ≤ 512)
    (hesc : NoEscape (fileBytes (ds.map Draft.result))) (t : ITy) (d : Int) (hfd : ITy.conv .i32 d = m.world.num) (hall : ∀ bs, m.world.accept bs = bs.length) :
    ∃ file m1 bs m2, (∃ N, ∀ n, N ≤ n → ∀ env, xFile ds (call program n) env m = .ok (.ptr (.heap file) 0) env m1) ∧
      CallTo .sml_transport_write [.int t d, .ptr (.heap file) 0] m1 (.int .i32 bs.length) m2 ∧ m2.world.sent = bs :: m.world.sent ∧
      ∀ (r : Mem) (d2 a maxLen : Nat) (old : List (Option UInt8)) (noise rest : List UInt8) (t1 t2 : ITy), d2 < 1024 → r.world.num = d2 → Errs r.world → (∀ u ∈ r.world.turns, u.ev ≠ .fail) →
        r.world.input = noise ++ bs ++ rest → Harmless noise → bs.length < maxLen → maxLen < 4294967288 → r.heap a = some (.raw old) → maxLen ≤ old.length →
        r.heap 0 = none → 0 < r.next → (∀ b, r.next ≤ b → r.heap b = none) → r.sovf = false →
        ∃ r1 file2 buf2 bytes2 r2 L2 st2 r3, CallTo .sml_transport_read [.int t1 d2, .ptr (.heap a) 0, .int t2 maxLen] r (.int .u64 bs.length) r1 ∧ r1.world.input = rest ∧
          CallTo .sml_file_parse [.ptr (.heap a) 8, .int .u64 (bs.length - 16 : Nat)] r1 (.ptr (.heap file2) 0) r2 ∧
          Holding r2 file2 buf2 bytes2 (ds.map fun d => sealed d.result) L2 st2 ∧ CallTo .sml_file_free [.ptr (.heap file2) 0] r2 .undef r3 := by
  obtain ⟨file, buf, bytes, m1, L, hx, H, s1, w1, _⟩ := c76_built hz h0 hw ds (fun d h => (hd d h).1) hl rest hr
  have hok : ∀ x ∈ ds.map Draft.result, MessageOk true x := fun x hx => by
    obtain ⟨d, hdm, rfl⟩ := List.mem_map.mp hx
    exact (hd d hdm).2
  have hsl := sentFrame_length (fileBytes (ds.map Draft.result))
  obtain ⟨bs, m2, L1, st1, c, hs, _, hrecv⟩ := c75_wire H hok (by simpa using hl) (by rw [newBuf_len]; exact hfit) (zeros_covered _ _ fun b hb => by
    have := List.mem_of_mem_take hb
    rw [newBuf, List.drop_replicate] at this
    exact (List.mem_replicate.1 this).2) hesc (by omega) t d (hfd.trans (by rw [w1])) (by rw [w1]; exact hall)
  refine ⟨file, m1, bs, m2, hx, c, hs.trans (by rw [w1]), ?_⟩
  intro r d2 a maxLen old noise rest t1 t2 h1 h2 h3 h4 h5 h6 h7 h8 h9 h10 h11 h12 h13 h14
  obtain ⟨r1, file2, buf2, bytes2, r2, L2, st2, r3, q1, q2, q3, q4, q5, _⟩ := hrecv r d2 a maxLen old noise rest t1 t2 h1 h2 h3 h4 h5 h6 h7 h8 h9 h10 h11 h12 h13 h14
  rw [List.map_map] at q4
  exact ⟨r1, file2, buf2, bytes2, r2, L2, st2, r3, q1, q2, q3, q4, q5⟩

/-! ## A case -/

/-- Memory with nothing on the heap and the random bytes of the two sample messages. -/
def emptyMem : Mem := { next := 1, heap := fun _ => none, stack := [], sovf := false, world := { random := ids sampleDrafts } }

/-- The two sample messages are made, sent and freed, and the heap is empty again. -/
example : ∃ file m1 m2 m3 n, (∃ N, ∀ n, N ≤ n → ∀ env, xFile sampleDrafts (call program n) env emptyMem = .ok (.ptr (.heap file) 0) env m1) ∧
    CallTo .sml_transport_write [.int .i32 0, .ptr (.heap file) 0] m1 (.int .i32 n) m2 ∧ CallTo .sml_file_free [.ptr (.heap file) 0] m2 .undef m3 ∧ m3.heap = fun _ => none := by
  obtain ⟨file, m1, m2, m3, h1, h2, _, h3, h4, _⟩ := c77_sent (m := emptyMem) rfl (by decide) (fun _ _ => rfl) sampleDrafts (fun d hd => ⟨(sampleDrafts_ok d hd).1, (sampleDrafts_ok d hd).2.1⟩) (by decide) []
    (List.append_nil _).symm (by rw [sentFrame_length]; decide +kernel) .i32 0 rfl (fun _ => rfl)
  exact ⟨file, m1, m2, m3, _, h1, h2, h3, h4⟩

/-- Sixteen random bytes for each of the two messages. -/
example : (ids sampleDrafts).length = 32 ∧ sampleDrafts.length = 2 := by decide +kernel

example : NoEscape (fileBytes (sampleDrafts.map Draft.result)) := by
  refine (noEscape_iff _).2 ?_
  simp only [fileBytes, checksum, ← crc16_eq]
  decide +kernel

end Sml.C
