import Verif.Proofs.Sticky
import Verif.Proofs.Rounds
import Verif.Spec.Samples

/-!
# Safety of parsing: C01, C02, C03, C04, C06, C08

`depth` is the number of nested `sml_tree_parse` calls the stack has room for. The hypothesis
`buffer.length < 4 * depth` asks for `length / 4 + 1` of them; that this is needed is C05.
-/

namespace Sml

open Spec Samples

/-- The contract of the message loop for a whole buffer. -/
theorem fileParse_post {depth : Nat} {buffer : List UInt8} (hlen : buffer.length ≤ 294912)
    (hdepth : buffer.length < 4 * depth) :
    ∃ f s, fileParse depth buffer = .ok f s ∧ Step { data := buffer, live := 3 } s ∧ FileOk f ∧
      fileFreed f ≤ s.live ∧ (s.confused = false → s.live = fileFreed f) ∧
      s.live ≤ 2 * s.cursor + 4 ∧ f.messages.length * 9 ≤ s.cursor ∧
      (s.error = true ∨ s.cursor = buffer.length) := by
  have hf3 : fileFreed { messages := [] } = 3 := rfl
  have h := post_fileLoop (depth := depth) minMessage (buffer.length + 1) { messages := [] } { data := buffer, live := 3 }
    hlen (by simp; omega) ⟨by simp, rfl, by simpa using hdepth⟩ (by simp) (by intro m hm; simp at hm) (by simp [hf3]) (by simp)
  obtain ⟨f, s, e, h1, h2, h3, h4, h5, h6, h7, h8⟩ := post_iff.1 h
  simp only [hf3] at h4 h5 h6 h8
  simp at h6
  exact ⟨f, s, e, h1, h2, by omega, fun hc => by have := h5 hc; omega, by omega, h7, h8⟩

/-- C01: for every buffer of at most 294912 bytes, `sml_file_parse` is defined (no access outside
the buffer, no NULL dereference, no foreign block freed, no counter overflow), and so is
`sml_file_free` of its result. -/
theorem c01_memory_safe (buffer : List UInt8) (depth : Nat) (hlen : buffer.length ≤ 294912)
    (hdepth : buffer.length < 4 * depth) :
    ∃ f s, fileParse depth buffer = .ok f s ∧ ∃ s', fileFree f s = .ok () s' := by
  obtain ⟨f, s, e, _, hok, hfr, _⟩ := fileParse_post hlen hdepth
  obtain ⟨_, s', e', _⟩ := post_iff.1 ((post_fileFree (Q := fun _ _ => True) hok).2 ⟨hfr, trivial⟩)
  exact ⟨f, s, e, s', e'⟩

example : ∃ f s, fileParse 35 telegram = .ok f s ∧ ∃ s', fileFree f s = .ok () s' := c01_memory_safe telegram 35 (by decide +kernel) (by decide +kernel)

/-- C01, truncated and malformed input only shortens the list: the number of delivered messages is
at most a ninth of the length, and the cursor never leaves the buffer. -/
theorem c01_only_shorter (buffer : List UInt8) (depth : Nat) (hlen : buffer.length ≤ 294912)
    (hdepth : buffer.length < 4 * depth) :
    ∃ f s, fileParse depth buffer = .ok f s ∧ s.data = buffer ∧ s.cursor ≤ buffer.length ∧
      9 * f.messages.length ≤ s.cursor := by
  obtain ⟨f, s, e, h1, _, _, _, _, h7, _⟩ := fileParse_post hlen hdepth
  exact ⟨f, s, e, h1.data, h1.bound, by omega⟩

example : telegram.length ≤ 294912 ∧ telegram.length < 4 * 35 ∧
    holds (fileParse 35 telegram) (fun f s => f.messages.length == 3 && !s.error) = true := by
  decide +kernel

/-- C02, the message loop: for every buffer up to `INT_MAX` bytes the loop ends, having used up the
buffer or with an error, unless the message counter overflows first; it never exceeds its fuel
of one round per byte plus one. -/
theorem c02_terminates (buffer : List UInt8) (depth : Nat) (hlen : buffer.length ≤ 2147483647)
    (hdepth : buffer.length < 4 * depth) :
    (∃ f s, fileParse depth buffer = .ok f s ∧ (s.error = true ∨ s.cursor = buffer.length)) ∨
    (fileParse depth buffer = .ub .counter ∧ 294912 < buffer.length) := by
  rcases fileLoop_ends (depth := depth) (buffer.length + 1) { messages := [] } { data := buffer, live := 3 }
    hlen ⟨by simp, rfl, by simpa using hdepth⟩ (by simp) with h | ⟨h, h2⟩
  · exact Or.inl h
  · exact Or.inr ⟨h, by simpa using h2⟩

example : (∃ f s, fileParse 35 telegram = .ok f s ∧ (s.error = true ∨ s.cursor = telegram.length)) ∨ (fileParse 35 telegram = .ub .counter ∧ 294912 < telegram.length) :=
  c02_terminates telegram 35 (by decide +kernel) (by decide +kernel)

/-- C02, progress: a round that does not set the error flag consumes at least one byte (in fact
at least seven). -/
theorem c02_progress (depth : Nat) (st : St) (hb : st.cursor ≤ st.data.length) (he : st.error = false)
    (hlen : st.data.length ≤ 2147483647) (hdepth : st.data.length < st.cursor + 4 * depth) :
    ∃ r s, messageParse depth st = .ok r s ∧ s.cursor ≤ st.data.length ∧
      (s.error = false → st.cursor + 7 ≤ s.cursor) := by
  obtain ⟨r, s, e, h1, _, _, _, h5⟩ := post_iff.1 (good_message depth st hlen (by omega) ⟨hb, he, hdepth⟩ (by omega))
  exact ⟨r, s, e, h1.bound, h5⟩

example : ∃ r s, messageParse 35 { data := telegram } = .ok r s ∧ s.cursor ≤ telegram.length ∧ (s.error = false → 0 + 7 ≤ s.cursor) :=
  c02_progress 35 { data := telegram } (Nat.zero_le _) rfl (by decide +kernel) (by decide +kernel)

/-- C02, inner loops: whatever number `n` of elements a header announces, each loop behaves as if
it had been told one more than the number of bytes left; it cannot run longer. -/
theorem c02_rounds (st : St) (hb : st.cursor ≤ st.data.length) (he : st.error = false) (n depth : Nat)
    (hdepth : st.data.length < st.cursor + 4 * depth) (hn : st.data.length - st.cursor < n) :
    (∀ seq, sequenceLoop valueEntryParse valueEntryFreed n seq st =
      sequenceLoop valueEntryParse valueEntryFreed (st.data.length - st.cursor + 1) seq st) ∧
    (∀ seq, sequenceLoop profObjHeaderEntryParse profObjHeaderEntryFreed n seq st =
      sequenceLoop profObjHeaderEntryParse profObjHeaderEntryFreed (st.data.length - st.cursor + 1) seq st) ∧
    (∀ seq, sequenceLoop profObjPeriodEntryParse profObjPeriodEntryFreed n seq st =
      sequenceLoop profObjPeriodEntryParse profObjPeriodEntryFreed (st.data.length - st.cursor + 1) seq st) ∧
    (∀ seq, sequenceLoop periodEntryParse periodEntryFreed n seq st =
      sequenceLoop periodEntryParse periodEntryFreed (st.data.length - st.cursor + 1) seq st) ∧
    (∀ path, treePathLoop n path st = treePathLoop (st.data.length - st.cursor + 1) path st) ∧
    (∀ t, treeLoop (treeParse depth) n t st =
      treeLoop (treeParse depth) (st.data.length - st.cursor + 1) t st) ∧
    (∀ m, objectListLoop n m st = objectListLoop (st.data.length - st.cursor + 1) m st) ∧
    listLoop n false [] st = listLoop (st.data.length - st.cursor + 1) false [] st := by
  have hpre : Pre (4 * depth) st := ⟨hb, he, hdepth⟩
  refine ⟨fun seq => ?_, fun seq => ?_, fun seq => ?_, fun seq => ?_, fun p => ?_, fun t => ?_, fun m => ?_, ?_⟩
  · exact sequenceLoop_rounds good_valueEntry _ _ _ _ hpre hn (by omega)
  · exact sequenceLoop_rounds good_profObjHeaderEntry _ _ _ _ hpre hn (by omega)
  · exact sequenceLoop_rounds good_profObjPeriodEntry _ _ _ _ hpre hn (by omega)
  · exact sequenceLoop_rounds good_periodEntry _ _ _ _ hpre hn (by omega)
  · exact treePathLoop_rounds _ _ _ _ hpre hn (by omega)
  · exact treeLoop_rounds (good_tree depth) _ _ _ _ hpre hn (by omega)
  · exact objectListLoop_rounds _ _ _ _ hpre hn (by omega)
  · exact listLoop_rounds _ _ _ _ _ hpre (by simp) hn (by omega)

/-- A header announcing 2^28 - 1 elements in front of three bytes. -/
example : holds (getNextLength { data := [0xff, 0x8f, 0x8f, 0x8f, 0x8f, 0x8f, 0x0f, 0x02, 0x41, 0x01] })
    (fun n s => decide (n = 268435455) && s.cursor == 7 && !s.error) = true := by decide +kernel

/-- C03: after parsing and freeing, no block is live, unless the DZG workaround re-labelled a value
that is not a number, which takes a telegram containing the bytes `0a 01 'D' 'Z' 'G'`. -/
theorem c03_no_leak (buffer : List UInt8) (depth : Nat) (hlen : buffer.length ≤ 294912)
    (hdepth : buffer.length < 4 * depth) :
    ∃ f s s', fileParse depth buffer = .ok f s ∧ fileFree f s = .ok () s' ∧
      (s'.live = 0 ∨ (s.confused = true ∧ ∃ i, (buffer.drop i).take 5 = [0x0a, 0x01, 0x44, 0x5a, 0x47])) := by
  obtain ⟨f, s, e, h1, hok, hfr, hex, _⟩ := fileParse_post hlen hdepth
  obtain ⟨_, s', e', h'⟩ := post_iff.1 ((post_fileFree (Q := fun _ s' => s'.live = s.live - fileFreed f) hok).2 ⟨hfr, rfl⟩)
  refine ⟨f, s, s', e, e', ?_⟩
  cases hc : s.confused with
  | false =>
    left
    have := hex hc
    omega
  | true =>
    right
    refine ⟨rfl, ?_⟩
    rcases h1.conf hc with h | h
    · cases h
    · exact h

example : holds (fileParse 35 telegram) (fun f s => !s.confused && s.live == 63 &&
    holds (fileFree f s) (fun _ s' => s'.live == 0)) = true := by decide +kernel

/-- C03, the exception is real: a DZG telegram whose power value is an octet string loses a block. -/
theorem c03_relabel_leak : ∃ buffer f s s', fileParse 100 buffer = .ok f s ∧ fileFree f s = .ok () s' ∧
    s.error = false ∧ s'.live = 1 := by
  have h : holds (fileParse 100 dzgStrMsg) (fun f s => !s.error &&
    holds (fileFree f s) (fun _ s' => s'.live == 1)) = true := by decide +kernel
  refine ⟨dzgStrMsg, ?_⟩
  unfold holds at h
  split at h
  · rename_i f s e
    simp at h
    obtain ⟨h1, h2⟩ := h
    split at h2
    · rename_i s' e'
      exact ⟨f, s, s', e, e', h1, by simpa using h2⟩
    · cases h2
  · cases h

/-- C04: at most two blocks per byte plus four are live at the end of parsing. -/
theorem c04_heap_linear (buffer : List UInt8) (depth : Nat) (hlen : buffer.length ≤ 294912)
    (hdepth : buffer.length < 4 * depth) :
    ∃ f s, fileParse depth buffer = .ok f s ∧ s.live ≤ 2 * buffer.length + 4 := by
  obtain ⟨f, s, e, h1, _, _, _, h6, _⟩ := fileParse_post hlen hdepth
  have := h1.bound
  simp only at this
  exact ⟨f, s, e, by omega⟩

example : holds (fileParse 35 telegram) (fun _ s => decide (s.live ≤ 2 * telegram.length + 4)) = true := by
  decide +kernel

/-- C06: a signed overflow in the length arithmetic needs seven consecutive bytes with the top
bit set. -/
theorem c06_overflow_needs (buffer : List UInt8) (depth : Nat) (hlen : buffer.length ≤ 294912)
    (hdepth : buffer.length < 4 * depth) :
    ∃ f s, fileParse depth buffer = .ok f s ∧
      (s.sovf = true → ∃ i, ∀ j, j < 7 → ∃ b, buffer[i + j]? = some b ∧ 128 ≤ b.toNat) := by
  obtain ⟨f, s, e, h1, _⟩ := fileParse_post hlen hdepth
  refine ⟨f, s, e, fun ho => ?_⟩
  rcases h1.sovf ho with h | h
  · cases h
  · exact h

/-- C06: such inputs exist, and the run stays inside the buffer (`.ok`). -/
theorem c06_overflow_happens : ∃ buffer f s, fileParse 100 buffer = .ok f s ∧ s.sovf = true := by
  have h : holds (fileParse 100 [0xf8, 0x80, 0x80, 0x80, 0x80, 0x80, 0x80, 0x00, 0x00]) (fun _ s => s.sovf) = true := by
    decide +kernel
  refine ⟨[0xf8, 0x80, 0x80, 0x80, 0x80, 0x80, 0x80, 0x00, 0x00], ?_⟩
  unfold holds at h
  split at h
  · rename_i f s e; exact ⟨f, s, e, h⟩
  · cases h

/-- C06: the bound is sharp in the number of bytes: six high bytes are not enough. -/
example : holds (fileParse 100 [0xff, 0x8f, 0x8f, 0x8f, 0x8f, 0x8f, 0x0f, 0x00]) (fun _ s => !s.sovf) = true := by
  decide +kernel

/-- C08: a message is delivered only if no error is set on return. -/
theorem c08_error_null (depth : Nat) (st s : St) (r : Option Message)
    (h : messageParse depth st = .ok r s) (he : s.error = true) : r = none := by
  cases r with
  | none => rfl
  | some m =>
    have := message_sure depth st _ _ h (by simp)
    rw [this] at he; cases he

example : holds (messageParse 35 { data := openMsg.take 20 }) (fun r s => r.isNone && s.error) = true := by decide +kernel

/-- C08: an error flag once set is never cleared. -/
theorem c08_sticky (depth : Nat) (st s : St) (r : Option Message) (he : st.error = true)
    (h : messageParse depth st = .ok r s) : s.error = true := message_sticky h he

example : holds (messageParse 35 { data := openMsg, error := true }) (fun _ s => s.error) = true := by decide +kernel

/-- C08: `sml_file_parse` delivers exactly the messages accepted before the first error: its run is
a run of the specification, in which a failing message contributes nothing. -/
theorem c08_prefix (depth : Nat) (buffer : List UInt8) (f : File) (s : St)
    (h : fileParse depth buffer = .ok f s) :
    Run (messageParse depth) { data := buffer, live := 3 } f.messages s := fileParse_run h

/-- A telegram cut off in its second message delivers the first. -/
example : holds (fileParse 35 (telegram.take 96)) (fun f s => f.messages.length == 1 && s.error) = true := by
  decide +kernel

end Sml
