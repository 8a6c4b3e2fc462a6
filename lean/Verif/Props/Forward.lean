import Verif.Proofs.Forward
import Verif.Proofs.Deep
import Verif.Proofs.FileLong
import Verif.Props.Grammar
import Verif.Props.RoundTrip
import Verif.Props.Content
import Verif.Props.Stream
import Verif.Props.Transport
import Verif.Spec.Samples

/-!
# C52: what was received can be passed on
-/

namespace Sml
open Spec Spec.Grammar Samples

/-- What the parser delivers satisfies the conditions for a round trip if and only if it satisfies the conditions of
`MessageFits`: everything else, in particular all sizes, tags and labels, is right by itself. -/
theorem c52_conditions (buffer : List UInt8) (depth : Nat) (hlen : buffer.length ≤ 2147483647) (f : File) (s : St) (h : fileParse depth buffer = .ok f s) : ∀ m ∈ f.messages, (MessageOk true m ↔ MessageFits m) := by
  intro m hm
  obtain ⟨i, o, hg⟩ := telegram_mem (run_telegram (fileParse_run h) rfl (by simp) hlen) m hm
  exact fits_message hg

/-- C52: a gateway that parses a telegram, whatever its bytes, and writes the file again produces bytes from which the parser
gets the same messages, provided they satisfy `MessageFits`. Only the checksums are new. -/
theorem c52_forward (buffer : List UInt8) (depth : Nat) (hlen : buffer.length ≤ 2147483647) (hdepth : buffer.length < 4 * depth)
    (f : File) (s : St) (h : fileParse depth buffer = .ok f s) (hf : ∀ m ∈ f.messages, MessageFits m)
    (st : St) (hst : st.cursor = 0) (hfit : (fileBytes f.messages).length ≤ st.data.length) (hi : st.data.length ≤ 2147483647)
    (hcov : Covered st.data (fileBytes f.messages)) :
    ∃ st' s', fileWrite f st = .ok { messages := f.messages.map sealed } st' ∧
      fileParse depth (st'.data.take st'.cursor) = .ok { messages := f.messages.map sealed } s' ∧ s'.error = false := by
  have hcnt := fileLoop_count _ _ _ _ _ h (by simp)
  obtain ⟨st', s', h1, h2, h3, _⟩ := c29_file depth f.messages
    (fun m hm => ⟨(c52_conditions buffer depth hlen f s h m hm).2 (hf m hm), by
      obtain ⟨s3, s4, _, h1, h2⟩ := delivered_body (by omega) h hm
      exact shallow_body h1 h2⟩)
    (by omega) hcnt st hst hfit hi hcov
  exact ⟨st', s', h1, h2, h3⟩

/-- What the list of the DZG telegram is read as: the power, sent as the signed number 53 80 25, is labelled unsigned. -/
def dzgPassed : List ListEntry := [
  { objName := some ⟨[0x01, 0x00, 0x60, 0x01, 0x00, 0xff]⟩
    value := some ⟨0x00, .bytes (some ⟨[0x0a, 0x01, 0x44, 0x5a, 0x47, 0x00, 0x02, 0x80, 0xde, 0x81]⟩)⟩ },
  { objName := some ⟨[0x01, 0x00, 0x10, 0x07, 0x00, 0xff]⟩, unit := some ⟨1, 0x1b⟩, scaler := some ⟨1, 0⟩
    value := some ⟨0x62, .num (some ⟨2, 0x8025⟩)⟩ }]

theorem dzgPassed_fits : ListFits dzgPassed := by
  have h (n : Nat) (h : n < 15) : NoCarry n := noCarry_small h
  simp [dzgPassed, Opt, StrFits, ListFits, ListEntryFits, ValueFits, h, DzgHits]

/-- Here the conditions of `c52_forward` are met: the telegram of a DZG meter, corrected on reading, can be passed on. -/
theorem dzgNum_fits : ∃ f s, fileParse 20 dzgNumMsg = .ok f s ∧ f.messages ≠ [] ∧ ∀ m ∈ f.messages, MessageFits m := by
  have h : holds (fileParse 20 dzgNumMsg) (fun f _ => match f.messages with
      | [⟨some t, _, _, some ⟨_, .getListResponse (some r)⟩, _⟩] => decide (t = ⟨[0x01, 0x05]⟩ ∧ r = { valList := dzgPassed })
      | _ => false) = true := by decide +kernel
  unfold holds at h
  split at h
  next f s heq =>
    refine ⟨f, s, heq, ?_⟩
    dsimp only at h
    split at h
    next t g a tag r c hm =>
      obtain ⟨h1, h2⟩ := of_decide_eq_true h
      rw [hm]
      refine ⟨by simp, fun m hm => ?_⟩
      simp only [List.mem_singleton] at hm
      subst hm
      subst h1
      subst h2
      refine ⟨?_, _, rfl, ?_⟩
      · rintro x ⟨⟩
        exact ⟨by decide, noCarry_small (by decide), by decide⟩
      · rintro x ⟨⟩
        exact ⟨by simp [Opt], by simp [Opt], by simp [Opt], by simp [Opt], dzgPassed_fits, by simp [Opt], by simp [Opt]⟩
    next => cases h
  next => cases h

/-! # C57: telegrams that pass a gateway byte by byte unchanged -/

theorem fileBytes_sealed (ms : List Message) : fileBytes (ms.map sealed) = fileBytes ms := by
  unfold fileBytes
  rw [List.map_map]
  rfl

/-- The bytes a gateway writes. -/
theorem forwarded_bytes (buffer : List UInt8) (depth : Nat) (hlen : buffer.length ≤ 2147483647)
    (f : File) (s : St) (h : fileParse depth buffer = .ok f s) (hf : ∀ m ∈ f.messages, MessageFits m)
    (st : St) (hst : st.cursor = 0) (hfit : (fileBytes f.messages).length ≤ st.data.length) (hi : st.data.length ≤ 2147483647)
    (hcov : Covered st.data (fileBytes f.messages)) :
    (∀ m ∈ f.messages, MessageOk true m ∧ messageDepth m ≤ depth) ∧ f.messages.length ≤ 32767 ∧
    ∃ st', fileWrite f st = .ok { messages := f.messages.map sealed } st' ∧ st'.data.take st'.cursor = fileBytes f.messages := by
  have hcnt := fileLoop_count _ _ _ _ _ h (by simp)
  have hok : ∀ m ∈ f.messages, MessageOk true m ∧ messageDepth m ≤ depth := fun m hm =>
    ⟨(c52_conditions buffer depth hlen f s h m hm).2 (hf m hm), by
      obtain ⟨s3, s4, _, h1, h2⟩ := delivered_body (by omega) h hm
      exact shallow_body h1 h2⟩
  refine ⟨hok, hcnt,
    { st with data := overwrite st (fileBytes f.messages), cursor := (fileBytes f.messages).length, live := st.live + f.messages.length }, ?_, ?_⟩
  · unfold fileWrite
    rw [run_bind, run_fileWriteLoop_clean true f.messages st (fun m hm => (hok m hm).1) (by omega) hi (by rw [hst]; exact hcov), Res.andThen_ok, run_pure, hst]
    simp
  · have := overwrite_take st (fileBytes f.messages) (by omega)
    rw [hst] at this
    simpa using this

/-- The standard form: the encoding of some messages that can be represented. -/
def Standard (depth : Nat) (bs : List UInt8) : Prop :=
  ∃ ms : List Message, (∀ m ∈ ms, MessageOk true m ∧ messageDepth m ≤ depth) ∧ ms.length ≤ 32767 ∧ bs = fileBytes ms

/-- **C57.** What a gateway writes is in standard form. It is what was received, byte by byte, if and only if that was in standard form. -/
theorem c57_identical (buffer : List UInt8) (depth : Nat) (hlen : buffer.length ≤ 2147483647) (hdepth : buffer.length < 4 * depth)
    (f : File) (s : St) (h : fileParse depth buffer = .ok f s) (hf : ∀ m ∈ f.messages, MessageFits m)
    (st : St) (hst : st.cursor = 0) (hfit : (fileBytes f.messages).length ≤ st.data.length) (hi : st.data.length ≤ 2147483647)
    (hcov : Covered st.data (fileBytes f.messages)) :
    ∃ f' st', fileWrite f st = .ok f' st' ∧ Standard depth (st'.data.take st'.cursor) ∧
      (st'.data.take st'.cursor = buffer ↔ Standard depth buffer) := by
  obtain ⟨hok, hcnt, st', h1, h2⟩ := forwarded_bytes buffer depth hlen f s h hf st hst hfit hi hcov
  refine ⟨_, st', h1, ⟨f.messages, hok, hcnt, h2⟩, ?_⟩
  rw [h2]
  constructor
  · intro e
    exact ⟨f.messages, hok, hcnt, e.symm⟩
  · rintro ⟨ms, k1, k2, rfl⟩
    obtain ⟨s', k3, _⟩ := parse_padded depth ms k1 (by omega) k2 0 (by omega)
    rw [List.replicate_zero, List.append_nil, h] at k3
    injection k3 with k3 _
    rw [k3]
    exact fileBytes_sealed ms

/-- **A second gateway changes nothing**: the bytes written are parsed to messages that are written as the same bytes. -/
theorem c57_stable (buffer : List UInt8) (depth : Nat) (hlen : buffer.length ≤ 2147483647) (hdepth : buffer.length < 4 * depth)
    (f : File) (s : St) (h : fileParse depth buffer = .ok f s) (hf : ∀ m ∈ f.messages, MessageFits m)
    (st st2 : St) (hst : st.cursor = 0) (hfit : (fileBytes f.messages).length ≤ st.data.length) (hi : st.data.length ≤ 2147483647)
    (hcov : Covered st.data (fileBytes f.messages))
    (hst2 : st2.cursor = 0) (hfit2 : (fileBytes f.messages).length ≤ st2.data.length) (hi2 : st2.data.length ≤ 2147483647)
    (hcov2 : Covered st2.data (fileBytes f.messages)) :
    ∃ f1 st1 f2 s2 f3 st3, fileWrite f st = .ok f1 st1 ∧ fileParse depth (st1.data.take st1.cursor) = .ok f2 s2 ∧
      fileWrite f2 st2 = .ok f3 st3 ∧ st3.data.take st3.cursor = st1.data.take st1.cursor := by
  obtain ⟨hok, hcnt, st1, h1, h2⟩ := forwarded_bytes buffer depth hlen f s h hf st hst hfit hi hcov
  obtain ⟨s2, k3, _⟩ := parse_padded depth f.messages hok (by omega) hcnt 0 (by omega)
  rw [List.replicate_zero, List.append_nil] at k3
  have hb := fileBytes_sealed f.messages
  have hw := run_fileWriteLoop_clean true (f.messages.map sealed) st2
    (by
      intro m hm
      obtain ⟨m', hm', rfl⟩ := List.mem_map.1 hm
      exact (hok m' hm').1)
    (by rw [hb]; omega) hi2 (by rw [hst2, hb]; exact hcov2)
  refine ⟨_, st1, _, s2, { messages := (f.messages.map sealed).map sealed },
    { st2 with data := overwrite st2 (fileBytes f.messages), cursor := (fileBytes f.messages).length, live := st2.live + f.messages.length }, h1, by rw [h2]; exact k3, ?_, ?_⟩
  · unfold fileWrite
    rw [run_bind, hw, Res.andThen_ok, run_pure, hst2, hb]
    simp
  · have := overwrite_take st2 (fileBytes f.messages) (by omega)
    rw [hst2] at this
    rw [h2]
    simpa using this

/-- **Padding is lost**: a telegram with padding is not in standard form. -/
theorem c57_padding (depth : Nat) (h0 : 0 < depth) (ms : List Message) (hok : ∀ m ∈ ms, MessageOk true m ∧ messageDepth m ≤ depth) (hcnt : ms.length ≤ 32767)
    (k : Nat) (hk : 0 < k) (hi : (fileBytes ms).length + k ≤ 2147483647) : ¬ Standard depth (fileBytes ms ++ List.replicate k 0) := by
  rintro ⟨ms', k1, k2, e⟩
  have hl : (fileBytes ms).length + k = (fileBytes ms').length := by
    have := congrArg List.length e
    simpa using this
  obtain ⟨s1, h1, _⟩ := parse_padded depth ms hok h0 hcnt k hi
  obtain ⟨s2, h2, _⟩ := parse_padded depth ms' k1 h0 k2 0 (by omega)
  rw [List.replicate_zero, List.append_nil, ← e, h1] at h2
  injection h2 with h2 _
  injection h2 with h2
  have := fileBytes_sealed ms
  rw [h2, fileBytes_sealed] at this
  rw [this] at hl
  omega

/-- A telegram in standard form, and one that is not. -/
example : Standard 20 (fileBytes [sampleMessage]) ∧ ¬ Standard 20 (fileBytes [sampleMessage] ++ [0x00]) := by
  have hok : ∀ m ∈ [sampleMessage], MessageOk true m ∧ messageDepth m ≤ 20 := by
    intro m hm
    rw [List.mem_singleton] at hm
    subst hm
    exact ⟨sampleMessage_ok true, by decide⟩
  exact ⟨⟨[sampleMessage], hok, by decide, rfl⟩, c57_padding 20 (by decide) _ hok (by decide) 1 (by decide) (by decide +kernel)⟩

end Sml
