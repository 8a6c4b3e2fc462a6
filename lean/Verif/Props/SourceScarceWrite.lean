import Verif.Proofs.SourceScarceWrite
import Verif.Props.SourceWrite
import Verif.Props.SourceScarce

/-!
# Writing a file when memory runs out

`sml_message_write` asks for memory once, for its checksum, and does not look at the answer; `sml_number_write` writes a value that is
missing as one that is left out. So `sml_file_write` goes on whatever the answers are, and what it sends is not a file any more.
-/

namespace Sml.C

open Sml.Spec

variable {m : Mem} {file buf bytes : Nat} {ms : List Message} {L : List (Nat × HCell)} {st : St}

/-- C83: whenever the model of `sml_file_write` on values has a result for the table `av`, its source ends without an undefined step when requests are met
as `av` says; the buffer then has the bytes and the position of the model and the file has its messages. There is one request for each message. -/
theorem c83_write (H : Holding m file buf bytes ms L st) (av : Nat → Bool) {ms' : List Message} {st' : St} (hw : fileWriteScarce av m.next ms st = .ok ms' st') :
    ∃ m' L', ScarceTo av .sml_file_write [.ptr (.heap file) 0] m .undef m' ∧ Holding m' file buf bytes ms' L' st' ∧ m'.next = m.next + ms.length ∧ m'.stack = m.stack ∧
      (∀ a b, a ≠ buf → a ≠ bytes → a ∉ L.map Prod.fst → m.heap a = some b → m'.heap a = some b) := by
  obtain ⟨h', L', g', hr, o, hi, hn, hl, hc⟩ := fileWriteScarce_run H.ctx av H.holds.1 H.inv H.own hw
  rw [H.mem] at hc
  obtain ⟨a1, a2, _⟩ := H.written hr o hi
  exact ⟨_, L', hc, a1, hn, rfl, a2⟩

/-- C83: messages the format can represent are written whatever requests are refused: with their checksums where the request is met, and with a value that is left
out where it is not (`scarceBytes`). -/
theorem c83_bytes (H : Holding m file buf bytes ms L st) (av : Nat → Bool) (s : Bool) (hok : ∀ x ∈ ms, MessageOk s x) (hfit : st.cursor + (scarceBytes av m.next ms).length ≤ st.data.length)
    (hcov : Covered (st.data.drop st.cursor) (scarceBytes av m.next ms)) :
    ∃ m' L' st', ScarceTo av .sml_file_write [.ptr (.heap file) 0] m .undef m' ∧ Holding m' file buf bytes (scarceSealed av m.next ms) L' st' ∧
      st'.cursor = st.cursor + (scarceBytes av m.next ms).length ∧ st'.error = st.error ∧ st'.sovf = st.sovf ∧
      st'.data = st.data.take st.cursor ++ scarceBytes av m.next ms ++ st.data.drop (st.cursor + (scarceBytes av m.next ms).length) := by
  obtain ⟨m', L', c, h, _⟩ := c83_write H av (run_fileWriteScarce s av ms m.next st hok hfit H.len hcov)
  exact ⟨m', L', _, c, h, rfl, rfl, rfl, rfl⟩

theorem scarceBytes_le (av : Nat → Bool) : ∀ (ms : List Message) (i : Nat), (scarceBytes av i ms).length ≤ (fileBytes ms).length
  | [], _ => Nat.le_refl _
  | m :: ms, i => by
    have ih := scarceBytes_le av ms (i + 1)
    rw [scarceBytes, show fileBytes (m :: ms) = messageBytes (checksum m) m ++ fileBytes ms from rfl, List.length_append, List.length_append]
    split
    · omega
    · have : (bareBytes m).length ≤ (messageBytes (checksum m) m).length := by
        rw [bareBytes_length, messageBytes_length]
        omega
      omega

theorem le_scarceBytes (av : Nat → Bool) : ∀ (ms : List Message) (i : Nat), ms.length ≤ (scarceBytes av i ms).length
  | [], _ => Nat.le_refl _
  | m :: ms, i => by
    have ih := le_scarceBytes av ms (i + 1)
    rw [scarceBytes, List.length_append, List.length_cons]
    split
    · rw [messageBytes_length]
      omega
    · rw [bareBytes_length]
      omega

/-- C83: so `sml_file_write` survives every table of refusals, if what it would write with enough memory fits into a buffer that is zero from the cursor on. -/
theorem c83_survives (H : Holding m file buf bytes ms L st) (s : Bool) (hok : ∀ x ∈ ms, MessageOk s x) (hfit : st.cursor + (fileBytes ms).length ≤ st.data.length)
    (hz : ∀ b ∈ st.data.drop st.cursor, b = 0) (av : Nat → Bool) :
    ∃ m' L' st', ScarceTo av .sml_file_write [.ptr (.heap file) 0] m .undef m' ∧ Holding m' file buf bytes (scarceSealed av m.next ms) L' st' ∧
      st'.cursor = st.cursor + (scarceBytes av m.next ms).length ∧ st'.error = st.error ∧ st'.sovf = st.sovf ∧
      st'.data = st.data.take st.cursor ++ scarceBytes av m.next ms ++ st.data.drop (st.cursor + (scarceBytes av m.next ms).length) :=
  c83_bytes H av s hok (by have := scarceBytes_le av ms m.next; omega) (zeros_covered _ _ fun b hb => hz b (List.mem_of_mem_take hb))

/-- C83: the receiver of such bytes, who has enough memory: `sml_file_parse` returns a file with the messages in front of the first one without a checksum and no
other, and the error flag of its buffer is set if there is such a message. -/
theorem c83_receiver (av : Nat → Bool) (i : Nat) (ms : List Message) (hok : ∀ x ∈ ms, MessageOk true x) (hcnt : ms.length ≤ 32767) (hlen : (scarceBytes av i ms).length ≤ 2147483647)
    (m : Mem) (hz : m.heap 0 = none) (h0 : 0 < m.next) (hw : ∀ a, m.next ≤ a → m.heap a = none) (hov : m.sovf = false) (p : Val)
    (hp : ∀ env, loadBytes p (scarceBytes av i ms).length env m = .ok (scarceBytes av i ms) env m) :
    ∃ file buf bytes m1 L s, CallTo .sml_file_parse [p, .int .u64 (scarceBytes av i ms).length] m (.ptr (.heap file) 0) m1 ∧
      Holding m1 file buf bytes (beforeBare av i ms) L s ∧ (s.error = true ↔ ∃ j, j < ms.length ∧ av (i + j) = false) := by
  obtain ⟨depth, hd, hdep⟩ := depth_bound ms ((scarceBytes av i ms).length + 1)
  have hn := le_scarceBytes av ms i
  obtain ⟨f, s, e⟩ : ∃ f s, fileParse depth (scarceBytes av i ms) = .ok f s := by
    rcases c02_terminates (scarceBytes av i ms) depth hlen (by omega) with ⟨f, s, e, _⟩ | ⟨e, _⟩
    · exact ⟨f, s, e⟩
    · exact absurd e (run_fileLoop_scarce_counter av ms i ((scarceBytes av i ms).length + 1) { messages := [] } { data := scarceBytes av i ms, live := 3 }
        (fun x hx => ⟨hok x hx, hdep x hx⟩) (by omega) (by omega) (by simpa using hcnt) rfl (Nat.zero_le _) rfl hlen (by simp only; omega))
  obtain ⟨file, buf, bytes, m1, L, _, c, H, _⟩ := c71_parsed_ok m hz h0 hw hov (scarceBytes av i ms) hlen p hp depth (by omega) f s e
  obtain ⟨h1, h2⟩ := run_fileLoop_scarce av ms i ((scarceBytes av i ms).length + 1) { messages := [] } { data := scarceBytes av i ms, live := 3 }
    (fun x hx => ⟨hok x hx, hdep x hx⟩) (by omega) (by omega) (by simpa using hcnt) rfl (Nat.zero_le _) rfl (by simp only; omega) f s e
  rw [List.nil_append] at h1
  rw [h1] at H
  exact ⟨file, buf, bytes, m1, L, s, c, H, h2⟩

/-- C83: with no memory at all the sender reports nothing, and the receiver gets no message. -/
theorem c83_nothing (H : Holding m file buf bytes ms L st) (hms : ms ≠ []) (hok : ∀ x ∈ ms, MessageOk true x) (hcnt : ms.length ≤ 32767) (hc : st.cursor = 0)
    (hfit : (fileBytes ms).length ≤ st.data.length) (hz : ∀ b ∈ st.data, b = 0) (hov : m.sovf = false) :
    ∃ m1 L1 st1 file2 buf2 bytes2 m2 L2 st2, ScarceTo (fun _ => false) .sml_file_write [.ptr (.heap file) 0] m .undef m1 ∧ Holding m1 file buf bytes (ms.map fun x => { x with crc := none }) L1 st1 ∧
      st1.error = st.error ∧ st1.data.take st1.cursor = ms.flatMap bareBytes ∧
      CallTo .sml_file_parse [.ptr (.heap bytes) 0, .int .u64 st1.cursor] m1 (.ptr (.heap file2) 0) m2 ∧ Holding m2 file2 buf2 bytes2 [] L2 st2 ∧ st2.error = true := by
  have hb : ∀ (ms : List Message) i, scarceBytes (fun _ => false) i ms = ms.flatMap bareBytes ∧ scarceSealed (fun _ => false) i ms = ms.map (fun x => { x with crc := none }) := by
    intro ms
    induction ms with
    | nil => exact fun _ => ⟨rfl, rfl⟩
    | cons x ms ih => exact fun i => ⟨by rw [scarceBytes, (ih _).1]; rfl, by rw [scarceSealed, (ih _).2]; rfl⟩
  have hle := scarceBytes_le (fun _ => false) ms m.next
  obtain ⟨m1, L1, st1, c1, H1, hcur, herr, hso, hdata⟩ := c83_survives H true hok (by omega) (by rw [hc]; exact hz) (fun _ => false)
  rw [hc, Nat.zero_add] at hcur
  rw [hc, List.take_zero, List.nil_append, Nat.zero_add] at hdata
  have htake : st1.data.take st1.cursor = scarceBytes (fun _ => false) m.next ms := by
    rw [hcur, hdata, List.take_left']
    rfl
  have hp : ∀ env, loadBytes (.ptr (.heap bytes) 0) (scarceBytes (fun _ => false) m.next ms).length env m1 = .ok (scarceBytes (fun _ => false) m.next ms) env m1 := by
    intro env
    have := loadBytes_raw (l := .heap bytes) (i := 0) (n := (scarceBytes (fun _ => false) m.next ms).length) (env := env) (m := m1) (bs := st1.data)
      (getBlock_heap (Nat.ne_of_gt (H1.lt H1.hbytes).1) H1.hbytes) (by rw [hdata, List.length_append]; omega)
    rwa [List.drop_zero, ← hcur, htake, hcur] at this
  have hov1 : m1.sovf = false := by rw [H1.ovf, hso, ← H.ovf, hov]
  obtain ⟨file2, buf2, bytes2, m2, L2, s2, c2, H2, h2⟩ := c83_receiver (fun _ => false) m.next ms hok hcnt (by have := H.len; omega) m1 H1.zero (Nat.lt_trans (H1.lt H1.hbuf).1 (H1.lt H1.hbuf).2) H1.free hov1 _ hp
  have hbb : beforeBare (fun _ => false) m.next ms = [] := by cases ms <;> rfl
  rw [hbb] at H2
  rw [(hb ms _).2] at H1
  refine ⟨m1, L1, st1, file2, buf2, bytes2, m2, L2, s2, c1, H1, herr, by rw [htake, (hb ms _).1], by rw [hcur]; exact c2, H2, h2.mpr ⟨0, List.length_pos_iff.mpr hms, rfl⟩⟩

/-- The buffer of a file filled with zeroes. -/
def wipe (m : Mem) (bytes n : Nat) : Mem := { m with heap := setHeap m.heap bytes (some (.raw ((List.replicate n 0).map some))) }

theorem Holding.wiped (H : Holding m file buf bytes ms L st) : Holding (wipe m bytes st.data.length) file buf bytes ms L { st with data := List.replicate st.data.length 0 } where
  holds := ⟨H.holds.1, H.holds.2.1, fun x hx => (setHeap_other (H.apart x hx).2).trans (H.holds.2.2 x hx)⟩
  apart := H.apart
  two := H.two
  hbuf := (setHeap_other (Ne.symm H.two)).trans (by simpa using H.hbuf)
  hbytes := setHeap_same
  cur := by simpa using H.cur
  len := by simpa using H.len
  ovf := H.ovf
  zero := (setHeap_other (Ne.symm (Nat.ne_of_gt (H.lt H.hbytes).1))).trans H.zero
  free := fun a ha => (setHeap_other (by have := (H.lt H.hbytes).2; intro h; subst h; change m.next ≤ a at ha; omega)).trans (H.free a ha)
  ints := H.ints

/-- All this happens: there is a memory with a file with a message, its cursor at the start and the buffer wiped, and then any table may follow. -/
example : ∃ m file buf bytes L st, Holding m file buf bytes [sealed sampleMessage] L st ∧ st.cursor = 0 ∧ (fileBytes [sealed sampleMessage]).length ≤ st.data.length ∧
    (∀ b ∈ st.data, b = 0) ∧ m.sovf = false ∧ MessageOk true (sealed sampleMessage) := by
  obtain ⟨m, file, buf, bytes, L, st, H, h1, _, h2, h3, h4, h5⟩ := sample_held
  exact ⟨_, _, _, _, _, _, H.wiped, h1, by simpa using h2, fun b hb => List.eq_of_mem_replicate hb, h4, h5⟩

/-- Of three messages the second request is refused: three messages are sent, one arrives. -/
example : beforeBare (fun i => i != 6) 5 [sampleMessage, sampleMessage, sampleMessage] = [sealed sampleMessage] ∧
    (scarceBytes (fun i => i != 6) 5 [sampleMessage, sampleMessage, sampleMessage]).length = 238 := by
  refine ⟨rfl, ?_⟩
  simp only [scarceBytes, checksum, ← crc16_eq]
  decide +kernel

end Sml.C
