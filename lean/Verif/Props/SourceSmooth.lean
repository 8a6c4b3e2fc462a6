import Verif.Proofs.SmoothFile
import Verif.Props.SourceLost
import Verif.Props.SourceFuzz

/-!
# C89: conforming telegrams do not make the parser overflow

C06 and C85 name a cause without which no signed computation overflows: seven consecutive bytes with their top bit set. A conforming telegram may
well hold such bytes, in a string. Here it is shown that these do no harm: lengths are computed from headers alone, a header overflows
exactly if it announces 2^31 or more, and on a sequence of fields the parser takes nothing but headers for headers.
-/

namespace Sml.C

open Spec Samples

set_option linter.unusedVariables false

/-- C89: `sml_buf_get_next_length`, run from its source on a complete header anywhere in a buffer, moves the cursor behind it; a signed computation overflows
exactly if the header announces 2^31 or more. -/
theorem c89_header (K : Ctx) (st : St) (nx : Nat) (c : Nat → Option Block) (hlen : st.data.length ≤ 2147483647) (hdr rest : List UInt8) (hh : IsHeader hdr)
    (hd : st.data.drop st.cursor = hdr ++ rest) :
    ∃ (n : Int) (s : St), CallTo .sml_buf_get_next_length [K.buf] (memOf K st nx c) (.int .i32 n) (memOf K s nx c) ∧ s.cursor = st.cursor + hdr.length ∧
      ((memOf K s nx c).sovf = true ↔ (memOf K st nx c).sovf = true ∨ 2147483648 ≤ headerValue hdr) := by
  obtain ⟨n, s, e, hc, ho⟩ := getNextLength_overflow hh hd hlen
  have hcur : st.cursor ≤ st.data.length := by
    obtain ⟨more, last, rfl, _⟩ := hh
    have : (st.data.drop st.cursor).length = (more ++ [last] ++ rest).length := by rw [hd]
    simp at this
    omega
  obtain ⟨_, _, h⟩ := getNextLength_src K st nx c ⟨hcur, hlen⟩ trivial n s e
  exact ⟨n, s, h, hc, ho⟩

/-- C89: a telegram that is a sequence of fields and is read to its end is parsed and freed, both from the source, without an overflow of a signed
computation. What is lost is counted as in C88. -/
theorem c89_fields (m : Mem) (h0 : 0 < m.next) (hw : ∀ a, m.next ≤ a → m.heap a = none) (hov : m.sovf = false) (buffer : List UInt8)
    (hlen : buffer.length ≤ 2147483647) (p : Val) (hp : ∀ env, loadBytes p buffer.length env m = .ok buffer env m) (ms ds : List Message)
    (hd : Whole (buffer.length + 1) buffer ms ds) (hc : ms.length ≤ 32767) (ht : Tokens buffer) :
    ∃ (file buf : Nat) (m1 m2 : Mem) (L : List Blk) (lost : List Nat), CallTo .sml_file_parse [p, .int .u64 buffer.length] m (.ptr (.heap file) 0) m1 ∧ HoldsFile m1 file buf ms L ∧
      CallTo .sml_file_free [.ptr (.heap file) 0] m1 .undef m2 ∧ m2.stack = m.stack ∧ m1.sovf = false ∧ m2.sovf = false ∧
      lost.Nodup ∧ (∀ a, a ∈ lost ↔ m2.heap a ≠ m.heap a) ∧ (∀ a ∈ lost, m.heap a = none) ∧
      m.next ≤ m2.next ∧ (∀ a, m2.next ≤ a → m2.heap a = none) ∧ lost.length = stranded ms + stranded ds := by
  obtain ⟨s, e⟩ : ∃ s, fileParse (buffer.length + 1) buffer = .ok { messages := ms } s := by
    rcases c85_model buffer hlen ms (whole_telegram hd) with ⟨_, h⟩ | ⟨h, _⟩
    · exact h
    · omega
  have ho : s.sovf = false := fileParse_smooth hlen (by omega) ht e (fileParse_clean hlen (by omega) hd e)
  obtain ⟨h1, h2, L', g, g', c1, c2, _⟩ := source_run_ok h0 hw hov hlen hp e
  obtain ⟨file, buf, m1, m2, L, lost, d1, hf, d2, k1, k2, k3, k4, k5, k6, _, _, k7⟩ := c88_lost m h0 hw hov buffer hlen p hp ms (whole_telegram hd) hc
  obtain ⟨ev, rfl⟩ := c65_deterministic c1 d1
  have ev : m.next = file := by injection ev with ev; injection ev
  subst ev
  obtain ⟨_, rfl⟩ := c65_deterministic c2 d2
  exact ⟨m.next, buf, _, _, L, lost, c1, hf, c2, k1, ho, ho, k2, k3, k4, k5, k6, k7 ds hd⟩

/-! ## Conforming senders -/

theorem many_mem {α : Type} {p : α → Term → Prop} : ∀ (as : List α) (ts : List Term), Standard.Each (as.map p) ts → ∀ a ∈ as, ∃ t, p a t
  | [], _, _, a, ha => by cases ha
  | a' :: as, ts, h, a, ha => by
    obtain ⟨t, ts', _, h1, h2⟩ := each_cons h
    rcases List.mem_cons.1 ha with rfl | ha
    · exact ⟨t, h1⟩
    · exact many_mem as ts' h2 a ha

/-- A conforming sender labels strings as strings. -/
theorem standard_stranded {ms : List Message} {bs : List UInt8} (h : Standard.Telegram ms bs) : stranded ms = 0 := by
  induction h with
  | fill n => rfl
  | @message m ms _ _ hm _ ih =>
    have : stranded (m :: ms) = strandedMessage m + stranded ms := by simp [stranded]
    rw [this, ih]
    unfold strandedMessage
    split
    · next t r hb =>
      obtain ⟨hd, ts, x, c, crc, _, _, he, _⟩ := hm
      obtain ⟨_, _, _, _, he⟩ := each_cons he
      obtain ⟨_, _, _, _, he⟩ := each_cons he
      obtain ⟨_, _, _, _, he⟩ := each_cons he
      obtain ⟨_, _, _, ⟨b, hb', ⟨tag, _, _, _, he⟩⟩, _⟩ := each_cons he
      rw [hb] at hb'
      cases hb'
      obtain ⟨_, _, _, _, he⟩ := each_cons he
      obtain ⟨_, _, _, ⟨_, _, hr, _, _, he⟩, _⟩ := each_cons he
      cases hr
      obtain ⟨_, _, _, _, he⟩ := each_cons he
      obtain ⟨_, _, _, _, he⟩ := each_cons he
      obtain ⟨_, _, _, _, he⟩ := each_cons he
      obtain ⟨_, _, _, _, he⟩ := each_cons he
      obtain ⟨_, _, _, ⟨⟨_, _, he⟩, _⟩, _⟩ := each_cons he
      show strandedList r.valList + 0 = 0
      rw [Nat.add_zero]
      unfold strandedList
      rw [List.sum_eq_zero_iff_forall_eq_nat, List.forall_mem_map]
      intro y hy
      obtain ⟨_, _, _, he⟩ := many_mem _ _ he y hy
      obtain ⟨_, _, _, _, he⟩ := each_cons he
      obtain ⟨_, _, _, _, he⟩ := each_cons he
      obtain ⟨_, _, _, _, he⟩ := each_cons he
      obtain ⟨_, _, _, _, he⟩ := each_cons he
      obtain ⟨_, _, _, _, he⟩ := each_cons he
      obtain ⟨_, _, _, ⟨v, hv, he⟩, _⟩ := each_cons he
      unfold strandedEntry
      rw [hv]
      simp only
      unfold strandedValue
      split
      · next s hs =>
        simp only [Standard.value, hs] at he
        exact if_neg fun hx => hx.1 he.1
      · rfl
    · rfl

/-- C89: a conforming telegram of up to `INT_MAX` bytes and 32767 messages is parsed and freed, both from the source, without an overflow of a signed
computation, whatever the bytes of its strings. The file holds its messages, and nothing is lost. -/
theorem c89_standard (m : Mem) (h0 : 0 < m.next) (hw : ∀ a, m.next ≤ a → m.heap a = none) (hov : m.sovf = false) (ms : List Message) (bs : List UInt8)
    (hs : Standard.Telegram ms bs) (hlen : bs.length ≤ 2147483647) (hc : ms.length ≤ 32767) (p : Val) (hp : ∀ env, loadBytes p bs.length env m = .ok bs env m) :
    ∃ (file buf : Nat) (m1 m2 : Mem) (L : List Blk), CallTo .sml_file_parse [p, .int .u64 bs.length] m (.ptr (.heap file) 0) m1 ∧ HoldsFile m1 file buf ms L ∧
      CallTo .sml_file_free [.ptr (.heap file) 0] m1 .undef m2 ∧ m1.sovf = false ∧ m2.sovf = false ∧ m2.stack = m.stack ∧ m2.heap = m.heap ∧
      m.next ≤ m2.next := by
  have hd := standard_whole (d := bs.length + 1) hs ⟨by omega, by omega⟩
  obtain ⟨file, buf, m1, m2, L, lost, c1, hf, c2, k1, o1, o2, _, k3, _, k5, _, k7⟩ := c89_fields m h0 hw hov bs hlen p hp ms [] hd hc (standard_tokens hs hlen)
  refine ⟨file, buf, m1, m2, L, c1, hf, c2, o1, o2, k1, funext fun a => ?_, k5⟩
  rw [standard_stranded hs] at k7
  have hn : lost = [] := List.length_eq_zero_iff.mp k7
  subst hn
  exact Decidable.byContradiction fun hx => absurd ((k3 a).2 hx) (by simp)

/-- C89: any number of readings of a conforming telegram, each parsed and freed, leave the memory of the program as it was. -/
theorem c89_readings (m : Mem) (h0 : 0 < m.next) (hw : ∀ a, m.next ≤ a → m.heap a = none) (hov : m.sovf = false) (ms : List Message) (bs : List UInt8)
    (hs : Standard.Telegram ms bs) (hlen : bs.length ≤ 2147483647) (hc : ms.length ≤ 32767) (d : Nat) (hd0 : d ≠ 0)
    (hb : m.heap d = some (.raw (bs.map some))) (k : Nat) :
    ∃ m2, Readings (.ptr (.heap d) 0) bs.length k m m2 ∧ m2.heap = m.heap ∧ m2.stack = m.stack ∧ m2.sovf = false := by
  suffices ∃ m2, Readings (.ptr (.heap d) 0) bs.length k m m2 ∧ m2.heap = m.heap ∧ m2.stack = m.stack ∧ m2.sovf = false ∧ m.next ≤ m2.next by
    obtain ⟨m2, a, b, c, d, _⟩ := this
    exact ⟨m2, a, b, c, d⟩
  induction k with
  | zero => exact ⟨m, .none m, rfl, rfl, hov, Nat.le_refl _⟩
  | succ k ih =>
    obtain ⟨m', hr, hh, hst, ho, hle⟩ := ih
    have hb' : m'.heap d = some (.raw (bs.map some)) := by rw [hh]; exact hb
    have hp : ∀ env, loadBytes (.ptr (.heap d) 0) bs.length env m' = .ok bs env m' := by
      intro env
      have := loadBytes_raw (l := .heap d) (i := 0) (n := bs.length) (env := env) (m := m') (bs := bs) (getBlock_heap hd0 hb') (by omega)
      rwa [List.drop_zero, List.take_length] at this
    obtain ⟨file, buf, m1, m2, L, c1, _, c2, _, o2, k1, k2, k3⟩ := c89_standard m' (by omega) (fun a ha => by rw [hh]; exact hw a (by omega)) ho ms bs hs hlen hc _ hp
    exact ⟨m2, .more hr c1 c2, k2.trans hh, k1.trans hst, o2, by omega⟩

/-- C89: the fuzz target on a conforming telegram behind eight bytes: it returns 0, nothing overflows, and the memory is as it was. -/
theorem c89_fuzz (m : Mem) (h0 : 0 < m.next) (hw : ∀ a, m.next ≤ a → m.heap a = none) (hov : m.sovf = false) (l : Loc) (x bs : List UInt8) (hx : x.length = 8)
    (hne : bs ≠ []) (hd : ∀ env, getBlock l env m = .ok (.raw ((x ++ bs).map some)) env m) (ms : List Message)
    (hs : Standard.Telegram ms bs) (hlen : bs.length ≤ 2147483647) (hc : ms.length ≤ 32767) :
    ∃ m2, CallTo .LLVMFuzzerTestOneInput [.ptr l 0, .int .u64 (x ++ bs).length] m (.int .i32 0) m2 ∧ m2.stack = m.stack ∧ m2.heap = m.heap ∧ m2.sovf = false := by
  have hpos : 0 < bs.length := List.length_pos_iff.mpr hne
  have hl : (x ++ bs).length ≤ 2147483655 := by rw [List.length_append]; omega
  have hf : fuzzed (x ++ bs) = bs := by
    unfold fuzzed
    rw [if_pos (by rw [List.length_append]; omega), ← hx, List.drop_left]
  obtain ⟨p, hp, ha⟩ := fuzz_args hd hl
  rw [hf] at hp ha
  obtain ⟨file, buf, m1, m2, L, c1, _, c2, _, o2, k1, k2, _⟩ := c89_standard m h0 hw hov ms bs hs hlen hc p hp
  refine ⟨m2, ?_, k1, k2, o2⟩
  refine .of (vs := [.ptr l 0, .int .u64 (x ++ bs).length]) (fun env m => ?_) (.cons (.setPtr (.call ha c1)) <| .cons (.expr (.call1 (.ptr (by rfl)) c2)) <| .ret .lit) fun env => ?_
  · simp only [program, LLVMFuzzerTestOneInput, bindArgs, convTo, asInt, X_bind, X_pure]
    rw [conv_u64 (by omega) (by omega)]
  · exact congrArg (XRes.ok _ env) (mem_stack m2 k1)

/-! ## A telegram with many bytes of this kind -/

/-- A message with eight bytes FF in its transaction id. -/
def highMsg : List UInt8 := [0x76, 0x09, 0xff, 0xff, 0xff, 0xff, 0xff, 0xff, 0xff, 0xff, 0x62, 0x00, 0x62, 0x00, 0x72, 0x63, 0x02, 0x00, 0x71, 0x01,
  0x63, 0x66, 0x51, 0x00]

def highMessage : Message :=
  { transactionId := some ⟨List.replicate 8 0xff⟩, groupId := some ⟨1, 0⟩, abortOnError := some ⟨1, 0⟩,
    messageBody := some ⟨some ⟨4, 0x200⟩, .closeRequest (some { globalSignature := none })⟩, crc := some ⟨2, 0x6651⟩ }

theorem highMessage_sent : Standard.Message highMessage highMsg := by
  refine ⟨[0x76], [.octets (List.replicate 8 0xff), .uint [0x00], .uint [0x00], .list [.uint [0x02, 0x00], .list [.absent]]],
    (highMsg.drop 1).take 19, [0x63, 0x66, 0x51], ⟨2, 0x6651⟩, rfl, short_header _ (by decide) rfl rfl, ?_, ?_, ?_, by rw [← crc16_eq]; decide +kernel, by decide +kernel⟩
  · exact ⟨⟨_, rfl, rfl⟩, ⟨_, rfl, uint_intro _ _ _ (by simp) (by decide) (by decide)⟩, ⟨_, rfl, uint_intro _ _ _ (by simp) (by decide) (by decide)⟩,
      ⟨_, rfl, ⟨4, 0x200⟩, rfl, _, rfl, uint_intro _ _ _ (by simp) (by decide) (by decide), ⟨rfl, _, rfl, _, rfl, rfl, trivial⟩, trivial⟩, trivial⟩
  · exact all_cons (enc_octets (s := List.replicate 8 0xff) (short_header 0x09 (by decide) rfl rfl) (by decide))
      (all_cons (enc_uint 0x62 [0x00] (short_header _ (by decide) rfl rfl)) (all_cons (enc_uint 0x62 [0x00] (short_header _ (by decide) rfl rfl))
      (all_cons (enc_list (h := [0x72]) (short_header _ (by decide) rfl rfl) (all_cons (enc_uint 0x63 [0x02, 0x00] (short_header _ (by decide) rfl rfl))
        (all_cons (enc_list (h := [0x71]) (short_header _ (by decide) rfl rfl) (all_cons enc_absent all_nil)) all_nil))) all_nil)))
  · exact ⟨.uint [0x66, 0x51], uint_intro _ _ _ (by simp) (by decide) (by decide), enc_uint _ _ (short_header _ (by decide) rfl rfl)⟩

/-- The condition of C85 does not hold for this telegram, the one of C89 does. -/
example : (∃ i, ∀ j, j < 7 → ∃ b, highMsg[i + j]? = some b ∧ 128 ≤ b.toNat) ∧ ∀ k, ∃ m2,
    Readings (.ptr (.heap 1) 0) highMsg.length k (bytesMem highMsg) m2 ∧ m2.heap = (bytesMem highMsg).heap ∧ m2.sovf = false := by
  refine ⟨⟨2, fun j hj => ⟨0xff, ?_, by decide⟩⟩, fun k => ?_⟩
  · match j, hj with
    | 0, _ | 1, _ | 2, _ | 3, _ | 4, _ | 5, _ | 6, _ => rfl
  · have hs : Standard.Telegram [highMessage] (highMsg ++ List.replicate 0 0x00) := .message highMessage_sent (.fill 0)
    rw [List.replicate_zero, List.append_nil] at hs
    obtain ⟨m2, a, b, _, c⟩ := c89_readings (bytesMem highMsg) Nat.zero_lt_two (bytesMem_above _) rfl _ highMsg hs (by decide) (by decide) 1 (by decide) rfl k
    exact ⟨m2, a, b, c⟩

/-- The header of a string that announces 2^31, eight bytes in all: an overflow. -/
example (K : Ctx) (nx : Nat) (c : Nat → Option Block) : ∃ (n : Int) (s : St),
    CallTo .sml_buf_get_next_length [K.buf] (memOf K { data := [0x88, 0x80, 0x80, 0x80, 0x80, 0x80, 0x80, 0x00] } nx c) (.int .i32 n) (memOf K s nx c) ∧ (memOf K s nx c).sovf = true := by
  obtain ⟨n, s, h, _, ho⟩ := c89_header K { data := [0x88, 0x80, 0x80, 0x80, 0x80, 0x80, 0x80, 0x00] } nx c (by decide) [0x88, 0x80, 0x80, 0x80, 0x80, 0x80, 0x80, 0x00] []
    ⟨[0x88, 0x80, 0x80, 0x80, 0x80, 0x80, 0x80], 0x00, rfl, by decide, by decide⟩ rfl
  exact ⟨n, s, h, ho.2 (.inr (by decide))⟩

/-- One less is none: the largest length a header can announce. -/
example (K : Ctx) (nx : Nat) (c : Nat → Option Block) : ∃ (n : Int) (s : St),
    CallTo .sml_buf_get_next_length [K.buf] (memOf K { data := [0x87, 0x8f, 0x8f, 0x8f, 0x8f, 0x8f, 0x8f, 0x0f] } nx c) (.int .i32 n) (memOf K s nx c) ∧ (memOf K s nx c).sovf = false := by
  obtain ⟨n, s, h, _, ho⟩ := c89_header K { data := [0x87, 0x8f, 0x8f, 0x8f, 0x8f, 0x8f, 0x8f, 0x0f] } nx c (by decide) [0x87, 0x8f, 0x8f, 0x8f, 0x8f, 0x8f, 0x8f, 0x0f] []
    ⟨[0x87, 0x8f, 0x8f, 0x8f, 0x8f, 0x8f, 0x8f], 0x0f, rfl, by decide, by decide⟩ rfl
  refine ⟨n, s, h, ?_⟩
  cases hx : (memOf K s nx c).sovf with
  | false => rfl
  | true =>
    rcases ho.1 hx with h | h
    · exact absurd h (by simp [memOf])
    · exact absurd h (by decide)

end Sml.C
