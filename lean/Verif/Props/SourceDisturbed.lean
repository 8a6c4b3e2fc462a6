import Verif.Proofs.Disturbed
import Verif.Props.SourceStream
import Verif.Props.Crc

/-!
# C93: bits flipped on the line, from the source of the parser

A sender sends messages, and some of their bits arrive changed, so that the bytes of another message, and perhaps another checksum, arrive in
their place. This is what errors in the contents of strings and numbers do; errors in the headers change the structure as well (C51 says then
what is read).
-/

namespace Sml.C

open Spec

/-- What a checksum makes of a message that arrives: it is delivered with a checksum of either kind, and dropped otherwise. -/
def outcome (c : Nat) (x : Message) : List Message :=
  if c = (swap16 (crcX25 (messageHead x))).toNat ∨ c = (crcKermit (messageHead x)).toNat then [{ x with crc := some { size := 2, val := c } }] else []

/-- The messages sent, the bytes that arrive, and the messages that should be delivered: those that arrive as they were sent. Of each of the others an odd number of
bits was flipped. -/
inductive Line : List Message → List UInt8 → List Message → Prop
  | done : Line [] [] []
  | intact {x : Message} {xs : List Message} {bs : List UInt8} {ms : List Message} : Line xs bs ms →
      Line (x :: xs) (messageBytes (checksum x) x ++ bs) (sealed x :: ms)
  | flipped {x x' : Message} {c : Nat} {xs : List Message} {bs : List UInt8} {ms : List Message} : MessageOk true x' → c < 65536 →
      (messageBytes c x').length = (messageBytes (checksum x) x).length →
      bitDistance (Spec.bitsOf (messageBytes (checksum x) x)) (Spec.bitsOf (messageBytes c x')) % 2 = 1 → Line xs bs ms →
      Line (x :: xs) (messageBytes c x' ++ bs) ms

theorem run_one {depth : Nat} (x : Message) (hx : MessageOk true x) (c : Nat) (hc : c < 65536) (hd : messageDepth x ≤ depth) (hlen : (messageBytes c x).length ≤ 2147483647)
    (hdep : (messageBytes c x).length < 4 * depth) :
    ∃ s, Run (messageParse depth) { data := messageBytes c x, live := 3 } (outcome c x) s ∧ s.error = false := by
  obtain ⟨bs, hbs⟩ := messageBytes_first c x
  have hfirst : (messageBytes c x)[0]? = some 0x76 := by rw [hbs]; rfl
  have hdrop : (messageBytes c x).drop 0 = messageBytes c x ++ [] := by simp
  unfold outcome
  rw [← crc16_eq, ← crc16kermit_eq]
  by_cases h : c = (crc16 (messageHead x)).toNat ∨ c = (crc16kermit (messageHead x)).toNat
  · rw [if_pos h]
    have e := run_messageParse (depth := depth) x hx (by omega) hd c h { data := messageBytes c x, live := 3 } [] hdrop rfl hlen
    refine ⟨_, .accept 3 hfirst (by decide) e rfl (.done (by simp)), rfl⟩
  · rw [if_neg h]
    obtain ⟨r, s, e, hs, _⟩ := post_iff.1 (good_message depth { data := messageBytes c x, live := 3 } hlen (by simp) ⟨by simp, rfl, by simpa using hdep⟩ (by omega))
    obtain ⟨rfl, e2, e3, _⟩ := run_messageParse_wrong (depth := depth) x hx (by omega) hd c hc ⟨fun k => h (.inl k), fun k => h (.inr k)⟩
      { data := messageBytes c x, live := 3 } [] hdrop rfl hlen r s e
    unfold St.rest at e3
    obtain ⟨h1, h2, h3⟩ := drop_cons_get e3
    refine ⟨_, .drop hfirst (by decide) e e2 (.zero (by rw [List.getElem?_eq_getElem h1, h2]) (.done ?_)), e2⟩
    simpa using h3

/-- C93, exactly: the source of `sml_file_parse` delivers a message with its X-25 or its KERMIT checksum, and drops it with any other, without an error. -/
theorem c93_exact (x : Message) (hx : MessageOk true x) (c : Nat) (hc : c < 65536) (hlen : (messageBytes c x).length ≤ 2147483647) : ReadAs (messageBytes c x) (outcome c x) false := by
  obtain ⟨s, h, he⟩ := run_one (depth := messageDepth x + (messageBytes c x).length + 1) x hx c hc (by omega) hlen (by omega)
  rw [← he]
  exact reads_of_run hlen (by omega) h

theorem outcome_sealed (x : Message) : outcome (checksum x) x = [sealed x] := if_pos (.inl rfl)

theorem outcome_flipped {x x' : Message} {c : Nat} (hl : (messageBytes c x').length = (messageBytes (checksum x) x).length)
    (ho : bitDistance (Spec.bitsOf (messageBytes (checksum x) x)) (Spec.bitsOf (messageBytes c x')) % 2 = 1) : outcome c x' = [] := by
  unfold outcome
  rw [← crc16_eq, ← crc16kermit_eq]
  refine if_neg fun h => ?_
  rw [bitDistance_parity _ _ (by rw [bitsOf_length, bitsOf_length, hl]), parity_messageBytes x' c h, parity_messageBytes x _ (.inl (checksum_eq x))] at ho
  cases ho

theorem run_line {xs : List Message} {bs : List UInt8} {ms : List Message} (h : Line xs bs ms) : (∀ x ∈ xs, MessageOk true x) → bs.length ≤ 2147483647 →
    ∃ d, ∀ depth, d ≤ depth → bs.length < 4 * depth → ∃ s, Run (messageParse depth) { data := bs, live := 3 } ms s ∧ s.error = false := by
  have join : ∀ {x : Message} {c : Nat} {bs : List UInt8} {ms : List Message}, MessageOk true x → c < 65536 → (messageBytes c x ++ bs).length ≤ 2147483647 →
      (∃ d, ∀ depth, d ≤ depth → bs.length < 4 * depth → ∃ s, Run (messageParse depth) { data := bs, live := 3 } ms s ∧ s.error = false) →
      ∃ d, ∀ depth, d ≤ depth → (messageBytes c x ++ bs).length < 4 * depth →
        ∃ s, Run (messageParse depth) { data := messageBytes c x ++ bs, live := 3 } (outcome c x ++ ms) s ∧ s.error = false := by
    rintro x c bs ms hx hc hlen ⟨d, h⟩
    have hl : (messageBytes c x ++ bs).length = (messageBytes c x).length + bs.length := List.length_append
    refine ⟨d + messageDepth x, fun depth h1 h2 => ?_⟩
    obtain ⟨s1, r1, e1⟩ := run_one (depth := depth) x hx c hc (by omega) (by omega) (by omega)
    obtain ⟨s2, r2, e2⟩ := h depth (by omega) (by omega)
    obtain ⟨s, r, e⟩ := run_join hlen h2 r1 e1 r2
    exact ⟨s, r, e.trans e2⟩
  induction h with
  | done => exact fun _ _ => ⟨0, fun depth _ _ => ⟨_, .done (Nat.le_refl _), rfl⟩⟩
  | @intact x xs bs ms _ ih =>
    intro hok hlen
    have hl : (messageBytes (checksum x) x ++ bs).length = (messageBytes (checksum x) x).length + bs.length := List.length_append
    have := join (hok x (by simp)) (BitVec.isLt _) hlen (ih (fun y hy => hok y (by simp [hy])) (by omega))
    rwa [outcome_sealed] at this
  | @flipped x x' c xs bs ms hx' hc hl ho _ ih =>
    intro hok hlen
    have hl2 : (messageBytes c x' ++ bs).length = (messageBytes c x').length + bs.length := List.length_append
    have := join hx' hc hlen (ih (fun y hy => hok y (by simp [hy])) (by omega))
    rwa [outcome_flipped hl ho] at this

/-- C93: of a telegram in whose messages bits were flipped, in each an odd number or none, the source of `sml_file_parse` delivers exactly the messages that were not hit, and
reports no error. -/
theorem c93_odd (xs : List Message) (bs : List UInt8) (ms : List Message) (h : Line xs bs ms) (hok : ∀ x ∈ xs, MessageOk true x) (hlen : bs.length ≤ 2147483647) :
    ReadAs bs ms false := by
  obtain ⟨d, hr⟩ := run_line h hok hlen
  obtain ⟨s, r, e⟩ := hr (d + bs.length + 1) (by omega) (by omega)
  rw [← e]
  exact reads_of_run hlen (by omega) r

theorem outcome_other {x x' : Message} (h : crc16 (messageHead x) ≠ crc16 (messageHead x')) :
    outcome (checksum x) x' = if checksum x = (crcKermit (messageHead x')).toNat then [{ x' with crc := some { size := 2, val := checksum x } }] else [] := by
  have hne : ¬ checksum x = (swap16 (crcX25 (messageHead x'))).toNat := fun k => h (by
    rw [crc16_eq, crc16_eq]
    exact BitVec.eq_of_toNat_eq k)
  unfold outcome
  simp only [hne, false_or]

/-- C93, bursts and pairs: a message arrives with its right checksum, but the bytes before the checksum were hit by a burst of at most 16 bits, or by two flipped bits less than 32767 bits apart. The
source of `sml_file_parse` drops it, without an error, unless the checksum happens to be the KERMIT checksum of what has arrived: what gets through, gets through by the second kind of checksum. -/
theorem c93_burst (x x' : Message) (hx' : MessageOk true x') (hlen : (messageBytes (checksum x) x').length ≤ 2147483647) (hl : (messageHead x).length = (messageHead x').length)
    (h : IsBurst 16 (bitDiff (Spec.bitsOf (messageHead x)) (Spec.bitsOf (messageHead x'))) ∨
      ∃ dist, dist < 32767 ∧ IsPair dist (bitDiff (Spec.bitsOf (messageHead x)) (Spec.bitsOf (messageHead x')))) :
    ReadAs (messageBytes (checksum x) x') (if checksum x = (crcKermit (messageHead x')).toNat then [{ x' with crc := some { size := 2, val := checksum x } }] else []) false := by
  have hne : crc16 (messageHead x) ≠ crc16 (messageHead x') := by
    rcases h with h | ⟨dist, hd, h⟩
    · exact (c18_bursts _ _ hl h).1
    · exact (c18_pairs _ _ hl dist hd h).1
  rw [← outcome_other hne]
  exact c93_exact x' hx' _ (BitVec.isLt _) hlen

/-- A list response with one counter reading, in tenths of a watt hour. -/
def readingMessage (v : Nat) : Message :=
  { transactionId := some ⟨[0x03, 0x40]⟩, groupId := some ⟨1, 0⟩, abortOnError := some ⟨1, 0⟩,
    messageBody := some { tag := some ⟨4, 0x701⟩, data := .getListResponse (some { serverId := some ⟨[0x0A, 0x01]⟩, valList := [{ sampleEntry with value := some ⟨0x58, .num (some ⟨8, v⟩)⟩ }, sampleEntry2] }) },
    crc := none }

theorem readingMessage_ok (v : Nat) (hv : v < 256 ^ 8) : MessageOk true (readingMessage v) := by
  have h : ListEntryOk true { sampleEntry with value := some ⟨0x58, .num (some ⟨8, v⟩)⟩ } := by
    obtain ⟨h1, h2, h3, h4, h5, _, h7⟩ := sampleEntry_ok true
    exact ⟨h1, h2, h3, h4, h5, opt_some ⟨8, by decide, Or.inl rfl, opt_some (numOk_lit hv true), by simp⟩, h7⟩
  refine ⟨opt_some (strOk_small (by simp) (by decide) true), opt_some (numOk_lit (by decide) true), opt_some (numOk_lit (by decide) true),
    _, rfl, _, rfl, numOk_lit (by decide) true, rfl, _, rfl, opt_none, opt_some (strOk_small (by simp) (by decide) true), opt_none, opt_none, ⟨by simp, ?_, fun _ => ?_⟩, opt_none, opt_none⟩
  · intro e he
    simp only [List.mem_cons, List.not_mem_nil, or_false] at he
    rcases he with rfl | rfl
    · exact h
    · exact sampleEntry2_ok true
  · simp only [List.pairwise_cons, List.not_mem_nil, false_implies, implies_true, List.Pairwise.nil, and_true, List.mem_singleton, forall_eq]
    rintro ⟨h, _⟩
    revert h
    unfold IsDzgSerial sampleEntry
    simp

theorem readingMessage_checksum : checksum (readingMessage 12345) = 58182 := by
  unfold checksum
  rw [← crc16_eq]
  decide +kernel

theorem readingMessage_kermit : (crcKermit (messageHead (readingMessage 1126457))).toNat = 58182 := by
  rw [← crc16kermit_eq]
  decide +kernel

/-- C93, the limit: two flipped bits in one byte of a counter go undetected although the checksum in the message is the right one for the message that was sent. Sent is a reading
of 1234.5 Wh, and the source of `sml_file_parse` delivers 112645.7 Wh without an error: the checksum of the one kind of the message sent is the checksum of the other kind of the
message that arrives. -/
theorem c93_two : ∃ x x' : Message, x = readingMessage 12345 ∧ x' = readingMessage 1126457 ∧ MessageOk true x ∧ MessageOk true x' ∧
    (messageBytes (checksum x) x').length = (messageBytes (checksum x) x).length ∧
    bitDistance (Spec.bitsOf (messageBytes (checksum x) x)) (Spec.bitsOf (messageBytes (checksum x) x')) = 2 ∧
    Delivers (messageBytes (checksum x) x) [sealed x] false ∧ Delivers (messageBytes (checksum x) x') [{ x' with crc := some { size := 2, val := checksum x } }] false := by
  have hx := readingMessage_ok 12345 (by decide)
  have hx' := readingMessage_ok 1126457 (by decide)
  have hc : checksum (readingMessage 12345) = (crcKermit (messageHead (readingMessage 1126457))).toNat := readingMessage_checksum.trans readingMessage_kermit.symm
  refine ⟨_, _, rfl, rfl, hx, hx', by decide +kernel, by rw [readingMessage_checksum]; decide +kernel, ?_, ?_⟩
  · have h := c93_exact _ hx (checksum (readingMessage 12345)) (BitVec.isLt _) (by decide +kernel)
    rw [outcome_sealed] at h
    exact h.1 (by decide)
  · have h := c93_exact _ hx' (checksum (readingMessage 12345)) (BitVec.isLt _) (by decide +kernel)
    rw [outcome, if_pos (.inr hc)] at h
    exact h.1 (by decide)

/-- The counter counts on by one, which changes two neighbouring bits, and the checksum stays the same: dropped. -/
example : IsBurst 16 (bitDiff (Spec.bitsOf (messageHead (readingMessage 12345))) (Spec.bitsOf (messageHead (readingMessage 12346)))) ∧
    Delivers (messageBytes (checksum (readingMessage 12345)) (readingMessage 12346)) [] false := by
  have h : IsBurst 16 (bitDiff (Spec.bitsOf (messageHead (readingMessage 12345))) (Spec.bitsOf (messageHead (readingMessage 12346)))) :=
    ⟨440, [true, true], 166, by decide +kernel, by decide, by decide⟩
  refine ⟨h, ?_⟩
  have := c93_burst _ _ (readingMessage_ok 12346 (by decide)) (by decide +kernel) (by decide +kernel) (.inl h)
  rw [readingMessage_checksum, if_neg (by rw [← crc16kermit_eq]; decide +kernel)] at this
  rw [readingMessage_checksum]
  exact this.1 (by decide)

/-- The same reading is sent three times, and one bit of the second is flipped: the first and the third are delivered. -/
example : ∃ bs, Line (List.replicate 3 (readingMessage 12345)) bs (List.replicate 2 (sealed (readingMessage 12345))) ∧
    Delivers bs (List.replicate 2 (sealed (readingMessage 12345))) false := by
  have h : Line (List.replicate 3 (readingMessage 12345)) _ (List.replicate 2 (sealed (readingMessage 12345))) :=
    .intact (.flipped (x' := readingMessage 28729) (c := 58182) (readingMessage_ok _ (by decide)) (by decide) (by decide +kernel)
      (by rw [readingMessage_checksum]; decide +kernel) (.intact .done))
  refine ⟨_, h, (c93_odd _ _ _ h ?_ (by decide +kernel)).1 (by decide)⟩
  intro x hx
  rw [List.eq_of_mem_replicate hx]
  exact readingMessage_ok _ (by decide)

/-- With a checksum of neither kind a reading is dropped. -/
example : outcome 0 (readingMessage 12345) = [] ∧ outcome (checksum (readingMessage 12345)) (readingMessage 12345) = [sealed (readingMessage 12345)] ∧
    Delivers (messageBytes 0 (readingMessage 12345)) [] false := by
  have h : outcome 0 (readingMessage 12345) = [] := if_neg (by rw [← crc16_eq, ← crc16kermit_eq]; decide +kernel)
  refine ⟨h, outcome_sealed _, ?_⟩
  have := (c93_exact _ (readingMessage_ok 12345 (by decide)) 0 (by decide) (by decide +kernel)).1
  rw [h] at this
  exact this (by decide)

end Sml.C
