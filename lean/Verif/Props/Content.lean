import Verif.Proofs.Content
import Verif.Model.Util
import Verif.Props.Safety

/-!
# What delivered messages contain: C13, C14, C15; how headers are read: C19
-/

namespace Sml

open Spec Samples

/-- Every delivered message was read somewhere in the buffer. -/
theorem run_mem {depth : Nat} {st s : St} {ms : List Message} (hr : Run (messageParse depth) st ms s) :
    st.cursor ≤ st.data.length → st.data.length ≤ 2147483647 → ∀ m ∈ ms, ∃ st' s', st'.data = st.data ∧
      st'.cursor ≤ st'.data.length ∧ messageParse depth st' = .ok (some m) s' ∧ s'.error = false := by
  induction hr with
  | done _ => intro _ _ m hm; cases hm
  | zero h0 _ ih =>
    intro _ hsm m hm
    exact ih ((List.getElem?_eq_some_iff.1 h0).1) hsm m hm
  | stop _ _ _ _ => intro _ _ m hm; cases hm
  | @accept st s1 s m0 ms b l _ _ h3 h4 _ ih =>
    intro hb hsm m hm
    obtain ⟨d, _, b1⟩ := message_adv hb hsm h3
    rcases List.mem_cons.1 hm with rfl | hm
    · exact ⟨st, s1, rfl, hb, h3, h4⟩
    · have := ih (by simpa [d] using b1) (by simpa [d] using hsm) m hm
      simpa [d] using this
  | drop _ _ h3 h4 _ ih =>
    intro hb hsm m hm
    obtain ⟨d, c, b1⟩ := message_adv hb hsm h3
    have := ih (by simpa [d] using b1) (by simpa [d] using hsm) m hm
    simpa [d] using this

/-- The body of a delivered message. -/
theorem delivered_body {depth : Nat} {buffer : List UInt8} (hlen : buffer.length ≤ 2147483647)
    {f : File} {s : St} (h : fileParse depth buffer = .ok f s) {m : Message} (hm : m ∈ f.messages) :
    ∃ s3 s4, s3.data = buffer ∧ messageBodyParse depth s3 = .ok m.messageBody s4 ∧ s4.error = false := by
  obtain ⟨st, s1, hd, hb, hp, he⟩ := run_mem (fileParse_run h) (by simp) hlen m hm
  obtain ⟨m', s0, s1', s2, s3, s4, s5, c, hst, ⟨_, hr, _⟩ | ⟨_, hr, _⟩⟩ :=
    message_steps hb (by rw [hd]; exact hlen) hp he
  · cases hr
    obtain ⟨d0, _, b0⟩ := loc_getNextLength.adv _ (by simpa using hb) _ _ hst.header
    obtain ⟨d1, _, b1⟩ := loc_octetString.adv _ (by rw [d0]; exact b0) _ _ hst.tid
    obtain ⟨d2, _, b2⟩ := (loc_number tyUnsigned 1).adv _ (by rw [d1]; exact b1) _ _ hst.group
    obtain ⟨d3, _, b3⟩ := (loc_number tyUnsigned 1).adv _ (by rw [d2]; exact b2) _ _ hst.abort
    exact ⟨s3, s4, by rw [d3, d2, d1, d0]; exact hd, hst.body, hst.body_err⟩
  · cases hr

/-! ## C14, C15 -/

/-- C14 (and C15): in every delivered message with a body, the tag is present and fits 32 bits, the
data is of the kind the tag names and not NULL, or NULL for an unknown tag, and the unions inside
are consistent. -/
theorem c14_body_kind (depth : Nat) (buffer : List UInt8) (hlen : buffer.length ≤ 2147483647)
    (f : File) (s : St) (h : fileParse depth buffer = .ok f s) (m : Message) (hm : m ∈ f.messages)
    (b : MessageBody) (hb : m.messageBody = some b) :
    ∃ t, b.tag = some t ∧ t.size = 4 ∧ t.val < 4294967296 ∧ BodyOk t.val b.data := by
  obtain ⟨s3, s4, _, h1, h2⟩ := delivered_body hlen h hm
  rw [hb] at h1
  exact body_ok h1 h2

example : holds (fileParse 35 telegram) (fun f _ =>
    f.messages.all fun m => match m.messageBody with
      | some b => (b.tag.map fun t => decide (t.val ∈ [0x101, 0x701, 0x201])) == some true
      | none => false) = true := by decide +kernel

/-- A message with the unknown tag 0x0999 and the body `71 01`, with correct checksum. -/
def unknownMsg : List UInt8 := [
  0x76, 0x03, 0x01, 0x02, 0x62, 0x00, 0x62, 0x00, 0x72, 0x63, 0x09, 0x99, 0x71, 0x01, 0x63, 0xd7, 0xaf, 0x00]

/-- C14: the body of a message with unknown tag is not skipped; the message is not delivered and
takes all later ones with it. -/
theorem c14_unknown_not_skipped :
    Passes (unknownMsg.take 14) (0xd7af#16) ∧
    ∃ f s, fileParse 35 (unknownMsg ++ openMsg) = .ok f s ∧ f.messages = [] ∧ s.error = true := by
  refine ⟨Or.inl (by decide +kernel), ?_⟩
  have h : holds (fileParse 35 (unknownMsg ++ openMsg)) (fun f s => f.messages.isEmpty && s.error) = true := by
    decide +kernel
  unfold holds at h
  split at h
  next f s heq => simp at h; exact ⟨f, s, heq, h⟩
  next => cases h

/-- A value's data as the C code reads it: no run of `sml_value_to_double` on a well-typed (or
mislabelled) value reads outside the stored object. -/
theorem valueToDouble_defined (v : Value) (h : WellTyped v ∨ Mislabelled v) (st : St) :
    ∃ x, valueToDouble v st = .ok x st := by
  rcases h with h | ⟨h, _⟩
  · unfold WellTyped at h
    unfold valueToDouble
    split at h
    next s hd => rw [h]; exact ⟨0, rfl⟩
    next b hd => rw [h.1]; exact ⟨0, rfl⟩
    next n hd =>
      obtain ⟨_, ⟨h1, h2⟩ | ⟨_, h2⟩⟩ := h
      · rcases h1 with h1 | h1 | h1 | h1 <;> rw [h1] at h2 <;> rcases h2 with h2 | h2 <;> rw [h2] <;>
          simp [hd, h1, pure]
      · rcases h2 with h2 | h2 <;> rw [h2] <;> exact ⟨0, rfl⟩
    next => cases h
  · unfold valueToDouble
    rw [h]
    exact ⟨0, rfl⟩

example : (∃ x, valueToDouble ⟨0x52, .num (some ⟨2, 0xfffe⟩)⟩ { data := [] } = .ok x { data := [] }) ∧ ∃ x, valueToDouble ⟨0x40, .boolean (some 0xff)⟩ { data := [] } = .ok x { data := [] } :=
  ⟨valueToDouble_defined ⟨0x52, .num (some ⟨2, 0xfffe⟩)⟩ (.inl ⟨by decide, .inl ⟨.inr (.inl rfl), .inl rfl⟩⟩) _,
    valueToDouble_defined ⟨0x40, .boolean (some 0xff)⟩ (.inl ⟨rfl, .inr rfl⟩) _⟩

/-- C15 for measurement lists: a value of a delivered list is well typed, or a mislabelled power
value after the serial number of an affected DZG meter; `sml_value_to_double` is defined on it. -/
theorem c15_list_values (depth : Nat) (buffer : List UInt8) (hlen : buffer.length ≤ 2147483647)
    (f : File) (s : St) (h : fileParse depth buffer = .ok f s) (m : Message) (hm : m ∈ f.messages)
    (b : MessageBody) (hb : m.messageBody = some b) (r : GetListResponse)
    (hr : b.data = .getListResponse (some r)) (e : ListEntry) (he : e ∈ r.valList) (v : Value)
    (hv : e.value = some v) :
    (WellTyped v ∨ (Mislabelled v ∧ IsPower e ∧ ∃ e' ∈ r.valList, IsDzgSerial e')) ∧
    ∀ st, ∃ x, valueToDouble v st = .ok x st := by
  obtain ⟨t, _, _, _, hok⟩ := c14_body_kind depth buffer hlen f s h m hm b hb
  rw [hr] at hok
  obtain ⟨_, r', hr', hes⟩ := hok
  cases hr'
  obtain ⟨i, hi⟩ := List.getElem?_of_mem he
  rcases hes i e v hi hv with hw | ⟨hw, hp, j, e', _, hj, hs⟩
  · exact ⟨Or.inl hw, valueToDouble_defined v (Or.inl hw)⟩
  · exact ⟨Or.inr ⟨hw, hp, e', List.mem_of_getElem? hj, hs⟩, valueToDouble_defined v (Or.inr hw)⟩

/-- Both cases occur: the second entry of `dzgStrMsg` is mislabelled, that of `dzgNumMsg` is not. -/
example : holds (fileParse 35 dzgStrMsg) (fun f _ => match f.messages with
    | [m] => match m.messageBody with
      | some b => match b.data with
        | .getListResponse (some r) => r.valList.map (fun e => e.value.map (·.type)) == [some 0, some 0x60]
        | _ => false
      | none => false
    | _ => false) = true ∧
  holds (fileParse 35 dzgNumMsg) (fun f _ => match f.messages with
    | [m] => match m.messageBody with
      | some b => match b.data with
        | .getListResponse (some r) => r.valList.map (fun e => e.value.map (·.type)) == [some 0, some 0x62]
        | _ => false
      | none => false
    | _ => false) = true := by decide +kernel

/-! ## C13 -/

/-- C13 is false: a message with right checksum and omitted tag is delivered without body; the
shipped example and `sml_file_print` dereference it. -/
theorem c13_null_body :
    ∃ buffer f s m, fileParse 35 buffer = .ok f s ∧ m ∈ f.messages ∧ m.messageBody = none := by
  have h : holds (fileParse 35 (skipTagMsg ++ [0])) (fun f _ => match f.messages with
      | [m] => m.messageBody.isNone
      | _ => false) = true := by decide +kernel
  unfold holds at h
  split at h
  next f s heq =>
    refine ⟨skipTagMsg ++ [0], f, s, ?_⟩
    dsimp only at h
    split at h
    next m hm => exact ⟨m, heq, by rw [hm]; simp, by simpa using h⟩
    next => cases h
  next => cases h

/-- What holds of C13: the body of a delivered message is there, with a tag, unless the tag was
omitted in the input (the byte 0x01 in its place). -/
theorem c13_body (depth : Nat) (buffer : List UInt8) (hlen : buffer.length ≤ 2147483647)
    (f : File) (s : St) (h : fileParse depth buffer = .ok f s) (m : Message) (hm : m ∈ f.messages) :
    (∃ b t, m.messageBody = some b ∧ b.tag = some t) ∨
    (m.messageBody = none ∧ ∃ hdr i rest, IsHeader hdr ∧ headerType hdr = 7 ∧
      buffer.drop i = hdr ++ 0x01 :: rest) := by
  obtain ⟨s3, s4, hd, h1, h2⟩ := delivered_body hlen h hm
  cases hb : m.messageBody with
  | some b =>
    rw [hb] at h1
    obtain ⟨t, ht, _⟩ := body_ok h1 h2
    exact Or.inl ⟨b, t, rfl, ht⟩
  | none =>
    rw [hb] at h1
    right
    refine ⟨rfl, ?_⟩
    obtain ⟨hlt, s0, s1, t, hty, hl, ht, hte, ⟨rfl, _, hs⟩ | ⟨tt, d, _, _, hx⟩⟩ := body_inv h1 h2
    · obtain ⟨hdr, rest, o, hdr1, hh, _, hs0, _⟩ := getNextLength_inv (by simp only; omega) hl (by
        cases hse : s0.error with
        | false => rfl
        | true =>
          have := (loc_number tyUnsigned 4).sticky s0 hse _ _ ht
          rw [this] at hte; cases hte)
      obtain ⟨hlt0, ⟨h01, _, _⟩ | ⟨_, _, _, _, _, _, _, _, _, hc, _⟩⟩ := number_inv ht hte
      · have hty' := headerType_get (t := 7) hh hdr1 hlt hty
        have hdrop : s3.data.drop (s3.cursor + hdr.length) = rest := by
          simp only at hdr1
          rw [← List.drop_drop, hdr1]; simp
        have hrest : rest = 0x01 :: s3.data.drop (s3.cursor + hdr.length + 1) := by
          subst hs0
          simp only at h01 hlt0
          rw [← hdrop, List.drop_eq_getElem_cons hlt0, h01]
        refine ⟨hdr, s3.cursor, s3.data.drop (s3.cursor + hdr.length + 1), hh, hty', ?_⟩
        simp only at hdr1
        rw [← hd, hdr1, ← hrest]
      · cases hc
    · cases hx

/-- Both cases occur. -/
example : holds (fileParse 35 telegram) (fun f _ => f.messages.all fun m => m.messageBody.isSome) = true ∧
    holds (fileParse 35 (skipTagMsg ++ [0])) (fun f _ => f.messages.map (·.messageBody.isNone) == [true]) = true := by decide +kernel

/-! ## C19 -/

/-- C19: a complete header is decoded as the standard says, and exactly its bytes are consumed;
nothing overflows. -/
theorem c19_header (st : St) (hdr rest : List UInt8) (hh : IsHeader hdr)
    (hd : st.data.drop st.cursor = hdr ++ rest) (hv : headerValue hdr < 2147483648)
    (hl : hdr.length ≤ 2147483648) :
    getNextType st = .ok (16 * headerType hdr) st ∧
    getNextLength st = .ok (headerLength hdr) { st with cursor := st.cursor + hdr.length } := by
  refine ⟨?_, getNextLength_spec hh hd hv hl⟩
  match hdr, hh, hd with
  | [], hh, _ => have := header_pos hh; simp at this
  | b :: l, _, hd =>
    obtain ⟨hlt, hb, _⟩ := drop_cons_get hd
    unfold getNextType
    rw [if_neg (by omega), List.getElem?_eq_getElem hlt]
    simp only [hb, type_bits, headerType]
    rw [Nat.mul_comm]

/-- A header of three bytes for a list of 291 elements. -/
example : getNextType { data := [0xf1, 0x82, 0x03, 0x62] } = .ok 0x70 { data := [0xf1, 0x82, 0x03, 0x62] } ∧
    getNextLength { data := [0xf1, 0x82, 0x03, 0x62] } = .ok 291 { data := [0xf1, 0x82, 0x03, 0x62], cursor := 3 } :=
  c19_header { data := [0xf1, 0x82, 0x03, 0x62] } [0xf1, 0x82, 0x03] [0x62] ⟨[0xf1, 0x82], 0x03, rfl, by decide, by decide⟩ rfl (by decide +kernel) (by decide)

/-- C19: a header cut off by the end of the buffer is an error. -/
theorem c19_cut (st : St) (hc : st.cursor ≤ st.data.length) (hd : ∀ b ∈ st.data.drop st.cursor, 128 ≤ b.toNat) :
    ∃ s, getNextLength st = .ok (-1) s ∧ s.error = true := by
  obtain ⟨o, h⟩ := getNextLength_cut hc hd
  exact ⟨_, h, rfl⟩

example : ∃ s, getNextLength { data := [0x01, 0xf1, 0x82], cursor := 1 } = .ok (-1) s ∧ s.error = true := c19_cut { data := [0x01, 0xf1, 0x82], cursor := 1 } (by decide) (by decide)

/-- C19: these are all cases. -/
theorem c19_cases (bs : List UInt8) : (∃ hdr rest, bs = hdr ++ rest ∧ IsHeader hdr) ∨ ∀ b ∈ bs, 128 ≤ b.toNat :=
  header_or_cut bs

end Sml
