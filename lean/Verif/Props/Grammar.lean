import Verif.Proofs.GrammarMessage
import Verif.Props.Safety
import Verif.Props.Content

/-!
# The language accepted: C51, and the exact condition of C13
-/

namespace Sml

open Spec Spec.Grammar Samples

/-- The general form: a parser and a rule of the grammar say the same. -/
theorem Parses.exact {p : M α} {g : α → Rel} (h : Parses p g) (st : St) (hb : st.cursor ≤ st.data.length) (he : st.error = false)
    (a : α) (o : List UInt8) :
    g a (st.data.drop st.cursor) o ↔ ∃ s, p st = .ok a s ∧ s.error = false ∧ s.data.drop s.cursor = o := by
  constructor
  · intro hg
    obtain ⟨s, h1, h2, h3, _⟩ := h.complete st a o he hb hg
    exact ⟨s, h1, h2, h3⟩
  · rintro ⟨s, h1, h2, rfl⟩
    exact h.sound st s a hb h1 h2

/-- A rule of the grammar determines the object and the bytes that are left. -/
theorem Parses.det {p : M α} {g : α → Rel} (h : Parses p g) {a a' : α} {i o o' : List UInt8} (h1 : g a i o) (h2 : g a' i o') :
    a = a' ∧ o = o' := by
  obtain ⟨s, p1, _, r1, _⟩ := h.complete { data := i } a o rfl (by simp) h1
  obtain ⟨s', p2, _, r2, _⟩ := h.complete { data := i } a' o' rfl (by simp) h2
  rw [p1] at p2
  cases p2
  exact ⟨rfl, r1.symm.trans r2⟩

theorem header_det {ty ty' : Nat} {n n' : Int} {i o o' : List UInt8} (h1 : header ty n i o) (h2 : header ty' n' i o') :
    n = n' ∧ o = o' := by
  obtain ⟨_, k, ov, a1, a2, _⟩ := header_run (st := { data := i }) (by exact h1)
  obtain ⟨_, k', ov', b1, b2, _⟩ := header_run (st := { data := i }) (by exact h2)
  rw [a1] at b1
  simp only [Res.ok.injEq, St.mk.injEq] at b1
  simp only at a2 b2
  refine ⟨b1.1, ?_⟩
  have : k = k' := by omega
  rw [← a2, ← b2, this]

/-! ## C51 -/

/-- C51 for octet strings. -/
theorem c51_string (st : St) (hb : st.cursor ≤ st.data.length) (he : st.error = false) (v : Option OctetString) (o : List UInt8) :
    str v (st.data.drop st.cursor) o ↔ ∃ s, octetStringParse st = .ok v s ∧ s.error = false ∧ s.data.drop s.cursor = o :=
  parses_str.exact st hb he v o

/-- C51 for booleans. -/
theorem c51_boolean (st : St) (hb : st.cursor ≤ st.data.length) (he : st.error = false) (v : Option UInt8) (o : List UInt8) :
    boolean v (st.data.drop st.cursor) o ↔ ∃ s, booleanParse st = .ok v s ∧ s.error = false ∧ s.data.drop s.cursor = o :=
  parses_boolean.exact st hb he v o

/-- C51 for numbers. -/
theorem c51_number (size : Nat) (st : St) (hb : st.cursor ≤ st.data.length) (he : st.error = false) (v : Option Num) (o : List UInt8) :
    (num 6 size v (st.data.drop st.cursor) o ↔
      ∃ s, numberParse tyUnsigned size st = .ok v s ∧ s.error = false ∧ s.data.drop s.cursor = o) ∧
    (num 5 size v (st.data.drop st.cursor) o ↔
      ∃ s, numberParse tyInteger size st = .ok v s ∧ s.error = false ∧ s.data.drop s.cursor = o) :=
  ⟨(parses_u size).exact st hb he v o, (parses_i size).exact st hb he v o⟩

/-- C51 for values. -/
theorem c51_value (st : St) (hb : st.cursor ≤ st.data.length) (he : st.error = false) (v : Option Value) (o : List UInt8) :
    value v (st.data.drop st.cursor) o ↔ ∃ s, valueParse st = .ok v s ∧ s.error = false ∧ s.data.drop s.cursor = o :=
  parses_value.exact st hb he v o

/-- C51 for status words. -/
theorem c51_status (st : St) (hb : st.cursor ≤ st.data.length) (he : st.error = false) (v : Option Status) (o : List UInt8) :
    status v (st.data.drop st.cursor) o ↔ ∃ s, statusParse st = .ok v s ∧ s.error = false ∧ s.data.drop s.cursor = o :=
  parses_status.exact st hb he v o

/-- C51 for times. -/
theorem c51_time (st : St) (hb : st.cursor ≤ st.data.length) (he : st.error = false) (v : Option Time) (o : List UInt8) :
    time v (st.data.drop st.cursor) o ↔ ∃ s, timeParse st = .ok v s ∧ s.error = false ∧ s.data.drop s.cursor = o :=
  parses_time.exact st hb he v o

/-- C51 for parameter trees nested at most `depth` levels. -/
theorem c51_tree (depth : Nat) (st : St) (hb : st.cursor ≤ st.data.length) (he : st.error = false) (v : Option Tree) (o : List UInt8) :
    tree depth v (st.data.drop st.cursor) o ↔ ∃ s, treeParse depth st = .ok v s ∧ s.error = false ∧ s.data.drop s.cursor = o :=
  (parses_tree depth).exact st hb he v o

/-- C51 for the list of a list response, with the correction for DZG meters. -/
theorem c51_list (st : St) (hb : st.cursor ≤ st.data.length) (he : st.error = false) (v : List ListEntry) (o : List UInt8) :
    entries v (st.data.drop st.cursor) o ↔ ∃ s, listParse st = .ok v s ∧ s.error = false ∧ s.data.drop s.cursor = o :=
  parses_list.exact st hb he v o

/-- C51 for message bodies. -/
theorem c51_body (depth : Nat) (st : St) (hb : st.cursor ≤ st.data.length) (he : st.error = false) (v : Option MessageBody)
    (o : List UInt8) :
    body depth v (st.data.drop st.cursor) o ↔
      ∃ s, messageBodyParse depth st = .ok v s ∧ s.error = false ∧ s.data.drop s.cursor = o :=
  (parses_body depth).exact st hb he v o

example : body 1 (some ⟨some ⟨4, 0x201⟩, .closeResponse (some ⟨none⟩)⟩)
    [0x72, 0x63, 0x02, 0x01, 0x71, 0x01, 0x63] [0x63] :=
  (c51_body 1 { data := [0x72, 0x63, 0x02, 0x01, 0x71, 0x01, 0x63] } (by decide) rfl _ _).2 ⟨_, rfl, rfl, by decide +kernel⟩

/-- C51 for messages: `sml_message_parse` accepts exactly what the grammar describes, delivers the message the
grammar describes, and reads exactly the bytes the grammar describes. -/
theorem c51_message (depth : Nat) (st : St) (hb : st.cursor ≤ st.data.length) (he : st.error = false)
    (hlen : st.data.length ≤ 2147483647) (hdepth : st.data.length < st.cursor + 4 * depth) (r : Option Message) (o : List UInt8) :
    message depth r (st.data.drop st.cursor) o ↔
      ∃ s, messageParse depth st = .ok r s ∧ s.error = false ∧ s.data.drop s.cursor = o := by
  obtain ⟨r0, s0, e0, _⟩ := c02_progress depth st hb he hlen hdepth
  constructor
  · intro hg
    obtain ⟨h1, h2, h3⟩ := message_complete hb hlen he e0 hg
    subst h1
    exact ⟨s0, e0, h2, h3⟩
  · rintro ⟨s, h1, h2, rfl⟩
    exact message_sound hb hlen h1 h2

example : ∃ m, message 30 (some m) listMsg [] ∧ m.messageBody.isSome := by
  have h : holds (messageParse 30 { data := listMsg }) (fun r s => match r with
      | some m => m.messageBody.isSome && !s.error && decide (s.data.drop s.cursor = [])
      | none => false) = true := by decide +kernel
  unfold holds at h
  split at h
  next r s heq =>
    dsimp only at h
    split at h
    next m =>
      simp only [Bool.and_eq_true, Bool.not_eq_true', decide_eq_true_eq] at h
      exact ⟨m, (c51_message 30 { data := listMsg } (by decide) rfl (by decide) (by decide) _ _).2 ⟨s, heq, h.1.2, h.2⟩, h.1.1⟩
    next => cases h
  next => cases h

/-- C51: for every telegram there is exactly one list of messages the grammar allows, and `sml_file_parse` delivers it. -/
theorem c51_telegram (buffer : List UInt8) (depth : Nat) (hlen : buffer.length ≤ 294912) (hdepth : buffer.length < 4 * depth) :
    ∃ f s, fileParse depth buffer = .ok f s ∧ ∀ ms, Telegram depth buffer ms ↔ ms = f.messages := by
  obtain ⟨f, s, h, _⟩ := fileParse_post hlen hdepth
  refine ⟨f, s, h, fun ms => ?_⟩
  have hr := fileParse_run h
  constructor
  · intro ht
    exact telegram_unique hr rfl (by simp) (by simp only; omega) ms (by exact ht)
  · rintro rfl
    exact run_telegram hr rfl (by simp) (by simp only; omega)

example : ∃ ms, Telegram 35 telegram ms ∧ ms.length = 3 := by
  obtain ⟨f, s, h, hi⟩ := c51_telegram telegram 35 (by decide +kernel) (by decide +kernel)
  refine ⟨f.messages, (hi _).2 rfl, ?_⟩
  have h2 : holds (fileParse 35 telegram) (fun f _ => decide (f.messages.length = 3)) = true := by decide +kernel
  rw [h] at h2
  simpa [holds] using h2

/-- C51: the grammar is unambiguous: a body has at most one reading, and what is left is determined. -/
theorem c51_unambiguous (depth : Nat) (i : List UInt8) (b b' : Option MessageBody) (o o' : List UInt8)
    (h : body depth b i o) (h' : body depth b' i o') : b = b' ∧ o = o' :=
  (parses_body depth).det h h'

/-! ## C13 -/

/-- C13, exactly: a message is delivered without body if and only if, in its bytes, the mark of an omitted element stands in
the place of the tag; otherwise it has a body with a tag. -/
theorem c13_exact (depth : Nat) (st : St) (hb : st.cursor ≤ st.data.length) (hlen : st.data.length ≤ 2147483647)
    (m : Message) (s : St) (h : messageParse depth st = .ok (some m) s) (he : s.error = false) :
    (m.messageBody = none ↔
      ∃ o, beforeTag m.transactionId m.groupId m.abortOnError (st.data.drop st.cursor) (0x01 :: o)) ∧
    (m.messageBody ≠ none → ∃ b t, m.messageBody = some b ∧ b.tag = some t) := by
  obtain ⟨c, bs, _, _, _, ⟨mid, _, ⟨m0, g0, m1, g1, m2, g2, m3, g3, g4⟩, _⟩, _⟩ := message_sound hb hlen h he
  cases hm : m.messageBody with
  | none =>
    rw [hm] at g4
    obtain ⟨m4, g4, g5⟩ := g4
    exact ⟨⟨fun _ => ⟨mid, m0, g0, m1, g1, m2, g2, m3, g3, by cases g5; exact g4⟩, fun _ => rfl⟩, fun hn => absurd rfl hn⟩
  | some b =>
    rw [hm] at g4
    obtain ⟨t, ht, m4, g4, m5, g5, _⟩ := g4
    refine ⟨⟨fun hx => (by cases hx), ?_⟩, fun _ => ⟨b, t, rfl, ht⟩⟩
    rintro ⟨o, n0, k0, n1, k1, n2, k2, n3, k3, k4⟩
    obtain ⟨_, rfl⟩ := header_det g0 k0
    obtain ⟨_, rfl⟩ := parses_str.det g1 k1
    obtain ⟨_, rfl⟩ := (parses_u 1).det g2 k2
    obtain ⟨_, rfl⟩ := (parses_u 1).det g3 k3
    obtain ⟨_, rfl⟩ := header_det g4 k4
    have : num 6 4 none (0x01 :: o) o := rfl
    have := ((parses_u 4).det g5 this).1
    cases this

example : holds (messageParse 30 { data := closeMsg }) (fun r s => r.isSome && !s.error) = true := by decide +kernel

end Sml
