import Verif.Proofs.LocalBodies

/-!
# Runs over two buffers that share bytes
-/

namespace Sml

open Spec

set_option linter.unusedVariables false

/-- Two parses agree as far as the bytes agree, whatever the heap counters are. -/
theorem message_agree {depth : Nat} {st st' s s' : St} {r r' : Option Message}
    (hb : st.cursor ≤ st.data.length) (hb' : st'.cursor ≤ st'.data.length)
    (he : st.error = false) (he' : st'.error = false)
    (hroom : st.data.length - st.cursor ≤ st'.data.length - st'.cursor)
    (hsm : st.data.length ≤ 2147483647) (hsm' : st'.data.length ≤ 2147483647)
    (h : messageParse depth st = .ok r s) (h' : messageParse depth st' = .ok r' s') (hc : Cover st st' s) :
    r' = r ∧ s'.data = st'.data ∧ s.data = st.data ∧ s'.error = s.error ∧
      s'.cursor = st'.cursor + (s.cursor - st.cursor) ∧ st.cursor ≤ s.cursor ∧ s.cursor ≤ st.data.length := by
  obtain ⟨a1, a2, a3⟩ := message_adv hb hsm h
  let st2 : St := { st' with live := st.live + st'.live }
  have hc2 : Cover st st2 s := hc
  obtain ⟨s2, e2, sh2⟩ := message_local (st := st) (st' := st2)
    ⟨hb, hb', by rw [he]; exact he', by simp [st2], hroom, hsm'⟩ hsm h hc2
  obtain ⟨s3, e3, sh3⟩ := message_local (st := st') (st' := st2)
    ⟨hb', hb', rfl, by simp [st2], Nat.le_refl _, hsm'⟩ hsm' h' (Or.inr fun _ => rfl)
  rw [e2] at e3
  injection e3 with g1 g2
  subst g1 g2
  obtain ⟨b1, b2, b3⟩ := message_adv hb' hsm' h'
  have c1 := sh2.cursor
  have c2 := sh3.cursor
  simp only [st2] at c1 c2
  exact ⟨rfl, b1, a1, by rw [← sh3.err, sh2.err], by omega, a2, a3⟩

/-- The bytes of `st` from its cursor on are also in `st'`, at its cursor. -/
def Extends (st st' : St) : Prop := ∀ i b, st.data[st.cursor + i]? = some b → st'.data[st'.cursor + i]? = some b

theorem Extends.room {st st' : St} (h : Extends st st') (hb : st.cursor ≤ st.data.length) :
    st.data.length - st.cursor ≤ st'.data.length - st'.cursor := by
  by_cases h0 : st.data.length = st.cursor
  · omega
  · have hlt : st.cursor + (st.data.length - st.cursor - 1) < st.data.length := by omega
    have := h _ _ (List.getElem?_eq_getElem hlt)
    obtain ⟨h1, _⟩ := List.getElem?_eq_some_iff.1 this
    omega

theorem Extends.step {st st' s s' : St} (h : Extends st st') (hd : s.data = st.data) (hd' : s'.data = st'.data)
    (hm : st.cursor ≤ s.cursor) (hc : s'.cursor = st'.cursor + (s.cursor - st.cursor)) : Extends s s' := by
  intro i b hb
  rw [hd] at hb
  have : s.cursor + i = st.cursor + (s.cursor - st.cursor + i) := by omega
  rw [this] at hb
  rw [hd', hc, Nat.add_assoc]
  exact h _ b hb

/-- The messages of a run are the first ones of a run over an extended buffer; if the shorter run
ends without error, the longer one goes on where it ended. -/
theorem run_prefix {depth : Nat} {st s : St} {ms : List Message} (hr : Run (messageParse depth) st ms s) :
    ∀ {st' s' : St} {ms' : List Message}, Run (messageParse depth) st' ms' s' → Extends st st' →
    st.cursor ≤ st.data.length → st'.cursor ≤ st'.data.length → st.error = false → st'.error = false →
    st.data.length ≤ 2147483647 → st'.data.length ≤ 2147483647 →
    ∃ ms2, ms' = ms ++ ms2 ∧ (s.error = false → ∃ st2, Run (messageParse depth) st2 ms2 s' ∧
      st2.data = st'.data ∧ st2.cursor = st'.cursor + (st.data.length - st.cursor) ∧ st2.error = false) := by
  induction hr with
  | done h =>
    intro st' s' ms' hr' _ hb hb' he he' _ _
    exact ⟨ms', rfl, fun _ => ⟨st', hr', rfl, by omega, he'⟩⟩
  | @zero st s ms h0 hr ih =>
    intro st' s' ms' hr' hx hb hb' he he' hsm hsm'
    have h0' := hx 0 0 (by simpa using h0)
    simp only [Nat.add_zero] at h0'
    have hlt : st.cursor < st.data.length := (List.getElem?_eq_some_iff.1 h0).1
    have hlt' : st'.cursor < st'.data.length := (List.getElem?_eq_some_iff.1 h0').1
    cases hr' with
    | done h => omega
    | zero _ hr' =>
      obtain ⟨ms2, g1, g2⟩ := ih hr' (hx.step rfl rfl (by simp) (by simp)) (by simp; omega) (by simp; omega) he he' hsm hsm'
      refine ⟨ms2, g1, fun hs => ?_⟩
      obtain ⟨st2, k1, k2, k3, k4⟩ := g2 hs
      exact ⟨st2, k1, k2, by rw [k3]; simp; omega, k4⟩
    | stop h1 h2 _ _ => rw [h0'] at h1; cases h1; exact absurd rfl h2
    | accept l h1 h2 _ _ _ => rw [h0'] at h1; cases h1; exact absurd rfl h2
    | drop h1 h2 _ _ _ => rw [h0'] at h1; cases h1; exact absurd rfl h2
  | stop h1 h2 h3 h4 =>
    intro st' s' ms' hr' hx hb hb' he he' hsm hsm'
    exact ⟨ms', rfl, fun hs => by rw [hs] at h4; cases h4⟩
  | @accept st s1 s m ms b l h1 h2 h3 h4 hr ih =>
    intro st' s' ms' hr' hx hb hb' he he' hsm hsm'
    have h1' := hx 0 b (by simpa using h1)
    simp only [Nat.add_zero] at h1'
    have hlt' : st'.cursor < st'.data.length := (List.getElem?_eq_some_iff.1 h1').1
    have hcov : Cover st st' s1 := Or.inl ⟨h4, fun i b _ hb => hx i b hb⟩
    cases hr' with
    | done h => omega
    | zero h _ => rw [h1'] at h; cases h; exact absurd rfl h2
    | stop _ _ g3 g4 =>
      obtain ⟨_, _, _, k, _⟩ := message_agree hb hb' he he' (hx.room hb) hsm hsm' h3 g3 hcov
      rw [g4, h4] at k; cases k
    | accept l' _ _ g3 g4 gr =>
      obtain ⟨k1, k2, k3, k4, k5, k6, k7⟩ := message_agree hb hb' he he' (hx.room hb) hsm hsm' h3 g3 hcov
      have hroom := hx.room hb
      injection k1 with k1
      subst k1
      obtain ⟨ms2, q1, q2⟩ := ih gr (hx.step (by exact k3) (by exact k2) (by exact k6) (by exact k5))
        (by simp only; rw [k3]; exact k7) (by simp only; rw [k2, k5]; omega) h4 g4 (by simp only; rw [k3]; exact hsm) (by simp only; rw [k2]; exact hsm')
      refine ⟨ms2, by rw [q1]; rfl, fun hs => ?_⟩
      obtain ⟨st2, p1, p2, p3, p4⟩ := q2 hs
      refine ⟨st2, p1, by rw [p2]; exact k2, ?_, p4⟩
      rw [p3]
      simp only
      rw [k5, k3]; omega
    | drop _ _ g3 g4 _ =>
      obtain ⟨k1, _⟩ := message_agree hb hb' he he' (hx.room hb) hsm hsm' h3 g3 hcov
      cases k1
  | @drop st s1 s ms b h1 h2 h3 h4 hr ih =>
    intro st' s' ms' hr' hx hb hb' he he' hsm hsm'
    have h1' := hx 0 b (by simpa using h1)
    simp only [Nat.add_zero] at h1'
    have hlt' : st'.cursor < st'.data.length := (List.getElem?_eq_some_iff.1 h1').1
    have hcov : Cover st st' s1 := Or.inl ⟨h4, fun i b _ hb => hx i b hb⟩
    cases hr' with
    | done h => omega
    | zero h _ => rw [h1'] at h; cases h; exact absurd rfl h2
    | stop _ _ g3 g4 =>
      obtain ⟨_, _, _, k, _⟩ := message_agree hb hb' he he' (hx.room hb) hsm hsm' h3 g3 hcov
      rw [g4, h4] at k; cases k
    | accept l' _ _ g3 g4 gr =>
      obtain ⟨k1, _⟩ := message_agree hb hb' he he' (hx.room hb) hsm hsm' h3 g3 hcov
      cases k1
    | drop _ _ g3 g4 gr =>
      obtain ⟨k1, k2, k3, k4, k5, k6, k7⟩ := message_agree hb hb' he he' (hx.room hb) hsm hsm' h3 g3 hcov
      have hroom := hx.room hb
      obtain ⟨ms2, q1, q2⟩ := ih gr (hx.step k3 k2 k6 k5) (by rw [k3]; exact k7) (by rw [k2, k5]; omega) h4 g4
        (by rw [k3]; exact hsm) (by rw [k2]; exact hsm')
      refine ⟨ms2, q1, fun hs => ?_⟩
      obtain ⟨st2, p1, p2, p3, p4⟩ := q2 hs
      exact ⟨st2, p1, by rw [p2]; exact k2, by rw [p3, k5, k3]; omega, p4⟩

/-- Two runs over the same remaining bytes deliver the same messages. -/
theorem run_same {depth : Nat} {st s : St} {ms : List Message} (hr : Run (messageParse depth) st ms s) :
    ∀ {st' s' : St} {ms' : List Message}, Run (messageParse depth) st' ms' s' → Same st st' →
    st.cursor ≤ st.data.length → st'.cursor ≤ st'.data.length → st.error = false → st'.error = false →
    st.data.length ≤ 2147483647 → st'.data.length ≤ 2147483647 → ms' = ms ∧ s'.error = s.error := by
  induction hr with
  | @done st h =>
    intro st' s' ms' hr' hx hb hb' he he' _ _
    have hlen := hx.room hb hb'
    have hnone : st'.data[st'.cursor]? = none := List.getElem?_eq_none (by omega)
    cases hr' with
    | done _ => exact ⟨rfl, by rw [he, he']⟩
    | zero h _ => rw [hnone] at h; cases h
    | stop h _ _ _ => rw [hnone] at h; cases h
    | accept _ h _ _ _ _ => rw [hnone] at h; cases h
    | drop h _ _ _ _ => rw [hnone] at h; cases h
  | @zero st s ms h0 hr ih =>
    intro st' s' ms' hr' hx hb hb' he he' hsm hsm'
    have h0' := hx 0
    simp only [Nat.add_zero] at h0'
    rw [h0] at h0'
    have hlt : st.cursor < st.data.length := (List.getElem?_eq_some_iff.1 h0).1
    have hlt' : st'.cursor < st'.data.length := (List.getElem?_eq_some_iff.1 h0'.symm).1
    cases hr' with
    | done h => omega
    | zero _ hr' =>
      refine ih hr' (fun i => ?_) (by simp; omega) (by simp; omega) he he' hsm hsm'
      have := hx (1 + i)
      simp only [← Nat.add_assoc] at this
      exact this
    | stop h1 h2 _ _ => rw [← h0'] at h1; cases h1; exact absurd rfl h2
    | accept l h1 h2 _ _ _ => rw [← h0'] at h1; cases h1; exact absurd rfl h2
    | drop h1 h2 _ _ _ => rw [← h0'] at h1; cases h1; exact absurd rfl h2
  | @stop st s r b h1 h2 h3 h4 =>
    intro st' s' ms' hr' hx hb hb' he he' hsm hsm'
    have hroom := hx.room hb hb'
    have h1' := hx 0
    simp only [Nat.add_zero] at h1'
    rw [h1] at h1'
    have hlt' : st'.cursor < st'.data.length := (List.getElem?_eq_some_iff.1 h1'.symm).1
    cases hr' with
    | done h => omega
    | zero h _ => rw [← h1'] at h; cases h; exact absurd rfl h2
    | stop _ _ g3 g4 => exact ⟨rfl, by rw [g4, h4]⟩
    | accept _ _ _ g3 g4 _ =>
      obtain ⟨_, _, _, k, _⟩ := message_agree hb hb' he he' (by omega) hsm hsm' h3 g3 (Or.inr hx)
      rw [g4, h4] at k; cases k
    | drop _ _ g3 g4 _ =>
      obtain ⟨_, _, _, k, _⟩ := message_agree hb hb' he he' (by omega) hsm hsm' h3 g3 (Or.inr hx)
      rw [g4, h4] at k; cases k
  | @accept st s1 s m ms b l h1 h2 h3 h4 hr ih =>
    intro st' s' ms' hr' hx hb hb' he he' hsm hsm'
    have hroom := hx.room hb hb'
    have h1' := hx 0
    simp only [Nat.add_zero] at h1'
    rw [h1] at h1'
    have hlt' : st'.cursor < st'.data.length := (List.getElem?_eq_some_iff.1 h1'.symm).1
    cases hr' with
    | done h => omega
    | zero h _ => rw [← h1'] at h; cases h; exact absurd rfl h2
    | stop _ _ g3 g4 =>
      obtain ⟨_, _, _, k, _⟩ := message_agree hb hb' he he' (by omega) hsm hsm' h3 g3 (Or.inr hx)
      rw [g4, h4] at k; cases k
    | accept _ _ _ g3 g4 gr =>
      obtain ⟨k1, k2, k3, k4, k5, k6, k7⟩ := message_agree hb hb' he he' (by omega) hsm hsm' h3 g3 (Or.inr hx)
      injection k1 with k1
      subst k1
      have hsame : ∀ i, s1.data[s1.cursor + i]? = st'.data[st'.cursor + (s1.cursor - st.cursor) + i]? := by
        intro i
        have := hx (s1.cursor - st.cursor + i)
        rw [← Nat.add_assoc, ← Nat.add_assoc] at this
        rw [k3, ← this]
        congr 1; omega
      obtain ⟨q1, q2⟩ := ih gr (fun i => by simp only; rw [hsame, k2, k5])
        (by simp only; rw [k3]; exact k7) (by simp only; rw [k2, k5]; omega) h4 g4
        (by simp only; rw [k3]; exact hsm) (by simp only; rw [k2]; exact hsm')
      exact ⟨by rw [q1], q2⟩
    | drop _ _ g3 g4 _ =>
      obtain ⟨k1, _⟩ := message_agree hb hb' he he' (by omega) hsm hsm' h3 g3 (Or.inr hx)
      cases k1
  | @drop st s1 s ms b h1 h2 h3 h4 hr ih =>
    intro st' s' ms' hr' hx hb hb' he he' hsm hsm'
    have hroom := hx.room hb hb'
    have h1' := hx 0
    simp only [Nat.add_zero] at h1'
    rw [h1] at h1'
    have hlt' : st'.cursor < st'.data.length := (List.getElem?_eq_some_iff.1 h1'.symm).1
    cases hr' with
    | done h => omega
    | zero h _ => rw [← h1'] at h; cases h; exact absurd rfl h2
    | stop _ _ g3 g4 =>
      obtain ⟨_, _, _, k, _⟩ := message_agree hb hb' he he' (by omega) hsm hsm' h3 g3 (Or.inr hx)
      rw [g4, h4] at k; cases k
    | accept l' _ _ g3 g4 gr =>
      obtain ⟨k1, _⟩ := message_agree hb hb' he he' (by omega) hsm hsm' h3 g3 (Or.inr hx)
      cases k1
    | drop _ _ g3 g4 gr =>
      obtain ⟨k1, k2, k3, k4, k5, k6, k7⟩ := message_agree hb hb' he he' (by omega) hsm hsm' h3 g3 (Or.inr hx)
      have hsame : ∀ i, s1.data[s1.cursor + i]? = st'.data[st'.cursor + (s1.cursor - st.cursor) + i]? := by
        intro i
        have := hx (s1.cursor - st.cursor + i)
        rw [← Nat.add_assoc, ← Nat.add_assoc] at this
        rw [k3, ← this]
        congr 1; omega
      exact ih gr (fun i => by rw [hsame, k2, k5]) (by rw [k3]; exact k7) (by rw [k2, k5]; omega) h4 g4
        (by rw [k3]; exact hsm) (by rw [k2]; exact hsm')

/-- Leading zero bytes are skipped. -/
theorem run_zeros {parse : M (Option Message)} {n : Nat} : ∀ {st s : St} {ms : List Message},
    Run parse st ms s → (∀ i, i < n → st.data[st.cursor + i]? = some 0) →
    Run parse { st with cursor := st.cursor + n } ms s := by
  induction n with
  | zero => intro st s ms hr _; exact hr
  | succ n ih =>
    intro st s ms hr h
    have h0 := h 0 (by omega)
    simp only [Nat.add_zero] at h0
    have hlt := (List.getElem?_eq_some_iff.1 h0).1
    cases hr with
    | done h => omega
    | zero _ hr =>
      have := ih hr (fun i hi => by
        have := h (1 + i) (by omega)
        simp only [← Nat.add_assoc] at this
        exact this)
      simp only [Nat.add_assoc, Nat.add_comm 1] at this
      exact this
    | stop h1 h2 _ _ => rw [h0] at h1; cases h1; exact absurd rfl h2
    | accept _ h1 h2 _ _ _ => rw [h0] at h1; cases h1; exact absurd rfl h2
    | drop h1 h2 _ _ _ => rw [h0] at h1; cases h1; exact absurd rfl h2

/-- Only zero bytes left: nothing is delivered. -/
theorem run_only_zeros {parse : M (Option Message)} {st s : St} {ms : List Message} (hr : Run parse st ms s)
    (h : ∀ b ∈ st.data.drop st.cursor, b = 0) (he : st.error = false) : ms = [] ∧ s.error = false := by
  induction hr with
  | done _ => exact ⟨rfl, he⟩
  | zero h0 _ ih =>
    refine ih (fun b hb => h b ?_) he
    have := List.mem_of_mem_drop (l := List.drop _ _) (i := 1) (by rw [List.drop_drop]; exact hb)
    exact this
  | stop h1 h2 _ _ =>
    obtain ⟨hlt, e⟩ := List.getElem?_eq_some_iff.1 h1
    exact absurd (h _ (by rw [List.drop_eq_getElem_cons hlt, e]; simp)) h2
  | accept _ h1 h2 _ _ _ =>
    obtain ⟨hlt, e⟩ := List.getElem?_eq_some_iff.1 h1
    exact absurd (h _ (by rw [List.drop_eq_getElem_cons hlt, e]; simp)) h2
  | drop h1 h2 _ _ _ =>
    obtain ⟨hlt, e⟩ := List.getElem?_eq_some_iff.1 h1
    exact absurd (h _ (by rw [List.drop_eq_getElem_cons hlt, e]; simp)) h2

end Sml
