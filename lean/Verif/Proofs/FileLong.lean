import Verif.Proofs.GrammarMessage

/-!
# Telegrams of any length

What the message loop leaves when it ends regularly, and when it does not: exactly when there are too many messages for the counter.
-/

namespace Sml

open Spec

/-- A round of the loop that reads a message. -/
theorem fileLoop_round {depth : Nat} {f : File} {st s1 : St} {msg : Option Message} (hlt : st.cursor < st.data.length) (hz : st.data[st.cursor] ≠ 0)
    (hm : messageParse depth st = .ok msg s1) : fileLoop depth (fuel + 1) f st = (if s1.error then .ok f s1 else
      match msg with
      | some m => (fileAddMessage f m >>= fileLoop depth fuel) s1
      | none => fileLoop depth fuel f s1) := by
  conv => lhs; unfold fileLoop
  simp [bind, M.bind, getSt, hlt, getCurrentByte, hz, hm, hasErrors]
  split
  · rfl
  · cases msg <;> rfl

/-- A round of the loop that skips a zero byte. -/
theorem fileLoop_skip {depth : Nat} {f : File} {st : St} (hlt : st.cursor < st.data.length) (hz : st.data[st.cursor] = 0) :
    fileLoop depth (fuel + 1) f st = fileLoop depth fuel f { st with cursor := st.cursor + 1 } := by
  conv => lhs; unfold fileLoop
  simp [bind, M.bind, getSt, hlt, getCurrentByte, hz, updateBytesRead, modSt]

/-- The contract of the message loop, for every run that ends regularly. -/
theorem fileLoop_ok {depth : Nat} (fuel : Nat) : ∀ (f : File) (st : St), st.data.length ≤ 2147483647 → Pre (4 * depth) st → FileOk f → fileFreed f ≤ st.live →
    Wlp (fileLoop depth fuel f) st fun f' s => Step st s ∧ FileOk f' ∧ st.live + fileFreed f' ≤ s.live + fileFreed f ∧
      (s.confused = false → s.live + fileFreed f = st.live + fileFreed f') ∧
      s.live ≤ st.live + 2 * (s.cursor - st.cursor) + (if f.messages = [] then 1 else 0) := by
  induction fuel with
  | zero => intro f st _ _ _ _ f' s h; cases h
  | succ fuel ih =>
    intro f st hN2 hpre hok hlive f' s hr
    have hb := hpre.bound
    by_cases hlt : st.cursor < st.data.length
    · by_cases hz : st.data[st.cursor] = 0
      · have h1 : Step st { st with cursor := st.cursor + 1 } :=
          ⟨rfl, by simp, by simp; omega, by simp, Or.inl, Or.inl, id⟩
        rw [fileLoop_skip hlt hz] at hr
        obtain ⟨g1, g2, g4, g5, g6⟩ := ih f { st with cursor := st.cursor + 1 } hN2 (hpre.step h1 hpre.clean) hok hlive f' s hr
        have hm1 := h1.mono
        have hm2 := g1.mono
        exact ⟨h1.trans g1, g2, g4, g5, by simp only at g6 hm2; omega⟩
      · obtain ⟨msg, s1, hm, h1, h2, h3, h4, h5⟩ := post_iff.1 (good_message depth st hN2 (by omega) hpre (by omega))
        have htag := inv_message (depth := depth) (P := fun m => ∀ x, m = some x → TagOk x.messageBody)
          (by simp) (by rintro v1 v2 v3 v4 c h x ⟨⟩; exact h) st msg s1 hm
        have hsure := message_sure depth st msg s1 hm
        have hlen : s1.data.length = st.data.length := by rw [h1.data]
        have hnone : messageFreed none = 0 := rfl
        rw [fileLoop_round hlt hz hm] at hr
        by_cases he : s1.error = true
        · rw [if_pos he] at hr
          cases hr
          have hmsg : msg = none := by
            cases msg with
            | none => rfl
            | some x => exact absurd he (by simp [hsure])
          subst hmsg
          exact ⟨h1, hok, by omega, fun hc => by have := h3 hc; omega, by omega⟩
        · rw [if_neg he] at hr
          have he' : s1.error = false := by simpa using he
          cases msg with
          | none =>
            obtain ⟨g1, g2, g4, g5, g6⟩ := ih f s1 (by omega) (hpre.step h1 he') hok (by omega) f' s hr
            exact ⟨h1.trans g1, g2, by omega, fun hc => by have := g5 hc; have := h3 (conf_false g1 hc); omega, by have := h1.mono; have := g1.mono; omega⟩
          | some m =>
            have hmf : messageFreed (some m) = messageFreed1 m := rfl
            by_cases hge : f.messages.length ≥ 32767
            · simp only [fileAddMessage, if_pos hge] at hr
              cases hr
            have hfok : FileOk { messages := f.messages ++ [m] } := by
              intro x hx
              simp at hx
              rcases hx with hx | rfl
              · exact hok x hx
              · exact htag _ rfl
            obtain ⟨ms⟩ := f
            simp only [fileAddMessage, if_neg hge] at hr
            by_cases hnil : ms = []
            · subst hnil
              have hff : fileFreed { messages := [] ++ [m] } = messageFreed1 m + 4 := by simp [fileFreed]
              have hf0 : fileFreed { messages := [] } = 3 := rfl
              obtain ⟨g1, g2, g4, g5, g6⟩ := ih { messages := [] ++ [m] } { s1 with live := s1.live + 1 } (by simp; omega)
                (hpre.step (h1.liveR _) he') hfok (by rw [hff]; simp; omega) f' s hr
              replace g1 := Step.liveL _ g1
              simp only at g4 g5
              rw [hff] at g4 g5
              rw [hf0]
              exact ⟨h1.trans g1, g2, by omega, fun hc => by have := g5 hc; have := h3 (conf_false g1 hc); omega, by
                have := h1.mono; have := g1.mono
                rw [if_neg (by simp)] at g6
                rw [if_pos rfl]
                simp only at g6
                omega⟩
            · have hff : fileFreed { messages := ms ++ [m] } = fileFreed { messages := ms } + messageFreed1 m := by
                simp [fileFreed, hnil]; omega
              have hem : ms.isEmpty = false := by simpa using hnil
              simp only [hem, Bool.false_eq_true, if_false] at hr
              obtain ⟨g1, g2, g4, g5, g6⟩ := ih { messages := ms ++ [m] } s1 (by omega) (hpre.step h1 he') hfok (by rw [hff]; omega) f' s hr
              rw [hff] at g4 g5
              exact ⟨h1.trans g1, g2, by omega, fun hc => by have := g5 hc; have := h3 (conf_false g1 hc); omega, by
                have := h1.mono; have := g1.mono
                rw [if_neg (by simp)] at g6
                omega⟩
    · unfold fileLoop at hr
      simp [bind, M.bind, getSt, hlt, pure] at hr
      obtain ⟨rfl, rfl⟩ := hr
      exact ⟨Step.refl hb, hok, by omega, fun _ => rfl, by omega⟩

/-- The contract of `sml_file_parse` for buffers up to `INT_MAX`. -/
theorem fileParse_ok {depth : Nat} {buffer : List UInt8} (hlen : buffer.length ≤ 2147483647) (hdepth : buffer.length < 4 * depth)
    (h : fileParse depth buffer = .ok f s) :
    Step { data := buffer, live := 3 } s ∧ FileOk f ∧ fileFreed f ≤ s.live ∧ (s.confused = false → s.live = fileFreed f) := by
  have hf3 : fileFreed { messages := [] } = 3 := rfl
  obtain ⟨g1, g2, g3, g4, _⟩ := fileLoop_ok (depth := depth) (buffer.length + 1) { messages := [] } { data := buffer, live := 3 }
    hlen ⟨by simp, rfl, by simpa using hdepth⟩ (by intro m hm; simp at hm) (by simp [hf3]) f s h
  simp only [hf3] at g3 g4
  exact ⟨g1, g2, by omega, fun hc => by have := g4 hc; omega⟩

/-- The blocks in use after `sml_file_parse`, for buffers up to `INT_MAX`. -/
theorem fileParse_live {depth : Nat} {buffer : List UInt8} (hlen : buffer.length ≤ 2147483647) (hdepth : buffer.length < 4 * depth)
    (h : fileParse depth buffer = .ok f s) : s.live ≤ 2 * s.cursor + 4 := by
  have hf3 : fileFreed { messages := [] } = 3 := rfl
  obtain ⟨_, _, _, _, g⟩ := fileLoop_ok (depth := depth) (buffer.length + 1) { messages := [] } { data := buffer, live := 3 }
    hlen ⟨by simp, rfl, by simpa using hdepth⟩ (by intro m hm; simp at hm) (by simp [hf3]) f s h
  rw [if_pos rfl] at g
  simp only at g
  omega

/-- Every buffer is read to some end. -/
theorem run_total {depth : Nat} (n : Nat) : ∀ (st : St), st.data.length ≤ 2147483647 → Pre (4 * depth) st → st.data.length - st.cursor ≤ n →
    ∃ ms s, Run (messageParse depth) st ms s := by
  induction n with
  | zero =>
    intro st _ hpre hn
    exact ⟨[], st, .done (by omega)⟩
  | succ n ih =>
    intro st hN hpre hn
    have hb := hpre.bound
    by_cases hlt : st.cursor < st.data.length
    · by_cases hz : st.data[st.cursor] = 0
      · have h1 : Step st { st with cursor := st.cursor + 1 } :=
          ⟨rfl, by simp, by simp; omega, by simp, Or.inl, Or.inl, id⟩
        obtain ⟨ms, s, h⟩ := ih { st with cursor := st.cursor + 1 } hN (hpre.step h1 hpre.clean) (by simp only; omega)
        exact ⟨ms, s, .zero (by rw [List.getElem?_eq_getElem hlt, hz]) h⟩
      · obtain ⟨msg, s1, hm, h1, _, _, _, h5⟩ := post_iff.1 (good_message depth st hN (by omega) hpre (by omega))
        have hlen : s1.data.length = st.data.length := by rw [h1.data]
        by_cases he : s1.error = true
        · exact ⟨[], s1, .stop (List.getElem?_eq_getElem hlt) hz hm he⟩
        · have he' : s1.error = false := by simpa using he
          have := h5 he'
          obtain ⟨ms, s, h⟩ := ih s1 (by omega) (hpre.step h1 he') (by omega)
          cases msg with
          | none => exact ⟨ms, s, .drop (List.getElem?_eq_getElem hlt) hz hm he' h⟩
          | some m => exact ⟨m :: ms, s, .accept s1.live (List.getElem?_eq_getElem hlt) hz hm he' h⟩
    · exact ⟨[], st, .done (by omega)⟩

/-- When the counter overflows, there are too many messages. -/
theorem fileLoop_over {depth : Nat} (fuel : Nat) : ∀ (f : File) (st : St), st.data.length ≤ 2147483647 → Pre (4 * depth) st → f.messages.length ≤ 32767 →
    fileLoop depth fuel f st = .ub .counter → ∃ ms s, Run (messageParse depth) st ms s ∧ 32768 ≤ f.messages.length + ms.length := by
  induction fuel with
  | zero => intro f st _ _ _ h; cases h
  | succ fuel ih =>
    intro f st hN hpre hcnt hr
    have hb := hpre.bound
    by_cases hlt : st.cursor < st.data.length
    · by_cases hz : st.data[st.cursor] = 0
      · have h1 : Step st { st with cursor := st.cursor + 1 } :=
          ⟨rfl, by simp, by simp; omega, by simp, Or.inl, Or.inl, id⟩
        rw [fileLoop_skip hlt hz] at hr
        obtain ⟨ms, s, h, hl⟩ := ih f { st with cursor := st.cursor + 1 } hN (hpre.step h1 hpre.clean) hcnt hr
        exact ⟨ms, s, .zero (by rw [List.getElem?_eq_getElem hlt, hz]) h, hl⟩
      · obtain ⟨msg, s1, hm, h1, _, _, _, h5⟩ := post_iff.1 (good_message depth st hN (by omega) hpre (by omega))
        have hlen : s1.data.length = st.data.length := by rw [h1.data]
        rw [fileLoop_round hlt hz hm] at hr
        by_cases he : s1.error = true
        · rw [if_pos he] at hr
          cases hr
        · rw [if_neg he] at hr
          have he' : s1.error = false := by simpa using he
          cases msg with
          | none =>
            obtain ⟨ms, s, h, hl⟩ := ih f s1 (by omega) (hpre.step h1 he') hcnt hr
            exact ⟨ms, s, .drop (List.getElem?_eq_getElem hlt) hz hm he' h, hl⟩
          | some m =>
            by_cases hge : f.messages.length ≥ 32767
            · obtain ⟨ms, s, h⟩ := run_total (depth := depth) s1.data.length s1 (by omega) (hpre.step h1 he') (by omega)
              exact ⟨m :: ms, s, .accept s1.live (List.getElem?_eq_getElem hlt) hz hm he' h, by simp; omega⟩
            · have h2 : ∃ l, fileLoop depth fuel { messages := f.messages ++ [m] } { s1 with live := l } = .ub .counter := by
                simp only [fileAddMessage, if_neg hge] at hr
                by_cases hnil : f.messages.isEmpty
                · simp only [hnil, if_true] at hr
                  exact ⟨_, hr⟩
                · simp only [hnil] at hr
                  exact ⟨s1.live, hr⟩
              obtain ⟨l, h2⟩ := h2
              obtain ⟨ms, s, h, hl⟩ := ih { messages := f.messages ++ [m] } { s1 with live := l } (by simp only; omega) (hpre.step (h1.liveR _) he') (by simp; omega) h2
              exact ⟨m :: ms, s, .accept l (List.getElem?_eq_getElem hlt) hz hm he' h, by simp at hl ⊢; omega⟩
    · unfold fileLoop at hr
      simp [bind, M.bind, getSt, hlt, pure] at hr

end Sml
