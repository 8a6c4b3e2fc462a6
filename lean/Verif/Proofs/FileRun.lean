import Verif.Proofs.MinMessage
import Verif.Spec.Run

/-!
# The message loop
-/

namespace Sml

open Spec

set_option linter.unusedSimpArgs false

/-- What a defined run of the loop did. -/
theorem fileLoop_run {depth : Nat} (fuel : Nat) : ∀ (f f' : File) (st s : St),
    fileLoop depth fuel f st = .ok f' s →
    ∃ ms, f'.messages = f.messages ++ ms ∧ Run (messageParse depth) st ms s := by
  induction fuel with
  | zero => intro f f' st s h; cases h
  | succ fuel ih =>
    intro f f' st s h
    have key : Wlp (fileLoop depth (fuel + 1) f) st fun f' s =>
        ∃ ms, f'.messages = f.messages ++ ms ∧ Run (messageParse depth) st ms s := by
      unfold fileLoop
      simp only [wlp_bind, wlp_getSt, wlp_ite, wlp_getCurrentByte, wlp_updateBytesRead, wlp_hasErrors, wlp_pure]
      refine ⟨fun hlt => fun _ => ⟨fun hz => ?_, fun hz => ?_⟩, fun hge => ?_⟩
      · intro f1 s1 h1
        obtain ⟨ms, e, r⟩ := ih _ _ _ _ h1
        exact ⟨ms, e, .zero (by rw [List.getElem?_eq_getElem hlt, hz]) r⟩
      · intro msg s1 hm
        have hb := List.getElem?_eq_getElem hlt
        refine ⟨fun he => ⟨[], by simp, .stop hb hz hm he⟩, fun he => ?_⟩
        have he' : s1.error = false := by simpa using he
        cases msg with
        | none =>
          intro f1 s2 h1
          obtain ⟨ms, e, r⟩ := ih _ _ _ _ h1
          exact ⟨ms, e, .drop hb hz hm he' r⟩
        | some m =>
          simp only [fileAddMessage, wlp_bind, wlp_ite, wlp_undef, wlp_alloc, wlp_pure]
          refine ⟨fun _ => trivial, fun _ => ⟨fun _ => ?_, fun _ => ?_⟩⟩
          · intro f1 s2 h1
            obtain ⟨ms, e, r⟩ := ih _ _ _ _ h1
            exact ⟨m :: ms, by rw [e]; simp, .accept _ hb hz hm he' r⟩
          · intro f1 s2 h1
            obtain ⟨ms, e, r⟩ := ih _ _ _ _ h1
            exact ⟨m :: ms, by rw [e]; simp, .accept s1.live hb hz hm he' r⟩
      · exact ⟨[], by simp, .done (by omega)⟩
    exact key _ _ h

theorem fileParse_run {depth : Nat} {buffer : List UInt8} {f : File} {s : St}
    (h : fileParse depth buffer = .ok f s) :
    Run (messageParse depth) { data := buffer, live := 3 } f.messages s := by
  obtain ⟨ms, e, r⟩ := fileLoop_run _ _ _ _ _ h
  simp at e
  rw [e]; exact r

/-- The loop never runs out of fuel: it ends regularly, or the message counter overflows. -/
theorem fileLoop_ends {depth : Nat} (fuel : Nat) : ∀ (f : File) (st : St),
    st.data.length ≤ 2147483647 → Pre (4 * depth) st → st.data.length - st.cursor < fuel →
    (∃ f' s, fileLoop depth fuel f st = .ok f' s ∧ (s.error = true ∨ s.cursor = st.data.length)) ∨
    (fileLoop depth fuel f st = .ub .counter ∧
      32768 * 9 < f.messages.length * 9 + (st.data.length - st.cursor)) := by
  induction fuel with
  | zero => intro f st _ _ h; omega
  | succ fuel ih =>
    intro f st hN hpre hfuel
    have hb := hpre.bound
    by_cases hlt : st.cursor < st.data.length
    · by_cases hz : st.data[st.cursor] = 0
      · have h1 : Step st { st with cursor := st.cursor + 1 } :=
          ⟨rfl, by simp, by simp; omega, by simp, Or.inl, Or.inl, id⟩
        have := ih f { st with cursor := st.cursor + 1 } hN (hpre.step h1 hpre.clean) (by simp only; omega)
        have e : fileLoop depth (fuel + 1) f st = fileLoop depth fuel f { st with cursor := st.cursor + 1 } := by
          conv => lhs; unfold fileLoop
          simp [bind, M.bind, getSt, hlt, getCurrentByte, List.getElem?_eq_getElem hlt, hz, updateBytesRead, modSt]
        rw [e]
        rcases this with h | ⟨h, h3⟩
        · exact Or.inl h
        · simp only at h3
          exact Or.inr ⟨h, by omega⟩
      · obtain ⟨msg, s1, hm, h1, _, _, _, h5⟩ := post_iff.1 (good_message depth st hN (by omega) hpre (by omega))
        have hlen : s1.data.length = st.data.length := by rw [h1.data]
        have hm1 := h1.mono
        have hmb := h1.bound
        have e : fileLoop depth (fuel + 1) f st = (if s1.error then .ok f s1 else
            match msg with
            | some m => (fileAddMessage f m >>= fileLoop depth fuel) s1
            | none => fileLoop depth fuel f s1) := by
          conv => lhs; unfold fileLoop
          simp [bind, M.bind, getSt, hlt, getCurrentByte, List.getElem?_eq_getElem hlt, hz, hm, hasErrors]
          split
          · rfl
          · cases msg <;> rfl
        rw [e]
        by_cases he : s1.error = true
        · exact Or.inl ⟨f, s1, by simp [he], Or.inl he⟩
        · have he' : s1.error = false := by simpa using he
          have hprog := h5 he'
          simp only [he', Bool.false_eq_true, if_false]
          cases msg with
          | none =>
            rcases ih f s1 (by omega) (hpre.step h1 he') (by omega) with h | ⟨h, h3⟩
            · rw [hlen] at h; exact Or.inl h
            · exact Or.inr ⟨h, by omega⟩
          | some m =>
            obtain ⟨hmin, hroom⟩ := minMessage depth st m s1 hpre hm he'
            simp only [fileAddMessage]
            by_cases hcnt : f.messages.length ≥ 32767
            · right
              simp only [hcnt, if_true]
              exact ⟨rfl, by omega⟩
            · simp only [hcnt, if_false]
              have e2 : ∀ l, ({ s1 with live := l } : St).error = false := fun _ => he'
              by_cases hnil : f.messages.isEmpty
              · have := ih { messages := f.messages ++ [m] } { s1 with live := s1.live + 1 } (by simp; omega)
                  (hpre.step (h1.liveR _) he') (by simp; omega)
                simp [bind, M.bind, hnil, alloc, modSt, pure] at this ⊢
                rcases this with h | ⟨h, h3⟩
                · rw [hlen] at h; exact Or.inl h
                · exact Or.inr ⟨h, by omega⟩
              · have := ih { messages := f.messages ++ [m] } s1 (by omega) (hpre.step h1 he') (by omega)
                simp [bind, M.bind, hnil, pure] at this ⊢
                rcases this with h | ⟨h, h3⟩
                · rw [hlen] at h; exact Or.inl h
                · exact Or.inr ⟨h, by omega⟩
    · left
      refine ⟨f, st, ?_, Or.inr (by omega)⟩
      unfold fileLoop
      simp [bind, M.bind, getSt, hlt, pure]

/-- A defined run never counts past `SHRT_MAX`. -/
theorem fileLoop_count {depth : Nat} (fuel : Nat) : ∀ (f f' : File) (st s : St),
    fileLoop depth fuel f st = .ok f' s → f.messages.length ≤ 32767 → f'.messages.length ≤ 32767 := by
  induction fuel with
  | zero => intro f f' st s h; cases h
  | succ fuel ih =>
    intro f f' st s h hf
    have key : Wlp (fileLoop depth (fuel + 1) f) st fun f' _ => f'.messages.length ≤ 32767 := by
      unfold fileLoop
      simp only [wlp_bind, wlp_getSt, wlp_ite, wlp_getCurrentByte, wlp_updateBytesRead, wlp_hasErrors, wlp_pure]
      refine ⟨fun hlt => fun _ => ⟨fun hz f1 s1 h1 => ih _ _ _ _ h1 hf, fun hz msg s1 hm => ?_⟩, fun hge => hf⟩
      refine ⟨fun he => hf, fun he => ?_⟩
      cases msg with
      | none => exact fun f1 s2 h1 => ih _ _ _ _ h1 hf
      | some m =>
        simp only [fileAddMessage, wlp_bind, wlp_ite, wlp_undef, wlp_alloc, wlp_pure]
        refine ⟨fun _ => trivial, fun hc => ⟨fun _ f1 s2 h1 => ?_, fun _ f1 s2 h1 => ?_⟩⟩
        · exact ih _ _ _ _ h1 (by simp; omega)
        · exact ih _ _ _ _ h1 (by simp; omega)
    exact key _ _ h

end Sml
