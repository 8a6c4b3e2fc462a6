import Verif.Proofs.Cost
import Verif.Proofs.FileLong

/-!
# The exact cost of a telegram
-/

namespace Sml

open Spec Spec.Grammar

set_option linter.unusedSimpArgs false
set_option linter.unusedVariables false

/-- Dropping a message gives back what `sml_message_free` reaches. -/
theorem messageFail_cost {m : Message} (hm : TagOk m.messageBody) (st : St) :
    Wlp (messageFail m) st fun _ s => s.live + messageFreed1 m = st.live := by
  unfold messageFail messageFree messageBodyFree
  obtain ⟨a, b, c, d, e⟩ := m
  simp only [wlp_bind, wlp_release, wlp_pure]
  intro h1 h2 h3
  cases d with
  | none =>
    simp only [wlp_pure]
    intro h4 h5
    simp only [messageFreed1, messageBodyFreed, own]
    omega
  | some x =>
    obtain ⟨t, ht⟩ := hm x rfl
    simp only [ht, wlp_release]
    intro h4 h5 h6
    simp only [messageFreed1, messageBodyFreed, own, ht]
    omega

/-- What a message costs that is dropped for its checksum. -/
theorem message_dropped {depth : Nat} {st s : St} {r : Option Message} {m : Message} {c : Num} {bs o : List UInt8} (hc : st.cursor ≤ st.data.length)
    (hlen : st.data.length ≤ 2147483647) (he : st.error = false) (h : messageParse depth st = .ok r s) (hn : ¬ Matches bs c)
    (hg : checked depth m c bs st.rest o) : s.live = st.live + strandedMessage m := by
  obtain ⟨mid, h1, ⟨m0, g0, m1, g1, m2, g2, m3, g3, g4⟩, hm3, hnum⟩ := hg
  obtain ⟨hlt, k, ov, h4, h5, h6, h7⟩ := header_run (st := { st with live := st.live + 1 }) g0
  simp only at h5 h6
  obtain ⟨s1, p1, e1, r1, _⟩ := parses_str.complete { st with live := st.live + 1, cursor := st.cursor + k, sovf := ov } m.transactionId m1 he
    (by simp only; omega) (by rw [← h5] at g1; exact g1)
  obtain ⟨d1, l1, c1⟩ := parses_str.after (by simp only; omega) p1
  obtain ⟨s2, p2, e2, r2, _⟩ := (parses_u 1).complete s1 m.groupId m2 e1 c1 (by rw [r1]; exact g2)
  obtain ⟨d2, l2, c2⟩ := (parses_u 1).after c1 p2
  obtain ⟨s3, p3, e3, r3, _⟩ := (parses_u 1).complete s2 m.abortOnError m3 e2 c2 (by rw [r2]; exact g3)
  obtain ⟨d3, l3, c3⟩ := (parses_u 1).after c2 p3
  obtain ⟨s4, p4, e4, r4, _⟩ := (parses_body depth).complete s3 m.messageBody mid e3 c3 (by rw [r3]; exact g4)
  obtain ⟨d4, l4, c4⟩ := (parses_body depth).after c3 p4
  rw [message_run (m := { m with crc := none }) rfl (by omega) h7 h4 p1 e1 p2 e2 p3 e3 p4 e4] at h
  have hd : s4.data = st.data := by rw [d4, d3, d2, d1]
  simp only at l1
  have hcur : st.cursor ≤ s4.cursor := by omega
  have q1 := (cost_octetString _ (by simp only; omega) _ _ p1).2 e1
  have q2 := (cost_num _ c1 _ _ p2).2 e2
  have q3 := (cost_num _ c2 _ _ p3).2 e3
  have q4 := (cost_messageBody depth _ c3 _ _ p4).2 e4
  have htag := inv_messageBody depth _ _ _ p4
  obtain ⟨s5, p5, e5, r5, _⟩ := (parses_u 2).complete s4 (some c) o e4 c4 (by rw [r4]; exact hnum)
  obtain ⟨d5, l5, c5⟩ := (parses_u 2).after c4 p5
  have q5 := (cost_num _ c4 _ _ p5).2 e5
  have hrest : 3 ≤ s4.data.length - s4.cursor := by
    rw [← r4] at hm3
    simpa [St.rest] using hm3
  unfold messageParseTail at h
  rw [run_bind, run_getSt, Res.andThen_ok] at h
  simp only [run_ite] at h
  rw [if_neg (by rw [hd] at c4; omega), if_neg (by omega), run_bind, show u16Parse s4 = .ok (some c) s5 from p5, Res.andThen_ok, run_bind, run_hasErrors, Res.andThen_ok, e5] at h
  simp only at h
  have hb : bufferSlice st.cursor (s4.cursor - st.cursor) s5 = .ok bs s5 := by
    unfold bufferSlice
    rw [if_pos (by rw [d5]; omega), d5, hd, between_unique hd hcur (by rw [r4]; exact h1.symm)]
  rw [bind_ok hb, run_ite, if_pos ((matches_iff _ _).2 hn)] at h
  have hf := messageFail_cost (m := { m with crc := some c }) htag s5 _ _ h
  rw [strandedMessage_eq]
  simp only [bodyCost, messageFreed1, numberFreed] at *
  omega

/-- What the loop leaves: at least the files blocks and the stranded ones, and no more if the telegram is read to its end. -/
theorem fileLoop_cost {depth : Nat} (fuel : Nat) : ∀ (f : File) (st : St), st.data.length ≤ 2147483647 → Pre (4 * depth) st →
    Wlp (fileLoop depth fuel f) st fun f' s => ∃ l, f'.messages = f.messages ++ l ∧
      st.live + fileFreed f' + stranded l ≤ s.live + fileFreed f ∧
      ∀ ds, Whole depth st.rest l ds → s.live + fileFreed f = st.live + fileFreed f' + stranded l + stranded ds := by
  induction fuel with
  | zero => intro f st _ _ f' s h; cases h
  | succ fuel ih =>
    intro f st hN hpre f' s hr
    have hb := hpre.bound
    have hs0 : stranded [] = 0 := rfl
    by_cases hlt : st.cursor < st.data.length
    · have hrest : st.rest = st.data[st.cursor] :: st.data.drop (st.cursor + 1) := List.drop_eq_getElem_cons hlt
      by_cases hz : st.data[st.cursor] = 0
      · have h1 : Step st { st with cursor := st.cursor + 1 } :=
          ⟨rfl, by simp, by simp; omega, by simp, Or.inl, Or.inl, id⟩
        rw [fileLoop_skip hlt hz] at hr
        obtain ⟨l, g1, g2, g3⟩ := ih f { st with cursor := st.cursor + 1 } hN (hpre.step h1 hpre.clean) f' s hr
        refine ⟨l, g1, g2, fun ds hw => ?_⟩
        rw [hrest, hz] at hw
        cases hw with
        | padding hw => exact g3 ds hw
        | keep h _ => exact absurd (message_head h) (zero_type _)
        | drop h1 h2 _ =>
          have : message depth none (0 :: st.data.drop (st.cursor + 1)) _ := ⟨_, _, _, h1, h2⟩
          exact absurd (message_head this) (zero_type _)
      · obtain ⟨msg, s1, hm, h1, h2, h3, _, h5⟩ := post_iff.1 (good_message depth st hN (by omega) hpre (by omega))
        have hsure := message_sure depth st msg s1 hm
        have hlen : s1.data.length = st.data.length := by rw [h1.data]
        have hnone : messageFreed none = 0 := rfl
        have whole : ∀ l ds, Whole depth st.rest l ds → (∃ m l', msg = some m ∧ l = m :: l' ∧ s1.error = false ∧ Whole depth s1.rest l' ds) ∨
            (∃ m ds', msg = none ∧ ds = m :: ds' ∧ s1.error = false ∧ s1.live = st.live + strandedMessage m ∧ Whole depth s1.rest l ds') := by
          intro l ds hw
          generalize hi : st.rest = i at hw
          cases hw with
          | done => rw [hrest] at hi; cases hi
          | padding _ =>
            rw [hrest] at hi
            injection hi with hi _
            exact absurd hi hz
          | keep h h' =>
            subst hi
            obtain ⟨a, b, c⟩ := message_complete hb hN hpre.clean hm h
            subst c
            exact .inl ⟨_, _, a, rfl, b, h'⟩
          | drop h h' h'' =>
            subst hi
            obtain ⟨a, b, c⟩ := message_complete hb hN hpre.clean hm (r' := none) ⟨_, _, _, h, h'⟩
            subst c
            exact .inr ⟨_, _, a, rfl, b, message_dropped hb hN hpre.clean hm h h', h''⟩
        rw [fileLoop_round hlt hz hm] at hr
        by_cases he : s1.error = true
        · rw [if_pos he] at hr
          cases hr
          refine ⟨[], by simp, by omega, fun ds hw => ?_⟩
          rcases whole _ _ hw with ⟨_, _, _, _, h, _⟩ | ⟨_, _, _, _, h, _⟩ <;> rw [h] at he <;> cases he
        · rw [if_neg he] at hr
          have he' : s1.error = false := by simpa using he
          cases msg with
          | none =>
            obtain ⟨l, g1, g2, g3⟩ := ih f s1 (by omega) (hpre.step h1 he') f' s hr
            refine ⟨l, g1, by omega, fun ds hw => ?_⟩
            rcases whole _ _ hw with ⟨_, _, h, _⟩ | ⟨m, ds', _, rfl, _, hl, hw'⟩
            · cases h
            · have := g3 ds' hw'
              have : stranded (m :: ds') = strandedMessage m + stranded ds' := by simp [stranded]
              omega
          | some m =>
            have hcost := msgCost_message depth st hb _ _ hm m rfl
            by_cases hge : f.messages.length ≥ 32767
            · simp only [fileAddMessage, if_pos hge] at hr
              cases hr
            have hcons : ∀ l, stranded (m :: l) = strandedMessage m + stranded l := by intro l; simp [stranded]
            have fin : ∀ ms' live', (∃ l, f'.messages = (f.messages ++ [m]) ++ l ∧ live' + fileFreed f' + stranded l ≤ s.live + ms' ∧
                ∀ ds, Whole depth s1.rest l ds → s.live + ms' = live' + fileFreed f' + stranded l + stranded ds) →
                live' + fileFreed f + messageFreed1 m = s1.live + ms' →
                ∃ l, f'.messages = f.messages ++ l ∧ st.live + fileFreed f' + stranded l ≤ s.live + fileFreed f ∧
                  ∀ ds, Whole depth st.rest l ds → s.live + fileFreed f = st.live + fileFreed f' + stranded l + stranded ds := by
              rintro ms' live' ⟨l, g1, g2, g3⟩ hl
              have := hcons l
              refine ⟨m :: l, by rw [g1]; simp, by omega, fun ds hw => ?_⟩
              rcases whole _ _ hw with ⟨_, l', h, hl', _, hw'⟩ | ⟨_, _, h, _⟩
              · cases hl'
                have := g3 ds hw'
                omega
              · cases h
            obtain ⟨ms⟩ := f
            simp only [fileAddMessage, if_neg hge] at hr
            by_cases hnil : ms = []
            · subst hnil
              have hff : fileFreed { messages := [] ++ [m] } = messageFreed1 m + 4 := by simp [fileFreed]
              have hf0 : fileFreed { messages := [] } = 3 := rfl
              refine fin _ _ (ih { messages := [] ++ [m] } { s1 with live := s1.live + 1 } (by simp; omega) (hpre.step (h1.liveR _) he') f' s hr) ?_
              rw [hff, hf0]; simp only; omega
            · have hff : fileFreed { messages := ms ++ [m] } = fileFreed { messages := ms } + messageFreed1 m := by
                simp [fileFreed, hnil]; omega
              have hem : ms.isEmpty = false := by simpa using hnil
              simp only [hem, Bool.false_eq_true, if_false] at hr
              refine fin _ _ (ih { messages := ms ++ [m] } s1 (by omega) (hpre.step h1 he') f' s hr) ?_
              rw [hff]; omega
    · unfold fileLoop at hr
      simp [bind, M.bind, getSt, hlt, pure] at hr
      obtain ⟨rfl, rfl⟩ := hr
      refine ⟨[], by simp, by omega, fun ds hw => ?_⟩
      have : st.rest = [] := by unfold St.rest; exact List.drop_eq_nil_of_le (by omega)
      rw [this] at hw
      cases hw with
      | done => omega
      | drop h h' _ =>
        have : message depth none [] _ := ⟨_, _, _, h, h'⟩
        exact absurd rfl (nextType_ne_nil (message_head this))

/-- A run of the loop without an error has read the telegram to its end. -/
theorem fileLoop_whole {depth : Nat} (fuel : Nat) : ∀ (f : File) (st : St), st.data.length ≤ 2147483647 → Pre (4 * depth) st →
    Wlp (fileLoop depth fuel f) st fun f' s => s.error = false → ∃ l ds, f'.messages = f.messages ++ l ∧ Whole depth st.rest l ds := by
  induction fuel with
  | zero => intro f st _ _ f' s h; cases h
  | succ fuel ih =>
    intro f st hN hpre f' s hr hok
    have hb := hpre.bound
    by_cases hlt : st.cursor < st.data.length
    · have hrest : st.rest = st.data[st.cursor] :: st.data.drop (st.cursor + 1) := List.drop_eq_getElem_cons hlt
      by_cases hz : st.data[st.cursor] = 0
      · have h1 : Step st { st with cursor := st.cursor + 1 } :=
          ⟨rfl, by simp, by simp; omega, by simp, Or.inl, Or.inl, id⟩
        rw [fileLoop_skip hlt hz] at hr
        obtain ⟨l, ds, g1, g2⟩ := ih f { st with cursor := st.cursor + 1 } hN (hpre.step h1 hpre.clean) f' s hr hok
        refine ⟨l, ds, g1, ?_⟩
        rw [hrest, hz]
        exact .padding g2
      · obtain ⟨msg, s1, hm, h1, h2, h3, _, h5⟩ := post_iff.1 (good_message depth st hN (by omega) hpre (by omega))
        have hlen : s1.data.length = st.data.length := by rw [h1.data]
        rw [fileLoop_round hlt hz hm] at hr
        by_cases he : s1.error = true
        · rw [if_pos he] at hr
          cases hr
          rw [he] at hok; cases hok
        · rw [if_neg he] at hr
          have he' : s1.error = false := by simpa using he
          have hg := message_sound hb hN hm he'
          cases msg with
          | none =>
            obtain ⟨l, ds, g1, g2⟩ := ih f s1 (by omega) (hpre.step h1 he') f' s hr hok
            obtain ⟨m, c, bs, hg1, hg2⟩ := hg
            exact ⟨l, m :: ds, g1, .drop hg1 hg2 g2⟩
          | some m =>
            by_cases hge : f.messages.length ≥ 32767
            · simp only [fileAddMessage, if_pos hge] at hr
              cases hr
            obtain ⟨ms⟩ := f
            simp only [fileAddMessage, if_neg hge] at hr
            have hpre' : Pre (4 * depth) { s1 with live := s1.live + if ms.isEmpty = true then 1 else 0 } := hpre.step (h1.liveR _) he'
            have hr' : fileLoop depth fuel { messages := ms ++ [m] } { s1 with live := s1.live + if ms.isEmpty = true then 1 else 0 } = .ok f' s := by
              cases h : ms.isEmpty <;> rw [h] at hr <;> exact hr
            obtain ⟨l, ds, g1, g2⟩ := ih { messages := ms ++ [m] } _ (by simp; omega) hpre' f' s hr' hok
            exact ⟨m :: l, ds, by rw [g1]; simp, .keep hg g2⟩
    · unfold fileLoop at hr
      simp [bind, M.bind, getSt, hlt, pure] at hr
      obtain ⟨rfl, rfl⟩ := hr
      have : st.rest = [] := by unfold St.rest; exact List.drop_eq_nil_of_le (by omega)
      rw [this]
      exact ⟨[], [], by simp, .done⟩

/-- The blocks left after `sml_file_parse`. -/
theorem fileParse_cost {depth : Nat} {buffer : List UInt8} {f : File} {s : St} (hlen : buffer.length ≤ 2147483647) (hdepth : buffer.length < 4 * depth)
    (h : fileParse depth buffer = .ok f s) : fileFreed f + stranded f.messages ≤ s.live ∧
      ∀ ds, Whole depth buffer f.messages ds → s.live = fileFreed f + stranded f.messages + stranded ds := by
  obtain ⟨l, g1, g2, g3⟩ := fileLoop_cost (depth := depth) (buffer.length + 1) { messages := [] } { data := buffer, live := 3 } hlen
    ⟨by simp, rfl, by simpa using hdepth⟩ f s h
  have hf3 : fileFreed { messages := [] } = 3 := rfl
  simp only [List.nil_append] at g1
  subst g1
  simp only [hf3] at g2 g3
  refine ⟨by omega, fun ds hw => ?_⟩
  have := g3 ds (by simpa [St.rest] using hw)
  omega

/-- `sml_file_parse` without an error has read the telegram to its end. -/
theorem fileParse_whole {depth : Nat} {buffer : List UInt8} {f : File} {s : St} (hlen : buffer.length ≤ 2147483647) (hdepth : buffer.length < 4 * depth)
    (h : fileParse depth buffer = .ok f s) (he : s.error = false) : ∃ ds, Whole depth buffer f.messages ds := by
  obtain ⟨l, ds, g1, g2⟩ := fileLoop_whole (depth := depth) (buffer.length + 1) { messages := [] } { data := buffer, live := 3 } hlen
    ⟨by simp, rfl, by simpa using hdepth⟩ f s h he
  simp only [List.nil_append] at g1
  subst g1
  exact ⟨ds, by simpa [St.rest] using g2⟩

end Sml
