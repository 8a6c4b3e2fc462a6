import Verif.Proofs.Smooth
import Verif.Proofs.CostFile
import Verif.Proofs.Standard

/-!
# Telegrams of conforming senders are sequences of fields, and are read to their end
-/

namespace Sml

open Spec Spec.Grammar

set_option linter.unusedVariables false

/-! ## The encoding -/

theorem Tokens.content {h bs r : List UInt8} {ty : Nat} (hh : Standard.Header ty bs.length h) (hty : ty ≠ 7) (hl : (h ++ bs).length ≤ 2147483647) (ht : Tokens r) :
    Tokens (h ++ bs ++ r) := by
  obtain ⟨h1, h2, h3⟩ := hh
  rw [List.append_assoc]
  refine .field h1 (by rw [h2]; exact hty) ?_ h3 ht
  unfold headerLength at h3
  rw [if_neg (by rw [h2]; exact hty)] at h3
  simp at hl
  omega

mutual
theorem encodes_tokens : ∀ (t : Term) {bs r : List UInt8}, Standard.Encodes t bs → bs.length ≤ 2147483647 → Tokens r → Tokens (bs ++ r)
  | .absent, bs, r, h, hl, ht => by
    rw [Standard.Encodes] at h
    subst h
    exact Tokens.field (h := [0x01]) (bs := []) ⟨[], 0x01, rfl, by simp, by decide⟩ (by decide) (by decide) (by decide) ht
  | .octets s, bs, r, h, hl, ht => by
    rw [Standard.Encodes] at h
    obtain ⟨h, hh, _, rfl⟩ := h
    exact Tokens.content hh (by decide) hl ht
  | .bool b, bs, r, h, hl, ht => by
    rw [Standard.Encodes] at h
    obtain ⟨h, x, hh, _, rfl⟩ := h
    exact Tokens.content hh (by decide) hl ht
  | .int s, bs, r, h, hl, ht => by
    rw [Standard.Encodes] at h
    obtain ⟨h, hh, _, rfl⟩ := h
    exact Tokens.content hh (by decide) hl ht
  | .uint s, bs, r, h, hl, ht => by
    rw [Standard.Encodes] at h
    obtain ⟨h, hh, _, rfl⟩ := h
    exact Tokens.content hh (by decide) hl ht
  | .list ts, bs, r, h, hl, ht => by
    rw [Standard.Encodes] at h
    obtain ⟨h, r', ⟨h1, h2, h3⟩, hr, rfl⟩ := h
    have hn := Std.encodeAll_length hr
    simp only [List.length_append] at hl
    rw [List.append_assoc]
    refine .list h1 h2 ?_ (encodeAll_tokens ts hr (by omega) ht)
    unfold headerLength at h3
    rw [if_pos h2] at h3
    omega
theorem encodeAll_tokens : ∀ (ts : List Term) {bs r : List UInt8}, Standard.EncodeAll ts bs → bs.length ≤ 2147483647 → Tokens r → Tokens (bs ++ r)
  | [], bs, r, h, hl, ht => by
    rw [Standard.EncodeAll] at h
    subst h
    exact ht
  | t :: ts, bs, r, h, hl, ht => by
    rw [Standard.EncodeAll] at h
    obtain ⟨x, y, hx, hy, rfl⟩ := h
    simp only [List.length_append] at hl
    rw [List.append_assoc]
    exact encodes_tokens t hx (by omega) (encodeAll_tokens ts hy (by omega) ht)
end

theorem standard_tokens {ms : List Message} {bs : List UInt8} (h : Standard.Telegram ms bs) (hl : bs.length ≤ 2147483647) : Tokens bs := by
  induction h with
  | fill n =>
    clear hl
    induction n with
    | zero => exact .nil
    | succ n ih => exact .stop ih
  | message hm _ ih =>
    obtain ⟨hd, ts, r, c, crc, hcrc, ⟨h1, h2, h3⟩, he, hr, ⟨t, ht, hc⟩, hm, rfl⟩ := hm
    simp only [List.length_append] at hl
    simp only [List.append_assoc]
    refine .list h1 h2 ?_ (encodeAll_tokens ts hr (by omega) (encodes_tokens t hc (by omega) (.stop (ih (by omega)))))
    unfold headerLength at h3
    rw [if_pos h2] at h3
    omega

theorem standard_whole {d : Nat} {ms : List Message} {bs : List UInt8} (h : Standard.Telegram ms bs) (hl : bs.length < 2147483648 ∧ bs.length < 4 * d) :
    Whole d bs ms [] := by
  induction h with
  | fill n =>
    clear hl
    induction n with
    | zero => exact .done
    | succ n ih => exact .padding ih
  | message hm _ ih =>
    simp only [List.length_append] at hl
    exact .keep (Std.und_message hm (by omega)) (ih (by omega))

/-! ## The loop on a telegram that can be read to its end -/

theorem fileLoop_clean {depth : Nat} (fuel : Nat) : ∀ (f : File) (st : St), st.data.length ≤ 2147483647 → Pre (4 * depth) st →
    Wlp (fileLoop depth fuel f) st fun _ s => ∀ l ds, Whole depth st.rest l ds → s.error = false := by
  induction fuel with
  | zero => intro f st _ _ f' s h; cases h
  | succ fuel ih =>
    intro f st hN hpre f' s hr l ds hw
    have hb := hpre.bound
    by_cases hlt : st.cursor < st.data.length
    · have hrest : st.rest = st.data[st.cursor] :: st.data.drop (st.cursor + 1) := List.drop_eq_getElem_cons hlt
      by_cases hz : st.data[st.cursor] = 0
      · have h1 : Step st { st with cursor := st.cursor + 1 } :=
          ⟨rfl, by simp, by simp; omega, by simp, Or.inl, Or.inl, id⟩
        rw [fileLoop_skip hlt hz] at hr
        have hw' : Whole depth (st.data.drop (st.cursor + 1)) l ds := by
          generalize hi : st.rest = i at hw
          have hm : ∀ r o, message depth r i o → False := by
            intro r o h
            have := message_head h
            rw [← hi, hrest, hz] at this
            exact absurd this (by simp [nextType])
          cases hw with
          | done => rw [hrest] at hi; cases hi
          | padding h => rw [hrest] at hi; injection hi with _ hi; rw [hi]; exact h
          | keep h _ => exact (hm _ _ h).elim
          | drop h h' _ => exact (hm none _ ⟨_, _, _, h, h'⟩).elim
        exact ih f { st with cursor := st.cursor + 1 } hN (hpre.step h1 hpre.clean) f' s hr l ds hw'
      · obtain ⟨msg, s1, hm, h1, h2, h3, _, h5⟩ := post_iff.1 (good_message depth st hN (by omega) hpre (by omega))
        have hlen : s1.data.length = st.data.length := by rw [h1.data]
        have whole : s1.error = false ∧ ∃ l ds, Whole depth s1.rest l ds := by
          generalize hi : st.rest = i at hw
          cases hw with
          | done => rw [hrest] at hi; cases hi
          | padding _ =>
            rw [hrest] at hi
            injection hi with hi _
            exact absurd hi hz
          | keep h h' =>
            subst hi
            obtain ⟨a, b, c⟩ := message_complete hb hN hpre.clean hm h
            subst c
            exact ⟨b, _, _, h'⟩
          | drop h h' h'' =>
            subst hi
            obtain ⟨a, b, c⟩ := message_complete hb hN hpre.clean hm (r' := none) ⟨_, _, _, h, h'⟩
            subst c
            exact ⟨b, _, _, h''⟩
        obtain ⟨he', l', ds', hw'⟩ := whole
        rw [fileLoop_round hlt hz hm, if_neg (by rw [he']; decide)] at hr
        cases msg with
        | none => exact ih f s1 (by omega) (hpre.step h1 he') f' s hr l' ds' hw'
        | some m =>
          by_cases hge : f.messages.length ≥ 32767
          · simp only [fileAddMessage, if_pos hge] at hr
            cases hr
          obtain ⟨ms⟩ := f
          simp only [fileAddMessage, if_neg hge] at hr
          have hpre' : Pre (4 * depth) { s1 with live := s1.live + if ms.isEmpty = true then 1 else 0 } := hpre.step (h1.liveR _) he'
          have hr' : fileLoop depth fuel { messages := ms ++ [m] } { s1 with live := s1.live + if ms.isEmpty = true then 1 else 0 } = .ok f' s := by
            cases h : ms.isEmpty <;> rw [h] at hr <;> exact hr
          exact ih { messages := ms ++ [m] } _ (by simp; omega) hpre' f' s hr' l' ds' hw'
    · unfold fileLoop at hr
      simp [bind, M.bind, getSt, hlt, pure] at hr
      obtain ⟨rfl, rfl⟩ := hr
      exact hpre.clean

/-- `sml_file_parse` on a telegram that can be read to its end. -/
theorem fileParse_clean {depth : Nat} {buffer : List UInt8} {f : File} {s : St} {l ds : List Message} (hlen : buffer.length ≤ 2147483647) (hdepth : buffer.length < 4 * depth)
    (hw : Whole depth buffer l ds) (h : fileParse depth buffer = .ok f s) : s.error = false :=
  fileLoop_clean (depth := depth) (buffer.length + 1) { messages := [] } { data := buffer, live := 3 } hlen
    ⟨by simp, rfl, by simpa using hdepth⟩ f s h l ds (by simpa [St.rest] using hw)

/-! ## A header that announces too much -/

theorem lenLoop_big (more : List UInt8) : ∀ (last : UInt8) (rest : List UInt8) (fuel length : Nat) (list : Int) (st : St),
    st.data.drop st.cursor = more ++ last :: rest → (∀ b ∈ more, 128 ≤ b.toNat) → last.toNat < 128 →
    st.sovf = true ∨ (length < 2147483648 ∧ 2147483648 ≤ nibbles length (more ++ [last])) →
    Wlp (lenLoop fuel length list) st fun _ s => s.sovf = true := by
  induction more with
  | nil =>
    intro last rest fuel length list st hd _ hl hv r s h
    obtain ⟨hn, hb, hr⟩ := drop_cons_get hd
    cases fuel with
    | zero => cases h
    | succ fuel =>
      have hnc : ¬ (last &&& 0x80 = 0x80) := by rw [cont_bit]; omega
      have e : lenLoop (fuel + 1) length list st = .ok ((length * 16 % 4294967296) ||| (last.toNat &&& 0xF), list)
          { st with sovf := st.sovf || decide (length * 16 ≥ 2147483648) } := by
        unfold lenLoop
        run
        rw [if_pos hn, run_getCurrentByte hn, hb]
        run
        rw [if_pos hnc]
      rw [e] at h
      cases h
      rcases hv with hv | ⟨_, hv⟩
      · simp [hv]
      · simp only [nibbles, List.nil_append, List.foldl_cons, List.foldl_nil] at hv
        simp; omega
  | cons b more ih =>
    intro last rest fuel length list st hd hmore hl hv r s h
    obtain ⟨hn, hb, hr⟩ := drop_cons_get hd
    cases fuel with
    | zero => cases h
    | succ fuel =>
      have hc : b &&& 0x80 = 0x80 := by rw [cont_bit]; exact hmore b (by simp)
      have e : lenLoop (fuel + 1) length list st = lenLoop fuel ((length * 16 % 4294967296) ||| (b.toNat &&& 0xF)) (if list ≠ 0 then list - 1 else list)
          { st with cursor := st.cursor + 1, sovf := st.sovf || decide (length * 16 ≥ 2147483648) } := by
        conv => lhs; unfold lenLoop
        run
        rw [if_pos hn, run_getCurrentByte hn, hb]
        run
        rw [if_neg (by simpa using hc)]
      rw [e] at h
      refine ih last rest fuel _ _ { st with cursor := st.cursor + 1, sovf := st.sovf || decide (length * 16 ≥ 2147483648) } hr
        (fun x hx => hmore x (by simp [hx])) hl ?_ r s h
      rcases hv with hv | ⟨h1, hv⟩
      · exact .inl (by simp [hv])
      · by_cases hlt : length * 16 ≥ 2147483648
        · exact .inl (by simp [hlt])
        · have hacc : (length * 16 % 4294967296) ||| (b.toNat &&& 0xF) = length * 16 + b.toNat % 16 := by
            rw [and15, Nat.mod_eq_of_lt (by omega), shift_or_eq (by omega)]
          refine .inr ⟨by omega, ?_⟩
          rw [hacc]
          simpa only [nibbles, List.cons_append, List.foldl_cons] using hv

/-- A header overflows exactly if it announces 2^31 or more. -/
theorem getNextLength_overflow {hdr rest : List UInt8} {st : St} (hh : Spec.IsHeader hdr) (hd : st.data.drop st.cursor = hdr ++ rest)
    (hlen : st.data.length ≤ 2147483647) :
    ∃ n s, getNextLength st = .ok n s ∧ s.cursor = st.cursor + hdr.length ∧ (s.sovf = true ↔ st.sovf = true ∨ 2147483648 ≤ headerValue hdr) := by
  obtain ⟨o, h1, h2⟩ := getNextLength_run hh hd
  have hl : hdr.length ≤ 2147483647 := by
    have : (st.data.drop st.cursor).length = (hdr ++ rest).length := by rw [hd]
    simp at this
    omega
  refine ⟨_, _, h1, rfl, fun h => ?_, fun h => ?_⟩
  · by_cases hv : headerValue hdr < 2147483648
    · rw [← (h2 hv (by omega)).1]; exact .inl h
    · exact .inr (by omega)
  · obtain ⟨more, last, rfl, hmore, hlast⟩ := hh
    have hlt : st.cursor < st.data.length := by
      have : (st.data.drop st.cursor).length = (more ++ [last] ++ rest).length := by rw [hd]
      simp at this
      omega
    have hv : st.sovf = true ∨ (0 < 2147483648 ∧ 2147483648 ≤ nibbles 0 (more ++ [last])) := h.imp id fun h => ⟨by decide, h⟩
    generalize hL : (if st.data[st.cursor].toNat &&& 0x70 = tyList then (0 : Int) else -1) = L
    cases e : lenLoop (st.data.length - st.cursor + 1) 0 L st with
    | ub u =>
      have : getNextLength st = .ub u := by
        unfold getNextLength
        run
        rw [if_neg (by omega), run_getCurrentByte hlt]
        run
        rw [hL, e]
        rfl
      rw [this] at h1; cases h1
    | ok r s =>
      have hs := lenLoop_big more last rest _ 0 L st (by simpa using hd) hmore hlast hv r s e
      have : ∃ n s', getNextLength st = .ok n s' ∧ s'.sovf = true := by
        unfold getNextLength
        run
        rw [if_neg (by omega), run_getCurrentByte hlt]
        run
        rw [hL, e]
        run
        split
        · exact ⟨_, _, rfl, by simp [hs]⟩
        · exact ⟨_, _, rfl, hs⟩
      obtain ⟨n, s', e', ho⟩ := this
      rw [e'] at h1
      injection h1 with _ h1
      rw [← h1]
      exact ho

end Sml
