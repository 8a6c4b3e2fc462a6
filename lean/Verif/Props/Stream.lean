import Verif.Proofs.RunLocal
import Verif.Props.Safety

/-!
# Telegrams as streams of messages: C07, C10, C11, C12
-/

namespace Sml

open Spec Samples

/-! ## C12: what follows does not matter -/

/-- C12: a message accepted from a buffer is accepted, with the same bytes, from every extension of
the buffer. -/
theorem c12_message (depth : Nat) (st s : St) (m : Message) (ext : List UInt8)
    (hb : st.cursor ≤ st.data.length) (hlen : st.data.length + ext.length ≤ 2147483647)
    (h : messageParse depth st = .ok (some m) s) :
    ∃ s', messageParse depth { st with data := st.data ++ ext } = .ok (some m) s' ∧
      s'.cursor = s.cursor ∧ s'.live = s.live ∧ s'.error = false ∧ s'.data = st.data ++ ext := by
  have hs : s.error = false := message_sure depth st _ _ h (by simp)
  obtain ⟨a1, a2, a3⟩ := message_adv hb (by omega) h
  have hc : Cover st { st with data := st.data ++ ext } s := by
    refine Or.inl ⟨hs, fun i b _ hbyte => ?_⟩
    have hlt := (List.getElem?_eq_some_iff.1 hbyte).1
    simp only
    rw [List.getElem?_append_left hlt]
    exact hbyte
  obtain ⟨s', e, sh⟩ := message_local (st' := { st with data := st.data ++ ext })
    ⟨hb, by simp; omega, rfl, Nat.le_refl _, by simp; omega, by simpa using hlen⟩ (by omega) h hc
  refine ⟨s', e, ?_, ?_, by rw [sh.err]; exact hs, sh.data'⟩
  · have := sh.cursor; simp only at this; omega
  · have := sh.live; simp only at this; omega

/-- The hypotheses are met by the first message of the sample telegram. -/
example : holds (messageParse 35 { data := openMsg }) (fun m s => m.isSome && s.cursor == 36 && !s.error) = true := by
  decide +kernel

theorem extends_append (a b : List UInt8) (l l' : Nat) :
    Extends { data := a, live := l } { data := a ++ b, live := l' } := by
  intro i x h
  simp only [Nat.zero_add] at h ⊢
  rw [List.getElem?_append_left (List.getElem?_eq_some_iff.1 h).1]
  exact h

/-- C12 for telegrams: the messages delivered from a prefix of a stream are the first messages
delivered from the stream. -/
theorem c12_stream (depth : Nat) (a b : List UInt8) (hlen : (a ++ b).length ≤ 294912)
    (hdepth : (a ++ b).length < 4 * depth) :
    ∃ f s f' s', fileParse depth a = .ok f s ∧ fileParse depth (a ++ b) = .ok f' s' ∧
      f.messages <+: f'.messages := by
  have hl : a.length ≤ (a ++ b).length := by simp
  obtain ⟨f, s, e, _⟩ := fileParse_post (depth := depth) (buffer := a) (by omega) (by omega)
  obtain ⟨f', s', e', _⟩ := fileParse_post (depth := depth) (buffer := a ++ b) hlen hdepth
  obtain ⟨ms2, h, _⟩ := run_prefix (fileParse_run e) (fileParse_run e') (extends_append _ _ _ _) (by simp) (by simp) rfl rfl
    (by simp only; omega) (by simp only; omega)
  exact ⟨f, s, f', s', e, e', ms2, h.symm⟩

example : holds (fileParse 35 (telegram.take 60)) (fun f _ => f.messages.length == 1) = true ∧
    holds (fileParse 35 telegram) (fun f _ => f.messages.length == 3) = true := by decide +kernel

/-! ## Concatenation -/

/-- Telegrams can be joined: if the first is read without error, the messages of the second follow. -/
theorem concat_messages (depth : Nat) (a b : List UInt8) (hlen : (a ++ b).length ≤ 294912)
    (hdepth : (a ++ b).length < 4 * depth) (f : File) (s : St) (ha : fileParse depth a = .ok f s) (hs : s.error = false) :
    ∃ fb sb f' s', fileParse depth b = .ok fb sb ∧ fileParse depth (a ++ b) = .ok f' s' ∧
      f'.messages = f.messages ++ fb.messages ∧ s'.error = sb.error := by
  have hl : (a ++ b).length = a.length + b.length := by simp
  obtain ⟨fb, sb, eb, _⟩ := fileParse_post (depth := depth) (buffer := b) (by omega) (by omega)
  obtain ⟨f', s', e', _⟩ := fileParse_post (depth := depth) (buffer := a ++ b) hlen hdepth
  obtain ⟨ms2, h, h2⟩ := run_prefix (fileParse_run ha) (fileParse_run e') (extends_append _ _ _ _) (by simp) (by simp) rfl rfl
    (by simp only; omega) (by simp only; omega)
  obtain ⟨st2, r2, d2, c2, e2⟩ := h2 hs
  simp only [Nat.zero_add, Nat.sub_zero] at d2 c2
  obtain ⟨k1, k2⟩ := run_same (fileParse_run eb) r2 (fun i => by
    simp only [Nat.zero_add]
    rw [d2, c2, List.getElem?_append_right (by omega)]
    congr 1; omega) (by simp) (by rw [d2, c2]; simp) rfl e2 (by simp only; omega) (by rw [d2]; omega)
  exact ⟨fb, sb, f', s', eb, e', by rw [h, k1], k2⟩

example : ∃ f s, fileParse 80 openMsg = .ok f s ∧ s.error = false ∧ ∃ fb sb f' s', fileParse 80 telegram = .ok fb sb ∧ fileParse 80 (openMsg ++ telegram) = .ok f' s' ∧
    f'.messages = f.messages ++ fb.messages ∧ s'.error = sb.error := by
  have h : holds (fileParse 80 openMsg) (fun _ s => !s.error) = true := by decide +kernel
  unfold holds at h
  split at h
  next f s e =>
    replace h : s.error = false := by simpa using h
    exact ⟨f, s, e, h, concat_messages 80 openMsg telegram (by decide +kernel) (by decide +kernel) f s e h⟩
  next => cases h

/-! ## C11: zero padding -/

/-- C11: zero bytes in front do not change the messages, for any buffer. -/
theorem c11_before (depth n : Nat) (b : List UInt8) (hlen : n + b.length ≤ 294912)
    (hdepth : n + b.length < 4 * depth) :
    ∃ f s f' s', fileParse depth b = .ok f s ∧ fileParse depth (List.replicate n 0 ++ b) = .ok f' s' ∧
      f'.messages = f.messages ∧ s'.error = s.error := by
  have hl : (List.replicate n (0 : UInt8) ++ b).length = n + b.length := by simp
  obtain ⟨f0, s0, e0, _⟩ := fileParse_post (depth := depth) (buffer := List.replicate n 0) (by simp; omega) (by simp; omega)
  obtain ⟨h1, h2⟩ := run_only_zeros (fileParse_run e0) (by simp) rfl
  obtain ⟨fb, sb, f', s', k1, k2, k3, k4⟩ := concat_messages depth (List.replicate n 0) b (by omega) (by omega) f0 s0 e0 h2
  exact ⟨fb, sb, f', s', k1, k2, by rw [k3, h1]; rfl, k4⟩

example : ∃ f s f' s', fileParse 80 telegram = .ok f s ∧ fileParse 80 (List.replicate 5 0 ++ telegram) = .ok f' s' ∧ f'.messages = f.messages ∧ s'.error = s.error :=
  c11_before 80 5 telegram (by decide +kernel) (by decide +kernel)

/-- C11: zero bytes between two parts do not change the messages, if the first part is read
without error (it ends at a message boundary). -/
theorem c11_between (depth n : Nat) (a b : List UInt8) (hlen : a.length + n + b.length ≤ 294912)
    (hdepth : a.length + n + b.length < 4 * depth) (f : File) (s : St) (ha : fileParse depth a = .ok f s)
    (hs : s.error = false) :
    ∃ f1 s1 f2 s2, fileParse depth (a ++ b) = .ok f1 s1 ∧
      fileParse depth (a ++ (List.replicate n 0 ++ b)) = .ok f2 s2 ∧
      f2.messages = f1.messages ∧ s2.error = s1.error := by
  obtain ⟨fb, sb, f1, s1, k1, k2, k3, k4⟩ := concat_messages depth a b (by simp; omega) (by simp; omega) f s ha hs
  obtain ⟨fb', sb', f2, s2, j1, j2, j3, j4⟩ :=
    concat_messages depth a (List.replicate n 0 ++ b) (by simp; omega) (by simp; omega) f s ha hs
  obtain ⟨fc, sc, fd, sd, i1, i2, i3, i4⟩ := c11_before depth n b (by omega) (by omega)
  rw [k1] at i1
  rw [j1] at i2
  injection i1 with i1 i1'
  injection i2 with i2 i2'
  subst i1 i1' i2 i2'
  exact ⟨f1, s1, f2, s2, k2, j2, by rw [j3, k3, i3], by rw [j4, k4, i4]⟩

/-- C11: zero bytes at the end do not change the messages of a telegram read without error. -/
theorem c11_after (depth n : Nat) (a : List UInt8) (hlen : a.length + n ≤ 294912)
    (hdepth : a.length + n < 4 * depth) (f : File) (s : St) (ha : fileParse depth a = .ok f s)
    (hs : s.error = false) :
    ∃ f' s', fileParse depth (a ++ List.replicate n 0) = .ok f' s' ∧ f'.messages = f.messages ∧ s'.error = false := by
  obtain ⟨f1, s1, f2, s2, k1, k2, k3, k4⟩ := c11_between depth n a [] (by simp; omega) (by simp; omega) f s ha hs
  rw [List.append_nil] at k1 k2
  rw [ha] at k1
  injection k1 with k1 k1'
  subst k1 k1'
  exact ⟨f2, s2, k2, k3, by rw [k4]; exact hs⟩

/-- The sample telegram is read without error, alone and followed by itself after three zero bytes. -/
example : holds (fileParse 80 telegram) (fun f s => f.messages.length == 3 && !s.error) = true ∧
    holds (fileParse 80 (telegram ++ (List.replicate 3 0 ++ telegram)))
      (fun f s => f.messages.length == 6 && !s.error) = true := by decide +kernel

/-! ## C10: a wrong checksum costs one message -/

/-- C10: a message that is dropped (read to the end of its checksum without error, not accepted)
takes nothing else with it: everything before and after it is delivered. -/
theorem c10_dropped_alone (depth : Nat) (a bad b : List UInt8) (hlen : (a ++ (bad ++ b)).length ≤ 294912)
    (hdepth : (a ++ (bad ++ b)).length < 4 * depth)
    (f : File) (s : St) (ha : fileParse depth a = .ok f s) (hs : s.error = false)
    (sb : St) (hbad : messageParse depth { data := bad } = .ok none sb) (hsb : sb.error = false)
    (hall : ∀ x ∈ bad.drop sb.cursor, x = 0) :
    ∃ fb s2 f' s', fileParse depth b = .ok fb s2 ∧ fileParse depth (a ++ (bad ++ b)) = .ok f' s' ∧
      f'.messages = f.messages ++ fb.messages ∧ s'.error = s2.error := by
  have hl1 : (a ++ (bad ++ b)).length = a.length + (bad.length + b.length) := by simp
  have hl2 : (bad ++ b).length = bad.length + b.length := by simp
  obtain ⟨fx, sx, ex, _⟩ := fileParse_post (depth := depth) (buffer := bad) (by omega) (by omega)
  have hx : fx.messages = [] ∧ sx.error = false := by
    have hr := fileParse_run ex
    have hsm : bad.length ≤ 2147483647 := by omega
    generalize hms : fx.messages = ms at hr ⊢
    cases hr with
    | done _ => exact ⟨rfl, rfl⟩
    | zero h0 _ =>
      -- a zero byte is no list
      exfalso
      simp only at h0
      have : messageParse depth { data := bad } = .ok none { data := bad, error := true } := by
        cases bad with
        | nil => simp at h0
        | cons x xs =>
          simp at h0
          subst h0
          rfl
      rw [this] at hbad
      injection hbad with _ h
      rw [← h] at hsb
      cases hsb
    | stop h1 h2 h3 h4 =>
      obtain ⟨_, _, _, k, _⟩ := message_agree (st := { data := bad }) (st' := { data := bad, live := 3 }) (by simp) (by simp) rfl rfl (by simp) hsm hsm hbad h3 (Or.inr fun _ => rfl)
      rw [h4, hsb] at k; cases k
    | accept _ h1 h2 h3 h4 _ =>
      obtain ⟨k, _⟩ := message_agree (st := { data := bad }) (st' := { data := bad, live := 3 }) (by simp) (by simp) rfl rfl (by simp) hsm hsm hbad h3 (Or.inr fun _ => rfl)
      cases k
    | drop h1 h2 h3 h4 hr =>
      obtain ⟨_, k2, _, _, k5, _⟩ := message_agree (st := { data := bad }) (st' := { data := bad, live := 3 }) (by simp) (by simp) rfl rfl (by simp) hsm hsm hbad h3 (Or.inr fun _ => rfl)
      simp only [Nat.zero_add, Nat.sub_zero] at k5
      exact run_only_zeros hr (by rw [k2, k5]; exact hall) h4
  obtain ⟨fb, s2, fm, sm, i1, i2, i3, i4⟩ := concat_messages depth bad b (by omega) (by omega) fx sx ex hx.2
  obtain ⟨fm', sm', f', s', j1, j2, j3, j4⟩ := concat_messages depth a (bad ++ b) (by omega) (by omega) f s ha hs
  rw [i2] at j1
  injection j1 with j1 j1'
  subst j1 j1'
  exact ⟨fb, s2, f', s', i1, j2, by rw [j3, i3, hx.1]; rfl, by rw [j4, i4]⟩

/-- The sample message with a wrong checksum meets the hypotheses: 84 bytes are read, the end mark
is left over. -/
example : holds (messageParse 80 { data := badMsg })
    (fun m s => m.isNone && !s.error && (badMsg.drop s.cursor == [0])) = true := by decide +kernel

/-! ## C07: the message counter -/

/-- C07: within 294912 bytes there are at most 32767 messages, the counter does not overflow, and
the messages are those the run of the specification accepts. -/
theorem c07_counter_fits (depth : Nat) (buffer : List UInt8) (hlen : buffer.length ≤ 294912)
    (hdepth : buffer.length < 4 * depth) :
    ∃ f s, fileParse depth buffer = .ok f s ∧ f.messages.length ≤ 32767 ∧
      Run (messageParse depth) { data := buffer, live := 3 } f.messages s := by
  obtain ⟨f, s, e, h1, h2, h3, h4, h5, h6, h7⟩ := fileParse_post hlen hdepth
  refine ⟨f, s, e, ?_, fileParse_run e⟩
  exact fileLoop_count _ _ _ _ _ e (by simp)

example : ∃ f s, fileParse 35 telegram = .ok f s ∧ f.messages.length ≤ 32767 := by
  obtain ⟨f, s, e, h, _⟩ := c07_counter_fits 35 telegram (by decide +kernel) (by decide +kernel)
  exact ⟨f, s, e, h⟩

end Sml
