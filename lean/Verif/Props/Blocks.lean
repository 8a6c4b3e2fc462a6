import Verif.Proofs.Block
import Verif.Props.Stream

/-!
# Where the delivered messages come from: C07 (overflow), C09, C10
-/

namespace Sml

open Spec Samples

/-! ## C09 -/

theorem Spec.Checked.weaken {buf : List UInt8} {p q : Nat} {ms : List Message} (h : Checked buf p ms) (hq : q ≤ p) :
    Checked buf q ms := by
  cases h with
  | nil => exact .nil
  | cons h1 h2 h3 h4 h5 h6 => exact .cons (by omega) h2 h3 h4 h5 h6

theorem run_checked {depth : Nat} {st s : St} {ms : List Message} (hr : Run (messageParse depth) st ms s) :
    st.cursor ≤ st.data.length → st.data.length ≤ 2147483647 → Checked st.data st.cursor ms := by
  induction hr with
  | done _ => intro _ _; exact .nil
  | zero h0 _ ih =>
    intro _ hsm
    exact (ih ((List.getElem?_eq_some_iff.1 h0).1) hsm).weaken (by simp)
  | stop _ _ _ _ => intro _ _; exact .nil
  | accept l _ _ h3 h4 _ ih =>
    intro hb hsm
    obtain ⟨d, _, b1⟩ := message_adv hb hsm h3
    obtain ⟨b, e, v, hblk, hv, hle, ⟨hp, m', hm, hcrc, _⟩ | ⟨_, h, _⟩⟩ := message_block hb hsm h3 h4
    · cases hm
      have := ih (by simpa [d] using b1) (by simpa [d] using hsm)
      simp only [d] at this
      exact .cons (Nat.le_refl _) hblk hp hcrc hv (this.weaken hle)
    · cases h
  | drop _ _ h3 h4 _ ih =>
    intro hb hsm
    obtain ⟨d, c, b1⟩ := message_adv hb hsm h3
    have := ih (by simpa [d] using b1) (by simpa [d] using hsm)
    rw [d] at this
    exact this.weaken c

/-- C09: every delivered message comes from its own block of the buffer; the blocks are disjoint, in
the order of the messages, and pass the checksum test with the value stored in the message. -/
theorem c09_checked (depth : Nat) (buffer : List UInt8) (hlen : buffer.length ≤ 2147483647)
    (f : File) (s : St) (h : fileParse depth buffer = .ok f s) : Checked buffer 0 f.messages :=
  run_checked (fileParse_run h) (by simp) hlen

example : holds (fileParse 35 telegram) (fun f _ => f.messages.length == 3) = true := by decide +kernel

/-! ## C10 -/

/-- C10: a message that is dropped without error is a block whose checksum test fails. The parser
stands behind the checksum field. -/
theorem c10_only_checksum (depth : Nat) (st s : St) (hb : st.cursor ≤ st.data.length)
    (hlen : st.data.length ≤ 2147483647)
    (h : messageParse depth st = .ok none s) (he : s.error = false) :
    ∃ b v, IsBlock st.data st.cursor b s.cursor v ∧ ¬ Passes (slice st.data st.cursor b) (BitVec.ofNat 16 v) := by
  obtain ⟨b, e, v, h1, _, _, ⟨_, m, h3, _⟩ | ⟨h2, _, h4⟩⟩ := message_block hb hlen h he
  · cases h3
  · subst h4; exact ⟨b, v, h1, h2⟩

example : holds (messageParse 35 { data := badMsg }) (fun m s => m.isNone && !s.error) = true := by
  decide +kernel

/-! ## C07: the counter overflows -/

theorem skipTag_sample : holds (messageParse 73729 { data := skipTagMsg ++ [0x76] })
    (fun m s => m.isSome && s.cursor == 9 && !s.error) = true := by decide +kernel

theorem skipTag_read {st : St} {rest : List UInt8} (hb : st.cursor ≤ st.data.length)
    (hsm : st.data.length ≤ 2147483647) (he : st.error = false)
    (hd : st.data.drop st.cursor = skipTagMsg ++ 0x76 :: rest) :
    ∃ m s, messageParse 73729 st = .ok (some m) s ∧ s.data = st.data ∧ s.cursor = st.cursor + 9 ∧ s.error = false := by
  have h := skipTag_sample
  unfold holds at h
  split at h
  next r s0 heq =>
    simp only [Bool.and_eq_true, Bool.not_eq_true', beq_iff_eq] at h
    obtain ⟨⟨h1, h2⟩, h3⟩ := h
    obtain ⟨m, rfl⟩ := Option.isSome_iff_exists.1 h1
    have hl : (st.data.drop st.cursor).length = 10 + rest.length := by
      rw [hd]; simp [skipTagMsg]; omega
    rw [List.length_drop] at hl
    obtain ⟨s', e, sh⟩ := message_local (st := { data := skipTagMsg ++ [0x76] }) (st' := st)
      ⟨by simp, hb, he, by simp, by simp [skipTagMsg]; omega, hsm⟩ (by simp [skipTagMsg]) heq
      (Or.inl ⟨h3, fun i b hi hbyte => by
        simp only [Nat.zero_add] at hbyte
        rw [← List.getElem?_drop, hd]
        have h10 := (List.getElem?_eq_some_iff.1 hbyte).1
        have : skipTagMsg ++ 0x76 :: rest = (skipTagMsg ++ [0x76]) ++ rest := by simp
        rw [this, List.getElem?_append_left h10]
        exact hbyte⟩)
    refine ⟨m, s', e, sh.data', ?_, by rw [sh.err]; exact h3⟩
    have := sh.cursor
    simp only at this
    omega
  next => cases h

theorem flatten_head (n : Nat) : ∃ rest, (List.replicate n skipTagMsg).flatten ++ [0x76] = 0x76 :: rest := by
  cases n with
  | zero => exact ⟨[], rfl⟩
  | succ n => exact ⟨_, by rw [List.replicate_succ, List.flatten_cons]; rfl⟩

theorem skipTag_loop (n : Nat) : ∀ (fuel : Nat) (f : File) (st : St), n < fuel →
    f.messages.length + n = 32767 → st.cursor ≤ st.data.length → st.data.length ≤ 2147483647 → st.error = false →
    st.data.drop st.cursor = (List.replicate (n + 1) skipTagMsg).flatten ++ [0x76] →
    fileLoop 73729 fuel f st = .ub .counter := by
  induction n with
  | zero =>
    intro fuel f st hfuel hcnt hb hsm he hd
    obtain ⟨fuel, rfl⟩ : ∃ k, fuel = k + 1 := ⟨fuel - 1, by omega⟩
    obtain ⟨m, s, hm, h1, h2, h3⟩ := skipTag_read (rest := []) hb hsm he (by rw [hd]; simp)
    have hget : st.data[st.cursor]? = some 0x76 := by
      have := congrArg (fun l => l[0]?) hd
      simpa [skipTagMsg] using this
    have hlt := (List.getElem?_eq_some_iff.1 hget).1
    have hnz : ¬ st.data[st.cursor] = 0 := by rw [(List.getElem?_eq_some_iff.1 hget).2]; decide
    have hge : f.messages.length ≥ 32767 := by omega
    unfold fileLoop
    simp [bind, M.bind, getSt, hlt, getCurrentByte, hnz, hm, hasErrors, h3, fileAddMessage, hge, undef]
  | succ n ih =>
    intro fuel f st hfuel hcnt hb hsm he hd
    obtain ⟨fuel, rfl⟩ : ∃ k, fuel = k + 1 := ⟨fuel - 1, by omega⟩
    obtain ⟨rest, hrest⟩ := flatten_head (n + 1)
    have hd' : st.data.drop st.cursor = skipTagMsg ++ ((List.replicate (n + 1) skipTagMsg).flatten ++ [0x76]) := by
      rw [hd, List.replicate_succ, List.flatten_cons, List.append_assoc]
    obtain ⟨m, s, hm, h1, h2, h3⟩ := skipTag_read (rest := rest) hb hsm he (by rw [hd', hrest])
    have hget : st.data[st.cursor]? = some 0x76 := by
      have := congrArg (fun l => l[0]?) hd'
      simpa [skipTagMsg] using this
    have hlt := (List.getElem?_eq_some_iff.1 hget).1
    have hnz : ¬ st.data[st.cursor] = 0 := by rw [(List.getElem?_eq_some_iff.1 hget).2]; decide
    have hge : ¬ f.messages.length ≥ 32767 := by omega
    have hl : (st.data.drop st.cursor).length ≥ 9 := by rw [hd']; simp [skipTagMsg]
    rw [List.length_drop] at hl
    have hdrop : s.data.drop s.cursor = (List.replicate (n + 1) skipTagMsg).flatten ++ [0x76] := by
      rw [h1, h2, ← List.drop_drop, hd']
      rfl
    have key : ∀ l, fileLoop 73729 fuel { messages := f.messages ++ [m] } { s with live := l } = .ub .counter :=
      fun l => ih fuel _ _ (by omega) (by simp; omega) (by simp only [h1, h2]; omega)
        (by simp only [h1]; exact hsm) h3 hdrop
    unfold fileLoop
    by_cases hnil : f.messages.isEmpty
    · simp [bind, M.bind, getSt, hlt, getCurrentByte, hnz, hm, hasErrors, h3, fileAddMessage, hge, hnil, alloc, modSt, pure]
      have := key (s.live + 1)
      rw [h3] at this
      exact this
    · simp [bind, M.bind, getSt, hlt, getCurrentByte, hnz, hm, hasErrors, h3, fileAddMessage, hge, hnil, pure]
      exact key s.live

theorem flatten_length (n : Nat) : ((List.replicate n skipTagMsg).flatten ++ [(0x76 : UInt8)]).length = 9 * n + 1 := by
  induction n with
  | zero => rfl
  | succ n ih => rw [List.replicate_succ, List.flatten_cons, List.append_assoc, List.length_append, ih]; simp [skipTagMsg]; omega

/-- C07: 32768 messages of nine bytes and one more byte make the 16-bit message counter overflow;
this is undefined behaviour. The bound of C01 and C02 on the buffer length cannot be improved. -/
theorem c07_counter_overflow :
    ∃ buffer : List UInt8, buffer.length = 294913 ∧ buffer.length < 4 * 73729 ∧
      fileParse 73729 buffer = .ub .counter := by
  have hl := flatten_length 32768
  refine ⟨_, hl, by rw [hl]; decide, ?_⟩
  generalize hB : (List.replicate 32768 skipTagMsg).flatten ++ [(0x76 : UInt8)] = B at hl
  unfold fileParse
  exact skipTag_loop 32767 _ _ _ (by omega) rfl (by simp) (by simp only; omega) rfl (by simp only [List.drop_zero]; exact hB.symm)

end Sml
