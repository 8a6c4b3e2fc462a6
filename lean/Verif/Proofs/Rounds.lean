import Verif.Proofs.ContractBodies

/-!
# Loops stop when the bytes run out

A loop that is told to run more rounds than there are bytes left behaves as if it had been told
to run one round more than there are bytes.
-/

namespace Sml

theorem Good.progress {D pr : Nat} {p : M α} {fr : α → Nat} (h : Good D p 0 fr (pr + 1)) {st s : St} {a : α}
    (hpre : Pre D st) (hp : p st = .ok a s) (he : s.error = false) :
    Pre D s ∧ s.data.length = st.data.length ∧ st.cursor < s.cursor ∧ s.cursor ≤ st.data.length := by
  obtain ⟨a', s', hp', h1, _, _, _, h5⟩ := post_iff.1 (h st hpre (by omega))
  rw [hp] at hp'
  cases hp'
  have := h5 he
  exact ⟨hpre.step h1 he, by rw [h1.data], by omega, h1.bound⟩

theorem bind_congr_ok {p : M α} {f g : α → M β} {st : St}
    (h : ∀ a s, p st = .ok a s → f a s = g a s) : (p >>= f) st = (p >>= g) st := by
  show M.bind p f st = M.bind p g st
  unfold M.bind
  cases hp : p st with
  | ok a s => exact h a s hp
  | ub r => rfl

theorem hasErrors_bind {f : Bool → M β} {st : St} : (hasErrors >>= f) st = f st.error st := rfl

theorem alloc_bind {n : Nat} {f : Unit → M β} {st : St} :
    (alloc n >>= f) st = f () { st with live := st.live + n } := rfl

theorem sequenceLoop_rounds {D : Nat} {p : M (Option α)} {f fr : Option α → Nat} (hp : Good D p 0 fr 1) :
    ∀ (n m : Nat) (seq : Sequence α) (st : St), Pre D st →
      st.data.length - st.cursor < n → st.data.length - st.cursor < m →
      sequenceLoop p f n seq st = sequenceLoop p f m seq st := by
  intro n
  induction n with
  | zero => intro m seq st _ h; omega
  | succ n ih =>
    intro m seq st hpre hn hm
    cases m with
    | zero => omega
    | succ m =>
      unfold sequenceLoop
      apply bind_congr_ok
      intro e s hps
      simp only [hasErrors_bind]
      by_cases he : s.error = true
      · simp [he]
      · have he' : s.error = false := by simpa using he
        obtain ⟨h1, h2, h3, h4⟩ := hp.progress hpre hps he'
        simp only [he', Bool.false_eq_true, if_false]
        apply bind_congr_ok
        intro seq' s' hs'
        have : ∃ l, s' = { s with live := l } := by
          unfold sequenceAdd at hs'
          split at hs' <;> (cases hs'; exact ⟨_, rfl⟩)
        obtain ⟨l, rfl⟩ := this
        apply ih
        · exact ⟨h1.bound, h1.clean, h1.depth⟩
        · simp only; omega
        · simp only; omega

theorem treePathLoop_rounds {D : Nat} : ∀ (n m : Nat) (path : TreePath) (st : St), Pre D st →
      st.data.length - st.cursor < n → st.data.length - st.cursor < m →
      treePathLoop n path st = treePathLoop m path st := by
  intro n
  induction n with
  | zero => intro m seq st _ h; omega
  | succ n ih =>
    intro m path st hpre hn hm
    cases m with
    | zero => omega
    | succ m =>
      unfold treePathLoop
      apply bind_congr_ok
      intro e s hps
      simp only [hasErrors_bind]
      by_cases he : s.error = true
      · simp [he]
      · have he' : s.error = false := by simpa using he
        obtain ⟨h1, h2, h3, h4⟩ := good_octetString.progress hpre hps he'
        simp only [he', Bool.false_eq_true, if_false]
        cases e with
        | none => exact ih _ _ _ h1 (by omega) (by omega)
        | some e =>
          apply bind_congr_ok
          intro seq' s' hs'
          have : ∃ l, s' = { s with live := l } := by
            unfold treePathAdd at hs'
            split at hs' <;> (cases hs'; exact ⟨_, rfl⟩)
          obtain ⟨l, rfl⟩ := this
          apply ih
          · exact ⟨h1.bound, h1.clean, h1.depth⟩
          · simp only; omega
          · simp only; omega

theorem treeLoop_rounds {D : Nat} {p : M (Option Tree)} {fr : Option Tree → Nat} (hp : Good D p 0 fr 1) :
    ∀ (n m : Nat) (t : Tree) (st : St), Pre D st →
      st.data.length - st.cursor < n → st.data.length - st.cursor < m →
      treeLoop p n t st = treeLoop p m t st := by
  intro n
  induction n with
  | zero => intro m seq st _ h; omega
  | succ n ih =>
    intro m t st hpre hn hm
    cases m with
    | zero => omega
    | succ m =>
      unfold treeLoop
      apply bind_congr_ok
      intro e s hps
      simp only [hasErrors_bind]
      by_cases he : s.error = true
      · simp [he]
      · have he' : s.error = false := by simpa using he
        obtain ⟨h1, h2, h3, h4⟩ := hp.progress hpre hps he'
        simp only [he', Bool.false_eq_true, if_false]
        cases e with
        | none => exact ih _ _ _ h1 (by omega) (by omega)
        | some e =>
          apply bind_congr_ok
          intro seq' s' hs'
          have : ∃ l, s' = { s with live := l } := by
            unfold treeAddTree at hs'
            split at hs'
            split at hs' <;> (cases hs'; exact ⟨_, rfl⟩)
          obtain ⟨l, rfl⟩ := this
          apply ih
          · exact ⟨h1.bound, h1.clean, h1.depth⟩
          · simp only; omega
          · simp only; omega

theorem objectListLoop_rounds {D : Nat} : ∀ (n m : Nat) (r : GetProfilePackRequest) (st : St), Pre D st →
      st.data.length - st.cursor < n → st.data.length - st.cursor < m →
      objectListLoop n r st = objectListLoop m r st := by
  intro n
  induction n with
  | zero => intro m seq st _ h; omega
  | succ n ih =>
    intro m r st hpre hn hm
    cases m with
    | zero => omega
    | succ m =>
      unfold objectListLoop
      simp only [alloc_bind]
      apply bind_congr_ok
      intro e s hps
      simp only [hasErrors_bind]
      by_cases he : s.error = true
      · simp [he]
      · have he' : s.error = false := by simpa using he
        have hpre' : Pre D { st with live := st.live + 1 } := ⟨hpre.bound, hpre.clean, hpre.depth⟩
        obtain ⟨h1, h2, h3, h4⟩ := good_octetString.progress hpre' hps he'
        simp only [he', Bool.false_eq_true, if_false]
        simp only at h2 h3 h4
        exact ih _ _ _ h1 (by omega) (by omega)

theorem listLoop_rounds {D : Nat} : ∀ (n m : Nat) (wa : Bool) (acc : List ListEntry) (st : St), Pre D st →
      (wa = true → DzgMark st.data) →
      st.data.length - st.cursor < n → st.data.length - st.cursor < m →
      listLoop n wa acc st = listLoop m wa acc st := by
  intro n
  induction n with
  | zero => intro m wa acc st _ _ h; omega
  | succ n ih =>
    intro m wa acc st hpre hwa hn hm
    cases m with
    | zero => omega
    | succ m =>
      unfold listLoop
      apply bind_congr_ok
      intro e s hps
      simp only [hasErrors_bind]
      by_cases he : s.error = true
      · simp [he]
      · have he' : s.error = false := by simpa using he
        obtain ⟨a', s', hp', ⟨h1, _, _, _, h5⟩, h6⟩ := post_iff.1 (goodAt_listEntry hwa st rfl hpre (by omega))
        rw [hps] at hp'
        cases hp'
        have h5 := h5 he'
        have hl : s.data.length = st.data.length := by rw [h1.data]
        have hb := h1.bound
        simp only [he', Bool.false_eq_true, if_false]
        cases e with
        | none => rfl
        | some e =>
          obtain ⟨e, wa'⟩ := e
          refine ih _ _ _ _ (hpre.step h1 he') (fun hw => ?_) (by omega) (by omega)
          rw [h1.data]
          exact h6.2 (e, wa') rfl hw

end Sml
