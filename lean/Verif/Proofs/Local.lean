import Verif.Proofs.Sticky

/-!
# Parsing only depends on the bytes it consumes

`Loc p`: a run of `p` is repeated, with the same result, from any other state whose bytes at the
cursor agree as far as the run went and one byte further, provided the run ended without error; if
all remaining bytes agree, also runs with error are repeated.
-/

namespace Sml

set_option linter.unusedSimpArgs false
set_option linter.unusedVariables false

/-- `st'` can repeat a run from `st`. -/
structure Rdy (st st' : St) : Prop where
  bound : st.cursor ≤ st.data.length
  bound' : st'.cursor ≤ st'.data.length
  err : st'.error = st.error
  live : st.live ≤ st'.live
  room : st.data.length - st.cursor ≤ st'.data.length - st'.cursor
  small : st'.data.length ≤ 2147483647

/-- The bytes at the cursors agree up to offset `n`. -/
def Agree (n : Nat) (st st' : St) : Prop :=
  ∀ i b, i ≤ n → st.data[st.cursor + i]? = some b → st'.data[st'.cursor + i]? = some b

/-- All remaining bytes agree. -/
def Same (st st' : St) : Prop := ∀ i, st.data[st.cursor + i]? = st'.data[st'.cursor + i]?

/-- What has to agree for a run from `st` to `s` to be repeated from `st'`. -/
def Cover (st st' s : St) : Prop :=
  (s.error = false ∧ Agree (s.cursor - st.cursor) st st') ∨ Same st st'

/-- The run from `st'` to `s'` repeats the run from `st` to `s`. -/
structure Shift (st st' s s' : St) : Prop where
  data' : s'.data = st'.data
  cursor : s'.cursor = st'.cursor + (s.cursor - st.cursor)
  err : s'.error = s.error
  live : s'.live + st.live = s.live + st'.live

structure Loc (p : M α) : Prop where
  adv : ∀ st, st.cursor ≤ st.data.length → Wlp p st fun _ s =>
    s.data = st.data ∧ st.cursor ≤ s.cursor ∧ s.cursor ≤ st.data.length
  sticky : Sticky p
  loc : ∀ st st' a s, Rdy st st' → p st = .ok a s → Cover st st' s →
    ∃ s', p st' = .ok a s' ∧ Shift st st' s s'

theorem Same.room {st st' : St} (h : Same st st') (hb : st.cursor ≤ st.data.length)
    (hb' : st'.cursor ≤ st'.data.length) :
    st.data.length - st.cursor = st'.data.length - st'.cursor := by
  rcases Nat.lt_trichotomy (st.data.length - st.cursor) (st'.data.length - st'.cursor) with h1 | h1 | h1
  · have := h (st.data.length - st.cursor)
    rw [List.getElem?_eq_none (by omega), List.getElem?_eq_getElem (by omega)] at this
    cases this
  · exact h1
  · have := h (st'.data.length - st'.cursor)
    rw [List.getElem?_eq_getElem (by omega), List.getElem?_eq_none (by omega)] at this
    cases this

theorem Cover.byte {st st' s : St} (h : Cover st st' s) {i : Nat} {b : UInt8} (hi : s.error = false → i ≤ s.cursor - st.cursor)
    (hb : st.data[st.cursor + i]? = some b) : st'.data[st'.cursor + i]? = some b := by
  rcases h with ⟨he, h⟩ | h
  · exact h i b (hi he) hb
  · rw [← h i]; exact hb

/-- The state after the first part of a run can be repeated from the shifted state. -/
theorem Rdy.shift {st st' s s' : St} (h : Rdy st st') (hd : s.data = st.data) (hm : st.cursor ≤ s.cursor)
    (hb : s.cursor ≤ st.data.length) (hs : Shift st st' s s') : Rdy s s' := by
  obtain ⟨h1, h2, h3, h4, h5, h6⟩ := h
  obtain ⟨g1, g2, g3, g4⟩ := hs
  exact ⟨by rw [hd]; exact hb, by rw [g1]; omega, g3, by omega, by rw [hd, g1]; omega, by rw [g1]; exact h6⟩

theorem Cover.first {st st' s1 s : St} (h : Cover st st' s) (he : s1.error = true → s.error = true)
    (hm : s1.cursor ≤ s.cursor) : Cover st st' s1 := by
  rcases h with ⟨h1, h2⟩ | h
  · left
    refine ⟨?_, fun i b hi hb => h2 i b (by omega) hb⟩
    cases hs1 : s1.error with
    | false => rfl
    | true => rw [he hs1] at h1; cases h1
  · exact Or.inr h

theorem Cover.second {st st' s1 s1' s : St} (h : Cover st st' s) (hd : s1.data = st.data)
    (hm : st.cursor ≤ s1.cursor) (hm2 : s1.cursor ≤ s.cursor) (hs : Shift st st' s1 s1') : Cover s1 s1' s := by
  have e1 : ∀ i, s1.cursor + i = st.cursor + (s1.cursor - st.cursor + i) := by intro i; omega
  have e2 : ∀ i, s1'.cursor + i = st'.cursor + (s1.cursor - st.cursor + i) := by intro i; rw [hs.cursor]; omega
  rcases h with ⟨h1, h2⟩ | h
  · left
    refine ⟨h1, fun i b hi hb => ?_⟩
    rw [hs.data', e2]
    rw [hd, e1] at hb
    exact h2 _ b (by omega) hb
  · right
    intro i
    rw [hs.data', hd, e1, e2]
    exact h _

theorem Shift.trans {st st' s1 s1' s s' : St} (h : Shift st st' s1 s1') (h' : Shift s1 s1' s s')
    (hm : st.cursor ≤ s1.cursor) (hm2 : s1.cursor ≤ s.cursor) : Shift st st' s s' := by
  obtain ⟨h1, h2, h3, h4⟩ := h
  obtain ⟨g1, g2, g3, g4⟩ := h'
  exact ⟨g1.trans h1, by omega, g3, by omega⟩

theorem loc_pure (a : α) : Loc (pure a : M α) := by
  refine ⟨fun st hb => ?_, sticky_pure a, fun st st' a' s hr h hc => ?_⟩
  · simp only [wlp_pure]; exact ⟨trivial, Nat.le_refl _, hb⟩
  · cases h
    exact ⟨st', rfl, ⟨rfl, by omega, hr.err, by omega⟩⟩

theorem loc_undef {r : Ub} : Loc (undef r : M α) := by
  refine ⟨fun st hb => ?_, fun st _ => ?_, fun st st' a' s hr h hc => ?_⟩
  · simp
  · simp
  · cases h

theorem bind_inv {p : M α} {f : α → M β} {st s : St} {b : β} (h : (p >>= f) st = .ok b s) :
    ∃ a s1, p st = .ok a s1 ∧ f a s1 = .ok b s := by
  change M.bind p f st = _ at h
  unfold M.bind at h
  split at h
  · rename_i a s1 e; exact ⟨a, s1, e, h⟩
  · cases h

theorem bind_ok {p : M α} {f : α → M β} {st s1 : St} {a : α} (h : p st = .ok a s1) : (p >>= f) st = f a s1 := by
  show M.bind p f st = _
  unfold M.bind
  rw [h]

theorem loc_bind {p : M α} {f : α → M β} (hp : Loc p) (hf : ∀ a, Loc (f a)) : Loc (p >>= f) := by
  refine ⟨fun st hb => ?_, sticky_bind hp.sticky fun a => (hf a).sticky, fun st st' b s hr h hc => ?_⟩
  · rw [wlp_bind]
    refine (hp.adv st hb).mono fun a s1 ⟨h1, h2, h3⟩ => ?_
    refine ((hf a).adv s1 (by rw [h1]; exact h3)).mono fun b s ⟨g1, g2, g3⟩ => ?_
    exact ⟨g1.trans h1, by omega, by rw [h1] at g3; exact g3⟩
  · obtain ⟨a, s1, h1, h2⟩ := bind_inv h
    obtain ⟨d1, d2, d3⟩ := hp.adv st hr.bound _ _ h1
    obtain ⟨e1, e2, e3⟩ := (hf a).adv s1 (by rw [d1]; exact d3) _ _ h2
    obtain ⟨s1', r1, sh1⟩ := hp.loc st st' a s1 hr h1 (hc.first (fun he => (hf a).sticky s1 he _ _ h2) e2)
    obtain ⟨s', r2, sh2⟩ := (hf a).loc s1 s1' b s (hr.shift d1 d2 d3 sh1) h2 (hc.second d1 d2 e2 sh1)
    exact ⟨s', by rw [bind_ok r1]; exact r2, sh1.trans sh2 d2 e2⟩

theorem loc_ite {c : Prop} [Decidable c] {p q : M α} (hp : Loc p) (hq : Loc q) : Loc (if c then p else q) := by
  split
  · exact hp
  · exact hq

theorem loc_ite' {c : Prop} [Decidable c] {p q : M α} (hp : c → Loc p) (hq : ¬ c → Loc q) : Loc (if c then p else q) := by
  split
  · exact hp ‹_›
  · exact hq ‹_›

theorem loc_alloc (n : Nat) : Loc (alloc n) := by
  refine ⟨fun st hb => ?_, fun st h => ?_, fun st st' a s hr h hc => ?_⟩
  · simp only [wlp_alloc]; exact ⟨trivial, Nat.le_refl _, hb⟩
  · simp only [wlp_alloc]; exact h
  · cases h
    exact ⟨_, rfl, ⟨rfl, by simp, hr.err, by simp; omega⟩⟩

theorem loc_release (n : Nat) : Loc (release n) := by
  refine ⟨fun st hb => ?_, sticky_release n, fun st st' a s hr h hc => ?_⟩
  · simp only [wlp_release]; intro _; exact ⟨trivial, Nat.le_refl _, hb⟩
  · have hl := hr.live
    unfold release at h ⊢
    split at h
    · rename_i hle
      cases h
      exact ⟨{ st' with live := st'.live - n }, by rw [if_pos (by omega)], ⟨rfl, by simp, hr.err, by simp; omega⟩⟩
    · cases h

theorem loc_setError : Loc setError := by
  refine ⟨fun st hb => ?_, fun st h => ?_, fun st st' a s hr h hc => ?_⟩
  · simp only [wlp_setError]; exact ⟨trivial, Nat.le_refl _, hb⟩
  · simp only [wlp_setError]
  · cases h
    exact ⟨_, rfl, ⟨rfl, by simp, rfl, by simp; omega⟩⟩

theorem loc_hasErrors : Loc hasErrors := by
  refine ⟨fun st hb => ?_, fun st h => ?_, fun st st' a s hr h hc => ?_⟩
  · simp only [wlp_hasErrors]; exact ⟨trivial, Nat.le_refl _, hb⟩
  · simp only [wlp_hasErrors]; exact h
  · cases h
    exact ⟨st', by unfold hasErrors; rw [hr.err], ⟨rfl, by simp, hr.err, by omega⟩⟩

theorem loc_getCurrentByte : Loc getCurrentByte := by
  refine ⟨fun st hb => ?_, fun st h => ?_, fun st st' a s hr h hc => ?_⟩
  · simp only [wlp_getCurrentByte]; intro _; exact ⟨trivial, Nat.le_refl _, hb⟩
  · simp only [wlp_getCurrentByte]; intro _; exact h
  · unfold getCurrentByte at h ⊢
    split at h
    · rename_i b hb
      cases h
      have := hc.byte (i := 0) (b := a) (by omega) hb
      exact ⟨st', by simp only [Nat.add_zero] at this; rw [this], ⟨rfl, by simp, hr.err, by omega⟩⟩
    · cases h

theorem loc_getNextType : Loc getNextType := by
  refine ⟨fun st hb => ?_, sticky_getNextType, fun st st' a s hr h hc => ?_⟩
  · refine wlp_getNextType (fun _ => ?_) fun _ => ?_
    · exact ⟨rfl, Nat.le_refl _, hb⟩
    · exact ⟨rfl, Nat.le_refl _, hb⟩
  · have hb := hr.bound
    have hb' := hr.bound'
    unfold getNextType at h ⊢
    split at h
    · rename_i hge
      cases h
      rcases hc with ⟨he, _⟩ | hc
      · cases he
      · have := hc.room hr.bound hr.bound'
        exact ⟨{ st' with error := true }, by rw [if_pos (by omega)], ⟨rfl, by simp, rfl, by simp; omega⟩⟩
    · rename_i hlt
      split at h
      · rename_i b hbb
        cases h
        have h0 := hc.byte (i := 0) (b := b) (by omega) hbb
        simp only [Nat.add_zero] at h0
        have := hr.room
        exact ⟨st', by rw [if_neg (by omega), h0], ⟨rfl, by simp, hr.err, by omega⟩⟩
      · cases h

theorem loc_optionalIsSkipped : Loc optionalIsSkipped := by
  refine ⟨fun st hb => ?_, fun st he => ?_, fun st st' a s hr h hc => ?_⟩
  · apply wlp_skipped
    · intro _; exact ⟨rfl, Nat.le_refl _, hb⟩
    · intro h _; exact ⟨rfl, by simp, by simp; omega⟩
    · intro h _; exact ⟨rfl, Nat.le_refl _, hb⟩
  · apply wlp_skipped
    · intro _; rfl
    · intro h _; exact he
    · intro h _; exact he
  · have hb := hr.bound
    have hb' := hr.bound'
    have hrm := hr.room
    unfold optionalIsSkipped at h ⊢
    split at h
    · rename_i hge
      cases h
      rcases hc with ⟨he, _⟩ | hc
      · cases he
      · have := hc.room hr.bound hr.bound'
        exact ⟨{ st' with error := true }, by rw [if_pos (by omega)], ⟨rfl, by simp, rfl, by simp; omega⟩⟩
    · rename_i hlt
      split at h
      · rename_i b hbb
        have h0 := hc.byte (i := 0) (b := b) (by omega) hbb
        simp only [Nat.add_zero] at h0
        rw [if_neg (by omega), h0]
        dsimp only
        split at h
        · split at h
          · omega
          · cases h
            rename_i h1 h2
            refine ⟨{ st' with cursor := st'.cursor + 1 }, by rw [if_pos h1, if_neg (by omega)], ⟨rfl, by simp, hr.err, by simp; omega⟩⟩
        · cases h
          rename_i h1
          exact ⟨st', by rw [if_neg h1], ⟨rfl, by simp, hr.err, by omega⟩⟩
      · cases h

theorem loc_failWith (n : Nat) : Loc (failWith n : M (Option α)) :=
  loc_bind loc_setError fun _ => loc_bind (loc_release n) fun _ => loc_pure _

theorem loc_optional {p : M (Option α)} (hp : Loc p) : Loc (optional p) :=
  loc_bind loc_optionalIsSkipped fun _ => loc_ite (loc_pure _) hp

theorem loc_field {p : M α} {set : α → R} {freed : R → Nat} {k : R → M (Option β)}
    (hp : Loc p) (hk : ∀ v, Loc (k v)) : Loc (field p set freed k) :=
  loc_bind hp fun _ => loc_bind loc_hasErrors fun _ =>
    loc_ite (loc_bind (loc_release _) fun _ => loc_pure _) (hk _)

/-- A check for the end of the buffer that fails with an error. -/
theorem loc_guard {c : St → Prop} [DecidablePred c] {n : Nat} {p : M (Option α)}
    (hcond : ∀ st st', st.cursor ≤ st.data.length → st'.cursor ≤ st'.data.length →
      st.data.length - st.cursor ≤ st'.data.length - st'.cursor → c st' → c st) (hp : Loc p) :
    Loc (do let st ← getSt; if c st then failWith n else p) := by
  refine ⟨fun st hb => ?_, fun st he => ?_, fun st st' a s hr h hc => ?_⟩
  · simp only [wlp_bind, wlp_getSt, wlp_ite]
    exact ⟨fun _ => (loc_failWith n).adv st hb, fun _ => hp.adv st hb⟩
  · simp only [wlp_bind, wlp_getSt, wlp_ite]
    exact ⟨fun _ => (loc_failWith n).sticky st he, fun _ => hp.sticky st he⟩
  · have hb := hr.bound
    have hb' := hr.bound'
    have hrm := hr.room
    change (if c st then failWith n else p) st = _ at h
    show ∃ s', (if c st' then failWith n else p) st' = .ok a s' ∧ _
    by_cases hcs : c st
    · rw [if_pos hcs] at h
      have herr : s.error = true := by
        have : Wlp (failWith n : M (Option α)) st fun _ s => s.error = true := by simp [wlp_failWith]
        exact this _ _ h
      rcases hc with ⟨he, _⟩ | hc
      · rw [he] at herr; cases herr
      · have := hc.room hr.bound hr.bound'
        have : c st' := hcond st' st hb' hb (by omega) hcs
        rw [if_pos this]
        exact (loc_failWith n).loc st st' a s hr h (Or.inr hc)
    · rw [if_neg hcs] at h
      have : ¬ c st' := fun hc' => hcs (hcond st st' hb hb' hrm hc')
      rw [if_neg this]
      exact hp.loc st st' a s hr h hc

/-- Reading a byte and skipping it. -/
theorem loc_next {f : UInt8 → M α} (hf : ∀ b, Loc (f b)) :
    Loc (do let b ← getCurrentByte; updateBytesRead 1; f b) := by
  have aux : Loc (do let b ← getCurrentByte; updateBytesRead 1; pure b) := by
    refine ⟨fun st hb => ?_, fun st he => ?_, fun st st' a s hr h hc => ?_⟩
    · simp only [wlp_bind, wlp_getCurrentByte, wlp_updateBytesRead, wlp_pure]
      intro h; exact ⟨trivial, by omega, by omega⟩
    · simp only [wlp_bind, wlp_getCurrentByte, wlp_updateBytesRead, wlp_pure]
      intro _; exact he
    · obtain ⟨b, s1, h1, h2⟩ := bind_inv h
      unfold getCurrentByte at h1
      split at h1
      · rename_i b' hb
        cases h1
        cases h2
        have := hc.byte (i := 0) (by omega) hb
        simp only [Nat.add_zero] at this
        refine ⟨{ st' with cursor := st'.cursor + 1 }, ?_, ⟨rfl, by simp, hr.err, by simp; omega⟩⟩
        have hg : getCurrentByte st' = .ok a st' := by unfold getCurrentByte; rw [this]
        rw [bind_ok hg]
        rfl
      · cases h1
  have h := loc_bind aux hf
  have e : (do let b ← getCurrentByte; updateBytesRead 1; f b) =
      ((do let b ← getCurrentByte; updateBytesRead 1; pure b) >>= f) := by
    funext st
    show M.bind _ _ st = M.bind (M.bind _ _) _ st
    unfold M.bind
    cases getCurrentByte st <;> rfl
  rw [e]
  exact h

/-! ## Type-length fields -/

theorem drop_agree {st st' : St} {hdr rest : List UInt8} (hd : st.data.drop st.cursor = hdr ++ rest)
    (hb' : st'.cursor ≤ st'.data.length)
    (h : ∀ i b, i < hdr.length → st.data[st.cursor + i]? = some b → st'.data[st'.cursor + i]? = some b) :
    ∃ rest', st'.data.drop st'.cursor = hdr ++ rest' := by
  refine ⟨(st'.data.drop st'.cursor).drop hdr.length, ?_⟩
  have : (st'.data.drop st'.cursor).take hdr.length = hdr := by
    apply List.ext_getElem?
    intro i
    by_cases hi : i < hdr.length
    · rw [List.getElem?_take_of_lt hi, List.getElem?_drop, List.getElem?_eq_getElem hi]
      apply h i _ hi
      rw [← List.getElem?_drop, hd, List.getElem?_append_left hi, List.getElem?_eq_getElem hi]
    · rw [List.getElem?_take_eq_none (by omega), List.getElem?_eq_none (by omega)]
  exact ((congrArg (· ++ _) this).symm.trans (List.take_append_drop _ _)).symm

theorem drop_same {st st' : St} (h : Same st st') : st.data.drop st.cursor = st'.data.drop st'.cursor := by
  apply List.ext_getElem?
  intro i
  rw [List.getElem?_drop, List.getElem?_drop]
  exact h i

theorem loc_getNextLength : Loc getNextLength := by
  refine ⟨fun st hb => ?_, sticky_getNextLength, fun st st' a s hr h hc => ?_⟩
  · refine (getNextLength_post' hb).wlp.mono ?_
    rintro r s ⟨h1, h2⟩
    exact ⟨h1.data, h1.mono, h1.bound⟩
  · have hb := hr.bound
    have hb' := hr.bound'
    rcases header_or_cut (st.data.drop st.cursor) with ⟨hdr, rest, hd, hh⟩ | hcut
    · obtain ⟨o, h1, _⟩ := getNextLength_run hh hd
      rw [h1] at h
      cases h
      have : ∃ rest', st'.data.drop st'.cursor = hdr ++ rest' := by
        apply drop_agree hd hb'
        intro i b hi hbyte
        refine hc.byte (fun _ => ?_) hbyte
        simp only; omega
      obtain ⟨rest', hd'⟩ := this
      obtain ⟨o', h1', _⟩ := getNextLength_run hh hd'
      exact ⟨_, h1', ⟨rfl, by simp, hr.err, by simp; omega⟩⟩
    · obtain ⟨o, h1⟩ := getNextLength_cut hb hcut
      rw [h1] at h
      cases h
      rcases hc with ⟨he, _⟩ | hc
      · cases he
      · have hcut' := hcut
        rw [drop_same hc] at hcut'
        obtain ⟨o', h1'⟩ := getNextLength_cut hb' hcut'
        have := hc.room hb hb'
        exact ⟨_, h1', ⟨rfl, by simp; omega, rfl, by simp; omega⟩⟩

theorem loc_expectList {n : Int} {own : Nat} {k : M (Option α)} (hk : Loc k) : Loc (expectList n own k) :=
  loc_bind loc_getNextType fun _ => loc_ite (loc_failWith _) <|
    loc_bind loc_getNextLength fun _ => loc_ite (loc_failWith _) hk

/-- Copying `n` bytes and skipping them. -/
theorem loc_take (n : Nat) {f : List UInt8 → M α} (hf : ∀ bs, Loc (f bs)) :
    Loc (do let bs ← readBytes n; updateBytesRead n; f bs) := by
  have aux : Loc (do let bs ← readBytes n; updateBytesRead n; pure bs) := by
    refine ⟨fun st hb => ?_, fun st he => ?_, fun st st' a s hr h hc => ?_⟩
    · simp only [wlp_bind, wlp_readBytes, wlp_updateBytesRead, wlp_pure]
      intro h; exact ⟨trivial, by omega, by omega⟩
    · simp only [wlp_bind, wlp_readBytes, wlp_updateBytesRead, wlp_pure]
      intro _; exact he
    · have hb := hr.bound
      have hb' := hr.bound'
      have hrm := hr.room
      obtain ⟨bs, s1, h1, h2⟩ := bind_inv h
      unfold readBytes at h1
      split at h1
      · rename_i hle
        cases h1
        cases h2
        have hlen : ((st.data.drop st.cursor).take n).length = n := by simp; omega
        have hd : st.data.drop st.cursor = (st.data.drop st.cursor).take n ++ (st.data.drop st.cursor).drop n :=
          (List.take_append_drop _ _).symm
        obtain ⟨rest', hd'⟩ := drop_agree hd hr.bound' (fun i b hi hbyte => hc.byte (fun _ => by simp only; omega) hbyte)
        have e : (st'.data.drop st'.cursor).take n = (st.data.drop st.cursor).take n := by
          rw [hd', List.take_append_of_le_length (by omega), List.take_of_length_le (by omega)]
        refine ⟨{ st' with cursor := st'.cursor + n }, ?_, ⟨rfl, by simp, hr.err, by simp; omega⟩⟩
        show (readBytes n >>= _) st' = _
        have hr' : readBytes n st' = .ok ((st'.data.drop st'.cursor).take n) st' := by
          unfold readBytes; rw [if_pos (by omega)]
        rw [bind_ok hr', e]
        rfl
      · cases h1
  have h := loc_bind aux hf
  have e : (do let bs ← readBytes n; updateBytesRead n; f bs) =
      ((do let bs ← readBytes n; updateBytesRead n; pure bs) >>= f) := by
    funext st
    show M.bind _ _ st = M.bind (M.bind _ _) _ st
    unfold M.bind
    cases readBytes n st <;> rfl
  rw [e]
  exact h

/-! ## Primitive values -/

theorem loc_number (type max : Nat) : Loc (numberParse type max) := by
  unfold numberParse
  refine loc_bind loc_optionalIsSkipped fun _ => loc_ite (loc_pure _) ?_
  refine loc_guard (by omega) ?_
  refine loc_bind loc_getNextType fun _ => loc_ite (loc_failWith _) ?_
  refine loc_bind loc_getNextLength fun l => loc_ite (loc_failWith _) ?_
  refine loc_bind (loc_alloc _) fun _ => ?_
  have e : ∀ p : M (Option Num), (do
      let st ← getSt
      if st.cursor + l.toNat > st.data.length then failWith 1
      else if st.cursor + 1 > st.data.length then failWith 1
      else p) = (do
      let st ← getSt
      if st.cursor + l.toNat > st.data.length ∨ st.cursor + 1 > st.data.length then failWith 1
      else p) := by
    intro p
    funext st
    show (if _ then _ else if _ then _ else _ : M (Option Num)) st = (if _ then _ else _ : M (Option Num)) st
    by_cases h1 : st.cursor + l.toNat > st.data.length
    · rw [if_pos h1, if_pos (Or.inl h1)]
    · rw [if_neg h1]
      by_cases h2 : st.cursor + 1 > st.data.length
      · rw [if_pos h2, if_pos (Or.inr h2)]
      · rw [if_neg h2, if_neg (by omega)]
  rw [e]
  refine loc_guard (by omega) ?_
  exact loc_bind loc_getCurrentByte fun _ => loc_take _ fun _ => loc_pure _

theorem loc_octetStringInit (bs : List UInt8) : Loc (octetStringInit bs) :=
  loc_bind (loc_alloc _) fun _ => loc_ite (loc_bind (loc_alloc _) fun _ => loc_pure _) (loc_pure _)

theorem loc_octetString : Loc octetStringParse := by
  unfold octetStringParse
  refine loc_bind loc_optionalIsSkipped fun _ => loc_ite (loc_pure _) ?_
  refine loc_bind loc_getNextType fun _ => loc_ite (loc_failWith _) ?_
  refine loc_bind loc_getNextLength fun l => ?_
  refine loc_guard (by omega) ?_
  have h := loc_take l.toNat (f := fun bs => do let str ← octetStringInit bs; pure (some str))
    fun bs => loc_bind (loc_octetStringInit bs) fun _ => loc_pure _
  have e : (do
      let bytes ← readBytes l.toNat
      let str ← octetStringInit bytes
      updateBytesRead l.toNat
      pure (some str)) = (do
      let bytes ← readBytes l.toNat
      updateBytesRead l.toNat
      let str ← octetStringInit bytes
      pure (some str)) := by
    funext st
    show M.bind _ _ st = M.bind _ _ st
    unfold M.bind
    cases readBytes l.toNat st with
    | ub _ => rfl
    | ok bs s =>
      unfold octetStringInit
      show M.bind _ _ s = M.bind _ _ s
      unfold M.bind
      cases bs <;> rfl
  rw [e]
  exact h

theorem loc_boolean : Loc booleanParse := by
  unfold booleanParse
  refine loc_bind loc_optionalIsSkipped fun _ => loc_ite (loc_pure _) ?_
  refine loc_bind loc_getNextType fun _ => loc_ite (loc_failWith _) ?_
  refine loc_bind loc_getNextLength fun l => loc_ite (loc_failWith _) ?_
  refine loc_guard (by omega) ?_
  exact loc_next fun _ => loc_bind (loc_alloc _) fun _ => loc_ite (loc_pure _) (loc_pure _)

theorem loc_value : Loc valueParse := by
  unfold valueParse
  refine loc_bind loc_optionalIsSkipped fun _ => loc_ite (loc_pure _) ?_
  refine loc_bind loc_getNextType fun t => loc_bind loc_getCurrentByte fun b => loc_bind (loc_alloc _) fun _ => ?_
  refine loc_bind ?_ fun v => loc_bind loc_hasErrors fun _ =>
    loc_ite (loc_bind (loc_release _) fun _ => loc_pure _) (loc_pure _)
  refine loc_ite (loc_bind loc_octetString fun _ => loc_pure _) ?_
  refine loc_ite (loc_bind loc_boolean fun _ => loc_pure _) ?_
  exact loc_ite (loc_bind (loc_number _ _) fun _ => loc_pure _) (loc_bind loc_setError fun _ => loc_pure _)

theorem loc_status : Loc statusParse := by
  unfold statusParse
  refine loc_bind loc_optionalIsSkipped fun _ => loc_ite (loc_pure _) ?_
  refine loc_bind loc_getNextType fun t => loc_bind loc_getCurrentByte fun b => loc_bind (loc_alloc _) fun _ => ?_
  refine loc_bind ?_ fun v => loc_bind loc_hasErrors fun _ =>
    loc_ite (loc_bind (loc_release _) fun _ => loc_pure _) (loc_pure _)
  exact loc_ite (loc_bind (loc_number _ _) fun _ => loc_pure _) (loc_bind loc_setError fun _ => loc_pure _)

/-- Composition of locality. -/
macro "locs" "[" xs:term,* "]" : tactic => do
  let alts ← xs.getElems.mapM fun t => `(tacticSeq| exact $t)
  `(tactic| repeat' first
    | exact loc_pure _ | exact loc_number _ _ | exact loc_octetString | exact loc_boolean | exact loc_value
    | exact loc_status | exact loc_failWith _ | exact loc_alloc _ | exact loc_release _ | exact loc_setError
    | exact loc_hasErrors | exact loc_getCurrentByte | exact loc_getNextType | exact loc_getNextLength
    | exact loc_optionalIsSkipped
    $[| $alts:tacticSeq]*
    | refine loc_field ?_ fun _ => ?_
    | refine loc_expectList ?_
    | refine loc_optional ?_
    | refine loc_ite ?_ ?_
    | refine loc_bind ?_ fun _ => ?_)

theorem loc_timeData (tag : Option Num) : Loc (timeParseData tag) := by
  unfold timeParseData
  locs []

theorem loc_time : Loc timeParse := by
  unfold timeParse
  locs [loc_timeData _]

/-! ## Lists -/

theorem loc_sequenceAdd (s : Sequence α) (e : Option α) : Loc (sequenceAdd s e) := by
  unfold sequenceAdd
  locs []

theorem loc_sequenceLoop {p : M (Option α)} (hp : Loc p) (freed : Option α → Nat) (i : Nat) :
    ∀ s, Loc (sequenceLoop p freed i s) := by
  induction i with
  | zero => intro s; exact loc_pure _
  | succ i ih => intro s; unfold sequenceLoop; locs [hp, loc_sequenceAdd _ _, ih _]

theorem loc_sequence {p : M (Option α)} (hp : Loc p) (freed : Option α → Nat) : Loc (sequenceParse p freed) := by
  unfold sequenceParse
  locs [loc_sequenceLoop hp freed _ _]

theorem loc_noteConfused (v : Value) : Loc (noteConfused v) := by
  unfold noteConfused
  split
  · exact loc_pure _
  · refine ⟨fun st hb => ?_, fun st h => ?_, fun st st' a s hr h hc => ?_⟩
    · simp only [wlp_modSt]; exact ⟨trivial, Nat.le_refl _, hb⟩
    · simp only [wlp_modSt]; exact h
    · cases h
      exact ⟨_, rfl, ⟨rfl, by simp, hr.err, by simp; omega⟩⟩

theorem loc_detect (l : ListEntry) : Loc (detectBuggyDzgDvs74 l) := by
  unfold detectBuggyDzgDvs74
  repeat' (first | exact loc_pure _ | exact loc_undef | split)

theorem loc_listEntryFinish (l : ListEntry) (b : UInt8) (wa : Bool) : Loc (listEntryFinish l b wa) := by
  unfold listEntryFinish
  refine loc_bind (loc_detect _) fun _ => loc_ite (loc_pure _) ?_
  split
  · locs [loc_noteConfused _]
  · exact loc_pure _

theorem loc_listEntry (wa : Bool) : Loc (listEntryParse wa) := by
  unfold listEntryParse
  dsimp only
  locs [loc_listEntryFinish _ _ _, loc_guard (by omega) (by locs [loc_listEntryFinish _ _ _])]

theorem loc_listLoop (elems : Nat) : ∀ wa acc, Loc (listLoop elems wa acc) := by
  induction elems with
  | zero => intro wa acc; exact loc_pure _
  | succ n ih =>
    intro wa acc
    unfold listLoop
    refine loc_bind (loc_listEntry wa) fun e => ?_
    refine loc_bind loc_hasErrors fun _ => ?_
    refine loc_ite (by locs []) ?_
    split
    · exact loc_undef
    · exact ih _ _

theorem loc_list : Loc listParse := by
  unfold listParse
  locs [loc_listLoop _ _ _]

/-! ## Trees -/

theorem loc_treePathAdd (p : TreePath) (e : Option OctetString) : Loc (treePathAdd p e) := by
  unfold treePathAdd
  locs []

theorem loc_treePathLoop (n : Nat) : ∀ p, Loc (treePathLoop n p) := by
  induction n with
  | zero => intro p; exact loc_pure _
  | succ n ih =>
    intro p
    unfold treePathLoop
    refine loc_bind loc_octetString fun e => loc_bind loc_hasErrors fun _ => loc_ite (loc_failWith _) ?_
    split
    · exact ih _
    · exact loc_bind (loc_treePathAdd _ _) fun _ => ih _

theorem loc_treePath : Loc treePathParse := by
  unfold treePathParse
  locs [loc_treePathLoop _ _]

theorem loc_periodEntry : Loc periodEntryParse := by
  unfold periodEntryParse
  dsimp only
  locs []

theorem loc_tupelEntry : Loc tupelEntryParse := by
  unfold tupelEntryParse
  dsimp only
  locs [loc_time]

theorem loc_procParValue : Loc procParValueParse := by
  unfold procParValueParse
  dsimp only
  refine loc_optional (loc_bind (loc_alloc _) fun _ => loc_expectList (loc_field (loc_number _ _) fun _ => ?_))
  split
  · locs []
  · split <;> locs [loc_periodEntry, loc_tupelEntry, loc_time]

theorem loc_treeAddTree (t c : Tree) : Loc (treeAddTree t c) := by
  cases t
  unfold treeAddTree
  dsimp only
  locs []

theorem loc_treeLoop {p : M (Option Tree)} (hp : Loc p) (n : Nat) : ∀ t, Loc (treeLoop p n t) := by
  induction n with
  | zero => intro t; exact loc_pure _
  | succ n ih =>
    intro t
    unfold treeLoop
    refine loc_bind hp fun c => loc_bind loc_hasErrors fun _ => loc_ite (by locs []) ?_
    split
    · exact ih _
    · exact loc_bind (loc_treeAddTree _ _) fun _ => ih _

theorem loc_tree (depth : Nat) : Loc (treeParse depth) := by
  induction depth with
  | zero => exact loc_undef
  | succ d ih =>
    unfold treeParse
    dsimp only
    locs [loc_procParValue, loc_treeLoop ih _ _]

end Sml
