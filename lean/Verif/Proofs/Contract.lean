import Verif.Proofs.Post

/-!
# The contract of parse functions
-/

namespace Sml

/-- Closes the arithmetic and trivial side goals of the contract proofs. -/
macro "ar" : tactic =>
  `(tactic| first
      | omega
      | (intros; omega)
      | (simp; done)
      | (simp; omega)
      | (simp_all; done)
      | (simp_all; omega)
      | grind)

/-- The input contains seven consecutive bytes with the top bit set. -/
def SevenHigh (data : List UInt8) : Prop :=
  ∃ i, ∀ j, j < 7 → ∃ b, data[i + j]? = some b ∧ 128 ≤ b.toNat

/-- The input contains the start of a DZG serial number, `0a 01 'D' 'Z' 'G'`. -/
def DzgMark (data : List UInt8) : Prop :=
  ∃ i, (data.drop i).take 5 = [0x0a, 0x01, 0x44, 0x5a, 0x47]

/-- What every piece of parsing code leaves intact. -/
structure Step (st st' : St) : Prop where
  data : st'.data = st.data
  mono : st.cursor ≤ st'.cursor
  bound : st'.cursor ≤ st.data.length
  err : st.error = true → st'.error = true
  sovf : st'.sovf = true → st.sovf = true ∨ SevenHigh st.data
  conf : st'.confused = true → st.confused = true ∨ DzgMark st.data
  conf' : st.confused = true → st'.confused = true

theorem Step.refl {st : St} (h : st.cursor ≤ st.data.length) : Step st st :=
  ⟨Eq.refl _, Nat.le_refl _, h, id, Or.inl, Or.inl, id⟩

theorem Step.trans {a b c : St} (h : Step a b) (h' : Step b c) : Step a c := by
  obtain ⟨d, m, bd, e, s, cf, cf'⟩ := h
  obtain ⟨d', m', bd', e', s', cf2, cf2'⟩ := h'
  rw [d] at *
  exact ⟨d', by omega, by omega, fun x => e' (e x), fun x => by grind, fun x => by grind,
    fun x => cf2' (cf' x)⟩

/-- Start of a parse function: the cursor is in range, no error so far, and fewer than `D` bytes
are left (which bounds the nesting of trees). -/
structure Pre (D : Nat) (st : St) : Prop where
  bound : st.cursor ≤ st.data.length
  clean : st.error = false
  depth : st.data.length < st.cursor + D

theorem Pre.step {D : Nat} {st st' : St} (h : Pre D st) (s : Step st st')
    (he : st'.error = false) : Pre D st' := by
  have := s.mono; have := s.bound; have := h.depth
  exact ⟨by rw [s.data]; omega, he, by rw [s.data]; omega⟩

theorem Pre.up {D : Nat} {st : St} (h : Pre D st) : Pre (D + 1) st :=
  ⟨h.bound, h.clean, by have := h.depth; omega⟩

/-- After `n` bytes the room is smaller by `n`. -/
theorem Pre.room {D n : Nat} {st st' : St} (h : Pre (D + n) st) (s : Step st st')
    (he : st'.error = false) (hn : st.cursor + n ≤ st'.cursor) : Pre D st' := by
  have := h.depth
  exact ⟨by rw [s.data]; exact s.bound, he, by rw [s.data]; omega⟩

/-- The contract: run with at least `own` live blocks that belong to the caller's unfinished
object, the code is defined, keeps `Step`, ends with `fr` blocks of the result instead of the
`own` blocks (exactly, unless the workaround confused a value), allocates at most two
blocks per byte consumed and consumes at least `pr` bytes unless it sets the error flag. -/
def Good (D : Nat) (p : M α) (own : Nat) (fr : α → Nat) (pr : Nat) : Prop :=
  ∀ st, Pre D st → own ≤ st.live → Post p st fun a st' =>
    Step st st' ∧ st.live + fr a ≤ st'.live + own ∧
    (st'.confused = false → st'.live + own = st.live + fr a) ∧
    st'.live ≤ st.live + 2 * (st'.cursor - st.cursor) ∧
    (st'.error = false → st.cursor + pr ≤ st'.cursor)

/-! ## Type-length fields -/

theorem low_nibble (b : Nat) : b &&& 0xF < 16 := by
  have := Nat.and_lt_two_pow b (show 0xF < 2 ^ 4 by decide)
  simpa using this

theorem shift_or_lt {l n k : Nat} (hl : l < k) (hn : n < 16) : l * 16 ||| n < k * 16 := by
  have h : l * 16 = 2 ^ 4 * l := by omega
  rw [h, Nat.two_pow_add_eq_or_of_lt (by simpa using hn) l |>.symm]
  omega

theorem shift_or_eq {l n : Nat} (hn : n < 16) : l * 16 ||| n = l * 16 + n := by
  have h : l * 16 = 2 ^ 4 * l := by omega
  rw [h, Nat.two_pow_add_eq_or_of_lt (by simpa using hn) l |>.symm]

/-- `byte & 0x80` tests the top bit. -/
theorem cont_bit (b : UInt8) : b &&& 0x80 = 0x80 ↔ 128 ≤ b.toNat := by
  have key : ∀ n : Fin 256, (UInt8.ofNat n &&& 0x80 = 0x80 ↔ 128 ≤ n.val) := by decide +kernel
  have := key ⟨b.toNat, UInt8.toNat_lt b⟩
  simpa using this

theorem lenLoop_post (fuel : Nat) : ∀ (length : Nat) (list : Int) (st : St),
    st.cursor ≤ st.data.length → st.data.length - st.cursor < fuel →
    Post (lenLoop fuel length list) st fun r st' =>
      st'.data = st.data ∧ st.cursor ≤ st'.cursor ∧ st'.cursor ≤ st.data.length ∧
      st'.error = st.error ∧ st'.live = st.live ∧ st'.confused = st.confused ∧
      (¬ SevenHigh st.data → ∀ k ≤ 6, k ≤ st.cursor → length < 16 ^ k →
        (∀ j, j < k → ∃ b, st.data[st.cursor - 1 - j]? = some b ∧ 128 ≤ b.toNat) →
        st'.sovf = st.sovf ∧ r.1 < 2 ^ 28 ∧ r.2 ≥ list - (7 - k : Int)) := by
  induction fuel with
  | zero => intro _ _ st _ h; omega
  | succ fuel ih =>
    intro length list st hb hf
    unfold lenLoop
    simp only [post_bind, post_getSt, post_ite, post_getCurrentByte, post_noteOvf, post_pure,
      post_updateBytesRead]
    refine ⟨fun hlt => ⟨hlt, fun _ => ?_, fun hc => ?_⟩, fun hge => ?_⟩
    · refine ⟨trivial, by omega, by omega, trivial, trivial, trivial, ?_⟩
      intro _ k hk6 hkc hl _
      have hp : 16 ^ k ≤ 16 ^ 6 := Nat.pow_le_pow_right (by decide) hk6
      have hl' : length < 2 ^ 24 := by omega
      have hmod : length * 16 % 4294967296 = length * 16 := by omega
      refine ⟨?_, ?_, by omega⟩
      · have : ¬ (length * 16 ≥ 2147483648) := by omega
        simp [this]
      · simp only [hmod]
        have := shift_or_lt hl' (low_nibble (st.data[st.cursor]).toNat)
        omega
    · have hcb : 128 ≤ (st.data[st.cursor]).toNat := (cont_bit _).1 (by simpa using hc)
      refine (ih _ _ _ (by simp; omega) (by simp; omega)).mono ?_
      rintro r s ⟨h1, h2, h3, h4, h5, h6, h7⟩
      simp only at h1 h2 h3 h4 h5 h6 h7
      refine ⟨h1, by omega, h3, h4, h5, h6, ?_⟩
      intro h7h k hk6 hkc hl hj
      have hp : 16 ^ k ≤ 16 ^ 6 := Nat.pow_le_pow_right (by decide) hk6
      have hl' : length < 2 ^ 24 := by omega
      have hmod : length * 16 % 4294967296 = length * 16 := by omega
      rw [hmod] at h7
      have hall : ∀ j, j < k + 1 → ∃ b, st.data[st.cursor + 1 - 1 - j]? = some b ∧ 128 ≤ b.toNat := by
        intro j hjk
        by_cases hj0 : j = 0
        · subst hj0
          exact ⟨st.data[st.cursor], by simp [hlt], hcb⟩
        · have := hj (j - 1) (by omega)
          have he : st.cursor - 1 - (j - 1) = st.cursor + 1 - 1 - j := by omega
          rwa [he] at this
      by_cases hk : k + 1 ≤ 6
      · have := h7 h7h (k + 1) hk (by omega) (by
          rw [Nat.pow_succ]; exact shift_or_lt hl (low_nibble _)) hall
        obtain ⟨a, b, c⟩ := this
        refine ⟨?_, b, ?_⟩
        · rw [a]
          have : ¬ (length * 16 ≥ 2147483648) := by omega
          simp [this]
        · split at c <;> omega
      · exfalso
        apply h7h
        refine ⟨st.cursor - 6, fun j hj7 => ?_⟩
        have := hall (6 - j) (by omega)
        have he : st.cursor + 1 - 1 - (6 - j) = st.cursor - 6 + j := by omega
        rwa [he] at this
    · exact ⟨trivial, by omega, hb, trivial, trivial, trivial, by
        intro _ k hk6 _ hl _
        have hp : 16 ^ k ≤ 16 ^ 6 := Nat.pow_le_pow_right (by decide) hk6
        exact ⟨trivial, by omega, by omega⟩⟩

theorem getNextLength_post {st : St} (hb : st.cursor < st.data.length) :
    Post getNextLength st fun r st' =>
      Step st st' ∧ st.cursor < st'.cursor ∧ st'.live = st.live ∧ st'.confused = st.confused ∧
      (st'.error = st.error ∨ (st'.error = true ∧ r = -1)) := by
  unfold getNextLength
  have h1 : ¬ st.cursor + 1 > st.data.length := by omega
  simp only [post_bind, post_getSt, post_ite, post_getCurrentByte, h1, post_setError, post_pure,
    false_implies, not_false_eq_true, true_implies, true_and]
  refine ⟨hb, ?_⟩
  refine (lenLoop_post _ _ _ _ (by omega) (by omega)).mono ?_
  rintro r s ⟨hd, hc, hb', he, hl, hcf, hs⟩
  have hsovf : s.sovf = true → st.sovf = true ∨ SevenHigh st.data := by
    intro hs1
    by_cases h7 : SevenHigh st.data
    · exact Or.inr h7
    · have := hs h7 0 (by omega) (by omega) (by simp) (by intro j hj; omega)
      grind
  have hlo : ¬ SevenHigh st.data → ¬ (toI32 r.1 + r.2 < -2147483648) := by
    intro h7
    have := hs h7 0 (by omega) (by omega) (by simp) (by intro j hj; omega)
    obtain ⟨-, h28, hr2⟩ := this
    have : toI32 r.1 = r.1 := by unfold toI32; split <;> omega
    have : r.2 ≥ -8 := by split at hr2 <;> omega
    omega
  refine ⟨fun hlt => ?_, fun hge => ?_⟩
  · simp only [post_updateBytesRead, post_noteOvf]
    rw [hd] at hlt
    refine ⟨⟨hd, by ar, by ar, by simp [he], ?_, by simp [hcf]; exact Or.inl,
      by simp [hcf]⟩, by ar, hl, hcf, Or.inl he⟩
    simp only [Bool.or_eq_true, decide_eq_true_eq]
    rintro (h | h)
    · exact hsovf h
    · by_cases h7 : SevenHigh st.data
      · exact Or.inr h7
      · exact absurd h (hlo h7)
  · refine ⟨⟨hd, hc, hb', by simp, hsovf, by simp [hcf]; exact Or.inl, by simp [hcf]⟩, ?_, hl, hcf,
      by simp⟩
    rw [hd] at hge
    omega

/-- As `getNextLength_post`, also at the end of the buffer. -/
theorem getNextLength_post' {st : St} (hb : st.cursor ≤ st.data.length) :
    Post getNextLength st fun r st' =>
      Step st st' ∧ (st'.error = false → st.cursor < st'.cursor) ∧ st'.live = st.live ∧
      st'.confused = st.confused ∧
      (st'.error = st.error ∨ (st'.error = true ∧ r = -1)) := by
  by_cases h : st.cursor < st.data.length
  · exact (getNextLength_post h).mono fun _ _ ⟨a, b, c, d, e⟩ => ⟨a, fun _ => b, c, d, e⟩
  · unfold getNextLength
    have h1 : st.cursor + 1 > st.data.length := by omega
    simp only [post_bind, post_getSt, post_ite, h1, post_setError, post_pure,
      true_implies, not_true_eq_false, false_implies, and_true]
    exact ⟨⟨rfl, Nat.le_refl _, hb, by simp, Or.inl, Or.inl, id⟩, by simp, by simp, by simp, by simp⟩

/-! ## Combinators -/

theorem Step.setErr {st : St} (h : st.cursor ≤ st.data.length) (n : Nat) :
    Step st { st with error := true, live := n } :=
  ⟨rfl, Nat.le_refl _, h, by simp, Or.inl, Or.inl, id⟩

theorem Step.setLive {st : St} (h : st.cursor ≤ st.data.length) (n : Nat) :
    Step st { st with live := n } :=
  ⟨rfl, Nat.le_refl _, h, by simp, Or.inl, Or.inl, id⟩

/-- Forget the live counter: it does not take part in `Step`. -/
theorem Step.liveR {st st' : St} (h : Step st st') (n : Nat) : Step st { st' with live := n } :=
  ⟨h.data, h.mono, h.bound, h.err, h.sovf, h.conf, h.conf'⟩

theorem Step.liveL {st st' : St} (n : Nat) (h : Step { st with live := n } st') : Step st st' :=
  ⟨h.data, h.mono, h.bound, h.err, h.sovf, h.conf, h.conf'⟩

theorem Step.errR {st st' : St} (h : Step st st') : Step st { st' with error := true } :=
  ⟨h.data, h.mono, h.bound, by simp, h.sovf, h.conf, h.conf'⟩

theorem good_pure {D : Nat} {own : Nat} {fr : α → Nat} {a : α} (h : fr a = own) :
    Good D (pure a) own fr 0 := by
  intro st hp ho
  simp only [post_pure]
  exact ⟨Step.refl hp.bound, by omega, fun _ => by omega, by omega, fun _ => by omega⟩

theorem good_failWith {D own pr : Nat} {fr : Option α → Nat} (h : fr none = 0) :
    Good D (failWith own) own fr pr := by
  intro st hp ho
  simp only [post_failWith]
  exact ⟨ho, Step.setErr hp.bound _, by ar, fun _ => by ar, by ar, by simp⟩

theorem Good.weaken {D own pr pr' : Nat} {p : M α} {fr : α → Nat} (h : Good D p own fr pr)
    (hle : pr' ≤ pr) : Good D p own fr pr' := by
  intro st hp ho
  exact (h st hp ho).mono fun _ _ ⟨a, b, c, d, e⟩ => ⟨a, b, c, d, fun x => by have := e x; omega⟩

theorem good_field {D own pr pr2 : Nat} {p : M α} {frp : α → Nat} {set : α → R} {freed : R → Nat}
    {k : R → M (Option β)} {fr : Option β → Nat}
    (hp : Good D p 0 frp pr) (hnone : fr none = 0) (hset : ∀ v, freed (set v) = own + frp v)
    (hk : ∀ v, Good D (k (set v)) (own + frp v) fr pr2) :
    Good D (field p set freed k) own fr (pr2 + pr) := by
  intro st hpre ho
  unfold field
  simp only [post_bind, post_hasErrors, post_ite, post_release, post_pure]
  refine (hp st hpre (by omega)).mono ?_
  rintro v s ⟨hs, hl, hx, hb, hpr⟩
  refine ⟨fun he => ?_, fun he => ?_⟩
  · rw [hset]
    have hm := hs.mono
    exact ⟨by omega, hs.liveR _, by ar, fun hc => by have := hx hc; ar,
      by ar, by simp [he]⟩
  · refine (hk v s (hpre.step hs (by simpa using he)) (by omega)).mono ?_
    rintro a s' ⟨hs', hl', hx', hb', hpr'⟩
    have hm := hs.mono
    have hm' := hs'.mono
    refine ⟨hs.trans hs', by omega, fun hc => ?_, by omega, fun he' => ?_⟩
    · have h1 := hx' hc
      have h2 : s.confused = false := by
        cases h : s.confused
        · rfl
        · have := hs'.conf' h; simp_all
      have := hx h2
      omega
    · have := hpr (by simpa using he)
      have := hpr' he'
      omega

/-- After the test for an omitted field there is at least one byte. -/
theorem good_optional_lt {D : Nat} {p : M (Option α)} {fr : Option α → Nat}
    (hp : ∀ st, Pre D st → st.cursor < st.data.length → 0 ≤ st.live → Post p st fun a st' =>
      Step st st' ∧ st.live + fr a ≤ st'.live + 0 ∧
      (st'.confused = false → st'.live + 0 = st.live + fr a) ∧
      st'.live ≤ st.live + 2 * (st'.cursor - st.cursor) ∧
      (st'.error = false → st.cursor + 1 ≤ st'.cursor)) (hnone : fr none = 0) :
    Good D (optional p) 0 fr 1 := by
  intro st hpre ho
  unfold optional
  simp only [post_bind, post_optionalIsSkipped, post_ite, post_pure]
  refine ⟨fun h => ?_, fun h => ⟨fun _ => ?_, fun _ => ?_⟩⟩
  · refine ⟨fun _ => ?_, by simp⟩
    exact ⟨⟨rfl, Nat.le_refl _, hpre.bound, by simp, Or.inl, Or.inl, id⟩, by ar,
      by ar, by simp, by simp⟩
  · refine ⟨fun _ => ?_, by simp⟩
    exact ⟨⟨rfl, by simp, by ar, by simp, Or.inl, Or.inl, id⟩, by ar,
      by ar, by simp, by simp⟩
  · refine ⟨by simp, fun _ => ?_⟩
    exact hp st hpre h ho

theorem good_optional {D pr : Nat} {p : M (Option α)} {fr : Option α → Nat}
    (hp : Good D p 0 fr pr) (hnone : fr none = 0) (hpr : 1 ≤ pr) :
    Good D (optional p) 0 fr 1 :=
  good_optional_lt (fun st hpre _ ho => (hp.weaken hpr) st hpre ho) hnone

/-- `malloc` of the structure, then the list header, then the fields. -/
theorem good_node {D own pr : Nat} {n : Int} {k : M (Option α)} {fr : Option α → Nat}
    (hn : 0 ≤ n) (hown : 1 ≤ own) (hnone : fr none = 0) (hk : Good D k own fr pr) :
    Good D (do alloc 1; expectList n own k) (own - 1) fr (pr + 1) := by
  intro st hpre ho
  unfold expectList
  simp only [post_bind, post_alloc, post_getNextType, post_ite, post_failWith]
  refine ⟨fun h => ⟨fun _ => ?_, fun h => absurd (by decide) h⟩, fun h => ⟨fun _ => ?_, fun _ => ?_⟩⟩
  · exact ⟨by omega, Step.setErr hpre.bound _, by ar, fun _ => by ar,
      by ar, by simp⟩
  · exact ⟨by omega, Step.setErr hpre.bound _, by ar, fun _ => by ar,
      by ar, by simp⟩
  · refine (getNextLength_post (by simpa using h)).mono ?_
    rintro r s ⟨hs, hc, hl, hcf, he⟩
    replace hs := Step.liveL _ hs
    simp only at hc hl hcf he
    refine ⟨fun _ => ?_, fun hr => ?_⟩
    · have := hs.mono
      exact ⟨by omega, (hs.errR).liveR _, by ar, fun _ => by ar,
        by ar, by simp⟩
    · have hce : s.error = false := by
        rcases he with he | ⟨_, he⟩
        · rw [he]; exact hpre.clean
        · simp at hr; omega
      refine (hk s (hpre.step hs hce) (by omega)).mono ?_
      rintro a s' ⟨hs', hl', hx', hb', hpr'⟩
      have := hs'.mono
      refine ⟨hs.trans hs', by omega, fun hc => ?_, by omega, fun he' => ?_⟩
      · have := hx' hc; omega
      · have := hpr' he'; omega

/-- The list header alone. -/
theorem good_expectList {D own pr : Nat} {n : Int} {k : M (Option α)} {fr : Option α → Nat}
    (hn : 0 ≤ n) (hnone : fr none = 0) (hk : Good D k own fr pr) :
    Good D (expectList n own k) own fr (pr + 1) := by
  intro st hpre ho
  unfold expectList
  simp only [post_bind, post_getNextType, post_ite, post_failWith]
  refine ⟨fun h => ⟨fun _ => ?_, fun h => absurd (by decide) h⟩, fun h => ⟨fun _ => ?_, fun _ => ?_⟩⟩
  · exact ⟨by omega, Step.setErr hpre.bound _, by ar, fun _ => by ar,
      by ar, by simp⟩
  · exact ⟨by omega, Step.setErr hpre.bound _, by ar, fun _ => by ar,
      by ar, by simp⟩
  · refine (getNextLength_post (by simpa using h)).mono ?_
    rintro r s ⟨hs, hc, hl, hcf, he⟩
    refine ⟨fun _ => ?_, fun hr => ?_⟩
    · have := hs.mono
      exact ⟨by omega, (hs.errR).liveR _, by ar, fun _ => by ar,
        by ar, by simp⟩
    · have hce : s.error = false := by
        rcases he with he | ⟨_, he⟩
        · rw [he]; exact hpre.clean
        · simp at hr; omega
      refine (hk s (hpre.step hs hce) (by omega)).mono ?_
      rintro a s' ⟨hs', hl', hx', hb', hpr'⟩
      have := hs'.mono
      refine ⟨hs.trans hs', by omega, fun hc => ?_, by omega, fun he' => ?_⟩
      · have := hx' hc; omega
      · have := hpr' he'; omega

end Sml
