import Verif.Proofs.Contract

/-!
# Contracts of the primitive fields
-/

namespace Sml

/-- Contract of a field without sub-structure: as `Good`, but exact, and with at most one block per byte. -/
def Leaf (p : M (Option α)) (fr : Option α → Nat) : Prop :=
  ∀ st, st.cursor ≤ st.data.length → Post p st fun a st' =>
    Step st st' ∧ st'.confused = st.confused ∧ st'.live = st.live + fr a ∧
    st'.live ≤ st.live + (st'.cursor - st.cursor) ∧
    (st'.error = false → st.cursor < st'.cursor) ∧
    (st.error = false → st'.error = true → a = none)

theorem Leaf.good {D : Nat} {p : M (Option α)} {fr : Option α → Nat} (h : Leaf p fr) :
    Good D p 0 fr 1 := by
  intro st hp ho
  refine (h st hp.bound).mono ?_
  rintro a s ⟨h1, h2, h3, h4, h5, h6⟩
  exact ⟨h1, by omega, fun _ => by omega, by omega, fun he => h5 he⟩

theorem leaf_number (type max : Nat) : Leaf (numberParse type max) numberFreed := by
  intro st hb
  unfold numberParse
  simp only [post_bind, post_optionalIsSkipped, post_ite, post_pure, post_getSt, post_failWith,
    post_getNextType, post_alloc, post_getCurrentByte, post_readBytes, post_updateBytesRead]
  have hnone : numberFreed none = 0 := rfl
  refine ⟨fun h => ?_, fun h => ⟨fun h1 => ?_, fun h1 => ?_⟩⟩
  · refine ⟨fun _ => ?_, by simp⟩
    exact ⟨⟨rfl, by simp, hb, by simp, Or.inl, Or.inl, id⟩, by trivial, by ar, by ar, by ar, by ar⟩
  · refine ⟨fun _ => ?_, by simp⟩
    exact ⟨⟨rfl, by simp, by ar, by simp, Or.inl, Or.inl, id⟩, by trivial, by ar, by ar, by ar, by ar⟩
  · refine ⟨by simp, fun _ => ⟨fun h => by omega, fun _ => ⟨fun h => by omega, fun _ => ⟨fun h => ?_, fun h => ?_⟩⟩⟩⟩
    · exact ⟨by simp, Step.setErr hb _, by trivial, by ar, by ar, by ar, by ar⟩
    · refine (getNextLength_post (by assumption)).mono ?_
      rintro r s ⟨hs, hc, hl, hcf, he⟩
      have hm := hs.mono
      refine ⟨fun hr => ?_, fun hr => ⟨fun hr2 => ?_, fun hr2 => ⟨fun hr3 => ?_, fun hr3 => ?_⟩⟩⟩
      · exact ⟨by simp, (hs.errR).liveR _, hcf, by ar, by ar, by ar, by ar⟩
      · exact ⟨by omega, (hs.errR).liveR _, hcf, by ar, by ar, by ar, by ar⟩
      · exact ⟨by omega, (hs.errR).liveR _, hcf, by ar, by ar, by ar, by ar⟩
      · have hd := hs.data
        refine ⟨by omega, by omega, ⟨hd, by ar, by simp; rw [← hd]; omega, hs.err, hs.sovf, hs.conf, hs.conf'⟩,
          hcf, by simp [numberFreed, hl], by ar, by ar, ?_⟩
        intro h1 h2
        rcases he with he | he
        · rw [he, h1] at h2; simp at h2
        · omega

theorem leaf_octetString : Leaf octetStringParse octetStringFreed := by
  intro st hb
  unfold octetStringParse
  simp only [post_bind, post_optionalIsSkipped, post_ite, post_pure, post_getSt, post_failWith,
    post_getNextType, post_alloc, post_readBytes, post_updateBytesRead, octetStringInit]
  have hnone : octetStringFreed none = 0 := rfl
  refine ⟨fun h => ?_, fun h => ⟨fun h1 => ?_, fun h1 => ?_⟩⟩
  · refine ⟨fun _ => ?_, by simp⟩
    exact ⟨⟨rfl, by simp, hb, by simp, Or.inl, Or.inl, id⟩, by trivial, by ar, by ar, by ar, by ar⟩
  · refine ⟨fun _ => ?_, by simp⟩
    exact ⟨⟨rfl, by simp, by ar, by simp, Or.inl, Or.inl, id⟩, by trivial, by ar, by ar, by ar, by ar⟩
  · refine ⟨by simp, fun _ => ⟨fun h => by omega, fun _ => ⟨fun h => ?_, fun h => ?_⟩⟩⟩
    · exact ⟨by simp, Step.setErr hb _, by trivial, by ar, by ar, by ar, by ar⟩
    · refine (getNextLength_post (by assumption)).mono ?_
      rintro r s ⟨hs, hc, hl, hcf, he⟩
      have hm := hs.mono
      have hd := hs.data
      refine ⟨fun hr => ?_, fun hr => ⟨by omega, fun hr2 => ?_, fun hr2 => ?_⟩⟩
      · exact ⟨by simp, (hs.errR).liveR _, hcf, by ar, by ar, by ar, by ar⟩
      · refine ⟨⟨hd, by ar, by simp; rw [← hd]; omega, hs.err, hs.sovf, hs.conf, hs.conf'⟩,
          hcf, ?_, ?_, by ar, ?_⟩
        · have : List.take r.toNat (List.drop s.cursor s.data) ≠ [] := by
            intro h0; simp [h0] at hr2
          simp [octetStringFreed, hl, this]
        · simp at hr2 ⊢; omega
        · intro h1 h2
          rcases he with he | he
          · rw [he, h1] at h2; simp at h2
          · omega
      · refine ⟨⟨hd, by ar, by simp; rw [← hd]; omega, hs.err, hs.sovf, hs.conf, hs.conf'⟩,
          hcf, ?_, ?_, by ar, ?_⟩
        · simp [octetStringFreed, hl]
        · simp at hr2 ⊢; omega
        · intro h1 h2
          rcases he with he | he
          · rw [he, h1] at h2; simp at h2
          · omega

theorem leaf_boolean : Leaf booleanParse booleanFreed := by
  intro st hb
  unfold booleanParse
  simp only [post_bind, post_optionalIsSkipped, post_ite, post_pure, post_getSt, post_failWith,
    post_getNextType, post_alloc, post_getCurrentByte, post_updateBytesRead]
  have hnone : booleanFreed none = 0 := rfl
  refine ⟨fun h => ?_, fun h => ⟨fun h1 => ?_, fun h1 => ?_⟩⟩
  · refine ⟨fun _ => ?_, by simp⟩
    exact ⟨⟨rfl, by simp, hb, by simp, Or.inl, Or.inl, id⟩, by trivial, by ar, by ar, by ar, by ar⟩
  · refine ⟨fun _ => ?_, by simp⟩
    exact ⟨⟨rfl, by simp, by ar, by simp, Or.inl, Or.inl, id⟩, by trivial, by ar, by ar, by ar, by ar⟩
  · refine ⟨by simp, fun _ => ⟨fun h => by omega, fun _ => ⟨fun h => ?_, fun h => ?_⟩⟩⟩
    · exact ⟨by simp, Step.setErr hb _, by trivial, by ar, by ar, by ar, by ar⟩
    · refine (getNextLength_post (by assumption)).mono ?_
      rintro r s ⟨hs, hc, hl, hcf, he⟩
      have hm := hs.mono
      have hd := hs.data
      refine ⟨fun hr => ?_, fun hr => ⟨fun hr2 => ?_, fun hr2 => ⟨by omega, fun _ => ?_, fun _ => ?_⟩⟩⟩
      · exact ⟨by simp, (hs.errR).liveR _, hcf, by ar, by ar, by ar, by ar⟩
      · exact ⟨by simp, (hs.errR).liveR _, hcf, by ar, by ar, by ar, by ar⟩
      all_goals
        refine ⟨⟨hd, by ar, by simp; rw [← hd]; omega, hs.err, hs.sovf, hs.conf, hs.conf'⟩,
          hcf, by simp [booleanFreed, hl], by ar, by ar, ?_⟩
        intro h1 h2
        rcases he with he | he
        · rw [he, h1] at h2; simp at h2
        · omega

/-! ## Values, status words, times -/

theorem type_byte_lt (b : UInt8) : b.toNat &&& 0x70 < 0x80 := by
  have := Nat.and_lt_two_pow b.toNat (show 0x70 < 2 ^ 7 by decide)
  simpa using this

theorem or_ne_zero_left {a b : Nat} (h : a ≠ 0) : a ||| b ≠ 0 := by
  intro h0
  have := @Nat.left_le_or a b
  omega

/-- Finishing step shared by `valueParse` and `statusParse`: one block for the structure, a leaf
for its content. -/
theorem node_finish {D : Nat} {p : M (Option α)} {frp : Option α → Nat} {mk : Option α → β}
    {fr : Option β → Nat} (hp : Leaf p frp) (hnone : fr none = 0)
    (hfr : ∀ a, fr (some (mk a)) = frp a + 1) {st : St} (hpre : Pre D st) :
    Post p { st with live := st.live + 1 } fun a s =>
      (s.error = true → fr (some (mk a)) ≤ s.live ∧
        (Step st { s with live := s.live - fr (some (mk a)) } ∧
        st.live + fr none ≤ s.live - fr (some (mk a)) + 0 ∧
        (s.confused = false → s.live - fr (some (mk a)) + 0 = st.live + fr none) ∧
        s.live - fr (some (mk a)) ≤ st.live + 2 * (s.cursor - st.cursor) ∧
        (s.error = false → st.cursor + 1 ≤ s.cursor))) ∧
      (¬ s.error = true →
        (Step st s ∧ st.live + fr (some (mk a)) ≤ s.live + 0 ∧
        (s.confused = false → s.live + 0 = st.live + fr (some (mk a))) ∧
        s.live ≤ st.live + 2 * (s.cursor - st.cursor) ∧
        (s.error = false → st.cursor + 1 ≤ s.cursor))) := by
  refine (hp _ (by simpa using hpre.bound)).mono ?_
  rintro a s ⟨h1, h2, h3, h4, h5, h6⟩
  replace h1 := Step.liveL _ h1
  simp only at h2 h3 h4 h5 h6
  have := h1.mono
  rw [hfr]
  refine ⟨fun he => ⟨by omega, h1.liveR _, by omega, fun _ => by omega, by omega, by simp [he]⟩, fun he => ?_⟩
  have h7 := h5 (by simpa using he)
  exact ⟨h1, by omega, fun _ => by omega, by omega, fun _ => by omega⟩

theorem good_value {D : Nat} : Good D valueParse 0 valueFreed 1 := by
  intro st hpre ho
  have hb := hpre.bound
  unfold valueParse
  simp only [post_bind, post_optionalIsSkipped, post_ite, post_pure, post_getNextType, post_alloc,
    post_getCurrentByte, post_setError, post_hasErrors, post_release]
  have hnone : valueFreed none = 0 := rfl
  refine ⟨fun h => ?_, fun h => ⟨fun h1 => ?_, fun h1 => ?_⟩⟩
  · refine ⟨fun _ => ?_, by simp⟩
    exact ⟨⟨rfl, by simp, hb, by simp, Or.inl, Or.inl, id⟩, by ar, by ar, by ar, by ar⟩
  · refine ⟨fun _ => ?_, by simp⟩
    exact ⟨⟨rfl, by simp, by ar, by simp, Or.inl, Or.inl, id⟩, by ar, by ar, by ar, by ar⟩
  · refine ⟨by simp, fun _ => ⟨fun h => by omega, fun _ => ⟨h, fun ht => ?_, fun ht => ⟨fun ht2 => ?_, fun ht2 => ⟨fun ht3 => ?_, fun ht3 => ?_⟩⟩⟩⟩⟩
    · exact node_finish (mk := fun p => { type := _, data := .bytes p : Value }) leaf_octetString hnone
        (fun a => by simp [valueFreed, ht]) hpre
    · exact node_finish (mk := fun p => { type := _, data := .boolean p : Value }) leaf_boolean hnone
        (fun a => by cases a <;> simp [valueFreed, ht, VData.ptrFreed, own, booleanFreed]) hpre
    · exact node_finish (mk := fun p => { type := _, data := .num p : Value }) (leaf_number _ _) hnone
        (fun a => by
          have := or_ne_zero_left (b := growMax 4 1 st.data[st.cursor]) ht
          cases a <;> simp [valueFreed, VData.ptrFreed, own, numberFreed, tyOctet, this]) hpre
    · refine ⟨fun _ => ?_, by simp⟩
      have hf : valueFreed (some { type := st.data[st.cursor].toNat &&& 0x70, data := .bytes none }) = 1 := by
        simp [valueFreed, ht, VData.ptrFreed, own]
      rw [hf]
      exact ⟨by simp, Step.setErr hb _, by ar, by ar, by ar, by simp⟩

theorem good_status {D : Nat} : Good D statusParse 0 statusFreed 1 := by
  intro st hpre ho
  have hb := hpre.bound
  unfold statusParse
  simp only [post_bind, post_optionalIsSkipped, post_ite, post_pure, post_getNextType, post_alloc,
    post_getCurrentByte, post_setError, post_hasErrors, post_release]
  have hnone : statusFreed none = 0 := rfl
  refine ⟨fun h => ?_, fun h => ⟨fun h1 => ?_, fun h1 => ?_⟩⟩
  · refine ⟨fun _ => ?_, by simp⟩
    exact ⟨⟨rfl, by simp, hb, by simp, Or.inl, Or.inl, id⟩, by ar, by ar, by ar, by ar⟩
  · refine ⟨fun _ => ?_, by simp⟩
    exact ⟨⟨rfl, by simp, by ar, by simp, Or.inl, Or.inl, id⟩, by ar, by ar, by ar, by ar⟩
  · refine ⟨by simp, fun _ => ⟨fun h => by omega, fun _ => ⟨h, fun ht => ?_, fun ht => ?_⟩⟩⟩
    · exact node_finish (mk := fun p => { type := _, data := p : Status }) (leaf_number _ _) hnone
        (fun a => by cases a <;> simp [statusFreed, numberFreed]) hpre
    · refine ⟨fun _ => ?_, by simp⟩
      have hf : statusFreed (some { type := st.data[st.cursor].toNat &&& 0x70, data := none }) = 1 := by
        simp [statusFreed, numberFreed]
      rw [hf]
      exact ⟨by simp, Step.setErr hb _, by ar, by ar, by ar, by simp⟩

theorem good_num {D type max : Nat} : Good D (numberParse type max) 0 numberFreed 1 :=
  (leaf_number type max).good

theorem good_octetString {D : Nat} : Good D octetStringParse 0 octetStringFreed 1 :=
  leaf_octetString.good

theorem good_boolean {D : Nat} : Good D booleanParse 0 booleanFreed 1 :=
  leaf_boolean.good

/-! ### Times -/

theorem wrap32_small {x : Int} (h1 : -2147483648 ≤ x) (h2 : x < 2147483648) : wrap32 x = x := by
  unfold wrap32
  rw [Int.bmod_eq_of_le] <;> omega

/-- A one-byte header: length is the low nibble minus one, exactly one byte is consumed. -/
theorem getNextLength_single {st : St} (hb : st.cursor < st.data.length)
    (h80 : st.data[st.cursor].toNat < 128) {Q : Int → St → Prop}
    (h : Q ((st.data[st.cursor].toNat &&& 0xF : Nat) +
      (if st.data[st.cursor].toNat &&& 0x70 = tyList then 0 else -1 : Int))
      { st with cursor := st.cursor + 1 }) :
    Post getNextLength st Q := by
  unfold getNextLength
  have h1 : ¬ st.cursor + 1 > st.data.length := by omega
  have hc : st.data[st.cursor] &&& 0x80 ≠ 0x80 := by
    intro h; have := (cont_bit _).1 h; omega
  unfold lenLoop
  have hn := low_nibble st.data[st.cursor].toNat
  have e1 : ¬ (toI32 (st.data[st.cursor].toNat &&& 15) +
      (if st.data[st.cursor].toNat &&& 0x70 = tyList then 0 else -1 : Int) < -2147483648) := by
    unfold toI32; split <;> split <;> omega
  have e2 : wrap32 (toI32 (st.data[st.cursor].toNat &&& 15) +
      (if st.data[st.cursor].toNat &&& 0x70 = tyList then 0 else -1 : Int)) =
      ((st.data[st.cursor].toNat &&& 0xF : Nat) +
      (if st.data[st.cursor].toNat &&& 0x70 = tyList then 0 else -1 : Int)) := by
    rw [wrap32_small] <;> unfold toI32 <;> split <;> split <;> omega
  have h2 : ¬ st.data.length ≤ st.cursor := by omega
  simp [h1, h2, hb, hc, e1, e2, h]

theorem good_release {D own n pr : Nat} {fr : α → Nat} {k : M α} (h : Good D k own fr pr) :
    Good D (do release n; k) (own + n) fr pr := by
  intro st hpre ho
  simp only [post_bind, post_release]
  refine ⟨by omega, (h { st with live := st.live - n } (hpre.step (Step.setLive hpre.bound _) hpre.clean) (by simp; omega)).mono ?_⟩
  rintro a s ⟨h1, h2, h3, h4, h5⟩
  simp only at h2 h3 h4 h5
  exact ⟨Step.liveL _ h1, by omega, fun hc => by have := h3 hc; omega, by omega, h5⟩

theorem good_cast {D own own' pr : Nat} {fr : α → Nat} {k : M α} (h : Good D k own fr pr)
    (e : own = own') : Good D k own' fr pr := e ▸ h

/-- A field parsed although the error flag is already set: everything is released. -/
theorem field_err {p : M (Option α)} {frp : Option α → Nat} {set : Option α → R} {freed : R → Nat}
    {k : R → M (Option β)} {own : Nat} {st : St} (hp : Leaf p frp) (he : st.error = true)
    (hb : st.cursor ≤ st.data.length)
    (hset : ∀ v, freed (set v) = own + frp v) (ho : own ≤ st.live) :
    Post (field p set freed k) st fun a s => Step st s ∧ a = none ∧ s.error = true ∧
      s.confused = st.confused ∧ s.live + own = st.live := by
  unfold field
  simp only [post_bind, post_hasErrors, post_ite, post_release, post_pure]
  refine (hp st hb).mono ?_
  rintro v s ⟨h1, h2, h3, h4, h5, h6⟩
  have := h1.err he
  refine ⟨fun _ => ?_, fun h => absurd this h⟩
  rw [hset]
  exact ⟨by omega, h1.liveR _, trivial, this, h2, by omega⟩

theorem good_timeParseData {D : Nat} {tag : Option Num} :
    Good D (timeParseData tag) (1 + numberFreed tag) timeFreed 0 := by
  intro st hpre ho
  have hb := hpre.bound
  have hnone : timeFreed none = 0 := rfl
  unfold timeParseData
  simp only [post_bind, post_getNextType, post_ite, post_release, post_pure]
  refine ⟨fun h => ⟨fun h => absurd h (by decide), fun _ => ⟨fun h => absurd h (by decide), fun _ => ?_⟩⟩,
    fun h => ⟨fun _ => ?_, fun _ => ⟨fun _ => ?_, fun _ => ?_⟩⟩⟩
  · simp only [timeFreed, numberFreed] at *
    exact ⟨by omega, Step.setErr hb _, by ar, by ar, by ar, by simp⟩
  · have : Good D (field u32Parse (fun v => { tag := tag, data := v : Time }) (fun t => timeFreed (some t))
        fun tme => pure (some tme)) (1 + numberFreed tag) timeFreed (0 + 1) :=
      good_field good_num hnone (fun v => by simp [timeFreed]; omega)
        (fun v => good_pure (by simp [timeFreed]; omega))
    exact this.weaken (by omega) st hpre ho
  · refine (getNextLength_post h).mono ?_
    rintro r s ⟨hs, hc, hl, hcf, he⟩
    have key : Good D (field u32Parse (fun t1 => t1) (fun t1 => numberFreed t1 + timeFreed (some ⟨tag, none⟩)) fun t1 =>
      field i16Parse (fun t2 => t2)
        (fun t2 => numberFreed t1 + numberFreed t2 + timeFreed (some ⟨tag, none⟩)) fun t2 =>
      field i16Parse (fun t3 => t3)
        (fun t3 => numberFreed t1 + numberFreed t2 + numberFreed t3 + timeFreed (some ⟨tag, none⟩)) fun t3 => do
      release (numberFreed t1 + numberFreed t2 + numberFreed t3)
      pure (some (⟨tag, none⟩ : Time))) (1 + numberFreed tag) timeFreed 3 := by
      refine good_field good_num hnone (fun v => by simp [timeFreed, numberFreed.eq_1]; omega) fun v1 => ?_
      refine good_field good_num hnone (fun v => by simp [timeFreed, numberFreed.eq_1]; omega) fun v2 => ?_
      refine good_field good_num hnone (fun v => by simp [timeFreed, numberFreed.eq_1]; omega) fun v3 => ?_
      refine good_cast (own := 1 + numberFreed tag + (numberFreed v1 + numberFreed v2 + numberFreed v3))
        (good_release (good_pure ?_)) (by omega)
      simp [timeFreed, numberFreed.eq_1]; omega
    by_cases hse : s.error = true
    · refine Post.mono (field_err (leaf_number _ _) hse (by rw [hs.data]; exact hs.bound)
        (own := 1 + numberFreed tag) (fun v => ?_) (by omega)) ?_
      · simp only [timeFreed, numberFreed.eq_1]; omega
      rintro a s' ⟨h1, h2, h3, h4, h5⟩
      have := h1.mono
      subst h2
      exact ⟨hs.trans h1, by omega, fun x => by omega, by omega, by simp [h3]⟩
    refine (key s (hpre.step hs (by simpa using hse)) (by omega)).mono ?_
    rintro a s' ⟨h1, h2, h3, h4, h5⟩
    have := h1.mono
    exact ⟨hs.trans h1, by omega, fun x => by have := h3 x; omega, by omega,
      fun x => by have := h5 x; omega⟩
  · simp only [timeFreed, numberFreed] at *
    exact ⟨by omega, Step.setLive hb _, by ar, by ar, by ar, by simp⟩

/-- The timestamp written without its list header (`65 xx xx xx xx`) takes five bytes. -/
theorem number_65 {st : St} (hb : st.cursor < st.data.length) (h65 : st.data[st.cursor] = 0x65) :
    Post u32Parse st fun _ s => s.error = false → st.cursor + 5 ≤ s.cursor := by
  unfold u32Parse numberParse
  simp only [post_bind, post_optionalIsSkipped, post_ite, post_pure, post_getSt, post_failWith,
    post_getNextType, post_alloc, post_getCurrentByte, post_readBytes, post_updateBytesRead, h65]
  refine ⟨fun h => by omega, fun _ => ⟨fun h => absurd h (by decide), fun _ => ⟨by simp, fun _ =>
    ⟨fun h => by omega, fun _ => ⟨fun h => by omega, fun _ => ⟨fun h => absurd h (by decide), fun _ => ?_⟩⟩⟩⟩⟩⟩
  apply getNextLength_single hb (by rw [h65]; decide)
  rw [h65]
  have : (((0x65 : UInt8).toNat &&& 0xF : Nat) + (if (0x65 : UInt8).toNat &&& 0x70 = tyList then 0 else -1 : Int)) = 4 := by
    decide
  rw [this]
  simp
  omega

theorem good_time {D : Nat} : Good D timeParse 0 timeFreed 1 := by
  have hnone : timeFreed none = 0 := rfl
  have list : Good D (do
      alloc 1
      expectList 2 (timeFreed (some ⟨none, none⟩)) <|
        field u8Parse (fun v => { tag := v, data := none : Time }) (fun t => timeFreed (some t)) fun tme =>
        timeParseData tme.tag) 0 timeFreed 1 := by
    refine Good.weaken (good_node (pr := 0 + 1) (own := 1) (by omega) (by omega) hnone ?_) (by omega)
    refine good_field good_num hnone (fun v => by simp [timeFreed, numberFreed]; omega) fun v => ?_
    exact good_timeParseData
  refine good_optional_lt ?_ hnone
  intro st hpre hc ho
  have hb := hpre.bound
  have hl := list st hpre ho
  simp only [post_bind, post_alloc, post_getCurrentByte, post_ite] at hl ⊢
  refine ⟨hc, fun h65 => ?_, fun _ => hl⟩
  unfold timeParseData field
  have : ¬ st.data.length ≤ st.cursor := by omega
  simp only [post_bind, post_getNextType, post_ite, post_hasErrors, post_release, post_pure]
  refine ⟨fun h => by omega, fun _ => ⟨fun _ => ?_, fun h => absurd (by rw [h65]; decide) h⟩⟩
  refine ((leaf_number tyUnsigned 4 _ (by simpa using hb)).and (number_65 (by simpa using hc) (by simpa using h65))).mono ?_
  rintro a s ⟨⟨h1, h2, h3, h4, h5, h6⟩, h7⟩
  replace h1 := Step.liveL _ h1
  simp only at h2 h3 h4 h5 h6 h7
  have hm := h1.mono
  have hf : timeFreed (some { tag := some { size := 1, val := 1 }, data := a }) = numberFreed a + 2 := by
    simp [timeFreed, numberFreed]; omega
  rw [hf]
  refine ⟨fun he => ?_, fun he => ?_⟩
  · exact ⟨by omega, h1.liveR _, by ar, by ar, by ar, by simp [he]⟩
  · have := h7 (by simpa using he)
    have hn : numberFreed a ≤ 1 := by cases a <;> simp [numberFreed]
    exact ⟨h1, by omega, fun _ => by omega, by omega, fun _ => by omega⟩

end Sml
