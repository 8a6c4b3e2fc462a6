import Verif.Proofs.ValueShape

/-!
# Contract of measurement lists
-/

namespace Sml

set_option linter.unusedSimpArgs false

/-- `Good` on the input `d`, with a further property `E` of result and error flag. -/
def GoodAt (d : List UInt8) (D : Nat) (p : M α) (own : Nat) (fr : α → Nat) (pr : Nat)
    (E : α → Bool → Prop) : Prop :=
  ∀ st, st.data = d → Pre D st → own ≤ st.live → Post p st fun a st' =>
    (Step st st' ∧ st.live + fr a ≤ st'.live + own ∧
    (st'.confused = false → st'.live + own = st.live + fr a) ∧
    st'.live ≤ st.live + 2 * (st'.cursor - st.cursor) ∧
    (st'.error = false → st.cursor + pr ≤ st'.cursor)) ∧ E a st'.error

/-- `good_field` with knowledge about the parsed component. -/
theorem goodAt_field {d : List UInt8} {D own pr pr2 : Nat} {p : M α} {frp : α → Nat}
    (P : List UInt8 → α → Prop) {set : α → R} {freed : R → Nat}
    {k : R → M (Option β)} {fr : Option β → Nat} {E : Option β → Bool → Prop}
    (hp : Good D p 0 frp pr) (hP : ∀ st, Wlp p st fun a _ => P st.data a)
    (hnone : fr none = 0) (hE : E none true) (hset : ∀ v, freed (set v) = own + frp v)
    (hk : ∀ v, P d v → GoodAt d D (k (set v)) (own + frp v) fr pr2 E) :
    GoodAt d D (field p set freed k) own fr (pr + pr2) E := by
  intro st hd hpre ho
  unfold field
  simp only [post_bind, post_hasErrors, post_ite, post_release, post_pure]
  refine ((hp st hpre (by omega)).andWlp (hP st)).mono ?_
  rintro v s ⟨⟨hs, hl, hx, hb, hpr⟩, hv⟩
  refine ⟨fun he => ?_, fun he => ?_⟩
  · rw [hset]
    have hm := hs.mono
    exact ⟨by omega, ⟨hs.liveR _, by ar, fun hc => by have := hx hc; ar,
      by ar, by simp [he]⟩, by simp only [he]; exact hE⟩
  · rw [hd] at hv
    refine (hk v hv s (by rw [hs.data, hd]) (hpre.step hs (by simpa using he)) (by omega)).mono ?_
    rintro a s' ⟨⟨hs', hl', hx', hb', hpr'⟩, hE'⟩
    have hm := hs.mono
    have hm' := hs'.mono
    refine ⟨⟨hs.trans hs', by omega, fun hc => ?_, by omega, fun he' => ?_⟩, hE'⟩
    · have h1 := hx' hc
      have := hx (conf_false hs' hc)
      omega
    · have := hpr (by simpa using he)
      have := hpr' he'
      omega

/-- Blocks of an entry result. -/
def entryFreed (r : Option (ListEntry × Bool)) : Nat := own (fun p => listEntryFreed p.1) r

/-- A well-typed value with a string is a piece of the input. -/
def ValueIn (d : List UInt8) (a : Option Value) : Prop :=
  ∀ v, a = some v → Spec.WellTyped v ∧
    (∀ x, v.data = .bytes (some x) → ∃ i, x.str = (d.drop i).take x.str.length)

theorem detect_post {l : ListEntry} {d : List UInt8} (hv : ValueIn d l.value) (st : St) :
    Post (detectBuggyDzgDvs74 l) st fun b s => s = st ∧ (b = true → DzgMark d) := by
  unfold detectBuggyDzgDvs74
  cases hn : l.objName with
  | none => simp
  | some name =>
    simp only [post_ite, post_pure]
    refine ⟨fun _ => by simp, fun _ => ?_⟩
    cases hval : l.value with
    | none => simp
    | some v =>
      simp only [post_ite, post_pure]
      refine ⟨fun _ => by simp, fun ht => ?_⟩
      obtain ⟨w, hin⟩ := hv v hval
      have ht : v.type = 0 := by simpa [tyOctet] using ht
      unfold Spec.WellTyped at w
      cases hdata : v.data with
      | bytes p =>
        cases p with
        | none => simp [hdata] at w
        | some s =>
          simp only [post_ite, post_pure]
          refine ⟨fun _ => by simp, fun h10 => ⟨fun _ => by simp, fun h5 => ⟨by trivial, fun _ => ?_⟩⟩⟩
          obtain ⟨i, hi⟩ := hin s hdata
          refine ⟨i, ?_⟩
          have h10 : s.str.length = 10 := by simpa using h10
          have h5 : s.str.take 5 = dzgSerialStart := by simpa using h5
          rw [h10] at hi
          rw [hi, List.take_take] at h5
          simpa [dzgSerialStart] using h5
      | boolean p =>
        cases p with
        | none => simp [hdata] at w
        | some b => simp [hdata] at w; omega
      | num p =>
        cases p with
        | none => simp [hdata] at w
        | some n => simp [hdata] at w; omega

theorem retag_type_ne (v : Value) : (retag v).type ≠ 0 := by
  unfold retag
  have := @Nat.right_le_or (v.type &&& 0x8F) tyUnsigned
  simp only [ne_eq]
  intro h
  rw [h] at this
  exact absurd this (by decide)

theorem valueFreed_retag (v : Value) (hw : Spec.WellTyped v) :
    valueFreed (some (retag v)) ≤ valueFreed (some v) ∧
      ((∃ n, v.data = .num n) → valueFreed (some (retag v)) = valueFreed (some v)) := by
  have hr := retag_type_ne v
  have hd : (retag v).data = v.data := rfl
  unfold Spec.WellTyped at hw
  have hz : ¬ (retag v).type = tyOctet := hr
  unfold valueFreed
  simp only [if_neg hz, hd]
  cases hdata : v.data with
  | bytes p =>
    cases p with
    | none => simp [hdata] at hw
    | some x =>
      simp [hdata] at hw
      simp [hw, VData.ptrFreed, own, octetStringFreed]
  | boolean p =>
    cases p with
    | none => simp [hdata] at hw
    | some x =>
      simp [hdata] at hw
      simp [hw, VData.ptrFreed]
  | num p =>
    cases p with
    | none => simp [hdata] at hw
    | some x =>
      simp [hdata] at hw
      have : v.type ≠ 0 := by omega
      simp [this, tyOctet, VData.ptrFreed]

/-- What is known about an entry: no error means an entry was built, and the workaround is only
switched on by a DZG serial number. -/
def EntryOk (d : List UInt8) (a : Option (ListEntry × Bool)) (err : Bool) : Prop :=
  (err = false → ∃ x, a = some x) ∧ ∀ x, a = some x → x.2 = true → DzgMark d

theorem goodAt_listEntryFinish {D : Nat} {l : ListEntry} {vlm : UInt8} {wa : Bool}
    {d : List UInt8} (hv : ValueIn d l.value) (hwa : wa = true → DzgMark d) {own : Nat}
    (hown : own = listEntryFreed l) :
    GoodAt d D (listEntryFinish l vlm wa) own entryFreed 0 (EntryOk d) := by
  intro st hd hpre ho
  subst hown
  have hb := hpre.bound
  unfold listEntryFinish
  simp only [post_bind, post_ite]
  refine (detect_post hv st).mono ?_
  rintro b s ⟨rfl, hdet⟩
  have plain : ∀ (x : ListEntry × Bool), x.1 = l → (x.2 = true → DzgMark d) →
      (Step s s ∧ s.live + entryFreed (some x) ≤ s.live + listEntryFreed l ∧
        (s.confused = false → s.live + listEntryFreed l = s.live + entryFreed (some x)) ∧
        s.live ≤ s.live + 2 * (s.cursor - s.cursor) ∧ (s.error = false → s.cursor + 0 ≤ s.cursor)) ∧
      EntryOk d (some x) s.error := by
    rintro ⟨e, w⟩ rfl hw
    refine ⟨⟨Step.refl hb, by simp [entryFreed, own], by simp [entryFreed, own], by omega, by simp⟩, fun _ => ⟨_, rfl⟩, ?_⟩
    intro y hy; cases hy; exact hw
  refine ⟨fun hb1 => ?_, fun _ => ?_⟩
  · simp only [post_pure]
    exact plain (l, true) rfl (fun _ => hdet hb1)
  · split
    · rename_i name v hname hval
      simp only [post_ite, post_bind, post_pure]
      refine ⟨fun _ => ?_, fun _ => plain _ rfl hwa⟩
      have hle : ∀ v', listEntryFreed { l with value := some v' } + valueFreed (some v) =
          listEntryFreed l + valueFreed (some v') := by
        intro v'
        simp only [listEntryFreed, hval]; omega
      have hle := hle (retag v)
      obtain ⟨hr1, hr2⟩ := valueFreed_retag v (hv v hval).1
      have hmark : DzgMark s.data := by rw [hd]; exact hwa rfl
      have hfin : ∀ x : ListEntry × Bool, x = ({ l with value := some (retag v) }, true) →
          ∀ err, EntryOk d (some x) err := by
        intro x _ err
        exact ⟨fun _ => ⟨_, rfl⟩, fun y hy _ => hwa rfl⟩
      unfold noteConfused
      cases hdata : v.data with
      | num n =>
        have := hr2 ⟨n, hdata⟩
        simp only [post_pure]
        refine ⟨⟨Step.refl hb, ?_, fun _ => ?_, by omega, by simp⟩, hfin _ rfl _⟩
        · simp only [entryFreed, own]; omega
        · simp only [entryFreed, own]; omega
      | bytes p =>
        simp only [post_modSt]
        refine ⟨⟨⟨rfl, Nat.le_refl _, hb, id, Or.inl, fun _ => Or.inr hmark, fun _ => rfl⟩, ?_, by simp, by simp, by simp⟩, hfin _ rfl _⟩
        simp only [entryFreed, own]; omega
      | boolean p =>
        simp only [post_modSt]
        refine ⟨⟨⟨rfl, Nat.le_refl _, hb, id, Or.inl, fun _ => Or.inr hmark, fun _ => rfl⟩, ?_, by simp, by simp, by simp⟩, hfin _ rfl _⟩
        simp only [entryFreed, own]; omega
    · simp only [post_pure]
      exact plain _ rfl hwa

theorem wlp_true {p : M α} : ∀ st, Wlp p st fun _ _ => True := fun _ _ _ _ => trivial

theorem goodAt_expectList {d : List UInt8} {D own pr : Nat} {n : Int} {k : M (Option α)}
    {fr : Option α → Nat} {E : Option α → Bool → Prop}
    (hn : 0 ≤ n) (hnone : fr none = 0) (hE : E none true) {x : Nat} (hx : x ≤ 2)
    (hk : ∀ st, st.data = d → Pre D st → own ≤ st.live → Post k st fun a st' =>
      (Step st st' ∧ st.live + fr a ≤ st'.live + own ∧
      (st'.confused = false → st'.live + own = st.live + fr a) ∧
      st'.live ≤ st.live + 2 * (st'.cursor - st.cursor) + x ∧
      (st'.error = false → st.cursor + pr ≤ st'.cursor)) ∧ E a st'.error) :
    GoodAt d D (expectList n own k) own fr (pr + 1) E := by
  intro st hd hpre ho
  unfold expectList
  simp only [post_bind, post_getNextType, post_ite, post_failWith]
  refine ⟨fun h => ⟨fun _ => ?_, fun h => absurd (by decide) h⟩, fun h => ⟨fun _ => ?_, fun _ => ?_⟩⟩
  · exact ⟨by omega, ⟨Step.setErr hpre.bound _, by ar, fun _ => by ar, by ar, by simp⟩, hE⟩
  · exact ⟨by omega, ⟨Step.setErr hpre.bound _, by ar, fun _ => by ar, by ar, by simp⟩, hE⟩
  · refine (getNextLength_post (by simpa using h)).mono ?_
    rintro r s ⟨hs, hc, hl, hcf, he⟩
    refine ⟨fun _ => ?_, fun hr => ?_⟩
    · have := hs.mono
      exact ⟨by omega, ⟨(hs.errR).liveR _, by ar, fun _ => by ar, by ar, by simp⟩, hE⟩
    · have hce : s.error = false := by
        rcases he with he | ⟨_, he⟩
        · rw [he]; exact hpre.clean
        · simp at hr; omega
      refine (hk s (by rw [hs.data, hd]) (hpre.step hs hce) (by omega)).mono ?_
      rintro a s' ⟨⟨hs', hl', hx', hb', hpr'⟩, hE'⟩
      have := hs'.mono
      refine ⟨⟨hs.trans hs', by omega, fun hc => ?_, by omega, fun he' => ?_⟩, hE'⟩
      · have := hx' hc; omega
      · have := hpr' he'; omega

theorem goodAt_listEntry {d : List UInt8} {D : Nat} {wa : Bool} (hwa : wa = true → DzgMark d) :
    GoodAt d D (listEntryParse wa) 0 entryFreed 8 (EntryOk d) := by
  have hnone : entryFreed none = 0 := rfl
  have hE : EntryOk d none true := ⟨by simp, by simp⟩
  unfold listEntryParse
  refine goodAt_expectList (x := 1) (pr := 7) (by omega) hnone hE (by omega) ?_
  have body : GoodAt d D (
      field octetStringParse (fun v => { objName := v : ListEntry }) listEntryFreed fun l =>
      field statusParse (fun v => { l with status := v }) listEntryFreed fun l =>
      field timeParse (fun v => { l with valTime := v }) listEntryFreed fun l =>
      field u8Parse (fun v => { l with unit := v }) listEntryFreed fun l =>
      field i8Parse (fun v => { l with scaler := v }) listEntryFreed fun l => do
      let st ← getSt
      if st.cursor ≥ st.data.length then failWith (listEntryFreed l)
      else do
      let valueTl ← getCurrentByte
      let valueLenMore := valueTl &&& 0x8F
      field valueParse (fun v => { l with value := v }) listEntryFreed fun l =>
      field octetStringParse (fun v => { l with valueSignature := v }) listEntryFreed fun l =>
      listEntryFinish l valueLenMore wa) 1 entryFreed (1 + (1 + (1 + (1 + (1 + 2))))) (EntryOk d) := by
    refine goodAt_field (fun _ _ => True) good_octetString wlp_true hnone hE ?_ fun v1 _ => ?_
    · intro v; simp only [listEntryFreed, octetStringFreed.eq_1, statusFreed, timeFreed, numberFreed.eq_1, valueFreed]; omega
    refine goodAt_field (fun _ _ => True) good_status wlp_true hnone hE ?_ fun v2 _ => ?_
    · intro v; simp only [listEntryFreed, octetStringFreed.eq_1, statusFreed.eq_1, timeFreed, numberFreed.eq_1, valueFreed]; omega
    refine goodAt_field (fun _ _ => True) good_time wlp_true hnone hE ?_ fun v3 _ => ?_
    · intro v; simp only [listEntryFreed, octetStringFreed.eq_1, statusFreed.eq_1, timeFreed.eq_1, numberFreed.eq_1, valueFreed]; omega
    refine goodAt_field (fun _ _ => True) good_num wlp_true hnone hE ?_ fun v4 _ => ?_
    · intro v; simp only [listEntryFreed, octetStringFreed.eq_1, statusFreed.eq_1, timeFreed.eq_1, numberFreed.eq_1, valueFreed]; omega
    refine goodAt_field (fun _ _ => True) good_num wlp_true hnone hE ?_ fun v5 _ => ?_
    · intro v; simp only [listEntryFreed, octetStringFreed.eq_1, statusFreed.eq_1, timeFreed.eq_1, numberFreed.eq_1, valueFreed]; omega
    intro st hd hpre ho
    have hb := hpre.bound
    simp only [post_bind, post_getSt, post_ite, post_failWith, post_getCurrentByte]
    refine ⟨fun hge => ?_, fun hlt => ⟨by omega, ?_⟩⟩
    · have hf : listEntryFreed { objName := v1, status := v2, valTime := v3, unit := v4, scaler := v5 } =
          1 + octetStringFreed v1 + statusFreed v2 + timeFreed v3 + numberFreed v4 + numberFreed v5 := by
        simp only [listEntryFreed, octetStringFreed.eq_1, statusFreed.eq_1, timeFreed.eq_1, numberFreed.eq_1, valueFreed]; omega
      rw [hf]
      exact ⟨by omega, ⟨Step.setErr hb _, by ar, by ar, by ar, by simp⟩, hE⟩
    · have tail : ∀ vlm, GoodAt d D
          (field valueParse (fun v => { objName := v1, status := v2, valTime := v3, unit := v4, scaler := v5, value := v : ListEntry }) listEntryFreed fun l =>
            field octetStringParse (fun v => { l with valueSignature := v }) listEntryFreed fun l =>
            listEntryFinish l vlm wa)
          (1 + octetStringFreed v1 + statusFreed v2 + timeFreed v3 + numberFreed v4 + numberFreed v5)
          entryFreed (1 + (1 + 0)) (EntryOk d) := by
        intro vlm
        refine goodAt_field ValueIn good_value value_result hnone hE ?_ fun v6 hv6 => ?_
        · intro v; simp only [listEntryFreed, octetStringFreed.eq_1, statusFreed.eq_1, timeFreed.eq_1, numberFreed.eq_1, valueFreed.eq_1]; omega
        refine goodAt_field (fun _ _ => True) good_octetString wlp_true hnone hE ?_ fun v7 _ => ?_
        · intro v; simp only [listEntryFreed, octetStringFreed.eq_1, statusFreed.eq_1, timeFreed.eq_1, numberFreed.eq_1, valueFreed.eq_1]; omega
        refine goodAt_listEntryFinish hv6 hwa ?_
        simp only [listEntryFreed]; omega
      exact tail _ st hd hpre ho
  intro st hd hpre ho
  simp only [post_bind, post_alloc]
  refine (body { st with live := st.live + 1 } hd (hpre.step (Step.setLive hpre.bound _) hpre.clean) (by simp)).mono ?_
  rintro a s ⟨⟨h1, h2, h3, h4, h5⟩, h6⟩
  simp only at h2 h3 h4 h5
  exact ⟨⟨Step.liveL _ h1, by omega, fun hc => by have := h3 hc; omega, by omega, by omega⟩, h6⟩

theorem listFreed_append (a b : List ListEntry) : listFreed (a ++ b) = listFreed a + listFreed b := by
  simp [listFreed]

theorem goodAt_listLoop {d : List UInt8} {D : Nat} : ∀ (i : Nat) (wa : Bool) (acc : List ListEntry),
    (wa = true → DzgMark d) →
    GoodAt d D (listLoop i wa acc) (listFreed acc) listFreed 0 fun _ _ => True := by
  intro i
  induction i with
  | zero =>
    intro wa acc _ st hd hpre ho
    unfold listLoop
    simp only [post_pure]
    exact ⟨⟨Step.refl hpre.bound, by omega, by simp, by omega, by simp⟩, trivial⟩
  | succ i ih =>
    intro wa acc hwa st hd hpre ho
    unfold listLoop
    simp only [post_bind, post_hasErrors, post_ite, post_release, post_pure, post_setError]
    refine (goodAt_listEntry hwa st hd hpre (by omega)).mono ?_
    rintro e s ⟨⟨h1, h2, h3, h4, h5⟩, h6, h7⟩
    have hm := h1.mono
    refine ⟨fun he => ?_, fun he => ?_⟩
    · have hf : listFreed (acc ++ (Option.map (fun x => x.1) e).toList) = listFreed acc + entryFreed e := by
        rw [listFreed_append]
        cases e <;> simp [listFreed, entryFreed, own]
      have hnil : listFreed [] = 0 := rfl
      rw [hf]
      refine ⟨by omega, ⟨(h1.errR).liveR _, by ar, fun hc => ?_, by ar, by simp⟩, trivial⟩
      have := h3 hc
      simp only [hnil]; omega
    · obtain ⟨⟨x, wa'⟩, hx⟩ := h6 (by simpa using he)
      subst hx
      have hf : listFreed (acc ++ [x]) = listFreed acc + entryFreed (some (x, wa')) := by
        rw [listFreed_append]; simp [listFreed, entryFreed, own]
      refine (ih wa' (acc ++ [x]) (h7 _ rfl) s (by rw [h1.data, hd]) (hpre.step h1 (by simpa using he)) ?_).mono ?_
      · rw [hf]; omega
      · rintro a s' ⟨⟨g1, g2, g3, g4, g5⟩, -⟩
        rw [hf] at g2 g3
        have := g1.mono
        refine ⟨⟨h1.trans g1, by omega, fun hc => ?_, by omega, fun _ => by omega⟩, trivial⟩
        have := g3 hc
        have := h3 (conf_false g1 hc)
        omega

theorem good_list {D : Nat} : Good D listParse 0 listFreed 1 := by
  intro st hpre ho
  have hb := hpre.bound
  have hnil : listFreed [] = 0 := rfl
  unfold listParse
  simp only [post_bind, post_optionalIsSkipped, post_ite, post_pure, post_getNextType, post_setError]
  refine ⟨fun h => ?_, fun h => ⟨fun h1 => ?_, fun h1 => ?_⟩⟩
  · refine ⟨fun _ => ?_, by simp⟩
    exact ⟨⟨rfl, by simp, hb, by simp, Or.inl, Or.inl, id⟩, by ar, by ar, by ar, by ar⟩
  · refine ⟨fun _ => ?_, by simp⟩
    exact ⟨⟨rfl, by simp, by ar, by simp, Or.inl, Or.inl, id⟩, by ar, by ar, by ar, by ar⟩
  · refine ⟨by simp, fun _ => ⟨fun h => by omega, fun _ => ⟨fun _ => ?_, fun _ => ?_⟩⟩⟩
    · exact ⟨⟨rfl, by simp, hb, by simp, Or.inl, Or.inl, id⟩, by ar, by ar, by ar, by ar⟩
    · refine (getNextLength_post h).mono ?_
      rintro r s ⟨g1, g2, g3, g4, g5⟩
      rcases g5 with g5 | ⟨g5, hr⟩
      · refine (goodAt_listLoop r.toNat false [] (by simp) s g1.data (hpre.step g1 (by rw [g5]; exact hpre.clean)) (by simp [hnil])).mono ?_
        rintro a s' ⟨⟨k1, k2, k3, k4, k5⟩, -⟩
        have := k1.mono
        exact ⟨g1.trans k1, by omega, fun hc => by have := k3 hc; omega, by omega, fun _ => by omega⟩
      · subst hr
        have : (-1 : Int).toNat = 0 := rfl
        rw [this]
        unfold listLoop
        simp only [post_pure]
        exact ⟨g1, by omega, fun _ => by omega, by omega, fun _ => by omega⟩

end Sml
