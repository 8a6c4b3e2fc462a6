import Verif.Proofs.Result

/-!
# Contracts of sequences and paths
-/

namespace Sml

/-- Contract of a loop that extends an object of `own` blocks; `x` blocks of credit are left. -/
def GoodX (D : Nat) (p : M α) (own : Nat) (fr : α → Nat) (x : Nat) : Prop :=
  ∀ st, Pre D st → own ≤ st.live → Post p st fun a st' =>
    Step st st' ∧ st.live + fr a ≤ st'.live + own ∧
    (st'.confused = false → st'.live + own = st.live + fr a) ∧
    st'.live ≤ st.live + 2 * (st'.cursor - st.cursor) + x

theorem Good.x {D own pr x : Nat} {p : M α} {fr : α → Nat} (h : Good D p own fr pr) :
    GoodX D p own fr x := by
  intro st hp ho
  exact (h st hp ho).mono fun _ _ ⟨a, b, c, d, _⟩ => ⟨a, b, c, by omega⟩

theorem conf_false {s s' : St} (h : Step s s') (h' : s'.confused = false) : s.confused = false := by
  cases hc : s.confused
  · rfl
  · have := h.conf' hc; simp_all

theorem sequenceFreed_snoc (f : Option α → Nat) (l : List (Option α)) (e : Option α) :
    sequenceFreed f (some ⟨l ++ [e]⟩) =
      sequenceFreed f (some ⟨l⟩) + f e + (if l = [] then 1 else 0) := by
  by_cases h : l = []
  · subst h; simp [sequenceFreed]; omega
  · simp [sequenceFreed, h]; omega

theorem goodx_sequenceLoop {D : Nat} {p : M (Option α)} {f : Option α → Nat}
    (hp : Good D p 0 f 1) (hf : f none = 0)
    (hc : ∀ st, st.cursor ≤ st.data.length → st.error = false →
      Wlp p st fun a s => s.error = true → a = none) :
    ∀ (i : Nat) (seq : Sequence α),
      GoodX D (sequenceLoop p f i seq) (sequenceFreed f (some seq)) (sequenceFreed f)
        (if seq.elems = [] then 1 else 0) := by
  intro i
  induction i with
  | zero =>
    intro seq
    exact (good_pure rfl).x
  | succ i ih =>
    rintro ⟨elems⟩ st hpre ho
    unfold sequenceLoop
    simp only [post_bind, post_hasErrors, post_ite, post_release, post_pure, post_setError]
    refine ((hp st hpre (by omega)).andWlp (hc st hpre.bound hpre.clean)).mono ?_
    rintro e s ⟨⟨h1, h2, h3, h4, h5⟩, h6⟩
    have hm := h1.mono
    refine ⟨fun he => ?_, fun he => ?_⟩
    · have := h6 he
      subst this
      rw [hf] at h2 h3
      refine ⟨by omega, (h1.errR).liveR _, ?_, ?_, ?_⟩
      · simp only [sequenceFreed] at *; omega
      · intro hcf; have := h3 hcf; simp only [sequenceFreed] at *; omega
      · simp only at *; omega
    · have he' : s.error = false := by simpa using he
      unfold sequenceAdd
      have hpr := h5 he'
      have hsn := sequenceFreed_snoc f elems e
      by_cases hnil : elems = []
      · simp only [hnil, if_true, post_bind, post_alloc, post_pure]
        rw [hnil] at hsn
        have hseq : sequenceFreed f (some ⟨elems⟩) = sequenceFreed f (some ⟨[]⟩) := by
          rw [← hnil]
        simp only [if_true] at hsn
        have hpre' : Pre D { s with live := s.live + 1 } :=
          (hpre.step h1 he').step (Step.setLive (by rw [h1.data]; exact h1.bound) _) he'
        refine (ih ⟨[] ++ [e]⟩ _ hpre' ?_).mono ?_
        · rw [hsn]; simp only; omega
        · rintro a s' ⟨g1, g2, g3, g4⟩
          replace g1 := Step.liveL _ g1
          simp only at g2 g3 g4
          rw [hsn] at g2 g3
          have := g1.mono
          refine ⟨h1.trans g1, by omega, fun hcf => ?_, ?_⟩
          · have := g3 hcf; have := h3 (conf_false g1 hcf); omega
          · simp at g4; omega
      · simp only [hnil, if_false, post_pure]
        simp only [hnil, if_false] at hsn
        refine (ih ⟨elems ++ [e]⟩ _ (hpre.step h1 he') ?_).mono ?_
        · rw [hsn]; omega
        · rintro a s' ⟨g1, g2, g3, g4⟩
          rw [hsn] at g2 g3
          have := g1.mono
          refine ⟨h1.trans g1, by omega, fun hcf => ?_, ?_⟩
          · have := g3 hcf; have := h3 (conf_false g1 hcf); omega
          · simp at g4; omega

/-- A header that announces a list, then a loop over its elements. -/
theorem list_header {D : Nat} {own x : Nat} {fr : α → Nat} {k : Nat → M α}
    (hk : ∀ i, GoodX D (k i) own fr x) (h0 : ∃ a, k 0 = pure a ∧ fr a = own) :
    ∀ st, Pre (D + 1) st → st.cursor < st.data.length → own ≤ st.live →
    Post (do let l ← getNextLength; k l.toNat) st fun a st' =>
    Step st st' ∧ st.live + fr a ≤ st'.live + own ∧
    (st'.confused = false → st'.live + own = st.live + fr a) ∧
    st'.live + 2 ≤ st.live + 2 * (st'.cursor - st.cursor) + x ∧
    st.cursor + 1 ≤ st'.cursor := by
  intro st hpre hlt ho
  simp only [post_bind]
  refine (getNextLength_post hlt).mono ?_
  rintro r s ⟨h1, h2, h3, h4, h5⟩
  rcases h5 with h5 | ⟨h5, hr⟩
  · refine (hk _ s (hpre.room h1 (by rw [h5]; exact hpre.clean) (by omega)) (by omega)).mono ?_
    rintro a s' ⟨g1, g2, g3, g4⟩
    have := g1.mono
    exact ⟨h1.trans g1, by omega, fun hcf => by have := g3 hcf; omega, by omega, by omega⟩
  · subst hr
    obtain ⟨a, ha, hfa⟩ := h0
    have : (-1 : Int).toNat = 0 := rfl
    rw [this, ha]
    simp only [post_pure]
    exact ⟨h1, by omega, fun hcf => by omega, by omega, by omega⟩

theorem good_sequence {D : Nat} {p : M (Option α)} {f : Option α → Nat}
    (hp : Good D p 0 f 1) (hf : f none = 0)
    (hc : ∀ st, st.cursor ≤ st.data.length → st.error = false →
      Wlp p st fun a s => s.error = true → a = none) :
    Good D (sequenceParse p f) 0 (sequenceFreed f) 1 := by
  intro st hpre ho
  have hb := hpre.bound
  have hnone : sequenceFreed f none = 0 := rfl
  unfold sequenceParse
  simp only [post_bind, post_getNextType, post_ite, post_failWith, post_alloc]
  refine ⟨fun h => ⟨fun _ => ?_, fun h => absurd (by decide) h⟩, fun h => ⟨fun _ => ?_, fun _ => ?_⟩⟩
  · exact ⟨by omega, Step.setErr hb _, by ar, by ar, by ar, by simp⟩
  · exact ⟨by omega, Step.setErr hb _, by ar, by ar, by ar, by simp⟩
  · have := list_header (D := D) (own := 1) (x := 1) (fr := sequenceFreed f)
      (k := fun i => sequenceLoop p f i { elems := [] })
      (fun i => by simpa [sequenceFreed] using goodx_sequenceLoop hp hf hc i ⟨[]⟩)
      ⟨_, rfl, by simp [sequenceFreed]⟩
      { st with live := st.live + 1 } (hpre.step (Step.setLive hb (st.live + 1)) hpre.clean).up (by simpa using h) (by simp)
    refine post_bind.1 (Post.mono this ?_)
    rintro a s ⟨h1, h2, h3, h4, h5⟩
    simp only at h2 h3 h4 h5
    exact ⟨Step.liveL _ h1, by omega, fun hcf => by have := h3 hcf; omega, by omega, fun _ => h5⟩

/-! ## Paths -/

theorem treePathFreed_snoc (l : List (Option OctetString)) (e : Option OctetString) :
    treePathFreed (some ⟨l ++ [e]⟩) =
      treePathFreed (some ⟨l⟩) + octetStringFreed e + (if l = [] then 1 else 0) := by
  by_cases h : l = []
  · subst h; simp [treePathFreed]; omega
  · simp [treePathFreed, h]; omega

theorem goodx_treePathLoop {D : Nat} : ∀ (i : Nat) (path : TreePath),
    GoodX D (treePathLoop i path) (treePathFreed (some path)) treePathFreed
      (if path.entries = [] then 1 else 0) := by
  intro i
  induction i with
  | zero => intro path; exact (good_pure rfl).x
  | succ i ih =>
    rintro ⟨entries⟩ st hpre ho
    have hnone : treePathFreed none = 0 := rfl
    unfold treePathLoop
    simp only [post_bind, post_hasErrors, post_ite, post_failWith]
    refine (leaf_octetString st hpre.bound).mono ?_
    rintro e s ⟨h1, h2, h3, h4, h5, h6⟩
    have hm := h1.mono
    refine ⟨fun he => ?_, fun he => ?_⟩
    · have := h6 hpre.clean he
      subst this
      have h0 : octetStringFreed none = 0 := rfl
      exact ⟨by omega, (h1.errR).liveR _, by ar, by ar, by ar⟩
    · have he' : s.error = false := by simpa using he
      have hpr := h5 he'
      cases e with
      | none =>
        simp only [octetStringFreed] at h3
        refine (ih ⟨entries⟩ s (hpre.step h1 he') (by omega)).mono ?_
        rintro a s' ⟨g1, g2, g3, g4⟩
        have := g1.mono
        simp only at g4 ⊢
        exact ⟨h1.trans g1, by omega, fun hcf => by have := g3 hcf; omega, by omega⟩
      | some e =>
        have hsn := treePathFreed_snoc entries (some e)
        unfold treePathAdd
        by_cases hnil : entries = []
        · simp only [hnil, if_true, post_bind, post_alloc, post_pure]
          rw [hnil] at hsn
          have hseq : treePathFreed (some ⟨entries⟩) = treePathFreed (some ⟨[]⟩) := by rw [← hnil]
          simp only [if_true] at hsn
          have hpre' : Pre D { s with live := s.live + 1 } :=
            (hpre.step h1 he').step (Step.setLive (by rw [h1.data]; exact h1.bound) _) he'
          refine (ih ⟨[] ++ [some e]⟩ _ hpre' ?_).mono ?_
          · rw [hsn]; simp only; omega
          · rintro a s' ⟨g1, g2, g3, g4⟩
            replace g1 := Step.liveL _ g1
            simp only at g2 g3 g4
            rw [hsn] at g2 g3
            have := g1.mono
            refine ⟨h1.trans g1, by omega, fun hcf => ?_, ?_⟩
            · have := g3 hcf; omega
            · simp at g4; omega
        · simp only [hnil, if_false]
          simp only [hnil, if_false] at hsn
          refine (ih ⟨entries ++ [some e]⟩ _ (hpre.step h1 he') ?_).mono ?_
          · rw [hsn]; omega
          · rintro a s' ⟨g1, g2, g3, g4⟩
            rw [hsn] at g2 g3
            have := g1.mono
            refine ⟨h1.trans g1, by omega, fun hcf => ?_, ?_⟩
            · have := g3 hcf; omega
            · simp at g4; omega

theorem good_treePath {D : Nat} : Good D treePathParse 0 treePathFreed 1 := by
  refine good_optional_lt ?_ rfl
  intro st hpre hlt ho
  have hb := hpre.bound
  have hnone : treePathFreed none = 0 := rfl
  have hnil : treePathFreed (some ⟨[]⟩) = 1 := by simp [treePathFreed]
  simp only [post_bind, post_getNextType, post_ite, post_failWith, post_alloc, hnil]
  refine ⟨fun h => by omega, fun h => ⟨fun _ => ?_, fun _ => ?_⟩⟩
  · exact ⟨by omega, Step.setErr hb _, by ar, by ar, by ar, by simp⟩
  · have := list_header (D := D) (own := 1) (x := 1) (fr := treePathFreed)
      (k := fun i => treePathLoop i { entries := [] })
      (fun i => by simpa [treePathFreed] using goodx_treePathLoop i ⟨[]⟩)
      ⟨_, rfl, by simp [treePathFreed]⟩
      { st with live := st.live + 1 } (hpre.step (Step.setLive hb (st.live + 1)) hpre.clean).up (by simpa using h) (by simp)
    refine post_bind.1 (Post.mono this ?_)
    rintro a s ⟨h1, h2, h3, h4, h5⟩
    simp only at h2 h3 h4 h5
    exact ⟨Step.liveL _ h1, by omega, fun hcf => by have := h3 hcf; omega, by omega, fun _ => h5⟩

end Sml
