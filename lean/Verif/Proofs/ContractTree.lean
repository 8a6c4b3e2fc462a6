import Verif.Proofs.ContractList

/-!
# Contracts of parameter trees
-/

namespace Sml

set_option linter.unusedSimpArgs false

@[simp] theorem octetStringFreed_none : octetStringFreed none = 0 := rfl
@[simp] theorem numberFreed_none : numberFreed none = 0 := rfl
@[simp] theorem booleanFreed_none : booleanFreed none = 0 := rfl
@[simp] theorem valueFreed_none : valueFreed none = 0 := rfl
@[simp] theorem statusFreed_none : statusFreed none = 0 := rfl
@[simp] theorem timeFreed_none : timeFreed none = 0 := rfl
@[simp] theorem treePathFreed_none : treePathFreed none = 0 := rfl
@[simp] theorem periodEntryFreed_none : periodEntryFreed none = 0 := rfl
@[simp] theorem tupelEntryFreed_none : tupelEntryFreed none = 0 := rfl
@[simp] theorem procParValueFreed_none : procParValueFreed none = 0 := rfl
@[simp] theorem treeFreed_none : treeFreed none = 0 := rfl
@[simp] theorem sequenceFreed_none {f : Option α → Nat} : sequenceFreed f none = 0 := rfl
@[simp] theorem listFreed_nil : listFreed [] = 0 := rfl

/-- One field of a structure: `fld contract freed`. -/
macro "fld " t:term:max f:ident : tactic =>
  `(tactic| (refine good_field (fr := $f) $t rfl (fun v => ?_) (fun _ => ?_); · (simp [$f:ident]; omega)))

/-- The end of a structure. -/
macro "fend " f:ident : tactic =>
  `(tactic| (refine good_pure ?_; (simp [$f:ident]; omega)))

theorem good_periodEntry {D : Nat} : Good D periodEntryParse 0 periodEntryFreed 1 := by
  refine good_optional (pr := 6) ?_ rfl (by omega)
  refine good_node (own := 1) (by omega) (by omega) rfl ?_
  fld good_octetString periodEntryFreed
  fld good_num periodEntryFreed
  fld good_num periodEntryFreed
  fld good_value periodEntryFreed
  fld good_octetString periodEntryFreed
  fend periodEntryFreed

theorem good_tupelEntry {D : Nat} : Good D tupelEntryParse 0 tupelEntryFreed 1 := by
  refine good_optional (pr := 24) ?_ rfl (by omega)
  refine good_node (own := 1) (by omega) (by omega) rfl ?_
  fld good_octetString tupelEntryFreed
  fld good_time tupelEntryFreed
  fld good_num tupelEntryFreed
  fld good_num tupelEntryFreed
  fld good_num tupelEntryFreed
  fld good_num tupelEntryFreed
  fld good_num tupelEntryFreed
  fld good_num tupelEntryFreed
  fld good_num tupelEntryFreed
  fld good_num tupelEntryFreed
  fld good_num tupelEntryFreed
  fld good_num tupelEntryFreed
  fld good_octetString tupelEntryFreed
  fld good_num tupelEntryFreed
  fld good_num tupelEntryFreed
  fld good_num tupelEntryFreed
  fld good_num tupelEntryFreed
  fld good_num tupelEntryFreed
  fld good_num tupelEntryFreed
  fld good_num tupelEntryFreed
  fld good_num tupelEntryFreed
  fld good_num tupelEntryFreed
  fld good_octetString tupelEntryFreed
  fend tupelEntryFreed

theorem good_map {D own pr : Nat} {p : M α} {frp : α → Nat} {g : α → β} {fr : β → Nat}
    (hp : Good D p 0 frp pr) (hg : ∀ a, fr (g a) = own + frp a) :
    Good D (do let a ← p; pure (g a)) own fr pr := by
  intro st hpre ho
  simp only [post_bind, post_pure]
  refine (hp st hpre (by omega)).mono ?_
  rintro a s ⟨h1, h2, h3, h4, h5⟩
  have := hg a
  exact ⟨h1, by omega, fun hc => by have := h3 hc; omega, h4, h5⟩

theorem procParValueFreed_tag (t : Num) :
    procParValueFreed (some ⟨some t, .null⟩) = 2 := by
  simp only [procParValueFreed]
  split <;> simp_all [PpvData.ptrFreed]

theorem good_procParValue {D : Nat} : Good D procParValueParse 0 procParValueFreed 1 := by
  refine good_optional (pr := 2) ?_ rfl (by omega)
  refine good_node (own := 1) (by omega) (by omega) rfl ?_
  refine good_field (fr := procParValueFreed) (pr2 := 0) good_num rfl (fun v => ?_) (fun v => ?_)
  · cases v with
    | none => rfl
    | some t => simp only [procParValueFreed_tag t]; rfl
  cases v with
  | none =>
    simp only
    exact good_cast (own := 0 + 1) (good_release (good_pure rfl)) (by simp)
  | some t =>
    simp only
    have h2 := procParValueFreed_tag t
    split
    · rename_i h
      refine Good.weaken (good_map good_value fun a => ?_) (by omega)
      simp only [procParValueFreed, h, numberFreed]; omega
    · rename_i h
      refine Good.weaken (good_map good_periodEntry fun a => ?_) (by omega)
      simp only [procParValueFreed, h, numberFreed]; omega
    · rename_i h
      refine Good.weaken (good_map good_tupelEntry fun a => ?_) (by omega)
      simp only [procParValueFreed, h, numberFreed]; omega
    · rename_i h
      refine Good.weaken (good_map good_time fun a => ?_) (by omega)
      simp only [procParValueFreed, h, numberFreed]; omega
    · rw [h2]
      exact good_failWith rfl

/-! ## Trees -/

theorem treeFreed1_snoc (n : Option OctetString) (v : Option ProcParValue) (cs : List Tree) (c : Tree) :
    treeFreed1 (.mk n v (cs ++ [c])) =
      treeFreed1 (.mk n v cs) + treeFreed1 c + (if cs = [] then 1 else 0) := by
  have h : ∀ l : List Tree, treeFreedList (l ++ [c]) = treeFreedList l + treeFreed1 c := by
    intro l
    induction l with
    | nil => simp [treeFreedList]
    | cons x xs ih => simp [treeFreedList, ih]; omega
  cases cs with
  | nil => simp [treeFreed1, treeFreedList]; omega
  | cons x xs =>
    have := h (x :: xs)
    simp only [List.cons_append] at this ⊢
    simp only [treeFreed1]
    simp
    omega

theorem goodx_treeLoop {D : Nat} {p : M (Option Tree)} (hp : Good D p 0 treeFreed 1) :
    ∀ (i : Nat) (n : Option OctetString) (v : Option ProcParValue) (cs : List Tree),
      GoodX D (treeLoop p i (.mk n v cs)) (treeFreed1 (.mk n v cs)) treeFreed
        (if cs = [] then 1 else 0) := by
  intro i
  induction i with
  | zero => intro n v cs; exact (good_pure rfl).x
  | succ i ih =>
    intro n v cs st hpre ho
    unfold treeLoop
    simp only [post_bind, post_hasErrors, post_ite, post_release, post_pure]
    refine (hp st hpre (by omega)).mono ?_
    rintro c s ⟨h1, h2, h3, h4, h5⟩
    have hm := h1.mono
    have hsome : treeFreed (some (.mk n v cs)) = treeFreed1 (.mk n v cs) := rfl
    refine ⟨fun he => ?_, fun he => ?_⟩
    · rw [hsome]
      refine ⟨by omega, by omega, h1.liveR _, ?_, fun hc => ?_, ?_⟩
      · simp; omega
      · have := h3 hc; simp; omega
      · omega
    · have he' : s.error = false := by simpa using he
      have hpr := h5 he'
      cases c with
      | none =>
        simp only [treeFreed_none] at h2 h3
        refine (ih n v cs s (hpre.step h1 he') (by omega)).mono ?_
        rintro a s' ⟨g1, g2, g3, g4⟩
        have := g1.mono
        exact ⟨h1.trans g1, by omega, fun hcf => by have := g3 hcf; have := h3 (conf_false g1 hcf); omega, by omega⟩
      | some c =>
        have hsn := treeFreed1_snoc n v cs c
        have hc1 : treeFreed (some c) = treeFreed1 c := rfl
        simp only [treeAddTree, post_bind, post_pure]
        by_cases hnil : cs = []
        · subst hnil
          simp only [if_true, List.isEmpty_nil, post_alloc] at hsn ⊢
          have hpre' : Pre D { s with live := s.live + 1 } :=
            (hpre.step h1 he').step (Step.setLive (by rw [h1.data]; exact h1.bound) _) he'
          refine (ih n v ([] ++ [c]) _ hpre' ?_).mono ?_
          · rw [hsn]; simp only; omega
          · rintro a s' ⟨g1, g2, g3, g4⟩
            replace g1 := Step.liveL _ g1
            simp only at g2 g3 g4
            rw [hsn] at g2 g3
            have := g1.mono
            refine ⟨h1.trans g1, by omega, fun hcf => ?_, ?_⟩
            · have := g3 hcf; have := h3 (conf_false g1 hcf); omega
            · simp at g4; omega
        · have hne : cs.isEmpty = false := by simpa using hnil
          simp only [hnil, hne, if_false, post_pure] at hsn ⊢
          simp only [Bool.false_eq_true, if_false, post_pure]
          refine (ih n v (cs ++ [c]) _ (hpre.step h1 he') ?_).mono ?_
          · rw [hsn]; omega
          · rintro a s' ⟨g1, g2, g3, g4⟩
            rw [hsn] at g2 g3
            have := g1.mono
            refine ⟨h1.trans g1, by omega, fun hcf => ?_, ?_⟩
            · have := g3 hcf; have := h3 (conf_false g1 hcf); omega
            · simp at g4; omega

/-- `good_field` that passes on the room used up. -/
theorem good_field_room {D own pr pr2 : Nat} {p : M α} {frp : α → Nat} {set : α → R} {freed : R → Nat}
    {k : R → M (Option β)} {fr : Option β → Nat}
    (hp : Good (D + pr) p 0 frp pr) (hnone : fr none = 0) (hset : ∀ v, freed (set v) = own + frp v)
    (hk : ∀ v, Good D (k (set v)) (own + frp v) fr pr2) :
    Good (D + pr) (field p set freed k) own fr (pr2 + pr) := by
  intro st hpre ho
  unfold field
  simp only [post_bind, post_hasErrors, post_ite, post_release, post_pure]
  refine (hp st hpre (by omega)).mono ?_
  rintro v s ⟨hs, hl, hx, hb, hpr⟩
  refine ⟨fun he => ?_, fun he => ?_⟩
  · rw [hset]
    have hm := hs.mono
    exact ⟨by omega, hs.liveR _, by ar, fun hc => by have := hx hc; ar,
      by ar, by simp [he]⟩
  · have he' : s.error = false := by simpa using he
    have hpr1 := hpr he'
    have hpre' : Pre D s := by
      have := hpre.depth
      exact ⟨by rw [hs.data]; exact hs.bound, he', by rw [hs.data]; omega⟩
    refine (hk v s hpre' (by omega)).mono ?_
    rintro a s' ⟨hs', hl', hx', hb', hpr'⟩
    have hm := hs.mono
    have hm' := hs'.mono
    refine ⟨hs.trans hs', by omega, fun hc => ?_, by omega, fun he' => ?_⟩
    · have h1 := hx' hc
      have := hx (conf_false hs' hc)
      omega
    · have := hpr' he'
      omega

theorem good_node_room {D own pr : Nat} {n : Int} {k : M (Option α)} {fr : Option α → Nat}
    (hn : 0 ≤ n) (hown : 1 ≤ own) (hnone : fr none = 0) (hk : Good D k own fr pr) :
    Good (D + 1) (do alloc 1; expectList n own k) (own - 1) fr (pr + 1) := by
  intro st hpre ho
  unfold expectList
  simp only [post_bind, post_alloc, post_getNextType, post_ite, post_failWith]
  refine ⟨fun h => ⟨fun _ => ?_, fun h => absurd (by decide) h⟩, fun h => ⟨fun _ => ?_, fun _ => ?_⟩⟩
  · exact ⟨by omega, Step.setErr hpre.bound _, by ar, fun _ => by ar,
      by ar, by simp⟩
  · exact ⟨by omega, Step.setErr hpre.bound _, by ar, fun _ => by ar,
      by ar, by simp⟩
  · refine (getNextLength_post (by simpa using h)).mono ?_
    rintro r s ⟨hs, hc, hl, hcf, he⟩
    replace hs := Step.liveL _ hs
    simp only at hc hl hcf he
    refine ⟨fun _ => ?_, fun hr => ?_⟩
    · have := hs.mono
      exact ⟨by omega, (hs.errR).liveR _, by ar, fun _ => by ar,
        by ar, by simp⟩
    · have hce : s.error = false := by
        rcases he with he | ⟨_, he⟩
        · rw [he]; exact hpre.clean
        · simp at hr; omega
      have hpre' : Pre D s := by
        have := hpre.depth
        exact ⟨by rw [hs.data]; exact hs.bound, hce, by rw [hs.data]; omega⟩
      refine (hk s hpre' (by omega)).mono ?_
      rintro a s' ⟨hs', hl', hx', hb', hpr'⟩
      have := hs'.mono
      refine ⟨hs.trans hs', by omega, fun hc => ?_, by omega, fun he' => ?_⟩
      · have := hx' hc; omega
      · have := hpr' he'; omega

theorem Good.anti {D D' own pr : Nat} {p : M α} {fr : α → Nat} (h : Good D' p own fr pr) (hd : D ≤ D') :
    Good D p own fr pr := by
  intro st hpre ho
  exact h st ⟨hpre.bound, hpre.clean, by have := hpre.depth; omega⟩ ho

theorem good_tree (depth : Nat) : Good (4 * depth) (treeParse depth) 0 treeFreed 1 := by
  induction depth with
  | zero =>
    intro st hpre ho
    have := hpre.depth; have := hpre.bound
    omega
  | succ depth ih =>
    unfold treeParse
    refine good_optional (pr := 4) ?_ rfl (by omega)
    refine good_node_room (D := 4 * depth + 3) (own := 1) (pr := 3) (by omega) (by omega) rfl ?_
    refine good_field_room (D := 4 * depth + 2) (pr2 := 2) (fr := treeFreed) good_octetString rfl (fun v1 => ?_) (fun v1 => ?_)
    · simp [treeFreed, treeFreed1, treeFreedList]; omega
    refine good_field_room (D := 4 * depth + 1) (pr2 := 1) (fr := treeFreed) good_procParValue rfl (fun v2 => ?_) (fun v2 => ?_)
    · simp [treeFreed, treeFreed1, treeFreedList, Tree.name]; omega
    intro st hpre ho
    have hb := hpre.bound
    have hft : treeFreed (some (.mk v1 v2 [])) = 1 + octetStringFreed v1 + procParValueFreed v2 := by
      simp [treeFreed, treeFreed1, treeFreedList]; omega
    simp only [Tree.name, post_bind, post_optionalIsSkipped, post_ite, post_pure, post_getNextType, post_failWith]
    refine ⟨fun h => ⟨fun _ => ?_, by simp⟩, fun h => ⟨fun h1 => ⟨fun _ => ?_, by simp⟩, fun h1 => ?_⟩⟩
    · exact ⟨⟨rfl, by simp, hb, by simp, Or.inl, Or.inl, id⟩, by ar, by ar, by ar, by ar⟩
    · exact ⟨⟨rfl, by simp, by ar, by simp, Or.inl, Or.inl, id⟩, by ar, by ar, by ar, by ar⟩
    · refine ⟨by simp, fun _ => ⟨fun h => by omega, fun _ => ⟨fun _ => ?_, fun _ => ?_⟩⟩⟩
      · rw [hft]
        exact ⟨by omega, Step.setErr hb _, by ar, by ar, by ar, by simp⟩
      · have := list_header (D := 4 * depth) (own := treeFreed1 (.mk v1 v2 [])) (x := 1) (fr := treeFreed)
          (k := fun i => treeLoop (treeParse depth) i (.mk v1 v2 []))
          (fun i => by simpa using goodx_treeLoop ih i v1 v2 [])
          ⟨_, rfl, rfl⟩ st hpre (by simpa using h)
          (by simp only [treeFreed, hft] at *; omega)
        refine post_bind.1 (Post.mono this ?_)
        rintro a s ⟨h1, h2, h3, h4, h5⟩
        simp only [treeFreed] at hft
        rw [hft] at h2 h3
        exact ⟨h1, by omega, fun hcf => by have := h3 hcf; omega, by omega, fun _ => h5⟩

end Sml
