import Verif.Proofs.ContractTree

/-!
# Contracts of message bodies
-/

namespace Sml

set_option linter.unusedSimpArgs false

theorem clean_periodEntry (st : St) (_ : st.cursor ≤ st.data.length) (he : st.error = false) :
    Wlp periodEntryParse st fun a s => s.error = true → a = none := by
  unfold periodEntryParse optional
  simp only [wlp_bind, wlp_ite, wlp_pure]
  apply wlp_skipped
  · intro h; simp
  · intro h h1; simp
  · intro h h1
    refine ⟨by simp, fun _ => ?_⟩
    refine wlp_bind.1 (clean_node (n := 5) (by omega) ?_ st he)
    refine clean_field fun _ => ?_
    refine clean_field fun _ => ?_
    refine clean_field fun _ => ?_
    refine clean_field fun _ => ?_
    refine clean_field fun _ => ?_
    exact clean_pure

theorem good_openRequest {D : Nat} : Good D openRequestParse 0 openRequestFreed 1 := by
  refine Good.weaken (pr := 8) ?_ (by omega)
  refine good_node (own := 1) (by omega) (by omega) rfl ?_
  fld good_octetString openRequestFreed
  fld good_octetString openRequestFreed
  fld good_octetString openRequestFreed
  fld good_octetString openRequestFreed
  fld good_octetString openRequestFreed
  fld good_octetString openRequestFreed
  fld good_num openRequestFreed
  fend openRequestFreed

theorem sure_openRequest : Sure openRequestParse := by
  refine sure_node ?_
  refine sure_field fun _ => ?_
  refine sure_field fun _ => ?_
  refine sure_field fun _ => ?_
  refine sure_field fun _ => ?_
  refine sure_field fun _ => ?_
  refine sure_field fun _ => ?_
  refine sure_field fun _ => ?_
  exact sure_pure

theorem good_openResponse {D : Nat} : Good D openResponseParse 0 openResponseFreed 1 := by
  refine Good.weaken (pr := 7) ?_ (by omega)
  refine good_node (own := 1) (by omega) (by omega) rfl ?_
  fld good_octetString openResponseFreed
  fld good_octetString openResponseFreed
  fld good_octetString openResponseFreed
  fld good_octetString openResponseFreed
  fld good_time openResponseFreed
  fld good_num openResponseFreed
  fend openResponseFreed

theorem sure_openResponse : Sure openResponseParse := by
  refine sure_node ?_
  refine sure_field fun _ => ?_
  refine sure_field fun _ => ?_
  refine sure_field fun _ => ?_
  refine sure_field fun _ => ?_
  refine sure_field fun _ => ?_
  refine sure_field fun _ => ?_
  exact sure_pure

theorem good_closeRequest {D : Nat} : Good D closeRequestParse 0 closeRequestFreed 1 := by
  refine Good.weaken (pr := 2) ?_ (by omega)
  refine good_node (own := 1) (by omega) (by omega) rfl ?_
  fld good_octetString closeRequestFreed
  fend closeRequestFreed

theorem sure_closeRequest : Sure closeRequestParse := by
  refine sure_node ?_
  refine sure_field fun _ => ?_
  exact sure_pure

theorem good_closeResponse {D : Nat} : Good D closeResponseParse 0 closeResponseFreed 1 := by
  refine Good.weaken (pr := 2) ?_ (by omega)
  refine good_node (own := 1) (by omega) (by omega) rfl ?_
  fld good_octetString closeResponseFreed
  fend closeResponseFreed

theorem sure_closeResponse : Sure closeResponseParse := by
  refine sure_node ?_
  refine sure_field fun _ => ?_
  exact sure_pure

theorem good_valueEntry {D : Nat} : Good D valueEntryParse 0 valueEntryFreed 1 := by
  refine Good.weaken (pr := 3) ?_ (by omega)
  refine good_node (own := 1) (by omega) (by omega) rfl ?_
  fld good_value valueEntryFreed
  fld good_octetString valueEntryFreed
  fend valueEntryFreed

theorem clean_valueEntry (st : St) (_ : st.cursor ≤ st.data.length) (he : st.error = false) :
    Wlp valueEntryParse st fun a s => s.error = true → a = none := by
  refine clean_node (by omega) ?_ st he
  refine clean_field fun _ => ?_
  refine clean_field fun _ => ?_
  exact clean_pure

theorem good_profObjHeaderEntry {D : Nat} : Good D profObjHeaderEntryParse 0 profObjHeaderEntryFreed 1 := by
  refine Good.weaken (pr := 4) ?_ (by omega)
  refine good_node (own := 1) (by omega) (by omega) rfl ?_
  fld good_octetString profObjHeaderEntryFreed
  fld good_num profObjHeaderEntryFreed
  fld good_num profObjHeaderEntryFreed
  fend profObjHeaderEntryFreed

theorem clean_profObjHeaderEntry (st : St) (_ : st.cursor ≤ st.data.length) (he : st.error = false) :
    Wlp profObjHeaderEntryParse st fun a s => s.error = true → a = none := by
  refine clean_node (by omega) ?_ st he
  refine clean_field fun _ => ?_
  refine clean_field fun _ => ?_
  refine clean_field fun _ => ?_
  exact clean_pure

theorem good_profObjPeriodEntry {D : Nat} : Good D profObjPeriodEntryParse 0 profObjPeriodEntryFreed 1 := by
  refine Good.weaken (pr := 5) ?_ (by omega)
  refine good_node (own := 1) (by omega) (by omega) rfl ?_
  fld good_time profObjPeriodEntryFreed
  fld good_num profObjPeriodEntryFreed
  fld (good_sequence good_valueEntry rfl clean_valueEntry) profObjPeriodEntryFreed
  fld good_octetString profObjPeriodEntryFreed
  fend profObjPeriodEntryFreed

theorem clean_profObjPeriodEntry (st : St) (_ : st.cursor ≤ st.data.length) (he : st.error = false) :
    Wlp profObjPeriodEntryParse st fun a s => s.error = true → a = none := by
  refine clean_node (by omega) ?_ st he
  refine clean_field fun _ => ?_
  refine clean_field fun _ => ?_
  refine clean_field fun _ => ?_
  refine clean_field fun _ => ?_
  exact clean_pure

theorem good_getProfilePackResponse {D : Nat} : Good D getProfilePackResponseParse 0 getProfilePackResponseFreed 1 := by
  refine Good.weaken (pr := 9) ?_ (by omega)
  refine good_node (own := 1) (by omega) (by omega) rfl ?_
  fld good_octetString getProfilePackResponseFreed
  fld good_time getProfilePackResponseFreed
  fld good_num getProfilePackResponseFreed
  fld good_treePath getProfilePackResponseFreed
  fld (good_sequence good_profObjHeaderEntry rfl clean_profObjHeaderEntry) getProfilePackResponseFreed
  fld (good_sequence good_profObjPeriodEntry rfl clean_profObjPeriodEntry) getProfilePackResponseFreed
  fld good_octetString getProfilePackResponseFreed
  fld good_octetString getProfilePackResponseFreed
  fend getProfilePackResponseFreed

theorem sure_getProfilePackResponse : Sure getProfilePackResponseParse := by
  refine sure_node ?_
  refine sure_field fun _ => ?_
  refine sure_field fun _ => ?_
  refine sure_field fun _ => ?_
  refine sure_field fun _ => ?_
  refine sure_field fun _ => ?_
  refine sure_field fun _ => ?_
  refine sure_field fun _ => ?_
  refine sure_field fun _ => ?_
  exact sure_pure

theorem good_getProfileListResponse {D : Nat} : Good D getProfileListResponseParse 0 getProfileListResponseFreed 1 := by
  refine Good.weaken (pr := 10) ?_ (by omega)
  refine good_node (own := 1) (by omega) (by omega) rfl ?_
  fld good_octetString getProfileListResponseFreed
  fld good_time getProfileListResponseFreed
  fld good_num getProfileListResponseFreed
  fld good_treePath getProfileListResponseFreed
  fld good_time getProfileListResponseFreed
  fld good_num getProfileListResponseFreed
  fld (good_sequence good_periodEntry rfl clean_periodEntry) getProfileListResponseFreed
  fld good_octetString getProfileListResponseFreed
  fld good_octetString getProfileListResponseFreed
  fend getProfileListResponseFreed

theorem sure_getProfileListResponse : Sure getProfileListResponseParse := by
  refine sure_node ?_
  refine sure_field fun _ => ?_
  refine sure_field fun _ => ?_
  refine sure_field fun _ => ?_
  refine sure_field fun _ => ?_
  refine sure_field fun _ => ?_
  refine sure_field fun _ => ?_
  refine sure_field fun _ => ?_
  refine sure_field fun _ => ?_
  refine sure_field fun _ => ?_
  exact sure_pure

theorem good_getProcParameterRequest {D : Nat} : Good D getProcParameterRequestParse 0 getProcParameterRequestFreed 1 := by
  refine Good.weaken (pr := 6) ?_ (by omega)
  refine good_node (own := 1) (by omega) (by omega) rfl ?_
  fld good_octetString getProcParameterRequestFreed
  fld good_octetString getProcParameterRequestFreed
  fld good_octetString getProcParameterRequestFreed
  fld good_treePath getProcParameterRequestFreed
  fld good_octetString getProcParameterRequestFreed
  fend getProcParameterRequestFreed

theorem sure_getProcParameterRequest : Sure getProcParameterRequestParse := by
  refine sure_node ?_
  refine sure_field fun _ => ?_
  refine sure_field fun _ => ?_
  refine sure_field fun _ => ?_
  refine sure_field fun _ => ?_
  refine sure_field fun _ => ?_
  exact sure_pure

theorem good_getProcParameterResponse (depth : Nat) : Good (4 * depth) (getProcParameterResponseParse depth) 0 getProcParameterResponseFreed 1 := by
  refine Good.weaken (pr := 4) ?_ (by omega)
  refine good_node (own := 1) (by omega) (by omega) rfl ?_
  fld good_octetString getProcParameterResponseFreed
  fld good_treePath getProcParameterResponseFreed
  fld (good_tree depth) getProcParameterResponseFreed
  fend getProcParameterResponseFreed

theorem sure_getProcParameterResponse (depth : Nat): Sure (getProcParameterResponseParse depth) := by
  refine sure_node ?_
  refine sure_field fun _ => ?_
  refine sure_field fun _ => ?_
  refine sure_field fun _ => ?_
  exact sure_pure

theorem good_setProcParameterRequest (depth : Nat) : Good (4 * depth) (setProcParameterRequestParse depth) 0 setProcParameterRequestFreed 1 := by
  refine Good.weaken (pr := 6) ?_ (by omega)
  refine good_node (own := 1) (by omega) (by omega) rfl ?_
  fld good_octetString setProcParameterRequestFreed
  fld good_octetString setProcParameterRequestFreed
  fld good_octetString setProcParameterRequestFreed
  fld good_treePath setProcParameterRequestFreed
  fld (good_tree depth) setProcParameterRequestFreed
  fend setProcParameterRequestFreed

theorem sure_setProcParameterRequest (depth : Nat): Sure (setProcParameterRequestParse depth) := by
  refine sure_node ?_
  refine sure_field fun _ => ?_
  refine sure_field fun _ => ?_
  refine sure_field fun _ => ?_
  refine sure_field fun _ => ?_
  refine sure_field fun _ => ?_
  exact sure_pure

theorem good_getListRequest {D : Nat} : Good D getListRequestParse 0 getListRequestFreed 1 := by
  refine Good.weaken (pr := 6) ?_ (by omega)
  refine good_node (own := 1) (by omega) (by omega) rfl ?_
  fld good_octetString getListRequestFreed
  fld good_octetString getListRequestFreed
  fld good_octetString getListRequestFreed
  fld good_octetString getListRequestFreed
  fld good_octetString getListRequestFreed
  fend getListRequestFreed

theorem sure_getListRequest : Sure getListRequestParse := by
  refine sure_node ?_
  refine sure_field fun _ => ?_
  refine sure_field fun _ => ?_
  refine sure_field fun _ => ?_
  refine sure_field fun _ => ?_
  refine sure_field fun _ => ?_
  exact sure_pure

theorem good_getListResponse {D : Nat} : Good D getListResponseParse 0 getListResponseFreed 1 := by
  refine Good.weaken (pr := 8) ?_ (by omega)
  refine good_node (own := 1) (by omega) (by omega) rfl ?_
  fld good_octetString getListResponseFreed
  fld good_octetString getListResponseFreed
  fld good_octetString getListResponseFreed
  fld good_time getListResponseFreed
  fld good_list getListResponseFreed
  fld good_octetString getListResponseFreed
  fld good_time getListResponseFreed
  fend getListResponseFreed

theorem sure_getListResponse : Sure getListResponseParse := by
  refine sure_node ?_
  refine sure_field fun _ => ?_
  refine sure_field fun _ => ?_
  refine sure_field fun _ => ?_
  refine sure_field fun _ => ?_
  refine sure_field fun _ => ?_
  refine sure_field fun _ => ?_
  refine sure_field fun _ => ?_
  exact sure_pure

theorem good_attentionResponse (depth : Nat) : Good (4 * depth) (attentionResponseParse depth) 0 attentionResponseFreed 1 := by
  refine Good.weaken (pr := 5) ?_ (by omega)
  refine good_node (own := 1) (by omega) (by omega) rfl ?_
  fld good_octetString attentionResponseFreed
  fld good_octetString attentionResponseFreed
  fld good_octetString attentionResponseFreed
  fld (good_tree depth) attentionResponseFreed
  fend attentionResponseFreed

theorem sure_attentionResponse (depth : Nat): Sure (attentionResponseParse depth) := by
  refine sure_node ?_
  refine sure_field fun _ => ?_
  refine sure_field fun _ => ?_
  refine sure_field fun _ => ?_
  refine sure_field fun _ => ?_
  exact sure_pure

/-! ## Profile requests -/

/-- The tree parser run with the error flag already set: nothing is kept. -/
theorem tree_err {depth : Nat} {st : St} (he : st.error = true) (hb : st.cursor ≤ st.data.length)
    (hd : 0 < depth) : Post (treeParse depth) st fun a s => Step st s ∧ a = none ∧ s.error = true ∧
      s.confused = st.confused ∧ s.live = st.live := by
  cases depth with
  | zero => omega
  | succ depth =>
    unfold treeParse optional expectList
    have h1 : treeFreed (some (.mk none none [])) = 1 := by simp [treeFreed, treeFreed1, treeFreedList]
    simp only [post_bind, post_optionalIsSkipped, post_ite, post_pure, post_alloc, post_getNextType, post_failWith, h1]
    refine ⟨fun h => ⟨fun _ => ?_, by simp⟩, fun h => ⟨fun h1 => ⟨fun _ => ?_, by simp⟩, fun h1 => ?_⟩⟩
    · exact ⟨⟨rfl, by simp, hb, by simp, Or.inl, Or.inl, id⟩, trivial, trivial, trivial, trivial⟩
    · exact ⟨⟨rfl, by simp, by ar, by simp, Or.inl, Or.inl, id⟩, trivial, he, trivial, trivial⟩
    · refine ⟨by simp, fun _ => ⟨fun h => by omega, fun _ => ⟨fun _ => ?_, fun _ => ?_⟩⟩⟩
      · exact ⟨by omega, Step.setErr hb _, trivial, trivial, trivial, by simp⟩
      · refine (getNextLength_post (by simpa using h)).mono ?_
        rintro r s ⟨hs, hc, hl, hcf, he'⟩
        replace hs := Step.liveL _ hs
        simp only at hc hl hcf he'
        refine ⟨fun _ => ?_, fun hr => ?_⟩
        · exact ⟨by omega, (hs.errR).liveR _, trivial, trivial, hcf, by omega⟩
        · refine Post.mono (field_err leaf_octetString (hs.err he) (by rw [hs.data]; exact hs.bound)
            (own := 1) (fun v => ?_) (by omega)) ?_
          · simp [treeFreed, treeFreed1, treeFreedList]; omega
          · rintro a s' ⟨g1, g2, g3, g4, g5⟩
            exact ⟨hs.trans g1, g2, g3, by rw [g4, hcf], by omega⟩

theorem objectListFreed_append (l : List (Option OctetString)) (e : Option OctetString) :
    objectListFreed (l ++ [e]) = objectListFreed l + octetStringFreed e + 1 := by
  simp [objectListFreed]; omega

theorem goodx_objectListLoop {D : Nat} : ∀ (i : Nat) (m : GetProfilePackRequest),
    GoodX D (objectListLoop i m) (getProfilePackRequestFreed (some m)) getProfilePackRequestFreed 0 := by
  intro i
  induction i with
  | zero => intro m; exact (good_pure rfl).x
  | succ i ih =>
    intro m st hpre ho
    have hb := hpre.bound
    have hnone : getProfilePackRequestFreed none = 0 := rfl
    unfold objectListLoop
    simp only [post_bind, post_hasErrors, post_ite, post_release, post_pure, post_alloc]
    refine (leaf_octetString _ (by simpa using hb)).mono ?_
    rintro e s ⟨h1, h2, h3, h4, h5, h6⟩
    replace h1 := Step.liveL _ h1
    simp only at h2 h3 h4 h5 h6
    have hm := h1.mono
    refine ⟨fun he => ?_, fun he => ?_⟩
    · exact ⟨by omega, by omega, h1.liveR _, by ar, by ar, by ar⟩
    · have he' : s.error = false := by simpa using he
      have hpr := h5 he'
      have hf : getProfilePackRequestFreed (some { m with objectList := m.objectList ++ [e] }) =
          getProfilePackRequestFreed (some m) + octetStringFreed e + 1 := by
        simp only [getProfilePackRequestFreed, objectListFreed_append]; omega
      refine (ih { m with objectList := m.objectList ++ [e] } s (hpre.step h1 he') (by omega)).mono ?_
      rintro a s' ⟨g1, g2, g3, g4⟩
      have := g1.mono
      exact ⟨h1.trans g1, by omega, fun hcf => by have := g3 hcf; omega, by omega⟩

theorem objectList_post {D : Nat} (m : GetProfilePackRequest) :
    Good D (objectListParse m) (getProfilePackRequestFreed (some m)) getProfilePackRequestFreed 1 := by
  intro st hpre ho
  have hb := hpre.bound
  have hnone : getProfilePackRequestFreed none = 0 := rfl
  unfold objectListParse
  simp only [post_bind, post_optionalIsSkipped, post_ite, post_pure, post_getNextType, post_failWith]
  refine ⟨fun h => ⟨fun _ => ?_, by simp⟩, fun h => ⟨fun h1 => ⟨fun _ => ?_, by simp⟩, fun h1 => ?_⟩⟩
  · exact ⟨⟨rfl, by simp, hb, by simp, Or.inl, Or.inl, id⟩, by ar, by ar, by ar, by ar⟩
  · exact ⟨⟨rfl, by simp, by ar, by simp, Or.inl, Or.inl, id⟩, by ar, by ar, by ar, by ar⟩
  · refine ⟨by simp, fun _ => ⟨fun h => by omega, fun _ => ⟨fun _ => ?_, fun _ => ?_⟩⟩⟩
    · exact ⟨by omega, Step.setErr hb _, by ar, by ar, by ar, by simp⟩
    · have := list_header (D := D) (own := getProfilePackRequestFreed (some m)) (x := 0)
        (fr := getProfilePackRequestFreed) (k := fun i => objectListLoop i m)
        (fun i => goodx_objectListLoop i m) ⟨_, rfl, rfl⟩ st hpre.up h ho
      refine post_bind.1 (Post.mono this ?_)
      rintro a s ⟨h1, h2, h3, h4, h5⟩
      exact ⟨h1, by omega, fun hcf => by have := h3 hcf; omega, by omega, fun _ => h5⟩

@[simp] theorem objectListFreed_nil : objectListFreed [] = 0 := rfl

theorem inv_objectListLoop : ∀ (i : Nat) (m : GetProfilePackRequest), m.dasDetails = none →
    Inv (objectListLoop i m) fun a => ∀ m', a = some m' → m'.dasDetails = none := by
  intro i
  induction i with
  | zero => intro m hm; exact inv_pure (by rintro _ ⟨⟩; exact hm)
  | succ i ih =>
    intro m hm st
    unfold objectListLoop
    simp only [wlp_bind, wlp_alloc, wlp_hasErrors, wlp_ite, wlp_release, wlp_pure]
    intro e s _
    refine ⟨fun _ _ _ => by simp, fun _ => ?_⟩
    exact ih { m with objectList := m.objectList ++ [e] } hm s

theorem inv_objectList (m : GetProfilePackRequest) (hm : m.dasDetails = none) :
    Inv (objectListParse m) fun a => ∀ m', a = some m' → m'.dasDetails = none := by
  intro st
  unfold objectListParse
  simp only [wlp_bind, wlp_ite, wlp_pure, wlp_failWith]
  intro b s _
  refine ⟨fun _ => by rintro _ ⟨⟩; exact hm, fun _ t s' _ => ⟨fun _ _ => by simp, fun _ l s'' _ => ?_⟩⟩
  exact inv_objectListLoop _ m hm s''

theorem Good.own {D o o' pr : Nat} {p : M α} {fr : α → Nat} (h : Good D p o fr pr) (ho : o = o') :
    Good D p o' fr pr := ho ▸ h

theorem good_packTail (depth : Nat) (m : GetProfilePackRequest) (hm : m.dasDetails = none) :
    Good (4 * depth) (do
      match ← objectListParse m with
      | none => pure none
      | some m =>
        field (treeParse depth) (fun v => { m with dasDetails := v })
          (fun m => getProfilePackRequestFreed (some m)) fun m => pure (some m))
      (getProfilePackRequestFreed (some m)) getProfilePackRequestFreed 1 := by
  intro st hpre ho
  have hd : 0 < depth := by have := hpre.depth; have := hpre.bound; omega
  have hnone : getProfilePackRequestFreed none = 0 := rfl
  simp only [post_bind]
  refine ((objectList_post m st hpre ho).andWlp (inv_objectList m hm st)).mono ?_
  rintro a s ⟨⟨hs, hl, hx, hb, hpr⟩, hdas⟩
  have hm1 := hs.mono
  cases a with
  | none =>
    simp only [post_pure]
    exact ⟨hs, hl, hx, hb, hpr⟩
  | some m' =>
    replace hdas := hdas m' rfl
    have hset : ∀ v, getProfilePackRequestFreed (some { m' with dasDetails := v }) =
        getProfilePackRequestFreed (some m') + treeFreed v := by
      intro v
      simp only [getProfilePackRequestFreed, hdas, treeFreed_none]
      omega
    by_cases he : s.error = true
    · unfold field
      simp only [post_bind, post_hasErrors, post_ite, post_release, post_pure]
      refine (tree_err (depth := depth) he (by rw [hs.data]; exact hs.bound) hd).mono ?_
      rintro v s' ⟨g1, rfl, g3, g4, g5⟩
      have := g1.mono
      have := hset none
      simp only [treeFreed_none] at this
      refine ⟨fun _ => ?_, fun h => absurd g3 (by simpa using h)⟩
      rw [this]
      refine ⟨by omega, (hs.trans g1).liveR _, by simp; omega, fun hc => ?_, by simp; omega, by simp [g3]⟩
      have := hx (by rw [← g4]; exact hc)
      omega
    · have hce : s.error = false := by simpa using he
      have hf : Good (4 * depth) (field (treeParse depth) (fun v => { m' with dasDetails := v })
          (fun m => getProfilePackRequestFreed (some m)) fun m => pure (some m))
          (getProfilePackRequestFreed (some m')) getProfilePackRequestFreed (0 + 1) :=
        good_field (good_tree depth) rfl (fun v => hset v) (fun v => good_pure (hset v))
      refine (hf s (hpre.step hs hce) (by omega)).mono ?_
      rintro a s' ⟨g1, g2, g3, g4, g5⟩
      have := g1.mono
      refine ⟨hs.trans g1, by omega, fun hc => ?_, by omega, fun h => by have := g5 h; omega⟩
      have := g3 hc
      have := hx (conf_false g1 hc)
      omega

theorem good_getProfilePackRequest (depth : Nat) :
    Good (4 * depth) (getProfilePackRequestParse depth) 0 getProfilePackRequestFreed 1 := by
  refine Good.weaken (pr := 9) ?_ (by omega)
  refine good_node (own := 1) (by omega) (by omega) rfl ?_
  fld good_octetString getProfilePackRequestFreed
  fld good_octetString getProfilePackRequestFreed
  fld good_octetString getProfilePackRequestFreed
  fld good_boolean getProfilePackRequestFreed
  fld good_time getProfilePackRequestFreed
  fld good_time getProfilePackRequestFreed
  fld good_treePath getProfilePackRequestFreed
  refine Good.own (good_packTail depth _ rfl) ?_
  simp [getProfilePackRequestFreed]; omega

theorem sure_objectListLoop : ∀ (i : Nat) (m : GetProfilePackRequest), Sure (objectListLoop i m) := by
  intro i
  induction i with
  | zero => intro m; exact sure_pure
  | succ i ih =>
    intro m st
    unfold objectListLoop
    simp only [wlp_bind, wlp_alloc, wlp_hasErrors, wlp_ite, wlp_release, wlp_pure]
    intro e s _
    exact ⟨fun h _ _ => by simp [h], fun _ => ih _ s⟩

theorem sure_objectList (m : GetProfilePackRequest) : Sure (objectListParse m) := by
  intro st
  unfold objectListParse
  simp only [wlp_bind, wlp_ite, wlp_pure, wlp_failWith]
  intro b s _
  refine ⟨fun _ => by simp, fun _ t s' _ => ⟨fun _ _ => by simp, fun _ l s'' _ => ?_⟩⟩
  exact sure_objectListLoop _ m s''

theorem sure_getProfilePackRequest (depth : Nat) : Sure (getProfilePackRequestParse depth) := by
  refine sure_node ?_
  refine sure_field fun _ => ?_
  refine sure_field fun _ => ?_
  refine sure_field fun _ => ?_
  refine sure_field fun _ => ?_
  refine sure_field fun _ => ?_
  refine sure_field fun _ => ?_
  refine sure_field fun _ => ?_
  intro st
  simp only [wlp_bind]
  refine (sure_objectList _ st).mono ?_
  intro a s h
  cases a with
  | none => simpa using h
  | some m => exact sure_field (fun _ => sure_pure) s

end Sml
