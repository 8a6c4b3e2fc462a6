import Verif.Proofs.WrittenHeader
import Verif.Proofs.ReadsList
import Verif.Spec.Tuple

/-!
# Tuple entries do not read back
-/

namespace Sml

open Spec

/-! ## Parsers that end with an error -/

/-- At `bs`, whatever follows, `p` reports an error whenever it returns. -/
def Fails (p : M α) (bs : List UInt8) : Prop :=
  bs ≠ [] ∧ ∀ (st : St) (rest : List UInt8), st.data.drop st.cursor = bs ++ rest → st.error = false → ∀ r s, p st = .ok r s → s.error = true

theorem fails_append {p : M α} {a : List UInt8} (b : List UInt8) (h : Fails p a) : Fails p (a ++ b) :=
  ⟨by simp [h.1], fun st rest hd he r s hp => h.2 st (b ++ rest) (by rw [hd, List.append_assoc]) he r s hp⟩

theorem release_error {n : Nat} {st s : St} {u : Unit} (h : release n st = .ok u s) : s.error = st.error := by
  unfold release at h
  split at h
  · cases h; rfl
  · cases h

theorem failWith_error {n : Nat} {st s : St} {r : Option α} (h : (failWith n : M (Option α)) st = .ok r s) : s.error = true := by
  unfold failWith at h
  rw [run_bind, run_setError, Res.andThen_ok, run_bind] at h
  cases hr : release n { st with error := true } with
  | ub u => rw [hr] at h; cases h
  | ok u s' => rw [hr] at h; cases h; exact release_error hr

theorem fails_field_first {p : M α} {set : α → R} {freed : R → Nat} {k : R → M (Option β)} {bs : List UInt8} (h : Fails p bs) :
    Fails (field p set freed k) bs := by
  refine ⟨h.1, fun st rest hd he r s hp => ?_⟩
  unfold field at hp
  rw [run_bind] at hp
  cases hv : p st with
  | ub u => rw [hv] at hp; cases hp
  | ok v s1 =>
    have h1 := h.2 st rest hd he v s1 hv
    rw [hv, Res.andThen_ok] at hp
    rw [run_bind, run_hasErrors, Res.andThen_ok, if_pos h1, run_bind] at hp
    cases hr : release (freed (set v)) s1 with
    | ub u => rw [hr] at hp; cases hp
    | ok u s' => rw [hr] at hp; cases hp; rw [release_error hr]; exact h1

theorem fails_field_next {p : M α} {set : α → R} {freed : R → Nat} {k : R → M (Option β)} {v : α} {bs bs' : List UInt8} {n : Nat}
    (hp : Reads p v bs n) (hk : Fails (k (set v)) bs') : Fails (field p set freed k) (bs ++ bs') := by
  refine ⟨by simp [hk.1], fun st rest hd he r s h => ?_⟩
  rw [List.append_assoc] at hd
  unfold field at h
  rw [run_bind, hp st _ hd (by simp [hk.1]) he, Res.andThen_ok] at h
  rw [run_bind, run_hasErrors, Res.andThen_ok, if_neg (by simp [he])] at h
  exact hk.2 { st with cursor := st.cursor + bs.length, live := st.live + n } rest (drop_add hd) he r s h

theorem fails_alloc {k : M β} {bs : List UInt8} {n : Nat} (h : Fails k bs) : Fails (do alloc n; k) bs := by
  refine ⟨h.1, fun st rest hd he r s hp => ?_⟩
  rw [run_bind, run_alloc, Res.andThen_ok] at hp
  exact h.2 { st with live := st.live + n } rest hd he r s hp

theorem fails_optional {p : M (Option α)} {b : UInt8} {bs : List UInt8} (hb : b ≠ 1) (h : Fails p (b :: bs)) : Fails (optional p) (b :: bs) := by
  refine ⟨h.1, fun st rest hd he r s hp => ?_⟩
  unfold optional at hp
  rw [run_bind, run_notSkipped hd hb, Res.andThen_ok, if_neg (by decide)] at hp
  exact h.2 st rest hd he r s hp

theorem fails_expectList {n own : Nat} {k : M (Option α)} {bs : List UInt8} (hn : n < 16) (hk : Fails k bs) :
    Fails (expectList n own k) (encHeader 7 n ++ bs) := by
  refine ⟨by simp [hk.1], fun st rest hd he r s h => ?_⟩
  rw [List.append_assoc] at hd
  unfold expectList at h
  rw [run_bind, reads_type (encHeader_ne _ _) (encHeader_type (by decide)) hd, Res.andThen_ok, if_neg (by simp), run_bind,
    reads_length (by decide) (small_len hn) hd, Res.andThen_ok, if_neg (by simp)] at h
  exact hk.2 { st with cursor := st.cursor + (encHeader 7 n).length } rest (drop_add hd) he r s h

theorem fails_node {n own : Nat} {k : M (Option α)} {bs : List UInt8} (hn : n < 16) (hk : Fails k bs) :
    Fails (optional (do alloc 1; expectList n own k)) (encHeader 7 n ++ bs) := by
  have h := fails_alloc (n := 1) (fails_expectList (own := own) hn hk)
  obtain ⟨b, l, hb, hne⟩ := encHeader_first (ty := 7) (n := n) (by decide) (Or.inl (by decide))
  rw [hb] at h ⊢
  exact fails_optional hne h

theorem fails_map {p : M α} {f : α → β} {bs : List UInt8} (h : Fails p bs) : Fails (do let v ← p; pure (f v)) bs := by
  refine ⟨h.1, fun st rest hd he r s hp => ?_⟩
  rw [run_bind] at hp
  cases hv : p st with
  | ub u => rw [hv] at hp; cases hp
  | ok v s1 => rw [hv] at hp; cases hp; exact h.2 st rest hd he v _ hv

/-! ## The header of a tuple entry -/

theorem emits_tupelHeader : Emits (setTypeAndLength tyList 23) (hdrCells [0xF1, 0x08]) := by
  obtain ⟨k, v, hk, hk6, hv, hE, hcase⟩ := emits_header (ty := 7) (n := 23) (by decide) (by decide)
  have hs : spelled 7 23 1 = 23 := by decide
  rw [hs] at hcase
  have hkv : k = 2 ∧ v = 24 := by
    have : k = 1 ∨ k = 2 ∨ k = 3 ∨ k = 4 ∨ k = 5 ∨ k = 6 := by omega
    rcases this with rfl | rfl | rfl | rfl | rfl | rfl <;> simp at hcase ⊢ <;> omega
  obtain ⟨rfl, rfl⟩ := hkv
  have hb : headerBytes 7 24 2 2 = [0xF1, 0x08] := by decide +kernel
  rw [hb] at hE
  exact hE

/-- The fields of a tuple entry as terms. -/
def tupelTerms (t : TupelEntry) : List Term :=
  [opt strTerm t.serverId, opt timeTerm t.secIndex, opt (uintTerm 8) t.status, opt (uintTerm 1) t.unit_pA, opt (intTerm 1) t.scaler_pA, opt (intTerm 8) t.value_pA, opt (uintTerm 1) t.unit_R1, opt (intTerm 1) t.scaler_R1, opt (intTerm 8) t.value_R1, opt (uintTerm 1) t.unit_R4, opt (intTerm 1) t.scaler_R4, opt (intTerm 8) t.value_R4, opt strTerm t.signature_pA_R1_R4, opt (uintTerm 1) t.unit_mA, opt (intTerm 1) t.scaler_mA, opt (intTerm 8) t.value_mA, opt (uintTerm 1) t.unit_R2, opt (intTerm 1) t.scaler_R2, opt (intTerm 8) t.value_R2, opt (uintTerm 1) t.unit_R3, opt (intTerm 1) t.scaler_R3, opt (intTerm 8) t.value_R3, opt strTerm t.signature_mA_R2_R3]

theorem emits_tupel (s : Bool) (t : TupelEntry) (h : TupelOk s t) :
    Emits (tupelEntryWrite (some t)) (hdrCells [0xF1, 0x08] ++ cellsAll (tupelTerms t)) := by
  obtain ⟨h1, h2, h3, h4, h5, h6, h7, h8, h9, h10, h11, h12, h13, h14, h15, h16, h17, h18, h19, h20, h21, h22, h23⟩ := h
  unfold tupelEntryWrite tupelTerms
  refine emits_bind emits_tupelHeader ?_
  refine emits_cons (emits_octetString s _ h1) ?_
  refine emits_cons (emits_time s _ h2) ?_
  refine emits_cons (emits_uint s (by decide) (by decide) _ h3) ?_
  refine emits_cons (emits_uint s (by decide) (by decide) _ h4) ?_
  refine emits_cons (emits_int s (by decide) (by decide) _ h5) ?_
  refine emits_cons (emits_int s (by decide) (by decide) _ h6) ?_
  refine emits_cons (emits_uint s (by decide) (by decide) _ h7) ?_
  refine emits_cons (emits_int s (by decide) (by decide) _ h8) ?_
  refine emits_cons (emits_int s (by decide) (by decide) _ h9) ?_
  refine emits_cons (emits_uint s (by decide) (by decide) _ h10) ?_
  refine emits_cons (emits_int s (by decide) (by decide) _ h11) ?_
  refine emits_cons (emits_int s (by decide) (by decide) _ h12) ?_
  refine emits_cons (emits_octetString s _ h13) ?_
  refine emits_cons (emits_uint s (by decide) (by decide) _ h14) ?_
  refine emits_cons (emits_int s (by decide) (by decide) _ h15) ?_
  refine emits_cons (emits_int s (by decide) (by decide) _ h16) ?_
  refine emits_cons (emits_uint s (by decide) (by decide) _ h17) ?_
  refine emits_cons (emits_int s (by decide) (by decide) _ h18) ?_
  refine emits_cons (emits_int s (by decide) (by decide) _ h19) ?_
  refine emits_cons (emits_uint s (by decide) (by decide) _ h20) ?_
  refine emits_cons (emits_int s (by decide) (by decide) _ h21) ?_
  refine emits_cons (emits_int s (by decide) (by decide) _ h22) ?_
  exact emits_one (emits_octetString s _ h23)

/-- 24 elements are announced, the parser wants 23. -/
theorem fails_tupel (bs : List UInt8) : Fails tupelEntryParse ([0xF1, 0x08] ++ bs) := by
  refine fails_append bs ?_
  unfold tupelEntryParse
  refine fails_optional (by decide) (fails_alloc ⟨by simp, fun st rest hd he r s h => ?_⟩)
  unfold expectList at h
  have hlen := getNextLength_spec (hdr := [0xF1, 0x08]) (rest := rest) (st := st) ⟨[0xF1], 0x08, rfl, by simp, by decide⟩ hd (by decide) (by decide)
  rw [run_bind, reads_type (hdr := [0xF1, 0x08]) (by simp) rfl hd, Res.andThen_ok, if_neg (by decide), run_bind, hlen, Res.andThen_ok, if_pos (by decide)] at h
  exact failWith_error h

theorem fails_ppv {tag : Num} (ht : NumOk true 1 tag) (h3 : tag.val = 3) (bs : List UInt8) :
    Fails procParValueParse (encHeader 7 2 ++ (enc (uintTerm 1 tag) ++ ([0xF1, 0x08] ++ bs))) := by
  unfold procParValueParse
  refine fails_node (n := 2) (by decide) ?_
  refine fails_field_next (reads_uint (by decide) (by decide) (some tag) (fun a ha => by cases ha; exact ht)) ?_
  simp only [h3]
  exact fails_map (fails_tupel bs)

/-! ## Trees -/

/-- A tree can be written; what is written is its encoding, or does not read back. -/
def TupelTree (t : Tree) : Prop :=
  ∃ cs, Emits (treeWrite1 t) cs ∧ ((TreeFits true t ∧ cs = cells (treeTerm t)) ∨ (∀ depth, treeDepth t ≤ depth → Fails (treeParse depth) (bytes cs)))

theorem tupel_children : (ts : List Tree) → (∀ c ∈ ts, TupelTree c) →
    ∃ cl, Emits (treeWriteList ts) cl ∧ (((∀ c ∈ ts, TreeFits true c) ∧ cl = cellsAll (treeTerms ts)) ∨
      (∀ depth, treesDepth ts ≤ depth → ∀ n v acc, Fails (treeLoop (treeParse depth) ts.length (.mk n v acc)) (bytes cl)))
  | [], _ => ⟨[], by unfold treeWriteList; exact emits_pure, Or.inl ⟨by simp, by simp [treeTerms, cellsAll]⟩⟩
  | t :: ts, h => by
    obtain ⟨a, ha, hca⟩ := h t (by simp)
    obtain ⟨b, hb, hcb⟩ := tupel_children ts fun c hc => h c (by simp [hc])
    refine ⟨a ++ b, by unfold treeWriteList; exact emits_bind ha hb, ?_⟩
    have hmax : ∀ depth, treesDepth (t :: ts) ≤ depth → treeDepth t ≤ depth ∧ treesDepth ts ≤ depth := by
      intro depth hd
      simp only [treesDepth] at hd
      exact ⟨Nat.le_trans (Nat.le_max_left _ _) hd, Nat.le_trans (Nat.le_max_right _ _) hd⟩
    rcases hca with ⟨hta, rfl⟩ | hfa
    · rcases hcb with ⟨htb, rfl⟩ | hfb
      · left
        refine ⟨?_, by simp [treeTerms, cellsAll]⟩
        intro c hc
        rcases List.mem_cons.1 hc with rfl | hc
        · exact hta
        · exact htb c hc
      · right
        intro depth hd n v acc
        have hf := fun acc => hfb depth (hmax depth hd).2 n v acc
        have hread := reads_tree1 depth t hta (hmax depth hd).1
        refine ⟨by simp [(hf []).1], fun st rest hdr he r s hp => ?_⟩
        rw [bytes_append, bytes_cells, List.append_assoc] at hdr
        rw [List.length_cons] at hp
        unfold treeLoop at hp
        rw [run_bind, hread st _ hdr (by simp [(hf []).1]) he, Res.andThen_ok, run_bind, run_hasErrors, Res.andThen_ok, if_neg (by simp [he])] at hp
        unfold treeAddTree at hp
        simp only at hp
        by_cases hacc : acc.isEmpty = true
        · rw [if_pos hacc] at hp
          simp only [m_bind_assoc] at hp
          rw [run_bind, run_alloc, Res.andThen_ok, run_bind, run_pure, Res.andThen_ok] at hp
          exact (hf _).2 { st with cursor := st.cursor + (enc (treeTerm t)).length, live := st.live + t.blocks + 1 } rest (drop_add hdr) he r s hp
        · rw [if_neg hacc] at hp
          rw [run_bind, run_pure, Res.andThen_ok] at hp
          exact (hf _).2 { st with cursor := st.cursor + (enc (treeTerm t)).length, live := st.live + t.blocks } rest (drop_add hdr) he r s hp
    · right
      intro depth hd n v acc
      have hf := hfa depth (hmax depth hd).1
      rw [bytes_append]
      refine fails_append _ ⟨hf.1, fun st rest hdr he r s hp => ?_⟩
      rw [List.length_cons] at hp
      unfold treeLoop at hp
      rw [run_bind] at hp
      cases hv : treeParse depth st with
      | ub u => rw [hv] at hp; cases hp
      | ok c s1 =>
        have h1 := hf.2 st rest hdr he c s1 hv
        rw [hv, Res.andThen_ok, run_bind, run_hasErrors, Res.andThen_ok, if_pos h1, run_bind] at hp
        cases hr : release (treeFreed c) s1 with
        | ub u => rw [hr] at hp; cases hp
        | ok u s2 =>
          rw [hr, Res.andThen_ok, run_bind] at hp
          cases hr2 : release (treeFreed (some (.mk n v acc))) s2 with
          | ub u => rw [hr2] at hp; cases hp
          | ok u s3 =>
            rw [hr2] at hp
            cases hp
            rw [release_error hr2, release_error hr]
            exact h1

theorem tupel_tree {t : Tree} (h : TreeFitsTupel true t) : TupelTree t := by
  induction h with
  | @mk n v cs h1 h2 h3 _ ih =>
    obtain ⟨cl, hcl, hcase⟩ := tupel_children cs ih
    -- the children as written
    obtain ⟨W, hW⟩ : ∃ W : M Unit, W = (match cs with | [] => optionalWrite | c :: cs => do setTypeAndLength tyList (cs.length + 1); treeWrite1 c; treeWriteList cs) := ⟨_, rfl⟩
    have hw : treeWrite1 (.mk n v cs) = (do setTypeAndLength tyList 3; octetStringWrite n; procParValueWrite v; W) := by
      rw [hW]; conv => lhs; unfold treeWrite1
      cases cs <;> rfl
    obtain ⟨cw, hcw, hcwb⟩ : ∃ cw, Emits W cw ∧ (cs ≠ [] → bytes cw = encHeader 7 cs.length ++ bytes cl) := by
      rw [hW]
      cases cs with
      | nil => exact ⟨_, emits_optionalWrite, fun h => absurd rfl h⟩
      | cons c cs =>
        unfold treeWriteList at hcl
        exact ⟨_, emits_bind (emits_list (by simpa using h3)) hcl, fun _ => by simp⟩
    have hfrom : (∃ tag p, v = some { tag := some tag, data := .tupelEntry (some p) } ∧ NumOk true 1 tag ∧ tag.val = 3 ∧ TupelOk true p) ∨ Opt (PpvOk true) v := by
      cases v with
      | none => exact Or.inr (by rintro _ ⟨⟩)
      | some v =>
        rcases h2 v rfl with h | ⟨tag, p, rfl, h⟩
        · exact Or.inr (by rintro _ ⟨⟩; exact h)
        · exact Or.inl ⟨tag, p, rfl, h⟩
    rcases hfrom with ⟨tag, p, rfl, ht, hv3, hp⟩ | hv
    · have hppv : Emits (procParValueWrite (some { tag := some tag, data := .tupelEntry (some p) }))
          (hdrCells (encHeader 7 2) ++ (cells (uintTerm 1 tag) ++ (hdrCells [0xF1, 0x08] ++ cellsAll (tupelTerms p)))) := by
        unfold procParValueWrite
        refine emits_bind (emits_list (by decide)) ?_
        refine emits_bind (emits_uint true (by decide) (by decide) (some tag) (fun a ha => by cases ha; exact ht)) ?_
        simp only [hv3]
        exact emits_tupel true p hp
      refine ⟨_, by rw [hw]; exact emits_bind (emits_list (by decide)) (emits_bind (emits_octetString true n h1) (emits_bind hppv hcw)), Or.inr ?_⟩
      intro depth hd
      cases depth with
      | zero => simp [treeDepth] at hd
      | succ depth =>
        simp only [bytes_append, bytes_hdr, bytes_cells]
        unfold treeParse
        refine fails_node (n := 3) (by decide) ?_
        refine fails_field_next (reads_octetString n h1) ?_
        refine fails_append _ (fails_field_first ?_)
        exact fails_ppv ht hv3 _
    · rcases hcase with ⟨hfit, _⟩ | hf
      · have hfits : TreeFits true (.mk n v cs) := .mk h1 hv h3 hfit
        exact ⟨_, emits_tree1 true _ hfits, Or.inl ⟨hfits, rfl⟩⟩
      · refine ⟨_, by rw [hw]; exact emits_bind (emits_list (by decide)) (emits_bind (emits_octetString true n h1) (emits_bind (emits_ppv true v hv) hcw)), Or.inr ?_⟩
        intro depth hd
        cases depth with
        | zero => simp [treeDepth] at hd
        | succ depth =>
          simp only [treeDepth] at hd
          have hfl := fun n v acc => hf depth (by omega) n v acc
          have hne : cs ≠ [] := by
            rintro rfl
            have := (hfl none none []).2 { data := bytes cl } [] (by simp) rfl _ _ rfl
            cases this
          simp only [bytes_append, bytes_hdr, bytes_cells]
          unfold treeParse
          refine fails_node (n := 3) (by decide) ?_
          refine fails_field_next (reads_octetString n h1) ?_
          refine fails_field_next (reads_ppv v hv) ?_
          rw [hcwb hne]
          refine ⟨by simp [(hfl none none []).1], fun st rest hdr he r s hp => ?_⟩
          rw [List.append_assoc] at hdr
          obtain ⟨b, bs, hbb, hb1⟩ := encHeader_first (ty := 7) (n := cs.length) (by decide) (Or.inl (by decide))
          have hd' := hdr
          rw [hbb] at hd'
          simp only [Tree.name] at hp
          rw [run_bind, run_notSkipped hd' hb1, Res.andThen_ok, if_neg (by decide), run_bind, reads_type (encHeader_ne _ _) (encHeader_type (by decide)) hdr,
            Res.andThen_ok, if_neg (by simp), run_bind, reads_length (by decide) (small_len h3) hdr, Res.andThen_ok, Int.toNat_natCast] at hp
          exact (hfl _ _ _).2 { st with cursor := st.cursor + (encHeader 7 cs.length).length } rest (drop_add hdr) he r s hp

theorem hasTupel_unfit {t : Tree} (h : HasTupel t) : ¬ TreeFits true t := by
  induction h with
  | here =>
    intro hf
    cases hf with
    | mk _ h2 _ _ =>
      obtain ⟨_, _, _, h⟩ := h2 _ rfl
      exact h
  | child hc _ ih =>
    intro hf
    cases hf with
    | mk _ _ _ h4 => exact ih (h4 _ hc)

end Sml
