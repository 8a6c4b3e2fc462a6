import Verif.Proofs.ContractMessage
import Verif.Proofs.Local
import Verif.Spec.Stranded
import Verif.Spec.Content

/-!
# The exact cost of parsing

`Cost p own fr`: a run of `p` that starts with an object of `own` blocks under construction and ends
without error leaves exactly `fr` of its result instead. In contrast to `Good` this also holds after
the DZG workaround (sml_list.c:249-259) relabelled a value; `fr` then counts the block that
`sml_value_free` will not reach.
-/

namespace Sml

set_option linter.unusedSimpArgs false
set_option linter.unusedVariables false

def Cost (p : M α) (own : Nat) (fr : α → Nat) : Prop :=
  ∀ st, st.cursor ≤ st.data.length → Wlp p st fun a s =>
    s.cursor ≤ s.data.length ∧ (s.error = false → s.live + own = st.live + fr a)

theorem Wlp.both {p : M α} {st : St} {P Q : α → St → Prop} (h1 : Wlp p st P) (h2 : Wlp p st Q) :
    Wlp p st fun a s => P a s ∧ Q a s := fun a s e => ⟨h1 a s e, h2 a s e⟩

theorem Leaf.cost {p : M (Option α)} {fr : Option α → Nat} (h : Leaf p fr) : Cost p 0 fr := by
  intro st hb
  refine (h st hb).wlp.mono ?_
  rintro a s ⟨h1, h2, h3, _⟩
  exact ⟨by rw [h1.data]; exact h1.bound, fun _ => by omega⟩

theorem cost_pure {a : α} {own : Nat} {fr : α → Nat} (h : fr a = own) : Cost (pure a) own fr := by
  intro st hb
  simp only [wlp_pure]
  exact ⟨hb, fun _ => by omega⟩

theorem cost_undef {r : Ub} {own : Nat} {fr : α → Nat} : Cost (undef r) own fr := by
  intro st hb; simp

theorem cost_failWith {own n : Nat} {fr : Option α → Nat} : Cost (failWith n) own fr := by
  intro st hb
  simp only [wlp_failWith]
  exact fun _ => ⟨hb, by simp⟩

theorem cost_ite {c : Prop} [Decidable c] {p q : M α} {own : Nat} {fr : α → Nat}
    (hp : c → Cost p own fr) (hq : ¬ c → Cost q own fr) : Cost (if c then p else q) own fr := by
  split
  · exact hp ‹_›
  · exact hq ‹_›

theorem cost_alloc {own n : Nat} {k : M α} {fr : α → Nat} (hk : Cost k (own + n) fr) :
    Cost (do alloc n; k) own fr := by
  intro st hb
  simp only [wlp_bind, wlp_alloc]
  refine (hk _ (by exact hb)).mono ?_
  rintro a s ⟨h1, h2⟩
  exact ⟨h1, fun he => by have := h2 he; simp only at this; omega⟩

theorem cost_release {own o n : Nat} {k : M α} {fr : α → Nat} (hk : Cost k o fr) (ho : own = o + n) :
    Cost (do release n; k) own fr := by
  intro st hb
  simp only [wlp_bind, wlp_release]
  intro hl
  refine (hk _ (by exact hb)).mono ?_
  rintro a s ⟨h1, h2⟩
  exact ⟨h1, fun he => by have := h2 he; simp only at this; omega⟩

theorem cost_type {own : Nat} {k : Nat → M α} {fr : α → Nat} (hk : ∀ t, Cost (k t) own fr) :
    Cost (do let t ← getNextType; k t) own fr := by
  intro st hb
  rw [wlp_bind]
  apply wlp_getNextType
  · intro h; exact hk _ _ hb
  · intro h; exact hk _ _ hb

theorem cost_length {own : Nat} {k : Int → M α} {fr : α → Nat} (hk : ∀ l, Cost (k l) own fr) :
    Cost (do let l ← getNextLength; k l) own fr := by
  intro st hb
  rw [wlp_bind]
  refine (getNextLength_post' hb).wlp.mono ?_
  rintro l s ⟨h1, _, h3, _⟩
  refine (hk l s (by rw [h1.data]; exact h1.bound)).mono ?_
  rintro a s' ⟨g1, g2⟩
  exact ⟨g1, fun he => by have := g2 he; omega⟩

theorem cost_skip {own : Nat} {b : α} {k : M α} {fr : α → Nat} (hb : fr b = own) (hk : Cost k own fr) :
    Cost (do if ← optionalIsSkipped then pure b else k) own fr := by
  intro st hbd
  simp only [wlp_bind, wlp_ite, wlp_pure]
  apply wlp_skipped
  · intro h; exact ⟨fun _ => ⟨hbd, by simp⟩, by simp⟩
  · intro h h1; exact ⟨fun _ => ⟨h, fun _ => by simp only; omega⟩, by simp⟩
  · intro h h1; exact ⟨by simp, fun _ => hk st hbd⟩

theorem cost_optional {k : M (Option α)} {fr : Option α → Nat} (hn : fr none = 0) (hk : Cost k 0 fr) :
    Cost (optional k) 0 fr := cost_skip hn hk

theorem cost_expectList {own o : Nat} {n : Int} {k : M (Option α)} {fr : Option α → Nat}
    (hk : Cost k own fr) : Cost (expectList n o k) own fr := by
  unfold expectList
  exact cost_type fun _ => cost_ite (fun _ => cost_failWith) fun _ =>
    cost_length fun _ => cost_ite (fun _ => cost_failWith) fun _ => hk

theorem cost_node {own o : Nat} {n : Int} {k : M (Option α)} {fr : Option α → Nat}
    (hk : Cost k (own + 1) fr) : Cost (do alloc 1; expectList n o k) own fr :=
  cost_alloc (cost_expectList hk)

theorem cost_field {own : Nat} {p : M α} {frp : α → Nat} {set : α → R} {freed : R → Nat}
    {k : R → M (Option β)} {fr : Option β → Nat}
    (hp : Cost p 0 frp) (hk : ∀ v, Cost (k (set v)) (own + frp v) fr) :
    Cost (field p set freed k) own fr := by
  intro st hb
  unfold field
  simp only [wlp_bind, wlp_hasErrors, wlp_ite, wlp_release, wlp_pure]
  refine (hp st hb).mono ?_
  rintro v s ⟨h1, h2⟩
  refine ⟨fun he _ => ⟨h1, by simp [he]⟩, fun he => ?_⟩
  have he' : s.error = false := by simpa using he
  refine (hk v s h1).mono ?_
  rintro a s' ⟨g1, g2⟩
  exact ⟨g1, fun hn => by have := g2 hn; have := h2 he'; omega⟩

theorem cost_map {own : Nat} {p : M α} {frp : α → Nat} {g : α → β} {fr : β → Nat}
    (hp : Cost p 0 frp) (hg : ∀ a, fr (g a) = own + frp a) :
    Cost (do let a ← p; pure (g a)) own fr := by
  intro st hb
  simp only [wlp_bind, wlp_pure]
  refine (hp st hb).mono ?_
  rintro a s ⟨h1, h2⟩
  have := hg a
  exact ⟨h1, fun he => by have := h2 he; omega⟩

/-- One field of a structure, and its end. -/
macro "cfld " t:term:max : tactic =>
  `(tactic| refine cost_field $t fun _ => ?_)
macro "cend " f:ident : tactic =>
  `(tactic| (refine cost_pure ?_; (simp [$f:ident]; try omega)))

/-! ## Primitive fields -/

theorem cost_octetString : Cost octetStringParse 0 octetStringFreed := leaf_octetString.cost
theorem cost_num {t m : Nat} : Cost (numberParse t m) 0 numberFreed := (leaf_number t m).cost
theorem cost_boolean : Cost booleanParse 0 booleanFreed := leaf_boolean.cost

theorem cost_timeParseData {tag : Option Num} : Cost (timeParseData tag) (1 + numberFreed tag) timeFreed := by
  unfold timeParseData
  refine cost_type fun t => cost_ite (fun _ => ?_) fun _ => cost_ite (fun _ => ?_) fun _ => ?_
  · cfld cost_num
    cend timeFreed
  · refine cost_length fun _ => ?_
    cfld cost_num
    cfld cost_num
    cfld cost_num
    refine cost_release (o := 1 + numberFreed tag) (cost_pure ?_) (by omega)
    simp [timeFreed]; omega
  · refine cost_release (o := 0) (cost_pure rfl) ?_
    simp [timeFreed]; omega

theorem cost_time : Cost timeParse 0 timeFreed := by
  refine cost_optional rfl (cost_alloc ?_)
  intro st hb
  simp only [wlp_bind, wlp_getCurrentByte]
  intro hlt
  revert st
  suffices h : ∀ b : UInt8, Cost (if b = 0x65 then do
      alloc 1
      timeParseData (some { size := 1, val := 1 })
    else expectList 2 (timeFreed (some { tag := none, data := none })) <|
      field u8Parse (fun v => { tag := v, data := none : Time }) (fun t => timeFreed (some t)) fun tme =>
      timeParseData tme.tag) (0 + 1) timeFreed by
    intro st hb hlt; exact h _ st hb
  intro b
  refine cost_ite (fun _ => cost_alloc cost_timeParseData) fun _ => cost_expectList ?_
  cfld cost_num
  exact cost_timeParseData

theorem cost_value : Cost valueParse 0 valueFreed := by
  intro st hb
  unfold valueParse
  simp only [wlp_bind, wlp_ite, wlp_pure]
  apply wlp_skipped
  · intro h; exact ⟨fun _ => ⟨hb, by simp⟩, by simp⟩
  · intro h h1; exact ⟨fun _ => ⟨h, fun _ => by simp [valueFreed]⟩, by simp⟩
  intro h h1
  refine ⟨by simp, fun _ => ?_⟩
  apply wlp_getNextType
  · intro h'; omega
  intro _
  simp only [wlp_getCurrentByte, wlp_alloc, wlp_setError, wlp_hasErrors, wlp_release]
  intro _
  have key : ∀ (α : Type) (p : M (Option α)) (frp : Option α → Nat) (g : Option α → Value),
      Cost p 0 frp → (∀ a, valueFreed (some (g a)) = frp a + 1) →
      Wlp p { st with live := st.live + 1 } fun a s =>
        (s.error = true → valueFreed (some (g a)) ≤ s.live →
          s.cursor ≤ s.data.length ∧ (s.error = false → s.live - valueFreed (some (g a)) + 0 = st.live + valueFreed none)) ∧
        (¬ s.error = true → s.cursor ≤ s.data.length ∧
          (s.error = false → s.live + 0 = st.live + valueFreed (some (g a)))) := by
    intro α p frp g hp hg
    refine (hp _ (by exact hb)).mono ?_
    rintro a s ⟨h1, h2⟩
    refine ⟨fun he _ => ⟨h1, by simp [he]⟩, fun he => ⟨h1, fun he' => ?_⟩⟩
    have := h2 he'
    simp only at this
    rw [hg]; omega
  refine ⟨fun ht => ?_, fun h0 => ⟨fun ht => ?_, fun h4 => ⟨fun ht => ?_, fun _ => ?_⟩⟩⟩
  · exact key _ _ _ (fun p => { type := _, data := .bytes p : Value }) cost_octetString (by
      intro a; simp [valueFreed, ht])
  · exact key _ _ _ (fun p => { type := _, data := .boolean p : Value }) cost_boolean (by
      intro a; cases a <;> simp [valueFreed, ht, tyBoolean, tyOctet, VData.ptrFreed, booleanFreed, own])
  · exact key _ _ _ (fun p => { type := _, data := .num p : Value }) cost_num (by
      intro a
      have hne : ∀ t m : Nat, (t = tyUnsigned ∨ t = tyInteger) → t ||| m ≠ 0 := by
        intro t m ht h
        have := @Nat.left_le_or t m
        rw [h] at this
        rcases ht with ht | ht <;> subst ht <;> exact absurd this (by decide)
      have := hne _ (growMax 4 1 st.data[st.cursor]) ht
      cases a <;> simp [valueFreed, tyOctet, this, VData.ptrFreed, numberFreed, own])
  · exact ⟨fun _ _ => ⟨hb, by simp⟩, by simp⟩

theorem cost_status : Cost statusParse 0 statusFreed := by
  intro st hb
  unfold statusParse
  simp only [wlp_bind, wlp_ite, wlp_pure]
  apply wlp_skipped
  · intro h; exact ⟨fun _ => ⟨hb, by simp⟩, by simp⟩
  · intro h h1; exact ⟨fun _ => ⟨h, fun _ => by simp [statusFreed]⟩, by simp⟩
  intro h h1
  refine ⟨by simp, fun _ => ?_⟩
  apply wlp_getNextType
  · intro h'; omega
  intro _
  simp only [wlp_getCurrentByte, wlp_alloc, wlp_setError, wlp_hasErrors, wlp_release]
  intro _
  refine ⟨fun ht => ?_, fun _ => ⟨fun _ _ => ⟨hb, by simp⟩, by simp⟩⟩
  refine (cost_num _ (by exact hb)).mono ?_
  rintro a s ⟨h1, h2⟩
  refine ⟨fun he _ => ⟨h1, by simp [he]⟩, fun he => ⟨h1, fun he' => ?_⟩⟩
  have := h2 he'
  simp only at this
  simp only [statusFreed]; omega

/-! ## Sequences, paths and trees -/

theorem cost_sequenceLoop {p : M (Option α)} {f : Option α → Nat} (hp : Cost p 0 f) :
    ∀ (i : Nat) (seq : Sequence α),
      Cost (sequenceLoop p f i seq) (sequenceFreed f (some seq)) (sequenceFreed f) := by
  intro i
  induction i with
  | zero => intro seq; exact cost_pure rfl
  | succ i ih =>
    rintro ⟨elems⟩ st hb
    unfold sequenceLoop
    simp only [wlp_bind, wlp_hasErrors, wlp_ite, wlp_release, wlp_pure, wlp_setError]
    refine (hp st hb).mono ?_
    rintro e s ⟨h1, h2⟩
    refine ⟨fun he _ => ⟨h1, by simp⟩, fun he => ?_⟩
    have h2 := h2 (by simpa using he)
    have hsn := sequenceFreed_snoc f elems e
    unfold sequenceAdd
    by_cases hnil : elems = []
    · subst hnil
      simp only [if_true, wlp_bind, wlp_alloc, wlp_pure] at hsn ⊢
      refine (ih _ _ (by exact h1)).mono ?_
      rintro a s' ⟨g1, g2⟩
      exact ⟨g1, fun hn => by have := g2 hn; simp only at this; omega⟩
    · simp only [hnil, if_false, wlp_bind, wlp_pure] at hsn ⊢
      refine (ih _ _ (by exact h1)).mono ?_
      rintro a s' ⟨g1, g2⟩
      exact ⟨g1, fun hn => by have := g2 hn; omega⟩

theorem cost_sequence {p : M (Option α)} {f : Option α → Nat} (hp : Cost p 0 f) :
    Cost (sequenceParse p f) 0 (sequenceFreed f) := by
  unfold sequenceParse
  refine cost_type fun _ => cost_ite (fun _ => cost_failWith) fun _ => cost_alloc (cost_length fun l => ?_)
  have := cost_sequenceLoop hp l.toNat ⟨[]⟩
  simpa [sequenceFreed] using this

theorem cost_treePathLoop : ∀ (i : Nat) (path : TreePath),
    Cost (treePathLoop i path) (treePathFreed (some path)) treePathFreed := by
  intro i
  induction i with
  | zero => intro path; exact cost_pure rfl
  | succ i ih =>
    rintro ⟨entries⟩ st hb
    unfold treePathLoop
    simp only [wlp_bind, wlp_hasErrors, wlp_ite, wlp_failWith]
    refine (cost_octetString st hb).mono ?_
    rintro e s ⟨h1, h2⟩
    refine ⟨fun he _ => ⟨h1, by simp⟩, fun he => ?_⟩
    have h2 := h2 (by simpa using he)
    cases e with
    | none =>
      simp only [octetStringFreed_none] at h2
      refine (ih _ _ h1).mono ?_
      rintro a s' ⟨g1, g2⟩
      exact ⟨g1, fun hn => by have := g2 hn; omega⟩
    | some e =>
      have hsn := treePathFreed_snoc entries (some e)
      unfold treePathAdd
      by_cases hnil : entries = []
      · subst hnil
        simp only [if_true, wlp_bind, wlp_alloc, wlp_pure] at hsn ⊢
        refine (ih _ _ (by exact h1)).mono ?_
        rintro a s' ⟨g1, g2⟩
        exact ⟨g1, fun hn => by have := g2 hn; simp only at this; omega⟩
      · simp only [hnil, if_false, wlp_bind, wlp_pure] at hsn ⊢
        refine (ih _ _ (by exact h1)).mono ?_
        rintro a s' ⟨g1, g2⟩
        exact ⟨g1, fun hn => by have := g2 hn; omega⟩

theorem cost_treePath : Cost treePathParse 0 treePathFreed := by
  refine cost_optional rfl (cost_alloc (cost_type fun _ => cost_ite (fun _ => cost_failWith) fun _ =>
    cost_length fun l => ?_))
  have := cost_treePathLoop l.toNat ⟨[]⟩
  simpa [treePathFreed] using this

theorem cost_periodEntry : Cost periodEntryParse 0 periodEntryFreed := by
  refine cost_optional rfl (cost_node ?_)
  cfld cost_octetString
  cfld cost_num
  cfld cost_num
  cfld cost_value
  cfld cost_octetString
  cend periodEntryFreed

theorem cost_tupelEntry : Cost tupelEntryParse 0 tupelEntryFreed := by
  refine cost_optional rfl (cost_node ?_)
  cfld cost_octetString
  cfld cost_time
  cfld cost_num
  cfld cost_num
  cfld cost_num
  cfld cost_num
  cfld cost_num
  cfld cost_num
  cfld cost_num
  cfld cost_num
  cfld cost_num
  cfld cost_num
  cfld cost_octetString
  cfld cost_num
  cfld cost_num
  cfld cost_num
  cfld cost_num
  cfld cost_num
  cfld cost_num
  cfld cost_num
  cfld cost_num
  cfld cost_num
  cfld cost_octetString
  cend tupelEntryFreed

theorem cost_procParValue : Cost procParValueParse 0 procParValueFreed := by
  refine cost_optional rfl (cost_node ?_)
  refine cost_field (fr := procParValueFreed) cost_num fun v => ?_
  cases v with
  | none => exact cost_release (o := 0) (cost_pure rfl) (by simp [procParValueFreed, PpvData.ptrFreed])
  | some t =>
    simp only
    split
    · rename_i h
      refine cost_map cost_value fun a => ?_
      simp only [procParValueFreed, h, numberFreed]; omega
    · rename_i h
      refine cost_map cost_periodEntry fun a => ?_
      simp only [procParValueFreed, h, numberFreed]; omega
    · rename_i h
      refine cost_map cost_tupelEntry fun a => ?_
      simp only [procParValueFreed, h, numberFreed]; omega
    · rename_i h
      refine cost_map cost_time fun a => ?_
      simp only [procParValueFreed, h, numberFreed]; omega
    · exact cost_failWith

theorem cost_treeLoop {p : M (Option Tree)} (hp : Cost p 0 treeFreed) :
    ∀ (i : Nat) (n : Option OctetString) (v : Option ProcParValue) (cs : List Tree),
      Cost (treeLoop p i (.mk n v cs)) (treeFreed1 (.mk n v cs)) treeFreed := by
  intro i
  induction i with
  | zero => intro n v cs; exact cost_pure rfl
  | succ i ih =>
    intro n v cs st hb
    unfold treeLoop
    simp only [wlp_bind, wlp_hasErrors, wlp_ite, wlp_release, wlp_pure]
    refine (hp st hb).mono ?_
    rintro c s ⟨h1, h2⟩
    refine ⟨fun he _ _ => ⟨h1, by simp [he]⟩, fun he => ?_⟩
    have h2 := h2 (by simpa using he)
    cases c with
    | none =>
      simp only [treeFreed_none] at h2
      refine (ih n v cs s h1).mono ?_
      rintro a s' ⟨g1, g2⟩
      exact ⟨g1, fun hn => by have := g2 hn; omega⟩
    | some c =>
      have hsn := treeFreed1_snoc n v cs c
      have hc1 : treeFreed (some c) = treeFreed1 c := rfl
      simp only [treeAddTree, wlp_bind, wlp_pure]
      by_cases hnil : cs = []
      · subst hnil
        simp only [if_true, List.isEmpty_nil, wlp_bind, wlp_alloc, wlp_pure] at hsn ⊢
        refine (ih _ _ _ _ (by exact h1)).mono ?_
        rintro a s' ⟨g1, g2⟩
        exact ⟨g1, fun hn => by have := g2 hn; simp only at this; omega⟩
      · have hne : cs.isEmpty = false := by simpa using hnil
        simp only [hnil, hne, if_false, wlp_pure] at hsn ⊢
        simp only [Bool.false_eq_true, if_false, wlp_pure]
        refine (ih _ _ _ _ h1).mono ?_
        rintro a s' ⟨g1, g2⟩
        exact ⟨g1, fun hn => by have := g2 hn; omega⟩

theorem cost_tree (depth : Nat) : Cost (treeParse depth) 0 treeFreed := by
  induction depth with
  | zero => exact cost_undef
  | succ depth ih =>
    unfold treeParse
    refine cost_optional rfl (cost_node ?_)
    refine cost_field (fr := treeFreed) cost_octetString fun v1 => ?_
    refine cost_field (fr := treeFreed) cost_procParValue fun v2 => ?_
    have hft : treeFreed1 (.mk v1 v2 []) = 0 + 1 + octetStringFreed v1 + procParValueFreed v2 := by
      simp [treeFreed1, treeFreedList]; omega
    rw [← hft]
    refine cost_skip rfl (cost_type fun _ => cost_ite (fun _ => cost_failWith) fun _ => cost_length fun l => ?_)
    exact cost_treeLoop ih l.toNat v1 v2 []

/-! ## Message bodies -/

theorem cost_openRequest : Cost openRequestParse 0 openRequestFreed := by
  refine cost_node ?_
  cfld cost_octetString
  cfld cost_octetString
  cfld cost_octetString
  cfld cost_octetString
  cfld cost_octetString
  cfld cost_octetString
  cfld cost_num
  cend openRequestFreed

theorem cost_openResponse : Cost openResponseParse 0 openResponseFreed := by
  refine cost_node ?_
  cfld cost_octetString
  cfld cost_octetString
  cfld cost_octetString
  cfld cost_octetString
  cfld cost_time
  cfld cost_num
  cend openResponseFreed

theorem cost_closeRequest : Cost closeRequestParse 0 closeRequestFreed := by
  refine cost_node ?_
  cfld cost_octetString
  cend closeRequestFreed

theorem cost_closeResponse : Cost closeResponseParse 0 closeResponseFreed := by
  refine cost_node ?_
  cfld cost_octetString
  cend closeResponseFreed

theorem cost_valueEntry : Cost valueEntryParse 0 valueEntryFreed := by
  refine cost_node ?_
  cfld cost_value
  cfld cost_octetString
  cend valueEntryFreed

theorem cost_profObjHeaderEntry : Cost profObjHeaderEntryParse 0 profObjHeaderEntryFreed := by
  refine cost_node ?_
  cfld cost_octetString
  cfld cost_num
  cfld cost_num
  cend profObjHeaderEntryFreed

theorem cost_profObjPeriodEntry : Cost profObjPeriodEntryParse 0 profObjPeriodEntryFreed := by
  refine cost_node ?_
  cfld cost_time
  cfld cost_num
  cfld (cost_sequence cost_valueEntry)
  cfld cost_octetString
  cend profObjPeriodEntryFreed

theorem cost_getProfilePackResponse : Cost getProfilePackResponseParse 0 getProfilePackResponseFreed := by
  refine cost_node ?_
  cfld cost_octetString
  cfld cost_time
  cfld cost_num
  cfld cost_treePath
  cfld (cost_sequence cost_profObjHeaderEntry)
  cfld (cost_sequence cost_profObjPeriodEntry)
  cfld cost_octetString
  cfld cost_octetString
  cend getProfilePackResponseFreed

theorem cost_getProfileListResponse : Cost getProfileListResponseParse 0 getProfileListResponseFreed := by
  refine cost_node ?_
  cfld cost_octetString
  cfld cost_time
  cfld cost_num
  cfld cost_treePath
  cfld cost_time
  cfld cost_num
  cfld (cost_sequence cost_periodEntry)
  cfld cost_octetString
  cfld cost_octetString
  cend getProfileListResponseFreed

theorem cost_getProcParameterRequest : Cost getProcParameterRequestParse 0 getProcParameterRequestFreed := by
  refine cost_node ?_
  cfld cost_octetString
  cfld cost_octetString
  cfld cost_octetString
  cfld cost_treePath
  cfld cost_octetString
  cend getProcParameterRequestFreed

theorem cost_getProcParameterResponse (depth : Nat) : Cost (getProcParameterResponseParse depth) 0 getProcParameterResponseFreed := by
  refine cost_node ?_
  cfld cost_octetString
  cfld cost_treePath
  cfld (cost_tree depth)
  cend getProcParameterResponseFreed

theorem cost_setProcParameterRequest (depth : Nat) : Cost (setProcParameterRequestParse depth) 0 setProcParameterRequestFreed := by
  refine cost_node ?_
  cfld cost_octetString
  cfld cost_octetString
  cfld cost_octetString
  cfld cost_treePath
  cfld (cost_tree depth)
  cend setProcParameterRequestFreed

theorem cost_getListRequest : Cost getListRequestParse 0 getListRequestFreed := by
  refine cost_node ?_
  cfld cost_octetString
  cfld cost_octetString
  cfld cost_octetString
  cfld cost_octetString
  cfld cost_octetString
  cend getListRequestFreed

theorem cost_attentionResponse (depth : Nat) : Cost (attentionResponseParse depth) 0 attentionResponseFreed := by
  refine cost_node ?_
  cfld cost_octetString
  cfld cost_octetString
  cfld cost_octetString
  cfld (cost_tree depth)
  cend attentionResponseFreed

theorem cost_objectListLoop : ∀ (i : Nat) (m : GetProfilePackRequest),
    Cost (objectListLoop i m) (getProfilePackRequestFreed (some m)) getProfilePackRequestFreed := by
  intro i
  induction i with
  | zero => intro m; exact cost_pure rfl
  | succ i ih =>
    intro m st hb
    unfold objectListLoop
    simp only [wlp_bind, wlp_hasErrors, wlp_ite, wlp_release, wlp_pure, wlp_alloc]
    refine (cost_octetString _ (by exact hb)).mono ?_
    rintro e s ⟨h1, h2⟩
    refine ⟨fun he _ _ => ⟨h1, by simp [he]⟩, fun he => ?_⟩
    have h2 := h2 (by simpa using he)
    simp only at h2
    have hf : getProfilePackRequestFreed (some { m with objectList := m.objectList ++ [e] }) =
        getProfilePackRequestFreed (some m) + octetStringFreed e + 1 := by
      simp only [getProfilePackRequestFreed, objectListFreed_append]; omega
    refine (ih _ s h1).mono ?_
    rintro a s' ⟨g1, g2⟩
    exact ⟨g1, fun hn => by have := g2 hn; omega⟩

theorem cost_objectList (m : GetProfilePackRequest) :
    Cost (objectListParse m) (getProfilePackRequestFreed (some m)) getProfilePackRequestFreed := by
  unfold objectListParse
  exact cost_skip rfl (cost_type fun _ => cost_ite (fun _ => cost_failWith) fun _ => cost_length fun l =>
    cost_objectListLoop l.toNat m)

theorem sticky_field {p : M α} {set : α → R} {freed : R → Nat} {k : R → M (Option β)} (hp : Sticky p) (hk : ∀ v, Sticky (k (set v))) :
    Sticky (field p set freed k) := by
  intro st he
  unfold field
  simp only [wlp_bind, wlp_hasErrors, wlp_ite, wlp_release, wlp_pure]
  refine (hp st he).mono fun v s hs => ⟨fun _ _ => hs, fun _ => hk v s hs⟩

theorem cost_packTail (depth : Nat) (m : GetProfilePackRequest) (hm : m.dasDetails = none) :
    Cost (do
      match ← objectListParse m with
      | none => pure none
      | some m =>
        field (treeParse depth) (fun v => { m with dasDetails := v })
          (fun m => getProfilePackRequestFreed (some m)) fun m => pure (some m))
      (getProfilePackRequestFreed (some m)) getProfilePackRequestFreed := by
  intro st hb
  rw [wlp_bind]
  refine (Wlp.both (cost_objectList m st hb) (inv_objectList m hm st)).mono ?_
  rintro a s ⟨⟨h1, h2⟩, hdas⟩
  cases a with
  | none =>
    simp only [wlp_pure]
    exact ⟨h1, h2⟩
  | some m' =>
    replace hdas := hdas m' rfl
    have hset : ∀ v, getProfilePackRequestFreed (some { m' with dasDetails := v }) =
        getProfilePackRequestFreed (some m') + treeFreed v := by
      intro v
      simp only [getProfilePackRequestFreed, hdas, treeFreed_none]
      omega
    have hc : Cost (field (treeParse depth) (fun v => { m' with dasDetails := v })
          (fun m => getProfilePackRequestFreed (some m)) fun m => pure (some m))
          (getProfilePackRequestFreed (some m')) getProfilePackRequestFreed :=
      cost_field (cost_tree depth) fun v => cost_pure (hset v)
    by_cases he : s.error = true
    · have hst : Sticky (field (treeParse depth) (fun v => { m' with dasDetails := v })
          (fun m => getProfilePackRequestFreed (some m)) fun m => pure (some m)) :=
        sticky_field (loc_tree depth).sticky fun _ => sticky_pure _
      refine (Wlp.both (hc s h1) (hst s he)).mono ?_
      rintro a s' ⟨⟨g1, _⟩, g3⟩
      exact ⟨g1, by simp [g3]⟩
    · refine (hc s h1).mono ?_
      rintro a s' ⟨g1, g2⟩
      have h2 := h2 (by simpa using he)
      exact ⟨g1, fun hn => by have := g2 hn; omega⟩

theorem cost_own {o o' : Nat} {p : M α} {fr : α → Nat} (h : Cost p o fr) (ho : o = o') : Cost p o' fr := ho ▸ h

theorem cost_getProfilePackRequest (depth : Nat) :
    Cost (getProfilePackRequestParse depth) 0 getProfilePackRequestFreed := by
  refine cost_node ?_
  cfld cost_octetString
  cfld cost_octetString
  cfld cost_octetString
  cfld cost_boolean
  cfld cost_time
  cfld cost_time
  cfld cost_treePath
  refine cost_own (cost_packTail depth _ rfl) ?_
  simp [getProfilePackRequestFreed]; omega

/-! ## Measurement lists -/

/-- Blocks of an entry, with the one that `sml_list_entry_free` does not reach. -/
def entryCost (e : ListEntry) : Nat := listEntryFreed e + Spec.strandedEntry e

def listCost (es : List ListEntry) : Nat := listFreed es + Spec.strandedList es

theorem listCost_snoc (es : List ListEntry) (e : ListEntry) : listCost (es ++ [e]) = listCost es + entryCost e := by
  simp [listCost, listFreed, Spec.strandedList, entryCost]; omega

theorem stranded_ok {v : Value} (h : Spec.WellTyped v) : Spec.strandedValue v = 0 := by
  unfold Spec.WellTyped at h
  unfold Spec.strandedValue
  split at h <;> simp_all

/-- Relabelling moves the bytes of a string out of reach, and changes nothing else. -/
theorem stranded_retag {v : Value} (h : Spec.WellTyped v) :
    valueFreed (some (retag v)) + Spec.strandedValue (retag v) = valueFreed (some v) := by
  have hr := retag_type_ne v
  have hd : (retag v).data = v.data := rfl
  have hz : ¬ (retag v).type = tyOctet := hr
  unfold Spec.WellTyped at h
  unfold valueFreed Spec.strandedValue
  simp only [if_neg hz, hd]
  cases hdata : v.data with
  | bytes p =>
    cases p with
    | none => simp [hdata] at h
    | some x =>
      simp [hdata] at h
      simp only [h, VData.ptrFreed, own, octetStringFreed, tyOctet, if_true]
      by_cases hs : x.str = []
      · simp [hs]
      · simp [hs, hr]
  | boolean p =>
    cases p with
    | none => simp [hdata] at h
    | some x =>
      simp [hdata] at h
      simp [h, VData.ptrFreed]
  | num p =>
    cases p with
    | none => simp [hdata] at h
    | some x =>
      simp [hdata] at h
      have : v.type ≠ 0 := by omega
      simp [this, tyOctet, VData.ptrFreed]

theorem cost_listEntryFinish {l : ListEntry} {b : UInt8} {wa : Bool} (hv : Spec.ValueOk l.value) {o : Nat} (ho : o = listEntryFreed l) :
    Cost (listEntryFinish l b wa) o (own fun r : ListEntry × Bool => entryCost r.1) := by
  subst ho
  have h0 : Spec.strandedEntry l = 0 := by
    unfold Spec.strandedEntry
    split
    · rename_i v h; exact stranded_ok (hv v h)
    · rfl
  have plain : ∀ w, (own fun r : ListEntry × Bool => entryCost r.1) (some (l, w)) = listEntryFreed l := by
    intro w; simp [own, entryCost, h0]
  intro st hb
  unfold listEntryFinish
  rw [wlp_bind]
  have hdet : Wlp (detectBuggyDzgDvs74 l) st fun _ s => s = st := by
    unfold detectBuggyDzgDvs74
    split
    · simp
    · simp only [wlp_ite, wlp_pure]
      refine ⟨by simp, fun _ => ?_⟩
      split
      · simp
      · simp only [wlp_ite, wlp_pure]
        refine ⟨by simp, fun _ => ?_⟩
        split <;> simp
  refine hdet.mono ?_
  rintro d s rfl
  rw [wlp_ite]
  refine ⟨fun _ => cost_pure (plain _) s hb, fun _ => ?_⟩
  split
  · rename_i name v hname hval
    rw [wlp_ite]
    refine ⟨fun _ => ?_, fun _ => cost_pure (plain _) s hb⟩
    have hs := stranded_retag (hv v hval)
    have hfin : entryCost { l with value := some (retag v) } = listEntryFreed l := by
      simp only [entryCost, listEntryFreed, Spec.strandedEntry, hval]; omega
    unfold noteConfused
    split
    · simp only [wlp_bind, wlp_pure]
      exact ⟨hb, fun _ => by simp only [own, hfin]⟩
    · simp only [wlp_bind, wlp_pure, wlp_modSt]
      exact ⟨hb, fun _ => by simp only [own, hfin]⟩
  · exact cost_pure (plain _) s hb

/-- `cost_field` with knowledge about the parsed component. -/
theorem cost_field_inv {own : Nat} {p : M α} {frp : α → Nat} {set : α → R} {freed : R → Nat}
    {k : R → M (Option β)} {fr : Option β → Nat} {P : α → Prop}
    (hp : Cost p 0 frp) (hP : ∀ st, Wlp p st fun a _ => P a) (hk : ∀ v, P v → Cost (k (set v)) (own + frp v) fr) :
    Cost (field p set freed k) own fr := by
  intro st hb
  unfold field
  simp only [wlp_bind, wlp_hasErrors, wlp_ite, wlp_release, wlp_pure]
  refine (Wlp.both (hp st hb) (hP st)).mono ?_
  rintro v s ⟨⟨h1, h2⟩, hv⟩
  refine ⟨fun he _ => ⟨h1, by simp [he]⟩, fun he => ?_⟩
  have he' : s.error = false := by simpa using he
  refine (hk v hv s h1).mono ?_
  rintro a s' ⟨g1, g2⟩
  exact ⟨g1, fun hn => by have := g2 hn; have := h2 he'; omega⟩

theorem cost_listEntry (wa : Bool) : Cost (listEntryParse wa) 0 (own fun r : ListEntry × Bool => entryCost r.1) := by
  refine cost_expectList (cost_alloc ?_)
  cfld cost_octetString
  cfld cost_status
  cfld cost_time
  cfld cost_num
  refine cost_field cost_num fun v5 => ?_
  intro st hb
  simp only [wlp_bind, wlp_getSt, wlp_ite, wlp_getCurrentByte]
  refine ⟨fun _ => cost_failWith st hb, fun _ _ => ?_⟩
  refine cost_field_inv (P := Spec.ValueOk) cost_value (fun st => (value_result st).mono fun a _ h x hx => (h x hx).1) (fun v hv => ?_) st hb
  cfld cost_octetString
  refine cost_listEntryFinish hv ?_
  simp [listEntryFreed]; omega

theorem cost_listLoop : ∀ (i : Nat) (wa : Bool) (acc : List ListEntry), Cost (listLoop i wa acc) (listCost acc) listCost := by
  intro i
  induction i with
  | zero => intro wa acc; exact cost_pure rfl
  | succ i ih =>
    intro wa acc st hb
    unfold listLoop
    simp only [wlp_bind, wlp_hasErrors, wlp_ite, wlp_release, wlp_pure, wlp_setError]
    refine (cost_listEntry wa st hb).mono ?_
    rintro e s ⟨h1, h2⟩
    refine ⟨fun he _ => ⟨h1, by simp⟩, fun he => ?_⟩
    have h2 := h2 (by simpa using he)
    cases e with
    | none => simp
    | some x =>
      have := listCost_snoc acc x.1
      simp only [own] at h2
      refine (ih x.2 _ s h1).mono ?_
      rintro a s' ⟨g1, g2⟩
      exact ⟨g1, fun hn => by have := g2 hn; omega⟩

theorem cost_list : Cost listParse 0 listCost := by
  unfold listParse
  refine cost_skip rfl (cost_type fun _ => cost_ite (fun _ => ?_) fun _ => cost_length fun l => cost_listLoop l.toNat false [])
  intro st hb
  simp only [wlp_bind, wlp_setError, wlp_pure]
  exact ⟨hb, by simp⟩

def getListResponseCost (r : Option GetListResponse) : Nat :=
  getListResponseFreed r + own (fun r => Spec.strandedList r.valList) r

theorem cost_getListResponse : Cost getListResponseParse 0 getListResponseCost := by
  refine cost_node ?_
  cfld cost_octetString
  cfld cost_octetString
  cfld cost_octetString
  cfld cost_time
  cfld cost_list
  cfld cost_octetString
  cfld cost_time
  refine cost_pure ?_
  simp [getListResponseCost, getListResponseFreed, listCost, own]; omega

/-! ## Messages -/

def strandedBody (b : Option MessageBody) : Nat :=
  match b with
  | some ⟨_, .getListResponse (some r)⟩ => Spec.strandedList r.valList
  | _ => 0

theorem strandedMessage_eq (m : Message) : Spec.strandedMessage m = strandedBody m.messageBody := rfl

def bodyDataCost (t : Num) (d : BodyData) : Nat := bodyDataFreed t.val d + strandedBody (some ⟨some t, d⟩)

theorem cost_bodyData (depth : Nat) (t : Num) : Cost (bodyDataParse depth t.val) 0 (bodyDataCost t) := by
  unfold bodyDataParse
  refine cost_ite (fun h => cost_map cost_openRequest fun a => ?_) fun _ => ?_
  · simp [bodyDataCost, bodyDataFreed, strandedBody, h]
  refine cost_ite (fun h => cost_map cost_openResponse fun a => ?_) fun _ => ?_
  · simp [bodyDataCost, bodyDataFreed, strandedBody, h]
  refine cost_ite (fun h => cost_map cost_closeRequest fun a => ?_) fun _ => ?_
  · simp [bodyDataCost, bodyDataFreed, strandedBody, h]
  refine cost_ite (fun h => cost_map cost_closeResponse fun a => ?_) fun _ => ?_
  · simp [bodyDataCost, bodyDataFreed, strandedBody, h]
  refine cost_ite (fun h => cost_map (cost_getProfilePackRequest depth) fun a => ?_) fun _ => ?_
  · simp [bodyDataCost, bodyDataFreed, strandedBody, h]
  refine cost_ite (fun h => cost_map cost_getProfilePackResponse fun a => ?_) fun _ => ?_
  · simp [bodyDataCost, bodyDataFreed, strandedBody, h]
  refine cost_ite (fun h => cost_map (cost_getProfilePackRequest depth) fun a => ?_) fun _ => ?_
  · simp [bodyDataCost, bodyDataFreed, strandedBody, h]
  refine cost_ite (fun h => cost_map cost_getProfileListResponse fun a => ?_) fun _ => ?_
  · simp [bodyDataCost, bodyDataFreed, strandedBody, h]
  refine cost_ite (fun h => cost_map cost_getProcParameterRequest fun a => ?_) fun _ => ?_
  · simp [bodyDataCost, bodyDataFreed, strandedBody, h]
  refine cost_ite (fun h => cost_map (cost_getProcParameterResponse depth) fun a => ?_) fun _ => ?_
  · simp [bodyDataCost, bodyDataFreed, strandedBody, h]
  refine cost_ite (fun h => cost_map (cost_setProcParameterRequest depth) fun a => ?_) fun _ => ?_
  · simp [bodyDataCost, bodyDataFreed, strandedBody, h]
  refine cost_ite (fun h => cost_map cost_getListRequest fun a => ?_) fun _ => ?_
  · simp [bodyDataCost, bodyDataFreed, strandedBody, h]
  refine cost_ite (fun h => cost_map cost_getListResponse fun a => ?_) fun _ => ?_
  · cases a <;> simp [bodyDataCost, bodyDataFreed, strandedBody, h, getListResponseCost, own]
  refine cost_ite (fun h => cost_map (cost_attentionResponse depth) fun a => ?_) fun _ => ?_
  · simp [bodyDataCost, bodyDataFreed, strandedBody, h]
  exact cost_pure rfl

def bodyCost (b : Option MessageBody) : Nat := messageBodyFreed b + strandedBody b

theorem cost_messageBody (depth : Nat) : Cost (messageBodyParse depth) 0 bodyCost := by
  refine cost_alloc ?_
  intro st hb
  simp only [wlp_bind, wlp_getSt, wlp_ite]
  refine ⟨fun _ => cost_failWith st hb, fun _ => ?_⟩
  refine cost_expectList ?_ st hb
  refine cost_field cost_num fun v => ?_
  cases v with
  | none => exact cost_release (o := 0) (cost_pure rfl) (by simp)
  | some t =>
    refine cost_map (cost_bodyData depth t) fun d => ?_
    simp [bodyCost, messageBodyFreed, bodyDataCost, numberFreed, own]; omega

/-- What a delivered message costs. -/
def MsgCost (p : M (Option Message)) (own : Nat) : Prop :=
  ∀ st, st.cursor ≤ st.data.length → Wlp p st fun a s => ∀ m, a = some m →
    s.live + own = st.live + messageFreed1 m + Spec.strandedMessage m

theorem msgCost_field {p : M α} {frp : α → Nat} {set : α → Message} {k : Message → M (Option Message)} {o : Nat}
    (hp : Cost p 0 frp) (hk : ∀ v, MsgCost (k (set v)) (o + frp v)) : MsgCost (messageField p set k) o := by
  intro st hb
  unfold messageField messageFail
  simp only [wlp_bind, wlp_hasErrors, wlp_ite, wlp_pure]
  refine (hp st hb).mono ?_
  rintro v s ⟨h1, h2⟩
  refine ⟨fun _ _ _ _ m hm => (by cases hm), fun he => ?_⟩
  refine (hk v s h1).mono ?_
  intro a s' g m hm
  have := g m hm
  have := h2 (by simpa using he)
  omega

theorem msgCost_message (depth : Nat) : MsgCost (messageParse depth) 0 := by
  intro st hb
  unfold messageParse messageFail cursorAsInt
  simp only [wlp_bind, wlp_alloc, wlp_getSt, wlp_ite, wlp_undef, wlp_pure, wlp_setError]
  refine ⟨fun _ => trivial, fun _ => ?_⟩
  apply wlp_getNextType
  · intro _
    refine ⟨fun _ _ _ _ m hm => (by cases hm), fun h => absurd (by decide) h⟩
  intro hlt
  refine ⟨fun _ _ _ _ m hm => (by cases hm), fun _ => ?_⟩
  refine (getNextLength_post' (by exact hb)).wlp.mono ?_
  rintro l s ⟨h1, _, h3, _⟩
  refine ⟨fun _ _ _ _ m hm => (by cases hm), fun _ => ?_⟩
  have body : MsgCost (
      messageField octetStringParse (fun v => { transactionId := v }) fun m =>
      messageField u8Parse (fun v => { m with groupId := v }) fun m =>
      messageField u8Parse (fun v => { m with abortOnError := v }) fun m =>
      messageField (messageBodyParse depth) (fun v => { m with messageBody := v }) fun m =>
      messageParseTail st.cursor m) 1 := by
    refine msgCost_field cost_octetString fun v1 => ?_
    refine msgCost_field cost_num fun v2 => ?_
    refine msgCost_field cost_num fun v3 => ?_
    refine msgCost_field (cost_messageBody depth) fun v4 => ?_
    intro st' hb'
    refine wlp_messageTail (fun _ m hm => by cases hm) ?_
    intro c s hu he _ _ _
    have hc := (cost_num st' hb' _ _ hu).2 he
    have key : s.live + (1 + octetStringFreed v1 + numberFreed v2 + numberFreed v3 + bodyCost v4) = st'.live +
        messageFreed1 { transactionId := v1, groupId := v2, abortOnError := v3, messageBody := v4, crc := some c } +
        Spec.strandedMessage { transactionId := v1, groupId := v2, abortOnError := v3, messageBody := v4, crc := some c } := by
      rw [strandedMessage_eq]
      simp only [bodyCost, messageFreed1]; omega
    exact ⟨fun _ m hm => by cases hm; exact key, fun _ m hm => by cases hm; exact key⟩
  refine (body s (by rw [h1.data]; exact h1.bound)).mono ?_
  intro a s' g m hm
  have := g m hm
  simp only at h3
  omega

end Sml
