import Verif.Proofs.GrammarList

/-!
# Parameter values, trees and measurement lists
-/

namespace Sml

open Spec Spec.Grammar

/-! ## Parameter values -/

theorem sound_optional {p : M (Option α)} {g : Option α → Rel} (hp : Sound p g) :
    Sound (optional p) (fun r i o => (r = none ∧ absent i o) ∨ (i ≠ [] ∧ i.head? ≠ some 0x01 ∧ g r i o)) := by
  unfold optional
  refine Sound.mono (sound_bind parses_skipped.toSound fun b => sound_ite (fun _ => sound_pure none) fun _ => hp) ?_
  rintro r i o ⟨b, m, ⟨rfl, h1⟩ | ⟨rfl, rfl, h1, h2⟩, ⟨h3, h4⟩ | ⟨h3, h4⟩⟩
  · obtain ⟨rfl, rfl⟩ := h4; exact Or.inl ⟨rfl, h1⟩
  · exact absurd rfl h3
  · cases h3
  · exact Or.inr ⟨h1, h2, h4⟩

/-- sml_tree.c:234-250: the part of `sml_proc_par_value_parse` after the tag. -/
def ppvTail (ppv : ProcParValue) (tag : Num) : M (Option ProcParValue) :=
  match tag.val with
  | 1 => do
    let p ← valueParse
    pure (some { ppv with data := .value p })
  | 2 => do
    let p ← periodEntryParse
    pure (some { ppv with data := .periodEntry p })
  | 3 => do
    let p ← tupelEntryParse
    pure (some { ppv with data := .tupelEntry p })
  | 4 => do
    let p ← timeParse
    pure (some { ppv with data := .time p })
  | _ => failWith (procParValueFreed (some ppv))

theorem parses_ppvTail (ppv : ProcParValue) (tag : Num) :
    Parses (ppvTail ppv tag) (fun r i o => ∃ d, r = some { ppv with data := d } ∧ ppvData tag.val d i o) := by
  unfold ppvTail
  split
  · next h =>
    refine Parses.congr (parses_bind parses_value fun p => parses_pure _) fun v i o => ?_
    constructor
    · rintro ⟨p, m, h1, rfl, rfl⟩; exact ⟨.value p, rfl, h, h1⟩
    · rintro ⟨d, rfl, h1⟩
      cases d with
      | value p => exact ⟨p, o, h1.2, rfl, rfl⟩
      | null => exact h1.elim
      | periodEntry p => exact absurd (h.symm.trans h1.1) (by decide)
      | tupelEntry p => exact absurd (h.symm.trans h1.1) (by decide)
      | time p => exact absurd (h.symm.trans h1.1) (by decide)
  · next h =>
    refine Parses.congr (parses_bind parses_periodEntry fun p => parses_pure _) fun v i o => ?_
    constructor
    · rintro ⟨p, m, h1, rfl, rfl⟩; exact ⟨.periodEntry p, rfl, h, h1⟩
    · rintro ⟨d, rfl, h1⟩
      cases d with
      | periodEntry p => exact ⟨p, o, h1.2, rfl, rfl⟩
      | null => exact h1.elim
      | value p => exact absurd (h.symm.trans h1.1) (by decide)
      | tupelEntry p => exact absurd (h.symm.trans h1.1) (by decide)
      | time p => exact absurd (h.symm.trans h1.1) (by decide)
  · next h =>
    refine Parses.congr (parses_bind parses_tupelEntry fun p => parses_pure _) fun v i o => ?_
    constructor
    · rintro ⟨p, m, h1, rfl, rfl⟩; exact ⟨.tupelEntry p, rfl, h, h1⟩
    · rintro ⟨d, rfl, h1⟩
      cases d with
      | tupelEntry p => exact ⟨p, o, h1.2, rfl, rfl⟩
      | null => exact h1.elim
      | value p => exact absurd (h.symm.trans h1.1) (by decide)
      | periodEntry p => exact absurd (h.symm.trans h1.1) (by decide)
      | time p => exact absurd (h.symm.trans h1.1) (by decide)
  · next h =>
    refine Parses.congr (parses_bind parses_time fun p => parses_pure _) fun v i o => ?_
    constructor
    · rintro ⟨p, m, h1, rfl, rfl⟩; exact ⟨.time p, rfl, h, h1⟩
    · rintro ⟨d, rfl, h1⟩
      cases d with
      | time p => exact ⟨p, o, h1.2, rfl, rfl⟩
      | null => exact h1.elim
      | value p => exact absurd (h.symm.trans h1.1) (by decide)
      | periodEntry p => exact absurd (h.symm.trans h1.1) (by decide)
      | tupelEntry p => exact absurd (h.symm.trans h1.1) (by decide)
  · next h1 h2 h3 h4 =>
    refine Parses.congr (parses_fail _) fun v i o => ?_
    constructor
    · intro h; exact h.elim
    · rintro ⟨d, rfl, h⟩
      cases d with
      | null => exact h
      | value p => exact h1 h.1
      | periodEntry p => exact h2 h.1
      | tupelEntry p => exact h3 h.1
      | time p => exact h4 h.1

theorem ppv_eq : procParValueParse = optional (do
    alloc 1
    expectList 2 1 <| field u8Parse (fun v => { tag := v, data := .null : ProcParValue }) (fun v => procParValueFreed (some v)) fun ppv =>
      match ppv.tag with
      | none => do
        release (procParValueFreed (some ppv))
        pure none
      | some tag => ppvTail ppv tag) := rfl

/-- A list of two whose first element is a number: the tag is kept, or its absence ends the object. -/
theorem tagged_run {st : St} {tag : Option Num} {size : Nat} {m m' : List UInt8} {own : Nat} {set : Option Num → R} {freed : R → Nat} {k : R → M (Option β)}
    (he : st.error = false) (h : header 7 2 st.rest m) (h' : num 6 size tag m m') :
    ∃ s, expectList 2 own (field (numberParse tyUnsigned size) set freed k) st = k (set tag) s ∧ s.error = false ∧ s.rest = m' ∧ s.live = st.live + numberFreed tag ∧
      s.cursor ≤ s.data.length := by
  obtain ⟨hlt, l, ov, g1, g2, _, g3⟩ := header_run h
  unfold expectList
  rw [run_bind, g3]
  run
  rw [if_neg (by decide), g1]
  run
  rw [if_neg (by decide)]
  rw [← g2] at h'
  obtain ⟨k1, ov1, g4, g5, g6⟩ := num_run (st := { st with cursor := st.cursor + l, sovf := ov }) (Or.inr rfl) h'
  rw [show tyUnsigned = 6 * 16 from rfl, field_run g4 he]
  exact ⟨_, rfl, he, g5, rfl, by simp only at g6 ⊢; omega⟩

theorem parses_procParValue : Parses procParValueParse procParValue := by
  refine ⟨loc_procParValue, ?_, ?_⟩
  · have : Sound procParValueParse procParValue := by
      rw [ppv_eq]
      refine Sound.mono (sound_optional <| sound_bind (sound_alloc 1) fun _ => sound_expectList <|
        sound_field (g' := fun tag r i o => (tag = none ∧ r = none ∧ i = o) ∨ ∃ t d, tag = some t ∧ r = some { tag := tag, data := d } ∧ ppvData t.val d i o)
        (parses_u 1).toSound (fun tag => ?_) fun ppv => ?_) ?_
      · cases tag with
        | none => exact (sound_release (sound_pure none)).mono fun v i o h => Or.inl ⟨rfl, h⟩
        | some t =>
          refine (parses_ppvTail _ t).toSound.mono fun v i o h => Or.inr ?_
          obtain ⟨d, rfl, h⟩ := h
          exact ⟨t, d, rfl, rfl, h⟩
      · cases ppv.tag with
        | none => exact loc_bind (loc_release _) fun _ => loc_pure _
        | some t => exact (parses_ppvTail _ t).loc
      · rintro r i o (⟨rfl, h⟩ | ⟨_, _, _, m, rfl, m1, h1, tag, m2, h2, ⟨rfl, rfl, rfl⟩ | ⟨t, d, rfl, rfl, h3⟩⟩)
        · exact Or.inl h
        · exact Or.inr ⟨m1, h1, h2⟩
        · exact ⟨t, rfl, m1, h1, m2, h2, h3⟩
    exact this.sound
  · intro st v o he hc h
    rw [ppv_eq]
    have start : ∀ {m}, header 7 2 st.rest m → ∀ q : M (Option ProcParValue), optional q st = q st := by
      intro m h1 q
      obtain ⟨hlt, _⟩ := header_run h1
      unfold optional
      rw [run_bind, skipped_run hlt (header_not_absent h1 (by decide))]
      rfl
    cases v with
    | none =>
      rcases h with h | ⟨m, h1, h2⟩
      · obtain ⟨h1, h2⟩ := absent_run h
        unfold optional
        rw [run_bind, h1]
        exact ⟨{ st with cursor := st.cursor + 1 }, rfl, he, h2, Nat.le_refl _⟩
      · rw [start h1, run_bind, run_alloc]
        obtain ⟨s, h3, h4, h5, h6, _⟩ := tagged_run (st := { st with live := st.live + 1 }) (tag := none) (size := 1) (own := 1)
          (set := fun v => { tag := v, data := .null : ProcParValue }) (freed := fun v => procParValueFreed (some v)) (k := fun ppv =>
            match ppv.tag with
            | none => do
              release (procParValueFreed (some ppv))
              pure none
            | some tag => ppvTail ppv tag) he h1 h2
        refine ⟨{ s with live := s.live - 1 }, ?_, h4, h5, ?_⟩
        · refine h3.trans ?_
          simp only [numberFreed] at h6
          simp only
          rw [run_bind, run_release (by simp only [procParValueFreed, PpvData.ptrFreed]; omega)]
          rfl
        · simp only at h6 ⊢; omega
    | some v =>
      obtain ⟨t, h0, m, h1, m2, h2, h3⟩ := h
      rw [start h1, run_bind, run_alloc]
      obtain ⟨s, h4, h5, h6, h7, h8⟩ := tagged_run (st := { st with live := st.live + 1 }) (tag := some t) (size := 1) (own := 1)
        (set := fun v => { tag := v, data := .null : ProcParValue }) (freed := fun v => procParValueFreed (some v)) (k := fun ppv =>
          match ppv.tag with
          | none => do
            release (procParValueFreed (some ppv))
            pure none
          | some tag => ppvTail ppv tag) he h1 h2
      rw [← h6] at h3
      obtain ⟨s', g1, g2, g3, g4⟩ := (parses_ppvTail { tag := some t, data := .null } t).complete s (some { tag := some t, data := v.data }) o h5 h8 ⟨v.data, rfl, h3⟩
      refine ⟨s', h4.trans ?_, g2, g3, by simp only at h7; omega⟩
      obtain ⟨tg, d⟩ := v
      simp only at h0
      subst h0
      exact g1

/-! ## Trees -/

theorem parses_treeAddTree (n : Option OctetString) (v : Option ProcParValue) (cs : List Tree) (c : Tree) :
    Parses (treeAddTree (.mk n v cs) c) (fun r i o => r = .mk n v (cs ++ [c]) ∧ i = o) := by
  unfold treeAddTree
  exact parses_addAlloc (parses_pure _)

theorem parses_treeLoop {p : M (Option Tree)} {g : Option Tree → Rel} (hp : Parses p g) (n : Nat) :
    ∀ name v cs, Parses (treeLoop p n (.mk name v cs)) (fun r i o => ∃ es : List (Option Tree), es.length = n ∧
      r = some (.mk name v (cs ++ es.filterMap id)) ∧ times g es i o) := by
  induction n with
  | zero =>
    intro name v cs
    unfold treeLoop
    refine (parses_pure (some _)).congr fun v i o => ?_
    constructor
    · rintro ⟨rfl, rfl⟩; exact ⟨[], rfl, by simp, rfl⟩
    · rintro ⟨es, h1, rfl, h2⟩
      cases es with
      | nil => exact ⟨by simp, h2⟩
      | cons _ _ => cases h1
  | succ n ih =>
    intro name v cs
    unfold treeLoop
    refine Parses.congr (parses_bind hp (g' := fun e r i o => ∃ es : List (Option Tree), es.length = n ∧
      r = some (.mk name v (cs ++ (e :: es).filterMap id)) ∧ times g es i o) fun e => parses_ifError (by locs []) ?_) fun v i o => ?_
    · cases e with
      | none => exact (ih name v cs).congr fun v i o => by simp
      | some e =>
        refine Parses.congr (parses_bind (parses_treeAddTree _ _ _ _) (g' := fun t r i o => ∃ es : List (Option Tree), es.length = n ∧
          r = some (.mk t.name t.value (t.children ++ es.filterMap id)) ∧ times g es i o) fun t => by cases t; exact ih _ _ _) fun v i o => ?_
        constructor
        · rintro ⟨_, _, ⟨rfl, rfl⟩, es, rfl, rfl, h2⟩
          exact ⟨es, rfl, by simp [Tree.name, Tree.value, Tree.children], h2⟩
        · rintro ⟨es, rfl, rfl, h2⟩
          exact ⟨_, i, ⟨rfl, rfl⟩, es, rfl, by simp [Tree.name, Tree.value, Tree.children], h2⟩
    constructor
    · rintro ⟨e, m, h1, es, rfl, rfl, h2⟩
      exact ⟨e :: es, rfl, by simp, m, h1, h2⟩
    · rintro ⟨es, h1, rfl, h2⟩
      cases es with
      | nil => cases h1
      | cons e es =>
        obtain ⟨m, h3, h4⟩ := h2
        exact ⟨e, m, h3, es, by simpa using h1, by simp, h4⟩

theorem parses_children {p : M (Option Tree)} {g : Option Tree → Rel} (hp : Parses p g) (own : Nat) (name : Option OctetString) (v : Option ProcParValue) :
    Parses (do if ← optionalIsSkipped then pure (some (.mk name v []))
               else if (← getNextType) ≠ tyList then failWith own
               else do let elems ← getNextLength; treeLoop p elems.toNat (.mk name v []))
      (fun r i o => ∃ cs, r = some (.mk name v cs) ∧ ((cs = [] ∧ absent i o) ∨ ∃ es, cs = es.filterMap id ∧ listOf g es i o)) := by
  refine Parses.congr (parses_bind parses_skipped fun b => parses_ite (fun _ => parses_pure _) fun _ =>
    parses_next_list own fun l => parses_treeLoop hp l.toNat name v []) fun r i o => ?_
  constructor
  · rintro ⟨b, m, ⟨rfl, h1⟩ | ⟨rfl, rfl, h1, h2⟩, ⟨h3, rfl, rfl⟩ | ⟨h3, n, m', h4, es, h5, rfl, h6⟩⟩
    · exact ⟨[], rfl, Or.inl ⟨rfl, h1⟩⟩
    · exact absurd rfl h3
    · cases h3
    · exact ⟨_, rfl, Or.inr ⟨es, by simp, n, h5, m', h4, h6⟩⟩
  · rintro ⟨cs, rfl, ⟨rfl, h⟩ | ⟨es, rfl, n, h1, m, h2, h3⟩⟩
    · exact ⟨true, o, Or.inl ⟨rfl, h⟩, Or.inl ⟨rfl, rfl, rfl⟩⟩
    · exact ⟨false, i, Or.inr ⟨rfl, rfl, nextType_ne_nil (header_next h2), header_not_absent h2 (by decide)⟩,
        Or.inr ⟨by simp, n, m, h2, es, h1, by simp, h3⟩⟩

theorem parses_tree (depth : Nat) : Parses (treeParse depth) (tree depth) := by
  induction depth with
  | zero => exact ⟨loc_tree 0, fun st s v _ h => by (cases h), fun st v o _ _ h => h.elim⟩
  | succ depth ih =>
    unfold treeParse
    refine Parses.congr (parses_optional <| parses_alloc <| parses_expectList <| parses_fld parses_str fun t =>
      parses_field parses_procParValue (fun v => parses_children ih _ t.name v) fun t => ?_) fun r i o => ?_
    · locs [loc_treeLoop (loc_tree depth) _ _]
    constructor
    · rintro (⟨rfl, h⟩ | ⟨_, _, m, h, name, m1, h1, v, m2, h2, cs, rfl, h3⟩)
      · exact h
      · exact ⟨m, h, m1, h1, m2, h2, h3⟩
    · cases r with
      | none => intro h; exact Or.inl ⟨rfl, h⟩
      | some t =>
        obtain ⟨name, v, cs⟩ := t
        rintro ⟨m, h, m1, h1, m2, h2, h3⟩
        exact Or.inr ⟨nextType_ne_nil (header_next h), header_not_absent h (by decide), m, h, name, m1, h1, v, m2, h2, cs, rfl, h3⟩

end Sml
