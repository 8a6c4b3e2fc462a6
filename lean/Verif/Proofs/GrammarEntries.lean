import Verif.Proofs.GrammarTree

/-!
# Measurement lists
-/

namespace Sml

open Spec Spec.Grammar

theorem value_wellTyped {x : Value} {i o : List UInt8} (h : value (some x) i o) : WellTyped x := by
  obtain ⟨s, h1, _⟩ := parses_value.complete { data := i, live := 0 } (some x) o rfl (Nat.zero_le _) h
  exact (value_result _ _ _ h1 x rfl).1

/-- What becomes of the entry `e`, whose value has the header byte `b`. -/
def Mend (wa : Bool) (e : ListEntry) (b : UInt8) (e' : ListEntry) (wa' : Bool) : Prop :=
  (wa' = true ↔ wa = true ∨ IsDzgSerial e) ∧
  (wa = true ∧ IsPower e ∧ ShortHeader b → e' = { e with value := e.value.map asUnsigned }) ∧
  (¬ (wa = true ∧ IsPower e ∧ ShortHeader b) → e' = e)

theorem Mend.unique {wa wa' wa'' : Bool} {e e' e'' : ListEntry} {b : UInt8} (h : Mend wa e b e' wa') (h' : Mend wa e b e'' wa'') :
    e' = e'' ∧ wa' = wa'' := by
  constructor
  · by_cases hc : wa = true ∧ IsPower e ∧ ShortHeader b
    · rw [h.2.1 hc, h'.2.1 hc]
    · rw [h.2.2 hc, h'.2.2 hc]
  · have := h.1.trans h'.1.symm
    cases wa' <;> cases wa'' <;> simp_all

theorem detect_total {e : ListEntry} (hw : ∀ x, e.value = some x → WellTyped x) (st : St) : ∃ d, detectBuggyDzgDvs74 e st = .ok d st := by
  unfold detectBuggyDzgDvs74
  cases e.objName with
  | none => exact ⟨_, rfl⟩
  | some name =>
    simp only [run_ite]
    split
    · exact ⟨_, rfl⟩
    · cases hv : e.value with
      | none => exact ⟨_, rfl⟩
      | some v =>
        have hw := hw v hv
        simp only [run_ite]
        split
        · exact ⟨_, rfl⟩
        · next ht =>
          have ht : v.type = 0 := by simpa [tyOctet] using ht
          obtain ⟨t, d⟩ := v
          simp only at ht
          subst ht
          simp only [WellTyped] at hw
          cases d with
          | bytes p =>
            cases p with
            | none => exact hw.elim
            | some s =>
              simp only [run_ite]
              split
              · exact ⟨_, rfl⟩
              split
              · exact ⟨_, rfl⟩
              · exact ⟨_, rfl⟩
          | boolean p =>
            cases p with
            | none => exact hw.elim
            | some b => exact absurd hw.1 (by decide)
          | num p =>
            cases p with
            | none => exact hw.elim
            | some n =>
              exfalso
              simp only at hw
              omega

theorem finish_total {e : ListEntry} (hw : ∀ x, e.value = some x → WellTyped x) (b : UInt8) (wa : Bool) (st : St) :
    ∃ r s, listEntryFinish e b wa st = .ok (some r) s := by
  obtain ⟨d, hd⟩ := detect_total hw st
  unfold listEntryFinish
  rw [bind_ok hd, run_ite]
  split
  · exact ⟨_, _, rfl⟩
  · cases wa with
    | false => exact ⟨_, _, rfl⟩
    | true =>
      cases e.objName with
      | none => exact ⟨_, _, rfl⟩
      | some name =>
        cases e.value with
        | none => exact ⟨_, _, rfl⟩
        | some v =>
          simp only [run_ite]
          split
          · obtain ⟨c, hc⟩ := noteConfused_run v st
            rw [bind_ok hc]
            exact ⟨_, _, rfl⟩
          · exact ⟨_, _, rfl⟩

theorem parses_finish {e : ListEntry} (hw : ∀ x, e.value = some x → WellTyped x) (b : UInt8) (wa : Bool) :
    Parses (listEntryFinish e (b &&& 0x8F) wa) (fun r i o => i = o ∧ ∃ e' wa', r = some (e', wa') ∧ Mend wa e b e' wa') := by
  refine ⟨loc_listEntryFinish _ _ _, fun st s v hc h he => ?_, ?_⟩
  · obtain ⟨r, s', h'⟩ := finish_total hw (b &&& 0x8F) wa st
    obtain ⟨e', wa'⟩ := r
    rw [h'] at h
    cases h
    obtain ⟨c, h1, h2⟩ := finish_inv hw h'
    subst h1
    exact ⟨rfl, e', wa', rfl, h2⟩
  · rintro st v o he hc ⟨rfl, e', wa', rfl, h1⟩
    obtain ⟨r, s', h'⟩ := finish_total hw (b &&& 0x8F) wa st
    obtain ⟨e'', wa''⟩ := r
    obtain ⟨c, h3, h2⟩ := finish_inv hw h'
    subst h3
    obtain ⟨rfl, rfl⟩ := Mend.unique h1 h2
    exact ⟨_, h', he, rfl, Nat.le_refl _⟩

theorem parses_fieldIf {p : M α} {set : α → R} {freed : R → Nat} {k : R → M (Option β)} {g : α → Rel} {g' : α → Option β → Rel} {G : α → Prop}
    (hp : Parses p g) (hG : ∀ a i o, g a i o → G a) (hk : ∀ a, G a → Parses (k (set a)) (g' a)) (hl : ∀ r, Loc (k r)) :
    Parses (field p set freed k) (fun r i o => ∃ a, (g a ⟫ g' a r) i o) := by
  refine ⟨loc_field hp.loc hl, fun st s v hc h he => ?_, fun st v o he hc ⟨a, m, h1, h2⟩ => ?_⟩
  · obtain ⟨a, s1, h1, h2, h3⟩ := field_inv h he
    obtain ⟨_, _, h4⟩ := hp.after hc h1
    have hg := hp.sound st s1 a hc h1 h2
    exact ⟨a, s1.rest, hg, (hk a (hG _ _ _ hg)).sound s1 s v h4 h3 he⟩
  · obtain ⟨s1, h3, h4, h5, h6⟩ := hp.complete st a m he hc h1
    obtain ⟨_, _, h7⟩ := hp.after hc h3
    have hg := hG _ _ _ h1
    rw [← h5] at h2
    obtain ⟨s, h8, h9, h10, h11⟩ := (hk a hg).complete s1 v o h4 h7 h2
    exact ⟨s, by rw [field_run h3 h4]; exact h8, h9, h10, Nat.le_trans h6 h11⟩

theorem parses_listEntry (wa : Bool) :
    Parses (listEntryParse wa) (fun r i o => ∃ e b e' wa', entry (e, b) i o ∧ r = some (e', wa') ∧ Mend wa e b e' wa') := by
  unfold listEntryParse
  refine Parses.congr (parses_expectList <| parses_alloc <| parses_fld parses_str fun _ => parses_fld parses_status fun _ => parses_fld parses_time fun _ =>
    parses_fld (parses_u 1) fun _ => parses_fld (parses_i 1) (g' := fun l r i o => ∃ b, i.head? = some b ∧ ∃ v, (value v ⟫ fun i o => ∃ sg, (str sg ⟫ fun i o => i = o ∧ ∃ e' wa', r = some (e', wa') ∧ Mend wa { l with value := v, valueSignature := sg } b e' wa') i o) i o) fun l => ?_) fun r i o => ?_
  · refine Parses.congr (guard_end (parses_bind parses_current fun b =>
      parses_fieldIf (G := fun v => ∀ x, v = some x → WellTyped x) parses_value (fun v i o h x hx => ?_) (fun v hv => parses_field parses_str (fun sg => parses_finish ?_ b wa) fun _ => loc_listEntryFinish _ _ _) fun _ => ?_)) fun r i o => ?_
    · subst hx; exact value_wellTyped h
    · exact hv
    · locs [loc_listEntryFinish _ _ _]
    · constructor
      · rintro ⟨_, b, m, ⟨h1, rfl⟩, v, m1, h2, sg, m2, h3, h4⟩
        exact ⟨b, h1, v, m1, h2, sg, m2, h3, h4⟩
      · rintro ⟨b, h1, v, m1, h2, sg, m2, h3, h4⟩
        exact ⟨by (rintro rfl; cases h1), b, i, ⟨h1, rfl⟩, v, m1, h2, sg, m2, h3, h4⟩
  · constructor
    · rintro ⟨m, h, a1, m1, h1, a2, m2, h2, a3, m3, h3, a4, m4, h4, a5, m5, h5, b, h6, v, m7, h7, sg, m8, h8, rfl, e', wa', rfl, h9⟩
      exact ⟨_, b, e', wa', ⟨m, h, m1, h1, m2, h2, m3, h3, m4, h4, m5, h5, m5, ⟨rfl, h6⟩, m7, h7, h8⟩, rfl, h9⟩
    · rintro ⟨e, b, e', wa', ⟨m, h, m1, h1, m2, h2, m3, h3, m4, h4, m5, h5, _, ⟨rfl, h6⟩, m7, h7, h8⟩, rfl, h9⟩
      exact ⟨m, h, e.objName, m1, h1, e.status, m2, h2, e.valTime, m3, h3, e.unit, m4, h4, e.scaler, m5, h5, b, h6, e.value, m7, h7, e.valueSignature, o, h8, rfl, e', wa', rfl, h9⟩

theorem corrected_cons {wa : Bool} {e : ListEntry} {b : UInt8} {sent : List (ListEntry × UInt8)} {es : List ListEntry} :
    Corrected wa ((e, b) :: sent) es ↔ ∃ e' wa' es', es = e' :: es' ∧ Mend wa e b e' wa' ∧ Corrected wa' sent es' := by
  have excl : IsDzgSerial e → ¬ IsPower e := by
    rintro ⟨h1, _⟩ h2
    rw [IsPower, h1] at h2
    simp at h2
  constructor
  · intro h
    cases h with
    | serial h1 h2 => exact ⟨e, true, _, rfl, ⟨by simp [h1], fun h => absurd h.2.1 (excl h1), fun _ => rfl⟩, h2⟩
    | power h1 h2 h3 h4 => exact ⟨_, true, _, rfl, ⟨by simp, fun _ => rfl, fun h => absurd ⟨rfl, h2, h3⟩ h⟩, h4⟩
    | other h1 h2 h3 => exact ⟨e, wa, _, rfl, ⟨by simp [h1], fun h => absurd h h2, fun _ => rfl⟩, h3⟩
  · rintro ⟨e', wa', es', rfl, ⟨h1, h2, h3⟩, h4⟩
    by_cases hs : IsDzgSerial e
    · have : wa' = true := h1.2 (Or.inr hs)
      subst this
      rw [h3 fun h => excl hs h.2.1]
      exact .serial hs h4
    · have hw : wa' = wa := by
        have : wa' = true ↔ wa = true := h1.trans ⟨fun h => h.resolve_right hs, Or.inl⟩
        cases wa' <;> cases wa <;> simp at this ⊢
      subst hw
      by_cases hc : wa' = true ∧ IsPower e ∧ ShortHeader b
      · rw [h2 hc]
        obtain ⟨rfl, h5, h6⟩ := hc
        exact .power hs h5 h6 h4
      · rw [h3 hc]
        exact .other hs hc h4

theorem parses_listLoop (n : Nat) : ∀ wa acc, Parses (listLoop n wa acc) (fun r i o => ∃ sent es, sent.length = n ∧ r = acc ++ es ∧ Corrected wa sent es ∧ times entry sent i o) := by
  induction n with
  | zero =>
    intro wa acc
    unfold listLoop
    refine (parses_pure acc).congr fun v i o => ?_
    constructor
    · rintro ⟨rfl, rfl⟩; exact ⟨[], [], rfl, by simp, .nil, rfl⟩
    · rintro ⟨sent, es, h1, rfl, h2, h3⟩
      cases sent with
      | nil => cases h2; exact ⟨by simp, h3⟩
      | cons _ _ => cases h1
  | succ n ih =>
    intro wa acc
    unfold listLoop
    refine Parses.congr (parses_bind (parses_listEntry wa) (g' := fun x r i o => ∃ e' wa' sent es, (x = some (e', wa') ∧ sent.length = n ∧ r = acc ++ e' :: es ∧ Corrected wa' sent es ∧ times entry sent i o)) fun x => parses_ifError (by locs []) ?_) fun v i o => ?_
    · cases x with
      | none => exact ⟨loc_undef, fun st s v _ h => by (cases h), fun st v o _ _ ⟨_, _, _, _, h, _⟩ => by (cases h)⟩
      | some x =>
        obtain ⟨e, w⟩ := x
        refine (ih w (acc ++ [e])).congr fun v i o => ?_
        constructor
        · rintro ⟨sent, es, rfl, rfl, h1, h2⟩
          exact ⟨e, w, sent, es, rfl, rfl, by simp, h1, h2⟩
        · rintro ⟨_, _, sent, es, hx, rfl, rfl, h1, h2⟩
          cases hx
          exact ⟨sent, es, rfl, by simp, h1, h2⟩
    · constructor
      · rintro ⟨x, m, ⟨e, b, e', wa', h1, rfl, h2⟩, _, _, sent, es, h3, rfl, rfl, h4, h5⟩
        cases h3
        exact ⟨(e, b) :: sent, e' :: es, rfl, rfl, corrected_cons.2 ⟨e', wa', es, rfl, h2, h4⟩, m, h1, h5⟩
      · rintro ⟨sent, es, h1, rfl, h2, h3⟩
        cases sent with
        | nil => cases h1
        | cons x sent =>
          obtain ⟨e, b⟩ := x
          obtain ⟨e', wa', es', rfl, h4, h5⟩ := corrected_cons.1 h2
          obtain ⟨m, h6, h7⟩ := h3
          exact ⟨some (e', wa'), m, ⟨e, b, e', wa', h6, rfl, h4⟩, e', wa', sent, es', rfl, by simpa using h1, rfl, h5, h7⟩

theorem parses_list : Parses listParse entries := by
  unfold listParse
  refine Parses.congr (parses_bind parses_skipped fun b => parses_ite (fun _ => parses_pure _) fun _ => parses_bind parses_getNextType fun t =>
    parses_ite (fun _ => parses_setError (loc_pure _)) fun _ => parses_bind parses_getNextLength fun l => parses_listLoop l.toNat false []) fun r i o => ?_
  constructor
  · rintro ⟨b, m, ⟨rfl, h1⟩ | ⟨rfl, rfl, h1, h2⟩, ⟨h3, rfl, rfl⟩ | ⟨h3, t, m', ⟨ty, rfl, h4, rfl⟩, ⟨_, h⟩ | ⟨h5, l, m'', ⟨ty', h6⟩, sent, es, h7, rfl, h8, h9⟩⟩⟩
    · exact Or.inl ⟨rfl, h1⟩
    · exact absurd rfl h3
    · exact absurd rfl h3
    · cases h3
    · exact h.elim
    · have : ty = 7 := by
        have : ty * 16 = 0x70 := by simpa using h5
        omega
      subst this
      have : ty' = 7 := nextType_unique (header_next h6) h4
      subst this
      exact Or.inr ⟨sent, by simpa using h8, l, h7, m'', h6, h9⟩
  · rintro (⟨rfl, h⟩ | ⟨sent, h0, n, h1, m, h2, h3⟩)
    · exact ⟨true, o, Or.inl ⟨rfl, h⟩, Or.inl ⟨rfl, rfl, rfl⟩⟩
    · exact ⟨false, i, Or.inr ⟨rfl, rfl, nextType_ne_nil (header_next h2), header_not_absent h2 (by decide)⟩,
        Or.inr ⟨by simp, 112, i, ⟨7, rfl, header_next h2, rfl⟩, Or.inr ⟨by simp, n, m, ⟨7, h2⟩, sent, r, h1, by simp, h0, h3⟩⟩⟩

end Sml
