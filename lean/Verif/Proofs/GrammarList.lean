import Verif.Proofs.GrammarTime

/-!
# Lists
-/

namespace Sml

open Spec Spec.Grammar

theorem parses_ifError {q k : M α} {g : α → Rel} (hq : Loc q) (hk : Parses k g) : Parses (do if ← hasErrors then q else k) g := by
  refine ⟨loc_bind loc_hasErrors fun _ => loc_ite hq hk.loc, fun st s v hc h he => ?_, fun st v o he hc hg => ?_⟩
  · rw [run_bind, run_hasErrors, Res.andThen_ok, run_ite] at h
    split at h
    · next h1 => have := hq.sticky st h1 _ _ h; rw [this] at he; cases he
    · exact hk.sound st s v hc h he
  · obtain ⟨s, h1, h2⟩ := hk.complete st v o he hc hg
    exact ⟨s, by rw [run_bind, run_hasErrors, Res.andThen_ok, run_ite, he]; exact h1, h2⟩

theorem parses_addAlloc {c : Prop} [Decidable c] {k : M β} {g : β → Rel} (hk : Parses k g) :
    Parses (if c then (do alloc 1; k) else k) g := by
  by_cases h : c
  · simp only [if_pos h]; exact parses_alloc hk
  · simp only [if_neg h]; exact hk

theorem parses_sequenceAdd (s : Sequence α) (e : Option α) : Parses (sequenceAdd s e) (fun v i o => v = { elems := s.elems ++ [e] } ∧ i = o) := by
  unfold sequenceAdd
  exact parses_addAlloc (parses_pure _)

theorem parses_treePathAdd (p : TreePath) (e : Option OctetString) : Parses (treePathAdd p e) (fun v i o => v = { entries := p.entries ++ [e] } ∧ i = o) := by
  unfold treePathAdd
  exact parses_addAlloc (parses_pure _)

theorem parses_sequenceLoop {p : M (Option α)} {g : Option α → Rel} (hp : Parses p g) (freed : Option α → Nat) (n : Nat) :
    ∀ seq, Parses (sequenceLoop p freed n seq) (fun r i o => ∃ es, es.length = n ∧ r = some { elems := seq.elems ++ es } ∧ times g es i o) := by
  induction n with
  | zero =>
    intro seq
    unfold sequenceLoop
    refine (parses_pure (some seq)).congr fun v i o => ?_
    constructor
    · rintro ⟨rfl, rfl⟩; exact ⟨[], rfl, by simp, rfl⟩
    · rintro ⟨es, h1, rfl, h2⟩
      cases es with
      | nil => exact ⟨by simp, h2⟩
      | cons _ _ => cases h1
  | succ n ih =>
    intro seq
    unfold sequenceLoop
    refine Parses.congr (parses_bind hp fun e => parses_ifError (by locs []) (parses_bind (parses_sequenceAdd _ _) fun seq' => ih seq')) fun v i o => ?_
    constructor
    · rintro ⟨e, m, h1, _, _, ⟨rfl, rfl⟩, es, rfl, rfl, h2⟩
      exact ⟨e :: es, rfl, by simp, m, h1, h2⟩
    · rintro ⟨es, h1, rfl, h2⟩
      cases es with
      | nil => cases h1
      | cons e es =>
        obtain ⟨m, h3, h4⟩ := h2
        exact ⟨e, m, h3, _, m, ⟨rfl, rfl⟩, es, by simpa using h1, by simp, h4⟩

theorem parses_next_list {k : Int → M (Option α)} {g : Int → Option α → Rel} (n : Nat) (hk : ∀ n, Parses (k n) (g n)) :
    Parses (do if (← getNextType) ≠ tyList then failWith n else do let l ← getNextLength; k l)
      (fun r i o => ∃ n, (header 7 n ⟫ g n r) i o) := by
  refine Parses.congr (parses_bind parses_getNextType fun t => parses_ite (fun _ => parses_fail _) fun _ =>
    parses_bind parses_getNextLength fun l => hk l) fun r i o => ?_
  constructor
  · rintro ⟨t, m, ⟨ty, rfl, h1, rfl⟩, ⟨_, h⟩ | ⟨h2, l, m', ⟨ty', h3⟩, h5⟩⟩
    · exact h.elim
    · have : ty = 7 := by
        have : ty * 16 = 0x70 := by simpa using h2
        omega
      subst this
      have : ty' = 7 := nextType_unique (header_next h3) h1
      subst this
      exact ⟨l, m', h3, h5⟩
  · rintro ⟨n, m, h1, h2⟩
    exact ⟨112, i, ⟨7, rfl, header_next h1, rfl⟩, Or.inr ⟨by simp, n, m, ⟨7, h1⟩, h2⟩⟩

theorem parses_sequence {p : M (Option α)} {g : Option α → Rel} (hp : Parses p g) (freed : Option α → Nat) :
    Parses (sequenceParse p freed) (sequence g) := by
  unfold sequenceParse
  refine Parses.congr (parses_bind parses_getNextType fun t => parses_ite (fun _ => parses_fail _) fun _ => parses_alloc <|
    parses_bind parses_getNextLength fun l => parses_sequenceLoop hp freed l.toNat _) fun r i o => ?_
  constructor
  · rintro ⟨t, m, ⟨ty, rfl, h1, rfl⟩, ⟨_, h⟩ | ⟨h2, l, m', ⟨ty', h3⟩, es, h4, rfl, h5⟩⟩
    · exact h.elim
    · have : ty = 7 := by
        have : ty * 16 = 0x70 := by simpa using h2
        omega
      subst this
      have : ty' = 7 := nextType_unique (header_next h3) h1
      subst this
      exact ⟨l, by simpa using h4, m', h3, by simpa using h5⟩
  · cases r with
    | none => intro h; exact h.elim
    | some q =>
      rintro ⟨n, h0, m, h1, h2⟩
      exact ⟨112, i, ⟨7, rfl, header_next h1, rfl⟩, Or.inr ⟨by simp, n, m, ⟨7, h1⟩, q.elems, h0, by simp, h2⟩⟩

/-! ## Paths -/

theorem parses_treePathLoop (n : Nat) :
    ∀ p, Parses (treePathLoop n p) (fun r i o => ∃ es : List (Option OctetString), es.length = n ∧
      r = some { entries := p.entries ++ es.filter Option.isSome } ∧ times str es i o) := by
  induction n with
  | zero =>
    intro p
    unfold treePathLoop
    refine (parses_pure (some p)).congr fun v i o => ?_
    constructor
    · rintro ⟨rfl, rfl⟩; exact ⟨[], rfl, by simp, rfl⟩
    · rintro ⟨es, h1, rfl, h2⟩
      cases es with
      | nil => exact ⟨by simp, h2⟩
      | cons _ _ => cases h1
  | succ n ih =>
    intro p
    unfold treePathLoop
    refine Parses.congr (parses_bind parses_str (g' := fun e r i o => ∃ es : List (Option OctetString), es.length = n ∧
      r = some { entries := p.entries ++ (e :: es).filter Option.isSome } ∧ times str es i o) fun e => parses_ifError (loc_failWith _) ?_) fun v i o => ?_
    · cases e with
      | none => exact (ih p).congr fun v i o => by simp
      | some e =>
        refine Parses.congr (parses_bind (parses_treePathAdd _ _) fun p' => ih p') fun v i o => ?_
        constructor
        · rintro ⟨_, _, ⟨rfl, rfl⟩, es, rfl, rfl, h2⟩
          exact ⟨es, rfl, by simp, h2⟩
        · rintro ⟨es, rfl, rfl, h2⟩
          exact ⟨_, i, ⟨rfl, rfl⟩, es, rfl, by simp, h2⟩
    constructor
    · rintro ⟨e, m, h1, es, rfl, rfl, h2⟩
      exact ⟨e :: es, rfl, by simp, m, h1, h2⟩
    · rintro ⟨es, h1, rfl, h2⟩
      cases es with
      | nil => cases h1
      | cons e es =>
        obtain ⟨m, h3, h4⟩ := h2
        exact ⟨e, m, h3, es, by simpa using h1, by simp, h4⟩

theorem parses_path : Parses treePathParse path := by
  unfold treePathParse
  refine Parses.congr (parses_optional <| parses_alloc <| parses_next_list _ fun l => parses_treePathLoop l.toNat _) fun r i o => ?_
  constructor
  · rintro (⟨rfl, h⟩ | ⟨_, _, n, m, h, es, h1, rfl, h2⟩)
    · exact h
    · exact ⟨es, by simp, n, h1, m, h, h2⟩
  · cases r with
    | none => intro h; exact Or.inl ⟨rfl, h⟩
    | some p =>
      rintro ⟨es, h0, n, h1, m, h, h2⟩
      obtain ⟨es'⟩ := p
      simp only at h0
      subst h0
      exact Or.inr ⟨nextType_ne_nil (header_next h), header_not_absent h (by decide), n, m, h, es, h1, by simp, h2⟩

/-! ## Parameter values -/

theorem parses_periodEntry : Parses periodEntryParse periodEntry := by
  unfold periodEntryParse
  refine Parses.congr (parses_optional <| parses_alloc <| parses_expectList <|
    parses_fld parses_str fun _ => parses_fld (parses_u 1) fun _ => parses_fld (parses_i 1) fun _ => parses_fld parses_value fun _ => parses_fld parses_str fun r => parses_pure (some r)) fun v i o => ?_
  constructor
  · rintro (⟨rfl, h⟩ | ⟨_, _, m, h, a1, m1, h1, a2, m2, h2, a3, m3, h3, a4, m4, h4, a5, m5, h5, rfl, rfl⟩)
    · exact h
    · exact ⟨m, h, m1, h1, m2, h2, m3, h3, m4, h4, h5⟩
  · cases v with
    | none => intro h; exact Or.inl ⟨rfl, h⟩
    | some v =>
      rintro ⟨m, h, m1, h1, m2, h2, m3, h3, m4, h4, h5⟩
      exact Or.inr ⟨nextType_ne_nil (header_next h), header_not_absent h (by decide), m, h, v.objName, m1, h1, v.unit, m2, h2, v.scaler, m3, h3, v.value, m4, h4, v.valueSignature, o, h5, rfl, rfl⟩

theorem parses_tupelEntry : Parses tupelEntryParse tupelEntry := by
  unfold tupelEntryParse
  refine Parses.congr (parses_optional <| parses_alloc <| parses_expectList <|
    parses_fld parses_str fun _ => parses_fld parses_time fun _ => parses_fld (parses_u 8) fun _ => parses_fld (parses_u 1) fun _ => parses_fld (parses_i 1) fun _ => parses_fld (parses_i 8) fun _ => parses_fld (parses_u 1) fun _ => parses_fld (parses_i 1) fun _ => parses_fld (parses_i 8) fun _ => parses_fld (parses_u 1) fun _ => parses_fld (parses_i 1) fun _ =>
    parses_fld (g' := fun r v i o => ∃ a13 a14 a15 a16 a17 a18 a19 a20 a21 a22 a23, v = some { r with signature_pA_R1_R4 := a13, unit_mA := a14, scaler_mA := a15, value_mA := a16, unit_R2 := a17, scaler_R2 := a18, value_R2 := a19, unit_R3 := a20, scaler_R3 := a21, value_R3 := a22, signature_mA_R2_R3 := a23 } ∧ (str a13 ⟫ num 6 1 a14 ⟫ num 5 1 a15 ⟫ num 5 8 a16 ⟫ num 6 1 a17 ⟫ num 5 1 a18 ⟫ num 5 8 a19 ⟫ num 6 1 a20 ⟫ num 5 1 a21 ⟫ num 5 8 a22 ⟫ str a23) i o) (parses_i 8) fun r => ?_) fun v i o => ?_
  · refine Parses.congr (parses_fld parses_str fun _ => parses_fld (parses_u 1) fun _ => parses_fld (parses_i 1) fun _ => parses_fld (parses_i 8) fun _ => parses_fld (parses_u 1) fun _ => parses_fld (parses_i 1) fun _ => parses_fld (parses_i 8) fun _ => parses_fld (parses_u 1) fun _ => parses_fld (parses_i 1) fun _ => parses_fld (parses_i 8) fun _ => parses_fld parses_str fun r => parses_pure (some r)) fun v i o => ?_
    constructor
    · rintro ⟨a13, m13, h13, a14, m14, h14, a15, m15, h15, a16, m16, h16, a17, m17, h17, a18, m18, h18, a19, m19, h19, a20, m20, h20, a21, m21, h21, a22, m22, h22, a23, m23, h23, rfl, rfl⟩
      exact ⟨a13, a14, a15, a16, a17, a18, a19, a20, a21, a22, a23, rfl, m13, h13, m14, h14, m15, h15, m16, h16, m17, h17, m18, h18, m19, h19, m20, h20, m21, h21, m22, h22, h23⟩
    · rintro ⟨a13, a14, a15, a16, a17, a18, a19, a20, a21, a22, a23, rfl, m13, h13, m14, h14, m15, h15, m16, h16, m17, h17, m18, h18, m19, h19, m20, h20, m21, h21, m22, h22, h23⟩
      exact ⟨a13, m13, h13, a14, m14, h14, a15, m15, h15, a16, m16, h16, a17, m17, h17, a18, m18, h18, a19, m19, h19, a20, m20, h20, a21, m21, h21, a22, m22, h22, a23, o, h23, rfl, rfl⟩
  constructor
  · rintro (⟨rfl, h⟩ | ⟨_, _, m, h, a1, m1, h1, a2, m2, h2, a3, m3, h3, a4, m4, h4, a5, m5, h5, a6, m6, h6, a7, m7, h7, a8, m8, h8, a9, m9, h9, a10, m10, h10, a11, m11, h11, a12, m12, h12, a13, a14, a15, a16, a17, a18, a19, a20, a21, a22, a23, rfl, h'⟩)
    · exact h
    · exact ⟨m, h, m1, h1, m2, h2, m3, h3, m4, h4, m5, h5, m6, h6, m7, h7, m8, h8, m9, h9, m10, h10, m11, h11, m12, h12, h'⟩
  · cases v with
    | none => intro h; exact Or.inl ⟨rfl, h⟩
    | some v =>
      rintro ⟨m, h, m1, h1, m2, h2, m3, h3, m4, h4, m5, h5, m6, h6, m7, h7, m8, h8, m9, h9, m10, h10, m11, h11, m12, h12, h'⟩
      exact Or.inr ⟨nextType_ne_nil (header_next h), header_not_absent h (by decide), m, h, v.serverId, m1, h1, v.secIndex, m2, h2, v.status, m3, h3, v.unit_pA, m4, h4, v.scaler_pA, m5, h5, v.value_pA, m6, h6, v.unit_R1, m7, h7, v.scaler_R1, m8, h8, v.value_R1, m9, h9, v.unit_R4, m10, h10, v.scaler_R4, m11, h11, v.value_R4, m12, h12, v.signature_pA_R1_R4, v.unit_mA, v.scaler_mA, v.value_mA, v.unit_R2, v.scaler_R2, v.value_R2, v.unit_R3, v.scaler_R3, v.value_R3, v.signature_mA_R2_R3, rfl, h'⟩

end Sml
