import Verif.Proofs.Grammar

/-!
# Status words and times
-/

namespace Sml

open Spec Spec.Grammar

theorem parses_status : Parses statusParse status := by
  unfold statusParse
  refine (parses_bind parses_skipped fun b => parses_ite (fun _ => parses_pure none) fun _ =>
    parses_bind parses_getNextType fun t => parses_bind parses_current fun c => parses_alloc <|
    parses_bind (g := fun (v : Status) i o => t = tyUnsigned ∧ ∃ p, v = { type := label 6 (room c), data := p } ∧ num 6 (room c) p i o)
    (?_ : Parses _ _) fun v => parses_check (parses_pure (some v))).congr ?_
  · refine (parses_ite (g := fun (v : Status) i o => ∃ p, v = { type := label 6 (room c), data := p } ∧ num 6 (room c) p i o) (fun ht => ?_)
      fun _ => parses_setError (loc_pure _)).congr fun v i o => by simp
    subst ht
    rw [growMax_room]
    refine (parses_bind (parses_u _) fun p => parses_pure _).congr ?_
    intro v i o
    rw [show tyUnsigned = 6 * 16 from rfl, label_eq c (Or.inr rfl)]
    constructor
    · rintro ⟨p, m, h1, rfl, rfl⟩
      exact ⟨p, rfl, h1⟩
    · rintro ⟨p, rfl, h1⟩
      exact ⟨p, o, h1, rfl, rfl⟩
  · intro r i o
    constructor
    · rintro ⟨b, m, ⟨rfl, h1⟩ | ⟨rfl, rfl, h1, h2⟩, ⟨h3, rfl, rfl⟩ | ⟨h3, t, m1, ⟨ty, rfl, h4, rfl⟩, c, m2, ⟨h5, rfl⟩, v, m3, ⟨_, p, rfl, h7⟩, rfl, rfl⟩⟩
      · exact h1
      · exact absurd rfl h3
      · cases h3
      · exact ⟨c, h5, fun hx => h2 (by rw [h5, hx]), rfl, h7⟩
    · cases r with
      | none => intro h; exact ⟨true, o, Or.inl ⟨rfl, h⟩, Or.inl ⟨rfl, rfl, rfl⟩⟩
      | some v =>
        rintro ⟨b, h1, h2, h3, h4⟩
        have hni : i ≠ [] := by rintro rfl; cases h1
        have hne : i.head? ≠ some 0x01 := by rw [h1]; intro hx; cases hx; exact h2 rfl
        refine ⟨false, i, Or.inr ⟨rfl, rfl, hni, hne⟩, Or.inr ⟨by simp, ?_⟩⟩
        obtain ⟨ty, d⟩ := v
        simp only at h3 h4
        subst h3
        obtain ⟨x, rfl, h6⟩ := must_some (g := num 6 (room b)) rfl h4 hne
        exact ⟨_, i, ⟨6, rfl, num_type h6, rfl⟩, b, i, ⟨h1, rfl⟩, _, o, ⟨rfl, _, rfl, h6⟩, rfl, rfl⟩

/-! ## One direction only -/

/-- What `p` accepts is described by `g`. -/
structure Sound (p : M α) (g : α → Rel) : Prop where
  loc : Loc p
  sound : ∀ st s v, st.cursor ≤ st.data.length → p st = .ok v s → s.error = false → g v st.rest s.rest

theorem Parses.toSound {p : M α} {g : α → Rel} (h : Parses p g) : Sound p g := ⟨h.loc, h.sound⟩

theorem Sound.mono {p : M α} {g g' : α → Rel} (h : Sound p g) (hg : ∀ v i o, g v i o → g' v i o) : Sound p g' :=
  ⟨h.loc, fun st s v hc hp he => hg _ _ _ (h.sound st s v hc hp he)⟩

theorem sound_bind {p : M α} {k : α → M β} {g : α → Rel} {g' : α → β → Rel} (hp : Sound p g) (hk : ∀ a, Sound (k a) (g' a)) :
    Sound (p >>= k) (fun r i o => ∃ a, (g a ⟫ g' a r) i o) := by
  refine ⟨loc_bind hp.loc fun a => (hk a).loc, fun st s v hc h he => ?_⟩
  obtain ⟨a, s1, h1, h2⟩ := bind_inv h
  have h3 := hp.loc.adv st hc _ _ h1
  have h4 : s1.error = false := by
    cases hs : s1.error with
    | false => rfl
    | true => have := (hk a).loc.sticky s1 hs _ _ h2; rw [this] at he; cases he
  exact ⟨a, s1.rest, hp.sound st s1 a hc h1 h4, (hk a).sound s1 s v (by rw [h3.1]; exact h3.2.2) h2 he⟩

theorem sound_ite {c : Prop} [Decidable c] {p q : M α} {g g' : α → Rel} (hp : c → Sound p g) (hq : ¬ c → Sound q g') :
    Sound (if c then p else q) (fun v i o => (c ∧ g v i o) ∨ (¬ c ∧ g' v i o)) := by
  by_cases h : c
  · rw [if_pos h]; exact (hp h).mono fun v i o hg => Or.inl ⟨h, hg⟩
  · rw [if_neg h]; exact (hq h).mono fun v i o hg => Or.inr ⟨h, hg⟩

theorem sound_field {p : M α} {set : α → R} {freed : R → Nat} {k : R → M (Option β)} {g : α → Rel} {g' : α → Option β → Rel}
    (hp : Sound p g) (hk : ∀ a, Sound (k (set a)) (g' a)) (hl : ∀ r, Loc (k r)) :
    Sound (field p set freed k) (fun r i o => ∃ a, (g a ⟫ g' a r) i o) := by
  refine ⟨loc_field hp.loc hl, fun st s v hc h he => ?_⟩
  obtain ⟨a, s1, h1, h2, h3⟩ := field_inv h he
  have h4 := hp.loc.adv st hc _ _ h1
  exact ⟨a, s1.rest, hp.sound st s1 a hc h1 h2, (hk a).sound s1 s v (by rw [h4.1]; exact h4.2.2) h3 he⟩

theorem sound_release {n : Nat} {k : M α} {g : α → Rel} (hk : Sound k g) : Sound (do release n; k) g := by
  refine ⟨loc_bind (loc_release n) fun _ => hk.loc, fun st s v hc h he => ?_⟩
  obtain ⟨_, s1, h1, h2⟩ := bind_inv h
  unfold release at h1
  split at h1
  · cases h1
    exact hk.sound { st with live := st.live - n } s v hc h2 he
  · cases h1

theorem parses_fld {p : M α} {set : α → R} {freed : R → Nat} {k : R → M (Option β)} {g : α → Rel} {g' : R → Option β → Rel}
    (hp : Parses p g) (hk : ∀ r, Parses (k r) (g' r)) :
    Parses (field p set freed k) (fun r i o => ∃ a, (g a ⟫ g' (set a) r) i o) :=
  parses_field hp (fun a => hk (set a)) fun r => (hk r).loc

theorem sound_pure (a : α) : Sound (pure a : M α) (fun v i o => v = a ∧ i = o) := (parses_pure a).toSound

/-! ## Times -/

/-- What `timeParseData` returns. -/
def timeAfterTag (tag : Option Num) : Option Time → Rel
  | none => ahead (fun i => i ≠ [] ∧ ¬ nextType 6 i ∧ ¬ nextType 7 i)
  | some t => fun i o => t.tag = tag ∧ timeData t.data i o

theorem nextType_ne_nil {ty : Nat} {i : List UInt8} (h : nextType ty i) : i ≠ [] := by
  rintro rfl; obtain ⟨b, h, _⟩ := h; cases h

theorem sound_stamp (freed1 : Option Num → Nat) (freed2 : Option Num → Option Num → Nat) (freed4 : Option Num → Option Num → Option Num → Nat)
    (n : Option Num → Option Num → Option Num → Nat) (r : Option Time) :
    Sound (field u32Parse (fun t1 => t1) freed1 fun t1 => field i16Parse (fun t2 => t2) (freed2 t1) fun t2 =>
      field i16Parse (fun t3 => t3) (freed4 t1 t2) fun t3 => do release (n t1 t2 t3); pure r)
      (fun v i o => v = r ∧ ∃ a b c, (num 6 4 a ⟫ num 5 2 b ⟫ num 5 2 c) i o) := by
  have h3 : ∀ t1 t2, Sound (field i16Parse (fun t3 => t3) (freed4 t1 t2) fun t3 => do release (n t1 t2 t3); pure r)
      (fun v i o => v = r ∧ ∃ c, num 5 2 c i o) := by
    intro t1 t2
    refine Sound.mono (sound_field (parses_i 2).toSound (fun t3 => sound_release (sound_pure r)) fun t3 => loc_bind (loc_release _) fun _ => loc_pure _) ?_
    rintro v i o ⟨c, m, h, rfl, rfl⟩
    exact ⟨rfl, c, h⟩
  have h2 : ∀ t1, Sound (field i16Parse (fun t2 => t2) (freed2 t1) fun t2 =>
      field i16Parse (fun t3 => t3) (freed4 t1 t2) fun t3 => do release (n t1 t2 t3); pure r)
      (fun v i o => v = r ∧ ∃ b c, (num 5 2 b ⟫ num 5 2 c) i o) := by
    intro t1
    refine Sound.mono (sound_field (parses_i 2).toSound (fun t2 => h3 t1 t2) fun t2 => (h3 t1 t2).loc) ?_
    rintro v i o ⟨b, m, h, rfl, c, h'⟩
    exact ⟨rfl, b, c, m, h, h'⟩
  refine Sound.mono (sound_field (parses_u 4).toSound (fun t1 => h2 t1) fun t1 => (h2 t1).loc) ?_
  rintro v i o ⟨a, m, h, rfl, b, c, h'⟩
  exact ⟨rfl, a, b, c, m, h, h'⟩

theorem sound_timeData (tag : Option Num) : Sound (timeParseData tag) (timeAfterTag tag) := by
  unfold timeParseData
  refine Sound.mono (sound_bind parses_getNextType.toSound fun t => sound_ite
    (fun _ => sound_field (parses_u 4).toSound (fun a => sound_pure _) fun _ => loc_pure _) fun _ => sound_ite
    (fun _ => sound_bind parses_getNextLength.toSound fun _ => sound_stamp _ _ _ _ _)
    fun _ => sound_release (sound_pure _)) ?_
  rintro r i o ⟨t, m, ⟨ty, rfl, h1, rfl⟩, ⟨h2, a, m1, h3, rfl, rfl⟩ | ⟨h2, ⟨h3, n, m1, ⟨ty', h4⟩, rfl, h5⟩ | ⟨h3, rfl, rfl⟩⟩⟩
  · refine ⟨rfl, Or.inl ?_⟩
    have h6 : ty = 6 := by rw [show tyUnsigned = 6 * 16 from rfl] at h2; omega
    subst h6
    have hne : i.head? ≠ some 0x01 := by
      obtain ⟨b, hb, hb'⟩ := h1
      rw [hb]; intro hx; cases hx; cases hb'
    obtain ⟨n, rfl, h4⟩ := must_some (g := num 6 4) rfl h3 hne
    exact ⟨n, rfl, h4⟩
  · have h7' : ty = 7 := by rw [show tyList = 7 * 16 from rfl] at h3; omega
    subst h7'
    have := nextType_unique (header_next h4) h1
    subst this
    obtain ⟨t1, t2, t3, h5⟩ := h5
    exact ⟨rfl, Or.inr ⟨rfl, n, t1, t2, t3, m1, h4, h5⟩⟩
  · refine ⟨rfl, nextType_ne_nil h1, fun h => h2 ?_, fun h => h3 ?_⟩
    · rw [nextType_unique h1 h]
    · rw [nextType_unique h1 h]

theorem field_run {p : M α} {set : α → R} {freed : R → Nat} {k : R → M (Option β)} {st s : St} {a : α} (h : p st = .ok a s) (he : s.error = false) :
    field p set freed k st = k (set a) s := by
  unfold field
  rw [run_bind, h]
  run
  rw [if_neg (by simp [he])]

theorem complete_timeData (tag : Option Num) (st : St) (v : Option Time) (o : List UInt8) (he : st.error = false) (hl : 1 + numberFreed tag ≤ st.live)
    (h : timeAfterTag tag v st.rest o) : ∃ s, timeParseData tag st = .ok v s ∧ s.error = false ∧ s.rest = o ∧ st.live ≤ s.live + numberFreed tag + 1 := by
  unfold timeParseData
  cases v with
  | none =>
    obtain ⟨rfl, h1, h2, h3⟩ := h
    have hlt := rest_ne_nil.1 h1
    rw [run_bind, run_getNextType hlt]
    run
    have hn : ∀ ty, ¬ nextType ty st.rest → ¬ st.data[st.cursor].toNat &&& 0x70 = ty * 16 := by
      intro ty hty hx
      refine hty ⟨_, rest_head.2 ⟨hlt, rfl⟩, ?_⟩
      rw [type_bits] at hx
      omega
    rw [if_neg (hn 6 h2), if_neg (hn 7 h3), run_release (by simp only [timeFreed, numberFreed]; simp only [numberFreed] at hl; omega)]
    refine ⟨_, rfl, he, rfl, ?_⟩
    simp only [timeFreed, numberFreed] at hl ⊢
    omega
  | some t =>
    obtain ⟨rfl, ⟨n, hn, h1⟩ | ⟨hn, n, a, b, c, m1, h1, m2, h2, m3, h3, h4⟩⟩ := h
    · rw [hn] at h1
      obtain ⟨x, hx, hx'⟩ := num_type h1
      obtain ⟨hlt, rfl⟩ := rest_head.1 hx
      rw [run_bind, run_getNextType hlt]
      run
      rw [if_pos (by rw [type_bits, hx'])]
      obtain ⟨k, ov, h2, h3, _⟩ := num_run (Or.inr rfl) h1
      rw [field_run h2 he]
      refine ⟨{ st with cursor := st.cursor + k, sovf := ov, live := st.live + numberFreed (some n) }, ?_, he, h3, by simp only; omega⟩
      rw [run_pure]
      obtain ⟨tg, d⟩ := t
      simp only at hn
      rw [hn]
    · obtain ⟨hlt, k, ov, g1, g2, _, g3⟩ := header_run h1
      rw [run_bind, g3]
      run
      rw [if_neg (by decide), if_pos (by decide), g1]
      run
      rw [← g2] at h2
      obtain ⟨k1, ov1, g4, g5, _⟩ := num_run (st := { st with cursor := st.cursor + k, sovf := ov }) (Or.inr rfl) h2
      rw [field_run g4 he]
      rw [← g5] at h3
      obtain ⟨k2, ov2, g6, g7, _⟩ := num_run (st := { st with cursor := st.cursor + k + k1, sovf := ov1, live := st.live + numberFreed a }) (Or.inl rfl) h3
      rw [field_run g6 he]
      rw [← g7] at h4
      obtain ⟨k3, ov3, g8, g9, _⟩ := num_run (st := { st with cursor := st.cursor + k + k1 + k2, sovf := ov2, live := st.live + numberFreed a + numberFreed b }) (Or.inl rfl) h4
      rw [field_run g8 he]
      rw [run_bind, run_release (by simp only; omega)]
      run
      obtain ⟨tg, d⟩ := t
      simp only at hn
      subst hn
      exact ⟨_, rfl, he, g9, by simp only; omega⟩

theorem sound_expectList {n : Int} {own : Nat} {k : M (Option α)} {g : Option α → Rel} (hk : Sound k g) :
    Sound (expectList n own k) (fun r => header 7 n ⟫ g r) := by
  unfold expectList
  refine Sound.mono (sound_bind parses_getNextType.toSound fun t => sound_ite (fun _ => (parses_fail _).toSound) fun _ =>
    sound_bind parses_getNextLength.toSound fun l => sound_ite (fun _ => (parses_fail _).toSound) fun _ => hk) ?_
  rintro r i o ⟨t, m, ⟨ty, rfl, h1, rfl⟩, ⟨_, h⟩ | ⟨h2, l, m', ⟨ty', h3⟩, ⟨_, h⟩ | ⟨h4, h5⟩⟩⟩
  · exact h.elim
  · exact h.elim
  · have : ty = 7 := by
      have : ty * 16 = 0x70 := by simpa using h2
      omega
    subst this
    have : ty' = 7 := nextType_unique (header_next h3) h1
    subst this
    have : l = n := by simpa using h4
    subst this
    exact ⟨m', h3, h5⟩

theorem sound_alloc (n : Nat) : Sound (alloc n) (fun _ i o => i = o) :=
  ⟨loc_alloc n, fun _ _ _ _ h _ => by cases h; rfl⟩

theorem sound_time : Sound timeParse time := by
  unfold timeParse optional
  refine Sound.mono (sound_bind parses_skipped.toSound fun b => sound_ite (fun _ => sound_pure none) fun _ =>
    sound_bind (sound_alloc 1) fun _ => sound_bind parses_current.toSound fun c => sound_ite
      (fun _ => sound_bind (sound_alloc 1) fun _ => sound_timeData _)
      fun _ => sound_expectList (sound_field (parses_u 1).toSound (fun a => sound_timeData a) fun _ => (sound_timeData _).loc)) ?_
  rintro r i o ⟨b, m, ⟨rfl, h1⟩ | ⟨rfl, rfl, h1, h2⟩, ⟨h3, h4, rfl⟩ | ⟨h3, _, _, rfl, c, _, ⟨h4, rfl⟩,
    ⟨rfl, _, _, rfl, h5⟩ | ⟨h5, m, h6, tag, m2, h7, h8⟩⟩⟩
  · subst h4; exact Or.inl h1
  · exact absurd rfl h3
  · exact absurd rfl h3
  · cases h3
  · have h65 : nextType 6 i := ⟨_, h4, by decide⟩
    cases r with
    | none => exact absurd h65 h5.2.2.1
    | some t =>
      obtain ⟨h6, ⟨n, hn, h7⟩ | ⟨_, n, a, b, c, m1, h7, _⟩⟩ := h5
      · exact Or.inl ⟨h4, h6, h7⟩
      · exact absurd (nextType_unique (header_next h7) h65) (by decide)
  · cases r with
    | none => exact Or.inr ⟨tag, m, h6, m2, h7, h8⟩
    | some t =>
      obtain ⟨rfl, h8⟩ := h8
      exact Or.inr ⟨m, h6, m2, h7, h8⟩

theorem complete_time (st : St) (v : Option Time) (o : List UInt8) (he : st.error = false) (h : time v st.rest o) :
    ∃ s, timeParse st = .ok v s ∧ s.error = false ∧ s.rest = o ∧ st.live ≤ s.live := by
  have list : ∀ tag, (header 7 2 ⟫ num 6 1 tag ⟫ timeAfterTag tag v) st.rest o →
      ∃ s, timeParse st = .ok v s ∧ s.error = false ∧ s.rest = o ∧ st.live ≤ s.live := by
    rintro tag ⟨m, h1, m2, h2, h3⟩
    obtain ⟨hlt, k, ov, g1, g2, _, g3⟩ := header_run (st := { st with live := st.live + 1 }) h1
    unfold timeParse optional expectList
    rw [run_bind, skipped_run (st := st) hlt (header_not_absent h1 (by decide))]
    have h65 : st.data[st.cursor] ≠ 0x65 := by
      intro hx
      obtain ⟨b, hb, hb'⟩ := header_next h1
      rw [rest_head (st := st) |>.2 ⟨hlt, hx⟩] at hb
      cases hb
      revert hb'
      decide
    run
    rw [run_getCurrentByte (by exact hlt)]
    run
    rw [if_neg h65]
    rw [g3]
    run
    rw [if_neg (by decide), g1]
    run
    rw [← g2] at h2
    obtain ⟨k1, ov1, g4, g5, _⟩ := num_run (st := { st with cursor := st.cursor + k, sovf := ov, live := st.live + 1 }) (Or.inr rfl) h2
    rw [if_neg (by decide), field_run g4 he]
    rw [← g5] at h3
    obtain ⟨s, h4, h5, h6, h7⟩ := complete_timeData tag { st with cursor := st.cursor + k + k1, sovf := ov1, live := st.live + 1 + numberFreed tag } v o he (by simp only; omega) h3
    exact ⟨s, h4, h5, h6, by simp only at h7; omega⟩
  cases v with
  | none =>
    rcases h with h | ⟨tag, h⟩
    · obtain ⟨h1, h2⟩ := absent_run h
      unfold timeParse optional
      rw [run_bind, h1]
      exact ⟨{ st with cursor := st.cursor + 1 }, rfl, he, h2, Nat.le_refl _⟩
    · exact list tag h
  | some t =>
    rcases h with ⟨h1, h2, h3⟩ | ⟨m, h1, m2, h2, h3⟩
    · obtain ⟨hlt, hb⟩ := rest_head.1 h1
      obtain ⟨n, hn, h4⟩ := must_some (g := num 6 4) rfl h3 (by rw [h1]; decide)
      unfold timeParse optional
      rw [run_bind, skipped_run (st := st) hlt (by rw [h1]; decide)]
      run
      rw [run_getCurrentByte (by exact hlt)]
      run
      rw [if_pos hb]
      obtain ⟨s, h5, h6, h7, h8⟩ := complete_timeData (some { size := 1, val := 1 }) { st with live := st.live + 1 + 1 } (some t) o he
        (by simp only [numberFreed]; omega) ⟨h2, Or.inl ⟨n, hn, h3⟩⟩
      exact ⟨s, h5, h6, h7, by simp only [numberFreed] at h8; omega⟩
    · exact list t.tag ⟨m, h1, m2, h2, rfl, h3⟩

theorem parses_time : Parses timeParse time :=
  ⟨loc_time, sound_time.sound, fun st v o he _ h => complete_time st v o he h⟩

end Sml
