import Verif.Spec.Forward
import Verif.Spec.Grammar
import Verif.Proofs.NumMem

/-!
# What comes out of the parser can be written, up to sizes

For everything the grammar assigns to bytes: the conditions under which it can be written and read back
are the conditions of `Verif.Spec.Forward`.
-/

namespace Sml
open Spec Spec.Grammar

theorem str_fits {o : Option OctetString} : Opt (StrOk true) o ↔ Opt StrFits o := by
  constructor
  · intro h a ha
    obtain ⟨h1, h2⟩ := h a ha
    exact ⟨h1 rfl, h2⟩
  · intro h a ha
    obtain ⟨h1, h2⟩ := h a ha
    exact ⟨fun _ => h1, h2⟩

theorem opt_fits {P Q : α → Prop} {o : Option α} (h : ∀ a, o = some a → (P a ↔ Q a)) : Opt P o ↔ Opt Q o :=
  ⟨fun hp a ha => (h a ha).1 (hp a ha), fun hq a ha => (h a ha).2 (hq a ha)⟩

theorem numberOf_lt {ty size : Nat} {bs rest : List UInt8} (h : bs.length ≤ size) : numberOf ty size bs rest < 256 ^ size := by
  have hp : 0 < 256 ^ size := Nat.pow_pos (by decide)
  have hu : unsignedOf bs < 256 ^ size := Nat.lt_of_lt_of_le (unsigned_lt bs) (Nat.pow_le_pow_right (by decide) h)
  unfold numberOf
  split
  · split
    · exact hp
    · split <;> omega
    · next bs _ _ _ =>
      have h1 := Int.emod_lt_of_pos (signedOf bs) (b := ((256 ^ size : Nat) : Int)) (by omega)
      have h2 := Int.emod_nonneg (signedOf bs) (b := ((256 ^ size : Nat) : Int)) (by omega)
      have hc : ((256 ^ size : Nat) : Int) = (256 : Int) ^ size := by simp
      rw [hc] at h1 h2
      omega
  · exact hu

theorem num_some {ty size : Nat} {n : Num} {i o : List UInt8} (h : num ty size (some n) i o) : NumOk true size n := by
  obtain ⟨bs, hl, _, rfl⟩ := h
  exact ⟨Nat.le_refl _, fun _ => ⟨rfl, numberOf_lt hl⟩⟩

theorem num_ok {ty size : Nat} {v : Option Num} {i o : List UInt8} (h : num ty size v i o) : Opt (NumOk true size) v := by
  rintro n rfl
  exact num_some h

theorem bool_ok {v : Option UInt8} {i o : List UInt8} (h : boolean v i o) : Opt (BoolOk true) v := by
  rintro b rfl _
  obtain ⟨_, _, x, _, rfl⟩ := h
  split <;> simp

theorem fits_time {t : Time} {i o : List UInt8} (h : time (some t) i o) : TimeOk true t ↔ TimeFits t := by
  have : Opt (NumOk true 1) t.tag ∧ Opt (NumOk true 4) t.data := by
    rcases h with ⟨_, h1, h2⟩ | ⟨_, _, _, h1, h2⟩
    · refine ⟨?_, num_ok h2⟩
      rw [h1]
      rintro n ⟨⟩
      exact ⟨by decide, fun _ => ⟨rfl, by decide⟩⟩
    · refine ⟨num_ok h1, ?_⟩
      rcases h2 with ⟨_, _, h2⟩ | ⟨h2, _⟩
      · exact num_ok h2
      · rw [h2]
        rintro n ⟨⟩
  exact ⟨fun ⟨_, _, h⟩ => h rfl, fun h => ⟨this.1, this.2, fun _ => h⟩⟩

theorem absent_head {i o : List UInt8} (h : absent i o) : i.head? = some 0x01 := by
  rw [h]
  rfl

theorem room_sizes (b : UInt8) : room b ∈ sizes ∨ room b = 16 := by
  unfold room sizes
  split
  · simp
  split
  · simp
  split
  · simp
  split <;> simp

theorem room_labels {b : UInt8} {ty : Nat} (hty : ty = 5 ∨ ty = 6) :
    (room b ∈ sizes ∧ label ty (room b) = 16 * ty + room b ∧ label ty (room b) % 16 ≠ 0) ∨
    (room b = 16 ∧ label ty (room b) % 16 = 0 ∧ (label ty (room b) = 0x50 ∨ label ty (room b) = 0x70)) := by
  rcases room_sizes b with h | h
  · left
    refine ⟨h, ?_⟩
    simp only [sizes, List.mem_cons, List.not_mem_nil, or_false] at h
    unfold label
    rw [if_neg (by omega)]
    omega
  · right
    refine ⟨h, ?_⟩
    rw [h]
    rcases hty with rfl | rfl <;> simp [label]

theorem fits_value {v : Value} {i o : List UInt8} (h : value (some v) i o) : ValOk true v ↔ ValueFits v := by
  obtain ⟨ty, d⟩ := v
  obtain ⟨b, hb, hb1, h⟩ := h
  unfold ValOk ValueFits
  cases d with
  | bytes p =>
    simp only at h ⊢
    rw [str_fits]
    refine ⟨fun ⟨h1, h2, _⟩ => ⟨h1, h2⟩, fun ⟨h1, h2⟩ => ⟨h1, h2, fun _ => ?_⟩⟩
    cases p with
    | none =>
      have := absent_head h.2
      rw [hb] at this
      cases this
      exact absurd rfl hb1
    | some _ => rfl
  | boolean p =>
    simp only at h ⊢
    refine ⟨fun ⟨h1, _⟩ => h1, fun h1 => ⟨h1, bool_ok h.2, fun _ => ?_⟩⟩
    cases p with
    | none =>
      have := absent_head h.2
      rw [hb] at this
      cases this
      exact absurd rfl hb1
    | some _ => rfl
  | num p =>
    simp only at h ⊢
    obtain ⟨t, ht, rfl, hn⟩ := h
    constructor
    · rintro ⟨k, hk, hl, _⟩
      simp only [sizes, List.mem_cons, List.not_mem_nil, or_false] at hk
      omega
    · intro hl
      rcases room_labels (b := b) ht with ⟨h1, h2, _⟩ | ⟨_, h2, _⟩
      · refine ⟨room b, h1, by omega, num_ok hn, fun _ => ?_⟩
        cases p with
        | none =>
          have := absent_head hn
          rw [hb] at this
          cases this
          exact absurd rfl hb1
        | some _ => rfl
      · exact absurd h2 hl

theorem fits_status {v : Status} {i o : List UInt8} (h : status (some v) i o) : StatusOk true v ↔ StatusFits v := by
  obtain ⟨ty, p⟩ := v
  obtain ⟨b, hb, hb1, rfl, hn⟩ := h
  simp only at hn
  unfold StatusOk StatusFits
  simp only
  constructor
  · rintro ⟨k, hk, hl, _⟩
    simp only [sizes, List.mem_cons, List.not_mem_nil, or_false] at hk
    omega
  · intro hl
    rcases room_labels (b := b) (Or.inr rfl) with ⟨h1, h2, _⟩ | ⟨_, h2, _⟩
    · refine ⟨room b, h1, by omega, num_ok hn, fun _ => ?_⟩
      cases p with
      | none =>
        have := absent_head hn
        rw [hb] at this
        cases this
        exact absurd rfl hb1
      | some _ => rfl
    · exact absurd h2 hl

/-! ## Lists -/

theorem rtimes_mem {g : α → Rel} {as : List α} {i o : List UInt8} (h : times g as i o) : ∀ a ∈ as, ∃ i o, g a i o := by
  induction as generalizing i with
  | nil => simp
  | cons a as ih =>
    obtain ⟨m, h1, h2⟩ := h
    intro x hx
    rcases List.mem_cons.1 hx with rfl | hx
    · exact ⟨_, _, h1⟩
    · exact ih h2 x hx

theorem listOf_mem {g : α → Rel} {as : List α} {i o : List UInt8} (h : listOf g as i o) : ∀ a ∈ as, ∃ i o, g a i o := by
  obtain ⟨_, _, _, _, h⟩ := h
  exact rtimes_mem h

/-- The relabelled value, too. -/
theorem fits_asUnsigned {v : Value} {i o : List UInt8} (h : value (some v) i o) : ValOk true (asUnsigned v) ↔ ValueFits (asUnsigned v) := by
  obtain ⟨ty, d⟩ := v
  obtain ⟨b, hb, hb1, h⟩ := h
  unfold ValOk ValueFits asUnsigned
  cases d with
  | bytes p =>
    simp only
    constructor <;> (rintro ⟨h1, _⟩; omega)
  | boolean p =>
    simp only
    constructor
    · rintro ⟨h1, _⟩
      omega
    · intro h1
      omega
  | num p =>
    simp only at h ⊢
    obtain ⟨t, ht, rfl, hn⟩ := h
    constructor
    · rintro ⟨k, hk, hl, _⟩
      simp only [sizes, List.mem_cons, List.not_mem_nil, or_false] at hk
      omega
    · intro hl
      rcases room_labels (b := b) ht with ⟨h1, h2, _⟩ | ⟨_, h2, _⟩
      · have h1' := h1
        simp only [sizes, List.mem_cons, List.not_mem_nil, or_false] at h1'
        refine ⟨room b, h1, by omega, num_ok hn, fun _ => ?_⟩
        cases p with
        | none =>
          have := absent_head hn
          rw [hb] at this
          cases this
          exact absurd rfl hb1
        | some _ => rfl
      · omega

theorem fits_entry {e : ListEntry} {b : UInt8} {i o : List UInt8} (h : entry (e, b) i o) :
    (ListEntryOk true e ↔ ListEntryFits e) ∧
    (ListEntryOk true { e with value := e.value.map asUnsigned } ↔ ListEntryFits { e with value := e.value.map asUnsigned }) := by
  obtain ⟨_, _, _, h1, _, h2, _, h3, _, h4, _, h5, _, _, _, h6, h7⟩ := h
  simp only at h1 h2 h3 h4 h5 h6 h7
  have e2 : Opt (StatusOk true) e.status ↔ Opt StatusFits e.status := opt_fits fun _ x => fits_status (x ▸ h2)
  have e3 : Opt (TimeOk true) e.valTime ↔ Opt TimeFits e.valTime := opt_fits fun _ x => fits_time (x ▸ h3)
  have e6 : Opt (ValOk true) e.value ↔ Opt ValueFits e.value := opt_fits fun _ x => fits_value (x ▸ h6)
  have e7 : Opt (ValOk true) (e.value.map asUnsigned) ↔ Opt ValueFits (e.value.map asUnsigned) := by
    refine opt_fits fun a x => ?_
    cases hv : e.value with
    | none => rw [hv] at x; cases x
    | some v =>
      rw [hv] at x h6
      cases x
      exact fits_asUnsigned h6
  unfold ListEntryOk ListEntryFits
  simp only
  rw [str_fits, str_fits, e2, e3, e6, e7]
  exact ⟨⟨fun ⟨a1, a2, a3, _, _, a4, a5⟩ => ⟨a1, a2, a3, a4, a5⟩, fun ⟨a1, a2, a3, a4, a5⟩ => ⟨a1, a2, a3, num_ok h4, num_ok h5, a4, a5⟩⟩,
    ⟨fun ⟨a1, a2, a3, _, _, a4, a5⟩ => ⟨a1, a2, a3, a4, a5⟩, fun ⟨a1, a2, a3, a4, a5⟩ => ⟨a1, a2, a3, num_ok h4, num_ok h5, a4, a5⟩⟩⟩

theorem corrected_fits {seen : Bool} {sent : List (ListEntry × UInt8)} {es : List ListEntry} (h : Corrected seen sent es)
    (hs : ∀ x ∈ sent, ∃ i o, entry x i o) : ∀ e ∈ es, (ListEntryOk true e ↔ ListEntryFits e) := by
  induction h with
  | nil => simp
  | @serial _ e b _ _ _ _ ih =>
    intro x hx
    rcases List.mem_cons.1 hx with rfl | hx
    · obtain ⟨i, o, h⟩ := hs (x, b) (by simp)
      exact (fits_entry h).1
    · exact ih (fun y hy => hs y (by simp [hy])) x hx
  | @power e b _ _ _ _ _ _ ih =>
    intro x hx
    rcases List.mem_cons.1 hx with rfl | hx
    · obtain ⟨i, o, h⟩ := hs (e, b) (by simp)
      exact (fits_entry h).2
    · exact ih (fun y hy => hs y (by simp [hy])) x hx
  | @other _ e b _ _ _ _ _ ih =>
    intro x hx
    rcases List.mem_cons.1 hx with rfl | hx
    · obtain ⟨i, o, h⟩ := hs (x, b) (by simp)
      exact (fits_entry h).1
    · exact ih (fun y hy => hs y (by simp [hy])) x hx

theorem fits_entries {es : List ListEntry} {i o : List UInt8} (h : entries es i o) : ListOk true es ↔ ListFits es := by
  have : ∀ e ∈ es, (ListEntryOk true e ↔ ListEntryFits e) := by
    rcases h with ⟨rfl, _⟩ | ⟨sent, h1, h2⟩
    · simp
    · exact corrected_fits h1 (listOf_mem h2)
  exact ⟨fun ⟨h1, h2, h3⟩ => ⟨h1, fun e he => (this e he).1 (h2 e he), h3 rfl⟩,
    fun ⟨h1, h2, h3⟩ => ⟨h1, fun e he => (this e he).2 (h2 e he), fun _ => h3⟩⟩

theorem seq_fits {P : Option α → Prop} {Q : α → Prop} {g : Option α → Rel} {q : Option (Sequence α)} {i o : List UInt8}
    (hg : ∀ e i o, g e i o → (P e ↔ Opt Q e)) (h : sequence g q i o) : SeqOk true P q ↔ SeqFits Q q := by
  cases q with
  | none => exact h.elim
  | some q =>
    have := listOf_mem h
    constructor
    · rintro ⟨h1, _⟩ x hx
      obtain ⟨h2, h3⟩ := h1 x hx
      cases hx
      refine ⟨h2, fun e he => ?_⟩
      obtain ⟨_, _, h4⟩ := this e he
      exact (hg _ _ _ h4).1 (h3 e he)
    · intro h1
      refine ⟨fun x hx => ?_, fun _ => rfl⟩
      obtain ⟨h2, h3⟩ := h1 x hx
      cases hx
      refine ⟨h2, fun e he => ?_⟩
      obtain ⟨_, _, h4⟩ := this e he
      exact (hg _ _ _ h4).2 (h3 e he)

theorem seq_opt {P Q : α → Prop} {g : Option α → Rel} {q : Option (Sequence α)} {i o : List UInt8}
    (hg : ∀ {e i o}, g (some e) i o → (P e ↔ Q e)) (h : sequence g q i o) : SeqOk true (Opt P) q ↔ SeqFits Q q :=
  seq_fits (fun _ _ _ he => opt_fits fun _ x => hg (x ▸ he)) h

theorem seq_some {P Q : α → Prop} {g : Option α → Rel} {q : Option (Sequence α)} {i o : List UInt8}
    (hg : ∀ {e i o}, g (some e) i o → (P e ↔ Q e)) (hn : ∀ i o, ¬ g none i o) (h : sequence g q i o) :
    SeqOk true (Some P) q ↔ SeqFits Q q := by
  refine seq_fits (fun e i o he => ?_) h
  cases e with
  | none => exact (hn _ _ he).elim
  | some e =>
    constructor
    · rintro ⟨a, ha, h⟩ b hb
      cases ha
      cases hb
      exact (hg he).1 h
    · intro h
      exact ⟨e, rfl, (hg he).2 (h e rfl)⟩

theorem fits_path {p : TreePath} {i o : List UInt8} (h : path (some p) i o) : PathOk true p ↔ PathFits p := by
  obtain ⟨es, h1, _⟩ := h
  unfold PathOk PathFits
  constructor
  · rintro ⟨a, b, c⟩
    exact ⟨a, b, fun e he => str_fits.1 (c e he).1⟩
  · rintro ⟨a, b, c⟩
    refine ⟨a, b, fun e he => ⟨str_fits.2 (c e he), fun _ => ?_⟩⟩
    rw [h1] at he
    exact (List.mem_filter.1 he).2

/-! ## Trees -/

theorem fits_periodEntry {m : PeriodEntry} {i o : List UInt8} (h : periodEntry (some m) i o) : PeriodEntryOk true m ↔ PeriodEntryFits m := by
  obtain ⟨_, _, _, h0, _, h1, _, h2, _, h3, h4⟩ := h
  have e : Opt (ValOk true) m.value ↔ Opt ValueFits m.value := opt_fits fun _ x => fits_value (x ▸ h3)
  unfold PeriodEntryOk PeriodEntryFits
  rw [str_fits, str_fits, e]
  exact ⟨fun ⟨a, _, _, b, c⟩ => ⟨a, b, c⟩, fun ⟨a, b, c⟩ => ⟨a, num_ok h1, num_ok h2, b, c⟩⟩

theorem fits_ppv {v : ProcParValue} {i o : List UInt8} (h : procParValue (some v) i o) : PpvOk true v ↔ PpvFits v := by
  obtain ⟨tag, d⟩ := v
  obtain ⟨t, rfl, _, _, _, h1, h2⟩ := h
  have ht := num_some h1
  unfold PpvOk PpvFits
  simp only at h2 ⊢
  cases d with
  | null => exact h2.elim
  | value p =>
    have e : Opt (ValOk true) p ↔ Opt ValueFits p := opt_fits fun _ x => fits_value (x ▸ h2.2)
    simp only
    exact ⟨fun ⟨_, _, _, _, a⟩ => e.1 a, fun a => ⟨t, rfl, ht, h2.1, e.2 a⟩⟩
  | periodEntry p =>
    have e : Opt (PeriodEntryOk true) p ↔ Opt PeriodEntryFits p := opt_fits fun _ x => fits_periodEntry (x ▸ h2.2)
    simp only
    exact ⟨fun ⟨_, _, _, _, a⟩ => e.1 a, fun a => ⟨t, rfl, ht, h2.1, e.2 a⟩⟩
  | tupelEntry p =>
    simp only
    exact ⟨fun ⟨_, _, _, a⟩ => a, fun a => a.elim⟩
  | time p =>
    have e : Opt (TimeOk true) p ↔ Opt TimeFits p := opt_fits fun _ x => fits_time (x ▸ h2.2)
    simp only
    exact ⟨fun ⟨_, _, _, _, a⟩ => e.1 a, fun a => ⟨t, rfl, ht, h2.1, e.2 a⟩⟩

theorem fits_tree {depth : Nat} : ∀ {t : Tree} {i o : List UInt8}, tree depth (some t) i o → (TreeFits true t ↔ TreePlain t) := by
  induction depth with
  | zero => intro t i o h; exact h.elim
  | succ depth ih =>
    intro t i o h
    obtain ⟨name, v, cs⟩ := t
    obtain ⟨_, _, _, h1, _, h2, h3⟩ := h
    have e : Opt (PpvOk true) v ↔ Opt PpvFits v := opt_fits fun _ x => fits_ppv (x ▸ h2)
    have hc : ∀ c ∈ cs, (TreeFits true c ↔ TreePlain c) := by
      rcases h3 with ⟨rfl, _⟩ | ⟨l, rfl, h3⟩
      · simp
      · intro c hc
        obtain ⟨x, hx, hxc⟩ := List.mem_filterMap.1 hc
        simp only [id_eq] at hxc
        subst hxc
        obtain ⟨_, _, h4⟩ := listOf_mem h3 _ hx
        exact ih h4
    constructor
    · rintro ⟨a1, a2, a3, a4⟩
      exact ⟨str_fits.1 a1, e.1 a2, a3, fun c h => (hc c h).1 (a4 c h)⟩
    · rintro ⟨a1, a2, a3, a4⟩
      exact ⟨str_fits.2 a1, e.2 a2, a3, fun c h => (hc c h).2 (a4 c h)⟩

/-! ## Message bodies -/

theorem fits_openRequest {m : OpenRequest} {i o : List UInt8} (h : openRequest m i o) : OpenRequestOk true m ↔ OpenRequestFits m := by
  obtain ⟨_, _, _, h0, _, h1, _, h2, _, h3, _, h4, _, h5, h6⟩ := h
  exact ⟨fun ⟨a0, a1, a2, a3, a4, a5, _⟩ => ⟨(str_fits).1 a0, (str_fits).1 a1, (str_fits).1 a2, (str_fits).1 a3, (str_fits).1 a4, (str_fits).1 a5⟩, fun ⟨b0, b1, b2, b3, b4, b5⟩ => ⟨(str_fits).2 b0, (str_fits).2 b1, (str_fits).2 b2, (str_fits).2 b3, (str_fits).2 b4, (str_fits).2 b5, num_ok h6⟩⟩

theorem fits_openResponse {m : OpenResponse} {i o : List UInt8} (h : openResponse m i o) : OpenResponseOk true m ↔ OpenResponseFits m := by
  obtain ⟨_, _, _, h0, _, h1, _, h2, _, h3, _, h4, h5⟩ := h
  exact ⟨fun ⟨a0, a1, a2, a3, a4, _⟩ => ⟨(str_fits).1 a0, (str_fits).1 a1, (str_fits).1 a2, (str_fits).1 a3, (opt_fits fun _ e => fits_time (e ▸ h4)).1 a4⟩, fun ⟨b0, b1, b2, b3, b4⟩ => ⟨(str_fits).2 b0, (str_fits).2 b1, (str_fits).2 b2, (str_fits).2 b3, (opt_fits fun _ e => fits_time (e ▸ h4)).2 b4, num_ok h5⟩⟩

theorem fits_closeRequest {m : CloseRequest} {i o : List UInt8} (h : closeRequest m i o) : CloseRequestOk true m ↔ CloseRequestFits m := by
  obtain ⟨_, _, h0⟩ := h
  exact ⟨fun a0 => (str_fits).1 a0, fun b0 => (str_fits).2 b0⟩

theorem fits_closeResponse {m : CloseResponse} {i o : List UInt8} (h : closeResponse m i o) : CloseResponseOk true m ↔ CloseResponseFits m := by
  obtain ⟨_, _, h0⟩ := h
  exact ⟨fun a0 => (str_fits).1 a0, fun b0 => (str_fits).2 b0⟩

theorem fits_valueEntry {m : ValueEntry} {i o : List UInt8} (h : valueEntry (some m) i o) : ValueEntryOk true m ↔ ValueEntryFits m := by
  obtain ⟨_, _, _, h0, h1⟩ := h
  exact ⟨fun ⟨a0, a1⟩ => ⟨(opt_fits fun _ e => fits_value (e ▸ h0)).1 a0, (str_fits).1 a1⟩, fun ⟨b0, b1⟩ => ⟨(opt_fits fun _ e => fits_value (e ▸ h0)).2 b0, (str_fits).2 b1⟩⟩

theorem fits_profObjHeaderEntry {m : ProfObjHeaderEntry} {i o : List UInt8} (h : profObjHeaderEntry (some m) i o) : ProfObjHeaderEntryOk true m ↔ ProfObjHeaderEntryFits m := by
  obtain ⟨_, _, _, h0, _, h1, h2⟩ := h
  exact ⟨fun ⟨a0, _, _⟩ => (str_fits).1 a0, fun b0 => ⟨(str_fits).2 b0, num_ok h1, num_ok h2⟩⟩

theorem fits_profObjPeriodEntry {m : ProfObjPeriodEntry} {i o : List UInt8} (h : profObjPeriodEntry (some m) i o) : ProfObjPeriodEntryOk true m ↔ ProfObjPeriodEntryFits m := by
  obtain ⟨_, _, _, h0, _, h1, _, h2, h3⟩ := h
  exact ⟨fun ⟨a0, _, a2, a3⟩ => ⟨(opt_fits fun _ e => fits_time (e ▸ h0)).1 a0, (seq_some fits_valueEntry (fun _ _ h => h) h2).1 a2, (str_fits).1 a3⟩, fun ⟨b0, b2, b3⟩ => ⟨(opt_fits fun _ e => fits_time (e ▸ h0)).2 b0, num_ok h1, (seq_some fits_valueEntry (fun _ _ h => h) h2).2 b2, (str_fits).2 b3⟩⟩

theorem fits_getProfilePackResponse {m : GetProfilePackResponse} {i o : List UInt8} (h : getProfilePackResponse m i o) : GetProfilePackResponseOk true m ↔ GetProfilePackResponseFits m := by
  obtain ⟨_, _, _, h0, _, h1, _, h2, _, h3, _, h4, _, h5, _, h6, h7⟩ := h
  exact ⟨fun ⟨a0, a1, _, a3, a4, a5, a6, a7⟩ => ⟨(str_fits).1 a0, (opt_fits fun _ e => fits_time (e ▸ h1)).1 a1, (opt_fits fun _ e => fits_path (e ▸ h3)).1 a3, (seq_some fits_profObjHeaderEntry (fun _ _ h => h) h4).1 a4, (seq_some fits_profObjPeriodEntry (fun _ _ h => h) h5).1 a5, (str_fits).1 a6, (str_fits).1 a7⟩, fun ⟨b0, b1, b3, b4, b5, b6, b7⟩ => ⟨(str_fits).2 b0, (opt_fits fun _ e => fits_time (e ▸ h1)).2 b1, num_ok h2, (opt_fits fun _ e => fits_path (e ▸ h3)).2 b3, (seq_some fits_profObjHeaderEntry (fun _ _ h => h) h4).2 b4, (seq_some fits_profObjPeriodEntry (fun _ _ h => h) h5).2 b5, (str_fits).2 b6, (str_fits).2 b7⟩⟩

theorem fits_getProfileListResponse {m : GetProfileListResponse} {i o : List UInt8} (h : getProfileListResponse m i o) : GetProfileListResponseOk true m ↔ GetProfileListResponseFits m := by
  obtain ⟨_, _, _, h0, _, h1, _, h2, _, h3, _, h4, _, h5, _, h6, _, h7, h8⟩ := h
  exact ⟨fun ⟨a0, a1, _, a3, a4, _, a6, a7, a8⟩ => ⟨(str_fits).1 a0, (opt_fits fun _ e => fits_time (e ▸ h1)).1 a1, (opt_fits fun _ e => fits_path (e ▸ h3)).1 a3, (opt_fits fun _ e => fits_time (e ▸ h4)).1 a4, (seq_opt fits_periodEntry h6).1 a6, (str_fits).1 a7, (str_fits).1 a8⟩, fun ⟨b0, b1, b3, b4, b6, b7, b8⟩ => ⟨(str_fits).2 b0, (opt_fits fun _ e => fits_time (e ▸ h1)).2 b1, num_ok h2, (opt_fits fun _ e => fits_path (e ▸ h3)).2 b3, (opt_fits fun _ e => fits_time (e ▸ h4)).2 b4, num_ok h5, (seq_opt fits_periodEntry h6).2 b6, (str_fits).2 b7, (str_fits).2 b8⟩⟩

theorem fits_getProcParameterRequest {m : GetProcParameterRequest} {i o : List UInt8} (h : getProcParameterRequest m i o) : GetProcParameterRequestOk true m ↔ GetProcParameterRequestFits m := by
  obtain ⟨_, _, _, h0, _, h1, _, h2, _, h3, h4⟩ := h
  exact ⟨fun ⟨a0, a1, a2, a3, a4⟩ => ⟨(str_fits).1 a0, (str_fits).1 a1, (str_fits).1 a2, (opt_fits fun _ e => fits_path (e ▸ h3)).1 a3, (str_fits).1 a4⟩, fun ⟨b0, b1, b2, b3, b4⟩ => ⟨(str_fits).2 b0, (str_fits).2 b1, (str_fits).2 b2, (opt_fits fun _ e => fits_path (e ▸ h3)).2 b3, (str_fits).2 b4⟩⟩

theorem fits_getProcParameterResponse {m : GetProcParameterResponse} {depth : Nat} {i o : List UInt8} (h : getProcParameterResponse depth m i o) : GetProcParameterResponseOk true m ↔ GetProcParameterResponseFits m := by
  obtain ⟨_, _, _, h0, _, h1, h2⟩ := h
  exact ⟨fun ⟨a0, a1, a2⟩ => ⟨(str_fits).1 a0, (opt_fits fun _ e => fits_path (e ▸ h1)).1 a1, (opt_fits fun _ e => fits_tree (e ▸ h2)).1 a2⟩, fun ⟨b0, b1, b2⟩ => ⟨(str_fits).2 b0, (opt_fits fun _ e => fits_path (e ▸ h1)).2 b1, (opt_fits fun _ e => fits_tree (e ▸ h2)).2 b2⟩⟩

theorem fits_setProcParameterRequest {m : SetProcParameterRequest} {depth : Nat} {i o : List UInt8} (h : setProcParameterRequest depth m i o) : SetProcParameterRequestOk true m ↔ SetProcParameterRequestFits m := by
  obtain ⟨_, _, _, h0, _, h1, _, h2, _, h3, h4⟩ := h
  exact ⟨fun ⟨a0, a1, a2, a3, a4⟩ => ⟨(str_fits).1 a0, (str_fits).1 a1, (str_fits).1 a2, (opt_fits fun _ e => fits_path (e ▸ h3)).1 a3, (opt_fits fun _ e => fits_tree (e ▸ h4)).1 a4⟩, fun ⟨b0, b1, b2, b3, b4⟩ => ⟨(str_fits).2 b0, (str_fits).2 b1, (str_fits).2 b2, (opt_fits fun _ e => fits_path (e ▸ h3)).2 b3, (opt_fits fun _ e => fits_tree (e ▸ h4)).2 b4⟩⟩

theorem fits_getListRequest {m : GetListRequest} {i o : List UInt8} (h : getListRequest m i o) : GetListRequestOk true m ↔ GetListRequestFits m := by
  obtain ⟨_, _, _, h0, _, h1, _, h2, _, h3, h4⟩ := h
  exact ⟨fun ⟨a0, a1, a2, a3, a4⟩ => ⟨(str_fits).1 a0, (str_fits).1 a1, (str_fits).1 a2, (str_fits).1 a3, (str_fits).1 a4⟩, fun ⟨b0, b1, b2, b3, b4⟩ => ⟨(str_fits).2 b0, (str_fits).2 b1, (str_fits).2 b2, (str_fits).2 b3, (str_fits).2 b4⟩⟩

theorem fits_getListResponse {m : GetListResponse} {i o : List UInt8} (h : getListResponse m i o) : GetListResponseOk true m ↔ GetListResponseFits m := by
  obtain ⟨_, _, _, h0, _, h1, _, h2, _, h3, _, h4, _, h5, h6⟩ := h
  exact ⟨fun ⟨a0, a1, a2, a3, a4, a5, a6⟩ => ⟨(str_fits).1 a0, (str_fits).1 a1, (str_fits).1 a2, (opt_fits fun _ e => fits_time (e ▸ h3)).1 a3, (fits_entries h4).1 a4, (str_fits).1 a5, (opt_fits fun _ e => fits_time (e ▸ h6)).1 a6⟩, fun ⟨b0, b1, b2, b3, b4, b5, b6⟩ => ⟨(str_fits).2 b0, (str_fits).2 b1, (str_fits).2 b2, (opt_fits fun _ e => fits_time (e ▸ h3)).2 b3, (fits_entries h4).2 b4, (str_fits).2 b5, (opt_fits fun _ e => fits_time (e ▸ h6)).2 b6⟩⟩

theorem fits_attentionResponse {m : AttentionResponse} {depth : Nat} {i o : List UInt8} (h : attentionResponse depth m i o) : AttentionResponseOk true m ↔ AttentionResponseFits m := by
  obtain ⟨_, _, _, h0, _, h1, _, h2, h3⟩ := h
  exact ⟨fun ⟨a0, a1, a2, a3⟩ => ⟨(str_fits).1 a0, (str_fits).1 a1, (str_fits).1 a2, (opt_fits fun _ e => fits_tree (e ▸ h3)).1 a3⟩, fun ⟨b0, b1, b2, b3⟩ => ⟨(str_fits).2 b0, (str_fits).2 b1, (str_fits).2 b2, (opt_fits fun _ e => fits_tree (e ▸ h3)).2 b3⟩⟩

theorem fits_getProfilePackRequest {m : GetProfilePackRequest} {depth : Nat} {i o : List UInt8} (h : getProfilePackRequest depth m i o) : GetProfilePackRequestOk true m ↔ GetProfilePackRequestFits m := by
  obtain ⟨_, _, _, h0, _, h1, _, h2, _, h3, _, h4, _, h5, _, h6, _, h7, h8⟩ := h
  exact ⟨fun ⟨a0, a1, a2, _, a4, a5, a6, a7, a8⟩ => ⟨(str_fits).1 a0, (str_fits).1 a1, (str_fits).1 a2, (opt_fits fun _ e => fits_time (e ▸ h4)).1 a4, (opt_fits fun _ e => fits_time (e ▸ h5)).1 a5, (opt_fits fun _ e => fits_path (e ▸ h6)).1 a6, a7, (opt_fits fun _ e => fits_tree (e ▸ h8)).1 a8⟩, fun ⟨b0, b1, b2, b4, b5, b6, b7, b8⟩ => ⟨(str_fits).2 b0, (str_fits).2 b1, (str_fits).2 b2, bool_ok h3, (opt_fits fun _ e => fits_time (e ▸ h4)).2 b4, (opt_fits fun _ e => fits_time (e ▸ h5)).2 b5, (opt_fits fun _ e => fits_path (e ▸ h6)).2 b6, b7, (opt_fits fun _ e => fits_tree (e ▸ h8)).2 b8⟩⟩


/-! ## Messages -/

theorem must_fits {P Q : α → Prop} {g : α → Rel} {p : Option α} {i o : List UInt8} (h : must g p i o)
    (hg : ∀ {a i o}, g a i o → (P a ↔ Q a)) : Some P p ↔ Opt Q p := by
  cases p with
  | none => exact h.elim
  | some a =>
    constructor
    · rintro ⟨x, hx, h1⟩ y hy
      cases hx
      cases hy
      exact (hg h).1 h1
    · intro h1
      exact ⟨a, rfl, (hg h).2 (h1 a rfl)⟩

theorem fits_body {depth : Nat} {b : MessageBody} {i o : List UInt8} (h : body depth (some b) i o) : MessageBodyOk true b ↔ BodyFits b := by
  obtain ⟨tag, d⟩ := b
  obtain ⟨t, rfl, _, _, _, h1, h2⟩ := h
  have ht := num_some h1
  unfold MessageBodyOk BodyFits
  simp only at h2 ⊢
  have key : ∀ {Q : Prop}, (BodyDataOk true t.val d ↔ Q) → ((∃ t', some t = some t' ∧ NumOk true 4 t' ∧ BodyDataOk true t'.val d) ↔ Q) := by
    intro Q hq
    constructor
    · rintro ⟨t', ht', _, h⟩
      cases ht'
      exact hq.1 h
    · intro h
      exact ⟨t, rfl, ht, hq.2 h⟩
  apply key
  cases d with
  | null => exact Iff.rfl
  | openRequest p => exact ⟨fun ⟨_, a⟩ => (must_fits h2.2 fits_openRequest).1 a, fun a => ⟨h2.1, (must_fits h2.2 fits_openRequest).2 a⟩⟩
  | openResponse p => exact ⟨fun ⟨_, a⟩ => (must_fits h2.2 fits_openResponse).1 a, fun a => ⟨h2.1, (must_fits h2.2 fits_openResponse).2 a⟩⟩
  | closeRequest p => exact ⟨fun ⟨_, a⟩ => (must_fits h2.2 fits_closeRequest).1 a, fun a => ⟨h2.1, (must_fits h2.2 fits_closeRequest).2 a⟩⟩
  | closeResponse p => exact ⟨fun ⟨_, a⟩ => (must_fits h2.2 fits_closeResponse).1 a, fun a => ⟨h2.1, (must_fits h2.2 fits_closeResponse).2 a⟩⟩
  | getProfilePackRequest p => exact ⟨fun ⟨_, a⟩ => (must_fits h2.2 fits_getProfilePackRequest).1 a, fun a => ⟨h2.1, (must_fits h2.2 fits_getProfilePackRequest).2 a⟩⟩
  | getProfilePackResponse p => exact ⟨fun ⟨_, a⟩ => (must_fits h2.2 fits_getProfilePackResponse).1 a, fun a => ⟨h2.1, (must_fits h2.2 fits_getProfilePackResponse).2 a⟩⟩
  | getProfileListRequest p => exact ⟨fun ⟨_, a⟩ => (must_fits h2.2 fits_getProfilePackRequest).1 a, fun a => ⟨h2.1, (must_fits h2.2 fits_getProfilePackRequest).2 a⟩⟩
  | getProfileListResponse p => exact ⟨fun ⟨_, a⟩ => (must_fits h2.2 fits_getProfileListResponse).1 a, fun a => ⟨h2.1, (must_fits h2.2 fits_getProfileListResponse).2 a⟩⟩
  | getProcParameterRequest p => exact ⟨fun ⟨_, a⟩ => (must_fits h2.2 fits_getProcParameterRequest).1 a, fun a => ⟨h2.1, (must_fits h2.2 fits_getProcParameterRequest).2 a⟩⟩
  | getProcParameterResponse p => exact ⟨fun ⟨_, a⟩ => (must_fits h2.2 fits_getProcParameterResponse).1 a, fun a => ⟨h2.1, (must_fits h2.2 fits_getProcParameterResponse).2 a⟩⟩
  | setProcParameterRequest p => exact ⟨fun ⟨_, a⟩ => (must_fits h2.2 fits_setProcParameterRequest).1 a, fun a => ⟨h2.1, (must_fits h2.2 fits_setProcParameterRequest).2 a⟩⟩
  | getListRequest p => exact ⟨fun ⟨_, a⟩ => (must_fits h2.2 fits_getListRequest).1 a, fun a => ⟨h2.1, (must_fits h2.2 fits_getListRequest).2 a⟩⟩
  | getListResponse p => exact ⟨fun ⟨_, a⟩ => (must_fits h2.2 fits_getListResponse).1 a, fun a => ⟨h2.1, (must_fits h2.2 fits_getListResponse).2 a⟩⟩
  | attentionResponse p => exact ⟨fun ⟨_, a⟩ => (must_fits h2.2 fits_attentionResponse).1 a, fun a => ⟨h2.1, (must_fits h2.2 fits_attentionResponse).2 a⟩⟩

theorem fits_message {depth : Nat} {m : Message} {i o : List UInt8} (h : message depth (some m) i o) : MessageOk true m ↔ MessageFits m := by
  obtain ⟨_, _, _, _, _, ⟨_, _, ⟨_, _, _, h1, _, h2, _, h3, h4⟩, _⟩, _⟩ := h
  unfold MessageOk MessageFits
  rw [str_fits]
  have e : ∀ b, m.messageBody = some b → (MessageBodyOk true b ↔ BodyFits b) := fun b hb => fits_body (hb ▸ h4)
  constructor
  · rintro ⟨a, _, _, b, hb, c⟩
    exact ⟨a, b, hb, (e b hb).1 c⟩
  · rintro ⟨a, b, hb, c⟩
    exact ⟨a, num_ok h2, num_ok h3, b, hb, (e b hb).2 c⟩

/-- The messages of a telegram are messages. -/
theorem telegram_mem {depth : Nat} {i : List UInt8} {ms : List Message} (h : Telegram depth i ms) :
    ∀ m ∈ ms, ∃ i o, message depth (some m) i o := by
  induction h with
  | done => simp
  | padding _ ih => exact ih
  | deliver h1 _ ih =>
    intro m hm
    rcases List.mem_cons.1 hm with rfl | hm
    · exact ⟨_, _, h1⟩
    · exact ih m hm
  | drop _ _ ih => exact ih
  | stop _ _ _ => simp

end Sml
