import Verif.Spec.Dzg
import Verif.Spec.Util
import Verif.Proofs.Content
import Verif.Proofs.Block
import Verif.Proofs.MinMessage

/-!
# The workaround for the DZG DVS74
-/

namespace Sml

open Spec

theorem detect_exact (l : ListEntry) {st s : St} {b : Bool} (h : detectBuggyDzgDvs74 l st = .ok b s) :
    s = st ∧ (b = true ↔ IsDzgSerial l) := by
  refine ⟨?_, detect_dzg l st b s h, ?_⟩
  · have key : Wlp (detectBuggyDzgDvs74 l) st fun _ s => s = st := by
      unfold detectBuggyDzgDvs74
      cases l.objName with
      | none => simp
      | some name =>
        simp only [wlp_ite, wlp_pure]
        refine ⟨fun _ => trivial, fun _ => ?_⟩
        cases l.value with
        | none => simp
        | some v =>
          simp only [wlp_ite, wlp_pure]
          refine ⟨fun _ => trivial, fun _ => ?_⟩
          split <;> simp [wlp_ite, wlp_pure]
    exact key b s h
  · rintro ⟨h1, v, t, h2, h3, h4, h5, h6, h7⟩
    have e5 := dzgSerial_eq (t.str.drop 5) (by simp; omega)
    have : detectBuggyDzgDvs74 l st = .ok true st := by
      unfold detectBuggyDzgDvs74
      rw [h1]
      simp only
      rw [if_neg (by simp [dzgSerialOid]), h2]
      simp only
      rw [if_neg (by simpa [tyOctet] using h3), h4]
      simp only
      rw [if_neg (by simpa using h5), if_neg (by simpa [dzgSerialStart] using h6), e5]
      have : ((decide (number (t.str.drop 5) ≥ 42000000) && decide (number (t.str.drop 5) ≤ 48999999)) ||
                    (decide (number (t.str.drop 5) ≥ 55000000) && decide (number (t.str.drop 5) ≤ 58999999))) = true := by simpa using h7
      rw [this]
      rfl
    rw [this] at h
    injection h with h1 _
    exact h1.symm

theorem field_inv {p : M α} {set : α → R} {freed : R → Nat} {k : R → M (Option β)} {st s : St} {r : Option β}
    (h : field p set freed k st = .ok r s) (he : s.error = false) :
    ∃ v s', p st = .ok v s' ∧ s'.error = false ∧ k (set v) s' = .ok r s := by
  unfold field at h
  obtain ⟨v, s', h1, h2⟩ := bind_inv h
  have hh : hasErrors s' = .ok s'.error s' := rfl
  simp only at h2
  rw [bind_ok hh] at h2
  cases hs : s'.error with
  | false => rw [hs] at h2; exact ⟨v, s', h1, hs, h2⟩
  | true =>
    rw [hs] at h2
    have := sticky_bind (sticky_release _) (fun _ => sticky_pure _) s' hs _ _ h2
    cases he.symm.trans this

/-- The effect on one entry. -/
theorem short_iff (b : UInt8) : (b &&& 0x8F = 1 ∨ b &&& 0x8F = 2 ∨ b &&& 0x8F = 3) ↔ ShortHeader b := by
  have key : ∀ n : Fin 256, let b := UInt8.ofNat n
    (b &&& 0x8F = 1 ∨ b &&& 0x8F = 2 ∨ b &&& 0x8F = 3) ↔ (n.val < 128 ∧ 1 ≤ n.val % 16 ∧ n.val % 16 ≤ 3) := by
    decide +kernel
  have := key ⟨b.toNat, UInt8.toNat_lt b⟩
  simp only [UInt8.ofNat_toNat] at this
  exact this

theorem retag_eq {v : Value} (hw : WellTyped v) : retag v = asUnsigned v := by
  have : v.type = 0 ∨ v.type = 0x40 ∨ v.type = 0x50 ∨ v.type = 0x70 ∨ v.type = 0x51 ∨ v.type = 0x52 ∨ v.type = 0x54 ∨ v.type = 0x58 ∨
      v.type = 0x61 ∨ v.type = 0x62 ∨ v.type = 0x64 ∨ v.type = 0x68 := by
    unfold WellTyped at hw
    split at hw
    · omega
    · omega
    · omega
    · cases hw
  obtain ⟨t, d⟩ := v
  simp only at this
  unfold retag asUnsigned
  have key : (t &&& 0x8F) ||| tyUnsigned = t % 16 + 0x60 := by
    rcases this with h | h | h | h | h | h | h | h | h | h | h | h <;> subst h <;> decide
  exact congrArg (fun t => (⟨t, d⟩ : Value)) key

theorem noteConfused_run (v : Value) (st : St) : ∃ c, noteConfused v st = .ok () { st with confused := c } := by
  obtain ⟨t, d⟩ := v
  cases d with
  | num p => exact ⟨st.confused, rfl⟩
  | bytes p => exact ⟨true, rfl⟩
  | boolean p => exact ⟨true, rfl⟩

theorem finish_inv {wa wa' : Bool} {st s : St} {e e' : ListEntry} {b : UInt8} (hw : ∀ x, e.value = some x → WellTyped x)
    (h : listEntryFinish e (b &&& 0x8F) wa st = .ok (some (e', wa')) s) :
    ∃ c, s = { st with confused := c } ∧ (wa' = true ↔ wa = true ∨ IsDzgSerial e) ∧
      (wa = true ∧ IsPower e ∧ ShortHeader b → e' = { e with value := e.value.map asUnsigned }) ∧
      (¬ (wa = true ∧ IsPower e ∧ ShortHeader b) → e' = e) := by
  unfold listEntryFinish at h
  obtain ⟨d, s8, hd', hk⟩ := bind_inv h
  clear h
  obtain ⟨hs8, hd⟩ := detect_exact _ hd'
  clear hd'
  subst hs8
  cases d with
  | true =>
    have hser := hd.1 rfl
    cases hk
    refine ⟨s.confused, rfl, ⟨fun _ => Or.inr hser, fun _ => rfl⟩, fun hp => ?_, fun _ => rfl⟩
    exfalso
    have h1 := hp.2.1
    unfold IsPower at h1
    have h2 := hser.1
    rw [h1] at h2
    revert h2
    decide
  | false =>
    have hser : ¬ IsDzgSerial e := fun hs => by cases hd.2 hs
    clear hd
    simp only [Bool.false_eq_true, if_false] at hk
    cases wa with
    | false =>
      cases hk
      exact ⟨s.confused, rfl, ⟨Or.inl, fun h => h.elim id fun h => absurd h hser⟩, fun hp => (by cases hp.1), fun _ => rfl⟩
    | true =>
      cases hn : e.objName with
      | none =>
        rw [hn] at hk
        cases hk
        refine ⟨s.confused, rfl, ⟨fun _ => Or.inl rfl, fun _ => rfl⟩, fun hp => ?_, fun _ => rfl⟩
        have h1 := hp.2.1
        unfold IsPower at h1
        rw [hn] at h1
        cases h1
      | some name =>
        cases hv : e.value with
        | none =>
          rw [hn, hv] at hk
          cases hk
          refine ⟨s.confused, rfl, ⟨fun _ => Or.inl rfl, fun _ => rfl⟩, fun hp => ?_, fun _ => rfl⟩
          obtain ⟨_, _, _, _, _, _, _⟩ := e
          simp only at hn hv
          subst hn hv
          rfl
        | some x =>
          rw [hn, hv] at hk
          simp only at hk
          by_cases hh : name.str.length = 6 ∧ name.str = dzgPowerName ∧ (b &&& 0x8F = 1 ∨ b &&& 0x8F = 2 ∨ b &&& 0x8F = 3)
          · rw [if_pos hh] at hk
            obtain ⟨_, s9, hc, hk⟩ := bind_inv hk
            obtain ⟨c, hc'⟩ := noteConfused_run x s8
            rw [hc'] at hc
            cases hc
            cases hk
            have hpow : IsPower e := by
              unfold IsPower
              rw [hn]
              cases name
              exact congrArg some (congrArg _ hh.2.1)
            refine ⟨c, rfl, by simp, fun _ => ?_, fun hno => absurd ⟨rfl, hpow, (short_iff b).1 hh.2.2⟩ hno⟩
            rw [retag_eq (hw x hv)]
            rfl
          · rw [if_neg hh] at hk
            cases hk
            refine ⟨s.confused, rfl, by simp, fun hp => ?_, fun _ => rfl⟩
            exfalso
            obtain ⟨_, hp, hs⟩ := hp
            unfold IsPower at hp
            rw [hn] at hp
            cases hp
            exact hh ⟨rfl, rfl, (short_iff b).2 hs⟩

/-- The entry as sent, and what the workaround made of it. -/
theorem entry_inv {wa wa' : Bool} {st s : St} {e' : ListEntry} (h : listEntryParse wa st = .ok (some (e', wa')) s) (he : s.error = false) :
    ∃ e b s' c, EntryAt st e b s' ∧ s = { s' with confused := c } ∧ (wa' = true ↔ wa = true ∨ IsDzgSerial e) ∧
      (wa = true ∧ IsPower e ∧ ShortHeader b → e' = { e with value := e.value.map asUnsigned }) ∧
      (¬ (wa = true ∧ IsPower e ∧ ShortHeader b) → e' = e) := by
  unfold listEntryParse at h
  obtain ⟨hlt, s0, ht, hl, h⟩ := expectList_inv h
  obtain ⟨_, s0', ha, h⟩ := bind_inv h
  cases ha
  obtain ⟨n, s1, h1, _, h⟩ := field_inv h he
  obtain ⟨sta, s2, h2, _, h⟩ := field_inv h he
  obtain ⟨vt, s3, h3, _, h⟩ := field_inv h he
  obtain ⟨un, s4, h4, _, h⟩ := field_inv h he
  obtain ⟨sc, s5, h5, _, h⟩ := field_inv h he
  obtain ⟨sg, _, hg, h⟩ := bind_inv h
  cases hg
  by_cases hc : s5.cursor ≥ s5.data.length
  · rw [if_pos hc] at h
    unfold failWith at h
    obtain ⟨_, sa, ha, h⟩ := bind_inv h
    obtain ⟨_, sb, hb, h⟩ := bind_inv h
    cases h
  rw [if_neg hc] at h
  obtain ⟨b, sb, hb, hk⟩ := bind_inv h
  have hbyte : s5.data[s5.cursor]? = some b ∧ sb = s5 := by
    unfold getCurrentByte at hb
    split at hb
    · cases hb; exact ⟨by assumption, rfl⟩
    · cases hb
  obtain ⟨hbyte, rfl⟩ := hbyte
  obtain ⟨v, s6, h6, _, h⟩ := field_inv hk he
  obtain ⟨sig, s7, h7, he7, h⟩ := field_inv h he
  have hw : ∀ x, v = some x → WellTyped x := fun x hx => (value_result _ v s6 h6 x hx).1
  have htype : getNextType st = .ok 0x70 st := by
    unfold getNextType
    rw [if_neg (by omega), List.getElem?_eq_getElem hlt]
    simp only [ht]
  have hat : EntryAt st { objName := n, status := sta, valTime := vt, unit := un, scaler := sc, value := v, valueSignature := sig } b s7 :=
    ⟨htype, ⟨_, _, _, _, _, _, _, hl, h1, h2, h3, h4, h5, hbyte, h6, h7⟩, he7⟩
  refine ⟨{ objName := n, status := sta, valTime := vt, unit := un, scaler := sc, value := v, valueSignature := sig }, b, s7, ?_⟩
  obtain ⟨c, hc1, hc2, hc3, hc4⟩ := finish_inv (fun x hx => hw x hx) h
  exact ⟨c, hat, hc1, hc2, hc3, hc4⟩

theorem listLoop_inv (n : Nat) : ∀ (wa : Bool) (acc : List ListEntry) (st s : St) (es : List ListEntry), listLoop n wa acc st = .ok es s → s.error = false →
    ∃ (sent : List (ListEntry × UInt8)) (out : List ListEntry), EntriesAt st sent s ∧ es = acc ++ out ∧ out.length = sent.length ∧ sent.length = n ∧ ∀ (i : Nat) (e : ListEntry) (b : UInt8), sent[i]? = some (e, b) →
      ((wa = true ∨ ∃ (j : Nat) (x : ListEntry × UInt8), j < i ∧ sent[j]? = some x ∧ IsDzgSerial x.1) ∧ IsPower e ∧ ShortHeader b → out[i]? = some { e with value := e.value.map asUnsigned }) ∧
      (¬ ((wa = true ∨ ∃ (j : Nat) (x : ListEntry × UInt8), j < i ∧ sent[j]? = some x ∧ IsDzgSerial x.1) ∧ IsPower e ∧ ShortHeader b) → out[i]? = some e) := by
  induction n with
  | zero =>
    intro wa acc st s es h _
    cases h
    exact ⟨[], [], .nil, by simp, rfl, rfl, by simp⟩
  | succ n ih =>
    intro wa acc st s es h he
    unfold listLoop at h
    obtain ⟨r, s1, h1, h⟩ := bind_inv h
    have hh : hasErrors s1 = .ok s1.error s1 := rfl
    rw [bind_ok hh] at h
    cases hs : s1.error with
    | true =>
      rw [hs] at h
      simp only [if_true] at h
      obtain ⟨_, s2, h2, h⟩ := bind_inv h
      have : s2.error = true := by cases h2; rfl
      have := sticky_bind (sticky_release _) (fun _ => sticky_pure _) s2 this _ _ h
      cases he.symm.trans this
    | false =>
      rw [hs] at h
      simp only [Bool.false_eq_true, if_false] at h
      match r, h1, h with
      | none, _, h => cases h
      | some (e', wa'), h1, h =>
        simp only at h
        obtain ⟨e, b, s', c, hat, rfl, hwa, hyes, hno⟩ := entry_inv h1 hs
        obtain ⟨sent, out, hsent, rfl, hlen, hn, hall⟩ := ih wa' _ _ s es h he
        refine ⟨(e, b) :: sent, e' :: out, .cons hat hsent, by simp, by simp [hlen], by simp [hn], ?_⟩
        intro i x bx hx
        cases i with
        | zero =>
          simp only [List.getElem?_cons_zero, Option.some.injEq, Prod.mk.injEq] at hx
          obtain ⟨rfl, rfl⟩ := hx
          have : (wa = true ∨ ∃ (j : Nat) (x : ListEntry × UInt8), j < 0 ∧ ((e, b) :: sent)[j]? = some x ∧ IsDzgSerial x.1) ↔ wa = true :=
            ⟨fun h => h.elim id (by rintro ⟨j, _, h, _⟩; omega), Or.inl⟩
          rw [this]
          simp only [List.getElem?_cons_zero, Option.some.injEq]
          exact ⟨hyes, hno⟩
        | succ i =>
          simp only [List.getElem?_cons_succ] at hx ⊢
          have hq : (wa = true ∨ ∃ (j : Nat) (x : ListEntry × UInt8), j < i + 1 ∧ ((e, b) :: sent)[j]? = some x ∧ IsDzgSerial x.1) ↔
              (wa' = true ∨ ∃ (j : Nat) (x : ListEntry × UInt8), j < i ∧ sent[j]? = some x ∧ IsDzgSerial x.1) := by
            rw [hwa]
            constructor
            · rintro (h | ⟨j, y, hj, hy, hd⟩)
              · exact Or.inl (Or.inl h)
              · cases j with
                | zero =>
                  simp only [List.getElem?_cons_zero, Option.some.injEq] at hy
                  subst hy
                  exact Or.inl (Or.inr hd)
                | succ j => exact Or.inr ⟨j, y, by omega, by simpa using hy, hd⟩
            · rintro ((h | h) | ⟨j, y, hj, hy, hd⟩)
              · exact Or.inl h
              · exact Or.inr ⟨0, (e, b), by omega, rfl, h⟩
              · exact Or.inr ⟨j + 1, y, by omega, by simpa using hy, hd⟩
          rw [hq]
          exact hall i x bx hx

end Sml
