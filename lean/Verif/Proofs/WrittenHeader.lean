import Verif.Proofs.Emits

/-!
# The headers the library writes, for every length
-/

namespace Sml

open Spec

/-- The loop after a carry: the mask is one digit behind, so that all digits come out as 0. -/
theorem emits_copyLoop_carry (l : Nat) : ∀ (fuel j : Nat), j < fuel →
    Emits (copyLoop fuel (15 * 16 ^ j) (j + 1) l) (contCells 0 j) := by
  intro fuel
  induction fuel with
  | zero => intro j h; omega
  | succ fuel ih =>
    intro j h
    unfold copyLoop
    cases j with
    | zero => simp only [Nat.pow_zero, Nat.mul_one, gt_iff_lt, Nat.lt_irrefl, if_false]; exact emits_pure
    | succ j =>
      have h1 : 15 * 16 ^ (j + 1) > 15 := by
        have : 0 < 16 ^ j := Nat.pow_pos (by decide)
        rw [Nat.pow_succ]; omega
      have h6 : (15 * 16 ^ (j + 1)) >>> 4 = 15 * 16 ^ j := by
        rw [Nat.shiftRight_eq_div_pow, Nat.pow_succ, ← Nat.mul_assoc]
        exact Nat.mul_div_cancel _ (by decide)
      have h7 : (15 * 16 ^ (j + 1) &&& l) >>> (4 * (j + 1 + 1)) = 0 := by
        rw [mask_and, Nat.shiftRight_eq_div_pow, Nat.pow_mul]
        apply Nat.div_eq_of_lt
        rw [show (2 ^ 4) ^ (j + 1 + 1) = 16 * 16 ^ (j + 1) by rw [show (2 : Nat) ^ 4 = 16 from rfl, Nat.pow_succ 16 (j + 1)]; omega]
        exact Nat.mul_lt_mul_of_pos_right (Nat.mod_lt _ (by decide)) (Nat.pow_pos (by decide))
      rw [if_pos h1, h6, h7]
      have h8 : j + 1 + 1 - 1 = j + 1 := by omega
      rw [h8]
      have := emits_bind (emits_orByte (UInt8.ofNat 0)) (ih j (by omega))
      rw [m_bind_assoc] at this
      have h9 := emits_or_or (b := 0x80) this
      simpa [contCells] using h9

/-- The header written for any length: the right one if a single byte suffices; otherwise the number
spelled is the one of a string, unless the size of the header carries. -/
theorem emits_header {ty n : Nat} (hty : ty < 8) (hn : n + 1 < 16 ^ 6) :
    ∃ k v, 0 < k ∧ k ≤ 6 ∧ v < 16 ^ k ∧ Emits (setTypeAndLength (16 * ty) n) (hdrCells (headerBytes ty v k k)) ∧
      ((spelled ty n 1 < 16 ∧ k = 1 ∧ v = spelled ty n 1) ∨
        (16 ≤ spelled ty n 1 ∧ 2 ≤ k ∧ 16 ^ (k - 1) ≤ spelled ty n 1 ∧ spelled ty n 1 + (k - 1) < 16 ^ k ∧ v = spelled ty n 1 + (k - 1)) ∨
        (16 ≤ spelled ty n 1 ∧ 2 ≤ k ∧ spelled ty n 1 < 16 ^ k ∧ 16 ^ k ≤ spelled ty n 1 + (k - 1) ∧ v = spelled ty n 1 + k - 16 ^ k)) := by
  have hl : (if 16 * ty ≠ tyList then (n + 1) % 4294967296 else n) = spelled ty n 1 := by
    unfold spelled
    by_cases h7 : ty = 7
    · subst h7; rfl
    · rw [if_neg h7, if_pos (by simp only [tyList]; omega)]
      exact Nat.mod_eq_of_lt (by omega)
  have hl6 : spelled ty n 1 < 16 ^ 6 := by unfold spelled; split <;> omega
  unfold setTypeAndLength
  simp only [hl]
  generalize spelled ty n 1 = l at hl6
  by_cases h16 : l < 16
  · refine ⟨1, l, by decide, by decide, by omega, ?_, Or.inl ⟨h16, rfl, rfl⟩⟩
    rw [if_neg (by omega)]
    have h1 := emits_setByte_or (b := UInt8.ofNat (16 * ty)) (emits_orByte (UInt8.ofNat (l &&& 0xF)))
    have h2 := (nib_or ⟨ty, hty⟩ ⟨l, h16⟩).2.1
    rw [and15, Nat.mod_eq_of_lt h16] at h1 ⊢
    simp only [Nat.zero_add] at h2
    rw [h2] at h1
    simpa [hdrCells, headerBytes, Nat.mod_eq_of_lt h16] using h1
  · rw [if_pos (by omega)]
    obtain ⟨p, hp1, hp2⟩ := exists_pos l (by omega)
    have hp6 : p < 6 := by
      refine Nat.lt_of_not_le fun hge => ?_
      have := Nat.pow_le_pow_right (show 0 < 16 by decide) hge
      omega
    have hp0 : 0 < p := by
      refine Nat.pos_of_ne_zero fun h0 => ?_
      subst h0
      simp at hp2; omega
    have hmask := findMask_eq p l hp1 hp2 8 7 (by omega) (by omega)
    have : 15 * 16 ^ 7 = 0xF0000000 := by decide
    rw [this] at hmask
    rw [hmask]
    simp only
    have hm2 : (l + p) % 4294967296 = l + p := Nat.mod_eq_of_lt (by omega)
    have hm3 : (l + p + 1) % 4294967296 = l + p + 1 := Nat.mod_eq_of_lt (by omega)
    rw [hm2, hm3, if_neg (by omega)]
    have hnote : ∀ (k : M Unit), (do noteOvf (decide (p = 6)); k) = k := by
      intro k
      funext st
      have : ¬ p = 6 := by omega
      rw [run_bind, run_noteOvf]
      simp [this]
    rw [hnote]
    obtain ⟨q, rfl⟩ : ∃ q, p = q + 1 := ⟨p - 1, by omega⟩
    have hsh : 0xF <<< (4 * (q + 1 + 1)) &&& (l + (q + 1)) = (l + (q + 1)) / 16 ^ (q + 1 + 1) % 16 * 16 ^ (q + 1 + 1) := by
      rw [Nat.shiftLeft_eq, Nat.pow_mul, mask_and]
    by_cases hcar : l + (q + 1) < 16 ^ (q + 1 + 1)
    · refine ⟨q + 1 + 1, l + (q + 1), by omega, by omega, hcar, ?_, Or.inr (Or.inl ⟨by omega, by omega, hp1, hcar, rfl⟩)⟩
      rw [hsh, Nat.div_eq_of_lt hcar]
      simp only [Nat.zero_mod, Nat.zero_mul, ne_eq, not_true_eq_false, if_false]
      have hbody := emits_bind (emits_copyLoop (l + (q + 1)) 9 (q + 1) (by omega)) (emits_orByte (UInt8.ofNat ((l + (q + 1)) &&& 0xF)))
      refine emits_congr (emits_setByte_or (b := UInt8.ofNat (16 * ty)) hbody) ?_
      rw [headerBytes, if_neg (Nat.succ_ne_zero q), if_pos rfl]
      simp only [hdrCells]
      have h4 := (nib_or ⟨ty, hty⟩ ⟨(l + (q + 1)) / 16 ^ (q + 1) % 16, Nat.mod_lt _ (by decide)⟩).1
      simp only at h4
      rw [h4, ← contCells_eq ty (l + (q + 1)) (q + 1 + 1) q (by omega)]
      rfl
    · have hge : 16 ^ (q + 1 + 1) ≤ l + (q + 1) := by omega
      have hv : (l + (q + 1) + 1) % 16 = l + (q + 1 + 1) - 16 ^ (q + 1 + 1) := by
        have e : l + (q + 1) + 1 = (l + (q + 1 + 1) - 16 ^ (q + 1 + 1)) + 16 * 16 ^ (q + 1) := by
          rw [Nat.pow_succ] at hge ⊢
          omega
        rw [e, Nat.add_mul_mod_self_left]
        apply Nat.mod_eq_of_lt
        omega
      have hsmall : l + (q + 1 + 1) - 16 ^ (q + 1 + 1) < 16 := by omega
      refine ⟨q + 1 + 1, l + (q + 1 + 1) - 16 ^ (q + 1 + 1), by omega, by omega, ?_, ?_,
        Or.inr (Or.inr ⟨by omega, by omega, hp2, by simpa using hge, rfl⟩)⟩
      · have := Nat.pow_le_pow_right (show 0 < 16 by decide) (show 1 ≤ q + 1 + 1 by omega)
        omega
      · have hdig : (l + (q + 1)) / 16 ^ (q + 1 + 1) = 1 := by
          have hlt : l + (q + 1) < 2 * 16 ^ (q + 1 + 1) := by
            have : q + 1 < 16 ^ (q + 1 + 1) := by
              have := lt_pow16 (q + 1)
              omega
            omega
          rw [Nat.div_eq_iff (Nat.pow_pos (by decide))]
          omega
        rw [hsh, hdig]
        have hpos : ¬ (1 % 16 * 16 ^ (q + 1 + 1) = 0) := by
          have : 0 < 16 ^ (q + 1 + 1) := Nat.pow_pos (by decide)
          omega
        rw [if_pos hpos]
        have hbody := emits_bind (emits_copyLoop_carry (l + (q + 1) + 1) 9 (q + 1) (by omega)) (emits_orByte (UInt8.ofNat ((l + (q + 1) + 1) &&& 0xF)))
        refine emits_congr (emits_setByte_or (b := UInt8.ofNat (16 * ty)) hbody) ?_
        rw [and15, hv]
        generalize l + (q + 1 + 1) - 16 ^ (q + 1 + 1) = v at hsmall
        have hlow : ∀ j, 0 < j → v / 16 ^ j % 16 = 0 := by
          intro j hj
          rw [Nat.div_eq_of_lt]
          have := Nat.pow_le_pow_right (show 0 < 16 by decide) (show 1 ≤ j by omega)
          omega
        have hcc : ∀ j, contCells 0 j = contCells v j := by
          intro j
          induction j with
          | zero => rfl
          | succ j ih => simp [contCells, ih, hlow (j + 1) (by omega)]
        rw [headerBytes, if_neg (Nat.succ_ne_zero q), if_pos rfl]
        simp only [hdrCells]
        have h4 := (nib_or ⟨ty, hty⟩ ⟨0, by decide⟩).1
        simp only at h4
        rw [hlow (q + 1) (by omega), ← h4, ← contCells_eq ty v (q + 1 + 1) q (by omega), and15, Nat.mod_eq_of_lt hsmall, ← hcc]
        simp

end Sml
