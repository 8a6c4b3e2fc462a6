import Verif.Model.Util
import Verif.Spec.Util

/-!
# Rounding to double
-/

namespace Sml

open Spec

theorem split_pow (m : Nat) (h : 2 ^ 53 ≤ m) : ∃ e q r, e = m.log2 - 52 ∧ 1 ≤ e ∧ m / 2 ^ e = q ∧ m % 2 ^ e = r ∧ m = q * 2 ^ e + r ∧ r < 2 ^ e ∧ 2 ^ 52 ≤ q ∧ q < 2 ^ 53 := by
  have hm : m ≠ 0 := by
    have : 0 < 2 ^ 53 := Nat.two_pow_pos 53
    omega
  have hlog : 53 ≤ m.log2 := (Nat.le_log2 hm).2 h
  have h1 : 2 ^ m.log2 ≤ m := Nat.log2_self_le hm
  have h2 : m < 2 ^ (m.log2 + 1) := Nat.lt_log2_self
  have hpos : 0 < 2 ^ (m.log2 - 52) := Nat.two_pow_pos _
  have e1 : 2 ^ m.log2 = 2 ^ 52 * 2 ^ (m.log2 - 52) := by rw [← Nat.pow_add]; congr 1; omega
  have e2 : 2 ^ (m.log2 + 1) = 2 ^ 53 * 2 ^ (m.log2 - 52) := by rw [← Nat.pow_add]; congr 1; omega
  refine ⟨m.log2 - 52, m / 2 ^ (m.log2 - 52), m % 2 ^ (m.log2 - 52), rfl, by omega, rfl, rfl, ?_, Nat.mod_lt _ hpos, ?_, ?_⟩
  · rw [Nat.mul_comm]; exact (Nat.div_add_mod m _).symm
  · rw [Nat.le_div_iff_mul_le hpos, ← e1]; exact h1
  · rw [Nat.div_lt_iff_lt_mul hpos, ← e2]; exact h2

/-- The two neighbours of a number and the one that is taken. -/
theorem roundDouble_cases (m : Nat) (h : 2 ^ 53 ≤ m) : ∃ e q r, 1 ≤ e ∧ m = q * 2 ^ e + r ∧ r < 2 ^ e ∧ 2 ^ 52 ≤ q ∧ q < 2 ^ 53 ∧
    (roundDouble m = q * 2 ^ e ∧ 2 * r ≤ 2 ^ e ∨ roundDouble m = (q + 1) * 2 ^ e ∧ 2 ^ e ≤ 2 * r) := by
  obtain ⟨e, q, r, he, h1, hq, hr, hm, hlt, h2, h3⟩ := split_pow m h
  refine ⟨e, q, r, h1, hm, hlt, h2, h3, ?_⟩
  unfold roundDouble
  rw [if_neg (by omega)]
  dsimp only
  rw [← he, hq, hr]
  split
  · exact Or.inr ⟨rfl, by omega⟩
  · exact Or.inl ⟨rfl, by omega⟩

/-- No number of 53 bits lies strictly between the neighbours. -/
theorem no_double_between (q e : Nat) (h2 : 2 ^ 52 ≤ q) (h1 : 1 ≤ e) (m : Int) (f : Nat) (hm : m.natAbs < 2 ^ 53) :
    m * 2 ^ f ≤ (q : Int) * 2 ^ e ∨ ((q : Int) + 1) * 2 ^ e ≤ m * 2 ^ f := by
  by_cases hf : e ≤ f
  · obtain ⟨d, rfl⟩ : ∃ d, f = e + d := ⟨f - e, by omega⟩
    have : m * 2 ^ (e + d) = m * 2 ^ d * 2 ^ e := by rw [Int.pow_add]; ac_rfl
    rw [this]
    have hp : (0 : Int) ≤ 2 ^ e := Int.le_of_lt (Int.pow_pos (by decide))
    rcases Int.lt_or_le (q : Int) (m * 2 ^ d) with h | h
    · exact Or.inr (Int.mul_le_mul_of_nonneg_right h hp)
    · exact Or.inl (Int.mul_le_mul_of_nonneg_right h hp)
  · left
    obtain ⟨d, rfl⟩ : ∃ d, e = f + 1 + d := ⟨e - f - 1, by omega⟩
    have e1 : (q : Int) * 2 ^ (f + 1 + d) = (q : Int) * 2 * 2 ^ d * 2 ^ f := by rw [Int.pow_add, Int.pow_add]; simp; ac_rfl
    rw [e1]
    have hp : (0 : Int) ≤ 2 ^ f := Int.le_of_lt (Int.pow_pos (by decide))
    refine Int.mul_le_mul_of_nonneg_right ?_ hp
    have hd : (1 : Int) ≤ 2 ^ d := Int.pow_pos (by decide)
    have hq : (2 : Int) ^ 53 ≤ (q : Int) * 2 := by omega
    have h5 : (q : Int) * 2 * 1 ≤ (q : Int) * 2 * 2 ^ d := Int.mul_le_mul_of_nonneg_left hd (by omega)
    omega

theorem fraction_below (q e : Nat) (h2 : 2 ^ 52 ≤ q) (h1 : 1 ≤ e) (m : Int) (k : Nat) (hm : m.natAbs < 2 ^ 53) : m ≤ (q : Int) * 2 ^ e * 2 ^ k := by
  have hk : (1 : Int) ≤ 2 ^ k := Int.pow_pos (by decide)
  have he : (2 : Int) ≤ 2 ^ e := by
    obtain ⟨d, rfl⟩ : ∃ d, e = d + 1 := ⟨e - 1, by omega⟩
    have hd : (1 : Int) ≤ 2 ^ d := Int.pow_pos (by decide)
    rw [Int.pow_succ]
    omega
  have h3 : (q : Int) * 2 ≤ (q : Int) * 2 ^ e := Int.mul_le_mul_of_nonneg_left he (by omega)
  have h4 : (q : Int) * 2 ^ e * 1 ≤ (q : Int) * 2 ^ e * 2 ^ k := Int.mul_le_mul_of_nonneg_left hk (by omega)
  omega

theorem roundDouble_nearest (v : Nat) : NearestDouble v (roundDouble v) := by
  by_cases h : v < 2 ^ 53
  · have hr : roundDouble v = v := by unfold roundDouble; rw [if_pos h]
    rw [hr]
    refine ⟨⟨v, 0, by simpa using h, by simp⟩, fun m e _ => ?_, fun m e _ => ?_⟩
    · simp
    · simp
  · obtain ⟨e, q, r, h1, hm, hlt, h2, h3, hcase⟩ := roundDouble_cases v (by omega)
    have hmz : (v : Int) = (q : Int) * 2 ^ e + r := by
      have := congrArg (Nat.cast (R := Int)) hm
      rw [this]
      push_cast
      rfl
    have hE : ((2 ^ e : Nat) : Int) = 2 ^ e := by push_cast; rfl
    have hlt' : (r : Int) < 2 ^ e := by rw [← hE]; exact_mod_cast hlt
    have hq1 : ((q : Int) + 1) * 2 ^ e = (q : Int) * 2 ^ e + 2 ^ e := by rw [Int.add_mul, Int.one_mul]
    -- the distance is at most half the gap
    have hdist : ((v : Int) - roundDouble v).natAbs ≤ r ∧ ((v : Int) - roundDouble v).natAbs ≤ 2 ^ e - r ∧
        ((roundDouble v : Nat) : Int) ≥ 0 := by
      rcases hcase with ⟨hc, hh⟩ | ⟨hc, hh⟩
      · have : ((roundDouble v : Nat) : Int) = (q : Int) * 2 ^ e := by rw [hc]; push_cast; rfl
        rw [this, hmz]
        refine ⟨by omega, by omega, ?_⟩
        exact Int.mul_nonneg (by omega) (Int.le_of_lt (Int.pow_pos (by decide)))
      · have : ((roundDouble v : Nat) : Int) = (q : Int) * 2 ^ e + 2 ^ e := by rw [hc, ← hq1]; push_cast; rfl
        have hz : (0 : Int) ≤ (q : Int) * 2 ^ e := Int.mul_nonneg (by omega) (Int.le_of_lt (Int.pow_pos (by decide)))
        rw [this, hmz]
        refine ⟨by omega, by omega, by omega⟩
    refine ⟨?_, fun m f hmm => ?_, fun m k hmm => ?_⟩
    · rcases hcase with ⟨hc, _⟩ | ⟨hc, _⟩
      · exact ⟨q, e, by simpa using h3, by rw [hc]; push_cast; rfl⟩
      · by_cases hq : q + 1 < 2 ^ 53
        · exact ⟨(q + 1 : Nat), e, by rw [Int.natAbs_natCast]; exact hq, by rw [hc]; push_cast; rfl⟩
        · refine ⟨2 ^ 52, e + 1, by decide, ?_⟩
          have : q + 1 = 2 ^ 53 := by omega
          have e2 : 2 ^ 53 * 2 ^ e = 2 ^ 52 * 2 ^ (e + 1) := by rw [← Nat.pow_add, ← Nat.pow_add]; congr 1; omega
          rw [hc, this, e2, Int.natCast_mul, Int.natCast_pow, Int.natCast_pow]
          rfl
    · rcases no_double_between q e h2 h1 m f hmm with hb | hb
      · rw [hmz] at *
        omega
      · rw [hq1] at hb
        rw [hmz] at *
        omega
    · have hb := fraction_below q e h2 h1 m k hmm
      have hk : (0 : Int) ≤ 2 ^ k := Int.le_of_lt (Int.pow_pos (by decide))
      have hv : (v : Int) * 2 ^ k = (q : Int) * 2 ^ e * 2 ^ k + r * 2 ^ k := by rw [hmz, Int.add_mul]
      have hr : ((v : Int) - roundDouble v).natAbs * 2 ^ k ≤ r * 2 ^ k := Nat.mul_le_mul_right _ hdist.1
      have hrz : ((r * 2 ^ k : Nat) : Int) = (r : Int) * 2 ^ k := by push_cast; rfl
      omega

theorem nearest_neg {v r : Int} (h : NearestDouble v r) : NearestDouble (-v) (-r) := by
  obtain ⟨⟨m, e, h1, h2⟩, h3, h4⟩ := h
  refine ⟨⟨-m, e, by simpa using h1, by rw [h2, Int.neg_mul]⟩, fun m e hm => ?_, fun m e hm => ?_⟩
  · have := h3 (-m) e (by simpa using hm)
    rw [Int.neg_mul] at this
    omega
  · have := h4 (-m) e (by simpa using hm)
    rw [Int.neg_mul]
    have e1 : (-v - -r).natAbs = (v - r).natAbs := by omega
    rw [e1]
    omega

theorem toDouble_nearest (v : Int) : NearestDouble v (toDouble v) := by
  unfold toDouble
  split
  · next h =>
    have := nearest_neg (roundDouble_nearest v.natAbs)
    rwa [show -(v.natAbs : Int) = v by omega] at this
  · next h =>
    have := roundDouble_nearest v.natAbs
    rwa [show (v.natAbs : Int) = v by omega] at this

theorem roundDouble_exact (v : Nat) (h : v ≤ 2 ^ 53) : roundDouble v = v := by
  by_cases h' : v < 2 ^ 53
  · unfold roundDouble; rw [if_pos h']
  · have : v = 2 ^ 53 := by omega
    subst this
    decide

theorem toDouble_exact (v : Int) (h : v.natAbs ≤ 2 ^ 53) : toDouble v = v := by
  unfold toDouble
  rw [roundDouble_exact _ h]
  split <;> omega

end Sml
