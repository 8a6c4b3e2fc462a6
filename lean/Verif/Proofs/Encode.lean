import Verif.Proofs.Header
import Verif.Spec.Term

/-!
# The encoder of the specification: its headers are headers, and minimal
-/

namespace Sml

open Spec

theorem headerSizeFrom_spec (ty n : Nat) : ∀ (fuel k : Nat), 1 ≤ k → (spelled ty n (k + fuel) < 16 ^ (k + fuel)) →
    let r := headerSizeFrom ty n fuel k
    k ≤ r ∧ spelled ty n r < 16 ^ r ∧ ∀ j, k ≤ j → j < r → ¬ spelled ty n j < 16 ^ j := by
  intro fuel
  induction fuel with
  | zero => intro k _ h; exact ⟨Nat.le_refl _, h, fun j h1 h2 => by simp only [headerSizeFrom] at h2; omega⟩
  | succ fuel ih =>
    intro k hk h
    unfold headerSizeFrom
    by_cases hc : spelled ty n k < 16 ^ k
    · simp only [hc, if_true]
      exact ⟨Nat.le_refl _, trivial, fun j h1 h2 => by omega⟩
    · simp only [hc, if_false]
      obtain ⟨h1, h2, h3⟩ := ih (k + 1) (by omega) (by
        have : k + 1 + fuel = k + (fuel + 1) := by omega
        rw [this]; exact h)
      refine ⟨by omega, h2, fun j hj hj' => ?_⟩
      by_cases hjk : j = k
      · subst hjk; exact hc
      · exact h3 j (by omega) hj'

theorem lt_pow16 (n : Nat) : 2 * n + 1 < 16 ^ (n + 1) := by
  induction n with
  | zero => decide
  | succ n ih => rw [Nat.pow_succ]; omega

/-- The size of the header, characterised. -/
theorem headerSize_spec (ty n : Nat) : 1 ≤ headerSize ty n ∧ spelled ty n (headerSize ty n) < 16 ^ headerSize ty n ∧
    ∀ j, 1 ≤ j → j < headerSize ty n → ¬ spelled ty n j < 16 ^ j := by
  refine headerSizeFrom_spec ty n n 1 (Nat.le_refl _) ?_
  have := lt_pow16 n
  rw [Nat.add_comm 1 n]
  unfold spelled
  split <;> omega

theorem headerSize_eq {ty n k : Nat} (hk : 1 ≤ k) (h : spelled ty n k < 16 ^ k)
    (hmin : ∀ j, 1 ≤ j → j < k → ¬ spelled ty n j < 16 ^ j) : headerSize ty n = k := by
  obtain ⟨h1, h2, h3⟩ := headerSize_spec ty n
  rcases Nat.lt_trichotomy (headerSize ty n) k with h4 | h4 | h4
  · exact absurd h2 (hmin _ h1 h4)
  · exact h4
  · exact absurd h (h3 _ hk h4)

theorem headerBytes_length (ty v k j : Nat) : (headerBytes ty v k j).length = j := by
  induction j with
  | zero => rfl
  | succ j ih => simp [headerBytes, ih]

theorem headerBytes_value (ty v k j : Nat) (a : Nat) : (headerBytes ty v k j).foldl (fun v b => v * 16 + b.toNat % 16) a =
    a * 16 ^ j + v % 16 ^ j := by
  induction j generalizing a with
  | zero => simp [headerBytes]; omega
  | succ j ih =>
    simp only [headerBytes, List.foldl_cons]
    rw [ih]
    have hb : (UInt8.ofNat ((if j = 0 then 0 else 0x80) + (if j + 1 = k then 16 * ty else 0) + v / 16 ^ j % 16)).toNat % 16 =
        v / 16 ^ j % 16 := by
      rw [UInt8.toNat_ofNat']
      split <;> split <;> omega
    rw [hb, Nat.add_mul, Nat.pow_succ, Nat.mod_mul, Nat.mul_assoc, Nat.mul_comm 16 (16 ^ j), Nat.mul_comm (v / 16 ^ j % 16)]
    omega

theorem headerBytes_tail (ty v k : Nat) (hty : ty < 8) : ∀ j, 0 < j →
    ∃ more last, headerBytes ty v k j = more ++ [last] ∧ (∀ b ∈ more, 128 ≤ b.toNat) ∧ last.toNat < 128 := by
  intro j h0
  induction j with
  | zero => omega
  | succ j ih =>
    have hn : v / 16 ^ j % 16 < 16 := Nat.mod_lt _ (by decide)
    by_cases hj0 : j = 0
    · subst hj0
      refine ⟨[], _, rfl, by simp, ?_⟩
      rw [UInt8.toNat_ofNat', if_pos rfl]
      split <;> omega
    · obtain ⟨more, last, h1, h2, h3⟩ := ih (by omega)
      refine ⟨_ :: more, last, by rw [headerBytes, h1]; rfl, ?_, h3⟩
      intro b hb
      rcases List.mem_cons.1 hb with rfl | hb
      · rw [UInt8.toNat_ofNat', if_neg hj0]
        split <;> omega
      · exact h2 b hb

theorem headerBytes_type (ty v k : Nat) (hty : ty < 8) (hk : 0 < k) : headerType (headerBytes ty v k k) = ty := by
  cases k with
  | zero => omega
  | succ k =>
    have hn : v / 16 ^ k % 16 < 16 := Nat.mod_lt _ (by decide)
    simp only [headerBytes, headerType, if_true]
    rw [UInt8.toNat_ofNat']
    split <;> omega

/-- The encoder's headers are headers. -/
theorem encHeader_isHeader {ty n : Nat} (hty : ty < 8) : IsHeader (encHeader ty n) :=
  headerBytes_tail ty _ _ hty _ (headerSize_spec ty n).1

theorem encHeader_length (ty n : Nat) : (encHeader ty n).length = headerSize ty n := headerBytes_length _ _ _ _

theorem encHeader_type {ty n : Nat} (hty : ty < 8) : headerType (encHeader ty n) = ty :=
  headerBytes_type ty _ _ hty (headerSize_spec ty n).1

theorem encHeader_value (ty n : Nat) : headerValue (encHeader ty n) = spelled ty n (headerSize ty n) := by
  unfold headerValue encHeader
  rw [headerBytes_value, Nat.mod_eq_of_lt (headerSize_spec ty n).2.1]
  simp

/-- They announce the length they were made for. -/
theorem encHeader_headerLength {ty n : Nat} (hty : ty < 8) : headerLength (encHeader ty n) = n := by
  unfold headerLength
  rw [encHeader_type hty, encHeader_value, encHeader_length]
  unfold spelled
  split <;> omega

theorem nibbles_lt (bs : List UInt8) : ∀ a, bs.foldl (fun v b => v * 16 + b.toNat % 16) a < (a + 1) * 16 ^ bs.length := by
  induction bs with
  | nil => intro a; simp
  | cons b bs ih =>
    intro a
    have h := ih (a * 16 + b.toNat % 16)
    simp only [List.foldl_cons, List.length_cons, Nat.pow_succ]
    refine Nat.lt_of_lt_of_le h ?_
    rw [Nat.mul_comm (16 ^ bs.length) 16, ← Nat.mul_assoc]
    exact Nat.mul_le_mul_right _ (by omega)

/-- No other header for the same type and length is shorter. -/
theorem encHeader_minimal {ty n : Nat} {hdr : List UInt8} (h1 : IsHeader hdr) (h2 : headerType hdr = ty)
    (h3 : headerLength hdr = n) : (encHeader ty n).length ≤ hdr.length := by
  rw [encHeader_length]
  obtain ⟨_, _, h4⟩ := headerSize_spec ty n
  refine Nat.le_of_not_lt fun hlt => ?_
  have hpos : 1 ≤ hdr.length := by
    obtain ⟨more, last, rfl, _⟩ := h1
    simp
  refine h4 _ hpos hlt ?_
  have h5 := nibbles_lt hdr 0
  simp only [Nat.zero_add, Nat.one_mul] at h5
  have h6 : spelled ty n hdr.length = headerValue hdr := by
    unfold headerLength at h3
    rw [h2] at h3
    unfold spelled
    split at h3 <;> rename_i hc <;> simp only [hc, if_true, if_false] <;> omega
  rw [h6]
  exact h5

/-- Short headers. -/
theorem encHeader_short {ty n : Nat} (h : spelled ty n 1 < 16) : encHeader ty n = [UInt8.ofNat (16 * ty + spelled ty n 1)] := by
  have : headerSize ty n = 1 := headerSize_eq (Nat.le_refl _) (by simpa using h) (fun j h1 h2 => by omega)
  simp [encHeader, this, headerBytes, Nat.mod_eq_of_lt h]

end Sml
