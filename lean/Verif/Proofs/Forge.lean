import Verif.Proofs.CrcDetect

/-!
# Two bytes can set the shift register to any value
-/

namespace Sml

open Spec

theorem lfsr_onto (t : BitVec 16) : ∃ r, lfsr r = t := by
  by_cases h : t.toNat < 2 ^ 15
  · refine ⟨_, (lfsr_pat (b := false) (n := t.toNat) h).trans ?_⟩
    simp
  · have hm : (t ^^^ 0x8408#16).toNat < 2 ^ 15 := by
      have h1 : t.msb = true := by rw [BitVec.msb_eq_decide]; simpa using h
      have h2 : (t ^^^ 0x8408#16).msb = false := by
        rw [BitVec.msb_xor, h1, show (0x8408#16).msb = true by decide]
        rfl
      rw [BitVec.msb_eq_decide] at h2
      simpa using h2
    refine ⟨_, (lfsr_pat (b := true) (n := (t ^^^ 0x8408#16).toNat) hm).trans ?_⟩
    rw [BitVec.ofNat_toNat, BitVec.setWidth_eq, if_pos rfl, BitVec.xor_assoc, BitVec.xor_self, BitVec.xor_zero]

theorem bitStep_onto (b : Bool) (t : BitVec 16) : ∃ r, bitStep r b = t := by
  cases b with
  | false => exact lfsr_onto t
  | true =>
    obtain ⟨r, hr⟩ := lfsr_onto (t ^^^ 0x8408#16)
    exact ⟨r, by rw [bitStep_true, hr, BitVec.xor_assoc, BitVec.xor_self, BitVec.xor_zero]⟩

theorem crcBits_onto (bits : List Bool) : ∀ t, ∃ r, crcBits r bits = t := by
  induction bits with
  | nil => exact fun t => ⟨t, rfl⟩
  | cons b bits ih =>
    intro t
    obtain ⟨r, hr⟩ := ih t
    obtain ⟨s, hs⟩ := bitStep_onto b r
    exact ⟨s, by rw [← hr, ← hs]; rfl⟩

theorem zip_self (bits : List Bool) : List.zipWith (· != ·) bits bits = List.replicate bits.length false := by
  induction bits with
  | nil => rfl
  | cons b bits ih => rw [List.zipWith_cons_cons, ih, bne_self_eq_false]; rfl

theorem crcBits_inj {bits : List Bool} {r s : BitVec 16} (h : crcBits r bits = crcBits s bits) : r = s := by
  have hx := crcBits_xor bits bits r s rfl
  rw [h, BitVec.xor_self, zip_self] at hx
  by_cases hz : r ^^^ s = 0#16
  · have := congrArg (· ^^^ s) hz
    simpa [BitVec.xor_assoc] using this
  · exact absurd hx (zeros_ne_zero _ _ hz)

theorem patN_append (a b : List Bool) : patN (a ++ b) = patN a + 2 ^ a.length * patN b := by
  induction a with
  | nil => simp [patN]
  | cons x a ih =>
    simp only [List.cons_append, patN, ih, List.length_cons, Nat.pow_succ]
    rw [Nat.mul_add, ← Nat.add_assoc, ← Nat.mul_assoc, Nat.mul_comm 2 (2 ^ a.length)]

theorem patN_byte (a : UInt8) : patN (byteBits a) = a.toNat := by
  have h : ∀ n : Fin 256, patN (byteBits (UInt8.ofNat n.val)) = n.val := by decide +kernel
  have := h ⟨a.toNat, a.toNat_lt⟩
  simpa using this

theorem patN_two (a b : UInt8) : patN (bitsOf [a, b]) = a.toNat + 256 * b.toNat := by
  simp only [bitsOf, List.flatMap_cons, List.flatMap_nil, List.append_nil]
  rw [patN_append, patN_byte, patN_byte, byteBits_length]

/-- From any state, exactly one pair of bytes leads to a given state. -/
theorem any_two_bytes (r t : BitVec 16) : ∃ a b : UInt8, ∀ a' b' : UInt8, crcBits r (bitsOf [a', b']) = t ↔ a' = a ∧ b' = b := by
  obtain ⟨s, hs⟩ := crcBits_onto (List.replicate 16 false) t
  have hpat : ∀ a b : UInt8, crcBits r (bitsOf [a, b]) = crcBits (r ^^^ BitVec.ofNat 16 (a.toNat + 256 * b.toNat)) (List.replicate 16 false) := fun a b => by
    have := crcBits_pat (bitsOf [a, b]) r (by rw [bitsOf_length]; exact Nat.le_refl _)
    rwa [patN_two, bitsOf_length] at this
  have hlt := (r ^^^ s).isLt
  refine ⟨UInt8.ofNat ((r ^^^ s).toNat % 256), UInt8.ofNat ((r ^^^ s).toNat / 256), fun a' b' => ?_⟩
  have key : crcBits r (bitsOf [a', b']) = t ↔ BitVec.ofNat 16 (a'.toNat + 256 * b'.toNat) = r ^^^ s := by
    rw [hpat, ← hs]
    constructor
    · intro h
      rw [← crcBits_inj h, ← BitVec.xor_assoc, BitVec.xor_self, BitVec.zero_xor]
    · intro h
      rw [h, ← BitVec.xor_assoc, BitVec.xor_self, BitVec.zero_xor]
  rw [key]
  have ha := a'.toNat_lt
  have hb := b'.toNat_lt
  constructor
  · intro h
    have h := congrArg BitVec.toNat h
    rw [BitVec.toNat_ofNat, Nat.mod_eq_of_lt (by omega)] at h
    rw [← h]
    constructor
    · apply UInt8.toNat_inj.1
      rw [UInt8.toNat_ofNat']
      omega
    · apply UInt8.toNat_inj.1
      rw [UInt8.toNat_ofNat']
      omega
  · rintro ⟨rfl, rfl⟩
    apply BitVec.eq_of_toNat_eq
    rw [BitVec.toNat_ofNat, UInt8.toNat_ofNat', UInt8.toNat_ofNat']
    omega

/-- In every place of every byte string, exactly one pair of bytes gives a wanted checksum. -/
theorem kermit_two (p q : List UInt8) (t : BitVec 16) : ∃ a b : UInt8, ∀ a' b' : UInt8, crcKermit (p ++ ([a', b'] ++ q)) = t ↔ a' = a ∧ b' = b := by
  obtain ⟨s, hs⟩ := crcBits_onto (bitsOf q) t
  obtain ⟨a, b, h⟩ := any_two_bytes (crcBits 0#16 (bitsOf p)) s
  refine ⟨a, b, fun a' b' => ?_⟩
  have e : crcKermit (p ++ ([a', b'] ++ q)) = crcBits (crcBits (crcBits 0#16 (bitsOf p)) (bitsOf [a', b'])) (bitsOf q) := by
    unfold crcKermit
    rw [show bitsOf (p ++ ([a', b'] ++ q)) = bitsOf p ++ (bitsOf [a', b'] ++ bitsOf q) by simp only [bitsOf, List.flatMap_append], crcBits_append, crcBits_append]
  rw [e, ← h a' b', ← hs]
  exact ⟨fun h => crcBits_inj h, fun h => by rw [h]⟩

/-- The same for the other kind. -/
theorem x25_two (p q : List UInt8) (a b a' b' : UInt8) : swap16 (crcX25 (p ++ ([a', b'] ++ q))) = swap16 (crcX25 (p ++ ([a, b] ++ q))) ↔ a' = a ∧ b' = b := by
  constructor
  · intro h
    obtain ⟨c, d, hcd⟩ := any_two_bytes (crcBits 0xffff#16 (bitsOf p)) (crcBits (crcBits 0xffff#16 (bitsOf p)) (bitsOf [a, b]))
    have e : ∀ a b, crcX25 (p ++ ([a, b] ++ q)) = crcBits (crcBits (crcBits 0xffff#16 (bitsOf p)) (bitsOf [a, b])) (bitsOf q) ^^^ 0xffff#16 := fun a b => by
      unfold crcX25
      rw [show bitsOf (p ++ ([a, b] ++ q)) = bitsOf p ++ (bitsOf [a, b] ++ bitsOf q) by simp only [bitsOf, List.flatMap_append], crcBits_append, crcBits_append]
    have hs := swap16_inj h
    rw [e, e] at hs
    have hs2 := congrArg (· ^^^ 0xffff#16) hs
    simp only [BitVec.xor_assoc, BitVec.xor_self, BitVec.xor_zero] at hs2
    have h1 := (hcd a' b').1 (crcBits_inj hs2)
    have h2 := (hcd a b).1 rfl
    exact ⟨h1.1.trans h2.1.symm, h1.2.trans h2.2.symm⟩
  · rintro ⟨rfl, rfl⟩; rfl

end Sml
