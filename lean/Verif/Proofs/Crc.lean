import Verif.Model.Crc16
import Verif.Spec.Crc

/-!
# The checksum functions compute the standard CRCs
-/

namespace Sml

open Spec

theorem xor_left_comm (a b c : BitVec 16) : a ^^^ (b ^^^ c) = b ^^^ (a ^^^ c) := by
  rw [← BitVec.xor_assoc, ← BitVec.xor_assoc, BitVec.xor_comm a b]

theorem xor_cancel (a b : BitVec 16) : a ^^^ (b ^^^ a) = b := by
  rw [xor_left_comm, BitVec.xor_self, BitVec.xor_zero]

/-- The shift register without input. -/
def lfsr (r : BitVec 16) : BitVec 16 := bitStep r false

theorem bitStep_xor (r s : BitVec 16) (a b : Bool) :
    bitStep (r ^^^ s) (a != b) = bitStep r a ^^^ bitStep s b := by
  unfold bitStep
  rw [BitVec.getLsbD_xor, BitVec.ushiftRight_xor_distrib]
  generalize r >>> 1 = r'
  generalize s >>> 1 = s'
  generalize r.getLsbD 0 = x
  generalize s.getLsbD 0 = y
  cases x <;> cases y <;> cases a <;> cases b <;>
    simp [BitVec.xor_assoc, BitVec.xor_comm, xor_left_comm]

theorem crcBits_xor (bits : List Bool) : ∀ (bits' : List Bool) (r s : BitVec 16), bits.length = bits'.length →
    crcBits (r ^^^ s) (List.zipWith (· != ·) bits bits') = crcBits r bits ^^^ crcBits s bits' := by
  induction bits with
  | nil => intro bits' r s h; cases bits' <;> simp_all [crcBits]
  | cons a bits ih =>
    intro bits' r s h
    cases bits' with
    | nil => simp at h
    | cons b bits' =>
      have := ih bits' (bitStep r a) (bitStep s b) (by simpa using h)
      simpa [crcBits, bitStep_xor] using this

theorem crcBits_append (r : BitVec 16) (a b : List Bool) : crcBits r (a ++ b) = crcBits (crcBits r a) b := by
  simp [crcBits]

theorem zip_false (bits : List Bool) : List.zipWith (· != ·) bits (List.replicate bits.length false) = bits := by
  induction bits with
  | nil => rfl
  | cons a bits ih => simp [List.replicate_succ, ih]

theorem false_zip (bits : List Bool) : List.zipWith (· != ·) (List.replicate bits.length false) bits = bits := by
  induction bits with
  | nil => rfl
  | cons a bits ih => simp [List.replicate_succ, ih]

/-- State and input can be separated. -/
theorem crcBits_split (r : BitVec 16) (bits : List Bool) :
    crcBits r bits = crcBits r (List.replicate bits.length false) ^^^ crcBits 0#16 bits := by
  have h := crcBits_xor (List.replicate bits.length false) bits r 0#16 (by simp)
  rw [← h]
  congr 1
  · simp
  · exact (false_zip bits).symm

theorem table_low : ∀ n : Fin 256, crctab.getD n.val 0 = crcBits 0#16 (byteBits (UInt8.ofNat n.val)) := by
  decide +kernel

theorem zeros_low : ∀ n : Fin 256, crcBits (BitVec.ofNat 16 n.val) (List.replicate 8 false) =
    crcBits 0#16 (byteBits (UInt8.ofNat n.val)) := by
  decide +kernel

theorem zeros_high : ∀ n : Fin 256, crcBits (BitVec.ofNat 16 (256 * n.val)) (List.replicate 8 false) =
    BitVec.ofNat 16 n.val := by
  decide +kernel

theorem byteBits_length (b : UInt8) : (byteBits b).length = 8 := by simp [byteBits]

theorem byteBits_xor (a b : UInt8) : byteBits (a ^^^ b) = List.zipWith (· != ·) (byteBits a) (byteBits b) := by
  simp [byteBits, List.range_succ, Nat.testBit_xor]

/-- The table gives the effect of eight bits. -/
theorem crctab_eq (b : UInt8) : crctab.getD b.toNat 0 = crcBits 0#16 (byteBits b) := by
  have := table_low ⟨b.toNat, UInt8.toNat_lt b⟩
  simpa using this

theorem crcStep_eq (r : BitVec 16) (b : UInt8) : crcStep r b = crcBits r (byteBits b) := by
  have hr : r = BitVec.ofNat 16 (256 * (r.toNat / 256)) ^^^ BitVec.ofNat 16 (r.toNat % 256) := by
    apply BitVec.eq_of_toNat_eq
    have h1 := r.isLt
    have h2 : 256 * (r.toNat / 256) ^^^ r.toNat % 256 = r.toNat := by
      have e : 256 * (r.toNat / 256) = 2 ^ 8 * (r.toNat / 256) := by omega
      have h := Nat.two_pow_add_eq_or_of_lt (i := 8) (b := r.toNat % 256) (by omega) (r.toNat / 256)
      have hand : 2 ^ 8 * (r.toNat / 256) &&& r.toNat % 256 = 0 := by
        apply Nat.eq_of_testBit_eq
        intro i
        rw [Nat.testBit_and, Nat.testBit_two_pow_mul, Nat.zero_testBit]
        by_cases hi : 8 ≤ i
        · have : (r.toNat % 256).testBit i = false :=
            Nat.testBit_lt_two_pow (Nat.lt_of_lt_of_le (by omega : r.toNat % 256 < 2 ^ 8) (Nat.pow_le_pow_right (by decide) hi))
          simp [this]
        · simp [hi]
      have hx : 2 ^ 8 * (r.toNat / 256) ^^^ r.toNat % 256 = 2 ^ 8 * (r.toNat / 256) ||| r.toNat % 256 := by
        apply Nat.eq_of_testBit_eq
        intro i
        have := congrArg (fun n => n.testBit i) hand
        simp only [Nat.testBit_and, Nat.zero_testBit] at this
        rw [Nat.testBit_xor, Nat.testBit_or]
        revert this
        cases (2 ^ 8 * (r.toNat / 256)).testBit i <;> cases (r.toNat % 256).testBit i <;> simp
      rw [e, hx, ← h]; omega
    rw [BitVec.toNat_xor, BitVec.toNat_ofNat, BitVec.toNat_ofNat, Nat.mod_eq_of_lt (by omega), Nat.mod_eq_of_lt (by omega), h2]
  have hz : crcBits r (List.replicate 8 false) =
      BitVec.ofNat 16 (r.toNat / 256) ^^^ crcBits 0#16 (byteBits (UInt8.ofNat (r.toNat % 256))) := by
    have h1 := r.isLt
    have := crcBits_xor (List.replicate 8 false) (List.replicate 8 false) (BitVec.ofNat 16 (256 * (r.toNat / 256)))
      (BitVec.ofNat 16 (r.toNat % 256)) rfl
    rw [← hr] at this
    have e : List.zipWith (· != ·) (List.replicate 8 false) (List.replicate 8 false) = List.replicate 8 false := by decide
    rw [e] at this
    rw [this, zeros_high ⟨r.toNat / 256, by omega⟩, zeros_low ⟨r.toNat % 256, by omega⟩]
  have hidx : (r.toNat ^^^ b.toNat) &&& 0xff = (UInt8.ofNat (r.toNat % 256) ^^^ b).toNat := by
    rw [UInt8.toNat_xor, UInt8.toNat_ofNat']
    have hb := UInt8.toNat_lt b
    apply Nat.eq_of_testBit_eq
    intro i
    rw [show (0xff : Nat) = 2 ^ 8 - 1 from rfl, Nat.and_two_pow_sub_one_eq_mod, Nat.testBit_mod_two_pow, Nat.testBit_xor,
      Nat.testBit_xor, show r.toNat % 256 % 2 ^ 8 = r.toNat % 2 ^ 8 by omega, Nat.testBit_mod_two_pow]
    by_cases hi : i < 8
    · simp [hi]
    · have : b.toNat.testBit i = false :=
        Nat.testBit_lt_two_pow (Nat.lt_of_lt_of_le hb (Nat.pow_le_pow_right (by decide) (by omega)))
      simp [hi, this]
  have hsh : r >>> 8 = BitVec.ofNat 16 (r.toNat / 256) := by
    apply BitVec.eq_of_toNat_eq
    have h1 := r.isLt
    rw [BitVec.toNat_ushiftRight, Nat.shiftRight_eq_div_pow, BitVec.toNat_ofNat, Nat.mod_eq_of_lt (by omega)]
  unfold crcStep
  rw [hidx, crctab_eq, byteBits_xor, crcBits_split r (byteBits b), byteBits_length, hz, hsh]
  have := crcBits_xor (byteBits (UInt8.ofNat (r.toNat % 256))) (byteBits b) 0#16 0#16 (by simp [byteBits_length])
  rw [BitVec.xor_self] at this
  rw [this, BitVec.xor_assoc]

theorem crc_fold (bs : List UInt8) : ∀ r, bs.foldl crcStep r = crcBits r (bitsOf bs) := by
  induction bs with
  | nil => intro r; rfl
  | cons b bs ih =>
    intro r
    rw [List.foldl_cons, ih, crcStep_eq]
    simp [bitsOf, crcBits_append]

theorem swap_eq (x : BitVec 16) : ((x &&& 0xff) <<< 8) ||| ((x &&& 0xff00) >>> 8) = swap16 x := by
  apply BitVec.eq_of_getLsbD_eq
  intro i hi
  unfold swap16
  rw [BitVec.getLsbD_rotateLeft]
  simp only [BitVec.getLsbD_or, BitVec.getLsbD_shiftLeft, BitVec.getLsbD_ushiftRight, BitVec.getLsbD_and]
  have key : ∀ i : Fin 16, ((0xff#16).getLsbD (i.val - 8) = decide (i.val - 8 < 8)) ∧
      ((0xff00#16).getLsbD (8 + i.val) = decide (8 + i.val < 16)) := by decide
  obtain ⟨k1, k2⟩ := key ⟨i, hi⟩
  simp only at k1 k2
  have e1 : (0xff : BitVec 16) = 0xff#16 := rfl
  have e2 : (0xff00 : BitVec 16) = 0xff00#16 := rfl
  rw [e1, e2, k1, k2]
  by_cases h8 : i < 8
  · simp [h8, hi]
    intro _; omega
  · have : i - 8 < 8 := by omega
    have : ¬ 8 + i < 16 := by omega
    simp [*]

theorem crc16_eq (bs : List UInt8) : crc16 bs = swap16 (crcX25 bs) := by
  unfold crc16 crcX25
  rw [crc_fold]
  exact swap_eq _

theorem crc16kermit_eq (bs : List UInt8) : crc16kermit bs = crcKermit bs := by
  unfold crc16kermit crcKermit
  rw [crc_fold]
  rfl

end Sml
