import Verif.Proofs.CrcDetect

/-!
# Properties of the checksums: C16, C17, C18
-/

namespace Sml

open Spec

/-- C16, first half: `sml_crc16_calculate` is the byte-swapped CRC-16/X-25. -/
theorem c16_crc16 (bs : List UInt8) : crc16 bs = swap16 (crcX25 bs) := crc16_eq bs

/-- C16, second half: `sml_crc16kermit_calculate` is CRC-16/KERMIT. -/
theorem c16_kermit (bs : List UInt8) : crc16kermit bs = crcKermit bs := crc16kermit_eq bs

/-- The check values of the CRC catalogue for "123456789": the specification is the standard one. -/
example : crcX25 [0x31, 0x32, 0x33, 0x34, 0x35, 0x36, 0x37, 0x38, 0x39] = 0x906e#16 ∧
    crcKermit [0x31, 0x32, 0x33, 0x34, 0x35, 0x36, 0x37, 0x38, 0x39] = 0x2189#16 := by
  decide +kernel

/-- The acceptance test of `sml_message_parse` (sml_message.c:80-90) is `Passes`. -/
theorem c17_acceptance (bs : List UInt8) (c : BitVec 16) :
    Passes bs c ↔ c = crc16 bs ∨ c = crc16kermit bs := by
  unfold Passes
  rw [crc16_eq, crc16kermit_eq]

/-- C17: no odd number of flipped bits in checksummed bytes and checksum goes unnoticed, even
though two checksums are accepted. -/
theorem c17_odd_errors (bs bs' : List UInt8) (c c' : BitVec 16) (hlen : bs'.length = bs.length)
    (hodd : (bitDistance (bitsOf bs) (bitsOf bs') + weight16 (c ^^^ c')) % 2 = 1)
    (hc : Passes bs c) : ¬ Passes bs' c' := by
  intro hc'
  rw [c17_acceptance] at hc hc'
  have p1 : par c = parity (bitsOf bs) := by
    rcases hc with h | h
    · rw [h, par_crc16]
    · rw [h, par_kermit]
  have p2 : par c' = parity (bitsOf bs') := by
    rcases hc' with h | h
    · rw [h, par_crc16]
    · rw [h, par_kermit]
  have hd := bitDistance_parity (bitsOf bs) (bitsOf bs') (by rw [bitsOf_length, bitsOf_length, hlen])
  have hw := weight16_parity (c ^^^ c')
  rw [par_xor, p1, p2] at hw
  have e : (bitDistance (bitsOf bs) (bitsOf bs') + weight16 (c ^^^ c')) % 2 = 0 := by
    rw [Nat.add_mod, hd, hw]
    generalize (parity (bitsOf bs) ^^ parity (bitsOf bs')) = q
    cases q <;> rfl
  omega

/-- A concrete instance of the hypotheses: one flipped bit. -/
example : Passes [0x76, 0x05] (crc16 [0x76, 0x05]) ∧
    (bitDistance (bitsOf [0x76, 0x05]) (bitsOf [0x76, 0x04]) +
      weight16 (crc16 [0x76, 0x05] ^^^ crc16 [0x76, 0x05])) % 2 = 1 := by
  constructor
  · exact (c17_acceptance _ _).2 (Or.inl rfl)
  · decide +kernel

/-- C18: either checksum changes under every burst of at most 16 bits. -/
theorem c18_bursts (bs bs' : List UInt8) (hlen : bs.length = bs'.length)
    (h : IsBurst 16 (bitDiff (bitsOf bs) (bitsOf bs'))) :
    crc16 bs ≠ crc16 bs' ∧ crc16kermit bs ≠ crc16kermit bs' := by
  obtain ⟨i, mid, j, hd, hm, ht⟩ := h
  apply crc_ne_of_diff hlen
  unfold bitDiff at hd
  rw [hd]
  exact burst_ne_zero hm ht

/-- C18: either checksum changes under every pair of bit errors less than 32767 bits apart. -/
theorem c18_pairs (bs bs' : List UInt8) (hlen : bs.length = bs'.length) (dist : Nat)
    (hdist : dist < 32767) (h : IsPair dist (bitDiff (bitsOf bs) (bitsOf bs'))) :
    crc16 bs ≠ crc16 bs' ∧ crc16kermit bs ≠ crc16kermit bs' := by
  obtain ⟨i, j, h1, hd⟩ := h
  apply crc_ne_of_diff hlen
  unfold bitDiff at hd
  rw [hd]
  exact twobit_ne_zero (by omega)

example : IsBurst 16 (bitDiff (bitsOf [0x76, 0x05, 0x01]) (bitsOf [0x76, 0xfa, 0x00])) :=
  ⟨8, [true, true, true, true, true, true, true, true, true], 7, by decide, by decide, by decide⟩

example : IsPair 16 (bitDiff (bitsOf [0x76, 0x05, 0x01]) (bitsOf [0x77, 0x05, 0x00])) :=
  ⟨0, 7, by decide, by decide⟩

/-- C18, the limit: 32767 is the smallest distance at which a pair of errors cancels out, so the
bound cannot be improved. -/
theorem c18_limit :
    crcBits 0#16 ([true] ++ List.replicate 32766 false ++ [true]) = 0#16 := by
  simp only [crcBits_append]
  rw [show crcBits 0#16 [true] = 0x8408#16 by decide]
  generalize hy : crcBits 0x8408#16 (List.replicate 32766 false) = y
  have h : y.toNat = iterN 32766 0x8408 := by rw [← hy, zeros_toNat]; rfl
  have h2 : iterN 32766 0x8408 = 0x1 := by rw [iterN_forced]; decide +kernel
  rw [show y = 0x1#16 from BitVec.eq_of_toNat_eq (by rw [h, h2]; rfl)]
  decide

/-- The combined acceptance test does not detect all double errors: the same checksum `0x7e22`
is right (X-25) for a message and (KERMIT) for the message with two flipped bits, two bits apart. -/
theorem c18_combined_false : ∃ (bs bs' : List UInt8) (c : BitVec 16), bs.length = bs'.length ∧
    IsPair 2 (bitDiff (bitsOf bs) (bitsOf bs')) ∧ IsBurst 3 (bitDiff (bitsOf bs) (bitsOf bs')) ∧
    Passes bs c ∧ Passes bs' c := by
  refine ⟨[0x76, 0x08, 0x00, 0x14, 0x01, 0x02, 0x03, 0x04, 0x05, 0x62, 0x00, 0x62, 0x00, 0x72, 0x63, 0x02, 0x01, 0x71, 0x01],
    [0x76, 0x08, 0x00, 0x14, 0x01, 0x16, 0x03, 0x04, 0x05, 0x62, 0x00, 0x62, 0x00, 0x72, 0x63, 0x02, 0x01, 0x71, 0x01],
    0x7e22#16, rfl, ⟨42, 107, by decide, by decide +kernel⟩,
    ⟨42, [true, false, true], 107, by decide +kernel, by decide, by decide⟩, ?_, ?_⟩
  · exact Or.inl (by decide +kernel)
  · exact Or.inr (by decide +kernel)

end Sml
