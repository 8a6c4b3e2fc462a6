/-!
# Cyclic redundancy checks, bit by bit

The generator polynomial is x^16 + x^12 + x^5 + 1. Bits are sent least significant first, so the
register is reflected: bit 0 is the coefficient of x^15 and the polynomial is `0x8408`.
-/

namespace Sml.Spec

/-- The bits of a byte in the order in which they are sent. -/
def byteBits (b : UInt8) : List Bool := (List.range 8).map fun i => b.toNat.testBit i

/-- The bits of a byte string in the order in which they are sent. -/
def bitsOf (bs : List UInt8) : List Bool := bs.flatMap byteBits

/-- One step of the shift register. -/
def bitStep (r : BitVec 16) (bit : Bool) : BitVec 16 :=
  if (r.getLsbD 0 != bit) then (r >>> 1) ^^^ 0x8408#16 else r >>> 1

/-- The register after a bit string. -/
def crcBits (init : BitVec 16) (bits : List Bool) : BitVec 16 := bits.foldl bitStep init

/-- CRC-16/KERMIT: initial value 0, no final inversion. -/
def crcKermit (bs : List UInt8) : BitVec 16 := crcBits 0#16 (bitsOf bs)

/-- CRC-16/X-25: initial value and final inversion `0xffff`. -/
def crcX25 (bs : List UInt8) : BitVec 16 := crcBits 0xffff#16 (bitsOf bs) ^^^ 0xffff#16

/-- Exchange the two bytes of a 16-bit word. -/
def swap16 (x : BitVec 16) : BitVec 16 := x.rotateLeft 8

/-- Number of one bits of a number below `2^16`. -/
def weight16 (x : BitVec 16) : Nat := ((List.range 16).filter fun i => x.getLsbD i).length

/-- Number of positions in which two bit strings of the same length differ. -/
def bitDistance : List Bool → List Bool → Nat
  | a :: as, b :: bs => (if a = b then 0 else 1) + bitDistance as bs
  | _, _ => 0

/-- The positions in which two bit strings differ. -/
def bitDiff (a b : List Bool) : List Bool := List.zipWith (· != ·) a b

/-- The differences lie within `width` consecutive bits, and there are some. -/
def IsBurst (width : Nat) (d : List Bool) : Prop :=
  ∃ i mid j, d = List.replicate i false ++ mid ++ List.replicate j false ∧
    mid.length ≤ width ∧ true ∈ mid

/-- Exactly two differences, `dist` bits apart. -/
def IsPair (dist : Nat) (d : List Bool) : Prop :=
  ∃ i j, 1 ≤ dist ∧
    d = List.replicate i false ++ [true] ++ List.replicate (dist - 1) false ++ [true] ++
      List.replicate j false

/-- What a receiver that knows both conventions accepts: the checksum `c` sent after `bs` is the
X-25 checksum in transmission order or the KERMIT checksum. -/
def Passes (bs : List UInt8) (c : BitVec 16) : Prop :=
  c = swap16 (crcX25 bs) ∨ c = crcKermit bs

end Sml.Spec
