import Verif.Spec.Round

/-!
# What a sender without memory sends
-/

namespace Sml.Spec

/-- A message whose checksum is left out. -/
def bareBytes (m : Message) : List UInt8 := messageHead m ++ [0x01, 0x00]

/-- The messages with a checksum where `av` says so, beginning with number `i`. -/
def scarceBytes (av : Nat → Bool) : Nat → List Message → List UInt8
  | _, [] => []
  | i, m :: ms => (if av i then messageBytes (checksum m) m else bareBytes m) ++ scarceBytes av (i + 1) ms

/-- The messages a sender then has. -/
def scarceSealed (av : Nat → Bool) : Nat → List Message → List Message
  | _, [] => []
  | i, m :: ms => (if av i then sealed m else { m with crc := none }) :: scarceSealed av (i + 1) ms

/-- The messages in front of the first one without a checksum. -/
def beforeBare (av : Nat → Bool) : Nat → List Message → List Message
  | _, [] => []
  | i, m :: ms => if av i then sealed m :: beforeBare av (i + 1) ms else []

end Sml.Spec
