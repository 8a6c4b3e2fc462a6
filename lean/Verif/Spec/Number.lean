/-!
# The numbers bytes stand for
-/

namespace Sml.Spec

/-- Most significant byte first. -/
def unsignedOf : List UInt8 → Nat
  | [] => 0
  | b :: bs => b.toNat * 256 ^ bs.length + unsignedOf bs

/-- Two's complement, most significant byte first. -/
def signedOf (bs : List UInt8) : Int :=
  match bs with
  | [] => 0
  | b :: _ => if b.toNat < 128 then (unsignedOf bs : Int) else (unsignedOf bs : Int) - 256 ^ bs.length

end Sml.Spec
