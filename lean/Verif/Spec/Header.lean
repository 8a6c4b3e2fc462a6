/-!
# Type-length headers

The SML encoding rules for headers: all bytes but the last have the top bit set; bits 4 to 6 of
the first byte are the type; the low nibbles are the length, most significant first. The length of
a list is its number of elements, the length of anything else counts the header bytes too.
-/

namespace Sml.Spec

/-- `bs` is a complete header. -/
def IsHeader (bs : List UInt8) : Prop :=
  ∃ more last, bs = more ++ [last] ∧ (∀ b ∈ more, 128 ≤ b.toNat) ∧ last.toNat < 128

/-- The number spelled by the low nibbles. -/
def headerValue (bs : List UInt8) : Nat := bs.foldl (fun v b => v * 16 + b.toNat % 16) 0

/-- The type bits of the first byte. -/
def headerType (bs : List UInt8) : Nat :=
  match bs with
  | [] => 0
  | b :: _ => b.toNat / 16 % 8

/-- The length a header announces: list elements, or bytes of content. -/
def headerLength (bs : List UInt8) : Int :=
  if headerType bs = 7 then (headerValue bs : Int) else (headerValue bs : Int) - bs.length

end Sml.Spec
