import Verif.Model.Message

/-!
# Shapes of well-formed results

Specification predicates used to state what parsing delivers.
-/

namespace Sml.Spec

/-- The type field of a value names what its union holds. For a number of `size` bytes it is
`0x50 + size` (signed) or `0x60 + size` (unsigned); a number sent with 9 to 14 bytes occupies 16,
which does not fit into the four bits and leaves `0x50` or `0x70`. -/
def WellTyped (v : Value) : Prop :=
  match v.data with
  | .bytes (some _) => v.type = 0x00
  | .boolean (some b) => v.type = 0x40 ∧ (b = 0x00 ∨ b = 0xFF)
  | .num (some n) => n.val < 256 ^ n.size ∧
      (((n.size = 1 ∨ n.size = 2 ∨ n.size = 4 ∨ n.size = 8) ∧
          (v.type = 0x50 + n.size ∨ v.type = 0x60 + n.size)) ∨
        (n.size = 16 ∧ (v.type = 0x50 ∨ v.type = 0x70)))
  | _ => False

end Sml.Spec
