import Verif.Spec.Header

/-!
# Bytes as a sequence of fields

The encoding rules of SML seen from the outside: headers of lists, headers with the bytes they announce, and end marks, one after the
other. No header announces 2^31 or more.
-/

namespace Sml.Spec

/-- The bytes are list headers, fields with their content, and end marks. -/
inductive Tokens : List UInt8 → Prop where
  | nil : Tokens []
  | stop {r : List UInt8} : Tokens r → Tokens (0x00 :: r)
  | list {h r : List UInt8} : IsHeader h → headerType h = 7 → headerValue h < 2147483648 → Tokens r → Tokens (h ++ r)
  | field {h bs r : List UInt8} : IsHeader h → headerType h ≠ 7 → headerValue h < 2147483648 → headerLength h = bs.length → Tokens r →
      Tokens (h ++ (bs ++ r))

end Sml.Spec
