import Verif.Model.Message
import Verif.Spec.Crc
import Verif.Spec.Header

/-!
# Messages as blocks of bytes

A message occupies `[a, e)` of a telegram (not counting its end mark): the part `[a, b)` protected
by the checksum begins with a list header, and `[b, e)` is the checksum field, an unsigned number of
at most two bytes.
-/

namespace Sml.Spec

/-- Bytes `a` to `b` (exclusive). -/
def slice (buf : List UInt8) (a b : Nat) : List UInt8 := (buf.drop a).take (b - a)

/-- Big-endian value. -/
def number (bs : List UInt8) : Nat := bs.foldl (fun v b => 256 * v + b.toNat) 0

/-- `[a, e)` is a block whose checksum field starts at `b` and has the value `v`. -/
structure IsBlock (buf : List UInt8) (a b e v : Nat) : Prop where
  nonempty : a < b
  within : e ≤ buf.length
  list : ∃ x, buf[a]? = some x ∧ x.toNat / 16 % 8 = 7
  field : ∃ hdr body, IsHeader hdr ∧ headerType hdr = 6 ∧ body.length ≤ 2 ∧
    b + (hdr.length + body.length) = e ∧ slice buf b e = hdr ++ body ∧ number body = v

/-- The messages `ms` come, in this order, from blocks of `buf` that start at or after `p`, do not
overlap, and pass the check. -/
inductive Checked (buf : List UInt8) : Nat → List Message → Prop where
  | nil {p : Nat} : Checked buf p []
  | cons {p a b e v : Nat} {m : Message} {ms : List Message} :
      p ≤ a → IsBlock buf a b e v → Passes (slice buf a b) (BitVec.ofNat 16 v) →
      m.crc = some { size := 2, val := v } → v < 65536 →
      Checked buf e ms → Checked buf p (m :: ms)

end Sml.Spec
