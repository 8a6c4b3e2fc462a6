import Verif.Spec.Header

/-!
# SML terms and their encoding

The type-length-value encoding of the SML standard, written down without regard to how the library
does it: minimal headers, big-endian numbers, an absent optional element is the byte 0x01.
-/

namespace Sml.Spec

/-- Abstract SML data. Numbers are given by their big-endian bytes. -/
inductive Term where
  | absent
  | octets (bs : List UInt8)
  | bool (b : Bool)
  | int (bs : List UInt8)
  | uint (bs : List UInt8)
  | list (ts : List Term)

/-- The number a header of `k` bytes has to spell: a list counts its elements, everything else
counts its content and the header itself. -/
def spelled (ty n k : Nat) : Nat := if ty = 7 then n else n + k

/-- The least number of header bytes, from `k` on, that can spell the length. -/
def headerSizeFrom (ty n : Nat) : (fuel : Nat) → (k : Nat) → Nat
  | 0, k => k
  | fuel + 1, k => if spelled ty n k < 16 ^ k then k else headerSizeFrom ty n fuel (k + 1)

/-- The least number of header bytes for length `n`. -/
def headerSize (ty n : Nat) : Nat := headerSizeFrom ty n n 1

/-- The bytes of a header of `k` bytes spelling `v`, the first `i` of them left out: all but the last
have the top bit set; the first one has the type; each has one digit of `v` to base 16. -/
def headerBytes (ty v k : Nat) : (rest : Nat) → List UInt8
  | 0 => []
  | j + 1 => UInt8.ofNat ((if j = 0 then 0 else 0x80) + (if j + 1 = k then 16 * ty else 0) + v / 16 ^ j % 16) ::
      headerBytes ty v k j

/-- The minimal header for type `ty` and length `n`. -/
def encHeader (ty n : Nat) : List UInt8 :=
  let k := headerSize ty n
  headerBytes ty (spelled ty n k) k k

mutual
/-- The encoding. -/
def enc : Term → List UInt8
  | .absent => [0x01]
  | .octets bs => encHeader 0 bs.length ++ bs
  | .bool b => encHeader 4 1 ++ [if b then 0xFF else 0x00]
  | .int bs => encHeader 5 bs.length ++ bs
  | .uint bs => encHeader 6 bs.length ++ bs
  | .list ts => encHeader 7 ts.length ++ encAll ts
/-- The encodings of several terms, one after the other. -/
def encAll : List Term → List UInt8
  | [] => []
  | t :: ts => enc t ++ encAll ts
end

/-- No carry: the length of a string does not cross a power of 16 by adding the size of its header. -/
def NoCarry (n : Nat) : Prop := ∀ k, ¬ (n + 1 < 16 ^ k ∧ 16 ^ k ≤ n + k)

end Sml.Spec
