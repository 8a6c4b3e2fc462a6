import Verif.Model.Prim

/-!
# Strings as text, doubles, units
-/

namespace Sml.Spec

/-- The value of a hexadecimal digit, in either case. -/
def digitValue (c : UInt8) : Option Nat :=
  match "0123456789abcdef".toList.findIdx? (fun d => d.toNat = c.toNat), "0123456789ABCDEF".toList.findIdx? (fun d => d.toNat = c.toNat) with
  | some n, _ => some n
  | none, some n => some n
  | none, none => none

/-- The text `t` is a hexadecimal text of the bytes `bs`. -/
inductive Denotes : List UInt8 → List UInt8 → Prop where
  | nil : Denotes [] []
  | cons {c1 c2 b : UInt8} {h l : Nat} {t bs : List UInt8} (h1 : digitValue c1 = some h) (h2 : digitValue c2 = some l) (h3 : b.toNat = 16 * h + l)
      (h4 : Denotes t bs) : Denotes (c1 :: c2 :: t) (b :: bs)

/-- A hexadecimal digit, in lower case. -/
def digit (n : Nat) : UInt8 := UInt8.ofNat (("0123456789abcdef".toList.getD n '0').toNat)

/-- The hexadecimal text of a byte string. -/
def hexText (bs : List UInt8) : List UInt8 := bs.flatMap fun b => [digit (b.toNat / 16), digit (b.toNat % 16)]

/-- Two hexadecimal digits and a space. -/
def triple (b : UInt8) : List UInt8 := [digit (b.toNat / 16), digit (b.toNat % 16), 0x20]

/-- The characters from `!` to `z`. -/
def Printable (b : UInt8) : Bool := decide (0x21 ≤ b.toNat) && decide (b.toNat ≤ 0x7a)

/-- The rendering of a string: all bytes as hexadecimal digits, or the longest printable beginning as it is and
the rest as hexadecimal digits. -/
def rendering (mixed : Bool) (bs : List UInt8) : List UInt8 :=
  if mixed then bs.takeWhile Printable ++ (bs.dropWhile Printable).flatMap triple else bs.flatMap triple

/-- `r` is as near to `v` as any number of the form `m * 2^e` with `m` of 53 bits, for non-negative and
negative `e`. -/
def NearestDouble (v r : Int) : Prop :=
  (∃ m : Int, ∃ e : Nat, m.natAbs < 2 ^ 53 ∧ r = m * 2 ^ e) ∧
  (∀ (m : Int) (e : Nat), m.natAbs < 2 ^ 53 → (v - r).natAbs ≤ (v - m * 2 ^ e).natAbs) ∧
  (∀ (m : Int) (e : Nat), m.natAbs < 2 ^ 53 → (v - r).natAbs * 2 ^ e ≤ (v * 2 ^ e - m).natAbs)

/-- The number in a value of a numeric type, seen as signed or unsigned as the type says. -/
inductive NumberOf : Value → Int → Prop where
  | signed {n v : Nat} (h : n = 1 ∨ n = 2 ∨ n = 4 ∨ n = 8) (hv : v < 256 ^ n) :
      NumberOf ⟨0x50 + n, .num (some ⟨n, v⟩)⟩ (if 2 * v < 256 ^ n then (v : Int) else (v : Int) - 256 ^ n)
  | unsigned {n v : Nat} (h : n = 1 ∨ n = 2 ∨ n = 4 ∨ n = 8) (hv : v < 256 ^ n) : NumberOf ⟨0x60 + n, .num (some ⟨n, v⟩)⟩ v

end Sml.Spec
