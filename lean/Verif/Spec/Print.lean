import Verif.Model.Print
import Verif.Spec.Example

/-!
# Decimal numbers and dumps, as a reader understands them
-/

namespace Sml.Spec

/-- The value of a character as a decimal digit. -/
def decDigit (c : UInt8) : Option Nat := if 48 ≤ c.toNat ∧ c.toNat ≤ 57 then some (c.toNat - 48) else none

/-- The number a string of decimal digits stands for. -/
def readDec : List UInt8 → Option Nat := fun cs =>
  cs.foldl (fun acc c => do
    let a ← acc
    let d ← decDigit c
    pure (10 * a + d)) (some 0)

/-- `t` is the usual spelling of the natural number `n`: digits, without leading zeros. -/
def Spells (n : Nat) (t : List UInt8) : Prop := readDec t = some n ∧ t ≠ [] ∧ (t.head? = some 0x30 → t = [0x30])

/-- `t` is the usual spelling of `(-1) ^ neg * n / 10 ^ k` with `k` digits after the point: a sign, the
integer part without leading zeros, the point if there are digits after it. -/
def SpellsFixed (neg : Bool) (n k : Nat) (t : List UInt8) : Prop :=
  ∃ ip fp, t = (if neg then [0x2D] else []) ++ ip ++ (if k = 0 then [] else 0x2E :: fp) ∧ fp.length = k ∧
    readDec (ip ++ fp) = some n ∧ ip ≠ [] ∧ (ip.head? = some 0x30 → ip = [0x30])

/-- `p` differs from `10 ^ -k` by at most one part in `2 ^ 52` (for a number of 53 bits: at most one unit in the last
place). -/
def NearPower (k : Nat) (p : Dbl) : Prop :=
  (p.m * 2 ^ p.e.toNat * 10 ^ k - 2 ^ (-p.e).toNat : Int).natAbs * 2 ^ 52 ≤ 2 ^ (-p.e).toNat

/-- `p` is the natural number `n`. -/
def ExactPower (n : Nat) (p : Dbl) : Prop := p.m * 2 ^ p.e.toNat = n * 2 ^ (-p.e).toNat

/-- What is assumed of `pow(10, scaler)`: negative powers are precise to one unit in the last place, those of the powers
from 0 to 22 which are `double` numbers are exact. -/
structure GoodPow (pow : Int → Dbl) : Prop where
  near : ∀ k : Nat, k ≤ 128 → NearPower k (pow (-k))
  exact : ∀ k : Nat, k ≤ 22 → ExactPower (10 ^ k) (pow k)

/-- The six numbers of an OBIS code with their separators. -/
def SpellsObis (o t : List UInt8) : Prop :=
  ∃ a b c d e f ta tb tc td te tf, o = [a, b, c, d, e, f] ∧ Spells a.toNat ta ∧ Spells b.toNat tb ∧ Spells c.toNat tc ∧
    Spells d.toNat td ∧ Spells e.toNat te ∧ Spells f.toNat tf ∧
    t = ta ++ [0x2D] ++ tb ++ [0x3A] ++ tc ++ [0x2E] ++ td ++ [0x2E] ++ te ++ [0x2A] ++ tf ++ [0x23]

/-- The value of a character as an upper case hexadecimal digit. -/
def hexValue (c : UInt8) : Option Nat :=
  if 48 ≤ c.toNat ∧ c.toNat ≤ 57 then some (c.toNat - 48) else if 65 ≤ c.toNat ∧ c.toNat ≤ 70 then some (c.toNat - 55) else none

/-- How a reader gets bytes from a dump: white space is skipped, two digits are a byte. -/
def readDump : List UInt8 → Option (List UInt8)
  | [] => some []
  | c :: cs =>
    if c = 0x20 ∨ c = 0x0A then readDump cs
    else match cs with
      | [] => none
      | d :: cs => do
        let h ← hexValue c
        let l ← hexValue d
        let rest ← readDump cs
        pure (UInt8.ofNat (16 * h + l) :: rest)

/-- One row of a dump: two digits and a space for each byte, and a new line. -/
def dumpRow (bs : List UInt8) : List UInt8 := (bs.flatMap fun b => [hexUpper (b.toNat / 16), hexUpper (b.toNat % 16), 0x20]) ++ [0x0A]

/-- The number a string of upper case hexadecimal digits stands for. -/
def readHexNum (cs : List UInt8) : Option Nat :=
  cs.foldl (fun acc c => do
    let a ← acc
    let d ← hexValue c
    pure (16 * a + d)) (some 0)

/-- A hexadecimal number, filled up with spaces to four characters. Nothing but spaces for 0. -/
def SpellsTag (n : Nat) (t : List UInt8) : Prop :=
  ∃ pad ds, t = pad ++ ds ∧ (∀ c ∈ pad, c = 0x20) ∧ readHexNum ds = some n ∧ (pad ≠ [] → t.length = 4) ∧ 4 ≤ t.length ∧ (n = 0 ↔ ds = [])

/-- The text about the file: the number of messages, the number of bytes read, and the tag of each message. -/
inductive SpellsTags : List Nat → List UInt8 → Prop where
  | nil : SpellsTags [] []
  | cons {n : Nat} {ns : List Nat} {t ts : List UInt8} : SpellsTag n t → SpellsTags ns ts →
      SpellsTags (n :: ns) ("SML message ".toUTF8.toList ++ t ++ [0x0A] ++ ts)

def SpellsInfo (messages bytes : Nat) (tags : List Nat) (t : List UInt8) : Prop :=
  ∃ tm tb tt, Spells messages tm ∧ Spells bytes tb ∧ SpellsTags tags tt ∧
    t = "SML file (".toUTF8.toList ++ tm ++ " SML messages, ".toUTF8.toList ++ tb ++ " bytes)\n".toUTF8.toList ++ tt

/-! ## What the example prints for an entry -/

/-- The reading `x * 10 ^ s` is printed exactly: at most 50 bits with decimals, at most 53 bits without. -/
def Legible (x s : Int) : Prop :=
  (-128 ≤ s ∧ s ≤ 0 ∧ x.natAbs ≤ 2 ^ 50) ∨ (0 ≤ s ∧ s ≤ 22 ∧ x.natAbs * 10 ^ s.toNat ≤ 2 ^ 53)

/-- `n` is the integer nearest to `num / den`, the even one of two. -/
def NearestInt (num den n : Nat) : Prop :=
  2 * (((n * den : Nat) : Int) - num).natAbs ≤ den ∧ (2 * (((n * den : Nat) : Int) - num).natAbs = den → n % 2 = 0)

/-- The unit as text. -/
def unitBytes (u : Option String) : List UInt8 :=
  match u with
  | some u => u.toUTF8.toList
  | none => []

/-- `t` is printed for the entry `e`. -/
inductive Prints : ListEntry → List UInt8 → Prop where
  | absent {e : ListEntry} : e.value = none → Prints e []
  | wide {e : ListEntry} {v : Value} : e.value = some v → v.type = 0x70 → Prints e []
  | text {e : ListEntry} {s : OctetString} {o t : List UInt8} : e.value = some ⟨0x00, .bytes (some s)⟩ → s.str ≠ [] → Named e o → SpellsObis o t →
      Prints e (t ++ rendering true s.str ++ [0x23, 0x0A])
  | bool {e : ListEntry} {b : UInt8} {o t : List UInt8} : e.value = some ⟨0x40, .boolean (some b)⟩ → Named e o → SpellsObis o t →
      Prints e (t ++ "true#\n".toUTF8.toList)
  | number {e : ListEntry} {v : Value} {x : Int} {o t d : List UInt8} {u : Option String} : e.value = some v → NumberOf v x → Named e o → SpellsObis o t →
      SpellsFixed (decide (x < 0)) (x.natAbs * 10 ^ (powerOfTen e).toNat) (-powerOfTen e).toNat d → UnitIs e u →
      Prints e (t ++ d ++ [0x23] ++ unitBytes u ++ [0x0A])
  | zero {e : ListEntry} {v : Value} {o t d : List UInt8} {u : Option String} : e.value = some v → v.type = 0x50 ∨ v.type = 0x60 → Named e o →
      SpellsObis o t → SpellsFixed false 0 (-powerOfTen e).toNat d → UnitIs e u → Prints e (t ++ d ++ [0x23] ++ unitBytes u ++ [0x0A])

inductive PrintsAll : List ListEntry → List UInt8 → Prop where
  | nil : PrintsAll [] []
  | cons {e : ListEntry} {es : List ListEntry} {t ts : List UInt8} : Prints e t → PrintsAll es ts → PrintsAll (e :: es) (t ++ ts)

/-- The numbers in the list can be printed exactly. -/
def AllLegible (es : List ListEntry) : Prop := ∀ e ∈ es, ∀ v x, e.value = some v → NumberOf v x → Legible x (powerOfTen e)

/-- The entries of the list responses in some messages. -/
def entriesOf (ms : List Message) : List ListEntry := ms.flatMap fun m => ((responseOf m).map (·.valList)).getD []

end Sml.Spec
