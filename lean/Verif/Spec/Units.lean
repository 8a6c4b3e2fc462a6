/-!
# The units of IEC 62056-62

The unit codes of the COSEM interface classes, by the quantity they stand for, and how a unit is written: from the symbols of its
parts. Independent of the table in `examples/unit.h`.
-/

namespace Sml.Spec

/-- A unit is a symbol or made of others. -/
inductive PhysUnit where
  | symbol (s : String)
  | times (a b : PhysUnit)
  | per (a b : PhysUnit)
  | squared (a : PhysUnit)
  | cubed (a : PhysUnit)
  | perPulse (a : PhysUnit)

/-- Is it a product? Then it needs parentheses below a line. -/
def PhysUnit.isProduct : PhysUnit → Bool
  | .times _ _ => true
  | _ => false

def PhysUnit.text : PhysUnit → String
  | .symbol s => s
  | .times a b => a.text ++ b.text
  | .per a b => a.text ++ "/" ++ b.text
  | .squared a => a.text ++ "²"
  | .cubed a => a.text ++ "³"
  | .perPulse a => if a.isProduct then "1/(" ++ a.text ++ ")" else "1/" ++ a.text

namespace PhysUnit
def year := symbol "a"
def hour := symbol "h"
def day := symbol "d"
def second := symbol "s"
def metre := symbol "m"
def cubicMetre := cubed metre
def kilogram := symbol "kg"
def newton := symbol "N"
def joule := symbol "J"
def watt := symbol "W"
def voltAmpere := symbol "VA"
def var := symbol "var"
def ampere := symbol "A"
def volt := symbol "V"
def ohm := symbol "Ω"
def percent := symbol "%"
def wattHour := times watt hour
def varHour := times var hour
def voltAmpereHour := times voltAmpere hour
def voltSquaredHour := times (squared volt) hour
def ampereSquaredHour := times (squared ampere) hour
end PhysUnit

open PhysUnit in
/-- The unit that a code stands for. -/
def unitOf : Nat → Option PhysUnit
  | 1 => some year
  | 2 => some (symbol "mo")
  | 3 => some (symbol "wk")
  | 4 => some day
  | 5 => some hour
  | 6 => some (symbol "min.")
  | 7 => some second
  | 8 => some (symbol "°")
  | 9 => some (symbol "°C")
  | 10 => some (symbol "currency")
  | 11 => some metre
  | 12 => some (per metre second)
  -- volumes and flows, as measured and corrected
  | 13 | 14 => some cubicMetre
  | 15 | 16 => some (per cubicMetre hour)
  | 17 | 18 => some (per cubicMetre day)
  | 19 => some (symbol "l")
  | 20 => some kilogram
  | 21 => some newton
  | 22 => some (times newton metre)
  | 23 => some (symbol "Pa")
  | 24 => some (symbol "bar")
  | 25 => some joule
  | 26 => some (per joule hour)
  -- active, apparent and reactive power and energy
  | 27 => some watt
  | 28 => some voltAmpere
  | 29 => some var
  | 30 => some wattHour
  | 31 => some voltAmpereHour
  | 32 => some varHour
  | 33 => some ampere
  | 34 => some (symbol "C")
  | 35 => some volt
  | 36 => some (per volt metre)
  | 37 => some (symbol "F")
  | 38 => some ohm
  | 39 => some (per (times ohm (squared metre)) metre)
  | 40 => some (symbol "Wb")
  | 41 => some (symbol "T")
  | 42 => some (per ampere metre)
  | 43 => some (symbol "H")
  | 44 => some (symbol "Hz")
  -- meter constants: pulses for active, reactive and apparent energy
  | 45 => some (perPulse wattHour)
  | 46 => some (perPulse varHour)
  | 47 => some (perPulse voltAmpereHour)
  | 48 => some voltSquaredHour
  | 49 => some ampereSquaredHour
  | 50 => some (per kilogram second)
  | 51 => some (symbol "S, mho")
  | 52 => some (symbol "K")
  | 53 => some (perPulse voltSquaredHour)
  | 54 => some (perPulse ampereSquaredHour)
  | 55 => some (perPulse cubicMetre)
  | 56 => some percent
  | 57 => some (times ampere hour)
  | 60 => some (per wattHour cubicMetre)
  | 61 => some (per joule cubicMetre)
  | 62 => some (times (symbol "Mol ") percent)
  | 63 => some (per (symbol "g") cubicMetre)
  | 64 => some (times (symbol "Pa ") second)
  | 253 => some (symbol "(reserved)")
  | 254 => some (symbol "(other)")
  | 255 => some (symbol "(unitless)")
  | _ => none

end Sml.Spec
