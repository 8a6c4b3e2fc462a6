import Verif.Model.Example

/-!
# The printed text

The characters printed by the example receiver, by `sml_file_print` and by `sml_hexdump`. `printf` is
modelled for the conversions that occur (C11 7.21.6.1): `%d` and `%zu` of a number that is not negative, `%s`,
`%02X`, `%4.X` and `%.*f`. `pow` is a parameter: the C standard says nothing about its precision.
-/

namespace Sml

/-- A digit `0` to `9`. -/
def decChar (d : Nat) : UInt8 := UInt8.ofNat (48 + d)

/-- The decimal digits of `n < 10 ^ fuel`, without leading zeros. -/
def decGo : (fuel : Nat) → Nat → List UInt8
  | 0, _ => []
  | fuel + 1, n => if n < 10 then [decChar n] else decGo fuel (n / 10) ++ [decChar (n % 10)]

/-- `%d` and `%zu`. -/
def decText (n : Nat) : List UInt8 := decGo (n + 1) n

/-- The last `w` decimal digits of `n`. -/
def decPad : (w : Nat) → Nat → List UInt8
  | 0, _ => []
  | w + 1, n => decPad w (n / 10) ++ [decChar (n % 10)]

/-- A positive `double`: `m * 2 ^ e`. -/
structure Dbl where
  m : Nat
  e : Int
deriving DecidableEq, Repr

/-- `num / den`, rounded to the nearest integer, ties to even. -/
def roundDiv (num den : Nat) : Nat :=
  if 2 * (num % den) > den ∨ (2 * (num % den) = den ∧ num / den % 2 = 1) then num / den + 1 else num / den

/-- `value * p` (examples/sml_server.c:133) for the integer `value`: the exact product, rounded to 53 bits; the result is
this number times `2 ^ p.e`. With factors up to `2 ^ 64` and from `10 ^ -128` to `10 ^ 127` the exponent range of
`double` does not matter. -/
def mulDouble (value : Int) (p : Dbl) : Int := toDouble (value * p.m)

/-- `%.*f` of `v * 2 ^ e`: the nearest decimal number with `prec` digits after the point, ties to even. -/
def fixedText (prec : Nat) (v e : Int) : List UInt8 :=
  let n := roundDiv (v.natAbs * 2 ^ e.toNat * 10 ^ prec) (2 ^ (-e).toNat)
  (if v < 0 then [0x2D] else []) ++ decText (n / 10 ^ prec) ++ (if prec = 0 then [] else 0x2E :: decPad prec n)

/-- `"%d-%d:%d.%d.%d*%d#"` with the six bytes of the OBIS code. -/
def obisText (o : List UInt8) : List UInt8 :=
  match o with
  | [a, b, c, d, e, f] =>
    decText a.toNat ++ [0x2D] ++ decText b.toNat ++ [0x3A] ++ decText c.toNat ++ [0x2E] ++ decText d.toNat ++ [0x2E] ++
      decText e.toNat ++ [0x2A] ++ decText f.toNat ++ [0x23]
  | _ => []

/-- The text of a line (examples/sml_server.c:114-118, 121-125, 131-143). -/
def lineText (pow : Int → Dbl) (l : Line) : List UInt8 :=
  match l with
  | .text o s => obisText o ++ s ++ [0x23, 0x0A]
  | .bool o b => obisText o ++ (if b then [0x74, 0x72, 0x75, 0x65] else [0x66, 0x61, 0x6C, 0x73, 0x65]) ++ [0x23, 0x0A]
  | .number o value scaler prec unit =>
    let p := pow scaler
    obisText o ++ fixedText prec.toNat (mulDouble value p) p.e ++ [0x23] ++
      (match unit with
        | some u => u.toUTF8.toList
        | none => []) ++ [0x0A]

/-- An upper case hexadecimal digit. -/
def hexUpper (n : Nat) : UInt8 := if n < 10 then UInt8.ofNat (48 + n) else UInt8.ofNat (55 + n)

/-- The hexadecimal digits of `n < 16 ^ fuel`, without leading zeros; none for 0. -/
def hexGo : (fuel : Nat) → Nat → List UInt8
  | 0, _ => []
  | fuel + 1, n => if n = 0 then [] else hexGo fuel (n / 16) ++ [hexUpper (n % 16)]

/-- `%4.X`: precision 0, so that 0 has no digits; filled up to four characters. -/
def hex4 (n : Nat) : List UInt8 :=
  let d := hexGo (n + 1) n
  List.replicate (4 - d.length) 0x20 ++ d

/-- The text of `sml_file_print` (sml_file.c:108-115). -/
def fileInfoText (i : FileInfo) : List UInt8 :=
  "SML file (".toUTF8.toList ++ decText i.messages ++ " SML messages, ".toUTF8.toList ++ decText i.bytes ++ " bytes)\n".toUTF8.toList ++
    i.tags.flatMap fun t => "SML message ".toUTF8.toList ++ hex4 t ++ [0x0A]

/-- The text of a call of `transport_receiver` (examples/sml_server.c:95-100). -/
def receiverText (pow : Int → Dbl) (r : Option FileInfo × List Line × Bool) : List UInt8 :=
  (match r.1 with
    | some i => fileInfoText i ++ "OBIS data\n".toUTF8.toList
    | none => []) ++ r.2.1.flatMap (lineText pow)

/-- The loop sml_shared.c:166-171 from index `i` on: `"%02X "`, and a new line after every eighth byte. -/
def hexdumpLoop : (i : Nat) → List UInt8 → List UInt8
  | _, [] => []
  | i, b :: bs => [hexUpper (b.toNat / 16), hexUpper (b.toNat % 16), 0x20] ++ (if (i + 1) % 8 = 0 then [0x0A] else []) ++ hexdumpLoop (i + 1) bs

/-- The text printed by `sml_hexdump` (sml_shared.c:165-173). -/
def hexdumpText (bs : List UInt8) : List UInt8 := hexdumpLoop 0 bs ++ [0x0A]

end Sml
