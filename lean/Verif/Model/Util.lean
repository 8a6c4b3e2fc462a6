import Verif.Model.Message

/-!
# Remaining public functions

Hex strings, comparison and UUIDs (`sml_octet_string.c`), conversions (`sml_value.c`), `sml_list_add`
(`sml_list.c`), the constructors used by callers.
-/

namespace Sml

/-- `ctoi` (sml_octet_string.c:143-154). -/
def ctoi (c : UInt8) : UInt8 :=
  if c ≥ 0x30 ∧ c ≤ 0x39 then c - 0x30
  else if c ≥ 0x61 ∧ c ≤ 0x66 then c - 0x61 + 10
  else if c ≥ 0x41 ∧ c ≤ 0x46 then c - 0x41 + 10
  else 0

/-- `c2toi`, `c2ptoi` (sml_octet_string.c:156-158): the `int` result truncated to 8 bits. -/
def c2toi (c1 c2 : UInt8) : UInt8 := ctoi c1 <<< 4 ||| ctoi c2

/-- The loop sml_octet_string.c:53-55 with `n` rounds left, `i` done. The C string is followed by its
terminating 0, so every access is inside it when its length is even. -/
def hexLoop (str : List UInt8) : (n : Nat) → (i : Nat) → (acc : List UInt8) → M (List UInt8)
  | 0, _, acc => pure acc
  | n + 1, i, acc =>
    match str[i * 2]?, str[i * 2 + 1]? with
    | some c1, some c2 => hexLoop str n (i + 1) (acc ++ [c2toi c1 c2])
    | _, _ => undef .oobRead

/-- `sml_octet_string_init_from_hex` (sml_octet_string.c:47-57); `str` is the C string without its
terminating 0. `bytes[len / 2]` has size zero for the empty string. -/
def octetStringInitFromHex (str : List UInt8) : M (Option OctetString) :=
  if str.length > 2147483647 then undef .narrowing
  else if str.length % 2 ≠ 0 then pure none
  else if str.length / 2 = 0 then undef .vla
  else do
    let bytes ← hexLoop str (str.length / 2) 0 []
    let s ← octetStringInit bytes
    pure (some s)

/-- `memcmp` on byte strings of the same length: only the sign is specified by C. -/
def memcmp : List UInt8 → List UInt8 → Int
  | a :: as, b :: bs => if a = b then memcmp as bs else if a < b then -1 else 1
  | _, _ => 0

/-- `sml_octet_string_cmp` (sml_octet_string.c:125-130). -/
def octetStringCmp (s1 s2 : OctetString) : Int :=
  if s1.str.length ≠ s2.str.length then -1 else memcmp s1.str s2.str

/-- `sml_octet_string_cmp_with_hex` (sml_octet_string.c:132-141); a NULL `hstr` is dereferenced. -/
def octetStringCmpWithHex (str : OctetString) (hex : List UInt8) : M Int := do
  match ← octetStringInitFromHex hex with
  | none => undef .nullDeref
  | some hstr =>
    if str.str.length ≠ hstr.str.length then do
      release (octetStringFreed (some hstr))
      pure (-1)
    else do
      release (octetStringFreed (some hstr))
      pure (memcmp str.str hstr.str)

/-- `sml_octet_string_generate_uuid` (sml_octet_string.c:102-123) with `SML_NO_UUID_LIB`; `rnd` is what the
random source delivered (assumed to be 16 bytes; the result of `read` is not checked in C). -/
def generateUuid (rnd : List UInt8) : M OctetString := do
  let u := rnd.set 6 ((rnd.getD 6 0 &&& 0x0F) ||| 0x40)
  let u := u.set 8 ((u.getD 8 0 &&& 0x3F) ||| 0x80)
  octetStringInit u

/-- `sml_list_add` (sml_list.c:113): overwrites the `next` pointer of the first entry. -/
def listAdd (l : List ListEntry) (new : List ListEntry) : M (List ListEntry) :=
  match l with
  | [] => undef .nullDeref
  | e :: _ => pure (e :: new)

/-- The conversion of a natural number to `double` (C11 6.3.1.4p2), with the IEEE 754 rounding to nearest,
ties to even. The result is a natural number again. -/
def roundDouble (m : Nat) : Nat :=
  if m < 2 ^ 53 then m
  else
    let e := m.log2 - 52
    let q := m / 2 ^ e
    let r := m % 2 ^ e
    (if 2 * r > 2 ^ e ∨ (2 * r = 2 ^ e ∧ q % 2 = 1) then q + 1 else q) * 2 ^ e

/-- The conversion of an integer to `double`. -/
def toDouble (v : Int) : Int := if v < 0 then -(roundDouble v.natAbs : Int) else (roundDouble v.natAbs : Int)

/-- `sml_value_to_double` (sml_value.c:109-140). All results are integers. -/
def valueToDouble (v : Value) : M Int :=
  let deref (n : Nat) (signed : Bool) : M Int :=
    match v.data with
    | .num (some x) =>
      if x.size = n then pure (toDouble (if signed then x.toInt else (x.val : Int))) else undef .confusion
    | .num none => undef .nullDeref
    | .bytes none => undef .nullDeref
    | .boolean none => undef .nullDeref
    | _ => undef .confusion
  match v.type with
  | 0x51 => deref 1 true
  | 0x52 => deref 2 true
  | 0x54 => deref 4 true
  | 0x58 => deref 8 true
  | 0x61 => deref 1 false
  | 0x62 => deref 2 false
  | 0x64 => deref 4 false
  | 0x68 => deref 8 false
  | _ => pure 0

/-- The digits `hex_str` (sml_value.c:147). -/
def hexDigit (n : UInt8) : UInt8 := if n < 10 then 0x30 + n else 0x61 + (n - 10)

/-- The loop sml_value.c:161-170; `cap` is the size of the allocated result, `out` what was written so far. -/
def strhexLoop (cap : Nat) : (str : List UInt8) → (mixed : Bool) → (out : List UInt8) → M (List UInt8)
  | [], _, out => if out.length < cap then pure out else undef .oobWrite
  | b :: bs, mixed, out =>
    if mixed ∧ b > 0x20 ∧ b < 0x7b then
      if out.length < cap then strhexLoop cap bs mixed (out ++ [b]) else undef .oobWrite
    else if out.length + 3 ≤ cap then
      strhexLoop cap bs false (out ++ [hexDigit ((b >>> 4) &&& 0x0F), hexDigit (b &&& 0x0F), 0x20])
    else undef .oobWrite

/-- `sml_value_to_strhex` (sml_value.c:146-175): the result without its terminating 0 (the last check of
`strhexLoop` is the write of that 0). `none`: NULL is returned and `*result` is left alone. -/
def valueToStrhex (v : Option Value) (mixed : Bool) : M (Option (List UInt8)) :=
  match v with
  | none => pure none
  | some v =>
    match v.data with
    | .bytes none => pure none
    | .boolean none => pure none
    | .num none => pure none
    | .bytes (some s) =>
      if s.str = [] then pure none
      -- `len * 3 + 1` is an `int`
      else if s.str.length * 3 + 1 > 2147483647 then undef .narrowing
      else do
        alloc 1
        let out ← strhexLoop (s.str.length * 3 + 1) s.str mixed []
        pure (some out)
    | _ => undef .confusion

end Sml
