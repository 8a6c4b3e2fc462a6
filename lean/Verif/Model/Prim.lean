import Verif.Model.Base

/-!
# Numbers, octet strings, booleans, values, status words, times

Models `sml_number.c`, `sml_octet_string.c`, `sml_boolean.c`, `sml_value.c`,
`sml_status.c` and `sml_time.c` (all under `sml/src`).
-/

namespace Sml

/-- Blocks owned through a pointer: none for NULL. -/
def own (f : α → Nat) : Option α → Nat
  | none => 0
  | some a => f a

/-! ## Numbers -/

/-- A number object (`u8 *`, `i16 *`, ...): the number of bytes allocated and the
contents read as an unsigned integer in host byte order. (The byte-level view
with explicit host byte order is in `Verif.Model.NumMem`.) -/
structure Num where
  size : Nat
  val : Nat
deriving DecidableEq, Repr

/-- A number object is one block. -/
def Num.blocks (_ : Num) : Nat := 1

/-- Big-endian value of a byte string. -/
def beNat (bs : List UInt8) : Nat := bs.foldl (fun a b => a * 256 + b.toNat) 0

/-- The `n` low-order bytes of `v`, most significant first. -/
def beBytes : (n : Nat) → (v : Nat) → List UInt8
  | 0, _ => []
  | n + 1, v => UInt8.ofNat (v / 256 ^ n) :: beBytes n v

/-- Two's-complement reading of the contents of a number object
(`*value->data.int16` and the like). -/
def Num.toInt (n : Num) : Int :=
  if n.val < 2 ^ (8 * n.size - 1) then (n.val : Int) else (n.val : Int) - 2 ^ (8 * n.size)

/-- `sml_number_init` (sml_number.c:46-66): the low `size` bytes of a `u64`. -/
def numberInit (number size : Nat) : Num := { size := size, val := number % 256 ^ size }

/-- `sml_number_parse` (sml_number.c:68-129). `mem` is the object in big-endian
order before the final byte swap. -/
def numberParse (type max : Nat) : M (Option Num) := do
  if ← optionalIsSkipped then pure none
  else
    let st ← getSt
    if st.cursor + 1 > st.data.length then failWith 0
    else if (← getNextType) ≠ type then failWith 0
    else
      let l ← getNextLength
      if l < 0 ∨ l > (max : Int) then failWith 0
      else
        let l := l.toNat
        alloc 1
        let st ← getSt
        if st.cursor + l > st.data.length then failWith 1
        else if st.cursor + 1 > st.data.length then failWith 1
        else
          let b ← getCurrentByte
          let negative := decide (type = tyInteger) && decide (b &&& 128 ≠ 0)
          let bytes ← readBytes l
          let mem := List.replicate (max - l) (if negative then 0xFF else 0x00) ++ bytes
          updateBytesRead l
          pure (some { size := max, val := beNat mem })

/-- `sml_number_write` (sml_number.c:131-145). Reading `size` bytes from an object
of fewer bytes is out of bounds; reading fewer bytes than the object has yields
its low-order bytes (little-endian hosts). With `size = 0`, the only such case that parsing
can lead to, the array `ob` of `sml_number_byte_swap` (sml_number.c:28) has size zero, after
the type-length field was written. -/
def numberWrite (np : Option Num) (type size : Nat) : M Unit :=
  match np with
  | none => optionalWrite
  | some n => do
    setTypeAndLength type size
    if size = 0 then undef .vla
    else if size ≤ n.size then putBytes (beBytes size n.val) else undef .oobRead

/-- `sml_number_free` (sml_number.c:147-151). -/
def numberFreed (np : Option Num) : Nat :=
  match np with
  | none => 0
  | some _ => 1

-- sml_number.h:48-55
abbrev u8Parse : M (Option Num) := numberParse tyUnsigned 1
abbrev u16Parse : M (Option Num) := numberParse tyUnsigned 2
abbrev u32Parse : M (Option Num) := numberParse tyUnsigned 4
abbrev u64Parse : M (Option Num) := numberParse tyUnsigned 8
abbrev i8Parse : M (Option Num) := numberParse tyInteger 1
abbrev i16Parse : M (Option Num) := numberParse tyInteger 2
abbrev i32Parse : M (Option Num) := numberParse tyInteger 4
abbrev i64Parse : M (Option Num) := numberParse tyInteger 8

-- sml_number.h:57-64
abbrev u8Write (n : Option Num) : M Unit := numberWrite n tyUnsigned 1
abbrev u16Write (n : Option Num) : M Unit := numberWrite n tyUnsigned 2
abbrev u32Write (n : Option Num) : M Unit := numberWrite n tyUnsigned 4
abbrev u64Write (n : Option Num) : M Unit := numberWrite n tyUnsigned 8
abbrev i8Write (n : Option Num) : M Unit := numberWrite n tyInteger 1
abbrev i16Write (n : Option Num) : M Unit := numberWrite n tyInteger 2
abbrev i32Write (n : Option Num) : M Unit := numberWrite n tyInteger 4
abbrev i64Write (n : Option Num) : M Unit := numberWrite n tyInteger 8

/-! ## Octet strings -/

/-- `octet_string` (sml_octet_string.h): `len` is `str.length`; the C pointer `str` is NULL
exactly when the length is 0 (sml_octet_string.c:37-42). -/
structure OctetString where
  str : List UInt8
deriving DecidableEq, Repr

/-- Blocks owned by an octet string: the structure and, if non-empty, its bytes. -/
def OctetString.blocks (s : OctetString) : Nat := 1 + (if s.str = [] then 0 else 1)

/-- `sml_octet_string_init` (sml_octet_string.c:35-45) for `length = bs.length`. -/
def octetStringInit (bs : List UInt8) : M OctetString := do
  alloc 1
  if bs.length > 0 then do
    alloc 1
    pure { str := bs }
  else pure { str := [] }

/-- `sml_octet_string_free` (sml_octet_string.c:59-66). -/
def octetStringFreed (s : Option OctetString) : Nat :=
  match s with
  | none => 0
  | some s => (if s.str ≠ [] then 1 else 0) + 1

/-- `sml_octet_string_parse` (sml_octet_string.c:68-89). The comparison
`l >= buffer_len - cursor` is done on `size_t`; `l` is non-negative there. -/
def octetStringParse : M (Option OctetString) := do
  if ← optionalIsSkipped then pure none
  else if (← getNextType) ≠ tyOctet then failWith 0
  else
    let l ← getNextLength
    let st ← getSt
    if l < 0 ∨ l ≥ ((st.data.length - st.cursor : Nat) : Int) then failWith 0
    else
      let bytes ← readBytes l.toNat
      let str ← octetStringInit bytes
      updateBytesRead l.toNat
      pure (some str)

/-- `sml_octet_string_write` (sml_octet_string.c:91-100). -/
def octetStringWrite (s : Option OctetString) : M Unit :=
  match s with
  | none => optionalWrite
  | some s => do
    setTypeAndLength tyOctet s.str.length
    putBytes s.str

/-! ## Booleans -/

/-- `sml_boolean` is a `u8`; one block. -/
def boolBlocks (_ : UInt8) : Nat := 1

/-- `sml_boolean_parse` (sml_boolean.c:29-56); `SML_BOOLEAN_TRUE` is `0xFF`,
`SML_BOOLEAN_FALSE` is `0x00` (sml_boolean.h). -/
def booleanParse : M (Option UInt8) := do
  if ← optionalIsSkipped then pure none
  else if (← getNextType) ≠ tyBoolean then failWith 0
  else if (← getNextLength) ≠ 1 then failWith 0
  else
    let st ← getSt
    if st.cursor ≥ st.data.length then failWith 0
    else
      let b ← getCurrentByte
      updateBytesRead 1
      alloc 1
      if b ≠ 0 then pure (some 0xFF) else pure (some 0x00)

/-- `sml_boolean_write` (sml_boolean.c:58-71). -/
def booleanWrite (b : Option UInt8) : M Unit :=
  match b with
  | none => optionalWrite
  | some b => do
    setTypeAndLength tyBoolean 1
    if b = 0x00 then setByte 0x00 else setByte 0xFF
    advance

/-- `sml_boolean_free` (sml_boolean.c:73-77). -/
def booleanFreed (b : Option UInt8) : Nat :=
  match b with
  | none => 0
  | some _ => 1

/-! ## Values -/

/-- The union `sml_value.data` (sml_value.h): the constructor records which kind of
object the pointer really refers to. -/
inductive VData where
  | bytes (p : Option OctetString)
  | boolean (p : Option UInt8)
  | num (p : Option Num)
deriving DecidableEq, Repr

/-- `sml_value` (sml_value.h): `type` is a `u8`. -/
structure Value where
  type : Nat
  data : VData
deriving DecidableEq, Repr

/-- Blocks reachable from the union. -/
def VData.blocks : VData → Nat
  | .bytes p => own OctetString.blocks p
  | .boolean p => own boolBlocks p
  | .num p => own Num.blocks p

/-- Blocks owned by a value. -/
def Value.blocks (v : Value) : Nat := 1 + v.data.blocks

/-- The loop `while (max < ((byte & SML_LENGTH_FIELD) - 1)) max <<= 1;`
(sml_value.c:45-47, sml_status.c:42-44). At most 4 rounds, since the right-hand side
is at most 14. -/
def growMax : (fuel : Nat) → (max : Nat) → (byte : UInt8) → Nat
  | 0, max, _ => max
  | fuel + 1, max, byte =>
    if (max : Int) < ((byte.toNat &&& 0xF : Nat) : Int) - 1 then growMax fuel (max * 2) byte
    else max

/-- `free` of the pointer stored in the union (when not NULL): one block. -/
def VData.ptrFreed : VData → Nat
  | .bytes p => own (fun _ => 1) p
  | .boolean p => own (fun _ => 1) p
  | .num p => own (fun _ => 1) p

/-- `sml_value_free` (sml_value.c:92-107): dispatches on `type`, not on what is
stored. Type 0 treats the pointer as an octet string; if it is not one, the C
code reads a foreign object (never the case for parsed values); here it is counted
as one block. -/
def valueFreed (v : Option Value) : Nat :=
  match v with
  | none => 0
  | some v =>
    (if v.type = tyOctet then
      match v.data with
      | .bytes p => octetStringFreed p
      | d => d.ptrFreed
    else v.data.ptrFreed) + 1

/-- `sml_value_parse` (sml_value.c:23-62). -/
def valueParse : M (Option Value) := do
  if ← optionalIsSkipped then pure none
  else
    let type ← getNextType
    let byte ← getCurrentByte
    alloc 1
    let value ←
      (if type = tyOctet then do
        let p ← octetStringParse
        pure { type := type, data := .bytes p : Value }
      else if type = tyBoolean then do
        let p ← booleanParse
        pure { type := type, data := .boolean p : Value }
      else if type = tyUnsigned ∨ type = tyInteger then do
        let max := growMax 4 1 byte
        let p ← numberParse type max
        pure { type := type ||| max, data := .num p : Value }
      else do
        setError
        pure { type := type, data := .bytes none : Value } : M Value)
    if ← hasErrors then do
      release (valueFreed (some value))
      pure none
    else pure (some value)

/-- `sml_value_write` (sml_value.c:64-83). Dispatches on `type`; if the stored
object is of another kind, the C code reads a foreign object, except that
`sml_number_write` with size 0 reads nothing. -/
def valueWrite (v : Option Value) : M Unit :=
  match v with
  | none => optionalWrite
  | some v =>
    let ty := v.type &&& 0x70
    if ty = tyOctet then
      match v.data with
      | .bytes p => octetStringWrite p
      | _ => undef .confusion
    else if ty = tyBoolean then
      match v.data with
      | .boolean p => booleanWrite p
      | _ => undef .confusion
    else if ty = tyUnsigned ∨ ty = tyInteger then
      match v.data with
      | .num p => numberWrite p ty (v.type &&& 0xF)
      | .bytes p =>
        if v.type &&& 0xF = 0 then numberWrite (p.map fun _ => ⟨0, 0⟩) ty 0 else undef .confusion
      | .boolean p =>
        if v.type &&& 0xF = 0 then numberWrite (p.map fun _ => ⟨0, 0⟩) ty 0 else undef .confusion
    else pure ()

/-! ## Status words -/

/-- `sml_status` (sml_status.h). -/
structure Status where
  type : Nat
  data : Option Num
deriving DecidableEq, Repr

def Status.blocks (s : Status) : Nat := 1 + own Num.blocks s.data

/-- `sml_status_free` (sml_status.c:70-75). -/
def statusFreed (s : Option Status) : Nat :=
  match s with
  | none => 0
  | some s => numberFreed s.data + 1

/-- `sml_status_parse` (sml_status.c:28-59). -/
def statusParse : M (Option Status) := do
  if ← optionalIsSkipped then pure none
  else
    let type ← getNextType
    let byte ← getCurrentByte
    alloc 1
    let status ←
      (if type = tyUnsigned then do
        let max := growMax 4 1 byte
        let p ← numberParse type max
        pure { type := type ||| max, data := p : Status }
      else do
        setError
        pure { type := type, data := none : Status } : M Status)
    if ← hasErrors then do
      release (statusFreed (some status))
      pure none
    else pure (some status)

/-- `sml_status_write` (sml_status.c:61-68). -/
def statusWrite (s : Option Status) : M Unit :=
  match s with
  | none => optionalWrite
  | some s => numberWrite s.data (s.type &&& 0x70) (s.type &&& 0xF)

/-! ## Times -/

/-- `sml_time` (sml_time.h); `data` stands for both members of the union
(`sec_index`, `timestamp`), which have the same type `u32 *`. -/
structure Time where
  tag : Option Num
  data : Option Num
deriving DecidableEq, Repr

def Time.blocks (t : Time) : Nat := 1 + own Num.blocks t.tag + own Num.blocks t.data

/-- `sml_time_free` (sml_time.c:131-137). -/
def timeFreed (t : Option Time) : Nat :=
  match t with
  | none => 0
  | some t => numberFreed t.tag + numberFreed t.data + 1

/-- sml_time.c:62-118, the part after the tag: `tag` is stored in the structure,
which is one block. The message printed in lines 98-101 is not modelled. -/
def timeParseData (tag : Option Num) : M (Option Time) := do
  let tme : Time := { tag := tag, data := none }
  let type ← getNextType
  if type = tyUnsigned then
    field u32Parse (fun v => { tme with data := v }) (fun t => timeFreed (some t)) fun tme =>
      pure (some tme)
  else if type = tyList then do
    let _ ← getNextLength
    field u32Parse (fun t1 => t1) (fun t1 => numberFreed t1 + timeFreed (some tme)) fun t1 =>
    field i16Parse (fun t2 => t2)
      (fun t2 => numberFreed t1 + numberFreed t2 + timeFreed (some tme)) fun t2 =>
    field i16Parse (fun t3 => t3)
      (fun t3 => numberFreed t1 + numberFreed t2 + numberFreed t3 + timeFreed (some tme)) fun t3 => do
    release (numberFreed t1 + numberFreed t2 + numberFreed t3)
    pure (some tme)
  else do
    -- `default: goto error;` without setting the error flag
    release (timeFreed (some tme))
    pure none

/-- `sml_time_parse` (sml_time.c:30-118). -/
def timeParse : M (Option Time) := optional do
  alloc 1
  let tme : Time := { tag := none, data := none }
  let b ← getCurrentByte
  if b = 0x65 then do
    alloc 1
    timeParseData (some { size := 1, val := 1 })
  else
    expectList 2 (timeFreed (some tme)) <|
    field u8Parse (fun v => { tme with tag := v }) (fun t => timeFreed (some t)) fun tme =>
    timeParseData tme.tag

/-- `sml_time_write` (sml_time.c:120-129). -/
def timeWrite (t : Option Time) : M Unit :=
  match t with
  | none => optionalWrite
  | some t => do
    setTypeAndLength tyList 2
    u8Write t.tag
    u32Write t.data

end Sml
