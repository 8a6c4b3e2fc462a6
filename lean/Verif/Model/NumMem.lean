import Verif.Model.Prim

/-!
# Numbers at byte level

Models `sml/src/sml_number.c` once more, now with the bytes of a number object in
memory order and an explicit host byte order. `Verif.Proofs.NumMem` shows that
`Verif.Model.Prim` is this model with the object read in host byte order.
-/

namespace Sml

/-- Byte order of the host. -/
inductive Endian where
  | little
  | big
deriving DecidableEq, Repr

/-- How the host lays out the `n`-byte unsigned number `v`. -/
def Endian.layout (e : Endian) (n v : Nat) : List UInt8 :=
  match e with
  | .big => beBytes n v
  | .little => (beBytes n v).reverse

/-- How the host reads a number object. -/
def Endian.read (e : Endian) (bs : List UInt8) : Nat :=
  match e with
  | .big => beNat bs
  | .little => beNat bs.reverse

/-- `sml_number_endian` (sml_number.c:36-44): look at the first byte of the `int` 1; `true` is
`SML_BIG_ENDIAN`. -/
def numberEndian (e : Endian) : Bool := !decide ((e.layout 4 1)[0]? = some 1)

/-- `sml_number_byte_swap` (sml_number.c:26-34). -/
def numberByteSwap (bytes : List UInt8) : List UInt8 :=
  (List.range bytes.length).map fun i => bytes.getD (bytes.length - (i + 1)) 0

/-- `sml_number_init` (sml_number.c:46-66). -/
def numberInitMem (e : Endian) (number size : Nat) : List UInt8 :=
  let bytes := e.layout 8 number
  let bytes := if numberEndian e then bytes.drop (8 - size) else bytes
  bytes.take size

/-- `sml_number_parse` (sml_number.c:68-129). -/
def numberParseMem (e : Endian) (type max : Nat) : M (Option (List UInt8)) := do
  if ← optionalIsSkipped then pure none
  else
    let st ← getSt
    if st.cursor + 1 > st.data.length then failWith 0
    else if (← getNextType) ≠ type then failWith 0
    else
      let l ← getNextLength
      if l < 0 ∨ l > (max : Int) then failWith 0
      else
        let l := l.toNat
        alloc 1
        let np := List.replicate max 0
        let st ← getSt
        if st.cursor + l > st.data.length then failWith 1
        else if st.cursor + 1 > st.data.length then failWith 1
        else
          let b ← getCurrentByte
          let negative := decide (type = tyInteger) && decide (b &&& 128 ≠ 0)
          let missing := max - l
          let bytes ← readBytes l
          let np := np.take missing ++ bytes
          let np := if negative then List.replicate missing 0xFF ++ np.drop missing else np
          let np := if !numberEndian e then numberByteSwap np else np
          updateBytesRead l
          pure (some np)

/-- `sml_number_write` (sml_number.c:131-145): copy, then swap in the buffer. -/
def numberWriteMem (e : Endian) (np : Option (List UInt8)) (type size : Nat) : M Unit :=
  match np with
  | none => optionalWrite
  | some bs => do
    setTypeAndLength type size
    if size ≤ bs.length then
      if !numberEndian e then
        if size = 0 then undef .vla
        else putBytes (numberByteSwap (bs.take size))
      else putBytes (bs.take size)
    else undef .oobRead

end Sml
