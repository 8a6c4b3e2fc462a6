import Verif.Model.Transport
import Verif.Model.Util

/-!
# The example program

Models `transport_receiver` of `examples/sml_server.c` and `examples/unit.h`.
-/

namespace Sml

/-- `dlms_units` (examples/unit.h:34-104), with its terminating entry. -/
def dlmsUnits : List (Nat × String) := [
  (1, "a"),
  (2, "mo"),
  (3, "wk"),
  (4, "d"),
  (5, "h"),
  (6, "min."),
  (7, "s"),
  (8, "°"),
  (9, "°C"),
  (10, "currency"),
  (11, "m"),
  (12, "m/s"),
  (13, "m³"),
  (14, "m³"),
  (15, "m³/h"),
  (16, "m³/h"),
  (17, "m³/d"),
  (18, "m³/d"),
  (19, "l"),
  (20, "kg"),
  (21, "N"),
  (22, "Nm"),
  (23, "Pa"),
  (24, "bar"),
  (25, "J"),
  (26, "J/h"),
  (27, "W"),
  (28, "VA"),
  (29, "var"),
  (30, "Wh"),
  (31, "VAh"),
  (32, "varh"),
  (33, "A"),
  (34, "C"),
  (35, "V"),
  (36, "V/m"),
  (37, "F"),
  (38, "Ω"),
  (39, "Ωm²/m"),
  (40, "Wb"),
  (41, "T"),
  (42, "A/m"),
  (43, "H"),
  (44, "Hz"),
  (45, "1/(Wh)"),
  (46, "1/(varh)"),
  (47, "1/(VAh)"),
  (48, "V²h"),
  (49, "A²h"),
  (50, "kg/s"),
  (51, "S, mho"),
  (52, "K"),
  (53, "1/(V²h)"),
  (54, "1/(A²h)"),
  (55, "1/m³"),
  (56, "%"),
  (57, "Ah"),
  (60, "Wh/m³"),
  (61, "J/m³"),
  (62, "Mol %"),
  (63, "g/m³"),
  (64, "Pa s"),
  (253, "(reserved)"),
  (254, "(other)"),
  (255, "(unitless)"),
  (0, "")]

/-- `dlms_get_unit` (examples/unit.h:106-115): `do ... while ((++it)->code)`. Running off the table
would be undefined. -/
def dlmsGetUnit (code : Nat) : List (Nat × String) → TRes (Option String)
  | [] => .ub .oobRead
  | (c, u) :: rest =>
    if c = code then .ok (some u)
    else match rest with
      | [] => .ub .oobRead
      | (c', u') :: rest' => if c' ≠ 0 then dlmsGetUnit code ((c', u') :: rest') else .ok none

/-- A printed line: the six bytes of the OBIS code and what comes after them. For a
number: the value returned by `sml_value_to_double`, the scaler, the precision and the unit; the
arithmetic on `double` and the formatting are in `Model/Print`. -/
inductive Line where
  | text (obis : List UInt8) (s : List UInt8)
  | bool (obis : List UInt8) (b : Bool)
  | number (obis : List UInt8) (value : Int) (scaler : Int) (prec : Int) (unit : Option String)
deriving DecidableEq, Repr

/-- `entry->obj_name->str[0]` to `str[5]`. -/
def obisOf (name : Option OctetString) : M (List UInt8) :=
  match name with
  | none => undef .nullDeref
  | some s => if s.str = [] then undef .nullDeref
    else if 6 ≤ s.str.length then pure (s.str.take 6) else undef .oobRead

/-- `int scaler = (entry->scaler) ? *entry->scaler : 0` (examples/sml_server.c:129). -/
def scalerInt (scaler : Option Num) : Int :=
  match scaler with
  | some n => n.toInt
  | none => 0

/-- The unit printed (examples/sml_server.c:138-141). -/
def unitText (unit : Option Num) : M (Option String) :=
  match unit with
  | none => pure none
  | some u =>
    match dlmsGetUnit u.val dlmsUnits with
    | .ok r => pure r
    | .ub r => undef r

/-- The loop body examples/sml_server.c:107-146. -/
def printEntry (e : ListEntry) : M (List Line) :=
  match e.value with
  | none => pure []
  | some v =>
    if v.type = tyOctet then do
      -- `sml_value_to_strhex` is an argument of `printf`; NULL for `%s` and the `free` of the
      -- uninitialised `str` are undefined
      let obis ← obisOf e.objName
      let s ← valueToStrhex (some v) true
      match s with
      | none => undef .uninit
      | some s => do
        release 1
        pure [.text obis s]
    else if v.type = tyBoolean then do
      let obis ← obisOf e.objName
      let truth := match v.data with
        | .boolean p => p.isSome
        | .bytes p => p.isSome
        | .num p => p.isSome
      pure [.bool obis truth]
    else if v.type &&& 0x70 = tyInteger ∨ v.type &&& 0x70 = tyUnsigned then do
      let value ← valueToDouble v
      let scaler := scalerInt e.scaler
      let prec := if -scaler < 0 then 0 else -scaler
      let obis ← obisOf e.objName
      let unit ← unitText e.unit
      pure [.number obis value scaler prec unit]
    else pure []

def printEntries : List ListEntry → M (List Line)
  | [] => pure []
  | e :: es => do
    let l ← printEntry e
    let ls ← printEntries es
    pure (l ++ ls)

/-- One round of the loop examples/sml_server.c:101-150: the printed lines if the message is a list response. -/
def printMessage (m : Message) : M (Option (List Line)) :=
  match m.messageBody with
  | none => undef .nullDeref
  | some b =>
    match b.tag with
    | none => undef .nullDeref
    | some t =>
      if t.val = tagGetListResponse then
        match b.data with
        | .getListResponse (some r) => do
          let ls ← printEntries r.valList
          pure (some ls)
        | .getListResponse none => undef .nullDeref
        | .null => undef .nullDeref
        | _ => undef .confusion
      else pure none

/-- The loop examples/sml_server.c:101-150; `single` is `sflag`. The result says whether `exit` was called (line 148). -/
def printMessages (single : Bool) : List Message → M (List Line × Bool)
  | [] => pure ([], false)
  | m :: ms => do
    match ← printMessage m with
    | some ls =>
      if single then pure (ls, true)
      else do
        let (ls', ex) ← printMessages single ms
        pure (ls ++ ls', ex)
    | none => printMessages single ms

/-- The loop sml_file.c:112-114: the printed tags. -/
def printTags : List Message → M (List Nat)
  | [] => pure []
  | m :: ms =>
    match m.messageBody with
    | none => undef .nullDeref
    | some b =>
      match b.tag with
      | none => undef .nullDeref
      | some t => do
        let r ← printTags ms
        pure (t.val :: r)

/-- What `sml_file_print` prints: the number of messages, the cursor and the tags. -/
structure FileInfo where
  messages : Nat
  bytes : Nat
  tags : List Nat
deriving DecidableEq, Repr

/-- `sml_file_print` (sml_file.c:108-115). -/
def filePrint (f : File) : M FileInfo := do
  let st ← getSt
  let tags ← printTags f.messages
  pure { messages := f.messages.length, bytes := st.cursor, tags := tags }

/-- `transport_receiver` (examples/sml_server.c:87-154) with the flags `-v` and `-s`: what
`sml_file_print` prints, the printed lines, whether `exit` was called, and the final state. `buffer_len - 16` wraps for
shorter buffers. After `exit` (line 148) nothing is freed. -/
def transportReceiver (depth : Nat) (verbose single : Bool) (frame : List UInt8) : Res (Option FileInfo × List Line × Bool) :=
  if frame.length < 16 then .ub .oobRead
  else
    match fileParse depth ((frame.drop 8).take (frame.length - 16)) with
    | .ub r => .ub r
    | .ok f st => (do
        let info ← (if verbose then do
            let i ← filePrint f
            pure (some i)
          else pure none : M (Option FileInfo))
        let (lines, ex) ← printMessages single f.messages
        if ex then pure (info, lines, true)
        else do
          fileFree f
          pure (info, lines, false) : M (Option FileInfo × List Line × Bool)) st

end Sml
