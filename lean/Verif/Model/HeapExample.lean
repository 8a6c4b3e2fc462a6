import Verif.Model.HeapMessage
import Verif.Model.Print
import Verif.Model.Program

/-!
# The example program on the addressed heap

`transport_receiver` of `examples/sml_server.c`, with `sml_value_to_strhex`, `sml_value_to_double` and `sml_file_print`, on
the heap of `Verif.Model.Heap`: what is printed is read through pointers, and the text of an octet string is a block of its own.
-/

namespace Sml

/-- `p[i]` for a pointer to bytes. -/
def readByte (a : Addr) (i : Nat) : P UInt8 := do
  match ← deref a with
  | .bytes bs =>
    match bs[i]? with
    | some b => pure b
    | none => fault (.buf .oobRead)
  | _ => fault .kind

/-- `p[i] = b` for a pointer to bytes. -/
def writeByte (a : Addr) (i : Nat) (b : UInt8) : P Unit := do
  match ← deref a with
  | .bytes bs => if i < bs.length then store a (.bytes (bs.set i b)) else fault (.buf .oobWrite)
  | _ => fault .kind

/-- The bytes up to the first 0, for `%s`. -/
def readText (a : Addr) : P (List UInt8) := do
  match ← deref a with
  | .bytes bs => if 0 ∈ bs then pure (bs.takeWhile (· ≠ 0)) else fault (.buf .oobRead)
  | _ => fault .kind

/-- The loop sml_value.c:161-170 from index `i` on with `n` rounds left; `pos` is `res_ptr - *result`, also in the result. -/
def pStrhexLoop (str res : Addr) : (n i : Nat) → (mixed : Bool) → (pos : Nat) → P Nat
  | 0, _, _, pos => pure pos
  | n + 1, i, mixed, pos => do
    let b ← readByte str i
    if mixed ∧ b > 0x20 ∧ b < 0x7b then do
      writeByte res pos b
      pStrhexLoop str res n (i + 1) mixed (pos + 1)
    else do
      writeByte res pos (hexDigit ((b >>> 4) &&& 0x0F))
      writeByte res (pos + 1) (hexDigit (b &&& 0x0F))
      writeByte res (pos + 2) 0x20
      pStrhexLoop str res n (i + 1) false (pos + 3)

/-- `sml_value_to_strhex` (sml_value.c:146-175): `*result`, or 0 when NULL is returned and `*result` is left alone. The bytes `malloc` delivers
are indeterminate; here they are not 0, so that a missing end of the text is noticed. -/
def pValueToStrhex (v : Addr) (mixed : Bool) : P Addr :=
  if v = 0 then pure 0
  else do
    let d ← readPtr v 0
    if d = 0 then pure 0
    else do
      let str ← readPtr d 0
      if str = 0 then pure 0
      else do
        let len ← readInt d 0
        if len * 3 + 1 > 2147483647 then fault (.buf .narrowing)
        else do
          let res ← malloc (.bytes (List.replicate (len * 3 + 1) 0xFF))
          let pos ← pStrhexLoop str res len 0 mixed 0
          writeByte res pos 0
          pure res

/-- `*p` for a pointer to an integer of `n` bytes, converted to `double`. -/
def pReadDouble (v : Addr) (n : Nat) (signed : Bool) : P Int := do
  let x ← readTag n (← readPtr v 0)
  pure (toDouble (if signed then x.toInt else (x.val : Int)))

/-- `sml_value_to_double` (sml_value.c:109-140). -/
def pValueToDouble (v : Addr) : P Int := do
  match ← readInt v 0 with
  | 0x51 => pReadDouble v 1 true
  | 0x52 => pReadDouble v 2 true
  | 0x54 => pReadDouble v 4 true
  | 0x58 => pReadDouble v 8 true
  | 0x61 => pReadDouble v 1 false
  | 0x62 => pReadDouble v 2 false
  | 0x64 => pReadDouble v 4 false
  | 0x68 => pReadDouble v 8 false
  | _ => pure 0

/-- `entry->obj_name->str[i]`, from `i` on, `n` times. -/
def pObis (e : Addr) : (n i : Nat) → P (List UInt8)
  | 0, _ => pure []
  | n + 1, i => do
    let name ← readPtr e 0
    let b ← readByte (← readPtr name 0) i
    let bs ← pObis e n (i + 1)
    pure (b :: bs)

/-- `int scaler = (entry->scaler) ? *entry->scaler : 0` (examples/sml_server.c:129). -/
def pScaler (e : Addr) : P Int := do
  let s ← readPtr e 4
  if s ≠ 0 then do
    let n ← readTag 1 s
    pure n.toInt
  else pure 0

/-- The unit printed (examples/sml_server.c:138-141). -/
def pUnitText (e : Addr) : P (Option String) := do
  let u ← readPtr e 3
  if u ≠ 0 then do
    let n ← readTag 1 u
    match dlmsGetUnit n.val dlmsUnits with
    | .ok r => pure r
    | .ub r => fault (.buf r)
  else pure none

/-- The loop body examples/sml_server.c:107-146 for the entry at `e`; pointer members `obj_name`, `status`, `val_time`, `unit`, `scaler`, `value`,
`value_signature`, `next`. -/
def pPrintEntry (e : Addr) : P (List Line) := do
  let v ← readPtr e 5
  if v = 0 then pure []
  else do
    let type ← readInt v 0
    if type = tyOctet then do
      let obis ← pObis e 6 0
      let s ← pValueToStrhex v true
      -- NULL for `%s`, and `free` of the uninitialised `str`
      if s = 0 then fault (.buf .uninit)
      else do
        let text ← readText s
        free s
        pure [.text obis text]
    else if type = tyBoolean then do
      let obis ← pObis e 6 0
      let p ← readPtr v 0
      pure [.bool obis (decide (p ≠ 0))]
    else if type &&& 0x70 = tyInteger ∨ type &&& 0x70 = tyUnsigned then do
      let value ← pValueToDouble v
      let scaler ← pScaler e
      let obis ← pObis e 6 0
      let unit ← pUnitText e
      pure [.number obis value scaler (if -scaler < 0 then 0 else -scaler) unit]
    else pure []

/-- The loop examples/sml_server.c:107-146; `fuel` bounds the rounds. -/
def pPrintEntries : (fuel : Nat) → (e : Addr) → P (List Line)
  | 0, _ => fault (.buf .fuel)
  | fuel + 1, e =>
    if e ≠ 0 then do
      let l ← pPrintEntry e
      let ls ← pPrintEntries fuel (← readPtr e 7)
      pure (l ++ ls)
    else pure []

/-- One round of the loop examples/sml_server.c:101-150. There are fewer entries than addresses. -/
def pPrintMessage (m : Addr) : P (Option (List Line)) := fun st h =>
  (do
    let body ← readPtr m 3
    let t ← readTag 4 (← readPtr body 0)
    if t.val = tagGetListResponse then do
      let data ← readPtr body 1
      let ls ← pPrintEntries (h.next + 1) (← readPtr data 4)
      pure (some ls)
    else pure none : P (Option (List Line))) st h

/-- The loop examples/sml_server.c:101-150 from message `k` on, with `rounds` rounds left. -/
def pPrintMessages (single : Bool) (file : Addr) : (rounds k : Nat) → P (List Line × Bool)
  | 0, _ => pure ([], false)
  | rounds + 1, k => do
    let m ← readPtr (← readPtr file 0) k
    match ← pPrintMessage m with
    | some ls =>
      if single then pure (ls, true)
      else do
        let (ls', ex) ← pPrintMessages single file rounds (k + 1)
        pure (ls ++ ls', ex)
    | none => pPrintMessages single file rounds (k + 1)

/-- The loop sml_file.c:112-114 from message `k` on. -/
def pPrintTags (file : Addr) : (rounds k : Nat) → P (List Nat)
  | 0, _ => pure []
  | rounds + 1, k => do
    let m ← readPtr (← readPtr file 0) k
    let body ← readPtr m 3
    let t ← readTag 4 (← readPtr body 0)
    let r ← pPrintTags file rounds (k + 1)
    pure (t.val :: r)

/-- `sml_file_print` (sml_file.c:108-115); `file->buf->cursor` is in `St`. -/
def pFilePrint (file : Addr) : P FileInfo := do
  let len ← readInt file 0
  let _ ← readPtr (← readPtr file 1) 0
  let st ← lift getSt
  let tags ← pPrintTags file len 0
  pure { messages := len, bytes := st.cursor, tags := tags }

/-- `transport_receiver` (examples/sml_server.c:87-154); see `transportReceiver`. -/
def pTransportReceiver (depth : Nat) (verbose single : Bool) (frame : List UInt8) (h : Heap) : PRes (Option FileInfo × List Line × Bool) :=
  if frame.length < 16 then .bad (.buf .oobRead)
  else
    match pFileParse depth ((frame.drop 8).take (frame.length - 16)) h with
    | .bad b => .bad b
    | .ok file st h => (do
        let info ← (if verbose then do
            let i ← pFilePrint file
            pure (some i)
          else pure none : P (Option FileInfo))
        let (lines, ex) ← pPrintMessages single file (← readInt file 0) 0
        if ex then pure (info, lines, true)
        else do
          pFileFree file
          pure (info, lines, false) : P (Option FileInfo × List Line × Bool)) st h

/-- `sml_transport_listen` (sml_transport.c:117-125) with this callback: the printed text and the heap at the end. -/
def pListen (pow : Int → Dbl) (depth : Nat) (fl : Flags) : (fuel : Nat) → Fd → Heap → Except Bad (List UInt8 × Heap)
  | 0, _, _ => .error (.buf .fuel)
  | fuel + 1, fd, h =>
    match transportRead fd 8096 with
    | .ub r => .error (.buf r)
    | .ok (frame, fd) =>
      if frame.length > 0 then
        match pTransportReceiver depth fl.verbose fl.single frame h with
        | .bad b => .error b
        | .ok r _ h' =>
          if r.2.2 then .ok (receiverText pow r, h')
          else
            match pListen pow depth fl fuel fd h' with
            | .error b => .error b
            | .ok (rest, h'') => .ok (receiverText pow r ++ rest, h'')
      else .ok ([], h)

/-- `main` (examples/sml_server.c:156-204); see `programMain`. -/
def pProgramMain (pow : Int → Dbl) (depth : Nat) (stdin : Fd) (openDev : List UInt8 → Option Fd) (name : List UInt8)
    (args : List (List UInt8)) (h : Heap) : Except Bad (Exit × Heap) :=
  match optionLoop args {} with
  | .help => .ok (⟨0, helpText name⟩, h)
  | .unknown => .ok (⟨1, "Use ".toUTF8.toList ++ name ++ " -h for help.\n".toUTF8.toList⟩, h)
  | .rest fl [dev] =>
    match (if dev = [0x2D] then some stdin else openDev dev) with
    | none => .ok (⟨1, []⟩, h)
    | some fd =>
      match pListen pow depth fl (fd.pending.length + 1) fd h with
      | .error b => .error b
      | .ok (out, h') => .ok (⟨0, out⟩, h')
  | .rest _ _ => .ok (⟨1, "error: Arguments mismatch.\nUse ".toUTF8.toList ++ name ++ " -h for help.\n".toUTF8.toList⟩, h)

end Sml
