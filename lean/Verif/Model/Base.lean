/-!
# Buffer state, outcomes and the type-length layer

Models `sml/include/sml/sml_shared.h` and `sml/src/sml_shared.c`.
-/

namespace Sml

/-- Why a run of the C code has no defined behaviour (C99 terms).  These are
outcomes of the model, not assumptions. -/
inductive Ub where
  /-- read outside of an allocated object -/
  | oobRead
  /-- write outside of an allocated object -/
  | oobWrite
  /-- NULL pointer dereference -/
  | nullDeref
  /-- `free` of more blocks than are live -/
  | badFree
  /-- shift count not smaller than the width of the type -/
  | shiftRange
  /-- an object accessed through the wrong union member / wrong cast -/
  | confusion
  /-- the 16-bit message counter overflows and is used as a size -/
  | counter
  /-- a `size_t` beyond `INT_MAX` converted to `int` -/
  | narrowing
  /-- more nested calls than the stack allowance permits -/
  | stack
  /-- a loop ran longer than its fuel (proved never to happen) -/
  | fuel
  /-- use of an uninitialised object -/
  | uninit
  /-- variable length array of size zero (C99 6.7.5.2p5) -/
  | vla
deriving DecidableEq, Repr

/-- `sml_buffer` (sml_shared.h:71-77) together with ghost components.
`data` is the `buffer` array, so `data.length` is `buffer_len`; `error_msg` is
never set by the library and is left out. Ghost: `live` counts heap blocks
allocated and not freed; `sovf` records that a signed `int` computation
overflowed; `confused` records that the DZG workaround (sml_list.c:255-256)
re-labelled a value that does not hold a number. -/
structure St where
  data : List UInt8
  cursor : Nat := 0
  error : Bool := false
  live : Nat := 0
  sovf : Bool := false
  confused : Bool := false
deriving DecidableEq, Repr

/-- Outcome of running a piece of C code. -/
inductive Res (α : Type) where
  | ok (a : α) (st : St)
  | ub (r : Ub)
deriving DecidableEq, Repr

/-- Code that works on an `sml_buffer`. -/
def M (α : Type) : Type := St → Res α

/-- Sequencing: undefined behaviour ends the run. -/
def M.bind (m : M α) (f : α → M β) : M β := fun st =>
  match m st with
  | .ok a st' => f a st'
  | .ub r => .ub r

instance : Monad M where
  pure a := fun st => .ok a st
  bind := M.bind

/-- The run has no defined behaviour. -/
def undef (r : Ub) : M α := fun _ => .ub r

/-- Inspect the state (field accesses such as `buf->cursor`). -/
def getSt : M St := fun st => .ok st st

/-- Update the state. -/
def modSt (f : St → St) : M Unit := fun st => .ok () (f st)

/-! ## Heap bookkeeping (ghost) -/

/-- `n` successful calls of `malloc` (or of `realloc` on NULL). -/
def alloc (n : Nat) : M Unit := modSt fun st => { st with live := st.live + n }

/-- `n` calls of `free` on live blocks. -/
def release (n : Nat) : M Unit := fun st =>
  if n ≤ st.live then .ok () { st with live := st.live - n } else .ub .badFree

/-- Record that a signed computation overflowed. -/
def noteOvf (b : Bool) : M Unit := modSt fun st => { st with sovf := st.sovf || b }

/-! ## Constants (sml_shared.h:40-57) -/

abbrev tyOctet : Nat := 0x00
abbrev tyBoolean : Nat := 0x40
abbrev tyInteger : Nat := 0x50
abbrev tyUnsigned : Nat := 0x60
abbrev tyList : Nat := 0x70

/-! ## Buffer primitives -/

/-- `buf->error = 1`. -/
def setError : M Unit := modSt fun st => { st with error := true }

/-- `sml_buf_has_errors` (sml_shared.c:103). -/
def hasErrors : M Bool := fun st => .ok st.error st

/-- `sml_buf_get_current_byte` (sml_shared.c:113): no bounds check in C. -/
def getCurrentByte : M UInt8 := fun st =>
  match st.data[st.cursor]? with
  | some b => .ok b st
  | none => .ub .oobRead

/-- `sml_buf_update_bytes_read` (sml_shared.c:117). Every caller passes a
non-negative count, so `Nat` replaces `int`. -/
def updateBytesRead (n : Nat) : M Unit := modSt fun st => { st with cursor := st.cursor + n }

/-- `memcpy(dst, sml_buf_get_current_buf(buf), n)`: the `n` bytes at the cursor
(sml_shared.c:115 and its callers). -/
def readBytes (n : Nat) : M (List UInt8) := fun st =>
  if st.cursor + n ≤ st.data.length then .ok ((st.data.drop st.cursor).take n) st
  else .ub .oobRead

/-- `sml_buf_get_next_type` (sml_shared.c:105-111). -/
def getNextType : M Nat := fun st =>
  if st.cursor ≥ st.data.length then .ok 0x100 { st with error := true }
  else match st.data[st.cursor]? with
    | some b => .ok (b.toNat &&& 0x70) st
    | none => .ub .oobRead

/-- `sml_buf_optional_is_skipped` (sml_shared.c:145-163). The result is the C
truth value: `-1` (end of buffer, error set) and `1` are both `true`. -/
def optionalIsSkipped : M Bool := fun st =>
  if st.cursor ≥ st.data.length then .ok true { st with error := true }
  else match st.data[st.cursor]? with
    | some b =>
      if b = 0x01 then
        if st.cursor + 1 > st.data.length then .ok true { st with error := true }
        else .ok true { st with cursor := st.cursor + 1 }
      else .ok false st
    | none => .ub .oobRead

/-- The value of a 32-bit pattern as a C `int`. -/
def toI32 (n : Nat) : Int := if n < 2147483648 then (n : Int) else (n : Int) - 4294967296

/-- Two's-complement wrap-around to 32 bits. -/
def wrap32 (x : Int) : Int := Int.bmod x 4294967296

/-- The loop sml_shared.c:34-46. `length` is the bit pattern of the C `int`;
`length <<= 4` overflows the signed type iff the mathematical result is at
least `2^31` (a pattern that is already negative also is). `fuel` bounds the rounds. -/
def lenLoop : (fuel : Nat) → (length : Nat) → (list : Int) → M (Nat × Int)
  | 0, _, _ => undef .fuel
  | fuel + 1, length, list => do
    let st ← getSt
    if st.cursor < st.data.length then
      let byte ← getCurrentByte
      noteOvf (decide (length * 16 ≥ 2147483648))
      let length := (length * 16 % 4294967296) ||| (byte.toNat &&& 0xF)
      if byte &&& 0x80 ≠ 0x80 then pure (length, list)
      else do
        updateBytesRead 1
        lenLoop fuel length (if list ≠ 0 then list - 1 else list)
    else pure (length, list)

/-- `sml_buf_get_next_length` (sml_shared.c:23-55). -/
def getNextLength : M Int := do
  let st ← getSt
  if st.cursor + 1 > st.data.length then
    setError
    pure (-1)
  else
    let byte ← getCurrentByte
    let list : Int := if byte.toNat &&& 0x70 = tyList then 0 else -1
    let r ← lenLoop (st.data.length - st.cursor + 1) 0 list
    let st ← getSt
    if st.cursor < st.data.length then
      updateBytesRead 1
      noteOvf (decide (toI32 r.1 + r.2 < -2147483648))
      pure (wrap32 (toI32 r.1 + r.2))
    else
      setError
      pure (-1)

/-! ## Writing -/

/-- `buf->buffer[buf->cursor] = b` (cursor unchanged). -/
def setByte (b : UInt8) : M Unit := fun st =>
  if st.cursor < st.data.length then .ok () { st with data := st.data.set st.cursor b }
  else .ub .oobWrite

/-- `buf->buffer[buf->cursor] |= b` (cursor unchanged). -/
def orByte (b : UInt8) : M Unit := fun st =>
  match st.data[st.cursor]? with
  | some o => .ok () { st with data := st.data.set st.cursor (o ||| b) }
  | none => .ub .oobWrite

/-- `buf->cursor++`. -/
def advance : M Unit := updateBytesRead 1

/-- `memcpy(&buffer[cursor], bs, n); cursor += n`. -/
def putBytes (bs : List UInt8) : M Unit := fun st =>
  if st.cursor + bs.length ≤ st.data.length then
    .ok () { st with
      data := st.data.take st.cursor ++ bs ++ st.data.drop (st.cursor + bs.length)
      cursor := st.cursor + bs.length }
  else .ub .oobWrite

/-- The loop sml_shared.c:75-78: find the most significant non-zero nibble.
Returns `(mask, mask_pos)`. At most 8 rounds since `l > 15`. -/
def findMask : (fuel : Nat) → (mask : Nat) → (maskPos : Nat) → (l : Nat) → Nat × Nat
  | 0, mask, pos, _ => (mask, pos)
  | fuel + 1, mask, pos, l =>
    if mask &&& l = 0 then findMask fuel (mask >>> 4) (pos - 1) l else (mask, pos)

/-- The loop sml_shared.c:90-96: emit one nibble per continuation byte. -/
def copyLoop : (fuel : Nat) → (mask : Nat) → (maskPos : Nat) → (l : Nat) → M Unit
  | 0, _, _, _ => undef .fuel
  | fuel + 1, mask, pos, l =>
    if mask > 0xF then do
      orByte 0x80
      orByte (UInt8.ofNat ((mask &&& l) >>> (4 * pos)))
      advance
      copyLoop fuel (mask >>> 4) (pos - 1) l
    else pure ()

/-- `sml_buf_set_type_and_length` (sml_shared.c:57-101). `l` is an `unsigned int`
(arithmetic modulo `2^32`). `0x0F << (4*(mask_pos+1))` is an `int` shift:
over-wide for `mask_pos = 7` (`shiftRange`), overflowing for `mask_pos = 6`
(noted). The initial mask `0xF0 << 24` (line 71) is a constant expression that also
exceeds `INT_MAX`; it is taken as `0xF0000000`, which is what compilers make of it. -/
def setTypeAndLength (type l : Nat) : M Unit := do
  setByte (UInt8.ofNat type)
  let l := if type ≠ tyList then (l + 1) % 4294967296 else l
  if l > 0xF then
    let mp := findMask 8 0xF0000000 7 l
    let mask := mp.1
    let pos := mp.2
    let l := (l + pos) % 4294967296
    if pos + 1 ≥ 8 then undef .shiftRange
    else do
      noteOvf (decide (pos = 6))
      if (0xF <<< (4 * (pos + 1))) &&& l ≠ 0 then
        let l' := (l + 1) % 4294967296
        copyLoop 9 mask (pos + 1) l'
        orByte (UInt8.ofNat (l' &&& 0xF))
        advance
      else
        copyLoop 9 mask pos l
        orByte (UInt8.ofNat (l &&& 0xF))
        advance
  else
    orByte (UInt8.ofNat (l &&& 0xF))
    advance

/-- `sml_buf_optional_write` (sml_shared.c:130-133). -/
def optionalWrite : M Unit := do
  setByte 0x01
  advance

/-! ## Patterns used by nearly all parse functions -/

/-- `if (sml_buf_optional_is_skipped(buf)) return NULL; ...` -/
def optional (p : M (Option α)) : M (Option α) := do
  if ← optionalIsSkipped then pure none else p

/-- `buf->error = 1; goto error;` where the code at `error` releases the `own`
blocks built so far and returns NULL. -/
def failWith (own : Nat) : M (Option α) := do
  setError
  release own
  pure none

/-- `if (sml_buf_get_next_type(buf) != SML_TYPE_LIST) { buf->error = 1; goto error; }
if (sml_buf_get_next_length(buf) != n) { buf->error = 1; goto error; } ...`
where `error` releases `own` blocks. -/
def expectList (n : Int) (own : Nat) (k : M (Option α)) : M (Option α) := do
  if (← getNextType) ≠ tyList then failWith own
  else if (← getNextLength) ≠ n then failWith own
  else k

/-- `msg->f = p(buf); if (sml_buf_has_errors(buf)) goto error; ...` where `set`
stores the field in the structure under construction and the code at `error`
frees that structure (`freed` blocks) and returns NULL. -/
def field (p : M α) (set : α → R) (freed : R → Nat) (k : R → M (Option β)) : M (Option β) := do
  let v ← p
  let r := set v
  if ← hasErrors then do
    release (freed r)
    pure none
  else k r

end Sml
