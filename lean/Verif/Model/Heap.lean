import Verif.Model.Message
import Verif.Source.Names

/-!
# The heap with addresses

`Verif.Model.Message` and the files below it describe parsed objects as values and count heap blocks. Here the same
functions are modelled once more on a heap of addressed blocks: an object is a block, a pointer is an address, `malloc`
yields an address that was never used before, and every access goes through an address and checks that the block is live
and of the right kind. So a use after `free`, a double `free`, a wild pointer and an aliased object all have their own
consequences. The buffer is still `St`; its ghost components `live` and `confused` are not used here.
-/

namespace Sml

/-- An address; 0 is NULL. -/
macro "Addr" : term => `(Nat)

/-- Contents of a block: the bytes of an octet string or buffer, a number object (`u8 *`, `i16 *`, `sml_boolean *`, ...), or
a structure (array) with its pointer members and integer members, each in the order of their declaration. -/
inductive HCell where
  | bytes (bs : List UInt8)
  | num (n : Num)
  | struct (ptrs : List Addr) (ints : List Nat)
deriving DecidableEq, Repr

/-- Live blocks and the next address `malloc` will use. -/
structure Heap where
  next : Addr := 1
  cells : Addr → Option HCell := fun _ => none

/-- Why a run of the code on the heap has no defined behaviour. -/
inductive Bad where
  /-- one of the reasons of `Ub` (accesses to the buffer, counters, ...) -/
  | buf (r : Ub)
  /-- NULL is dereferenced -/
  | null
  /-- access through an address that holds no live block -/
  | dangling
  /-- `free` or `realloc` of an address that holds no live block -/
  | badFree
  /-- access to a member the block does not have -/
  | kind
  /-- no fault: the program called `exit` with this number after this output; only in `Verif.Source.Lang` -/
  | exited (n : Int) (out : List UInt8)
deriving DecidableEq, Repr

/-- Outcome of running code on the buffer and the heap. -/
inductive PRes (α : Type) where
  | ok (a : α) (st : St) (h : Heap)
  | bad (b : Bad)

/-- Code that works on an `sml_buffer` and the heap. -/
def P (α : Type) : Type := St → Heap → PRes α

/-- Sequencing: undefined behaviour ends the run. -/
def P.bind (m : P α) (f : α → P β) : P β := fun st h =>
  match m st h with
  | .ok a st' h' => f a st' h'
  | .bad b => .bad b

instance : Monad P where
  pure a := fun st h => .ok a st h
  bind := P.bind

/-- Code that only works on the buffer. -/
def lift (m : M α) : P α := fun st h =>
  match m st with
  | .ok a st' => .ok a st' h
  | .ub r => .bad (.buf r)

/-- The run has no defined behaviour. -/
def fault (b : Bad) : P α := fun _ _ => .bad b

/-- Replace the contents at one address. -/
def setCell (cs : Addr → Option HCell) (a : Addr) (c : Option HCell) : Addr → Option HCell :=
  fun b => if b = a then c else cs b

/-- `malloc` with the initialisation that follows it (C99 7.20.3.3). -/
def malloc (c : HCell) : P Addr := fun st h =>
  .ok h.next st { next := h.next + 1, cells := setCell h.cells h.next (some c) }

/-- `free` (C99 7.20.3.2): nothing for NULL; undefined unless the block is live. -/
def free (a : Addr) : P Unit := fun st h =>
  if a = 0 then .ok () st h
  else match h.cells a with
    | some _ => .ok () st { h with cells := setCell h.cells a none }
    | none => .bad .badFree

/-- The block behind a pointer that is dereferenced. -/
def deref (a : Addr) : P HCell := fun st h =>
  if a = 0 then .bad .null
  else match h.cells a with
    | some c => .ok c st h
    | none => .bad .dangling

/-- `*p = c` for a whole block that is live. -/
def store (a : Addr) (c : HCell) : P Unit := do
  let _ ← deref a
  fun st h => .ok () st { h with cells := setCell h.cells a (some c) }

/-- `p->m` for the `i`-th pointer member (element). -/
def readPtr (a : Addr) (i : Nat) : P Addr := do
  match ← deref a with
  | .struct ps _ =>
    match ps[i]? with
    | some p => pure p
    | none => fault .kind
  | _ => fault .kind

/-- `p->m = v` for the `i`-th pointer member (element). -/
def writePtr (a : Addr) (i : Nat) (v : Addr) : P Unit := do
  match ← deref a with
  | .struct ps is => if i < ps.length then store a (.struct (ps.set i v) is) else fault .kind
  | _ => fault .kind

/-- `p->m` for the `i`-th integer member. -/
def readInt (a : Addr) (i : Nat) : P Nat := do
  match ← deref a with
  | .struct _ is =>
    match is[i]? with
    | some n => pure n
    | none => fault .kind
  | _ => fault .kind

/-- `p->m = n` for the `i`-th integer member. -/
def writeInt (a : Addr) (i : Nat) (n : Nat) : P Unit := do
  match ← deref a with
  | .struct ps is => if i < is.length then store a (.struct ps (is.set i n)) else fault .kind
  | _ => fault .kind

/-- The first `n` bytes behind a pointer (`memcmp`, `memcpy`). -/
def readRaw (a : Addr) (n : Nat) : P (List UInt8) := do
  match ← deref a with
  | .bytes bs => if n ≤ bs.length then pure (bs.take n) else fault (.buf .oobRead)
  | _ => fault .kind

/-- `*p` for a pointer to a number. -/
def readNum (a : Addr) : P Num := do
  match ← deref a with
  | .num n => pure n
  | _ => fault .kind

/-- `*p` for a pointer to an unsigned number of `w` bytes; what a read with the wrong width would give is left undefined. -/
def readTag (w : Nat) (a : Addr) : P Num := do
  let n ← readNum a
  if n.size = w ∧ n.val < 256 ^ w then pure n else fault .kind

/-- The block behind a pointer given to `realloc`, which has to be live (C99 7.20.3.4). -/
def reallocSource (a : Addr) : P HCell := fun st h =>
  match h.cells a with
  | some c => .ok c st h
  | none => .bad .badFree

/-- `realloc` of an array of pointers to `n` elements (C99 7.20.3.4): the block always moves; what is in the
new elements is unspecified. There may be one, the last, which every caller writes at once; here it is NULL. -/
def reallocArray (a : Addr) (n : Nat) : P Addr := do
  if a = 0 then do
    if 1 < n then fault (.buf .uninit) else
    malloc (.struct (List.replicate n 0) [])
  else
    match ← reallocSource a with
    | .struct ps [] => do
      if ps.length + 1 < n then fault (.buf .uninit) else do
      let b ← malloc (.struct ((ps ++ List.replicate n 0).take n) [])
      free a
      pure b
    | _ => fault .kind

/-! ## Patterns -/

/-- `goto error;` where the code at `error` frees the structure `a` and returns `z`. -/
def pAbort (f : Addr → P Unit) (a : Addr) (z : β) : P β := do
  f a
  pure z

/-- The two checks at the beginning of nearly all parse functions (see `expectList`); `err` is `buf->error = 1; goto error;`
behind the assignment. -/
def pExpectList (n : Int) (err : P β) (k : P β) : P β := do
  if (← lift getNextType) ≠ tyList then do
    lift setError
    err
  else if (← lift getNextLength) ≠ n then do
    lift setError
    err
  else k

/-- `msg->f = p(buf); if (sml_buf_has_errors(buf)) goto error; ...` for the `i`-th pointer member of the structure at `a`. -/
def pField (p : P Addr) (a : Addr) (i : Nat) (err : P β) (k : P β) : P β := do
  let v ← p
  writePtr a i v
  if ← lift hasErrors then err else k

/-- `if (sml_buf_optional_is_skipped(buf)) return NULL; ...` -/
def pOptional (p : P Addr) : P Addr := do
  if ← lift optionalIsSkipped then pure 0 else p

/-- The calls `f(p->m)` for the pointer members from the `i`-th on, then `free(p)`. -/
def pFreeFields (a : Addr) : (i : Nat) → List (Addr → P Unit) → P Unit
  | _, [] => free a
  | i, f :: fs => do
    f (← readPtr a i)
    pFreeFields a (i + 1) fs

/-- `if (p) { f0(p->m0); f1(p->m1); ... free(p); }`, the shape of most free functions. -/
def pFreeStruct (fs : List (Addr → P Unit)) (a : Addr) : P Unit :=
  if a = 0 then pure () else pFreeFields a 0 fs

/-- `s->len++; s->arr = realloc(s->arr, sizeof(void *) * s->len); s->arr[s->len - 1] = e;` where `arr` is the `i`-th pointer
member and `len`, which must not be `INT_MAX`, the first integer member of the structure. -/
def pArrayAdd (s : Addr) (i : Nat) (e : Addr) : P Unit := do
  let len ← readInt s 0
  if len ≥ 2147483647 then fault (.buf .counter) else do
  writeInt s 0 (len + 1)
  writePtr s i (← reallocArray (← readPtr s i) (len + 1))
  writePtr (← readPtr s i) ((← readInt s 0) - 1) e

/-- `for (k = 0; k < len; k++) f(s->arr[k]);` with `rounds` rounds left, `arr` the `i`-th pointer member. -/
def pForEach (f : Addr → P Unit) (s : Addr) (i : Nat) : (rounds : Nat) → (k : Nat) → P Unit
  | 0, _ => pure ()
  | rounds + 1, k => do
    let arr ← readPtr s i
    f (← readPtr arr k)
    pForEach f s i rounds (k + 1)

/-! ## Numbers, octet strings, booleans, values, status words, times -/

/-- `sml_number_free` (sml_number.c:147-151), also `sml_unit_free` and `sml_boolean_free` (sml_boolean.c:73-77). -/
def pNumberFree (a : Addr) : P Unit := if a ≠ 0 then free a else pure ()

/-- `sml_number_parse` (sml_number.c:68-129); see `numberParse`. -/
def pNumberParse (type max : Nat) : P Addr := do
  if ← lift optionalIsSkipped then pure 0
  else
    let st ← lift getSt
    if st.cursor + 1 > st.data.length then do
      lift setError
      pure 0
    else if (← lift getNextType) ≠ type then do
      lift setError
      pure 0
    else
      let l ← lift getNextLength
      if l < 0 ∨ l > (max : Int) then do
        lift setError
        pure 0
      else
        let l := l.toNat
        let np ← malloc (.num { size := max, val := 0 })
        let st ← lift getSt
        if st.cursor + l > st.data.length then do
          lift setError
          free np
          pure 0
        else if st.cursor + 1 > st.data.length then do
          lift setError
          free np
          pure 0
        else
          let b ← lift getCurrentByte
          let negative := decide (type = tyInteger) && decide (b &&& 128 ≠ 0)
          let bytes ← lift (readBytes l)
          let mem := List.replicate (max - l) (if negative then 0xFF else 0x00) ++ bytes
          store np (.num { size := max, val := beNat mem })
          lift (updateBytesRead l)
          pure np

abbrev pU8Parse : P Addr := pNumberParse tyUnsigned 1
abbrev pU16Parse : P Addr := pNumberParse tyUnsigned 2
abbrev pU32Parse : P Addr := pNumberParse tyUnsigned 4
abbrev pU64Parse : P Addr := pNumberParse tyUnsigned 8
abbrev pI8Parse : P Addr := pNumberParse tyInteger 1
abbrev pI16Parse : P Addr := pNumberParse tyInteger 2
abbrev pI64Parse : P Addr := pNumberParse tyInteger 8

/-- `sml_octet_string_init` (sml_octet_string.c:35-45): pointer member `str`, integer member `len`. -/
def pOctetStringInit (bs : List UInt8) : P Addr := do
  let s ← malloc (.struct [0] [0])
  if bs.length > 0 then do
    let d ← malloc (.bytes bs)
    writePtr s 0 d
    writeInt s 0 bs.length
    pure s
  else pure s

/-- `sml_octet_string_free` (sml_octet_string.c:59-66). -/
def pOctetStringFree (a : Addr) : P Unit :=
  if a ≠ 0 then do
    if (← readPtr a 0) ≠ 0 then free (← readPtr a 0) else pure ()
    free a
  else pure ()

/-- `sml_octet_string_parse` (sml_octet_string.c:68-89). -/
def pOctetStringParse : P Addr := do
  if ← lift optionalIsSkipped then pure 0
  else if (← lift getNextType) ≠ tyOctet then do
    lift setError
    pure 0
  else
    let l ← lift getNextLength
    let st ← lift getSt
    if l < 0 ∨ l ≥ ((st.data.length - st.cursor : Nat) : Int) then do
      lift setError
      pure 0
    else
      let bytes ← lift (readBytes l.toNat)
      let str ← pOctetStringInit bytes
      lift (updateBytesRead l.toNat)
      pure str

/-- `sml_boolean_parse` (sml_boolean.c:29-56) with `sml_boolean_init` (sml_boolean.c:22-27). -/
def pBooleanParse : P Addr := do
  if ← lift optionalIsSkipped then pure 0
  else if (← lift getNextType) ≠ tyBoolean then do
    lift setError
    pure 0
  else if (← lift getNextLength) ≠ 1 then do
    lift setError
    pure 0
  else
    let st ← lift getSt
    if st.cursor ≥ st.data.length then do
      lift setError
      pure 0
    else
      let b ← lift getCurrentByte
      lift (updateBytesRead 1)
      malloc (.num { size := 1, val := if b ≠ 0 then 0xFF else 0x00 })

/-- `sml_value_free` (sml_value.c:92-107): pointer member `data`, integer member `type`. -/
def pValueFree (a : Addr) : P Unit :=
  if a ≠ 0 then do
    let type ← readInt a 0
    let d ← readPtr a 0
    if type = tyOctet then pOctetStringFree d
    else if type = tyBoolean then pNumberFree d
    else pNumberFree d
    free a
  else pure ()

/-- `sml_value_parse` (sml_value.c:23-62) with `sml_value_init` (sml_value.c:85-90). -/
def pValueParse : P Addr := do
  if ← lift optionalIsSkipped then pure 0
  else
    let type ← lift getNextType
    let byte ← lift getCurrentByte
    let value ← malloc (.struct [0] [tyOctet])
    writeInt value 0 type
    (if type = tyOctet then do
      let p ← pOctetStringParse
      writePtr value 0 p
    else if type = tyBoolean then do
      let p ← pBooleanParse
      writePtr value 0 p
    else if type = tyUnsigned ∨ type = tyInteger then do
      let max := growMax 4 1 byte
      let p ← pNumberParse type max
      writePtr value 0 p
      writeInt value 0 (((← readInt value 0) ||| max) % 256)
    else lift setError : P Unit)
    if ← lift hasErrors then do
      pValueFree value
      pure 0
    else pure value

/-- `sml_status_free` (sml_status.c:70-75). -/
def pStatusFree (a : Addr) : P Unit := pFreeStruct [pNumberFree] a

/-- `sml_status_parse` (sml_status.c:28-59) with `sml_status_init` (sml_status.c:21-26). -/
def pStatusParse : P Addr := do
  if ← lift optionalIsSkipped then pure 0
  else
    let type ← lift getNextType
    let byte ← lift getCurrentByte
    let status ← malloc (.struct [0] [tyUnsigned])
    writeInt status 0 type
    (if type = tyUnsigned then do
      let max := growMax 4 1 byte
      let p ← pNumberParse type max
      writePtr status 0 p
      writeInt status 0 (((← readInt status 0) ||| max) % 256)
    else lift setError : P Unit)
    if ← lift hasErrors then do
      pStatusFree status
      pure 0
    else pure status

/-- `sml_time_free` (sml_time.c:131-137): pointer members `tag`, `data`. -/
def pTimeFree (a : Addr) : P Unit := pFreeStruct [pNumberFree, pNumberFree] a

/-- sml_time.c:62-118, the part after the tag. -/
def pTimeParseData (tme : Addr) : P Addr := do
  let type ← lift getNextType
  if type = tyUnsigned then
    pField pU32Parse tme 1 (pAbort pTimeFree tme 0) (pure tme)
  else if type = tyList then do
    let _ ← lift getNextLength
    let t1 ← pU32Parse
    if ← lift hasErrors then do
      pNumberFree t1
      pAbort pTimeFree tme 0
    else
    let t2 ← pI16Parse
    if ← lift hasErrors then do
      pNumberFree t1
      pNumberFree t2
      pAbort pTimeFree tme 0
    else
    let t3 ← pI16Parse
    if ← lift hasErrors then do
      pNumberFree t1
      pNumberFree t2
      pNumberFree t3
      pAbort pTimeFree tme 0
    else do
    pNumberFree t1
    pNumberFree t2
    pNumberFree t3
    pure tme
  else pAbort pTimeFree tme 0

/-- `sml_time_parse` (sml_time.c:30-118) with `sml_time_init` (sml_time.c:24-28). -/
def pTimeParse : P Addr := pOptional do
  let tme ← malloc (.struct [0, 0] [])
  let b ← lift getCurrentByte
  if b = 0x65 then do
    let tag ← malloc (.num { size := 1, val := 1 })
    writePtr tme 0 tag
    pTimeParseData tme
  else
    pExpectList 2 (pAbort pTimeFree tme 0) <|
    pField pU8Parse tme 0 (pAbort pTimeFree tme 0) <|
    pTimeParseData tme

/-! ## Sequences and lists -/

/-- `sml_sequence_free` (sml_list.c:77-90): pointer member `elems`, integer members `elems_len` and `elem_free`, the number of a
function. Only the case that this is the function `c`, which does `f`, is modelled. -/
def pSequenceFree (c : C.Fn) (f : Addr → P Unit) (a : Addr) : P Unit :=
  if a ≠ 0 then do
    if (← readInt a 1) ≠ c.code then fault .kind else do
    pForEach f a 0 (← readInt a 0) 0
    if (← readPtr a 0) ≠ 0 then free (← readPtr a 0) else pure ()
    free a
  else pure ()

/-- The loop sml_list.c:45-51 with `i` rounds left. -/
def pSequenceLoop (p : P Addr) (c : C.Fn) (f : Addr → P Unit) (seq : Addr) : (i : Nat) → P Addr
  | 0 => pure seq
  | i + 1 => do
    let e ← p
    if ← lift hasErrors then do
      pSequenceFree c f seq
      lift setError
      pure 0
    else do
      pArrayAdd seq 0 e
      pSequenceLoop p c f seq i

/-- `sml_sequence_parse` (sml_list.c:36-60) with `sml_sequence_init` (sml_list.c:29-34). -/
def pSequenceParse (p : P Addr) (c : C.Fn) (f : Addr → P Unit) : P Addr := do
  if (← lift getNextType) ≠ tyList then do
    lift setError
    pure 0
  else
    let seq ← malloc (.struct [0] [0, c.code])
    let len ← lift getNextLength
    pSequenceLoop p c f seq len.toNat

/-- The calls in `sml_list_entry_free` (sml_list.c:334-346) in the order of the members. -/
def listEntryFrees : List (Addr → P Unit) :=
  [pOctetStringFree, pStatusFree, pTimeFree, pNumberFree, pNumberFree, pValueFree, pOctetStringFree]

/-- `sml_list_entry_free` (sml_list.c:334-346). -/
def pListEntryFree (a : Addr) : P Unit := pFreeStruct listEntryFrees a

/-- The loop sml_list.c:353-359; `fuel` bounds the rounds. -/
def pListFreeLoop : (fuel : Nat) → (f n : Addr) → P Unit
  | 0, _, _ => fault (.buf .fuel)
  | fuel + 1, f, n =>
    if f ≠ 0 then do
      pListEntryFree f
      let f := n
      if f ≠ 0 then do
        let n ← readPtr f 7
        pListFreeLoop fuel f n
      else pListFreeLoop fuel f n
    else pure ()

/-- `sml_list_free` (sml_list.c:348-361). There are fewer rounds than addresses were ever given out. -/
def pListFree (a : Addr) : P Unit := fun st h =>
  (if a ≠ 0 then do
    let n ← readPtr a 7
    pListFreeLoop (h.next + 1) a n
  else pure () : P Unit) st h

/-- `detect_buggy_dzg_dvs74` (sml_list.c:116-166). -/
def pDetectBuggyDzgDvs74 (l : Addr) : P Bool := do
  let name ← readPtr l 0
  if name = 0 then pure false
  else if (← readInt name 0) ≠ 6 then pure false
  else if (← readRaw (← readPtr name 0) 6) ≠ dzgSerialOid then pure false
  else
    let value ← readPtr l 5
    if value = 0 then pure false
    else if (← readInt value 0) ≠ tyOctet then pure false
    else
      let bytes ← readPtr value 0
      if (← readInt bytes 0) ≠ 10 then pure false
      else
        let val ← readRaw (← readPtr bytes 0) 10
        if val.take 5 ≠ dzgSerialStart then pure false
        else
          let serial := dzgSerial (val.drop 5)
          pure ((decide (serial ≥ 42000000) && decide (serial ≤ 48999999)) ||
                (decide (serial ≥ 55000000) && decide (serial ≤ 58999999)))

/-- sml_list.c:251-254, the condition for re-labelling the value. -/
def pDzgApplies (l : Addr) (valueLenMore : UInt8) (wa : Bool) : P Bool := do
  if wa = false then pure false
  else
    let name ← readPtr l 0
    if name = 0 then pure false
    else if (← readInt name 0) ≠ 6 then pure false
    else if (← readRaw (← readPtr name 0) 6) ≠ dzgPowerName then pure false
    else
      let value ← readPtr l 5
      if value = 0 then pure false
      else pure (decide (valueLenMore = 1 ∨ valueLenMore = 2 ∨ valueLenMore = 3))

/-- sml_list.c:249-259. -/
def pListEntryFinish (l : Addr) (valueLenMore : UInt8) (wa : Bool) : P (Addr × Bool) := do
  if ← pDetectBuggyDzgDvs74 l then pure (l, true)
  else if ← pDzgApplies l valueLenMore wa then do
    let value ← readPtr l 5
    let type ← readInt value 0
    writeInt value 0 ((type &&& 0x8F) ||| tyUnsigned)
    pure (l, wa)
  else pure (l, wa)

/-- `sml_list_entry_parse` (sml_list.c:172-267) with `sml_list_init` (sml_list.c:100-111): pointer members `obj_name`,
`status`, `val_time`, `unit`, `scaler`, `value`, `value_signature`, `next`. -/
def pListEntryParse (wa : Bool) : P (Addr × Bool) :=
  pExpectList 7 (pure (0, wa)) do
  let l ← malloc (.struct [0, 0, 0, 0, 0, 0, 0, 0] [])
  let err := pAbort pListFree l (0, wa)
  pField pOctetStringParse l 0 err <|
  pField pStatusParse l 1 err <|
  pField pTimeParse l 2 err <|
  pField pU8Parse l 3 err <|
  pField pI8Parse l 4 err do
  let st ← lift getSt
  if st.cursor ≥ st.data.length then do
    lift setError
    err
  else do
  let valueTl ← lift getCurrentByte
  let valueLenMore := valueTl &&& 0x8F
  pField pValueParse l 5 err <|
  pField pOctetStringParse l 6 err <|
  pListEntryFinish l valueLenMore wa

/-- The loop sml_list.c:285-291 with `elems` rounds left. `pos` is the structure whose member `next` the C variable `pos`
points to; 0 stands for `&ret`. -/
def pListLoop : (elems : Nat) → (wa : Bool) → (ret pos : Addr) → P Addr
  | 0, _, ret, _ => pure ret
  | elems + 1, wa, ret, pos => do
    let (e, wa) ← pListEntryParse wa
    let ret ← (if pos = 0 then pure e else do
      writePtr pos 7 e
      pure ret : P Addr)
    if ← lift hasErrors then do
      lift setError
      pListFree ret
      pure 0
    else if e = 0 then fault .null
    else pListLoop elems wa ret e

/-- `sml_list_parse` (sml_list.c:269-299). -/
def pListParse : P Addr := do
  if ← lift optionalIsSkipped then pure 0
  else if (← lift getNextType) ≠ tyList then do
    lift setError
    pure 0
  else
    let elems ← lift getNextLength
    pListLoop elems.toNat false 0 0

/-! ## Trees -/

/-- `sml_tree_path_free` (sml_tree.c:86-99): pointer member `path_entries`, integer member `path_entries_len`. -/
def pTreePathFree (a : Addr) : P Unit :=
  if a ≠ 0 then do
    if (← readPtr a 0) ≠ 0 ∧ (← readInt a 0) > 0 then do
      pForEach pOctetStringFree a 0 (← readInt a 0) 0
      free (← readPtr a 0)
    else pure ()
    free a
  else pure ()

/-- The loop sml_tree.c:45-52 with `elems` rounds left; `sml_tree_path_add_path_entry` is sml_tree.c:62-68. -/
def pTreePathLoop (path : Addr) : (elems : Nat) → P Addr
  | 0 => pure path
  | elems + 1 => do
    let s ← pOctetStringParse
    if ← lift hasErrors then do
      lift setError
      pAbort pTreePathFree path 0
    else if s ≠ 0 then do
      pArrayAdd path 0 s
      pTreePathLoop path elems
    else pTreePathLoop path elems

/-- `sml_tree_path_parse` (sml_tree.c:32-60) with `sml_tree_path_init` (sml_tree.c:25-30). -/
def pTreePathParse : P Addr := pOptional do
  let path ← malloc (.struct [0] [0])
  if (← lift getNextType) ≠ tyList then do
    lift setError
    pAbort pTreePathFree path 0
  else
    let elems ← lift getNextLength
    pTreePathLoop path elems.toNat

/-- `sml_period_entry_free` (sml_tree.c:605-619). -/
def pPeriodEntryFree (a : Addr) : P Unit :=
  pFreeStruct [pOctetStringFree, pNumberFree, pNumberFree, pValueFree, pOctetStringFree] a

/-- `sml_period_entry_parse` (sml_tree.c:544-588) with `sml_period_entry_init` (sml_tree.c:536-542). -/
def pPeriodEntryParse : P Addr := pOptional do
  let p ← malloc (.struct [0, 0, 0, 0, 0] [])
  let err := pAbort pPeriodEntryFree p 0
  pExpectList 5 err <|
    pField pOctetStringParse p 0 err <|
    pField pU8Parse p 1 err <|
    pField pI8Parse p 2 err <|
    pField pValueParse p 3 err <|
    pField pOctetStringParse p 4 err <|
    pure p

/-- `sml_tupel_entry_free` (sml_tree.c:496-532). -/
def pTupelEntryFree (a : Addr) : P Unit :=
  pFreeStruct [pOctetStringFree, pTimeFree, pNumberFree,
    pNumberFree, pNumberFree, pNumberFree, pNumberFree, pNumberFree, pNumberFree,
    pNumberFree, pNumberFree, pNumberFree, pOctetStringFree,
    pNumberFree, pNumberFree, pNumberFree, pNumberFree, pNumberFree, pNumberFree,
    pNumberFree, pNumberFree, pNumberFree, pOctetStringFree] a

/-- `sml_tupel_entry_parse` (sml_tree.c:353-453) with `sml_tupel_entry_init` (sml_tree.c:324-351). -/
def pTupelEntryParse : P Addr := pOptional do
  let t ← malloc (.struct (List.replicate 23 0) [])
  let err := pAbort pTupelEntryFree t 0
  pExpectList 23 err <|
    pField pOctetStringParse t 0 err <|
    pField pTimeParse t 1 err <|
    pField pU64Parse t 2 err <|
    pField pU8Parse t 3 err <|
    pField pI8Parse t 4 err <|
    pField pI64Parse t 5 err <|
    pField pU8Parse t 6 err <|
    pField pI8Parse t 7 err <|
    pField pI64Parse t 8 err <|
    pField pU8Parse t 9 err <|
    pField pI8Parse t 10 err <|
    pField pI64Parse t 11 err <|
    pField pOctetStringParse t 12 err <|
    pField pU8Parse t 13 err <|
    pField pI8Parse t 14 err <|
    pField pI64Parse t 15 err <|
    pField pU8Parse t 16 err <|
    pField pI8Parse t 17 err <|
    pField pI64Parse t 18 err <|
    pField pU8Parse t 19 err <|
    pField pI8Parse t 20 err <|
    pField pI64Parse t 21 err <|
    pField pOctetStringParse t 22 err <|
    pure t

/-- `sml_proc_par_value_free` (sml_tree.c:289-320): pointer members `tag`, `data`. -/
def pProcParValueFree (a : Addr) : P Unit :=
  if a ≠ 0 then do
    let tag ← readPtr a 0
    let d ← readPtr a 1
    if tag ≠ 0 then do
      let t ← readTag 1 tag
      (if t.val = 1 then pValueFree d
      else if t.val = 2 then pPeriodEntryFree d
      else if t.val = 3 then pTupelEntryFree d
      else if t.val = 4 then pTimeFree d
      else pNumberFree d : P Unit)
      pNumberFree tag
    else pNumberFree d
    free a
  else pure ()

/-- `sml_proc_par_value_parse` (sml_tree.c:216-260) with `sml_proc_par_value_init` (sml_tree.c:210-214). -/
def pProcParValueParse : P Addr := pOptional do
  let ppv ← malloc (.struct [0, 0] [])
  let err := pAbort pProcParValueFree ppv 0
  pExpectList 2 err <|
    pField pU8Parse ppv 0 err do
    let tag ← readPtr ppv 0
    if tag = 0 then err
    else
      let t ← readTag 1 tag
      if t.val = 1 then do
        let d ← pValueParse
        writePtr ppv 1 d
        pure ppv
      else if t.val = 2 then do
        let d ← pPeriodEntryParse
        writePtr ppv 1 d
        pure ppv
      else if t.val = 3 then do
        let d ← pTupelEntryParse
        writePtr ppv 1 d
        pure ppv
      else if t.val = 4 then do
        let d ← pTimeParse
        writePtr ppv 1 d
        pure ppv
      else do
        lift setError
        err

/-- `sml_tree_free` (sml_tree.c:171-183): pointer members `parameter_name`, `parameter_value`, `child_list`, integer member
`child_list_len`; `fuel` bounds the nesting. -/
def pTreeFreeAux : (fuel : Nat) → Addr → P Unit
  | 0, _ => fault (.buf .fuel)
  | fuel + 1, a =>
    if a ≠ 0 then do
      pOctetStringFree (← readPtr a 0)
      pProcParValueFree (← readPtr a 1)
      pForEach (pTreeFreeAux fuel) a 2 (← readInt a 0) 0
      free (← readPtr a 2)
      free a
    else pure ()

/-- `sml_tree_free` (sml_tree.c:171-183). A tree is nested less deeply than there are addresses. -/
def pTreeFree (a : Addr) : P Unit := fun st h => pTreeFreeAux (h.next + 1) a st h

/-- The loop sml_tree.c:144-154 with `elems` rounds left; `p` is the recursive call. `sml_tree_add_tree` is
sml_tree.c:164-169. -/
def pTreeLoop (p : P Addr) (tree : Addr) : (elems : Nat) → P Addr
  | 0 => pure tree
  | elems + 1 => do
    let c ← p
    if ← lift hasErrors then do
      if c ≠ 0 then pTreeFree c else pure ()
      pAbort pTreeFree tree 0
    else if c ≠ 0 then do
      pArrayAdd tree 2 c
      pTreeLoop p tree elems
    else pTreeLoop p tree elems

/-- `sml_tree_parse` (sml_tree.c:111-162) with `sml_tree_init` (sml_tree.c:103-109). -/
def pTreeParse : (depth : Nat) → P Addr
  | 0 => fault (.buf .stack)
  | depth + 1 => pOptional do
    let t ← malloc (.struct [0, 0, 0] [0])
    let err := pAbort pTreeFree t 0
    pExpectList 3 err <|
      pField pOctetStringParse t 0 err <|
      pField pProcParValueParse t 1 err do
      if ← lift optionalIsSkipped then pure t
      else if (← lift getNextType) ≠ tyList then do
        lift setError
        err
      else
        let elems ← lift getNextLength
        pTreeLoop (pTreeParse depth) t elems.toNat

end Sml
