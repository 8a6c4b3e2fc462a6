import Verif.Model.Message

/-!
# Transport layer

Models `sml/src/sml_transport.c`.
-/

namespace Sml

/-- What the operating system does on the next `read` (the `select` before it only waits):
deliver up to `k + 1` bytes, be interrupted (`EINTR`/`EAGAIN`), or fail. -/
inductive Ev where
  | give (k : Nat)
  | intr
  | fail
deriving DecidableEq, Repr

/-- A file descriptor: the bytes still to come and the behaviour of the coming `read`
calls. When the schedule is used up `read` delivers as much as was asked for and is there.
`read` returns 0 (end of file) when no byte is left. -/
structure Fd where
  pending : List UInt8
  sched : List Ev := []
deriving DecidableEq, Repr

/-- Result of `sml_read`: the bytes stored, or `none` for a returned 0 together with what was
consumed before. -/
structure ReadResult where
  got : Option (List UInt8)
  fd : Fd
deriving DecidableEq, Repr

/-- `sml_read` (sml_transport.c:35-57) for `len - tr = need`, `tr = acc.length`. -/
def smlReadLoop : (sched : List Ev) → (pending : List UInt8) → (need : Nat) → (acc : List UInt8) →
    ReadResult
  | [], pending, need, acc =>
    if need = 0 then ⟨some acc, ⟨pending, []⟩⟩
    else if pending.length ≥ need then
      ⟨some (acc ++ pending.take need), ⟨pending.drop need, []⟩⟩
    else ⟨none, ⟨[], []⟩⟩
  | ev :: sched, pending, need, acc =>
    if need = 0 then ⟨some acc, ⟨pending, ev :: sched⟩⟩
    else match ev with
      | .intr => smlReadLoop sched pending need acc
      | .fail => ⟨none, ⟨pending, sched⟩⟩
      | .give k =>
        if pending = [] then ⟨none, ⟨[], sched⟩⟩
        else
          let r := min (min (k + 1) need) pending.length
          smlReadLoop sched (pending.drop r) (need - r) (acc ++ pending.take r)

def smlRead (fd : Fd) (len : Nat) : ReadResult := smlReadLoop fd.sched fd.pending len []

/-- Outcome of a piece of the transport layer. -/
inductive TRes (α : Type) where
  | ok (a : α)
  | ub (r : Ub)
deriving DecidableEq, Repr

def TRes.bind : TRes α → (α → TRes β) → TRes β
  | .ok a, f => f a
  | .ub r, _ => .ub r

/-- `buf[off..off+bs.length) = bs`. -/
def storeAt (buf : List UInt8) (off : Nat) (bs : List UInt8) : TRes (List UInt8) :=
  if off + bs.length ≤ buf.length then .ok (buf.take off ++ bs ++ buf.drop (off + bs.length))
  else .ub .oobWrite

/-- `buf[i]`. -/
def loadAt (buf : List UInt8) (i : Nat) : TRes UInt8 :=
  match buf[i]? with
  | some b => .ok b
  | none => .ub .oobRead

/-- `&buf[off]`, `n` bytes. -/
def loadBytes (buf : List UInt8) (off n : Nat) : TRes (List UInt8) :=
  if off + n ≤ buf.length then .ok ((buf.drop off).take n) else .ub .oobRead

/-- `esc_seq` (sml_transport.c:31). -/
def escSeq : List UInt8 := [0x1b, 0x1b, 0x1b, 0x1b]
/-- `start_seq` (sml_transport.c:32). -/
def startSeq : List UInt8 := [0x1b, 0x1b, 0x1b, 0x1b, 0x01, 0x01, 0x01, 0x01]
/-- `end_seq` (sml_transport.c:33). -/
def endSeq : List UInt8 := [0x1b, 0x1b, 0x1b, 0x1b, 0x1a]

/-- sml_transport.c:80-84: next value of `len` after a byte. -/
def startNext (len : Nat) (b : UInt8) : Nat :=
  if (b = 0x1b ∧ len < 4) ∨ (b = 0x01 ∧ len ≥ 4) then len + 1 else 0

/-- The loop sml_transport.c:75-85; `none` when the descriptor is exhausted. -/
def findStart : (fuel : Nat) → Fd → (buf : List UInt8) → (len : Nat) →
    TRes (Option (List UInt8) × Fd)
  | 0, _, _, _ => .ub .fuel
  | fuel + 1, fd, buf, len =>
    if len < 8 then
      let r := smlRead fd 1
      match r.got with
      | none => .ok (none, r.fd)
      | some bs =>
        (storeAt buf len bs).bind fun buf =>
        (loadAt buf len).bind fun b =>
        findStart fuel r.fd buf (startNext len b)
    else .ok (some buf, fd)

/-- The loop sml_transport.c:88-112 and the `return 0` after it. The result is the
contents copied to the caller's buffer; empty for a returned 0. -/
def readBlocks (maxLen : Nat) : (fuel : Nat) → Fd → (buf : List UInt8) → (len : Nat) →
    TRes (List UInt8 × Fd)
  | 0, _, _, _ => .ub .fuel
  | fuel + 1, fd, buf, len =>
    if len + 8 < maxLen then
      let r := smlRead fd 4
      match r.got with
      | none => .ok ([], r.fd)
      | some bs =>
        (storeAt buf len bs).bind fun buf =>
        (loadBytes buf len 4).bind fun four =>
        if four = escSeq then
          let len := len + 4
          let r := smlRead r.fd 4
          match r.got with
          | none => .ok ([], r.fd)
          | some bs =>
            (storeAt buf len bs).bind fun buf =>
            (loadAt buf len).bind fun b =>
            if b = 0x1a then
              (loadBytes buf 0 (len + 4)).bind fun out =>
              if len + 4 ≤ maxLen then .ok (out, r.fd) else .ub .oobWrite
            else .ok ([], r.fd)
        else readBlocks maxLen fuel r.fd buf (len + 4)
    else .ok ([], fd)

/-- `sml_transport_read` (sml_transport.c:59-115). The caller's buffer has `maxLen` bytes. `len` is
an `unsigned int`; buffers of `2^32 - 8` bytes or more are outside the model
(`narrowing`). -/
def transportRead (fd : Fd) (maxLen : Nat) : TRes (List UInt8 × Fd) :=
  if maxLen = 0 then .ub .vla
  else if maxLen ≥ 4294967288 then .ub .narrowing
  else
    let buf := List.replicate maxLen 0
    if maxLen < 8 then .ok ([], fd)
    else
      (findStart (fd.pending.length + 9) fd buf 0).bind fun
        | (none, fd) => .ok ([], fd)
        | (some buf, fd) => readBlocks maxLen maxLen fd buf 8

/-- `sml_transport_listen` (sml_transport.c:117-125): the frames handed to the callback, in order. -/
def transportListen : (fuel : Nat) → Fd → TRes (List (List UInt8))
  | 0, _ => .ub .fuel
  | fuel + 1, fd =>
    (transportRead fd 8096).bind fun (frame, fd) =>
      if frame.length > 0 then
        (transportListen fuel fd).bind fun rest => .ok (frame :: rest)
      else .ok []

/-- `sml_transport_write` (sml_transport.c:127-164) up to the call of `write`: the bytes handed to
`write` and the file (whose checksums were updated). -/
def transportFrame (f : File) : M (File × List UInt8) := do
  modSt fun st => { st with cursor := 0 }
  putBytes startSeq
  let f ← fileWrite f
  let st ← getSt
  let padding := if st.cursor % 4 ≠ 0 then 4 - st.cursor % 4 else 0
  if padding ≠ 0 then putBytes (List.replicate padding 0) else pure ()
  putBytes endSeq
  putBytes [UInt8.ofNat padding]
  let st ← getSt
  let bytes ← bufferSlice 0 st.cursor
  let crc := (crc16 bytes).toNat
  putBytes [UInt8.ofNat ((crc &&& 0xFF00) >>> 8)]
  putBytes [UInt8.ofNat (crc &&& 0x00FF)]
  let st ← getSt
  let bytes ← bufferSlice 0 st.cursor
  pure (f, bytes)

/-- `sml_transport_write`, with `wr` what `write` returns for a buffer (`-1` becomes a huge
`size_t`, which never equals the length). -/
def transportWrite (wr : List UInt8 → Int) (f : File) : M (File × Int) := do
  let (f, bytes) ← transportFrame f
  if wr bytes = bytes.length then pure (f, bytes.length) else pure (f, 0)

end Sml
