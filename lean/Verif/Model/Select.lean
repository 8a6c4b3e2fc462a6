import Verif.Model.Transport

/-!
# Waiting with `select`

`sml_read`, `sml_transport_read` and `sml_transport_listen` (sml_transport.c:35-125) once more, with the set of descriptors they hand to
`select` and the number of the descriptor. `Verif.Model.Transport` takes for granted that `select` only waits.
-/

namespace Sml

/-- What `select` sees while it waits: which descriptors are ready, or a signal or another failure. -/
inductive Moment where
  | ready (r : Nat → Bool)
  | failed

/-- The set after a moment: of the first `nfds` descriptors only those that are ready. -/
def selected (nfds : Nat) (r : Nat → Bool) (set : List Bool) : List Bool :=
  set.mapIdx fun i b => b && (r i || decide (nfds ≤ i))

/-- `select(nfds, set, 0, 0, 0)` without a timeout (POSIX): waits until one of the first `nfds` descriptors of the set is ready; if it fails
the set stays as it is. `none`: it never returns. After the given moments all descriptors are ready. -/
def select (nfds : Nat) (set : List Bool) : List Moment → Option (List Bool)
  | [] => if (set.take nfds).any id then some set else none
  | .failed :: _ => some set
  | .ready r :: ms =>
    let out := selected nfds r set
    if (out.take nfds).any id then some out else select nfds set ms

/-- `FD_ZERO`; `FD_SETSIZE` is 1024. -/
def fdZero : List Bool := List.replicate 1024 false

/-- `FD_SET`: a write into the array of bits, without a check. -/
def fdSet (d : Int) (set : List Bool) : TRes (List Bool) :=
  if 0 ≤ d ∧ d.toNat < set.length then .ok (set.set d.toNat true) else .ub .oobWrite

/-- `FD_ISSET`: a read. -/
def fdIsSet (d : Nat) (set : List Bool) : TRes Bool :=
  match set[d]? with
  | some b => .ok b
  | none => .ub .oobRead

/-- One round of the loop in `sml_read`: what `select` meets and then `read`. -/
structure Turn where
  wait : List Moment
  ev : Ev

/-- A descriptor with its future. -/
structure SFd where
  pending : List UInt8
  turns : List Turn := []

/-- Result of `sml_read`, and the set afterwards. -/
structure SelResult where
  got : Option (List UInt8)
  fd : SFd
  set : List Bool

/-- `sml_read` (sml_transport.c:35-57) for `len - tr = need`, `tr = acc.length`. A call that never returns is `fuel`. -/
def smlReadLoopS (d : Nat) : (turns : List Turn) → (set : List Bool) → (pending : List UInt8) → (need : Nat) → (acc : List UInt8) → TRes SelResult
  | [], set, pending, need, acc =>
    if need = 0 then .ok ⟨some acc, ⟨pending, []⟩, set⟩
    else match select (d + 1) set [] with
      | none => .ub .fuel
      | some set =>
        (fdIsSet d set).bind fun b =>
          if b then
            if pending.length ≥ need then .ok ⟨some (acc ++ pending.take need), ⟨pending.drop need, []⟩, set⟩
            else .ok ⟨none, ⟨[], []⟩, set⟩
          else .ub .fuel
  | t :: ts, set, pending, need, acc =>
    if need = 0 then .ok ⟨some acc, ⟨pending, t :: ts⟩, set⟩
    else match select (d + 1) set t.wait with
      | none => .ub .fuel
      | some set =>
        (fdIsSet d set).bind fun b =>
          if b then
            match t.ev with
            | .intr => smlReadLoopS d ts set pending need acc
            | .fail => .ok ⟨none, ⟨pending, ts⟩, set⟩
            | .give k =>
              if pending = [] then .ok ⟨none, ⟨[], ts⟩, set⟩
              else
                let r := min (min (k + 1) need) pending.length
                smlReadLoopS d ts set (pending.drop r) (need - r) (acc ++ pending.take r)
          else smlReadLoopS d ts set pending need acc

def smlReadS (d : Nat) (set : List Bool) (fd : SFd) (len : Nat) : TRes SelResult := smlReadLoopS d fd.turns set fd.pending len []

/-- The loop sml_transport.c:75-85. -/
def findStartS (d : Nat) : (fuel : Nat) → List Bool → SFd → (buf : List UInt8) → (len : Nat) → TRes (Option (List UInt8) × SFd × List Bool)
  | 0, _, _, _, _ => .ub .fuel
  | fuel + 1, set, fd, buf, len =>
    if len < 8 then
      (smlReadS d set fd 1).bind fun r =>
      match r.got with
      | none => .ok (none, r.fd, r.set)
      | some bs =>
        (storeAt buf len bs).bind fun buf =>
        (loadAt buf len).bind fun b =>
        findStartS d fuel r.set r.fd buf (startNext len b)
    else .ok (some buf, fd, set)

/-- The loop sml_transport.c:88-112 and the `return 0` after it. -/
def readBlocksS (d : Nat) (maxLen : Nat) : (fuel : Nat) → List Bool → SFd → (buf : List UInt8) → (len : Nat) → TRes (List UInt8 × SFd)
  | 0, _, _, _, _ => .ub .fuel
  | fuel + 1, set, fd, buf, len =>
    if len + 8 < maxLen then
      (smlReadS d set fd 4).bind fun r =>
      match r.got with
      | none => .ok ([], r.fd)
      | some bs =>
        (storeAt buf len bs).bind fun buf =>
        (loadBytes buf len 4).bind fun four =>
        if four = escSeq then
          let len := len + 4
          (smlReadS d r.set r.fd 4).bind fun r =>
          match r.got with
          | none => .ok ([], r.fd)
          | some bs =>
            (storeAt buf len bs).bind fun buf =>
            (loadAt buf len).bind fun b =>
            if b = 0x1a then
              (loadBytes buf 0 (len + 4)).bind fun out =>
              if len + 4 ≤ maxLen then .ok (out, r.fd) else .ub .oobWrite
            else .ok ([], r.fd)
        else readBlocksS d maxLen fuel r.set r.fd buf (len + 4)
    else .ok ([], fd)

/-- `sml_transport_read` (sml_transport.c:59-115) for the descriptor number `d`. -/
def transportReadS (d : Int) (fd : SFd) (maxLen : Nat) : TRes (List UInt8 × SFd) :=
  (fdSet d fdZero).bind fun set =>
  if maxLen = 0 then .ub .vla
  else if maxLen ≥ 4294967288 then .ub .narrowing
  else
    let buf := List.replicate maxLen 0
    if maxLen < 8 then .ok ([], fd)
    else
      (findStartS d.toNat (fd.pending.length + 9) set fd buf 0).bind fun
        | (none, fd, _) => .ok ([], fd)
        | (some buf, fd, set) => readBlocksS d.toNat maxLen maxLen set fd buf 8

/-- `sml_transport_listen` (sml_transport.c:117-125). -/
def transportListenS (d : Int) : (fuel : Nat) → SFd → TRes (List (List UInt8))
  | 0, _ => .ub .fuel
  | fuel + 1, fd =>
    (transportReadS d fd 8096).bind fun (frame, fd) =>
      if frame.length > 0 then
        (transportListenS d fuel fd).bind fun rest => .ok (frame :: rest)
      else .ok []

end Sml
