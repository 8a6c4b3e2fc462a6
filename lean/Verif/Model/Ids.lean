import Verif.Model.Util

/-!
# Where transaction ids come from

`sml_octet_string_generate_uuid` (sml_octet_string.c:102-123) without the uuid library (`SML_NO_UUID_LIB`, as in
library.json:13): what it asks of the operating system. The version bits and the string are `generateUuid`.
-/

namespace Sml

/-- The descriptors of a process: fewer than `limit` (`RLIMIT_NOFILE`), and those in `used` are open. -/
structure Files where
  limit : Nat
  used : List Nat
deriving DecidableEq, Repr

/-- `open` of a file that exists (`present`): the lowest descriptor that is not in use, or -1 (`none`). -/
def Files.openFile (f : Files) (present : Bool) : Option Nat × Files :=
  if present then
    match (List.range f.limit).find? fun n => !f.used.contains n with
    | some n => (some n, { f with used := n :: f.used })
    | none => (none, f)
  else (none, f)

/-- What a call meets: the 16 bytes /dev/urandom would deliver, and the 16 bytes that lie where the local array `uuid` is put. -/
structure Around where
  rnd : List UInt8
  stack : List UInt8
deriving DecidableEq, Repr

/-- `read(fd, uuid, 16)` (sml_octet_string.c:112): with a descriptor of /dev/urandom it fills the array (Linux never delivers less for so
few bytes); with -1 it fails and changes nothing. The result is not looked at. -/
def readRandom (fd : Option Nat) (a : Around) : List UInt8 :=
  match fd with
  | some _ => a.rnd
  | none => a.stack

/-- `sml_octet_string_generate_uuid` on Linux (sml_octet_string.c:110-112, 119-122). The descriptor is not closed. -/
def generateUuidLinux (present : Bool) (a : Around) (f : Files) : M (OctetString × Files) := do
  let (fd, f) := f.openFile present
  let s ← generateUuid (readRandom fd a)
  pure (s, f)

/-- `sml_message_init` (sml_message.c:107-116) with it. -/
def messageInitLinux (present : Bool) (a : Around) (f : Files) : M (Message × Files) := do
  alloc 1
  let (s, f) ← generateUuidLinux present a f
  pure ({ transactionId := some s }, f)

/-- A sender that makes a message for each of its surroundings. -/
def makeMessages (present : Bool) : List Around → Files → M (List Message × Files)
  | [], f => pure ([], f)
  | a :: as, f => do
    let (m, f) ← messageInitLinux present a f
    let (ms, f) ← makeMessages present as f
    pure (m :: ms, f)

/-- The bytes on other systems (sml_octet_string.c:114-117): `rand() % 0xFF` for each; `rs` are the results of `rand`. -/
def randBytes (rs : List Nat) : List UInt8 := rs.map fun r => UInt8.ofNat (r % 0xFF)

/-- `sml_octet_string_generate_uuid` there (sml_octet_string.c:114-122). -/
def generateUuidRand (rs : List Nat) : M OctetString := generateUuid (randBytes rs)

end Sml
