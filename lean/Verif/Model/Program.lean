import Verif.Model.Print
import Verif.Model.Transport

/-!
# The example program

`main` of examples/sml_server.c with `getopt` as POSIX describes it (no permutation of arguments because of the `+`), and
`sml_transport_listen` with `transport_receiver` as callback. Arguments are byte strings; `argv[0]` is given separately. Output is what goes to
`stdout`.
-/

namespace Sml

/-- How a process ends: exit status and standard output. -/
structure Exit where
  status : Nat
  out : List UInt8
deriving DecidableEq, Repr

/-- `sflag`, `vflag` (examples/sml_server.c:41-42). -/
structure Flags where
  single : Bool := false
  verbose : Bool := false
deriving DecidableEq, Repr

/-- What the option loop examples/sml_server.c:161-184 comes to: `exit(0)` after the help text, `exit(1)`, or
the flags and the arguments from `optind` on. -/
inductive Options where
  | help
  | unknown
  | rest (flags : Flags) (args : List (List UInt8))
deriving DecidableEq, Repr

/-- The letters of one argument behind the `-` (examples/sml_server.c:161-184 with the option string `+hsv`); `none` goes on
with the next argument. -/
def optionLetters : List UInt8 → Flags → Option Options × Flags
  | [], fl => (none, fl)
  | c :: cs, fl =>
    if c = 0x68 then (some .help, fl)
    else if c = 0x73 then optionLetters cs { fl with single := true }
    else if c = 0x76 then optionLetters cs { fl with verbose := true }
    else (some .unknown, fl)

/-- `getopt` over all arguments: it ends behind `--`, or at the first argument that is `-` or does not begin with `-`. -/
def optionLoop : List (List UInt8) → Flags → Options
  | [], fl => .rest fl []
  | arg :: args, fl =>
    match arg with
    | 0x2D :: c :: cs =>
      if c = 0x2D ∧ cs = [] then .rest fl args
      else
        match optionLetters (c :: cs) fl with
        | (some o, _) => o
        | (none, fl) => optionLoop args fl
    | _ => .rest fl (arg :: args)

/-- A call of `transport_receiver`: the text, and whether `exit(0)` was called. -/
def receiverCall (pow : Int → Dbl) (depth : Nat) (fl : Flags) (frame : List UInt8) : TRes (List UInt8 × Bool) :=
  match transportReceiver depth fl.verbose fl.single frame with
  | .ub r => .ub r
  | .ok r _ => .ok (receiverText pow r, r.2.2)

/-- `sml_transport_listen` (sml_transport.c:117-125) with a callback that prints and may call `exit`. -/
def listenWith (call : List UInt8 → TRes (List UInt8 × Bool)) : (fuel : Nat) → Fd → TRes (List UInt8)
  | 0, _ => .ub .fuel
  | fuel + 1, fd =>
    (transportRead fd 8096).bind fun (frame, fd) =>
      if frame.length > 0 then
        (call frame).bind fun (out, ex) =>
          if ex then .ok out
          else (listenWith call fuel fd).bind fun rest => .ok (out ++ rest)
      else .ok []

/-- The help text (examples/sml_server.c:164-168). -/
def helpText (name : List UInt8) : List UInt8 :=
  "usage: ".toUTF8.toList ++ name ++ (" [-h] [-s] [-v] device\n" ++
    "device - serial device of connected power meter e.g. /dev/cu.usbserial, or - for stdin\n" ++
    "-h - help\n-s - process only one OBIS data stream (single)\n-v - verbose\n").toUTF8.toList

/-- `main` (examples/sml_server.c:156-204). `stdin` and `openDev` (examples/sml_server.c:45-85) are what the operating system provides: the
bytes of a descriptor with a schedule, or nothing if the device cannot be opened. -/
def programMain (pow : Int → Dbl) (depth : Nat) (stdin : Fd) (openDev : List UInt8 → Option Fd) (name : List UInt8)
    (args : List (List UInt8)) : TRes Exit :=
  match optionLoop args {} with
  | .help => .ok ⟨0, helpText name⟩
  | .unknown => .ok ⟨1, "Use ".toUTF8.toList ++ name ++ " -h for help.\n".toUTF8.toList⟩
  | .rest fl [dev] =>
    match (if dev = [0x2D] then some stdin else openDev dev) with
    | none => .ok ⟨1, []⟩
    | some fd => (listenWith (receiverCall pow depth fl) (fd.pending.length + 1) fd).bind fun out => .ok ⟨0, out⟩
  | .rest _ _ => .ok ⟨1, "error: Arguments mismatch.\nUse ".toUTF8.toList ++ name ++ " -h for help.\n".toUTF8.toList⟩

end Sml
