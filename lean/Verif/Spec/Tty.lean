import Verif.Model.Serial

/-!
# What a serial line does to the bytes

The general terminal interface (POSIX.1, chapter 11): what a reader gets of the characters that come in on a line, what is sent
back, and what becomes of the bytes written, as a function of the settings. Control characters that are 0 are switched off.
-/

namespace Sml.Spec

/-- Some bit of `m` is set. -/
def on (w m : Flagset) : Bool := w &&& m != 0

/-- What happens on the wire: a character, a character with a framing error, a break. -/
inductive WireEvent where
  | char (b : UInt8)
  | damaged (b : UInt8)
  | brk
deriving DecidableEq

/-! Places of the control characters -/
def VINTR : Nat := 0
def VQUIT : Nat := 1
def VERASE : Nat := 2
def VKILL : Nat := 3
def VEOF : Nat := 4
def VSTART : Nat := 8
def VSTOP : Nat := 9
def VSUSP : Nat := 10
def VEOL : Nat := 11

/-- `b` is the control character at place `i`. -/
def isCtl (t : Termios) (i : Nat) (b : UInt8) : Bool := t.cc i != 0 && b == t.cc i

/-- One character without error: stripping, implementation-defined treatment (`ext`), flow control, signals, carriage return and
newline, doubling of 0xFF. -/
def incoming (ext : UInt8 → List UInt8) (t : Termios) (b : UInt8) : List UInt8 :=
  ((if on t.lflag IEXTEN then ext else fun b => [b]) (if on t.iflag ISTRIP then b &&& 0x7F else b)).flatMap fun b =>
    if on t.iflag IXON && (isCtl t VSTART b || isCtl t VSTOP b) then []
    else if on t.lflag ISIG && (isCtl t VINTR b || isCtl t VQUIT b || isCtl t VSUSP b) then []
    else if b = 0x0D && on t.iflag IGNCR then []
    else if b = 0x0D && on t.iflag ICRNL then [0x0A]
    else if b = 0x0A && on t.iflag INLCR then [0x0D]
    else if b = 0xFF && on t.iflag PARMRK && !on t.iflag ISTRIP then [0xFF, 0xFF]
    else [b]

/-- What happens on the wire as it arrives in the input queue. -/
def queued (ext : UInt8 → List UInt8) (t : Termios) : WireEvent → List UInt8
  | .char b => incoming ext t b
  | .damaged b => if on t.iflag IGNPAR then [] else if on t.iflag PARMRK then [0xFF, 0x00, b] else [0x00]
  | .brk => if on t.iflag IGNBRK || on t.iflag BRKINT then [] else if on t.iflag PARMRK then [0xFF, 0x00, 0x00] else [0x00]

/-- Canonical mode: `line` is what has been typed of the current line; it can be read when it is complete. -/
def canonical (t : Termios) (line : List UInt8) : List UInt8 → List UInt8
  | [] => []
  | b :: bs =>
    if b = 0x0A || isCtl t VEOL b then line ++ b :: canonical t [] bs
    else if isCtl t VEOF b then line ++ canonical t [] bs
    else if isCtl t VERASE b then canonical t line.dropLast bs
    else if isCtl t VKILL b then canonical t [] bs
    else canonical t (line ++ [b]) bs

/-- What a reader gets. -/
def readable (ext : UInt8 → List UInt8) (t : Termios) (evs : List WireEvent) : List UInt8 :=
  if on t.cflag CREAD then
    if on t.lflag ICANON then canonical t [] (evs.flatMap (queued ext t)) else evs.flatMap (queued ext t)
  else []

/-- What is sent back. -/
def echoed (ext : UInt8 → List UInt8) (t : Termios) (evs : List WireEvent) : List UInt8 :=
  if on t.cflag CREAD then
    if on t.lflag ECHO then evs.flatMap (queued ext t)
    else if on t.lflag ECHONL && on t.lflag ICANON then (evs.flatMap (queued ext t)).filter (· = 0x0A) else []
  else []

/-- A signal is sent to the program: for a break, or for a control character. -/
def Signals (t : Termios) (evs : List WireEvent) : Prop :=
  on t.cflag CREAD = true ∧
    ((WireEvent.brk ∈ evs ∧ on t.iflag IGNBRK = false ∧ on t.iflag BRKINT = true) ∨
     (on t.lflag ISIG = true ∧ ∃ b, WireEvent.char b ∈ evs ∧ (isCtl t VINTR b || isCtl t VQUIT b || isCtl t VSUSP b) = true))

/-- What goes out of the bytes written; `post` is the implementation-defined treatment. -/
def sentOut (post : UInt8 → List UInt8) (t : Termios) (bs : List UInt8) : List UInt8 := if on t.oflag OPOST then bs.flatMap post else bs

/-- How characters are framed on the wire. -/
structure Framing where
  bits : Nat
  parity : Option Bool
  stopBits : Nat
  speed : Flagset
deriving DecidableEq

def framing (t : Termios) : Framing where
  bits := 5 + (t.cflag &&& CSIZE).toNat / 0o20
  parity := if on t.cflag PARENB then some (on t.cflag PARODD) else none
  stopBits := if on t.cflag CSTOPB then 2 else 1
  speed := t.cflag &&& CBAUD

/-- The line is transparent: with every choice of control characters and every implementation, every byte sent arrives, unchanged, and nothing is sent back. -/
def Transparent (t : Termios) : Prop :=
  ∀ ext cc bs, readable ext { t with cc := cc } (bs.map .char) = bs ∧ echoed ext { t with cc := cc } (bs.map .char) = []

/-- What may arrive of an event: a character as it is; a break as one byte 0; a damaged character as one byte 0, or not at all (`ignore`). -/
def arrives (ignore : Bool) : WireEvent → List UInt8
  | .char b => [b]
  | .damaged _ => if ignore then [] else [0x00]
  | .brk => [0x00]

end Sml.Spec
