import Verif.Model.Program

/-!
# Opening the serial line

`serial_port_open` of examples/sml_server.c. The names of the flags are those of `<termios.h>`, the numbers those of Linux. The calls `ioctl`,
`tcgetattr` and `tcsetattr`, whose results are not checked, are taken to succeed on a serial line and to do nothing on anything else.
-/

namespace Sml

abbrev Flagset : Type := BitVec 32

/-! `c_iflag` -/
def IGNBRK : Flagset := 0o1
def BRKINT : Flagset := 0o2
def IGNPAR : Flagset := 0o4
def PARMRK : Flagset := 0o10
def ISTRIP : Flagset := 0o40
def INLCR : Flagset := 0o100
def IGNCR : Flagset := 0o200
def ICRNL : Flagset := 0o400
def IXON : Flagset := 0o2000
/-! `c_oflag` -/
def OPOST : Flagset := 0o1
/-! `c_cflag` -/
def CBAUD : Flagset := 0o10017
def B9600 : Flagset := 0o15
def CSIZE : Flagset := 0o60
def CS8 : Flagset := 0o60
def CSTOPB : Flagset := 0o100
def CREAD : Flagset := 0o200
def PARENB : Flagset := 0o400
def PARODD : Flagset := 0o1000
/-! `c_lflag` -/
def ISIG : Flagset := 0o1
def ICANON : Flagset := 0o2
def ECHO : Flagset := 0o10
def ECHONL : Flagset := 0o100
def IEXTEN : Flagset := 0o100000
/-! modem lines -/
def TIOCM_RTS : Flagset := 0x004

/-- `struct termios`, without the speeds, which Linux keeps in `c_cflag`. -/
structure Termios where
  iflag : Flagset
  oflag : Flagset
  cflag : Flagset
  lflag : Flagset
  cc : Nat → UInt8

/-- `cfsetispeed` and `cfsetospeed` of the C library, for any speed but 0; on Linux both set the same bits. -/
def cfsetspeed (t : Termios) (speed : Flagset) : Termios := { t with cflag := (t.cflag &&& ~~~CBAUD) ||| speed }

/-- examples/sml_server.c:71-81: the settings made from those found. -/
def serialSettings (t : Termios) : Termios :=
  let t := { t with iflag := t.iflag &&& ~~~(IGNBRK ||| BRKINT ||| PARMRK ||| ISTRIP ||| INLCR ||| IGNCR ||| ICRNL ||| IXON) }
  let t := { t with oflag := t.oflag &&& ~~~OPOST }
  let t := { t with lflag := t.lflag &&& ~~~(ECHO ||| ECHONL ||| ICANON ||| ISIG ||| IEXTEN) }
  let t := { t with cflag := t.cflag &&& ~~~(CSIZE ||| PARENB ||| PARODD ||| CSTOPB) }
  let t := { t with cflag := t.cflag ||| CS8 }
  let t := cfsetspeed t B9600
  cfsetspeed t B9600

/-- A file that can be opened: with its settings and the state of its modem lines if it is a serial line. -/
structure Port where
  line : Option (Termios × Flagset)

/-- `serial_port_open` (examples/sml_server.c:46-85): `none` for -1; `some none` is standard input; otherwise the file opened, as it is left. `find` is
what `open` finds under a name. -/
def serialPortOpen (find : List UInt8 → Option Port) (device : List UInt8) : Option (Option Port) :=
  if device = [0x2D] then some none
  else
    match find device with
    | none => none
    | some port => some (some { line := port.line.map fun (t, bits) => (serialSettings t, bits ||| TIOCM_RTS) })

end Sml
