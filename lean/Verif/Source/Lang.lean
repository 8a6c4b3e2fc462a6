import Verif.Model.Heap
import Verif.Model.Select
import Verif.Model.Serial
import Verif.Source.Names

/-!
# The C of the library: syntax and meaning

The modules under `Verif.Source` hold the functions of the library as syntax trees, written out by `tools/c2lean.py` from the
text of the C files. This file says what such a tree means. It is a definition of the subset of C that the library uses, on an
LP64 machine with little-endian byte order, 8-bit bytes, two's complement and a signed `char`.

Memory is a set of separate blocks. A block is an object with a declared structure type (or an array of pointers): its
pointer members and its integer members, each in the order of their declaration (a union of pointers is one member, a
pointer to a function is an integer member holding the number of the function); or it is a row of bytes, each of which may
be uninitialised. Number objects (`u8 *`, `i16 *`, ...) are rows of bytes. A pointer is a block and a position in it.

Anything C leaves undefined makes the run end with `bad`: use of an uninitialised object, an access outside of a block or to a block that
is not live, `free` of anything but a live block, a shift by too much, division by zero, an array of variable length with no
elements. The exceptions are arithmetic overflow of a signed type, which is noted in the memory and wraps, and allocation, which always
succeeds and always yields a new address. Evaluation goes from left to right. Of output to `stderr` only the arguments are evaluated; the
characters given to `stdout` are recorded. A string constant is a value of its own, and so is a `double`, which is a number `n * 2 ^ e`
(no infinities, no `NaN`, no limit of the exponent). `exit` ends the run, as an undefined step does, but says so and with what was printed.

There is one file descriptor that is used: at first it is standard input, later the file that `open` has found. What `select` and `read` meet
there is laid down in advance, as in `Verif.Model.Select`; what is given
to `write` is recorded. A set of descriptors is a structure with 1024 (`FD_SETSIZE`) integer members, one for each descriptor. A `struct termios`
is a structure with 36 integer members, the four sets of flags and the 32 control characters (`c_line` and the speeds are left out, as in `Verif.Model.Serial`). Setting the flags of a
serial line decides what can be read from it; on other files the calls that deal with flags and modem lines fail and do nothing. `getopt` is that of POSIX.
-/

namespace Sml.C

/-! ## Integer types -/

/-- The integer types; `bit` is a bit-field of width one, `bool` is `_Bool`. -/
inductive ITy where
  | bit | bool | u8 | i8 | u16 | i16 | u32 | i32 | u64 | i64
deriving DecidableEq, Repr

/-- Width in bits. -/
def ITy.bits : ITy → Nat
  | .bit => 1 | .bool => 8
  | .u8 => 8 | .i8 => 8
  | .u16 => 16 | .i16 => 16
  | .u32 => 32 | .i32 => 32
  | .u64 => 64 | .i64 => 64

def ITy.signed : ITy → Bool
  | .i8 | .i16 | .i32 | .i64 => true
  | _ => false

/-- Size in bytes. -/
def ITy.size (t : ITy) : Nat := t.bits / 8

/-- Conversion of a value to a type (C99 6.3.1.2, 6.3.1.3). -/
def ITy.conv (t : ITy) (n : Int) : Int :=
  if t = .bool then (if n = 0 then 0 else 1)
  else if t.signed then n.bmod (2 ^ t.bits) else n.emod (2 ^ t.bits)

/-- Can the type represent the value? -/
def ITy.fits (t : ITy) (n : Int) : Bool :=
  if t.signed then decide (-2 ^ (t.bits - 1) ≤ n ∧ n < 2 ^ (t.bits - 1)) else decide (0 ≤ n ∧ n < 2 ^ t.bits)

/-- Integer promotion (C99 6.3.1.1). -/
def ITy.promote : ITy → ITy
  | .u32 => .u32
  | .u64 => .u64
  | .i64 => .i64
  | _ => .i32

/-- The usual arithmetic conversions (C99 6.3.1.8). -/
def ITy.usual (a b : ITy) : ITy :=
  match a.promote, b.promote with
  | .u64, _ => .u64
  | _, .u64 => .u64
  | .i64, _ => .i64
  | _, .i64 => .i64
  | .u32, _ => .u32
  | _, .u32 => .u32
  | _, _ => .i32

/-! ## Syntax -/

/-- A part of a format of `printf`. -/
inductive Piece where
  | text (s : String)
  /-- `%d` -/
  | dec
  /-- `%zu` -/
  | size
  /-- `%02X` -/
  | hex2
  /-- `%4.X` -/
  | hex4
  /-- `%s` -/
  | str
  /-- `%.*f` -/
  | fixed
deriving DecidableEq, Repr

inductive Bop where
  | add | sub | mul | div | mod | band | bor | bxor | shl | shr | lt | le | gt | ge | eq | ne
deriving DecidableEq, Repr

inductive Expr where
  /-- a constant -/
  | lit (t : ITy) (n : Int)
  /-- a null pointer -/
  | null
  /-- the name of a function as a value -/
  | fn (f : Fn)
  /-- a local variable or parameter -/
  | var (x : Nat)
  /-- `e->m`, the `i`-th pointer member; with `i = 0` also `*e` for a pointer to a pointer -/
  | ldPtr (e : Expr) (i : Nat)
  /-- `e->m`, the `i`-th integer member -/
  | ldInt (t : ITy) (e : Expr) (i : Nat)
  /-- `e->m`, a pointer to a function -/
  | ldFn (e : Expr) (i : Nat)
  /-- `e[k]` for an array of pointers -/
  | elem (e k : Expr)
  /-- `e[k]` for bytes -/
  | byte (t : ITy) (e k : Expr)
  /-- `*e` for a pointer to an integer -/
  | deref (t : ITy) (e : Expr)
  /-- `&e[k]` or `e + k` for bytes -/
  | addr (e k : Expr)
  /-- `&e->m` for the `i`-th pointer member -/
  | addrPtr (e : Expr) (i : Nat)
  /-- `tab[k]` for a constant array -/
  | tab (t : ITy) (vs : List Int) (k : Expr)
  /-- `~e` -/
  | compl (e : Expr)
  /-- `-e` -/
  | neg (e : Expr)
  /-- `!e` -/
  | not (e : Expr)
  | bin (op : Bop) (a b : Expr)
  | and (a b : Expr)
  | or (a b : Expr)
  | cond (c a b : Expr)
  /-- `(t)e` -/
  | cast (t : ITy) (e : Expr)
  /-- `x++`, `x--` for an integer variable -/
  | incVar (t : ITy) (x : Nat) (d : Int)
  /-- `p++` for a variable that points to bytes -/
  | incPtr (x : Nat)
  /-- `e->m++` for the `i`-th integer member -/
  | incMem (t : ITy) (e : Expr) (i : Nat)
  | call (f : Fn) (args : List Expr)
  /-- a call through a pointer to a function -/
  | callPtr (e : Expr) (args : List Expr)
  /-- `malloc(sizeof(T))` for a structure type with `np` pointer members and `ni` integer members -/
  | mallocRec (np ni : Nat)
  /-- `malloc(n)` for bytes -/
  | mallocBytes (n : Expr)
  /-- `realloc(e, n)` for an array of pointers -/
  | realloc (e n : Expr)
  /-- `memcmp(a, b, n)` -/
  | memcmp (a b n : Expr)
  /-- `memcmp(a, b, n)` for a constant array `b` -/
  | memcmpTab (a : Expr) (b : List Int) (n : Expr)
  /-- `strlen(e)` -/
  | strlen (e : Expr)
  /-- `(x = e)` for an integer variable -/
  | assign (t : ITy) (x : Nat) (e : Expr)
  /-- `FD_ISSET(d, e)` -/
  | fdHas (d e : Expr)
  /-- `read(d, p, n)` -/
  | read (d p n : Expr)
  /-- `write(d, p, n)` -/
  | write (d p n : Expr)
  | errno
  /-- a string constant -/
  | str (s : String)
  /-- `tab[k].m` for string constants in a constant array -/
  | strTab (ss : List String) (k : Expr)
  /-- `(x = e)` for a pointer variable -/
  | assignPtr (x : Nat) (e : Expr)
  /-- a global variable: 0 `sflag`, 1 `vflag`, 2 `optind` -/
  | flag (i : Nat)
  /-- conversion of an integer to `double` -/
  | toDbl (e : Expr)
  /-- `a * b` for numbers of type `double` -/
  | mulDbl (a b : Expr)
  /-- `pow(10, e)` -/
  | pow10 (e : Expr)
  /-- `strcmp(a, b)` -/
  | strcmp (a b : Expr)
  /-- `getopt(n, a, opts)` for options without arguments, with a `+` before them -/
  | getopt (n a : Expr) (opts : String)
  /-- `open(e, fl)` -/
  | openFile (e fl : Expr)

inductive Stmt where
  | expr (e : Expr)
  /-- `x = e` for an integer variable -/
  | set (t : ITy) (x : Nat) (e : Expr)
  /-- `x = e` for a variable that is a pointer or a `double` -/
  | setPtr (x : Nat) (e : Expr)
  /-- `e->m = v`, the `i`-th pointer member; with `i = 0` also `*e = v` for a pointer to a pointer -/
  | stPtr (e : Expr) (i : Nat) (v : Expr)
  /-- `e->m = v`, the `i`-th integer member -/
  | stInt (t : ITy) (e : Expr) (i : Nat) (v : Expr)
  /-- `e[k] = v` for an array of pointers -/
  | stElem (e k v : Expr)
  /-- `e[k] = v` for bytes -/
  | stByte (t : ITy) (e k v : Expr)
  /-- `*e = v` for a pointer to an integer -/
  | stDeref (t : ITy) (e v : Expr)
  /-- `*e = (T){...}` with the values of the pointer members and of the integer members -/
  | stRec (e : Expr) (ps : List Expr) (is : List (ITy × Expr))
  | free (e : Expr)
  | memset (d c n : Expr)
  | memcpy (d s n : Expr)
  /-- `memcpy(d, s, n)` for a constant array `s` -/
  | memcpyTab (d : Expr) (s : List Int) (n : Expr)
  /-- output to `stderr`; only the arguments matter -/
  | print (args : List Expr)
  /-- output to `stdout` -/
  | printf (fmt : List Piece) (args : List Expr)
  /-- `exit(n)` -/
  | exit (n : Int)
  /-- a local array of bytes -/
  | bytes (x : Nat) (n : Expr)
  /-- a local structure (or a pointer whose address is taken) with its initial members -/
  | obj (x : Nat) (ps : List Expr) (is : List Int)
  /-- a local pointer whose address is taken, not initialised -/
  | ptrVar (x : Nat)
  /-- a local structure or set of descriptors, not initialised -/
  | fdVar (x : Nat)
  /-- `FD_ZERO(e)` -/
  | fdZero (e : Expr)
  /-- `FD_SET(d, e)` -/
  | fdAdd (d e : Expr)
  /-- `select(n, e, 0, 0, 0)` -/
  | select (n e : Expr)
  /-- `uuid_generate(e)` -/
  | uuid (e : Expr)
  /-- assignment to a global variable -/
  | setFlag (i : Nat) (e : Expr)
  /-- `memset(e, 0, sizeof(T))` for a structure with `n` integer members -/
  | zeroRec (e : Expr) (n : Nat)
  /-- `ioctl(d, TIOCMGET, p)` -/
  | modemGet (d p : Expr)
  /-- `ioctl(d, TIOCMSET, p)` -/
  | modemSet (d p : Expr)
  /-- `tcgetattr(d, p)` -/
  | termGet (d p : Expr)
  /-- `tcsetattr(d, TCSANOW, p)` -/
  | termSet (d p : Expr)
  /-- `cfsetispeed(p, v)`, `cfsetospeed(p, v)` -/
  | setSpeed (p v : Expr)
  /-- `close(d)` -/
  | close (d : Expr)
  | ite (c : Expr) (a b : List Stmt)
  /-- `for (; c; step) body` -/
  | loop (c : Expr) (body step : List Stmt)
  | doWhile (body : List Stmt) (c : Expr)
  | switch (e : Expr) (body : List Stmt)
  | case (n : Int)
  | dflt
  | brk
  | cont
  | ret (e : Expr)
  | retVoid
  | goto (l : Nat)
  | label (l : Nat)

/-- A function: the types of its parameters and of its result (`none` for pointers and `void`) and its body. Parameters and
locals are numbered in the order of their declaration. -/
structure FunDef where
  params : List (Option ITy)
  res : Option ITy
  body : List Stmt

/-! ## Memory -/

/-- A block: on the heap (0 is NULL) or a local object. -/
inductive Loc where
  | heap (a : Nat)
  | stack (k : Nat)
deriving DecidableEq, Repr

inductive Val where
  /-- the value of something uninitialised; also of a call of a `void` function -/
  | undef
  | int (t : ITy) (n : Int)
  | ptr (l : Loc) (i : Nat)
  | fn (f : Fn)
  /-- a pointer to a string constant -/
  | str (s : String)
  /-- the `double` `n * 2 ^ e` -/
  | dbl (n e : Int)
deriving DecidableEq, Repr

def nullPtr : Val := .ptr (.heap 0) 0

inductive Block where
  /-- an object of structure type that was never assigned -/
  | fresh
  | obj (ps : List Val) (is : List Int)
  | raw (bs : List (Option UInt8))
deriving DecidableEq, Repr

/-- A file that `open` finds: the descriptor, what can be read, and for a serial line the flags, the modem lines, and what can be read with
given flags. -/
structure Device where
  num : Int
  input : List UInt8 := []
  turns : List Turn := []
  line : Option (Termios × Flagset) := none
  wire : Termios → List UInt8 := fun _ => []

/-- What is outside of the program. `num` is the descriptor. -/
structure World where
  num : Int := 0
  /-- the bytes still to be read -/
  input : List UInt8 := []
  /-- what the coming calls of `select` meet, each followed by what a `read` after it meets -/
  turns : List Turn := []
  /-- what the next `read` meets; with `none` it delivers as much as was asked for and is there -/
  ev : Option Ev := none
  errno : Int := 0
  /-- the values of `errno` after a `read` that was interrupted and after one that failed -/
  intrNo : Int := 4
  failNo : Int := 5
  /-- what was given to `write`, the last first -/
  sent : List (List UInt8) := []
  /-- what `write` returns -/
  accept : List UInt8 → Int := fun bs => bs.length
  /-- what will come out of `uuid_generate`, sixteen bytes each time -/
  random : List UInt8 := []
  /-- the global variables -/
  flags : Nat → Int := fun _ => 0
  /-- `pow(10, n)` -/
  pow : Int → Dbl := fun _ => ⟨1, 0⟩
  /-- what was given to `stdout` -/
  out : List UInt8 := []
  /-- where `getopt` is in an argument with several letters, 0 between arguments -/
  optpos : Nat := 0
  /-- what `open` finds under a name, with the flags given to it -/
  files : List UInt8 → Int → Option Device := fun _ _ => none
  /-- the flags and the modem lines of the descriptor, if it is a serial line -/
  line : Option (Termios × Flagset) := none
  /-- what can be read from the line with given flags -/
  wire : Termios → List UInt8 := fun _ => []
  /-- what was closed, the last first -/
  closed : List Int := []

/-- The memory. `sovf` records that a signed computation overflowed. -/
structure Mem where
  next : Nat := 1
  heap : Nat → Option Block := fun _ => none
  stack : List Block := []
  sovf : Bool := false
  world : World := {}

/-- Values of the variables. -/
def Env : Type := Nat → Val

def upd (env : Env) (x : Nat) (v : Val) : Env := fun y => if y = x then v else env y

inductive XRes (α : Type) where
  | ok (a : α) (env : Env) (m : Mem)
  | bad (b : Bad)

/-- Code that works on variables and memory. -/
def X (α : Type) : Type := Env → Mem → XRes α

def X.bind (x : X α) (f : α → X β) : X β := fun env m =>
  match x env m with
  | .ok a env' m' => f a env' m'
  | .bad b => .bad b

instance : Monad X where
  pure a := fun env m => .ok a env m
  bind := X.bind

def bad (b : Bad) : X α := fun _ _ => .bad b

def setHeap (hp : Nat → Option Block) (a : Nat) (b : Option Block) : Nat → Option Block := fun c => if c = a then b else hp c

/-- The block a pointer refers to. -/
def getBlock (l : Loc) : X Block := fun env m =>
  match l with
  | .heap a =>
    if a = 0 then .bad .null
    else match m.heap a with
      | some b => .ok b env m
      | none => .bad .dangling
  | .stack k =>
    match m.stack[k]? with
    | some b => .ok b env m
    | none => .bad .dangling

/-- Replace the contents of a live block. -/
def setBlock (l : Loc) (b : Block) : X Unit := fun env m =>
  match l with
  | .heap a => .ok () env { m with heap := setHeap m.heap a (some b) }
  | .stack k => .ok () env { m with stack := m.stack.set k b }

/-- Note an overflow. -/
def note (b : Bool) : X Unit := fun env m => .ok () env { m with sovf := m.sovf || b }

def getVar (x : Nat) : X Val := fun env m =>
  match env x with
  | .undef => .bad (.buf .uninit)
  | v => .ok v env m

def setVar (x : Nat) (v : Val) : X Unit := fun env m => .ok () (upd env x v) m

/-- A block on the heap. -/
def newHeap (b : Block) : X Val := fun env m =>
  .ok (.ptr (.heap m.next) 0) env { m with next := m.next + 1, heap := setHeap m.heap m.next (some b) }

/-- A local object. -/
def newLocal (b : Block) : X Val := fun env m =>
  .ok (.ptr (.stack m.stack.length) 0) env { m with stack := m.stack ++ [b] }

def asInt : Val → X (ITy × Int)
  | .int t n => pure (t, n)
  | .undef => bad (.buf .uninit)
  | _ => bad .kind

def asPtr : Val → X (Loc × Nat)
  | .ptr l i => pure (l, i)
  | .undef => bad (.buf .uninit)
  | _ => bad .kind

/-- A number of bytes or an index; negative ones are out of bounds. -/
def asNat (v : Val) : X Nat := do
  let n ← asInt v
  if n.2 < 0 then bad (.buf .oobRead) else pure n.2.toNat

/-- The truth value of a condition. -/
def truth : Val → X Bool
  | .int _ n => pure (decide (n ≠ 0))
  | .ptr l i => pure (decide (¬ (l = .heap 0 ∧ i = 0)))
  | .fn _ => pure true
  | .str _ => pure true
  | .dbl n _ => pure (decide (n ≠ 0))
  | .undef => bad (.buf .uninit)

def ofBool (b : Bool) : Val := .int .i32 (if b then 1 else 0)

/-- Assignment to an object of an integer type, or of a pointer type. -/
def convTo (t : Option ITy) (v : Val) : X Val :=
  match t with
  | some t => do
    let n ← asInt v
    pure (.int t (t.conv n.2))
  | none => pure v

/-! ## Operators -/

/-- The result of a computation in type `t`: overflow of a signed type is noted. -/
def arith (t : ITy) (n : Int) : X Val := do
  note (t.signed && !t.fits n)
  pure (.int t (t.conv n))

/-- The bits of a value. -/
def ITy.toBits (t : ITy) (n : Int) : Nat := (n.emod (2 ^ t.bits)).toNat

def bitop (f : Nat → Nat → Nat) (t : ITy) (a b : Int) : Val := .int t (t.conv (f (t.toBits a) (t.toBits b) : Nat))

/-- Binary operators on integers (C99 6.5.5 - 6.5.12). -/
def intOp (op : Bop) (ta : ITy) (a : Int) (tb : ITy) (b : Int) : X Val :=
  let t := ITy.usual ta tb
  let x := t.conv a
  let y := t.conv b
  match op with
  | .add => arith t (x + y)
  | .sub => arith t (x - y)
  | .mul => arith t (x * y)
  | .div => if y = 0 then bad .kind else arith t (x.tdiv y)
  | .mod => if y = 0 then bad .kind else arith t (x.tmod y)
  | .band => pure (bitop (· &&& ·) t x y)
  | .bor => pure (bitop (· ||| ·) t x y)
  | .bxor => pure (bitop (· ^^^ ·) t x y)
  | .shl =>
    let t := ta.promote
    if b < 0 ∨ t.bits ≤ b then bad (.buf .shiftRange)
    else do
      note (t.signed && (decide (a < 0) || !t.fits (a * 2 ^ b.toNat)))
      pure (.int t (t.conv (a * 2 ^ b.toNat)))
  | .shr =>
    let t := ta.promote
    if b < 0 ∨ t.bits ≤ b then bad (.buf .shiftRange)
    else pure (.int t (a / 2 ^ b.toNat))
  | .lt => pure (ofBool (decide (x < y)))
  | .le => pure (ofBool (decide (x ≤ y)))
  | .gt => pure (ofBool (decide (x > y)))
  | .ge => pure (ofBool (decide (x ≥ y)))
  | .eq => pure (ofBool (decide (x = y)))
  | .ne => pure (ofBool (decide (x ≠ y)))

def binOp (op : Bop) (a b : Val) : X Val :=
  match a, b with
  | .int ta x, .int tb y => intOp op ta x tb y
  | .ptr l i, .ptr k j =>
    match op with
    | .eq => pure (ofBool (decide (l = k ∧ i = j)))
    | .ne => pure (ofBool (decide (¬ (l = k ∧ i = j))))
    | _ => bad .kind
  | .str _, .ptr l i =>
    if l = .heap 0 ∧ i = 0 then
      match op with
      | .eq => pure (ofBool false)
      | .ne => pure (ofBool true)
      | _ => bad .kind
    else bad .kind
  | .undef, _ => bad (.buf .uninit)
  | _, .undef => bad (.buf .uninit)
  | _, _ => bad .kind

/-! ## Accesses -/

/-- Pointer member or element `j` positions behind a pointer. -/
def loadPtr (p : Val) (j : Nat) : X Val := do
  let (l, i) ← asPtr p
  match ← getBlock l with
  | .obj ps _ =>
    match ps[i + j]? with
    | some .undef => bad (.buf .uninit)
    | some v => pure v
    | none => bad .kind
  | .fresh => bad (.buf .uninit)
  | .raw _ => bad .kind

def storePtr (p : Val) (j : Nat) (v : Val) : X Unit := do
  let (l, i) ← asPtr p
  match ← getBlock l with
  | .obj ps is => if i + j < ps.length then setBlock l (.obj (ps.set (i + j) v) is) else bad .kind
  | .fresh => bad (.buf .uninit)
  | .raw _ => bad .kind

/-- Integer member. -/
def loadInt (p : Val) (j : Nat) : X Int := do
  let (l, i) ← asPtr p
  match ← getBlock l with
  | .obj _ is =>
    match is[j]? with
    | some n => if i = 0 then pure n else bad .kind
    | none => bad .kind
  | .fresh => bad (.buf .uninit)
  | .raw _ => bad .kind

def storeInt (p : Val) (j : Nat) (n : Int) : X Unit := do
  let (l, i) ← asPtr p
  match ← getBlock l with
  | .obj ps is => if i = 0 ∧ j < is.length then setBlock l (.obj ps (is.set j n)) else bad .kind
  | .fresh => bad (.buf .uninit)
  | .raw _ => bad .kind

/-- All bytes, when all of them are initialised. -/
def allInit : List (Option UInt8) → Option (List UInt8)
  | [] => some []
  | none :: _ => none
  | some b :: bs => (allInit bs).map (b :: ·)

/-- The `n` bytes behind a pointer. Nothing is accessed when `n = 0`, but the pointer has to be one. -/
def loadBytes (p : Val) (n : Nat) : X (List UInt8) := do
  let (l, i) ← asPtr p
  if n = 0 then pure []
  else
    match ← getBlock l with
    | .raw bs =>
      if i + n ≤ bs.length then
        match allInit ((bs.drop i).take n) with
        | some cs => pure cs
        | none => bad (.buf .uninit)
      else bad (.buf .oobRead)
    | _ => bad .kind

def storeBytes (p : Val) (cs : List UInt8) : X Unit := do
  let (l, i) ← asPtr p
  if cs = [] then pure ()
  else
    match ← getBlock l with
    | .raw bs =>
      if i + cs.length ≤ bs.length then setBlock l (.raw (bs.take i ++ cs.map some ++ bs.drop (i + cs.length)))
      else bad (.buf .oobWrite)
    | _ => bad .kind

/-- Little-endian value. -/
def leNat : List UInt8 → Nat
  | [] => 0
  | b :: bs => b.toNat + 256 * leNat bs

/-- The `n` low-order bytes, least significant first. -/
def leBytes : (n : Nat) → (v : Nat) → List UInt8
  | 0, _ => []
  | n + 1, v => UInt8.ofNat v :: leBytes n (v / 256)

/-- `*p` for an integer type. -/
def loadNum (t : ITy) (p : Val) : X Val := do
  let bs ← loadBytes p t.size
  pure (.int t (t.conv (leNat bs : Nat)))

def storeNum (t : ITy) (p : Val) (n : Int) : X Unit := storeBytes p (leBytes t.size (t.toBits n))

/-- A pointer `k` positions further. -/
def offset (p : Val) (k : Int) : X Val := do
  let (l, i) ← asPtr p
  if (i : Int) + k < 0 then bad (.buf .oobRead) else pure (.ptr l ((i : Int) + k).toNat)

/-- The end of a block; the pointer given is `i` positions behind its beginning. -/
def release (a i : Nat) : X Unit := fun env m =>
  match m.heap a with
  | some _ => if i = 0 then .ok () env { m with heap := setHeap m.heap a none } else .bad .badFree
  | none => .bad .badFree

/-- `free(p)` -/
def freeBlock (p : Val) : X Unit := do
  let (l, i) ← asPtr p
  match l with
  | .heap a => if a = 0 then pure () else release a i
  | .stack _ => bad .badFree

/-- The elements of an array of pointers that is going to be moved. -/
def movedElems (a i : Nat) : X (List Val) := fun env m =>
  match m.heap a with
  | some (.obj ps []) => if i = 0 then .ok ps env m else .bad .badFree
  | some _ => .bad .kind
  | none => .bad .badFree

/-- `realloc` of an array of pointers to `n` bytes, eight of which are an element. -/
def reallocBlock (p : Val) (n : Nat) : X Val := do
  let (l, i) ← asPtr p
  match l with
  | .heap a =>
    if a = 0 then newHeap (.obj (List.replicate (n / 8) .undef) [])
    else do
      let ps ← movedElems a i
      let q ← newHeap (.obj ((ps ++ List.replicate (n / 8) Val.undef).take (n / 8)) [])
      release a i
      pure q
  | .stack _ => bad .badFree

/-- `realloc` that fails: the array stays, the result is `NULL`. -/
def reallocFails (p : Val) : X Val := do
  let (l, i) ← asPtr p
  match l with
  | .heap a =>
    if a = 0 then pure nullPtr
    else do
      let _ ← movedElems a i
      pure nullPtr
  | .stack _ => bad .badFree

/-- `memset` and `memcpy` must not be given `NULL`, not even for no bytes at all (C99 7.21.1). -/
def target (p : Val) : X Unit := if p = nullPtr then bad .null else pure ()

/-- Sign of the first difference. -/
def cmpBytes : List UInt8 → List UInt8 → Int
  | a :: as, b :: bs => if a = b then cmpBytes as bs else (a.toNat : Int) - b.toNat
  | _, _ => 0

/-- The number of bytes in front of the first zero. -/
def zeroAt (bs : List (Option UInt8)) : Option Nat :=
  match bs with
  | [] => none
  | none :: _ => none
  | some b :: bs => if b = 0 then some 0 else (zeroAt bs).map (· + 1)

/-! ## Expressions -/

/-- How functions behave when called, and which requests for memory are met: the one that would get the address `a` is if `avail a`.
The address of a request that is not met is not used for another one, so `avail` is any pattern of requests that are met and not met. -/
structure Calls where
  run : Fn → List Val → X Val
  avail : Nat → Bool

instance : CoeFun Calls fun _ => Fn → List Val → X Val := ⟨Calls.run⟩

/-- Is the next request for memory met? -/
def room (Γ : Calls) : X Bool := fun env m => if Γ.avail m.next then .ok true env m else .ok false env { m with next := m.next + 1 }

/-- A call through a pointer. Functions of another type must not be called through one (C99 6.3.2.3). -/
def callVal (Γ : Calls) (p : Val) (args : List Val) : X Val :=
  match p with
  | .fn f => if f.byPtr then Γ f args else bad .kind
  | .undef => bad (.buf .uninit)
  | _ => bad .kind

/-- A member that holds the number of a function. -/
def fnOf (n : Int) : X Val :=
  match Fn.ofCode n.toNat with
  | some f => pure (.fn f)
  | none => bad .kind

/-- An element of a constant array. -/
def tabAt (t : ITy) (vs : List Int) (i : Nat) : X Val :=
  match vs[i]? with
  | some n => pure (.int t n)
  | none => bad (.buf .oobRead)

/-- The first `k` bytes of a constant array. -/
def tabBytes (vs : List Int) (k : Nat) : X (List UInt8) :=
  if vs.length < k then bad (.buf .oobRead) else pure ((vs.take k).map fun n => UInt8.ofNat n.toNat)

/-- `strlen(p)`. -/
def lengthOf (p : Val) : X Val := do
  let (l, i) ← asPtr p
  match ← getBlock l with
  | .raw bs =>
    match zeroAt (bs.drop i) with
    | some n => pure (.int .u64 n)
    | none => bad (.buf .oobRead)
  | _ => bad .kind

/-- `&p->m` for a pointer member: the object has to be live. -/
def memberAddr (p : Val) (j : Nat) : X Val := do
  let (l, i) ← asPtr p
  let _ ← getBlock l
  pure (.ptr l (i + j))

/-- `*p = (T){...}`. -/
def storeRec (p : Val) (vs : List Val) (ns : List Int) : X Unit := do
  let (l, i) ← asPtr p
  match ← getBlock l with
  | .raw _ => bad .kind
  | _ => if i = 0 then setBlock l (.obj vs ns) else bad .kind

/-- A local array of `k` bytes. -/
def newArray (k : Nat) : X Val :=
  if k = 0 then bad (.buf .vla) else newLocal (.raw (List.replicate k none))

/-! ## Descriptors -/

/-- The members of a set of descriptors. -/
def loadSet (p : Val) : X (List Int) := do
  let (l, i) ← asPtr p
  match ← getBlock l with
  | .obj [] is => if i = 0 then pure is else bad .kind
  | .fresh => bad (.buf .uninit)
  | _ => bad .kind

/-- `FD_ISSET(d, p)`; there is no check of the number. -/
def fdMember (d : Int) (p : Val) : X Val := do
  let is ← loadSet p
  if d < 0 then bad (.buf .oobRead)
  else match is[d.toNat]? with
    | some n => pure (.int .i32 n)
    | none => bad (.buf .oobRead)

/-- `FD_SET(d, p)`; there is no check of the number. -/
def fdInsert (d : Int) (p : Val) : X Unit := do
  let is ← loadSet p
  if d < 0 ∨ is.length ≤ d then bad (.buf .oobWrite) else storeRec p [] (is.set d.toNat 1)

/-- Wait for one of the first `n` descriptors of a set. A call that never returns ends the run. -/
def waitFor (n : Nat) (set : List Bool) : X (List Bool) := fun env m =>
  match Sml.select n set ((m.world.turns.head?.map Turn.wait).getD []) with
  | some set' => .ok set' env { m with world := { m.world with turns := m.world.turns.tail, ev := m.world.turns.head?.map Turn.ev } }
  | none => .bad (.buf .fuel)

/-- `select(n, p, 0, 0, 0)`. -/
def selectOn (n : Nat) (p : Val) : X Unit := do
  let is ← loadSet p
  let set ← waitFor n (is.map fun k => decide (k ≠ 0))
  storeRec p [] (set.map fun b => if b then 1 else 0)

/-- What `read` of up to `n` bytes delivers; `none`: nothing, and `errno` says why. -/
def deliver (d : Int) (n : Nat) : X (Option (List UInt8)) := fun env m =>
  if d = m.world.num then
    match m.world.ev with
    | some .intr => .ok none env { m with world := { m.world with errno := m.world.intrNo } }
    | some .fail => .ok none env { m with world := { m.world with errno := m.world.failNo } }
    | some (.give k) => .ok (some (m.world.input.take (min (k + 1) n))) env { m with world := { m.world with input := m.world.input.drop (min (k + 1) n) } }
    | none => .ok (some (m.world.input.take n)) env { m with world := { m.world with input := m.world.input.drop n } }
  else .bad .kind

/-- `read(d, p, n)`. -/
def readInto (d : Int) (p : Val) (n : Nat) : X Val := do
  match ← deliver d n with
  | some bs =>
    storeBytes p bs
    pure (.int .i64 bs.length)
  | none => pure (.int .i64 (-1))

/-- `write(d, p, n)`, where the bytes are `bs`. -/
def writeOut (d : Int) (bs : List UInt8) : X Val := fun env m =>
  if d = m.world.num then .ok (.int .i64 (m.world.accept bs)) env { m with world := { m.world with sent := bs :: m.world.sent } }
  else .bad .kind

def getErrno : X Val := fun env m => .ok (.int .i32 m.world.errno) env m

/-- The next sixteen bytes that come out of `uuid_generate`. -/
def takeUuid : X (List UInt8) := fun env m =>
  if 16 ≤ m.world.random.length then .ok (m.world.random.take 16) env { m with world := { m.world with random := m.world.random.drop 16 } } else .bad .kind

/-- `uuid_generate(p)`. -/
def uuidInto (p : Val) : X Unit := do
  let bs ← takeUuid
  storeBytes p bs

/-! ## Output and floating point -/

/-- The text behind a pointer, up to the first zero. -/
def textOf (p : Val) : X (List UInt8) := do
  match p with
  | .str s => pure s.toUTF8.toList
  | _ =>
    let n ← asNat (← lengthOf p)
    loadBytes p n

/-- An argument of `%.*f`. -/
def fixedOf (p v : Val) : X (List UInt8) := do
  let (t, n) ← asInt p
  match v with
  | .dbl m e => if t.promote = .i32 then pure (fixedText (if n < 0 then 6 else n.toNat) m e) else bad .kind
  | .undef => bad (.buf .uninit)
  | _ => bad .kind

/-- An argument of one of the other conversions; the type has to be the right one. -/
def convert (q : Piece) (v : Val) : X (List UInt8) := do
  match q with
  | .str => textOf v
  | .dec =>
    let (t, n) ← asInt v
    if t.promote = .i32 then pure ((if n < 0 then [0x2D] else []) ++ decText n.natAbs) else bad .kind
  | .size =>
    let (t, n) ← asInt v
    if t = .u64 then pure (decText n.natAbs) else bad .kind
  | .hex2 =>
    let (t, n) ← asInt v
    if (t.promote = .i32 ∨ t.promote = .u32) ∧ 0 ≤ n then
      pure (List.replicate (2 - (hexGo (n.natAbs + 1) n.natAbs).length) 0x30 ++ hexGo (n.natAbs + 1) n.natAbs)
    else bad .kind
  | .hex4 =>
    let (t, n) ← asInt v
    if (t.promote = .i32 ∨ t.promote = .u32) ∧ 0 ≤ n then pure (Sml.hex4 n.natAbs) else bad .kind
  | _ => bad .kind

/-- The text of a format and its arguments (C99 7.19.6.1). -/
def render : List Piece → List Val → X (List UInt8)
  | [], _ => pure []
  | .text s :: qs, vs => do
    let r ← render qs vs
    pure (s.toUTF8.toList ++ r)
  | .fixed :: qs, p :: v :: vs => do
    let t ← fixedOf p v
    let r ← render qs vs
    pure (t ++ r)
  | q :: qs, v :: vs => do
    let t ← convert q v
    let r ← render qs vs
    pure (t ++ r)
  | _ :: _, _ => bad .kind

/-- Output to `stdout`. -/
def say (bs : List UInt8) : X Unit := fun env m => .ok () env { m with world := { m.world with out := m.world.out ++ bs } }

/-- `exit(n)` -/
def leave (n : Int) : X α := fun _ m => .bad (.exited n m.world.out)

def getFlag (i : Nat) : X Val := fun env m => .ok (.int .i32 (m.world.flags i)) env m

/-- `pow(10, n)` -/
def powTen (n : Int) : X Val := fun env m => .ok (.dbl (m.world.pow n).m (m.world.pow n).e) env m

def asDbl : Val → X (Int × Int)
  | .dbl n e => pure (n, e)
  | .undef => bad (.buf .uninit)
  | _ => bad .kind

/-- An element of a constant array. -/
def strAt (ss : List String) (i : Nat) : X Val :=
  match ss[i]? with
  | some s => pure (.str s)
  | none => bad (.buf .oobRead)

/-! ## The command line and the serial line -/

/-- The text of an argument. -/
def argAt (argv : Val) (i : Int) : X (List UInt8) := do
  if i < 0 then bad (.buf .oobRead) else textOf (← loadPtr argv i.toNat)

def setGlobal (i : Nat) (n : Int) : X Unit := fun env m =>
  .ok () env { m with world := { m.world with flags := fun j => if j = i then n else m.world.flags j } }

/-- Where `getopt` goes on. -/
def setOpt (ind : Int) (pos : Nat) : X Unit := fun env m =>
  .ok () env { m with world := { m.world with flags := fun j => if j = 2 then ind else m.world.flags j, optpos := pos } }

/-- The letter at a position of an argument; `?` (63) if it is not an option. -/
def optLetter (opts : List UInt8) (ind : Int) (arg : List UInt8) (pos : Nat) : X Val :=
  match arg[pos]? with
  | none => bad .kind
  | some c => do
    if pos + 1 < arg.length then setOpt ind (pos + 1) else setOpt (ind + 1) 0
    pure (.int .i32 (if c ∈ opts then c.toNat else 63))

/-- `getopt` with the argument it has come to; -1 (and behind it, if it is `--`) at the end of the options. -/
def optNext (opts : List UInt8) (ind : Int) (pos : Nat) (arg : List UInt8) : X Val :=
  if pos = 0 then
    match arg with
    | 0x2D :: c :: cs =>
      if c = 0x2D ∧ cs = [] then do
        setOpt (ind + 1) 0
        pure (.int .i32 (-1))
      else optLetter opts ind arg 1
    | _ => pure (.int .i32 (-1))
  else optLetter opts ind arg pos

/-- `getopt(argc, argv, opts)`. -/
def getOption (argc : Int) (argv : Val) (opts : List UInt8) : X Val := fun env m =>
  if argc ≤ m.world.flags 2 then .ok (.int .i32 (-1)) env m
  else (argAt argv (m.world.flags 2) >>= optNext opts (m.world.flags 2) m.world.optpos) env m

/-- `open(name, fl)`. -/
def openAs (name : List UInt8) (fl : Int) : X Val := fun env m =>
  match m.world.files name fl with
  | some f => .ok (.int .i32 f.num) env { m with world := { m.world with num := f.num, input := f.input, turns := f.turns, ev := none, line := f.line, wire := f.wire } }
  | none => .ok (.int .i32 (-1)) env m

/-- The flags and the modem lines of a descriptor. -/
def lineOf (d : Int) : X (Option (Termios × Flagset)) := fun env m => if d = m.world.num then .ok m.world.line env m else .bad .kind

/-- The line is given modem lines. -/
def setModem (b : Flagset) : X Unit := fun env m => .ok () env { m with world := { m.world with line := m.world.line.map fun l => (l.1, b) } }

/-- The line is given flags. -/
def setTerm (t : Termios) : X Unit := fun env m =>
  .ok () env { m with world := { m.world with line := m.world.line.map fun l => (t, l.2), input := m.world.wire t } }

/-- `ioctl(d, TIOCMGET, p)`. -/
def getModemInto (d : Int) (p : Val) : X Unit := do
  match ← lineOf d with
  | some (_, b) => storeBytes p (leBytes 4 b.toNat)
  | none => pure ()

/-- `ioctl(d, TIOCMSET, p)`. -/
def setModemFrom (d : Int) (p : Val) : X Unit := do
  match ← lineOf d with
  | some _ =>
    let bs ← loadBytes p 4
    setModem (BitVec.ofNat 32 (leNat bs))
  | none => pure ()

/-- The integer members of a `struct termios`. -/
def termMembers (t : Termios) : List Int :=
  [(t.iflag.toNat : Int), t.oflag.toNat, t.cflag.toNat, t.lflag.toNat] ++ (List.range 32).map fun i => ((t.cc i).toNat : Int)

/-- The flags in a `struct termios`; there are no more than 32 control characters. -/
def termFrom (old : Termios) (is : List Int) : Termios where
  iflag := BitVec.ofInt 32 (is.getD 0 0)
  oflag := BitVec.ofInt 32 (is.getD 1 0)
  cflag := BitVec.ofInt 32 (is.getD 2 0)
  lflag := BitVec.ofInt 32 (is.getD 3 0)
  cc := fun i => if i < 32 then UInt8.ofNat (is.getD (4 + i) 0).toNat else old.cc i

/-- `tcgetattr(d, p)`. -/
def getTermInto (d : Int) (p : Val) : X Unit := do
  match ← lineOf d with
  | some (t, _) => storeRec p [] (termMembers t)
  | none => pure ()

/-- `tcsetattr(d, TCSANOW, p)`. -/
def setTermFrom (d : Int) (p : Val) : X Unit := do
  match ← lineOf d with
  | some (t, _) =>
    let is ← loadSet p
    setTerm (termFrom t is)
  | none => pure ()

/-- `cfsetispeed(p, v)` and `cfsetospeed(p, v)`: the speed is in `c_cflag`, the third member. -/
def speedInto (p : Val) (v : Int) : X Unit := do
  let c ← loadInt p 2
  storeInt p 2 (((BitVec.ofInt 32 c &&& ~~~CBAUD) ||| BitVec.ofInt 32 v).toNat : Nat)

def closeFile (d : Int) : X Unit := fun env m => .ok () env { m with world := { m.world with closed := d :: m.world.closed } }

mutual
def eval (Γ : Calls) : Expr → X Val
  | .lit t n => pure (.int t n)
  | .null => pure nullPtr
  | .fn f => pure (.fn f)
  | .var x => getVar x
  | .ldPtr e i => do loadPtr (← eval Γ e) i
  | .ldInt t e i => do
    let n ← loadInt (← eval Γ e) i
    pure (.int t n)
  | .ldFn e i => do
    let n ← loadInt (← eval Γ e) i
    fnOf n
  | .elem e k => do
    let p ← eval Γ e
    let i ← asNat (← eval Γ k)
    loadPtr p i
  | .byte t e k => do
    let p ← eval Γ e
    let i ← asInt (← eval Γ k)
    loadNum t (← offset p i.2)
  | .deref t e => do loadNum t (← eval Γ e)
  | .addr e k => do
    let p ← eval Γ e
    let i ← asInt (← eval Γ k)
    offset p i.2
  | .addrPtr e i => do
    let p ← eval Γ e
    memberAddr p i
  | .tab t vs k => do
    let i ← asNat (← eval Γ k)
    tabAt t vs i
  | .compl e => do
    let (t, n) ← asInt (← eval Γ e)
    pure (.int t.promote (t.promote.conv (-1 - n)))
  | .neg e => do
    let (t, n) ← asInt (← eval Γ e)
    arith t.promote (-n)
  | .not e => do
    let b ← truth (← eval Γ e)
    pure (ofBool (!b))
  | .bin op a b => do
    let x ← eval Γ a
    let y ← eval Γ b
    binOp op x y
  | .and a b => do
    let x ← truth (← eval Γ a)
    if x then do
      let y ← truth (← eval Γ b)
      pure (ofBool y)
    else pure (ofBool false)
  | .or a b => do
    let x ← truth (← eval Γ a)
    if x then pure (ofBool true)
    else do
      let y ← truth (← eval Γ b)
      pure (ofBool y)
  | .cond c a b => do
    let x ← truth (← eval Γ c)
    if x then eval Γ a else eval Γ b
  | .cast t e => do convTo (some t) (← eval Γ e)
  | .incVar t x d => do
    let v ← getVar x
    let w ← binOp .add v (.int .i32 d)
    setVar x (← convTo (some t) w)
    pure v
  | .incPtr x => do
    let v ← getVar x
    setVar x (← offset v 1)
    pure v
  | .incMem t e i => do
    let p ← eval Γ e
    let n ← loadInt p i
    let w ← binOp .add (.int t n) (.int .i32 1)
    let r ← asInt w
    storeInt p i (t.conv r.2)
    pure (.int t n)
  | .call f args => do
    let vs ← evals Γ args
    Γ f vs
  | .callPtr e args => do
    let p ← eval Γ e
    let vs ← evals Γ args
    callVal Γ p vs
  | .mallocRec _ _ => do
    let r ← room Γ
    if r then newHeap .fresh else pure nullPtr
  | .mallocBytes n => do
    let k ← asNat (← eval Γ n)
    let r ← room Γ
    if r then newHeap (.raw (List.replicate k none)) else pure nullPtr
  | .realloc e n => do
    let p ← eval Γ e
    let k ← asNat (← eval Γ n)
    let r ← room Γ
    if r then reallocBlock p k else reallocFails p
  | .memcmp a b n => do
    let p ← eval Γ a
    let q ← eval Γ b
    let k ← asNat (← eval Γ n)
    let x ← loadBytes p k
    let y ← loadBytes q k
    pure (.int .i32 (cmpBytes x y))
  | .memcmpTab a b n => do
    let p ← eval Γ a
    let k ← asNat (← eval Γ n)
    let x ← loadBytes p k
    let y ← tabBytes b k
    pure (.int .i32 (cmpBytes x y))
  | .strlen e => do
    let p ← eval Γ e
    lengthOf p
  | .assign t x e => do
    let v ← convTo (some t) (← eval Γ e)
    setVar x v
    pure v
  | .fdHas d e => do
    let k ← asInt (← eval Γ d)
    let p ← eval Γ e
    fdMember k.2 p
  | .read d p n => do
    let k ← asInt (← eval Γ d)
    let q ← eval Γ p
    let l ← asNat (← eval Γ n)
    readInto k.2 q l
  | .write d p n => do
    let k ← asInt (← eval Γ d)
    let q ← eval Γ p
    let l ← asNat (← eval Γ n)
    let bs ← loadBytes q l
    writeOut k.2 bs
  | .errno => getErrno
  | .str s => pure (.str s)
  | .strTab ss k => do
    let i ← asNat (← eval Γ k)
    strAt ss i
  | .assignPtr x e => do
    let v ← eval Γ e
    setVar x v
    pure v
  | .flag i => getFlag i
  | .toDbl e => do
    let n ← asInt (← eval Γ e)
    pure (.dbl (toDouble n.2) 0)
  | .mulDbl a b => do
    let x ← asDbl (← eval Γ a)
    let y ← asDbl (← eval Γ b)
    pure (.dbl (toDouble (x.1 * y.1)) (x.2 + y.2))
  | .pow10 e => do
    let n ← asInt (← eval Γ e)
    powTen n.2
  | .strcmp a b => do
    let p ← eval Γ a
    let q ← eval Γ b
    let x ← textOf p
    let y ← textOf q
    pure (.int .i32 (cmpBytes (x ++ [0]) (y ++ [0])))
  | .getopt n a opts => do
    let k ← asInt (← eval Γ n)
    let p ← eval Γ a
    getOption k.2 p opts.toUTF8.toList
  | .openFile e fl => do
    let p ← eval Γ e
    let k ← asInt (← eval Γ fl)
    let name ← textOf p
    openAs name k.2

def evals (Γ : Calls) : List Expr → X (List Val)
  | [] => pure []
  | e :: es => do
    let v ← eval Γ e
    let vs ← evals Γ es
    pure (v :: vs)
end

/-! ## Statements -/

/-- How a statement ends. -/
inductive Out where
  | next
  | brk
  | cont
  | ret (v : Val)
  | goto (l : Nat)
deriving DecidableEq, Repr

/-- `for (; c; step) body` with at most `n` rounds. -/
def whileLoop (c : X Bool) (body step : X Out) : Nat → X Out
  | 0 => bad (.buf .fuel)
  | n + 1 => do
    let x ← c
    if x then do
      let o ← body
      match o with
      | .brk => pure .next
      | .ret v => pure (.ret v)
      | .goto l => pure (.goto l)
      | _ => do
        let _ ← step
        whileLoop c body step n
    else pure .next

/-- `do body while (c);` with at most `n` rounds. -/
def doLoop (c : X Bool) (body : X Out) : Nat → X Out
  | 0 => bad (.buf .fuel)
  | n + 1 => do
    let o ← body
    match o with
    | .brk => pure .next
    | .ret v => pure (.ret v)
    | .goto l => pure (.goto l)
    | _ => do
      let x ← c
      if x then doLoop c body n else pure .next

/-- Does a `switch` have a label for the value? -/
def hasCase (v : Int) : List Stmt → Bool
  | [] => false
  | .case n :: ss => decide (n = v) || hasCase v ss
  | _ :: ss => hasCase v ss

/-- The value an integer member is given. -/
def memberVal (t : ITy) (v : Val) : X Int :=
  match v with
  | .fn f => pure (f.code : Int)
  | .int _ n => pure (t.conv n)
  | .undef => bad (.buf .uninit)
  | _ => bad .kind

/-- The integer members of a compound literal. -/
def evalMembers (Γ : Calls) : List (ITy × Expr) → X (List Int)
  | [] => pure []
  | (t, e) :: es => do
    let v ← eval Γ e
    let n ← memberVal t v
    let ns ← evalMembers Γ es
    pure (n :: ns)

mutual
def exec (Γ : Calls) (fuel : Nat) : Stmt → X Out
  | .expr e => do
    let _ ← eval Γ e
    pure .next
  | .set t x e => do
    setVar x (← convTo (some t) (← eval Γ e))
    pure .next
  | .setPtr x e => do
    setVar x (← eval Γ e)
    pure .next
  | .stPtr e i v => do
    let w ← eval Γ v
    let p ← eval Γ e
    storePtr p i w
    pure .next
  | .stInt t e i v => do
    let w ← asInt (← eval Γ v)
    let p ← eval Γ e
    storeInt p i (t.conv w.2)
    pure .next
  | .stElem e k v => do
    let w ← eval Γ v
    let p ← eval Γ e
    let i ← asNat (← eval Γ k)
    storePtr p i w
    pure .next
  | .stByte t e k v => do
    let w ← asInt (← eval Γ v)
    let p ← eval Γ e
    let i ← asInt (← eval Γ k)
    storeNum t (← offset p i.2) w.2
    pure .next
  | .stDeref t e v => do
    let w ← asInt (← eval Γ v)
    let p ← eval Γ e
    storeNum t p w.2
    pure .next
  | .stRec e ps is => do
    let p ← eval Γ e
    let vs ← evals Γ ps
    let ns ← evalMembers Γ is
    storeRec p vs ns
    pure .next
  | .free e => do
    freeBlock (← eval Γ e)
    pure .next
  | .memset d c n => do
    let p ← eval Γ d
    let w ← asInt (← eval Γ c)
    let k ← asNat (← eval Γ n)
    target p
    storeBytes p (List.replicate k (UInt8.ofNat (ITy.u8.toBits w.2)))
    pure .next
  | .memcpy d s n => do
    let p ← eval Γ d
    let q ← eval Γ s
    let k ← asNat (← eval Γ n)
    target p
    storeBytes p (← loadBytes q k)
    pure .next
  | .memcpyTab d s n => do
    let p ← eval Γ d
    let k ← asNat (← eval Γ n)
    let cs ← tabBytes s k
    target p
    storeBytes p cs
    pure .next
  | .print args => do
    let _ ← evals Γ args
    pure .next
  | .printf fmt args => do
    let vs ← evals Γ args
    say (← render fmt vs)
    pure .next
  | .exit n => leave n
  | .bytes x n => do
    let k ← asNat (← eval Γ n)
    let p ← newArray k
    setVar x p
    pure .next
  | .obj x ps is => do
    let vs ← evals Γ ps
    setVar x (← newLocal (.obj vs is))
    pure .next
  | .ptrVar x => do
    setVar x (← newLocal (.obj [.undef] []))
    pure .next
  | .fdVar x => do
    setVar x (← newLocal .fresh)
    pure .next
  | .fdZero e => do
    let p ← eval Γ e
    storeRec p [] (List.replicate 1024 0)
    pure .next
  | .fdAdd d e => do
    let k ← asInt (← eval Γ d)
    let p ← eval Γ e
    fdInsert k.2 p
    pure .next
  | .select n e => do
    let k ← asNat (← eval Γ n)
    let p ← eval Γ e
    selectOn k p
    pure .next
  | .uuid e => do
    let p ← eval Γ e
    uuidInto p
    pure .next
  | .setFlag i e => do
    let n ← asInt (← eval Γ e)
    setGlobal i (ITy.i32.conv n.2)
    pure .next
  | .zeroRec e n => do
    let p ← eval Γ e
    storeRec p [] (List.replicate n 0)
    pure .next
  | .modemGet d p => do
    let k ← asInt (← eval Γ d)
    let q ← eval Γ p
    getModemInto k.2 q
    pure .next
  | .modemSet d p => do
    let k ← asInt (← eval Γ d)
    let q ← eval Γ p
    setModemFrom k.2 q
    pure .next
  | .termGet d p => do
    let k ← asInt (← eval Γ d)
    let q ← eval Γ p
    getTermInto k.2 q
    pure .next
  | .termSet d p => do
    let k ← asInt (← eval Γ d)
    let q ← eval Γ p
    setTermFrom k.2 q
    pure .next
  | .setSpeed p v => do
    let q ← eval Γ p
    let k ← asInt (← eval Γ v)
    speedInto q k.2
    pure .next
  | .close d => do
    let k ← asInt (← eval Γ d)
    closeFile k.2
    pure .next
  | .ite c a b => do
    let x ← truth (← eval Γ c)
    if x then execs Γ fuel a else execs Γ fuel b
  | .loop c body step => whileLoop (do truth (← eval Γ c)) (execs Γ fuel body) (execs Γ fuel step) fuel
  | .doWhile body c => doLoop (do truth (← eval Γ c)) (execs Γ fuel body) fuel
  | .switch e body => do
    let v ← asInt (← eval Γ e)
    let o ← execSwitch Γ fuel (if hasCase v.2 body then some v.2 else none) body
    pure (if o = .brk then .next else o)
  | .case _ => pure .next
  | .dflt => pure .next
  | .brk => pure .brk
  | .cont => pure .cont
  | .ret e => do pure (.ret (← eval Γ e))
  | .retVoid => pure (.ret .undef)
  | .goto l => pure (.goto l)
  | .label _ => pure .next

def execs (Γ : Calls) (fuel : Nat) : List Stmt → X Out
  | [] => pure .next
  | s :: ss => do
    let o ← exec Γ fuel s
    match o with
    | .next => execs Γ fuel ss
    | o => pure o

/-- The part of a `switch` behind the label that is selected (`none`: `default`). -/
def execSwitch (Γ : Calls) (fuel : Nat) (v : Option Int) : List Stmt → X Out
  | [] => pure .next
  | .case n :: ss => if v = some n then execs Γ fuel ss else execSwitch Γ fuel v ss
  | .dflt :: ss => if v = none then execs Γ fuel ss else execSwitch Γ fuel v ss
  | _ :: ss => execSwitch Γ fuel v ss
end

/-! ## Functions -/

/-- The statements behind a label. -/
def behind (l : Nat) : List Stmt → Option (List Stmt)
  | [] => none
  | .label k :: ss => if k = l then some ss else behind l ss
  | _ :: ss => behind l ss

/-- Run statements of a function body and what is reached by `goto` (with at most `n` jumps) up to the end of the function. -/
def runFrom (Γ : Calls) (fuel : Nat) (body : List Stmt) : (n : Nat) → List Stmt → X Val
  | 0, _ => bad (.buf .fuel)
  | n + 1, ss => do
    let o ← execs Γ fuel ss
    match o with
    | .ret v => pure v
    | .goto l =>
      match behind l body with
      | some ss' => runFrom Γ fuel body n ss'
      | none => bad .kind
    | _ => pure .undef

/-- Conversion of the arguments to the types of the parameters. -/
def bindArgs : List (Option ITy) → List Val → X (List Val)
  | [], [] => pure []
  | t :: ts, v :: vs => do
    let w ← convTo t v
    let ws ← bindArgs ts vs
    pure (w :: ws)
  | _, _ => bad .kind

/-- Variables at the beginning of a function. -/
def envOf (vs : List Val) : Env := fun x => vs.getD x .undef

/-- The value a function returns, converted to its type. -/
def resultOf (t : Option ITy) (v : Val) : X Val :=
  match v with
  | .undef => pure .undef
  | v => convTo t v

/-- Run a function body with variables of its own. Its local objects are gone when it returns, the variables of the caller are as before. -/
def inFrame (vs : List Val) (x : X Val) : X Val := fun env m =>
  match x (envOf vs) m with
  | .ok v _ m' => .ok v env { m' with stack := m'.stack.take m.stack.length }
  | .bad b => .bad b

/-- A call of a function. -/
def runFun (Γ : Calls) (fuel : Nat) (fd : FunDef) (args : List Val) : X Val := do
  let vs ← bindArgs fd.params args
  let v ← inFrame vs (runFrom Γ fuel fd.body fuel fd.body)
  resultOf fd.res v

/-- The functions of a program calling each other, with at most `n` nested calls and `n` rounds of a loop. -/
def callIn (prog : Fn → FunDef) (av : Nat → Bool) : (n : Nat) → Fn → List Val → X Val
  | 0, _, _ => bad (.buf .fuel)
  | n + 1, f, args => runFun ⟨callIn prog av n, av⟩ n (prog f) args

/-- The functions of a program when some requests for memory are not met. -/
def scarce (prog : Fn → FunDef) (av : Nat → Bool) (n : Nat) : Calls := ⟨callIn prog av n, av⟩

/-- The functions of a program when there is memory for all requests. -/
def call (prog : Fn → FunDef) (n : Nat) : Calls := scarce prog (fun _ => true) n

end Sml.C
