import Verif.Spec.Tty
import Verif.Props.Program

/-!
# C56: the serial line is opened so that the meter is heard unchanged
-/

namespace Sml
open Spec

theorem on_cleared (x M m : Flagset) (h : ~~~M &&& m = 0) : on (x &&& ~~~M) m = false := by
  simp [on, BitVec.and_assoc, h]

theorem on_kept (x M m : Flagset) (h : ~~~M &&& m = m) : on (x &&& ~~~M) m = on x m := by
  simp [on, BitVec.and_assoc, h]

theorem masked_or (a b c : Flagset) : (a ||| b) &&& c = (a &&& c) ||| (b &&& c) := by
  ext i hi
  simp [Bool.and_or_distrib_right]

/-- The control flags after opening, seen through a mask. -/
theorem cflag_masked (t : Termios) (m : Flagset) :
    (serialSettings t).cflag &&& m =
      (t.cflag &&& (~~~(CSIZE ||| PARENB ||| PARODD ||| CSTOPB) &&& ~~~CBAUD &&& m)) ||| ((CS8 &&& ~~~CBAUD ||| B9600) &&& m) := by
  ext i hi
  simp only [serialSettings, cfsetspeed, BitVec.getElem_and, BitVec.getElem_or, BitVec.getElem_not]
  generalize (CSIZE[i] || PARENB[i] || PARODD[i] || CSTOPB[i]) = b
  generalize t.cflag[i] = a
  generalize m[i] = c
  generalize CS8[i] = d
  generalize CBAUD[i] = e
  generalize B9600[i] = f
  clear hi i
  revert a b c d e f
  decide

/-- **The line is transparent iff** the receiver is on and ten settings are off. -/
theorem c56_transparent_iff (t : Termios) :
    Transparent t ↔ on t.cflag CREAD = true ∧ on t.lflag ICANON = false ∧ on t.lflag IEXTEN = false ∧ on t.iflag ISTRIP = false ∧
      on t.iflag IXON = false ∧ on t.lflag ISIG = false ∧ on t.iflag IGNCR = false ∧ on t.iflag ICRNL = false ∧ on t.iflag INLCR = false ∧
      on t.iflag PARMRK = false ∧ on t.lflag ECHO = false := by
  constructor
  · intro h
    have h1 := (h (fun b => [b]) (fun _ => 0) [0x61]).1
    have h2 := (h (fun _ => []) (fun _ => 0) [0x61]).1
    have h3 := (h (fun b => [b]) (fun _ => 0) [0xFF]).1
    have h4 := (h (fun b => [b]) (fun _ => 0x61) [0x61]).1
    have h5 := (h (fun b => [b]) (fun _ => 0) [0x0D]).1
    have h6 := (h (fun b => [b]) (fun _ => 0) [0x0A]).1
    have h7 := (h (fun b => [b]) (fun _ => 0) [0x61]).2
    cases c1 : on t.cflag CREAD with
    | false => simp [readable, c1] at h1
    | true =>
    cases c2 : on t.lflag ICANON with
    | true =>
      simp [readable, c1, c2, queued, incoming, isCtl, show (97 : UInt8) &&& 127 = 97 by decide, canonical] at h1
    | false =>
    cases c3 : on t.lflag IEXTEN with
    | true => simp [readable, c1, c2, c3, queued, incoming] at h2
    | false =>
    cases c4 : on t.iflag ISTRIP with
    | true => simp [readable, c1, c2, c3, c4, queued, incoming, isCtl, show (255 : UInt8) &&& 127 = 127 by decide] at h3
    | false =>
    cases c5 : on t.iflag IXON with
    | true => simp [readable, c1, c2, c3, c4, c5, queued, incoming, isCtl] at h4
    | false =>
    cases c6 : on t.lflag ISIG with
    | true => simp [readable, c1, c2, c3, c4, c5, c6, queued, incoming, isCtl] at h4
    | false =>
    cases c7 : on t.iflag IGNCR with
    | true => simp [readable, c1, c2, c3, c4, c5, c6, c7, queued, incoming, isCtl] at h5
    | false =>
    cases c8 : on t.iflag ICRNL with
    | true => simp [readable, c1, c2, c3, c4, c5, c6, c7, c8, queued, incoming, isCtl] at h5
    | false =>
    cases c9 : on t.iflag INLCR with
    | true => simp [readable, c1, c2, c3, c4, c5, c6, c7, c8, c9, queued, incoming, isCtl] at h6
    | false =>
    cases c10 : on t.iflag PARMRK with
    | true => simp [readable, c1, c2, c3, c4, c5, c6, c7, c8, c9, c10, queued, incoming, isCtl] at h3
    | false =>
    cases c11 : on t.lflag ECHO with
    | true => simp [echoed, c1, c3, c4, c5, c6, c7, c8, c9, c10, c11, queued, incoming, isCtl] at h7
    | false => simp
  · rintro ⟨c1, c2, c3, c4, c5, c6, c7, c8, c9, c10, c11⟩ ext cc bs
    have e : ∀ b, incoming ext { t with cc := cc } b = [b] := by
      intro b
      simp [incoming, c3, c4, c5, c6, c7, c8, c9, c10]
    refine ⟨?_, by simp [echoed, c1, c2, c11]⟩
    simp only [readable, c1, c2, if_true, Bool.false_eq_true, if_false]
    induction bs with
    | nil => rfl
    | cons b bs ih => simp [queued, e] at ih ⊢; exact ih

/-- The settings the receiver needs, after opening. -/
theorem opened_settings (t : Termios) :
    on (serialSettings t).cflag CREAD = on t.cflag CREAD ∧ on (serialSettings t).iflag IGNPAR = on t.iflag IGNPAR ∧
    (∀ m ∈ [IGNBRK, BRKINT, PARMRK, ISTRIP, INLCR, IGNCR, ICRNL, IXON], on (serialSettings t).iflag m = false) ∧
    (∀ m ∈ [ECHO, ECHONL, ICANON, ISIG, IEXTEN], on (serialSettings t).lflag m = false) ∧
    on (serialSettings t).oflag OPOST = false := by
  refine ⟨?_, ?_, ?_, ?_, ?_⟩
  · have := cflag_masked t CREAD
    simp only [on, this]
    congr 1
    rw [show (CS8 &&& ~~~CBAUD ||| B9600) &&& CREAD = 0#32 by decide, BitVec.or_zero,
      show ~~~(CSIZE ||| PARENB ||| PARODD ||| CSTOPB) &&& ~~~CBAUD &&& CREAD = CREAD by decide]
  · exact on_kept _ _ _ (by decide)
  · intro m hm
    refine on_cleared _ _ _ ?_
    simp only [List.mem_cons, List.not_mem_nil, or_false] at hm
    rcases hm with rfl | rfl | rfl | rfl | rfl | rfl | rfl | rfl <;> decide
  · intro m hm
    refine on_cleared _ _ _ ?_
    simp only [List.mem_cons, List.not_mem_nil, or_false] at hm
    rcases hm with rfl | rfl | rfl | rfl | rfl <;> decide
  · exact on_cleared _ _ _ (by decide)

/-- **After opening, the line is transparent**, whatever its settings before, iff its receiver was on: the program does not switch it on. -/
theorem c56_opened_transparent (t : Termios) : Transparent (serialSettings t) ↔ on t.cflag CREAD = true := by
  obtain ⟨a, -, b, c, -⟩ := opened_settings t
  rw [c56_transparent_iff, a]
  refine ⟨fun h => h.1, fun h => ⟨h, ?_⟩⟩
  refine ⟨c _ ?_, c _ ?_, b _ ?_, b _ ?_, c _ ?_, b _ ?_, b _ ?_, b _ ?_, b _ ?_, c _ ?_⟩ <;> decide

/-- Settings as a terminal window has them: echo, canonical mode, signals, flow control. -/
def windowSettings : Termios where
  iflag := 0o2400
  oflag := 0o5
  cflag := 0o277
  lflag := 0o100073
  cc := fun i => [3, 28, 127, 21, 4, 0, 1, 0, 17, 19, 26].getD i 0

/-- Before opening such a line is not transparent; it is afterwards. -/
example : ¬ Transparent windowSettings ∧ Transparent (serialSettings windowSettings) :=
  ⟨fun h => absurd ((c56_transparent_iff _).1 h) (by decide), (c56_opened_transparent _).2 (by decide)⟩

/-- **Characters are framed as the meter does it**: eight bits, no parity, one stop bit, 9600 baud. -/
theorem c56_framing (t : Termios) : framing (serialSettings t) = ⟨8, none, 1, B9600⟩ := by
  have h : ∀ m, ~~~(CSIZE ||| PARENB ||| PARODD ||| CSTOPB) &&& ~~~CBAUD &&& m = 0#32 →
      (serialSettings t).cflag &&& m = (CS8 &&& ~~~CBAUD ||| B9600) &&& m := by
    intro m hm
    rw [cflag_masked, hm, BitVec.and_zero, BitVec.zero_or]
  simp only [framing, on, h CSIZE (by decide), h PARENB (by decide), h CSTOPB (by decide), h CBAUD (by decide), h PARODD (by decide)]
  decide

/-- **Disturbances**: a break arrives as one byte 0; a damaged character as one byte 0, or not at all; everything else is as sent, nothing is sent back, and
no signal ends the program. -/
theorem c56_disturbed (t : Termios) (ext : UInt8 → List UInt8) (evs : List WireEvent) (h : on t.cflag CREAD = true) :
    readable ext (serialSettings t) evs = evs.flatMap (arrives (on t.iflag IGNPAR)) ∧
    echoed ext (serialSettings t) evs = [] ∧ ¬ Signals (serialSettings t) evs := by
  obtain ⟨a, a', b, c, -⟩ := opened_settings t
  rw [h] at a
  have c2 := c ICANON (by decide)
  have c3 := c IEXTEN (by decide)
  have c4 := b ISTRIP (by decide)
  have c5 := b IXON (by decide)
  have c6 := c ISIG (by decide)
  have c7 := b IGNCR (by decide)
  have c8 := b ICRNL (by decide)
  have c9 := b INLCR (by decide)
  have c10 := b PARMRK (by decide)
  have c11 := c ECHO (by decide)
  have c12 := b IGNBRK (by decide)
  have c13 := b BRKINT (by decide)
  refine ⟨?_, by simp [echoed, c2, c11], by simp [Signals, c6, c13]⟩
  simp only [readable, a, c2, if_true, Bool.false_eq_true, if_false]
  congr 1
  funext e
  cases e <;> simp [arrives, queued, incoming, a', c3, c4, c5, c6, c7, c8, c9, c10, c12, c13]

example : readable (fun _ => []) (serialSettings windowSettings) [.char 0x1B, .char 0x0D, .brk, .char 0x03, .damaged 0x11, .char 0xFF] =
    [0x1B, 0x0D, 0x00, 0x03, 0x00, 0xFF] := by decide +kernel

/-- **What is written goes out unchanged.** -/
theorem c56_sent (t : Termios) (post : UInt8 → List UInt8) (bs : List UInt8) : sentOut post (serialSettings t) bs = bs := by
  simp [sentOut, (opened_settings t).2.2.2.2]

example : sentOut (fun b => if b = 0x0A then [0x0D, 0x0A] else [b]) windowSettings [0x0A] = [0x0D, 0x0A] := by decide +kernel

/-- **The reading head gets its power**: RTS is on after opening, the other modem lines are as they were. -/
theorem c56_rts (find : List UInt8 → Option Port) (dev : List UInt8) (hdev : dev ≠ [0x2D]) (t : Termios) (bits : Flagset)
    (h : find dev = some { line := some (t, bits) }) :
    ∃ bits', serialPortOpen find dev = some (some { line := some (serialSettings t, bits') }) ∧ on bits' TIOCM_RTS = true ∧
      ∀ m, m &&& TIOCM_RTS = 0 → bits' &&& m = bits &&& m := by
  refine ⟨bits ||| TIOCM_RTS, by simp [serialPortOpen, hdev, h], ?_, ?_⟩
  · have : (bits ||| TIOCM_RTS) &&& TIOCM_RTS = TIOCM_RTS := by
      rw [masked_or]
      ext i hi
      simp only [BitVec.getElem_and, BitVec.getElem_or]
      cases bits[i] <;> cases TIOCM_RTS[i] <;> rfl
    rw [on, this]
    decide
  · intro m hm
    rw [masked_or, BitVec.and_comm TIOCM_RTS m, hm]
    exact BitVec.or_zero

example : (serialPortOpen (fun _ => some { line := some (windowSettings, 0x002) }) [0x61]).isSome = true := rfl

/-- **`-` is standard input, and nothing else is**; opening fails exactly if the name is another one under which nothing is found. -/
theorem c56_open (find : List UInt8 → Option Port) (dev : List UInt8) :
    (serialPortOpen find dev = some none ↔ dev = "-".toUTF8.toList) ∧
    (serialPortOpen find dev = none ↔ dev ≠ "-".toUTF8.toList ∧ find dev = none) := by
  have h : "-".toUTF8.toList = [0x2D] := by decide +kernel
  rw [h, serialPortOpen]
  by_cases hd : dev = [0x2D]
  · simp [hd]
  · rw [if_neg hd]
    cases find dev <;> simp [hd]

example : serialPortOpen (fun _ => none) "-".toUTF8.toList = some none ∧ serialPortOpen (fun _ => none) "-x".toUTF8.toList = none :=
  ⟨(c56_open _ _).1.2 rfl, (c56_open _ _).2.2 ⟨by decide +kernel, rfl⟩⟩

/-- The descriptor the program reads from: what arrives over the line, as the settings left by `serial_port_open` let it through. `wires` are the lines found under a
name: their settings, and what happens on the wire; `sched` is the timing. -/
def openLine (ext : UInt8 → List UInt8) (wires : List UInt8 → Option (Termios × List WireEvent)) (sched : List Ev) (dev : List UInt8) : Option Fd :=
  match serialPortOpen (fun d => (wires d).map fun w => { line := some (w.1, 0) }) dev, wires dev with
  | some (some { line := some (t, _) }), some (_, evs) => some { pending := readable ext t evs, sched := sched }
  | _, _ => none

theorem openLine_eq (ext : UInt8 → List UInt8) (wires : List UInt8 → Option (Termios × List WireEvent)) (sched : List Ev) (dev : List UInt8) (hdev : dev ≠ [0x2D])
    {t : Termios} {evs : List WireEvent} (h : wires dev = some (t, evs)) (hr : on t.cflag CREAD = true) :
    openLine ext wires sched dev = some { pending := evs.flatMap (arrives (on t.iflag IGNPAR)), sched := sched } := by
  unfold openLine serialPortOpen
  simp only [if_neg hdev, h, Option.map_some, (c56_disturbed t ext evs hr).1]

/-- **From the wire to the screen.** A meter sends any number of telegrams over a line with any settings, with disturbances that are harmless between
them; the program prints the readings that were sent. -/
theorem c56_meter (pow : Int → Dbl) (hp : GoodPow pow) (depth : Nat) (hdepth : 2024 ≤ depth) (stdin : Fd) (ext : UInt8 → List UInt8)
    (wires : List UInt8 → Option (Termios × List WireEvent)) (sched : List Ev) (name : List UInt8)
    (args : List (List UInt8)) (verbose single : Bool) (dev : List UInt8) (hargs : ListensTo args verbose single dev) (hdev : dev ≠ [0x2D])
    (t : Termios) (hr : on t.cflag CREAD = true) (telegrams : List (List WireEvent × List Message)) (tail : List WireEvent)
    (hw : wires dev = some (t, (telegrams.map fun i => i.1 ++ (sentFrame (fileBytes i.2)).map .char).flatten ++ tail))
    (hnf : ∀ e ∈ sched, e ≠ .fail) (ht : ¬ Occurs frameStart (tail.flatMap (arrives (on t.iflag IGNPAR))))
    (hok : ∀ i ∈ telegrams, Harmless (i.1.flatMap (arrives (on t.iflag IGNPAR))) ∧ (∀ m ∈ i.2, MessageOk true m ∧ messageDepth m ≤ depth) ∧
      NoEscape (fileBytes i.2) ∧ (sentFrame (fileBytes i.2)).length < 8096)
    (hsafe : ∀ ms ∈ heard single (telegrams.map Prod.snd), Manageable verbose single ms ∧ AllLegible (entriesOf (lookedAt single ms))) :
    ∃ text, programMain pow depth stdin (openLine ext wires sched) name args = .ok ⟨0, text⟩ ∧
      PrintsTelegrams verbose single (heard single (telegrams.map Prod.snd)) text := by
  have hchars : ∀ bs : List UInt8, (bs.map WireEvent.char).flatMap (arrives (on t.iflag IGNPAR)) = bs := by
    intro bs
    induction bs with
    | nil => rfl
    | cons b bs ih => rw [List.map_cons, List.flatMap_cons, ih]; rfl
  have hflat : ((telegrams.map fun i => i.1 ++ (sentFrame (fileBytes i.2)).map .char).flatten ++ tail).flatMap (arrives (on t.iflag IGNPAR)) =
      ((telegrams.map fun i => (i.1.flatMap (arrives (on t.iflag IGNPAR)), i.2)).map fun i => i.1 ++ sentFrame (fileBytes i.2)).flatten ++
        tail.flatMap (arrives (on t.iflag IGNPAR)) := by
    rw [List.flatMap_append]
    congr 1
    clear hw hok hsafe
    induction telegrams with
    | nil => rfl
    | cons i is ih => rw [List.map_cons, List.flatten_cons, List.flatMap_append, ih, List.flatMap_append, hchars]; rfl
  have hsnd : (telegrams.map fun i => (i.1.flatMap (arrives (on t.iflag IGNPAR)), i.2)).map Prod.snd = telegrams.map Prod.snd := by
    rw [List.map_map]; rfl
  have := c55_meter pow hp depth hdepth stdin (openLine ext wires sched) name args verbose single dev hargs _
    (by rw [if_neg hdev]; exact openLine_eq ext wires sched dev hdev hw hr) hnf
    (telegrams.map fun i => (i.1.flatMap (arrives (on t.iflag IGNPAR)), i.2)) (tail.flatMap (arrives (on t.iflag IGNPAR))) ht hflat
    (by
      intro j hj
      obtain ⟨i, hi, rfl⟩ := List.mem_map.1 hj
      exact hok i hi)
    (by rw [hsnd]; exact hsafe)
  rw [hsnd] at this
  exact this

/-- The sample telegram on a line with the settings of a terminal window, behind a break and a damaged character. -/
example : programMain pow10 2024 ⟨[], []⟩ (openLine (fun _ => []) (fun _ => some (windowSettings, .brk :: .damaged 7 :: sampleFrame.map .char)) [.give 2, .intr, .give 100]) []
    ["-s".toUTF8.toList, "/dev/ttyUSB0".toUTF8.toList] =
    .ok ⟨0, "1-0:1.8.0*255#466.0#Wh\n1-0:16.7.0*255#-200#W\n1-0:96.1.0*255#0a 01 02 03 04 #\n".toUTF8.toList⟩ := by decide +kernel

end Sml
