import Verif.Props.SourceExample
import Verif.Props.Serial
import Verif.Proofs.SourceMain

/-!
# C81: `main` of the example program, run from its source
-/

namespace Sml
open Spec Samples

/-! ## The command line -/

theorem optionLetters_known (ls : List UInt8) (rest : List UInt8) (fl : Flags) (h : ∀ c ∈ ls, c = 0x73 ∨ c = 0x76) : ∃ fl', optionLetters (ls ++ rest) fl = optionLetters rest fl' := by
  induction ls generalizing fl with
  | nil => exact ⟨fl, rfl⟩
  | cons c ls ih =>
    have hl : ∀ c ∈ ls, c = 0x73 ∨ c = 0x76 := fun x hx => h x (by simp [hx])
    rcases h c (by simp) with rfl | rfl
    · obtain ⟨fl', e⟩ := ih { fl with single := true } hl
      exact ⟨fl', by rw [List.cons_append, optionLetters, if_neg (by decide), if_pos rfl, e]⟩
    · obtain ⟨fl', e⟩ := ih { fl with verbose := true } hl
      exact ⟨fl', by rw [List.cons_append, optionLetters, if_neg (by decide), if_neg (by decide), if_pos rfl, e]⟩

theorem letters_first (cs : List UInt8) (h : ¬ ∀ c ∈ cs, c = 0x73 ∨ c = 0x76) : ∃ ls c rest, cs = ls ++ c :: rest ∧ (∀ c ∈ ls, c = 0x73 ∨ c = 0x76) ∧ c ≠ 0x73 ∧ c ≠ 0x76 := by
  induction cs with
  | nil => simp at h
  | cons c cs ih =>
    by_cases hc : c = 0x73 ∨ c = 0x76
    · obtain ⟨ls, d, rest, rfl, h2, h3⟩ := ih fun hh => h fun x hx => by
        rcases List.mem_cons.1 hx with rfl | hx
        · exact hc
        · exact hh x hx
      exact ⟨c :: ls, d, rest, rfl, fun x hx => by
        rcases List.mem_cons.1 hx with rfl | hx
        · exact hc
        · exact h2 x hx, h3⟩
    · exact ⟨[], c, cs, rfl, by simp, fun e => hc (.inl e), fun e => hc (.inr e)⟩

theorem optionLoop_letter (args : List (List UInt8)) {bundles : List (List UInt8)} {ls : List UInt8} {c : UInt8} {rest : List UInt8} {more : List (List UInt8)}
    (he : args = bundles.map (0x2D :: ·) ++ (0x2D :: (ls ++ c :: rest)) :: more) (hb : ∀ b ∈ bundles, IsBundle b) (hl : ∀ c ∈ ls, c = 0x73 ∨ c = 0x76) (hs : c ≠ 0x73) (hv : c ≠ 0x76)
    (hd : ls ++ c :: rest ≠ [0x2D]) : optionLoop args {} = if c = 0x68 then .help else .unknown := by
  subst he
  obtain ⟨fl, e, _⟩ := optionLoop_bundles bundles ((0x2D :: (ls ++ c :: rest)) :: more) {} hb
  obtain ⟨fl', e'⟩ := optionLetters_known ls (c :: rest) fl hl
  obtain ⟨k, ks, hk⟩ : ∃ k ks, ls ++ c :: rest = k :: ks := by cases ls <;> exact ⟨_, _, rfl⟩
  rw [e, hk, optionLoop]
  rw [if_neg (by rintro ⟨rfl, rfl⟩; exact hd hk), ← hk, e', optionLetters]
  by_cases h1 : c = 0x68
  · rw [if_pos h1, if_pos h1]
  · rw [if_neg h1, if_neg hs, if_neg hv, if_neg h1]

theorem optionLoop_operands (args : List (List UInt8)) {verbose single : Bool} {ops : List (List UInt8)} (h : HasOperands args verbose single ops) : optionLoop args {} = .rest ⟨single, verbose⟩ ops := by
  obtain ⟨bundles, tail, rfl, hb, ht, hs, hv⟩ := h
  obtain ⟨⟨s', v'⟩, e, h1, h2⟩ := optionLoop_bundles bundles tail {} hb
  simp only [Bool.false_eq_true, false_or] at h1 h2
  rw [← hs] at h1
  rw [← hv] at h2
  rw [e, show s' = single by simpa using Bool.eq_iff_iff.2 h1, show v' = verbose by simpa using Bool.eq_iff_iff.2 h2]
  rcases ht with rfl | ⟨rfl, ht⟩
  · rfl
  · cases tail with
    | nil => rfl
    | cons o ops =>
      unfold optionLoop
      split
      · next c cs => rcases ht _ rfl with h | h <;> simp at h
      · rfl

/-- Every command line is of one of the three kinds. -/
theorem commandLine_kinds (args : List (List UInt8)) : AsksHelp args ∨ HasWrongLetter args ∨ ∃ verbose single ops, HasOperands args verbose single ops := by
  suffices ∃ (bundles tail : List (List UInt8)), args = bundles.map (0x2D :: ·) ++ tail ∧ (∀ b ∈ bundles, IsBundle b) ∧
      ((∃ ls c rest more, tail = (0x2D :: (ls ++ c :: rest)) :: more ∧ (∀ c ∈ ls, c = 0x73 ∨ c = 0x76) ∧ c ≠ 0x73 ∧ c ≠ 0x76 ∧ ls ++ c :: rest ≠ [0x2D]) ∨
        (∃ ops, tail = [0x2D, 0x2D] :: ops) ∨ ∀ o, tail.head? = some o → o = [0x2D] ∨ o.head? ≠ some 0x2D) by
    obtain ⟨bundles, tail, e, hb, ⟨ls, c, rest, more, rfl, h1, h2, h3, h4⟩ | h⟩ := this
    · by_cases hc : c = 0x68
      · subst hc
        exact .inl ⟨bundles, ls, rest, more, e, hb, h1⟩
      · exact .inr (.inl ⟨bundles, ls, c, rest, more, e, hb, h1, hc, h2, h3, h4⟩)
    · refine .inr (.inr ⟨decide (∃ b ∈ bundles, (0x76 : UInt8) ∈ b), decide (∃ b ∈ bundles, (0x73 : UInt8) ∈ b), ?_⟩)
      rcases h with ⟨ops, rfl⟩ | h
      · exact ⟨ops, bundles, _, e, hb, .inl rfl, by simp, by simp⟩
      · exact ⟨tail, bundles, _, e, hb, .inr ⟨rfl, h⟩, by simp, by simp⟩
  induction args with
  | nil => exact ⟨[], [], rfl, by simp, .inr (.inr (by simp))⟩
  | cons arg args ih =>
    by_cases hd : ∃ c cs, arg = 0x2D :: c :: cs
    · obtain ⟨c, cs, rfl⟩ := hd
      by_cases hm : c :: cs = [0x2D]
      · rw [hm]
        exact ⟨[], _, rfl, by simp, .inr (.inl ⟨args, rfl⟩)⟩
      · by_cases hl : ∀ x ∈ c :: cs, x = 0x73 ∨ x = 0x76
        · obtain ⟨bundles, tail, e, hb, h⟩ := ih
          refine ⟨(c :: cs) :: bundles, tail, by rw [e]; rfl, fun b hb' => ?_, h⟩
          rcases List.mem_cons.1 hb' with rfl | hb'
          · exact ⟨by simp, hl⟩
          · exact hb b hb'
        · obtain ⟨ls, k, rest, e, h1, h2⟩ := letters_first _ hl
          exact ⟨[], _, rfl, by simp, .inl ⟨ls, k, rest, args, by rw [e], h1, h2.1, h2.2, by rw [← e]; exact hm⟩⟩
    · refine ⟨[], _, rfl, by simp, .inr (.inr fun o ho => ?_)⟩
      cases ho
      match arg, hd with
      | [], _ => exact .inr (by simp)
      | [c], _ =>
        by_cases hc : c = 0x2D
        · exact .inl (by rw [hc])
        · exact .inr (by simpa using hc)
      | c :: d :: r, hd => exact .inr (by
          simp only [List.head?_cons, ne_eq, Option.some.injEq]
          rintro rfl
          exact hd ⟨d, r, rfl⟩)

theorem help_runs {args : List (List UInt8)} (h : AsksHelp args) : optionLoop args {} = .help := by
  obtain ⟨bundles, ls, rest, more, e, hb, hl⟩ := h
  refine (optionLoop_letter args e hb hl (by decide) (by decide) ?_).trans (if_pos rfl)
  intro h
  have := List.append_eq_singleton_iff.mp h
  rcases this with ⟨_, h⟩ | ⟨_, h⟩ <;> cases h

theorem wrong_runs {args : List (List UInt8)} (h : HasWrongLetter args) : optionLoop args {} = .unknown := by
  obtain ⟨bundles, ls, c, rest, more, e, hb, hl, h1, h2, h3, h4⟩ := h
  exact (optionLoop_letter args e hb hl h2 h3 h4).trans (if_neg h1)

/-- C81: every command line is of exactly one kind, and this is what the option loop comes to. -/
theorem c81_options (args : List (List UInt8)) :
    (optionLoop args {} = .help ↔ AsksHelp args) ∧ (optionLoop args {} = .unknown ↔ HasWrongLetter args) ∧
    (∀ verbose single ops, optionLoop args {} = .rest ⟨single, verbose⟩ ops ↔ HasOperands args verbose single ops) ∧
    (∀ verbose single dev, ListensTo args verbose single dev ↔ HasOperands args verbose single [dev]) := by
  have hops : ∀ verbose single ops, optionLoop args {} = .rest ⟨single, verbose⟩ ops ↔ HasOperands args verbose single ops := fun verbose single ops => by
    refine ⟨fun h => ?_, optionLoop_operands args⟩
    rcases commandLine_kinds args with k | k | ⟨v, s, o, k⟩
    · rw [help_runs k] at h; cases h
    · rw [wrong_runs k] at h; cases h
    · rw [optionLoop_operands args k] at h; cases h; exact k
  refine ⟨⟨fun h => ?_, help_runs⟩, ⟨fun h => ?_, wrong_runs⟩, hops, fun v s d => (c55_options args v s d).symm.trans (hops v s [d])⟩
  · rcases commandLine_kinds args with k | k | ⟨v, s, o, k⟩
    · exact k
    · rw [wrong_runs k] at h; cases h
    · rw [optionLoop_operands args k] at h; cases h
  · rcases commandLine_kinds args with k | k | ⟨v, s, o, k⟩
    · rw [help_runs k] at h; cases h
    · exact k
    · rw [optionLoop_operands args k] at h; cases h

/-- Some command lines. -/
example : AsksHelp ["-s".toUTF8.toList, "-vhx".toUTF8.toList, "-x".toUTF8.toList] ∧ HasWrongLetter ["-s".toUTF8.toList, "--help".toUTF8.toList] ∧
    HasOperands ["-sv".toUTF8.toList, "a".toUTF8.toList, "-h".toUTF8.toList] true true ["a".toUTF8.toList, "-h".toUTF8.toList] ∧
    HasOperands ["-s".toUTF8.toList, "--".toUTF8.toList, "-h".toUTF8.toList] false true ["-h".toUTF8.toList] ∧ HasOperands [] false false [] :=
  ⟨(c81_options _).1.1 (by decide +kernel), (c81_options _).2.1.1 (by decide +kernel), ((c81_options _).2.2.1 _ _ _).1 (by decide +kernel), ((c81_options _).2.2.1 _ _ _).1 (by decide +kernel), ((c81_options _).2.2.1 _ _ _).1 (by decide +kernel)⟩

end Sml

namespace Sml.C
open Sml Spec Samples

/-! ## The serial port -/

/-- C81: `serial_port_open`, run from its source. For `-` it is standard input. A name under which nothing can be opened gives -1 and changes nothing. A serial line is left with the settings and the modem lines of C56,
and what is read from it is what comes through these settings; the number is the one the system gave. With a file that is not a serial line the function reads the modem lines from a variable that was not written. -/
theorem c81_serial (m : Mem) (p : Nat) (dev : List UInt8) (h : TextAt m p dev) :
    (dev = [0x2D] → CallTo .serial_port_open [ptrVal p] m (.int .i32 0) m) ∧
    (dev ≠ [0x2D] → m.world.files dev (2 + 256 + 2048) = none → CallTo .serial_port_open [ptrVal p] m (.int .i32 (-1)) m) ∧
    (∀ f, dev ≠ [0x2D] → m.world.files dev (2 + 256 + 2048) = some f → 0 ≤ f.num ∧ f.num < 2147483648 →
      (f.line = none → CallBad .serial_port_open [ptrVal p] m (.buf .uninit)) ∧
      ∀ t bits, f.line = some (t, bits) → ∃ m' bits', CallTo .serial_port_open [ptrVal p] m (.int .i32 f.num) m' ∧ m'.heap = m.heap ∧ m'.stack = m.stack ∧ m'.next = m.next ∧ m'.sovf = m.sovf ∧
        m'.world.out = m.world.out ∧ m'.world.flags = m.world.flags ∧ m'.world.num = f.num ∧ m'.world.input = f.wire (serialSettings t) ∧ m'.world.turns = f.turns ∧
        m'.world.line = some (serialSettings t, bits') ∧ on bits' TIOCM_RTS = true ∧ ∀ k, k &&& TIOCM_RTS = 0 → bits' &&& k = bits &&& k) := by
  refine ⟨?_, fun hd hf => port_none h hd hf, fun f hd hf hn => ⟨fun hl => port_file h hd hf hn hl, fun t bits hl => ?_⟩⟩
  · rintro rfl
    exact port_stdin h
  · obtain ⟨bits', e, h1, h2⟩ := c56_rts (fun _ => some { line := some (t, bits) }) dev hd t bits rfl
    have e' : bits' = bits ||| TIOCM_RTS := by
      simp only [serialPortOpen, if_neg hd, Option.map_some, Option.some.injEq, Port.mk.injEq, Prod.mk.injEq, true_and] at e
      exact e.symm
    subst e'
    exact ⟨_, _, port_line h hd hf hn hl, rfl, rfl, rfl, rfl, rfl, rfl, rfl, rfl, rfl, rfl, h1, h2⟩

/-! ## `main` -/

/-- C81: `main`, run from its source with a command line that is not one for listening: the text that belongs to it is printed and the program ends, with status 0 only if help was asked for. -/
theorem c81_usage (m : Mem) (a : Nat) (name : List UInt8) (args : List (List UInt8)) (h : Started m a name args) :
    (AsksHelp args → CallBad .main [.int .i32 (name :: args).length, ptrVal a] m (.exited 0 (m.world.out ++ ("usage: ".toUTF8.toList ++ name ++ (" [-h] [-s] [-v] device\n" ++
      "device - serial device of connected power meter e.g. /dev/cu.usbserial, or - for stdin\n" ++ "-h - help\n-s - process only one OBIS data stream (single)\n-v - verbose\n").toUTF8.toList)))) ∧
    (HasWrongLetter args → CallBad .main [.int .i32 (name :: args).length, ptrVal a] m (.exited 1 (m.world.out ++ ("Use ".toUTF8.toList ++ name ++ " -h for help.\n".toUTF8.toList)))) ∧
    (∀ verbose single ops, HasOperands args verbose single ops → ops.length ≠ 1 → CallBad .main [.int .i32 (name :: args).length, ptrVal a] m
      (.exited 1 (m.world.out ++ ("error: Arguments mismatch.\n".toUTF8.toList ++ ("Use ".toUTF8.toList ++ name ++ " -h for help.\n".toUTF8.toList))))) ∧
    (∀ verbose single dev, HasOperands args verbose single [dev] → dev ≠ [0x2D] → m.world.files dev (2 + 256 + 2048) = none → CallBad .main [.int .i32 (name :: args).length, ptrVal a] m (.exited 1 m.world.out)) ∧
    (∀ verbose single dev f, HasOperands args verbose single [dev] → dev ≠ [0x2D] → m.world.files dev (2 + 256 + 2048) = some f → 0 ≤ f.num ∧ f.num < 2147483648 → f.line = none →
      CallBad .main [.int .i32 (name :: args).length, ptrVal a] m (.buf .uninit)) := by
  obtain ⟨o1, o2, o3, _⟩ := c81_options args
  exact ⟨fun k => main_help h (o1.2 k), fun k => main_unknown h (o2.2 k), fun v s ops k hl => main_mismatch h ((o3 v s ops).2 k) hl, fun v s dev k hd hf => main_failed h ((o3 v s _).2 k) hd hf,
    fun v s dev f k hd hf hn hl => main_uninit h ((o3 v s _).2 k) hd hf hn hl⟩

/-- What is read for a device: the number of the descriptor, the bytes and the timing. -/
def Source (w : World) (dev : List UInt8) (d : Nat) (input : List UInt8) (turns : List Turn) : Prop :=
  (dev = [0x2D] ∧ w.num = 0 ∧ d = 0 ∧ input = w.input ∧ turns = w.turns) ∨
    (dev ≠ [0x2D] ∧ ∃ f t bits, w.files dev (2 + 256 + 2048) = some f ∧ f.num = (d : Nat) ∧ f.line = some (t, bits) ∧ input = f.wire (serialSettings t) ∧ turns = f.turns)

/-- Memory at the start of the program, for the rest of it. -/
structure Fresh (m : Mem) : Prop where
  pos : 0 < m.next
  fresh : ∀ a, m.next ≤ a → m.heap a = none
  ovf : m.sovf = false
  errs : Errs m.world

theorem main_source {m : Mem} {a : Nat} {name : List UInt8} {args : List (List UInt8)} (h : Started m a name args) (F : Fresh m) {verbose single : Bool} {dev : List UInt8} (ha : ListensTo args verbose single dev)
    {d : Nat} (hd : d < 1024) {input : List UInt8} {turns : List Turn} (hs : Source m.world dev d input turns) :
    ∃ env m1, ExecsTo ((program .main).body.take 3) (envOf [.int .i32 (name :: args).length, ptrVal a]) m .next env m1 ∧ env 3 = .int .i32 d ∧ Listening m1 verbose single ∧ m1.world.num = d ∧ Errs m1.world ∧
      m1.world.input = input ∧ m1.world.turns = turns ∧ m1.world.pow = m.world.pow ∧ m1.world.out = m.world.out ∧ m1.heap = m.heap ∧ m1.stack = m.stack := by
  have ho := (c55_options args verbose single dev).2 ha
  rcases hs with ⟨rfl, hn, rfl, rfl, rfl⟩ | ⟨hne, f, t, bits, hf, hn, hl, rfl, rfl⟩
  · obtain ⟨env, G, i, h1, h2, h3⟩ := main_opened h ho (k := 0) (by omega) (W := id) fun F i p _ ht => port_stdin ht
    exact ⟨env, _, h1, h3, ⟨F.pos, F.fresh, F.ovf, h2.1, h2.2.1⟩, hn, ⟨F.errs.intr, F.errs.fail⟩, rfl, rfl, rfl, rfl, rfl, rfl⟩
  · obtain ⟨env, G, i, h1, h2, h3⟩ := main_opened h ho (k := d) (by omega) (W := fun w => { w.opened f with line := some (serialSettings t, bits ||| TIOCM_RTS), input := f.wire (serialSettings t) }) fun F i p _ ht => by
      have := port_line (m := m.opt F 0) ht hne hf (by omega) hl
      rw [hn] at this
      exact this
    exact ⟨env, _, h1, h3, ⟨F.pos, F.fresh, F.ovf, h2.1, h2.2.1⟩, hn, ⟨F.errs.intr, F.errs.fail⟩, rfl, rfl, rfl, rfl, rfl, rfl⟩

/-- Standard input and the serial lines, as the model of C55 has them. -/
def stdinOf (w : World) : Fd := ⟨w.input, w.turns.map Turn.ev⟩

def linesOf (w : World) (dev : List UInt8) : Option Fd := (w.files dev (2 + 256 + 2048)).bind fun f => f.line.map fun l => ⟨f.wire (serialSettings l.1), f.turns.map Turn.ev⟩

/-- C81: `main`, run from its source, with any command line for listening and whatever is read. There are frames with messages in what is read (C38, C51) such that, if all telegrams looked at are manageable
(C50), the program does not get to an undefined step: with `-s` it ends with status 0 as soon as a list response has come; otherwise, at the end of the stream, `main` returns 0, has closed the device, all blocks that were
there at the start are as before, and no block is new unless the DZG workaround has lost one. What it has printed is what the model of C55 prints, and is what belongs to the telegrams looked at, if the readings are legible. If one of
them is not manageable, it follows a NULL pointer or reads behind the end of a block. -/
theorem c81_main (m : Mem) (a : Nat) (name : List UInt8) (args : List (List UInt8)) (h : Started m a name args) (F : Fresh m) (hpow : GoodPow m.world.pow) (verbose single : Bool) (dev : List UInt8)
    (ha : ListensTo args verbose single dev) (d : Nat) (hd : d < 1024) (input : List UInt8) (turns : List Turn) (hs : Source m.world dev d input turns) (depth : Nat) (hdepth : 2024 ≤ depth) :
    ∃ items : List (List UInt8 × List Message), transportListen (input.length + 1) ⟨input, turns.map Turn.ev⟩ = .ok (items.map Prod.fst) ∧ Spec.Within (items.map Prod.fst) input ∧
      (∀ i ∈ items, Carries depth i.1 i.2) ∧
      ((∀ i ∈ items, Calm i.1) → (∀ ms ∈ heard single (items.map Prod.snd), Manageable verbose single ms) →
    ∃ o, programMain m.world.pow depth (stdinOf m.world) (linesOf m.world) name args = .ok ⟨0, o⟩ ∧ ((∀ ms ∈ heard single (items.map Prod.snd), AllLegible (entriesOf (lookedAt single ms))) → PrintsTelegrams verbose single (heard single (items.map Prod.snd)) o) ∧
      ((single = true ∧ ∃ i ∈ items, ∃ x ∈ i.2, responseOf x ≠ none) → CallBad .main [.int .i32 (name :: args).length, ptrVal a] m (.exited 0 (m.world.out ++ o))) ∧
      (¬ (single = true ∧ ∃ i ∈ items, ∃ x ∈ i.2, responseOf x ≠ none) → ∃ m', CallTo .main [.int .i32 (name :: args).length, ptrVal a] m (.int .i32 0) m' ∧ m'.stack = m.stack ∧
        m'.world.out = m.world.out ++ o ∧ m'.world.closed.head? = some (d : Int) ∧ (∀ a c, m.heap a = some c → m'.heap a = some c) ∧ ((∀ i ∈ items, NoMark i.1) → m'.heap = m.heap))) ∧
      ((∀ i ∈ items, Calm i.1) → (¬ ∀ ms ∈ heard single (items.map Prod.snd), Manageable verbose single ms) →
        ∃ b, (b = .null ∨ b = .buf .oobRead) ∧ CallBad .main [.int .i32 (name :: args).length, ptrVal a] m b) := by
  obtain ⟨env, m1, h1, h3, H, e1, e2, e3, e4, e5, e6, e7, e8⟩ := main_source h F ha hd hs
  rw [← e5] at hpow
  obtain ⟨items, k1, k2, k3, _, k5⟩ := c80_listen m1 verbose single H hpow d hd e1 e2 depth hdepth .i32
  have k4 := fun hc hm => listen_items m1 verbose single H hpow d hd e1 e2 depth hdepth .i32 k1 k3 hc hm
  have hq : (∀ i ∈ items, Calm i.1) → ∀ i ∈ items, QuietFrame depth i.1 := fun h i hi => calm_quiet (k3 i hi).1 (by have := (k3 i hi).1; omega) (h i hi)
  rw [e3, e4] at k1
  rw [e3] at k2
  refine ⟨items, k1, k2, k3, fun hc hm => ?_, fun hc hm => ?_⟩
  · obtain ⟨o, g0, g1, g2, g3⟩ := k4 (hq hc) hm
    rw [e6] at g2
    have hmain : programMain m.world.pow depth (stdinOf m.world) (linesOf m.world) name args = .ok ⟨0, o⟩ := by
      have hfd : (if dev = [0x2D] then some (stdinOf m.world) else linesOf m.world dev) = some ⟨input, turns.map Turn.ev⟩ := by
        rcases hs with ⟨rfl, _, _, rfl, rfl⟩ | ⟨hne, f, t, bits, hf, _, hl, rfl, rfl⟩
        · rfl
        · rw [if_neg hne, linesOf, hf, Option.bind_some, hl]
          rfl
      rw [programMain, (c55_options args verbose single dev).2 ha]
      simp only [hfd]
      rw [listenWith_eq _ _ _ _ k1, ← e5, g0]
      rfl
    refine ⟨o, hmain, g1, fun q => main_left h.few (by omega) h1 h3 (g2 q), fun q => ?_⟩
    obtain ⟨m2, c, q1, q2, _, q4, _, q5⟩ := g3 q
    refine ⟨_, main_done h.few (by omega) h1 h3 c (q1.trans e8), q1.trans e8, q2.trans (by rw [e6]), rfl, fun x y hx => q4 x y (by rw [e7]; exact hx),
      fun hno => (q5 fun i hi => noMark_tidy (k3 i hi).1 (by have := (k3 i hi).1; omega) (hno i hi)).trans e7⟩
  · obtain ⟨b, hb, c⟩ := k5 hc hm
    exact ⟨b, hb, main_left h.few (by omega) h1 h3 c⟩

/-- C81: from the wire to the screen. A meter sends telegrams over a serial line that had any settings before, with disturbances that are harmless between them and in any pieces; the program, run from the source
of `main` on, prints what belongs to the messages that were sent, and ends with status 0. -/
theorem c81_meter (m : Mem) (a : Nat) (name : List UInt8) (args : List (List UInt8)) (h : Started m a name args) (F : Fresh m) (hpow : GoodPow m.world.pow) (verbose single : Bool) (dev : List UInt8)
    (ha : ListensTo args verbose single dev) (hne : dev ≠ [0x2D]) (d : Nat) (hd : d < 1024) (f : Device) (t : Termios) (bits : Flagset) (hr : on t.cflag CREAD = true) (ext : UInt8 → List UInt8)
    (depth : Nat) (hdepth : 2024 ≤ depth) (telegrams : List (List WireEvent × List Message)) (tail : List WireEvent)
    (hf : m.world.files dev (2 + 256 + 2048) = some f) (hn : f.num = (d : Nat)) (hl : f.line = some (t, bits))
    (hw : ∀ t', f.wire t' = readable ext t' ((telegrams.map fun i => i.1 ++ (sentFrame (fileBytes i.2)).map .char).flatten ++ tail)) (hnf : ∀ u ∈ f.turns, u.ev ≠ .fail)
    (ht : ¬ Occurs frameStart (tail.flatMap (arrives (on t.iflag IGNPAR))))
    (hok : ∀ i ∈ telegrams, Harmless (i.1.flatMap (arrives (on t.iflag IGNPAR))) ∧ (∀ m ∈ i.2, MessageOk true m ∧ messageDepth m ≤ depth) ∧
      NoEscape (fileBytes i.2) ∧ (sentFrame (fileBytes i.2)).length < 8096)
    (hsafe : ∀ ms ∈ heard single (telegrams.map Prod.snd), Manageable verbose single ms ∧ AllLegible (entriesOf (lookedAt single ms))) :
    ∃ o, PrintsTelegrams verbose single (heard single (telegrams.map Prod.snd)) o ∧
      ((single = true ∧ ∃ i ∈ telegrams, ∃ x ∈ i.2, responseOf x ≠ none) → CallBad .main [.int .i32 (name :: args).length, ptrVal a] m (.exited 0 (m.world.out ++ o))) ∧
      (¬ (single = true ∧ ∃ i ∈ telegrams, ∃ x ∈ i.2, responseOf x ≠ none) → ∃ m', CallTo .main [.int .i32 (name :: args).length, ptrVal a] m (.int .i32 0) m' ∧ m'.stack = m.stack ∧
        m'.world.out = m.world.out ++ o ∧ m'.world.closed.head? = some (d : Int) ∧ m'.heap = m.heap) := by
  obtain ⟨env, m1, h1, h3, H, e1, e2, e3, e4, e5, e6, e7, e8⟩ := main_source h F ha hd (input := f.wire (serialSettings t)) (turns := f.turns) (.inr ⟨hne, f, t, bits, hf, hn, hl, rfl, rfl⟩)
  rw [← e5] at hpow
  rw [hw, (c56_disturbed t ext _ hr).1] at e3
  have hchars : ∀ bs : List UInt8, (bs.map WireEvent.char).flatMap (arrives (on t.iflag IGNPAR)) = bs := by
    intro bs
    induction bs with
    | nil => rfl
    | cons b bs ih => rw [List.map_cons, List.flatMap_cons, ih]; rfl
  have hflat : ((telegrams.map fun i => i.1 ++ (sentFrame (fileBytes i.2)).map .char).flatten ++ tail).flatMap (arrives (on t.iflag IGNPAR)) =
      ((telegrams.map fun i => (i.1.flatMap (arrives (on t.iflag IGNPAR)), i.2)).map fun i => i.1 ++ sentFrame (fileBytes i.2)).flatten ++
        tail.flatMap (arrives (on t.iflag IGNPAR)) := by
    rw [List.flatMap_append]
    congr 1
    clear hw hok hsafe e3
    induction telegrams with
    | nil => rfl
    | cons i is ih => rw [List.map_cons, List.flatten_cons, List.flatMap_append, ih, List.flatMap_append, hchars]; rfl
  have hsnd : (telegrams.map fun i => (i.1.flatMap (arrives (on t.iflag IGNPAR)), i.2)).map Prod.snd = telegrams.map Prod.snd := by
    rw [List.map_map]; rfl
  have hex : ∀ P : List Message → Prop, (∃ i ∈ telegrams.map fun i => (i.1.flatMap (arrives (on t.iflag IGNPAR)), i.2), P i.2) ↔ ∃ i ∈ telegrams, P i.2 := fun P => by
    constructor
    · rintro ⟨i, hi, hp⟩
      obtain ⟨j, hj, rfl⟩ := List.mem_map.mp hi
      exact ⟨j, hj, hp⟩
    · rintro ⟨j, hj, hp⟩
      exact ⟨_, List.mem_map_of_mem hj, hp⟩
  obtain ⟨o, g1, g2, g3⟩ := c80_meter m1 verbose single H hpow d hd e1 e2 depth hdepth .i32 (telegrams.map fun i => (i.1.flatMap (arrives (on t.iflag IGNPAR)), i.2)) (tail.flatMap (arrives (on t.iflag IGNPAR)))
    (fun j hj => by
      obtain ⟨i, hi, rfl⟩ := List.mem_map.1 hj
      exact hok i hi) ht (e3.trans hflat) (by rw [e4]; exact hnf) (by rw [hsnd]; exact hsafe)
  rw [hsnd] at g1
  rw [hex fun ms => ∃ x ∈ ms, responseOf x ≠ none, e6] at g2
  rw [hex fun ms => ∃ x ∈ ms, responseOf x ≠ none] at g3
  refine ⟨o, g1, fun q => main_left h.few (by omega) h1 h3 (g2 q), fun q => ?_⟩
  obtain ⟨m2, c, q1, q2, _, q4⟩ := g3 q
  exact ⟨_, main_done h.few (by omega) h1 h3 c (q1.trans e8), q1.trans e8, q2.trans (by rw [e6]), rfl, q4.trans e7⟩

/-! ## A case -/

/-- A serial line with the settings of a terminal window, with the sample telegram behind a break and a damaged character. -/
def mainLine : Device where
  num := 3
  turns := [⟨[], .give 2⟩, ⟨[], .give 100⟩]
  line := some (windowSettings, 2)
  wire := fun t => readable (fun _ => []) t (.brk :: .damaged 7 :: sampleFrame.map .char)

/-- A program called as `sml_server`, on a machine with the sample telegram on standard input, with this line and with a file. -/
def mainMem (args : List (List UInt8)) : Mem :=
  { next := 100,
    heap := fun a => if a = 1 then some (.obj (((List.range (args.length + 1)).map (· + 2)).map ptrVal ++ [nullPtr]) []) else (("sml_server".toUTF8.toList :: args)[a - 2]?).map fun t => .raw ((t ++ [0]).map some),
    world := { input := sampleFrame, pow := pow10, flags := fun i => if i = 2 then 1 else 0, files := fun dev _ => if dev = "/dev/ttyUSB0".toUTF8.toList then some mainLine else if dev = "log".toUTF8.toList then some { num := 3, input := sampleFrame } else none } }

theorem mainMem_started {args : List (List UInt8)} (hl : args.length < 90) (h0 : ∀ t ∈ args, (0 : UInt8) ∉ t) : Started (mainMem args) 1 "sml_server".toUTF8.toList args := by
  refine ⟨⟨by decide, (List.range (args.length + 1)).map (· + 2), rfl, by simp, fun i p t hp ht => ?_⟩, by rw [List.length_cons]; omega, rfl, rfl, rfl, rfl⟩
  rw [List.getElem?_map, Option.map_eq_some_iff] at hp
  obtain ⟨j, hj, rfl⟩ := hp
  have hj' : i = j := by
    rw [List.getElem?_eq_some_iff] at hj
    obtain ⟨_, e⟩ := hj
    simpa using e
  subst hj'
  refine ⟨by omega, ?_, [], ?_⟩
  · have := List.mem_of_getElem? ht
    rcases List.mem_cons.mp this with rfl | h
    · decide +kernel
    · exact h0 t h
  · simp only [mainMem]
    rw [if_neg (by omega), show i + 2 - 2 = i by omega, ht, Option.map_some, List.map_append]
    rfl

theorem mainMem_fresh {args : List (List UInt8)} (hl : args.length < 90) : Fresh (mainMem args) := by
  refine ⟨(by decide : 0 < 100), fun a ha => ?_, rfl, .inl rfl, (by decide : ITy.conv .i32 5 = 5 ∧ (5 : Int) ≠ 4 ∧ (5 : Int) ≠ 11)⟩
  have ha : 100 ≤ a := ha
  simp only [mainMem]
  rw [if_neg (by omega), List.getElem?_eq_none (by rw [List.length_cons]; omega)]
  rfl

/-- `sml_server -s /dev/ttyUSB0`: the readings are printed and the program ends with status 0. -/
example : CallBad .main [.int .i32 (3 : Nat), ptrVal 1] (mainMem ["-s".toUTF8.toList, "/dev/ttyUSB0".toUTF8.toList])
    (.exited 0 "1-0:1.8.0*255#466.0#Wh\n1-0:16.7.0*255#-200#W\n1-0:96.1.0*255#0a 01 02 03 04 #\n".toUTF8.toList) := by
  have hst := mainMem_started (args := ["-s".toUTF8.toList, "/dev/ttyUSB0".toUTF8.toList]) (by decide) (by decide +kernel)
  obtain ⟨items, h1, _, h3, h4, _⟩ := c81_main _ 1 _ _ hst (mainMem_fresh (by decide)) pow10_good false true "/dev/ttyUSB0".toUTF8.toList ((c55_options _ _ _ _).1 (by decide +kernel)) 3 (by decide)
    (mainLine.wire (serialSettings windowSettings)) mainLine.turns (.inr ⟨by decide +kernel, mainLine, windowSettings, 2, if_pos rfl, rfl, rfl, rfl, rfl⟩) 2024 (by decide)
  have hl : transportListen ((mainLine.wire (serialSettings windowSettings)).length + 1) ⟨mainLine.wire (serialSettings windowSettings), mainLine.turns.map Turn.ev⟩ = .ok [sampleFrame] := by decide +kernel
  rw [hl] at h1
  obtain ⟨⟨fr, ms⟩, rfl, hfr⟩ : ∃ i, items = [i] ∧ i.1 = sampleFrame := by
    injection h1 with h1
    obtain ⟨i, is, rfl, h5, h6⟩ := List.map_eq_cons_iff.1 h1.symm
    rw [List.map_eq_nil_iff] at h6
    exact ⟨i, by rw [h6], h5⟩
  simp only at hfr
  subst hfr
  have hcalm : Calm sampleFrame := calm_of (by decide +kernel)
  have hc := h3 _ (List.mem_singleton.2 rfl)
  have hcall : receiverCall pow10 2024 ⟨true, false⟩ sampleFrame = .ok ("1-0:1.8.0*255#466.0#Wh\n1-0:16.7.0*255#-200#W\n1-0:96.1.0*255#0a 01 02 03 04 #\n".toUTF8.toList, true) := by decide +kernel
  obtain ⟨c1, c2⟩ := receiverCall_run pow10 pow10_good 2024 ⟨true, false⟩ hc (by show sampleFrame.length < _; decide +kernel)
  have hman : Manageable false true ms := by
    refine Classical.byContradiction fun hn => ?_
    obtain ⟨u, hu⟩ := c2 hn
    rw [hcall] at hu
    cases hu
  obtain ⟨o', ex, q1, q2, _⟩ := c1 hman
  rw [hcall] at q1
  cases q1
  obtain ⟨o, g1, _, g2, _⟩ := h4 (fun i hi => by rw [List.mem_singleton.1 hi]; exact hcalm) (fun ms' hms => by
    have : ms' = ms := by simpa [heard] using hms
    rw [this]
    exact hman)
  have hm : programMain pow10 2024 (stdinOf (mainMem ["-s".toUTF8.toList, "/dev/ttyUSB0".toUTF8.toList]).world) (linesOf (mainMem ["-s".toUTF8.toList, "/dev/ttyUSB0".toUTF8.toList]).world) "sml_server".toUTF8.toList
      ["-s".toUTF8.toList, "/dev/ttyUSB0".toUTF8.toList] = .ok ⟨0, "1-0:1.8.0*255#466.0#Wh\n1-0:16.7.0*255#-200#W\n1-0:96.1.0*255#0a 01 02 03 04 #\n".toUTF8.toList⟩ := by decide +kernel
  have ho := hm.symm.trans g1
  injection ho with ho
  injection ho with _ ho
  rw [ho]
  exact g2 ⟨rfl, _, List.mem_singleton.2 rfl, (q2.1 rfl).2⟩

/-- The other command lines: help, a letter that is not known, two operands, a device that is not there, and a file, which gets the program to an undefined step. -/
example : CallBad .main [.int .i32 (2 : Nat), ptrVal 1] (mainMem ["--h".toUTF8.toList]) (.exited 1 "Use sml_server -h for help.\n".toUTF8.toList) ∧
    CallBad .main [.int .i32 (3 : Nat), ptrVal 1] (mainMem ["a".toUTF8.toList, "-h".toUTF8.toList]) (.exited 1 "error: Arguments mismatch.\nUse sml_server -h for help.\n".toUTF8.toList) ∧
    CallBad .main [.int .i32 (2 : Nat), ptrVal 1] (mainMem ["/dev/ttyS9".toUTF8.toList]) (.exited 1 []) ∧ CallBad .main [.int .i32 (2 : Nat), ptrVal 1] (mainMem ["log".toUTF8.toList]) (.buf .uninit) := by
  refine ⟨?_, ?_, ?_, ?_⟩
  · have := (c81_usage _ 1 _ _ (mainMem_started (args := ["--h".toUTF8.toList]) (by decide) (by decide +kernel))).2.1 ((c81_options _).2.1.1 (by decide +kernel))
    exact cast (congrArg (fun t => CallBad .main _ _ (.exited 1 t)) (by decide +kernel)) this
  · have := (c81_usage _ 1 _ _ (mainMem_started (args := ["a".toUTF8.toList, "-h".toUTF8.toList]) (by decide) (by decide +kernel))).2.2.1 false false ["a".toUTF8.toList, "-h".toUTF8.toList] (((c81_options _).2.2.1 _ _ _).1 (by decide +kernel)) (by decide)
    exact cast (congrArg (fun t => CallBad .main _ _ (.exited 1 t)) (by decide +kernel)) this
  · exact (c81_usage _ 1 _ _ (mainMem_started (args := ["/dev/ttyS9".toUTF8.toList]) (by decide) (by decide +kernel))).2.2.2.1 false false "/dev/ttyS9".toUTF8.toList (((c81_options _).2.2.1 _ _ _).1 (by decide +kernel)) (by decide +kernel) (by decide +kernel)
  · exact (c81_usage _ 1 _ _ (mainMem_started (args := ["log".toUTF8.toList]) (by decide) (by decide +kernel))).2.2.2.2 false false "log".toUTF8.toList { num := 3, input := sampleFrame } (((c81_options _).2.2.1 _ _ _).1 (by decide +kernel)) (by decide +kernel) ((if_neg (by decide +kernel)).trans (if_pos rfl)) (by decide) rfl

/-- The sample message can be sent over the line: the conditions of `c81_meter` that are not those of C55 -/
example : on windowSettings.cflag CREAD = true ∧ Harmless (([WireEvent.brk, .damaged 7]).flatMap (arrives (on windowSettings.iflag IGNPAR))) := by
  exact ⟨by decide +kernel, not_occurs_short (by decide), by decide⟩

end Sml.C
