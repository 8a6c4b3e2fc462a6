import Verif.Props.SourceMain
import Verif.Props.SourceSmooth

/-!
# C80, C81: the receiver and the program, run from their source, on the telegrams of any conforming sender

C61 says of the model that the readings of any conforming meter reach the screen. Here the same is said of the source, together with what only
the source shows: no signed computation overflows (C89), whatever the strings hold, and every block that was allocated on the way is freed.
-/

namespace Sml.C

open Spec Samples

set_option linter.unusedVariables false

/-- What a conforming sender has put into a frame is received without an overflow, and freed as a whole. -/
theorem standard_quiet {depth : Nat} {fr : List UInt8} (hlen : fr.length < 8096) (hdepth : 2024 ≤ depth) {ms : List Message} (h : ∃ body x y z, fr = frame body x y z ∧ Standard.Telegram ms body) :
    QuietFrame depth fr ∧ TidyFrame depth fr := by
  obtain ⟨body, x, y, z, rfl, hs⟩ := h
  have hl := frame_length body x y z
  have hd : body.length < 4 * depth := by omega
  have hlen' : body.length ≤ 2147483647 := by omega
  have hw := standard_whole (d := depth) hs ⟨by omega, hd⟩
  refine ⟨fun body' x' y' z' f s hfr e => ?_, fun body' x' y' z' f s hfr e => ?_⟩
  all_goals obtain rfl := frame_inj hfr
  · exact fileParse_smooth hlen' hd (standard_tokens hs hlen') e (fileParse_clean hlen' hd hw e)
  · have hms : f.messages = ms := by
      obtain ⟨s', e'⟩ := c61_understood _ _ depth hs (by omega) hd
      rw [e] at e'
      cases e'
      rfl
    have := (fileParse_cost hlen' hd e).2 [] (by rw [hms]; exact hw)
    rw [this, hms, standard_stranded hs]
    rfl

/-- C80: `sml_transport_listen` with the receiver of the program, both from the source, on the telegrams of any conforming sender, with harmless bytes before
each of them, arriving in any portions. What is printed is what belongs to the messages that were sent; no signed computation overflows; afterwards the heap is as before. -/
theorem c80_standard (m : Mem) (verbose single : Bool) (H : Listening m verbose single) (hpow : GoodPow m.world.pow) (d : Nat) (hd : d < 1024) (hn : m.world.num = d) (hE : Errs m.world) (t : ITy)
    (telegrams : List (List UInt8 × List UInt8 × List Message)) (tail : List UInt8) (htail : ¬ Occurs frameStart tail)
    (hin : m.world.input = (telegrams.map fun i => i.1 ++ i.2.1).flatten ++ tail) (hnf : ∀ u ∈ m.world.turns, u.ev ≠ .fail)
    (hok : ∀ i ∈ telegrams, Harmless i.1 ∧ i.2.1.length < 8096 ∧
      (∃ body x y z, i.2.1 = frame body x y z ∧ Plain body ∧ Standard.Telegram i.2.2 body) ∧ ∀ e ∈ entriesOf i.2.2, Readable e) :
    ∃ o, PrintsTelegrams verbose single (heard single (telegrams.map (·.2.2))) o ∧
      ((single = true ∧ ∃ i ∈ telegrams, ∃ x ∈ i.2.2, responseOf x ≠ none) → CallBad .sml_transport_listen [.int t d, .fn .transport_receiver] m (.exited 0 (m.world.out ++ o))) ∧
      (¬ (single = true ∧ ∃ i ∈ telegrams, ∃ x ∈ i.2.2, responseOf x ≠ none) → ∃ m', CallTo .sml_transport_listen [.int t d, .fn .transport_receiver] m .undef m' ∧ m'.stack = m.stack ∧
        m'.world.out = m.world.out ++ o ∧ m'.sovf = false ∧ m'.heap = m.heap) := by
  have hcar : ∀ i ∈ telegrams, Carries 2024 i.2.1 i.2.2 := by
    intro i hi
    obtain ⟨_, h1, ⟨body, x, y, z, h2, h3, h4⟩, _⟩ := hok i hi
    have hb : i.2.1.length = 16 + body.length := by rw [h2]; exact frame_length body x y z
    exact ⟨h1, body, x, y, z, h2, h3, Std.und_telegram h4 ⟨by omega, by omega⟩⟩
  have hquiet : ∀ i ∈ telegrams, QuietFrame 2024 i.2.1 ∧ TidyFrame 2024 i.2.1 := fun i hi => by
    obtain ⟨_, h1, ⟨body, x, y, z, h2, _, h4⟩, _⟩ := hok i hi
    exact standard_quiet h1 (by omega) ⟨body, x, y, z, h2, h4⟩
  have hl := c38_frames (telegrams.map fun i => (i.1, i.2.1)) tail ⟨m.world.input, m.world.turns.map Turn.ev⟩ (telegrams.length + 1) (by simp) (fun v hv => by
    obtain ⟨u, hu, rfl⟩ := List.mem_map.mp hv
    exact hnf u hu) (fun j hj => by
      obtain ⟨i, hi, rfl⟩ := List.mem_map.mp hj
      obtain ⟨h1, body, x, y, z, h2, h3, _⟩ := hcar i hi
      exact ⟨(hok i hi).1, ⟨body, x, y, z, h2, h3⟩, h1⟩) htail (by rw [hin, List.map_map]; rfl)
  have e1 : (telegrams.map fun i => (i.1, i.2.1)).map Prod.snd = (telegrams.map (·.2)).map Prod.fst := by
    rw [List.map_map, List.map_map]; rfl
  have e2 : (telegrams.map (·.2)).map Prod.snd = telegrams.map (·.2.2) := by
    rw [List.map_map]; rfl
  rw [e1] at hl
  have hsafe : ∀ ms ∈ heard single (telegrams.map (·.2.2)), (∀ m ∈ ms, m.messageBody ≠ none) ∧ ∀ e ∈ entriesOf ms, Readable e := by
    intro ms hms
    obtain ⟨i, hi, rfl⟩ := List.mem_map.1 (mem_heard hms)
    obtain ⟨_, _, ⟨body, x, y, z, _, _, h4⟩, h5⟩ := hok i hi
    exact ⟨standard_body h4, h5⟩
  obtain ⟨o, _, g1, g2, g3⟩ := listen_items m verbose single H hpow d hd hn hE 2024 (Nat.le_refl _) t hl
    (fun j hj => by
      obtain ⟨i, hi, rfl⟩ := List.mem_map.mp hj
      exact hcar i hi)
    (fun j hj => by
      obtain ⟨i, hi, rfl⟩ := List.mem_map.mp hj
      exact (hquiet i hi).1)
    (fun ms hms => by
      rw [e2] at hms
      obtain ⟨h1, h2⟩ := hsafe ms hms
      refine ⟨fun m hm => ⟨h1 m (mem_lookedAt hm), fun r hr e he v hv => .inr ?_⟩, fun _ => h1⟩
      obtain ⟨⟨s, hs, hs6⟩, h3, _⟩ := h2 e (mem_entriesOf (mem_lookedAt hm) hr he)
      refine ⟨⟨_, s, hs, hs6, rfl⟩, fun hx => h3 ?_⟩
      rw [hv, hx])
  have hresp : (∃ i ∈ telegrams.map (·.2), ∃ x ∈ i.2, responseOf x ≠ none) ↔ ∃ i ∈ telegrams, ∃ x ∈ i.2.2, responseOf x ≠ none := by
    constructor
    · rintro ⟨j, hj, h⟩
      obtain ⟨i, hi, rfl⟩ := List.mem_map.mp hj
      exact ⟨i, hi, h⟩
    · rintro ⟨i, hi, h⟩
      exact ⟨_, List.mem_map_of_mem hi, h⟩
  rw [hresp] at g2 g3
  rw [e2] at g1
  refine ⟨o, g1 fun ms hms e he => ((hsafe ms hms).2 e (entriesOf_lookedAt he)).2.2, g2, fun q => ?_⟩
  obtain ⟨m', c, k1, k2, k3, _, _, k5⟩ := g3 q
  refine ⟨m', c, k1, k2, k3, k5 fun j hj => ?_⟩
  obtain ⟨i, hi, rfl⟩ := List.mem_map.mp hj
  exact (hquiet i hi).2

/-- C81: `main`, from its source, with any command line for listening, on the telegrams of any conforming sender: it prints what belongs to the messages that were sent, and ends with status 0; if it
returns, it has closed the device and freed every block. -/
theorem c81_standard (m : Mem) (a : Nat) (name : List UInt8) (args : List (List UInt8)) (h : Started m a name args) (F : Fresh m) (hpow : GoodPow m.world.pow) (verbose single : Bool) (dev : List UInt8)
    (ha : ListensTo args verbose single dev) (d : Nat) (hd : d < 1024) (input : List UInt8) (turns : List Turn) (hs : Source m.world dev d input turns)
    (telegrams : List (List UInt8 × List UInt8 × List Message)) (tail : List UInt8) (htail : ¬ Occurs frameStart tail)
    (hin : input = (telegrams.map fun i => i.1 ++ i.2.1).flatten ++ tail) (hnf : ∀ u ∈ turns, u.ev ≠ .fail)
    (hok : ∀ i ∈ telegrams, Harmless i.1 ∧ i.2.1.length < 8096 ∧
      (∃ body x y z, i.2.1 = frame body x y z ∧ Plain body ∧ Standard.Telegram i.2.2 body) ∧ ∀ e ∈ entriesOf i.2.2, Readable e) :
    ∃ o, PrintsTelegrams verbose single (heard single (telegrams.map (·.2.2))) o ∧
      ((single = true ∧ ∃ i ∈ telegrams, ∃ x ∈ i.2.2, responseOf x ≠ none) → CallBad .main [.int .i32 (name :: args).length, ptrVal a] m (.exited 0 (m.world.out ++ o))) ∧
      (¬ (single = true ∧ ∃ i ∈ telegrams, ∃ x ∈ i.2.2, responseOf x ≠ none) → ∃ m', CallTo .main [.int .i32 (name :: args).length, ptrVal a] m (.int .i32 0) m' ∧ m'.stack = m.stack ∧
        m'.world.out = m.world.out ++ o ∧ m'.world.closed.head? = some (d : Int) ∧ m'.sovf = false ∧ m'.heap = m.heap) := by
  obtain ⟨env, m1, h1, h3, H, e1, e2, e3, e4, e5, e6, e7, e8⟩ := main_source h F ha hd hs
  rw [← e5] at hpow
  obtain ⟨o, g1, g2, g3⟩ := c80_standard m1 verbose single H hpow d hd e1 e2 .i32 telegrams tail htail (e3.trans hin) (by rw [e4]; exact hnf) hok
  rw [e6] at g2
  refine ⟨o, g1, fun q => main_left h.few (by omega) h1 h3 (g2 q), fun q => ?_⟩
  obtain ⟨m2, c, q1, q2, q3, q4⟩ := g3 q
  exact ⟨_, main_done h.few (by omega) h1 h3 c (q1.trans e8), q1.trans e8, q2.trans (by rw [e6]), rfl, q3, q4.trans e7⟩

/-- C81: the same over a serial line that had any settings before, with disturbances that are harmless between the telegrams. -/
theorem c81_standard_line (m : Mem) (a : Nat) (name : List UInt8) (args : List (List UInt8)) (h : Started m a name args) (F : Fresh m) (hpow : GoodPow m.world.pow) (verbose single : Bool) (dev : List UInt8)
    (ha : ListensTo args verbose single dev) (hne : dev ≠ [0x2D]) (d : Nat) (hd : d < 1024) (f : Device) (t : Termios) (bits : Flagset) (hr : on t.cflag CREAD = true) (ext : UInt8 → List UInt8)
    (telegrams : List (List WireEvent × List UInt8 × List Message)) (tail : List WireEvent)
    (hf : m.world.files dev (2 + 256 + 2048) = some f) (hn : f.num = (d : Nat)) (hl : f.line = some (t, bits))
    (hw : ∀ t', f.wire t' = readable ext t' ((telegrams.map fun i => i.1 ++ i.2.1.map .char).flatten ++ tail)) (hnf : ∀ u ∈ f.turns, u.ev ≠ .fail)
    (ht : ¬ Occurs frameStart (tail.flatMap (arrives (on t.iflag IGNPAR))))
    (hok : ∀ i ∈ telegrams, Harmless (i.1.flatMap (arrives (on t.iflag IGNPAR))) ∧ i.2.1.length < 8096 ∧
      (∃ body x y z, i.2.1 = frame body x y z ∧ Plain body ∧ Standard.Telegram i.2.2 body) ∧ ∀ e ∈ entriesOf i.2.2, Readable e) :
    ∃ o, PrintsTelegrams verbose single (heard single (telegrams.map (·.2.2))) o ∧
      ((single = true ∧ ∃ i ∈ telegrams, ∃ x ∈ i.2.2, responseOf x ≠ none) → CallBad .main [.int .i32 (name :: args).length, ptrVal a] m (.exited 0 (m.world.out ++ o))) ∧
      (¬ (single = true ∧ ∃ i ∈ telegrams, ∃ x ∈ i.2.2, responseOf x ≠ none) → ∃ m', CallTo .main [.int .i32 (name :: args).length, ptrVal a] m (.int .i32 0) m' ∧ m'.stack = m.stack ∧
        m'.world.out = m.world.out ++ o ∧ m'.world.closed.head? = some (d : Int) ∧ m'.sovf = false ∧ m'.heap = m.heap) := by
  have hchars : ∀ bs : List UInt8, (bs.map WireEvent.char).flatMap (arrives (on t.iflag IGNPAR)) = bs := by
    intro bs
    induction bs with
    | nil => rfl
    | cons b bs ih => rw [List.map_cons, List.flatMap_cons, ih]; rfl
  have hflat : ((telegrams.map fun i => i.1 ++ i.2.1.map WireEvent.char).flatten ++ tail).flatMap (arrives (on t.iflag IGNPAR)) =
      ((telegrams.map fun i => (i.1.flatMap (arrives (on t.iflag IGNPAR)), i.2)).map fun (i : List UInt8 × List UInt8 × List Message) => i.1 ++ i.2.1).flatten ++ tail.flatMap (arrives (on t.iflag IGNPAR)) := by
    rw [List.flatMap_append]
    congr 1
    clear hw hok
    induction telegrams with
    | nil => rfl
    | cons i is ih => rw [List.map_cons, List.flatten_cons, List.flatMap_append, ih, List.flatMap_append, hchars]; rfl
  have hsnd : (telegrams.map fun i => (i.1.flatMap (arrives (on t.iflag IGNPAR)), i.2)).map (·.2.2) = telegrams.map (·.2.2) := by
    rw [List.map_map]; rfl
  have hex : ∀ P : List Message → Prop, (∃ i ∈ telegrams.map fun i => (i.1.flatMap (arrives (on t.iflag IGNPAR)), i.2), P i.2.2) ↔ ∃ i ∈ telegrams, P i.2.2 := fun P => by
    constructor
    · rintro ⟨i, hi, hp⟩
      obtain ⟨j, hj, rfl⟩ := List.mem_map.mp hi
      exact ⟨j, hj, hp⟩
    · rintro ⟨j, hj, hp⟩
      exact ⟨_, List.mem_map_of_mem hj, hp⟩
  obtain ⟨o, g1, g2, g3⟩ := c81_standard m a name args h F hpow verbose single dev ha d hd (f.wire (serialSettings t)) f.turns (.inr ⟨hne, f, t, bits, hf, hn, hl, rfl, rfl⟩)
    (telegrams.map fun i => (i.1.flatMap (arrives (on t.iflag IGNPAR)), i.2)) (tail.flatMap (arrives (on t.iflag IGNPAR))) ht (by rw [hw, (c56_disturbed t ext _ hr).1]; exact hflat) hnf
    (fun j hj => by
      obtain ⟨i, hi, rfl⟩ := List.mem_map.1 hj
      exact hok i hi)
  rw [hsnd] at g1
  rw [hex fun ms => ∃ x ∈ ms, responseOf x ≠ none] at g2 g3
  exact ⟨o, g1, g2, g3⟩

/-! ## A case -/

/-- The telegram of C61 with long headers and shortened numbers, in a frame, and one whose transaction id would not be calm (C89), from standard input. -/
def stdInput : List (List UInt8 × List UInt8 × List Message) :=
  [([0x42], frame (stdMsg ++ List.replicate 3 0x00) 3 0 0, [stdMessage]), ([], frame highMsg 0 0 0, [highMessage])]

/-- `sml_server -`: the program prints two readings and returns 0, and the heap is as before. -/
example : ∃ o m', PrintsTelegrams false false [[stdMessage], [highMessage]] o ∧
    CallTo .main [.int .i32 (2 : Nat), ptrVal 1] { mainMem [[0x2D]] with world := { (mainMem [[0x2D]]).world with input := (stdInput.map fun i => i.1 ++ i.2.1).flatten } } (.int .i32 0) m' ∧
      m'.world.out = o ∧ m'.sovf = false ∧ m'.heap = (mainMem [[0x2D]]).heap := by
  have hst := mainMem_started (args := [[0x2D]]) (by decide) (by decide +kernel)
  have hfr := mainMem_fresh (args := [[0x2D]]) (by decide)
  obtain ⟨k1, k2, k3, k4⟩ := stdFrame_ok
  have hhigh : Standard.Telegram [highMessage] (highMsg ++ List.replicate 0 0x00) := .message highMessage_sent (.fill 0)
  rw [List.replicate_zero, List.append_nil] at hhigh
  obtain ⟨o, g1, _, g2⟩ := c81_standard { mainMem [[0x2D]] with world := { (mainMem [[0x2D]]).world with input := (stdInput.map fun i => i.1 ++ i.2.1).flatten } } 1 "sml_server".toUTF8.toList [[0x2D]]
    ⟨hst.1, hst.2, hst.3, hst.4, hst.5, hst.6⟩ ⟨hfr.1, hfr.2, hfr.3, ⟨hfr.4.1, hfr.4.2⟩⟩ pow10_good false false [0x2D] ((c55_options _ _ _ _).1 (by decide +kernel)) 0 (by decide) _ _
    (.inl ⟨rfl, rfl, rfl, rfl, rfl⟩) stdInput [] (not_occurs_short (by decide)) (by rw [List.append_nil]) (by simp [mainMem])
    (by
      intro i hi
      simp only [stdInput, List.mem_cons, List.not_mem_nil, or_false] at hi
      rcases hi with rfl | rfl
      · exact ⟨⟨not_occurs_short (by decide), by decide⟩, k1, ⟨_, _, _, _, rfl, k2, stdTelegram⟩, k4⟩
      · refine ⟨k3, by decide, ⟨_, _, _, _, rfl, ⟨by decide, ?_⟩, hhigh⟩, by simp [entriesOf, responseOf, highMessage]⟩
        intro i hi
        have : i < 6 := by
          have : highMsg.length = 24 := rfl
          omega
        exact (by decide +kernel : ∀ i < 6, (highMsg.drop (4 * i)).take 4 ≠ escape) i this)
  obtain ⟨m', c, _, c2, _, c3, c4⟩ := g2 (by simp)
  exact ⟨o, m', g1, c, c2, c3, c4⟩

/-- The first of them over a serial line, behind a break and a damaged character, with `-v`. -/
example : ∃ o m', PrintsTelegrams true false [[stdMessage]] o ∧
    CallTo .main [.int .i32 (3 : Nat), ptrVal 1] { mainMem ["-v".toUTF8.toList, [0x61]] with world := { (mainMem ["-v".toUTF8.toList, [0x61]]).world with
      files := fun _ _ => some { mainLine with wire := fun t => readable (fun _ => []) t ([.brk, .damaged 7] ++ (frame (stdMsg ++ List.replicate 3 0x00) 3 0 0).map .char) } } } (.int .i32 0) m' ∧
      m'.world.out = o ∧ m'.world.closed.head? = some 3 ∧ m'.heap = (mainMem ["-v".toUTF8.toList, [0x61]]).heap := by
  have hst := mainMem_started (args := ["-v".toUTF8.toList, [0x61]]) (by decide) (by decide +kernel)
  have hfr := mainMem_fresh (args := ["-v".toUTF8.toList, [0x61]]) (by decide)
  obtain ⟨k1, k2, k3, k4⟩ := stdFrame_ok
  obtain ⟨o, g1, _, g2⟩ := c81_standard_line { mainMem ["-v".toUTF8.toList, [0x61]] with world := { (mainMem ["-v".toUTF8.toList, [0x61]]).world with
      files := fun _ _ => some { mainLine with wire := fun t => readable (fun _ => []) t ([.brk, .damaged 7] ++ (frame (stdMsg ++ List.replicate 3 0x00) 3 0 0).map .char) } } } 1 "sml_server".toUTF8.toList ["-v".toUTF8.toList, [0x61]]
    ⟨hst.1, hst.2, hst.3, hst.4, hst.5, hst.6⟩ ⟨hfr.1, hfr.2, hfr.3, ⟨hfr.4.1, hfr.4.2⟩⟩ pow10_good true false [0x61] ((c55_options _ _ _ _).1 (by decide +kernel)) (by decide) 3 (by decide)
    { mainLine with wire := fun t => readable (fun _ => []) t ([.brk, .damaged 7] ++ (frame (stdMsg ++ List.replicate 3 0x00) 3 0 0).map .char) } windowSettings 2 (by decide +kernel) (fun _ => [])
    [([.brk, .damaged 7], frame (stdMsg ++ List.replicate 3 0x00) 3 0 0, [stdMessage])] [] rfl rfl rfl (fun t' => by simp) (by simp [mainLine]) (not_occurs_short (by decide))
    (by
      intro i hi
      rw [List.mem_singleton] at hi
      subst hi
      exact ⟨⟨not_occurs_short (by decide), by decide⟩, k1, ⟨_, _, _, _, rfl, k2, stdTelegram⟩, k4⟩)
  obtain ⟨m', c, _, c2, c3, _, c4⟩ := g2 (by simp)
  exact ⟨o, m', g1, c, c2, c3, c4⟩

end Sml.C
