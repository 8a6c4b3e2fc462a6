import Verif.Props.SourceDisturbed
import Verif.Props.SourceExample

/-!
# C94: the example program on a line that flips bits

Frames arrive whose messages, whose number of padding bytes and whose checksum were changed on the line. The checksum of a frame is not looked at by `sml_transport_read`, so
only the checksums of the messages protect the readings.
-/

namespace Sml.C

open Spec

/-- The bytes of messages with the checksums that come with them. -/
def arrivedBytes (l : List (Nat × Message)) : List UInt8 := (l.map fun p => messageBytes p.1 p.2).flatten

/-- The messages among them that are delivered. -/
def kept (l : List (Nat × Message)) : List Message := l.flatMap fun p => outcome p.1 p.2

theorem run_filling {depth : Nat} (k : Nat) : ∀ {st s : St} {ms : List Message}, Run (messageParse depth) st ms s → st.data.drop st.cursor = List.replicate k 0 → st.error = false →
    ms = [] ∧ s.error = false ∧ s.sovf = st.sovf ∧ s.confused = st.confused := by
  induction k with
  | zero =>
    intro st s ms h hd he
    have hl : st.data.length ≤ st.cursor := List.drop_eq_nil_iff.1 hd
    have hn : st.data[st.cursor]? = none := List.getElem?_eq_none hl
    cases h with
    | done _ => exact ⟨rfl, he, rfl, rfl⟩
    | zero h _ => rw [hn] at h; cases h
    | stop h _ _ _ => rw [hn] at h; cases h
    | accept _ h _ _ _ _ => rw [hn] at h; cases h
    | drop h _ _ _ _ => rw [hn] at h; cases h
  | succ k ih =>
    intro st s ms h hd he
    obtain ⟨h1, h2, h3⟩ := drop_cons_get (show st.data.drop st.cursor = 0 :: List.replicate k 0 from hd)
    have hn : st.data[st.cursor]? = some 0 := by rw [List.getElem?_eq_getElem h1, h2]
    cases h with
    | done h => omega
    | zero _ h =>
      obtain ⟨g1, g2, g3, g4⟩ := ih h h3 he
      exact ⟨g1, g2, g3, g4⟩
    | stop h hb _ _ => rw [hn] at h; cases h; exact absurd rfl hb
    | accept _ h hb _ _ _ => rw [hn] at h; cases h; exact absurd rfl hb
    | drop h hb _ _ _ => rw [hn] at h; cases h; exact absurd rfl hb

theorem run_arrived {depth : Nat} (h0 : 0 < depth) (k : Nat) : ∀ (l : List (Nat × Message)) {st s : St} {ms : List Message}, Run (messageParse depth) st ms s →
    st.data.drop st.cursor = arrivedBytes l ++ List.replicate k 0 → st.error = false → st.data.length ≤ 2147483647 →
    (∀ p ∈ l, MessageOk true p.2 ∧ messageDepth p.2 ≤ depth ∧ p.1 < 65536) → ms = kept l ∧ s.error = false ∧ s.sovf = st.sovf ∧ s.confused = st.confused
  | [], st, s, ms, h, hd, he, _, _ => run_filling k h hd he
  | (c, x) :: l, st, s, ms, h, hd, he, hl, hok => by
    obtain ⟨hx, hdx, hc⟩ := hok (c, x) (by simp)
    have hok' : ∀ p ∈ l, MessageOk true p.2 ∧ messageDepth p.2 ≤ depth ∧ p.1 < 65536 := fun p hp => hok p (by simp [hp])
    have hd' : st.data.drop st.cursor = messageBytes c x ++ (arrivedBytes l ++ List.replicate k 0) := by
      rw [hd]; simp [arrivedBytes]
    obtain ⟨bs, hbs⟩ := messageBytes_first c x
    obtain ⟨h1, h2, _⟩ := drop_cons_get (by rw [hd', hbs]; rfl)
    have hn : st.data[st.cursor]? = some 0x76 := by rw [List.getElem?_eq_getElem h1, h2]
    have hk : kept ((c, x) :: l) = outcome c x ++ kept l := rfl
    by_cases hcrc : c = (crc16 (messageHead x)).toNat ∨ c = (crc16kermit (messageHead x)).toNat
    · have e := run_messageParse (depth := depth) x hx h0 hdx c hcrc st _ hd' he hl
      have ho : outcome c x = [{ x with crc := some { size := 2, val := c } }] := by
        unfold outcome
        rw [← crc16_eq, ← crc16kermit_eq, if_pos hcrc]
      rw [hk, ho]
      cases h with
      | done h => omega
      | zero h _ => rw [hn] at h; cases h
      | stop _ _ e' he' => rw [e] at e'; cases e'; rw [he] at he'; cases he'
      | accept n _ _ e' _ h =>
        rw [e] at e'
        cases e'
        obtain ⟨g1, g2, g3, g4⟩ := run_arrived h0 k l h (drop_add hd') he hl hok'
        exact ⟨by rw [g1]; rfl, g2, g3, g4⟩
      | drop _ _ e' _ _ => rw [e] at e'; cases e'
    · have ho : outcome c x = [] := by
        unfold outcome
        rw [← crc16_eq, ← crc16kermit_eq, if_neg hcrc]
      have key := fun r s => run_messageParse_wrong (depth := depth) x hx h0 hdx c hc ⟨fun k => hcrc (.inl k), fun k => hcrc (.inr k)⟩ st _ hd' he hl r s
      rw [hk, ho]
      cases h with
      | done h => omega
      | zero h _ => rw [hn] at h; cases h
      | stop _ _ e' he' => obtain ⟨_, g, _⟩ := key _ _ e'; rw [g] at he'; cases he'
      | accept n _ _ e' _ h => obtain ⟨g, _⟩ := key _ _ e'; cases g
      | @drop _ s1 _ _ _ _ _ e' he1 h =>
        obtain ⟨_, _, hr, hdata, g3, g4⟩ := key _ _ e'
        unfold St.rest at hr
        obtain ⟨k1, k2, k3⟩ := drop_cons_get hr
        have hn1 : s1.data[s1.cursor]? = some 0 := by rw [List.getElem?_eq_getElem k1, k2]
        cases h with
        | done h => omega
        | zero _ h =>
          obtain ⟨f1, f2, f3, f4⟩ := run_arrived h0 k l h k3 he1 (by rw [hdata]; exact hl) hok'
          exact ⟨f1, f2, f3.trans g3, f4.trans g4⟩
        | stop h hb _ _ => rw [hn1] at h; cases h; exact absurd rfl hb
        | accept _ h hb _ _ _ => rw [hn1] at h; cases h; exact absurd rfl hb
        | drop h hb _ _ _ => rw [hn1] at h; cases h; exact absurd rfl hb

/-- These bytes are messages in the standard form with these checksums, and the messages delivered are those whose checksum is right. -/
def Arrived (depth : Nat) (bs : List UInt8) (ms : List Message) : Prop :=
  ∃ l : List (Nat × Message), bs = arrivedBytes l ∧ ms = kept l ∧ ∀ p ∈ l, MessageOk true p.2 ∧ messageDepth p.2 ≤ depth ∧ p.1 < 65536

/-- A frame on the line, with the bytes before it. -/
structure Arrival where
  noise : List UInt8
  bytes : List UInt8
  pad : Nat
  x : UInt8
  y : UInt8
  z : UInt8
  /-- the messages that should be delivered -/
  good : List Message

def Arrival.frame (a : Arrival) : List UInt8 := Spec.frame (a.bytes ++ List.replicate a.pad 0) a.x a.y a.z

theorem arrived_parse {depth : Nat} {bs : List UInt8} {ms : List Message} {k : Nat} (h : Arrived depth bs ms) (h0 : 0 < depth) (hl : (bs ++ List.replicate k 0).length ≤ 2147483647) {f : File} {s : St}
    (e : fileParse depth (bs ++ List.replicate k 0) = .ok f s) : f.messages = ms ∧ s.sovf = false ∧ s.confused = false := by
  obtain ⟨l, rfl, rfl, hok⟩ := h
  obtain ⟨h1, _, h2, h3⟩ := run_arrived h0 k l (Sml.fileParse_run e) rfl rfl hl hok
  exact ⟨h1, h2, h3⟩

theorem arrived_carries {depth : Nat} (hdepth : 2024 ≤ depth) (a : Arrival) (h : Arrived depth a.bytes a.good) (hp : Plain (a.bytes ++ List.replicate a.pad 0)) (hlen : a.frame.length < 8096) :
    Carries depth a.frame a.good ∧ QuietFrame depth a.frame ∧ TidyFrame depth a.frame := by
  have hbl : a.frame.length = _ := frame_length (a.bytes ++ List.replicate a.pad 0) a.x a.y a.z
  obtain ⟨f, s, e, ht⟩ := c51_telegram (a.bytes ++ List.replicate a.pad 0) depth (by omega) (by omega)
  obtain ⟨f', s', e', _, _, _, hex, _⟩ := fileParse_post (buffer := a.bytes ++ List.replicate a.pad 0) (depth := depth) (by omega) (by omega)
  rw [e] at e'
  cases e'
  obtain ⟨h1, h2, h3⟩ := arrived_parse h (by omega) (by omega) e
  refine ⟨⟨hlen, _, a.x, a.y, a.z, rfl, hp, (ht _).2 h1.symm⟩, fun body x y z f2 s2 hfr e2 => ?_, fun body x y z f2 s2 hfr e2 => ?_⟩
  all_goals
    obtain rfl := frame_inj hfr
    rw [e] at e2
    cases e2
  · exact h2
  · exact hex h3

/-- C94: the loop of the example program, run from its source, on frames that hold any messages in the standard form with any checksums, and end in any three bytes: it prints what belongs to
the messages whose own checksum is right. The checksum of the frame, in its last two bytes, has no influence. -/
theorem c94_listen (m : Mem) (verbose single : Bool) (H : Listening m verbose single) (hpow : GoodPow m.world.pow) (d : Nat) (hd : d < 1024) (hn : m.world.num = d) (hE : Errs m.world) (t : ITy)
    (depth : Nat) (hdepth : 2024 ≤ depth) (as : List Arrival) (tail : List UInt8)
    (hok : ∀ a ∈ as, Harmless a.noise ∧ Arrived depth a.bytes a.good ∧ Plain (a.bytes ++ List.replicate a.pad 0) ∧ a.frame.length < 8096) (htail : ¬ Occurs frameStart tail)
    (hin : m.world.input = (as.map fun a => a.noise ++ a.frame).flatten ++ tail) (hnf : ∀ u ∈ m.world.turns, u.ev ≠ .fail)
    (hsafe : ∀ ms ∈ heard single (as.map Arrival.good), Manageable verbose single ms ∧ AllLegible (entriesOf (lookedAt single ms))) :
    ∃ o, PrintsTelegrams verbose single (heard single (as.map Arrival.good)) o ∧
      ((single = true ∧ ∃ a ∈ as, ∃ x ∈ a.good, responseOf x ≠ none) → CallBad .sml_transport_listen [.int t d, .fn .transport_receiver] m (.exited 0 (m.world.out ++ o))) ∧
      (¬ (single = true ∧ ∃ a ∈ as, ∃ x ∈ a.good, responseOf x ≠ none) → ∃ m', CallTo .sml_transport_listen [.int t d, .fn .transport_receiver] m .undef m' ∧ m'.stack = m.stack ∧
        m'.world.out = m.world.out ++ o ∧ m'.sovf = false ∧ m'.heap = m.heap) := by
  have hl := c38_frames (as.map fun a => (a.noise, a.frame)) tail ⟨m.world.input, m.world.turns.map Turn.ev⟩ (as.length + 1) (by simp) (fun v hv => by
    obtain ⟨u, hu, rfl⟩ := List.mem_map.mp hv
    exact hnf u hu) (fun i hi => by
      obtain ⟨a, ha, rfl⟩ := List.mem_map.mp hi
      obtain ⟨q1, q2, q3, q4⟩ := hok a ha
      exact ⟨q1, ⟨_, a.x, a.y, a.z, rfl, q3⟩, q4⟩) htail (by rw [hin, List.map_map]; rfl)
  have e1 : (as.map fun a => (a.noise, a.frame)).map Prod.snd = (as.map fun a => (a.frame, a.good)).map Prod.fst := by
    rw [List.map_map, List.map_map]; rfl
  have e2 : (as.map fun a => (a.frame, a.good)).map Prod.snd = as.map Arrival.good := by
    rw [List.map_map]; rfl
  have hcq : ∀ i ∈ as.map fun a => (a.frame, a.good), Carries depth i.1 i.2 ∧ QuietFrame depth i.1 ∧ TidyFrame depth i.1 := fun i hi => by
    obtain ⟨a, ha, rfl⟩ := List.mem_map.mp hi
    obtain ⟨_, q2, q3, q4⟩ := hok a ha
    exact arrived_carries hdepth a q2 q3 q4
  rw [e1] at hl
  obtain ⟨o, _, g1, g2, g3⟩ := listen_items m verbose single H hpow d hd hn hE depth hdepth t hl (fun i hi => (hcq i hi).1) (fun i hi => (hcq i hi).2.1)
    (fun ms hms => by rw [e2] at hms; exact (hsafe ms hms).1)
  have hresp : (∃ i ∈ as.map fun a => (a.frame, a.good), ∃ x ∈ i.2, responseOf x ≠ none) ↔ ∃ a ∈ as, ∃ x ∈ a.good, responseOf x ≠ none := by
    constructor
    · rintro ⟨i, hi, x, hx, hr⟩
      obtain ⟨j, hj, rfl⟩ := List.mem_map.mp hi
      exact ⟨j, hj, x, hx, hr⟩
    · rintro ⟨j, hj, y, hy, hr⟩
      exact ⟨_, List.mem_map_of_mem hj, y, hy, hr⟩
  rw [hresp] at g2 g3
  rw [e2] at g1
  refine ⟨o, g1 fun ms hms => (hsafe ms hms).2, g2, fun hs => ?_⟩
  obtain ⟨m', c, k1, k2, k3, k4, _, k5⟩ := g3 hs
  exact ⟨m', c, k1, k2, k3, k5 fun i hi => (hcq i hi).2.2⟩

theorem Arrived.mono {d d' : Nat} {bs : List UInt8} {ms : List Message} (h : Arrived d bs ms) (hd : d ≤ d') : Arrived d' bs ms := by
  obtain ⟨l, h1, h2, h3⟩ := h
  exact ⟨l, h1, h2, fun p hp => ⟨(h3 p hp).1, Nat.le_trans (h3 p hp).2.1 hd, (h3 p hp).2.2⟩⟩

theorem line_arrived {xs : List Message} {bs : List UInt8} {ms : List Message} (h : Line xs bs ms) : (∀ x ∈ xs, MessageOk true x) → ∃ d, Arrived d bs ms := by
  have add : ∀ {c : Nat} {x : Message} {bs : List UInt8} {ms : List Message}, MessageOk true x → c < 65536 → (∃ d, Arrived d bs ms) → ∃ d, Arrived d (messageBytes c x ++ bs) (outcome c x ++ ms) := by
    rintro c x bs ms hx hc ⟨d, h⟩
    obtain ⟨l, rfl, rfl, h3⟩ := h.mono (Nat.le_add_right d (messageDepth x))
    refine ⟨d + messageDepth x, (c, x) :: l, rfl, rfl, fun p hp => ?_⟩
    rcases List.mem_cons.1 hp with rfl | hp
    · exact ⟨hx, Nat.le_add_left _ _, hc⟩
    · exact h3 p hp
  induction h with
  | done => exact fun _ => ⟨0, [], rfl, rfl, by simp⟩
  | @intact x xs bs ms _ ih =>
    intro hok
    have := add (hok x (by simp)) (BitVec.isLt (swap16 (crcX25 (messageHead x)))) (ih fun y hy => hok y (by simp [hy]))
    rw [show (swap16 (crcX25 (messageHead x))).toNat = checksum x from rfl, outcome_sealed] at this
    exact this
  | flipped hx' hc hl ho _ ih =>
    intro hok
    have := add hx' hc (ih fun y hy => hok y (by simp [hy]))
    rwa [outcome_flipped hl ho] at this

theorem lines_arrived : ∀ (as : List Arrival), (∀ a ∈ as, ∃ sent, Line sent a.bytes a.good ∧ ∀ x ∈ sent, MessageOk true x) → ∃ d, ∀ a ∈ as, Arrived d a.bytes a.good
  | [], _ => ⟨0, by simp⟩
  | a :: as, h => by
    obtain ⟨d, hd⟩ := lines_arrived as fun b hb => h b (by simp [hb])
    obtain ⟨sent, h1, h2⟩ := h a (by simp)
    obtain ⟨d', hd'⟩ := line_arrived h1 h2
    refine ⟨d + d', fun b hb => ?_⟩
    rcases List.mem_cons.1 hb with rfl | hb
    · exact hd'.mono (Nat.le_add_left _ _)
    · exact (hd b hb).mono (Nat.le_add_right _ _)

/-- C94: frames in which some messages were hit by an odd number of flipped bits, whatever happened to the last three bytes of the frames: the loop of the example program, run from its source,
prints what belongs to the messages that were not hit, and loses no memory. -/
theorem c94_odd (m : Mem) (verbose single : Bool) (H : Listening m verbose single) (hpow : GoodPow m.world.pow) (d : Nat) (hd : d < 1024) (hn : m.world.num = d) (hE : Errs m.world) (t : ITy)
    (as : List Arrival) (tail : List UInt8)
    (hok : ∀ a ∈ as, Harmless a.noise ∧ (∃ sent, Line sent a.bytes a.good ∧ ∀ x ∈ sent, MessageOk true x) ∧ Plain (a.bytes ++ List.replicate a.pad 0) ∧ a.frame.length < 8096)
    (htail : ¬ Occurs frameStart tail) (hin : m.world.input = (as.map fun a => a.noise ++ a.frame).flatten ++ tail) (hnf : ∀ u ∈ m.world.turns, u.ev ≠ .fail)
    (hsafe : ∀ ms ∈ heard single (as.map Arrival.good), Manageable verbose single ms ∧ AllLegible (entriesOf (lookedAt single ms))) :
    ∃ o, PrintsTelegrams verbose single (heard single (as.map Arrival.good)) o ∧
      ((single = true ∧ ∃ a ∈ as, ∃ x ∈ a.good, responseOf x ≠ none) → CallBad .sml_transport_listen [.int t d, .fn .transport_receiver] m (.exited 0 (m.world.out ++ o))) ∧
      (¬ (single = true ∧ ∃ a ∈ as, ∃ x ∈ a.good, responseOf x ≠ none) → ∃ m', CallTo .sml_transport_listen [.int t d, .fn .transport_receiver] m .undef m' ∧ m'.stack = m.stack ∧
        m'.world.out = m.world.out ++ o ∧ m'.sovf = false ∧ m'.heap = m.heap) := by
  obtain ⟨e, he⟩ := lines_arrived as fun a ha => (hok a ha).2.1
  exact c94_listen m verbose single H hpow d hd hn hE t (e + 2024) (Nat.le_add_left _ _) as tail
    (fun a ha => ⟨(hok a ha).1, (he a ha).mono (Nat.le_add_right _ _), (hok a ha).2.2⟩) htail hin hnf hsafe

/-! ## A forged reading -/

/-- A program with option `-s` and these bytes before it. -/
def lineMem (input : List UInt8) (single : Bool) : Mem :=
  { next := 1, heap := fun _ => none,
    world := { num := 3, input := input, turns := [⟨[], .give 2⟩, ⟨[.failed], .intr⟩, ⟨[], .give 100⟩], pow := pow10, flags := fun i => if i = 0 then (if single then 1 else 0) else 0 } }

theorem lineMem_listening (input : List UInt8) (single : Bool) : Listening (lineMem input single) false single := ⟨Nat.one_pos, fun _ _ => rfl, rfl, rfl, rfl⟩

theorem lineMem_errs (input : List UInt8) (single : Bool) : Errs (lineMem input single).world :=
  ⟨.inl rfl, show ITy.i32.conv ({} : World).failNo = ({} : World).failNo ∧ ({} : World).failNo ≠ 4 ∧ ({} : World).failNo ≠ 11 by decide⟩

/-- The run of the source with `-s` on one frame, if it is known what the model prints. -/
theorem line_run {body : List UInt8} {x y z : UInt8} {o : List UInt8} (hlen : (Spec.frame body x y z).length < 8096)
    (hl : transportListen 200 ⟨Spec.frame body x y z, (lineMem (Spec.frame body x y z) true).world.turns.map Turn.ev⟩ = .ok [Spec.frame body x y z])
    (hr : receiverCall pow10 2024 ⟨true, false⟩ (Spec.frame body x y z) = .ok (o, true)) :
    CallBad .sml_transport_listen [.int .i32 (3 : Nat), .fn .transport_receiver] (lineMem (Spec.frame body x y z) true) (.exited 0 o) := by
  have hs := (c64_listen 3 (by decide) (by decide) 200 ⟨(lineMem (Spec.frame body x y z) true).world.input, (lineMem (Spec.frame body x y z) true).world.turns⟩).trans hl
  obtain ⟨r, s, er, ht, hex⟩ := receiverCall_ok hr
  have hbl := frame_length body x y z
  obtain ⟨b, rfl, c⟩ := transportListen_bad (t := .i32) (Q := fun b => b = .exited 0 o)
    (receiver_receiver (lineMem (Spec.frame body x y z) true) false true (lineMem_listening _ _) (d := 3) rfl (lineMem_errs _ _) 2024 (by decide)) (by decide)
    (fun fd out fd' h hne => (readS_frame (by decide) h hne).2) (pre := []) (post := [])
    ⟨rfl, ⟨⟨(lineMem (Spec.frame body x y z) true).world.input, (lineMem (Spec.frame body x y z) true).world.turns⟩, _, _, rfl⟩, Nat.one_pos, fun _ _ => rfl, fun _ _ h => h, rfl, LostBlocks.refl _⟩ rfl rfl hs (by simp) fun m' bs hm' hbl hbt => by
      refine ⟨_, rfl, ?_⟩
      obtain ⟨fd, ev, ee, hw⟩ := hm'.world
      have run := receiver_run (m := { m' with stack := m'.stack ++ [.raw bs] }) (t := .u64) (l := .stack (lineMem (Spec.frame body x y z) true).stack.length) (body := body) (x := x) (y := y) (z := z)
        hm'.pos hm'.fresh hm'.ovf (single := true) (verbose := false) (by rw [hw]; rfl) (by rw [hw]; rfl) hlen (by omega)
        (fun env => getBlock_stack (by rw [hm'.stack]; simp)) hbt er
      rw [if_pos hex] at run
      have hpow : ({ m' with stack := m'.stack ++ [.raw bs] } : Mem).world.pow = pow10 := by rw [hw]; rfl
      have hout : ({ m' with stack := m'.stack ++ [.raw bs] } : Mem).world.out = [] := by rw [hw]; rfl
      rw [hpow, ht, hout] at run
      exact run
  exact c

theorem reading_frame : sentFrame (fileBytes [readingMessage 12345]) = Spec.frame (messageBytes 58182 (readingMessage 12345)) 0 0x6d 0xf9 := by
  have hb : fileBytes [readingMessage 12345] = messageBytes 58182 (readingMessage 12345) := by
    rw [← readingMessage_checksum]; simp [fileBytes]
  have hc : (swap16 (crcX25 (sentHead (messageBytes 58182 (readingMessage 12345))))).toNat = 0x6df9 := by
    rw [← crc16_eq]
    decide +kernel
  rw [hb, sentFrame, hc]
  decide +kernel

/-- C94, the limit: the frame of a meter with a reading of 1234.5 Wh arrives with two flipped bits, and the source of the example program prints 112645.7 Wh. The checksum of the frame that arrives
tells the difference, but it is not looked at. -/
theorem c94_forged : ∃ body : List UInt8, (Spec.frame body 0 0x6d 0xf9).length = (sentFrame (fileBytes [readingMessage 12345])).length ∧
    bitDistance (Spec.bitsOf (sentFrame (fileBytes [readingMessage 12345]))) (Spec.bitsOf (Spec.frame body 0 0x6d 0xf9)) = 2 ∧
    (swap16 (crcX25 (sentHead body))).toNat ≠ 0x6df9 ∧
    CallBad .sml_transport_listen [.int .i32 (3 : Nat), .fn .transport_receiver] (lineMem (sentFrame (fileBytes [readingMessage 12345])) true)
      (.exited 0 "1-0:1.8.0*255#1234.5#Wh\n129-129:199.130.3*255#EMH#\n".toUTF8.toList) ∧
    CallBad .sml_transport_listen [.int .i32 (3 : Nat), .fn .transport_receiver] (lineMem (Spec.frame body 0 0x6d 0xf9) true)
      (.exited 0 "1-0:1.8.0*255#112645.7#Wh\n129-129:199.130.3*255#EMH#\n".toUTF8.toList) := by
  refine ⟨messageBytes 58182 (readingMessage 1126457), ?_, ?_, ?_, ?_, ?_⟩
  · rw [reading_frame]; decide +kernel
  · rw [reading_frame]; decide +kernel
  · rw [← crc16_eq]; decide +kernel
  · rw [reading_frame]
    exact line_run (by decide +kernel) (by decide +kernel) (by decide +kernel)
  · exact line_run (by decide +kernel) (by decide +kernel) (by decide +kernel)

/-- A frame with a reading in which one bit was flipped and a reading that was not hit. -/
def hitArrival : Arrival :=
  { noise := [0x42], bytes := messageBytes 58182 (readingMessage 28729) ++ (messageBytes 58182 (readingMessage 12345) ++ []), pad := 0, x := 0, y := 1, z := 2, good := [sealed (readingMessage 12345)] }

theorem hitArrival_line : Line [readingMessage 12345, readingMessage 12345] hitArrival.bytes hitArrival.good := by
  have h : Line [readingMessage 12345, readingMessage 12345] (messageBytes 58182 (readingMessage 28729) ++ (messageBytes (checksum (readingMessage 12345)) (readingMessage 12345) ++ []))
      [sealed (readingMessage 12345)] :=
    .flipped (readingMessage_ok _ (by decide)) (by decide) (by decide +kernel) (by rw [readingMessage_checksum]; decide +kernel) (.intact .done)
  rw [readingMessage_checksum] at h
  exact h

/-- It meets the conditions: the program prints the second reading and returns at the end of the line. -/
example : ∃ o m', PrintsTelegrams false false [[sealed (readingMessage 12345)]] o ∧
    CallTo .sml_transport_listen [.int .i32 (3 : Nat), .fn .transport_receiver] (lineMem (hitArrival.noise ++ hitArrival.frame) false) .undef m' ∧ m'.world.out = o ∧ m'.heap = fun _ => none := by
  have hplain : Plain (hitArrival.bytes ++ List.replicate hitArrival.pad 0) := by
    have h := (padded_plain hitArrival.bytes).2 ((noEscape_iff _).2 (by decide +kernel))
    rwa [show padding hitArrival.bytes.length = hitArrival.pad by decide +kernel] at h
  have hsafe : ∀ ms ∈ heard false ([hitArrival].map Arrival.good), Manageable false false ms ∧ AllLegible (entriesOf (lookedAt false ms)) := by
    intro ms hms
    obtain rfl : ms = [sealed (readingMessage 12345)] := by simpa [heard, hitArrival] using hms
    refine ⟨⟨?_, by simp⟩, ?_⟩
    · intro m hm
      have : m = sealed (readingMessage 12345) := by simpa [lookedAt] using hm
      subst this
      refine ⟨by simp [readingMessage, sealed], ?_⟩
      intro r hr e he
      have : r.valList = [{ sampleEntry with value := some ⟨0x58, .num (some ⟨8, 12345⟩)⟩ }, sampleEntry2] := by
        simp only [responseOf, readingMessage, sealed, Option.some.injEq] at hr
        rw [← hr]
      rw [this] at he
      simp only [List.mem_cons, List.not_mem_nil, or_false] at he
      rcases he with rfl | rfl <;> intro v hv <;> injection hv with hv <;> subst hv
      · exact Or.inr ⟨⟨_, _, rfl, by decide, rfl⟩, by decide⟩
      · exact Or.inr ⟨⟨_, _, rfl, by decide, rfl⟩, by decide⟩
    · intro e he v x hv hx
      have : e = { sampleEntry with value := some ⟨0x58, .num (some ⟨8, 12345⟩)⟩ } ∨ e = sampleEntry2 := by simpa [entriesOf, lookedAt, responseOf, readingMessage, sealed] using he
      rcases this with rfl | rfl
      · injection hv with hv
        cases hx with
        | signed h h' =>
          injection hv with hv1 hv2
          injection hv2 with hv2
          injection hv2 with hv2
          injection hv2 with hn hv2
          subst hn hv2
          unfold Legible
          decide
        | unsigned h h' =>
          injection hv with hv1 hv2
          omega
      · injection hv with hv
        have h1 : v.type = 0 := by rw [← hv]
        cases hx <;> simp only at h1 <;> omega
  obtain ⟨o, h1, _, h3⟩ := c94_odd (lineMem (hitArrival.noise ++ hitArrival.frame) false) false false (lineMem_listening _ _) pow10_good 3 (by decide) rfl (lineMem_errs _ _) .i32 [hitArrival] []
    (by
      intro a ha
      obtain rfl := List.mem_singleton.1 ha
      refine ⟨⟨?_, by decide⟩, ⟨_, hitArrival_line, fun x hx => ?_⟩, hplain, by decide +kernel⟩
      · rintro ⟨a, b, h⟩
        have := congrArg List.length h
        simp [hitArrival, frameStart, escape] at this
        omega
      · have : x = readingMessage 12345 := by simpa using hx
        rw [this]
        exact readingMessage_ok _ (by decide))
    (by
      rintro ⟨a, b, h⟩
      have := congrArg List.length h
      simp [frameStart, escape] at this)
    (by simp [lineMem]) (by simp [lineMem]) hsafe
  obtain ⟨m', c, _, k2, _, k4⟩ := h3 (by simp)
  exact ⟨o, m', h1, c, k2, k4⟩

end Sml.C
