import Verif.Proofs.Standard
import Verif.Props.Program
import Verif.Proofs.FileRun
import Verif.Proofs.FileLong
import Verif.Proofs.Crc

/-!
# C61: telegrams of any conforming sender
-/

namespace Sml

open Spec Samples

/-- C61: whatever a conforming sender says, with whatever headers and however shortened numbers, `sml_file_parse` delivers exactly the messages that were
sent, with the meaning the standard gives them. -/
theorem c61_understood (ms : List Message) (bs : List UInt8) (depth : Nat) (h : Standard.Telegram ms bs) (hlen : bs.length ≤ 294912)
    (hdepth : bs.length < 4 * depth) : ∃ s, fileParse depth bs = .ok { messages := ms } s := by
  obtain ⟨f, s, h1, h2⟩ := c51_telegram bs depth hlen hdepth
  have := (h2 ms).1 (Std.und_telegram h ⟨by omega, hdepth⟩)
  subst this
  exact ⟨s, h1⟩

/-- C61: the same for telegrams of up to `INT_MAX` bytes: they are understood exactly if they have at most 32767 messages. With more the counter overflows. -/
theorem c61_understood_long (ms : List Message) (bs : List UInt8) (depth : Nat) (h : Standard.Telegram ms bs) (hlen : bs.length ≤ 2147483647)
    (hdepth : bs.length < 4 * depth) :
    (ms.length ≤ 32767 → ∃ s, fileParse depth bs = .ok { messages := ms } s) ∧ (32768 ≤ ms.length → fileParse depth bs = .ub .counter) := by
  have hpre : Pre (4 * depth) ({ data := bs, live := 3 } : St) := ⟨by simp, rfl, by simpa using hdepth⟩
  have hone : ∀ {ms' s}, Run (messageParse depth) { data := bs, live := 3 } ms' s → ms = ms' :=
    fun hr => telegram_unique hr rfl (by simp) hlen ms (Std.und_telegram h ⟨by simp only [St.rest, List.drop_zero]; omega, hdepth⟩)
  rcases fileLoop_ends (depth := depth) (bs.length + 1) { messages := [] } { data := bs, live := 3 } hlen hpre (by simp) with ⟨f, s, hf, _⟩ | ⟨hf, _⟩
  · have hm := hone (fileParse_run (depth := depth) hf)
    subst hm
    refine ⟨fun _ => ⟨s, hf⟩, fun hc => ?_⟩
    have := fileLoop_count _ _ _ _ _ hf (by simp)
    omega
  · obtain ⟨ms', s, hr, hc⟩ := fileLoop_over _ _ _ hlen hpre (by simp) hf
    rw [hone hr]
    exact ⟨fun h => by simp at hc; omega, fun _ => hf⟩

/-- C61: the standard, as written down in `Spec.Standard`, is unambiguous: bytes do not mean two things. -/
theorem c61_unambiguous (ms ms' : List Message) (bs : List UInt8) (h : Standard.Telegram ms bs) (h' : Standard.Telegram ms' bs)
    (hlen : bs.length ≤ 2147483647) : ms = ms' := by
  obtain ⟨ms1, s, hr⟩ := run_total (depth := bs.length + 1) bs.length { data := bs, live := 3 } hlen ⟨by simp, rfl, by simp; omega⟩ (by simp)
  have hd : bs.length < 2147483648 ∧ bs.length < 4 * (bs.length + 1) := ⟨by omega, by omega⟩
  exact (telegram_unique hr rfl (by simp) hlen ms (Std.und_telegram h hd)).trans (telegram_unique hr rfl (by simp) hlen ms' (Std.und_telegram h' hd)).symm

/-! ## From the meter to the screen -/

/-- An entry of a list response with a name of six bytes or more, no empty string, and a number that can be printed exactly. -/
def Readable (e : ListEntry) : Prop :=
  (∃ s, e.objName = some s ∧ 6 ≤ s.str.length) ∧ e.value ≠ some ⟨0x00, .bytes (some ⟨[]⟩)⟩ ∧
    ∀ v x, e.value = some v → NumberOf v x → Legible x (powerOfTen e)

theorem mem_heard {single : Bool} : ∀ {mss : List (List Message)} {ms : List Message}, ms ∈ heard single mss → ms ∈ mss
  | [], _, h => by simp [heard] at h
  | m :: mss, ms, h => by
    rw [heard] at h
    rcases List.mem_cons.1 h with rfl | h
    · simp
    · split at h
      · simp at h
      · exact List.mem_cons_of_mem _ (mem_heard h)

theorem mem_lookedAt {single : Bool} : ∀ {ms : List Message} {m : Message}, m ∈ lookedAt single ms → m ∈ ms
  | [], _, h => by simp [lookedAt] at h
  | m' :: ms, m, h => by
    rw [lookedAt] at h
    rcases List.mem_cons.1 h with rfl | h
    · simp
    · split at h
      · simp at h
      · exact List.mem_cons_of_mem _ (mem_lookedAt h)

theorem mem_entriesOf {e : ListEntry} {m : Message} {r : GetListResponse} {ms : List Message} (hm : m ∈ ms) (hr : responseOf m = some r) (he : e ∈ r.valList) :
    e ∈ entriesOf ms := by
  rw [entriesOf, List.mem_flatMap]
  exact ⟨m, hm, by simp [hr, he]⟩

theorem entriesOf_lookedAt {single : Bool} {ms : List Message} {e : ListEntry} (h : e ∈ entriesOf (lookedAt single ms)) : e ∈ entriesOf ms := by
  rw [entriesOf, List.mem_flatMap] at h ⊢
  obtain ⟨m, h1, h2⟩ := h
  exact ⟨m, mem_lookedAt h1, h2⟩

theorem each_cons {p : Term → Prop} {ps : List (Term → Prop)} {ts : List Term} (h : Standard.Each (p :: ps) ts) :
    ∃ t ts', ts = t :: ts' ∧ p t ∧ Standard.Each ps ts' := by
  cases ts with
  | nil => exact h.elim
  | cons t ts => exact ⟨t, ts, rfl, h.1, h.2⟩

theorem standard_body {ms : List Message} {bs : List UInt8} (h : Standard.Telegram ms bs) : ∀ m ∈ ms, m.messageBody ≠ none := by
  induction h with
  | fill n => simp
  | message hm _ ih =>
    intro m hmem
    rcases List.mem_cons.1 hmem with rfl | hmem
    · obtain ⟨hd, ts, r, c, crc, _, _, he, _⟩ := hm
      obtain ⟨_, _, _, _, he⟩ := each_cons he
      obtain ⟨_, _, _, _, he⟩ := each_cons he
      obtain ⟨_, _, _, _, he⟩ := each_cons he
      obtain ⟨_, _, _, ⟨b, hb, _⟩, _⟩ := each_cons he
      rw [hb]
      simp
    · exact ih m hmem

/-- C61: the readings of any conforming meter reach the screen. Any number of telegrams, in frames, with harmless bytes before each of them, arriving in any
portions: the program prints what belongs to the messages that were sent. -/
theorem c61_meter (pow : Int → Dbl) (hp : GoodPow pow) (depth : Nat) (hdepth : 2024 ≤ depth) (stdin : Fd) (openDev : List UInt8 → Option Fd) (name : List UInt8)
    (args : List (List UInt8)) (verbose single : Bool) (dev : List UInt8) (hargs : ListensTo args verbose single dev) (fd : Fd)
    (hfd : (if dev = [0x2D] then some stdin else openDev dev) = some fd) (hnf : ∀ e ∈ fd.sched, e ≠ .fail)
    (telegrams : List (List UInt8 × List UInt8 × List Message)) (tail : List UInt8) (ht : ¬ Occurs frameStart tail)
    (hd : fd.pending = (telegrams.map fun i => i.1 ++ i.2.1).flatten ++ tail)
    (hok : ∀ i ∈ telegrams, Harmless i.1 ∧ i.2.1.length < 8096 ∧
      (∃ body x y z, i.2.1 = frame body x y z ∧ Plain body ∧ Standard.Telegram i.2.2 body) ∧ ∀ e ∈ entriesOf i.2.2, Readable e) :
    ∃ t, programMain pow depth stdin openDev name args = .ok ⟨0, t⟩ ∧
      PrintsTelegrams verbose single (heard single (telegrams.map (·.2.2))) t := by
  have hcar : ∀ i ∈ telegrams, Carries depth i.2.1 i.2.2 := by
    intro i hi
    obtain ⟨_, h1, ⟨body, x, y, z, h2, h3, h4⟩, _⟩ := hok i hi
    have hb : i.2.1.length = 16 + body.length := by rw [h2]; exact frame_length body x y z
    exact ⟨h1, body, x, y, z, h2, h3, Std.und_telegram h4 ⟨by omega, by omega⟩⟩
  have hcount : telegrams.length ≤ fd.pending.length := by
    have : ∀ l : List (List UInt8 × List UInt8 × List Message), (∀ i ∈ l, ∃ body x y z, i.2.1 = frame body x y z) →
        l.length ≤ (l.map fun i => i.1 ++ i.2.1).flatten.length := by
      intro l
      induction l with
      | nil => simp
      | cons i l ih =>
        intro hl
        obtain ⟨body, x, y, z, hb⟩ := hl i (by simp)
        have hb : i.2.1.length = 16 + body.length := by rw [hb]; exact frame_length body x y z
        have := ih fun j hj => hl j (by simp [hj])
        simp only [List.map_cons, List.flatten_cons, List.length_append, List.length_cons]
        omega
    rw [hd, List.length_append]
    have := this telegrams fun i hi => by
      obtain ⟨_, _, ⟨body, x, y, z, h2, _⟩, _⟩ := hok i hi
      exact ⟨body, x, y, z, h2⟩
    omega
  have hl := c38_frames (telegrams.map fun i => (i.1, i.2.1)) tail fd (fd.pending.length + 1) (by rw [List.length_map]; omega) hnf
    (by
      intro j hj
      obtain ⟨i, hi, rfl⟩ := List.mem_map.1 hj
      obtain ⟨h1, body, x, y, z, h2, h3, _⟩ := hcar i hi
      exact ⟨(hok i hi).1, ⟨body, x, y, z, h2, h3⟩, h1⟩) ht (by rw [hd, List.map_map]; rfl)
  rw [List.map_map] at hl
  have hr := (handleFrames_run pow hp depth ⟨single, verbose⟩ (telegrams.map (·.2))
    (by
      intro j hj
      obtain ⟨i, hi, rfl⟩ := List.mem_map.1 hj
      have := hcar i hi
      exact ⟨this, by have := this.1; omega⟩)).1
  rw [List.map_map, List.map_map] at hr
  have hin : ∀ ms ∈ heard single (telegrams.map (·.2.2)), (∀ m ∈ ms, m.messageBody ≠ none) ∧ ∀ e ∈ entriesOf ms, Readable e := by
    intro ms hms
    obtain ⟨i, hi, rfl⟩ := List.mem_map.1 (mem_heard hms)
    obtain ⟨_, _, ⟨body, x, y, z, _, _, h4⟩, h5⟩ := hok i hi
    exact ⟨standard_body h4, h5⟩
  obtain ⟨t, a, b⟩ := hr fun ms hms => by
    obtain ⟨h1, h2⟩ := hin ms hms
    refine ⟨fun m hm => ⟨h1 m (mem_lookedAt hm), fun r hr e he v hv => .inr ?_⟩, fun _ => h1⟩
    obtain ⟨⟨s, hs, hs6⟩, h3, _⟩ := h2 e (mem_entriesOf (mem_lookedAt hm) hr he)
    refine ⟨⟨_, s, hs, hs6, rfl⟩, fun hx => h3 ?_⟩
    rw [hv, hx]
  refine ⟨t, ?_, b fun ms hms e he => ((hin ms hms).2 e (entriesOf_lookedAt he)).2.2⟩
  unfold programMain
  rw [(c55_options args verbose single dev).2 hargs]
  have hl' : transportListen (fd.pending.length + 1) fd = .ok (telegrams.map fun i => i.2.1) := hl
  have a' : handleFrames (receiverCall pow depth ⟨single, verbose⟩) (telegrams.map fun i => i.2.1) = .ok t := a
  simp only [hfd, listenWith_eq _ _ _ _ hl', a', TRes.bind]

/-! ## A telegram with long headers and shortened numbers -/

theorem short_header {ty n : Nat} (b : UInt8) (h : b.toNat < 128) (h1 : headerType [b] = ty) (h2 : headerLength [b] = n) :
    Standard.Header ty n [b] := ⟨⟨[], b, rfl, by simp, h⟩, h1, h2⟩

theorem long_header {ty n : Nat} (a b : UInt8) (ha : 128 ≤ a.toNat) (h : b.toNat < 128) (h1 : headerType [a, b] = ty) (h2 : headerLength [a, b] = n) :
    Standard.Header ty n [a, b] := ⟨⟨[a], b, rfl, by simpa using ha, h⟩, h1, h2⟩

theorem enc_absent : Standard.Encodes .absent [0x01] := by rw [Standard.Encodes]

theorem enc_octets {h s : List UInt8} (hh : Standard.Header 0 s.length h) (h1 : h ≠ [0x01]) : Standard.Encodes (.octets s) (h ++ s) := by
  rw [Standard.Encodes]; exact ⟨h, hh, h1, rfl⟩

theorem enc_uint (b : UInt8) (s : List UInt8) (hh : Standard.Header 6 s.length [b]) : Standard.Encodes (.uint s) (b :: s) := by
  rw [Standard.Encodes]; exact ⟨[b], hh, rfl, rfl⟩

theorem enc_int (b : UInt8) (s : List UInt8) (hh : Standard.Header 5 s.length [b]) : Standard.Encodes (.int s) (b :: s) := by
  rw [Standard.Encodes]; exact ⟨[b], hh, rfl, rfl⟩

theorem enc_list {h r : List UInt8} {ts : List Term} (hh : Standard.Header 7 ts.length h) (hr : Standard.EncodeAll ts r) :
    Standard.Encodes (.list ts) (h ++ r) := by
  rw [Standard.Encodes]; exact ⟨h, r, hh, hr, rfl⟩

theorem all_nil : Standard.EncodeAll [] [] := rfl

theorem all_cons {t : Term} {ts : List Term} {x y : List UInt8} (h : Standard.Encodes t x) (h' : Standard.EncodeAll ts y) :
    Standard.EncodeAll (t :: ts) (x ++ y) := ⟨x, y, h, h', rfl⟩

/-- A list response: the outer list, the transaction id, the measurement list and a name have headers of two bytes; the counter has five bytes, the tag, the
power, the status and both times are shortened; the first entry has a local time. -/
def stdMsg : List UInt8 := [
  0xf0, 0x06, 0x80, 0x04, 0x01, 0x05, 0x62, 0x00, 0x62, 0x00, 0x72, 0x63, 0x07, 0x01, 0x77, 0x01,
  0x02, 0x0a, 0x01, 0x72, 0x62, 0x01, 0x62, 0x2a, 0xf0, 0x02, 0x77, 0x07, 0x01, 0x00, 0x01, 0x08,
  0x00, 0xff, 0x63, 0x01, 0x82, 0x72, 0x62, 0x03, 0x73, 0x64, 0x01, 0x02, 0x03, 0x52, 0x3c, 0x53,
  0x00, 0x78, 0x62, 0x1e, 0x52, 0xff, 0x56, 0x00, 0x12, 0x34, 0x56, 0x78, 0x01, 0x77, 0x80, 0x08,
  0x01, 0x00, 0x10, 0x07, 0x00, 0xff, 0x01, 0x01, 0x62, 0x1b, 0x52, 0x00, 0x52, 0xc8, 0x01, 0x01,
  0x01, 0x63, 0x99, 0x66, 0x00]

/-- What it says: 0x12345678 in tenths of Wh, and -56 W. -/
def stdEntries : List ListEntry := [
  { objName := some ⟨[0x01, 0x00, 0x01, 0x08, 0x00, 0xff]⟩, status := some ⟨0x62, some ⟨2, 0x182⟩⟩, valTime := some ⟨some ⟨1, 3⟩, none⟩,
    unit := some ⟨1, 0x1e⟩, scaler := some ⟨1, 0xff⟩, value := some ⟨0x58, .num (some ⟨8, 0x12345678⟩)⟩, valueSignature := none },
  { objName := some ⟨[0x01, 0x00, 0x10, 0x07, 0x00, 0xff]⟩, status := none, valTime := none,
    unit := some ⟨1, 0x1b⟩, scaler := some ⟨1, 0x00⟩, value := some ⟨0x51, .num (some ⟨1, 0xc8⟩)⟩, valueSignature := none }]

def stdMessage : Message :=
  { transactionId := some ⟨[0x01, 0x05]⟩, groupId := some ⟨1, 0⟩, abortOnError := some ⟨1, 0⟩,
    messageBody := some ⟨some ⟨4, 0x701⟩, .getListResponse (some
      { clientId := none, serverId := some ⟨[0x0a]⟩, listName := none, actSensorTime := some ⟨some ⟨1, 1⟩, some ⟨4, 0x2a⟩⟩, valList := stdEntries,
        listSignature := none, actGatewayTime := none })⟩,
    crc := some ⟨2, 0x9966⟩ }

theorem uint_intro (size : Nat) (bs : List UInt8) (n : Num) (h : bs ≠ []) (h1 : bs.length ≤ size) (h2 : n = ⟨size, unsignedOf bs⟩) :
    Standard.uint size n (.uint bs) := ⟨bs, rfl, h, h1, h2⟩

theorem int_intro (size : Nat) (bs : List UInt8) (n : Num) (h : bs ≠ []) (h1 : bs.length ≤ size) (h2 : n = ⟨size, (signedOf bs % 256 ^ size).toNat⟩) :
    Standard.int size n (.int bs) := ⟨bs, rfl, h, h1, h2⟩

def stdTerm1 : Term := .list [.octets [0x01, 0x00, 0x01, 0x08, 0x00, 0xff], .uint [0x01, 0x82],
  .list [.uint [3], .list [.uint [1, 2, 3], .int [0x3c], .int [0x00, 0x78]]], .uint [0x1e], .int [0xff], .int [0x00, 0x12, 0x34, 0x56, 0x78], .absent]

def stdTerm2 : Term := .list [.octets [0x01, 0x00, 0x10, 0x07, 0x00, 0xff], .absent, .absent, .uint [0x1b], .int [0x00], .int [0xc8], .absent]

theorem stdEntries_list : Standard.list stdEntries (.list [stdTerm1, stdTerm2]) := by
  refine ⟨⟨_, rfl, ⟨_, rfl, ?_⟩, ⟨_, rfl, ?_⟩, trivial⟩, ?_⟩
  · refine ⟨⟨_, rfl, rfl⟩, ⟨[0x01, 0x82], by simp, by decide, rfl, rfl, _, rfl, uint_intro _ _ _ (by simp) (by decide) (by decide)⟩,
      ⟨⟨1, 3⟩, rfl, .inr ⟨rfl, rfl, ⟨4, 0x010203⟩, ⟨2, 0x3c⟩, ⟨2, 0x78⟩, _, rfl, uint_intro _ _ _ (by simp) (by decide) (by decide),
        ⟨_, rfl, uint_intro _ _ _ (by simp) (by decide) (by decide), int_intro _ _ _ (by simp) (by decide) (by decide),
          int_intro _ _ _ (by simp) (by decide) (by decide), trivial⟩, trivial⟩⟩,
      uint_intro _ _ _ (by simp) (by decide) (by decide), int_intro _ _ _ (by simp) (by decide) (by decide),
      ⟨_, rfl, [0x00, 0x12, 0x34, 0x56, 0x78], by simp, by decide, .inl ⟨rfl, rfl, _, rfl, int_intro _ _ _ (by simp) (by decide) (by decide)⟩⟩, rfl, trivial⟩
  · exact ⟨⟨_, rfl, rfl⟩, rfl, rfl, uint_intro _ _ _ (by simp) (by decide) (by decide), int_intro _ _ _ (by simp) (by decide) (by decide),
      ⟨_, rfl, [0xc8], by simp, by decide, .inl ⟨rfl, rfl, _, rfl, int_intro _ _ _ (by simp) (by decide) (by decide)⟩⟩, rfl, trivial⟩
  · simp [stdEntries, IsDzgSerial]

theorem stdMessage_sent : Standard.Message stdMessage stdMsg := by
  refine ⟨[0xf0, 0x06], [.octets [0x01, 0x05], .uint [0x00], .uint [0x00], .list [.uint [0x07, 0x01],
    .list [.absent, .octets [0x0a], .absent, .list [.uint [0x01], .uint [0x2a]], .list [stdTerm1, stdTerm2], .absent, .absent]]],
    (stdMsg.drop 2).take 79, [0x63, 0x99, 0x66], ⟨2, 0x9966⟩, rfl, long_header _ _ (by decide) (by decide) rfl rfl, ?_, ?_, ?_, by rw [← crc16_eq]; decide +kernel, by decide +kernel⟩
  · refine ⟨⟨_, rfl, rfl⟩, ⟨_, rfl, uint_intro _ _ _ (by simp) (by decide) (by decide)⟩, ⟨_, rfl, uint_intro _ _ _ (by simp) (by decide) (by decide)⟩,
      ⟨_, rfl, ⟨4, 0x701⟩, rfl, _, rfl, uint_intro _ _ _ (by simp) (by decide) (by decide), ⟨rfl, _, rfl, _, rfl, ?_⟩, trivial⟩, trivial⟩
    exact ⟨rfl, ⟨_, rfl, rfl⟩, rfl, ⟨_, rfl, .inl ⟨.inl rfl, _, rfl, uint_intro _ _ _ (by simp) (by decide) (by decide),
      ⟨_, rfl, uint_intro _ _ _ (by simp) (by decide) (by decide)⟩, trivial⟩⟩, stdEntries_list, rfl, rfl, trivial⟩
  · have e1 := enc_list (h := [0x77]) (short_header _ (by decide) rfl rfl)
      (all_cons (enc_octets (s := [0x01, 0x00, 0x01, 0x08, 0x00, 0xff]) (short_header 0x07 (by decide) rfl rfl) (by decide))
      (all_cons (enc_uint 0x63 [0x01, 0x82] (short_header _ (by decide) rfl rfl))
      (all_cons (enc_list (h := [0x72]) (short_header _ (by decide) rfl rfl) (all_cons (enc_uint 0x62 [3] (short_header _ (by decide) rfl rfl))
        (all_cons (enc_list (h := [0x73]) (short_header _ (by decide) rfl rfl) (all_cons (enc_uint 0x64 [1, 2, 3] (short_header _ (by decide) rfl rfl))
          (all_cons (enc_int 0x52 [0x3c] (short_header _ (by decide) rfl rfl)) (all_cons (enc_int 0x53 [0x00, 0x78] (short_header _ (by decide) rfl rfl)) all_nil)))) all_nil)))
      (all_cons (enc_uint 0x62 [0x1e] (short_header _ (by decide) rfl rfl))
      (all_cons (enc_int 0x52 [0xff] (short_header _ (by decide) rfl rfl))
      (all_cons (enc_int 0x56 [0x00, 0x12, 0x34, 0x56, 0x78] (short_header _ (by decide) rfl rfl)) (all_cons enc_absent all_nil)))))))
    have e2 := enc_list (h := [0x77]) (short_header _ (by decide) rfl rfl)
      (all_cons (enc_octets (s := [0x01, 0x00, 0x10, 0x07, 0x00, 0xff]) (long_header 0x80 0x08 (by decide) (by decide) rfl rfl) (by decide))
      (all_cons enc_absent (all_cons enc_absent
      (all_cons (enc_uint 0x62 [0x1b] (short_header _ (by decide) rfl rfl))
      (all_cons (enc_int 0x52 [0x00] (short_header _ (by decide) rfl rfl))
      (all_cons (enc_int 0x52 [0xc8] (short_header _ (by decide) rfl rfl)) (all_cons enc_absent all_nil)))))))
    have := all_cons (enc_octets (s := [0x01, 0x05]) (long_header 0x80 0x04 (by decide) (by decide) rfl rfl) (by decide))
      (all_cons (enc_uint 0x62 [0x00] (short_header _ (by decide) rfl rfl)) (all_cons (enc_uint 0x62 [0x00] (short_header _ (by decide) rfl rfl))
      (all_cons (enc_list (h := [0x72]) (short_header _ (by decide) rfl rfl) (all_cons (enc_uint 0x63 [0x07, 0x01] (short_header _ (by decide) rfl rfl))
        (all_cons (enc_list (h := [0x77]) (short_header _ (by decide) rfl rfl)
          (all_cons enc_absent (all_cons (enc_octets (s := [0x0a]) (short_header 0x02 (by decide) rfl rfl) (by decide)) (all_cons enc_absent
          (all_cons (enc_list (h := [0x72]) (short_header _ (by decide) rfl rfl) (all_cons (enc_uint 0x62 [0x01] (short_header _ (by decide) rfl rfl))
            (all_cons (enc_uint 0x62 [0x2a] (short_header _ (by decide) rfl rfl)) all_nil)))
          (all_cons (enc_list (h := [0xf0, 0x02]) (long_header _ _ (by decide) (by decide) rfl rfl) (all_cons e1 (all_cons e2 all_nil)))
          (all_cons enc_absent (all_cons enc_absent all_nil)))))))) all_nil))) all_nil)))
    exact this
  · exact ⟨.uint [0x99, 0x66], uint_intro _ _ _ (by simp) (by decide) (by decide), enc_uint _ _ (short_header _ (by decide) rfl rfl)⟩

/-- The hypotheses of `c61_understood` are met by this telegram, padded to a multiple of four. -/
theorem stdTelegram : Standard.Telegram [stdMessage] (stdMsg ++ List.replicate 3 0x00) := .message stdMessage_sent (.fill 3)

example : ∃ s, fileParse 30 (stdMsg ++ List.replicate 3 0x00) = .ok { messages := [stdMessage] } s :=
  c61_understood _ _ 30 stdTelegram (by decide) (by decide)

theorem stdMany : ∀ n, Standard.Telegram (List.replicate n stdMessage) ((List.replicate n stdMsg).flatten ++ [0x00])
  | 0 => .fill 1
  | n + 1 => by
    rw [List.replicate_succ, List.replicate_succ, List.flatten_cons, List.append_assoc]
    exact .message stdMessage_sent (stdMany n)

theorem stdMany_length (n : Nat) : ((List.replicate n stdMsg).flatten ++ [(0x00 : UInt8)]).length = stdMsg.length * n + 1 := by
  induction n with
  | zero => rfl
  | succ n ih =>
    rw [List.replicate_succ, List.flatten_cons, List.append_assoc, List.length_append, ih, Nat.mul_succ]
    omega

/-- Those of `c61_understood_long` are met by 32767 messages, longer than 294912 bytes, and by 32768. -/
example : ∃ bs bs' : List UInt8, 294912 < bs.length ∧ Standard.Telegram (List.replicate 32767 stdMessage) bs ∧ Standard.Telegram (List.replicate 32768 stdMessage) bs' ∧
    (∃ s, fileParse (bs.length + 1) bs = .ok { messages := List.replicate 32767 stdMessage } s) ∧ fileParse (bs'.length + 1) bs' = .ub .counter := by
  have hl : 10 ≤ stdMsg.length ∧ stdMsg.length ≤ 1000 := by decide +kernel
  have l1 := stdMany_length 32767
  have l2 := stdMany_length 32768
  have s1 := stdMany 32767
  have s2 := stdMany 32768
  generalize stdMsg.length = k at hl l1 l2
  generalize (List.replicate 32767 stdMsg).flatten ++ [(0x00 : UInt8)] = bs at l1 s1
  generalize (List.replicate 32768 stdMsg).flatten ++ [(0x00 : UInt8)] = bs' at l2 s2
  exact ⟨bs, bs', by omega, s1, s2, (c61_understood_long _ bs (bs.length + 1) s1 (by omega) (by omega)).1 (by rw [List.length_replicate]; omega),
    (c61_understood_long _ bs' (bs'.length + 1) s2 (by omega) (by omega)).2 (by rw [List.length_replicate]; omega)⟩

/-- Those of `c61_meter` on telegrams are met by it in a frame. -/
theorem stdFrame_ok : (frame (stdMsg ++ List.replicate 3 0x00) 3 0 0).length < 8096 ∧ Plain (stdMsg ++ List.replicate 3 0x00) ∧ Harmless [] ∧
    ∀ e ∈ entriesOf [stdMessage], Readable e := by
  refine ⟨by decide, ⟨by decide, ?_⟩, ⟨?_, rfl⟩, ?_⟩
  · intro i hi
    have : i < 22 := by
      have : (stdMsg ++ List.replicate 3 0x00).length = 88 := rfl
      omega
    exact (by decide +kernel : ∀ i < 22, ((stdMsg ++ List.replicate 3 0x00).drop (4 * i)).take 4 ≠ escape) i this
  · rintro ⟨a, b, h⟩
    have := congrArg List.length h
    simp [frameStart, escape] at this
  · intro e he
    have : e ∈ stdEntries := by simpa [entriesOf, responseOf, stdMessage] using he
    simp only [stdEntries, List.mem_cons, List.not_mem_nil, or_false] at this
    rcases this with rfl | rfl
    · refine ⟨⟨_, rfl, by decide⟩, by simp, ?_⟩
      rintro v x ⟨⟩ hx
      generalize hv : (⟨0x58, .num (some ⟨8, 0x12345678⟩)⟩ : Value) = v at hx
      cases hx with
      | signed h h' =>
        injection hv with hv1 hv2
        injection hv2 with hv2
        injection hv2 with hv2
        injection hv2 with hn hv2
        subst hn hv2
        unfold Legible
        decide
      | unsigned h h' =>
        injection hv with hv1 hv2
        omega
    · refine ⟨⟨_, rfl, by decide⟩, by simp, ?_⟩
      rintro v x ⟨⟩ hx
      generalize hv : (⟨0x51, .num (some ⟨1, 0xc8⟩)⟩ : Value) = v at hx
      cases hx with
      | signed h h' =>
        injection hv with hv1 hv2
        injection hv2 with hv2
        injection hv2 with hv2
        injection hv2 with hn hv2
        subst hn hv2
        unfold Legible
        decide
      | unsigned h h' =>
        injection hv with hv1 hv2
        omega

/-! ## What is not understood -/

/-- A list response whose value is a number with a header of two bytes (E0 04 12 34). -/
def longNumMsg : List UInt8 := [
  0x76, 0x03, 0x01, 0x05, 0x62, 0x00, 0x62, 0x00, 0x72, 0x63, 0x07, 0x01, 0x77, 0x01, 0x02, 0x0a,
  0x01, 0x01, 0x71, 0x77, 0x07, 0x01, 0x00, 0x01, 0x08, 0x00, 0xff, 0x01, 0x01, 0x01, 0x01, 0xe0,
  0x04, 0x12, 0x34, 0x01, 0x01, 0x01, 0x63, 0x7b, 0xac, 0x00]

/-- The same with a header of one byte (63 12 34). -/
def shortNumMsg : List UInt8 := [
  0x76, 0x03, 0x01, 0x05, 0x62, 0x00, 0x62, 0x00, 0x72, 0x63, 0x07, 0x01, 0x77, 0x01, 0x02, 0x0a,
  0x01, 0x01, 0x71, 0x77, 0x07, 0x01, 0x00, 0x01, 0x08, 0x00, 0xff, 0x01, 0x01, 0x01, 0x01, 0x63,
  0x12, 0x34, 0x01, 0x01, 0x01, 0x63, 0x62, 0x0b, 0x00]

/-- A message of a kind that is not among the fourteen (tag 0x800, with a correct checksum). -/
def otherKindMsg : List UInt8 := [
  0x76, 0x03, 0x01, 0x05, 0x62, 0x00, 0x62, 0x00, 0x72, 0x63, 0x08, 0x00, 0x71, 0x01, 0x63, 0xed,
  0x06, 0x00]

/-- C61, what the freedom of headers stops at: a number in a value must have a header of one byte, and a message of another kind is not skipped. In both cases everything
behind it in the telegram is lost as well. -/
theorem c61_limits :
    (headerType [0xe0, 0x04] = headerType [0x63] ∧ headerLength [0xe0, 0x04] = headerLength [0x63]) ∧
    holds (fileParse 30 (shortNumMsg ++ closeMsg)) (fun f _ => f.messages.length == 2) = true ∧
    holds (fileParse 30 (longNumMsg ++ closeMsg)) (fun f _ => f.messages.length == 0) = true ∧
    holds (fileParse 30 (otherKindMsg ++ closeMsg)) (fun f _ => f.messages.length == 0) = true := by
  refine ⟨⟨by decide, by decide⟩, ?_, ?_, ?_⟩ <;> decide +kernel

end Sml
