import Verif.Proofs.SourceSend
import Verif.Proofs.SourceDump
import Verif.Proofs.SourceBad
import Verif.Props.SourceWrite
import Verif.Props.Select

/-!
# The C source of the transport layer, run as it is written

`sml_transport_write`, `sml_transport_read` and `sml_transport_listen` (sml_transport.c). What the operating system does is in
`Mem.world`: the bytes that come in (`input`), how `select` and `read` deliver them (`turns`), what `write` returns (`accept`) and
what was given to it (`sent`).
-/

namespace Sml.C

open Sml.Spec

variable {m : Mem} {file buf bytes : Nat} {ms : List Message} {L : List (Nat × HCell)} {st : St}

/-! ## Sending -/

theorem transportFrame_live (h : transportFrame f st = .ok (f', bs) st') (hs : ∀ m ∈ f.messages, m.crc.isSome) : st'.live = st.live + f.messages.length := by
  rw [transportFrame_eq] at h
  obtain ⟨_, s1, e1, h⟩ := M.bind_eq_ok h
  cases e1
  obtain ⟨_, s2, e2, h⟩ := M.bind_eq_ok h
  obtain ⟨f2, s3, e3, h⟩ := M.bind_eq_ok h
  obtain ⟨bs', s4, e4, h⟩ := M.bind_eq_ok h
  cases h
  have l2 := (dry_putBytes _ _ _ _ e2).2
  have l3 := (fileWrite_live e3 hs).1
  have l4 := (dry_frameTail _ _ _ e4).2
  simp only at l2
  omega

/-- The world does not matter for what memory holds. -/
theorem Holding.world (H : Holding m file buf bytes ms L st) (w : World) : Holding { m with world := w } file buf bytes ms L st :=
  ⟨H.holds, H.apart, H.two, H.hbuf, H.hbytes, H.cur, H.len, H.ovf, H.zero, H.free, H.ints⟩

/-- C72: whenever the model of `sml_transport_write` on values makes a frame `bs`, the source of `sml_transport_write` ends without an undefined step. It
calls `write` once, with exactly these bytes, and returns their number if `write` took them all and 0 otherwise. The file has the messages of the model, the buffer
its bytes and position, the other blocks are as they were, and what has no pointer to it any more (`lost`) are the old checksums. -/
theorem c72_write (H : Holding m file buf bytes ms L st) {f' : File} {st' : St} {bs : List UInt8} (hw : transportFrame { messages := ms } st = .ok (f', bs) st') (t : ITy) (d : Int)
    (hd : ITy.conv .i32 d = m.world.num) (hwr : -9223372036854775808 ≤ m.world.accept bs ∧ m.world.accept bs < 9223372036854775808) :
    ∃ m' L', ∃ lost : List Nat, CallTo .sml_transport_write [.int t d, .ptr (.heap file) 0] m (.int .i32 (if m.world.accept bs = bs.length then bs.length else 0)) m' ∧
      m'.world = { m.world with sent := bs :: m.world.sent } ∧ Holding m' file buf bytes f'.messages L' st' ∧ m'.stack = m.stack ∧
      (∀ a b, a ≠ buf → a ≠ bytes → a ∉ L.map Prod.fst → m.heap a = some b → m'.heap a = some b) ∧
      (∀ a, m'.heap a ≠ none → a = buf ∨ a = bytes ∨ a ∈ L'.map Prod.fst ∨ a ∈ lost ∨ (a ∉ L.map Prod.fst ∧ m.heap a ≠ none)) ∧
      lost.Nodup ∧ (∀ a ∈ lost, m'.heap a ≠ none ∧ a ∉ L'.map Prod.fst) ∧
      ((∀ x ∈ ms, x.crc.isSome) → lost.length + L'.length = L.length + ms.length) := by
  obtain ⟨h', L', g', hr, o, hi, hl, hc⟩ := transportWrite_run (t := t) H.ctx rfl H.holds.1 H.inv H.own hd hw hwr
  rw [H.mem] at hc
  obtain ⟨a1, a2, a3, a4, a5⟩ := H.written hr o hi
  refine ⟨_, L', g'.map Prod.fst, hc, rfl, a1.world _, rfl, a2, a3, a4, a5, fun hs => ?_⟩
  have l1 := transportFrame_live hw hs
  simp only [List.length_map, List.length_nil] at hl l1 ⊢
  omega

/-- C72: messages the format can represent, in a buffer that is long enough, are sent in the frame the standard describes (`sentFrame`): start sequence, encoded
messages, padding, end sequence with the number of padding bytes and the checksum. -/
theorem c72_frame (H : Holding m file buf bytes ms L st) (s : Bool) (hok : ∀ x ∈ ms, MessageOk s x) (hfit : (sentFrame (fileBytes ms)).length ≤ st.data.length)
    (hcov : Covered (st.data.drop 8) (fileBytes ms)) (t : ITy) (d : Int) (hd : ITy.conv .i32 d = m.world.num) (hall : m.world.accept (sentFrame (fileBytes ms)) = (sentFrame (fileBytes ms)).length) :
    ∃ m' L' st', CallTo .sml_transport_write [.int t d, .ptr (.heap file) 0] m (.int .i32 (sentFrame (fileBytes ms)).length) m' ∧
      m'.world = { m.world with sent := sentFrame (fileBytes ms) :: m.world.sent } ∧ Holding m' file buf bytes (ms.map sealed) L' st' ∧ m'.stack = m.stack := by
  have hl := H.len
  obtain ⟨m', L', lost, c, hw, h, hs, _⟩ := c72_write H (transportFrame_clean s { messages := ms } hok st H.len hfit hcov) t d hd (by rw [hall]; omega)
  rw [if_pos hall] at c
  exact ⟨m', L', _, c, hw, h, hs⟩

/-- The buffer of a file replaced by another one. -/
def refill (m : Mem) (buf bytes : Nat) (data : List UInt8) : Mem :=
  { m with heap := setHeap (setHeap m.heap bytes (some (.raw (data.map some)))) buf (some (.obj [.ptr (.heap bytes) 0, nullPtr] [data.length, 0, 0])) }

theorem Holding.refilled (H : Holding m file buf bytes ms L st) (data : List UInt8) (hl : data.length ≤ 2147483647) :
    Holding (refill m buf bytes data) file buf bytes ms L { st with data := data, cursor := 0, error := false } where
  holds := ⟨H.holds.1, H.holds.2.1, fun x hx => (setHeap_other (H.apart x hx).1).trans ((setHeap_other (H.apart x hx).2).trans (H.holds.2.2 x hx))⟩
  apart := H.apart
  two := H.two
  hbuf := setHeap_same
  hbytes := (setHeap_other H.two).trans setHeap_same
  cur := Nat.zero_le _
  len := hl
  ovf := H.ovf
  zero := (setHeap_other (Ne.symm (Nat.ne_of_gt (H.lt H.hbuf).1))).trans ((setHeap_other (Ne.symm (Nat.ne_of_gt (H.lt H.hbytes).1))).trans H.zero)
  free := fun a ha => by
    change m.next ≤ a at ha
    have h1 := (H.lt H.hbuf).2
    have h2 := (H.lt H.hbytes).2
    exact (setHeap_other (by omega)).trans ((setHeap_other (by omega)).trans (H.free a ha))
  ints := H.ints

/-- A memory that holds a message with a list of two entries and an empty buffer of 512 bytes. -/
theorem sample_holding : ∃ m file buf bytes L st, Holding m file buf bytes [sealed sampleMessage] L st ∧ st.data = List.replicate 512 0 ∧ m.world = {} ∧ m.sovf = false := by
  obtain ⟨m, file, buf, bytes, L, st, H, _, _, _, _, ho, _⟩ := sample_held
  exact ⟨_, file, buf, bytes, L, _, (H.refilled (List.replicate 512 0) (by rw [List.length_replicate]; decide)).world {}, rfl, rfl, ho⟩

example : (sentFrame (fileBytes [sealed sampleMessage])).length = 96 ∧ Covered ((List.replicate 512 0).drop 8) (fileBytes [sealed sampleMessage]) ∧ MessageOk true (sealed sampleMessage) ∧
    ITy.conv .i32 0 = ({} : World).num ∧ ({} : World).accept (sentFrame (fileBytes [sealed sampleMessage])) = (sentFrame (fileBytes [sealed sampleMessage])).length :=
  ⟨by decide +kernel, zeros_covered _ _ (by decide +kernel), sampleMessage_ok true, rfl, rfl⟩

/-! ## Receiving -/

/-- C73: whatever arrives on a descriptor below 1024, however `select` and `read` deliver it, the source of `sml_transport_read` ends without an undefined step. If it returns
0 nothing was stored; otherwise it stored one complete frame from the stream, shorter than the buffer, and returns its length. It is the frame of the model on values. -/
theorem c73_read (d : Nat) (hd : d < 1024) (hn : m.world.num = d) (hE : Errs m.world) (maxLen : Nat) (h1 : 1 ≤ maxLen) (h2 : maxLen < 4294967288) (q : Val) (dst : List UInt8 → Mem)
    (hq : Dest m q maxLen dst) (t1 t2 : ITy) :
    ∃ out rest turns ev e, CallTo .sml_transport_read [.int t1 d, q, .int t2 maxLen] m (.int .u64 out.length) { outMem m dst out with world := m.world.at ⟨rest, turns⟩ ev e } ∧
      transportRead ⟨m.world.input, m.world.turns.map Turn.ev⟩ maxLen = .ok (out, ⟨rest, turns.map Turn.ev⟩) ∧
      (out ≠ [] → 16 ≤ out.length ∧ out.length < maxLen ∧ out.length % 4 = 0 ∧ ∃ pre body x y z, out = frame body x y z ∧ Plain body ∧ m.world.input = pre ++ out ++ rest) := by
  obtain ⟨out, fd', e, hf⟩ := c35_frame ⟨m.world.input, m.world.turns.map Turn.ev⟩ maxLen h1 h2
  have hs := c64_waiting d (by omega) (by omega) ⟨m.world.input, m.world.turns⟩ maxLen
  rw [show SFd.plain ⟨m.world.input, m.world.turns⟩ = ⟨m.world.input, m.world.turns.map Turn.ev⟩ from rfl, e] at hs
  cases hr : transportReadS d ⟨m.world.input, m.world.turns⟩ maxLen with
  | ub u =>
    rw [hr] at hs
    cases hs
  | ok p =>
    rw [hr] at hs
    obtain ⟨out', rest, turns⟩ := p
    cases hs
    obtain ⟨ev', e', c⟩ := transportRead_run m d maxLen q m.world dst hd hn hE h2 hq (t1 := t1) (t2 := t2) m.world.ev m.world.errno hr
    exact ⟨_, rest, turns, ev', e', c, e, hf⟩

/-- C73: a frame that comes after harmless noise, while no `read` fails, is stored unchanged. -/
theorem c73_found (d : Nat) (hd : d < 1024) (hn : m.world.num = d) (hE : Errs m.world) (maxLen : Nat) (h2 : maxLen < 4294967288) (q : Val) (dst : List UInt8 → Mem)
    (hq : Dest m q maxLen dst) (t1 t2 : ITy) {noise body rest : List UInt8} {x y z : UInt8} (hin : m.world.input = noise ++ frame body x y z ++ rest) (hno : Harmless noise) (hp : Plain body)
    (hl : (frame body x y z).length < maxLen) (hok : ∀ u ∈ m.world.turns, u.ev ≠ .fail) :
    ∃ turns ev e, CallTo .sml_transport_read [.int t1 d, q, .int t2 maxLen] m (.int .u64 (frame body x y z).length) { dst (frame body x y z) with world := m.world.at ⟨rest, turns⟩ ev e } := by
  obtain ⟨fd', e, hr, _⟩ := read_frame (fd := ⟨m.world.input, m.world.turns.map Turn.ev⟩) (fun v hv => by
    obtain ⟨u, hu, rfl⟩ := List.mem_map.mp hv
    exact hok u hu) hno hp hl h2 hin
  obtain ⟨out, rest', turns, ev, e', c, e2, _⟩ := c73_read d hd hn hE maxLen (by omega) h2 q dst hq t1 t2
  rw [e] at e2
  cases e2
  refine ⟨turns, ev, e', ?_⟩
  have hne : frame body x y z ≠ [] := fun h => by
    have := frame_length body x y z
    rw [h] at this
    simp at this
    omega
  rw [outMem, if_neg hne] at c
  cases hr
  exact c

/-- A memory with a block of 64 bytes at 1, and a stream with a frame after two other bytes that comes in pieces. -/
def listenMem : Mem :=
  { next := 2, heap := fun a => if a = 1 then some (.raw (List.replicate 64 none)) else none,
    world := { num := 3, input := [0x55, 0x66] ++ frame [1, 2, 3, 4] 0 0x12 0x34 ++ [0x77], turns := [⟨[], .give 0⟩, ⟨[.failed, .ready fun i => i == 3], .intr⟩, ⟨[], .give 7⟩] } }

example : (∃ dst, Dest listenMem (.ptr (.heap 1) 0) 64 dst) ∧ listenMem.world.num = (3 : Nat) ∧ Errs listenMem.world ∧ Harmless [0x55, 0x66] ∧ Plain [1, 2, 3, 4] ∧
    ∀ u ∈ listenMem.world.turns, u.ev ≠ .fail :=
  ⟨⟨_, dest_heap (by decide) rfl (by decide)⟩, rfl, ⟨.inl rfl, by decide⟩, ⟨not_occurs_short (by decide), by decide⟩, (plain_cons (bs := [1, 2, 3, 4]) rfl).2 ⟨by decide, plain_nil⟩, by
    intro u hu
    simp only [listenMem, List.mem_cons, List.not_mem_nil, or_false] at hu
    rcases hu with rfl | rfl | rfl <;> simp⟩

/-- C73 (false of the code for others): with any other descriptor the first thing the source of `sml_transport_read` does is to write outside the set of descriptors. -/
theorem c73_limit (d : Int) (h : d < 0 ∨ 1024 ≤ d) (h0 : -2147483648 ≤ d) (h1 : d < 2147483648) (maxLen : Nat) (hm : maxLen < 18446744073709551616) (q : Val) (t1 t2 : ITy) :
    CallBad .sml_transport_read [.int t1 d, q, .int t2 maxLen] m (.buf .oobWrite) := by
  refine CallBad.of (vs := [.int .i32 d, q, .int .u64 maxLen]) ?_ ?_
  · intro env m
    have h1 : ITy.conv .i32 d = d := conv_i32 (by omega) (by omega)
    have h2 : ITy.conv .u64 (maxLen : Int) = maxLen := natConv_u64 (by omega)
    simp only [program, sml_transport_read, bindArgs, convTo, asInt, X_bind, X_pure, h1, h2]
  · have g1 : ∀ b env, getBlock (.stack m.stack.length) env { m with stack := m.stack ++ [b] } = .ok b env { m with stack := m.stack ++ [b] } :=
      fun b env => getBlock_stack (by simp)
    have z1 : ∀ env, storeRec (.ptr (.stack m.stack.length) 0) [] (List.replicate 1024 0) env { m with stack := m.stack ++ [.fresh] } =
        .ok () env { m with stack := m.stack ++ [.obj [] (List.replicate 1024 0)] } := fun env => by
      rw [storeRec, asPtr, X_bind_ok (X_pure _ _ _)]
      simp only
      rw [X_bind_ok (g1 _ _)]
      show setBlock (.stack m.stack.length) (.obj [] (List.replicate 1024 0)) env _ = _
      rw [setBlock_stack, List.set_append_right _ _ (Nat.le_refl _), Nat.sub_self]
      rfl
    have z2 : ∀ env, fdInsert d (.ptr (.stack m.stack.length) 0) env { m with stack := m.stack ++ [.obj [] (List.replicate 1024 0)] } = .bad (.buf .oobWrite) := fun env => by
      have hload : loadSet (.ptr (.stack m.stack.length) 0) env { m with stack := m.stack ++ [.obj [] (List.replicate 1024 0)] } =
          .ok (List.replicate 1024 0) env { m with stack := m.stack ++ [.obj [] (List.replicate 1024 0)] } := by
        rw [loadSet, asPtr, X_bind_ok (X_pure _ _ _)]
        simp only
        rw [X_bind_ok (g1 _ _)]
        rfl
      rw [fdInsert, X_bind_ok hload, if_pos (by rw [List.length_replicate]; omega)]
      rfl
    exact .tail .fdVar (.tail (.fdZero (.ptr upd_same) (z1 _)) (.head (.fdAdd (.int (by rfl)) (.ptr upd_same) (z2 _))))

/-! ## Listening -/

theorem readS_frame {d : Nat} (hd : d < 1024) {fd fd' : SFd} {out : List UInt8} (h : transportReadS d fd 8096 = .ok (out, fd')) (hne : out ≠ []) : (IsFrame out ∧ out.length < 8096) ∧ out.length ≤ 8096 := by
  obtain ⟨out', fd2, e, hf⟩ := c35_frame fd.plain 8096 (by decide) (by decide)
  have hs := c64_waiting d (by omega) (by omega) fd 8096
  rw [h, e] at hs
  cases hs
  obtain ⟨_, h2, _, pre, body, x, y, z, h4, h5, _⟩ := hf hne
  exact ⟨⟨⟨body, x, y, z, h4, h5⟩, h2⟩, Nat.le_of_lt h2⟩

/-- C74: whatever arrives, listening ends, without an undefined step if the receiver has none; the receiver was called with frames of the stream only, complete, in order and disjoint. -/
theorem c74_listen {f : Fn} {d : Nat} {R : Mem → List (List UInt8) → Prop} (hf : Receiver f m.stack.length d (fun fr => IsFrame fr ∧ fr.length < 8096) R) (hd : d < 1024) (hR : R m []) (t : ITy) :
    ∃ frames m', CallTo .sml_transport_listen [.int t d, .fn f] m .undef m' ∧ R m' frames ∧ (∀ fr ∈ frames, IsFrame fr ∧ fr.length < 8096) ∧ Spec.Within frames m.world.input ∧
      transportListen (m.world.input.length + 1) ⟨m.world.input, m.world.turns.map Turn.ev⟩ = .ok frames := by
  obtain ⟨frames, e, h1, h2⟩ := c38_any (m.world.input.length + 1) ⟨m.world.input, m.world.turns.map Turn.ev⟩ (by simp)
  have e' := c64_listen d (by omega) (by omega) (m.world.input.length + 1) ⟨m.world.input, m.world.turns⟩
  obtain ⟨m', c, hR'⟩ := transportListen_run (t := t) hf hd (fun fd out fd' h hne => (readS_frame hd h hne).2) hR (fd := ⟨m.world.input, m.world.turns⟩) rfl rfl (e'.trans e) h1
  exact ⟨frames, m', c, hR', h1, h2, e⟩

/-- C74: the frames of a stream are all handed to the receiver, each once and unchanged, if the bytes between them are harmless and no `read` fails. -/
theorem c74_frames {f : Fn} {d : Nat} {R : Mem → List (List UInt8) → Prop} (hf : Receiver f m.stack.length d (fun fr => IsFrame fr ∧ fr.length < 8096) R) (hd : d < 1024) (hR : R m []) (t : ITy)
    (items : List (List UInt8 × List UInt8)) (tail : List UInt8) (hok : ∀ i ∈ items, Harmless i.1 ∧ IsFrame i.2 ∧ i.2.length < 8096) (ht : ¬ Occurs frameStart tail)
    (hin : m.world.input = (items.map fun i => i.1 ++ i.2).flatten ++ tail) (hnf : ∀ u ∈ m.world.turns, u.ev ≠ .fail) :
    ∃ m', CallTo .sml_transport_listen [.int t d, .fn f] m .undef m' ∧ R m' (items.map Prod.snd) := by
  have e' := c64_listen d (by omega) (by omega) (items.length + 1) ⟨m.world.input, m.world.turns⟩
  have e := c38_frames items tail ⟨m.world.input, m.world.turns.map Turn.ev⟩ (items.length + 1) (by omega) (fun v hv => by
    obtain ⟨u, hu, rfl⟩ := List.mem_map.mp hv
    exact hnf u hu) hok ht hin
  obtain ⟨m', c, hR'⟩ := transportListen_run (t := t) hf hd (fun fd out fd' h hne => (readS_frame hd h hne).2) hR (fd := ⟨m.world.input, m.world.turns⟩) rfl rfl (e'.trans e) fun fr hfr => by
    obtain ⟨i, hi, rfl⟩ := List.mem_map.mp hfr
    exact (hok i hi).2
  exact ⟨m', c, hR'⟩

theorem Receiver.weaken {P Q : List UInt8 → Prop} (hf : Receiver f S d P R) (h : ∀ fr, Q fr → P fr) : Receiver f S d Q R :=
  ⟨hf.byPtr, hf.depth, hf.num, hf.errs, hf.world, fun hR hq => hf.step hR (h _ hq)⟩

/-- `sml_hexdump` is such a receiver, and listening with it prints the frames. -/
example : Receiver .sml_hexdump listenMem.stack.length 3 (fun fr => IsFrame fr ∧ fr.length < 8096)
      (fun m fs => ∃ fd ev e, m = { listenMem.said (fs.flatMap hexdumpText) with world := (listenMem.said (fs.flatMap hexdumpText)).world.at fd ev e }) ∧
    (∃ fd ev e, listenMem = { listenMem.said [] with world := (listenMem.said []).world.at fd ev e }) ∧
    listenMem.world.input = ([([0x55, 0x66], frame [1, 2, 3, 4] 0 0x12 0x34)].map fun i => i.1 ++ i.2).flatten ++ [0x77] :=
  ⟨(hexdump_receiver (d := 3) listenMem rfl ⟨.inl rfl, by decide⟩).weaken fun _ h => h.2, ⟨⟨_, _⟩, _, _, rfl⟩, rfl⟩

/-! ## From one machine to another -/

/-- C75: the source of `sml_transport_write` in one memory and the sources of `sml_transport_read`, `sml_file_parse` and `sml_file_free` in another one, into which the bytes that were given to `write`
come, in any pieces, after harmless noise and before anything else: then the second memory holds the messages that were sent, with their checksums; what was in it before is still there
after `sml_file_free`. The telegram may not have the escape sequence at a position that is a multiple of four (C41). -/
theorem c75_wire (H : Holding m file buf bytes ms L st) (hok : ∀ x ∈ ms, MessageOk true x) (hcnt : ms.length ≤ 32767) (hfit : (sentFrame (fileBytes ms)).length ≤ st.data.length)
    (hcov : Covered (st.data.drop 8) (fileBytes ms)) (hesc : NoEscape (fileBytes ms)) (hlen : (fileBytes ms).length < 294900) (t : ITy) (d : Int) (hd : ITy.conv .i32 d = m.world.num)
    (hall : ∀ bs, m.world.accept bs = bs.length) :
    ∃ bs m1 L1 st1, CallTo .sml_transport_write [.int t d, .ptr (.heap file) 0] m (.int .i32 bs.length) m1 ∧ m1.world.sent = bs :: m.world.sent ∧ Holding m1 file buf bytes (ms.map sealed) L1 st1 ∧
      ∀ (m2 : Mem) (d2 a maxLen : Nat) (old : List (Option UInt8)) (noise rest : List UInt8) (t1 t2 : ITy), d2 < 1024 → m2.world.num = d2 → Errs m2.world → (∀ u ∈ m2.world.turns, u.ev ≠ .fail) →
        m2.world.input = noise ++ bs ++ rest → Harmless noise → bs.length < maxLen → maxLen < 4294967288 → m2.heap a = some (.raw old) → maxLen ≤ old.length →
        m2.heap 0 = none → 0 < m2.next → (∀ b, m2.next ≤ b → m2.heap b = none) → m2.sovf = false →
        ∃ m3 file2 buf2 bytes2 m4 L2 st2 m5, CallTo .sml_transport_read [.int t1 d2, .ptr (.heap a) 0, .int t2 maxLen] m2 (.int .u64 bs.length) m3 ∧ m3.world.input = rest ∧
          CallTo .sml_file_parse [.ptr (.heap a) 8, .int .u64 (bs.length - 16 : Nat)] m3 (.ptr (.heap file2) 0) m4 ∧ Holding m4 file2 buf2 bytes2 (ms.map sealed) L2 st2 ∧
          CallTo .sml_file_free [.ptr (.heap file2) 0] m4 .undef m5 ∧ ∀ b c, b ≠ a → m2.heap b = some c → m5.heap b = some c := by
  obtain ⟨depth, hdp, hdep⟩ := depth_bound ms ((fileBytes ms).length + 16)
  obtain ⟨bs, st', hw, hrecv⟩ := c40_end_to_end depth ms (fun x hx => ⟨hok x hx, hdep x hx⟩) (by omega) hcnt st H.len hfit hcov hesc
  have hw2 := transportFrame_clean true { messages := ms } hok st H.len hfit hcov
  rw [hw] at hw2
  obtain ⟨hbs, -⟩ : bs = sentFrame (fileBytes ms) ∧ True := by
    cases hw2
    exact ⟨rfl, trivial⟩
  have hsl := sentFrame_length (fileBytes ms)
  have hpad : padding (fileBytes ms).length ≤ 3 := by unfold padding; omega
  have hbl : bs.length ≤ st.data.length := by rw [hbs]; exact hfit
  have h16 : 16 ≤ bs.length := by rw [hbs]; omega
  have hl := H.len
  obtain ⟨m1, L1, lost, c, hworld, h, _⟩ := c72_write H hw t d hd (by rw [hall]; omega)
  rw [if_pos (hall bs)] at c
  refine ⟨bs, m1, L1, st', c, by rw [hworld], h, ?_⟩
  intro m2 d2 a maxLen old noise rest t1 t2 hd2 hn2 hE hok2 hin hno hlt hm hblk hold hz h0 hfree hov
  have ha : a ≠ 0 := fun h => by
    rw [h, hz] at hblk
    cases hblk
  obtain ⟨fd', s, e1, hrest, e2, _⟩ := hrecv ⟨m2.world.input, m2.world.turns.map Turn.ev⟩ noise rest maxLen hin hno (fun v hv => by
    obtain ⟨u, hu, rfl⟩ := List.mem_map.mp hv
    exact hok2 u hu) hlt hm
  obtain ⟨out, rest', turns, ev, e', c3, e3, _⟩ := c73_read d2 hd2 hn2 hE maxLen (by omega) hm (.ptr (.heap a) 0) _ (dest_heap ha hblk hold) t1 t2
  rw [e1] at e3
  cases e3
  have hne : bs ≠ [] := fun h => by
    rw [h] at hbs
    rw [← hbs] at hsl
    simp at hsl
    omega
  rw [outMem, if_neg hne] at c3
  generalize hm3 : ({ m2 with heap := setHeap m2.heap a (some (.raw (bs.map some ++ old.drop bs.length))), world := m2.world.at ⟨rest', turns⟩ ev e' } : Mem) = m3 at c3
  have hpl : ((bs.drop 8).take (bs.length - 16)).length = bs.length - 16 := by
    rw [List.length_take, List.length_drop]
    omega
  have hp : ∀ env, loadBytes (.ptr (.heap a) 8) ((bs.drop 8).take (bs.length - 16)).length env m3 = .ok ((bs.drop 8).take (bs.length - 16)) env m3 := by
    intro env
    rw [hpl]
    refine loadBytes_raw' (bs := bs.map some ++ old.drop bs.length) (getBlock_heap ha (by rw [← hm3]; exact setHeap_same)) ?_ ?_
    · rw [List.length_append, List.length_map]
      omega
    · rw [List.map_take, List.map_drop, List.drop_append_of_le_length (by rw [List.length_map]; omega), List.take_append_of_le_length (by rw [List.length_drop, List.length_map]; omega)]
  have hlt2 : ∀ b, m3.next ≤ b → m3.heap b = none := by
    intro b hb
    rw [← hm3] at hb ⊢
    change m2.next ≤ b at hb
    have : b ≠ a := fun h => by
      rw [h] at hb
      rw [hfree a hb] at hblk
      cases hblk
    exact (setHeap_other this).trans (hfree b hb)
  have hz3 : m3.heap 0 = none := by
    rw [← hm3]
    exact (setHeap_other (Ne.symm ha)).trans hz
  have hn3 : 0 < m3.next := by rw [← hm3]; exact h0
  have hov3 : m3.sovf = false := by rw [← hm3]; exact hov
  have hl3 : ((bs.drop 8).take (bs.length - 16)).length ≤ 294912 := by rw [hpl, hbs]; omega
  obtain ⟨f, s2, file2, buf2, bytes2, m4, L2, e4, _, c4, H4, hkeep, _⟩ := c71_parsed m3 hz3 hn3 hlt2 hov3 _ hl3 _ hp depth (by rw [hpl, hbs]; omega)
  rw [e2] at e4
  cases e4
  obtain ⟨m5, lost5, c5, _, _, _, k5, _⟩ := c71_free H4
  rw [hpl] at c4
  refine ⟨m3, file2, buf2, bytes2, m4, L2, s, m5, c3, by rw [← hm3]; exact hrest, c4, H4, c5, ?_⟩
  intro b c hb hc
  have h3 : m3.heap b = some c := by
    rw [← hm3]
    exact (setHeap_other hb).trans hc
  obtain ⟨x1, x2, x3, x4⟩ := hkeep b c h3
  rw [k5 b x2 x3 x4]
  exact x1

/-- The memory of `sample_holding` is one to send from (the other conditions of C75 for it). -/
example : NoEscape (fileBytes [sealed sampleMessage]) ∧ (fileBytes [sealed sampleMessage]).length < 294900 ∧ ∀ bs, ({} : World).accept bs = bs.length :=
  ⟨(noEscape_iff _).2 (by decide +kernel), by decide +kernel, fun _ => rfl⟩

/-- A memory to receive in. -/
example : ∃ m2 : Mem, m2.world.num = (3 : Nat) ∧ Errs m2.world ∧ (∀ u ∈ m2.world.turns, u.ev ≠ .fail) ∧ m2.world.input = [0x55] ++ sentFrame (fileBytes [sealed sampleMessage]) ++ [0x66] ∧ Harmless [0x55] ∧
    (sentFrame (fileBytes [sealed sampleMessage])).length < 512 ∧ m2.heap 1 = some (.raw (List.replicate 512 none)) ∧ m2.heap 0 = none ∧ 0 < m2.next ∧ (∀ b, m2.next ≤ b → m2.heap b = none) ∧ m2.sovf = false :=
  ⟨{ next := 2, heap := fun a => if a = 1 then some (.raw (List.replicate 512 none)) else none,
     world := { num := 3, input := [0x55] ++ sentFrame (fileBytes [sealed sampleMessage]) ++ [0x66], turns := [⟨[], .give 4⟩, ⟨[], .intr⟩] } },
    rfl, ⟨.inl rfl, by decide⟩, by simp, rfl, ⟨not_occurs_short (by decide), by decide⟩, by decide +kernel, rfl, rfl, by decide, fun b hb => if_neg (by simp only at hb; omega), rfl⟩

end Sml.C
