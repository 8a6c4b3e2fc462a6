import Verif.Props.SourceUnique
import Verif.Props.SourceLong
import Verif.Props.Stream

/-!
# C92: streams of telegrams, from the source of the parser

What C10, C11 and C12 say of the model on values, for the source of `sml_file_parse` and telegrams of any length up to `INT_MAX`: how the
messages of a stream follow from those of its parts.
-/

namespace Sml.C

open Spec

/-- The bytes `bs` are at `p` in a memory that the program may be in. -/
structure Given (m : Mem) (p : Val) (bs : List UInt8) : Prop where
  zero : m.heap 0 = none
  pos : 0 < m.next
  free : ∀ a, m.next ≤ a → m.heap a = none
  ovf : m.sovf = false
  load : ∀ env, loadBytes p bs.length env m = .ok bs env m

/-- The source of `sml_file_parse` makes of these bytes a file of these messages, wherever they are; `err` is the error flag of its buffer. -/
def Delivers (bs : List UInt8) (ms : List Message) (err : Bool) : Prop :=
  ∀ m p, Given m p bs → ∃ (file buf bytes : Nat) (m1 : Mem) (L : List (Nat × HCell)) (st : St),
    CallTo .sml_file_parse [p, .int .u64 bs.length] m (.ptr (.heap file) 0) m1 ∧ Holding m1 file buf bytes ms L st ∧ st.data = bs ∧ st.error = err

/-- The source of `sml_file_parse` comes to an undefined step: the store in front of the array of messages. -/
def Corrupts (bs : List UInt8) : Prop :=
  ∀ m p, Given m p bs → ∀ n env, call program n .sml_file_parse [p, .int .u64 bs.length] env m = .bad (.buf .fuel) ∨
    call program n .sml_file_parse [p, .int .u64 bs.length] env m = .bad (.buf .oobRead)

/-- What these bytes are to the source of `sml_file_parse`: these messages, if the counter of messages can count them. -/
def ReadAs (bs : List UInt8) (ms : List Message) (err : Bool) : Prop :=
  (ms.length ≤ 32767 → Delivers bs ms err) ∧ (32768 ≤ ms.length → Corrupts bs)

theorem given_bytesMem (bs : List UInt8) : Given (bytesMem bs) (.ptr (.heap 1) 0) bs :=
  ⟨rfl, Nat.zero_lt_two, fun a ha => if_neg (by simp only [bytesMem] at ha; omega), rfl, bytesMem_load bs⟩

theorem reads_of_run {depth : Nat} {bs : List UInt8} {ms : List Message} {s : St} (hlen : bs.length ≤ 2147483647) (hd : bs.length < 4 * depth)
    (h : Run (messageParse depth) { data := bs, live := 3 } ms s) : ReadAs bs ms s.error := by
  have hpre : Pre (4 * depth) ({ data := bs, live := 3 } : St) := ⟨by simp, rfl, by simpa using hd⟩
  have hone : ∀ {ms' s'}, Run (messageParse depth) { data := bs, live := 3 } ms' s' → ms' = ms ∧ s'.error = s.error := fun h' =>
    run_same h h' (fun _ => rfl) (by simp) (by simp) rfl rfl hlen hlen
  rcases fileLoop_ends (depth := depth) (bs.length + 1) { messages := [] } { data := bs, live := 3 } hlen hpre (by simp) with ⟨f, s1, e, _⟩ | ⟨e, _⟩
  · obtain ⟨h1, h2⟩ := hone (Sml.fileParse_run (depth := depth) e)
    have hc := fileLoop_count _ _ _ _ _ e (by simp)
    rw [h1] at hc
    refine ⟨fun _ m p G => ?_, fun h => by omega⟩
    obtain ⟨file, buf, bytes, m1, L, hdata, c, H, _⟩ := c71_parsed_ok m G.zero G.pos G.free G.ovf bs hlen p G.load depth hd f s1 e
    rw [h1] at H
    exact ⟨file, buf, bytes, m1, L, s1, c, H, hdata, h2⟩
  · obtain ⟨ms', s', hr, hc⟩ := fileLoop_over _ _ _ hlen hpre (by simp) e
    rw [(hone hr).1] at hc
    simp only [List.length_nil, Nat.zero_add] at hc
    exact ⟨fun h => by omega, fun _ m p G n env => (fileParse_full (depth := depth) (Nat.ne_of_gt G.pos) G.free G.ovf hlen hd G.load e).all n env⟩

/-- C92: all bytes are read as some list of messages. -/
theorem c92_total (bs : List UInt8) (hlen : bs.length ≤ 2147483647) : ∃ ms err, ReadAs bs ms err := by
  obtain ⟨ms, s, h⟩ := run_total (depth := bs.length + 1) bs.length { data := bs, live := 3 } hlen ⟨by simp, rfl, by simp; omega⟩ (by simp)
  exact ⟨ms, s.error, reads_of_run hlen (by omega) h⟩

/-- C92: with one number of messages and one error flag. -/
theorem c92_flag (bs : List UInt8) (ms ms' : List Message) (e e' : Bool) (h : Delivers bs ms e) (h' : Delivers bs ms' e') : ms.length = ms'.length ∧ e = e' := by
  obtain ⟨file, buf, bytes, m1, L, st, c, H, _, he⟩ := h _ _ (given_bytesMem bs)
  obtain ⟨file', buf', bytes', m1', L', st', c', H', _, he'⟩ := h' _ _ (given_bytesMem bs)
  obtain ⟨hv, rfl⟩ := c65_deterministic c c'
  cases hv
  obtain ⟨arr, hf⟩ := H.holds.head
  obtain ⟨arr', hf'⟩ := H'.holds.head
  rw [hf] at hf'
  simp only [Option.some.injEq, Block.obj.injEq, List.cons.injEq, ptrVal, Val.ptr.injEq, Loc.heap.injEq, and_true] at hf'
  obtain ⟨⟨_, rfl⟩, hn⟩ := hf'
  have hb := H.hbuf
  rw [H'.hbuf] at hb
  simp only [Option.some.injEq, Block.obj.injEq, List.cons.injEq, and_true] at hb
  refine ⟨by omega, ?_⟩
  rw [← he, ← he']
  have := hb.2.2.2
  revert this
  cases st.error <;> cases st'.error <;> simp

/-- C92: and as one list of messages, among messages the format can represent. -/
theorem c92_unique (bs : List UInt8) (ms ms' : List Message) (e e' : Bool) (h : Delivers bs ms e) (h' : Delivers bs ms' e') (hok : ∀ x ∈ ms, MessageOk true x)
    (hok' : ∀ x ∈ ms', MessageOk true x) (hcnt : ms.length ≤ 32767) (hlen : (fileBytes ms).length ≤ 2147483647) (hlen' : (fileBytes ms').length ≤ 2147483647)
    (hc : ∀ x ∈ ms, CrcFits x) (hc' : ∀ x ∈ ms', CrcFits x) : ms = ms' := by
  obtain ⟨file, buf, bytes, m1, L, st, c, H, _⟩ := h _ _ (given_bytesMem bs)
  obtain ⟨file', buf', bytes', m1', L', st', c', H', _⟩ := h' _ _ (given_bytesMem bs)
  obtain ⟨hv, rfl⟩ := c65_deterministic c c'
  cases hv
  exact c91_unique H H' hok hok' hcnt hlen hlen' hc hc'

/-- C92: the messages of the beginning of a stream are the first messages of the stream. -/
theorem c92_prefix (a b : List UInt8) (hlen : (a ++ b).length ≤ 2147483647) :
    ∃ ms e ms2 e', ReadAs a ms e ∧ ReadAs (a ++ b) (ms ++ ms2) e' := by
  have hl : (a ++ b).length = a.length + b.length := List.length_append
  obtain ⟨ms, s, h⟩ := run_total (depth := (a ++ b).length + 1) a.length { data := a, live := 3 } (by simp only; omega) ⟨by simp, rfl, by simp; omega⟩ (by simp)
  obtain ⟨ms', s', h'⟩ := run_total (depth := (a ++ b).length + 1) (a ++ b).length { data := a ++ b, live := 3 } hlen ⟨by simp, rfl, by simp; omega⟩ (by simp)
  obtain ⟨ms2, rfl, _⟩ := run_prefix h h' (extends_append _ _ _ _) (by simp) (by simp) rfl rfl (by simp only; omega) hlen
  exact ⟨ms, s.error, ms2, s'.error, reads_of_run (by omega) (by omega) h, reads_of_run hlen (by omega) h'⟩

theorem run_reading {depth : Nat} (bs : List UInt8) (hlen : bs.length ≤ 2147483647) (hd : bs.length < 4 * depth) :
    ∃ ms s, Run (messageParse depth) { data := bs, live := 3 } ms s :=
  run_total (depth := depth) bs.length { data := bs, live := 3 } hlen ⟨by simp, rfl, by simpa using hd⟩ (by simp)

theorem run_join {depth : Nat} {a b : List UInt8} {ms msb : List Message} {s sb : St} (hlen : (a ++ b).length ≤ 2147483647) (hd : (a ++ b).length < 4 * depth)
    (h : Run (messageParse depth) { data := a, live := 3 } ms s) (he : s.error = false) (hb : Run (messageParse depth) { data := b, live := 3 } msb sb) :
    ∃ s', Run (messageParse depth) { data := a ++ b, live := 3 } (ms ++ msb) s' ∧ s'.error = sb.error := by
  have hl : (a ++ b).length = a.length + b.length := List.length_append
  obtain ⟨ms', s', h'⟩ := run_reading (depth := depth) (a ++ b) hlen hd
  obtain ⟨ms2, rfl, h2⟩ := run_prefix h h' (extends_append _ _ _ _) (by simp) (by simp) rfl rfl (by simp only; omega) hlen
  obtain ⟨st2, r2, d2, c2, e2⟩ := h2 he
  simp only [Nat.zero_add, Nat.sub_zero] at d2 c2
  obtain ⟨rfl, k2⟩ := run_same hb r2 (fun i => by
    simp only [Nat.zero_add]
    rw [d2, c2, List.getElem?_append_right (by omega)]
    congr 1; omega) (by simp) (by rw [d2, c2]; simp) rfl e2 (by simp only; omega) (by rw [d2]; omega)
  exact ⟨s', h', k2⟩

/-- C92: behind a telegram that is read without error another one is read as if it were alone. -/
theorem c92_concat (a b : List UInt8) (hlen : (a ++ b).length ≤ 2147483647) :
    ∃ ms e ms2 e2, ReadAs a ms e ∧ ReadAs b ms2 e2 ∧ (e = false → ReadAs (a ++ b) (ms ++ ms2) e2) := by
  have hl : (a ++ b).length = a.length + b.length := List.length_append
  obtain ⟨ms, s, h⟩ := run_reading (depth := (a ++ b).length + 1) a (by omega) (by omega)
  obtain ⟨msb, sb, hb⟩ := run_reading (depth := (a ++ b).length + 1) b (by omega) (by omega)
  refine ⟨ms, s.error, msb, sb.error, reads_of_run (by omega) (by omega) h, reads_of_run (by omega) (by omega) hb, fun he => ?_⟩
  obtain ⟨s', h', k⟩ := run_join hlen (by omega) h he hb
  rw [← k]
  exact reads_of_run hlen (by omega) h'

theorem run_zeros {depth n : Nat} {ms : List Message} {s : St} (h : Run (messageParse depth) { data := List.replicate n 0, live := 3 } ms s) : ms = [] ∧ s.error = false :=
  run_only_zeros h (fun _ hb => List.eq_of_mem_replicate (List.mem_of_mem_drop hb)) rfl

/-- C92: zero bytes in front change nothing. -/
theorem c92_before (n : Nat) (b : List UInt8) (hlen : n + b.length ≤ 2147483647) :
    ∃ ms e, ReadAs b ms e ∧ ReadAs (List.replicate n 0 ++ b) ms e := by
  have hl : (List.replicate n (0 : UInt8) ++ b).length = n + b.length := by simp
  obtain ⟨ms, s, h⟩ := run_reading (depth := n + b.length + 1) (List.replicate n 0) (by simp; omega) (by simp; omega)
  obtain ⟨msb, sb, hb⟩ := run_reading (depth := n + b.length + 1) b (by omega) (by omega)
  obtain ⟨rfl, he⟩ := run_zeros h
  obtain ⟨s', h', k⟩ := run_join (by omega) (by omega) h he hb
  refine ⟨msb, sb.error, reads_of_run (by omega) (by omega) hb, ?_⟩
  rw [← k]
  exact reads_of_run (by omega) (by omega) h'

/-- C92: nor do zero bytes between two telegrams, and behind the last one, if what is in front is read without error. -/
theorem c92_between (n : Nat) (a b : List UInt8) (hlen : a.length + n + b.length ≤ 2147483647) :
    ∃ ms e ms2 e2, ReadAs a ms e ∧ ReadAs b ms2 e2 ∧ (e = false → ReadAs (a ++ b) (ms ++ ms2) e2 ∧ ReadAs (a ++ (List.replicate n 0 ++ b)) (ms ++ ms2) e2) := by
  have hl : (a ++ (List.replicate n (0 : UInt8) ++ b)).length = a.length + n + b.length := by simp [Nat.add_assoc]
  have hl2 : (List.replicate n (0 : UInt8) ++ b).length = n + b.length := by simp
  have hl3 : (a ++ b).length = a.length + b.length := by simp
  obtain ⟨ms, s, h⟩ := run_reading (depth := a.length + n + b.length + 1) a (by omega) (by omega)
  obtain ⟨msz, sz, hz⟩ := run_reading (depth := a.length + n + b.length + 1) (List.replicate n 0) (by simp; omega) (by simp; omega)
  obtain ⟨msb, sb, hb⟩ := run_reading (depth := a.length + n + b.length + 1) b (by omega) (by omega)
  obtain ⟨rfl, hez⟩ := run_zeros hz
  refine ⟨ms, s.error, msb, sb.error, reads_of_run (by omega) (by omega) h, reads_of_run (by omega) (by omega) hb, fun he => ⟨?_, ?_⟩⟩
  · obtain ⟨s', h', k⟩ := run_join (by omega) (by omega) h he hb
    rw [← k]
    exact reads_of_run (by omega) (by omega) h'
  · obtain ⟨s1, h1, k1⟩ := run_join (by omega) (by omega) hz hez hb
    obtain ⟨s', h', k⟩ := run_join (by omega) (by omega) h he h1
    rw [← k1, ← k]
    exact reads_of_run (by omega) (by omega) h'

/-- C92: a message that is dropped (a telegram read without error and without a message) takes nothing else with it. -/
theorem c92_dropped (a bad b : List UInt8) (hlen : (a ++ (bad ++ b)).length ≤ 2147483647) :
    ∃ ms e ms1 e1 ms2 e2, ReadAs a ms e ∧ ReadAs bad ms1 e1 ∧ ReadAs b ms2 e2 ∧
      (e = false → e1 = false → ms1 = [] → ReadAs (a ++ b) (ms ++ ms2) e2 ∧ ReadAs (a ++ (bad ++ b)) (ms ++ ms2) e2) := by
  have hl : (a ++ (bad ++ b)).length = a.length + bad.length + b.length := by simp [Nat.add_assoc]
  have hl2 : (bad ++ b).length = bad.length + b.length := by simp
  have hl3 : (a ++ b).length = a.length + b.length := by simp
  obtain ⟨ms, s, h⟩ := run_reading (depth := (a ++ (bad ++ b)).length + 1) a (by omega) (by omega)
  obtain ⟨msz, sz, hz⟩ := run_reading (depth := (a ++ (bad ++ b)).length + 1) bad (by omega) (by omega)
  obtain ⟨msb, sb, hb⟩ := run_reading (depth := (a ++ (bad ++ b)).length + 1) b (by omega) (by omega)
  refine ⟨ms, s.error, msz, sz.error, msb, sb.error, reads_of_run (by omega) (by omega) h, reads_of_run (by omega) (by omega) hz,
    reads_of_run (by omega) (by omega) hb, fun he hez hn => ⟨?_, ?_⟩⟩
  · obtain ⟨s', h', k⟩ := run_join (by omega) (by omega) h he hb
    rw [← k]
    exact reads_of_run (by omega) (by omega) h'
  · subst hn
    obtain ⟨s1, h1, k1⟩ := run_join (by omega) (by omega) hz hez hb
    obtain ⟨s', h', k⟩ := run_join (by omega) (by omega) h he h1
    rw [← k1, ← k]
    exact reads_of_run (by omega) (by omega) h'

theorem run_all {depth : Nat} : (bss : List (List UInt8)) → bss.flatten.length ≤ 2147483647 → bss.flatten.length < 4 * depth →
    ∃ rs : List (List Message × Bool), rs.length = bss.length ∧ (∀ x ∈ bss.zip rs, ReadAs x.1 x.2.1 x.2.2) ∧
      ((∀ r ∈ rs, r.2 = false) → ∃ s, Run (messageParse depth) { data := bss.flatten, live := 3 } (rs.map Prod.fst).flatten s ∧ s.error = false)
  | [], _, _ => ⟨[], rfl, fun _ h => (nomatch h), fun _ => ⟨_, .done (Nat.le_refl _), rfl⟩⟩
  | b :: bss, hlen, hd => by
    have hl : (b :: bss).flatten.length = b.length + bss.flatten.length := by simp
    obtain ⟨rs, h1, h2, h3⟩ := run_all bss (depth := depth) (by omega) (by omega)
    obtain ⟨ms, s, h⟩ := run_reading (depth := depth) b (by omega) (by omega)
    refine ⟨(ms, s.error) :: rs, by simp [h1], fun x hx => ?_, fun hr => ?_⟩
    · rw [List.zip_cons_cons] at hx
      rcases List.mem_cons.mp hx with rfl | hx
      · show ReadAs b ms s.error
        exact reads_of_run (by omega) (by omega) h
      · exact h2 x hx
    · obtain ⟨s2, g2, e2⟩ := h3 fun r hr' => hr r (List.mem_cons_of_mem _ hr')
      obtain ⟨s', h', k⟩ := run_join (a := b) (b := bss.flatten) (by rw [← List.flatten_cons]; omega) (by rw [← List.flatten_cons]; omega) h (hr _ (List.mem_cons_self ..)) g2
      exact ⟨s', h', k.trans e2⟩

/-- C92: a stream of any number of telegrams, each of them read without error when it is alone, is read as all their messages. -/
theorem c92_many (bss : List (List UInt8)) (hlen : bss.flatten.length ≤ 2147483647) :
    ∃ rs : List (List Message × Bool), rs.length = bss.length ∧ (∀ x ∈ bss.zip rs, ReadAs x.1 x.2.1 x.2.2) ∧
      ((∀ r ∈ rs, r.2 = false) → ReadAs bss.flatten (rs.map Prod.fst).flatten false) := by
  obtain ⟨rs, h1, h2, h3⟩ := run_all (depth := bss.flatten.length + 1) bss hlen (by omega)
  refine ⟨rs, h1, h2, fun hr => ?_⟩
  obtain ⟨s, h, he⟩ := h3 hr
  rw [← he]
  exact reads_of_run hlen (by omega) h

theorem delivers_sample {bs : List UInt8} {d n : Nat} (hl : bs.length ≤ 2147483647) (hd : bs.length < 4 * d)
    (h : Samples.holds (fileParse d bs) (fun f s => f.messages.length == n && !s.error) = true) : ∃ ms, ms.length = n ∧ Delivers bs ms false := by
  unfold Samples.holds at h
  split at h
  next f s e =>
    simp only [Bool.and_eq_true, beq_iff_eq, Bool.not_eq_true'] at h
    have hr := reads_of_run hl hd (Sml.fileParse_run (depth := d) e)
    rw [h.2] at hr
    exact ⟨f.messages, h.1, hr.1 (fileLoop_count _ _ _ _ _ e (by simp))⟩
  next => cases h

/-- The sample telegram with three messages, a message with a wrong checksum behind it and the telegram once more: six messages are delivered, as if the wrong
message were not there. -/
example : ∃ ms ms2, ms.length = 3 ∧ ms2.length = 3 ∧ Delivers Samples.telegram ms false ∧ Delivers (Samples.telegram ++ (Samples.badMsg ++ Samples.telegram)) (ms ++ ms2) false := by
  obtain ⟨ms, e, ms1, e1, ms2, e2, h, h1, h2, hr⟩ := c92_dropped Samples.telegram Samples.badMsg Samples.telegram (by decide +kernel)
  have known : ∀ {bs : List UInt8} {ms : List Message} {e : Bool} {d n : Nat}, ReadAs bs ms e → bs.length ≤ 294912 → bs.length < 4 * d →
      Samples.holds (fileParse d bs) (fun f s => f.messages.length == n && !s.error) = true → n ≤ 32767 → ms.length = n ∧ e = false := by
    intro bs ms e d n h hl hd hs hn
    obtain ⟨ms', hms, h'⟩ := delivers_sample (by omega) hd hs
    by_cases hc : ms.length ≤ 32767
    · obtain ⟨k1, k2⟩ := c92_flag bs ms ms' e false (h.1 hc) h'
      exact ⟨by omega, k2⟩
    · obtain ⟨file, buf, bytes, m1, L, st, ⟨N, c⟩, _⟩ := h' _ _ (given_bytesMem bs)
      have c := c N (Nat.le_refl _) fun _ => .undef
      rcases h.2 (by omega) _ _ (given_bytesMem bs) N (fun _ => .undef) with k | k <;> exact nomatch c.symm.trans k
  obtain ⟨n1, rfl⟩ := known (d := 80) (n := 3) h (by decide +kernel) (by decide +kernel) (by decide +kernel) (by decide)
  obtain ⟨n2, rfl⟩ := known (d := 80) (n := 0) h1 (by decide +kernel) (by decide +kernel) (by decide +kernel) (by decide)
  obtain ⟨n3, rfl⟩ := known (d := 80) (n := 3) h2 (by decide +kernel) (by decide +kernel) (by decide +kernel) (by decide)
  exact ⟨ms, ms2, n1, n3, h.1 (by omega), (hr rfl rfl (List.length_eq_zero_iff.mp n2)).2.1 (by rw [List.length_append]; omega)⟩

end Sml.C
