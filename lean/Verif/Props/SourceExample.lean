import Verif.Proofs.SourcePrintBad
import Verif.Props.SourceTransport
import Verif.Props.Standard
import Verif.Proofs.SmoothFile

/-!
# C79, C80: the example program, run from its source
-/

namespace Sml.C

open Spec (MessageOk messageDepth NoEscape sentFrame fileBytes sealed WellTyped frame IsFrame Manageable responseOf lookedAt tagOf SpellsInfo NumberOf NearestDouble Carries heard PrintsTelegram PrintsTelegrams entriesOf AllLegible GoodPow)

/-! ## The functions it calls -/

/-- C79: `dlms_get_unit` returns the unit of the standard for each of the 256 codes, NULL if there is none. -/
theorem c79_unit (code : Nat) (hc : code < 256) (m : Mem) :
    CallTo .dlms_get_unit [.int .u8 code] m (match (Spec.unitOf code).map Spec.PhysUnit.text with | some s => .str s | none => nullPtr) m := by
  obtain ⟨r, h1, h2⟩ := unit_run hc m
  rw [c48_standard ⟨code, hc⟩] at h1
  cases h1
  have : unitVal ((Spec.unitOf code).map Spec.PhysUnit.text) = (match (Spec.unitOf code).map Spec.PhysUnit.text with | some s => .str s | none => nullPtr) := by
    cases (Spec.unitOf code).map Spec.PhysUnit.text <;> rfl
  rwa [this] at h2

example : ∃ code : Nat, code < 256 ∧ (Spec.unitOf code).map Spec.PhysUnit.text = some "Wh" := ⟨30, by decide, by decide +kernel⟩

theorem numberOf_typed {v : Value} {x : Int} (h : NumberOf v x) : WellTyped v := by
  cases h with
  | signed h hv => rcases h with rfl | rfl | rfl | rfl <;> simp [WellTyped] <;> omega
  | unsigned h hv => rcases h with rfl | rfl | rfl | rfl <;> simp [WellTyped] <;> omega

/-- C79: `sml_value_to_double` returns, for a number of any type that is in memory, the nearest double. -/
theorem c79_double {v : Value} {x : Int} (r : Ready S m) (hr : RValue v a B) (hB : Sml.Within B S) (h : NumberOf v x) :
    ∃ d, CallTo .sml_value_to_double [ptrVal a] m (.dbl d 0) m ∧ NearestDouble x d ∧ (x.natAbs ≤ 2 ^ 53 → d = x) := by
  obtain ⟨d, h1, h2, h3⟩ := c45_nearest v x h { data := [] }
  exact ⟨d, double_run r hr hB (.inl (numberOf_typed h)) h1, h2, h3⟩

/-- The value -2 in one byte, in the blocks 1 and 2. -/
example : Ready [(1, .struct [2] [0x51]), (2, .num ⟨1, 254⟩)] { next := 3, heap := fun a => if a = 1 then some (enc (.struct [2] [0x51])) else if a = 2 then some (enc (.num ⟨1, 254⟩)) else none } ∧
    RValue ⟨0x51, .num (some ⟨1, 254⟩)⟩ 1 [(1, .struct [2] [0x51]), (2, .num ⟨1, 254⟩)] ∧ NumberOf ⟨0x51, .num (some ⟨1, 254⟩)⟩ (-2) := by
  refine ⟨⟨by decide, ?_, fun a ha => ?_⟩, ⟨by simp, [2], [(2, .num ⟨1, 254⟩)], .single rfl, rfl⟩, .signed (n := 1) (v := 254) (.inl rfl) (by decide)⟩
  · simp only [List.mem_cons, Prod.mk.injEq, List.not_mem_nil, or_false]
    rintro a c (⟨rfl, rfl⟩ | ⟨rfl, rfl⟩) <;> exact ⟨by decide, rfl⟩
  · simp only at ha ⊢
    rw [if_neg (by omega), if_neg (by omega)]

/-- C79, exactly: after `sml_file_parse` of any buffer it reads, `sml_file_print` prints the number of messages, the number of bytes used and the tags of the bodies if all messages have a body;
otherwise it reads through NULL. Apart from the text nothing is changed. -/
theorem c79_print_ok (m : Mem) (h0 : 0 < m.next) (hw : ∀ a, m.next ≤ a → m.heap a = none) (hov : m.sovf = false) (buffer : List UInt8) (hlen : buffer.length ≤ 2147483647) (p : Val)
    (hp : ∀ env, Sml.C.loadBytes p buffer.length env m = .ok buffer env m) (depth : Nat) (hd : buffer.length < 4 * depth) (f : File) (s : St) (e : fileParse depth buffer = .ok f s) :
    ∃ q m1, CallTo .sml_file_parse [p, .int .u64 buffer.length] m q m1 ∧ m1.world = m.world ∧
      ((∀ x ∈ f.messages, x.messageBody ≠ none) → ∃ t, CallTo .sml_file_print [q] m1 .undef { m1 with world := { m.world with out := m.world.out ++ t } } ∧
        SpellsInfo f.messages.length s.cursor (f.messages.map tagOf) t) ∧
      ((∃ x ∈ f.messages, x.messageBody = none) → CallBad .sml_file_print [q] m1 .null) := by
  obtain ⟨h1, h2, L, g, g', c1, _, i1, hrep, o1, _, l1, _⟩ := source_run_ok h0 hw hov hlen hp e
  obtain ⟨hst, _⟩ := fileParse_ok hlen hd e
  have hn : f.messages.length < 32768 := Nat.lt_succ_of_le (fileLoop_count _ _ _ _ _ e (by simp))
  have hcur := i1.good.cur
  have hlo : s.data = buffer := hst.data
  have rdy : Ready (L ++ g) (conc (fileCtx m) s h1) := ready_parsed i1 o1 (fun a ha => hw a (Nat.le_trans o1.le ha)) fun _ _ => rfl
  have hwin : Sml.Within L (L ++ g) := ⟨g, .refl _⟩
  have hbuf : (conc (fileCtx m) s h1).heap (m.next + 1) = some (.obj [.ptr (.heap (m.next + 2)) 0, nullPtr] [s.data.length, s.cursor, if s.error then 1 else 0]) := by
    show (if m.next + 1 = m.next + 1 then _ else _) = _
    rw [if_pos rfl]
    rfl
  refine ⟨ptrVal m.next, _, c1, rfl, fun hb => ?_, filePrint_bad rdy hrep hwin hn (by omega) hbuf rfl⟩
  have hpt : printTags f.messages s = .ok (f.messages.map tagOf) s := (printTags_run f.messages (fileParse_arrived (by omega) e) s).1 hb
  have c := filePrint_run rdy hrep hwin hn (by omega) hbuf (cur := s.cursor) rfl hpt
  refine ⟨_, ?_, info_spells _ _ _⟩
  have : (conc (fileCtx m) s h1).after (fileInfoText ⟨f.messages.length, s.cursor, f.messages.map tagOf⟩) 0 [] =
      { conc (fileCtx m) s h1 with world := { m.world with out := m.world.out ++ fileInfoText ⟨f.messages.length, s.cursor, f.messages.map tagOf⟩ } } := by
    simp only [Mem.after, Nat.add_zero, List.append_nil]
    rfl
  rw [← this]
  exact c

/-- C79, for at most 294912 bytes nothing has to be assumed: after `sml_file_parse` `sml_file_print` prints the number of messages, the number of bytes used and the tags of the bodies if all messages have a body; otherwise
it reads through NULL. Apart from the text nothing is changed. -/
theorem c79_print (m : Mem) (h0 : 0 < m.next) (hw : ∀ a, m.next ≤ a → m.heap a = none) (hov : m.sovf = false) (buffer : List UInt8) (hlen : buffer.length ≤ 294912) (p : Val)
    (hp : ∀ env, Sml.C.loadBytes p buffer.length env m = .ok buffer env m) (depth : Nat) (hd : buffer.length < 4 * depth) :
    ∃ f s q m1, fileParse depth buffer = .ok f s ∧ CallTo .sml_file_parse [p, .int .u64 buffer.length] m q m1 ∧ m1.world = m.world ∧
      ((∀ x ∈ f.messages, x.messageBody ≠ none) → ∃ t, CallTo .sml_file_print [q] m1 .undef { m1 with world := { m.world with out := m.world.out ++ t } } ∧
        SpellsInfo f.messages.length s.cursor (f.messages.map tagOf) t) ∧
      ((∃ x ∈ f.messages, x.messageBody = none) → CallBad .sml_file_print [q] m1 .null) := by
  obtain ⟨f, s, e, _⟩ := fileParse_post hlen hd
  obtain ⟨q, m1, h⟩ := c79_print_ok m h0 hw hov buffer (by omega) p hp depth hd f s e
  exact ⟨f, s, q, m1, e, h⟩

/-- The sample telegram is printed; a telegram whose only message has no body is not. -/
example : (∃ m1 q t, CallTo .sml_file_parse [.ptr (.heap 1) 0, .int .u64 Samples.telegram.length] telegramMem q m1 ∧
      CallTo .sml_file_print [q] m1 .undef { m1 with world := { telegramMem.world with out := telegramMem.world.out ++ t } } ∧ SpellsInfo 3 139 [0x101, 0x701, 0x201] t) ∧
    Samples.holds (fileParse 80 (Samples.skipTagMsg ++ [0, 0, 0])) (fun f _ => f.messages.any fun x => x.messageBody.isNone) = true := by
  refine ⟨?_, by decide +kernel⟩
  have hw : ∀ a, telegramMem.next ≤ a → telegramMem.heap a = none := fun a ha => if_neg (by simp only [telegramMem] at ha; omega)
  obtain ⟨f, s, q, m1, e, c1, _, h, _⟩ := c79_print telegramMem (by decide) hw rfl Samples.telegram (by decide +kernel) _ telegramMem_load 80 (by decide +kernel)
  have h2 := (show Samples.holds (fileParse 80 Samples.telegram) (fun f s => decide (f.messages.length = 3 ∧ s.cursor = 139 ∧ f.messages.map tagOf = [0x101, 0x701, 0x201] ∧ ∀ x ∈ f.messages, x.messageBody ≠ none)) = true by decide +kernel)
  rw [e] at h2
  obtain ⟨g1, g2, g3, g4⟩ := of_decide_eq_true h2
  obtain ⟨t, c2, hs⟩ := h g4
  rw [g1, g2, g3] at hs
  exact ⟨m1, q, t, c1, c2, hs⟩

/-! ## The receiver -/

/-- A frame that makes no length field overflow an `int`: no seven bytes in a row have their first bit set (C06), or it holds a sequence of fields that is read to its end (C89). -/
def Calm (bs : List UInt8) : Prop := (∀ i, ∃ j, j < 7 ∧ ∀ c, bs[i + j]? = some c → c.toNat < 128) ∨
  ∃ body x y z ms ds, bs = frame body x y z ∧ Spec.Tokens body ∧ Spec.Whole (body.length + 1) body ms ds

theorem calm_body {body : List UInt8} {x y z : UInt8} (h : ∀ i, ∃ j, j < 7 ∧ ∀ c, (frame body x y z)[i + j]? = some c → c.toNat < 128) :
    ¬ ∃ i, ∀ j, j < 7 → ∃ c, body[i + j]? = some c ∧ 128 ≤ c.toNat := by
  rintro ⟨i, hi⟩
  obtain ⟨j, hj, hc⟩ := h (8 + i)
  obtain ⟨c, h1, h2⟩ := hi j hj
  have hlt : i + j < body.length := (List.getElem?_eq_some_iff.1 h1).1
  have : (frame body x y z)[8 + i + j]? = some c := by
    have hb := frame_body body x y z
    have h3 := congrArg (·[i + j]?) hb
    rw [h1, List.getElem?_take_of_lt (by rw [frame_length]; omega), List.getElem?_drop] at h3
    rw [Nat.add_assoc]
    exact h3
  have := hc c this
  omega

/-- What the model says about overflow and balance does not depend on the depth: it is what the source does. -/
theorem fileParse_depths {d d' : Nat} {body : List UInt8} {f f' : File} {s s' : St} (hlen : body.length ≤ 2147483647) (e : fileParse d body = .ok f s) (e' : fileParse d' body = .ok f' s') :
    s.sovf = s'.sovf := by
  let m : Mem := { next := 2, heap := fun a => if a = 1 then some (.raw (body.map some)) else none, stack := [], sovf := false }
  have hw : ∀ a, m.next ≤ a → m.heap a = none := fun a ha => if_neg (by simp only [m] at ha; omega)
  have hp : ∀ env, loadBytes (.ptr (.heap 1) 0) body.length env m = .ok body env m := fun env => by
    have := loadBytes_raw (l := .heap 1) (i := 0) (n := body.length) (env := env) (m := m) (bs := body) rfl (by omega)
    rwa [List.drop_zero, List.take_length] at this
  obtain ⟨_, _, _, _, _, c, _⟩ := source_run_ok (m := m) (Nat.zero_lt_succ 1) hw rfl hlen hp e
  obtain ⟨_, _, _, _, _, c', _⟩ := source_run_ok (m := m) (Nat.zero_lt_succ 1) hw rfl hlen hp e'
  exact congrArg Mem.sovf (c65_deterministic c c').2

/-- What is in the frame does not make a length overflow. -/
def QuietFrame (depth : Nat) (fr : List UInt8) : Prop := ∀ body x y z f s, fr = frame body x y z → fileParse depth body = .ok f s → s.sovf = false

theorem calm_quiet {depth : Nat} {fr : List UInt8} (hlen : fr.length < 8096) (hdepth : fr.length < 4 * depth) (h : Calm fr) : QuietFrame depth fr := by
  rintro body x y z f s rfl e
  have hl := frame_length body x y z
  rcases h with h | ⟨body', x', y', z', ms, ds, hf, ht, hw⟩
  · obtain ⟨_, _, e', hst, _⟩ := fileParse_post (buffer := body) (depth := depth) (by omega) (by omega)
    rw [e] at e'
    cases e'
    cases ho : s.sovf with
    | false => rfl
    | true =>
      rcases hst.sovf ho with h' | h'
      · cases h'
      · exact absurd h' (calm_body h)
  · obtain rfl : body = body' := frame_inj hf
    obtain ⟨f', s', e', _⟩ := fileParse_post (buffer := body) (depth := body.length + 1) (by omega) (by omega)
    rw [fileParse_depths (by omega) e e']
    exact fileParse_smooth (by omega) (by omega) ht e' (fileParse_clean (by omega) (by omega) hw e')

/-- The bytes the DZG workaround looks for (C03). -/
def NoMark (bs : List UInt8) : Prop := ¬ ∃ i, (bs.drop i).take 5 = [0x0a, 0x01, 0x44, 0x5a, 0x47]

theorem noMark_body {body : List UInt8} {x y z : UInt8} (h : NoMark (frame body x y z)) : NoMark body := by
  rintro ⟨i, hi⟩
  have hl : i + 5 ≤ body.length := by
    have := congrArg List.length hi
    rw [List.length_take, List.length_drop] at this
    simp only [List.length_cons, List.length_nil] at this
    omega
  refine h ⟨8 + i, ?_⟩
  rw [← hi]
  have hb := frame_body body x y z
  have hfl := frame_length body x y z
  conv => rhs; rw [← hb]
  rw [List.drop_take, List.take_take, List.drop_drop, Nat.min_eq_left (by omega)]

/-- The file that is made of what is in the frame is freed as a whole. -/
def TidyFrame (depth : Nat) (fr : List UInt8) : Prop := ∀ body x y z f s, fr = frame body x y z → fileParse depth body = .ok f s → s.live = fileFreed f

theorem noMark_tidy {depth : Nat} {fr : List UInt8} (hlen : fr.length < 8096) (hdepth : fr.length < 4 * depth) (h : NoMark fr) : TidyFrame depth fr := by
  rintro body x y z f s rfl e
  have hl := frame_length body x y z
  obtain ⟨_, _, e', hst, _, _, hex, _⟩ := fileParse_post (buffer := body) (depth := depth) (by omega) (by omega)
  rw [e] at e'
  cases e'
  cases hc : s.confused with
  | false => exact hex hc
  | true =>
    rcases hst.conf hc with h' | h'
    · cases h'
    · exact absurd h' (noMark_body h)

/-- What `transport_receiver` needs: room for new blocks, the flags of the command line, and no overflow so far. -/
structure Listening (m : Mem) (verbose single : Bool) : Prop where
  pos : 0 < m.next
  fresh : ∀ a, m.next ≤ a → m.heap a = none
  ovf : m.sovf = false
  single : m.world.flags 0 = if single then 1 else 0
  verbose : m.world.flags 1 = if verbose then 1 else 0

/-- C80: `transport_receiver`, run from its source on any frame in any memory, with any flags. The file `f` is what is in the frame (C50, C51). If it is manageable, the receiver does not get to an undefined
step: with `-s` and a list response it ends the program with status 0; otherwise it returns, all blocks that were there are as before, and no others are there unless the DZG
workaround has lost one. In both cases it has printed what C53 says if the readings are legible. If it is not manageable, the
receiver follows a NULL pointer or reads behind the end of a block. -/
theorem c80_receiver (m : Mem) (verbose single : Bool) (H : Listening m verbose single) (hpow : GoodPow m.world.pow) (fr : List UInt8) (hfr : IsFrame fr) (hlen : fr.length < 8096) (l : Loc) (blk : List (Option UInt8))
    (hb : ∀ env, getBlock l env m = .ok (.raw blk) env m) (ht : blk.take fr.length = fr.map some) (depth : Nat) (hdepth : fr.length < 4 * depth) (t : ITy) :
    ∃ body x y z f s, fr = frame body x y z ∧ fileParse depth body = .ok f s ∧
      (Manageable verbose single f.messages → ∃ o, (AllLegible (entriesOf (lookedAt single f.messages)) → PrintsTelegram verbose single f.messages o) ∧
        ((single = true ∧ ∃ x ∈ f.messages, responseOf x ≠ none) → CallBad .transport_receiver [.ptr l 0, .int t fr.length] m (.exited 0 (m.world.out ++ o))) ∧
        (¬ (single = true ∧ ∃ x ∈ f.messages, responseOf x ≠ none) → ∃ m', CallTo .transport_receiver [.ptr l 0, .int t fr.length] m .undef m' ∧ m'.stack = m.stack ∧
          m'.world = { m.world with out := m.world.out ++ o } ∧ m.next ≤ m'.next ∧ (∀ a, m'.next ≤ a → m'.heap a = none) ∧ (∀ a c, m.heap a = some c → m'.heap a = some c) ∧
          (NoMark fr → m'.heap = m.heap) ∧ (Calm fr → m'.sovf = false))) ∧
      (¬ Manageable verbose single f.messages → ∃ b, (b = .null ∨ b = .buf .oobRead) ∧ CallBad .transport_receiver [.ptr l 0, .int t fr.length] m b) := by
  obtain ⟨body, x, y, z, f, s, hf, hp, hm, _⟩ := c50_exact fr hfr hlen depth hdepth verbose single
  obtain ⟨b2, x2, y2, z2, f2, s2, hf2, hp2, hm2⟩ := c53_text m.world.pow hpow fr hfr hlen depth hdepth verbose single
  subst hf
  obtain rfl : body = b2 := frame_inj hf2
  rw [hp] at hp2
  cases hp2
  have hfl := frame_length body x y z
  refine ⟨body, x, y, z, f, s, rfl, hp, fun hM => ?_, fun hM => receiver_bad H.pos H.fresh H.ovf H.single H.verbose hlen (by omega) hb ht hp hM⟩
  obtain ⟨info, ls, ex, s', r1, _, _, r2, _⟩ := hm hM
  have run := receiver_run (t := t) H.pos H.fresh H.ovf H.single H.verbose hlen (by omega) hb ht r1
  refine ⟨receiverText m.world.pow (info, ls, ex), fun hl => ?_, fun hex => ?_, fun hex => ?_⟩
  · obtain ⟨r, s3, th, tl, q1, q2, _, q4, q5, q6⟩ := hm2 hM hl
    rw [r1] at q1
    cases q1
    exact ⟨th, tl, q2, q4, q5, fun hv => by
      obtain ⟨ti, a, b⟩ := q6 hv
      exact ⟨_, ti, a, b⟩⟩
  · rwa [if_pos (r2.2 hex)] at run
  · have : ex = false := by
      cases ex with
      | true => exact absurd (r2.1 rfl) hex
      | false => rfl
    subst this
    obtain ⟨m2, c, k1, k2, k3, k4, k5, k6⟩ := run
    refine ⟨m2, c, k1, k2, k3, k4, k5, fun hn => ?_, fun hc => ?_⟩
    · have := (k6 _ _ hp).1
      rw [noMark_tidy hlen hdepth hn _ _ _ _ _ _ rfl hp, Nat.sub_self] at this
      exact this.eq
    · rw [(k6 _ _ hp).2]
      exact calm_quiet hlen hdepth hc _ _ _ _ _ _ rfl hp

/-! ## Listening -/

/-- What a callback prints for a frame. -/
def saidBy (call : List UInt8 → TRes (List UInt8 × Bool)) (fr : List UInt8) : List UInt8 :=
  match call fr with
  | .ok p => p.1
  | .ub _ => []

theorem handle_split {call : List UInt8 → TRes (List UInt8 × Bool)} : ∀ {frames : List (List UInt8)} {t : List UInt8}, handleFrames call frames = .ok t →
    ((∀ fr ∈ frames, ∃ o, call fr = .ok (o, false)) ∧ t = frames.flatMap (saidBy call)) ∨
    ∃ pre fr post o, frames = pre ++ fr :: post ∧ (∀ fr ∈ pre, ∃ o, call fr = .ok (o, false)) ∧ call fr = .ok (o, true) ∧ t = pre.flatMap (saidBy call) ++ o
  | [], t, h => by
    cases h
    exact .inl ⟨by simp, rfl⟩
  | fr :: frames, t, h => by
    rw [handleFrames] at h
    obtain ⟨⟨o, ex⟩, e, h⟩ := TRes_bind_ok h
    simp only at h
    cases ex with
    | true =>
      rw [if_pos rfl] at h
      cases h
      exact .inr ⟨[], fr, frames, _, rfl, by simp, e, rfl⟩
    | false =>
      rw [if_neg (by simp)] at h
      obtain ⟨ts, e2, h⟩ := TRes_bind_ok h
      cases h
      have hs : saidBy call fr = o := by rw [saidBy, e]
      rcases handle_split e2 with ⟨h1, h2⟩ | ⟨pre, fr2, post, o2, h1, h2, h3, h4⟩
      · refine .inl ⟨?_, by rw [List.flatMap_cons, hs, h2]⟩
        intro f hf
        rcases List.mem_cons.1 hf with rfl | hf
        · exact ⟨o, e⟩
        · exact h1 f hf
      · refine .inr ⟨fr :: pre, fr2, post, o2, by rw [h1]; rfl, ?_, h3, by rw [List.flatMap_cons, hs, h4, List.append_assoc]⟩
        intro f hf
        rcases List.mem_cons.1 hf with rfl | hf
        · exact ⟨o, e⟩
        · exact h2 f hf

theorem receiverCall_ok {o : List UInt8} {ex : Bool} (h : receiverCall pow depth fl fr = .ok (o, ex)) : ∃ r s, transportReceiver depth fl.verbose fl.single fr = .ok r s ∧ receiverText pow r = o ∧ r.2.2 = ex := by
  unfold receiverCall at h
  cases e : transportReceiver depth fl.verbose fl.single fr with
  | ub u => rw [e] at h; cases h
  | ok r s =>
    rw [e] at h
    cases h
    exact ⟨r, s, rfl, rfl, rfl⟩

/-- The blocks that are lost with a frame: what is made by parsing its body, and not freed with the file. -/
def lossOf (depth : Nat) (fr : List UInt8) : Nat :=
  match fileParse depth ((fr.drop 8).take (fr.length - 16)) with
  | .ok f s => s.live - fileFreed f
  | .ub _ => 0

theorem lossOf_frame {depth : Nat} {body : List UInt8} {x y z : UInt8} {f : File} {s : St} (e : fileParse depth body = .ok f s) : lossOf depth (frame body x y z) = s.live - fileFreed f := by
  have h := frame_body body x y z
  unfold lossOf
  simp only [h, e]

/-- Memory while the program listens, after the frames `fs`. -/
structure Heard (m0 : Mem) (depth : Nat) (call : List UInt8 → TRes (List UInt8 × Bool)) (m : Mem) (fs : List (List UInt8)) : Prop where
  stack : m.stack = m0.stack
  world : ∃ fd ev e, m.world = { m0.world with out := m0.world.out ++ fs.flatMap (saidBy call) }.at fd ev e
  pos : 0 < m.next
  fresh : ∀ a, m.next ≤ a → m.heap a = none
  kept : ∀ a c, m0.heap a = some c → m.heap a = some c
  ovf : m.sovf = false
  lost : LostBlocks m0.heap m.heap (fs.map (lossOf depth)).sum

/-- `transport_receiver` can be handed to `sml_transport_listen`. -/
theorem receiver_receiver (m0 : Mem) (verbose single : Bool) (H : Listening m0 verbose single) {d : Nat} (hn : m0.world.num = (d : Nat)) (hE : Errs m0.world) (depth : Nat) (hdepth : 2024 ≤ depth) :
    Receiver .transport_receiver m0.stack.length d
      (fun fr => IsFrame fr ∧ fr.length < 8096 ∧ QuietFrame depth fr ∧ ∃ o, receiverCall m0.world.pow depth ⟨single, verbose⟩ fr = .ok (o, false))
      (Heard m0 depth (receiverCall m0.world.pow depth ⟨single, verbose⟩)) where
  depth := fun h => by rw [h.stack]
  num := fun h => by obtain ⟨_, _, _, hw⟩ := h.world; rw [hw]; exact hn
  errs := fun h => by obtain ⟨_, _, _, hw⟩ := h.world; rw [hw]; exact ⟨hE.intr, hE.fail⟩
  world := fun h fd ev e => ⟨h.stack, by obtain ⟨_, _, _, hw⟩ := h.world; exact ⟨fd, ev, e, by rw [hw]⟩, h.pos, h.fresh, h.kept, h.ovf, h.lost⟩
  step := fun {m fs fr} h hp bs hl ht => by
    obtain ⟨⟨body, x, y, z, rfl, _⟩, hlen, hcalm, o, hc⟩ := hp
    obtain ⟨r, s, e, ho, hex⟩ := receiverCall_ok hc
    obtain ⟨fd, ev, er, hw⟩ := h.world
    have hfl := frame_length body x y z
    have run := receiver_run (m := { m with stack := m.stack ++ [.raw bs] }) (t := .u64) (l := .stack m0.stack.length) h.pos h.fresh h.ovf (by rw [hw]; exact H.single) (by rw [hw]; exact H.verbose) hlen (by omega)
      (fun env => getBlock_stack (by rw [h.stack]; simp)) ht e
    rw [if_neg (by rw [hex]; simp)] at run
    obtain ⟨m2, c, k1, k2, k3, k4, k5, k6⟩ := run
    obtain ⟨f, sf, hp, _⟩ := fileParse_post (buffer := body) (depth := depth) (by omega) (by omega)
    have hpow : ({ m with stack := m.stack ++ [.raw bs] } : Mem).world.pow = m0.world.pow := by rw [hw]
    rw [hpow, ho] at k2
    refine ⟨.undef, { m2 with stack := m.stack }, bs, ?_, hl, ⟨h.stack, ⟨fd, ev, er, ?_⟩, Nat.lt_of_lt_of_le h.pos k3, k4, fun a c hc => k5 a c (h.kept a c hc), ?_, ?_⟩, ?_, ?_⟩
    · have : ({ m2 with stack := m.stack ++ [.raw bs] } : Mem) = m2 := by
        cases m2
        cases k1
        rfl
      show CallTo _ _ _ _ { m2 with stack := m.stack ++ [.raw bs] }
      rw [this]
      exact c
    · show m2.world = _
      rw [k2, List.flatMap_append, List.flatMap_cons, List.flatMap_nil, List.append_nil, saidBy, hc, ← List.append_assoc]
      show ({ m.world with out := m.world.out ++ o } : World) = _
      rw [hw]
    · show m2.sovf = false
      rw [(k6 _ _ hp).2]
      exact hcalm _ _ _ _ _ _ rfl hp
    · show LostBlocks m0.heap m2.heap _
      rw [List.map_append, List.sum_append, List.map_cons, List.map_nil, List.sum_cons, List.sum_nil, Nat.add_zero, lossOf_frame hp]
      exact h.lost.trans (k6 _ _ hp).1
    · show m2.world.input = _
      rw [k2]
    · show m2.world.turns = _
      rw [k2]

theorem carries_of_frames {depth : Nat} (hdepth : 2024 ≤ depth) : ∀ frames : List (List UInt8), (∀ f ∈ frames, IsFrame f ∧ f.length < 8096) →
    ∃ items : List (List UInt8 × List Message), items.map Prod.fst = frames ∧ ∀ i ∈ items, Carries depth i.1 i.2
  | [], _ => ⟨[], rfl, by simp⟩
  | fr :: frs, h => by
    obtain ⟨items, e1, e2⟩ := carries_of_frames hdepth frs fun f hf => h f (by simp [hf])
    obtain ⟨⟨body, x, y, z, hfr, hpl⟩, hlen⟩ := h fr (by simp)
    have hbl := frame_length body x y z
    rw [← hfr] at hbl
    obtain ⟨f, s, _, ht⟩ := c51_telegram body depth (by omega) (by omega)
    refine ⟨(fr, f.messages) :: items, by rw [List.map_cons, e1], ?_⟩
    intro i hi
    rcases List.mem_cons.1 hi with rfl | hi
    · exact ⟨hlen, body, x, y, z, hfr, hpl, (ht _).2 rfl⟩
    · exact e2 i hi

/-- The loop of the program on frames that are known. -/
theorem listen_items (m : Mem) (verbose single : Bool) (H : Listening m verbose single) (hpow : GoodPow m.world.pow) (d : Nat) (hd : d < 1024) (hn : m.world.num = d) (hE : Errs m.world)
    (depth : Nat) (hdepth : 2024 ≤ depth) (t : ITy) {fuel : Nat} {items : List (List UInt8 × List Message)}
    (e : transportListen fuel ⟨m.world.input, m.world.turns.map Turn.ev⟩ = .ok (items.map Prod.fst)) (hc : ∀ i ∈ items, Carries depth i.1 i.2) (hcalm : ∀ i ∈ items, QuietFrame depth i.1)
    (hman : ∀ ms ∈ heard single (items.map Prod.snd), Manageable verbose single ms) :
    ∃ o, handleFrames (receiverCall m.world.pow depth ⟨single, verbose⟩) (items.map Prod.fst) = .ok o ∧ ((∀ ms ∈ heard single (items.map Prod.snd), AllLegible (entriesOf (lookedAt single ms))) → PrintsTelegrams verbose single (heard single (items.map Prod.snd)) o) ∧
      ((single = true ∧ ∃ i ∈ items, ∃ x ∈ i.2, responseOf x ≠ none) → CallBad .sml_transport_listen [.int t d, .fn .transport_receiver] m (.exited 0 (m.world.out ++ o))) ∧
      (¬ (single = true ∧ ∃ i ∈ items, ∃ x ∈ i.2, responseOf x ≠ none) → ∃ m', CallTo .sml_transport_listen [.int t d, .fn .transport_receiver] m .undef m' ∧ m'.stack = m.stack ∧
        m'.world.out = m.world.out ++ o ∧ m'.sovf = false ∧ (∀ a c, m.heap a = some c → m'.heap a = some c) ∧
        LostBlocks m.heap m'.heap ((items.map Prod.fst).map (lossOf depth)).sum ∧ ((∀ i ∈ items, TidyFrame depth i.1) → m'.heap = m.heap)) := by
  have h1 : ∀ fr ∈ items.map Prod.fst, IsFrame fr ∧ fr.length < 8096 := fun fr hfr => by
    obtain ⟨i, hi, rfl⟩ := List.mem_map.mp hfr
    obtain ⟨hlen, body, x, y, z, hfr, hpl, _⟩ := hc i hi
    exact ⟨⟨body, x, y, z, hfr, hpl⟩, hlen⟩
  obtain ⟨o, ho, hprint⟩ := (handleFrames_run m.world.pow hpow depth ⟨single, verbose⟩ items fun i hi => ⟨hc i hi, by have := (hc i hi).1; omega⟩).1 hman
  have e' := c64_listen d (by omega) (by omega) fuel ⟨m.world.input, m.world.turns⟩
  have hex : ∀ i ∈ items, ∀ o ex, receiverCall m.world.pow depth ⟨single, verbose⟩ i.1 = .ok (o, ex) → (ex = true ↔ single = true ∧ ∃ x ∈ i.2, responseOf x ≠ none) := by
    intro i hi o ex hcall
    obtain ⟨c1, c2⟩ := receiverCall_run m.world.pow hpow depth ⟨single, verbose⟩ (hc i hi) (by have := (hc i hi).1; omega)
    by_cases hm : Manageable verbose single i.2
    · obtain ⟨_, _, q1, q2, _⟩ := c1 hm
      rw [hcall] at q1
      cases q1
      exact q2
    · obtain ⟨u, hu⟩ := c2 hm
      rw [hcall] at hu
      cases hu
  have hR : Receiver .transport_receiver m.stack.length d _ _ := receiver_receiver m verbose single H hn hE depth hdepth
  have hcalm' : ∀ fr ∈ items.map Prod.fst, QuietFrame depth fr := fun fr hfr => by
    obtain ⟨i, hi, rfl⟩ := List.mem_map.mp hfr
    exact hcalm i hi
  have hstart : Heard m depth (receiverCall m.world.pow depth ⟨single, verbose⟩) m [] := ⟨rfl, ⟨⟨m.world.input, m.world.turns⟩, m.world.ev, m.world.errno, by rw [List.flatMap_nil, List.append_nil]⟩, H.pos, H.fresh, fun _ _ h => h, H.ovf, LostBlocks.refl _⟩
  refine ⟨o, ho, hprint, fun hs => ?_, fun hs => ?_⟩
  · rcases handle_split ho with ⟨hall, rfl⟩ | ⟨pre, fr, post, o', hsplit, hpre, hlast, rfl⟩
    · obtain ⟨hs, i, hi, hx⟩ := hs
      obtain ⟨o1, h3⟩ := hall i.1 (List.mem_map_of_mem hi)
      have := (hex i hi _ _ h3).2 ⟨hs, hx⟩
      cases this
    · have hmem : fr ∈ items.map Prod.fst := by rw [hsplit]; simp
      obtain ⟨⟨body, x, y, z, rfl, _⟩, hlen⟩ := h1 fr hmem
      obtain ⟨r, s, er, hor, hexr⟩ := receiverCall_ok hlast
      have hfl := frame_length body x y z
      rw [hsplit] at e
      obtain ⟨b, rfl, c⟩ := transportListen_bad (t := t) (Q := fun b => b = .exited 0 (m.world.out ++ (pre.flatMap (saidBy (receiverCall m.world.pow depth ⟨single, verbose⟩)) ++ o'))) hR hd
        (fun fd out fd' h hne => (readS_frame hd h hne).2) hstart (fd := ⟨m.world.input, m.world.turns⟩) rfl rfl (e'.trans e)
        (fun fr hfr => ⟨(h1 fr (by rw [hsplit]; simp [hfr])).1, (h1 fr (by rw [hsplit]; simp [hfr])).2, hcalm' fr (by rw [hsplit]; simp [hfr]), hpre fr hfr⟩) fun m' bs hm' hbl hbt => by
          refine ⟨_, rfl, ?_⟩
          obtain ⟨fd, ev, ee, hw⟩ := hm'.world
          have run := receiver_run (m := { m' with stack := m'.stack ++ [.raw bs] }) (t := .u64) (l := .stack m.stack.length) hm'.pos hm'.fresh hm'.ovf (by rw [hw]; exact H.single) (by rw [hw]; exact H.verbose) hlen (by omega)
            (fun env => getBlock_stack (by rw [hm'.stack]; simp)) hbt er
          rw [if_pos hexr] at run
          have hpow : ({ m' with stack := m'.stack ++ [.raw bs] } : Mem).world.pow = m.world.pow := by rw [hw]
          have hout : ({ m' with stack := m'.stack ++ [.raw bs] } : Mem).world.out = m.world.out ++ pre.flatMap (saidBy (receiverCall m.world.pow depth ⟨single, verbose⟩)) := by rw [hw]
          rw [hpow, hor, hout, List.append_assoc] at run
          exact run
      exact c
  · rcases handle_split ho with ⟨hall, rfl⟩ | ⟨pre, fr, post, o', hsplit, hpre, hlast, rfl⟩
    · obtain ⟨m', c, hR'⟩ := transportListen_run (t := t) hR hd (fun fd out fd' h hne => (readS_frame hd h hne).2) hstart (fd := ⟨m.world.input, m.world.turns⟩) rfl rfl (e'.trans e)
        fun fr hfr => ⟨(h1 fr hfr).1, (h1 fr hfr).2, hcalm' fr hfr, hall fr hfr⟩
      obtain ⟨fd, ev, ee, hw⟩ := hR'.world
      refine ⟨m', c, hR'.stack, by rw [hw], hR'.ovf, hR'.kept, hR'.lost, fun hno => LostBlocks.eq ?_⟩
      have hz : ((items.map Prod.fst).map (lossOf depth)).sum = 0 := by
        rw [List.sum_eq_zero_iff_forall_eq_nat, List.map_map, List.forall_mem_map]
        intro i hi
        obtain ⟨⟨body, x, y, z, hfr, _⟩, hlen⟩ := h1 i.1 (List.mem_map_of_mem hi)
        have hbl := frame_length body x y z
        rw [← hfr] at hbl
        obtain ⟨f, s, hp, _⟩ := fileParse_post (buffer := body) (depth := depth) (by omega) (by omega)
        show lossOf depth i.1 = 0
        rw [hfr, lossOf_frame hp, hno i hi _ _ _ _ _ _ hfr hp, Nat.sub_self]
      have := hR'.lost
      rwa [hz] at this
    · have hmem : fr ∈ items.map Prod.fst := by rw [hsplit]; simp
      obtain ⟨i, hi, rfl⟩ := List.mem_map.mp hmem
      obtain ⟨hs1, hx⟩ := (hex i hi _ _ hlast).1 rfl
      exact absurd ⟨hs1, i, hi, hx⟩ hs

theorem heard_split {verbose single : Bool} : ∀ {items : List (List UInt8 × List Message)}, (¬ ∀ ms ∈ heard single (items.map Prod.snd), Manageable verbose single ms) →
    ∃ pre i post, items = pre ++ i :: post ∧ (∀ j ∈ pre, Manageable verbose single j.2 ∧ ¬ (single = true ∧ ∃ x ∈ j.2, responseOf x ≠ none)) ∧ ¬ Manageable verbose single i.2
  | [], h => absurd (by simp [heard]) h
  | i :: items, h => by
    by_cases hi : Manageable verbose single i.2
    · rw [List.map_cons, heard] at h
      by_cases hs : single = true ∧ ∃ x ∈ i.2, responseOf x ≠ none
      · have : (single && i.2.any fun m => (responseOf m).isSome) = true := by
          obtain ⟨h1, x, hx, h2⟩ := hs
          rw [h1, Bool.true_and, List.any_eq_true]
          exact ⟨x, hx, Option.isSome_iff_ne_none.mpr h2⟩
        rw [if_pos this] at h
        exact absurd (by simpa using hi) h
      · have : ¬ (single && i.2.any fun m => (responseOf m).isSome) = true := fun hc => hs (by
          rw [Bool.and_eq_true, List.any_eq_true] at hc
          obtain ⟨h1, x, hx, h2⟩ := hc
          exact ⟨h1, x, hx, Option.isSome_iff_ne_none.mp h2⟩)
        rw [if_neg this] at h
        obtain ⟨pre, j, post, rfl, h1, h2⟩ := heard_split (items := items) fun hc => h fun ms hms => by
          rcases List.mem_cons.mp hms with rfl | hms
          · exact hi
          · exact hc ms hms
        refine ⟨i :: pre, j, post, rfl, fun k hk => ?_, h2⟩
        rcases List.mem_cons.mp hk with rfl | hk
        · exact ⟨hi, hs⟩
        · exact h1 k hk
    · exact ⟨[], i, items, rfl, by simp, hi⟩

/-- The loop of the program with a telegram it cannot handle. -/
theorem listen_bad (m : Mem) (verbose single : Bool) (H : Listening m verbose single) (hpow : GoodPow m.world.pow) (d : Nat) (hd : d < 1024) (hn : m.world.num = d) (hE : Errs m.world)
    (depth : Nat) (hdepth : 2024 ≤ depth) (t : ITy) {fuel : Nat} {items : List (List UInt8 × List Message)}
    (e : transportListen fuel ⟨m.world.input, m.world.turns.map Turn.ev⟩ = .ok (items.map Prod.fst)) (hc : ∀ i ∈ items, Carries depth i.1 i.2) (hcalm : ∀ i ∈ items, QuietFrame depth i.1)
    (hman : ¬ ∀ ms ∈ heard single (items.map Prod.snd), Manageable verbose single ms) :
    ∃ b, Wild b ∧ CallBad .sml_transport_listen [.int t d, .fn .transport_receiver] m b := by
  obtain ⟨pre, i, post, rfl, hpre, hi⟩ := heard_split hman
  have e' := c64_listen d (by omega) (by omega) fuel ⟨m.world.input, m.world.turns⟩
  have hR : Receiver .transport_receiver m.stack.length d _ _ := receiver_receiver m verbose single H hn hE depth hdepth
  have hstart : Heard m depth (receiverCall m.world.pow depth ⟨single, verbose⟩) m [] := ⟨rfl, ⟨⟨m.world.input, m.world.turns⟩, m.world.ev, m.world.errno, by rw [List.flatMap_nil, List.append_nil]⟩, H.pos, H.fresh, fun _ _ h => h, H.ovf, LostBlocks.refl _⟩
  rw [List.map_append, List.map_cons] at e
  refine transportListen_bad (t := t) (Q := Wild) hR hd (fun fd out fd' h hne => (readS_frame hd h hne).2) hstart (fd := ⟨m.world.input, m.world.turns⟩) rfl rfl (e'.trans e) (fun fr hfr => ?_) fun m' bs hm' hbl hbt => ?_
  · obtain ⟨j, hj, rfl⟩ := List.mem_map.mp hfr
    have hcj := hc j (List.mem_append_left _ hj)
    obtain ⟨o, ex, q1, q2, _⟩ := (receiverCall_run m.world.pow hpow depth ⟨single, verbose⟩ hcj (by have := hcj.1; omega)).1 (hpre j hj).1
    have hex : ex = false := by
      cases ex with
      | false => rfl
      | true => exact absurd (q2.1 rfl) (hpre j hj).2
    rw [hex] at q1
    obtain ⟨hlen, body, x, y, z, hfr, hpl, _⟩ := hcj
    exact ⟨⟨body, x, y, z, hfr, hpl⟩, hlen, hcalm j (List.mem_append_left _ hj), o, q1⟩
  · obtain ⟨hlen, body, x, y, z, hfr, hpl, htel⟩ := hc i (by simp)
    rw [hfr] at hlen hbt ⊢
    have hbl := frame_length body x y z
    obtain ⟨f, s, hf, ht⟩ := c51_telegram body depth (by omega) (by omega)
    rw [(ht _).1 htel] at hi
    obtain ⟨fd, ev, ee, hw⟩ := hm'.world
    exact receiver_bad (m := { m' with stack := m'.stack ++ [.raw bs] }) (t := .u64) (l := .stack m.stack.length) hm'.pos hm'.fresh hm'.ovf (by rw [hw]; exact H.single) (by rw [hw]; exact H.verbose) hlen (by omega)
      (fun env => getBlock_stack (by rw [hm'.stack]; simp)) hbt hf hi

/-- C80: the loop of the program, `sml_transport_listen(fd, &transport_receiver)`, run from its source. Whatever arrives, in any pieces: there are frames of the stream with messages (C38, C51) such that, if
all telegrams looked at are manageable (C50), it does not get to an undefined step. With `-s` it ends the program with status 0 as soon as a list response has come; otherwise, at the end of the stream, it returns,
all blocks and local objects that were there are as before, and no block is new unless the DZG workaround has lost one. What it has printed is what belongs to the telegrams that were looked at, if
the readings are legible. If one of the telegrams looked at is not manageable, it follows a NULL pointer or reads behind the end of a block. -/
theorem c80_listen (m : Mem) (verbose single : Bool) (H : Listening m verbose single) (hpow : GoodPow m.world.pow) (d : Nat) (hd : d < 1024) (hn : m.world.num = d) (hE : Errs m.world)
    (depth : Nat) (hdepth : 2024 ≤ depth) (t : ITy) :
    ∃ items : List (List UInt8 × List Message), transportListen (m.world.input.length + 1) ⟨m.world.input, m.world.turns.map Turn.ev⟩ = .ok (items.map Prod.fst) ∧ Spec.Within (items.map Prod.fst) m.world.input ∧
      (∀ i ∈ items, Carries depth i.1 i.2) ∧
      ((∀ i ∈ items, Calm i.1) → (∀ ms ∈ heard single (items.map Prod.snd), Manageable verbose single ms) →
    ∃ o, ((∀ ms ∈ heard single (items.map Prod.snd), AllLegible (entriesOf (lookedAt single ms))) → PrintsTelegrams verbose single (heard single (items.map Prod.snd)) o) ∧
      ((single = true ∧ ∃ i ∈ items, ∃ x ∈ i.2, responseOf x ≠ none) → CallBad .sml_transport_listen [.int t d, .fn .transport_receiver] m (.exited 0 (m.world.out ++ o))) ∧
      (¬ (single = true ∧ ∃ i ∈ items, ∃ x ∈ i.2, responseOf x ≠ none) → ∃ m', CallTo .sml_transport_listen [.int t d, .fn .transport_receiver] m .undef m' ∧ m'.stack = m.stack ∧
        m'.world.out = m.world.out ++ o ∧ m'.sovf = false ∧ (∀ a c, m.heap a = some c → m'.heap a = some c) ∧ ((∀ i ∈ items, NoMark i.1) → m'.heap = m.heap))) ∧
      ((∀ i ∈ items, Calm i.1) → (¬ ∀ ms ∈ heard single (items.map Prod.snd), Manageable verbose single ms) →
        ∃ b, (b = .null ∨ b = .buf .oobRead) ∧ CallBad .sml_transport_listen [.int t d, .fn .transport_receiver] m b) := by
  obtain ⟨frames, e, h1, h2⟩ := c38_any (m.world.input.length + 1) ⟨m.world.input, m.world.turns.map Turn.ev⟩ (by simp)
  obtain ⟨items, rfl, hc⟩ := carries_of_frames hdepth frames h1
  have hq : (∀ i ∈ items, Calm i.1) → ∀ i ∈ items, QuietFrame depth i.1 := fun h i hi => calm_quiet (hc i hi).1 (by have := (hc i hi).1; omega) (h i hi)
  refine ⟨items, e, h2, hc, fun hcalm hman => ?_, fun hcalm hman => listen_bad m verbose single H hpow d hd hn hE depth hdepth t e hc (hq hcalm) hman⟩
  obtain ⟨o, _, g1, g2, g3⟩ := listen_items m verbose single H hpow d hd hn hE depth hdepth t e hc (hq hcalm) hman
  refine ⟨o, g1, g2, fun hs => ?_⟩
  obtain ⟨m', c, k1, k2, k3, k4, _, k5⟩ := g3 hs
  exact ⟨m', c, k1, k2, k3, k4, fun hno => k5 fun i hi => noMark_tidy (hc i hi).1 (by have := (hc i hi).1; omega) (hno i hi)⟩

/-- What the library sends is received without an overflow, and freed as a whole. -/
theorem sent_quiet {depth : Nat} (hdepth : 2024 ≤ depth) {ms : List Message} (hok : ∀ m ∈ ms, MessageOk true m ∧ messageDepth m ≤ depth) (hlen : (sentFrame (fileBytes ms)).length < 8096) :
    QuietFrame depth (sentFrame (fileBytes ms)) ∧ TidyFrame depth (sentFrame (fileBytes ms)) := by
  have hsl := sentFrame_length (fileBytes ms)
  have hml := fileBytes_long ms
  obtain ⟨x, y, z, hf⟩ := sentFrame_frame (fileBytes ms)
  generalize Spec.padding (fileBytes ms).length = k at hf hsl
  have hbl := frame_length (fileBytes ms ++ List.replicate k 0) x y z
  rw [← hf] at hbl
  rw [List.length_append, List.length_replicate] at hbl
  have hp :=
    run_fileLoop (depth := depth) k (ms.map fun m => (Spec.checksum m, m)) ((fileBytes ms ++ List.replicate k 0).length + 1) { messages := [] } { data := fileBytes ms ++ List.replicate k 0, live := 3 }
      (by
        intro p hp
        obtain ⟨m, hm, rfl⟩ := List.mem_map.1 hp
        exact ⟨(hok m hm).1, (hok m hm).2, Or.inl (checksum_eq m)⟩) (by omega)
      (by
        rw [List.length_map, List.length_append, List.length_replicate]
        omega)
      (by simp; omega) (by simp [fileBytes, Function.comp_def]) (Nat.zero_le _) rfl (by simp only [List.length_append, List.length_replicate]; omega)
  have key : ∀ f s, fileParse depth (fileBytes ms ++ List.replicate k 0) = .ok f s → s.sovf = false ∧ s.live = fileFreed f := by
    intro f s e
    obtain ⟨_, _, e', _, _, _, hex, _⟩ := fileParse_post (buffer := fileBytes ms ++ List.replicate k 0) (depth := depth) (by rw [List.length_append, List.length_replicate]; omega)
      (by rw [List.length_append, List.length_replicate]; omega)
    rw [e] at e'
    cases e'
    have e'' := e
    unfold fileParse at e''
    rw [hp] at e''
    injection e'' with _ e''
    exact ⟨by rw [← e''], hex (by rw [← e''])⟩
  refine ⟨fun body x' y' z' f s hfr e => ?_, fun body x' y' z' f s hfr e => ?_⟩
  all_goals
    rw [hf] at hfr
    obtain rfl := frame_inj hfr
  · exact (key f s e).1
  · exact (key f s e).2

/-- C80: from the meter to the screen. Telegrams made by this library, each in the frame the transport layer makes for it, with harmless bytes before each of them, arriving in any pieces: the loop
of the program, run from its source, prints what belongs to the messages that were sent. -/
theorem c80_meter (m : Mem) (verbose single : Bool) (H : Listening m verbose single) (hpow : GoodPow m.world.pow) (d : Nat) (hd : d < 1024) (hn : m.world.num = d) (hE : Errs m.world)
    (depth : Nat) (hdepth : 2024 ≤ depth) (t : ITy)
    (telegrams : List (List UInt8 × List Message)) (tail : List UInt8) (hok : ∀ i ∈ telegrams, Spec.Harmless i.1 ∧ (∀ m ∈ i.2, MessageOk true m ∧ messageDepth m ≤ depth) ∧ NoEscape (fileBytes i.2) ∧
      (sentFrame (fileBytes i.2)).length < 8096) (htail : ¬ Spec.Occurs Spec.frameStart tail)
    (hin : m.world.input = (telegrams.map fun i => i.1 ++ sentFrame (fileBytes i.2)).flatten ++ tail) (hnf : ∀ u ∈ m.world.turns, u.ev ≠ .fail)
    (hsafe : ∀ ms ∈ heard single (telegrams.map Prod.snd), Manageable verbose single ms ∧ AllLegible (entriesOf (lookedAt single ms))) :
    ∃ o, PrintsTelegrams verbose single (heard single (telegrams.map Prod.snd)) o ∧
      ((single = true ∧ ∃ i ∈ telegrams, ∃ x ∈ i.2, responseOf x ≠ none) → CallBad .sml_transport_listen [.int t d, .fn .transport_receiver] m (.exited 0 (m.world.out ++ o))) ∧
      (¬ (single = true ∧ ∃ i ∈ telegrams, ∃ x ∈ i.2, responseOf x ≠ none) → ∃ m', CallTo .sml_transport_listen [.int t d, .fn .transport_receiver] m .undef m' ∧ m'.stack = m.stack ∧
        m'.world.out = m.world.out ++ o ∧ m'.sovf = false ∧ m'.heap = m.heap) := by
  have hl := c38_frames (telegrams.map fun i => (i.1, sentFrame (fileBytes i.2))) tail ⟨m.world.input, m.world.turns.map Turn.ev⟩ (telegrams.length + 1) (by simp) (fun v hv => by
    obtain ⟨u, hu, rfl⟩ := List.mem_map.mp hv
    exact hnf u hu) (fun i hi => by
      obtain ⟨j, hj, rfl⟩ := List.mem_map.mp hi
      obtain ⟨q1, q2, q3, q4⟩ := hok j hj
      obtain ⟨_, body, x, y, z, hfr, hpl, _⟩ := sent_carries hdepth q2 q3 q4
      exact ⟨q1, ⟨body, x, y, z, hfr, hpl⟩, q4⟩) htail (by rw [hin, List.map_map]; rfl)
  have e1 : (telegrams.map fun i => (i.1, sentFrame (fileBytes i.2))).map Prod.snd = (telegrams.map fun i => (sentFrame (fileBytes i.2), i.2.map sealed)).map Prod.fst := by
    rw [List.map_map, List.map_map]; rfl
  have e2 : (telegrams.map fun i => (sentFrame (fileBytes i.2), i.2.map sealed)).map Prod.snd = (telegrams.map Prod.snd).map (·.map sealed) := by
    rw [List.map_map, List.map_map]; rfl
  rw [e1] at hl
  obtain ⟨o, _, g1, g2, g3⟩ := listen_items m verbose single H hpow d hd hn hE depth hdepth t hl
    (fun i hi => by
      obtain ⟨j, hj, rfl⟩ := List.mem_map.mp hi
      obtain ⟨q1, q2, q3, q4⟩ := hok j hj
      exact sent_carries hdepth q2 q3 q4)
    (fun i hi => by
      obtain ⟨j, hj, rfl⟩ := List.mem_map.mp hi
      exact (sent_quiet hdepth (hok j hj).2.1 (hok j hj).2.2.2).1)
    (fun ms hms => by
      rw [e2, heard_sealed] at hms
      obtain ⟨ms', h, rfl⟩ := List.mem_map.mp hms
      exact (manageable_sealed _ _ _).2 (hsafe ms' h).1)
  have hresp : (∃ i ∈ telegrams.map fun i => (sentFrame (fileBytes i.2), i.2.map sealed), ∃ x ∈ i.2, responseOf x ≠ none) ↔ ∃ i ∈ telegrams, ∃ x ∈ i.2, responseOf x ≠ none := by
    constructor
    · rintro ⟨i, hi, x, hx, hr⟩
      obtain ⟨j, hj, rfl⟩ := List.mem_map.mp hi
      obtain ⟨y, hy, rfl⟩ := List.mem_map.mp hx
      exact ⟨j, hj, y, hy, hr⟩
    · rintro ⟨j, hj, y, hy, hr⟩
      exact ⟨_, List.mem_map_of_mem hj, _, List.mem_map_of_mem hy, hr⟩
  rw [hresp] at g2 g3
  refine ⟨o, ?_, g2, fun hs => ?_⟩
  · rw [e2, heard_sealed] at g1
    refine printsTelegrams_sealed (g1 fun ms hms => ?_)
    obtain ⟨ms', h, rfl⟩ := List.mem_map.mp hms
    rw [lookedAt_sealed, entriesOf_sealed]
    exact (hsafe ms' h).2
  · obtain ⟨m', c, k1, k2, k3, k4, _, k5⟩ := g3 hs
    refine ⟨m', c, k1, k2, k3, k5 fun i hi => ?_⟩
    obtain ⟨j, hj, rfl⟩ := List.mem_map.mp hi
    exact (sent_quiet hdepth (hok j hj).2.1 (hok j hj).2.2.2).2

/-! ## A case -/

theorem calm_of {bs : List UInt8} (h : ∀ i, i < bs.length → ∃ j, j < 7 ∧ (bs[i + j]?.all fun c => decide (c.toNat < 128)) = true) : Calm bs := by
  refine .inl fun i => ?_
  by_cases hi : i < bs.length
  · obtain ⟨j, hj, hc⟩ := h i hi
    refine ⟨j, hj, fun c hc' => ?_⟩
    rw [hc'] at hc
    simpa using hc
  · exact ⟨0, by decide, fun c hc => by rw [List.getElem?_eq_none (by omega)] at hc; cases hc⟩

theorem noMark_of {bs : List UInt8} (h : ∀ i, i < bs.length → (bs.drop i).take 5 ≠ [0x0a, 0x01, 0x44, 0x5a, 0x47]) : NoMark bs := by
  rintro ⟨i, hi⟩
  by_cases hl : i < bs.length
  · exact h i hl hi
  · rw [List.drop_eq_nil_of_le (by omega)] at hi
    cases hi

/-- A program with a byte of noise, the sample telegram, again a byte, and again the telegram before it. -/
def serverMem (verbose single : Bool) : Mem :=
  { next := 1, heap := fun _ => none,
    world := { num := 3, input := [0x42] ++ sampleFrame ++ ([0x42] ++ sampleFrame), turns := [⟨[], .give 2⟩, ⟨[.failed], .intr⟩, ⟨[], .give 100⟩], pow := pow10, flags := fun i => if i = 0 then (if single then 1 else 0) else (if verbose then 1 else 0) } }

theorem server_listening (verbose single : Bool) : Listening (serverMem verbose single) verbose single := ⟨Nat.one_pos, fun _ _ => rfl, rfl, rfl, rfl⟩

/-- It meets the conditions, and the frames in it are calm and have no mark. -/
example : Listening (serverMem true false) true false ∧ GoodPow (serverMem true false).world.pow ∧ (serverMem true false).world.num = (3 : Nat) ∧ Errs (serverMem true false).world ∧
    transportListen 200 ⟨(serverMem true false).world.input, (serverMem true false).world.turns.map Turn.ev⟩ = .ok [sampleFrame, sampleFrame] ∧ Calm sampleFrame ∧ NoMark sampleFrame :=
  ⟨server_listening _ _, pow10_good, rfl, ⟨.inl rfl, by decide⟩, by decide +kernel, calm_of (by decide +kernel), noMark_of (by decide +kernel)⟩

/-- The run of the source on it, with `-s`: the values are printed once and the program is left. -/
example : CallBad .sml_transport_listen [.int .i32 (3 : Nat), .fn .transport_receiver] (serverMem false true)
    (.exited 0 "1-0:1.8.0*255#466.0#Wh\n1-0:16.7.0*255#-200#W\n1-0:96.1.0*255#0a 01 02 03 04 #\n".toUTF8.toList) := by
  have hl : transportListen 200 ⟨(serverMem false true).world.input, (serverMem false true).world.turns.map Turn.ev⟩ = .ok ([] ++ sampleFrame :: [sampleFrame]) := by decide +kernel
  have hs := (c64_listen 3 (by decide) (by decide) 200 ⟨(serverMem false true).world.input, (serverMem false true).world.turns⟩).trans hl
  obtain ⟨r, s, er, ht, hex⟩ := receiverCall_ok (o := "1-0:1.8.0*255#466.0#Wh\n1-0:16.7.0*255#-200#W\n1-0:96.1.0*255#0a 01 02 03 04 #\n".toUTF8.toList) (ex := true)
    (show receiverCall pow10 2024 ⟨true, false⟩ sampleFrame = _ by decide +kernel)
  obtain ⟨b, rfl, c⟩ := transportListen_bad (t := .i32) (Q := fun b => b = .exited 0 "1-0:1.8.0*255#466.0#Wh\n1-0:16.7.0*255#-200#W\n1-0:96.1.0*255#0a 01 02 03 04 #\n".toUTF8.toList)
    (receiver_receiver (serverMem false true) false true (server_listening _ _) (d := 3) rfl ⟨.inl rfl, by decide⟩ 2024 (by decide)) (by decide)
    (fun fd out fd' h hne => (readS_frame (by decide) h hne).2)
    ⟨rfl, ⟨⟨(serverMem false true).world.input, (serverMem false true).world.turns⟩, _, _, rfl⟩, by decide, fun _ _ => rfl, fun _ _ h => h, rfl, LostBlocks.refl _⟩ rfl rfl hs (by simp) fun m' bs hm' hbl hbt => by
      refine ⟨_, rfl, ?_⟩
      obtain ⟨fd, ev, ee, hw⟩ := hm'.world
      have run := receiver_run (m := { m' with stack := m'.stack ++ [.raw bs] }) (t := .u64) (l := .stack (serverMem false true).stack.length) (body := Samples.telegram ++ [0]) (x := 1) (y := 0) (z := 0)
        hm'.pos hm'.fresh hm'.ovf (single := true) (verbose := false) (by rw [hw]; rfl) (by rw [hw]; rfl) (by decide +kernel) (by decide +kernel)
        (fun env => getBlock_stack (by rw [hm'.stack]; simp)) hbt er
      rw [if_pos hex] at run
      have hpow : ({ m' with stack := m'.stack ++ [.raw bs] } : Mem).world.pow = pow10 := by rw [hw]; rfl
      have hout : ({ m' with stack := m'.stack ++ [.raw bs] } : Mem).world.out = [] := by rw [hw]; rfl
      rw [hpow, ht, hout] at run
      exact run
  exact c

/-- A frame with a message without body, and memory with it. -/
def bareBody : List UInt8 := Samples.skipTagMsg ++ [0, 0, 0]

def bareMem : Mem where
  next := 2
  heap := fun a => if a = 1 then some (.raw ((frame bareBody 0 0 0).map some)) else none

/-- It cannot be handled, and the source does not. -/
example : Listening bareMem false false ∧ (frame bareBody 0 0 0).length < 8096 ∧
    ∃ b, (b = .null ∨ b = .buf .oobRead) ∧ CallBad .transport_receiver [.ptr (.heap 1) 0, .int .u64 (frame bareBody 0 0 0).length] bareMem b := by
  have hw : ∀ a, bareMem.next ≤ a → bareMem.heap a = none := fun a ha => if_neg (by simp only [bareMem] at ha; omega)
  have hl : (frame bareBody 0 0 0).length < 8096 := by decide +kernel
  refine ⟨⟨by decide, hw, rfl, rfl, rfl⟩, hl, ?_⟩
  have h := (show Samples.holds (fileParse 80 bareBody) (fun f _ => f.messages.any fun x => x.messageBody.isNone) = true by decide +kernel)
  cases e : fileParse 80 bareBody with
  | ub u => rw [e] at h; cases h
  | ok f s =>
    rw [e] at h
    obtain ⟨x, hx, hb⟩ := List.any_eq_true.mp (show (f.messages.any fun x => x.messageBody.isNone) = true from h)
    have hlook : ∀ ms : List Message, lookedAt false ms = ms := by
      intro ms
      induction ms with
      | nil => rfl
      | cons y ms ih => simp [lookedAt, ih]
    exact receiver_bad (blk := (frame bareBody 0 0 0).map some) (verbose := false) (single := false) (by decide) hw rfl rfl rfl hl (by decide +kernel)
      (fun env => getBlock_heap (by decide) rfl) (List.take_of_length_le (by rw [List.length_map]; exact Nat.le_refl _)) e
      fun hM => ((hM.1 x (by rw [hlook]; exact hx)).1 (Option.isNone_iff_eq_none.mp hb))

end Sml.C
