import Verif.Proofs.GrammarBodies
import Verif.Proofs.Block
import Verif.Proofs.FileRun

/-!
# Messages and telegrams
-/

namespace Sml

open Spec Spec.Grammar

theorem mfield_run {p : M α} {set : α → Message} {k : Message → M (Option Message)} {st s : St} {a : α} (h : p st = .ok a s) (he : s.error = false) :
    messageField p set k st = k (set a) s := by
  unfold messageField
  rw [run_bind, h]
  run
  rw [if_neg (by simp [he])]

theorem rest_length (st : St) : st.rest.length = st.data.length - st.cursor := by
  unfold St.rest; simp

theorem matches_iff (bs : List UInt8) (c : Num) :
    (c.val ≠ (crc16 bs).toNat ∧ c.val ≠ (crc16kermit bs).toNat) ↔ ¬ Matches bs c := by
  unfold Matches
  rw [crc16_eq, crc16kermit_eq]
  constructor
  · rintro ⟨h1, h2⟩ (h | h)
    · exact h1 h
    · exact h2 h
  · intro h
    exact ⟨fun h1 => h (Or.inl h1), fun h1 => h (Or.inr h1)⟩

theorem setError_fail {m : Message} {st s : St} {r : Option Message} (h : (do setError; messageFail m : M (Option Message)) st = .ok r s) : s.error = true :=
  sticky_messageFail m { st with error := true } rfl _ _ h

theorem messageFail_rest {m : Message} {st s : St} {r : Option Message} (h : messageFail m st = .ok r s) : r = none ∧ s.rest = st.rest ∧ s.error = st.error := by
  have hw : Wlp (messageFail m) st fun r s => r = none ∧ s.rest = st.rest ∧ s.error = st.error := by
    unfold messageFail messageFree messageBodyFree
    simp only [wlp_bind, wlp_release, wlp_pure]
    intro _ _ _
    split
    · simp [St.rest]
    · split <;> simp [St.rest]
  exact hw _ _ h

/-- What comes after the checksum. -/
def ending : Rel := fun i o => i = 0x00 :: o ∨ (i = o ∧ i ≠ [] ∧ i.head? ≠ some 0x00)

/-- The end of a message, in terms of the bytes that were read before. -/
def endOf (bs : List UInt8) (m : Message) (r : Option Message) : Rel := fun i o =>
  3 ≤ i.length ∧ ∃ c, (∃ i', num 6 2 (some c) i i' ∧ Matches bs c ∧ r = some { m with crc := some c } ∧ ending i' o) ∨
    (num 6 2 (some c) i o ∧ ¬ Matches bs c ∧ r = none)

theorem tail_sound {start : Nat} {m : Message} {st s : St} {r : Option Message} (hc : st.cursor ≤ st.data.length) (hs : start ≤ st.cursor)
    (h : messageParseTail start m st = .ok r s) (he : s.error = false) :
    endOf ((st.data.drop start).take (st.cursor - start)) m r st.rest s.rest := by
  unfold messageParseTail at h
  rw [run_bind, run_getSt, Res.andThen_ok] at h
  simp only [run_ite] at h
  split at h
  · cases h
  split at h
  · rw [setError_fail h] at he; cases he
  · next h3 =>
    refine ⟨by rw [rest_length]; omega, ?_⟩
    obtain ⟨crc, s1, h4, h5⟩ := bind_inv h
    rw [run_bind, run_hasErrors, Res.andThen_ok] at h5
    cases hs1 : s1.error with
    | true => rw [hs1] at h5; rw [setError_fail h5] at he; cases he
    | false =>
      have h6 := (parses_u 2).sound st s1 crc hc h4 hs1
      obtain ⟨h7, h8, h9⟩ := (parses_u 2).after hc h4
      rw [hs1] at h5
      cases crc with
      | none => rw [setError_fail h5] at he; cases he
      | some c =>
        refine ⟨c, ?_⟩
        simp only at h5
        have hb : bufferSlice start (st.cursor - start) s1 = .ok ((st.data.drop start).take (st.cursor - start)) s1 := by
          unfold bufferSlice
          rw [if_pos (by omega), h7]
        rw [bind_ok hb, run_ite] at h5
        split at h5
        · next h10 =>
          right
          obtain ⟨rfl, h11, _⟩ := messageFail_rest h5
          rw [h11]
          exact ⟨h6, (matches_iff _ _).1 h10, rfl⟩
        · next h10 =>
          left
          refine ⟨s1.rest, h6, Classical.not_not.1 fun hx => h10 ((matches_iff _ _).2 hx), ?_⟩
          rw [run_bind, run_getSt, Res.andThen_ok, run_ite] at h5
          split at h5
          · rw [setError_fail h5] at he; cases he
          · next h11 =>
            have hlt : s1.cursor < s1.data.length := by omega
            rw [run_bind, run_getCurrentByte hlt, Res.andThen_ok, run_ite] at h5
            split at h5
            · next hz =>
              cases h5
              refine ⟨rfl, Or.inl ?_⟩
              rw [show s1.rest = s1.data[s1.cursor] :: s1.data.drop (s1.cursor + 1) from List.drop_eq_getElem_cons hlt, hz]
              rfl
            · next hz =>
              cases h5
              exact ⟨rfl, Or.inr ⟨rfl, rest_ne_nil.2 hlt, fun hx => hz (rest_head.1 hx).2⟩⟩

theorem tail_complete {start : Nat} {m : Message} {st s : St} {r r' : Option Message} {o : List UInt8} (he : st.error = false) (hc : st.cursor ≤ st.data.length)
    (hlen : st.data.length ≤ 2147483647) (hs : start ≤ st.cursor) (h : messageParseTail start m st = .ok r s)
    (hg : endOf ((st.data.drop start).take (st.cursor - start)) m r' st.rest o) : r = r' ∧ s.error = false ∧ s.rest = o := by
  obtain ⟨h3, c, hg⟩ := hg
  rw [rest_length] at h3
  have hn : ∃ i', num 6 2 (some c) st.rest i' := by
    rcases hg with ⟨i', h, _⟩ | ⟨h, _⟩
    · exact ⟨i', h⟩
    · exact ⟨o, h⟩
  obtain ⟨i', hn⟩ := hn
  obtain ⟨s1, h4, h5, h6, _⟩ := (parses_u 2).complete st (some c) i' he hc hn
  obtain ⟨h7, h8, h9⟩ := (parses_u 2).after hc h4
  unfold messageParseTail at h
  rw [run_bind, run_getSt, Res.andThen_ok] at h
  simp only [run_ite] at h
  rw [if_neg (by omega), if_neg (by omega), run_bind, show u16Parse st = .ok (some c) s1 from h4, Res.andThen_ok, run_bind, run_hasErrors, Res.andThen_ok, h5] at h
  simp only at h
  have hb : bufferSlice start (st.cursor - start) s1 = .ok ((st.data.drop start).take (st.cursor - start)) s1 := by
    unfold bufferSlice
    rw [if_pos (by omega), h7]
  have hdet : ∀ i'', num 6 2 (some c) st.rest i'' → s1.rest = i'' := by
    intro i'' hn'
    obtain ⟨s1', g4, g5, g6, _⟩ := (parses_u 2).complete st (some c) i'' he hc hn'
    rw [h4] at g4
    cases g4
    exact g6
  rw [bind_ok hb, run_ite] at h
  rcases hg with ⟨i'', h10, h11, rfl, h12⟩ | ⟨h10, h11, rfl⟩
  · rw [if_neg fun hx => (matches_iff _ _).1 hx h11, run_bind, run_getSt, Res.andThen_ok, run_ite] at h
    have hr := hdet _ h10
    subst hr
    have hlt : s1.cursor < s1.data.length := by
      rcases h12 with h12 | ⟨_, h12, _⟩
      · exact rest_ne_nil.1 (by rw [h12]; simp)
      · exact rest_ne_nil.1 h12
    rw [if_neg (by omega), run_bind, run_getCurrentByte hlt, Res.andThen_ok, run_ite] at h
    have hcons : s1.rest = s1.data[s1.cursor] :: s1.data.drop (s1.cursor + 1) := List.drop_eq_getElem_cons hlt
    rcases h12 with h12 | ⟨h12, _, h13⟩
    · rw [hcons] at h12
      injection h12 with h14 h15
      rw [if_pos h14] at h
      cases h
      exact ⟨rfl, h5, h15⟩
    · rw [if_neg fun hz => h13 (rest_head.2 ⟨hlt, hz⟩)] at h
      cases h
      exact ⟨rfl, h5, h12⟩
  · rw [if_pos ((matches_iff _ _).2 h11)] at h
    obtain ⟨rfl, h12, h13⟩ := messageFail_rest h
    exact ⟨rfl, h13.trans h5, h12.trans (hdet _ h10)⟩

/-- The bytes between two positions. -/
theorem rest_between {st s : St} (hd : s.data = st.data) (h : st.cursor ≤ s.cursor) :
    (st.data.drop st.cursor).take (s.cursor - st.cursor) ++ s.rest = st.rest := by
  unfold St.rest
  rw [hd, show s.cursor = st.cursor + (s.cursor - st.cursor) by omega, Nat.add_sub_cancel_left, ← List.drop_drop]
  exact List.take_append_drop _ _

theorem between_unique {st s : St} {bs : List UInt8} (hd : s.data = st.data) (h : st.cursor ≤ s.cursor) (hb : bs ++ s.rest = st.rest) :
    (st.data.drop st.cursor).take (s.cursor - st.cursor) = bs :=
  List.append_cancel_right ((rest_between hd h).trans hb.symm)

theorem message_def {depth : Nat} {r : Option Message} {i o : List UInt8} :
    message depth r i o ↔ ∃ m bs mid, i = bs ++ mid ∧ head depth m i mid ∧ m.crc = none ∧ endOf bs m r mid o := by
  constructor
  · cases r with
    | none =>
      rintro ⟨m, c, bs, h1, mid, h2, h3, h4, h5⟩
      exact ⟨{ m with crc := none }, bs, mid, h2, h3, rfl, h4, c, Or.inr ⟨h5, h1, rfl⟩⟩
    | some m =>
      rintro ⟨c, bs, h0, h1, i', ⟨mid, h2, h3, h4, h5⟩, h6⟩
      refine ⟨{ m with crc := none }, bs, mid, h2, h3, rfl, h4, c, Or.inl ⟨i', h5, h1, ?_, h6⟩⟩
      rw [← h0]
  · rintro ⟨m, bs, mid, h1, h2, h3, h4, c, ⟨i', h5, h6, rfl, h7⟩ | ⟨h5, h6, rfl⟩⟩
    · exact ⟨c, bs, rfl, h6, i', ⟨mid, h1, h2, h4, h5⟩, h7⟩
    · exact ⟨m, c, bs, h6, mid, h1, h2, h4, h5⟩

theorem message_run {depth : Nat} {st s0 s1 s2 s3 s4 : St} {m : Message} (hm : m.crc = none) (hlen : st.cursor ≤ 2147483647)
    (ht : getNextType { st with live := st.live + 1 } = .ok 0x70 { st with live := st.live + 1 })
    (h0 : getNextLength { st with live := st.live + 1 } = .ok 6 s0)
    (h1 : octetStringParse s0 = .ok m.transactionId s1) (e1 : s1.error = false) (h2 : u8Parse s1 = .ok m.groupId s2) (e2 : s2.error = false)
    (h3 : u8Parse s2 = .ok m.abortOnError s3) (e3 : s3.error = false) (h4 : messageBodyParse depth s3 = .ok m.messageBody s4) (e4 : s4.error = false) :
    messageParse depth st = messageParseTail st.cursor m s4 := by
  rw [messageParse_eq hlen]
  show messageFrom depth st.cursor { st with live := st.live + 1 } = _
  unfold messageFrom
  rw [bind_ok ht, if_neg (by decide), bind_ok h0, if_neg (by decide), mfield_run h1 e1, mfield_run h2 e2, mfield_run h3 e3, mfield_run h4 e4]
  obtain ⟨a, b, c, d, e⟩ := m
  simp only at hm
  subst hm
  rfl

theorem message_sound {depth : Nat} {st s : St} {r : Option Message} (hc : st.cursor ≤ st.data.length) (hlen : st.data.length ≤ 2147483647)
    (h : messageParse depth st = .ok r s) (he : s.error = false) : message depth r st.rest s.rest := by
  obtain ⟨m, s0, s1, s2, s3, s4, s5, c, hst, _⟩ := message_steps hc hlen h he
  have ht : getNextType { st with live := st.live + 1 } = .ok 0x70 { st with live := st.live + 1 } := by
    rw [run_getNextType (by exact hst.start)]
    have := hst.type hst.start
    simp only [this]
  rw [message_run (m := { m with crc := none }) rfl (by omega) ht hst.header hst.tid hst.tid_err hst.group hst.group_err hst.abort hst.abort_err hst.body hst.body_err] at h
  have e0 : s0.error = false := parses_str.clean hst.tid hst.tid_err
  obtain ⟨d0, l0, c0⟩ := parses_getNextLength.after (by exact hc) hst.header
  obtain ⟨d1, l1, c1⟩ := parses_str.after c0 hst.tid
  obtain ⟨d2, l2, c2⟩ := (parses_u 1).after c1 hst.group
  obtain ⟨d3, l3, c3⟩ := (parses_u 1).after c2 hst.abort
  obtain ⟨d4, l4, c4⟩ := (parses_body depth).after c3 hst.body
  have hd : s4.data = st.data := by rw [d4, d3, d2, d1, d0]
  simp only at l0
  have hcur : st.cursor ≤ s4.cursor := by omega
  have hend := tail_sound (m := { m with crc := none }) c4 hcur h he
  rw [hd] at hend
  obtain ⟨ty, g0⟩ := parses_getNextLength.sound _ _ _ (by exact hc) hst.header e0
  have hty : nextType 7 st.rest := by
    refine ⟨_, rest_head.2 ⟨hst.start, rfl⟩, ?_⟩
    have := hst.type hst.start
    rw [type_bits] at this
    omega
  have : ty = 7 := nextType_unique (header_next g0) hty
  subst this
  exact message_def.2 ⟨{ m with crc := none }, _, s4.rest, (rest_between hd hcur).symm,
    ⟨s0.rest, g0, s1.rest, parses_str.sound _ _ _ c0 hst.tid hst.tid_err, s2.rest, (parses_u 1).sound _ _ _ c1 hst.group hst.group_err,
      s3.rest, (parses_u 1).sound _ _ _ c2 hst.abort hst.abort_err, (parses_body depth).sound _ _ _ c3 hst.body hst.body_err⟩, rfl, hend⟩

theorem message_complete {depth : Nat} {st s : St} {r r' : Option Message} {o : List UInt8} (hc : st.cursor ≤ st.data.length) (hlen : st.data.length ≤ 2147483647)
    (he : st.error = false) (h : messageParse depth st = .ok r s) (hg : message depth r' st.rest o) : r = r' ∧ s.error = false ∧ s.rest = o := by
  obtain ⟨m, bs, mid, h1, ⟨m0, g0, m1, g1, m2, g2, m3, g3, g4⟩, h2, h3⟩ := message_def.1 hg
  obtain ⟨hlt, k, ov, h4, h5, h6, h7⟩ := header_run (st := { st with live := st.live + 1 }) g0
  simp only at h5 h6
  obtain ⟨s1, p1, e1, r1, _⟩ := parses_str.complete { st with live := st.live + 1, cursor := st.cursor + k, sovf := ov } m.transactionId m1 he
    (by simp only; omega) (by rw [← h5] at g1; exact g1)
  obtain ⟨d1, l1, c1⟩ := parses_str.after (by simp only; omega) p1
  obtain ⟨s2, p2, e2, r2, _⟩ := (parses_u 1).complete s1 m.groupId m2 e1 c1 (by rw [r1]; exact g2)
  obtain ⟨d2, l2, c2⟩ := (parses_u 1).after c1 p2
  obtain ⟨s3, p3, e3, r3, _⟩ := (parses_u 1).complete s2 m.abortOnError m3 e2 c2 (by rw [r2]; exact g3)
  obtain ⟨d3, l3, c3⟩ := (parses_u 1).after c2 p3
  obtain ⟨s4, p4, e4, r4, _⟩ := (parses_body depth).complete s3 m.messageBody mid e3 c3 (by rw [r3]; exact g4)
  obtain ⟨d4, l4, c4⟩ := (parses_body depth).after c3 p4
  rw [message_run h2 (by omega) h7 h4 p1 e1 p2 e2 p3 e3 p4 e4] at h
  have hd : s4.data = st.data := by rw [d4, d3, d2, d1]
  simp only at l1
  have hcur : st.cursor ≤ s4.cursor := by omega
  refine tail_complete e4 c4 (by rw [hd]; exact hlen) hcur h ?_
  rw [hd, between_unique hd hcur (by rw [r4]; exact h1.symm), r4]
  exact h3

/-! ## Telegrams -/

theorem run_telegram {depth : Nat} {st s : St} {ms : List Message} (h : Run (messageParse depth) st ms s) :
    st.error = false → st.cursor ≤ st.data.length → st.data.length ≤ 2147483647 → Telegram depth st.rest ms := by
  induction h with
  | @done st h =>
    intro _ hc _
    have : st.rest = [] := by unfold St.rest; exact List.drop_eq_nil_of_le h
    rw [this]
    exact .done
  | @zero st s ms h1 h2 ih =>
    intro he hc hlen
    obtain ⟨hlt, hz⟩ := List.getElem?_eq_some_iff.1 h1
    have : st.rest = 0x00 :: st.data.drop (st.cursor + 1) := by
      unfold St.rest; rw [List.drop_eq_getElem_cons hlt, hz]
    rw [this]
    exact .padding (ih he (by exact hlt) hlen)
  | @stop st s r b h1 h2 h3 h4 =>
    intro he hc hlen
    obtain ⟨hlt, hz⟩ := List.getElem?_eq_some_iff.1 h1
    refine .stop (rest_ne_nil.2 hlt) (fun hx => h2 (hz.symm.trans (rest_head.1 hx).2)) ?_
    rintro ⟨r', o, hg⟩
    have := (message_complete hc hlen he h3 hg).2.1
    rw [this] at h4; cases h4
  | @accept st s1 s m ms b l h1 h2 h3 h4 h5 ih =>
    intro he hc hlen
    obtain ⟨a1, a2, a3⟩ := message_adv hc hlen h3
    refine .deliver (message_sound hc hlen h3 h4) (ih h4 ?_ ?_)
    · exact a1 ▸ a3
    · exact a1 ▸ hlen
  | @drop st s1 s ms b h1 h2 h3 h4 h5 ih =>
    intro he hc hlen
    obtain ⟨a1, a2, a3⟩ := message_adv hc hlen h3
    refine .drop (message_sound hc hlen h3 h4) (ih h4 ?_ ?_)
    · exact a1 ▸ a3
    · exact a1 ▸ hlen

theorem message_head {depth : Nat} {r : Option Message} {i o : List UInt8} (h : message depth r i o) : nextType 7 i := by
  obtain ⟨m, bs, mid, h1, ⟨m0, g0, _⟩, _⟩ := message_def.1 h
  exact header_next g0

theorem zero_type (i : List UInt8) : ¬ nextType 7 (0x00 :: i) := by
  rintro ⟨b, h, hb⟩
  cases h
  cases hb

theorem rest_zero {st : St} {i : List UInt8} (h : st.rest = 0x00 :: i) : st.data[st.cursor]? = some 0 := by
  obtain ⟨h1, h2⟩ := rest_head.1 (show st.rest.head? = some 0x00 by rw [h]; rfl)
  rw [List.getElem?_eq_getElem h1, h2]

theorem telegram_unique {depth : Nat} {st s : St} {ms : List Message} (h : Run (messageParse depth) st ms s) :
    st.error = false → st.cursor ≤ st.data.length → st.data.length ≤ 2147483647 → ∀ ms', Telegram depth st.rest ms' → ms' = ms := by
  induction h with
  | @done st h =>
    intro _ hc _ ms' ht
    have : st.rest = [] := by unfold St.rest; exact List.drop_eq_nil_of_le h
    rw [this] at ht
    cases ht with
    | done => rfl
    | deliver h1 _ => exact absurd rfl (nextType_ne_nil (message_head h1))
    | drop h1 _ => exact absurd rfl (nextType_ne_nil (message_head h1))
    | stop h1 _ _ => exact absurd rfl h1
  | @zero st s ms h1 h2 ih =>
    intro he hc hlen ms' ht
    obtain ⟨hlt, hz⟩ := List.getElem?_eq_some_iff.1 h1
    have : st.rest = 0x00 :: st.data.drop (st.cursor + 1) := by
      unfold St.rest; rw [List.drop_eq_getElem_cons hlt, hz]
    rw [this] at ht
    cases ht with
    | padding h3 => exact ih he (by exact hlt) hlen _ h3
    | deliver h1 _ => exact absurd (message_head h1) (zero_type _)
    | drop h1 _ => exact absurd (message_head h1) (zero_type _)
    | stop _ h1 _ => exact absurd rfl h1
  | @stop st s r b h1 h2 h3 h4 =>
    intro he hc hlen ms' ht
    generalize hi : st.rest = i at ht
    have bad : ∀ {r' o}, ¬ message depth r' i o := by
      intro r' o hg
      subst hi
      have := (message_complete hc hlen he h3 hg).2.1
      rw [this] at h4; cases h4
    cases ht with
    | done => rfl
    | padding h5 => rw [rest_zero hi] at h1; cases h1; exact absurd rfl h2
    | deliver h5 _ => exact absurd h5 bad
    | drop h5 _ => exact absurd h5 bad
    | stop _ _ _ => rfl
  | @accept st s1 s m ms b l h1 h2 h3 h4 h5 ih =>
    intro he hc hlen ms' ht
    obtain ⟨a1, a2, a3⟩ := message_adv hc hlen h3
    have hg := message_sound hc hlen h3 h4
    generalize hi : st.rest = i at ht hg
    cases ht with
    | done => exact absurd rfl (nextType_ne_nil (message_head hg))
    | padding h6 => rw [rest_zero hi] at h1; cases h1; exact absurd rfl h2
    | deliver h6 h7 =>
      subst hi
      obtain ⟨hr, _, ho⟩ := message_complete hc hlen he h3 h6
      cases hr
      rw [← ho] at h7
      rw [ih h4 (a1 ▸ a3) (a1 ▸ hlen) _ h7]
    | drop h6 h7 =>
      subst hi
      obtain ⟨hr, _⟩ := message_complete hc hlen he h3 h6
      cases hr
    | stop _ _ h6 => exact absurd ⟨_, _, hg⟩ h6
  | @drop st s1 s ms b h1 h2 h3 h4 h5 ih =>
    intro he hc hlen ms' ht
    obtain ⟨a1, a2, a3⟩ := message_adv hc hlen h3
    have hg := message_sound hc hlen h3 h4
    generalize hi : st.rest = i at ht hg
    cases ht with
    | done => exact absurd rfl (nextType_ne_nil (message_head hg))
    | padding h6 => rw [rest_zero hi] at h1; cases h1; exact absurd rfl h2
    | deliver h6 h7 =>
      subst hi
      obtain ⟨hr, _⟩ := message_complete hc hlen he h3 h6
      cases hr
    | drop h6 h7 =>
      subst hi
      obtain ⟨hr, _, ho⟩ := message_complete hc hlen he h3 h6
      rw [← ho] at h7
      rw [ih h4 (a1 ▸ a3) (a1 ▸ hlen) _ h7]
    | stop _ _ h6 => exact absurd ⟨_, _, hg⟩ h6

end Sml
