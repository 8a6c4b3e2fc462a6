import Verif.Proofs.RunLocal
import Verif.Proofs.Crc
import Verif.Spec.Block

/-!
# The bytes of a message
-/

namespace Sml

open Spec

set_option linter.unusedVariables false

theorem messageField_inv' {p : M α} {set : α → Message} {k : Message → M (Option Message)} {st s : St}
    {r : Option Message} (h : messageField p set k st = .ok r s) (he : s.error = false) :
    ∃ v s', p st = .ok v s' ∧ s'.error = false ∧ k (set v) s' = .ok r s := by
  unfold messageField at h
  obtain ⟨v, s', h1, h2⟩ := bind_inv h
  have hh : hasErrors s' = .ok s'.error s' := rfl
  rw [bind_ok hh] at h2
  cases hs : s'.error with
  | false => rw [hs] at h2; exact ⟨v, s', h1, hs, h2⟩
  | true =>
    rw [hs] at h2
    have := sticky_messageFail _ s' hs _ _ h2
    cases he.symm.trans this

/-- The steps of `sml_message_parse` up to the checksum, when there is no error. -/
structure Steps (depth : Nat) (st : St) (m : Message) (s0 s1 s2 s3 s4 s5 : St) (c : Num) : Prop where
  start : st.cursor < st.data.length
  type : ∀ h : st.cursor < st.data.length, st.data[st.cursor].toNat &&& 0x70 = 0x70
  header : getNextLength { st with live := st.live + 1 } = .ok 6 s0
  tid : octetStringParse s0 = .ok m.transactionId s1
  tid_err : s1.error = false
  group : u8Parse s1 = .ok m.groupId s2
  group_err : s2.error = false
  abort : u8Parse s2 = .ok m.abortOnError s3
  abort_err : s3.error = false
  body : messageBodyParse depth s3 = .ok m.messageBody s4
  body_err : s4.error = false
  crc : u16Parse s4 = .ok (some c) s5
  crc_err : s5.error = false

theorem message_steps {depth : Nat} {st s : St} {r : Option Message} (hb : st.cursor ≤ st.data.length)
    (hsm : st.data.length ≤ 2147483647) (h : messageParse depth st = .ok r s) (he : s.error = false) :
    ∃ m s0 s1 s2 s3 s4 s5 c, Steps depth st m s0 s1 s2 s3 s4 s5 c ∧
      let bytes := (st.data.drop st.cursor).take (s4.cursor - st.cursor)
      let ok := c.val = (crc16 bytes).toNat ∨ c.val = (crc16kermit bytes).toNat
      (ok ∧ r = some { m with crc := some c } ∧ ∃ h : s5.cursor < s5.data.length,
        s = { s5 with cursor := s5.cursor + if s5.data[s5.cursor] = 0 then 1 else 0 }) ∨
      (¬ ok ∧ r = none ∧ s.cursor = s5.cursor) := by
  rw [messageParse_eq (by omega)] at h
  replace h : messageFrom depth st.cursor { st with live := st.live + 1 } = .ok r s := h
  unfold messageFrom at h
  obtain ⟨t, sb, hb1, hA⟩ := bind_inv h
  clear h
  have hE : ∀ x : St, (do setError; messageFail {} : M (Option Message)) x = .ok r s → False := by
    intro x hx
    have := errorFail {} x _ _ hx
    cases he.symm.trans this
  by_cases ht : t ≠ tyList
  · rw [if_pos ht] at hA; exact absurd hA (hE _)
  rw [if_neg ht] at hA
  have ht : t = tyList := Decidable.not_not.1 ht
  obtain ⟨n, s0, hn, h⟩ := bind_inv hA
  clear hA
  by_cases h6 : n ≠ 6
  · rw [if_pos h6] at h; exact absurd h (hE _)
  rw [if_neg h6] at h
  have h6 : n = 6 := Decidable.not_not.1 h6
  subst h6
  have htype : sb = { st with live := st.live + 1 } ∧ ∃ hlt : st.cursor < st.data.length, st.data[st.cursor].toNat &&& 0x70 = 0x70 := by
    have : Wlp getNextType { st with live := st.live + 1 } fun t s => t = 0x70 →
        s = { st with live := st.live + 1 } ∧ ∃ hlt : st.cursor < st.data.length, st.data[st.cursor].toNat &&& 0x70 = 0x70 := by
      apply wlp_getNextType
      · intro _ h; cases h
      · intro hlt h; exact ⟨rfl, hlt, h⟩
    exact this _ _ hb1 ht
  obtain ⟨rfl, hlt, hty⟩ := htype
  obtain ⟨d0, c0, b0⟩ := loc_getNextLength.adv _ (by simpa using hb) _ _ hn
  obtain ⟨v1, s1, e1, r1, h⟩ := messageField_inv' h he
  obtain ⟨d1, c1, b1⟩ := loc_octetString.adv _ (by rw [d0]; exact b0) _ _ e1
  obtain ⟨v2, s2, e2, r2, h⟩ := messageField_inv' h he
  obtain ⟨d2, c2, b2⟩ := (loc_number _ _).adv _ (by rw [d1]; exact b1) _ _ e2
  obtain ⟨v3, s3, e3, r3, h⟩ := messageField_inv' h he
  obtain ⟨d3, c3, b3⟩ := (loc_number _ _).adv _ (by rw [d2]; exact b2) _ _ e3
  obtain ⟨v4, s4, e4, r4, h⟩ := messageField_inv' h he
  obtain ⟨d4, c4, b4⟩ := (loc_messageBody _).adv _ (by rw [d3]; exact b3) _ _ e4
  simp only at d0 c0
  have hd4 : s4.data = st.data := by rw [d4, d3, d2, d1, d0]
  have hb4 : s4.cursor ≤ s4.data.length := by rw [d4]; exact b4
  rw [tail_eq (by omega) hb4 (by rw [hd4] at hb4; omega)] at h
  unfold tailWith at h
  change (if s4.data.length - s4.cursor < 3 then _ else _ : M (Option Message)) s4 = _ at h
  by_cases h3 : s4.data.length - s4.cursor < 3
  · rw [if_pos h3] at h
    have := errorFail _ s4 _ _ h
    cases he.symm.trans this
  rw [if_neg h3] at h
  obtain ⟨v5, s5, e5, h⟩ := bind_inv h
  have hh : hasErrors s5 = .ok s5.error s5 := rfl
  rw [bind_ok hh] at h
  have hE5 : ∀ (m : Message), (do setError; messageFail m : M (Option Message)) s5 = .ok r s → False := by
    intro m hx
    have := errorFail m s5 _ _ hx
    cases he.symm.trans this
  cases r5 : s5.error with
  | true => rw [r5] at h; exact absurd h (hE5 _)
  | false =>
    rw [r5] at h
    cases v5 with
    | none => exact absurd h (hE5 _)
    | some c =>
      refine ⟨⟨v1, v2, v3, v4, none⟩, s0, s1, s2, s3, s4, s5, c,
        ⟨hlt, fun _ => hty, hn, e1, r1, e2, r2, e3, r3, e4, r4, e5, r5⟩, ?_⟩
      rw [hd4] at h
      dsimp only at h ⊢
      split at h
      · rename_i hbad
        right
        refine ⟨by rintro (h | h); exact hbad.1 h; exact hbad.2 h, ?_⟩
        have hw : Wlp (messageFail { transactionId := v1, groupId := v2, abortOnError := v3, messageBody := v4, crc := some c })
            s5 fun r s => r = none ∧ s.cursor = s5.cursor := by
          unfold messageFail messageFree messageBodyFree
          simp only [wlp_bind, wlp_release, wlp_pure]
          intro _ _ _
          split
          · simp
          · split <;> simp
        exact hw _ _ h
      · rename_i hgood
        left
        refine ⟨?_, ?_⟩
        · by_cases hx : c.val = (crc16 ((st.data.drop st.cursor).take (s4.cursor - st.cursor))).toNat
          · exact Or.inl hx
          · by_cases hy : c.val = (crc16kermit ((st.data.drop st.cursor).take (s4.cursor - st.cursor))).toNat
            · exact Or.inr hy
            · exact absurd ⟨hx, hy⟩ hgood
        change (if s5.cursor ≥ s5.data.length then _ else _ : M (Option Message)) s5 = _ at h
        by_cases hend : s5.cursor ≥ s5.data.length
        · rw [if_pos hend] at h; exact absurd h (hE5 _)
        · rw [if_neg hend] at h
          have hlt5 : s5.cursor < s5.data.length := by omega
          rw [bind_ok (run_getCurrentByte hlt5)] at h
          by_cases h0 : s5.data[s5.cursor] = 0
          · rw [if_pos h0] at h
            cases h
            exact ⟨rfl, hlt5, by rw [if_pos h0]⟩
          · rw [if_neg h0] at h
            cases h
            exact ⟨rfl, hlt5, by rw [if_neg h0]; rfl⟩

theorem number_eq (bs : List UInt8) : Spec.number bs = beNat bs := by
  unfold Spec.number beNat
  congr 1
  funext a b
  omega

theorem beNat_pad (n : Nat) (bs : List UInt8) : beNat (List.replicate n 0 ++ bs) = beNat bs := by
  rw [beNat_append, beNat_zeros]; simp

/-- The checksum field. -/
theorem crc_field {st s : St} {c : Num} (hb : st.cursor ≤ st.data.length) (h : u16Parse st = .ok (some c) s) (he : s.error = false) :
    s.data = st.data ∧ s.cursor ≤ st.data.length ∧ c.size = 2 ∧ c.val < 65536 ∧
    ∃ hdr body, IsHeader hdr ∧ headerType hdr = 6 ∧ body.length ≤ 2 ∧ st.cursor + (hdr.length + body.length) = s.cursor ∧
      slice st.data st.cursor s.cursor = hdr ++ body ∧ Spec.number body = c.val := by
  obtain ⟨d, _, b⟩ := (loc_number tyUnsigned 2).adv _ hb _ _ h
  obtain ⟨hlt, h1 | ⟨h1, h2, l, s1, hl1, hn, e1, hl, hr, ha, hs⟩⟩ := number_inv h he
  · cases h1.2.1
  · obtain ⟨hdr, rest, o, hd, hh, _, hs1, _⟩ := getNextLength_inv hb hn e1
    have hty := headerType_get hh hd hlt (t := 6) (by exact h2)
    cases ha
    subst hs
    subst hs1
    simp only at hr hl1 ⊢
    have hval : beNat (List.replicate (2 - l) (if (decide (tyUnsigned = tyInteger) &&
        decide (st.data[st.cursor + hdr.length] &&& 128 ≠ 0)) = true then 0xFF else 0x00) ++
        List.take l (List.drop (st.cursor + hdr.length) st.data)) =
        beNat (List.take l (List.drop (st.cursor + hdr.length) st.data)) := by
      rw [if_neg (by simp [tyUnsigned, tyInteger])]
      exact beNat_pad _ _
    have hlen : (List.take l (List.drop (st.cursor + hdr.length) st.data)).length = l := by simp; omega
    refine ⟨trivial, hr, trivial, ?_, hdr, List.take l (List.drop (st.cursor + hdr.length) st.data), hh, hty, by omega, by omega, ?_, ?_⟩
    · rw [hval]
      have := beNat_lt (List.take l (List.drop (st.cursor + hdr.length) st.data))
      rw [hlen] at this
      have : 256 ^ l ≤ 256 ^ 2 := Nat.pow_le_pow_right (by omega) hl
      omega
    · unfold slice
      have hrest : rest = List.drop (st.cursor + hdr.length) st.data := by
        rw [← List.drop_drop, hd]; simp
      rw [hd, hrest]
      have : st.cursor + hdr.length + l - st.cursor = hdr.length + l := by omega
      rw [this, List.take_length_add_append]
    · rw [hval, number_eq]

/-- The block of a message read without error, and what its checksum decides. -/
theorem message_block {depth : Nat} {st s : St} {r : Option Message} (hb : st.cursor ≤ st.data.length)
    (hsm : st.data.length ≤ 2147483647) (h : messageParse depth st = .ok r s) (he : s.error = false) :
    ∃ b e v, IsBlock st.data st.cursor b e v ∧ v < 65536 ∧ e ≤ s.cursor ∧
      ((Passes (slice st.data st.cursor b) (BitVec.ofNat 16 v) ∧
          ∃ m, r = some m ∧ m.crc = some { size := 2, val := v } ∧
          (s.cursor = e + 1 ∧ st.data[e]? = some 0 ∨ s.cursor = e ∧ ∃ x, st.data[e]? = some x ∧ x ≠ 0)) ∨
       (¬ Passes (slice st.data st.cursor b) (BitVec.ofNat 16 v) ∧ r = none ∧ s.cursor = e)) := by
  obtain ⟨m, s0, s1, s2, s3, s4, s5, c, hst, hres⟩ := message_steps hb hsm h he
  obtain ⟨d0, c0, b0⟩ := loc_getNextLength.adv _ (by simpa using hb) _ _ hst.header
  obtain ⟨d1, c1, b1⟩ := loc_octetString.adv _ (by rw [d0]; exact b0) _ _ hst.tid
  obtain ⟨d2, c2, b2⟩ := (loc_number _ _).adv _ (by rw [d1]; exact b1) _ _ hst.group
  obtain ⟨d3, c3, b3⟩ := (loc_number _ _).adv _ (by rw [d2]; exact b2) _ _ hst.abort
  obtain ⟨d4, c4, b4⟩ := (loc_messageBody _).adv _ (by rw [d3]; exact b3) _ _ hst.body
  simp only at d0 c0
  have hd4 : s4.data = st.data := by rw [d4, d3, d2, d1, d0]
  have hb4 : s4.cursor ≤ s4.data.length := by rw [d4]; exact b4
  obtain ⟨d5, b5, hsz, hv, hdr, body, f1, f2, f3, f4, f5, f6⟩ := crc_field hb4 hst.crc hst.crc_err
  have hpos : st.cursor < s0.cursor := by
    have e0 : s0.error = false := by
      cases he0 : s0.error with
      | false => rfl
      | true => have := loc_octetString.sticky _ he0 _ _ hst.tid; cases hst.tid_err.symm.trans this
    obtain ⟨hdr0, _, _, _, hh, _, hs, _⟩ := getNextLength_inv (by simpa using hb) hst.header e0
    have := header_pos hh
    rw [hs]; simp only; omega
  obtain ⟨sz, cv⟩ := c
  simp only at hsz hv f6
  subst hsz
  rw [hd4] at d5 b5 f5
  have hnat : ∀ x : BitVec 16, (cv = x.toNat ↔ BitVec.ofNat 16 cv = x) := by
    intro x
    constructor
    · rintro rfl; simp
    · rintro rfl; simp; omega
  have hpass : (cv = (crc16 (slice st.data st.cursor s4.cursor)).toNat ∨
      cv = (crc16kermit (slice st.data st.cursor s4.cursor)).toNat) ↔
      Passes (slice st.data st.cursor s4.cursor) (BitVec.ofNat 16 cv) := by
    rw [crc16_eq, crc16kermit_eq, hnat, hnat]
    rfl
  refine ⟨s4.cursor, s5.cursor, cv, ⟨by omega, b5, ⟨st.data[st.cursor]'hst.start, List.getElem?_eq_getElem hst.start, ?_⟩,
    hdr, body, f1, f2, f3, f4, f5, f6⟩, hv, ?_, ?_⟩
  · have := hst.type hst.start
    rw [type_bits] at this
    omega
  · rcases hres with ⟨_, _, hlt, hs⟩ | ⟨_, _, hs⟩
    · rw [hs]; simp only; omega
    · omega
  · rcases hres with ⟨hok, hr, hlt, hs⟩ | ⟨hbad, hr, hs⟩
    · left
      refine ⟨hpass.1 hok, _, hr, rfl, ?_⟩
      by_cases h0 : s5.data[s5.cursor] = 0
      · left
        rw [if_pos h0] at hs
        refine ⟨by rw [hs], ?_⟩
        rw [← d5, List.getElem?_eq_getElem hlt, h0]
      · right
        rw [if_neg h0] at hs
        refine ⟨by rw [hs]; rfl, s5.data[s5.cursor], ?_, h0⟩
        rw [← d5, List.getElem?_eq_getElem hlt]
    · right
      exact ⟨fun hp => hbad (hpass.2 hp), hr, hs⟩

end Sml
