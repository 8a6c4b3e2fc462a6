import Verif.Proofs.Header

/-!
# How a message comes to be delivered
-/

namespace Sml

set_option linter.unusedSimpArgs false

/-- The steps of a successful `sml_message_parse`. -/
structure Delivered (depth : Nat) (st : St) (m : Message) (s : St) (s0 s1 s2 s3 s4 s5 : St) (c : Num) : Prop where
  start : st.cursor < st.data.length
  type : ∀ h : st.cursor < st.data.length, st.data[st.cursor].toNat &&& 0x70 = 0x70
  header : getNextLength { st with live := st.live + 1 } = .ok 6 s0
  tid : octetStringParse s0 = .ok m.transactionId s1
  tid_err : s1.error = false
  group : u8Parse s1 = .ok m.groupId s2
  group_err : s2.error = false
  abort : u8Parse s2 = .ok m.abortOnError s3
  abort_err : s3.error = false
  body : messageBodyParse depth s3 = .ok m.messageBody s4
  body_err : s4.error = false
  crc : u16Parse s4 = .ok (some c) s5
  crc_err : s5.error = false
  stored : m.crc = some c
  range : st.cursor + (s4.cursor - st.cursor) ≤ s5.data.length
  check : c.val = (crc16 ((s5.data.drop st.cursor).take (s4.cursor - st.cursor))).toNat ∨
    c.val = (crc16kermit ((s5.data.drop st.cursor).take (s4.cursor - st.cursor))).toNat
  more : s5.cursor < s5.data.length
  final : s = { s5 with cursor := s5.cursor + if s5.data[s5.cursor] = 0 then 1 else 0 }

theorem messageField_inv {p : M α} {set : α → Message} {k : Message → M (Option Message)} {st s : St}
    {m : Message} (h : messageField p set k st = .ok (some m) s) :
    ∃ v s', p st = .ok v s' ∧ s'.error = false ∧ k (set v) s' = .ok (some m) s := by
  have key : Wlp (messageField p set k) st fun a s => ∀ m, a = some m →
      ∃ v s', p st = .ok v s' ∧ s'.error = false ∧ k (set v) s' = .ok (some m) s := by
    unfold messageField messageFail
    simp only [wlp_bind, wlp_hasErrors, wlp_ite, wlp_pure]
    intro v s' hv
    refine ⟨fun _ _ _ _ => by simp, fun he b s'' hk => ?_⟩
    intro m hm
    subst hm
    exact ⟨v, s', hv, by simpa using he, hk⟩
  exact key _ _ h m rfl

theorem message_inv {depth : Nat} {st s : St} {m : Message} (h : messageParse depth st = .ok (some m) s) :
    ∃ s0 s1 s2 s3 s4 s5 c, Delivered depth st m s s0 s1 s2 s3 s4 s5 c := by
  have key : Wlp (messageParse depth) st fun a s => ∀ m, a = some m →
      ∃ s0 s1 s2 s3 s4 s5 c, Delivered depth st m s s0 s1 s2 s3 s4 s5 c := by
    unfold messageParse messageFail cursorAsInt
    simp only [wlp_bind, wlp_alloc, wlp_getSt, wlp_ite, wlp_undef, wlp_pure, wlp_setError]
    refine ⟨fun _ => trivial, fun hc => ?_⟩
    apply wlp_getNextType
    · intro _; exact ⟨fun _ _ _ _ => by simp, fun h => absurd (by decide) h⟩
    intro hlt
    refine ⟨fun _ _ _ _ => by simp, fun hty l s0 hl => ⟨fun _ _ _ _ => by simp, fun h6 => ?_⟩⟩
    have h6 : l = 6 := by simpa using h6
    subst h6
    intro a s' hr m hm
    subst hm
    obtain ⟨v1, s1, e1, r1, hr⟩ := messageField_inv hr
    obtain ⟨v2, s2, e2, r2, hr⟩ := messageField_inv hr
    obtain ⟨v3, s3, e3, r3, hr⟩ := messageField_inv hr
    obtain ⟨v4, s4, e4, r4, hr⟩ := messageField_inv hr
    have tail : Wlp (messageParseTail st.cursor { transactionId := v1, groupId := v2, abortOnError := v3, messageBody := v4 }) s4
        fun a s => ∀ m, a = some m → ∃ s5 c, Delivered depth st m s s0 s1 s2 s3 s4 s5 c := by
      refine wlp_messageTail (fun _ => by simp) ?_
      intro c s5 hcrc herr hrange hcheck hmore
      refine ⟨fun hb m hm => ?_, fun hb m hm => ?_⟩
      all_goals
        cases hm
        refine ⟨s5, c, ⟨hlt, fun _ => by simpa using hty, hl, e1, r1, e2, r2, e3, r3, e4, r4, hcrc, herr, rfl, hrange, hcheck, hmore, ?_⟩⟩
        simp [hb]
    obtain ⟨s5, c, hd⟩ := tail _ _ hr m rfl
    exact ⟨s0, s1, s2, s3, s4, s5, c, hd⟩
  exact key _ _ h m rfl

end Sml
