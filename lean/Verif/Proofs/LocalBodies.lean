import Verif.Proofs.Local

/-!
# Parsing only depends on the bytes it consumes: message bodies and messages
-/

namespace Sml

set_option linter.unusedSimpArgs false
set_option linter.unusedVariables false
set_option maxRecDepth 4000

theorem loc_openRequest : Loc openRequestParse := by
  unfold openRequestParse
  dsimp only
  locs [loc_time]

theorem loc_openResponse : Loc openResponseParse := by
  unfold openResponseParse
  dsimp only
  locs [loc_time]

theorem loc_closeRequest : Loc closeRequestParse := by
  unfold closeRequestParse
  dsimp only
  locs [loc_time]

theorem loc_closeResponse : Loc closeResponseParse := by
  unfold closeResponseParse
  dsimp only
  locs [loc_time]

theorem loc_valueEntry : Loc valueEntryParse := by
  unfold valueEntryParse
  dsimp only
  locs [loc_time]

theorem loc_profObjHeaderEntry : Loc profObjHeaderEntryParse := by
  unfold profObjHeaderEntryParse
  dsimp only
  locs [loc_time]

theorem loc_profObjPeriodEntry : Loc profObjPeriodEntryParse := by
  unfold profObjPeriodEntryParse
  dsimp only
  locs [loc_time, loc_sequence loc_valueEntry _]

theorem loc_getProfilePackResponse : Loc getProfilePackResponseParse := by
  unfold getProfilePackResponseParse
  dsimp only
  locs [loc_time, loc_treePath, loc_sequence loc_profObjHeaderEntry _, loc_sequence loc_profObjPeriodEntry _]

theorem loc_getProfileListResponse : Loc getProfileListResponseParse := by
  unfold getProfileListResponseParse
  dsimp only
  locs [loc_time, loc_treePath, loc_sequence loc_periodEntry _]

theorem loc_getProcParameterRequest : Loc getProcParameterRequestParse := by
  unfold getProcParameterRequestParse
  dsimp only
  locs [loc_treePath]

theorem loc_getProcParameterResponse (depth : Nat) : Loc (getProcParameterResponseParse depth) := by
  unfold getProcParameterResponseParse
  dsimp only
  locs [loc_treePath, loc_tree _]

theorem loc_setProcParameterRequest (depth : Nat) : Loc (setProcParameterRequestParse depth) := by
  unfold setProcParameterRequestParse
  dsimp only
  locs [loc_treePath, loc_tree _]

theorem loc_getListRequest : Loc getListRequestParse := by
  unfold getListRequestParse
  dsimp only
  locs [loc_time]

theorem loc_getListResponse : Loc getListResponseParse := by
  unfold getListResponseParse
  dsimp only
  locs [loc_time, loc_list]

theorem loc_attentionResponse (depth : Nat) : Loc (attentionResponseParse depth) := by
  unfold attentionResponseParse
  dsimp only
  locs [loc_tree _]

theorem loc_objectListLoop (n : Nat) : ∀ m, Loc (objectListLoop n m) := by
  induction n with
  | zero => intro m; exact loc_pure _
  | succ n ih => intro m; unfold objectListLoop; locs [ih _]

theorem loc_objectList (m : GetProfilePackRequest) : Loc (objectListParse m) := by
  unfold objectListParse
  locs [loc_objectListLoop _ _]

theorem loc_getProfilePackRequest (depth : Nat) : Loc (getProfilePackRequestParse depth) := by
  have h : ∀ r : Option GetProfilePackRequest, Loc (match r with
      | none => pure none
      | some m => field (treeParse depth) (fun v => { m with dasDetails := v })
          (fun m => getProfilePackRequestFreed (some m)) fun m => pure (some m) : M (Option GetProfilePackRequest)) := by
    intro r
    cases r with
    | none => exact loc_pure _
    | some m => dsimp only; locs [loc_tree _]
  unfold getProfilePackRequestParse
  dsimp only
  locs [loc_time, loc_treePath, loc_objectList _, h _]

theorem loc_bodyData (depth tag : Nat) : Loc (bodyDataParse depth tag) := by
  unfold bodyDataParse
  refine loc_ite (loc_bind loc_openRequest fun _ => loc_pure _) ?_
  refine loc_ite (loc_bind loc_openResponse fun _ => loc_pure _) ?_
  refine loc_ite (loc_bind loc_closeRequest fun _ => loc_pure _) ?_
  refine loc_ite (loc_bind loc_closeResponse fun _ => loc_pure _) ?_
  refine loc_ite (loc_bind (loc_getProfilePackRequest _) fun _ => loc_pure _) ?_
  refine loc_ite (loc_bind loc_getProfilePackResponse fun _ => loc_pure _) ?_
  refine loc_ite (loc_bind (loc_getProfilePackRequest _) fun _ => loc_pure _) ?_
  refine loc_ite (loc_bind loc_getProfileListResponse fun _ => loc_pure _) ?_
  refine loc_ite (loc_bind loc_getProcParameterRequest fun _ => loc_pure _) ?_
  refine loc_ite (loc_bind (loc_getProcParameterResponse _) fun _ => loc_pure _) ?_
  refine loc_ite (loc_bind (loc_setProcParameterRequest _) fun _ => loc_pure _) ?_
  refine loc_ite (loc_bind loc_getListRequest fun _ => loc_pure _) ?_
  refine loc_ite (loc_bind loc_getListResponse fun _ => loc_pure _) ?_
  refine loc_ite (loc_bind (loc_attentionResponse _) fun _ => loc_pure _) ?_
  exact loc_pure _

theorem loc_messageBody (depth : Nat) : Loc (messageBodyParse depth) := by
  unfold messageBodyParse
  refine loc_bind (loc_alloc _) fun _ => ?_
  refine loc_guard (by omega) ?_
  refine loc_expectList (loc_field (loc_number _ _) fun tag => ?_)
  cases tag with
  | none => dsimp only; locs []
  | some t => dsimp only; locs [loc_bodyData _ _]

theorem loc_messageBodyFree (b : Option MessageBody) : Loc (messageBodyFree b) := by
  unfold messageBodyFree
  split
  · exact loc_pure _
  · split
    · exact loc_undef
    · exact loc_release _

theorem loc_messageFail (m : Message) : Loc (messageFail m) := by
  unfold messageFail messageFree
  locs [loc_messageBodyFree _]

/-- `messageParseTail` for a given checked part. -/
def tailWith (bytes : List UInt8) (m : Message) : M (Option Message) := do
  let st ← getSt
  if st.data.length - st.cursor < 3 then do
    setError
    messageFail m
  else
  let crc ← u16Parse
  let m := { m with crc := crc }
  let bad ← hasErrors
  match bad, crc with
  | false, some c =>
    if c.val ≠ (crc16 bytes).toNat ∧ c.val ≠ (crc16kermit bytes).toNat then
      messageFail m
    else do
      let st ← getSt
      if st.cursor ≥ st.data.length then do
        setError
        messageFail m
      else
        let b ← getCurrentByte
        if b = 0x00 then do
          updateBytesRead 1
          pure (some m)
        else pure (some m)
  | _, _ => do
    setError
    messageFail m

/-- As `loc_guard`, with another way to fail. -/
theorem loc_guard' {c : St → Prop} [DecidablePred c] {q p : M α}
    (hcond : ∀ st st', st.cursor ≤ st.data.length → st'.cursor ≤ st'.data.length →
      st.data.length - st.cursor ≤ st'.data.length - st'.cursor → c st' → c st)
    (hq : Loc q) (hfail : ∀ st, Wlp q st fun _ s => s.error = true) (hp : Loc p) :
    Loc (do let st ← getSt; if c st then q else p) := by
  refine ⟨fun st hb => ?_, fun st he => ?_, fun st st' a s hr h hc => ?_⟩
  · simp only [wlp_bind, wlp_getSt, wlp_ite]
    exact ⟨fun _ => hq.adv st hb, fun _ => hp.adv st hb⟩
  · simp only [wlp_bind, wlp_getSt, wlp_ite]
    exact ⟨fun _ => hq.sticky st he, fun _ => hp.sticky st he⟩
  · have hb := hr.bound
    have hb' := hr.bound'
    have hrm := hr.room
    change (if c st then q else p) st = _ at h
    show ∃ s', (if c st' then q else p) st' = .ok a s' ∧ _
    by_cases hcs : c st
    · rw [if_pos hcs] at h
      have herr : s.error = true := hfail st _ _ h
      rcases hc with ⟨he, _⟩ | hc
      · rw [he] at herr; cases herr
      · have := hc.room hr.bound hr.bound'
        have : c st' := hcond st' st hb' hb (by omega) hcs
        rw [if_pos this]
        exact hq.loc st st' a s hr h (Or.inr hc)
    · rw [if_neg hcs] at h
      have : ¬ c st' := fun hc' => hcs (hcond st st' hb hb' hrm hc')
      rw [if_neg this]
      exact hp.loc st st' a s hr h hc

theorem errorFail (m : Message) (st : St) : Wlp (do setError; messageFail m) st fun _ s => s.error = true := by
  simp only [wlp_bind, wlp_setError]
  exact sticky_messageFail m _ rfl

theorem loc_endByte (m : Message) : Loc (do
    let b ← getCurrentByte
    if b = 0x00 then do
      updateBytesRead 1
      pure (some m)
    else pure (some m)) := by
  refine ⟨fun st hb => ?_, fun st he => ?_, fun st st' a s hr h hc => ?_⟩
  · simp only [wlp_bind, wlp_getCurrentByte, wlp_updateBytesRead, wlp_pure, wlp_ite]
    intro h; exact ⟨fun _ => ⟨trivial, by omega, by omega⟩, fun _ => ⟨trivial, by omega, by omega⟩⟩
  · simp only [wlp_bind, wlp_getCurrentByte, wlp_updateBytesRead, wlp_pure, wlp_ite]
    intro _; exact ⟨fun _ => he, fun _ => he⟩
  · obtain ⟨b, s1, h1, h2⟩ := bind_inv h
    unfold getCurrentByte at h1
    split at h1
    · rename_i b' hb
      cases h1
      have hbyte := hc.byte (i := 0) (by omega) hb
      simp only [Nat.add_zero] at hbyte
      have hg : getCurrentByte st' = .ok b st' := by unfold getCurrentByte; rw [hbyte]
      rw [bind_ok hg]
      by_cases h0 : b = 0
      · rw [if_pos h0] at h2 ⊢
        cases h2
        exact ⟨{ st' with cursor := st'.cursor + 1 }, rfl, ⟨rfl, by simp, hr.err, by simp; omega⟩⟩
      · rw [if_neg h0] at h2 ⊢
        cases h2
        exact ⟨st', rfl, ⟨rfl, by simp, hr.err, by omega⟩⟩
    · cases h1

theorem loc_tailWith (bytes : List UInt8) (m : Message) : Loc (tailWith bytes m) := by
  have hE : ∀ m, Loc (do setError; messageFail m) := fun m => loc_bind loc_setError fun _ => loc_messageFail m
  unfold tailWith
  refine loc_guard' (by omega) (hE m) (errorFail m) ?_
  refine loc_bind (loc_number _ _) fun crc => ?_
  refine loc_bind loc_hasErrors fun bad => ?_
  split
  · refine loc_ite (loc_messageFail _) ?_
    exact loc_guard' (by omega) (hE _) (errorFail _) (loc_endByte _)
  · exact hE _

theorem tail_eq {start : Nat} {m : Message} {st : St} (hs : start ≤ st.cursor) (hb : st.cursor ≤ st.data.length)
    (hi : st.cursor ≤ 2147483647) :
    messageParseTail start m st = tailWith ((st.data.drop start).take (st.cursor - start)) m st := by
  unfold messageParseTail tailWith
  show (if st.cursor > 2147483647 then undef .narrowing else _ : M (Option Message)) st = (if _ then _ else _ : M (Option Message)) st
  rw [if_neg (by omega)]
  split
  · rfl
  · show M.bind _ _ st = M.bind _ _ st
    unfold M.bind
    cases hv : u16Parse st with
    | ub _ => rfl
    | ok v s =>
      have hd := ((loc_number tyUnsigned 2).adv st hb _ _ hv).1
      have hh : hasErrors s = .ok s.error s := rfl
      show (hasErrors >>= _) s = (hasErrors >>= _) s
      rw [bind_ok hh, bind_ok hh]
      cases s.error with
      | true => rfl
      | false =>
        cases v with
        | none => rfl
        | some c =>
          have hsl : bufferSlice start (st.cursor - start) s =
              .ok ((st.data.drop start).take (st.cursor - start)) s := by
            unfold bufferSlice
            rw [if_pos (by rw [hd]; omega), hd]
          show (bufferSlice start (st.cursor - start) >>= _) s = _
          rw [bind_ok hsl]

/-- Locality relative to a start position, for two programs. -/
structure LocAt (st0 st0' : St) (p p' : M α) : Prop where
  adv : ∀ st, st.data = st0.data → st0.cursor ≤ st.cursor → st.cursor ≤ st.data.length →
    st.cursor ≤ 2147483647 → Wlp p st fun _ s =>
    s.data = st.data ∧ st.cursor ≤ s.cursor ∧ s.cursor ≤ st.data.length
  sticky : ∀ st, st.data = st0.data → st0.cursor ≤ st.cursor → st.cursor ≤ st.data.length →
    st.cursor ≤ 2147483647 → st.error = true → Wlp p st fun _ s => s.error = true
  loc : ∀ st st' a s, Rdy st st' → st.data = st0.data → st0.cursor ≤ st.cursor → st.cursor ≤ 2147483647 →
    Shift st0 st0' st st' → p st = .ok a s → Cover st0 st0' s →
    ∃ s', p' st' = .ok a s' ∧ Shift st st' s s'

theorem Loc.at {st0 st0' : St} {p : M α} (h : Loc p) : LocAt st0 st0' p p := by
  refine ⟨fun st _ _ hb _ => h.adv st hb, fun st _ _ _ _ => h.sticky st, fun st st' a s hr hd hm hi hs hp hc => ?_⟩
  have hadv := h.adv st hr.bound _ _ hp
  exact h.loc st st' a s hr hp (hc.second hd hm (by omega) hs)

theorem locAt_bind {st0 st0' : St} {p : M α} {f f' : α → M β} (h0 : st0.data.length ≤ 2147483647)
    (hp : Loc p) (hf : ∀ a, LocAt st0 st0' (f a) (f' a)) : LocAt st0 st0' (p >>= f) (p >>= f') := by
  refine ⟨fun st hd hm hb hi => ?_, fun st hd hm hb hi he => ?_, fun st st' b s hr hd hm hi hs h hc => ?_⟩
  · rw [wlp_bind]
    refine (hp.adv st hb).mono fun a s1 ⟨h1, h2, h3⟩ => ?_
    refine ((hf a).adv s1 (by rw [h1]; exact hd) (by omega) (by rw [h1]; exact h3)
      (by rw [hd] at h3; omega)).mono fun b s ⟨g1, g2, g3⟩ => ?_
    exact ⟨g1.trans h1, by omega, by rw [h1] at g3; exact g3⟩
  · rw [wlp_bind]
    intro a s1 e
    obtain ⟨h1, h2, h3⟩ := hp.adv st hb _ _ e
    exact (hf a).sticky s1 (by rw [h1]; exact hd) (by omega) (by rw [h1]; exact h3)
      (by rw [hd] at h3; omega) (hp.sticky st he _ _ e)
  · obtain ⟨a, s1, h1, h2⟩ := bind_inv h
    obtain ⟨d1, d2, d3⟩ := hp.adv st hr.bound _ _ h1
    have hi1 : s1.cursor ≤ 2147483647 := by rw [hd] at d3; omega
    obtain ⟨e1, e2, e3⟩ := (hf a).adv s1 (by rw [d1]; exact hd) (by omega) (by rw [d1]; exact d3) hi1 _ _ h2
    have hc1 : Cover st st' s1 :=
      (hc.second hd hm (by omega) hs).first (fun he => (hf a).sticky s1 (by rw [d1]; exact hd) (by omega)
        (by rw [d1]; exact d3) hi1 he _ _ h2) e2
    obtain ⟨s1', r1, sh1⟩ := hp.loc st st' a s1 hr h1 hc1
    obtain ⟨s', r2, sh2⟩ := (hf a).loc s1 s1' b s (hr.shift d1 d2 d3 sh1) (by rw [d1]; exact hd) (by omega) hi1
      (hs.trans sh1 hm d2) h2 hc
    exact ⟨s', by rw [bind_ok r1]; exact r2, sh1.trans sh2 d2 e2⟩

theorem locAt_ite {st0 st0' : St} {c : Prop} [Decidable c] {p q p' q' : M α} (hp : LocAt st0 st0' p p')
    (hq : LocAt st0 st0' q q') : LocAt st0 st0' (if c then p else q) (if c then p' else q') := by
  split
  · exact hp
  · exact hq

theorem locAt_messageField {st0 st0' : St} {p : M α} {set : α → Message} {k k' : Message → M (Option Message)}
    (h0 : st0.data.length ≤ 2147483647) (hp : Loc p) (hk : ∀ m, LocAt st0 st0' (k m) (k' m)) :
    LocAt st0 st0' (messageField p set k) (messageField p set k') :=
  locAt_bind h0 hp fun _ => locAt_bind h0 loc_hasErrors fun _ => locAt_ite (loc_messageFail _).at (hk _)

theorem locAt_tail {st0 st0' : St} (h0' : st0'.data.length ≤ 2147483647) (m : Message) :
    LocAt st0 st0' (messageParseTail st0.cursor m) (messageParseTail st0'.cursor m) := by
  refine ⟨fun st hd hm hb hi => ?_, fun st hd hm hb hi he => ?_, fun st st' a s hr hd hm hi hs h hc => ?_⟩
  · intro a s h
    rw [tail_eq hm hb hi] at h
    exact (loc_tailWith _ m).adv st hb _ _ h
  · intro a s h
    rw [tail_eq hm hb hi] at h
    exact (loc_tailWith _ m).sticky st he _ _ h
  · have hb := hr.bound
    have hb' := hr.bound'
    rw [tail_eq hm hb hi] at h
    have hadv := (loc_tailWith _ m).adv st hr.bound _ _ h
    have hcur := hs.cursor
    have hd' := hs.data'
    have hm' : st0'.cursor ≤ st'.cursor := by omega
    rw [tail_eq hm' hb' (by rw [hd'] at hb'; omega)]
    have hsl : (st'.data.drop st0'.cursor).take (st'.cursor - st0'.cursor) =
        (st.data.drop st0.cursor).take (st.cursor - st0.cursor) := by
      have el : st'.cursor - st0'.cursor = st.cursor - st0.cursor := by omega
      rw [el]
      apply List.ext_getElem?
      intro i
      by_cases hi : i < st.cursor - st0.cursor
      · rw [List.getElem?_take_of_lt hi, List.getElem?_take_of_lt hi, List.getElem?_drop, List.getElem?_drop]
        have hlt : st0.cursor + i < st0.data.length := by rw [hd] at hb; omega
        have hbyte := List.getElem?_eq_getElem hlt
        rw [hd', hd, hbyte]
        exact hc.byte (fun _ => by omega) hbyte
      · rw [List.getElem?_take_eq_none (by omega), List.getElem?_take_eq_none (by omega)]
    rw [hsl]
    exact (loc_tailWith _ m).loc st st' a s hr h (hc.second hd hm (by omega) hs)

/-- `messageParse` after the start position was noted. -/
def messageFrom (depth start : Nat) : M (Option Message) := do
  if (← getNextType) ≠ tyList then do
    setError
    messageFail {}
  else if (← getNextLength) ≠ 6 then do
    setError
    messageFail {}
  else
    messageField octetStringParse (fun v => { transactionId := v }) fun m =>
    messageField u8Parse (fun v => { m with groupId := v }) fun m =>
    messageField u8Parse (fun v => { m with abortOnError := v }) fun m =>
    messageField (messageBodyParse depth) (fun v => { m with messageBody := v }) fun m =>
    messageParseTail start m

theorem messageParse_eq {depth : Nat} {st : St} (h : st.cursor ≤ 2147483647) :
    messageParse depth st = (do alloc 1; messageFrom depth st.cursor) st := by
  unfold messageParse cursorAsInt
  show M.bind _ _ { st with live := st.live + 1 } = messageFrom depth st.cursor { st with live := st.live + 1 }
  show (M.bind (if st.cursor > 2147483647 then undef .narrowing else pure st.cursor) _ : M (Option Message)) { st with live := st.live + 1 } = _
  rw [if_neg (by omega)]
  rfl

theorem locAt_message {depth : Nat} {st st' : St} (hsm : st.data.length ≤ 2147483647)
    (hsm' : st'.data.length ≤ 2147483647) : LocAt st st' (do alloc 1; messageFrom depth st.cursor)
      (do alloc 1; messageFrom depth st'.cursor) := by
  have hE : LocAt st st' (do setError; messageFail {}) (do setError; messageFail {}) :=
    (loc_bind loc_setError fun _ => loc_messageFail {}).at
  refine locAt_bind hsm (loc_alloc _) fun _ => ?_
  unfold messageFrom
  refine locAt_bind hsm loc_getNextType fun _ => locAt_ite hE ?_
  refine locAt_bind hsm loc_getNextLength fun _ => locAt_ite hE ?_
  refine locAt_messageField hsm loc_octetString fun _ => ?_
  refine locAt_messageField hsm (loc_number _ _) fun _ => ?_
  refine locAt_messageField hsm (loc_number _ _) fun _ => ?_
  refine locAt_messageField hsm (loc_messageBody _) fun _ => ?_
  exact locAt_tail hsm' _

theorem message_local {depth : Nat} {st st' s : St} {r : Option Message} (hr : Rdy st st')
    (hsm : st.data.length ≤ 2147483647) (h : messageParse depth st = .ok r s) (hc : Cover st st' s) :
    ∃ s', messageParse depth st' = .ok r s' ∧ Shift st st' s s' := by
  have hb := hr.bound
  have hb' := hr.bound'
  have hsm' := hr.small
  rw [messageParse_eq (by omega)] at h
  rw [messageParse_eq (by omega)]
  exact (locAt_message hsm hsm').loc st st' r s hr rfl (Nat.le_refl _) (by omega) ⟨rfl, by simp, hr.err, by omega⟩ h hc

theorem message_adv {depth : Nat} {st s : St} {r : Option Message} (hb : st.cursor ≤ st.data.length)
    (hsm : st.data.length ≤ 2147483647) (h : messageParse depth st = .ok r s) :
    s.data = st.data ∧ st.cursor ≤ s.cursor ∧ s.cursor ≤ st.data.length := by
  rw [messageParse_eq (by omega)] at h
  exact (locAt_message hsm hsm).adv st rfl (Nat.le_refl _) hb (by omega) _ _ h

end Sml
