import Verif.Proofs.ContractBodies

/-!
# Contracts of messages and files
-/

namespace Sml

set_option linter.unusedSimpArgs false

theorem good_ite {D own pr : Nat} {c : Prop} [Decidable c] {p q : M α} {fr : α → Nat}
    (hp : c → Good D p own fr pr) (hq : ¬c → Good D q own fr pr) :
    Good D (if c then p else q) own fr pr := by
  split
  · exact hp ‹_›
  · exact hq ‹_›

theorem good_bodyData (depth tag : Nat) :
    Good (4 * depth) (bodyDataParse depth tag) 0 (bodyDataFreed tag) 0 := by
  unfold bodyDataParse
  refine good_ite (fun h => ?_) (fun _ => ?_)
  · subst h; exact (good_map good_openRequest (by intro a; simp [bodyDataFreed])).weaken (by omega)
  refine good_ite (fun h => ?_) (fun _ => ?_)
  · subst h; exact (good_map good_openResponse (by intro a; simp [bodyDataFreed])).weaken (by omega)
  refine good_ite (fun h => ?_) (fun _ => ?_)
  · subst h; exact (good_map good_closeRequest (by intro a; simp [bodyDataFreed])).weaken (by omega)
  refine good_ite (fun h => ?_) (fun _ => ?_)
  · subst h; exact (good_map good_closeResponse (by intro a; simp [bodyDataFreed])).weaken (by omega)
  refine good_ite (fun h => ?_) (fun _ => ?_)
  · subst h; exact (good_map (good_getProfilePackRequest depth) (by intro a; simp [bodyDataFreed])).weaken (by omega)
  refine good_ite (fun h => ?_) (fun _ => ?_)
  · subst h; exact (good_map good_getProfilePackResponse (by intro a; simp [bodyDataFreed])).weaken (by omega)
  refine good_ite (fun h => ?_) (fun _ => ?_)
  · subst h; exact (good_map (good_getProfilePackRequest depth) (by intro a; simp [bodyDataFreed])).weaken (by omega)
  refine good_ite (fun h => ?_) (fun _ => ?_)
  · subst h; exact (good_map good_getProfileListResponse (by intro a; simp [bodyDataFreed])).weaken (by omega)
  refine good_ite (fun h => ?_) (fun _ => ?_)
  · subst h; exact (good_map good_getProcParameterRequest (by intro a; simp [bodyDataFreed])).weaken (by omega)
  refine good_ite (fun h => ?_) (fun _ => ?_)
  · subst h; exact (good_map (good_getProcParameterResponse depth) (by intro a; simp [bodyDataFreed])).weaken (by omega)
  refine good_ite (fun h => ?_) (fun _ => ?_)
  · subst h; exact (good_map (good_setProcParameterRequest depth) (by intro a; simp [bodyDataFreed])).weaken (by omega)
  refine good_ite (fun h => ?_) (fun _ => ?_)
  · subst h; exact (good_map good_getListRequest (by intro a; simp [bodyDataFreed])).weaken (by omega)
  refine good_ite (fun h => ?_) (fun _ => ?_)
  · subst h; exact (good_map good_getListResponse (by intro a; simp [bodyDataFreed])).weaken (by omega)
  refine good_ite (fun h => ?_) (fun _ => ?_)
  · subst h; exact (good_map (good_attentionResponse depth) (by intro a; simp [bodyDataFreed])).weaken (by omega)
  exact good_pure (by simp [bodyDataFreed])

/-- Blocks `sml_message_body_free` releases for a body with a tag. -/
def messageBodyFreed (b : Option MessageBody) : Nat :=
  match b with
  | none => 0
  | some b => own (fun t => bodyDataFreed t.val b.data + 1 + 1) b.tag

/-- A body always has a tag. -/
def TagOk (b : Option MessageBody) : Prop := ∀ x, b = some x → ∃ t, x.tag = some t

theorem post_messageBodyFree {b : Option MessageBody} (hb : TagOk b) {st : St} {Q : Unit → St → Prop} :
    Post (messageBodyFree b) st Q ↔
      messageBodyFreed b ≤ st.live ∧ Q () { st with live := st.live - messageBodyFreed b } := by
  cases b with
  | none => simp [messageBodyFree, messageBodyFreed]
  | some b =>
    obtain ⟨t, ht⟩ := hb b rfl
    simp [messageBodyFree, messageBodyFreed, ht, own]

theorem inv_messageBody (depth : Nat) : Inv (messageBodyParse depth) TagOk := by
  intro st
  unfold messageBodyParse
  have hnone : TagOk none := by intro x h; cases h
  simp only [wlp_bind, wlp_alloc, wlp_getSt, wlp_ite, wlp_failWith]
  refine ⟨fun _ _ => hnone, fun _ => ?_⟩
  refine inv_expectList (P := TagOk) hnone ?_ _
  refine inv_field (Pp := fun _ => True) Inv.triv hnone ?_
  intro v _
  cases v with
  | none => intro st; simp only [wlp_bind, wlp_release, wlp_pure]; exact fun _ => hnone
  | some t =>
    intro st
    simp only [wlp_bind, wlp_pure]
    intro d s _ x hx
    cases hx
    exact ⟨t, rfl⟩

theorem good_messageBody (depth : Nat) :
    Good (4 * depth) (messageBodyParse depth) 0 messageBodyFreed 2 := by
  intro st hpre ho
  have hb := hpre.bound
  have hnone : messageBodyFreed none = 0 := rfl
  have hk : Good (4 * depth) (field u32Parse (fun tag => tag) (fun _ => 1) fun tag =>
      match tag with
      | none => do
        release 1
        pure none
      | some t => do
        let d ← bodyDataParse depth t.val
        pure (some { tag := some t, data := d })) 1 messageBodyFreed 1 := by
    intro st hpre ho
    unfold field
    simp only [post_bind, post_hasErrors, post_ite, post_release, post_pure]
    refine (leaf_number _ _ st hpre.bound).mono ?_
    rintro v s ⟨h1, h2, h3, h4, h5, h6⟩
    have hm := h1.mono
    refine ⟨fun he => ?_, fun he => ?_⟩
    · have hv := h6 hpre.clean he
      subst hv
      simp only [numberFreed] at h3
      exact ⟨by omega, h1.liveR _, by ar, by ar, by ar, by ar⟩
    · have he' : s.error = false := by simpa using he
      have := h5 he'
      cases v with
      | none =>
        simp only [numberFreed] at h3
        simp only [post_bind, post_release, post_pure]
        exact ⟨by omega, h1.liveR _, by ar, by ar, by ar, by ar⟩
      | some t =>
        simp only [numberFreed] at h3
        simp only [post_bind, post_pure]
        refine (good_bodyData depth t.val s (hpre.step h1 he') (by omega)).mono ?_
        rintro d s' ⟨g1, g2, g3, g4, g5⟩
        have := g1.mono
        simp only [messageBodyFreed, own]
        exact ⟨h1.trans g1, by omega, fun hc => by have := g3 hc; omega, by omega, fun h => by omega⟩
  have := good_node (n := 2) (own := 1) (by omega) (by omega) hnone hk st hpre ho
  unfold messageBodyParse
  simp only [post_bind, post_alloc, post_getSt, post_ite, post_failWith] at this ⊢
  refine ⟨fun _ => ?_, fun _ => this⟩
  exact ⟨by omega, Step.setErr hb _, by ar, by ar, by ar, by ar⟩

/-! ## Messages -/

/-- Blocks `sml_message_free` releases. -/
def messageFreed1 (m : Message) : Nat :=
  octetStringFreed m.transactionId + numberFreed m.groupId + numberFreed m.abortOnError
    + messageBodyFreed m.messageBody + numberFreed m.crc + 1

def messageFreed (m : Option Message) : Nat := own messageFreed1 m

theorem post_messageFree {m : Message} (hm : TagOk m.messageBody) {st : St} {Q : Unit → St → Prop} :
    Post (messageFree m) st Q ↔
      messageFreed1 m ≤ st.live ∧ Q () { st with live := st.live - messageFreed1 m } := by
  unfold messageFree messageFreed1
  simp only [post_bind, post_release, post_messageBodyFree hm, Nat.sub_sub, Nat.add_assoc]
  constructor
  · rintro ⟨a, b, c, d, e, f, g⟩
    exact ⟨by omega, g⟩
  · rintro ⟨a, g⟩
    exact ⟨by omega, by omega, by omega, by omega, by omega, by omega, g⟩

theorem post_messageFail {m : Message} (hm : TagOk m.messageBody) {st : St}
    {Q : Option Message → St → Prop} :
    Post (messageFail m) st Q ↔
      messageFreed1 m ≤ st.live ∧ Q none { st with live := st.live - messageFreed1 m } := by
  unfold messageFail
  simp only [post_bind, post_messageFree hm, post_pure]

/-- The contract on inputs of bounded size, from position `lo` on. -/
def GoodB (N lo D : Nat) (p : M α) (own : Nat) (fr : α → Nat) (pr : Nat) : Prop :=
  ∀ st, st.data.length ≤ N → lo ≤ st.cursor → Pre D st → own ≤ st.live → Post p st fun a st' =>
    Step st st' ∧ st.live + fr a ≤ st'.live + own ∧
    (st'.confused = false → st'.live + own = st.live + fr a) ∧
    st'.live ≤ st.live + 2 * (st'.cursor - st.cursor) ∧
    (st'.error = false → st.cursor + pr ≤ st'.cursor)

theorem goodB_messageField {N lo D own pr pr2 : Nat} {p : M α} {frp : α → Nat} {P : α → Prop}
    {set : α → Message} {k : Message → M (Option Message)}
    (hp : Good D p 0 frp pr) (hP : Inv p P) (htag : ∀ v, P v → TagOk (set v).messageBody)
    (hset : ∀ v, messageFreed1 (set v) = own + frp v)
    (hk : ∀ v, P v → GoodB N lo D (k (set v)) (own + frp v) messageFreed pr2) :
    GoodB N lo D (messageField p set k) own messageFreed (pr2 + pr) := by
  intro st hN hlo hpre ho
  unfold messageField
  simp only [post_bind, post_hasErrors, post_ite, post_release, post_pure]
  refine ((hp st hpre (by omega)).andWlp (hP st)).mono ?_
  rintro v s ⟨⟨hs, hl, hx, hb, hpr⟩, hv⟩
  have hnone : messageFreed none = 0 := rfl
  refine ⟨fun he => ?_, fun he => ?_⟩
  · rw [post_messageFail (htag v hv), hset]
    have hm := hs.mono
    exact ⟨by omega, hs.liveR _, by ar, fun hc => by have := hx hc; ar,
      by ar, by simp [he]⟩
  · refine (hk v hv s (by rw [hs.data]; exact hN) (Nat.le_trans hlo hs.mono) (hpre.step hs (by simpa using he)) (by omega)).mono ?_
    rintro a s' ⟨hs', hl', hx', hb', hpr'⟩
    have hm := hs.mono
    have hm' := hs'.mono
    refine ⟨hs.trans hs', by omega, fun hc => ?_, by omega, fun he' => ?_⟩
    · have := hx' hc
      have := hx (conf_false hs' hc)
      omega
    · have := hpr (by simpa using he)
      have := hpr' he'
      omega

theorem goodB_messageTail {D start : Nat} {m : Message} (hm : TagOk m.messageBody) (hc : m.crc = none) :
    GoodB 2147483647 start D (messageParseTail start m) (messageFreed1 m) messageFreed 1 := by
  intro st hN hst hpre ho
  have hb := hpre.bound
  have hnone : messageFreed none = 0 := rfl
  have hf : ∀ v, messageFreed1 { m with crc := v } = messageFreed1 m + numberFreed v := by
    intro v; simp [messageFreed1, hc]; omega
  unfold messageParseTail
  simp only [post_bind, post_getSt, post_ite, post_undef, post_setError, post_hasErrors]
  refine ⟨by omega, fun _ => ⟨fun _ => ?_, fun _ => ?_⟩⟩
  · rw [post_messageFail hm]
    exact ⟨by omega, Step.setErr hb _, by ar, by ar, by ar, by ar⟩
  refine (leaf_number _ _ st hb).mono ?_
  rintro v s ⟨h1, h2, h3, h4, h5, h6⟩
  have hm1 := h1.mono
  have hbd := h1.bound
  have herr : Post (do setError; messageFail { m with crc := v }) s fun a st' =>
    Step st st' ∧ st.live + messageFreed a ≤ st'.live + messageFreed1 m ∧
    (st'.confused = false → st'.live + messageFreed1 m = st.live + messageFreed a) ∧
    st'.live ≤ st.live + 2 * (st'.cursor - st.cursor) ∧
    (st'.error = false → st.cursor + 1 ≤ st'.cursor) := by
    simp only [post_bind, post_setError]
    rw [post_messageFail (by exact hm), hf]
    exact ⟨by ar, h1.errR.liveR _, by ar, by ar, by ar, by ar⟩
  cases he : s.error with
  | true => exact herr
  | false =>
    have hc1 := h5 he
    cases v with
    | none => exact herr
    | some c =>
      simp only [post_bind, post_bufferSlice, post_ite, post_getSt, post_setError, post_getCurrentByte,
        post_updateBytesRead, post_pure]
      have hfs := hf (some c)
      simp only [numberFreed] at hfs h3
      have hlen : s.data.length = st.data.length := by rw [h1.data]
      refine ⟨by omega, fun _ => ?_, fun _ => ⟨fun _ => ?_, fun hlt => ⟨by omega, fun _ => ?_, fun _ => ?_⟩⟩⟩
      · rw [post_messageFail (by exact hm), hfs]
        exact ⟨by ar, h1.liveR _, by ar, by ar, by ar, by ar⟩
      · rw [post_messageFail (by exact hm), hfs]
        exact ⟨by ar, h1.errR.liveR _, by ar, by ar, by ar, by ar⟩
      · have hfs' : messageFreed (some { m with crc := some c }) = messageFreed1 m + 1 := by
          simpa [messageFreed, own] using hfs
        rw [hfs']
        refine ⟨⟨h1.data, by ar, by ar, h1.err, h1.sovf, h1.conf, h1.conf'⟩, by ar, by ar, by ar, by ar⟩
      · have hfs' : messageFreed (some { m with crc := some c }) = messageFreed1 m + 1 := by
          simpa [messageFreed, own] using hfs
        rw [hfs']
        exact ⟨h1, by ar, by ar, by ar, by ar⟩

theorem good_message (depth : Nat) :
    GoodB 2147483647 0 (4 * depth) (messageParse depth) 0 messageFreed 7 := by
  intro st hN _ hpre ho
  have hb := hpre.bound
  have hnone : messageFreed none = 0 := rfl
  have h0 : messageFreed1 {} = 1 := rfl
  have t0 : TagOk none := by intro x h; cases h
  unfold messageParse cursorAsInt
  simp only [post_bind, post_alloc, post_getSt, post_ite, post_undef, post_pure, post_setError]
  refine ⟨by omega, fun _ => ?_⟩
  simp only [post_getNextType, post_bind, post_ite, post_setError, post_messageFail (m := {}) t0, h0]
  refine ⟨fun h => ⟨fun _ => ?_, fun h => absurd (by decide) h⟩, fun h => ⟨fun _ => ?_, fun _ => ?_⟩⟩
  · exact ⟨by omega, Step.setErr hb _, by ar, by ar, by ar, by simp⟩
  · exact ⟨by omega, Step.setErr hb _, by ar, by ar, by ar, by simp⟩
  refine (getNextLength_post (by simpa using h)).mono ?_
  rintro r s ⟨hs, hc, hl, hcf, he⟩
  replace hs := Step.liveL _ hs
  simp only at hc hl hcf he
  refine ⟨fun _ => ?_, fun hr => ?_⟩
  · have := hs.mono
    exact ⟨by omega, (hs.errR).liveR _, by ar, by ar, by ar, by simp⟩
  have hce : s.error = false := by
    rcases he with he | ⟨_, he⟩
    · rw [he]; exact hpre.clean
    · simp at hr; omega
  have body : GoodB 2147483647 st.cursor (4 * depth) (
      messageField octetStringParse (fun v => { transactionId := v }) fun m =>
      messageField u8Parse (fun v => { m with groupId := v }) fun m =>
      messageField u8Parse (fun v => { m with abortOnError := v }) fun m =>
      messageField (messageBodyParse depth) (fun v => { m with messageBody := v }) fun m =>
      messageParseTail st.cursor m) 1 messageFreed 6 := by
    refine goodB_messageField (P := fun _ => True) good_octetString Inv.triv (fun _ _ => t0) (fun v => ?_) (fun v1 _ => ?_)
    · simp [messageFreed1, messageBodyFreed]; omega
    refine goodB_messageField (P := fun _ => True) good_num Inv.triv (fun _ _ => t0) (fun v => ?_) (fun v2 _ => ?_)
    · simp [messageFreed1, messageBodyFreed]; omega
    refine goodB_messageField (P := fun _ => True) good_num Inv.triv (fun _ _ => t0) (fun v => ?_) (fun v3 _ => ?_)
    · simp [messageFreed1, messageBodyFreed]; omega
    refine goodB_messageField (good_messageBody depth) (inv_messageBody depth) (fun v h => h) (fun v => ?_) (fun v4 h4 => ?_)
    · simp [messageFreed1, messageBodyFreed]; omega
    have := goodB_messageTail (D := 4 * depth) (start := st.cursor)
      (m := { transactionId := v1, groupId := v2, abortOnError := v3, messageBody := v4 }) h4 rfl
    have e : messageFreed1 { transactionId := v1, groupId := v2, abortOnError := v3, messageBody := v4 }
        = 1 + octetStringFreed v1 + numberFreed v2 + numberFreed v3 + messageBodyFreed v4 := by
      simp [messageFreed1]; omega
    rw [e] at this
    exact this
  refine (body s (by rw [hs.data]; exact hN) hs.mono (hpre.step hs hce) (by omega)).mono ?_
  rintro a s' ⟨hs', hl', hx', hb', hpr'⟩
  have := hs'.mono
  refine ⟨hs.trans hs', by omega, fun hc => ?_, by omega, fun he' => ?_⟩
  · have := hx' hc; omega
  · have := hpr' he'; omega

theorem inv_messageField {p : M α} {Pp : α → Prop} {set : α → Message} {k : Message → M (Option Message)}
    {P : Option Message → Prop} (hp : Inv p Pp) (hnone : P none) (hk : ∀ v, Pp v → Inv (k (set v)) P) :
    Inv (messageField p set k) P := by
  intro st
  unfold messageField messageFail
  simp only [wlp_bind, wlp_hasErrors, wlp_ite, wlp_release, wlp_pure]
  refine (hp st).mono fun v s hv => ?_
  exact ⟨fun h _ _ _ => hnone, fun h => hk v hv s⟩

theorem wlp_bufferSlice {start len : Nat} {st : St} {Q : List UInt8 → St → Prop} :
    Wlp (bufferSlice start len) st Q ↔
      (start + len ≤ st.data.length → Q ((st.data.drop start).take len) st) := by
  unfold Wlp bufferSlice
  by_cases h : start + len ≤ st.data.length
  · simp only [h, if_true, true_implies]
    constructor
    · intro h'; exact h' _ _ rfl
    · intro h' _ _ e; cases e; exact h'
  · simp [h]

/-- The only way to deliver a message. -/
theorem wlp_messageTail {start : Nat} {m : Message} {st : St} {Q : Option Message → St → Prop}
    (hnone : ∀ s, Q none s)
    (h : ∀ c s, u16Parse st = .ok (some c) s → s.error = false →
      start + (st.cursor - start) ≤ s.data.length →
      (c.val = (crc16 ((s.data.drop start).take (st.cursor - start))).toNat ∨
        c.val = (crc16kermit ((s.data.drop start).take (st.cursor - start))).toNat) →
      ∀ hlt : s.cursor < s.data.length,
      (s.data[s.cursor] = 0 → Q (some { m with crc := some c }) { s with cursor := s.cursor + 1 }) ∧
      (s.data[s.cursor] ≠ 0 → Q (some { m with crc := some c }) s)) :
    Wlp (messageParseTail start m) st Q := by
  unfold messageParseTail messageFail
  simp only [wlp_bind, wlp_hasErrors, wlp_ite, wlp_getSt, wlp_pure, wlp_undef, wlp_setError]
  refine ⟨fun _ => trivial, fun _ => ⟨fun _ _ _ _ => hnone _, fun _ v s hv => ?_⟩⟩
  have herr : Wlp (do setError; messageFree { m with crc := v }; pure none) s Q := by
    simp only [wlp_bind, wlp_setError, wlp_pure]; exact fun _ _ _ => hnone _
  dsimp only
  generalize hbad : s.error = bad
  cases bad with
  | true => exact herr
  | false =>
    cases v with
    | none => exact herr
    | some c =>
      simp only [wlp_bind, wlp_ite, wlp_getSt, wlp_pure, wlp_setError, wlp_updateBytesRead,
        wlp_bufferSlice, wlp_getCurrentByte]
      intro hslice
      refine ⟨fun _ _ _ _ => hnone _, fun hcrc => ⟨fun _ _ _ _ => hnone _, fun hlt hlt' => ?_⟩⟩
      exact h c s hv hbad hslice (by
        by_cases h1 : c.val = (crc16 ((s.data.drop start).take (st.cursor - start))).toNat
        · exact Or.inl h1
        · by_cases h2 : c.val = (crc16kermit ((s.data.drop start).take (st.cursor - start))).toNat
          · exact Or.inr h2
          · exact absurd ⟨h1, h2⟩ hcrc) hlt'

theorem inv_messageTail {start : Nat} {m : Message} {P : Option Message → Prop} (hnone : P none)
    (h : ∀ c, P (some { m with crc := some c })) : Inv (messageParseTail start m) P := by
  intro st
  exact wlp_messageTail (fun _ => hnone) fun c s _ _ _ _ _ => ⟨fun _ => h c, fun _ => h c⟩

/-- A message is only delivered without error. -/
theorem message_sure (depth : Nat) (st : St) :
    Wlp (messageParse depth) st fun a s => a ≠ none → s.error = false := by
  have hfail : ∀ (m : Message) (s : St), Wlp (messageFail m) s fun a s => a ≠ none → s.error = false := by
    intro m s
    unfold messageFail
    simp only [wlp_bind, wlp_pure]
    intro _ _ _ h; exact absurd rfl h
  have hfld : ∀ {α : Type} (p : M α) (set : α → Message) (k : Message → M (Option Message)),
      (∀ v s, Wlp (k (set v)) s fun a s => a ≠ none → s.error = false) →
      ∀ s, Wlp (messageField p set k) s fun a s => a ≠ none → s.error = false := by
    intro α p set k hk s
    unfold messageField
    simp only [wlp_bind, wlp_hasErrors, wlp_ite]
    intro v s' _
    exact ⟨fun _ => hfail _ _, fun _ => hk v s'⟩
  unfold messageParse cursorAsInt
  simp only [wlp_bind, wlp_alloc, wlp_getSt, wlp_ite, wlp_undef, wlp_pure, wlp_setError]
  refine ⟨fun _ => trivial, fun _ t s _ => ⟨fun _ => hfail _ _, fun _ l s' _ => ⟨fun _ => hfail _ _, fun _ => ?_⟩⟩⟩
  refine hfld _ _ _ (fun v => ?_) _
  refine hfld _ _ _ (fun v => ?_)
  refine hfld _ _ _ (fun v => ?_)
  refine hfld _ _ _ (fun v => ?_)
  intro s
  refine wlp_messageTail (fun _ h => absurd rfl h) ?_
  intro c s he h1 h2 h3 hlt
  exact ⟨fun _ _ => h1, fun _ _ => h1⟩

/-- What holds of every delivered message whatever the header bytes. -/
theorem inv_message {depth : Nat} {P : Option Message → Prop} (hnone : P none)
    (h : ∀ v1 v2 v3 v4 c, TagOk v4 →
      P (some { transactionId := v1, groupId := v2, abortOnError := v3, messageBody := v4, crc := some c })) :
    Inv (messageParse depth) P := by
  intro st
  unfold messageParse messageFail cursorAsInt
  simp only [wlp_bind, wlp_alloc, wlp_getSt, wlp_ite, wlp_undef, wlp_pure, wlp_setError]
  refine ⟨fun _ => trivial, fun _ t s _ => ⟨fun _ _ _ _ => hnone, fun _ l s' _ => ⟨fun _ _ _ _ => hnone, fun _ => ?_⟩⟩⟩
  refine inv_messageField (Pp := fun _ => True) Inv.triv hnone (fun v1 _ => ?_) _
  refine inv_messageField (Pp := fun _ => True) Inv.triv hnone (fun v2 _ => ?_)
  refine inv_messageField (Pp := fun _ => True) Inv.triv hnone (fun v3 _ => ?_)
  refine inv_messageField (inv_messageBody depth) hnone (fun v4 h4 => ?_)
  exact inv_messageTail hnone fun c => h v1 v2 v3 v4 c h4

/-! ## Files -/

/-- Blocks released by `sml_file_free`. -/
def fileFreed (f : File) : Nat :=
  (f.messages.map messageFreed1).sum + (if f.messages = [] then 0 else 1) + 3

def FileOk (f : File) : Prop := ∀ m ∈ f.messages, TagOk m.messageBody

theorem post_messagesFree {ms : List Message} (hm : ∀ m ∈ ms, TagOk m.messageBody) {st : St}
    {Q : Unit → St → Prop} :
    Post (messagesFree ms) st Q ↔ (ms.map messageFreed1).sum ≤ st.live ∧
      Q () { st with live := st.live - (ms.map messageFreed1).sum } := by
  induction ms generalizing st with
  | nil => simp [messagesFree]
  | cons m ms ih =>
    unfold messagesFree
    simp only [post_bind, post_messageFree (hm m (by simp)), ih (fun x hx => hm x (by simp [hx])),
      List.map_cons, List.sum_cons, Nat.sub_sub]
    constructor
    · rintro ⟨a, b, c⟩; exact ⟨by omega, c⟩
    · rintro ⟨a, c⟩; exact ⟨by omega, by omega, c⟩

theorem post_fileFree {f : File} (hf : FileOk f) {st : St} {Q : Unit → St → Prop} :
    Post (fileFree f) st Q ↔ fileFreed f ≤ st.live ∧
      Q () { st with live := st.live - fileFreed f } := by
  obtain ⟨ms⟩ := f
  unfold fileFree fileFreed
  cases ms with
  | nil =>
    simp only [post_bind, post_pure, post_release, Nat.sub_sub]
    constructor
    · rintro ⟨a, b, c⟩; exact ⟨by simp; omega, c⟩
    · rintro ⟨a, c⟩; simp at a; exact ⟨by omega, by omega, c⟩
  | cons m ms =>
    simp only [post_bind, post_messagesFree hf, post_release, Nat.sub_sub, Nat.add_assoc]
    simp only [reduceCtorEq, if_false]
    constructor
    · rintro ⟨a, b, c, d, e⟩; exact ⟨by omega, e⟩
    · rintro ⟨a, e⟩; exact ⟨by omega, by omega, by omega, by omega, e⟩

/-- An accepted message takes at least `k` bytes and is followed by at least one more. -/
def MinMessage (k : Nat) : Prop :=
  ∀ depth st m s, Pre (4 * depth) st → messageParse depth st = .ok (some m) s → s.error = false →
    st.cursor + k ≤ s.cursor ∧ st.cursor + k < st.data.length

theorem post_fileLoop {k depth : Nat} (hk : MinMessage k) (fuel : Nat) : ∀ (f : File) (st : St),
    st.data.length ≤ 32768 * k → st.data.length ≤ 2147483647 → Pre (4 * depth) st →
    st.data.length - st.cursor < fuel → FileOk f → fileFreed f ≤ st.live → f.messages.length * k ≤ st.cursor →
    Post (fileLoop depth fuel f) st fun f' s => Step st s ∧ FileOk f' ∧
      (∃ l, f'.messages = f.messages ++ l) ∧
      st.live + fileFreed f' ≤ s.live + fileFreed f ∧
      (s.confused = false → s.live + fileFreed f = st.live + fileFreed f') ∧
      s.live ≤ st.live + 2 * (s.cursor - st.cursor) + (if f.messages = [] then 1 else 0) ∧
      f'.messages.length * k ≤ s.cursor ∧ (s.error = true ∨ s.cursor = st.data.length) := by
  induction fuel with
  | zero => intro f st _ _ _ h; omega
  | succ fuel ih =>
    intro f st hN hN2 hpre hfuel hok hlive hcnt
    have hb := hpre.bound
    unfold fileLoop
    simp only [post_bind, post_getSt, post_ite, post_getCurrentByte, post_updateBytesRead, post_hasErrors, post_pure]
    refine ⟨fun hlt => ⟨hlt, fun _ => ?_, fun _ => ?_⟩, fun hge => ?_⟩
    · have h1 : Step st { st with cursor := st.cursor + 1 } :=
        ⟨rfl, by simp, by simp; omega, by simp, Or.inl, Or.inl, id⟩
      refine (ih f { st with cursor := st.cursor + 1 } hN hN2 (hpre.step h1 hpre.clean) (by simp only; omega) hok hlive (by simp only; omega)).mono ?_
      rintro f' s ⟨g1, g2, g3, g4, g5, g6, g7, g8⟩
      have := g1.mono
      simp only at g4 g5 g6 g8 this
      exact ⟨h1.trans g1, g2, g3, g4, g5, by omega, g7, g8⟩
    · refine ((good_message depth st hN2 (by omega) hpre (by omega)).andWlp
        (Wlp.mono (inv_message (depth := depth) (P := fun m => ∀ x, m = some x → TagOk x.messageBody)
          (by simp) (by rintro v1 v2 v3 v4 c h x ⟨⟩; exact h) st) fun _ _ h => h) |>.andWlp (R := fun m s =>
            ∀ x, m = some x → s.error = false → st.cursor + k ≤ s.cursor ∧ st.cursor + k < st.data.length) ?_ |>.andWlp (message_sure depth st)).mono ?_
      · intro a s e x hx he
        subst hx
        exact hk depth st x s hpre e he
      rintro msg s ⟨⟨⟨⟨h1, h2, h3, h4, h5⟩, htag⟩, hmin⟩, hsure⟩
      have hm1 := h1.mono
      have hlen : s.data.length = st.data.length := by rw [h1.data]
      have hnone : messageFreed none = 0 := rfl
      refine ⟨fun he => ?_, fun he => ?_⟩
      · have hmsg : msg = none := by
          cases msg with
          | none => rfl
          | some x => exact absurd he (by simp [hsure])
        subst hmsg
        exact ⟨h1, hok, ⟨[], by simp⟩, by omega, fun hc => by have := h3 hc; omega, by omega, by omega, Or.inl he⟩
      · have he' : s.error = false := by simpa using he
        have := h5 he'
        cases msg with
        | none =>
          refine (ih f s (by omega) (by omega) (hpre.step h1 he') (by omega) hok (by omega) (by omega)).mono ?_
          rintro f' s' ⟨g1, g2, g3, g4, g5, g6, g7, g8⟩
          have := g1.mono
          exact ⟨h1.trans g1, g2, g3, by omega, fun hc => by have := g5 hc; have := h3 (conf_false g1 hc); omega,
            by omega, g7, by rw [← hlen]; exact g8⟩
        | some m =>
          obtain ⟨hcnt', hroom⟩ := hmin m rfl he'
          have hmf : messageFreed (some m) = messageFreed1 m := rfl
          have hlt : f.messages.length < 32767 := by
            have : (f.messages.length + 1) * k < st.data.length := by rw [Nat.add_mul]; omega
            have : (f.messages.length + 1) * k < 32768 * k := by omega
            have := Nat.lt_of_mul_lt_mul_right this
            omega
          unfold fileAddMessage
          have hnlt : ¬ f.messages.length ≥ 32767 := by omega
          simp only [hnlt, if_false, post_bind, post_ite, post_alloc, post_pure]
          have hfok : FileOk { messages := f.messages ++ [m] } := by
            intro x hx
            simp at hx
            rcases hx with hx | rfl
            · exact hok x hx
            · exact htag _ rfl
          have hcount : (f.messages ++ [m]).length * k ≤ s.cursor := by
            simp [Nat.add_mul]; omega
          obtain ⟨ms⟩ := f
          have hne : ms ++ [m] ≠ [] := by simp
          refine ⟨fun hnil => ?_, fun hnil => ?_⟩
          · have hnil : ms = [] := by simpa using hnil
            subst hnil
            have hff : fileFreed { messages := [] ++ [m] } = messageFreed1 m + 4 := by simp [fileFreed]
            have hf0 : fileFreed { messages := [] } = 3 := rfl
            refine (ih { messages := [] ++ [m] } { s with live := s.live + 1 } (by simp; omega) (by simp; omega)
              (hpre.step (h1.liveR _) he') (by simp; omega) hfok (by rw [hff]; simp; omega) hcount).mono ?_
            rintro f' s' ⟨g1, g2, ⟨l, g3⟩, g4, g5, g6, g7, g8⟩
            replace g1 := Step.liveL _ g1
            have := g1.mono
            simp only at g4 g5 g6 g8
            rw [hff] at g4 g5
            rw [hf0]
            simp at g6
            refine ⟨h1.trans g1, g2, ⟨_, g3⟩, by omega,
              fun hc => by have := g5 hc; have := h3 (conf_false g1 hc); omega, by simp; omega, g7, by rw [← hlen]; exact g8⟩
          · have hnil : ms ≠ [] := by simpa using hnil
            have hff : fileFreed { messages := ms ++ [m] } = fileFreed { messages := ms } + messageFreed1 m := by
              simp [fileFreed, hnil]; omega
            refine (ih { messages := ms ++ [m] } s (by omega) (by omega)
              (hpre.step h1 he') (by omega) hfok (by rw [hff]; omega) hcount).mono ?_
            rintro f' s' ⟨g1, g2, ⟨l, g3⟩, g4, g5, g6, g7, g8⟩
            have := g1.mono
            rw [hff] at g4 g5
            simp only [hne, hnil, if_false] at g6 ⊢
            simp only [List.append_assoc] at g3
            refine ⟨h1.trans g1, g2, ⟨_, g3⟩, by omega,
              fun hc => by have := g5 hc; have := h3 (conf_false g1 hc); omega, by omega, g7, by rw [← hlen]; exact g8⟩
    · exact ⟨Step.refl hb, hok, ⟨[], by simp⟩, by omega, fun _ => trivial, by split <;> omega, hcnt, Or.inr (by omega)⟩

end Sml
