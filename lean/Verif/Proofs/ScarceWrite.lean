import Verif.Model.Scarce
import Verif.Spec.Scarce
import Verif.Proofs.RoundFile
import Verif.Proofs.HeapWriteFile
import Verif.Proofs.GrammarMessage
import Verif.Proofs.FileLong
import Verif.Props.Safety

/-!
# Messages without a checksum: writing, reading, and on the heap
-/

namespace Sml

open Spec

theorem bareBytes_length (m : Message) : (bareBytes m).length = (messageHead m).length + 2 := by
  simp [bareBytes]

def bareCells (m : Message) : List Cell := headCells m ++ plain [0x01, 0x00]

theorem bytes_bareCells (m : Message) : bytes (bareCells m) = bareBytes m := by
  simp [bareCells, bareBytes, bytes_headCells, bytes_plain]

theorem bareCells_length (m : Message) : (bareCells m).length = (messageHead m).length + 2 := by
  rw [← bareBytes_length, ← bytes_bareCells, bytes_length]

/-- A message written without a checksum over old contents that do not show. -/
theorem run_messageWriteBare (s : Bool) (m : Message) (h : MessageOk s m) (st : St)
    (hfit : st.cursor + (bareBytes m).length ≤ st.data.length) (hi : st.data.length ≤ 2147483647) (hn : Neutral (headCells m) (st.data.drop st.cursor)) :
    messageWriteBare m st = .ok { m with crc := none } { st with data := overwrite st (bareBytes m), cursor := st.cursor + (bareBytes m).length } := by
  obtain ⟨H, hH, hE⟩ : ∃ H : M Unit, H = (do setTypeAndLength tyList 6; octetStringWrite m.transactionId; u8Write m.groupId; u8Write m.abortOnError; messageBodyWrite m.messageBody) ∧ Emits H (headCells m) := ⟨_, rfl, emits_head s m h⟩
  obtain ⟨T, hT⟩ : ∃ T : M Unit, T = (do u16Write none; setByte 0x00; advance) := ⟨_, rfl⟩
  have hw : messageWriteBare m = (do
      let msgStart ← cursorAsInt
      H
      let st ← getSt
      if st.cursor > 2147483647 then undef .narrowing
      else
        let _ ← bufferSlice msgStart (st.cursor - msgStart)
        T
        pure { m with crc := none }) := by
    unfold messageWriteBare
    rw [hH, hT]
    simp only [m_bind_assoc]
  have hlen := headCells_length m
  rw [bareBytes_length] at hfit
  have hc : st.cursor ≤ st.data.length := by omega
  rw [hw]
  unfold cursorAsInt
  run
  rw [if_neg (by omega)]
  run
  rw [hE st hc, if_pos (by omega)]
  run
  have hpl := place_length (headCells m) st hc
  have hpc : (place (headCells m) st).cursor = st.cursor + (headCells m).length := rfl
  rw [hpc, if_neg (by omega), run_bufferSlice (by rw [hpl]; omega)]
  run
  have hTe : Emits T (plain [0x01] ++ plain [0x00]) := by
    rw [hT]
    exact emits_bind (emits_setByte 0x01) (emits_setByte 0x00)
  rw [hTe _ (by rw [hpl, hpc]; omega), if_pos (by rw [hpl, hpc]; simp [plain]; omega)]
  run
  rw [place_place (headCells m) _ st (by omega)]
  have hneu : Neutral (bareCells m) (st.data.drop st.cursor) := by
    unfold bareCells
    rw [neutral_append _ _ _ (by simp [headCells_length]; omega)]
    exact ⟨hn, neutral_plain _ _⟩
  have hp := place_neutral (bareCells m) st (by rw [bareCells_length]; omega) hneu
  change Res.ok _ (place (bareCells m) st) = _
  congr 1
  have e : ∀ s1 s2 : St, s1.data = s2.data → s1.cursor = s2.cursor → s1.error = s2.error → s1.live = s2.live → s1.sovf = s2.sovf → s1.confused = s2.confused → s1 = s2 := by
    rintro ⟨⟩ ⟨⟩ h1 h2 h3 h4 h5 h6
    simp_all
  refine e _ _ ?_ ?_ rfl rfl rfl rfl
  · rw [hp, bytes_bareCells]
  · simp [place, bareCells_length, bareBytes_length]

/-- How many of the messages get a checksum. -/
def sealedCount (av : Nat → Bool) : Nat → List Message → Nat
  | _, [] => 0
  | i, _ :: ms => (if av i then 1 else 0) + sealedCount av (i + 1) ms

/-- Writing messages over old contents that do not show. -/
theorem run_fileWriteScarce (s : Bool) (av : Nat → Bool) (ms : List Message) : ∀ (i : Nat) (st : St), (∀ m ∈ ms, MessageOk s m) →
    st.cursor + (scarceBytes av i ms).length ≤ st.data.length → st.data.length ≤ 2147483647 →
    Covered (st.data.drop st.cursor) (scarceBytes av i ms) →
    fileWriteScarce av i ms st = .ok (scarceSealed av i ms)
      { st with data := overwrite st (scarceBytes av i ms), cursor := st.cursor + (scarceBytes av i ms).length, live := st.live + sealedCount av i ms } := by
  induction ms with
  | nil =>
    intro i st _ _ _ _
    simp [fileWriteScarce, run_pure, scarceBytes, scarceSealed, overwrite, sealedCount]
  | cons m ms ih =>
    intro i st hok hfit hi hcov
    rw [scarceBytes] at hfit hcov ⊢
    generalize hb : (if av i then messageBytes (checksum m) m else bareBytes m) = bs at hfit hcov ⊢
    obtain ⟨h1, h2⟩ := covered_append hcov
    rw [List.length_append] at hfit
    have hpre : ∃ r, bs = messageHead m ++ r := by
      cases ha : av i with
      | true => rw [ha] at hb; exact ⟨_, by rw [← hb]; simp [messageBytes]; rfl⟩
      | false => rw [ha] at hb; exact ⟨_, by rw [← hb]; simp [bareBytes]; rfl⟩
    have hneu : Neutral (headCells m) (st.data.drop st.cursor) := by
      apply neutral_covered
      rw [bytes_headCells]
      obtain ⟨r, rfl⟩ := hpre
      exact (covered_append h1).1
    have hlen := overwrite_length st bs (by omega)
    have hdrop := overwrite_drop st bs (by omega)
    have hone : messageWriteAsked (av i) m st = .ok (if av i then sealed m else { m with crc := none })
        { st with data := overwrite st bs, cursor := st.cursor + bs.length, live := st.live + (if av i then 1 else 0) } := by
      unfold messageWriteAsked
      cases ha : av i with
      | true =>
        rw [ha] at hb
        simp only [if_true] at hb ⊢
        rw [← hb] at hfit ⊢
        exact run_messageWrite_clean s m (hok m (by simp)) st (by omega) hi hneu
      | false =>
        rw [ha] at hb
        simp only [Bool.false_eq_true, if_false] at hb ⊢
        rw [← hb] at hfit ⊢
        exact run_messageWriteBare s m (hok m (by simp)) st (by omega) hi hneu
    unfold fileWriteScarce
    rw [run_bind, hone, Res.andThen_ok, run_bind,
      ih (i + 1) { st with data := overwrite st bs, cursor := st.cursor + bs.length, live := st.live + (if av i then 1 else 0) }
        (fun x hx => hok x (by simp [hx])) (by simp only [hlen]; omega) (by simp only [hlen]; exact hi)
        (by simp only [hdrop]; rw [← List.drop_drop]; exact h2), Res.andThen_ok, run_pure]
    rw [overwrite_overwrite _ _ _ _ (by omega)]
    simp [scarceSealed, sealedCount, Nat.add_assoc]

/-! ## Reading -/

/-- The reader takes a message without a checksum for an error. -/
theorem run_messageParse_bare {depth : Nat} (m : Message) (h : MessageOk true m) (h0 : 0 < depth) (hdep : messageDepth m ≤ depth) (st : St) (rest : List UInt8)
    (hd : st.data.drop st.cursor = bareBytes m ++ rest) (he : st.error = false) (hi : st.data.length ≤ 2147483647) :
    ∀ r s, messageParse depth st = .ok r s → r = none ∧ s.error = true := by
  obtain ⟨h1, h2, h3, b, hb, h4⟩ := h
  have hdep' : bodyDepth b.data ≤ depth := by simpa [messageDepth, hb] using hdep
  have hlen : st.data.length = st.cursor + (messageHead m).length + 2 + rest.length := by
    have := congrArg List.length hd
    simp [bareBytes_length] at this
    omega
  have hd0 : st.data.drop st.cursor = encHeader 7 6 ++ (enc (opt strTerm m.transactionId) ++ (enc (opt (uintTerm 1) m.groupId) ++
      (enc (opt (uintTerm 1) m.abortOnError) ++ (enc (messageBodyTerm b) ++ ([0x01] ++ ([0x00] ++ rest)))))) := by
    rw [hd]
    simp [bareBytes, messageHead, messageFields, encAll, hb, opt]
  have fail : ∀ (x : Message) (s0 : St) r s, s0.error = true → messageFail x s0 = .ok r s → r = none ∧ s.error = true := by
    intro x s0 r s h0 hr
    obtain ⟨e1, _, e2⟩ := messageFail_rest hr
    exact ⟨e1, e2.trans h0⟩
  unfold messageParse cursorAsInt
  run
  rw [if_neg (by omega)]
  run
  rw [reads_type (st := { st with live := st.live + 1 }) (encHeader_ne _ _) (encHeader_type (by decide)) hd0]
  run
  rw [if_neg (by simp), reads_length (st := { st with live := st.live + 1 }) (by decide) (small_len (by decide)) hd0]
  run
  rw [if_neg (by simp)]
  have hd1 := drop_add hd0
  have hd2 := drop_add hd1
  have hd3 := drop_add hd2
  have hd4 := drop_add hd3
  have hd5 := drop_add hd4
  rw [run_messageField (reads_octetString _ h1) (by exact hd1) (by simp) (by exact he)]
  rw [run_messageField (reads_uint (by decide) (by decide) _ h2) (by exact hd2) (by simp) (by exact he)]
  rw [run_messageField (reads_uint (by decide) (by decide) _ h3) (by exact hd3) (by simp) (by exact he)]
  rw [run_messageField (reads_messageBody b h4 h0 hdep') (by exact hd4) (by simp) (by exact he)]
  have hhead : st.cursor + (encHeader 7 6).length + (enc (opt strTerm m.transactionId)).length + (enc (opt (uintTerm 1) m.groupId)).length +
      (enc (opt (uintTerm 1) m.abortOnError)).length + (enc (messageBodyTerm b)).length = st.cursor + (messageHead m).length := by
    simp [messageHead, messageFields, encAll, hb, opt, Nat.add_assoc]
  rw [hhead] at hd5
  simp only [hhead]
  intro r s
  unfold messageParseTail
  run
  rw [if_neg (by omega)]
  by_cases hs : st.data.length - (st.cursor + (messageHead m).length) < 3
  · rw [if_pos hs]
    exact fail _ _ _ _ rfl
  · rw [if_neg hs]
    have hu : Reads u16Parse _ _ _ := reads_uint (size := 2) (by decide) (by decide) none (fun _ h => by cases h)
    generalize st.live + 1 + own OctetString.blocks m.transactionId + own Num.blocks m.groupId + own Num.blocks m.abortOnError + b.blocks = n
    rw [hu { st with cursor := st.cursor + (messageHead m).length, live := n } _ hd5 (by simp) he]
    run
    exact fail _ _ _ _ rfl

/-- The loop ends at a message without a checksum. -/
theorem run_fileLoop_bare {depth : Nat} (m : Message) (h : MessageOk true m) (h0 : 0 < depth) (hdep : messageDepth m ≤ depth) (fuel : Nat) (f : File) (st : St) (rest : List UInt8)
    (hd : st.data.drop st.cursor = bareBytes m ++ rest) (he : st.error = false) (hi : st.data.length ≤ 2147483647) :
    ∀ g s, fileLoop depth (fuel + 1) f st = .ok g s → g = f ∧ s.error = true := by
  obtain ⟨bs, hbs⟩ : ∃ bs, bareBytes m = 0x76 :: bs := by
    unfold bareBytes messageHead
    rw [encHeader_list (by decide)]
    exact ⟨_, rfl⟩
  obtain ⟨h1, h2, _⟩ := drop_cons_get (by rw [hd, hbs]; rfl)
  intro g s hr
  unfold fileLoop at hr
  obtain ⟨_, _, e, hr⟩ := M.bind_eq_ok hr
  cases e
  rw [if_pos h1] at hr
  replace hr := M.bind_eq_ok hr
  obtain ⟨x, s1, e, hr⟩ := hr
  rw [run_getCurrentByte h1] at e
  cases e
  rw [h2, if_neg (by decide)] at hr
  replace hr := M.bind_eq_ok hr
  obtain ⟨r, s2, e, hr⟩ := hr
  obtain ⟨rfl, e2⟩ := run_messageParse_bare m h h0 hdep st rest hd he hi r s2 e
  replace hr := M.bind_eq_ok hr
  obtain ⟨x, s3, e, hr⟩ := hr
  have : x = true ∧ s3 = s2 := by
    unfold hasErrors at e
    cases e
    exact ⟨e2, rfl⟩
  obtain ⟨rfl, rfl⟩ := this
  cases hr
  exact ⟨rfl, e2⟩

/-- The loop over messages of which some have no checksum. -/
theorem run_fileLoop_scarce {depth : Nat} (av : Nat → Bool) (ms : List Message) : ∀ (i fuel : Nat) (f : File) (st : St),
    (∀ m ∈ ms, MessageOk true m ∧ messageDepth m ≤ depth) → 0 < depth →
    ms.length < fuel → f.messages.length + ms.length ≤ 32767 →
    st.data.drop st.cursor = scarceBytes av i ms →
    st.cursor ≤ st.data.length → st.error = false → st.data.length ≤ 2147483647 →
    ∀ g s, fileLoop depth fuel f st = .ok g s → g.messages = f.messages ++ beforeBare av i ms ∧ (s.error = true ↔ ∃ j, j < ms.length ∧ av (i + j) = false) := by
  induction ms with
  | nil =>
    intro i fuel f st _ _ hf _ hd hc he _ g s hr
    rw [run_fileLoop_zeros 0 fuel f st (by simpa using hf) (by simpa [scarceBytes] using hd) hc] at hr
    cases hr
    refine ⟨by simp [beforeBare], ?_⟩
    simp [he]
  | cons m ms ih =>
    intro i fuel f st hok h0 hf hcnt hd hc he hi g s hr
    obtain ⟨fuel, rfl⟩ : ∃ n, fuel = n + 1 := ⟨fuel - 1, by simp at hf; omega⟩
    obtain ⟨hm, hdep⟩ := hok m (by simp)
    rw [scarceBytes] at hd
    cases ha : av i with
    | false =>
      rw [ha] at hd
      simp only [Bool.false_eq_true, if_false] at hd
      obtain ⟨rfl, e⟩ := run_fileLoop_bare m hm h0 hdep fuel f st _ hd he hi g s hr
      refine ⟨by simp [beforeBare, ha], fun _ => ⟨0, by simp, ha⟩, fun _ => e⟩
    | true =>
      rw [ha] at hd
      simp only [if_true] at hd
      obtain ⟨bs, hbs⟩ := messageBytes_first (checksum m) m
      obtain ⟨h1, h2, _⟩ := drop_cons_get (by rw [hd, hbs]; rfl)
      have hlen : st.cursor + (messageBytes (checksum m) m).length ≤ st.data.length := by
        have := congrArg List.length hd
        simp at this
        omega
      simp only [List.length_cons] at hcnt hf
      unfold fileLoop at hr
      replace hr := M.bind_eq_ok hr
      obtain ⟨_, _, e, hr⟩ := hr
      cases e
      rw [if_pos h1] at hr
      replace hr := M.bind_eq_ok hr
      obtain ⟨x, s1, e, hr⟩ := hr
      rw [run_getCurrentByte h1] at e
      cases e
      rw [h2, if_neg (by decide)] at hr
      replace hr := M.bind_eq_ok hr
      obtain ⟨r, s2, e, hr⟩ := hr
      rw [run_messageParse m hm h0 hdep (checksum m) (.inl (checksum_eq m)) st _ hd he hi] at e
      cases e
      replace hr := M.bind_eq_ok hr
      obtain ⟨x, s3, e, hr⟩ := hr
      unfold hasErrors at e
      cases e
      rw [if_neg (by simp [he])] at hr
      replace hr := M.bind_eq_ok hr
      obtain ⟨f', s4, e, hr⟩ := hr
      have e4 : f' = { messages := f.messages ++ [sealed m] } ∧ ∃ lv, s4 = { st with cursor := st.cursor + (messageBytes (checksum m) m).length, live := lv } := by
        unfold fileAddMessage at e
        rw [run_ite, if_neg (by omega)] at e
        rw [run_ite] at e
        split at e
        · cases e
          exact ⟨rfl, _, rfl⟩
        · cases e
          exact ⟨rfl, _, rfl⟩
      obtain ⟨rfl, lv, rfl⟩ := e4
      obtain ⟨k1, k2⟩ := ih (i + 1) fuel { messages := f.messages ++ [sealed m] }
          { st with cursor := st.cursor + (messageBytes (checksum m) m).length, live := lv } (fun p hp => hok p (by simp [hp])) h0 (by omega) (by simp only [List.length_append, List.length_singleton]; omega) (drop_add hd) hlen he hi g s hr
      refine ⟨by rw [k1]; simp [beforeBare, ha], k2.trans ⟨?_, ?_⟩⟩
      · rintro ⟨j, hj, hb⟩
        exact ⟨j + 1, by simp; omega, by rw [← hb]; congr 1; omega⟩
      · rintro ⟨j, hj, hb⟩
        cases j with
        | zero => simp [ha] at hb
        | succ j => exact ⟨j, by simp at hj; omega, by rw [← hb]; congr 1; omega⟩

/-- The counter of messages does not overflow on them. -/
theorem run_fileLoop_scarce_counter {depth : Nat} (av : Nat → Bool) (ms : List Message) : ∀ (i fuel : Nat) (f : File) (st : St),
    (∀ m ∈ ms, MessageOk true m ∧ messageDepth m ≤ depth) → 0 < depth →
    ms.length < fuel → f.messages.length + ms.length ≤ 32767 →
    st.data.drop st.cursor = scarceBytes av i ms →
    st.cursor ≤ st.data.length → st.error = false → st.data.length ≤ 2147483647 → st.data.length < st.cursor + 4 * depth →
    fileLoop depth fuel f st ≠ .ub .counter := by
  induction ms with
  | nil =>
    intro i fuel f st _ _ hf _ hd hc he _ _ hr
    rw [run_fileLoop_zeros 0 fuel f st (by simpa using hf) (by simpa [scarceBytes] using hd) hc] at hr
    cases hr
  | cons m ms ih =>
    intro i fuel f st hok h0 hf hcnt hd hc he hi hD hr
    obtain ⟨fuel, rfl⟩ : ∃ n, fuel = n + 1 := ⟨fuel - 1, by simp at hf; omega⟩
    obtain ⟨hm, hdep⟩ := hok m (by simp)
    rw [scarceBytes] at hd
    cases ha : av i with
    | false =>
      rw [ha] at hd
      simp only [Bool.false_eq_true, if_false] at hd
      obtain ⟨bs, hbs⟩ : ∃ bs, bareBytes m = 0x76 :: bs := by
        unfold bareBytes messageHead
        rw [encHeader_list (by decide)]
        exact ⟨_, rfl⟩
      obtain ⟨h1, h2, _⟩ := drop_cons_get (by rw [hd, hbs]; rfl)
      obtain ⟨r, s, e, _⟩ := post_iff.1 (good_message depth st hi (by omega) ⟨hc, he, hD⟩ (by omega))
      obtain ⟨rfl, e2⟩ := run_messageParse_bare m hm h0 hdep st _ hd he hi r s e
      rw [fileLoop_round h1 (by rw [h2]; decide) e, if_pos e2] at hr
      cases hr
    | true =>
      rw [ha] at hd
      simp only [if_true] at hd
      obtain ⟨bs, hbs⟩ := messageBytes_first (checksum m) m
      obtain ⟨h1, h2, _⟩ := drop_cons_get (by rw [hd, hbs]; rfl)
      have hlen : st.cursor + (messageBytes (checksum m) m).length ≤ st.data.length := by
        have := congrArg List.length hd
        simp at this
        omega
      simp only [List.length_cons] at hcnt hf
      rw [fileLoop_round h1 (by rw [h2]; decide) (run_messageParse m hm h0 hdep (checksum m) (.inl (checksum_eq m)) st _ hd he hi), if_neg (by simp [he])] at hr
      simp only [run_bind, fileAddMessage, run_ite] at hr
      rw [if_neg (by omega)] at hr
      have next := fun lv => ih (i + 1) fuel { messages := f.messages ++ [sealed m] }
        { st with cursor := st.cursor + (messageBytes (checksum m) m).length, live := lv } (fun p hp => hok p (by simp [hp])) h0 (by omega)
        (by simp only [List.length_append, List.length_singleton]; omega) (drop_add hd) hlen he hi (by simp only; omega)
      split at hr
      · exact next _ hr
      · exact next _ hr

/-! ## On the heap -/

theorem Sim.refused {k : M γ} {pk : Addr → P δ} (h2 : Sim B0 k (pk 0) R) : Sim B0 k (pRefused >>= pk) R := by
  intro s n0 c0 h g0 o v s' hm
  have o' : Own n0 c0 { h with next := h.next + 1 } (B0 ++ g0) :=
    ⟨o.pos, Nat.le_succ_of_le o.le, o.base, fun x hx => ⟨(o.key x hx).1, Nat.lt_succ_of_lt (o.key x hx).2⟩, o.nodup, o.mem, o.rest⟩
  exact h2 s n0 c0 _ g0 o' v s' hm

theorem messageWriteBare_seq (m : Message) : messageWriteBare m = (cursorAsInt >>= fun msgStart =>
    (setTypeAndLength tyList 6 >>= fun _ => seqM [octetStringWrite m.transactionId, u8Write m.groupId, u8Write m.abortOnError,
      messageBodyWrite m.messageBody]) >>= fun _ => getSt >>= fun st =>
    if st.cursor > 2147483647 then undef .narrowing
    else bufferSlice msgStart (st.cursor - msgStart) >>= fun _ =>
      u16Write none >>= fun _ => setByte 0x00 >>= fun _ => advance >>= fun _ =>
      pure { m with crc := none }) := by
  simp only [messageWriteBare, seqM, M.assoc]

theorem sim_messageWriteBare (m : Message) (a : Addr) (hr : RMessage m a B) :
    Sim (B ++ D) (messageWriteBare m) (pMessageWriteBare a) (fun m' _ B' => ∃ B1, RMessage m' a B1 ∧ B' = B1 ++ D) := by
  obtain ⟨ps, B', hF, rfl⟩ := hr
  have hW : WAll [octetStringWrite m.transactionId, u8Write m.groupId, u8Write m.abortOnError, messageBodyWrite m.messageBody]
      [pOctetStringWrite, pU8Write, pU8Write, pMessageBodyWrite]
      [repOpt RStr m.transactionId, repOpt RNum m.groupId, repOpt RNum m.abortOnError, repOpt RMessageBody m.messageBody] :=
    .cons (wr_octetString _) (.cons (wr_number _ _ _) (.cons (wr_number _ _ _) (.cons (wr_messageBody _) .nil)))
  obtain ⟨ps1, ps2, B1, B2, rfl, rfl, hF1, hF2⟩ := Fields.getAppend (rs := [repOpt RStr m.transactionId, repOpt RNum m.groupId,
    repOpt RNum m.abortOnError, repOpt RMessageBody m.messageBody]) (rs' := [repOpt RNum m.crc]) hF
  obtain ⟨pc, rfl, hc⟩ := hF2.one
  obtain ⟨q0, q1, q2, q3, rfl⟩ : ∃ q0 q1 q2 q3, ps1 = [q0, q1, q2, q3] := by
    have hl := hF1.length
    match ps1, hl with
    | [q0, q1, q2, q3], _ => exact ⟨q0, q1, q2, q3, rfl⟩
  rw [messageWriteBare_seq, pMessageWriteBare]
  refine dry_cursorAsInt.sim fun msgStart => ?_
  refine Sim.use (fun L => Wr1.fields (B := B1) hW 6 hF1 ⟨(a, .struct ([q0, q1, q2, q3] ++ [pc]) []) :: (B2 ++ D ++ L), by blocks_perm⟩
    List.mem_cons_self) fun _ => ?_
  refine Sim.getSt fun st => Sim.ite (fun _ => Sim.undef) fun _ => ?_
  refine (dry_bufferSlice _ _).sim fun bytes => Sim.refused ?_
  refine Sim.ne0 (a := a) (c := HCell.struct ([q0, q1, q2, q3] ++ [pc]) []) (by simp) fun ha => ?_
  refine Sim.perm (B1 := (a, .struct [q0, q1, q2, q3, pc] []) :: (B1 ++ B2 ++ D)) (by simp) ?_
  refine Sim.writePtr ha (by simp) ?_
  refine Sim.perm (B1 := ((a, .struct [q0, q1, q2, q3, 0] []) :: (B1 ++ []) ++ D) ++ B2)
    (by simp only [List.set]; blocks_perm) ?_
  refine Sim.forget ?_
  refine Sim.readPtrM (x := 0) List.mem_cons_self rfl ?_
  refine Sim.use (fun L => wr_number none _ _ _ 0 [] ⟨rfl, rfl⟩
    ⟨(a, .struct [q0, q1, q2, q3, 0] []) :: (B1 ++ D ++ L), by blocks_perm⟩) fun _ => ?_
  refine (dry_setByte _).sim fun _ => ?_
  refine Sim.liftRet dry_advance ?_
  exact ⟨_, ⟨_, _, Fields.append hF1 (Fields.single ⟨rfl, rfl⟩), rfl⟩, rfl⟩

end Sml
