import Verif.Proofs.RoundMessage
import Verif.Spec.Round

/-!
# Writing and reading messages and files
-/

namespace Sml

open Spec

theorem checksum_eq (m : Message) : checksum m = (crc16 (messageHead m)).toNat := by
  unfold checksum
  rw [crc16_eq]

/-! ## Old contents that do not show -/

/-- No bit of the old bytes survives where the writer ORs. -/
def Neutral : List Cell → List UInt8 → Prop
  | c :: cs, o :: old => c.on o = c.b ∧ Neutral cs old
  | _, _ => True

theorem paint_neutral (cs : List Cell) : ∀ old, cs.length ≤ old.length → Neutral cs old →
    paint cs old = bytes cs ++ old.drop cs.length := by
  induction cs with
  | nil => intro old _ _; simp [paint, bytes]
  | cons c cs ih =>
    intro old h hn
    cases old with
    | nil => simp at h
    | cons o old =>
      obtain ⟨h1, h2⟩ := hn
      simp only [paint, h1]
      rw [ih old (by simpa using h) h2]
      simp [bytes]

theorem neutral_append (a b : List Cell) : ∀ old, a.length ≤ old.length → (Neutral (a ++ b) old ↔ Neutral a old ∧ Neutral b (old.drop a.length)) := by
  induction a with
  | nil => intro old _; simp [Neutral]
  | cons c a ih =>
    intro old h
    cases old with
    | nil => simp at h
    | cons o old => simp [Neutral, ih old (by simpa using h), and_assoc]

/-- Every bit of the old bytes is also set in the new ones. -/
theorem neutral_covered (cs : List Cell) : ∀ old, (∀ p ∈ old.zip (bytes cs), p.1 ||| p.2 = p.2) → Neutral cs old := by
  induction cs with
  | nil => intro old _; simp [Neutral]
  | cons c cs ih =>
    intro old h
    cases old with
    | nil => simp [Neutral]
    | cons o old =>
      simp only [bytes, List.map_cons, List.zip_cons_cons, List.mem_cons, forall_eq_or_imp] at h
      refine ⟨?_, ih old h.2⟩
      unfold Cell.on
      split
      · exact h.1
      · rfl

theorem neutral_plain (bs : List UInt8) : ∀ old, Neutral (plain bs) old := by
  induction bs with
  | nil => intro old; simp [plain, Neutral]
  | cons b bs ih => intro old; cases old <;> simp [plain, Neutral, Cell.on]; exact ih _

/-! ## Writing a message -/

/-- What is written of a message before its checksum. -/
def headCells (m : Message) : List Cell := hdrCells (encHeader 7 6) ++ cellsAll (messageFields m)

def messageCells (c : Nat) (m : Message) : List Cell := headCells m ++ (cells (.uint (bigEndian 2 c)) ++ plain [0x00])

theorem bytes_headCells (m : Message) : bytes (headCells m) = messageHead m := by
  simp [headCells, messageHead, bytes_cellsAll]

theorem bytes_messageCells (c : Nat) (m : Message) : bytes (messageCells c m) = messageBytes c m := by
  simp [messageCells, messageBytes, bytes_headCells, bytes_cells]

theorem headCells_length (m : Message) : (headCells m).length = (messageHead m).length := by
  rw [← bytes_headCells, bytes_length]

theorem messageBytes_length (c : Nat) (m : Message) : (messageBytes c m).length = (messageHead m).length + 4 := by
  simp [messageBytes, enc, bigEndian_length, encHeader_length]
  decide

theorem messageCells_length (c : Nat) (m : Message) : (messageCells c m).length = (messageHead m).length + 4 := by
  rw [← messageBytes_length c, ← bytes_messageCells, bytes_length]

theorem emits_head (s : Bool) (m : Message) (h : MessageOk s m) :
    Emits (do setTypeAndLength tyList 6; octetStringWrite m.transactionId; u8Write m.groupId; u8Write m.abortOnError
              messageBodyWrite m.messageBody) (headCells m) := by
  obtain ⟨h1, h2, h3, b, hb, h4⟩ := h
  refine emits_bind (emits_list (by decide)) ?_
  refine emits_cons (emits_octetString s _ h1) ?_
  refine emits_cons (emits_uint s (by decide) (by decide) _ h2) ?_
  refine emits_cons (emits_uint s (by decide) (by decide) _ h3) ?_
  refine emits_one ?_
  rw [hb]
  exact emits_messageBody s b h4

/-- The checksum the writer computes: over what is in the buffer. -/
def writtenCrc (m : Message) (st : St) : Nat :=
  (crc16 ((paint (headCells m) (st.data.drop st.cursor)).take (headCells m).length)).toNat

theorem run_messageWrite (s : Bool) (m : Message) (h : MessageOk s m) (st : St) (hc : st.cursor ≤ st.data.length)
    (hi : st.data.length ≤ 2147483647) :
    messageWrite m st = if st.cursor + ((messageHead m).length + 4) ≤ st.data.length then
      .ok { m with crc := some { size := 2, val := writtenCrc m st } } (place (messageCells (writtenCrc m st) m) { st with live := st.live + 1 })
      else .ub .oobWrite := by
  obtain ⟨H, hH, hE⟩ : ∃ H : M Unit, H = (do setTypeAndLength tyList 6; octetStringWrite m.transactionId; u8Write m.groupId; u8Write m.abortOnError; messageBodyWrite m.messageBody) ∧ Emits H (headCells m) := ⟨_, rfl, emits_head s m h⟩
  obtain ⟨T, hT⟩ : ∃ T : Num → M Unit, T = (fun c => do u16Write (some c); setByte 0x00; advance) := ⟨_, rfl⟩
  have hw : messageWrite m = (do
      let msgStart ← cursorAsInt
      H
      let st ← getSt
      if st.cursor > 2147483647 then undef .narrowing
      else
        let bytes ← bufferSlice msgStart (st.cursor - msgStart)
        alloc 1
        T (numberInit (crc16 bytes).toNat 2)
        pure { m with crc := some (numberInit (crc16 bytes).toNat 2) }) := by
    unfold messageWrite
    rw [hH, hT]
    simp only [m_bind_assoc]
  have hlen := headCells_length m
  rw [hw]
  unfold cursorAsInt
  run
  rw [if_neg (by omega)]
  run
  rw [hE st hc]
  by_cases hfit : st.cursor + (headCells m).length ≤ st.data.length
  · rw [if_pos hfit]
    run
    have hpl := place_length (headCells m) st hc
    have hpc : (place (headCells m) st).cursor = st.cursor + (headCells m).length := rfl
    rw [hpc, if_neg (by omega), run_bufferSlice (by rw [hpl]; omega)]
    run
    have hsl : (place (headCells m) st).data.drop st.cursor = paint (headCells m) (st.data.drop st.cursor) := by
      unfold place
      simp only
      rw [List.drop_append_of_le_length (by simp; omega)]
      simp
    rw [show st.cursor + (headCells m).length - st.cursor = (headCells m).length by omega, hsl]
    have hcrc : numberInit (crc16 ((paint (headCells m) (st.data.drop st.cursor)).take (headCells m).length)).toNat 2 =
        { size := 2, val := writtenCrc m st } := by
      unfold numberInit writtenCrc
      rw [Nat.mod_eq_of_lt]
      exact (crc16 _).isLt
    rw [hcrc]
    have hTe : Emits (T { size := 2, val := writtenCrc m st }) (cells (.uint (bigEndian 2 (writtenCrc m st))) ++ plain [0x00]) := by
      rw [hT]
      refine emits_bind (emits_uint false (by decide) (by decide) (some { size := 2, val := writtenCrc m st }) ?_) (emits_setByte 0x00)
      intro a ha
      cases ha
      exact ⟨Nat.le_refl _, by simp⟩
    rw [hTe { place (headCells m) st with live := (place (headCells m) st).live + 1 } (by simp only [hpl, hpc]; omega)]
    have htl : (cells (.uint (bigEndian 2 (writtenCrc m st))) ++ plain [0x00]).length = 4 := by
      have := messageCells_length (writtenCrc m st) m
      unfold messageCells at this
      rw [List.length_append] at this
      omega
    simp only [hpl, hpc, htl]
    by_cases hfit2 : st.cursor + ((messageHead m).length + 4) ≤ st.data.length
    · rw [if_pos hfit2, if_pos (by omega)]
      run
      congr 1
      exact place_place (headCells m) _ { st with live := st.live + 1 } hfit
    · rw [if_neg hfit2, if_neg (by omega)]
      rfl
  · rw [if_neg hfit, if_neg (by omega)]
    rfl

/-- The buffer with `bs` written at the cursor. -/
def overwrite (st : St) (bs : List UInt8) : List UInt8 :=
  st.data.take st.cursor ++ bs ++ st.data.drop (st.cursor + bs.length)

theorem overwrite_length (st : St) (bs : List UInt8) (h : st.cursor + bs.length ≤ st.data.length) :
    (overwrite st bs).length = st.data.length := by
  simp [overwrite]; omega

theorem overwrite_drop (st : St) (bs : List UInt8) (h : st.cursor + bs.length ≤ st.data.length) :
    (overwrite st bs).drop (st.cursor + bs.length) = st.data.drop (st.cursor + bs.length) := by
  unfold overwrite
  rw [List.drop_append_of_le_length (by simp; omega), List.drop_of_length_le (by simp; omega)]
  simp

theorem overwrite_take (st : St) (bs : List UInt8) (h : st.cursor + bs.length ≤ st.data.length) :
    (overwrite st bs).take (st.cursor + bs.length) = st.data.take st.cursor ++ bs := by
  unfold overwrite
  rw [List.take_append_of_le_length (by simp; omega), List.take_of_length_le (by simp; omega)]

theorem overwrite_overwrite (st : St) (a b : List UInt8) (n : Nat) (h : st.cursor + a.length ≤ st.data.length) :
    overwrite { st with data := overwrite st a, cursor := st.cursor + a.length, live := n } b = overwrite st (a ++ b) := by
  show (overwrite st a).take (st.cursor + a.length) ++ b ++ (overwrite st a).drop (st.cursor + a.length + b.length) = _
  rw [overwrite_take _ _ h, ← List.drop_drop, overwrite_drop _ _ h, List.drop_drop]
  simp [overwrite, Nat.add_assoc]

theorem place_overwrite (cs : List Cell) (st : St) (h : st.cursor + cs.length ≤ st.data.length) :
    ∃ bs, bs.length = cs.length ∧ (place cs st).data = overwrite st bs := by
  refine ⟨(paint cs (st.data.drop st.cursor)).take cs.length, by simp [paint_length]; omega, ?_⟩
  have hl : ((paint cs (st.data.drop st.cursor)).take cs.length).length = cs.length := by simp [paint_length]; omega
  unfold place overwrite
  rw [hl]
  simp only [List.append_assoc]
  congr 1
  conv => lhs; rw [← List.take_append_drop cs.length (paint cs (st.data.drop st.cursor))]
  rw [paint_drop, List.drop_drop]

theorem place_neutral (cs : List Cell) (st : St) (h : st.cursor + cs.length ≤ st.data.length)
    (hn : Neutral cs (st.data.drop st.cursor)) : (place cs st).data = overwrite st (bytes cs) := by
  unfold place overwrite
  simp only
  rw [paint_neutral _ _ (by simp; omega) hn]
  simp

/-- A message written over old contents that do not show. -/
theorem run_messageWrite_clean (s : Bool) (m : Message) (h : MessageOk s m) (st : St)
    (hfit : st.cursor + (messageBytes (checksum m) m).length ≤ st.data.length)
    (hi : st.data.length ≤ 2147483647) (hn : Neutral (headCells m) (st.data.drop st.cursor)) :
    messageWrite m st = .ok (sealed m) { st with data := overwrite st (messageBytes (checksum m) m), cursor := st.cursor + (messageBytes (checksum m) m).length, live := st.live + 1 } := by
  rw [messageBytes_length] at hfit
  rw [run_messageWrite s m h st (by omega) hi, if_pos hfit]
  have hcrc : writtenCrc m st = checksum m := by
    unfold writtenCrc
    rw [paint_neutral _ _ (by simp [headCells_length]; omega) hn, List.take_append_of_le_length (by simp), bytes_headCells, checksum_eq,
      headCells_length, List.take_length]
  rw [hcrc]
  have hfit' : st.cursor + (messageCells (checksum m) m).length ≤ st.data.length := by rw [messageCells_length]; omega
  have hneu : Neutral (messageCells (checksum m) m) (st.data.drop st.cursor) := by
    unfold messageCells
    rw [neutral_append _ _ _ (by simp [headCells_length]; omega)]
    refine ⟨hn, ?_⟩
    have : cells (.uint (bigEndian 2 (checksum m))) ++ plain [0x00] = plain (0x63 :: bigEndian 2 (checksum m) ++ [0x00]) := by
      have h2 : hdrCells (encHeader 6 2) = plain [0x63] := by decide
      simp only [cells, bigEndian_length, h2]
      simp [plain]
    rw [this]
    exact neutral_plain _ _
  have hp := place_neutral (messageCells (checksum m) m) { st with live := st.live + 1 } hfit' hneu
  congr 1
  have e : ∀ s1 s2 : St, s1.data = s2.data → s1.cursor = s2.cursor → s1.error = s2.error → s1.live = s2.live → s1.sovf = s2.sovf → s1.confused = s2.confused → s1 = s2 := by
    rintro ⟨⟩ ⟨⟩ h1 h2 h3 h4 h5 h6
    simp_all
  refine e _ _ ?_ ?_ rfl rfl rfl rfl
  · rw [hp, bytes_messageCells]; rfl
  · simp [place, messageCells_length, messageBytes_length]

/-! ## Writing a file -/

theorem covered_append {old a b : List UInt8} (h : Covered old (a ++ b)) : Covered old a ∧ Covered (old.drop a.length) b := by
  induction a generalizing old with
  | nil => exact ⟨by simp [Covered], by simpa using h⟩
  | cons x a ih =>
    cases old with
    | nil => simp [Covered]
    | cons o old =>
      unfold Covered at h
      simp only [List.cons_append, List.zip_cons_cons, List.mem_cons, forall_eq_or_imp] at h
      obtain ⟨h1, h2⟩ := ih h.2
      refine ⟨?_, by simpa using h2⟩
      unfold Covered
      simp only [List.zip_cons_cons, List.mem_cons, forall_eq_or_imp]
      exact ⟨h.1, h1⟩

theorem fileBytes_cons (m : Message) (ms : List Message) : fileBytes (m :: ms) = messageBytes (checksum m) m ++ fileBytes ms := by
  simp [fileBytes]

/-- Writing messages over old contents that do not show. -/
theorem run_fileWriteLoop_clean (s : Bool) (ms : List Message) : ∀ st : St, (∀ m ∈ ms, MessageOk s m) →
    st.cursor + (fileBytes ms).length ≤ st.data.length → st.data.length ≤ 2147483647 →
    Covered (st.data.drop st.cursor) (fileBytes ms) →
    fileWriteLoop ms st = .ok (ms.map sealed) { st with data := overwrite st (fileBytes ms), cursor := st.cursor + (fileBytes ms).length, live := st.live + ms.length } := by
  induction ms with
  | nil =>
    intro st _ _ _ _
    simp [fileWriteLoop, run_pure, fileBytes, overwrite]
  | cons m ms ih =>
    intro st hok hfit hi hcov
    rw [fileBytes_cons] at hfit hcov ⊢
    obtain ⟨h1, h2⟩ := covered_append hcov
    rw [List.length_append] at hfit
    have hneu : Neutral (headCells m) (st.data.drop st.cursor) := by
      apply neutral_covered
      rw [bytes_headCells]
      unfold messageBytes at h1
      rw [List.append_assoc] at h1
      exact (covered_append h1).1
    have hlen := overwrite_length st (messageBytes (checksum m) m) (by omega)
    have hdrop := overwrite_drop st (messageBytes (checksum m) m) (by omega)
    unfold fileWriteLoop
    rw [run_bind, run_messageWrite_clean s m (hok m (by simp)) st (by omega) hi hneu, Res.andThen_ok, run_bind,
      ih { st with data := overwrite st (messageBytes (checksum m) m), cursor := st.cursor + (messageBytes (checksum m) m).length, live := st.live + 1 }
        (fun x hx => hok x (by simp [hx])) (by simp only [hlen]; omega) (by simp only [hlen]; exact hi)
        (by simp only [hdrop]; rw [← List.drop_drop]; exact h2), Res.andThen_ok, run_pure]
    rw [overwrite_overwrite _ _ _ _ (by omega)]
    simp [Nat.add_comm, Nat.add_left_comm]

/-- Writing messages over any contents: what is touched, and when it overflows. -/
theorem run_fileWriteLoop (s : Bool) (ms : List Message) : ∀ st : St, (∀ m ∈ ms, MessageOk s m) →
    st.cursor ≤ st.data.length → st.data.length ≤ 2147483647 →
    (st.cursor + (fileBytes ms).length ≤ st.data.length → ∃ ms' bs, bs.length = (fileBytes ms).length ∧
      (ms'.map withoutCrc = ms.map withoutCrc ∧ ∀ m ∈ ms', m.crc.isSome) ∧
      fileWriteLoop ms st = .ok ms' { st with data := overwrite st bs, cursor := st.cursor + (fileBytes ms).length, live := st.live + ms.length }) ∧
    (¬ st.cursor + (fileBytes ms).length ≤ st.data.length → fileWriteLoop ms st = .ub .oobWrite) := by
  induction ms with
  | nil =>
    intro st _ hc _
    refine ⟨fun _ => ⟨[], [], rfl, by simp, ?_⟩, fun h => absurd hc (by simpa [fileBytes] using h)⟩
    simp [fileWriteLoop, run_pure, fileBytes, overwrite]
  | cons m ms ih =>
    intro st hok hc hi
    rw [fileBytes_cons]
    unfold fileWriteLoop
    have hml := messageBytes_length (checksum m) m
    rw [run_bind, run_messageWrite s m (hok m (by simp)) st hc hi]
    by_cases hfit : st.cursor + ((messageHead m).length + 4) ≤ st.data.length
    · rw [if_pos hfit, Res.andThen_ok]
      obtain ⟨bs, hbl, hbs⟩ := place_overwrite (messageCells (writtenCrc m st) m) { st with live := st.live + 1 } (by simp only [messageCells_length]; omega)
      rw [messageCells_length] at hbl
      have hst : place (messageCells (writtenCrc m st) m) { st with live := st.live + 1 } =
          { st with data := overwrite st bs, cursor := st.cursor + bs.length, live := st.live + 1 } := by
        have : ∀ s1 s2 : St, s1.data = s2.data → s1.cursor = s2.cursor → s1.error = s2.error → s1.live = s2.live → s1.sovf = s2.sovf → s1.confused = s2.confused → s1 = s2 := by
          rintro ⟨⟩ ⟨⟩ h1 h2 h3 h4 h5 h6
          simp_all
        refine this _ _ ?_ ?_ rfl rfl rfl rfl
        · rw [hbs]; rfl
        · simp [place, messageCells_length, hbl]
      rw [hst, run_bind]
      have hlen := overwrite_length st bs (by omega)
      obtain ⟨i1, i2⟩ := ih { st with data := overwrite st bs, cursor := st.cursor + bs.length, live := st.live + 1 }
        (fun x hx => hok x (by simp [hx])) (by simp only [hlen]; omega) (by simp only [hlen]; exact hi)
      simp only [hlen] at i1 i2
      rw [List.length_append]
      refine ⟨fun h => ?_, fun h => ?_⟩
      · obtain ⟨ms', bs', hl', hms, hr⟩ := i1 (by omega)
        refine ⟨{ m with crc := some { size := 2, val := writtenCrc m st } } :: ms', bs ++ bs', by simp; omega, ?_, ?_⟩
        · refine ⟨by simp [hms.1, withoutCrc], ?_⟩
          intro x hx
          rcases List.mem_cons.1 hx with rfl | hx
          · rfl
          · exact hms.2 x hx
        rw [hr, Res.andThen_ok, run_pure]
        rw [overwrite_overwrite _ _ _ _ (by omega)]
        have e1 : st.cursor + bs.length + (fileBytes ms).length = st.cursor + ((messageBytes (checksum m) m).length + (fileBytes ms).length) := by omega
        have e2 : st.live + 1 + ms.length = st.live + (m :: ms).length := by simp; omega
        rw [e1, e2]
      · rw [i2 (by omega)]
        rfl
    · rw [if_neg hfit, List.length_append]
      exact ⟨fun h => absurd h (by omega), fun _ => rfl⟩

/-! ## Reading a message -/

theorem run_messageField {p : M α} {set : α → Message} {k : Message → M (Option Message)} {v : α} {bs rest : List UInt8} {n : Nat}
    (hp : Reads p v bs n) {st : St} (hd : st.data.drop st.cursor = bs ++ rest) (hr : rest ≠ []) (he : st.error = false) :
    messageField p set k st = k (set v) { st with cursor := st.cursor + bs.length, live := st.live + n } := by
  unfold messageField
  rw [run_bind, hp st rest hd hr he]
  run
  rw [if_neg (by simp [he])]

/-- A message on the wire, with either kind of checksum, is read back. -/
theorem run_messageParse {depth : Nat} (m : Message) (h : MessageOk true m) (h0 : 0 < depth) (hdep : messageDepth m ≤ depth) (c : Nat)
    (hc : c = (crc16 (messageHead m)).toNat ∨ c = (crc16kermit (messageHead m)).toNat) (st : St) (rest : List UInt8)
    (hd : st.data.drop st.cursor = messageBytes c m ++ rest) (he : st.error = false) (hi : st.data.length ≤ 2147483647) :
    messageParse depth st = .ok (some { m with crc := some { size := 2, val := c } })
      { st with cursor := st.cursor + (messageBytes c m).length, live := st.live + ({ m with crc := some { size := 2, val := c } } : Message).blocks } := by
  obtain ⟨h1, h2, h3, b, hb, h4⟩ := h
  have hdep' : bodyDepth b.data ≤ depth := by simpa [messageDepth, hb] using hdep
  have hc16 : c < 256 ^ 2 := by rcases hc with rfl | rfl <;> exact (BitVec.isLt _)
  have hlen : st.data.length = st.cursor + (messageHead m).length + 4 + rest.length := by
    have := congrArg List.length hd
    simp [messageBytes_length] at this
    omega
  have hd0 : st.data.drop st.cursor = encHeader 7 6 ++ (enc (opt strTerm m.transactionId) ++ (enc (opt (uintTerm 1) m.groupId) ++
      (enc (opt (uintTerm 1) m.abortOnError) ++ (enc (messageBodyTerm b) ++ (enc (.uint (bigEndian 2 c)) ++ ([0x00] ++ rest)))))) := by
    rw [hd]
    simp [messageBytes, messageHead, messageFields, encAll, hb, opt]
  have hne : (enc (.uint (bigEndian 2 c)) ++ ([0x00] ++ rest)) ≠ [] := by simp
  unfold messageParse cursorAsInt
  run
  rw [if_neg (by omega)]
  run
  rw [reads_type (st := { st with live := st.live + 1 }) (encHeader_ne _ _) (encHeader_type (by decide)) hd0]
  run
  rw [if_neg (by simp), reads_length (st := { st with live := st.live + 1 }) (by decide) (small_len (by decide)) hd0]
  run
  rw [if_neg (by simp)]
  have hd1 := drop_add hd0
  have hd2 := drop_add hd1
  have hd3 := drop_add hd2
  have hd4 := drop_add hd3
  have hd5 := drop_add hd4
  rw [run_messageField (reads_octetString _ h1) (by exact hd1) (by simp) (by exact he)]
  rw [run_messageField (reads_uint (by decide) (by decide) _ h2) (by exact hd2) (by simp) (by exact he)]
  rw [run_messageField (reads_uint (by decide) (by decide) _ h3) (by exact hd3) (by simp) (by exact he)]
  rw [run_messageField (reads_messageBody b h4 h0 hdep') (by exact hd4) (by simp) (by exact he)]
  have hhead : st.cursor + (encHeader 7 6).length + (enc (opt strTerm m.transactionId)).length + (enc (opt (uintTerm 1) m.groupId)).length +
      (enc (opt (uintTerm 1) m.abortOnError)).length + (enc (messageBodyTerm b)).length = st.cursor + (messageHead m).length := by
    simp [messageHead, messageFields, encAll, hb, opt, Nat.add_assoc]
  rw [hhead] at hd5
  simp only [hhead]
  unfold messageParseTail
  run
  rw [if_neg (by omega), if_neg (by omega)]
  have hu : Reads u16Parse _ _ _ := reads_uint (size := 2) (by decide) (by decide) (some { size := 2, val := c }) (by
    intro a ha
    cases ha
    exact ⟨Nat.le_refl _, fun _ => ⟨rfl, hc16⟩⟩)
  generalize hn : st.live + 1 + own OctetString.blocks m.transactionId + own Num.blocks m.groupId + own Num.blocks m.abortOnError + b.blocks = n
  rw [hu { st with cursor := st.cursor + (messageHead m).length, live := n } _ hd5 (by simp) he]
  run
  have hslice : (st.data.drop st.cursor).take (messageHead m).length = messageHead m := by
    rw [hd]
    unfold messageBytes
    rw [List.append_assoc, List.append_assoc, List.take_left]
  rw [show st.cursor + (messageHead m).length - st.cursor = (messageHead m).length by omega]
  simp only [he]
  have hul : (enc (opt (uintTerm 2) (some { size := 2, val := c }))).length = 3 := by
    simp [opt, uintTerm, enc, bigEndian_length, encHeader_length]
    decide
  rw [run_bind, run_bufferSlice (by simp only; omega)]
  run
  rw [hslice, if_neg (by omega), if_neg (by omega), run_getCurrentByte (by simp only; omega)]
  run
  have hd6 := drop_add hd5
  obtain ⟨_, hz, _⟩ := drop_cons_get (show st.data.drop (st.cursor + (messageHead m).length + (enc (opt (uintTerm 2) (some { size := 2, val := c }))).length) = 0x00 :: rest from hd6)
  simp only [hz, if_true]
  rw [hul, messageBytes_length, ← hb]
  have hbl : n + own Num.blocks (some { size := 2, val := c }) = st.live + ({ m with crc := some { size := 2, val := c } } : Message).blocks := by
    have hbb : own MessageBody.blocks m.messageBody = b.blocks := by rw [hb]; rfl
    have hcb : own Num.blocks (some { size := 2, val := c }) = 1 := rfl
    simp only [Message.blocks, hbb, hcb]
    rw [← hn]
    omega
  rw [hbl]
  simp [Nat.add_assoc]

theorem messageBytes_first (c : Nat) (m : Message) : ∃ bs, messageBytes c m = 0x76 :: bs := by
  unfold messageBytes messageHead
  rw [encHeader_list (by decide)]
  exact ⟨_, rfl⟩

/-- Padding is skipped. -/
theorem run_fileLoop_zeros {depth : Nat} (k : Nat) : ∀ (fuel : Nat) (f : File) (st : St), k < fuel →
    st.data.drop st.cursor = List.replicate k 0x00 → st.cursor ≤ st.data.length →
    fileLoop depth fuel f st = .ok f { st with cursor := st.data.length } := by
  induction k with
  | zero =>
    intro fuel f st hf hd hc
    obtain ⟨fuel, rfl⟩ : ∃ n, fuel = n + 1 := ⟨fuel - 1, by omega⟩
    have : st.data.length ≤ st.cursor := by simpa using hd
    unfold fileLoop
    run
    rw [if_neg (by omega)]
    have e : st.cursor = st.data.length := by omega
    rw [← e]
  | succ k ih =>
    intro fuel f st hf hd hc
    obtain ⟨fuel, rfl⟩ : ∃ n, fuel = n + 1 := ⟨fuel - 1, by omega⟩
    obtain ⟨h1, h2, h3⟩ := drop_cons_get (by rw [hd, List.replicate_succ])
    unfold fileLoop
    run
    rw [if_pos h1, run_getCurrentByte h1]
    run
    rw [h2, if_pos rfl, ih fuel f { st with cursor := st.cursor + 1 } (by omega) h3 (by simp only; omega)]

/-- A file on the wire, each message with either kind of checksum, followed by padding. -/
theorem run_fileLoop {depth : Nat} (k : Nat) (ms : List (Nat × Message)) : ∀ (fuel : Nat) (f : File) (st : St),
    (∀ p ∈ ms, MessageOk true p.2 ∧ messageDepth p.2 ≤ depth ∧
      (p.1 = (crc16 (messageHead p.2)).toNat ∨ p.1 = (crc16kermit (messageHead p.2)).toNat)) → 0 < depth →
    ms.length + k < fuel → f.messages.length + ms.length ≤ 32767 →
    st.data.drop st.cursor = (ms.map fun p => messageBytes p.1 p.2).flatten ++ List.replicate k 0x00 →
    st.cursor ≤ st.data.length → st.error = false → st.data.length ≤ 2147483647 →
    fileLoop depth fuel f st = .ok { messages := f.messages ++ ms.map fun p => { p.2 with crc := some { size := 2, val := p.1 } } }
      { st with cursor := st.data.length, live := st.live + (if f.messages = [] ∧ ms ≠ [] then 1 else 0) + (ms.map fun p => ({ p.2 with crc := some { size := 2, val := p.1 } } : Message).blocks).sum } := by
  induction ms with
  | nil =>
    intro fuel f st _ _ hf _ hd hc _ _
    rw [run_fileLoop_zeros k fuel f st (by simpa using hf) (by simpa using hd) hc]
    simp
  | cons p ms ih =>
    intro fuel f st hok h0 hf hcnt hd hc he hi
    obtain ⟨fuel, rfl⟩ : ∃ n, fuel = n + 1 := ⟨fuel - 1, by simp at hf; omega⟩
    obtain ⟨c, m⟩ := p
    obtain ⟨hm, hdep, hcrc⟩ := hok (c, m) (by simp)
    simp only at hm hdep hcrc
    obtain ⟨bs, hbs⟩ := messageBytes_first c m
    have hd' : st.data.drop st.cursor = messageBytes c m ++ ((ms.map fun p => messageBytes p.1 p.2).flatten ++ List.replicate k 0x00) := by
      rw [hd]; simp
    obtain ⟨h1, h2, _⟩ := drop_cons_get (by rw [hd', hbs]; rfl)
    have hlen : st.cursor + (messageBytes c m).length ≤ st.data.length := by
      have := congrArg List.length hd'
      simp at this
      omega
    simp only [List.length_cons] at hcnt hf
    unfold fileLoop
    run
    rw [if_pos h1, run_getCurrentByte h1]
    run
    rw [h2, if_neg (by decide), run_messageParse m hm h0 hdep c hcrc st _ hd' he hi]
    run
    rw [if_neg (by simp [he])]
    unfold fileAddMessage
    rw [run_ite, if_neg (by omega)]
    have hnext := fun lv => ih fuel { messages := f.messages ++ [{ m with crc := some { size := 2, val := c } }] }
      { st with cursor := st.cursor + (messageBytes c m).length, live := lv } (fun p hp => hok p (by simp [hp])) h0 (by omega)
      (by simp; omega) (drop_add hd') hlen he hi
    simp only [List.append_eq_nil_iff, List.cons_ne_self, and_false, false_and, if_false] at hnext
    cases hfm : f.messages with
    | nil =>
      rw [hfm] at hnext
      simp only [List.isEmpty_nil, if_true]
      run
      rw [hnext]
      simp [Nat.add_assoc, Nat.add_comm, Nat.add_left_comm]
    | cons x xs =>
      rw [hfm] at hnext
      simp only [List.isEmpty_cons, Bool.false_eq_true, if_false]
      run
      rw [hnext]
      simp [Nat.add_assoc]

/-! ## Round trips -/

theorem emits_covered {w : M Unit} {t : Term} (hw : Emits w (cells t)) (st : St) (hfit : st.cursor + (enc t).length ≤ st.data.length)
    (hcov : Covered (st.data.drop st.cursor) (enc t)) :
    w st = .ok () { st with data := overwrite st (enc t), cursor := st.cursor + (enc t).length } := by
  have hl : (cells t).length = (enc t).length := by rw [← bytes_cells, bytes_length]
  rw [hw st (by omega), if_pos (by omega)]
  have hp := place_neutral (cells t) st (by omega) (neutral_covered _ _ (by rw [bytes_cells]; exact hcov))
  rw [bytes_cells] at hp
  unfold place at hp ⊢
  simp only at hp
  rw [hp, hl]

theorem roundTrips {w : M Unit} {p : M α} {v : α} {t : Term} {n : Nat} (hw : Emits w (cells t)) (hr : Reads p v (enc t) n) :
    RoundTrips w p v (enc t) n := by
  intro st he hfit hcov
  refine ⟨_, emits_covered hw st (by omega) hcov, rfl, ?_⟩
  have hd : (overwrite st (enc t)).drop st.cursor = enc t ++ st.data.drop (st.cursor + (enc t).length) := by
    unfold overwrite
    rw [List.append_assoc, List.drop_append_of_le_length (by simp; omega)]
    simp
  exact hr { st with data := overwrite st (enc t) } _ hd (by simp; omega) he

theorem zeros_covered (old new : List UInt8) (h : ∀ b ∈ old.take new.length, b = 0) : Covered old new := by
  induction new generalizing old with
  | nil => simp [Covered]
  | cons x new ih =>
    cases old with
    | nil => simp [Covered]
    | cons o old =>
      simp only [List.length_cons, List.take_succ_cons, List.mem_cons, forall_eq_or_imp] at h
      unfold Covered
      simp only [List.zip_cons_cons, List.mem_cons, forall_eq_or_imp]
      exact ⟨by rw [h.1]; exact UInt8.zero_or, ih old h.2⟩

theorem self_covered (new rest : List UInt8) : Covered (new ++ rest) new := by
  induction new with
  | nil => simp [Covered]
  | cons x new ih =>
    unfold Covered
    simp only [List.cons_append, List.zip_cons_cons, List.mem_cons, forall_eq_or_imp]
    exact ⟨UInt8.or_self, ih⟩

end Sml
