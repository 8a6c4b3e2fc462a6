import Verif.Props.RoundTrip
import Verif.Props.Safety

/-!
# What is written: C30 to C34
-/

namespace Sml

open Spec

/-! ## C30 -/

theorem emits_objectLoop (s : Bool) : (os : List (Option OctetString)) → (∀ o ∈ os, Opt (StrOk s) o) →
    Emits (objectListWriteLoop os) (cellsAll (os.dropLast.map (opt strTerm)))
  | [], _ => emits_pure
  | [_], _ => emits_pure
  | o :: o' :: os, h => by
    unfold objectListWriteLoop
    rw [List.dropLast_cons_of_ne_nil (by simp), List.map_cons]
    exact emits_cons (emits_octetString s _ (h o (by simp))) (emits_objectLoop s (o' :: os) fun x hx => h x (by simp [hx]))

theorem emits_covered_cells {w : M Unit} {cs : List Cell} (hw : Emits w cs) (st : St) (hfit : st.cursor + (bytes cs).length ≤ st.data.length)
    (hcov : Covered (st.data.drop st.cursor) (bytes cs)) :
    w st = .ok () { st with data := overwrite st (bytes cs), cursor := st.cursor + (bytes cs).length } := by
  have hl := bytes_length cs
  rw [hw st (by omega), if_pos (by omega)]
  have hp := place_neutral cs st (by omega) (neutral_covered _ _ hcov)
  unfold place at hp ⊢
  simp only at hp
  rw [hp, hl]

/-- The first seven fields of a profile request. -/
def requestFields (m : GetProfilePackRequest) : List Term :=
  [opt strTerm m.serverId, opt strTerm m.username, opt strTerm m.password, opt boolTerm m.withRawdata, opt timeTerm m.beginTime, opt timeTerm m.endTime, opt pathTerm m.parameterTreePath]

/-- What is written for a request: the header of its object list counts all objects, but the last one is
missing. -/
def requestBytes (m : GetProfilePackRequest) : List UInt8 :=
  encHeader 7 9 ++ encAll (requestFields m) ++ encHeader 7 m.objectList.length ++ encAll (m.objectList.dropLast.map (opt strTerm)) ++ enc (opt treeTerm m.dasDetails)

/-- C30 does not hold of the code, for any list of objects: exactly this is written. -/
theorem c30_last_left_out (s : Bool) (m : GetProfilePackRequest) (hok : GetProfilePackRequestOk s { m with objectList := [] })
    (hne : m.objectList ≠ []) (hlen : m.objectList.length < 16) (hos : ∀ o ∈ m.objectList, Opt (StrOk s) o)
    (st : St) (hfit : st.cursor + (requestBytes m).length ≤ st.data.length) (hcov : Covered (st.data.drop st.cursor) (requestBytes m)) :
    getProfilePackRequestWrite (some m) st = .ok () { st with data := st.data.take st.cursor ++ requestBytes m ++ st.data.drop (st.cursor + (requestBytes m).length), cursor := st.cursor + (requestBytes m).length } := by
  obtain ⟨h1, h2, h3, h4, h5, h6, h7, _, h9⟩ := hok
  have hE : Emits (getProfilePackRequestWrite (some m)) (hdrCells (encHeader 7 9) ++ (cells (opt strTerm m.serverId) ++ (cells (opt strTerm m.username) ++ (cells (opt strTerm m.password) ++
      (cells (opt boolTerm m.withRawdata) ++ (cells (opt timeTerm m.beginTime) ++ (cells (opt timeTerm m.endTime) ++ (cells (opt pathTerm m.parameterTreePath) ++
      ((hdrCells (encHeader 7 m.objectList.length) ++ cellsAll (m.objectList.dropLast.map (opt strTerm))) ++ cells (opt treeTerm m.dasDetails)))))))))) := by
    unfold getProfilePackRequestWrite
    refine emits_bind (emits_list (by decide)) ?_
    refine emits_bind (emits_octetString s _ h1) ?_
    refine emits_bind (emits_octetString s _ h2) ?_
    refine emits_bind (emits_octetString s _ h3) ?_
    refine emits_bind (emits_boolean s _ h4) ?_
    refine emits_bind (emits_time s _ h5) ?_
    refine emits_bind (emits_time s _ h6) ?_
    refine emits_bind (emits_path s _ h7) ?_
    rw [if_pos hne]
    simpa only [m_bind_assoc] using emits_bind (emits_bind (emits_list hlen) (emits_objectLoop s _ hos)) (emits_tree s _ h9)
  have hb : bytes (hdrCells (encHeader 7 9) ++ (cells (opt strTerm m.serverId) ++ (cells (opt strTerm m.username) ++ (cells (opt strTerm m.password) ++
      (cells (opt boolTerm m.withRawdata) ++ (cells (opt timeTerm m.beginTime) ++ (cells (opt timeTerm m.endTime) ++ (cells (opt pathTerm m.parameterTreePath) ++
      ((hdrCells (encHeader 7 m.objectList.length) ++ cellsAll (m.objectList.dropLast.map (opt strTerm))) ++ cells (opt treeTerm m.dasDetails)))))))))) = requestBytes m := by
    simp [requestBytes, requestFields, encAll, bytes_cells, bytes_cellsAll, List.append_assoc]
  have := emits_covered_cells hE st (by rw [hb]; exact hfit) (by rw [hb]; exact hcov)
  rw [hb] at this
  exact this

theorem encAll_append (a b : List Term) : encAll (a ++ b) = encAll a ++ encAll b := by
  induction a with
  | nil => simp [encAll]
  | cons t a ih => simp [encAll, ih]

/-- C30: what is written is never the encoding of the request; it is short by the last object. -/
theorem c30_never_encoded (m : GetProfilePackRequest) (hne : m.objectList ≠ []) :
    (requestBytes m).length + (enc (opt strTerm (m.objectList.getLast hne))).length = (enc (getProfilePackRequestTerm m)).length ∧
      requestBytes m ≠ enc (getProfilePackRequestTerm m) := by
  have hpos : 0 < (enc (opt strTerm (m.objectList.getLast hne))).length := by
    cases m.objectList.getLast hne with
    | none => simp [opt, enc]
    | some o => simp [opt, strTerm, enc, encHeader_length]; have := (headerSize_spec 0 o.str.length).1; omega
  have hlen : (requestBytes m).length + (enc (opt strTerm (m.objectList.getLast hne))).length = (enc (getProfilePackRequestTerm m)).length := by
    have hobj : objectsTerm m.objectList = .list (m.objectList.map (opt strTerm)) := by
      unfold objectsTerm
      split
      · next h => exact absurd h hne
      · rfl
    unfold requestBytes getProfilePackRequestTerm requestFields
    conv => rhs; rw [hobj]
    have hsplit : encAll (m.objectList.map (opt strTerm)) = encAll (m.objectList.dropLast.map (opt strTerm)) ++ enc (opt strTerm (m.objectList.getLast hne)) := by
      conv => lhs; rw [← List.dropLast_concat_getLast hne]
      rw [List.map_append, encAll_append]
      simp [encAll]
    simp only [enc, encAll, List.length_append, List.length_cons, List.length_nil, List.length_map, hsplit, Nat.zero_add, Nat.reduceAdd]
    omega
  refine ⟨hlen, fun h => ?_⟩
  rw [h] at hlen
  omega

/-- The hypotheses can be met; of two objects one is written. -/
example : GetProfilePackRequestOk true {} ∧ requestBytes { objectList := [some ⟨[1]⟩, some ⟨[2]⟩] } = [0x79, 1, 1, 1, 1, 1, 1, 1, 0x72, 0x02, 0x01, 0x01] :=
  ⟨⟨opt_none, opt_none, opt_none, opt_none, opt_none, opt_none, opt_none, rfl, opt_none⟩, by decide +kernel⟩

/-! ## C31 -/

/-- The bytes outside of `[a, b)` are as before. -/
def UnchangedOutside (a b : Nat) (old new : List UInt8) : Prop :=
  new.length = old.length ∧ ∀ i, (i < a ∨ b ≤ i) → new[i]? = old[i]?

theorem unchanged_overwrite (st : St) (bs : List UInt8) (h : st.cursor + bs.length ≤ st.data.length) :
    UnchangedOutside st.cursor (st.cursor + bs.length) st.data (overwrite st bs) := by
  refine ⟨overwrite_length st bs h, ?_⟩
  intro i hi
  unfold overwrite
  rcases hi with hi | hi
  · rw [List.append_assoc, List.getElem?_append_left (by simp; omega), List.getElem?_take, if_pos hi]
  · rw [List.getElem?_append_right (by simp; omega), List.getElem?_drop]
    congr 1
    simp
    omega

/-- C31: a message is written inside of the buffer exactly if its encoding fits; then it takes exactly the
size of the encoding and changes nothing else. -/
theorem c31_message (s : Bool) (m : Message) (h : MessageOk s m) (st : St) (hc : st.cursor ≤ st.data.length) (hi : st.data.length ≤ 2147483647) :
    (st.cursor + (messageBytes (checksum m) m).length ≤ st.data.length → ∃ m' st', messageWrite m st = .ok m' st' ∧
      st'.cursor = st.cursor + (messageBytes (checksum m) m).length ∧ UnchangedOutside st.cursor st'.cursor st.data st'.data) ∧
    (st.data.length < st.cursor + (messageBytes (checksum m) m).length → messageWrite m st = .ub .oobWrite) := by
  rw [messageBytes_length, run_messageWrite s m h st hc hi]
  refine ⟨fun hfit => ?_, fun hno => by rw [if_neg (by omega)]⟩
  rw [if_pos hfit]
  refine ⟨_, _, rfl, by simp [place, messageCells_length], ?_⟩
  obtain ⟨bs, hb, he⟩ := place_overwrite (messageCells (writtenCrc m st) m) { st with live := st.live + 1 } (by simp only [messageCells_length]; exact hfit)
  rw [he]
  have hcur : (place (messageCells (writtenCrc m st) m) { st with live := st.live + 1 }).cursor = st.cursor + bs.length := by
    rw [hb]; rfl
  rw [hcur]
  exact unchanged_overwrite st bs (by rw [hb, messageCells_length]; exact hfit)

/-- C31: the same for files. -/
theorem c31_file (s : Bool) (f : File) (h : ∀ m ∈ f.messages, MessageOk s m) (st : St) (hc : st.cursor ≤ st.data.length) (hi : st.data.length ≤ 2147483647) :
    (st.cursor + (fileBytes f.messages).length ≤ st.data.length → ∃ f' st', fileWrite f st = .ok f' st' ∧
      st'.cursor = st.cursor + (fileBytes f.messages).length ∧ UnchangedOutside st.cursor st'.cursor st.data st'.data) ∧
    (st.data.length < st.cursor + (fileBytes f.messages).length → fileWrite f st = .ub .oobWrite) := by
  obtain ⟨h1, h2⟩ := run_fileWriteLoop s f.messages st h hc hi
  unfold fileWrite
  refine ⟨fun hfit => ?_, fun hno => ?_⟩
  · obtain ⟨ms', bs, hb, _, he⟩ := h1 hfit
    rw [run_bind, he, Res.andThen_ok]
    refine ⟨_, _, rfl, rfl, ?_⟩
    simp only
    rw [← hb]
    exact unchanged_overwrite st bs (by rw [hb]; exact hfit)
  · rw [run_bind, h2 (by omega)]
    rfl

/-- C31: the buffer of a fresh file has 512 bytes. -/
theorem c31_fresh (s : Bool) (f : File) (h : ∀ m ∈ f.messages, MessageOk s m) :
    fileWrite f fileInit.2 = .ub .oobWrite ↔ 512 < (fileBytes f.messages).length := by
  have hl : fileInit.2.data.length = 512 := List.length_replicate
  have hcur : fileInit.2.cursor = 0 := rfl
  obtain ⟨h1, h2⟩ := c31_file s f h fileInit.2 (Nat.zero_le _) (by rw [hl]; decide)
  rw [hl, hcur] at h1 h2
  constructor
  · intro hub
    refine Nat.lt_of_not_le fun hle => ?_
    obtain ⟨f', st', he, _⟩ := h1 (by omega)
    rw [hub] at he
    cases he
  · intro hlt
    exact h2 (by omega)

/-- Seven list responses are too much for a fresh file, six fit. -/
example : MessageOk true sampleMessage ∧ (fileBytes (List.replicate 7 sampleMessage)).length = 560 ∧ (fileBytes (List.replicate 6 sampleMessage)).length = 480 :=
  ⟨sampleMessage_ok true, by decide +kernel, by decide +kernel⟩

/-! ## C33 -/

/-- C33: what is written for a message is its encoding by the rules of the standard, over zeroed memory, or
any memory that has no bit more than the encoding. -/
theorem c33_message (m : Message) (h : MessageOk false m) (st : St) (hfit : st.cursor + (messageBytes (checksum m) m).length ≤ st.data.length)
    (hi : st.data.length ≤ 2147483647) (hcov : Covered (st.data.drop st.cursor) (messageBytes (checksum m) m)) :
    ∃ st', messageWrite m st = .ok (sealed m) st' ∧ st'.data = st.data.take st.cursor ++ messageBytes (checksum m) m ++ st.data.drop (st.cursor + (messageBytes (checksum m) m).length) := by
  refine ⟨_, run_messageWrite_clean false m h st hfit hi (neutral_covered _ _ ?_), rfl⟩
  rw [bytes_headCells]
  unfold messageBytes at hcov
  rw [List.append_assoc] at hcov
  exact (covered_append hcov).1

/-- C33: files. -/
theorem c33_file (f : File) (h : ∀ m ∈ f.messages, MessageOk false m) (st : St) (hfit : st.cursor + (fileBytes f.messages).length ≤ st.data.length)
    (hi : st.data.length ≤ 2147483647) (hcov : Covered (st.data.drop st.cursor) (fileBytes f.messages)) :
    ∃ st', fileWrite f st = .ok { messages := f.messages.map sealed } st' ∧
      st'.data = st.data.take st.cursor ++ fileBytes f.messages ++ st.data.drop (st.cursor + (fileBytes f.messages).length) := by
  refine ⟨{ st with data := overwrite st (fileBytes f.messages), cursor := st.cursor + (fileBytes f.messages).length, live := st.live + f.messages.length }, ?_, rfl⟩
  unfold fileWrite
  rw [run_bind, run_fileWriteLoop_clean false f.messages st h hfit hi hcov, Res.andThen_ok, run_pure]

example : MessageOk false sampleMessage ∧
    (messageHead sampleMessage).take 22 = [0x76, 0x03, 0x01, 0x02, 0x62, 0x00, 0x62, 0x00, 0x72, 0x65, 0x00, 0x00, 0x07, 0x01, 0x77, 0x01, 0x03, 0x0A, 0x01, 0x01, 0x01, 0x72] ∧
    (messageHead sampleMessage).drop 69 = [0x04, 0x45, 0x4D, 0x48, 1, 1, 1] :=
  ⟨sampleMessage_ok false, by decide +kernel, by decide +kernel⟩

/-! ## C32 -/

/-- What writing a message leaves between the old and the new cursor. -/
def written (m : Message) (st : St) : Option (List UInt8) :=
  match messageWrite m st with
  | .ok _ s => some ((s.data.drop st.cursor).take (s.cursor - st.cursor))
  | .ub _ => none

theorem written_eq (s : Bool) (m : Message) (h : MessageOk s m) (st : St) (hfit : st.cursor + (messageBytes (checksum m) m).length ≤ st.data.length)
    (hi : st.data.length ≤ 2147483647) :
    written m st = some ((paint (messageCells (writtenCrc m st) m) (st.data.drop st.cursor)).take (messageCells (writtenCrc m st) m).length) := by
  rw [messageBytes_length] at hfit
  unfold written
  rw [run_messageWrite s m h st (by omega) hi, if_pos hfit]
  simp only [place]
  rw [List.drop_append_of_le_length (by simp; omega), List.drop_of_length_le (by simp; omega)]
  simp

/-- C32: the output is determined, whatever the memory held, exactly if no string has more than 14 bytes
(`OneByteHeaders`; in representable messages no number or list has a header of more than one byte). -/
theorem c32_exact (s : Bool) (m : Message) (h : MessageOk s m) (hsize : (messageBytes (checksum m) m).length ≤ 2147483647) :
    (∀ st₁ st₂ : St, st₁.cursor + (messageBytes (checksum m) m).length ≤ st₁.data.length → st₁.data.length ≤ 2147483647 →
        st₂.cursor + (messageBytes (checksum m) m).length ≤ st₂.data.length → st₂.data.length ≤ 2147483647 → written m st₁ = written m st₂) ↔
      AllOneByteHeaders (messageFields m) := by
  have hml := messageBytes_length (checksum m) m
  constructor
  · intro hall
    rw [← noKeep_head]
    refine Classical.byContradiction fun hk => ?_
    have hd := paint_differs (headCells m) ((messageHead m).length + 4) (by rw [headCells_length]; omega) (someZero_head m) hk
    have hw := hall { data := List.replicate ((messageHead m).length + 4) 0x00 } { data := List.replicate ((messageHead m).length + 4) 0xFF }
      (by simp [hml]) (by simp; omega) (by simp [hml]) (by simp; omega)
    rw [written_eq s m h _ (by simp [hml]) (by simp; omega), written_eq s m h _ (by simp [hml]) (by simp; omega)] at hw
    have hw := congrArg (List.take (headCells m).length) (Option.some.inj hw)
    have hle : ∀ c, (headCells m).length ≤ (messageCells c m).length := by intro c; rw [headCells_length, messageCells_length]; omega
    simp only [List.take_take, Nat.min_eq_left (hle _), List.drop_zero] at hw
    have hp : ∀ c b, (paint (messageCells c m) (List.replicate ((messageHead m).length + 4) b)).take (headCells m).length =
        (paint (headCells m) (List.replicate ((messageHead m).length + 4) b)).take (headCells m).length := by
      intro c b
      unfold messageCells
      rw [paint_append _ _ _ (by simp [headCells_length]), List.take_append_of_le_length (by simp [paint_length, headCells_length]), List.take_take, Nat.min_self]
    rw [hp, hp] at hw
    exact hd hw
  · intro hone st₁ st₂ h1 h1' h2 h2'
    rw [← noKeep_head] at hone
    have hone' : ∀ st : St, st.cursor + (messageBytes (checksum m) m).length ≤ st.data.length → st.data.length ≤ 2147483647 →
        written m st = some (messageBytes (checksum m) m) := by
      intro st hf hs
      unfold written
      rw [run_messageWrite_clean s m h st hf hs (neutral_noKeep _ _ hone)]
      simp only [overwrite, Nat.add_sub_cancel_left, Option.some.injEq]
      rw [List.append_assoc, List.drop_append_of_le_length (by simp; omega), List.drop_of_length_le (by simp; omega)]
      simp
    rw [hone' st₁ h1 h1', hone' st₂ h2 h2']

/-- Both sides occur. -/
example : AllOneByteHeaders (messageFields sampleMessage) := by
  simp [messageFields, AllOneByteHeaders, OneByteHeaders, opt, sampleMessage, strTerm, uintTerm, messageBodyTerm, bodyDataTerm, getListResponseTerm, listTerm,
    listEntryTerm, sampleEntry, sampleEntry2, valueTerm, statusTerm, timeTerm, intTerm, bigEndian]

/-- C32 does not hold of the code: a transaction number of 15 bytes is spoilt by old contents. -/
theorem c32_false : ∃ m, MessageOk true m ∧ ¬ AllOneByteHeaders (messageFields m) ∧
    written m { data := List.replicate 100 0xFF } ≠ written m { data := List.replicate 100 0x00 } := by
  refine ⟨{ sampleMessage with transactionId := some ⟨List.replicate 15 0x41⟩ }, ?_, ?_, by decide +kernel⟩
  · obtain ⟨_, h⟩ := sampleMessage_ok true
    refine ⟨opt_some ⟨by simp, ?_, by decide⟩, h⟩
    rintro k ⟨hk1, hk2⟩
    match k, hk1, hk2 with
    | 0, h, _ => simp at h
    | 1, h, _ => simp at h
    | k + 2, _, h =>
      have : k < 16 ^ k := Nat.lt_pow_self (by decide)
      simp only [List.length_replicate, Nat.pow_succ] at h
      omega
  · rintro ⟨h, _⟩
    simp [opt, strTerm, OneByteHeaders] at h

/-- C32: zeroed memory gives the encoding; and so does writing the file again over its own output. -/
theorem c32_zeroed_and_again (s : Bool) (f : File) (h : ∀ m ∈ f.messages, MessageOk s m) (st : St) (hst : st.cursor = 0)
    (hfit : (fileBytes f.messages).length ≤ st.data.length) (hi : st.data.length ≤ 2147483647) (hz : ∀ b ∈ st.data, b = 0) :
    ∃ st₁ st₂ f', fileWrite f st = .ok f' st₁ ∧ fileWrite f' { st₁ with cursor := 0 } = .ok f' st₂ ∧ st₂.data = st₁.data ∧ st₂.cursor = st₁.cursor ∧
      st₁.data.take st₁.cursor = fileBytes f.messages := by
  have hsl : ∀ ms : List Message, fileBytes (ms.map sealed) = fileBytes ms := by
    intro ms
    unfold fileBytes
    rw [List.map_map]
    rfl
  have hss : ∀ ms : List Message, (ms.map sealed).map sealed = ms.map sealed := by
    intro ms
    rw [List.map_map]
    rfl
  have hok' : ∀ m ∈ f.messages.map sealed, MessageOk s m := by
    intro m hm
    obtain ⟨x, hx, rfl⟩ := List.mem_map.1 hm
    exact h x hx
  have hov := overwrite_take st (fileBytes f.messages) (by omega)
  have hovl := overwrite_length st (fileBytes f.messages) (by omega)
  rw [hst] at hov
  simp only [Nat.zero_add, List.take_zero, List.nil_append] at hov
  refine ⟨{ st with data := overwrite st (fileBytes f.messages), cursor := (fileBytes f.messages).length, live := st.live + f.messages.length },
    { st with data := overwrite st (fileBytes f.messages), cursor := (fileBytes f.messages).length, live := st.live + f.messages.length + f.messages.length },
    { messages := f.messages.map sealed }, ?_, ?_, rfl, rfl, hov⟩
  · unfold fileWrite
    rw [run_bind, run_fileWriteLoop_clean s f.messages st h (by omega) hi (by
      rw [hst]
      exact zeros_covered _ _ fun b hb => hz b (List.mem_of_mem_drop (List.mem_of_mem_take hb))), Res.andThen_ok, run_pure, hst]
    simp
  · unfold fileWrite
    have hsplit : overwrite st (fileBytes f.messages) = fileBytes f.messages ++ (overwrite st (fileBytes f.messages)).drop (fileBytes f.messages).length := by
      conv => lhs; rw [← List.take_append_drop (fileBytes f.messages).length (overwrite st (fileBytes f.messages))]
      rw [hov]
    simp only
    rw [run_bind, run_fileWriteLoop_clean s (f.messages.map sealed) { st with data := overwrite st (fileBytes f.messages), cursor := 0, live := st.live + f.messages.length } hok'
      (by simp only [hsl, hovl]; omega) (by simp only [hovl]; exact hi)
      (by
        rw [hsl, List.drop_zero]
        show Covered (overwrite st (fileBytes f.messages)) _
        rw [hsplit]
        exact self_covered _ _), Res.andThen_ok, run_pure, hsl, hss]
    simp only [Nat.zero_add, List.length_map]
    congr 2
    show (overwrite st (fileBytes f.messages)).take 0 ++ fileBytes f.messages ++ (overwrite st (fileBytes f.messages)).drop (0 + (fileBytes f.messages).length) = _
    rw [List.take_zero, List.nil_append, Nat.zero_add, ← hsplit]

example : ∃ st₁ st₂ f', fileWrite { messages := [sampleMessage, sampleMessage] } { data := List.replicate 200 0 } = .ok f' st₁ ∧
    fileWrite f' { st₁ with cursor := 0 } = .ok f' st₂ ∧ st₂.data = st₁.data ∧ st₂.cursor = st₁.cursor ∧
    st₁.data.take st₁.cursor = fileBytes [sampleMessage, sampleMessage] :=
  c32_zeroed_and_again true { messages := [sampleMessage, sampleMessage] } (fun m hm => by
    have : m = sampleMessage := by simpa using hm
    rw [this]; exact sampleMessage_ok true) { data := List.replicate 200 0 } rfl (by decide +kernel) (by decide +kernel) (fun b hb => (List.mem_replicate.1 hb).2)

/-! ## C34 -/

/-- C34: writing a message makes one block, the checksum. -/
theorem c34_message (s : Bool) (m : Message) (h : MessageOk s m) (st : St) (hfit : st.cursor + (messageBytes (checksum m) m).length ≤ st.data.length)
    (hi : st.data.length ≤ 2147483647) :
    ∃ m' st', messageWrite m st = .ok m' st' ∧ st'.live = st.live + 1 ∧ withoutCrc m' = withoutCrc m ∧
      m'.blocks = m.blocks + (if m.crc.isSome then 0 else 1) := by
  rw [messageBytes_length] at hfit
  rw [run_messageWrite s m h st (by omega) hi, if_pos hfit]
  refine ⟨_, _, rfl, rfl, rfl, ?_⟩
  unfold Message.blocks
  cases m.crc <;> simp [own, Num.blocks]

theorem withoutCrc_blocks (m : Message) : m.blocks = (withoutCrc m).blocks + (if m.crc.isSome then 1 else 0) := by
  unfold Message.blocks withoutCrc
  cases m.crc <;> simp [own, Num.blocks]

/-- The messages without a checksum. -/
def unsealed (ms : List Message) : Nat := (ms.filter fun m => m.crc.isNone).length

theorem blocks_resealed : ∀ ms ms' : List Message, ms'.map withoutCrc = ms.map withoutCrc → (∀ m ∈ ms', m.crc.isSome) →
    (ms'.map Message.blocks).sum = (ms.map Message.blocks).sum + unsealed ms
  | [], [], _, _ => rfl
  | [], _ :: _, h, _ => by simp at h
  | _ :: _, [], h, _ => by simp at h
  | m :: ms, m' :: ms', h, hs => by
    simp only [List.map_cons, List.cons.injEq] at h
    have ih := blocks_resealed ms ms' h.2 fun x hx => hs x (by simp [hx])
    have h1 := withoutCrc_blocks m
    have h2 := withoutCrc_blocks m'
    rw [if_pos (hs m' (by simp)), h.1] at h2
    unfold unsealed at ih ⊢
    simp only [List.map_cons, List.sum_cons, List.filter_cons]
    cases hc : m.crc with
    | none => simp [hc] at h1 ⊢; omega
    | some c => simp [hc] at h1 ⊢; omega

theorem unsealed_zero {ms : List Message} (h : ∀ m ∈ ms, m.crc.isSome) : unsealed ms = 0 := by
  unfold unsealed
  rw [List.length_eq_zero_iff, List.filter_eq_nil_iff]
  intro m hm
  have := h m hm
  cases hc : m.crc <;> simp [hc] at this ⊢

theorem messageOk_withoutCrc {s : Bool} {m m' : Message} (h : withoutCrc m' = withoutCrc m) : MessageOk s m → MessageOk s m' := by
  have e1 : m'.transactionId = m.transactionId := by rw [← show (withoutCrc m').transactionId = m'.transactionId from rfl, h]; rfl
  have e2 : m'.groupId = m.groupId := by rw [← show (withoutCrc m').groupId = m'.groupId from rfl, h]; rfl
  have e3 : m'.abortOnError = m.abortOnError := by rw [← show (withoutCrc m').abortOnError = m'.abortOnError from rfl, h]; rfl
  have e4 : m'.messageBody = m.messageBody := by rw [← show (withoutCrc m').messageBody = m'.messageBody from rfl, h]; rfl
  unfold MessageOk
  rw [e1, e2, e3, e4]
  exact id

theorem messageBytes_withoutCrc {m m' : Message} (h : withoutCrc m' = withoutCrc m) : messageBytes (checksum m') m' = messageBytes (checksum m) m := by
  have e : messageFields m' = messageFields m := by
    show messageFields (withoutCrc m') = messageFields (withoutCrc m)
    rw [h]
  unfold messageBytes checksum messageHead
  rw [e]

theorem fileBytes_withoutCrc : ∀ ms ms' : List Message, ms'.map withoutCrc = ms.map withoutCrc → fileBytes ms' = fileBytes ms
  | [], [], _ => rfl
  | [], _ :: _, h => by simp at h
  | _ :: _, [], h => by simp at h
  | m :: ms, m' :: ms', h => by
    simp only [List.map_cons, List.cons.injEq] at h
    rw [fileBytes_cons, fileBytes_cons, messageBytes_withoutCrc h.1, fileBytes_withoutCrc ms ms' h.2]

theorem messagesOk_withoutCrc {s : Bool} : ∀ ms ms' : List Message, ms'.map withoutCrc = ms.map withoutCrc → (∀ m ∈ ms, MessageOk s m) → ∀ m ∈ ms', MessageOk s m
  | [], [], _, _ => by simp
  | [], _ :: _, h, _ => by simp at h
  | _ :: _, [], h, _ => by simp at h
  | m :: ms, m' :: ms', h, hok => by
    simp only [List.map_cons, List.cons.injEq] at h
    intro x hx
    rcases List.mem_cons.1 hx with rfl | hx
    · exact messageOk_withoutCrc h.1 (hok m (by simp))
    · exact messagesOk_withoutCrc ms ms' h.2 (fun y hy => hok y (by simp [hy])) x hx

/-- C34: writing a file `k` times makes `k` blocks for every message. The file owns at most one of them for
every message, so the others are lost: after `k` rewrites of a file all of whose messages have a checksum,
`k` blocks for every message. -/
theorem c34_rewrites (s : Bool) (k : Nat) : ∀ (f : File) (st : St), (∀ m ∈ f.messages, MessageOk s m) → st.cursor = 0 →
    (fileBytes f.messages).length ≤ st.data.length → st.data.length ≤ 2147483647 →
    ∃ f' st', rewrites k f st = .ok f' st' ∧ st'.live = st.live + k * f.messages.length ∧
      f'.blocks = f.blocks + (if k = 0 then 0 else unsealed f.messages) := by
  induction k with
  | zero =>
    intro f st _ _ _ _
    exact ⟨f, st, rfl, by simp, by simp⟩
  | succ k ih =>
    intro f st hok hst hfit hi
    obtain ⟨ms', bs, hb, ⟨hw, hs⟩, he⟩ := (run_fileWriteLoop s f.messages st hok (by omega) hi).1 (by omega)
    have hlen : ms'.length = f.messages.length := by simpa using congrArg List.length hw
    obtain ⟨f', st', h1, h2, h3⟩ := ih { messages := ms' } { st with data := overwrite st bs, cursor := 0, live := st.live + f.messages.length }
      (messagesOk_withoutCrc _ _ hw hok) rfl
      (by simp only [fileBytes_withoutCrc _ _ hw, overwrite_length st bs (by omega)]; exact hfit)
      (by simp only [overwrite_length st bs (by omega)]; exact hi)
    refine ⟨f', st', ?_, ?_, ?_⟩
    · unfold rewrites fileWrite
      rw [run_bind, run_bind, he, Res.andThen_ok, run_pure, Res.andThen_ok]
      exact h1
    · rw [h2]
      simp only [hlen, Nat.succ_mul]
      omega
    · have hbl : ({ messages := ms' } : File).blocks = f.blocks + unsealed f.messages := by
        have := blocks_resealed f.messages ms' hw hs
        unfold File.blocks
        simp only [this]
        cases hm : f.messages with
        | nil => rw [hm] at hlen; cases ms' with
          | nil => simp
          | cons => simp at hlen
        | cons => rw [hm] at hlen; cases ms' with
          | nil => simp at hlen
          | cons => simp; omega
      rw [h3, hbl]
      simp only [unsealed_zero hs]
      split <;> simp

/-- C34: a program that owns exactly a file with checksums, writes it `k` times and then gives it back has
lost `k` blocks for every message. -/
theorem c34_leak (s : Bool) (k : Nat) (f : File) (st : St) (hok : ∀ m ∈ f.messages, MessageOk s m) (hst : st.cursor = 0)
    (hfit : (fileBytes f.messages).length ≤ st.data.length) (hi : st.data.length ≤ 2147483647) (hcrc : ∀ m ∈ f.messages, m.crc.isSome) (hlive : st.live = f.blocks) :
    ∃ f' st', rewrites k f st = .ok f' st' ∧ st'.live = f'.blocks + k * f.messages.length := by
  obtain ⟨f', st', h1, h2, h3⟩ := c34_rewrites s k f st hok hst hfit hi
  refine ⟨f', st', h1, ?_⟩
  rw [h2, h3, hlive, unsealed_zero hcrc]
  split <;> omega

example : MessageOk true { sampleMessage with crc := some ⟨2, 5⟩ } ∧ (fileBytes [{ sampleMessage with crc := some ⟨2, 5⟩ }]).length ≤ 512 :=
  ⟨sampleMessage_ok true, by decide +kernel⟩

end Sml
