import Verif.Proofs.HeapWrite

/-! # Trees, message bodies, messages and files written from the addressed heap -/

namespace Sml

theorem treeWriteList_seq : ∀ ts, treeWriteList ts = seqM (ts.map treeWrite1)
  | [] => by rw [treeWriteList]; rfl
  | t :: ts => by rw [treeWriteList, List.map_cons, seqM_cons, ← treeWriteList_seq ts]

theorem wr_treeAux : ∀ (fuel : Nat) (t : Tree),
    Wr1 (treeWrite1 t) (pTreeWriteAux fuel) (fun a B => RTree t a B ∧ B.length ≤ fuel)
  | 0, .mk n v cs => by
    rintro S a B ⟨hr, hl⟩ hB
    rw [RTree_eq] at hr
    obtain ⟨ps, B', hF, rfl⟩ := hr
    simp at hl
  | fuel + 1, .mk n v cs => by
    rintro S a B ⟨hr, hl⟩ hB
    rw [RTree_eq] at hr
    obtain ⟨ps, B', ⟨p0, _, B0, _, rfl, h0, ⟨p1, _, B1, B2, rfl, h1, hF2, rfl⟩, rfl⟩, rfl⟩ := hr
    obtain ⟨arr, rfl, harr⟩ := hF2.one
    refine Use.ne0 hB.head fun hne => ?_
    rw [pTreeWriteAux, if_neg hne, treeWrite1.eq_def]
    refine (dry_setTypeAndLength _ _).use.bind fun _ => ?_
    refine Use.ptr hB.head rfl ((wr_octetString n S p0 B0 h0 hB.tail.left).bind fun _ => ?_)
    refine Use.ptr hB.head rfl ((wr_ppv v S p1 B1 h1 hB.tail.right.left).bind fun _ => ?_)
    refine Use.ptr hB.head rfl (Use.int hB.head rfl ?_)
    have hB2 := hB.tail.right.right
    cases cs with
    | nil =>
      rw [if_neg (by simp)]
      exact dry_optionalWrite.use
    | cons c cs =>
      have hr := harr
      rw [RArr.ne (by simp)] at hr
      obtain ⟨qs, C, hq, rfl⟩ := hr
      refine Use.ne0 hB2.head fun hna => ?_
      rw [if_pos ⟨hna, by simp⟩]
      refine Use.int hB.head rfl ?_
      refine (dry_setTypeAndLength _ _).use.bind fun _ => Use.int hB.head rfl ?_
      show Use S (treeWrite1 c >>= fun _ => treeWriteList cs) _
      rw [treeWriteList_seq, ← seqM_cons, ← List.map_cons]
      refine use_forEach (qs := []) (c :: cs) (R := fun t a B => RTree t a B ∧ B.length ≤ fuel)
        (fun e he p B hr hin => wr_treeAux fuel e S p B hr (hin.trans hB2.tail)) (hq.bound ?_) hB.head rfl hB2.head
      simp only [List.length_cons, List.length_append] at hl
      omega

theorem wr_tree (v : Option Tree) : Wr1 (treeWrite v) pTreeWrite (repOpt RTree v) := by
  intro S a B hr hB s n0 c0 h o
  cases v with
  | none =>
    obtain ⟨rfl, rfl⟩ := hr
    exact dry_optionalWrite.use s n0 c0 h o
  | some t =>
    refine wr_treeAux (h.next + 1) t S a B ⟨hr, ?_⟩ hB s n0 c0 h o
    have h2 := hB.length_le
    have h3 := o.length_lt
    omega

/-! ## The object list -/

theorem objectsLen_ok : ∀ (es : List (Option OctetString)) {e a B fuel len S st n0 c0 h}, RObjs (e :: es) a B → Within B S →
    es.length < fuel → Own n0 c0 h S → pObjectsLen fuel a len st h = .ok (len + es.length) st h
  | [], e, a, B, fuel + 1, len, S, st, n0, c0, h, hr, hB, hf, o => by
    obtain ⟨ps, B', hF, rfl⟩ := hr
    obtain ⟨p, q, B1, B2, rfl, hp, ⟨rfl, rfl⟩, rfl⟩ := hF.two
    have hc := readPtr_ok (i := 1) (st := st) (o.ne0_of_mem hB.head) (o.cell_of_mem hB.head) rfl
    rw [pObjectsLen, P.bind_ok hc, if_neg (by simp)]
    rfl
  | e' :: es, e, a, B, fuel + 1, len, S, st, n0, c0, h, hr, hB, hf, o => by
    obtain ⟨ps, B', hF, rfl⟩ := hr
    obtain ⟨p, q, B1, B2, rfl, hp, hq, rfl⟩ := hF.two
    have hc := readPtr_ok (i := 1) (st := st) (o.ne0_of_mem hB.head) (o.cell_of_mem hB.head) rfl
    obtain ⟨c, hcell⟩ := Rec.head hq
    have hne := o.ne0_of_mem (hB.tail.right.mem hcell)
    rw [pObjectsLen, P.bind_ok hc, if_pos hne]
    show (readPtr a 1 >>= fun q => pObjectsLen fuel q (len + 1)) st h = _
    rw [P.bind_ok hc, objectsLen_ok es hq hB.tail.right (by simp at hf; omega) o, List.length_cons]
    congr 1
    omega
  | [], _, _, _, 0, _, _, _, _, _, _, _, _, hf, _ => by simp at hf
  | _ :: _, _, _, _, 0, _, _, _, _, _, _, _, _, hf, _ => by simp at hf

theorem use_objectsLoop : ∀ (es : List (Option OctetString)) {e a B fuel S}, RObjs (e :: es) a B → Within B S →
    es.length < fuel → Use S (objectListWriteLoop (e :: es)) (pObjectsWriteLoop fuel a)
  | [], e, a, B, fuel + 1, S, hr, hB, hf => by
    obtain ⟨ps, B', hF, rfl⟩ := hr
    obtain ⟨p, q, B1, B2, rfl, hp, ⟨rfl, rfl⟩, rfl⟩ := hF.two
    rw [pObjectsWriteLoop]
    refine Use.ptr hB.head rfl ?_
    exact Use.ret ()
  | e' :: es, e, a, B, fuel + 1, S, hr, hB, hf => by
    obtain ⟨ps, B', hF, rfl⟩ := hr
    obtain ⟨p, q, B1, B2, rfl, hp, hq, rfl⟩ := hF.two
    obtain ⟨c, hcell⟩ := Rec.head hq
    refine Use.ne0 (hB.tail.right.mem hcell) fun hne => ?_
    rw [pObjectsWriteLoop]
    refine Use.ptr hB.head rfl ?_
    rw [if_pos hne]
    refine Use.ptr hB.head rfl ?_
    refine (wr_octetString e S p B1 hp hB.tail.left).bind fun _ => ?_
    refine Use.ptr hB.head rfl ?_
    exact use_objectsLoop es hq hB.tail.right (by simp at hf; omega)
  | [], _, _, _, 0, _, _, _, hf => by simp at hf
  | _ :: _, _, _, _, 0, _, _, _, hf => by simp at hf

/-- The part of `getProfilePackRequestWrite` about the object list. -/
def objectsWrite (es : List (Option OctetString)) : M Unit :=
  if es ≠ [] then do
    setTypeAndLength tyList es.length
    objectListWriteLoop es
  else optionalWrite

theorem wr_objects (es : List (Option OctetString)) : Wr1 (objectsWrite es) pObjectsWrite (RObjs es) := by
  intro S a B hr hB s n0 c0 h o
  have hlt : es.length < h.next + 1 := by
    have h1 := RObjs.length_le hr
    have h2 := hB.length_le
    have h3 := o.length_lt
    omega
  cases es with
  | nil =>
    obtain ⟨rfl, rfl⟩ := hr
    exact dry_optionalWrite.use s n0 c0 h o
  | cons e es =>
    obtain ⟨c, hcell⟩ := Rec.head hr
    have hne := o.ne0_of_mem (hB.mem hcell)
    have hlt' : es.length < h.next + 1 := by simp at hlt; omega
    rw [pObjectsWrite, if_pos hne, objectsWrite, if_pos (by simp), P.bind_ok (objectsLen_ok _ hr hB hlt' o)]
    rw [List.length_cons, Nat.add_comm 1]
    exact ((dry_setTypeAndLength _ _).use.bind fun _ => use_objectsLoop _ hr hB hlt') s n0 c0 h o

theorem getProfilePackRequestWrite_seq (m : GetProfilePackRequest) : getProfilePackRequestWrite (some m) =
    (setTypeAndLength tyList 9 >>= fun _ => seqM [octetStringWrite m.serverId, octetStringWrite m.username,
      octetStringWrite m.password, booleanWrite m.withRawdata, timeWrite m.beginTime, timeWrite m.endTime,
      treePathWrite m.parameterTreePath, objectsWrite m.objectList, treeWrite m.dasDetails]) := by
  simp only [getProfilePackRequestWrite, seqM, objectsWrite]
  split
  · simp only [M.assoc]
  · rfl

/-! ## Message bodies -/

theorem wr_openRequest (v : Option OpenRequest) : Wr1 (openRequestWrite v) pOpenRequestWrite (repOpt ROpenRequest
      v) :=
  Wr1.must (w := openRequestWrite) (R := ROpenRequest) rfl
    (fun _ => Wr1.struct (.cons (wr_octetString _) (.cons (wr_octetString _) (.cons (wr_octetString _) (.cons
      (wr_octetString _) (.cons (wr_octetString _) (.cons (wr_octetString _) (.cons (wr_number _ _ _) .nil))))))) 7) v

theorem wr_openResponse (v : Option OpenResponse) : Wr1 (openResponseWrite v) pOpenResponseWrite (repOpt
      ROpenResponse v) :=
  Wr1.must (w := openResponseWrite) (R := ROpenResponse) rfl
    (fun _ => Wr1.struct (.cons (wr_octetString _) (.cons (wr_octetString _) (.cons (wr_octetString _) (.cons
      (wr_octetString _) (.cons (wr_time _) (.cons (wr_number _ _ _) .nil)))))) 6) v

theorem wr_closeRequest (v : Option CloseRequest) : Wr1 (closeRequestWrite v) pCloseRequestWrite (repOpt
      RCloseRequest v) :=
  Wr1.must (w := closeRequestWrite) (R := RCloseRequest) rfl
    (fun _ => Wr1.struct (.cons (wr_octetString _) .nil) 1) v

theorem wr_closeResponse (v : Option CloseResponse) : Wr1 (closeResponseWrite v) pCloseResponseWrite (repOpt
      RCloseResponse v) :=
  Wr1.must (w := closeResponseWrite) (R := RCloseResponse) rfl
    (fun _ => Wr1.struct (.cons (wr_octetString _) .nil) 1) v

theorem wr_valueEntry (v : Option ValueEntry) : Wr1 (valueEntryWrite v) pValueEntryWrite (repOpt RValueEntry v) :=
  Wr1.must (w := valueEntryWrite) (R := RValueEntry) rfl
    (fun _ => Wr1.struct (.cons (wr_value _) (.cons (wr_octetString _) .nil)) 2) v

theorem wr_profObjHeaderEntry (v : Option ProfObjHeaderEntry) : Wr1 (profObjHeaderEntryWrite v)
      pProfObjHeaderEntryWrite (repOpt RProfObjHeaderEntry v) :=
  Wr1.must (w := profObjHeaderEntryWrite) (R := RProfObjHeaderEntry) rfl
    (fun _ => Wr1.struct (.cons (wr_octetString _) (.cons (wr_number _ _ _) (.cons (wr_number _ _ _) .nil))) 3) v

theorem wr_profObjPeriodEntry (v : Option ProfObjPeriodEntry) : Wr1 (profObjPeriodEntryWrite v)
      pProfObjPeriodEntryWrite (repOpt RProfObjPeriodEntry v) :=
  Wr1.must (w := profObjPeriodEntryWrite) (R := RProfObjPeriodEntry) rfl
    (fun _ => Wr1.struct (.cons (wr_time _) (.cons (wr_number _ _ _) (.cons (wr_sequence wr_valueEntry _) (.cons
      (wr_octetString _) .nil)))) 4) v

theorem wr_getProfilePackResponse (v : Option GetProfilePackResponse) : Wr1 (getProfilePackResponseWrite v)
      pGetProfilePackResponseWrite (repOpt RGetProfilePackResponse v) :=
  Wr1.must (w := getProfilePackResponseWrite) (R := RGetProfilePackResponse) rfl
    (fun _ => Wr1.struct (.cons (wr_octetString _) (.cons (wr_time _) (.cons (wr_number _ _ _) (.cons (wr_treePath
      _) (.cons (wr_sequence wr_profObjHeaderEntry _) (.cons (wr_sequence wr_profObjPeriodEntry _) (.cons
      (wr_octetString _) (.cons (wr_octetString _) .nil)))))))) 8) v

theorem wr_getProfileListResponse (v : Option GetProfileListResponse) : Wr1 (getProfileListResponseWrite v)
      pGetProfileListResponseWrite (repOpt RGetProfileListResponse v) :=
  Wr1.must (w := getProfileListResponseWrite) (R := RGetProfileListResponse) rfl
    (fun _ => Wr1.struct (.cons (wr_octetString _) (.cons (wr_time _) (.cons (wr_number _ _ _) (.cons (wr_treePath
      _) (.cons (wr_time _) (.cons (wr_number _ _ _) (.cons (wr_sequence wr_periodEntry _) (.cons (wr_octetString
      _) (.cons (wr_octetString _) .nil))))))))) 9) v

theorem wr_getProcParameterRequest (v : Option GetProcParameterRequest) : Wr1 (getProcParameterRequestWrite v)
      pGetProcParameterRequestWrite (repOpt RGetProcParameterRequest v) :=
  Wr1.must (w := getProcParameterRequestWrite) (R := RGetProcParameterRequest) rfl
    (fun _ => Wr1.struct (.cons (wr_octetString _) (.cons (wr_octetString _) (.cons (wr_octetString _) (.cons
      (wr_treePath _) (.cons (wr_octetString _) .nil))))) 5) v

theorem wr_getProcParameterResponse (v : Option GetProcParameterResponse) : Wr1 (getProcParameterResponseWrite v)
      pGetProcParameterResponseWrite (repOpt RGetProcParameterResponse v) :=
  Wr1.must (w := getProcParameterResponseWrite) (R := RGetProcParameterResponse) rfl
    (fun _ => Wr1.struct (.cons (wr_octetString _) (.cons (wr_treePath _) (.cons (wr_tree _) .nil))) 3) v

theorem wr_setProcParameterRequest (v : Option SetProcParameterRequest) : Wr1 (setProcParameterRequestWrite v)
      pSetProcParameterRequestWrite (repOpt RSetProcParameterRequest v) :=
  Wr1.must (w := setProcParameterRequestWrite) (R := RSetProcParameterRequest) rfl
    (fun _ => Wr1.struct (.cons (wr_octetString _) (.cons (wr_octetString _) (.cons (wr_octetString _) (.cons
      (wr_treePath _) (.cons (wr_tree _) .nil))))) 5) v

theorem wr_getListRequest (v : Option GetListRequest) : Wr1 (getListRequestWrite v) pGetListRequestWrite (repOpt
      RGetListRequest v) :=
  Wr1.must (w := getListRequestWrite) (R := RGetListRequest) rfl
    (fun _ => Wr1.struct (.cons (wr_octetString _) (.cons (wr_octetString _) (.cons (wr_octetString _) (.cons
      (wr_octetString _) (.cons (wr_octetString _) .nil))))) 5) v

theorem wr_getListResponse (v : Option GetListResponse) : Wr1 (getListResponseWrite v) pGetListResponseWrite
      (repOpt RGetListResponse v) :=
  Wr1.must (w := getListResponseWrite) (R := RGetListResponse) rfl
    (fun _ => Wr1.struct (.cons (wr_octetString _) (.cons (wr_octetString _) (.cons (wr_octetString _) (.cons
      (wr_time _) (.cons (wr_list _) (.cons (wr_octetString _) (.cons (wr_time _) .nil))))))) 7) v

theorem wr_attentionResponse (v : Option AttentionResponse) : Wr1 (attentionResponseWrite v)
      pAttentionResponseWrite (repOpt RAttentionResponse v) :=
  Wr1.must (w := attentionResponseWrite) (R := RAttentionResponse) rfl
    (fun _ => Wr1.struct (.cons (wr_octetString _) (.cons (wr_octetString _) (.cons (wr_octetString _) (.cons
      (wr_tree _) .nil)))) 4) v

theorem wr_getProfilePackRequest (v : Option GetProfilePackRequest) : Wr1 (getProfilePackRequestWrite v)
      pGetProfilePackRequestWrite (repOpt RGetProfilePackRequest v) :=
  Wr1.must (w := getProfilePackRequestWrite) (R := RGetProfilePackRequest) rfl (fun v => by
    rw [getProfilePackRequestWrite_seq]
    exact Wr1.struct (.cons (wr_octetString _) (.cons (wr_octetString _) (.cons (wr_octetString _) (.cons
      (wr_boolean _) (.cons (wr_time _) (.cons (wr_time _) (.cons (wr_treePath _) (.cons (wr_objects _) (.cons
      (wr_tree _) .nil))))))))) 9) v

theorem use_bodyData (hw : BodyDataWf t d) (hr : RBodyData d a B) (hB : Within B S) :
    Use S (bodyDataWrite t d) (pBodyDataWrite t a) := by
  cases d with
  | null =>
    rw [pBodyDataWrite]
    delta bodyDataWrite
    dsimp only
    iterate 14 refine Use.ite (fun _ => Use.undef) fun _ => ?_
    exact Use.ret ()
  | openRequest p =>
    obtain rfl : t = tagOpenRequest := hw
    exact wr_openRequest p S a B hr hB
  | openResponse p =>
    obtain rfl : t = tagOpenResponse := hw
    exact wr_openResponse p S a B hr hB
  | closeRequest p =>
    obtain rfl : t = tagCloseRequest := hw
    exact wr_closeRequest p S a B hr hB
  | closeResponse p =>
    obtain rfl : t = tagCloseResponse := hw
    exact wr_closeResponse p S a B hr hB
  | getProfilePackRequest p =>
    obtain rfl : t = tagGetProfilePackRequest := hw
    exact wr_getProfilePackRequest p S a B hr hB
  | getProfilePackResponse p =>
    obtain rfl : t = tagGetProfilePackResponse := hw
    exact wr_getProfilePackResponse p S a B hr hB
  | getProfileListRequest p =>
    obtain rfl : t = tagGetProfileListRequest := hw
    exact wr_getProfilePackRequest p S a B hr hB
  | getProfileListResponse p =>
    obtain rfl : t = tagGetProfileListResponse := hw
    exact wr_getProfileListResponse p S a B hr hB
  | getProcParameterRequest p =>
    obtain rfl : t = tagGetProcParameterRequest := hw
    exact wr_getProcParameterRequest p S a B hr hB
  | getProcParameterResponse p =>
    obtain rfl : t = tagGetProcParameterResponse := hw
    exact wr_getProcParameterResponse p S a B hr hB
  | setProcParameterRequest p =>
    obtain rfl : t = tagSetProcParameterRequest := hw
    exact wr_setProcParameterRequest p S a B hr hB
  | getListRequest p =>
    obtain rfl : t = tagGetListRequest := hw
    exact wr_getListRequest p S a B hr hB
  | getListResponse p =>
    obtain rfl : t = tagGetListResponse := hw
    exact wr_getListResponse p S a B hr hB
  | attentionResponse p =>
    obtain rfl : t = tagAttentionResponse := hw
    exact wr_attentionResponse p S a B hr hB

theorem wr_messageBody (v : Option MessageBody) : Wr1 (messageBodyWrite v) pMessageBodyWrite (repOpt RMessageBody v) := by
  intro S a B hr hB
  rw [messageBodyWrite.eq_def, pMessageBodyWrite]
  refine (dry_setTypeAndLength _ _).use.bind fun _ => ?_
  cases v with
  | none => exact Use.undef
  | some b =>
    obtain ⟨⟨t, ht, hsz, hw⟩, ps, B', hF, rfl⟩ := hr
    obtain ⟨p, q, B1, B2, rfl, hp, hq, rfl⟩ := hF.two
    refine Use.ptr hB.head rfl ((wr_number _ _ _ S p B1 hp hB.tail.left).bind fun _ => ?_)
    refine Use.ptr hB.head rfl ?_
    rw [ht] at hp ⊢
    obtain rfl : B1 = [(p, .num t)] := hp
    refine Use.tag hB.tail.left.head hsz (Use.ptr hB.head rfl ?_)
    exact use_bodyData hw hq hB.tail.right

/-! ## Messages -/

theorem Sim.use {m : M α} {pm : P α} {k : α → M β} {pk : α → P γ} {R : β → γ → List Blk → Prop} (h1 : ∀ L, Use (B ++ L) m pm)
    (h2 : ∀ v, Sim B (k v) (pk v) R) : Sim B (m >>= k) (pm >>= pk) R := by
  intro s n0 c0 h g0 o v s' hm
  obtain ⟨a, s1, e1, e2⟩ := M.bind_eq_ok hm
  obtain ⟨h1', ep, o1, l1⟩ := h1 g0 s n0 c0 h o a s1 e1
  obtain ⟨p, h', B', g, e, hR, o', l⟩ := h2 a s1 n0 c0 h1' g0 o1 v s' e2
  exact ⟨p, h', B', g, by rw [P.bind_ok ep, e], hR, o', by omega⟩

theorem Sim.liftRet {m : M Unit} {R : α → Unit → List Blk → Prop} (hd : Dry m) (hr : R v () B) :
    Sim B (m >>= fun _ => pure v) (lift m) R := by
  intro s n0 c0 h g0 o v' s' hm
  obtain ⟨a, s1, e1, e2⟩ := M.bind_eq_ok hm
  obtain ⟨rfl, rfl⟩ := M.pure_eq_ok e2
  obtain ⟨ed, el⟩ := hd _ _ _ e1
  exact ⟨(), h, B, g0, by rw [lift, ed], hr, o, by rw [el]⟩

theorem Sim.mapRet {m : M α} {f : α → β} {pm : P γ} {R : α → γ → List Blk → Prop} {R' : β → γ → List Blk → Prop}
    (h1 : Sim B0 m pm R) (h2 : ∀ v p B, R v p B → R' (f v) p B) : Sim B0 (m >>= fun v => pure (f v)) pm R' := by
  intro s n0 c0 h g0 o v s' hm
  obtain ⟨a, s1, e1, e2⟩ := M.bind_eq_ok hm
  obtain ⟨rfl, rfl⟩ := M.pure_eq_ok e2
  obtain ⟨p, h', B, g, e, hR, o', l⟩ := h1 s n0 c0 h g0 o a s1 e1
  exact ⟨p, h', B, g, e, h2 _ _ _ hR, o', l⟩

theorem Sim.liftMap {m : M α} {f : α → β} {R : β → α → List Blk → Prop} (hd : Dry m) (hr : ∀ v, R (f v) v B) :
    Sim B (m >>= fun v => pure (f v)) (lift m) R := by
  intro s n0 c0 h g0 o v' s' hm
  obtain ⟨a, s1, e1, e2⟩ := M.bind_eq_ok hm
  obtain ⟨rfl, rfl⟩ := M.pure_eq_ok e2
  obtain ⟨ed, el⟩ := hd _ _ _ e1
  exact ⟨a, h, B, g0, by rw [lift, ed], hr a, o, by rw [el]⟩

theorem messageWrite_seq (m : Message) : messageWrite m = (cursorAsInt >>= fun msgStart =>
    (setTypeAndLength tyList 6 >>= fun _ => seqM [octetStringWrite m.transactionId, u8Write m.groupId, u8Write m.abortOnError,
      messageBodyWrite m.messageBody]) >>= fun _ => getSt >>= fun st =>
    if st.cursor > 2147483647 then undef .narrowing
    else bufferSlice msgStart (st.cursor - msgStart) >>= fun bytes => alloc 1 >>= fun _ =>
      u16Write (some (numberInit (crc16 bytes).toNat 2)) >>= fun _ => setByte 0x00 >>= fun _ => advance >>= fun _ =>
      pure { m with crc := some (numberInit (crc16 bytes).toNat 2) }) := by
  simp only [messageWrite, seqM, M.assoc]

theorem sim_messageWrite (m : Message) (a : Addr) (hr : RMessage m a B) :
    Sim (B ++ D) (messageWrite m) (pMessageWrite a) (fun m' _ B' => ∃ B1, RMessage m' a B1 ∧ B' = B1 ++ D) := by
  obtain ⟨ps, B', hF, rfl⟩ := hr
  have hW : WAll [octetStringWrite m.transactionId, u8Write m.groupId, u8Write m.abortOnError, messageBodyWrite m.messageBody]
      [pOctetStringWrite, pU8Write, pU8Write, pMessageBodyWrite]
      [repOpt RStr m.transactionId, repOpt RNum m.groupId, repOpt RNum m.abortOnError, repOpt RMessageBody m.messageBody] :=
    .cons (wr_octetString _) (.cons (wr_number _ _ _) (.cons (wr_number _ _ _) (.cons (wr_messageBody _) .nil)))
  obtain ⟨ps1, ps2, B1, B2, rfl, rfl, hF1, hF2⟩ := Fields.getAppend (rs := [repOpt RStr m.transactionId, repOpt RNum m.groupId,
    repOpt RNum m.abortOnError, repOpt RMessageBody m.messageBody]) (rs' := [repOpt RNum m.crc]) hF
  obtain ⟨pc, rfl, hc⟩ := hF2.one
  obtain ⟨q0, q1, q2, q3, rfl⟩ : ∃ q0 q1 q2 q3, ps1 = [q0, q1, q2, q3] := by
    have hl := hF1.length
    match ps1, hl with
    | [q0, q1, q2, q3], _ => exact ⟨q0, q1, q2, q3, rfl⟩
  rw [messageWrite_seq, pMessageWrite]
  refine dry_cursorAsInt.sim fun msgStart => ?_
  refine Sim.use (fun L => Wr1.fields (B := B1) hW 6 hF1 ⟨(a, .struct ([q0, q1, q2, q3] ++ [pc]) []) :: (B2 ++ D ++ L), by blocks_perm⟩
    List.mem_cons_self) fun _ => ?_
  refine Sim.getSt fun st => Sim.ite (fun _ => Sim.undef) fun _ => ?_
  refine (dry_bufferSlice _ _).sim fun bytes => Sim.alloc fun c hc0 => ?_
  refine Sim.ne0 (a := a) (c := HCell.struct ([q0, q1, q2, q3] ++ [pc]) []) (by simp) fun ha => ?_
  refine Sim.perm (B1 := (a, .struct [q0, q1, q2, q3, pc] []) :: (c, .num (numberInit (crc16 bytes).toNat 2)) :: (B1 ++ B2 ++ D))
    (by simp only [List.cons_append, List.nil_append]; exact List.Perm.swap _ _ _) ?_
  refine Sim.writePtr ha (by simp) ?_
  refine Sim.perm (B1 := ((a, .struct [q0, q1, q2, q3, c] []) :: (B1 ++ [(c, .num (numberInit (crc16 bytes).toNat 2))]) ++ D) ++ B2)
    (by simp only [List.set]; blocks_perm) ?_
  refine Sim.forget ?_
  refine Sim.readPtrM (x := c) List.mem_cons_self rfl ?_
  refine Sim.use (fun L => wr_number (some (numberInit (crc16 bytes).toNat 2)) _ _ _ c _ rfl
    ⟨(a, .struct [q0, q1, q2, q3, c] []) :: (B1 ++ D ++ L), by blocks_perm⟩) fun _ => ?_
  refine (dry_setByte _).sim fun _ => ?_
  refine Sim.liftRet dry_advance ?_
  exact ⟨_, ⟨_, _, Fields.append hF1 (Fields.single rfl), rfl⟩, rfl⟩

theorem sim_fileWriteLoop : ∀ (ms : List Message) {qs ps C X}, Fields (ms.map RMessage) ps C →
    (a, .struct sp is) ∈ X → sp[0]? = some arr → (arr, .struct (qs ++ ps) []) ∈ X →
    Sim (C ++ X) (fileWriteLoop ms) (pForEach pMessageWrite a 0 ms.length qs.length)
      (fun ms' _ B => ∃ C', Fields (ms'.map RMessage) ps C' ∧ ms'.length = ms.length ∧ B.Perm (C' ++ X))
  | [], qs, ps, C, X, hF, ha, hi, harr => Sim.ret ⟨C, hF, rfl, List.Perm.refl _⟩
  | m :: ms, qs, ps, C, X, hF, ha, hi, harr => by
    obtain ⟨p, ps', B1, B2, rfl, hr, hF', rfl⟩ := hF
    have harr' : (arr, HCell.struct ((qs ++ [p]) ++ ps') []) ∈ X := by simpa using harr
    show Sim _ (messageWrite m >>= fun m => fileWriteLoop ms >>= fun ms => pure (m :: ms))
      (readPtr a 0 >>= fun arr => readPtr arr qs.length >>= fun x => pMessageWrite x >>= fun _ =>
      pForEach pMessageWrite a 0 ms.length (qs.length + 1)) _
    refine Sim.readPtrM (List.mem_append_right _ ha) hi ?_
    refine Sim.readPtrM (x := p) (List.mem_append_right _ harr) (by simp) ?_
    rw [List.append_assoc]
    refine (sim_messageWrite m p hr).bind ?_
    rintro m' _ B ⟨B1', hr', rfl⟩
    refine Sim.perm (B1 := B2 ++ (B1' ++ X)) (by blocks_perm) ?_
    have hk := sim_fileWriteLoop ms (qs := qs ++ [p]) (X := B1' ++ X) hF' (List.mem_append_right _ ha) hi
      (List.mem_append_right _ harr')
    rw [List.length_append] at hk
    refine Sim.mapRet hk ?_
    rintro ms' _ B ⟨C', hC, hl, hp⟩
    refine ⟨B1' ++ C', ⟨p, ps', B1', C', rfl, hr', hC, rfl⟩, by simp [hl], hp.trans ?_⟩
    blocks_perm

/-- `sml_file_write` on the heap. -/
theorem sim_fileWrite (hr : RFile bytes f a B) :
    Sim B (fileWrite f) (pFileWrite a) (fun f' _ B' => ∃ B1, RFile bytes f' a B1 ∧ B'.Perm B1) := by
  obtain ⟨ps, B', hF, rfl⟩ := hr
  obtain ⟨arr, buf, B1, B2, rfl, harr, hbuf, rfl⟩ := hF.two
  rw [fileWrite, pFileWrite]
  refine Sim.readPtrM List.mem_cons_self rfl (Sim.readIntM List.mem_cons_self rfl ?_)
  by_cases hs : f.messages = []
  · rw [if_neg (by simp [hs]), hs]
    rw [hs] at hF
    exact Sim.ret ⟨_, ⟨_, _, hF, rfl⟩, List.Perm.refl _⟩
  · have hr := harr
    rw [RArr.ne (by simpa using hs)] at hr
    obtain ⟨qs, C, hq, rfl⟩ := hr
    refine Sim.ne0 (a := arr) (c := .struct qs []) (by simp) fun hna => ?_
    rw [if_pos ⟨hna, List.length_pos_iff.mpr hs⟩]
    refine Sim.readIntM List.mem_cons_self rfl ?_
    refine Sim.perm (B1 := C ++ ((a, .struct [arr, buf] [f.messages.length]) :: (arr, .struct qs []) :: B2)) (by blocks_perm) ?_
    refine Sim.mapRet (sim_fileWriteLoop f.messages (qs := []) (sp := [arr, buf]) (is := [f.messages.length]) hq (by simp) rfl (by simp)) ?_
    rintro ms' _ B ⟨C', hC, hl, hp⟩
    have hne : ms' ≠ [] := fun h => hs (List.length_eq_zero_iff.mp (by rw [← hl, h]; rfl))
    refine ⟨_, ⟨[arr, buf], ((arr, .struct qs []) :: C') ++ B2, ⟨arr, [buf], (arr, .struct qs []) :: C', B2, rfl, ?_, Fields.single hbuf, rfl⟩, rfl⟩, ?_⟩
    · rw [RArr.ne (by simpa using hne)]
      exact ⟨qs, C', hC, rfl⟩
    · rw [hl]
      exact hp.trans (by blocks_perm)

theorem Sim.iteSkip {c : Prop} [Decidable c] {m : M Unit} {k : M α} {pk : P β} {R : α → β → List Blk → Prop} (hd : Dry m)
    (hk : Sim B k pk R) : Sim B (if c then m >>= fun _ => k else pure () >>= fun _ => k)
      ((if c then lift m else pure ()) >>= fun _ => pk) R := by
  split
  · exact hd.sim fun _ => hk
  · exact hk

theorem dry_rewind : Dry (modSt fun st => { st with cursor := 0 }) := by
  intro s v s' h
  cases h
  exact ⟨rfl, rfl⟩

/-- `sml_transport_write` on the heap. -/
theorem sim_transportFrame (hr : RFile bytes f a B) :
    Sim B (transportFrame f) (pTransportFrame a)
      (fun r bs B' => r.2 = bs ∧ ∃ B1, RFile bytes r.1 a B1 ∧ B'.Perm B1) := by
  obtain ⟨ps, B', hF, rfl⟩ := hr
  obtain ⟨arr, buf, B1, B2, rfl, harr, hbuf, rfl⟩ := hF.two
  rw [transportFrame, pTransportFrame]
  refine Sim.readPtrM List.mem_cons_self rfl ?_
  refine dry_rewind.sim fun _ => (dry_putBytes _).sim fun _ => ?_
  refine (sim_fileWrite ⟨_, _, hF, rfl⟩).bind ?_
  rintro f' _ B' hr'
  refine Sim.getSt fun s => ?_
  have hk : Sim B' (do
      putBytes endSeq
      putBytes [UInt8.ofNat (if s.cursor % 4 ≠ 0 then 4 - s.cursor % 4 else 0)]
      let st ← getSt
      let bytes ← bufferSlice 0 st.cursor
      let crc := (crc16 bytes).toNat
      putBytes [UInt8.ofNat ((crc &&& 0xFF00) >>> 8)]
      putBytes [UInt8.ofNat (crc &&& 0x00FF)]
      let st ← getSt
      let bytes ← bufferSlice 0 st.cursor
      pure (f', bytes)) (do
      lift (putBytes endSeq)
      lift (putBytes [UInt8.ofNat (if s.cursor % 4 ≠ 0 then 4 - s.cursor % 4 else 0)])
      let st ← lift getSt
      let bytes ← lift (bufferSlice 0 st.cursor)
      let crc := (crc16 bytes).toNat
      lift (putBytes [UInt8.ofNat ((crc &&& 0xFF00) >>> 8)])
      lift (putBytes [UInt8.ofNat (crc &&& 0x00FF)])
      let st ← lift getSt
      lift (bufferSlice 0 st.cursor)) (fun r bs B' => r.2 = bs ∧ ∃ B1, RFile bytes r.1 a B1 ∧ B'.Perm B1) := by
    refine (dry_putBytes _).sim fun _ => (dry_putBytes _).sim fun _ => Sim.getSt fun s1 => ?_
    refine (dry_bufferSlice _ _).sim fun bs => ?_
    refine (dry_putBytes _).sim fun _ => (dry_putBytes _).sim fun _ => Sim.getSt fun s2 => ?_
    exact Sim.liftMap (dry_bufferSlice _ _) fun bs => ⟨rfl, hr'⟩
  exact Sim.iteSkip (dry_putBytes _) hk

end Sml
