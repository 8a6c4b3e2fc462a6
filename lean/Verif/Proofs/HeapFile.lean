import Verif.Proofs.HeapBodies
import Verif.Proofs.ContractMessage

/-!
# Messages and files on the heap
-/

namespace Sml

/-! ## Message bodies -/

theorem ite_pres [Decidable c] {m m' : P α} {st : St} {h : Heap} {r : PRes α} (h1 : m st h = r) (h2 : m' st h = r) :
    (if c then m else m') st h = r := by
  by_cases hc : c
  · rw [if_pos hc, h1]
  · rw [if_neg hc, h2]

theorem frees_bodyData (tag : Nat) (d : BodyData) (hw : BodyDataWf tag d) :
    Frees (pBodyDataFree tag) (RBodyData d) (bodyDataFreed tag d) := by
  cases d with
  | null =>
    refine Frees.null fun st h => ?_
    rw [pBodyDataFree]
    iterate 14 refine ite_pres rfl ?_
    rfl
  | openRequest p =>
    obtain rfl : tag = tagOpenRequest := hw
    exact frees_openRequestOpt p
  | openResponse p =>
    obtain rfl : tag = tagOpenResponse := hw
    exact frees_openResponseOpt p
  | closeRequest p =>
    obtain rfl : tag = tagCloseRequest := hw
    exact frees_closeRequestOpt p
  | closeResponse p =>
    obtain rfl : tag = tagCloseResponse := hw
    exact frees_closeResponseOpt p
  | getProfilePackRequest p =>
    obtain rfl : tag = tagGetProfilePackRequest := hw
    exact frees_getProfilePackRequestOpt p
  | getProfilePackResponse p =>
    obtain rfl : tag = tagGetProfilePackResponse := hw
    exact frees_getProfilePackResponseOpt p
  | getProfileListRequest p =>
    obtain rfl : tag = tagGetProfileListRequest := hw
    exact frees_getProfilePackRequestOpt p
  | getProfileListResponse p =>
    obtain rfl : tag = tagGetProfileListResponse := hw
    exact frees_getProfileListResponseOpt p
  | getProcParameterRequest p =>
    obtain rfl : tag = tagGetProcParameterRequest := hw
    exact frees_getProcParameterRequestOpt p
  | getProcParameterResponse p =>
    obtain rfl : tag = tagGetProcParameterResponse := hw
    exact frees_getProcParameterResponseOpt p
  | setProcParameterRequest p =>
    obtain rfl : tag = tagSetProcParameterRequest := hw
    exact frees_setProcParameterRequestOpt p
  | getListRequest p =>
    obtain rfl : tag = tagGetListRequest := hw
    exact frees_getListRequestOpt p
  | getListResponse p =>
    obtain rfl : tag = tagGetListResponse := hw
    exact frees_getListResponseOpt p
  | attentionResponse p =>
    obtain rfl : tag = tagAttentionResponse := hw
    exact frees_attentionResponseOpt p

/-- The type of `bodyDataParse` on the heap. -/
def RBodyDataRes (tag : Nat) (d : BodyData) : Rep := fun a B => BodyDataWf tag d ∧ RBodyData d a B

theorem sim_bodyData (depth tag : Nat) : Sim [] (bodyDataParse depth tag) (pBodyDataParse depth tag) (RBodyDataRes tag) := by
  rw [bodyDataParse, pBodyDataParse]
  refine Sim.ite (fun ht => Sim.last (Sim.call sim_openRequest fun v p B hv => ?_)) fun _ => ?_
  · rw [List.append_nil]
    exact Sim.ret ⟨ht, hv⟩
  refine Sim.ite (fun ht => Sim.last (Sim.call sim_openResponse fun v p B hv => ?_)) fun _ => ?_
  · rw [List.append_nil]
    exact Sim.ret ⟨ht, hv⟩
  refine Sim.ite (fun ht => Sim.last (Sim.call sim_closeRequest fun v p B hv => ?_)) fun _ => ?_
  · rw [List.append_nil]
    exact Sim.ret ⟨ht, hv⟩
  refine Sim.ite (fun ht => Sim.last (Sim.call sim_closeResponse fun v p B hv => ?_)) fun _ => ?_
  · rw [List.append_nil]
    exact Sim.ret ⟨ht, hv⟩
  refine Sim.ite (fun ht => Sim.last (Sim.call (sim_getProfilePackRequest depth) fun v p B hv => ?_)) fun _ => ?_
  · rw [List.append_nil]
    exact Sim.ret ⟨ht, hv⟩
  refine Sim.ite (fun ht => Sim.last (Sim.call sim_getProfilePackResponse fun v p B hv => ?_)) fun _ => ?_
  · rw [List.append_nil]
    exact Sim.ret ⟨ht, hv⟩
  refine Sim.ite (fun ht => Sim.last (Sim.call (sim_getProfilePackRequest depth) fun v p B hv => ?_)) fun _ => ?_
  · rw [List.append_nil]
    exact Sim.ret ⟨ht, hv⟩
  refine Sim.ite (fun ht => Sim.last (Sim.call sim_getProfileListResponse fun v p B hv => ?_)) fun _ => ?_
  · rw [List.append_nil]
    exact Sim.ret ⟨ht, hv⟩
  refine Sim.ite (fun ht => Sim.last (Sim.call sim_getProcParameterRequest fun v p B hv => ?_)) fun _ => ?_
  · rw [List.append_nil]
    exact Sim.ret ⟨ht, hv⟩
  refine Sim.ite (fun ht => Sim.last (Sim.call (sim_getProcParameterResponse depth) fun v p B hv => ?_)) fun _ => ?_
  · rw [List.append_nil]
    exact Sim.ret ⟨ht, hv⟩
  refine Sim.ite (fun ht => Sim.last (Sim.call (sim_setProcParameterRequest depth) fun v p B hv => ?_)) fun _ => ?_
  · rw [List.append_nil]
    exact Sim.ret ⟨ht, hv⟩
  refine Sim.ite (fun ht => Sim.last (Sim.call sim_getListRequest fun v p B hv => ?_)) fun _ => ?_
  · rw [List.append_nil]
    exact Sim.ret ⟨ht, hv⟩
  refine Sim.ite (fun ht => Sim.last (Sim.call sim_getListResponse fun v p B hv => ?_)) fun _ => ?_
  · rw [List.append_nil]
    exact Sim.ret ⟨ht, hv⟩
  refine Sim.ite (fun ht => Sim.last (Sim.call (sim_attentionResponse depth) fun v p B hv => ?_)) fun _ => ?_
  · rw [List.append_nil]
    exact Sim.ret ⟨ht, hv⟩
  exact Sim.ret ⟨trivial, rfl, rfl⟩

theorem frees_messageBody (b : MessageBody) : Frees pMessageBodyFree (RMessageBody b) (messageBodyFreed (some b)) := by
  rintro a B ⟨⟨t, ht, hsz, hw⟩, ps, B', hF, rfl⟩ st n0 c0 h L o
  obtain ⟨p, q, B1, B2, rfl, hp, hq, rfl⟩ := hF.two
  rw [ht] at hp
  obtain rfl : B1 = [(p, .num t)] := hp
  have hne := o.ne0
  have o1 : Own n0 c0 h ((p, .num t) :: (B2 ++ ((a, .struct [p, q] []) :: L))) := o.perm (by blocks_perm)
  have hp0 : p ≠ 0 := o1.ne0
  rw [pMessageBodyFree, if_pos hne, P.bind_ok (readPtr_ok hne o.cell rfl), P.bind_ok (readTag_ok hp0 o1.cell hsz),
    P.bind_ok (readPtr_ok hne o.cell rfl)]
  obtain ⟨h1, g, e1, o2, l1⟩ := frees_bodyData t.val b.data hw q B2 hq st n0 c0 h
    ((p, .num t) :: (a, .struct [p, q] []) :: L) (o1.perm (by blocks_perm))
  have o3 : Own n0 c0 h1 ((a, .struct [p, q] []) :: (p, .num t) :: (g ++ L)) := o2.perm (by blocks_perm)
  rw [P.bind_ok e1, P.bind_ok (readPtr_ok hne o3.cell rfl)]
  have o4 := o3.perm (List.Perm.swap _ _ _)
  have e2 : pNumberFree p st h1 = .ok () st { h1 with cells := setCell h1.cells p none } := by
    rw [pNumberFree, if_pos hp0]
    exact free_ok hp0 o4.cell
  rw [P.bind_ok e2]
  refine ⟨_, g, free_ok hne o4.drop.cell, o4.drop.drop, ?_⟩
  simp only [messageBodyFreed, ht, own, List.length_cons, List.length_append, List.length_nil]
  omega

theorem frees_messageBodyOpt : ∀ v : Option MessageBody,
    Frees pMessageBodyFree (repOpt RMessageBody v) (messageBodyFreed v)
  | none => Frees.null (fun _ _ => rfl)
  | some v => frees_messageBody v

/-- `free` on a structure gives up its members. -/
theorem frees_shallow (rs : List Rep) (is : List Nat) : Frees free (Rec rs is) 1 := by
  rintro a B ⟨ps, B', hF, rfl⟩ st n0 c0 h L o
  exact ⟨_, B', free_ok o.ne0 o.cell, o.drop, rfl⟩

theorem sim_messageBody (depth : Nat) :
    Sim [] (messageBodyParse depth) (pMessageBodyParse depth) (repOpt RMessageBody) := by
  have hz : repOpt RMessageBody none 0 [] := ⟨rfl, rfl⟩
  refine Sim.alloc fun a ha => ?_
  have h0 : Rec [repOpt RNum none, nullRep] [] a [(a, .struct [0, 0] [])] := Rec.empty 2 a []
  refine Sim.getSt fun s => Sim.ite (fun _ => Sim.fail (frees_shallow _ _) h0 hz) fun _ => ?_
  refine Sim.expectList (frees_shallow _ _) h0 hz ?_
  rw [field, pField]
  refine Sim.call ((sim_number _ _).post (numberParse_sized _ _)) fun v q Bq ⟨hv, hsz⟩ => ?_
  refine Rec.set h0 rfl hv fun B hB => ?_
  refine dry_hasErrors.sim fun b => Sim.ite (fun _ => Sim.abort (frees_shallow _ _) hB hz) fun _ => ?_
  obtain ⟨ps, B', hF, rfl⟩ := hB
  obtain ⟨p, q, B1, B2, rfl, hp, ⟨rfl, rfl⟩, rfl⟩ := hF.two
  have hB : Rec [repOpt RNum v, nullRep] [] a ((a, .struct [p, 0] []) :: (B1 ++ [])) := ⟨_, _, hF, rfl⟩
  refine Sim.readPtrM List.mem_cons_self rfl ?_
  cases v with
  | none =>
    obtain ⟨rfl, rfl⟩ := hp
    rw [if_pos rfl]
    exact Sim.abort (frees_shallow _ _) hB hz
  | some t =>
    have hm : (p, HCell.num t) ∈ (a, HCell.struct [p, 0] []) :: (B1 ++ []) := by
      obtain rfl : B1 = [(p, .num t)] := hp
      simp
    refine Sim.ne0 hm fun hne => ?_
    rw [if_neg hne]
    refine Sim.readTagM hm (hsz t rfl) ?_
    refine Sim.call (sim_bodyData depth t.val) fun d q Bq hq => ?_
    refine Rec.set hB rfl hq.2 fun B hB => ?_
    exact Sim.ret ⟨⟨t, rfl, hsz t rfl, hq.1⟩, hB⟩

/-! ## Messages -/

theorem frees_message (m : Message) : Frees pMessageFree (RMessage m) (messageFreed1 m) := by
  refine Frees.congr (Frees.struct (.cons (frees_octetStringOpt _) <| .cons (frees_numberOpt _) <|
    .cons (frees_numberOpt _) <| .cons (frees_messageBodyOpt _) <| .cons (frees_numberOpt _) .nil)) ?_
  rw [messageFreed1]
  omega

theorem RMessage.body (h : RMessage m a B) : ∀ b, m.messageBody = some b → ∃ t, b.tag = some t := by
  intro b hb
  obtain ⟨ps, B', ⟨_, _, _, _, rfl, _, ⟨_, _, _, _, rfl, _, ⟨_, _, _, _, rfl, _, ⟨_, _, _, _, rfl, hr, _, rfl⟩, rfl⟩, rfl⟩,
    rfl⟩, rfl⟩ := h
  rw [hb] at hr
  obtain ⟨⟨t, ht, _⟩, _⟩ := hr
  exact ⟨t, ht⟩

theorem messageFree_eq (h : ∀ b, m.messageBody = some b → ∃ t, b.tag = some t) (k : M β) :
    (messageFree m >>= fun _ => k) = (release (messageFreed1 m) >>= fun _ => k) := by
  have hb : ∀ k : M β, (messageBodyFree m.messageBody >>= fun _ => k) =
      (release (messageBodyFreed m.messageBody) >>= fun _ => k) := by
    intro k
    cases hb : m.messageBody with
    | none =>
      funext s
      rw [messageBodyFreed, M.bind_ok (release_zero s)]
      rfl
    | some b =>
      obtain ⟨t, ht⟩ := h b hb
      rw [messageBodyFree, messageBodyFreed]
      simp only [ht, own]
  have e : messageFreed1 m = octetStringFreed m.transactionId + (numberFreed m.groupId + (numberFreed m.abortOnError +
      (messageBodyFreed m.messageBody + (numberFreed m.crc + 1)))) := by
    rw [messageFreed1]
    omega
  rw [messageFree, e]
  simp only [M.assoc, release_add]
  refine congrArg _ (funext fun _ => congrArg _ (funext fun _ => congrArg _ (funext fun _ => ?_)))
  exact hb _

theorem Sim.messageAbort {R : Option Message → Nat → List Blk → Prop} (hr : RMessage m a B) (hz : R none 0 []) :
    Sim B (messageFail m) (pAbort pMessageFree a 0) R := by
  rw [messageFail, messageFree_eq hr.body]
  exact Sim.abort (frees_message m) hr hz

theorem Sim.messageField {p : M α} {set : α → Message} {k : Message → M (Option Message)} {Rf : α → Rep} {rs : List Rep}
    {m0 : Message} {R : Option Message → Nat → List Blk → Prop}
    (hp : Sim [] p pp Rf) (hr : RMessage m0 a B0) (h0 : RMessage m0 = Rec rs ints) (hi : rs[i]? = some nullRep)
    (hs : ∀ v, RMessage (set v) = Rec (rs.set i (Rf v)) ints) (hz : R none 0 [])
    (hk : ∀ v B, RMessage (set v) a B → Sim B (k (set v)) pk R) :
    Sim B0 (Sml.messageField p set k) (pField pp a i (pAbort pMessageFree a 0) pk) R := by
  rw [h0] at hr
  refine Sim.call hp fun v q Bq hv => ?_
  refine Rec.set hr hi hv fun B hB => ?_
  rw [← hs] at hB
  refine dry_hasErrors.sim fun b => Sim.ite (fun _ => Sim.messageAbort hB hz) fun _ => hk v B hB

theorem dry_cursorAsInt : Dry cursorAsInt := by
  rw [cursorAsInt]
  refine Dry.getSt (fun s => ?_) (fun s => rfl)
  refine Dry.ite ?_ (Dry.ret _)
  intro s v s' h
  cases h

theorem dry_bufferSlice (start len : Nat) : Dry (bufferSlice start len) := by
  intro s v s' h
  rw [bufferSlice] at h ⊢
  show (if start + len ≤ s.data.length then _ else _) = _ ∧ _
  split at h
  · cases h
    rw [if_pos (by assumption)]
    exact ⟨rfl, rfl⟩
  · cases h

theorem sim_messageTail (hr : RMessage m a B) (hc : m.crc = none) (msgStart : Nat) :
    Sim B (messageParseTail msgStart m) (pMessageParseTail msgStart a) (repOpt RMessage) := by
  have hz : repOpt RMessage none 0 [] := ⟨rfl, rfl⟩
  rw [messageParseTail, pMessageParseTail]
  refine Sim.getSt fun s => Sim.ite (fun _ => Sim.undef) fun _ => Sim.ite (fun _ => ?_) fun _ => ?_
  · exact dry_setError.sim fun _ => Sim.messageAbort hr hz
  refine Sim.call ((sim_number _ _).post (numberParse_sized _ _)) fun v q Bq ⟨hq, hsz⟩ => ?_
  have e0 : RMessage m = Rec [repOpt RStr m.transactionId, repOpt RNum m.groupId, repOpt RNum m.abortOnError,
      repOpt RMessageBody m.messageBody, nullRep] [] := by
    rw [RMessage, hc]
    rfl
  rw [e0] at hr
  refine Rec.set hr rfl hq fun B hB => ?_
  have hB' : RMessage { m with crc := v } a B := hB
  refine dry_hasErrors.sim fun b => ?_
  obtain ⟨ps, B', hF, rfl⟩ := hB
  obtain ⟨p, B1, B2, h4, hp, hperm, _⟩ := hF.split 4 rfl
  refine Sim.readPtrM List.mem_cons_self h4 ?_
  cases b with
  | true =>
    rw [if_pos (Or.inl rfl)]
    exact dry_setError.sim fun _ => Sim.messageAbort hB' hz
  | false =>
    cases v with
    | none =>
      obtain ⟨rfl, rfl⟩ := hp
      rw [if_pos (Or.inr rfl)]
      exact dry_setError.sim fun _ => Sim.messageAbort hB' hz
    | some c =>
      obtain rfl : B1 = [(p, .num c)] := hp
      have hm : (p, HCell.num c) ∈ (a, HCell.struct ps []) :: B' := List.mem_cons_of_mem _ (hperm.mem_iff.mpr (by simp))
      refine Sim.ne0 hm fun hne => ?_
      rw [if_neg (by simp [hne])]
      refine (dry_bufferSlice _ _).sim fun bytes => ?_
      refine Sim.readPtrM List.mem_cons_self h4 (Sim.readTagM hm (hsz c rfl) ?_)
      refine Sim.ite (fun _ => Sim.messageAbort hB' hz) fun _ => ?_
      refine Sim.getSt fun s => Sim.ite (fun _ => ?_) fun _ => ?_
      · exact dry_setError.sim fun _ => Sim.messageAbort hB' hz
      refine dry_getCurrentByte.sim fun b => Sim.ite (fun _ => ?_) fun _ => Sim.ret hB'
      exact (dry_updateBytesRead 1).sim fun _ => Sim.ret hB'

theorem sim_message (depth : Nat) : Sim [] (messageParse depth) (pMessageParse depth) (repOpt RMessage) := by
  have hz : repOpt RMessage none 0 [] := ⟨rfl, rfl⟩
  refine Sim.alloc fun a ha => ?_
  have h0 : RMessage {} a [(a, .struct [0, 0, 0, 0, 0] [])] := Rec.empty 5 a []
  refine dry_cursorAsInt.sim fun msgStart => ?_
  refine dry_getNextType.sim fun ty => Sim.ite (fun _ => dry_setError.sim fun _ => Sim.messageAbort h0 hz) fun _ => ?_
  refine dry_getNextLength.sim fun l => Sim.ite (fun _ => dry_setError.sim fun _ => Sim.messageAbort h0 hz) fun _ => ?_
  refine Sim.messageField sim_octetString h0 rfl rfl (fun _ => rfl) hz fun v B hB => ?_
  refine Sim.messageField (sim_number _ _) hB rfl rfl (fun _ => rfl) hz fun v B hB => ?_
  refine Sim.messageField (sim_number _ _) hB rfl rfl (fun _ => rfl) hz fun v B hB => ?_
  refine Sim.messageField (sim_messageBody depth) hB rfl rfl (fun _ => rfl) hz fun v B hB => ?_
  exact sim_messageTail hB rfl _

/-! ## Files -/

theorem fileAdd_bind (f : File) (e : Message) (k : File → M β) :
    (fileAddMessage f e >>= k) = if f.messages.length ≥ 32767 then undef .counter else
      ((if f.messages.isEmpty then alloc 1 else pure ()) >>= fun _ => k { messages := f.messages ++ [e] }) := by
  rw [fileAddMessage]
  split
  · rfl
  · by_cases h : f.messages.isEmpty
    · rw [if_pos h, if_pos h]
      rfl
    · rw [if_neg h, if_neg h]
      rfl

theorem RMessage.ne0 {R : α → β → List Blk → Prop} (h : RMessage s a B) (hk : a ≠ 0 → Sim (B ++ B0) m pm R) :
    Sim (B ++ B0) m pm R := by
  obtain ⟨ps, B', hF, rfl⟩ := h
  exact Sim.ne0 List.mem_cons_self hk

/-- A file whose buffer is represented by `r`. -/
def RFileOf (r : Rep) (f : File) : Rep := Rec [RArr (f.messages.map RMessage), r] [f.messages.length]

theorem sim_fileLoop (depth : Nat) (r : Rep) : ∀ fuel f a B, a ≠ 0 → RFileOf r f a B →
    Sim B (fileLoop depth fuel f) (pFileLoop depth a fuel) (fun f b B => b = a ∧ RFileOf r f a B)
  | 0, f, a, B, _, _ => Sim.undef
  | fuel + 1, f, a, B, ha, hr => by
    rw [fileLoop, pFileLoop]
    refine Sim.getSt fun s => Sim.ite (fun _ => ?_) fun _ => Sim.ret ⟨rfl, hr⟩
    refine dry_getCurrentByte.sim fun b => Sim.ite (fun _ => ?_) fun _ => ?_
    · exact (dry_updateBytesRead 1).sim fun _ => sim_fileLoop depth r fuel f a B ha hr
    refine Sim.call (sim_message depth) fun v p Bp hp => dry_hasErrors.sim fun b => Sim.ite (fun _ => ?_) fun _ => ?_
    · exact Sim.perm List.perm_append_comm (Sim.forget (Sim.ret ⟨rfl, hr⟩))
    cases v with
    | none =>
      obtain ⟨rfl, rfl⟩ := hp
      rw [if_neg (by simp)]
      exact sim_fileLoop depth r fuel f a B ha hr
    | some m =>
      refine RMessage.ne0 hp fun hne => ?_
      rw [if_pos hne]
      show Sim _ (fileAddMessage f m >>= fun f => fileLoop depth fuel f) _ _
      rw [fileAdd_bind]
      simp only [pFileAddMessage, P.assoc]
      have hmem : ∃ ps, (a, HCell.struct ps [f.messages.length]) ∈ Bp ++ B := by
        obtain ⟨ps, B', hF, rfl⟩ := hr
        exact ⟨ps, by simp⟩
      obtain ⟨ps, hmem⟩ := hmem
      refine Sim.readIntM hmem rfl ?_
      by_cases hlen : f.messages.length ≥ 32767
      · rw [if_pos hlen]
        exact Sim.undef
      rw [if_neg hlen, if_neg hlen]
      refine sim_arrayAdd (r := RMessage m) hr ha rfl (by simp) (by omega) (by simp) hp fun B' hB' => ?_
      refine sim_fileLoop depth r fuel { messages := f.messages ++ [m] } a B' ha ?_
      rw [RFileOf, List.map_append, List.length_append]
      exact hB'

theorem frees_buffer (bytes : List UInt8) : Frees pBufferFree (RBuffer bytes) 2 := by
  rintro a B ⟨ps, B', hF, rfl⟩ st n0 c0 h L o
  obtain ⟨p, q, B1, B2, rfl, rfl, ⟨rfl, rfl⟩, rfl⟩ := hF.two
  have hne := o.ne0
  have o1 : Own n0 c0 h ((p, .bytes bytes) :: (a, .struct [p, 0] []) :: L) := o.perm (by blocks_perm)
  have hp0 : p ≠ 0 := o1.ne0
  have o2 := o1.drop
  refine ⟨_, [], ?_, o2.drop, rfl⟩
  rw [pBufferFree, if_pos hne, P.bind_ok (readPtr_ok hne o.cell rfl), if_pos hp0,
    P.bind_ok (readPtr_ok hne o.cell rfl), P.bind_ok (free_ok hp0 o1.cell)]
  show (readPtr a 1 >>= fun q => if q ≠ 0 then (readPtr a 1 >>= fun q => free q >>= fun _ => free a) else free a) st _ = _
  rw [P.bind_ok (readPtr_ok hne o2.cell rfl)]
  exact free_ok hne o2.cell

/-- `sml_file_free` with `free'` for the buffer. -/
def pFileFreeOf (free' : Addr → P Unit) (a : Addr) : P Unit :=
  if a ≠ 0 then do
    if (← readPtr a 0) ≠ 0 then do
      pForEach pMessageFree a 0 (← readInt a 0) 0
      free (← readPtr a 0)
    else pure ()
    if (← readPtr a 1) ≠ 0 then free' (← readPtr a 1) else pure ()
    free a
  else pure ()

theorem frees_fileOf {r : Rep} {free' : Addr → P Unit} (hfree : Frees free' r c) (hr0 : ∀ p B n0 c0 h L, r p B → Own n0 c0 h (B ++ L) → p ≠ 0)
    (f : File) : Frees (pFileFreeOf free') (RFileOf r f) (fileFreed f - 2 + c) := by
  rintro a B ⟨ps, B', hF, rfl⟩ st n0 c0 h L o
  obtain ⟨arr, buf, B1, B2, rfl, harr, hbuf, rfl⟩ := hF.two
  have hne := o.ne0
  rw [pFileFreeOf, if_pos hne, P.bind_ok (readPtr_ok hne o.cell rfl)]
  by_cases hs : f.messages = []
  · rw [RArr, if_pos (by rw [hs]; rfl)] at harr
    obtain ⟨rfl, rfl⟩ := harr
    obtain ⟨h1, g1, e1, o1, l1⟩ := hfree buf B2 hbuf st n0 c0 h
      ((a, .struct [0, buf] [f.messages.length]) :: L) (o.perm (by blocks_perm))
    have hb0 : buf ≠ 0 := hr0 buf B2 n0 c0 h ((a, .struct [0, buf] [f.messages.length]) :: L) hbuf (o.perm (by blocks_perm))
    have o2 : Own n0 c0 h1 ((a, .struct [0, buf] [f.messages.length]) :: (g1 ++ L)) := o1.perm (by blocks_perm)
    refine ⟨_, g1, ?_, o2.drop, ?_⟩
    · rw [if_neg (by simp)]
      show (readPtr a 1 >>= fun q => if q ≠ 0 then (readPtr a 1 >>= fun q => free' q >>= fun _ => free a)
        else free a) st _ = _
      rw [P.bind_ok (readPtr_ok hne o.cell rfl), if_pos hb0, P.bind_ok (readPtr_ok hne o.cell rfl), P.bind_ok e1]
      exact free_ok hne o2.cell
    · simp only [fileFreed, hs, List.map_nil, List.sum_nil, if_true, List.length_cons, List.nil_append]
      omega
  · rw [RArr.ne (by simpa using hs)] at harr
    obtain ⟨qs, C, hq, rfl⟩ := harr
    have o1 : Own n0 c0 h (C ++ ((a, .struct [arr, buf] [f.messages.length]) :: (arr, .struct ([] ++ qs) []) :: (B2 ++ L))) :=
      o.perm (by
        rw [List.nil_append]
        blocks_perm)
    have hna : arr ≠ 0 := (o1.perm List.perm_append_comm |>.perm (List.Perm.swap _ _ _)).ne0
    obtain ⟨h1, g1, e1, o2, l1⟩ := forEach_ok frees_message f.messages (qs := []) (i := 0) (st := st) hne hna rfl hq o1
    have e1' : pForEach pMessageFree a 0 f.messages.length 0 st h = .ok () st h1 := e1
    have o3 := o2.perm List.perm_middle
    have o4 := (o3.perm (List.Perm.cons _ List.perm_middle)).perm (List.Perm.swap _ _ _)
    have o5 := o4.drop
    obtain ⟨h2, g2, e2, o6, l2⟩ := hfree buf B2 hbuf st n0 c0 _
      ((a, .struct [arr, buf] [f.messages.length]) :: (g1 ++ L)) (o5.perm (by blocks_perm))
    have hb0 : buf ≠ 0 := hr0 buf B2 n0 c0 h (C ++ ((a, .struct [arr, buf] [f.messages.length]) :: (arr, .struct qs []) :: L)) hbuf (o.perm (by blocks_perm))
    have o7 : Own n0 c0 h2 ((a, .struct [arr, buf] [f.messages.length]) :: (g1 ++ (g2 ++ L))) := o6.perm (by blocks_perm)
    refine ⟨_, g1 ++ g2, ?_, o7.drop.perm (by blocks_perm), ?_⟩
    · rw [if_pos hna, P.bind_ok (readInt_ok hne o.cell rfl), P.bind_ok e1', P.bind_ok (readPtr_ok hne o3.cell rfl),
        P.bind_ok (free_ok hna o4.cell)]
      show (readPtr a 1 >>= fun q => if q ≠ 0 then (readPtr a 1 >>= fun q => free' q >>= fun _ => free a)
        else free a) st _ = _
      rw [P.bind_ok (readPtr_ok hne o5.cell rfl), if_pos hb0, P.bind_ok (readPtr_ok hne o5.cell rfl), P.bind_ok e2]
      exact free_ok hne o7.cell
    · simp only [fileFreed, hs, if_false, List.length_cons, List.length_append]
      omega

theorem frees_file (bytes : List UInt8) (f : File) : Frees pFileFree (RFile bytes f) (fileFreed f) := by
  have := frees_fileOf (frees_buffer bytes) (fun p B n0 c0 h L hr o => by
    obtain ⟨ps, B', _, rfl⟩ := hr
    exact o.ne0_of_mem (c := .struct ps []) (by simp)) f
  refine Frees.congr this ?_
  rw [fileFreed]
  omega

theorem Own.next_pos (o : Own n0 c0 h L) : 0 < h.next := Nat.lt_of_lt_of_le o.pos o.le

/-- `sml_file_parse` as a simulation, from a state in which nothing has been counted yet. -/
theorem sim_file (depth : Nat) (buffer : List UInt8) :
    Sim [] (alloc 1 >>= fun _ => alloc 1 >>= fun _ => alloc 1 >>= fun _ =>
        fileLoop depth (buffer.length + 1) { messages := [] })
      (malloc (.struct [0, 0] [0]) >>= fun file => malloc (.struct [0, 0] []) >>= fun buf =>
        malloc (.bytes (List.replicate buffer.length 0)) >>= fun arr => writePtr buf 0 arr >>= fun _ =>
        store arr (.bytes buffer) >>= fun _ => writePtr file 1 buf >>= fun _ =>
        pFileLoop depth file (buffer.length + 1))
      (RFile buffer) := by
  refine Sim.alloc fun a ha => Sim.alloc fun b hb => Sim.alloc fun c hc => ?_
  refine Sim.perm (List.Perm.swap _ _ _) (Sim.writePtr hb (by simp) ?_)
  refine Sim.perm (List.Perm.swap _ _ _) (Sim.store hc ?_)
  refine Sim.perm (B1 := [(a, .struct [0, 0] [0]), (b, .struct [c, 0] []), (c, .bytes buffer)]) ?_ ?_
  · show List.Perm [(c, HCell.bytes buffer), (b, .struct [c, 0] []), (a, .struct [0, 0] [0])] _
    blocks_perm
  refine Sim.writePtr ha (by simp) ?_
  have hr : RFile buffer { messages := [] } a [(a, .struct [0, b] [0]), (b, .struct [c, 0] []), (c, .bytes buffer)] :=
    ⟨[0, b], [(b, .struct [c, 0] []), (c, .bytes buffer)],
      ⟨0, [b], [], _, rfl, RArr.nil, Fields.single ⟨[c, 0], [(c, .bytes buffer)],
        ⟨c, [0], [(c, .bytes buffer)], [], rfl, rfl, Fields.single ⟨rfl, rfl⟩, rfl⟩, rfl⟩, rfl⟩, rfl⟩
  refine Sim.weaken (sim_fileLoop depth (RBuffer buffer) _ _ _ _ ha hr) ?_
  rintro v p B ⟨rfl, h⟩
  exact h

theorem pFileParse_ok {h : Heap} (hp : 0 < h.next) (hf : ∀ a, h.next ≤ a → h.cells a = none)
    (e : fileParse depth buffer = .ok f s) : ∃ a h' B g, pFileParse depth buffer h = .ok a s.dry h' ∧
      RFile buffer f a B ∧ Own h.next h.cells h' (B ++ g) ∧ s.live = B.length + g.length := by
  obtain ⟨a, h', B, g, e1, hr, o, l⟩ := sim_file depth buffer { data := buffer } h.next h.cells h [] (Own.refl hp hf) f s e
  refine ⟨a, h', B, g, e1, hr, o, ?_⟩
  simp only [List.length_nil] at l
  omega

end Sml
