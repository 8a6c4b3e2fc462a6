import Verif.Proofs.SourceList

/-!
# The body of a message from its source
-/

namespace Sml.C

/-! ## Members that stay NULL

For a tag that is not known the C code leaves `data` as it is; the model writes NULL, which is what is there. -/

/-- `p` leaves what was there before. -/
def Frames (N : Nat) (p : P β) : Prop := ∀ st h b st' h', N ≤ h.next → p st h = .ok b st' h' → N ≤ h'.next ∧ ∀ a, a < N → h'.cells a = h.cells a

theorem Frames.bind {k : α → P β} (hp : Frames N p) (hk : ∀ a, Frames N (k a)) : Frames N (p >>= k) := by
  intro st h b st' h' hn hr
  replace hr := P_bind_eq_ok hr
  obtain ⟨a, s, h1, e1, hr⟩ := hr
  obtain ⟨n1, c1⟩ := hp _ _ _ _ _ hn e1
  obtain ⟨n2, c2⟩ := hk a _ _ _ _ _ n1 hr
  exact ⟨n2, fun a ha => (c2 a ha).trans (c1 a ha)⟩

theorem Frames.ite {p q : P β} (c : Prop) [Decidable c] (hp : Frames N p) (hq : Frames N q) : Frames N (if c then p else q) := by
  split <;> assumption

theorem Frames.pure {a : β} : Frames N (pure a : P β) := by
  intro st h b st' h' hn hr
  cases hr
  exact ⟨hn, fun _ _ => rfl⟩

theorem Frames.lift {m : M β} : Frames N (lift m) := by
  intro st h b st' h' hn hr
  obtain ⟨_, rfl⟩ := lift_eq_ok hr
  exact ⟨hn, fun _ _ => rfl⟩

theorem Frames.malloc {k : Addr → P β} (hk : ∀ a, N ≤ a → Frames N (k a)) : Frames N (malloc c >>= k) := by
  intro st h b st' h' hn hr
  replace hr := P_bind_eq_ok hr
  obtain ⟨a, s, h1, e1, hr⟩ := hr
  cases e1
  obtain ⟨n2, c2⟩ := hk h.next hn _ _ _ _ _ (Nat.le_succ_of_le hn) hr
  refine ⟨n2, fun a ha => (c2 a ha).trans ?_⟩
  simp only [setCell]
  rw [if_neg (by omega)]

theorem Frames.free (hN : N ≤ a) : Frames N (free a) := by
  intro st h b st' h' hn hr
  unfold Sml.free at hr
  split at hr
  · cases hr
    exact ⟨hn, fun _ _ => rfl⟩
  · split at hr
    · cases hr
      refine ⟨hn, fun x hx => ?_⟩
      simp only [setCell]
      rw [if_neg (by omega)]
    · cases hr

theorem Frames.store (hN : N ≤ a) : Frames N (store a c) := by
  intro st h b st' h' hn hr
  obtain ⟨_, rfl, _, rfl⟩ := store_eq_ok hr
  refine ⟨hn, fun x hx => ?_⟩
  simp only [setCell]
  rw [if_neg (by omega)]

theorem frames_number : Frames N (pNumberParse type w) :=
  .bind .lift fun _ => .ite _ .pure <| .bind .lift fun _ => .ite _ (.bind .lift fun _ => .pure) <| .bind .lift fun _ => .ite _ (.bind .lift fun _ => .pure) <|
    .bind .lift fun _ => .ite _ (.bind .lift fun _ => .pure) <| .malloc fun _ ha => .bind .lift fun _ =>
      .ite _ (.bind .lift fun _ => .bind (.free ha) fun _ => .pure) <| .ite _ (.bind .lift fun _ => .bind (.free ha) fun _ => .pure) <|
        .bind .lift fun _ => .bind .lift fun _ => .bind (.store ha) fun _ => .bind .lift fun _ => .pure

/-- A tag with a case. -/
def bodyTags : List Nat := [256, 257, 512, 513, 768, 769, 1024, 1025, 1280, 1281, 1536, 1792, 1793, 65281]

/-- `sml_message_body_parse` behind the tag, without the write for a tag that is not known. -/
def bodyTail (depth : Nat) (b : Addr) : P Addr :=
  (readPtr b 0 >>= fun tag => readTag 4 tag) >>= fun t =>
    if t.val ∈ bodyTags then pBodyDataParse depth t.val >>= fun d => writePtr b 1 d >>= fun _ => pure b
    else (readPtr b 0 >>= fun tag => readTag 4 tag) >>= fun _ => pure b

theorem body_unknown (ht : t ∉ bodyTags) : pBodyDataParse depth t = pure 0 := by
  simp only [bodyTags, List.mem_cons, not_or, List.not_mem_nil, not_false_eq_true, and_true] at ht
  unfold pBodyDataParse
  simp only [tagOpenRequest, tagOpenResponse, tagCloseRequest, tagCloseResponse, tagGetProfilePackRequest, tagGetProfilePackResponse, tagGetProfileListRequest, tagGetProfileListResponse, tagGetProcParameterRequest, tagGetProcParameterResponse, tagSetProcParameterRequest, tagGetListRequest, tagGetListResponse, tagAttentionResponse, ht, if_false]

/-- What `writePtr b 1 0` leaves if NULL is there. -/
theorem write_same (hc : h.cells b = some (.struct [x, 0] [])) (hr : writePtr b 1 0 st h = .ok u st' h') : st' = st ∧ h' = h := by
  obtain ⟨_, rfl, ps, is, hc', _, rfl⟩ := writePtr_eq_ok hr
  rw [hc] at hc'
  cases hc'
  refine ⟨rfl, ?_⟩
  have : setCell h.cells b (some (.struct ([x, 0].set 1 0) [])) = h.cells := by
    funext a
    simp only [setCell]
    split
    · subst_vars
      exact hc.symm
    · rfl
  rw [this]

theorem bodyTail_eq (hc : h.cells b = some (.struct [x, 0] [])) (hr : (readPtr b 0 >>= fun tag => readTag 4 tag >>= fun t => pBodyDataParse depth t.val >>= fun d => writePtr b 1 d >>= fun _ => pure b) st h = .ok r st' h') :
    bodyTail depth b st h = .ok r st' h' := by
  rw [← P_bind_assoc] at hr
  replace hr := P_bind_eq_ok hr
  obtain ⟨t, s1, h1, e1, hr⟩ := hr
  have hs : s1 = st ∧ h1 = h := by
    obtain ⟨v, s4, h4, e4, e5⟩ := P_bind_eq_ok e1
    obtain ⟨_, rfl, rfl, _⟩ := readPtr_eq_ok e4
    obtain ⟨_, rfl, rfl, _⟩ := readTag_eq_ok e5
    exact ⟨rfl, rfl⟩
  obtain ⟨rfl, rfl⟩ := hs
  unfold bodyTail
  rw [P.bind_ok e1]
  by_cases ht : t.val ∈ bodyTags
  · rw [if_pos ht]
    exact hr
  · rw [if_neg ht, P.bind_ok e1]
    rw [body_unknown ht, P_pure_bind] at hr
    replace hr := P_bind_eq_ok hr
    obtain ⟨u, s2, h2, e2, hr⟩ := hr
    obtain ⟨rfl, rfl⟩ := write_same hc e2
    exact hr

/-- `buf->cursor + 1 > buf->buffer_len` -/
theorem Sem.pastEnd {k k' : P β} (h0 : env 0 = K.buf) (ht : Sem K body (A ++ ss) env anySt k vl post) (hf : Sem K body ss env anySt k' vl post) :
    Sem K body (.ite (.bin .gt (.bin .add (.ldInt .u64 (.var 0) 1) (.lit .i32 1)) (.ldInt .u64 (.var 0) 0)) A [] :: ss) env anySt
      (lift getSt >>= fun st => if st.cursor + 1 > st.data.length then k else k') vl post := by
  intro st h hi hp b st' h' hr
  replace hr := P_bind_eq_ok hr
  obtain ⟨s, s1, h1, e, hr⟩ := hr
  obtain ⟨rfl, rfl, rfl⟩ := getSt_eq_ok e
  have hx : EvalTo (.bin .gt (.bin .add (.ldInt .u64 (.var 0) 1) (.lit .i32 1)) (.ldInt .u64 (.var 0) 0)) env (conc K s1 h1) (ofBool (decide (s1.cursor + 1 > s1.data.length))) env (conc K s1 h1) := by
    exact ev_noRoom K h0 hi.good (k := 1) .lit (by omega)
  by_cases hc : s1.cursor + 1 > s1.data.length
  · rw [if_pos hc] at hr
    obtain ⟨i2, q2, r2⟩ := ht.run hi trivial hr
    refine ⟨i2, q2, RunTo.ite hx (truth_pos hc) ?_⟩
    exact r2
  · rw [if_neg hc] at hr
    obtain ⟨i2, q2, r2⟩ := hf.run hi trivial hr
    refine ⟨i2, q2, RunTo.ite hx (truth_neg hc) ?_⟩
    exact r2

theorem bodyTail_sem (depth : Nat) (h0 : env 0 = K.buf) (h1 : env 1 = ptrVal b) :
    Sem K body (.switch (.deref .u32 (.ldPtr (.var 1) 0)) [
      .case 256,
      .stPtr (.var 1) 1 (.call .sml_open_request_parse [.var 0]),
      .brk,
      .case 257,
      .stPtr (.var 1) 1 (.call .sml_open_response_parse [.var 0]),
      .brk,
      .case 512,
      .stPtr (.var 1) 1 (.call .sml_close_request_parse [.var 0]),
      .brk,
      .case 513,
      .stPtr (.var 1) 1 (.call .sml_close_response_parse [.var 0]),
      .brk,
      .case 768,
      .stPtr (.var 1) 1 (.call .sml_get_profile_pack_request_parse [.var 0]),
      .brk,
      .case 769,
      .stPtr (.var 1) 1 (.call .sml_get_profile_pack_response_parse [.var 0]),
      .brk,
      .case 1024,
      .stPtr (.var 1) 1 (.call .sml_get_profile_pack_request_parse [.var 0]),
      .brk,
      .case 1025,
      .stPtr (.var 1) 1 (.call .sml_get_profile_list_response_parse [.var 0]),
      .brk,
      .case 1280,
      .stPtr (.var 1) 1 (.call .sml_get_proc_parameter_request_parse [.var 0]),
      .brk,
      .case 1281,
      .stPtr (.var 1) 1 (.call .sml_get_proc_parameter_response_parse [.var 0]),
      .brk,
      .case 1536,
      .stPtr (.var 1) 1 (.call .sml_set_proc_parameter_request_parse [.var 0]),
      .brk,
      .case 1792,
      .stPtr (.var 1) 1 (.call .sml_get_list_request_parse [.var 0]),
      .brk,
      .case 1793,
      .stPtr (.var 1) 1 (.call .sml_get_list_response_parse [.var 0]),
      .brk,
      .case 65281,
      .stPtr (.var 1) 1 (.call .sml_attention_response_parse [.var 0]),
      .brk,
      .dflt,
      .print [.deref .u32 (.ldPtr (.var 1) 0)],
      .brk] :: .ret (.var 1) :: ss) env anySt (bodyTail depth b) ptrVal anyRes := by
  refine Sem.switch (ESem.deref (ESem.ldPtr h1) rfl conv_u32_nat) (fun _ => rfl) fun t => ?_
  have hd : ∀ {f p}, ParseSpec f p → ∀ {body}, Sem K body (.stPtr (.var 1) 1 (.call f [.var 0]) :: .ret (.var 1) :: ss) env anySt
      (p >>= fun d => writePtr b 1 d >>= fun _ => pure b) ptrVal anyRes :=
    fun hf _ => Sem.stPtr (ESem.callBuf h0 hf) h1 fun _ => Sem.retPtr h1
  by_cases h256 : t.val = 256
  · rw [h256]
    exact ⟨[.stPtr (.var 1) 1 (.call .sml_open_request_parse [.var 0])], ⟨rfl, .inr ⟨_, rfl⟩⟩, hd openRequestParse_src⟩
  by_cases h257 : t.val = 257
  · rw [h257]
    exact ⟨[.stPtr (.var 1) 1 (.call .sml_open_response_parse [.var 0])], ⟨rfl, .inr ⟨_, rfl⟩⟩, hd openResponseParse_src⟩
  by_cases h512 : t.val = 512
  · rw [h512]
    exact ⟨[.stPtr (.var 1) 1 (.call .sml_close_request_parse [.var 0])], ⟨rfl, .inr ⟨_, rfl⟩⟩, hd closeRequestParse_src⟩
  by_cases h513 : t.val = 513
  · rw [h513]
    exact ⟨[.stPtr (.var 1) 1 (.call .sml_close_response_parse [.var 0])], ⟨rfl, .inr ⟨_, rfl⟩⟩, hd closeResponseParse_src⟩
  by_cases h768 : t.val = 768
  · rw [h768]
    exact ⟨[.stPtr (.var 1) 1 (.call .sml_get_profile_pack_request_parse [.var 0])], ⟨rfl, .inr ⟨_, rfl⟩⟩, hd (packRequestParse_src depth)⟩
  by_cases h769 : t.val = 769
  · rw [h769]
    exact ⟨[.stPtr (.var 1) 1 (.call .sml_get_profile_pack_response_parse [.var 0])], ⟨rfl, .inr ⟨_, rfl⟩⟩, hd packResponseParse_src⟩
  by_cases h1024 : t.val = 1024
  · rw [h1024]
    exact ⟨[.stPtr (.var 1) 1 (.call .sml_get_profile_pack_request_parse [.var 0])], ⟨rfl, .inr ⟨_, rfl⟩⟩, hd (packRequestParse_src depth)⟩
  by_cases h1025 : t.val = 1025
  · rw [h1025]
    exact ⟨[.stPtr (.var 1) 1 (.call .sml_get_profile_list_response_parse [.var 0])], ⟨rfl, .inr ⟨_, rfl⟩⟩, hd listResponseProfileParse_src⟩
  by_cases h1280 : t.val = 1280
  · rw [h1280]
    exact ⟨[.stPtr (.var 1) 1 (.call .sml_get_proc_parameter_request_parse [.var 0])], ⟨rfl, .inr ⟨_, rfl⟩⟩, hd procParameterRequestParse_src⟩
  by_cases h1281 : t.val = 1281
  · rw [h1281]
    exact ⟨[.stPtr (.var 1) 1 (.call .sml_get_proc_parameter_response_parse [.var 0])], ⟨rfl, .inr ⟨_, rfl⟩⟩, hd (procParameterResponseParse_src depth)⟩
  by_cases h1536 : t.val = 1536
  · rw [h1536]
    exact ⟨[.stPtr (.var 1) 1 (.call .sml_set_proc_parameter_request_parse [.var 0])], ⟨rfl, .inr ⟨_, rfl⟩⟩, hd (setProcParameterRequestParse_src depth)⟩
  by_cases h1792 : t.val = 1792
  · rw [h1792]
    exact ⟨[.stPtr (.var 1) 1 (.call .sml_get_list_request_parse [.var 0])], ⟨rfl, .inr ⟨_, rfl⟩⟩, hd getListRequestParse_src⟩
  by_cases h1793 : t.val = 1793
  · rw [h1793]
    exact ⟨[.stPtr (.var 1) 1 (.call .sml_get_list_response_parse [.var 0])], ⟨rfl, .inr ⟨_, rfl⟩⟩, hd getListResponseParse_src⟩
  by_cases h65281 : t.val = 65281
  · rw [h65281]
    exact ⟨[.stPtr (.var 1) 1 (.call .sml_attention_response_parse [.var 0])], ⟨rfl, .inr ⟨_, rfl⟩⟩, hd (attentionResponseParse_src depth)⟩
  have hu : t.val ∉ bodyTags := by
    simp only [bodyTags, List.mem_cons, not_or, List.not_mem_nil, not_false_eq_true, and_true]
    exact ⟨h256, h257, h512, h513, h768, h769, h1024, h1025, h1280, h1281, h1536, h1792, h1793, h65281⟩
  rw [if_neg hu]
  refine ⟨[.print [.deref .u32 (.ldPtr (.var 1) 0)]], ⟨rfl, .inr ⟨[], pick_dflt ?_⟩⟩, ?_⟩
  · simp only [hasCase, Bool.or_eq_false_iff, decide_eq_false_iff_not, and_true]
    omega
  · exact Sem.step (SSem.print (ESem.deref (ESem.ldPtr (pre := anySt) (a := b) h1) rfl conv_u32_nat)) fun _ => Sem.retPtr h1

/-- The structure is there and `data` is NULL. -/
def BodyAt (b : Addr) (h : Heap) : Prop := b < h.next ∧ ∃ x, h.cells b = some (.struct [x, 0] [])

def BodyKeeps (b : Addr) (p : P β) : Prop := ∀ st h r st' h', BodyAt b h → p st h = .ok r st' h' → BodyAt b h'

def Follows (b : Addr) (p q : P β) : Prop := ∀ st h r st' h', BodyAt b h → p st h = .ok r st' h' → q st h = .ok r st' h'

theorem Follows.same : Follows b p p := fun _ _ _ _ _ _ h => h

theorem Follows.bind {k k' : α → P β} (hp : BodyKeeps b p) (hk : ∀ a, Follows b (k a) (k' a)) : Follows b (p >>= k) (p >>= k') := by
  intro st h r st' h' hb hr
  replace hr := P_bind_eq_ok hr
  obtain ⟨a, s, h1, e1, hr⟩ := hr
  rw [P.bind_ok e1]
  exact hk a _ _ _ _ _ (hp _ _ _ _ _ hb e1) hr

theorem Follows.ite {p q p' q' : P β} (c : Prop) [Decidable c] (hp : Follows b p p') (hq : Follows b q q') : Follows b (if c then p else q) (if c then p' else q') := by
  split <;> assumption

theorem BodyKeeps.lift {m : M β} : BodyKeeps b (lift m) := by
  intro st h r st' h' hb hr
  obtain ⟨_, rfl⟩ := lift_eq_ok hr
  exact hb

theorem BodyKeeps.number : BodyKeeps b (pNumberParse type w) := by
  intro st h r st' h' hb hr
  obtain ⟨n1, c1⟩ := frames_number (N := b + 1) _ _ _ _ _ hb.1 hr
  exact ⟨n1, by rw [c1 b (by omega)]; exact hb.2⟩

theorem BodyKeeps.write : BodyKeeps b (writePtr b 0 v) := by
  intro st h r st' h' hb hr
  obtain ⟨_, rfl, ps, is, hc, _, rfl⟩ := writePtr_eq_ok hr
  obtain ⟨hn, x, hx⟩ := hb
  rw [hx] at hc
  cases hc
  exact ⟨hn, v, by simp only [setCell, if_true]; rfl⟩

/-- `sml_message_body_parse` without the write for a tag that is not known. -/
def bodyParse (depth : Nat) : P Addr :=
  malloc (.struct [0, 0] []) >>= fun b => lift getSt >>= fun st =>
    if st.cursor + 1 > st.data.length then lift setError >>= fun _ => pAbort free b 0
    else pExpectList 2 (pAbort free b 0) <| pU32Parse >>= fun v => writePtr b 0 v >>= fun _ => lift hasErrors >>= fun e => if e then pAbort free b 0 else
      readPtr b 0 >>= fun tag => if tag = 0 then pAbort free b 0 else readTag 4 tag >>= fun t =>
        if t.val ∈ bodyTags then pBodyDataParse depth t.val >>= fun d => writePtr b 1 d >>= fun _ => pure b
        else (readPtr b 0 >>= fun tag => readTag 4 tag) >>= fun _ => pure b

theorem bodyTail_assoc : bodyTail depth b = readPtr b 0 >>= fun tag => readTag 4 tag >>= fun t =>
    if t.val ∈ bodyTags then pBodyDataParse depth t.val >>= fun d => writePtr b 1 d >>= fun _ => pure b
    else (readPtr b 0 >>= fun tag => readTag 4 tag) >>= fun _ => pure b := by
  unfold bodyTail
  rw [P_bind_assoc]

theorem bodyParse_eq (hr : pMessageBodyParse depth st h = .ok r st' h') : bodyParse depth st h = .ok r st' h' := by
  unfold pMessageBodyParse at hr
  replace hr := P_bind_eq_ok hr
  obtain ⟨b, s, h1, e1, hr⟩ := hr
  unfold bodyParse
  rw [P.bind_ok e1]
  have hb : BodyAt b h1 := by
    cases e1
    exact ⟨Nat.lt_succ_self _, 0, by simp only [setCell, if_true]⟩
  refine Follows.bind BodyKeeps.lift (fun st => Follows.ite _ .same ?_) _ _ _ _ _ hb hr
  refine Follows.bind BodyKeeps.lift fun t => Follows.ite _ .same (Follows.bind BodyKeeps.lift fun l => Follows.ite _ .same ?_)
  refine Follows.bind BodyKeeps.number fun v => Follows.bind BodyKeeps.write fun _ => Follows.bind BodyKeeps.lift fun e => Follows.ite _ .same ?_
  intro st h r st' h' hb hr
  replace hr := P_bind_eq_ok hr
  obtain ⟨tag, s1, h1, e1, hr⟩ := hr
  rw [P.bind_ok e1]
  by_cases ht : tag = 0
  · rwa [if_pos ht] at hr ⊢
  · rw [if_neg ht] at hr ⊢
    obtain ⟨_, x, hx⟩ := hb
    have := bodyTail_eq (st := st) hx ((P.bind_ok e1).trans hr)
    rw [bodyTail_assoc, P.bind_ok e1] at this
    exact this

theorem messageBodyParse_src (depth : Nat) : ParseSpec .sml_message_body_parse (pMessageBodyParse depth) := by
  have key : ParseSpec .sml_message_body_parse (bodyParse depth) := by
    refine ParseSpec.of rfl rfl fun K => ?_
    refine Sem.mallocRec [0, 0] [] (by simp) (fun _ _ _ => rfl) (fun _ _ _ => rfl) fun b => ?_
    have errs : ∀ {pre} ss, Sem K (program .sml_message_body_parse).body ([.goto 0] ++ ss) (upd (envOf [K.buf]) 1 (ptrVal b)) pre (pAbort free b 0) ptrVal anyRes :=
      fun ss => Sem.goto rfl ((Sem.freeVar (by rfl) Sem.retNull))
    refine Sem.pastEnd (by rfl) (Sem.setErr (by rfl) (errs _)) (Sem.expectList (by rfl) 2 (by omega) errs ?_)
    refine Sem.stPtr (FieldSpec.num 96 4 (by omega) (by omega) (by omega) _ _ (by rfl)) (by rfl) fun v => ?_
    refine Sem.errOrNull (a := b) (i := 0) (by rfl) (ESem.eqNull (by rfl)) (errs _) ?_
    have := bodyTail_sem (K := K) (body := (program .sml_message_body_parse).body) (env := upd (envOf [K.buf]) 1 (ptrVal b)) (b := b) (ss := [.label 0, .free (.var 1), .ret .null]) depth (by rfl) (by rfl)
    rw [bodyTail_assoc] at this
    exact this
  intro K st h hi hp r st' h' hr
  exact key K st h hi hp r st' h' (bodyParse_eq hr)

end Sml.C
