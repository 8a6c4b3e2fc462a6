import Verif.Proofs.Stale
import Verif.Proofs.WrittenHeader
import Verif.Proofs.Tuple

/-!
# Writing and reading back: C26 to C29; what is written: C30 to C34
-/

namespace Sml

open Spec

/-! ## Sample objects -/

theorem strOk_small {bs : List UInt8} (h : bs ≠ []) (hl : bs.length < 15) (s : Bool) : StrOk s ⟨bs⟩ :=
  ⟨fun _ => h, noCarry_small hl, Nat.lt_trans (Nat.succ_lt_succ hl) (by decide)⟩

theorem numOk_lit {size val : Nat} (h : val < 256 ^ size) (s : Bool) : NumOk s size ⟨size, val⟩ := ⟨Nat.le_refl _, fun _ => ⟨rfl, h⟩⟩

theorem opt_none {P : α → Prop} : Opt P none := by rintro _ ⟨⟩
theorem opt_some {P : α → Prop} {a : α} (h : P a) : Opt P (some a) := by rintro _ ⟨⟩; exact h

/-- An entry with a counter of 1234.5 Wh. -/
def sampleEntry : ListEntry :=
  { objName := some ⟨[1, 0, 1, 8, 0, 0xFF]⟩, status := some ⟨0x64, some ⟨4, 0x182⟩⟩, valTime := some ⟨some ⟨1, 1⟩, some ⟨4, 0x5E⟩⟩,
    unit := some ⟨1, 30⟩, scaler := some ⟨1, 0xFF⟩, value := some ⟨0x58, .num (some ⟨8, 12345⟩)⟩, valueSignature := none }

theorem sampleEntry_ok (s : Bool) : ListEntryOk s sampleEntry :=
  ⟨opt_some (strOk_small (by simp) (by decide) s), opt_some ⟨4, by decide, rfl, opt_some (numOk_lit (by decide) s), by simp⟩,
    opt_some ⟨opt_some (numOk_lit (by decide) s), opt_some (numOk_lit (by decide) s), by simp⟩, opt_some (numOk_lit (by decide) s),
    opt_some (numOk_lit (by decide) s), opt_some ⟨8, by decide, Or.inl rfl, opt_some (numOk_lit (by decide) s), by simp⟩, opt_none⟩

/-- The manufacturer, as text. -/
def sampleEntry2 : ListEntry :=
  { objName := some ⟨[0x81, 0x81, 0xC7, 0x82, 0x03, 0xFF]⟩, value := some ⟨0x00, .bytes (some ⟨[0x45, 0x4D, 0x48]⟩)⟩ }

theorem sampleEntry2_ok (s : Bool) : ListEntryOk s sampleEntry2 :=
  ⟨opt_some (strOk_small (by simp) (by decide) s), opt_none, opt_none, opt_none, opt_none,
    opt_some ⟨rfl, opt_some (strOk_small (by simp) (by decide) s), by simp⟩, opt_none⟩

theorem sampleList_ok (s : Bool) : ListOk s [sampleEntry, sampleEntry2] := by
  refine ⟨by decide, ?_, fun _ => ?_⟩
  · intro e he
    simp only [List.mem_cons, List.not_mem_nil, or_false] at he
    rcases he with rfl | rfl
    · exact sampleEntry_ok s
    · exact sampleEntry2_ok s
  · simp only [List.pairwise_cons, List.not_mem_nil, false_implies, implies_true, List.Pairwise.nil, and_true, List.mem_singleton, forall_eq]
    rintro ⟨h, _⟩
    revert h
    unfold IsDzgSerial sampleEntry
    simp

/-- A list response with these entries. -/
def sampleMessage : Message :=
  { transactionId := some ⟨[0x01, 0x02]⟩, groupId := some ⟨1, 0⟩, abortOnError := some ⟨1, 0⟩,
    messageBody := some { tag := some ⟨4, 0x701⟩, data := .getListResponse (some { serverId := some ⟨[0x0A, 0x01]⟩, valList := [sampleEntry, sampleEntry2] }) },
    crc := none }

theorem sampleMessage_ok (s : Bool) : MessageOk s sampleMessage :=
  ⟨opt_some (strOk_small (by simp) (by decide) s), opt_some (numOk_lit (by decide) s), opt_some (numOk_lit (by decide) s),
    _, rfl, _, rfl, numOk_lit (by decide) s, rfl, _, rfl, opt_none, opt_some (strOk_small (by simp) (by decide) s), opt_none, opt_none, sampleList_ok s, opt_none, opt_none⟩

/-- A tree of two levels; its leaf holds a time. -/
def sampleTree : Tree := .mk (some ⟨[0x81, 0x00]⟩) none [.mk (some ⟨[0x81, 0x01]⟩) (some ⟨some ⟨1, 4⟩, .time (some ⟨some ⟨1, 1⟩, some ⟨4, 7⟩⟩)⟩) []]

theorem sampleTree_ok (s : Bool) : TreeFits s sampleTree := by
  refine .mk (opt_some (strOk_small (by simp) (by decide) s)) opt_none (by decide) ?_
  intro c hc
  simp only [List.mem_singleton] at hc
  subst hc
  refine .mk (opt_some (strOk_small (by simp) (by decide) s)) (opt_some ?_) (by decide) (by simp)
  exact ⟨_, rfl, numOk_lit (by decide) s, rfl, opt_some ⟨opt_some (numOk_lit (by decide) s), opt_some (numOk_lit (by decide) s), by simp⟩⟩

/-! ## C26 -/

/-- C26: lists of at most 15 entries, none of which the DZG workaround changes. -/
theorem c26_list (es : List ListEntry) (h : ListOk true es) :
    RoundTrips (listWrite es) listParse es (enc (listTerm es)) (listBlocks es) :=
  roundTrips (emits_listW true es h) (reads_list es h)

example : ListOk true [sampleEntry, sampleEntry2] ∧ (enc (listTerm [sampleEntry, sampleEntry2])).length = 53 := ⟨sampleList_ok true, by decide +kernel⟩

/-- The list parser delivers nothing or as many entries as announced. -/
theorem listLoop_length (n : Nat) : ∀ (wa : Bool) (acc : List ListEntry) (st : St) (es : List ListEntry) (s : St),
    listLoop n wa acc st = .ok es s → es = [] ∨ es.length = acc.length + n := by
  induction n with
  | zero =>
    intro wa acc st es s h
    unfold listLoop at h
    cases h
    exact Or.inr rfl
  | succ n ih =>
    intro wa acc st es s h
    unfold listLoop at h
    rw [run_bind] at h
    cases hp : listEntryParse wa st with
    | ub r => rw [hp] at h; cases h
    | ok e s1 =>
      rw [hp] at h
      simp only [Res.andThen_ok] at h
      rw [run_bind, run_hasErrors, Res.andThen_ok] at h
      by_cases he : s1.error = true
      · rw [if_pos he, run_bind, run_setError, Res.andThen_ok, run_bind] at h
        unfold release at h
        split at h
        · cases h; exact Or.inl rfl
        · cases h
      · rw [if_neg he] at h
        cases e with
        | none => cases h
        | some p =>
          rcases ih _ _ _ _ _ h with h | h
          · exact Or.inl h
          · right; rw [h]; simp; omega

/-- C26: a list of 16 or more entries does not read back, whatever the entries and whatever follows. (The
first bytes of the memory written to are zero.) -/
theorem c26_long_lists (es : List ListEntry) (h16 : 16 ≤ es.length) (hlen : es.length + 1 < 16 ^ 6) (hok : ∀ e ∈ es, ListEntryOk false e)
    (st st' : St) (hc : st.cursor ≤ st.data.length) (hz : ∀ b ∈ (st.data.drop st.cursor).take 6, b = 0) (hw : listWrite es st = .ok () st') :
    ∀ s, listParse { st' with cursor := st.cursor } ≠ .ok es s := by
  obtain ⟨k, v, hk, hk6, hv, hE, hcase⟩ := emits_header (ty := 7) (by decide) hlen
  have hne : v ≠ es.length := by
    simp only [spelled, if_true] at hcase
    rcases hcase with ⟨h1, _⟩ | ⟨_, h2, _, _, h3⟩ | ⟨_, h2, _, _, h3⟩
    · omega
    · omega
    · have : k < 16 ^ k := Nat.lt_pow_self (by decide)
      omega
  have hcells : (hdrCells (headerBytes 7 v k k)).length = k := by rw [← bytes_length, bytes_hdr, headerBytes_length]
  have hempty : es ≠ [] := by rintro rfl; simp at h16
  have hEmit := emits_bind hE (emits_listLoop false es hok)
  unfold listWrite at hw
  rw [if_neg hempty] at hw
  rw [show tyList = 16 * 7 from rfl, hEmit st hc] at hw
  split at hw
  next hfit =>
    cases hw
    simp only [List.length_append, hcells] at hfit
    have hd : ∃ rest, (place (hdrCells (headerBytes 7 v k k) ++ cellsAll (es.map listEntryTerm)) st).data.drop st.cursor = headerBytes 7 v k k ++ rest := by
      unfold place
      simp only
      rw [List.drop_append_of_le_length (by simp; omega), List.drop_of_length_le (by simp; omega), List.nil_append,
        paint_append _ _ _ (by simp only [hcells, List.length_drop]; omega),
        paint_neutral _ _ (by simp only [hcells, List.length_drop]; omega) (neutral_covered _ _ (by
          rw [bytes_hdr]
          refine zeros_covered _ _ ?_
          rw [headerBytes_length]
          intro b hb
          refine hz b ?_
          have : k = Nat.min k 6 := (Nat.min_eq_left hk6).symm
          rw [this, show Nat.min k 6 = min k 6 from rfl, ← List.take_take] at hb
          exact List.mem_of_mem_take hb))]
      rw [bytes_hdr, List.take_append_of_le_length (by rw [hcells, headerBytes_length]; exact Nat.le_refl _), List.take_of_length_le (by rw [hcells, headerBytes_length]; exact Nat.le_refl _)]
      exact ⟨_, rfl⟩
    obtain ⟨rest, hd⟩ := hd
    generalize hst : ({ place (hdrCells (headerBytes 7 v k k) ++ cellsAll (es.map listEntryTerm)) st with cursor := st.cursor } : St) = s0
    have hd0 : s0.data.drop s0.cursor = headerBytes 7 v k k ++ rest := by rw [← hst]; exact hd
    have hnn : headerBytes 7 v k k ≠ [] := by
      intro h
      have := headerBytes_length 7 v k k
      rw [h] at this
      simp at this
      omega
    have hty := headerBytes_type 7 v k (by decide) hk
    obtain ⟨b, bs, hb⟩ := List.exists_cons_of_ne_nil hnn
    have hb1 : b ≠ 1 := by
      rintro rfl
      rw [hb] at hty
      simp [headerType] at hty
    have hval : headerValue (headerBytes 7 v k k) = v := by
      unfold headerValue
      rw [headerBytes_value, Nat.mod_eq_of_lt hv]
      simp
    have hgl := getNextLength_spec (headerBytes_tail 7 v k (by decide) k hk) hd0
      (by rw [hval]; exact Nat.lt_of_lt_of_le hv (Nat.le_trans (Nat.pow_le_pow_right (by decide) hk6) (by decide)))
      (by rw [headerBytes_length]; omega)
    have hhl : headerLength (headerBytes 7 v k k) = v := by
      unfold headerLength
      rw [hty, if_pos rfl, hval]
    intro s h
    unfold listParse at h
    rw [run_bind, run_notSkipped (by rw [hd0, hb]; rfl) hb1, Res.andThen_ok, if_neg (by decide), run_bind, reads_type hnn hty hd0, Res.andThen_ok,
      if_neg (by decide), run_bind, hgl, Res.andThen_ok, hhl] at h
    rcases listLoop_length _ _ _ _ _ _ h with h | h
    · exact hempty h
    · simp at h; omega
  next => cases hw

example : 16 ≤ (List.replicate 16 sampleEntry2).length ∧ (∀ e ∈ List.replicate 16 sampleEntry2, ListEntryOk false e) ∧
    (match listWrite (List.replicate 16 sampleEntry2) { data := List.replicate 400 0 } with | .ok _ s => s.data.take 3 | .ub _ => []) = [0xF1, 0x01, 0x77] :=
  ⟨by decide, fun e he => by rw [List.eq_of_mem_replicate he]; exact sampleEntry2_ok false, by decide +kernel⟩

/-! ## C27 -/

/-- C27: trees of any depth and shape, provided the stack has room for their levels. -/
theorem c27_tree (depth : Nat) (o : Option Tree) (h : Opt (TreeFits true) o) (h0 : 0 < depth) (hd : (o.map treeDepth).getD 0 ≤ depth) :
    RoundTrips (treeWrite o) (treeParse depth) o (enc (opt treeTerm o)) (own Tree.blocks o) :=
  roundTrips (emits_tree true o h) (reads_tree o h h0 hd)

example : TreeFits true sampleTree ∧ treeDepth sampleTree = 2 ∧ enc (treeTerm sampleTree) =
    [0x73, 0x03, 0x81, 0x00, 0x01, 0x71, 0x73, 0x03, 0x81, 0x01, 0x72, 0x62, 0x04, 0x72, 0x62, 0x01, 0x65, 0, 0, 0, 7, 0x01] := ⟨sampleTree_ok true, by decide, by decide +kernel⟩

/-- C27: paths of 1 to 15 entries. -/
theorem c27_path (o : Option TreePath) (h : Opt (PathOk true) o) :
    RoundTrips (treePathWrite o) treePathParse o (enc (opt pathTerm o)) (own TreePath.blocks o) :=
  roundTrips (emits_path true o h) (reads_path o h)

example : PathOk true ⟨[some ⟨[1]⟩, some ⟨[2, 3]⟩]⟩ := by
  refine ⟨by simp, by decide, ?_⟩
  intro e he
  simp only [List.mem_cons, List.not_mem_nil, or_false] at he
  rcases he with rfl | rfl
  · exact ⟨opt_some (strOk_small (by simp) (by decide) true), fun _ => rfl⟩
  · exact ⟨opt_some (strOk_small (by simp) (by decide) true), fun _ => rfl⟩

/-- C27: a tree that contains a tuple entry anywhere does not read back: it can be written (into zeroed memory), but
whenever the parser returns from what was written, it reports an error, whatever follows. -/
theorem c27_tupel (t : Tree) (h : TreeFitsTupel true t) (ht : HasTupel t) :
    ∃ bs : List UInt8, ∀ st : St, st.error = false → st.cursor + bs.length ≤ st.data.length → (∀ b ∈ st.data.drop st.cursor, b = 0) →
      ∃ st', treeWrite (some t) st = .ok () st' ∧ (st'.data.drop st.cursor).take bs.length = bs ∧ st'.cursor = st.cursor + bs.length ∧
        ∀ depth r s, treeDepth t ≤ depth → treeParse depth { st' with cursor := st.cursor } = .ok r s → s.error = true := by
  obtain ⟨cs, hcs, hcase⟩ := tupel_tree h
  have hf : ∀ depth, treeDepth t ≤ depth → Fails (treeParse depth) (bytes cs) := by
    rcases hcase with ⟨hfit, _⟩ | hf
    · exact absurd hfit (hasTupel_unfit ht)
    · exact hf
  refine ⟨bytes cs, fun st he hfit hz => ?_⟩
  have hl := bytes_length cs
  have hpl := place_neutral cs st (by omega) (neutral_covered _ _ (zeros_covered _ _ fun b hb => hz b (List.mem_of_mem_take hb)))
  have hd : (place cs st).data.drop st.cursor = bytes cs ++ st.data.drop (st.cursor + (bytes cs).length) := by
    rw [hpl]
    unfold overwrite
    rw [List.append_assoc, List.drop_append_of_le_length (by simp; omega), List.drop_of_length_le (by simp; omega), List.nil_append]
  refine ⟨place cs st, ?_, ?_, ?_, ?_⟩
  · show treeWrite1 t st = _
    rw [hcs st (by omega), if_pos (by omega)]
  · rw [hd]; simp
  · rw [hl]; rfl
  · intro depth r s hdep hp
    exact (hf depth hdep).2 { place cs st with cursor := st.cursor } _ hd he r s hp

example : TreeFitsTupel true (.mk none none [.mk (some ⟨[1]⟩) (some { tag := some ⟨1, 3⟩, data := .tupelEntry (some { serverId := some ⟨[1, 2]⟩ }) }) []]) ∧
    HasTupel (.mk none none [.mk (some ⟨[1]⟩) (some { tag := some ⟨1, 3⟩, data := .tupelEntry (some { serverId := some ⟨[1, 2]⟩ }) }) []]) := by
  refine ⟨.mk opt_none opt_none (by decide) ?_, .child (List.mem_singleton.2 rfl) .here⟩
  intro c hc
  simp only [List.mem_singleton] at hc
  subst hc
  refine .mk (opt_some (strOk_small (by simp) (by decide) true)) (opt_some (Or.inr ⟨_, _, rfl, numOk_lit (by decide) true, rfl, ?_⟩)) (by decide) (by simp)
  refine ⟨opt_some (strOk_small (by simp) (by decide) true), ?_⟩
  simp [opt_none]

/-! ## C28 -/

/-- C28: message bodies of all fourteen kinds (`MessageBodyOk` lists them). -/
theorem c28_message_body (depth : Nat) (b : MessageBody) (h : MessageBodyOk true b) (h0 : 0 < depth) (hd : bodyDepth b.data ≤ depth) :
    RoundTrips (messageBodyWrite (some b)) (messageBodyParse depth) (some b) (enc (messageBodyTerm b)) b.blocks :=
  roundTrips (emits_messageBody true b h) (reads_messageBody b h h0 hd)

/-- The hypotheses can be met: a list response and a request to set parameters. -/
example : MessageBodyOk true { tag := some ⟨4, 0x600⟩, data := .setProcParameterRequest (some { serverId := some ⟨[0x0A]⟩, parameterTreePath := some ⟨[some ⟨[0x81, 0x00]⟩]⟩, parameterTree := some sampleTree }) } ∧
    bodyDepth (.setProcParameterRequest (some { serverId := some ⟨[0x0A]⟩, parameterTreePath := some ⟨[some ⟨[0x81, 0x00]⟩]⟩, parameterTree := some sampleTree })) = 2 := by
  refine ⟨⟨_, rfl, numOk_lit (by decide) true, rfl, _, rfl, opt_some (strOk_small (by simp) (by decide) true), opt_none, opt_none, opt_some ⟨by simp, by decide, ?_⟩, opt_some (sampleTree_ok true)⟩, by decide⟩
  intro e he
  simp only [List.mem_cons, List.not_mem_nil, or_false] at he
  subst he
  exact ⟨opt_some (strOk_small (by simp) (by decide) true), fun _ => rfl⟩

/-! ## C29 -/

/-- C29: a file is written from the start of the buffer; what was written is given to the parser. -/
theorem c29_file (depth : Nat) (ms : List Message) (hok : ∀ m ∈ ms, MessageOk true m ∧ messageDepth m ≤ depth) (h0 : 0 < depth)
    (hcnt : ms.length ≤ 32767) (st : St) (hst : st.cursor = 0) (hfit : (fileBytes ms).length ≤ st.data.length) (hi : st.data.length ≤ 2147483647)
    (hcov : Covered st.data (fileBytes ms)) :
    ∃ st' s, fileWrite { messages := ms } st = .ok { messages := ms.map sealed } st' ∧
      fileParse depth (st'.data.take st'.cursor) = .ok { messages := ms.map sealed } s ∧ s.error = false ∧ s.live = ({ messages := ms.map sealed } : File).blocks := by
  have hov : (overwrite st (fileBytes ms)).take (fileBytes ms).length = fileBytes ms := by
    have := overwrite_take st (fileBytes ms) (by omega)
    rw [hst] at this
    simpa using this
  have hp : fileParse depth (fileBytes ms) = _ :=
    run_fileLoop (depth := depth) 0 (ms.map fun m => (checksum m, m)) ((fileBytes ms).length + 1) { messages := [] } { data := fileBytes ms, live := 3 }
      (by
        intro p hp
        obtain ⟨m, hm, rfl⟩ := List.mem_map.1 hp
        exact ⟨(hok m hm).1, (hok m hm).2, Or.inl (checksum_eq m)⟩) h0
      (by
        simp only [List.length_map, Nat.add_zero]
        have : ∀ l : List Message, l.length ≤ (fileBytes l).length := by
          intro l
          induction l with
          | nil => simp
          | cons m l ih => rw [fileBytes_cons, List.length_append, List.length_cons, messageBytes_length]; omega
        exact Nat.lt_succ_of_le (this ms))
      (by simpa using hcnt) (by simp [fileBytes, Function.comp_def]) (Nat.zero_le _) rfl (by simp only; omega)
  refine ⟨{ st with data := overwrite st (fileBytes ms), cursor := (fileBytes ms).length, live := st.live + ms.length }, ?_⟩
  refine ⟨{ ({ data := fileBytes ms, live := 3 } : St) with cursor := (fileBytes ms).length, live := ({ messages := ms.map sealed } : File).blocks }, ?_, ?_, rfl, rfl⟩
  · unfold fileWrite
    rw [run_bind, run_fileWriteLoop_clean true ms st (fun m hm => (hok m hm).1) (by omega) hi (by rw [hst]; exact hcov), Res.andThen_ok, run_pure, hst]
    simp
  · simp only
    rw [hov, hp]
    simp only [List.map_map, Function.comp_def, List.nil_append]
    congr 2
    unfold File.blocks sealed
    cases ms <;> simp [Function.comp_def]

example : (∀ m ∈ [sampleMessage, sampleMessage], MessageOk true m ∧ messageDepth m ≤ 1) ∧ (fileBytes [sampleMessage, sampleMessage]).length = 160 ∧
    Covered (List.replicate 512 0) (fileBytes [sampleMessage, sampleMessage]) := by
  refine ⟨?_, by decide +kernel, zeros_covered _ _ ?_⟩
  · intro m hm
    simp only [List.mem_cons, List.not_mem_nil, or_false, or_self] at hm
    subst hm
    exact ⟨sampleMessage_ok true, by decide⟩
  · intro b hb
    exact List.eq_of_mem_replicate (List.mem_of_mem_take hb)

end Sml
