import Verif.Proofs.HeapBuildObjects
import Verif.Proofs.Typed
import Verif.Props.HeapWrite
import Verif.Props.RoundTrip
import Verif.Props.Fields

/-!
# Sending what was built with the constructors: C62

A client describes the messages it wants to send (`Draft`) and builds them on the addressed heap with the constructors of the
library (`Verif.Spec.Client`); the file is sent and freed.
-/

namespace Sml

open Spec

theorem Heap.Wf.own {h : Heap} (hw : h.Wf) : Own h.next h.cells h [] where
  pos := hw.1
  le := Nat.le_refl _
  base := hw.2
  nodup := List.nodup_nil
  key := by simp
  mem := by simp
  rest := fun _ _ => rfl

/-- C62: every description that fits into the types of C can be built on any heap: the constructors and `add` functions are called
without a bad access, the result is the file that was meant, in new blocks that are all different; nothing else changes. -/
theorem c62_built (h : Heap) (hw : h.Wf) (ds : List Draft) (hd : ∀ d ∈ ds, DraftTyped d) (hl : ds.length ≤ 32767) (st : St) :
    ∃ a h' B, cFile ds st h = .ok a st h' ∧ RFile (List.replicate 512 0) { messages := ds.map Draft.result } a B ∧
      (∀ x ∈ B, h'.cells x.1 = some x.2 ∧ h.next ≤ x.1) ∧ (B.map Prod.fst).Nodup ∧ ∀ x, x ∉ B.map Prod.fst → h'.cells x = h.cells x := by
  obtain ⟨a, h', B, e, hr, o, _⟩ := builds_file ds hd hl st _ _ h [] hw.own
  rw [List.append_nil] at o
  exact ⟨a, h', B, e, hr, fun x hx => ⟨o.mem x hx, (o.key x hx).1⟩, o.nodup, o.rest⟩

theorem Own.empty (o : Own n0 c0 h []) : h.cells = c0 := funext fun x => o.rest x (by simp)

/-- C62: `sml_file_free` takes down everything that was built: the heap is as before. -/
theorem c62_free (h : Heap) (hw : h.Wf) (ds : List Draft) (hd : ∀ d ∈ ds, DraftTyped d) (hl : ds.length ≤ 32767) (st : St) :
    ∃ a h1 h2, cFile ds st h = .ok a st h1 ∧ pFileFree a st h1 = .ok () st h2 ∧ h2.cells = h.cells := by
  obtain ⟨a, h1, B, e, hr, o, l⟩ := builds_file ds hd hl st _ _ h [] hw.own
  obtain ⟨h2, g, e2, o2, l2⟩ := frees_file _ _ a B hr st _ _ h1 [] o
  have hg : g = [] := List.length_eq_zero_iff.mp (by omega)
  subst hg
  exact ⟨a, h1, h2, e, e2, o2.empty⟩

/-- A message that was not written yet needs one block more afterwards. -/
theorem messageFreed1_sealed (m : Message) (h : m.crc = none) (c : Num) :
    messageFreed1 { m with crc := some c } = messageFreed1 m + 1 := by
  rw [messageFreed1, messageFreed1, h]
  simp only [numberFreed]

theorem fileFreed_sealed (ms : List Message) (h : ∀ m ∈ ms, m.crc = none) :
    fileFreed { messages := ms.map sealed } = fileFreed { messages := ms } + ms.length := by
  have hs : ∀ ms : List Message, (∀ m ∈ ms, m.crc = none) → ((ms.map sealed).map messageFreed1).sum = (ms.map messageFreed1).sum + ms.length := by
    intro ms
    induction ms with
    | nil => intro _; rfl
    | cons m ms ih =>
      intro h
      have := ih fun x hx => h x (by simp [hx])
      have h1 : messageFreed1 (sealed m) = messageFreed1 m + 1 := messageFreed1_sealed m (h m (by simp)) _
      simp only [List.map_cons, List.sum_cons, List.length_cons, h1]
      omega
  simp only [fileFreed, hs ms h, List.map_eq_nil_iff]
  split <;> omega

theorem draft_crc {d : Draft} (h : DraftTyped d) : d.result.crc = none := by
  obtain ⟨⟨_, _, _, _, h⟩, _⟩ := h
  rw [Draft.result]
  split <;> exact h

theorem buf_len : (List.replicate 512 (0 : UInt8)).length = 512 := List.length_replicate

/-- C62: messages that can be represented (C36) are built, sent and freed: one call of `sml_transport_write` hands out exactly the frame that
belongs to them, and afterwards no block is left and no other block has changed. -/
theorem c62_send (h : Heap) (hw : h.Wf) (ds : List Draft) (hl : ds.length ≤ 32767)
    (hd : ∀ d ∈ ds, DraftTyped d ∧ MessageOk true d.result)
    (hfit : (sentFrame (fileBytes (ds.map Draft.result))).length ≤ 512) :
    ∃ a h1 st h2 h3, cFile ds { data := List.replicate 512 0 } h = .ok a { data := List.replicate 512 0 } h1 ∧
      pTransportFrame a { data := List.replicate 512 0 } h1 = .ok (sentFrame (fileBytes (ds.map Draft.result))) st h2 ∧
      pFileFree a st h2 = .ok () st h3 ∧ h3.cells = h.cells := by
  obtain ⟨a, h1, B, e, hr, o, l⟩ := builds_file ds (fun d hm => (hd d hm).1) hl { data := List.replicate 512 0 } _ _ h [] hw.own
  have hok : ∀ m ∈ ds.map Draft.result, MessageOk true m := by
    intro m hm
    obtain ⟨d, hdm, rfl⟩ := List.mem_map.mp hm
    exact (hd d hdm).2
  have et := transportFrame_clean true { messages := ds.map Draft.result } hok { data := List.replicate 512 0 } (by rw [buf_len]; decide) (by rw [buf_len]; exact hfit)
    (zeros_covered _ _ fun b hb => by
      have := List.mem_of_mem_take hb
      rw [List.drop_replicate] at this
      exact (List.mem_replicate.1 this).2)
  obtain ⟨p, h2, B', g, e2, ⟨rfl, B1, hr1, hp⟩, o2, l2⟩ := sim_transportFrame hr _ _ _ h1 [] o _ _ et
  have o2' := o2.perm (hp.append_right g)
  obtain ⟨h3, g3, e3, o3, l3⟩ := frees_file _ _ a B1 hr1 _ _ _ h2 g o2'
  refine ⟨a, h1, _, h2, h3, e, e2, e3, ?_⟩
  have hz := fileFreed_sealed (ds.map Draft.result) (by
    intro m hm
    obtain ⟨d, hdm, rfl⟩ := List.mem_map.mp hm
    exact draft_crc (hd d hdm).1)
  have hlp := hp.length_eq
  have hg : g3 ++ g = [] := by
    refine List.length_eq_zero_iff.mp ?_
    rw [List.length_append]
    simp only [begun, List.length_map, List.length_nil] at l2 l3 hz
    omega
  rw [hg] at o3
  exact o3.empty

/-- C62: whoever receives this frame, in any surroundings and with any timing, gets the messages that were meant, with their checksums. -/
theorem c62_received (h : Heap) (hw : h.Wf) (ds : List Draft) (hl : ds.length ≤ 32767) (depth : Nat) (h0 : 0 < depth)
    (hd : ∀ d ∈ ds, DraftTyped d ∧ MessageOk true d.result ∧ messageDepth d.result ≤ depth)
    (hfit : (sentFrame (fileBytes (ds.map Draft.result))).length ≤ 512) (hesc : NoEscape (fileBytes (ds.map Draft.result))) :
    ∃ a h1 out st h2, cFile ds { data := List.replicate 512 0 } h = .ok a { data := List.replicate 512 0 } h1 ∧
      pTransportFrame a { data := List.replicate 512 0 } h1 = .ok out st h2 ∧
      ∀ (fd : Fd) (noise rest : List UInt8) (maxLen : Nat), fd.pending = noise ++ out ++ rest → Harmless noise → (∀ e ∈ fd.sched, e ≠ .fail) →
        out.length < maxLen → maxLen < 4294967288 →
        ∃ fd' s, transportRead fd maxLen = .ok (out, fd') ∧ fd'.pending = rest ∧
          fileParse depth ((out.drop 8).take (out.length - 16)) = .ok { messages := ds.map fun d => sealed d.result } s ∧ s.error = false := by
  obtain ⟨a, h1, st, h2, h3, e1, e2, _⟩ := c62_send h hw ds hl (fun d hm => ⟨(hd d hm).1, (hd d hm).2.1⟩) hfit
  have hz : Covered ((List.replicate 512 (0 : UInt8)).drop 8) (fileBytes (ds.map Draft.result)) := zeros_covered _ _ fun b hb => by
    have := List.mem_of_mem_take hb
    rw [List.drop_replicate] at this
    exact (List.mem_replicate.1 this).2
  have hok : ∀ m ∈ ds.map Draft.result, MessageOk true m ∧ messageDepth m ≤ depth := by
    intro m hm
    obtain ⟨d, hdm, rfl⟩ := List.mem_map.mp hm
    exact (hd d hdm).2
  obtain ⟨out, st', et, hrec⟩ := c40_end_to_end depth (ds.map Draft.result) hok h0 (by rw [List.length_map]; exact hl) { data := List.replicate 512 0 }
    (by rw [buf_len]; decide) (by rw [buf_len]; exact hfit) hz hesc
  rw [transportFrame_clean true { messages := ds.map Draft.result } (fun m hm => (hok m hm).1) { data := List.replicate 512 0 } (by rw [buf_len]; decide)
    (by rw [buf_len]; exact hfit) hz] at et
  cases et
  refine ⟨a, h1, _, st, h2, e1, e2, fun fd noise rest maxLen h1 h2 h3 h4 h5 => ?_⟩
  obtain ⟨fd', s, a1, a2, a3, a4⟩ := hrec fd noise rest maxLen h1 h2 h3 h4 h5
  rw [List.map_map] at a3
  exact ⟨fd', s, a1, a2, a3, a4⟩

/-- C62: a file that is written `k + 1` times has lost `k` checksums per message when it is freed: the first write has none to lose. -/
theorem c62_lost (h : Heap) (hw : h.Wf) (ds : List Draft) (hl : ds.length ≤ 32767) (hd : ∀ d ∈ ds, DraftTyped d) (k : Nat) (w : St)
    (f' : File) (w' : St) (ew : rewrites (k + 1) { messages := ds.map Draft.result } w = .ok f' w') :
    ∃ a h1 st h2 h3, ∃ lost : List Nat, cFile ds w.dry h = .ok a w.dry h1 ∧ pRewrites (k + 1) a w.dry h1 = .ok () st h2 ∧
      st.data = w'.data ∧ pFileFree a st h2 = .ok () st h3 ∧
      lost.Nodup ∧ lost.length = k * ds.length ∧ ∀ x, x ∈ lost ↔ h3.cells x ≠ h.cells x := by
  obtain ⟨a, h1, B, e, hr, o, l⟩ := builds_file ds hd hl w.dry _ _ h [] hw.own
  obtain ⟨_, h2, B', g, e2, ⟨B1, hr1, hp⟩, o2, l2⟩ := sim_rewrites (k + 1) hr w _ _ h1 [] o _ _ ew
  have o2' := o2.perm (hp.append_right g)
  obtain ⟨h3, g3, e3, o3, l3⟩ := frees_file _ _ a B1 hr1 w'.dry _ _ h2 g o2'
  refine ⟨a, h1, w'.dry, h2, h3, (g3 ++ g).map Prod.fst, e, e2, rfl, e3, o3.nodup, ?_, o3.diff⟩
  -- the counts
  obtain ⟨f1, w1, ew1, ew⟩ := M.bind_eq_ok ew
  obtain ⟨_, w2, ew2, ew⟩ := M.bind_eq_ok ew
  have hw2 : w2.live = w1.live := by cases ew2; rfl
  have hloop : ∀ {ms : List Message} {ms' st st'}, fileWriteLoop ms st = .ok ms' st' → (∀ m ∈ ms, m.crc = none) →
      st'.live = st.live + ms.length ∧ ms'.length = ms.length ∧ (∀ m ∈ ms', m.crc.isSome) ∧
        (ms'.map messageFreed1).sum = (ms.map messageFreed1).sum + ms.length := by
    intro ms
    induction ms with
    | nil =>
      intro ms' st st' h _
      cases h
      exact ⟨rfl, rfl, by simp, rfl⟩
    | cons m ms ih =>
      intro ms' st st' h hs
      obtain ⟨m1, s1, e1, h⟩ := M.bind_eq_ok h
      obtain ⟨ms1, s2, e2, h⟩ := M.bind_eq_ok h
      cases h
      obtain ⟨l1, c, rfl⟩ := messageWrite_live e1
      obtain ⟨l2, l3, l4, l5⟩ := ih e2 fun m hm => hs m (List.mem_cons_of_mem _ hm)
      refine ⟨by rw [List.length_cons]; omega, by simp [l3], ?_, ?_⟩
      · intro x hx
        rcases List.mem_cons.mp hx with rfl | hx
        · rfl
        · exact l4 x hx
      · rw [List.map_cons, List.sum_cons, List.map_cons, List.sum_cons, l5, messageFreed1_sealed _ (hs m List.mem_cons_self), List.length_cons]
        omega
  obtain ⟨ms, s1, e1, h⟩ := M.bind_eq_ok ew1
  cases h
  obtain ⟨c1, c2, c3, c4⟩ := hloop e1 (by
    intro m hm
    obtain ⟨d, hdm, rfl⟩ := List.mem_map.mp hm
    exact draft_crc (hd d hdm))
  obtain ⟨c5, c6⟩ := rewrites_live k ew c3
  have c7 : fileFreed { messages := ms } = fileFreed { messages := ds.map Draft.result } + ds.length := by
    simp only [fileFreed, c4, List.length_map]
    have : ms = [] ↔ ds.map Draft.result = [] := by
      rw [← List.length_eq_zero_iff, c2, List.length_eq_zero_iff]
    simp only [this]
    omega
  have := hp.length_eq
  rw [List.length_map] at c1 c2
  rw [List.length_map, List.length_append]
  simp only [List.length_nil, c2] at *
  omega

/-! ## Adding to a list -/

/-- A client that calls `sml_list_add` with the head of the list every time. -/
def cAddToHead (head : Addr) : List ListEntry → P Unit
  | [] => pure ()
  | e :: es => do
    let x ← cEntry e
    pListAdd head x
    cAddToHead head es

theorem addToHead_ok : ∀ (es : List ListEntry), (∀ e ∈ es, EntryTyped e) → ∀ {e0 ps a n B1 Bn rest st n0 c0 h L}, Fields (entryReps e0) ps B1 →
    RList rest n Bn → Own n0 c0 h ((a, .struct (ps ++ [n]) []) :: (B1 ++ (Bn ++ L))) →
    ∃ h' B' g, cAddToHead a es st h = .ok () st h' ∧ RList (e0 :: (es.getLast?.elim rest ([·]))) a B' ∧ Own n0 c0 h' (B' ++ (g ++ L)) ∧
      g.length = if es = [] then 0 else Bn.length + listFreed es.dropLast
  | [], _, e0, ps, a, n, B1, Bn, rest, st, n0, c0, h, L, hF, hn, o => by
    refine ⟨h, _, [], rfl, RList.mk hF hn, ?_, rfl⟩
    rw [List.nil_append, List.cons_append, List.append_assoc]
    exact o
  | e :: es, he, e0, ps, a, n, B1, Bn, rest, st, n0, c0, h, L, hF, hn, o => by
    obtain ⟨p, h1, Be, e1, hr, o1, l1⟩ := builds_entry e (he e (by simp)) st n0 c0 h _ o
    have o2 : Own n0 c0 h1 ((a, .struct (ps ++ [n]) []) :: (B1 ++ (Be ++ (Bn ++ L)))) := o1.perm (by
      refine List.perm_middle.trans (List.Perm.cons _ ?_)
      exact List.perm_append_comm_assoc Be B1 _)
    have hset : (ps ++ [n]).set 7 p = ps ++ [p] := by
      have : ps.length = 7 := hF.length
      rw [← this]
      simp
    have hps : ps.length = 7 := hF.length
    have o3 := o2.update (.struct (ps ++ [p]) [])
    have e2 : pListAdd a p st h1 = .ok () st _ := writePtr_ok o2.ne0 o2.cell (by simp [hps])
    rw [hset] at e2
    obtain ⟨h2, B', g, e3, hR, o4, l4⟩ := addToHead_ok es (fun x hx => he x (by simp [hx])) (st := st) hF hr o3
    refine ⟨h2, B', g ++ Bn, ?_, ?_, ?_, ?_⟩
    · rw [cAddToHead, P.bind_ok e1, P.bind_ok e2]
      exact e3
    · cases es with
      | nil => exact hR
      | cons e' es =>
        have h3 : (e :: e' :: es).getLast? = (e' :: es).getLast? := by simp [List.getLast?_cons]
        rw [h3]
        have h4 : ∃ y, (e' :: es).getLast? = some y := ⟨_, List.getLast?_eq_some_getLast (by simp)⟩
        obtain ⟨y, hy⟩ := h4
        rw [hy] at hR ⊢
        exact hR
    · rw [List.append_assoc]
      exact o4
    · rw [List.length_append, l4]
      cases es with
      | nil => simp [listFreed]
      | cons e' es =>
        simp only [List.dropLast_cons_of_ne_nil (List.cons_ne_nil e' es), listFreed, List.map_cons, List.sum_cons, if_false, List.cons_ne_nil]
        omega

/-- C62: `sml_list_add` does not append to a list but sets the next entry: called with the head every time, it leaves a list of the first and
the last entry. The blocks of all entries in between are lost. -/
theorem c62_list_add (h : Heap) (hw : h.Wf) (e0 e1 : ListEntry) (es : List ListEntry) (h0 : EntryTyped e0) (hes : ∀ e ∈ es, EntryTyped e)
    (h1 : EntryTyped e1) (st : St) :
    ∃ a ha h' B, ∃ lost : List Blk, cEntry e0 st h = .ok a st ha ∧ cAddToHead a (es ++ [e1]) st ha = .ok () st h' ∧
      RList [e0, e1] a B ∧ (∀ x ∈ B ++ lost, h'.cells x.1 = some x.2 ∧ h.next ≤ x.1) ∧ ((B ++ lost).map Prod.fst).Nodup ∧
      lost.length = listFreed es := by
  obtain ⟨a, ha, Be, e, hr, o, _⟩ := builds_entry e0 h0 st _ _ h [] hw.own
  obtain ⟨ps, n, B1, B2, hF, _, hn, rfl⟩ := RList.cons hr
  rw [List.cons_append, List.append_assoc] at o
  obtain ⟨h', B, g, e2, hR, o2, l⟩ := addToHead_ok (es ++ [e1]) (by
    intro x hx
    rcases List.mem_append.mp hx with hx | hx
    · exact hes x hx
    · simp only [List.mem_cons, List.not_mem_nil, or_false] at hx
      exact hx ▸ h1) (st := st) hF hn o
  obtain ⟨rfl, rfl⟩ := hn
  rw [List.append_nil] at o2
  refine ⟨a, ha, h', B, g, e, e2, ?_, fun x hx => ⟨o2.mem x hx, (o2.key x hx).1⟩, o2.nodup, ?_⟩
  · rw [List.getLast?_concat] at hR
    exact hR
  · rw [l, List.dropLast_concat]
    simp

/-! ## Cases -/

/-- A description: the sample message twice, once with the generated id. -/
def sampleDrafts : List Draft := [⟨sampleMessage, List.replicate 16 0xFF, true⟩, ⟨sampleMessage, List.range 16 |>.map UInt8.ofNat, false⟩]

theorem sampleDrafts_ok : ∀ d ∈ sampleDrafts, DraftTyped d ∧ MessageOk true d.result ∧ messageDepth d.result ≤ 1 := by
  intro d hd
  have hm := sampleMessage_ok true
  have ht : MessageTyped sampleMessage := messageOk_typed _ hm rfl
  simp only [sampleDrafts, List.mem_cons, List.not_mem_nil, or_false] at hd
  rcases hd with rfl | rfl
  · refine ⟨⟨ht, by decide⟩, ⟨?_, hm.2⟩, by decide⟩
    rintro _ ⟨⟩
    exact ⟨fun _ => by decide, noCarry_of_fit (k := 2) (by decide) (by decide) (by decide), by decide⟩
  · exact ⟨⟨ht, by decide⟩, hm, by decide⟩

/-- The generated id is a UUID of version 4 and variant 1. -/
example : (uuidOf (List.replicate 16 0xFF)).str =
    [0xFF, 0xFF, 0xFF, 0xFF, 0xFF, 0xFF, 0x4F, 0xFF, 0xBF, 0xFF, 0xFF, 0xFF, 0xFF, 0xFF, 0xFF, 0xFF] := by decide +kernel

example : (∀ d ∈ sampleDrafts, DraftTyped d ∧ MessageOk true d.result ∧ messageDepth d.result ≤ 1) ∧
    (sentFrame (fileBytes (sampleDrafts.map Draft.result))).length ≤ 512 ∧ NoEscape (fileBytes (sampleDrafts.map Draft.result)) := by
  refine ⟨sampleDrafts_ok, by rw [sentFrame_length]; decide +kernel, (noEscape_iff _).2 ?_⟩
  simp only [fileBytes, checksum, ← crc16_eq]
  decide +kernel

/-- Sending the two messages leaves the empty heap empty. -/
example : ∃ a h1 st h2 h3 frame, cFile sampleDrafts { data := List.replicate 512 0 } ⟨1, fun _ => none⟩ = .ok a { data := List.replicate 512 0 } h1 ∧
    pTransportFrame a { data := List.replicate 512 0 } h1 = .ok frame st h2 ∧ pFileFree a st h2 = .ok () st h3 ∧ h3.cells = fun _ => none := by
  obtain ⟨a, h1, st, h2, h3, e1, e2, e3, e4⟩ := c62_send ⟨1, fun _ => none⟩ ⟨by decide, fun _ _ => rfl⟩ sampleDrafts (by decide)
    (fun d hd => ⟨(sampleDrafts_ok d hd).1, (sampleDrafts_ok d hd).2.1⟩) (by rw [sentFrame_length]; decide +kernel)
  exact ⟨a, h1, st, h2, h3, _, e1, e2, e3, e4⟩

/-- A tree with a tuple entry, which is never written. -/
def sampleDetails : Tree := .mk (some ⟨[5]⟩) (some ⟨some ⟨1, 3⟩, .tupelEntry (some { status := some ⟨8, 7⟩ })⟩) [.mk (some ⟨[2, 3]⟩) none []]

/-- A description that uses parts `MessageOk` excludes: a tuple entry, objects of a profile request, an empty string. -/
def sampleRequest : Message where
  transactionId := some ⟨[]⟩
  groupId := none
  abortOnError := some ⟨1, 255⟩
  messageBody := some ⟨some ⟨4, 0x300⟩, .getProfilePackRequest (some { objectList := [some ⟨[1]⟩, none], dasDetails := some sampleDetails })⟩
  crc := none

example : DraftTyped ⟨sampleRequest, List.replicate 16 0, false⟩ := by
  refine ⟨⟨opt_some (Nat.zero_le _), opt_none, opt_some ⟨rfl, by decide⟩, opt_some ⟨_, rfl, ⟨rfl, by decide⟩, rfl, opt_some ⟨opt_none, opt_none, opt_none,
    opt_none, opt_none, opt_none, ?_, opt_some ?_⟩⟩, rfl⟩, List.length_replicate⟩
  · intro e he
    simp only [List.mem_cons, List.not_mem_nil, or_false] at he
    rcases he with rfl | rfl
    · exact opt_some (show 1 ≤ 2147483647 by decide)
    · exact opt_none
  · refine .mk (opt_some (show 1 ≤ 2147483647 by decide)) (opt_some ⟨opt_some ⟨rfl, by decide⟩, ⟨_, rfl, rfl⟩, opt_some ?_⟩) (show 1 ≤ 2147483647 by decide) ?_
    · refine ⟨opt_none, opt_none, opt_some ⟨rfl, by decide⟩, ?_⟩
      repeat' first | exact opt_none | refine ⟨opt_none, ?_⟩
    · intro c hc
      rw [List.mem_singleton] at hc
      subst hc
      exact .mk (opt_some (show 2 ≤ 2147483647 by decide)) opt_none (Nat.zero_le _) (by simp)

/-- The sample message can be written several times. -/
example : (match rewrites 2 { messages := [sampleMessage] } { data := List.replicate 512 0 } with | .ok _ w => w.live == 2 | _ => false) = true := by decide +kernel

example : EntryTyped sampleEntry ∧ EntryTyped sampleEntry2 :=
  ⟨listEntryOk_typed _ (sampleEntry_ok true), listEntryOk_typed _ (sampleEntry2_ok true)⟩

end Sml
