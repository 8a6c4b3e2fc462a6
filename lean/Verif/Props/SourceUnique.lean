import Verif.Props.SourceTransport

/-!
# C91: what memory holds is unambiguous

`Holding` says that memory holds a file of these messages. The theorems about the source of the parser and of the writers have it as
hypothesis or as conclusion; so it has to be seen that it says something definite. It does: memory does not hold two lists of messages
at one address, nor a list and another one that has the same bytes on the line. The proof runs the source of `sml_file_write`.
-/

namespace Sml.C

open Spec

/-- Messages that are the same on the line are the same, but for the checksums they came with. -/
theorem c91_bytes (ms ms' : List Message) (hok : ∀ x ∈ ms, MessageOk true x) (hok' : ∀ x ∈ ms', MessageOk true x) (hcnt : ms.length ≤ 32767)
    (hcnt' : ms'.length ≤ 32767) (hlen : (fileBytes ms).length ≤ 2147483647) (h : fileBytes ms = fileBytes ms') : ms.map sealed = ms'.map sealed := by
  obtain ⟨d1, h1, hd1⟩ := depth_bound ms 1
  obtain ⟨d2, h2, hd2⟩ := depth_bound ms' d1
  have key : ∀ ms : List Message, (∀ x ∈ ms, MessageOk true x) → ms.length ≤ 32767 → (fileBytes ms).length ≤ 2147483647 → (∀ x ∈ ms, messageDepth x ≤ d2) →
      ∃ s, fileParse d2 (fileBytes ms) = .ok { messages := ms.map sealed } s := by
    intro ms hok hcnt hlen hd
    have hz : Covered (List.replicate (fileBytes ms).length (0 : UInt8)) (fileBytes ms) := zeros_covered _ _ fun b hb => List.eq_of_mem_replicate (List.mem_of_mem_take hb)
    obtain ⟨st', s, e1, e2, _⟩ := c29_file d2 ms (fun x hx => ⟨hok x hx, hd x hx⟩) (by omega) hcnt { data := List.replicate (fileBytes ms).length 0 } rfl (by simp) (by simpa using hlen) hz
    rw [fileWrite_clean true ms { data := List.replicate (fileBytes ms).length 0 } hok (by simp) (by simpa using hlen) hz] at e1
    cases e1
    refine ⟨s, ?_⟩
    simpa using e2
  obtain ⟨s, e⟩ := key ms hok hcnt hlen fun x hx => Nat.le_trans (hd1 x hx) h2
  obtain ⟨s', e'⟩ := key ms' hok' hcnt' (h ▸ hlen) hd2
  rw [h, e'] at e
  injection e with e _
  injection e with e
  exact e.symm

/-- The structure of a file: where the buffer is, and how many messages there are. -/
theorem HoldsFile.head (H : HoldsFile m file buf ms L) : ∃ arr, m.heap file = some (.obj [ptrVal arr, ptrVal buf] [(ms.length : Int)]) := by
  obtain ⟨⟨ps, B, ⟨arr, ps', B1, B2, rfl, _, ⟨b, ps'', B3, B4, rfl, ⟨rfl, _⟩, ⟨rfl, _⟩, _⟩, _⟩, rfl⟩, _, hm⟩ := H
  exact ⟨arr, hm _ (List.mem_cons_self ..)⟩

/-- C91: memory does not hold two lists of messages at one address. -/
theorem c91_holding {m : Mem} {file buf bytes buf' bytes' : Nat} {ms ms' : List Message} {L L' : List (Nat × HCell)} {st st' : St}
    (H : Holding m file buf bytes ms L st) (H' : Holding m file buf' bytes' ms' L' st') (hok : ∀ x ∈ ms, MessageOk true x)
    (hok' : ∀ x ∈ ms', MessageOk true x) (hcnt : ms.length ≤ 32767) (hlen : (fileBytes ms).length ≤ 2147483647) (hlen' : (fileBytes ms').length ≤ 2147483647) :
    buf = buf' ∧ bytes = bytes' ∧ ms.map sealed = ms'.map sealed := by
  obtain ⟨arr, hf⟩ := H.holds.head
  obtain ⟨arr', hf'⟩ := H'.holds.head
  rw [hf] at hf'
  simp only [Option.some.injEq, Block.obj.injEq, List.cons.injEq, ptrVal, Val.ptr.injEq, Loc.heap.injEq, and_true] at hf'
  obtain ⟨⟨_, rfl⟩, hn⟩ := hf'
  have hb := H.hbuf
  rw [H'.hbuf] at hb
  simp only [Option.some.injEq, Block.obj.injEq, List.cons.injEq, Val.ptr.injEq, Loc.heap.injEq, and_true] at hb
  obtain rfl := hb.1
  refine ⟨rfl, rfl, c91_bytes ms ms' hok hok' hcnt (by omega) hlen ?_⟩
  generalize hk : max (fileBytes ms).length (fileBytes ms').length = k
  have hz : ∀ x, Covered (List.replicate k (0 : UInt8)) x := fun x => zeros_covered _ _ fun b hb => List.eq_of_mem_replicate (List.mem_of_mem_take hb)
  have hkl : (List.replicate k (0 : UInt8)).length = k := List.length_replicate
  obtain ⟨m1, L1, c1, W⟩ := c71_bytes (H.refilled (List.replicate k 0) (by omega)) true hok (by simp only [hkl]; omega) (hz _)
  obtain ⟨m2, L2, c2, W'⟩ := c71_bytes (H'.refilled (List.replicate k 0) (by omega)) true hok' (by simp only [hkl]; omega) (hz _)
  obtain ⟨_, rfl⟩ := c65_deterministic c1 c2
  have e1 := W.hbuf
  rw [W'.hbuf] at e1
  have e2 := W.hbytes
  rw [W'.hbytes] at e2
  simp only [Option.some.injEq, Block.obj.injEq, List.cons.injEq, Nat.zero_add] at e1
  have hl : (fileBytes ms').length = (fileBytes ms).length := by
    have := e1.2.2.1
    omega
  simp only [Option.some.injEq, Block.raw.injEq, List.take_zero, List.nil_append, Nat.zero_add] at e2
  have e3 := (List.map_inj_right (fun _ _ h => Option.some.inj h)).mp e2
  exact (List.append_inj e3 hl).1.symm

/-! ## The checksums -/

theorem map_ptrVal_inj : {ps qs : List Nat} → ps.map ptrVal = qs.map ptrVal → ps = qs
  | [], [], _ => rfl
  | [], _ :: _, h => by simp at h
  | _ :: _, [], h => by simp at h
  | p :: ps, q :: qs, h => by
    simp only [List.map_cons, List.cons.injEq, ptrVal, Val.ptr.injEq, Loc.heap.injEq, and_true] at h
    rw [h.1, map_ptrVal_inj h.2]

/-- The checksum of a message fits into its object. -/
def CrcFits (x : Message) : Prop := ∀ n, x.crc = some n → n.val < 256 ^ n.size

theorem crc_unique {m : Mem} (hz : m.heap 0 = none) {o o' : Option Num} (h : ∀ n, o = some n → n.val < 256 ^ n.size) (h' : ∀ n, o' = some n → n.val < 256 ^ n.size)
    {p : Nat} {B B' : List Blk} (r : repOpt RNum o p B) (r' : repOpt RNum o' p B') (hB : ∀ x ∈ B, m.heap x.1 = some (enc x.2)) (hB' : ∀ x ∈ B', m.heap x.1 = some (enc x.2)) : o = o' := by
  have some0 : ∀ {o : Option Num} {B : List Blk} {n}, o = some n → repOpt RNum o p B → (∀ x ∈ B, m.heap x.1 = some (enc x.2)) →
      m.heap p = some (.raw ((leBytes n.size n.val).map some)) := by
    rintro o B n rfl r hB
    cases (show B = [(p, .num n)] from r)
    exact hB _ (List.mem_cons_self ..)
  cases ho : o with
  | none =>
    cases ho' : o' with
    | none => rfl
    | some n' =>
      rw [ho] at r
      have := some0 ho' r' hB'
      rw [r.1, hz] at this
      cases this
  | some n =>
    have e := some0 ho r hB
    cases ho' : o' with
    | none =>
      rw [ho'] at r'
      rw [r'.1, hz] at e
      cases e
    | some n' =>
      have e' := some0 ho' r' hB'
      rw [e] at e'
      simp only [Option.some.injEq, Block.raw.injEq] at e'
      have e2 := (List.map_inj_right (fun _ _ h => Option.some.inj h)).mp e'
      have hs : n.size = n'.size := by
        have := congrArg List.length e2
        rwa [leBytes_length, leBytes_length] at this
      have hv : n.val = n'.val := by
        have := congrArg leNat e2
        rwa [leNat_leBytes _ _ (h n ho), leNat_leBytes _ _ (h' n' ho')] at this
      cases n
      cases n'
      simp only at hs hv
      rw [hs, hv]

theorem message_crc {m : Mem} (hz : m.heap 0 = none) {x x' : Message} (h : CrcFits x) (h' : CrcFits x') {p : Nat} {B B' : List Blk} (r : RMessage x p B) (r' : RMessage x' p B')
    (hB : ∀ x ∈ B, m.heap x.1 = some (enc x.2)) (hB' : ∀ x ∈ B', m.heap x.1 = some (enc x.2)) : x.crc = x'.crc := by
  obtain ⟨ps, C, ⟨p1, _, C1, _, rfl, _, ⟨p2, _, C2, _, rfl, _, ⟨p3, _, C3, _, rfl, _, ⟨p4, _, C4, _, rfl, _, ⟨p5, _, C5, _, rfl, f5, ⟨rfl, rfl⟩, rfl⟩, rfl⟩, rfl⟩, rfl⟩, rfl⟩, rfl⟩ := r
  obtain ⟨ps', C', ⟨q1, _, D1, _, rfl, _, ⟨q2, _, D2, _, rfl, _, ⟨q3, _, D3, _, rfl, _, ⟨q4, _, D4, _, rfl, _, ⟨q5, _, D5, _, rfl, g5, ⟨rfl, rfl⟩, rfl⟩, rfl⟩, rfl⟩, rfl⟩, rfl⟩, rfl⟩ := r'
  have e := hB _ (List.mem_cons_self ..)
  rw [hB' _ (List.mem_cons_self ..)] at e
  simp only [enc, Option.some.injEq, Block.obj.injEq, List.map_cons, List.map_nil, List.cons.injEq, ptrVal, Val.ptr.injEq, Loc.heap.injEq, and_true] at e
  obtain ⟨_, _, _, _, rfl⟩ := e
  exact crc_unique hz h h' f5 g5 (fun x hx => hB x (by simp [hx])) (fun x hx => hB' x (by simp [hx]))

theorem fields_crc {m : Mem} (hz : m.heap 0 = none) : (ms ms' : List Message) → (∀ x ∈ ms, CrcFits x) → (∀ x ∈ ms', CrcFits x) → (ps : List Nat) → (B B' : List Blk) →
    Sml.Fields (ms.map RMessage) ps B → Sml.Fields (ms'.map RMessage) ps B' → (∀ x ∈ B, m.heap x.1 = some (enc x.2)) → (∀ x ∈ B', m.heap x.1 = some (enc x.2)) →
    ms.map Message.crc = ms'.map Message.crc
  | [], [], _, _, _, _, _, _, _, _, _ => rfl
  | [], _ :: _, _, _, _, _, _, f, f', _, _ => by
    obtain ⟨rfl, _⟩ := f
    obtain ⟨_, _, _, _, h, _⟩ := f'
    cases h
  | _ :: _, [], _, _, _, _, _, f, f', _, _ => by
    obtain ⟨rfl, _⟩ := f'
    obtain ⟨_, _, _, _, h, _⟩ := f
    cases h
  | x :: ms, x' :: ms', h, h', _, _, _, f, f', hB, hB' => by
    obtain ⟨p, ps, B1, B2, rfl, r, f, rfl⟩ := f
    obtain ⟨p', ps', B1', B2', hp, r', f', rfl⟩ := f'
    cases hp
    rw [List.map_cons, List.map_cons, message_crc hz (h x (List.mem_cons_self ..)) (h' x' (List.mem_cons_self ..)) r r' (fun y hy => hB y (List.mem_append_left _ hy)) (fun y hy => hB' y (List.mem_append_left _ hy)),
      fields_crc hz ms ms' (fun y hy => h y (List.mem_cons_of_mem _ hy)) (fun y hy => h' y (List.mem_cons_of_mem _ hy)) ps B2 B2' f f' (fun y hy => hB y (List.mem_append_right _ hy)) (fun y hy => hB' y (List.mem_append_right _ hy))]

theorem holds_crc {m : Mem} {file buf buf' : Nat} {ms ms' : List Message} {L L' : List (Nat × HCell)} (hz : m.heap 0 = none) (H : HoldsFile m file buf ms L) (H' : HoldsFile m file buf' ms' L')
    (hc : ∀ x ∈ ms, CrcFits x) (hc' : ∀ x ∈ ms', CrcFits x) : ms.map Message.crc = ms'.map Message.crc := by
  obtain ⟨⟨ps, B, ⟨arr, ps', B1, B2, rfl, ra, ⟨b, ps'', B3, B4, rfl, _, ⟨rfl, _⟩, _⟩, rfl⟩, rfl⟩, _, hm⟩ := H
  obtain ⟨⟨qs, C, ⟨arr', qs', C1, C2, rfl, ra', ⟨c, qs'', C3, C4, rfl, _, ⟨rfl, _⟩, _⟩, rfl⟩, rfl⟩, _, hm'⟩ := H'
  have e := hm _ (List.mem_cons_self ..)
  rw [hm' _ (List.mem_cons_self ..)] at e
  simp only [enc, Option.some.injEq, Block.obj.injEq, List.map_cons, List.map_nil, List.cons.injEq, ptrVal, Val.ptr.injEq, Loc.heap.injEq, and_true] at e
  obtain ⟨⟨rfl, _⟩, hn⟩ := e
  have hn : ms'.length = ms.length := Int.ofNat.inj hn
  unfold RArr at ra ra'
  cases ms with
  | nil =>
    rw [List.length_nil] at hn
    rw [List.length_eq_zero_iff.mp hn]
  | cons x ms =>
    cases ms' with
    | nil => cases hn
    | cons x' ms' =>
      rw [if_neg (by simp)] at ra ra'
      obtain ⟨ps, D, f, rfl⟩ := ra
      obtain ⟨qs, D', f', rfl⟩ := ra'
      have e := hm (arr', .struct ps []) (by simp)
      rw [hm' (arr', .struct qs []) (by simp)] at e
      simp only [enc, Option.some.injEq, Block.obj.injEq, List.map_nil, and_true] at e
      obtain rfl := map_ptrVal_inj e
      exact fields_crc hz _ _ hc hc' _ _ _ f f' (fun y hy => hm y (by simp [hy])) (fun y hy => hm' y (by simp [hy]))

/-- C91: with checksums that fit into their objects the two lists are equal. -/
theorem c91_unique {m : Mem} {file buf bytes buf' bytes' : Nat} {ms ms' : List Message} {L L' : List (Nat × HCell)} {st st' : St}
    (H : Holding m file buf bytes ms L st) (H' : Holding m file buf' bytes' ms' L' st') (hok : ∀ x ∈ ms, MessageOk true x)
    (hok' : ∀ x ∈ ms', MessageOk true x) (hcnt : ms.length ≤ 32767) (hlen : (fileBytes ms).length ≤ 2147483647) (hlen' : (fileBytes ms').length ≤ 2147483647)
    (hc : ∀ x ∈ ms, CrcFits x) (hc' : ∀ x ∈ ms', CrcFits x) : ms = ms' := by
  have h1 := (c91_holding H H' hok hok' hcnt hlen hlen').2.2
  have h2 := holds_crc H.zero H.holds H'.holds hc hc'
  clear H H' hok hok' hcnt hlen hlen' hc hc'
  induction ms generalizing ms' with
  | nil =>
    cases ms' with
    | nil => rfl
    | cons x' ms' => cases h1
  | cons x ms ih =>
    cases ms' with
    | nil => cases h1
    | cons x' ms' =>
      simp only [List.map_cons, List.cons.injEq] at h1 h2
      have hx : x = x' := by
        have h3 := h1.1
        have h4 := h2.1
        cases x
        cases x'
        simp only [sealed, Message.mk.injEq] at h3 h4 ⊢
        exact ⟨h3.1, h3.2.1, h3.2.2.1, h3.2.2.2.1, h4⟩
      rw [hx, ih h1.2 h2.2]

/-- There is a memory with a message with a list of two entries; it holds no other list of messages there. -/
example : ∃ m file buf bytes L st, Holding m file buf bytes [sealed sampleMessage] L st ∧
    ∀ ms' buf' bytes' L' st', Holding m file buf' bytes' ms' L' st' → (∀ x ∈ ms', MessageOk true x) → (fileBytes ms').length ≤ 2147483647 →
      (∀ x ∈ ms', CrcFits x) → ms' = [sealed sampleMessage] := by
  obtain ⟨m, file, buf, bytes, L, st, H, _, _, _, hl, _, hok⟩ := sample_held
  have one : ∀ {P : Message → Prop}, P (sealed sampleMessage) → ∀ x ∈ [sealed sampleMessage], P x := by
    intro P h x hx
    simp only [List.mem_cons, List.not_mem_nil, or_false] at hx
    rwa [hx]
  refine ⟨m, file, buf, bytes, L, st, H, fun ms' buf' bytes' L' st' H' h1 h2 h3 => (c91_unique H H' (one hok) h1 (by simp) (by omega) h2 (one ?_) h3).symm⟩
  intro n hn
  cases hn
  simp only [checksum, ← crc16_eq]
  decide +kernel

/-- Without the condition that the messages are ones the format can represent it would not be so: memory does not tell a boolean from a number of one byte. -/
example : RValue ⟨0x42, .boolean (some 1)⟩ = RValue ⟨0x42, .num (some ⟨1, 1⟩)⟩ := by
  funext a B
  have : RBool 1 = RNum ⟨1, 1⟩ := rfl
  simp [RValue, RVData, repOpt, tyOctet, this]

end Sml.C
