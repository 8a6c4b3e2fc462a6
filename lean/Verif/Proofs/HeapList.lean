import Verif.Proofs.HeapObjects

/-! # Measurement lists on the addressed heap -/

namespace Sml

/-- One entry that is not linked yet. -/
def REntry (e : ListEntry) : Rep := RList [e]

theorem freesAll_entry (e : ListEntry) : FreesAll listEntryFrees (entryReps e) (listEntryFreed e - 1) := by
  have h : listEntryFreed e - 1 = octetStringFreed e.objName + (statusFreed e.status + (timeFreed e.valTime +
      (numberFreed e.unit + (numberFreed e.scaler + (valueFreed e.value + (octetStringFreed e.valueSignature + 0)))))) := by
    rw [listEntryFreed]
    omega
  rw [h]
  exact .cons (frees_octetStringOpt _) (.cons (frees_statusOpt _) (.cons (frees_timeOpt _) (.cons (frees_numberOpt _)
    (.cons (frees_numberOpt _) (.cons (frees_valueOpt _) (.cons (frees_octetStringOpt _) .nil))))))

theorem listEntryFreed_pos (e : ListEntry) : 1 ≤ listEntryFreed e := by
  rw [listEntryFreed]
  omega

/-- Taking a list apart. -/
theorem RList.cons (h : RList (e :: es) a B) : ∃ ps n B1 B2, Fields (entryReps e) ps B1 ∧ ps.length = 7 ∧ RList es n B2 ∧
    B = (a, .struct (ps ++ [n]) []) :: (B1 ++ B2) := by
  obtain ⟨ps, B', hF, rfl⟩ := h
  obtain ⟨ps1, ps2, B1, B2, rfl, rfl, h1, h2⟩ := hF.getAppend
  obtain ⟨n, rfl, hn⟩ := h2.one
  exact ⟨ps1, n, B1, B2, h1, h1.length, hn, rfl⟩

theorem RList.mk (h1 : Fields (entryReps e) ps B1) (h2 : RList es n B2) :
    RList (e :: es) a ((a, .struct (ps ++ [n]) []) :: (B1 ++ B2)) :=
  ⟨_, _, h1.append (Fields.single h2), rfl⟩

theorem RList.length_le : ∀ {es a B}, RList es a B → es.length ≤ B.length
  | [], _, _, _ => Nat.zero_le _
  | e :: es, a, B, h => by
    obtain ⟨ps, n, B1, B2, _, _, h2, rfl⟩ := h.cons
    have := h2.length_le
    simp only [List.length_cons, List.length_append]
    omega

theorem Own.length_lt (o : Own n0 c0 h L) : L.length < h.next := by
  have h1 : (0 :: L.map Prod.fst).Nodup := by
    rw [List.nodup_cons]
    refine ⟨?_, o.nodup⟩
    intro hc
    obtain ⟨x, hx, he⟩ := List.mem_map.mp hc
    have := (o.key x hx).1
    have := o.pos
    omega
  have h2 : (0 :: L.map Prod.fst) ⊆ List.range h.next := by
    intro a ha
    rw [List.mem_range]
    rcases List.mem_cons.mp ha with rfl | ha
    · exact Nat.lt_of_lt_of_le o.pos o.le
    · obtain ⟨x, hx, rfl⟩ := List.mem_map.mp ha
      exact (o.key x hx).2
  have h3 := h1.length_le_of_subset h2
  simp only [List.length_cons, List.length_map, List.length_range] at h3
  omega

theorem freeEntry_ok (hF : Fields (entryReps e) ps B1) (o : Own n0 c0 h ((a, .struct (ps ++ [n]) []) :: (B1 ++ L))) :
    ∃ h' g, pListEntryFree a st h = .ok () st h' ∧ Own n0 c0 h' (g ++ L) ∧
      g.length + listEntryFreed e = B1.length + 1 := by
  have hne := o.ne0
  obtain ⟨h', g, e1, o', l⟩ := freeFields_ok (qs := []) (ts := [n]) (st := st) (freesAll_entry e) hne hF o
  refine ⟨h', g, ?_, o', ?_⟩
  · rw [pListEntryFree, pFreeStruct, if_neg hne]
    exact e1
  · have := listEntryFreed_pos e
    omega

theorem freeLoop_ok : ∀ (es : List ListEntry) {e ps a n B1 B2 fuel st n0 c0 h L}, Fields (entryReps e) ps B1 →
    RList es n B2 → Own n0 c0 h ((a, .struct (ps ++ [n]) []) :: (B1 ++ B2) ++ L) → es.length + 2 ≤ fuel →
    ∃ h' g, pListFreeLoop fuel a n st h = .ok () st h' ∧ Own n0 c0 h' (g ++ L) ∧
      g.length + listFreed (e :: es) = B1.length + B2.length + 1
  | [], e, ps, a, n, B1, B2, fuel, st, n0, c0, h, L, hF, hn, o, hfuel => by
    obtain ⟨rfl, rfl⟩ := hn
    obtain ⟨fuel, rfl⟩ : ∃ k, fuel = k + 1 + 1 := ⟨fuel - 2, by simp at hfuel; omega⟩
    rw [List.append_nil] at o
    obtain ⟨h', g, e1, o', l⟩ := freeEntry_ok (st := st) hF o
    refine ⟨h', g, ?_, o', ?_⟩
    · rw [pListFreeLoop, if_pos o.ne0, P.bind_ok e1]
      rfl
    · simp [listFreed]
      omega
  | e' :: es, e, ps, a, n, B1, B2, fuel, st, n0, c0, h, L, hF, hn, o, hfuel => by
    obtain ⟨ps', n', C1, C2, hF', hl, hn', rfl⟩ := hn.cons
    obtain ⟨fuel, rfl⟩ : ∃ k, fuel = k + 1 := ⟨fuel - 1, by simp at hfuel; omega⟩
    have o1 : Own n0 c0 h ((a, .struct (ps ++ [n]) []) :: (B1 ++ ((n, .struct (ps' ++ [n']) []) :: (C1 ++ C2) ++ L))) := by
      rw [← List.append_assoc]
      exact o
    obtain ⟨h1, g1, e1, o2, l1⟩ := freeEntry_ok (st := st) hF o1
    have o3 : Own n0 c0 h1 ((n, .struct (ps' ++ [n']) []) :: (C1 ++ C2) ++ (g1 ++ L)) := o2.perm (by
      rw [← List.append_assoc, ← List.append_assoc]
      exact List.perm_append_comm.append_right L)
    obtain ⟨h2, g2, e2, o4, l2⟩ := freeLoop_ok es (fuel := fuel) (st := st) hF' hn' o3 (by simp at hfuel; omega)
    refine ⟨h2, g2 ++ g1, ?_, ?_, ?_⟩
    · have hn0 : n ≠ 0 := o3.ne0
      rw [pListFreeLoop, if_pos o.ne0, P.bind_ok e1, if_pos hn0]
      rw [P.bind_ok (readPtr_ok (p := n') hn0 o3.cell (by rw [← hl]; simp)), e2]
    · rw [List.append_assoc]
      exact o4
    · simp only [listFreed, List.map_cons, List.sum_cons, List.length_append, List.length_cons] at l2 ⊢
      omega

theorem frees_list : ∀ es : List ListEntry, Frees pListFree (RList es) (listFreed es)
  | [] => by
    rintro a B ⟨rfl, rfl⟩ st n0 c0 h L o
    exact ⟨h, [], rfl, o, rfl⟩
  | e :: es => by
    intro a B hr st n0 c0 h L o
    have hlen := hr.length_le
    obtain ⟨ps, n, B1, B2, hF, hl, hn, rfl⟩ := hr.cons
    have hlt := o.length_lt
    obtain ⟨h', g, e1, o', l⟩ := freeLoop_ok es (fuel := h.next + 1) (st := st) hF hn o (by
      simp only [List.length_cons, List.length_append] at hlen hlt
      omega)
    refine ⟨h', g, ?_, o', ?_⟩
    · have hne : a ≠ 0 := o.ne0
      rw [pListFree, if_pos hne, P.bind_ok (readPtr_ok (p := n) hne o.cell (by rw [← hl]; simp)), e1]
    · simp only [List.length_cons, List.length_append]
      omega

theorem frees_entry (e : ListEntry) : Frees pListFree (REntry e) (listEntryFreed e) :=
  (frees_list [e]).congr (by simp [listFreed])

/-! ## The workaround for one meter -/

theorem Own.ne0_of_mem (o : Own n0 c0 h L) (hm : (a, c) ∈ L) : a ≠ 0 := by
  have h1 := (o.key (a, c) hm).1
  have h2 := o.pos
  simp only at h1
  omega

theorem Sim.readPtrM (hm : (a, .struct ps is) ∈ B0) (hi : ps[i]? = some x) (h2 : Sim B0 m (pk x) R) :
    Sim B0 m (Sml.readPtr a i >>= pk) R := by
  refine Sim.step (B1 := B0) ?_ rfl h2
  intro st n0 c0 h L o
  have hm' := List.mem_append_left L hm
  exact ⟨_, readPtr_ok (o.ne0_of_mem hm') (o.cell_of_mem hm') hi, o⟩

theorem Sim.readIntM (hm : (a, .struct ps is) ∈ B0) (hi : is[i]? = some x) (h2 : Sim B0 m (pk x) R) :
    Sim B0 m (Sml.readInt a i >>= pk) R := by
  refine Sim.step (B1 := B0) ?_ rfl h2
  intro st n0 c0 h L o
  have hm' := List.mem_append_left L hm
  exact ⟨_, readInt_ok (o.ne0_of_mem hm') (o.cell_of_mem hm') hi, o⟩

theorem Sim.readNumM (hm : (a, .num x) ∈ B0) (h2 : Sim B0 m (pk x) R) :
    Sim B0 m (Sml.readNum a >>= pk) R := by
  refine Sim.step (B1 := B0) ?_ rfl h2
  intro st n0 c0 h L o
  have hm' := List.mem_append_left L hm
  exact ⟨_, readNum_ok (o.ne0_of_mem hm') (o.cell_of_mem hm'), o⟩

theorem Sim.readTagM (hm : (a, .num x) ∈ B0) (hx : Sized w x) (h2 : Sim B0 m (pk x) R) :
    Sim B0 m (Sml.readTag w a >>= pk) R := by
  refine Sim.step (B1 := B0) ?_ rfl h2
  intro st n0 c0 h L o
  have hm' := List.mem_append_left L hm
  exact ⟨_, readTag_ok (o.ne0_of_mem hm') (o.cell_of_mem hm') hx, o⟩

theorem readRaw_ok (hne : a ≠ 0) (hc : h.cells a = some (.bytes bs)) (hn : n ≤ bs.length) :
    readRaw a n st h = .ok (bs.take n) st h := by
  rw [readRaw, P.bind_ok (deref_ok hne hc)]
  simp only [hn, if_true]
  rfl

theorem Sim.readRawM (hm : (a, .bytes bs) ∈ B0) (hn : n ≤ bs.length) (h2 : Sim B0 m (pk (bs.take n)) R) :
    Sim B0 m (Sml.readRaw a n >>= pk) R := by
  refine Sim.step (B1 := B0) ?_ rfl h2
  intro st n0 c0 h L o
  have hm' := List.mem_append_left L hm
  exact ⟨_, readRaw_ok (o.ne0_of_mem hm') (o.cell_of_mem hm') hn, o⟩

/-- What the blocks of an octet string look like. -/
theorem RStr.cells (h : RStr s a B) : ∃ d, (a, .struct [d] [s.str.length]) ∈ B ∧
    (s.str ≠ [] → (d, .bytes s.str) ∈ B) := by
  obtain ⟨ps, B', hF, rfl⟩ := h
  obtain ⟨d, rfl, hd⟩ := hF.one
  refine ⟨d, List.mem_cons_self, fun hs => ?_⟩
  rw [RData, if_neg hs] at hd
  rw [hd]
  exact List.mem_cons_of_mem _ List.mem_cons_self

/-- The first and the sixth member of an entry. -/
theorem REntry.cells (h : REntry e a B) : ∃ ps nm v Bn Bv, (a, .struct ps []) ∈ B ∧ ps[0]? = some nm ∧ ps[5]? = some v ∧
    repOpt RStr e.objName nm Bn ∧ (∀ x ∈ Bn, x ∈ B) ∧ repOpt RValue e.value v Bv ∧ (∀ x ∈ Bv, x ∈ B) := by
  obtain ⟨ps, B', hF, rfl⟩ := h
  obtain ⟨nm, Bn, C, hnm, hrn, hpn⟩ := hF.get 0 rfl
  obtain ⟨v, Bv, D, hv, hrv, hpv⟩ := hF.get 5 rfl
  refine ⟨ps, nm, v, Bn, Bv, List.mem_cons_self, hnm, hv, hrn, ?_, hrv, ?_⟩
  · intro x hx
    exact List.mem_cons_of_mem _ (hpn.mem_iff.mpr (List.mem_append_left _ hx))
  · intro x hx
    exact List.mem_cons_of_mem _ (hpv.mem_iff.mpr (List.mem_append_left _ hx))

theorem Rec.mem {rs : List Rep} (h : Rec rs is a B) (hne : B ≠ []) : ∃ ps, (a, .struct ps is) ∈ B := by
  obtain ⟨ps, B', hF, rfl⟩ := h
  exact ⟨ps, List.mem_cons_self⟩

theorem Sim.ne0 {R : α → β → List Blk → Prop} (hm : (a, c) ∈ B0) (h : a ≠ 0 → Sim B0 m pm R) : Sim B0 m pm R := by
  intro s n0 c0 hp g0 o
  exact h (o.ne0_of_mem (List.mem_append_left g0 hm)) s n0 c0 hp g0 o

theorem sim_detect (h : REntry e a B) :
    Sim B (detectBuggyDzgDvs74 e) (pDetectBuggyDzgDvs74 a) (fun v p C => v = p ∧ C = B) := by
  obtain ⟨ps, nm, v, Bn, Bv, ha, h0, h5, hn, hsn, hv, hsv⟩ := h.cells
  rw [detectBuggyDzgDvs74, pDetectBuggyDzgDvs74]
  refine Sim.readPtrM ha h0 ?_
  cases hon : e.objName with
  | none =>
    rw [hon] at hn
    rw [if_pos hn.1]
    exact Sim.ret ⟨rfl, rfl⟩
  | some name =>
    rw [hon] at hn
    obtain ⟨d, hd1, hd2⟩ := RStr.cells hn
    refine Sim.ne0 (hsn _ hd1) fun hne => ?_
    rw [if_neg hne]
    refine Sim.readIntM (hsn _ hd1) rfl ?_
    by_cases hl : name.str.length = 6
    · have hs : name.str ≠ [] := by
        intro hs
        rw [hs] at hl
        exact absurd hl (by decide)
      simp only [hl, ne_eq, not_true_eq_false, if_false, false_or]
      refine Sim.readPtrM (hsn _ hd1) rfl ?_
      refine Sim.readRawM (hsn _ (hd2 hs)) (by omega) ?_
      rw [List.take_of_length_le (by omega)]
      refine Sim.ite (fun _ => Sim.ret ⟨rfl, rfl⟩) fun _ => ?_
      refine Sim.readPtrM ha h5 ?_
      cases hval : e.value with
      | none =>
        rw [hval] at hv
        rw [if_pos hv.1]
        exact Sim.ret ⟨rfl, rfl⟩
      | some val =>
        rw [hval] at hv
        obtain ⟨hw, pv, Cv, hFv, rfl⟩ := hv
        obtain ⟨q, rfl, hq⟩ := hFv.one
        have hmv := hsv _ List.mem_cons_self
        refine Sim.ne0 hmv fun hnv => ?_
        rw [if_neg hnv]
        refine Sim.readIntM hmv rfl ?_
        refine Sim.ite (fun _ => Sim.ret ⟨rfl, rfl⟩) fun ht => ?_
        simp only [Decidable.not_not] at ht
        obtain ⟨p, hp⟩ := hw ht
        rw [hp] at hq ⊢
        cases p with
        | none => exact Sim.undef
        | some s =>
          obtain ⟨d', hd1', hd2'⟩ := RStr.cells hq
          refine Sim.readPtrM hmv rfl ?_
          refine Sim.readIntM (hsv _ (List.mem_cons_of_mem _ hd1')) rfl ?_
          refine Sim.ite (fun _ => Sim.ret ⟨rfl, rfl⟩) fun hl' => ?_
          simp only [Decidable.not_not] at hl'
          have hs' : s.str ≠ [] := by
            intro hs
            rw [hs] at hl'
            exact absurd hl' (by decide)
          refine Sim.readPtrM (hsv _ (List.mem_cons_of_mem _ hd1')) rfl ?_
          refine Sim.readRawM (hsv _ (List.mem_cons_of_mem _ (hd2' hs'))) (by omega) ?_
          rw [List.take_of_length_le (l := s.str) (i := 10) (by omega)]
          exact Sim.ite (fun _ => Sim.ret ⟨rfl, rfl⟩) fun _ => Sim.ret ⟨rfl, rfl⟩
    · simp only [hl, ne_eq, not_false_eq_true, if_true, true_or]
      exact Sim.ret ⟨rfl, rfl⟩

/-- The condition of the workaround. -/
def dzgApplies (e : ListEntry) (vlm : UInt8) (wa : Bool) : Bool :=
  match wa, e.objName, e.value with
  | true, some name, some _ =>
    decide (name.str.length = 6 ∧ name.str = dzgPowerName ∧ (vlm = 1 ∨ vlm = 2 ∨ vlm = 3))
  | _, _, _ => false

theorem dzgApplies_ok (h : REntry e a B) (o : Own n0 c0 hp (B ++ L)) :
    pDzgApplies a vlm wa st hp = .ok (dzgApplies e vlm wa) st hp := by
  obtain ⟨ps, nm, v, Bn, Bv, ha, h0, h5, hn, hsn, hv, hsv⟩ := h.cells
  have mem : ∀ {x}, x ∈ B → x ∈ B ++ L := fun hx => List.mem_append_left L hx
  cases wa with
  | false => rw [pDzgApplies, if_pos rfl]; rfl
  | true =>
    rw [pDzgApplies, if_neg (by decide), P.bind_ok (readPtr_ok (o.ne0_of_mem (mem ha)) (o.cell_of_mem (mem ha)) h0)]
    cases hon : e.objName with
    | none =>
      rw [hon] at hn
      rw [if_pos hn.1]
      simp only [dzgApplies, hon]
      rfl
    | some name =>
      rw [hon] at hn
      obtain ⟨d, hd1, hd2⟩ := RStr.cells hn
      have m1 := mem (hsn _ hd1)
      rw [if_neg (o.ne0_of_mem m1), P.bind_ok (readInt_ok (o.ne0_of_mem m1) (o.cell_of_mem m1) rfl)]
      by_cases hl : name.str.length = 6
      · have hs : name.str ≠ [] := by
          intro hs
          rw [hs] at hl
          exact absurd hl (by decide)
        have m2 := mem (hsn _ (hd2 hs))
        rw [if_neg (by simp [hl]), P.bind_ok (readPtr_ok (o.ne0_of_mem m1) (o.cell_of_mem m1) rfl),
          P.bind_ok (readRaw_ok (o.ne0_of_mem m2) (o.cell_of_mem m2) (by omega)), List.take_of_length_le (by omega)]
        by_cases hd : name.str = dzgPowerName
        · rw [if_neg (by simp [hd]),
            P.bind_ok (readPtr_ok (o.ne0_of_mem (mem ha)) (o.cell_of_mem (mem ha)) h5)]
          cases hval : e.value with
          | none =>
            rw [hval] at hv
            rw [if_pos hv.1]
            simp only [dzgApplies, hon, hval]
            rfl
          | some val =>
            rw [hval] at hv
            obtain ⟨hw, pv, Cv, hFv, rfl⟩ := hv
            rw [if_neg (o.ne0_of_mem (mem (hsv _ List.mem_cons_self)))]
            have e1 : dzgApplies e vlm true = decide (vlm = 1 ∨ vlm = 2 ∨ vlm = 3) := by
              simp [dzgApplies, hon, hval, hd, dzgPowerName]
            rw [e1]
            rfl
        · rw [if_pos hd]
          cases hval : e.value <;> simp [dzgApplies, hon, hval, hd] <;> rfl
      · rw [if_pos hl]
        cases hval : e.value <;> simp [dzgApplies, hon, hval, hl] <;> rfl

theorem Sim.noteConfused {R : α → β → List Blk → Prop} (h : Sim B0 k pk R) :
    Sim B0 (Sml.noteConfused v >>= fun _ => k) pk R := by
  intro s n0 c0 hp g0 o x s' hm
  obtain ⟨u, s1, e1, e2⟩ := M.bind_eq_ok hm
  have hs : s1.dry = s.dry ∧ s1.live = s.live := by
    unfold Sml.noteConfused at e1
    cases hd : v.data <;> rw [hd] at e1 <;> cases e1 <;> exact ⟨rfl, rfl⟩
  obtain ⟨p, h', B, g, e, hR, o', l⟩ := h s1 n0 c0 hp g0 o x s' e2
  refine ⟨p, h', B, g, ?_, hR, o', ?_⟩
  · rw [← hs.1]
    exact e
  · rw [← hs.2]
    exact l

/-- The result of `sml_list_entry_parse`. -/
def REntryRes : Option (ListEntry × Bool) → Addr × Bool → List Blk → Prop
  | none, p, B => p.1 = 0 ∧ B = []
  | some (e, wa), p, B => REntry e p.1 B ∧ p.2 = wa

theorem listEntryFinish_eq (e : ListEntry) (vlm : UInt8) (wa : Bool) :
    listEntryFinish e vlm wa = (detectBuggyDzgDvs74 e >>= fun b =>
      if b = true then pure (some (e, true))
      else if dzgApplies e vlm wa = true then
        match e.value with
        | some v => noteConfused v >>= fun _ => pure (some ({ e with value := some (retag v) }, wa))
        | none => pure none
      else pure (some (e, wa))) := by
  unfold listEntryFinish
  congr 1
  funext b
  obtain ⟨n, st, vt, u, sc, v, sg⟩ := e
  split
  · rfl
  cases wa with
  | false => rfl
  | true =>
    cases n with
    | none => rfl
    | some name =>
      cases v with
      | none => rfl
      | some v =>
        by_cases hc : name.str.length = 6 ∧ name.str = dzgPowerName ∧ (vlm = 1 ∨ vlm = 2 ∨ vlm = 3)
        · have hd : dzgApplies ⟨some name, st, vt, u, sc, some v, sg⟩ vlm true = true := decide_eq_true hc
          rw [if_pos hd]
          exact if_pos hc
        · have hd : dzgApplies ⟨some name, st, vt, u, sc, some v, sg⟩ vlm true = false := decide_eq_false hc
          rw [if_neg (by rw [hd]; decide)]
          exact if_neg hc

theorem sim_finish (h : REntry e a B) :
    Sim B (listEntryFinish e vlm wa) (pListEntryFinish a vlm wa) REntryRes := by
  rw [listEntryFinish_eq, pListEntryFinish]
  refine Sim.bind (sim_detect h) ?_
  rintro b p C ⟨rfl, rfl⟩
  refine Sim.ite (fun _ => Sim.ret ⟨h, rfl⟩) fun _ => ?_
  refine Sim.step (B1 := C) (p := dzgApplies e vlm wa) ?_ rfl ?_
  · intro st n0 c0 hp L o
    exact ⟨hp, dzgApplies_ok h o, o⟩
  refine Sim.ite (fun hd => ?_) fun _ => Sim.ret ⟨h, rfl⟩
  obtain ⟨ps, B', hF, rfl⟩ := h
  obtain ⟨q, B1, B2, hq, hr, hperm, hset⟩ := hF.split 5 rfl
  cases hval : e.value with
  | none =>
    unfold dzgApplies at hd
    rw [hval] at hd
    cases wa <;> cases hon : e.objName <;> rw [hon] at hd <;> simp at hd
  | some v =>
    rw [hval] at hr
    obtain ⟨hw, pv, Cv, hFv, rfl⟩ := hr
    refine Sim.noteConfused ?_
    refine Sim.readPtrM List.mem_cons_self hq ?_
    refine Sim.perm (B1 := (q, .struct pv [v.type]) :: (a, .struct ps []) :: (Cv ++ B2)) ?_ ?_
    · refine (List.Perm.cons _ hperm).trans ?_
      exact List.Perm.swap _ _ _
    refine Sim.readIntM List.mem_cons_self rfl ?_
    refine Sim.ne0 List.mem_cons_self fun hne => ?_
    refine Sim.writeInt hne (by simp) ?_
    obtain ⟨C', hF', hP⟩ := hset (RValue (retag v)) q ((q, .struct pv [(retag v).type]) :: Cv)
      ⟨fun ht => absurd (Nat.or_eq_zero_iff.mp ht).2 (by decide), pv, Cv, hFv, rfl⟩
    have hps : ps.set 5 q = ps := by
      obtain ⟨hlt, hq'⟩ := List.getElem?_eq_some_iff.mp hq
      rw [← hq', List.set_getElem_self]
    rw [hps] at hF'
    refine Sim.perm ?_ (Sim.ret (B := (a, .struct ps []) :: C') ⟨⟨ps, C', hF', rfl⟩, rfl⟩)
    refine (List.Perm.swap _ _ _).trans (List.Perm.cons _ ?_)
    exact hP.symm

theorem REntry.empty (a : Addr) : REntry {} a [(a, .struct [0, 0, 0, 0, 0, 0, 0, 0] [])] := by
  have hn : nullRep 0 [] := ⟨rfl, rfl⟩
  have hs := Fields.single hn
  exact ⟨_, [], hs.append (hs.append (hs.append (hs.append (hs.append (hs.append (hs.append hs)))))), rfl⟩

theorem sim_entry (wa : Bool) : Sim [] (listEntryParse wa) (pListEntryParse wa) REntryRes := by
  have hz : REntryRes none (0, wa) [] := ⟨rfl, rfl⟩
  rw [listEntryParse, pListEntryParse, expectList, pExpectList]
  refine dry_getNextType.sim fun ty => Sim.ite (fun _ => Sim.fail0 hz) fun _ => ?_
  refine dry_getNextLength.sim fun l => Sim.ite (fun _ => Sim.fail0 hz) fun _ => ?_
  refine Sim.alloc fun a ha => ?_
  refine Sim.field sim_octetString (REntry.empty a) rfl rfl (fun _ => rfl) frees_entry hz fun v B hB => ?_
  refine Sim.field sim_status hB rfl rfl (fun _ => rfl) frees_entry hz fun v B hB => ?_
  refine Sim.field sim_time hB rfl rfl (fun _ => rfl) frees_entry hz fun v B hB => ?_
  refine Sim.field (sim_number _ _) hB rfl rfl (fun _ => rfl) frees_entry hz fun v B hB => ?_
  refine Sim.field (sim_number _ _) hB rfl rfl (fun _ => rfl) frees_entry hz fun v B hB => ?_
  refine Sim.getSt fun s => Sim.ite (fun _ => Sim.fail (frees_entry _) hB hz) fun _ => ?_
  refine dry_getCurrentByte.sim fun b => ?_
  refine Sim.field sim_value hB rfl rfl (fun _ => rfl) frees_entry hz fun v B hB => ?_
  refine Sim.field sim_octetString hB rfl rfl (fun _ => rfl) frees_entry hz fun v B hB => ?_
  exact sim_finish hB

/-- A list under construction: `pos` is its last entry (0 when there is none). -/
def ListAt (acc : List ListEntry) (ret pos : Addr) (B : List Blk) : Prop :=
  (acc = [] ∧ ret = 0 ∧ pos = 0 ∧ B = []) ∨
  (pos ≠ 0 ∧ ∃ ps rest, ps.length = 7 ∧ B.Perm ((pos, .struct (ps ++ [0]) []) :: rest) ∧
    ∀ es p Be, RList es p Be → ∃ B', RList (acc ++ es) ret B' ∧
      B'.Perm ((pos, .struct (ps ++ [p]) []) :: (rest ++ Be)))

theorem ListAt.start (hr : REntry e a Be) (ha : a ≠ 0) : ListAt [e] a a Be := by
  obtain ⟨ps, n, B1, B2, hF, hl, ⟨rfl, rfl⟩, rfl⟩ := RList.cons hr
  refine Or.inr ⟨ha, ps, B1, hl, by rw [List.append_nil], ?_⟩
  intro es p Bp hes
  exact ⟨_, RList.mk hF hes, List.Perm.refl _⟩

theorem ListAt.list (hL : ListAt acc ret pos B) : ∃ B', RList acc ret B' ∧ B.Perm B' := by
  rcases hL with ⟨rfl, rfl, rfl, rfl⟩ | ⟨hpos, ps, rest, hl, hP, hN⟩
  · exact ⟨[], ⟨rfl, rfl⟩, List.Perm.refl _⟩
  · obtain ⟨B', h1, h2⟩ := hN [] 0 [] ⟨rfl, rfl⟩
    rw [List.append_nil] at h1 h2
    exact ⟨B', h1, hP.trans h2.symm⟩

/-- A new entry becomes the last one: sml_list.c:287, `*pos = sml_list_entry_parse(buf, &workarounds)`. -/
theorem sim_link {m : M γ} {pk : Addr → P δ} (hL : ListAt acc ret pos B) (hv : REntryRes v p Be)
    (hk : ∀ ret' B', RList (acc ++ (v.map (·.1)).toList) ret' B' →
      (∀ e wa, v = some (e, wa) → p.1 ≠ 0 ∧ ListAt (acc ++ [e]) ret' p.1 B') → Sim B' m (pk ret') R) :
    Sim (Be ++ B) m ((if pos = 0 then pure p.1 else writePtr pos 7 p.1 >>= fun _ => pure ret) >>= pk) R := by
  rcases hL with ⟨rfl, rfl, rfl, rfl⟩ | ⟨hpos, ps, rest, hl, hP, hN⟩
  · rw [if_pos rfl, List.append_nil]
    refine Sim.step (B1 := Be) (p := p.1) (fun st n0 c0 h L o => ⟨h, rfl, o⟩) rfl ?_
    cases v with
    | none => exact hk p.1 Be hv fun e wa h => by cases h
    | some x =>
      obtain ⟨e, wa⟩ := x
      obtain ⟨hr, hwa⟩ := hv
      obtain ⟨ps, n, B1, B2, hF, hl, hn, rfl⟩ := RList.cons hr
      refine Sim.ne0 List.mem_cons_self fun hne => ?_
      refine hk p.1 _ hr ?_
      rintro e' wa' ⟨⟩
      exact ⟨hne, ListAt.start hr hne⟩
  · rw [if_neg hpos, P.assoc]
    refine Sim.perm (B1 := (pos, .struct (ps ++ [0]) []) :: (Be ++ rest)) ?_ ?_
    · exact (hP.append_left Be).trans List.perm_middle
    refine Sim.writePtr hpos (by simp [hl]) ?_
    have hset : (ps ++ [0]).set 7 p.1 = ps ++ [p.1] := by
      rw [← hl]
      simp
    rw [hset, P.pure_bind_eq]
    cases v with
    | none =>
      obtain ⟨h1, rfl⟩ := hv
      obtain ⟨B', h2, h3⟩ := hN [] p.1 [] ⟨h1, rfl⟩
      refine Sim.perm ?_ (hk ret B' h2 fun e wa h => by cases h)
      rw [List.append_nil] at h3
      exact h3.symm
    | some x =>
      obtain ⟨e, wa⟩ := x
      obtain ⟨hr, hwa⟩ := hv
      obtain ⟨B', h2, h3⟩ := hN [e] p.1 Be hr
      obtain ⟨qs, n, B1, B2, hF, hlq, ⟨rfl, rfl⟩, rfl⟩ := RList.cons hr
      rw [List.append_nil] at h3 hr ⊢
      have hmem : (p.1, HCell.struct (qs ++ [0]) []) ∈ (pos, HCell.struct (ps ++ [p.1]) []) ::
          ((p.1, HCell.struct (qs ++ [0]) []) :: B1 ++ rest) := by simp
      refine Sim.ne0 hmem fun hne => ?_
      refine Sim.perm (B1 := B') ?_ (hk ret B' h2 ?_)
      · refine List.Perm.trans (List.Perm.cons _ ?_) h3.symm
        exact List.perm_append_comm
      rintro e' wa' ⟨⟩
      refine ⟨hne, Or.inr ⟨hne, qs, (pos, .struct (ps ++ [p.1]) []) :: (rest ++ B1), hlq, ?_, ?_⟩⟩
      · refine h3.trans ?_
        refine List.Perm.trans (List.Perm.cons _ List.perm_middle) (List.Perm.swap _ _ _)
      · intro es q Bq hq
        obtain ⟨B2, h4, h5⟩ := hN ([e] ++ es) p.1 _ (RList.mk hF hq)
        refine ⟨B2, by rw [List.append_assoc]; exact h4, h5.trans ?_⟩
        refine List.Perm.trans (List.Perm.cons _ List.perm_middle) ?_
        rw [← List.append_assoc]
        exact List.Perm.swap _ _ _

theorem sim_listLoop : ∀ elems wa acc ret pos B, ListAt acc ret pos B →
    Sim B (listLoop elems wa acc) (pListLoop elems wa ret pos) RList
  | 0, wa, acc, ret, pos, B, hL => by
    obtain ⟨B', h1, h2⟩ := hL.list
    exact Sim.perm h2 (Sim.ret h1)
  | elems + 1, wa, acc, ret, pos, B, hL => by
    rw [listLoop, pListLoop]
    refine Sim.call (sim_entry wa) fun v p Be hv => ?_
    refine sim_link hL hv fun ret' B' hr hnew => ?_
    refine dry_hasErrors.sim fun b => Sim.ite (fun _ => ?_) fun _ => ?_
    · refine dry_setError.sim fun _ => ?_
      have h : Sim (B' ++ []) (release (listFreed (acc ++ (v.map (·.1)).toList)) >>= fun _ => pure [])
          (pListFree ret' >>= fun _ => pure 0) RList := Sim.release (frees_list _) hr (Sim.ret ⟨rfl, rfl⟩)
      rw [List.append_nil] at h
      exact h
    · cases v with
      | none => exact Sim.undef
      | some x =>
        obtain ⟨e, wa'⟩ := x
        obtain ⟨hne, hL'⟩ := hnew e wa' rfl
        obtain ⟨_, hwa⟩ := hv
        rw [if_neg hne, hwa]
        exact sim_listLoop elems wa' (acc ++ [e]) ret' p.1 B' hL'

theorem sim_list : Sim [] listParse pListParse RList := by
  rw [listParse, pListParse]
  refine dry_optionalIsSkipped.sim fun b => Sim.ite (fun _ => Sim.ret ⟨rfl, rfl⟩) fun _ => ?_
  refine dry_getNextType.sim fun ty => Sim.ite (fun _ => ?_) fun _ => ?_
  · exact dry_setError.sim fun _ => Sim.ret ⟨rfl, rfl⟩
  · refine dry_getNextLength.sim fun l => ?_
    exact sim_listLoop _ _ _ _ _ _ (Or.inl ⟨rfl, rfl, rfl, rfl⟩)

end Sml
