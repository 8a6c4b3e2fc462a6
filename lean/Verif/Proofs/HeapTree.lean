import Verif.Proofs.HeapList

/-! # Parameter trees on the addressed heap -/

namespace Sml

/-- A structure right after it was allocated: all members NULL. -/
theorem Rec.empty : ∀ (n : Nat) (a : Addr) (is : List Nat),
    Rec (List.replicate n nullRep) is a [(a, .struct (List.replicate n 0) is)] := by
  intro n a is
  refine ⟨_, [], ?_, rfl⟩
  induction n with
  | zero => exact ⟨rfl, rfl⟩
  | succ n ih => exact ⟨0, _, [], [], rfl, ⟨rfl, rfl⟩, ih, rfl⟩

/-! ## Paths -/

theorem frees_treePath (p : TreePath) : Frees pTreePathFree (RTreePath p) (treePathFreed (some p)) := by
  rintro a B ⟨ps, B', hF, rfl⟩ st n0 c0 h L o
  obtain ⟨arr, rfl, harr⟩ := hF.one
  have hne := o.ne0
  rw [pTreePathFree, if_pos hne, P.bind_ok (readPtr_ok hne o.cell rfl), P.bind_ok (readInt_ok hne o.cell rfl)]
  by_cases hs : p.entries = []
  · rw [RArr, if_pos (by rw [hs]; rfl)] at harr
    obtain ⟨rfl, rfl⟩ := harr
    refine ⟨_, [], ?_, o.drop, ?_⟩
    · rw [if_neg (by simp)]
      exact free_ok hne o.cell
    · simp [treePathFreed, hs]
  · rw [RArr.ne (by simpa using hs)] at harr
    obtain ⟨qs, C, hq, rfl⟩ := harr
    have o1 : Own n0 c0 h (C ++ ((a, .struct [arr] [p.entries.length]) :: (arr, .struct ([] ++ qs) []) :: L)) := o.perm (by
      refine List.Perm.trans (List.Perm.cons _ ?_) List.perm_middle.symm
      exact List.perm_middle.symm)
    have hna : arr ≠ 0 := (o1.perm List.perm_append_comm |>.perm (List.Perm.swap _ _ _)).ne0
    have hlen : p.entries.length > 0 := List.length_pos_iff.mpr hs
    obtain ⟨h1, g, e1, o2, l1⟩ := forEach_ok frees_octetStringOpt p.entries (qs := []) (i := 0) (st := st) hne hna rfl hq o1
    rw [if_pos ⟨hna, hlen⟩, P.bind_ok (readInt_ok hne o.cell rfl)]
    have e1' : pForEach pOctetStringFree a 0 p.entries.length 0 st h = .ok () st h1 := e1
    rw [P.bind_ok e1']
    have o3 := o2.perm List.perm_middle
    rw [P.bind_ok (readPtr_ok hne o3.cell rfl)]
    have o4 := (o3.perm (List.Perm.cons _ List.perm_middle)).perm (List.Perm.swap _ _ _)
    rw [P.bind_ok (free_ok hna o4.cell)]
    have o5 := o4.drop
    refine ⟨_, g, free_ok hne o5.cell, o5.drop, ?_⟩
    simp only [treePathFreed, hs, ne_eq, not_false_eq_true, if_true, List.length_cons]
    omega

theorem frees_treePathOpt : ∀ v : Option TreePath, Frees pTreePathFree (repOpt RTreePath v) (treePathFreed v)
  | none => Frees.null (fun _ _ => rfl)
  | some v => frees_treePath v

theorem treePathAdd_bind (s : TreePath) (e : Option OctetString) (k : TreePath → M β) :
    (treePathAdd s e >>= k) =
      ((if s.entries = [] then alloc 1 else pure ()) >>= fun _ => k { entries := s.entries ++ [e] }) := by
  rw [treePathAdd]
  by_cases h : s.entries = []
  · rw [if_pos h, if_pos h]
    rfl
  · rw [if_neg h, if_neg h]
    rfl

theorem RStr.ne0 {R : α → β → List Blk → Prop} (h : RStr s a B) (hk : a ≠ 0 → Sim (B ++ B0) m pm R) :
    Sim (B ++ B0) m pm R := by
  obtain ⟨d, hd, _⟩ := h.cells
  exact Sim.ne0 (List.mem_append_left _ hd) hk

theorem sim_treePathLoop : ∀ i s a B, a ≠ 0 → RTreePath s a B → s.entries.length + i ≤ 2147483647 →
    Sim B (treePathLoop i s) (pTreePathLoop a i) (repOpt RTreePath)
  | 0, s, a, B, _, hr, _ => Sim.ret hr
  | i + 1, s, a, B, ha, hr, hl => by
    rw [treePathLoop, pTreePathLoop]
    refine Sim.call sim_octetString fun v e Be hv => dry_hasErrors.sim fun b => Sim.ite (fun _ => ?_) fun _ => ?_
    · refine Sim.perm List.perm_append_comm (Sim.forget ?_)
      exact Sim.fail (frees_treePath s) hr ⟨rfl, rfl⟩
    · cases v with
      | none =>
        obtain ⟨rfl, rfl⟩ := hv
        rw [if_neg (by simp)]
        exact sim_treePathLoop i s a B ha hr (by omega)
      | some v =>
        refine RStr.ne0 hv fun hne => ?_
        rw [if_pos hne]
        show Sim _ (treePathAdd s (some v) >>= fun path => treePathLoop i path) _ _
        rw [treePathAdd_bind]
        refine sim_arrayAdd (r := RStr v) hr ha rfl (by simp) (by omega) (by simp) hv fun B' hB' => ?_
        refine sim_treePathLoop i { entries := s.entries ++ [some v] } a B' ha ?_ (by simp; omega)
        have e : RTreePath { entries := s.entries ++ [some v] } =
            Rec [RArr (s.entries.map (repOpt RStr) ++ [RStr v])] [s.entries.length + 1] := by
          simp [RTreePath, repOpt]
        rw [e]
        exact hB'

theorem sim_treePath : Sim [] treePathParse pTreePathParse (repOpt RTreePath) := by
  refine Sim.optional ?_
  refine Sim.alloc fun a ha => ?_
  have h0 : RTreePath { entries := [] } a [(a, .struct [0] [0])] := ⟨[0], [], Fields.single RArr.nil, rfl⟩
  refine dry_getNextType.sim fun ty => Sim.ite (fun _ => Sim.fail (frees_treePath _) h0 ⟨rfl, rfl⟩) fun _ => ?_
  refine dry_getNextLength.simPost getNextLength_le fun len hlen => ?_
  exact sim_treePathLoop _ _ _ _ ha h0 (by simpa using hlen)

/-! ## Period entries and tuple entries -/

theorem frees_periodEntry (p : PeriodEntry) : Frees pPeriodEntryFree (RPeriodEntry p) (periodEntryFreed (some p)) := by
  refine Frees.congr (Frees.struct (.cons (frees_octetStringOpt _) (.cons (frees_numberOpt _) (.cons (frees_numberOpt _)
    (.cons (frees_valueOpt _) (.cons (frees_octetStringOpt _) .nil)))))) ?_
  rw [periodEntryFreed]
  omega

theorem frees_periodEntryOpt : ∀ v : Option PeriodEntry, Frees pPeriodEntryFree (repOpt RPeriodEntry v) (periodEntryFreed v)
  | none => Frees.null (fun _ _ => rfl)
  | some v => frees_periodEntry v

theorem sim_periodEntry : Sim [] periodEntryParse pPeriodEntryParse (repOpt RPeriodEntry) := by
  have hz : repOpt RPeriodEntry none 0 [] := ⟨rfl, rfl⟩
  refine Sim.optional ?_
  refine Sim.alloc fun a ha => ?_
  have h0 : RPeriodEntry {} a [(a, .struct [0, 0, 0, 0, 0] [])] := Rec.empty 5 a []
  refine Sim.expectList (frees_periodEntry _) h0 hz ?_
  refine Sim.field sim_octetString h0 rfl rfl (fun _ => rfl) frees_periodEntry hz fun v B hB => ?_
  refine Sim.field (sim_number _ _) hB rfl rfl (fun _ => rfl) frees_periodEntry hz fun v B hB => ?_
  refine Sim.field (sim_number _ _) hB rfl rfl (fun _ => rfl) frees_periodEntry hz fun v B hB => ?_
  refine Sim.field sim_value hB rfl rfl (fun _ => rfl) frees_periodEntry hz fun v B hB => ?_
  refine Sim.field sim_octetString hB rfl rfl (fun _ => rfl) frees_periodEntry hz fun v B hB => ?_
  exact Sim.ret hB

theorem frees_tupelEntry (t : TupelEntry) : Frees pTupelEntryFree (RTupelEntry t) (tupelEntryFreed (some t)) := by
  refine Frees.congr (Frees.struct (.cons (frees_octetStringOpt _) (.cons (frees_timeOpt _) (.cons (frees_numberOpt _)
    (.cons (frees_numberOpt _) (.cons (frees_numberOpt _) (.cons (frees_numberOpt _)
    (.cons (frees_numberOpt _) (.cons (frees_numberOpt _) (.cons (frees_numberOpt _)
    (.cons (frees_numberOpt _) (.cons (frees_numberOpt _) (.cons (frees_numberOpt _) (.cons (frees_octetStringOpt _)
    (.cons (frees_numberOpt _) (.cons (frees_numberOpt _) (.cons (frees_numberOpt _)
    (.cons (frees_numberOpt _) (.cons (frees_numberOpt _) (.cons (frees_numberOpt _)
    (.cons (frees_numberOpt _) (.cons (frees_numberOpt _) (.cons (frees_numberOpt _) (.cons (frees_octetStringOpt _)
    .nil)))))))))))))))))))))))) ?_
  rw [tupelEntryFreed]
  omega

theorem frees_tupelEntryOpt : ∀ v : Option TupelEntry, Frees pTupelEntryFree (repOpt RTupelEntry v) (tupelEntryFreed v)
  | none => Frees.null (fun _ _ => rfl)
  | some v => frees_tupelEntry v

theorem sim_tupelEntry : Sim [] tupelEntryParse pTupelEntryParse (repOpt RTupelEntry) := by
  have hz : repOpt RTupelEntry none 0 [] := ⟨rfl, rfl⟩
  refine Sim.optional ?_
  refine Sim.alloc fun a ha => ?_
  have h0 : RTupelEntry {} a [(a, .struct (List.replicate 23 0) [])] := Rec.empty 23 a []
  refine Sim.expectList (frees_tupelEntry _) h0 hz ?_
  refine Sim.field sim_octetString h0 rfl rfl (fun _ => rfl) frees_tupelEntry hz fun v B hB => ?_
  refine Sim.field sim_time hB rfl rfl (fun _ => rfl) frees_tupelEntry hz fun v B hB => ?_
  iterate 10 refine Sim.field (sim_number _ _) hB rfl rfl (fun _ => rfl) frees_tupelEntry hz fun v B hB => ?_
  refine Sim.field sim_octetString hB rfl rfl (fun _ => rfl) frees_tupelEntry hz fun v B hB => ?_
  iterate 9 refine Sim.field (sim_number _ _) hB rfl rfl (fun _ => rfl) frees_tupelEntry hz fun v B hB => ?_
  refine Sim.field sim_octetString hB rfl rfl (fun _ => rfl) frees_tupelEntry hz fun v B hB => ?_
  exact Sim.ret hB

/-! ## Process parameter values -/

theorem Fields.two (h : Fields [r, r'] ps B) : ∃ p q B1 B2, ps = [p, q] ∧ r p B1 ∧ r' q B2 ∧ B = B1 ++ B2 := by
  obtain ⟨p, ps', B1, B2, rfl, hr, hF, rfl⟩ := h
  obtain ⟨q, rfl, hq⟩ := hF.one
  exact ⟨p, q, B1, B2, rfl, hr, hq, rfl⟩

/-- What `sml_proc_par_value_free` does with the union, by tag. -/
theorem frees_ppvData (v : ProcParValue) (t : Num) (ht : v.tag = some t) (hw : PpvWf v) :
    Frees (fun d => if t.val = 1 then pValueFree d else if t.val = 2 then pPeriodEntryFree d
      else if t.val = 3 then pTupelEntryFree d else if t.val = 4 then pTimeFree d else pNumberFree d)
      (RPpvData v.data) (procParValueFreed (some v) - 2) := by
  obtain ⟨tag, data⟩ := v
  obtain rfl : tag = some t := ht
  cases data with
  | null =>
    have hc : procParValueFreed (some ⟨some t, .null⟩) - 2 = 0 := by
      simp [procParValueFreed, PpvData.ptrFreed]
    rw [hc]
    refine Frees.null fun st h => ?_
    repeat' split
    all_goals rfl
  | value p =>
    obtain ⟨-, t', h1, h2⟩ := hw
    cases h1
    simp only [h2, if_true]
    refine (frees_valueOpt p).congr ?_
    simp [procParValueFreed, h2]
  | periodEntry p =>
    obtain ⟨-, t', h1, h2⟩ := hw
    cases h1
    simp only [h2, if_true]
    refine (frees_periodEntryOpt p).congr ?_
    simp [procParValueFreed, h2]
  | tupelEntry p =>
    obtain ⟨-, t', h1, h2⟩ := hw
    cases h1
    simp only [h2, if_true]
    refine (frees_tupelEntryOpt p).congr ?_
    simp [procParValueFreed, h2]
  | time p =>
    obtain ⟨-, t', h1, h2⟩ := hw
    cases h1
    simp only [h2, if_true]
    refine (frees_timeOpt p).congr ?_
    simp [procParValueFreed, h2]

theorem frees_ppv (v : ProcParValue) : Frees pProcParValueFree (RPpv v) (procParValueFreed (some v)) := by
  rintro a B ⟨hw, ps, B', hF, rfl⟩ st n0 c0 h L o
  obtain ⟨p, q, B1, B2, rfl, hp, hq, rfl⟩ := hF.two
  have hne := o.ne0
  rw [pProcParValueFree, if_pos hne, P.bind_ok (readPtr_ok hne o.cell rfl), P.bind_ok (readPtr_ok hne o.cell rfl)]
  cases ht : v.tag with
  | none =>
    rw [ht] at hp
    obtain ⟨rfl, rfl⟩ := hp
    have hd : v.data = .null := by
      cases hd : v.data <;> simp only [PpvWf, hd, ht] at hw <;> first | rfl | (obtain ⟨-, t, h1, _⟩ := hw; cases h1)
    rw [hd] at hq
    obtain ⟨rfl, rfl⟩ := hq
    refine ⟨_, [], ?_, o.drop, ?_⟩
    · rw [if_neg (by simp)]
      exact free_ok hne o.cell
    · simp [procParValueFreed, ht, hd, PpvData.ptrFreed]
  | some t =>
    rw [ht] at hp
    obtain rfl : B1 = [(p, .num t)] := hp
    have o1 : Own n0 c0 h (B2 ++ ((p, .num t) :: (a, .struct [p, q] []) :: L)) := o.perm (by
      refine List.Perm.trans ?_ List.perm_append_comm
      refine (List.Perm.swap _ _ _).trans ?_
      exact List.Perm.cons _ (List.Perm.cons _ List.perm_append_comm))
    have hp0 : p ≠ 0 := (o1.perm List.perm_append_comm).ne0
    have cp : h.cells p = some (.num t) := (o1.perm List.perm_append_comm).cell
    obtain ⟨h1, g, e1, o2, l1⟩ := frees_ppvData v t ht hw q B2 hq st n0 c0 h _ o1
    rw [if_pos hp0, P.bind_ok (readTag_ok hp0 cp (hw.1 t ht)), P.bind_ok e1]
    have o3 := o2.perm List.perm_middle
    have e2 : pNumberFree p st h1 = .ok () st { h1 with cells := setCell h1.cells p none } := by
      rw [pNumberFree, if_pos hp0]
      exact free_ok hp0 o3.cell
    have o4 := o3.drop.perm List.perm_middle
    rw [P.bind_ok e2]
    refine ⟨_, g, free_ok hne o4.cell, o4.drop, ?_⟩
    have h2 : 2 ≤ procParValueFreed (some v) := by
      simp only [procParValueFreed, ht]
      omega
    simp only [List.length_cons, List.length_append, List.length_nil]
    omega

theorem frees_ppvOpt : ∀ v : Option ProcParValue, Frees pProcParValueFree (repOpt RPpv v) (procParValueFreed v)
  | none => Frees.null (fun _ _ => rfl)
  | some v => frees_ppv v

theorem sim_ppv : Sim [] procParValueParse pProcParValueParse (repOpt RPpv) := by
  have hz : repOpt RPpv none 0 [] := ⟨rfl, rfl⟩
  refine Sim.optional ?_
  refine Sim.alloc fun a ha => ?_
  have h0 : RPpv ⟨none, .null⟩ a [(a, .struct [0, 0] [])] :=
    ⟨⟨(fun _ h => by cases h), trivial⟩, Rec.empty 2 a []⟩
  refine Sim.expectList (frees_ppv _) h0 hz ?_
  rw [field, pField]
  refine Sim.call ((sim_number _ _).post (numberParse_sized _ _)) fun v q Bq ⟨hv, hsz⟩ => ?_
  refine Rec.set h0.2 rfl hv fun B hB => ?_
  have hB' : RPpv ⟨v, .null⟩ a B := ⟨⟨hsz, trivial⟩, hB⟩
  refine dry_hasErrors.sim fun b => Sim.ite (fun _ => Sim.abort (frees_ppv _) hB' hz) fun _ => ?_
  obtain ⟨ps, B', hF, rfl⟩ := hB
  obtain ⟨p, q', B1, B2, rfl, hp, ⟨rfl, rfl⟩, rfl⟩ := hF.two
  refine Sim.readPtrM List.mem_cons_self rfl ?_
  cases v with
  | none =>
    obtain ⟨rfl, rfl⟩ := hp
    rw [if_pos rfl]
    exact Sim.abort (frees_ppv _) hB' hz
  | some t =>
    have hm : (p, HCell.num t) ∈ (a, HCell.struct [p, 0] []) :: (B1 ++ []) := by
      obtain rfl : B1 = [(p, .num t)] := hp
      simp
    refine Sim.ne0 hm fun hne => ?_
    rw [if_neg hne]
    refine Sim.readTagM hm (hsz t rfl) ?_
    show Sim _ (match t.val with
      | 1 => do
        let p ← valueParse
        pure (some { tag := some t, data := .value p : ProcParValue })
      | 2 => do
        let p ← periodEntryParse
        pure (some { tag := some t, data := .periodEntry p })
      | 3 => do
        let p ← tupelEntryParse
        pure (some { tag := some t, data := .tupelEntry p })
      | 4 => do
        let p ← timeParse
        pure (some { tag := some t, data := .time p })
      | _ => failWith (procParValueFreed (some ⟨some t, .null⟩))) _ _
    split
    · rename_i h
      rw [if_pos h]
      refine Sim.call sim_value fun v q Bq hv => ?_
      exact Rec.set hB'.2 rfl hv fun B hB => Sim.ret ⟨⟨hsz, t, rfl, h⟩, hB⟩
    · rename_i h
      rw [if_neg (by omega), if_pos h]
      refine Sim.call sim_periodEntry fun v q Bq hv => ?_
      exact Rec.set hB'.2 rfl hv fun B hB => Sim.ret ⟨⟨hsz, t, rfl, h⟩, hB⟩
    · rename_i h
      rw [if_neg (by omega), if_neg (by omega), if_pos h]
      refine Sim.call sim_tupelEntry fun v q Bq hv => ?_
      exact Rec.set hB'.2 rfl hv fun B hB => Sim.ret ⟨⟨hsz, t, rfl, h⟩, hB⟩
    · rename_i h
      rw [if_neg (by omega), if_neg (by omega), if_neg (by omega), if_pos h]
      refine Sim.call sim_time fun v q Bq hv => ?_
      exact Rec.set hB'.2 rfl hv fun B hB => Sim.ret ⟨⟨hsz, t, rfl, h⟩, hB⟩
    · rename_i h1 h2 h3 h4
      rw [if_neg h1, if_neg h2, if_neg h3, if_neg h4]
      exact Sim.fail (frees_ppv _) hB' hz

/-! ## Trees -/

theorem RTrees_eq : ∀ ts, RTrees ts = ts.map RTree
  | [] => by rw [RTrees]; rfl
  | t :: ts => by rw [RTrees, RTrees_eq ts]; rfl

theorem treeFreedList_eq : ∀ ts, treeFreedList ts = (ts.map treeFreed1).sum
  | [] => by rw [treeFreedList]; rfl
  | t :: ts => by rw [treeFreedList, treeFreedList_eq ts]; rfl

theorem Fields.bound {r : α → Rep} : ∀ {vs : List α} {ps B}, Fields (vs.map r) ps B → B.length ≤ n →
    Fields (vs.map fun v a B => r v a B ∧ B.length ≤ n) ps B
  | [], _, _, h, _ => h
  | v :: vs, _, _, ⟨p, ps', B1, B2, hps, hr, hf, hB⟩, hl => by
    have hl' : B1.length + B2.length ≤ n := by
      rw [← List.length_append, ← hB]
      exact hl
    exact ⟨p, ps', B1, B2, hps, ⟨hr, by omega⟩, hf.bound (by omega), hB⟩

/-- Two lists of blocks put together from the same parts. -/
macro "blocks_perm" : tactic => `(tactic| (
  classical
  refine List.perm_iff_count.mpr fun _ => ?_
  simp only [List.count_append, List.count_cons, List.count_nil]
  omega))

theorem frees_treeAux : ∀ (fuel : Nat) (t : Tree),
    Frees (pTreeFreeAux fuel) (fun a B => RTree t a B ∧ B.length ≤ fuel) (treeFreed1 t)
  | 0, .mk n v cs => by
    rintro a B ⟨hr, hl⟩ st n0 c0 h L o
    rw [RTree] at hr
    obtain ⟨ps, B', hF, rfl⟩ := hr
    simp at hl
  | fuel + 1, .mk n v cs => by
    rintro a B ⟨hr, hl⟩ st n0 c0 h L o
    rw [RTree, RTrees_eq] at hr
    obtain ⟨ps, B', ⟨p0, _, B0, _, rfl, h0, ⟨p1, _, B1, B2, rfl, h1, hF2, rfl⟩, rfl⟩, rfl⟩ := hr
    obtain ⟨arr, rfl, harr⟩ := hF2.one
    have hne := o.ne0
    rw [pTreeFreeAux, if_pos hne, P.bind_ok (readPtr_ok hne o.cell rfl)]
    obtain ⟨k1, g0, e0, o1, l0⟩ := frees_octetStringOpt n p0 B0 h0 st n0 c0 h
      ((a, .struct [p0, p1, arr] [cs.length]) :: (B1 ++ B2 ++ L)) (o.perm (by blocks_perm))
    have o1' : Own n0 c0 k1 ((a, .struct [p0, p1, arr] [cs.length]) :: (g0 ++ (B1 ++ B2 ++ L))) := o1.perm (by blocks_perm)
    rw [P.bind_ok e0, P.bind_ok (readPtr_ok hne o1'.cell rfl)]
    obtain ⟨k2, g1, e1, o2, l1⟩ := frees_ppvOpt v p1 B1 h1 st n0 c0 k1
      ((a, .struct [p0, p1, arr] [cs.length]) :: (g0 ++ (B2 ++ L))) (o1'.perm (by blocks_perm))
    have o2' : Own n0 c0 k2 ((a, .struct [p0, p1, arr] [cs.length]) :: (g0 ++ (g1 ++ (B2 ++ L)))) := o2.perm (by blocks_perm)
    rw [P.bind_ok e1, P.bind_ok (readInt_ok hne o2'.cell rfl)]
    by_cases hs : cs = []
    · subst hs
      rw [RArr, if_pos (by rfl)] at harr
      obtain ⟨rfl, rfl⟩ := harr
      have e2 : pForEach (pTreeFreeAux fuel) a 2 ([] : List Tree).length 0 st k2 = .ok () st k2 := rfl
      have e3 : free 0 st k2 = .ok () st k2 := rfl
      rw [P.bind_ok e2, P.bind_ok (readPtr_ok hne o2'.cell rfl), P.bind_ok e3]
      refine ⟨_, g0 ++ g1, free_ok hne o2'.cell, o2'.drop.perm (by blocks_perm), ?_⟩
      simp only [treeFreed1, treeFreedList, List.length_append, List.length_cons, List.length_nil]
      omega
    · rw [RArr.ne (by simpa using hs)] at harr
      obtain ⟨qs, C, hq, rfl⟩ := harr
      have hC : C.length ≤ fuel := by
        simp only [List.length_append, List.length_cons] at hl
        omega
      have o3 : Own n0 c0 k2 (C ++ ((a, .struct [p0, p1, arr] [cs.length]) :: (arr, .struct ([] ++ qs) []) ::
          (g0 ++ (g1 ++ L)))) := o2'.perm (by
        rw [List.nil_append]
        blocks_perm)
      have hna : arr ≠ 0 := (o3.perm List.perm_append_comm |>.perm (List.Perm.swap _ _ _)).ne0
      obtain ⟨k3, g2, e2, o4, l2⟩ := forEach_ok (frees_treeAux fuel) cs (qs := []) (i := 2) (st := st) hne hna rfl
        (hq.bound hC) o3
      have e2' : pForEach (pTreeFreeAux fuel) a 2 cs.length 0 st k2 = .ok () st k3 := e2
      rw [P.bind_ok e2']
      have o5 := o4.perm List.perm_middle
      rw [P.bind_ok (readPtr_ok hne o5.cell rfl)]
      have o6 := (o5.perm (List.Perm.cons _ List.perm_middle)).perm (List.Perm.swap _ _ _)
      rw [P.bind_ok (free_ok hna o6.cell)]
      have o7 := o6.drop
      refine ⟨_, g0 ++ (g1 ++ g2), free_ok hne o7.cell, o7.drop.perm (by blocks_perm), ?_⟩
      cases cs with
      | nil => exact absurd rfl hs
      | cons c cs =>
        rw [treeFreed1, treeFreedList_eq]
        simp only [List.length_append, List.length_cons] at l0 l1 l2 ⊢
        omega

theorem frees_tree (t : Tree) : Frees pTreeFree (RTree t) (treeFreed (some t)) := by
  intro a B hr st n0 c0 h L o
  have hl := o.length_lt
  rw [List.length_append] at hl
  exact frees_treeAux (h.next + 1) t a B ⟨hr, by omega⟩ st n0 c0 h L o

theorem frees_treeOpt : ∀ v : Option Tree, Frees pTreeFree (repOpt RTree v) (treeFreed v)
  | none => Frees.null (fun _ _ => rfl)
  | some v => frees_tree v

theorem treeAdd_bind (n : Option OctetString) (v : Option ProcParValue) (cs : List Tree) (e : Tree) (k : Tree → M β) :
    (treeAddTree (.mk n v cs) e >>= k) =
      ((if cs.isEmpty then alloc 1 else pure ()) >>= fun _ => k (.mk n v (cs ++ [e]))) := by
  rw [treeAddTree]
  by_cases h : cs.isEmpty
  · rw [if_pos h, if_pos h]
    rfl
  · rw [if_neg h, if_neg h]
    rfl

theorem RTree.ne0 : ∀ {t : Tree} {a B}, RTree t a B → ∃ c B', B = (a, c) :: B'
  | .mk n v cs, a, B, h => by
    rw [RTree] at h
    obtain ⟨ps, B', _, rfl⟩ := h
    exact ⟨_, _, rfl⟩

/-- The members of a tree with its children as a plain array. -/
theorem RTree_eq (n : Option OctetString) (v : Option ProcParValue) (cs : List Tree) :
    RTree (.mk n v cs) = Rec [repOpt RStr n, repOpt RPpv v, RArr (cs.map RTree)] [cs.length] := by
  rw [RTree, RTrees_eq]

theorem sim_treeLoop {p : M (Option Tree)} {pp : P Addr} (hp : Sim [] p pp (repOpt RTree)) : ∀ i t a B, a ≠ 0 →
    RTree t a B → t.children.length + i ≤ 2147483647 → Sim B (treeLoop p i t) (pTreeLoop pp a i) (repOpt RTree)
  | 0, t, a, B, _, hr, _ => Sim.ret hr
  | i + 1, t, a, B, ha, hr, hl => by
    rw [treeLoop, pTreeLoop]
    refine Sim.call hp fun v e Be hv => dry_hasErrors.sim fun b => Sim.ite (fun _ => ?_) fun _ => ?_
    · cases v with
      | none =>
        obtain ⟨rfl, rfl⟩ := hv
        rw [if_neg (by simp)]
        exact Sim.release0 (Sim.abort (frees_tree t) hr ⟨rfl, rfl⟩)
      | some v =>
        obtain ⟨c, B', rfl⟩ := RTree.ne0 hv
        refine Sim.ne0 (List.mem_append_left _ List.mem_cons_self) fun hne => ?_
        rw [if_pos hne]
        exact Sim.release (frees_tree v) hv (Sim.abort (frees_tree t) hr ⟨rfl, rfl⟩)
    · cases v with
      | none =>
        obtain ⟨rfl, rfl⟩ := hv
        rw [if_neg (by simp)]
        exact sim_treeLoop hp i t a B ha hr (by omega)
      | some v =>
        obtain ⟨n, d, cs⟩ := t
        obtain ⟨c, B', rfl⟩ := RTree.ne0 hv
        refine Sim.ne0 (List.mem_append_left _ List.mem_cons_self) fun hne => ?_
        rw [if_pos hne]
        show Sim _ (treeAddTree (.mk n d cs) v >>= fun t => treeLoop p i t) _ _
        rw [treeAdd_bind]
        rw [RTree_eq] at hr
        simp only [Tree.children] at hl
        refine sim_arrayAdd (r := RTree v) hr ha rfl (by simp) (by omega) (by simp) hv fun B' hB' => ?_
        refine sim_treeLoop hp i (.mk n d (cs ++ [v])) a B' ha ?_ (by simp [Tree.children]; omega)
        rw [RTree_eq, List.map_append, List.length_append]
        exact hB'

theorem sim_tree : ∀ depth, Sim [] (treeParse depth) (pTreeParse depth) (repOpt RTree)
  | 0 => Sim.undef
  | depth + 1 => by
    rw [treeParse, pTreeParse]
    have hz : repOpt RTree none 0 [] := ⟨rfl, rfl⟩
    refine Sim.optional ?_
    refine Sim.alloc fun a ha => ?_
    have h0 : RTree (.mk none none []) a [(a, .struct [0, 0, 0] [0])] := by
      rw [RTree_eq]
      exact ⟨[0, 0, 0], [], ⟨0, _, [], _, rfl, ⟨rfl, rfl⟩, ⟨0, _, [], _, rfl, ⟨rfl, rfl⟩, Fields.single RArr.nil, rfl⟩, rfl⟩, rfl⟩
    refine Sim.expectList (frees_tree _) h0 hz ?_
    refine Sim.field sim_octetString h0 (RTree_eq none none []) rfl (fun v => RTree_eq v none []) frees_tree hz fun v B hB => ?_
    refine Sim.field sim_ppv hB (RTree_eq v none []) rfl (fun w => RTree_eq v w []) frees_tree hz fun w B hB => ?_
    refine dry_optionalIsSkipped.sim fun b => Sim.ite (fun _ => Sim.ret hB) fun _ => ?_
    refine dry_getNextType.sim fun ty => Sim.ite (fun _ => Sim.fail (frees_tree _) hB hz) fun _ => ?_
    refine dry_getNextLength.simPost getNextLength_le fun len hlen => ?_
    exact sim_treeLoop (sim_tree depth) _ _ _ _ ha hB (by simpa [Tree.children] using hlen)

end Sml
