import Verif.Proofs.HeapBuild

/-! # What the client builds: messages and files -/

namespace Sml

open Spec

theorem buildsAll_map {P : α → Prop} {b : α → Sml.P Addr} {r : α → Rep} {c : α → Nat} (h : ∀ v, P v → Builds (b v) (r v) (c v)) :
    ∀ l : List α, (∀ v ∈ l, P v) → BuildsAll (l.map b) (l.map r) ((l.map c).sum)
  | [], _ => .nil
  | v :: l, hl => by
    rw [List.map_cons, List.map_cons, List.map_cons, List.sum_cons]
    exact .cons (h v (hl v (by simp))) (buildsAll_map h l fun w hw => hl w (by simp [hw]))

/-- Elements added one after the other, with the counter below `bound`. -/
theorem addAll_ok {add : Addr → Addr → P Unit} {i bound : Nat} (hbd : bound ≤ 2147483647)
    (hadd : ∀ s e st h, (∃ ps n is, s ≠ 0 ∧ h.cells s = some (.struct ps (n :: is)) ∧ n < bound) →
      add s e st h = pArrayAdd s i e st h)
    {ps : List (P Addr)} {rs' : List Rep} {n : Nat} (hb : BuildsAll ps rs' n) :
    ∀ {rs es : List Rep} {s B0 st n0 c0 h L}, Rec rs (es.length :: is) s B0 → rs[i]? = some (RArr es) → es.length + ps.length ≤ bound →
    Own n0 c0 h (B0 ++ L) →
    ∃ h' B, cAddAll add s ps st h = .ok () st h' ∧ Rec (rs.set i (RArr (es ++ rs'))) ((es ++ rs').length :: is) s B ∧
      Own n0 c0 h' (B ++ L) ∧ B.length + (if es = [] then 0 else 1) = B0.length + n + (if es ++ rs' = [] then 0 else 1) := by
  induction hb with
  | nil =>
    intro rs es s B0 st n0 c0 h L hr hi hbound o
    refine ⟨h, B0, rfl, ?_, o, by rw [List.append_nil]; rfl⟩
    have : rs.set i (RArr (es ++ [])) = rs := by
      obtain ⟨hlt, hi⟩ := List.getElem?_eq_some_iff.mp hi
      rw [List.append_nil, ← hi, List.set_getElem_self]
    rw [this, List.append_nil]
    exact hr
  | @cons p r c ps rs' n hp _ ih =>
    intro rs es s B0 st n0 c0 h L hr hi hbound o
    obtain ⟨e, h1, Be, e1, he, o1, l1⟩ := hp st n0 c0 h _ o
    obtain ⟨h2, B1, e2, hr1, o2, l2⟩ := arrayAdd_ok (st := st) hr hi he (by simp at hbound; omega) o1
    have hlt : i < rs.length := (List.getElem?_eq_some_iff.mp hi).1
    have hlen : (es ++ [r]).length = es.length + 1 := by simp
    rw [← hlen] at hr1
    obtain ⟨h3, B2, e3, hr2, o3, l3⟩ := ih (st := st) hr1 (by simp [hlt]) (by simp at hbound ⊢; omega) o2
    refine ⟨h3, B2, ?_, ?_, o3, ?_⟩
    · have hcell : ∃ ps', (s, HCell.struct ps' (es.length :: is)) ∈ Be ++ (B0 ++ L) := by
        obtain ⟨ps', B', _, rfl⟩ := hr
        exact ⟨ps', by simp⟩
      obtain ⟨ps', hm⟩ := hcell
      have e4 : add s e st h1 = .ok () st h2 := by
        rw [hadd s e st h1 ⟨ps', _, is, o1.ne0_of_mem hm, o1.cell_of_mem hm, by simp at hbound; omega⟩]
        exact e2
      rw [cAddAll, P.bind_ok e1, P.bind_ok e4]
      exact e3
    · rw [List.set_set] at hr2
      rw [List.append_assoc] at hr2
      exact hr2
    · rw [List.append_assoc] at l3
      simp only [List.append_eq_nil_iff, List.cons_ne_nil, and_false, if_false, List.singleton_append] at l3 ⊢
      split at l2 <;> rename_i hes <;> simp only [hes, if_true, if_false] <;> omega

/-- An object with one array, which is filled. -/
theorem builds_array {add : Addr → Addr → P Unit} {bound : Nat} (is : List Nat) (hbd : bound ≤ 2147483647)
    (hadd : ∀ s e st h, (∃ ps n is, s ≠ 0 ∧ h.cells s = some (.struct ps (n :: is)) ∧ n < bound) →
      add s e st h = pArrayAdd s 0 e st h)
    {ps : List (P Addr)} {rs : List Rep} {n : Nat} (hb : BuildsAll ps rs n) (hl : ps.length ≤ bound) :
    Builds (malloc (.struct [0] (0 :: is)) >>= fun a => cAddAll add a ps >>= fun _ => pure a) (Rec [RArr rs] (rs.length :: is))
      (n + (if rs = [] then 0 else 1) + 1) := by
  intro st n0 c0 h L o
  obtain ⟨h1, B, e, hr, o1, l⟩ := addAll_ok (st := st) (is := is) hbd hadd hb (rs := [RArr []]) (es := []) (s := h.next) (B0 := [(h.next, .struct [0] (0 :: is))])
    ⟨[0], [], Fields.single RArr.nil, rfl⟩ rfl (by simpa using hl) (o.alloc (.struct [0] (0 :: is)))
  refine ⟨h.next, h1, B, ?_, hr, o1, ?_⟩
  · rw [P.bind_ok malloc_ok]
    exact (P.bind_ok e).trans rfl
  · simp at l
    omega

theorem builds_sequence {P : α → Prop} {b : Option α → Sml.P Addr} {r : Option α → Rep} {c : Option α → Nat}
    (h : ∀ v, Opt P v → Builds (b v) (r v) (c v)) (q : Sequence α) (hq : SeqTyped P q) :
    Builds (cSequence f b q) (RSequence f r q) (sequenceFreed c (some q)) := by
  have := builds_array (add := pSequenceAdd) [f.code] (Nat.le_refl _) (fun _ _ _ _ _ => rfl) (buildsAll_map h q.elems hq.2) (by rw [List.length_map]; exact hq.1)
  rw [List.length_map] at this
  refine this.congr ?_
  simp only [sequenceFreed, List.map_eq_nil_iff]
  split <;> simp [*]

theorem builds_sequenceOpt {P : α → Prop} {b : Option α → Sml.P Addr} {r : Option α → Rep} {c : Option α → Nat}
    (h : ∀ v, Opt P v → Builds (b v) (r v) (c v)) :
    ∀ q, Opt (SeqTyped P) q → Builds (cOpt (cSequence f b) q) (repOpt (RSequence f r) q) (sequenceFreed c q) :=
  builds_opt rfl (builds_sequence h)

theorem builds_treePath (p : TreePath) (hp : PathTyped p) : Builds (cTreePath p) (RTreePath p) (treePathFreed (some p)) := by
  have := builds_array (add := pTreePathAdd) [] (Nat.le_refl _) (fun _ _ _ _ _ => rfl) (buildsAll_map builds_strOpt p.entries hp.2)
    (by rw [List.length_map]; exact hp.1)
  rw [List.length_map] at this
  refine this.congr ?_
  simp only [treePathFreed, List.map_eq_nil_iff]
  split <;> simp [*]

theorem builds_treePathOpt : ∀ p, Opt PathTyped p → Builds (cOpt cTreePath p) (repOpt RTreePath p) (treePathFreed p) :=
  builds_opt rfl builds_treePath

/-! ## Lists -/

theorem builds_entry (e : ListEntry) (h : EntryTyped e) : Builds (cEntry e) (REntry e) (listEntryFreed e) := by
  obtain ⟨h0, h1, h2, h3, h4, h5, h6⟩ := h
  intro st n0 c0 h L o
  obtain ⟨xs, h1, B, e1, hF, o1, l⟩ := members_ok (qs := []) (zs := [0, 0, 0, 0, 0, 0, 0]) (ts := [0]) (st := st)
    (.cons (builds_strOpt _ h0) <| .cons (builds_statusOpt _ h1) <| .cons (builds_timeOpt _ h2) <| .cons (builds_numOpt 1 _ h3) <|
      .cons (builds_numOpt 1 _ h4) <| .cons (builds_valueOpt _ h5) <| .cons (builds_strOpt _ h6) .nil) rfl
    (o.alloc (.struct [0, 0, 0, 0, 0, 0, 0, 0] []))
  refine ⟨h.next, h1, (h.next, .struct ([] ++ (xs ++ [0])) []) :: B, ?_, ?_, o1, ?_⟩
  · rw [cEntry, cStruct, pListInit, P.bind_ok malloc_ok]
    exact (P.bind_ok e1).trans rfl
  · have := RList.mk (a := h.next) (e := e) (es := []) (n := 0) (B2 := []) hF ⟨rfl, rfl⟩
    rw [List.append_nil] at this
    exact this
  · rw [List.length_cons, l, listEntryFreed]
    omega

theorem ListAt.snoc (hL : ListAt acc ret pos B) (hpos : pos ≠ 0) (hr : REntry e p Be) (o : Own n0 c0 h (Be ++ (B ++ L))) :
    ∃ h' B', pListAdd pos p st h = .ok () st h' ∧ p ≠ 0 ∧ ListAt (acc ++ [e]) ret p B' ∧ Own n0 c0 h' (B' ++ L) ∧
      B'.length = B.length + Be.length := by
  rcases hL with ⟨rfl, rfl, h0, rfl⟩ | ⟨hpos, ps, rest, hl, hP, hN⟩
  · exact absurd h0 hpos
  obtain ⟨B', h2, h3⟩ := hN [e] p Be hr
  have hlen : B'.length = B.length + Be.length := by
    have a := h3.length_eq
    have b := hP.length_eq
    simp only [List.length_cons, List.length_append] at a b
    omega
  obtain ⟨qs, n, B1, B2, hF, hlq, ⟨rfl, rfl⟩, rfl⟩ := RList.cons hr
  rw [List.append_nil] at h3 hr o hlen
  have hne : p ≠ 0 := o.ne0
  have o1 : Own n0 c0 h ((pos, .struct (ps ++ [0]) []) :: ((rest ++ ((p, .struct (qs ++ [0]) []) :: B1)) ++ L)) := by
    refine o.perm ?_
    rw [← List.append_assoc, ← List.cons_append]
    refine List.Perm.append_right L ?_
    refine List.perm_append_comm.trans ?_
    exact hP.append_right _
  have hset : (ps ++ [0]).set 7 p = ps ++ [p] := by
    rw [← hl]
    simp
  have o2 := o1.update (.struct (ps ++ [p]) [])
  refine ⟨_, B', ?_, hne, ?_, o2.perm ?_, ?_⟩
  · rw [pListAdd, writePtr_ok hpos o1.cell (by simp [hl]), hset]
  · refine Or.inr ⟨hne, qs, (pos, .struct (ps ++ [p]) []) :: (rest ++ B1), hlq, ?_, ?_⟩
    · refine h3.trans ?_
      exact List.Perm.trans (List.Perm.cons _ List.perm_middle) (List.Perm.swap _ _ _)
    · intro es q Bq hq
      obtain ⟨B2, h4, h5⟩ := hN ([e] ++ es) p _ (RList.mk hF hq)
      refine ⟨B2, by rw [List.append_assoc]; exact h4, h5.trans ?_⟩
      refine List.Perm.trans (List.Perm.cons _ List.perm_middle) ?_
      rw [← List.append_assoc]
      exact List.Perm.swap _ _ _
  · rw [← List.cons_append]
    exact h3.symm.append_right L
  · rw [List.append_nil]
    exact hlen

theorem listFrom_ok : ∀ (es : List ListEntry), (∀ e ∈ es, EntryTyped e) → ∀ {acc ret pos B st n0 c0 h L}, ListAt acc ret pos B → pos ≠ 0 →
    Own n0 c0 h (B ++ L) → ∃ h' B', cListFrom pos es st h = .ok () st h' ∧ RList (acc ++ es) ret B' ∧ Own n0 c0 h' (B' ++ L) ∧
      B'.length = B.length + listFreed es
  | [], _, acc, ret, pos, B, st, n0, c0, h, L, hL, hpos, o => by
    obtain ⟨B', h1, h2⟩ := hL.list
    refine ⟨h, B', rfl, ?_, o.perm (h2.append_right L), by rw [h2.length_eq]; rfl⟩
    rw [List.append_nil]
    exact h1
  | e :: es, he, acc, ret, pos, B, st, n0, c0, h, L, hL, hpos, o => by
    obtain ⟨p, h1, Be, e1, hr, o1, l1⟩ := builds_entry e (he e (by simp)) st n0 c0 h _ o
    obtain ⟨h2, B2, e2, hp, hL2, o2, l2⟩ := hL.snoc (st := st) hpos hr o1
    obtain ⟨h3, B3, e3, hR, o3, l3⟩ := listFrom_ok es (fun x hx => he x (by simp [hx])) (st := st) hL2 hp o2
    refine ⟨h3, B3, ?_, ?_, o3, ?_⟩
    · rw [cListFrom, P.bind_ok e1, P.bind_ok e2]
      exact e3
    · rw [List.append_assoc] at hR
      exact hR
    · rw [l3, l2, l1, listFreed, listFreed, List.map_cons, List.sum_cons]
      omega

theorem builds_list : ∀ es : List ListEntry, (∀ e ∈ es, EntryTyped e) → Builds (cList es) (RList es) (listFreed es)
  | [], _ => builds_null
  | e :: es, he => by
    intro st n0 c0 h L o
    obtain ⟨p, h1, Be, e1, hr, o1, l1⟩ := builds_entry e (he e (by simp)) st n0 c0 h _ o
    have hp : p ≠ 0 := by
      obtain ⟨qs, n, B1, B2, _, _, _, rfl⟩ := RList.cons hr
      exact o1.ne0
    obtain ⟨h3, B3, e3, hR, o3, l3⟩ := listFrom_ok es (fun x hx => he x (by simp [hx])) (st := st) (ListAt.start hr hp) hp o1
    refine ⟨p, h3, B3, ?_, hR, o3, ?_⟩
    · rw [cList, P.bind_ok e1, P.bind_ok e3]
      rfl
    · rw [l3, l1, listFreed, listFreed, List.map_cons, List.sum_cons]

theorem builds_objs : ∀ es : List (Option OctetString), (∀ e ∈ es, Opt StrTyped e) → Builds (cObjs es) (RObjs es) (objectListFreed es)
  | [], _ => builds_null
  | e :: es, he => by
    refine (builds_struct [0, 0] (.cons (builds_strOpt e (he e (by simp))) (.cons (builds_objs es fun x hx => he x (by simp [hx])) .nil)) rfl).congr ?_
    simp only [objectListFreed, List.map_cons, List.sum_cons]
    omega

/-! ## Structures -/

theorem builds_periodEntry (m : PeriodEntry) (h : PeriodEntryTyped m) : Builds (cPeriodEntry m) (RPeriodEntry m) (periodEntryFreed (some m)) := by
  obtain ⟨h0, h1, h2, h3, h4⟩ := h
  refine (builds_struct (List.replicate 5 0) (.cons (builds_strOpt _ h0) <|
    .cons (builds_numOpt 1 _ h1) <|
    .cons (builds_numOpt 1 _ h2) <|
    .cons (builds_valueOpt _ h3) <|
    .cons (builds_strOpt _ h4) .nil) rfl).congr ?_
  rw [periodEntryFreed]
  omega

theorem builds_periodEntryOpt : ∀ m, Opt PeriodEntryTyped m → Builds (cOpt cPeriodEntry m) (repOpt RPeriodEntry m) (periodEntryFreed m) :=
  builds_opt rfl builds_periodEntry

theorem builds_tupelEntry (m : TupelEntry) (h : TupelEntryTyped m) : Builds (cTupelEntry m) (RTupelEntry m) (tupelEntryFreed (some m)) := by
  obtain ⟨h0, h1, h2, h3, h4, h5, h6, h7, h8, h9, h10, h11, h12, h13, h14, h15, h16, h17, h18, h19, h20, h21, h22⟩ := h
  refine (builds_struct (List.replicate 23 0) (.cons (builds_strOpt _ h0) <|
    .cons (builds_timeOpt _ h1) <|
    .cons (builds_numOpt 8 _ h2) <|
    .cons (builds_numOpt 1 _ h3) <|
    .cons (builds_numOpt 1 _ h4) <|
    .cons (builds_numOpt 8 _ h5) <|
    .cons (builds_numOpt 1 _ h6) <|
    .cons (builds_numOpt 1 _ h7) <|
    .cons (builds_numOpt 8 _ h8) <|
    .cons (builds_numOpt 1 _ h9) <|
    .cons (builds_numOpt 1 _ h10) <|
    .cons (builds_numOpt 8 _ h11) <|
    .cons (builds_strOpt _ h12) <|
    .cons (builds_numOpt 1 _ h13) <|
    .cons (builds_numOpt 1 _ h14) <|
    .cons (builds_numOpt 8 _ h15) <|
    .cons (builds_numOpt 1 _ h16) <|
    .cons (builds_numOpt 1 _ h17) <|
    .cons (builds_numOpt 8 _ h18) <|
    .cons (builds_numOpt 1 _ h19) <|
    .cons (builds_numOpt 1 _ h20) <|
    .cons (builds_numOpt 8 _ h21) <|
    .cons (builds_strOpt _ h22) .nil) rfl).congr ?_
  rw [tupelEntryFreed]
  omega

theorem builds_tupelEntryOpt : ∀ m, Opt TupelEntryTyped m → Builds (cOpt cTupelEntry m) (repOpt RTupelEntry m) (tupelEntryFreed m) :=
  builds_opt rfl builds_tupelEntry

theorem builds_ppv (v : ProcParValue) (h : PpvTyped v) : Builds (cPpv v) (RPpv v) (procParValueFreed (some v)) := by
  obtain ⟨tag, d⟩ := v
  obtain ⟨ht, hd⟩ := h
  have key : ∀ c, Builds (cPpvData d) (RPpvData d) c → PpvWf ⟨tag, d⟩ → numberFreed tag + c + 1 = procParValueFreed (some ⟨tag, d⟩) →
      Builds (cPpv ⟨tag, d⟩) (RPpv ⟨tag, d⟩) (procParValueFreed (some ⟨tag, d⟩)) := by
    intro c hb hw hc st n0 c0 h L o
    obtain ⟨a, h', B, e, hr, o', l⟩ := builds_struct [0, 0] (.cons (builds_numOpt 1 tag ht) (.cons hb .nil)) rfl st n0 c0 h L o
    exact ⟨a, h', B, e, ⟨hw, hr⟩, o', by omega⟩
  cases d with
  | null => exact key 0 builds_null ⟨ht, trivial⟩ (by cases tag <;> simp [procParValueFreed, numberFreed, PpvData.ptrFreed])
  | value p =>
    obtain ⟨⟨t, rfl, h1⟩, hp⟩ := hd
    exact key _ (builds_valueOpt p hp) ⟨ht, t, rfl, h1⟩ (by simp [procParValueFreed, numberFreed, h1]; omega)
  | periodEntry p =>
    obtain ⟨⟨t, rfl, h1⟩, hp⟩ := hd
    exact key _ (builds_periodEntryOpt p hp) ⟨ht, t, rfl, h1⟩ (by simp [procParValueFreed, numberFreed, h1]; omega)
  | tupelEntry p =>
    obtain ⟨⟨t, rfl, h1⟩, hp⟩ := hd
    exact key _ (builds_tupelEntryOpt p hp) ⟨ht, t, rfl, h1⟩ (by simp [procParValueFreed, numberFreed, h1]; omega)
  | time p =>
    obtain ⟨⟨t, rfl, h1⟩, hp⟩ := hd
    exact key _ (builds_timeOpt p hp) ⟨ht, t, rfl, h1⟩ (by simp [procParValueFreed, numberFreed, h1]; omega)

theorem builds_ppvOpt : ∀ v, Opt PpvTyped v → Builds (cOpt cPpv v) (repOpt RPpv v) (procParValueFreed v) :=
  builds_opt rfl builds_ppv

/-! ## Trees -/

theorem cChildren_eq (t : Addr) : ∀ cs : List Tree, cChildren t cs = cAddAll pTreeAddTree t (cs.map cTree)
  | [] => by rw [cChildren]; rfl
  | c :: cs => by rw [cChildren, List.map_cons, cAddAll, cChildren_eq t cs]

theorem rTrees_eq : ∀ cs : List Tree, RTrees cs = cs.map RTree
  | [] => by rw [RTrees]; rfl
  | c :: cs => by rw [RTrees, List.map_cons, rTrees_eq cs]

theorem builds_tree (t : Tree) (h : TreeTyped t) : Builds (cTree t) (RTree t) (treeFreed1 t) := by
  induction h with
  | @mk n v cs hn hv hl _ ih =>
    intro st n0 c0 h L o
    obtain ⟨xs, h1, B, e1, hF, o1, l⟩ := members_ok (qs := []) (zs := [0, 0]) (ts := [0]) (st := st)
      (.cons (builds_strOpt _ hn) <| .cons (builds_ppvOpt _ hv) .nil) rfl (o.alloc (.struct [0, 0, 0] [0]))
    have hr : Rec [repOpt RStr n, repOpt RPpv v, RArr []] [([] : List Rep).length] h.next ((h.next, .struct (xs ++ [0]) [0]) :: B) := by
      have := hF.append (Fields.single (r := RArr []) (a := 0) (B := []) RArr.nil)
      rw [List.append_nil] at this
      exact ⟨_, _, this, rfl⟩
    obtain ⟨h2, B2, e2, hr2, o2, l2⟩ := addAll_ok (add := pTreeAddTree) (st := st) (Nat.le_refl _) (fun _ _ _ _ _ => rfl)
      (buildsAll_map (P := fun c => c ∈ cs) ih cs fun _ h => h) hr rfl (by simpa using hl) o1
    refine ⟨h.next, h2, B2, ?_, ?_, o2, ?_⟩
    · rw [cTree, pTreeInit, P.bind_ok malloc_ok]
      refine (P.bind_ok e1).trans ?_
      rw [cChildren_eq, P.bind_ok e2]
      rfl
    · rw [RTree, rTrees_eq]
      rw [List.nil_append, List.length_map] at hr2
      exact hr2
    · simp only [treeFreed1.eq_def, treeFreedList_eq]
      simp only [List.length_cons, if_true, List.nil_append, List.map_eq_nil_iff, l] at l2
      cases cs with
      | nil => simp at l2 ⊢; omega
      | cons c cs => simp only [List.cons_ne_nil, if_false] at l2 ⊢; omega

theorem builds_treeOpt : ∀ v, Opt TreeTyped v → Builds (cOpt cTree v) (repOpt RTree v) (treeFreed v) :=
  builds_opt rfl builds_tree

/-! ## Bodies -/

theorem builds_openRequest (m : OpenRequest) (h : OpenRequestTyped m) : Builds (cOpenRequest m) (ROpenRequest m) (openRequestFreed (some m)) := by
  obtain ⟨h0, h1, h2, h3, h4, h5, h6⟩ := h
  refine (builds_struct (List.replicate 7 0) (.cons (builds_strOpt _ h0) <|
    .cons (builds_strOpt _ h1) <|
    .cons (builds_strOpt _ h2) <|
    .cons (builds_strOpt _ h3) <|
    .cons (builds_strOpt _ h4) <|
    .cons (builds_strOpt _ h5) <|
    .cons (builds_numOpt 1 _ h6) .nil) rfl).congr ?_
  rw [openRequestFreed]
  omega

theorem builds_openRequestOpt : ∀ m, Opt OpenRequestTyped m → Builds (cOpt cOpenRequest m) (repOpt ROpenRequest m) (openRequestFreed m) :=
  builds_opt rfl builds_openRequest

theorem builds_openResponse (m : OpenResponse) (h : OpenResponseTyped m) : Builds (cOpenResponse m) (ROpenResponse m) (openResponseFreed (some m)) := by
  obtain ⟨h0, h1, h2, h3, h4, h5⟩ := h
  refine (builds_struct (List.replicate 6 0) (.cons (builds_strOpt _ h0) <|
    .cons (builds_strOpt _ h1) <|
    .cons (builds_strOpt _ h2) <|
    .cons (builds_strOpt _ h3) <|
    .cons (builds_timeOpt _ h4) <|
    .cons (builds_numOpt 1 _ h5) .nil) rfl).congr ?_
  rw [openResponseFreed]
  omega

theorem builds_openResponseOpt : ∀ m, Opt OpenResponseTyped m → Builds (cOpt cOpenResponse m) (repOpt ROpenResponse m) (openResponseFreed m) :=
  builds_opt rfl builds_openResponse

theorem builds_closeRequest (m : CloseRequest) (h0 : CloseRequestTyped m) : Builds (cCloseRequest m) (RCloseRequest m) (closeRequestFreed (some m)) := by
  refine (builds_struct (List.replicate 1 0) (.cons (builds_strOpt _ h0) .nil) rfl).congr ?_
  rw [closeRequestFreed]

theorem builds_closeRequestOpt : ∀ m, Opt CloseRequestTyped m → Builds (cOpt cCloseRequest m) (repOpt RCloseRequest m) (closeRequestFreed m) :=
  builds_opt rfl builds_closeRequest

theorem builds_closeResponse (m : CloseResponse) (h0 : CloseResponseTyped m) : Builds (cCloseResponse m) (RCloseResponse m) (closeResponseFreed (some m)) := by
  refine (builds_struct (List.replicate 1 0) (.cons (builds_strOpt _ h0) .nil) rfl).congr ?_
  rw [closeResponseFreed]

theorem builds_closeResponseOpt : ∀ m, Opt CloseResponseTyped m → Builds (cOpt cCloseResponse m) (repOpt RCloseResponse m) (closeResponseFreed m) :=
  builds_opt rfl builds_closeResponse

theorem builds_valueEntry (m : ValueEntry) (h : ValueEntryTyped m) : Builds (cValueEntry m) (RValueEntry m) (valueEntryFreed (some m)) := by
  obtain ⟨h0, h1⟩ := h
  refine (builds_struct (List.replicate 2 0) (.cons (builds_valueOpt _ h0) <|
    .cons (builds_strOpt _ h1) .nil) rfl).congr ?_
  rw [valueEntryFreed]
  omega

theorem builds_valueEntryOpt : ∀ m, Opt ValueEntryTyped m → Builds (cOpt cValueEntry m) (repOpt RValueEntry m) (valueEntryFreed m) :=
  builds_opt rfl builds_valueEntry

theorem builds_profObjHeaderEntry (m : ProfObjHeaderEntry) (h : ProfObjHeaderEntryTyped m) : Builds (cProfObjHeaderEntry m) (RProfObjHeaderEntry m) (profObjHeaderEntryFreed (some m)) := by
  obtain ⟨h0, h1, h2⟩ := h
  refine (builds_struct (List.replicate 3 0) (.cons (builds_strOpt _ h0) <|
    .cons (builds_numOpt 1 _ h1) <|
    .cons (builds_numOpt 1 _ h2) .nil) rfl).congr ?_
  rw [profObjHeaderEntryFreed]
  omega

theorem builds_profObjHeaderEntryOpt : ∀ m, Opt ProfObjHeaderEntryTyped m → Builds (cOpt cProfObjHeaderEntry m) (repOpt RProfObjHeaderEntry m) (profObjHeaderEntryFreed m) :=
  builds_opt rfl builds_profObjHeaderEntry

theorem builds_profObjPeriodEntry (m : ProfObjPeriodEntry) (h : ProfObjPeriodEntryTyped m) : Builds (cProfObjPeriodEntry m) (RProfObjPeriodEntry m) (profObjPeriodEntryFreed (some m)) := by
  obtain ⟨h0, h1, h2, h3⟩ := h
  refine (builds_struct (List.replicate 4 0) (.cons (builds_timeOpt _ h0) <|
    .cons (builds_numOpt 8 _ h1) <|
    .cons (builds_sequenceOpt builds_valueEntryOpt _ h2) <|
    .cons (builds_strOpt _ h3) .nil) rfl).congr ?_
  rw [profObjPeriodEntryFreed]
  omega

theorem builds_profObjPeriodEntryOpt : ∀ m, Opt ProfObjPeriodEntryTyped m → Builds (cOpt cProfObjPeriodEntry m) (repOpt RProfObjPeriodEntry m) (profObjPeriodEntryFreed m) :=
  builds_opt rfl builds_profObjPeriodEntry

theorem builds_getProfilePackResponse (m : GetProfilePackResponse) (h : GetProfilePackResponseTyped m) : Builds (cGetProfilePackResponse m) (RGetProfilePackResponse m) (getProfilePackResponseFreed (some m)) := by
  obtain ⟨h0, h1, h2, h3, h4, h5, h6, h7⟩ := h
  refine (builds_struct (List.replicate 8 0) (.cons (builds_strOpt _ h0) <|
    .cons (builds_timeOpt _ h1) <|
    .cons (builds_numOpt 4 _ h2) <|
    .cons (builds_treePathOpt _ h3) <|
    .cons (builds_sequenceOpt builds_profObjHeaderEntryOpt _ h4) <|
    .cons (builds_sequenceOpt builds_profObjPeriodEntryOpt _ h5) <|
    .cons (builds_strOpt _ h6) <|
    .cons (builds_strOpt _ h7) .nil) rfl).congr ?_
  rw [getProfilePackResponseFreed]
  omega

theorem builds_getProfilePackResponseOpt : ∀ m, Opt GetProfilePackResponseTyped m → Builds (cOpt cGetProfilePackResponse m) (repOpt RGetProfilePackResponse m) (getProfilePackResponseFreed m) :=
  builds_opt rfl builds_getProfilePackResponse

theorem builds_getProfileListResponse (m : GetProfileListResponse) (h : GetProfileListResponseTyped m) : Builds (cGetProfileListResponse m) (RGetProfileListResponse m) (getProfileListResponseFreed (some m)) := by
  obtain ⟨h0, h1, h2, h3, h4, h5, h6, h7, h8⟩ := h
  refine (builds_struct (List.replicate 9 0) (.cons (builds_strOpt _ h0) <|
    .cons (builds_timeOpt _ h1) <|
    .cons (builds_numOpt 4 _ h2) <|
    .cons (builds_treePathOpt _ h3) <|
    .cons (builds_timeOpt _ h4) <|
    .cons (builds_numOpt 8 _ h5) <|
    .cons (builds_sequenceOpt builds_periodEntryOpt _ h6) <|
    .cons (builds_strOpt _ h7) <|
    .cons (builds_strOpt _ h8) .nil) rfl).congr ?_
  rw [getProfileListResponseFreed]
  omega

theorem builds_getProfileListResponseOpt : ∀ m, Opt GetProfileListResponseTyped m → Builds (cOpt cGetProfileListResponse m) (repOpt RGetProfileListResponse m) (getProfileListResponseFreed m) :=
  builds_opt rfl builds_getProfileListResponse

theorem builds_getProcParameterRequest (m : GetProcParameterRequest) (h : GetProcParameterRequestTyped m) : Builds (cGetProcParameterRequest m) (RGetProcParameterRequest m) (getProcParameterRequestFreed (some m)) := by
  obtain ⟨h0, h1, h2, h3, h4⟩ := h
  refine (builds_struct (List.replicate 5 0) (.cons (builds_strOpt _ h0) <|
    .cons (builds_strOpt _ h1) <|
    .cons (builds_strOpt _ h2) <|
    .cons (builds_treePathOpt _ h3) <|
    .cons (builds_strOpt _ h4) .nil) rfl).congr ?_
  rw [getProcParameterRequestFreed]
  omega

theorem builds_getProcParameterRequestOpt : ∀ m, Opt GetProcParameterRequestTyped m → Builds (cOpt cGetProcParameterRequest m) (repOpt RGetProcParameterRequest m) (getProcParameterRequestFreed m) :=
  builds_opt rfl builds_getProcParameterRequest

theorem builds_getProcParameterResponse (m : GetProcParameterResponse) (h : GetProcParameterResponseTyped m) : Builds (cGetProcParameterResponse m) (RGetProcParameterResponse m) (getProcParameterResponseFreed (some m)) := by
  obtain ⟨h0, h1, h2⟩ := h
  refine (builds_struct (List.replicate 3 0) (.cons (builds_strOpt _ h0) <|
    .cons (builds_treePathOpt _ h1) <|
    .cons (builds_treeOpt _ h2) .nil) rfl).congr ?_
  rw [getProcParameterResponseFreed]
  omega

theorem builds_getProcParameterResponseOpt : ∀ m, Opt GetProcParameterResponseTyped m → Builds (cOpt cGetProcParameterResponse m) (repOpt RGetProcParameterResponse m) (getProcParameterResponseFreed m) :=
  builds_opt rfl builds_getProcParameterResponse

theorem builds_setProcParameterRequest (m : SetProcParameterRequest) (h : SetProcParameterRequestTyped m) : Builds (cSetProcParameterRequest m) (RSetProcParameterRequest m) (setProcParameterRequestFreed (some m)) := by
  obtain ⟨h0, h1, h2, h3, h4⟩ := h
  refine (builds_struct (List.replicate 5 0) (.cons (builds_strOpt _ h0) <|
    .cons (builds_strOpt _ h1) <|
    .cons (builds_strOpt _ h2) <|
    .cons (builds_treePathOpt _ h3) <|
    .cons (builds_treeOpt _ h4) .nil) rfl).congr ?_
  rw [setProcParameterRequestFreed]
  omega

theorem builds_setProcParameterRequestOpt : ∀ m, Opt SetProcParameterRequestTyped m → Builds (cOpt cSetProcParameterRequest m) (repOpt RSetProcParameterRequest m) (setProcParameterRequestFreed m) :=
  builds_opt rfl builds_setProcParameterRequest

theorem builds_getListRequest (m : GetListRequest) (h : GetListRequestTyped m) : Builds (cGetListRequest m) (RGetListRequest m) (getListRequestFreed (some m)) := by
  obtain ⟨h0, h1, h2, h3, h4⟩ := h
  refine (builds_struct (List.replicate 5 0) (.cons (builds_strOpt _ h0) <|
    .cons (builds_strOpt _ h1) <|
    .cons (builds_strOpt _ h2) <|
    .cons (builds_strOpt _ h3) <|
    .cons (builds_strOpt _ h4) .nil) rfl).congr ?_
  rw [getListRequestFreed]
  omega

theorem builds_getListRequestOpt : ∀ m, Opt GetListRequestTyped m → Builds (cOpt cGetListRequest m) (repOpt RGetListRequest m) (getListRequestFreed m) :=
  builds_opt rfl builds_getListRequest

theorem builds_getListResponse (m : GetListResponse) (h : GetListResponseTyped m) : Builds (cGetListResponse m) (RGetListResponse m) (getListResponseFreed (some m)) := by
  obtain ⟨h0, h1, h2, h3, h4, h5, h6⟩ := h
  refine (builds_struct (List.replicate 7 0) (.cons (builds_strOpt _ h0) <|
    .cons (builds_strOpt _ h1) <|
    .cons (builds_strOpt _ h2) <|
    .cons (builds_timeOpt _ h3) <|
    .cons (builds_list _ h4) <|
    .cons (builds_strOpt _ h5) <|
    .cons (builds_timeOpt _ h6) .nil) rfl).congr ?_
  rw [getListResponseFreed]
  omega

theorem builds_getListResponseOpt : ∀ m, Opt GetListResponseTyped m → Builds (cOpt cGetListResponse m) (repOpt RGetListResponse m) (getListResponseFreed m) :=
  builds_opt rfl builds_getListResponse

theorem builds_attentionResponse (m : AttentionResponse) (h : AttentionResponseTyped m) : Builds (cAttentionResponse m) (RAttentionResponse m) (attentionResponseFreed (some m)) := by
  obtain ⟨h0, h1, h2, h3⟩ := h
  refine (builds_struct (List.replicate 4 0) (.cons (builds_strOpt _ h0) <|
    .cons (builds_strOpt _ h1) <|
    .cons (builds_strOpt _ h2) <|
    .cons (builds_treeOpt _ h3) .nil) rfl).congr ?_
  rw [attentionResponseFreed]
  omega

theorem builds_attentionResponseOpt : ∀ m, Opt AttentionResponseTyped m → Builds (cOpt cAttentionResponse m) (repOpt RAttentionResponse m) (attentionResponseFreed m) :=
  builds_opt rfl builds_attentionResponse

theorem builds_getProfilePackRequest (m : GetProfilePackRequest) (h : GetProfilePackRequestTyped m) : Builds (cGetProfilePackRequest m) (RGetProfilePackRequest m) (getProfilePackRequestFreed (some m)) := by
  obtain ⟨h0, h1, h2, h4, h5, h6, h7, h8⟩ := h
  refine (builds_struct (List.replicate 9 0) (.cons (builds_strOpt _ h0) <|
    .cons (builds_strOpt _ h1) <|
    .cons (builds_strOpt _ h2) <|
    .cons (builds_boolOpt _) <|
    .cons (builds_timeOpt _ h4) <|
    .cons (builds_timeOpt _ h5) <|
    .cons (builds_treePathOpt _ h6) <|
    .cons (builds_objs _ h7) <|
    .cons (builds_treeOpt _ h8) .nil) rfl).congr ?_
  rw [getProfilePackRequestFreed]
  omega

theorem builds_getProfilePackRequestOpt : ∀ m, Opt GetProfilePackRequestTyped m → Builds (cOpt cGetProfilePackRequest m) (repOpt RGetProfilePackRequest m) (getProfilePackRequestFreed m) :=
  builds_opt rfl builds_getProfilePackRequest

theorem builds_bodyData (tag : Nat) (d : BodyData) (h : BodyDataTyped tag d) : Builds (cBodyData d) (RBodyData d) (bodyDataFreed tag d) := by
  cases d with
  | null => exact builds_null
  | openRequest p =>
    obtain ⟨rfl, hp⟩ := h
    exact (builds_openRequestOpt p hp).congr (by rw [bodyDataFreed]; exact (if_pos rfl).symm)
  | openResponse p =>
    obtain ⟨rfl, hp⟩ := h
    exact (builds_openResponseOpt p hp).congr (by rw [bodyDataFreed]; exact (if_pos rfl).symm)
  | closeRequest p =>
    obtain ⟨rfl, hp⟩ := h
    exact (builds_closeRequestOpt p hp).congr (by rw [bodyDataFreed]; exact (if_pos rfl).symm)
  | closeResponse p =>
    obtain ⟨rfl, hp⟩ := h
    exact (builds_closeResponseOpt p hp).congr (by rw [bodyDataFreed]; exact (if_pos rfl).symm)
  | getProfilePackRequest p =>
    obtain ⟨rfl, hp⟩ := h
    exact (builds_getProfilePackRequestOpt p hp).congr (by rw [bodyDataFreed]; exact (if_pos rfl).symm)
  | getProfilePackResponse p =>
    obtain ⟨rfl, hp⟩ := h
    exact (builds_getProfilePackResponseOpt p hp).congr (by rw [bodyDataFreed]; exact (if_pos rfl).symm)
  | getProfileListRequest p =>
    obtain ⟨rfl, hp⟩ := h
    exact (builds_getProfilePackRequestOpt p hp).congr (by rw [bodyDataFreed]; exact (if_pos rfl).symm)
  | getProfileListResponse p =>
    obtain ⟨rfl, hp⟩ := h
    exact (builds_getProfileListResponseOpt p hp).congr (by rw [bodyDataFreed]; exact (if_pos rfl).symm)
  | getProcParameterRequest p =>
    obtain ⟨rfl, hp⟩ := h
    exact (builds_getProcParameterRequestOpt p hp).congr (by rw [bodyDataFreed]; exact (if_pos rfl).symm)
  | getProcParameterResponse p =>
    obtain ⟨rfl, hp⟩ := h
    exact (builds_getProcParameterResponseOpt p hp).congr (by rw [bodyDataFreed]; exact (if_pos rfl).symm)
  | setProcParameterRequest p =>
    obtain ⟨rfl, hp⟩ := h
    exact (builds_setProcParameterRequestOpt p hp).congr (by rw [bodyDataFreed]; exact (if_pos rfl).symm)
  | getListRequest p =>
    obtain ⟨rfl, hp⟩ := h
    exact (builds_getListRequestOpt p hp).congr (by rw [bodyDataFreed]; exact (if_pos rfl).symm)
  | getListResponse p =>
    obtain ⟨rfl, hp⟩ := h
    exact (builds_getListResponseOpt p hp).congr (by rw [bodyDataFreed]; exact (if_pos rfl).symm)
  | attentionResponse p =>
    obtain ⟨rfl, hp⟩ := h
    exact (builds_attentionResponseOpt p hp).congr (by rw [bodyDataFreed]; exact (if_pos rfl).symm)

/-! ## Messages -/

theorem tags_eq (tag : Nat) (d : BodyData) (h : BodyDataTyped tag d) : BodyDataWf tag d := by
  cases d <;> first | trivial | exact h.1

theorem builds_body (b : MessageBody) (h : BodyTyped b) : Builds (cBody b) (RMessageBody b) (messageBodyFreed (some b)) := by
  obtain ⟨tag, d⟩ := b
  obtain ⟨t, rfl, ht, hd⟩ := h
  intro st n0 c0 h L o
  obtain ⟨x, h1, B, e1, hr, o1, l1⟩ := builds_bodyData t.val d hd st n0 c0 h L o
  have o2 := o1.alloc (.struct [0, 0] [])
  have o3 := (o2.alloc (.num (numberInit t.val 4))).perm (List.Perm.swap _ _ _)
  have o4 := o3.update (.struct [h1.next + 1, x] [])
  have hnum : numberInit t.val 4 = t := by
    obtain ⟨hs, hv⟩ := ht
    rw [numberInit, Nat.mod_eq_of_lt hv, ← hs]
  refine ⟨h1.next, _, (h1.next, .struct [h1.next + 1, x] []) :: ((h1.next + 1, .num (numberInit t.val 4)) :: B), ?_,
    ⟨⟨t, rfl, ht, tags_eq _ _ hd⟩, ⟨[h1.next + 1, x], _, ⟨_, _, [(h1.next + 1, .num (numberInit t.val 4))], B, rfl, ?_, Fields.single hr, rfl⟩, rfl⟩⟩, o4, ?_⟩
  · rw [cBody, P.bind_ok e1, pMessageBodyInit, P.bind_ok malloc_ok, pNumberInit, P.bind_ok malloc_ok]
    exact (P.bind_ok (store_ok o3.ne0 o3.cell)).trans rfl
  · rw [hnum]
    rfl
  · simp only [List.length_cons, l1, messageBodyFreed, own]

theorem builds_bodyOpt : ∀ v, Opt BodyTyped v → Builds (cOpt cBody v) (repOpt RMessageBody v) (messageBodyFreed v) :=
  builds_opt rfl builds_body

theorem uuid_bits (b : UInt8) : (b &&& 0x0F) ||| 0x40 = b % 16 + 0x40 ∧ (b &&& 0x3F) ||| 0x80 = b % 64 + 0x80 := by
  have h : ∀ n : Fin 256, (UInt8.ofNat n.val &&& 0x0F) ||| 0x40 = UInt8.ofNat n.val % 16 + 0x40 ∧
      (UInt8.ofNat n.val &&& 0x3F) ||| 0x80 = UInt8.ofNat n.val % 64 + 0x80 := by decide +kernel
  have hc : UInt8.ofNat (⟨b.toNat, b.toNat_lt⟩ : Fin 256).val = b := by simp
  have := h ⟨b.toNat, b.toNat_lt⟩
  rw [hc] at this
  exact this

theorem builds_uuid (rnd : List UInt8) : Builds (pGenerateUuid rnd) (RStr (uuidOf rnd)) (octetStringFreed (some (uuidOf rnd))) := by
  have h : pGenerateUuid rnd = pOctetStringInit (uuidOf rnd).str := by
    rw [pGenerateUuid, uuidOf]
    simp only [(uuid_bits _).1, (uuid_bits _).2]
    congr 3
    simp [List.getD_eq_getElem?_getD]
  rw [h]
  exact builds_octetString _

/-- A draft whose message fits. -/
def DraftTyped (d : Draft) : Prop := MessageTyped d.message ∧ d.rnd.length = 16

theorem builds_message (d : Draft) (h : DraftTyped d) : Builds (cMessage d) (RMessage d.result) (messageFreed1 d.result) := by
  obtain ⟨⟨h0, h1, h2, h3, h4⟩, -⟩ := h
  intro st n0 c0 h L o
  -- the generated id
  have o1 := o.alloc (.struct [0, 0, 0, 0, 0] [])
  obtain ⟨u, hh2, Bu, e2, hu, o2, l2⟩ := builds_uuid d.rnd st n0 c0 _ _ o1
  have o3 := o2.perm List.perm_middle
  have o4 := o3.update (.struct [u, 0, 0, 0, 0] [])
  -- the id that is meant
  have hid : ∃ h5 x Bx, (if d.keepId then pure () else (readPtr h.next 0 >>= fun q => pOctetStringFree q >>= fun _ =>
        cOpt cStr d.message.transactionId >>= fun id => writePtr h.next 0 id) : P Unit) st
        { hh2 with cells := setCell hh2.cells h.next (some (.struct [u, 0, 0, 0, 0] [])) } = .ok () st h5 ∧
      repOpt RStr d.result.transactionId x Bx ∧ Own n0 c0 h5 ((h.next, .struct [x, 0, 0, 0, 0] []) :: (Bx ++ L)) ∧
      Bx.length = octetStringFreed d.result.transactionId := by
    by_cases hk : d.keepId = true
    · rw [if_pos hk]
      refine ⟨_, u, Bu, rfl, ?_, o4, ?_⟩
      · rw [Draft.result, if_pos hk]
        exact hu
      · rw [Draft.result, if_pos hk]
        exact l2
    · rw [if_neg hk, Draft.result, if_neg hk]
      obtain ⟨h5, g, e5, o5, l5⟩ := frees_octetString (uuidOf d.rnd) u Bu hu st n0 c0 _ ((h.next, .struct [u, 0, 0, 0, 0] []) :: L)
        (o4.perm List.perm_middle.symm)
      have hg : g = [] := List.length_eq_zero_iff.mp (by omega)
      subst hg
      obtain ⟨x, h6, Bx, e6, hx, o6, l6⟩ := builds_strOpt _ h0 st n0 c0 h5 _ o5
      have o7 := o6.perm List.perm_middle
      refine ⟨_, x, Bx, ?_, hx, o7.update (.struct [x, 0, 0, 0, 0] []), l6⟩
      rw [P.bind_ok (readPtr_ok o4.ne0 o4.cell rfl), P.bind_ok e5, P.bind_ok e6]
      exact writePtr_ok o7.ne0 o7.cell (by simp)
  obtain ⟨h5, x, Bx, e5, hx, o5, l5⟩ := hid
  obtain ⟨xs, h6, B, e6, hF, o6, l6⟩ := members_ok (qs := [x]) (zs := [0, 0, 0]) (ts := [0]) (st := st)
    (.cons (builds_numOpt 1 _ h1) <| .cons (builds_numOpt 1 _ h2) <| .cons (builds_bodyOpt _ h3) .nil) rfl o5
  have hres : d.result.groupId = d.message.groupId ∧ d.result.abortOnError = d.message.abortOnError ∧
      d.result.messageBody = d.message.messageBody ∧ d.result.crc = none := by
    rw [Draft.result]
    split <;> simp [h4]
  refine ⟨h.next, h6, (h.next, .struct ([x] ++ (xs ++ [0])) []) :: (Bx ++ B), ?_, ?_, ?_, ?_⟩
  · rw [cMessage, pMessageInit, P.assoc, P.bind_ok malloc_ok, P.assoc, P.bind_ok e2, P.assoc,
      P.bind_ok (writePtr_ok o3.ne0 o3.cell (by simp))]
    rw [P.pure_bind_eq]
    refine Eq.trans (P.bind_ok e5) ?_
    exact Eq.trans (P.bind_ok e6) rfl
  · rw [RMessage, hres.1, hres.2.1, hres.2.2.1, hres.2.2.2]
    refine ⟨_, _, ⟨x, xs ++ [0], Bx, B, rfl, hx, ?_, rfl⟩, rfl⟩
    have := hF.append (Fields.single (r := nullRep) (a := 0) (B := []) ⟨rfl, rfl⟩)
    rw [List.append_nil] at this
    exact this
  · refine o6.perm ?_
    rw [List.cons_append]
    refine List.Perm.cons _ ?_
    rw [← List.append_assoc]
    exact List.perm_append_comm.append_right L
  · rw [List.length_cons, List.length_append, l5, l6, messageFreed1, hres.1, hres.2.1, hres.2.2.1, hres.2.2.2]
    simp only [numberFreed]
    omega

theorem fileInit_ok (o : Own n0 c0 h L) : ∃ h', pFileInit st h = .ok h.next st h' ∧
    Own n0 c0 h' ([(h.next, .struct [0, h.next + 1] [0]), (h.next + 1, .struct [h.next + 2, 0] []), (h.next + 2, .bytes (List.replicate 512 0))] ++ L) := by
  have o1 := o.alloc (.struct [0, 0] [0])
  have o2 : Own n0 c0 ⟨h.next + 1 + 1, setCell (setCell h.cells h.next (some (.struct [0, 0] [0]))) (h.next + 1) (some (.struct [0, 0] []))⟩ _ :=
    o1.alloc (.struct [0, 0] [])
  have o3 := (o2.alloc (.bytes (List.replicate 512 0))).perm (List.Perm.swap _ _ _)
  have o4 := o3.update (.struct [h.next + 2, 0] [])
  have o5 := o4.perm (L' := (h.next, .struct [0, 0] [0]) :: (h.next + 1, .struct [h.next + 2, 0] []) ::
    (h.next + 2, .bytes (List.replicate 512 0)) :: L)
    ((List.Perm.cons _ (List.Perm.swap _ _ _)).trans (List.Perm.swap _ _ _))
  have o6 := o5.update (.struct [0, h.next + 1] [0])
  refine ⟨_, ?_, o6⟩
  rw [pFileInit, P.bind_ok malloc_ok, pBufferInit, P.assoc, P.bind_ok malloc_ok, P.assoc, P.bind_ok malloc_ok, P.assoc]
  refine (P.bind_ok (writePtr_ok o3.ne0 o3.cell (by simp))).trans ?_
  rw [P.pure_bind_eq]
  exact (P.bind_ok (writePtr_ok o5.ne0 o5.cell (by simp))).trans rfl

theorem fileAdd_ok (s e : Addr) (st : St) (h : Heap)
    (hc : ∃ ps n is, s ≠ 0 ∧ h.cells s = some (.struct ps (n :: is)) ∧ n < 32767) :
    pFileAddMessage s e st h = pArrayAdd s 0 e st h := by
  obtain ⟨ps, n, is, hs, hc, hn⟩ := hc
  rw [pFileAddMessage, P.bind_ok (readInt_ok hs hc rfl), if_neg (by omega)]

theorem builds_file (ds : List Draft) (h : ∀ d ∈ ds, DraftTyped d) (hl : ds.length ≤ 32767) :
    Builds (cFile ds) (RFile (List.replicate 512 0) { messages := ds.map Draft.result }) (fileFreed { messages := ds.map Draft.result }) := by
  intro st n0 c0 h L o
  obtain ⟨h1, e1, o6⟩ := fileInit_ok (st := st) o
  have hr : Rec [RArr [], RBuffer (List.replicate 512 0)] [([] : List Rep).length] h.next [(h.next, .struct [0, h.next + 1] [0]),
      (h.next + 1, .struct [h.next + 2, 0] []), (h.next + 2, .bytes (List.replicate 512 0))] := by
    refine ⟨[0, h.next + 1], _, ⟨0, [h.next + 1], [], _, rfl, RArr.nil, Fields.single ?_, rfl⟩, rfl⟩
    exact ⟨[h.next + 2, 0], _, ⟨h.next + 2, [0], _, [], rfl, rfl, Fields.single ⟨rfl, rfl⟩, rfl⟩, rfl⟩
  obtain ⟨h2, B2, e2, hr2, o7, l2⟩ := addAll_ok (add := pFileAddMessage) (bound := 32767) (st := st) (by decide) fileAdd_ok
    (buildsAll_map builds_message ds ‹_›) hr rfl (by simpa using hl) o6
  refine ⟨h.next, h2, B2, ?_, ?_, o7, ?_⟩
  · rw [cFile, P.bind_ok e1]
    exact (P.bind_ok e2).trans rfl
  · rw [RFile]
    simp only [List.map_map, List.length_map]
    rw [List.nil_append, List.length_map] at hr2
    exact hr2
  · simp only [List.length_cons, List.length_nil, if_true, List.nil_append, List.map_eq_nil_iff] at l2
    simp only [fileFreed, List.map_map, List.map_eq_nil_iff]
    have : (ds.map (messageFreed1 ∘ Draft.result)).sum = (ds.map fun v => messageFreed1 v.result).sum := rfl
    omega

end Sml
