import Verif.Proofs.HeapUse

/-! # The write functions on the addressed heap -/

namespace Sml

theorem RNum.head (h : RNum v a B) : ∃ c, (a, c) ∈ B := by
  cases h
  exact ⟨_, List.mem_cons_self⟩

theorem RBool.head (h : RBool v a B) : ∃ c, (a, c) ∈ B := by
  cases h
  exact ⟨_, List.mem_cons_self⟩

theorem wr_number (v : Option Num) (type size : Nat) :
    Wr1 (numberWrite v type size) (pNumberWrite type size) (repOpt RNum v) := by
  refine Wr1.opt (w := fun v => numberWrite v type size) (R := RNum) rfl
    (fun v a B h => RNum.head h) (fun v => ?_) v
  rintro S a B rfl hB
  refine (dry_setTypeAndLength _ _).use.bind fun _ => ?_
  by_cases h0 : size = 0
  · rw [if_pos h0]
    exact Use.undef
  rw [if_neg h0, if_neg h0]
  refine Use.num hB.head ?_
  exact Use.ite (fun _ => (dry_putBytes _).use) fun _ => Use.undef

theorem use_octetBytes {pk : List UInt8 → P α} {m : M α} (hr : RStr s a B) (hB : Within B S)
    (h2 : Use S m (pk s.str)) : Use S m (pOctetBytes a >>= pk) := by
  obtain ⟨d, hd, hs⟩ := hr.cells
  rw [pOctetBytes, P.assoc]
  refine Use.ptr (hB.mem hd) rfl ?_
  rw [P.assoc]
  refine Use.int (hB.mem hd) rfl ?_
  by_cases h0 : s.str = []
  · rw [if_pos (by rw [h0]; rfl)]
    rw [h0] at h2
    exact h2
  · rw [if_neg (by simpa using h0)]
    refine Use.raw (hB.mem (hs h0)) (Nat.le_refl _) ?_
    rw [List.take_length]
    exact h2

theorem wr_octetString (v : Option OctetString) : Wr1 (octetStringWrite v) pOctetStringWrite (repOpt RStr v) := by
  refine Wr1.opt (w := octetStringWrite) (R := RStr) rfl (fun v a B h => Rec.head h) (fun v => ?_) v
  intro S a B hr hB
  obtain ⟨d, hd, _⟩ := hr.cells
  refine Use.int (hB.mem hd) rfl ?_
  refine (dry_setTypeAndLength _ _).use.bind fun _ => ?_
  exact use_octetBytes hr hB (dry_putBytes _).use

theorem wr_boolean (v : Option UInt8) : Wr1 (booleanWrite v) pBooleanWrite (repOpt RBool v) := by
  refine Wr1.opt (w := booleanWrite) (R := RBool) rfl (fun v a B h => RBool.head h) (fun v => ?_) v
  rintro S a B rfl hB
  refine (dry_setTypeAndLength _ _).use.bind fun _ => ?_
  refine Use.tag hB.head ⟨rfl, v.toNat_lt⟩ ?_
  by_cases h0 : v = 0x00
  · rw [if_pos h0, if_pos (by rw [h0]; rfl)]
    exact (dry_setByte _).use.bind fun _ => dry_advance.use
  · have h1 : ¬ v.toNat = 0 := fun h => h0 (UInt8.toNat_inj.mp h)
    rw [if_neg h0]
    show Use S _ (if v.toNat = 0 then _ else _)
    rw [if_neg h1]
    exact (dry_setByte _).use.bind fun _ => dry_advance.use

/-- `sml_number_write` with size 0 does not look at the object. -/
theorem use_numberEmpty {R : β → Rep} (p : Option β) (hd : ∀ v a B, R v a B → ∃ c, (a, c) ∈ B) (hr : repOpt R p a B)
    (hB : Within B S) (type : Nat) :
    Use S (numberWrite (p.map fun _ => ⟨0, 0⟩) type 0) (pNumberWrite type 0 a) := by
  cases p with
  | none =>
    obtain ⟨rfl, rfl⟩ := hr
    exact dry_optionalWrite.use
  | some v =>
    obtain ⟨c, hc⟩ := hd v a B hr
    refine Use.ne0 (hB.mem hc) fun hne => ?_
    rw [pNumberWrite, if_neg hne]
    exact (dry_setTypeAndLength _ _).use.bind fun _ => Use.undef

theorem wr_value (v : Option Value) : Wr1 (valueWrite v) pValueWrite (repOpt RValue v) := by
  refine Wr1.opt (w := valueWrite) (R := RValue) rfl (fun v a B h => Rec.head h.2) (fun v => ?_) v
  rintro S a B ⟨_, ps, B', hF, rfl⟩ hB
  obtain ⟨d, rfl, hd⟩ := hF.one
  have hd' := hB.tail
  refine Use.int hB.head rfl (Use.ptr hB.head rfl ?_)
  rw [valueWrite]
  refine Use.ite (fun _ => ?_) fun _ => Use.ite (fun _ => ?_) fun _ => Use.ite (fun _ => ?_) fun _ => Use.ret ()
  · cases hv : v.data with
    | bytes p =>
      rw [hv] at hd
      exact wr_octetString p S d B' hd hd'
    | boolean p => exact Use.undef
    | num p => exact Use.undef
  · cases hv : v.data with
    | bytes p => exact Use.undef
    | boolean p =>
      rw [hv] at hd
      exact wr_boolean p S d B' hd hd'
    | num p => exact Use.undef
  · cases hv : v.data with
    | bytes p =>
      rw [hv] at hd
      show Use S (if _ then _ else _) _
      split
      · rename_i h0
        rw [h0]
        exact use_numberEmpty (R := RStr) p (fun _ _ _ h => Rec.head h) hd hd' _
      · exact Use.undef
    | boolean p =>
      rw [hv] at hd
      show Use S (if _ then _ else _) _
      split
      · rename_i h0
        rw [h0]
        exact use_numberEmpty (R := RBool) p (fun _ _ _ h => RBool.head h) hd hd' _
      · exact Use.undef
    | num p =>
      rw [hv] at hd
      exact wr_number p _ _ S d B' hd hd'

theorem wr_status (v : Option Status) : Wr1 (statusWrite v) pStatusWrite (repOpt RStatus v) := by
  refine Wr1.opt (w := statusWrite) (R := RStatus) rfl (fun v a B h => Rec.head h) (fun v => ?_) v
  rintro S a B ⟨ps, B', hF, rfl⟩ hB
  obtain ⟨d, rfl, hd⟩ := hF.one
  refine Use.int hB.head rfl (Use.ptr hB.head rfl ?_)
  exact wr_number _ _ _ S d B' hd hB.tail

theorem wr_time (v : Option Time) : Wr1 (timeWrite v) pTimeWrite (repOpt RTime v) :=
  Wr1.opt (w := timeWrite) (R := RTime) rfl (fun _ _ _ h => Rec.head h)
    (fun v => Wr1.struct (.cons (wr_number v.tag _ _) (.cons (wr_number v.data _ _) .nil)) 2) v

/-! ## Sequences -/

theorem seqM_cons (w : M Unit) (ws : List (M Unit)) : seqM (w :: ws) = (w >>= fun _ => seqM ws) := by
  cases ws with
  | nil =>
    funext s
    show w s = M.bind w (fun _ => pure ()) s
    rw [M.bind]
    cases h : w s with
    | ok a s' => rfl
    | ub r => rfl
  | cons w' ws => rfl

theorem use_forEach {w : α → M Unit} {R : α → Rep} : ∀ (es : List α) {qs ps C}, (∀ e ∈ es, ∀ p B, R e p B → Within B C → Use S (w e) (pw p)) →
    Fields (es.map R) ps C → (a, .struct sp is) ∈ S → sp[i]? = some arr →
    (arr, .struct (qs ++ ps) []) ∈ S →
    Use S (seqM (es.map w)) (pForEach pw a i es.length qs.length)
  | [], qs, ps, C, hw, hF, ha, hi, harr => Use.ret ()
  | e :: es, qs, ps, C, hw, hF, ha, hi, harr => by
    obtain ⟨p, ps', B1, B2, rfl, hr, hF', rfl⟩ := hF
    have harr' : (arr, HCell.struct ((qs ++ [p]) ++ ps') []) ∈ S := by simpa using harr
    have hin : ∀ e' ∈ es, ∀ p B, R e' p B → Within B B2 → Use S (w e') (pw p) := by
      intro e' he p' B hr' ⟨L, hL⟩
      refine hw e' (List.mem_cons_of_mem _ he) p' B hr' ⟨B1 ++ L, ?_⟩
      refine (hL.append_left B1).trans ?_
      rw [← List.append_assoc, ← List.append_assoc]
      exact List.perm_append_comm.append_right L
    have hk := use_forEach es (qs := qs ++ [p]) hin hF' ha hi harr'
    rw [List.length_append] at hk
    show Use S _ (readPtr a i >>= fun arr => readPtr arr qs.length >>= fun x => pw x >>= fun _ =>
      pForEach pw a i es.length (qs.length + 1))
    refine Use.ptr ha hi (Use.ptr (p := p) harr (by simp) ?_)
    rw [List.map_cons, seqM_cons]
    exact (hw e List.mem_cons_self p B1 hr ⟨B2, List.Perm.refl _⟩).bind fun _ => hk

theorem sequenceLoop_seq (w : Option α → M Unit) : ∀ es, sequenceWriteLoop w es = seqM (es.map w)
  | [] => rfl
  | e :: es => by rw [List.map_cons, seqM_cons, ← sequenceLoop_seq w es]; rfl

theorem treePathLoop_seq : ∀ es, treePathWriteLoop es = seqM (es.map octetStringWrite)
  | [] => rfl
  | e :: es => by rw [List.map_cons, seqM_cons, ← treePathLoop_seq es]; rfl

theorem Within.trans (h : Within B C) (h' : Within C S) : Within B S := by
  obtain ⟨L, h⟩ := h
  obtain ⟨L', h'⟩ := h'
  refine ⟨L ++ L', h'.trans ?_⟩
  rw [← List.append_assoc]
  exact h.append_right L'

/-- The loop over an array in a structure. -/
theorem use_array {w : α → M Unit} {R : α → Rep} {es : List α} (hw : ∀ e ∈ es, Wr1 (w e) pw (R e))
    (ha : (a, .struct sp is) ∈ S) (hi : sp[i]? = some arr) (harr : RArr (es.map R) arr B) (hB : Within B S) :
    Use S (seqM (es.map w)) (pForEach pw a i es.length 0) := by
  cases es with
  | nil => exact Use.ret ()
  | cons e es =>
    rw [RArr.ne (by simp)] at harr
    obtain ⟨qs, C, hq, rfl⟩ := harr
    exact use_forEach (qs := []) (e :: es) (fun e' he p B hr hin => hw e' he S p B hr (hin.trans hB.tail)) hq ha hi hB.head

theorem wr_sequence {w : Option α → M Unit} {R : Option α → Rep} (hw : ∀ e, Wr1 (w e) pw (R e)) (v : Option (Sequence α)) :
    Wr1 (sequenceWrite w v) (pSequenceWrite pw) (repOpt (RSequence c R) v) := by
  refine Wr1.opt (w := sequenceWrite w) (R := RSequence c R) rfl (fun v a B h => Rec.head h) (fun v => ?_) v
  rintro S a B ⟨ps, B', hF, rfl⟩ hB
  obtain ⟨arr, rfl, harr⟩ := hF.one
  refine Use.int hB.head rfl ?_
  refine (dry_setTypeAndLength _ _).use.bind fun _ => Use.int hB.head rfl ?_
  rw [sequenceLoop_seq]
  exact use_array (fun e _ => hw e) hB.head rfl harr hB.tail

/-! ## Lists -/

theorem wall_entry (e : ListEntry) : WAll [octetStringWrite e.objName, statusWrite e.status, timeWrite e.valTime,
      u8Write e.unit, i8Write e.scaler, valueWrite e.value, octetStringWrite e.valueSignature]
    [pOctetStringWrite, pStatusWrite, pTimeWrite, pU8Write, pI8Write, pValueWrite, pOctetStringWrite] (entryReps e) :=
  .cons (wr_octetString _) (.cons (wr_status _) (.cons (wr_time _) (.cons (wr_number _ _ _) (.cons (wr_number _ _ _)
    (.cons (wr_value _) (.cons (wr_octetString _) .nil))))))

theorem use_entry (hF : Fields (entryReps e) ps B) (hB : Within B S) (ha : (a, .struct (ps ++ ts) is) ∈ S) :
    Use S (listEntryWrite e) (pListEntryWrite a) :=
  Wr1.fields (wall_entry e) 7 hF hB ha

theorem listLen_ok : ∀ (es : List ListEntry) {a B fuel len S st n0 c0 h}, RList es a B → Within B S → es.length < fuel →
    Own n0 c0 h S → pListLen fuel a len st h = .ok (len + es.length) st h
  | [], a, B, fuel + 1, len, S, st, n0, c0, h, hr, hB, hf, o => by
    obtain ⟨rfl, rfl⟩ := hr
    rfl
  | e :: es, a, B, fuel + 1, len, S, st, n0, c0, h, hr, hB, hf, o => by
    obtain ⟨ps, n, B1, B2, hF, hl, hn, rfl⟩ := hr.cons
    have hne := o.ne0_of_mem hB.head
    rw [pListLen, if_pos hne, P.bind_ok (readPtr_ok (p := n) hne (o.cell_of_mem hB.head) (by rw [← hl]; simp)),
      listLen_ok es hn hB.tail.right (by simp at hf; omega) o]
    rw [List.length_cons]
    congr 1
    omega
  | [], _, _, 0, _, _, _, _, _, _, _, _, hf, _ => by simp at hf
  | _ :: _, _, _, 0, _, _, _, _, _, _, _, _, hf, _ => by simp at hf

theorem use_listLoop : ∀ (es : List ListEntry) {a B fuel S}, RList es a B → Within B S → es.length < fuel →
    Use S (listWriteLoop es) (pListWriteLoop fuel a)
  | [], a, B, fuel + 1, S, hr, hB, hf => by
    obtain ⟨rfl, rfl⟩ := hr
    exact Use.ret ()
  | e :: es, a, B, fuel + 1, S, hr, hB, hf => by
    obtain ⟨ps, n, B1, B2, hF, hl, hn, rfl⟩ := hr.cons
    refine Use.ne0 hB.head fun hne => ?_
    rw [pListWriteLoop, if_pos hne]
    refine (use_entry hF hB.tail.left hB.head).bind fun _ => ?_
    refine Use.ptr (p := n) hB.head (by rw [← hl]; simp) ?_
    exact use_listLoop es hn hB.tail.right (by simp at hf; omega)
  | [], _, _, 0, _, _, _, hf => by simp at hf
  | _ :: _, _, _, 0, _, _, _, hf => by simp at hf

theorem wr_list (es : List ListEntry) : Wr1 (listWrite es) pListWrite (RList es) := by
  intro S a B hr hB s n0 c0 h o
  have hlt : es.length < h.next + 1 := by
    have h1 := hr.length_le
    have h2 := hB.length_le
    have h3 := o.length_lt
    omega
  cases es with
  | nil =>
    obtain ⟨rfl, rfl⟩ := hr
    exact dry_optionalWrite.use s n0 c0 h o
  | cons e es =>
    have hne : a ≠ 0 := by
      obtain ⟨ps, n, B1, B2, _, _, _, rfl⟩ := hr.cons
      exact o.ne0_of_mem hB.head
    rw [pListWrite, if_neg hne, listWrite, if_neg (by simp), P.bind_ok (listLen_ok _ hr hB hlt o), Nat.zero_add]
    exact ((dry_setTypeAndLength _ _).use.bind fun _ => use_listLoop _ hr hB hlt) s n0 c0 h o

/-! ## Trees -/

theorem wr_treePath (v : Option TreePath) : Wr1 (treePathWrite v) pTreePathWrite (repOpt RTreePath v) := by
  refine Wr1.opt (w := treePathWrite) (R := RTreePath) rfl (fun v a B h => Rec.head h) (fun v => ?_) v
  rintro S a B ⟨ps, B', hF, rfl⟩ hB
  obtain ⟨arr, rfl, harr⟩ := hF.one
  refine Use.ptr hB.head rfl (Use.int hB.head rfl ?_)
  rw [treePathWrite]
  by_cases hs : v.entries = []
  · rw [if_neg (by simp [hs]), if_neg (by simp [hs])]
    exact Use.ret ()
  · have hr := harr
    rw [RArr.ne (by simpa using hs)] at hr
    obtain ⟨c, hc⟩ := hr.head
    refine Use.ne0 (hB.tail.mem hc) fun hna => ?_
    rw [if_pos hs, if_pos ⟨hna, List.length_pos_iff.mpr hs⟩]
    refine Use.int hB.head rfl ?_
    refine (dry_setTypeAndLength _ _).use.bind fun _ => Use.int hB.head rfl ?_
    rw [treePathLoop_seq]
    exact use_array (fun e _ => wr_octetString e) hB.head rfl harr hB.tail

theorem wr_periodEntry (v : Option PeriodEntry) : Wr1 (periodEntryWrite v) pPeriodEntryWrite (repOpt RPeriodEntry v) :=
  Wr1.opt (w := periodEntryWrite) (R := RPeriodEntry) rfl (fun _ _ _ h => Rec.head h)
    (fun _ => Wr1.struct (.cons (wr_octetString _) (.cons (wr_number _ _ _) (.cons (wr_number _ _ _) (.cons (wr_value _)
      (.cons (wr_octetString _) .nil))))) 5) v

theorem wr_tupelEntry (v : Option TupelEntry) : Wr1 (tupelEntryWrite v) pTupelEntryWrite (repOpt RTupelEntry v) :=
  Wr1.opt (w := tupelEntryWrite) (R := RTupelEntry) rfl (fun _ _ _ h => Rec.head h)
    (fun _ => Wr1.struct (.cons (wr_octetString _) (.cons (wr_time _) (.cons (wr_number _ _ _)
      (.cons (wr_number _ _ _) (.cons (wr_number _ _ _) (.cons (wr_number _ _ _)
      (.cons (wr_number _ _ _) (.cons (wr_number _ _ _) (.cons (wr_number _ _ _)
      (.cons (wr_number _ _ _) (.cons (wr_number _ _ _) (.cons (wr_number _ _ _) (.cons (wr_octetString _)
      (.cons (wr_number _ _ _) (.cons (wr_number _ _ _) (.cons (wr_number _ _ _)
      (.cons (wr_number _ _ _) (.cons (wr_number _ _ _) (.cons (wr_number _ _ _)
      (.cons (wr_number _ _ _) (.cons (wr_number _ _ _) (.cons (wr_number _ _ _) (.cons (wr_octetString _)
      .nil))))))))))))))))))))))) 23) v

theorem wr_ppv (v : Option ProcParValue) : Wr1 (procParValueWrite v) pProcParValueWrite (repOpt RPpv v) := by
  refine Wr1.opt (w := procParValueWrite) (R := RPpv) rfl (fun v a B h => Rec.head h.2) (fun v => ?_) v
  rintro S a B ⟨hw, ps, B', hF, rfl⟩ hB
  obtain ⟨p, q, B1, B2, rfl, hp, hq, rfl⟩ := hF.two
  rw [procParValueWrite]
  refine (dry_setTypeAndLength _ _).use.bind fun _ => ?_
  refine Use.ptr hB.head rfl ?_
  refine (wr_number _ _ _ S p B1 hp hB.tail.left).bind fun _ => ?_
  refine Use.ptr hB.head rfl ?_
  cases ht : v.tag with
  | none => exact Use.undef
  | some t =>
    rw [ht] at hp
    obtain rfl : B1 = [(p, .num t)] := hp
    refine Use.tag hB.tail.left.head (hw.1 t ht) (Use.ptr hB.head rfl ?_)
    have hB2 := hB.tail.right
    have null : ∀ {w pw}, Wr1 w pw nullRep → v.data = .null → Use S w (pw q) := by
      intro w pw h1 h2
      rw [h2] at hq
      exact h1 S q B2 hq hB2
    have tag : ∀ {n : Nat}, (∃ t', v.tag = some t' ∧ t'.val = n) → t.val = n := by
      rintro n ⟨t', h1, h2⟩
      rw [ht] at h1
      cases h1
      exact h2
    have hw := hw.2
    cases hd : v.data with
    | null =>
      rw [hd] at hq
      show Use S (match t.val, PpvData.null with
        | 1, .value p => valueWrite p
        | 2, .periodEntry p => periodEntryWrite p
        | 3, .tupelEntry p => tupelEntryWrite p
        | 4, .time p => timeWrite p
        | 1, .null => optionalWrite
        | 2, .null => optionalWrite
        | 3, .null => optionalWrite
        | 4, .null => optionalWrite
        | n, _ => if n = 1 ∨ n = 2 ∨ n = 3 ∨ n = 4 then Sml.undef .confusion else pure ()) _
      by_cases h1 : t.val = 1
      · rw [h1, if_pos rfl]
        exact wr_value none S q B2 hq hB2
      by_cases h2 : t.val = 2
      · rw [h2, if_neg (by decide), if_pos rfl]
        exact wr_periodEntry none S q B2 hq hB2
      by_cases h3 : t.val = 3
      · rw [h3, if_neg (by decide), if_neg (by decide), if_pos rfl]
        exact wr_tupelEntry none S q B2 hq hB2
      by_cases h4 : t.val = 4
      · rw [h4, if_neg (by decide), if_neg (by decide), if_neg (by decide), if_pos rfl]
        exact wr_time none S q B2 hq hB2
      rw [if_neg h1, if_neg h2, if_neg h3, if_neg h4]
      split
      all_goals first
        | (exfalso; omega)
        | contradiction
        | (rw [if_neg (by simp_all)]; exact Use.ret ())
    | value x =>
      rw [hd] at hq hw
      dsimp only
      rw [tag hw, if_pos rfl]
      exact wr_value x S q B2 hq hB2
    | periodEntry x =>
      rw [hd] at hq hw
      dsimp only
      rw [tag hw, if_neg (by decide), if_pos rfl]
      exact wr_periodEntry x S q B2 hq hB2
    | tupelEntry x =>
      rw [hd] at hq hw
      dsimp only
      rw [tag hw, if_neg (by decide), if_neg (by decide), if_pos rfl]
      exact wr_tupelEntry x S q B2 hq hB2
    | time x =>
      rw [hd] at hq hw
      dsimp only
      rw [tag hw, if_neg (by decide), if_neg (by decide), if_neg (by decide), if_pos rfl]
      exact wr_time x S q B2 hq hB2

end Sml
