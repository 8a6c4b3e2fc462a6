import Verif.Proofs.SourceInit
import Verif.Proofs.HeapBuildObjects
import Verif.Spec.SourceClient

/-!
# The client of the C library does what the client of the model does
-/

namespace Sml.C

open Spec (Opt sizes)

/-- The code `x` does what `p` does, with the functions of the library run from their source. -/
def Runs (x : Code) (p : P Addr) : Prop :=
  ∀ K st h, Inv K st h → ∀ a st' h', p st h = .ok a st' h' →
    Inv K st' h' ∧ ∃ N, ∀ n, N ≤ n → ∀ env, x (call program n) env (conc K st h) = .ok (ptrVal a) env (conc K st' h')

inductive RunsAll : List Code → List (P Addr) → Prop
  | nil : RunsAll [] []
  | cons : Runs x p → RunsAll xs ps → RunsAll (x :: xs) (p :: ps)

theorem runs_null : Runs (fun _ => pure nullPtr) (pure 0) := by
  intro K st h hi a st' h' hr
  cases hr
  exact ⟨hi, 0, fun _ _ _ => rfl⟩

theorem runs_opt {P : α → Prop} {x : α → Code} {b : α → Sml.P Addr} (h : ∀ v, P v → Runs (x v) (b v)) : ∀ o, Opt P o → Runs (xOpt x o) (cOpt b o)
  | none, _ => runs_null
  | some v, ho => h v (ho v rfl)

theorem runs_members (hx : RunsAll xs ps) : ∀ {K st h i a u st' h'}, Inv K st h → cMembers a i ps st h = .ok u st' h' →
    Inv K st' h' ∧ ∃ N, ∀ n, N ≤ n → ∀ env, xMembers (ptrVal a) i xs (call program n) env (conc K st h) = .ok () env (conc K st' h') := by
  induction hx with
  | nil =>
    intro K st h i a u st' h' hi hr
    cases hr
    exact ⟨hi, 0, fun _ _ _ => rfl⟩
  | cons hp _ ih =>
    intro K st h i a u st' h' hi hr
    rw [cMembers] at hr
    obtain ⟨v, s1, h1, e1, hr⟩ := P_bind_eq_ok hr
    obtain ⟨_, s2, h2, e2, hr⟩ := P_bind_eq_ok hr
    obtain ⟨i1, N1, r1⟩ := hp K st h hi v s1 h1 e1
    have i2 : Inv K s2 h2 := by
      obtain ⟨_, rfl, ps, is, hc, _, rfl⟩ := writePtr_eq_ok e2
      exact i1.setPs hc _
    obtain ⟨i3, N3, r3⟩ := ih i2 hr
    refine ⟨i3, max N1 N3, fun n hn env => ?_⟩
    rw [xMembers, X_bind_ok (r1 n (by omega) env), X_bind_ok (storePtr_cell i1 e2)]
    exact r3 n (by omega) env

theorem runs_struct {f : Fn} {c : HCell} (hf : InitSpec f c) (hx : RunsAll xs ps) : Runs (xStruct f xs) (cStruct (malloc c) ps) := by
  intro K st h hi a st' h' hr
  obtain ⟨b, s1, h1, e1, hr⟩ := P_bind_eq_ok hr
  obtain ⟨_, s2, h2, e2, hr⟩ := P_bind_eq_ok hr
  cases hr
  obtain ⟨i1, _, N1, r1⟩ := hf.run hi trivial e1
  obtain ⟨i2, N2, r2⟩ := runs_members hx i1 e2
  refine ⟨i2, max N1 N2, fun n hn env => ?_⟩
  rw [xStruct, X_bind_ok (r1 n (by omega) env), X_bind_ok (r2 n (by omega) env)]
  rfl

theorem runs_addAll {f : Fn} {add : Addr → Addr → P Unit} (hf : AddSpec f add) (hx : RunsAll xs ps) : ∀ {K st h a u st' h'}, Inv K st h → cAddAll add a ps st h = .ok u st' h' →
    Inv K st' h' ∧ ∃ N, ∀ n, N ≤ n → ∀ env, xAddAll f (ptrVal a) xs (call program n) env (conc K st h) = .ok () env (conc K st' h') := by
  induction hx with
  | nil =>
    intro K st h a u st' h' hi hr
    cases hr
    exact ⟨hi, 0, fun _ _ _ => rfl⟩
  | cons hp _ ih =>
    intro K st h a u st' h' hi hr
    rw [cAddAll] at hr
    obtain ⟨v, s1, h1, e1, hr⟩ := P_bind_eq_ok hr
    obtain ⟨_, s2, h2, e2, hr⟩ := P_bind_eq_ok hr
    obtain ⟨i1, N1, r1⟩ := hp K st h hi v s1 h1 e1
    obtain ⟨i2, _, N2, r2⟩ := (hf a v).run i1 trivial e2
    obtain ⟨i3, N3, r3⟩ := ih i2 hr
    refine ⟨i3, max N1 (max N2 N3), fun n hn env => ?_⟩
    rw [xAddAll, X_bind_ok (r1 n (by omega) env), X_bind_ok (r2 n (by omega) env)]
    exact r3 n (by omega) env

theorem runsAll_map {P : α → Prop} {x : α → Code} {b : α → Sml.P Addr} (h : ∀ v, P v → Runs (x v) (b v)) : ∀ l : List α, (∀ v ∈ l, P v) → RunsAll (l.map x) (l.map b)
  | [], _ => .nil
  | v :: l, hl => .cons (h v (hl v (by simp))) (runsAll_map h l fun w hw => hl w (by simp [hw]))

/-! ## Parts -/

theorem runs_num (k : Nat) (hk : k ≤ 8) (n : Num) (h : NumTyped k n) : Runs (xNum k n) (cNum k n) := by
  intro K st hp hi a st' h' hr
  have hv : n.val < 18446744073709551616 := Nat.lt_of_lt_of_le h.2 (Nat.le_trans (Nat.pow_le_pow_right (by omega) hk) (by decide))
  obtain ⟨i1, _, N, r⟩ := (numberInit_src (ty := 96) (t1 := .u64) (t2 := .i32) (t3 := .u64) (k := n.val) (v := n.val) (size := k) (natConv_u64 hv) hv hk).run hi trivial hr
  exact ⟨i1, N, fun m hm env => r m hm env⟩

theorem runs_numOpt (k : Nat) (hk : k ≤ 8) : ∀ n, Opt (NumTyped k) n → Runs (xOpt (xNum k) n) (cOpt (cNum k) n) := runs_opt (runs_num k hk)

theorem runs_boolOpt (b : Option UInt8) : Runs (xOpt xBool b) (cOpt pBooleanInit b) := by
  cases b with
  | none => exact runs_null
  | some b =>
    intro K st hp hi a st' h' hr
    obtain ⟨i1, _, N, r⟩ := (booleanInit_src b.toNat_lt).run hi trivial hr
    exact ⟨i1, N, fun m hm env => r m hm env⟩

/-- What `pOctetStringInit` leaves is what the source leaves. -/
theorem octetInit_conc (hi : Inv K st h) (hl : bs.length ≤ 2147483647) (hr : pOctetStringInit bs st h = .ok a st' h') :
    a = h.next ∧ st' = st ∧ Inv K st' h' ∧ conc K st' h' = withStr (conc K st h) bs ∧ ∀ x, x < h.next → h'.cells x = h.cells x := by
  have i1 : Inv K st (grown h (.struct [0] [0])) := hi.grown (fun n hn => by simp at hn; omega)
  unfold pOctetStringInit at hr
  obtain ⟨s, s1, h1, e1, hr⟩ := P_bind_eq_ok hr
  cases e1
  by_cases hn : bs = []
  · subst hn
    rw [if_neg (by simp)] at hr
    cases hr
    refine ⟨rfl, rfl, i1, ?_, fun x hx => if_neg (Nat.ne_of_lt hx)⟩
    rw [withStr, if_pos rfl]
    exact (conc_grown hi (.struct [0] [0])).symm
  · have hpos : 0 < bs.length := List.length_pos_iff.mpr hn
    rw [if_pos hpos] at hr
    obtain ⟨d, s2, h2, e2, hr⟩ := P_bind_eq_ok hr
    cases e2
    obtain ⟨_, s3, h3, e3, hr⟩ := P_bind_eq_ok hr
    obtain ⟨_, rfl, ps, is, hc3, _, rfl⟩ := writePtr_eq_ok e3
    obtain ⟨_, s4, h4, e4, hr⟩ := P_bind_eq_ok hr
    obtain ⟨_, rfl, ps4, is4, hc4, _, rfl⟩ := writeInt_eq_ok e4
    cases hr
    have i2 := i1.grown (c := .bytes bs) trivial
    have hps : ps = [0] ∧ is = [0] := by
      have : h.next ≠ h.next + 1 := by omega
      simp only [setCell, if_neg this, if_true, Option.some.injEq, HCell.struct.injEq] at hc3
      exact ⟨hc3.1.symm, hc3.2.symm⟩
    obtain ⟨rfl, rfl⟩ := hps
    have i3 := i2.setPs hc3 ([0].set 0 (h.next + 1))
    obtain ⟨rfl, rfl⟩ : ps4 = [h.next + 1] ∧ is4 = [0] := by
      simp only [setCell, if_true, Option.some.injEq, HCell.struct.injEq, List.set_cons_zero] at hc4
      exact ⟨hc4.1.symm, hc4.2.symm⟩
    refine ⟨rfl, rfl, i3.setIs hc4 0 bs.length hl, ?_, fun x hx => (if_neg (Nat.ne_of_lt hx)).trans ((if_neg (Nat.ne_of_lt hx)).trans ((if_neg (Nat.ne_of_lt (Nat.lt_succ_of_lt hx))).trans (if_neg (Nat.ne_of_lt hx))))⟩
    rw [withStr, if_neg hn]
    have n1 := hi.next_ne
    have n2 := i1.next_ne
    have n3 : h.next + 1 ≠ K.B ∧ h.next + 1 ≠ K.A := n2.2
    simp only [conc, memOf, Mem.mk.injEq, and_true, true_and]
    funext x
    simp only [setHeap, Ctx.blocks, setCell]
    by_cases hx : x = h.next
    · subst hx
      simp [n1, enc]
    · by_cases hx1 : x = h.next + 1
      · subst hx1
        simp [n3, enc]
      · simp [hx, hx1]

theorem runs_str (s : OctetString) (h : StrTyped s) : Runs (xStr s) (cStr s) := by
  intro K st hp hi a st' h' hr
  have hl : s.str.length ≤ 2147483647 := h
  rw [cStr, if_neg (by omega)] at hr
  obtain ⟨rfl, rfl, i1, e1, _⟩ := octetInit_conc hi hl hr
  let ms : Mem := { conc K st' hp with stack := (conc K st' hp).stack ++ [.raw ((s.str ++ [0]).map some)] }
  obtain ⟨N, r⟩ := octetInit_run ms hi.next_ne.1 (k := (conc K st' hp).stack.length) (b := (s.str ++ [0]).map some) (bs := s.str) (by simp [ms]) (by simp) hl .i32
  refine ⟨i1, N, fun n hn env => ?_⟩
  have e2 : (newLocal (.raw ((s.str ++ [0]).map some)) >>= fun p => call program n .sml_octet_string_init [p, .int .i32 s.str.length]) (envOf []) (conc K st' hp) =
      .ok (ptrVal hp.next) (envOf []) (withStr ms s.str) := r n hn (envOf [])
  rw [xStr, inFrame]
  simp only [e2, e1]
  congr 1
  simp only [withStr]
  split <;> simp [ms]

theorem runs_strOpt : ∀ s, Opt StrTyped s → Runs (xOpt xStr s) (cOpt cStr s) := runs_opt runs_str

theorem runs_time (t : Time) (h : TimeTyped t) : Runs (xTime t) (cTime t) :=
  runs_struct timeInit_src (.cons (runs_numOpt 1 (by omega) _ h.1) (.cons (runs_numOpt 4 (by omega) _ h.2) .nil))

theorem runs_timeOpt : ∀ t, Opt TimeTyped t → Runs (xOpt xTime t) (cOpt cTime t) := runs_opt runs_time

theorem runs_tagged {f : Fn} {c : HCell} (hf : InitSpec f c) (hx : type ≤ 2147483647) (hp : Runs x p) :
    Runs (xTagged f type x) (malloc c >>= fun a => writeInt a 0 type >>= fun _ => cMembers a 0 [p] >>= fun _ => pure a) := by
  intro K st h hi a st' h' hr
  obtain ⟨b, s1, h1, e1, hr⟩ := P_bind_eq_ok hr
  obtain ⟨_, s2, h2, e2, hr⟩ := P_bind_eq_ok hr
  obtain ⟨_, s3, h3, e3, hr⟩ := P_bind_eq_ok hr
  cases hr
  obtain ⟨i1, _, N1, r1⟩ := hf.run hi trivial e1
  have i2 : Inv K s2 h2 := by
    obtain ⟨_, rfl, ps, is, hc, _, rfl⟩ := writeInt_eq_ok e2
    exact i1.setIs hc _ _ hx
  obtain ⟨i3, N3, r3⟩ := runs_members (.cons hp .nil) i2 e3
  refine ⟨i3, max N1 N3, fun n hn env => ?_⟩
  rw [xTagged, X_bind_ok (r1 n (by omega) env), X_bind_ok (storeInt_cell i1 e2), X_bind_ok (r3 n (by omega) env)]
  rfl

theorem runs_value (v : Value) (h : ValueTyped v) : Runs (xValue v) (cValue v) := by
  obtain ⟨ty, d⟩ := v
  have key : ty ≤ 2147483647 → Runs (xVData ty d) (cVData ty d) → Runs (xValue ⟨ty, d⟩) (cValue ⟨ty, d⟩) := fun ht hd => runs_tagged valueInit_src ht hd
  cases d with
  | bytes p =>
    obtain ⟨ht, hp⟩ := h
    simp only at ht
    exact key (by omega) (runs_strOpt p hp)
  | boolean p =>
    have h : ty = 0x40 := h
    exact key (by omega) (runs_boolOpt p)
  | num p =>
    obtain ⟨k, hk, ht, hp⟩ := h
    simp only [sizes, List.mem_cons, List.not_mem_nil, or_false] at hk
    simp only at ht
    have hty : ty % 16 = k := by omega
    refine key (by omega) ?_
    rw [xVData, cVData, hty]
    exact runs_numOpt k (by omega) p hp

theorem runs_valueOpt : ∀ t, Opt ValueTyped t → Runs (xOpt xValue t) (cOpt cValue t) := runs_opt runs_value

theorem runs_status (v : Status) (h : StatusTyped v) : Runs (xStatus v) (cStatus v) := by
  obtain ⟨k, hk, ht, hp⟩ := h
  simp only [sizes, List.mem_cons, List.not_mem_nil, or_false] at hk
  have hty : v.type % 16 = k := by omega
  have := runs_numOpt k (by omega) v.data hp
  rw [← hty] at this
  exact runs_tagged statusInit_src (by omega) this

theorem runs_statusOpt : ∀ t, Opt StatusTyped t → Runs (xOpt xStatus t) (cOpt cStatus t) := runs_opt runs_status

theorem runs_sequence {P : α → Prop} {x : Option α → Code} {b : Option α → Sml.P Addr} (f : Fn) (h : ∀ v, Opt P v → Runs (x v) (b v)) (q : Sequence α) (hq : SeqTyped P q) :
    Runs (xSequence f x q) (cSequence f b q) := by
  intro K st h0 hi a st' h' hr
  obtain ⟨c, s1, h1, e1, hr⟩ := P_bind_eq_ok hr
  obtain ⟨_, s2, h2, e2, hr⟩ := P_bind_eq_ok hr
  cases hr
  obtain ⟨i1, _, N1, r1⟩ := (sequenceInit_src f).run hi trivial e1
  obtain ⟨i2, N2, r2⟩ := runs_addAll sequenceAdd_src (runsAll_map h q.elems hq.2) i1 e2
  refine ⟨i2, max N1 N2, fun n hn env => ?_⟩
  rw [xSequence, X_bind_ok (r1 n (by omega) env), X_bind_ok (r2 n (by omega) env)]
  rfl

theorem runs_sequenceOpt {P : α → Prop} {x : Option α → Code} {b : Option α → Sml.P Addr} (f : Fn) (h : ∀ v, Opt P v → Runs (x v) (b v)) :
    ∀ q, Opt (SeqTyped P) q → Runs (xOpt (xSequence f x) q) (cOpt (cSequence f b) q) := runs_opt (runs_sequence f h)

theorem runs_treePath (p : TreePath) (hp : PathTyped p) : Runs (xTreePath p) (cTreePath p) := by
  intro K st h0 hi a st' h' hr
  obtain ⟨c, s1, h1, e1, hr⟩ := P_bind_eq_ok hr
  obtain ⟨_, s2, h2, e2, hr⟩ := P_bind_eq_ok hr
  cases hr
  obtain ⟨i1, _, N1, r1⟩ := treePathInit_src.run hi trivial e1
  obtain ⟨i2, N2, r2⟩ := runs_addAll treePathAdd_src (runsAll_map runs_strOpt p.entries hp.2) i1 e2
  refine ⟨i2, max N1 N2, fun n hn env => ?_⟩
  rw [xTreePath, X_bind_ok (r1 n (by omega) env), X_bind_ok (r2 n (by omega) env)]
  rfl

theorem runs_treePathOpt : ∀ p, Opt PathTyped p → Runs (xOpt xTreePath p) (cOpt cTreePath p) := runs_opt runs_treePath

/-! ## Lists -/

theorem runs_entry (e : ListEntry) (h : EntryTyped e) : Runs (xEntry e) (cEntry e) := by
  obtain ⟨h0, h1, h2, h3, h4, h5, h6⟩ := h
  exact runs_struct listInit_src (.cons (runs_strOpt _ h0) <| .cons (runs_statusOpt _ h1) <| .cons (runs_timeOpt _ h2) <| .cons (runs_numOpt 1 (by omega) _ h3) <|
      .cons (runs_numOpt 1 (by omega) _ h4) <| .cons (runs_valueOpt _ h5) <| .cons (runs_strOpt _ h6) .nil)

theorem runs_listFrom : ∀ (es : List ListEntry), (∀ e ∈ es, EntryTyped e) → ∀ {K st h a u st' h'}, Inv K st h → cListFrom a es st h = .ok u st' h' →
    Inv K st' h' ∧ ∃ N, ∀ n, N ≤ n → ∀ env, xListFrom (ptrVal a) es (call program n) env (conc K st h) = .ok () env (conc K st' h')
  | [], _, K, st, h, a, u, st', h', hi, hr => by
    cases hr
    exact ⟨hi, 0, fun _ _ _ => rfl⟩
  | e :: es, he, K, st, h, a, u, st', h', hi, hr => by
    rw [cListFrom] at hr
    obtain ⟨v, s1, h1, e1, hr⟩ := P_bind_eq_ok hr
    obtain ⟨_, s2, h2, e2, hr⟩ := P_bind_eq_ok hr
    obtain ⟨i1, N1, r1⟩ := runs_entry e (he e (by simp)) K st h hi v s1 h1 e1
    obtain ⟨i2, _, N2, r2⟩ := (listAdd_src a v).run i1 trivial e2
    obtain ⟨i3, N3, r3⟩ := runs_listFrom es (fun x hx => he x (by simp [hx])) i2 hr
    refine ⟨i3, max N1 (max N2 N3), fun n hn env => ?_⟩
    rw [xListFrom, X_bind_ok (r1 n (by omega) env), X_bind_ok (r2 n (by omega) env)]
    exact r3 n (by omega) env

theorem runs_list : ∀ es : List ListEntry, (∀ e ∈ es, EntryTyped e) → Runs (xList es) (cList es)
  | [], _ => runs_null
  | e :: es, he => by
    intro K st h hi a st' h' hr
    rw [cList] at hr
    obtain ⟨v, s1, h1, e1, hr⟩ := P_bind_eq_ok hr
    obtain ⟨_, s2, h2, e2, hr⟩ := P_bind_eq_ok hr
    cases hr
    obtain ⟨i1, N1, r1⟩ := runs_entry e (he e (by simp)) K st h hi _ s1 h1 e1
    obtain ⟨i3, N3, r3⟩ := runs_listFrom es (fun x hx => he x (by simp [hx])) i1 e2
    refine ⟨i3, max N1 N3, fun n hn env => ?_⟩
    rw [xList, X_bind_ok (r1 n (by omega) env), X_bind_ok (r3 n (by omega) env)]
    rfl

theorem runs_node (hx : RunsAll xs ps) : Runs (xNode xs) (cStruct (malloc (.struct [0, 0] [])) ps) := by
  intro K st h hi a st' h' hr
  obtain ⟨b, s1, h1, e1, hr⟩ := P_bind_eq_ok hr
  obtain ⟨_, s2, h2, e2, hr⟩ := P_bind_eq_ok hr
  cases hr
  cases e1
  obtain ⟨i2, N2, r2⟩ := runs_members hx (hi.grown (c := .struct [0, 0] []) (by intro n hn; cases hn)) e2
  refine ⟨i2, N2, fun n hn env => ?_⟩
  have e3 : storeRec (ptrVal h.next) [nullPtr, nullPtr] [] env { conc K st h with next := h.next + 1, heap := setHeap (conc K st h).heap h.next (some .fresh) } =
      .ok () env (conc K st (grown h (.struct [0, 0] []))) := by
    rw [← conc_grown hi]
    refine (storeRec_put hi.next_ne.1 setHeap_same).trans ?_
    simp only [setHeap_twice]
    rfl
  have e4 : newHeap .fresh env (conc K st h) = .ok (ptrVal h.next) env { conc K st h with next := h.next + 1, heap := setHeap (conc K st h).heap h.next (some .fresh) } := rfl
  rw [xNode, X_bind_ok e4, X_bind_ok e3, X_bind_ok (r2 n hn env)]
  rfl

theorem runs_objs : ∀ es : List (Option OctetString), (∀ e ∈ es, Opt StrTyped e) → Runs (xObjs es) (cObjs es)
  | [], _ => runs_null
  | e :: es, he => runs_node (.cons (runs_strOpt e (he e (by simp))) (.cons (runs_objs es fun x hx => he x (by simp [hx])) .nil))

/-! ## Structures -/

theorem runs_periodEntry (m : PeriodEntry) (h : PeriodEntryTyped m) : Runs (xPeriodEntry m) (cPeriodEntry m) := by
  obtain ⟨h0, h1, h2, h3, h4⟩ := h
  exact runs_struct periodEntryTreeInit_src (.cons (runs_strOpt _ h0) <|
    .cons (runs_numOpt 1 (by omega) _ h1) <|
    .cons (runs_numOpt 1 (by omega) _ h2) <|
    .cons (runs_valueOpt _ h3) <|
    .cons (runs_strOpt _ h4) .nil)

theorem runs_periodEntryOpt : ∀ m, Opt PeriodEntryTyped m → Runs (xOpt xPeriodEntry m) (cOpt cPeriodEntry m) := runs_opt runs_periodEntry

theorem runs_tupelEntry (m : TupelEntry) (h : TupelEntryTyped m) : Runs (xTupelEntry m) (cTupelEntry m) := by
  obtain ⟨h0, h1, h2, h3, h4, h5, h6, h7, h8, h9, h10, h11, h12, h13, h14, h15, h16, h17, h18, h19, h20, h21, h22⟩ := h
  exact runs_struct tupelEntryInit_src (.cons (runs_strOpt _ h0) <|
    .cons (runs_timeOpt _ h1) <|
    .cons (runs_numOpt 8 (by omega) _ h2) <|
    .cons (runs_numOpt 1 (by omega) _ h3) <|
    .cons (runs_numOpt 1 (by omega) _ h4) <|
    .cons (runs_numOpt 8 (by omega) _ h5) <|
    .cons (runs_numOpt 1 (by omega) _ h6) <|
    .cons (runs_numOpt 1 (by omega) _ h7) <|
    .cons (runs_numOpt 8 (by omega) _ h8) <|
    .cons (runs_numOpt 1 (by omega) _ h9) <|
    .cons (runs_numOpt 1 (by omega) _ h10) <|
    .cons (runs_numOpt 8 (by omega) _ h11) <|
    .cons (runs_strOpt _ h12) <|
    .cons (runs_numOpt 1 (by omega) _ h13) <|
    .cons (runs_numOpt 1 (by omega) _ h14) <|
    .cons (runs_numOpt 8 (by omega) _ h15) <|
    .cons (runs_numOpt 1 (by omega) _ h16) <|
    .cons (runs_numOpt 1 (by omega) _ h17) <|
    .cons (runs_numOpt 8 (by omega) _ h18) <|
    .cons (runs_numOpt 1 (by omega) _ h19) <|
    .cons (runs_numOpt 1 (by omega) _ h20) <|
    .cons (runs_numOpt 8 (by omega) _ h21) <|
    .cons (runs_strOpt _ h22) .nil)

theorem runs_tupelEntryOpt : ∀ m, Opt TupelEntryTyped m → Runs (xOpt xTupelEntry m) (cOpt cTupelEntry m) := runs_opt runs_tupelEntry

theorem runs_ppv (v : ProcParValue) (h : PpvTyped v) : Runs (xPpv v) (cPpv v) := by
  obtain ⟨tag, d⟩ := v
  obtain ⟨ht, hd⟩ := h
  refine runs_struct procParValueInit_src (.cons (runs_numOpt 1 (by omega) tag ht) (.cons ?_ .nil))
  cases d with
  | null => exact runs_null
  | value p => exact runs_valueOpt p hd.2
  | periodEntry p => exact runs_periodEntryOpt p hd.2
  | tupelEntry p => exact runs_tupelEntryOpt p hd.2
  | time p => exact runs_timeOpt p hd.2

theorem runs_ppvOpt : ∀ v, Opt PpvTyped v → Runs (xOpt xPpv v) (cOpt cPpv v) := runs_opt runs_ppv

/-! ## Trees -/

theorem xChildren_eq (t : Val) (Γ : Calls) : ∀ cs : List Tree, xChildren t cs Γ = xAddAll .sml_tree_add_tree t (cs.map xTree) Γ
  | [] => by rw [xChildren]; rfl
  | c :: cs => by rw [xChildren, List.map_cons, xAddAll, xChildren_eq t Γ cs]

theorem runs_tree (t : Tree) (h : TreeTyped t) : Runs (xTree t) (cTree t) := by
  induction h with
  | @mk n v cs hn hv hl _ ih =>
    intro K st h hi a st' h' hr
    rw [cTree] at hr
    obtain ⟨b, s1, h1, e1, hr⟩ := P_bind_eq_ok hr
    obtain ⟨_, s2, h2, e2, hr⟩ := P_bind_eq_ok hr
    obtain ⟨_, s3, h3, e3, hr⟩ := P_bind_eq_ok hr
    cases hr
    rw [cChildren_eq] at e3
    obtain ⟨i1, _, N1, r1⟩ := treeInit_src.run hi trivial e1
    obtain ⟨i2, N2, r2⟩ := runs_members (.cons (runs_strOpt _ hn) <| .cons (runs_ppvOpt _ hv) .nil) i1 e2
    obtain ⟨i3, N3, r3⟩ := runs_addAll treeAdd_src (runsAll_map (P := fun c => c ∈ cs) ih cs fun _ h => h) i2 e3
    refine ⟨i3, max N1 (max N2 N3), fun n hn env => ?_⟩
    rw [xTree, X_bind_ok (r1 n (by omega) env), X_bind_ok (r2 n (by omega) env), xChildren_eq, X_bind_ok (r3 n (by omega) env)]
    rfl

theorem runs_treeOpt : ∀ v, Opt TreeTyped v → Runs (xOpt xTree v) (cOpt cTree v) := runs_opt runs_tree

/-! ## Bodies -/

theorem runs_openRequest (m : OpenRequest) (h : OpenRequestTyped m) : Runs (xOpenRequest m) (cOpenRequest m) := by
  obtain ⟨h0, h1, h2, h3, h4, h5, h6⟩ := h
  exact runs_struct openRequestInit_src (.cons (runs_strOpt _ h0) <|
    .cons (runs_strOpt _ h1) <|
    .cons (runs_strOpt _ h2) <|
    .cons (runs_strOpt _ h3) <|
    .cons (runs_strOpt _ h4) <|
    .cons (runs_strOpt _ h5) <|
    .cons (runs_numOpt 1 (by omega) _ h6) .nil)

theorem runs_openRequestOpt : ∀ m, Opt OpenRequestTyped m → Runs (xOpt xOpenRequest m) (cOpt cOpenRequest m) := runs_opt runs_openRequest

theorem runs_openResponse (m : OpenResponse) (h : OpenResponseTyped m) : Runs (xOpenResponse m) (cOpenResponse m) := by
  obtain ⟨h0, h1, h2, h3, h4, h5⟩ := h
  exact runs_struct openResponseInit_src (.cons (runs_strOpt _ h0) <|
    .cons (runs_strOpt _ h1) <|
    .cons (runs_strOpt _ h2) <|
    .cons (runs_strOpt _ h3) <|
    .cons (runs_timeOpt _ h4) <|
    .cons (runs_numOpt 1 (by omega) _ h5) .nil)

theorem runs_openResponseOpt : ∀ m, Opt OpenResponseTyped m → Runs (xOpt xOpenResponse m) (cOpt cOpenResponse m) := runs_opt runs_openResponse

theorem runs_closeRequest (m : CloseRequest) (h : CloseRequestTyped m) : Runs (xCloseRequest m) (cCloseRequest m) := by
  exact runs_struct closeRequestInit_src (.cons (runs_strOpt _ h) .nil)

theorem runs_closeRequestOpt : ∀ m, Opt CloseRequestTyped m → Runs (xOpt xCloseRequest m) (cOpt cCloseRequest m) := runs_opt runs_closeRequest

theorem runs_closeResponse (m : CloseResponse) (h : CloseResponseTyped m) : Runs (xCloseResponse m) (cCloseResponse m) := by
  exact runs_struct closeResponseInit_src (.cons (runs_strOpt _ h) .nil)

theorem runs_closeResponseOpt : ∀ m, Opt CloseResponseTyped m → Runs (xOpt xCloseResponse m) (cOpt cCloseResponse m) := runs_opt runs_closeResponse

theorem runs_valueEntry (m : ValueEntry) (h : ValueEntryTyped m) : Runs (xValueEntry m) (cValueEntry m) := by
  obtain ⟨h0, h1⟩ := h
  exact runs_struct valueEntryInit_src (.cons (runs_valueOpt _ h0) <|
    .cons (runs_strOpt _ h1) .nil)

theorem runs_valueEntryOpt : ∀ m, Opt ValueEntryTyped m → Runs (xOpt xValueEntry m) (cOpt cValueEntry m) := runs_opt runs_valueEntry

theorem runs_profObjHeaderEntry (m : ProfObjHeaderEntry) (h : ProfObjHeaderEntryTyped m) : Runs (xProfObjHeaderEntry m) (cProfObjHeaderEntry m) := by
  obtain ⟨h0, h1, h2⟩ := h
  exact runs_struct headerEntryInit_src (.cons (runs_strOpt _ h0) <|
    .cons (runs_numOpt 1 (by omega) _ h1) <|
    .cons (runs_numOpt 1 (by omega) _ h2) .nil)

theorem runs_profObjHeaderEntryOpt : ∀ m, Opt ProfObjHeaderEntryTyped m → Runs (xOpt xProfObjHeaderEntry m) (cOpt cProfObjHeaderEntry m) := runs_opt runs_profObjHeaderEntry

theorem runs_profObjPeriodEntry (m : ProfObjPeriodEntry) (h : ProfObjPeriodEntryTyped m) : Runs (xProfObjPeriodEntry m) (cProfObjPeriodEntry m) := by
  obtain ⟨h0, h1, h2, h3⟩ := h
  exact runs_struct profPeriodEntryInit_src (.cons (runs_timeOpt _ h0) <|
    .cons (runs_numOpt 8 (by omega) _ h1) <|
    .cons (runs_sequenceOpt _ runs_valueEntryOpt _ h2) <|
    .cons (runs_strOpt _ h3) .nil)

theorem runs_profObjPeriodEntryOpt : ∀ m, Opt ProfObjPeriodEntryTyped m → Runs (xOpt xProfObjPeriodEntry m) (cOpt cProfObjPeriodEntry m) := runs_opt runs_profObjPeriodEntry

theorem runs_getProfilePackResponse (m : GetProfilePackResponse) (h : GetProfilePackResponseTyped m) : Runs (xGetProfilePackResponse m) (cGetProfilePackResponse m) := by
  obtain ⟨h0, h1, h2, h3, h4, h5, h6, h7⟩ := h
  exact runs_struct packResponseInit_src (.cons (runs_strOpt _ h0) <|
    .cons (runs_timeOpt _ h1) <|
    .cons (runs_numOpt 4 (by omega) _ h2) <|
    .cons (runs_treePathOpt _ h3) <|
    .cons (runs_sequenceOpt _ runs_profObjHeaderEntryOpt _ h4) <|
    .cons (runs_sequenceOpt _ runs_profObjPeriodEntryOpt _ h5) <|
    .cons (runs_strOpt _ h6) <|
    .cons (runs_strOpt _ h7) .nil)

theorem runs_getProfilePackResponseOpt : ∀ m, Opt GetProfilePackResponseTyped m → Runs (xOpt xGetProfilePackResponse m) (cOpt cGetProfilePackResponse m) := runs_opt runs_getProfilePackResponse

theorem runs_getProfileListResponse (m : GetProfileListResponse) (h : GetProfileListResponseTyped m) : Runs (xGetProfileListResponse m) (cGetProfileListResponse m) := by
  obtain ⟨h0, h1, h2, h3, h4, h5, h6, h7, h8⟩ := h
  exact runs_struct listResponseProfileInit_src (.cons (runs_strOpt _ h0) <|
    .cons (runs_timeOpt _ h1) <|
    .cons (runs_numOpt 4 (by omega) _ h2) <|
    .cons (runs_treePathOpt _ h3) <|
    .cons (runs_timeOpt _ h4) <|
    .cons (runs_numOpt 8 (by omega) _ h5) <|
    .cons (runs_sequenceOpt _ runs_periodEntryOpt _ h6) <|
    .cons (runs_strOpt _ h7) <|
    .cons (runs_strOpt _ h8) .nil)

theorem runs_getProfileListResponseOpt : ∀ m, Opt GetProfileListResponseTyped m → Runs (xOpt xGetProfileListResponse m) (cOpt cGetProfileListResponse m) := runs_opt runs_getProfileListResponse

theorem runs_getProcParameterRequest (m : GetProcParameterRequest) (h : GetProcParameterRequestTyped m) : Runs (xGetProcParameterRequest m) (cGetProcParameterRequest m) := by
  obtain ⟨h0, h1, h2, h3, h4⟩ := h
  exact runs_struct procParameterRequestInit_src (.cons (runs_strOpt _ h0) <|
    .cons (runs_strOpt _ h1) <|
    .cons (runs_strOpt _ h2) <|
    .cons (runs_treePathOpt _ h3) <|
    .cons (runs_strOpt _ h4) .nil)

theorem runs_getProcParameterRequestOpt : ∀ m, Opt GetProcParameterRequestTyped m → Runs (xOpt xGetProcParameterRequest m) (cOpt cGetProcParameterRequest m) := runs_opt runs_getProcParameterRequest

theorem runs_getProcParameterResponse (m : GetProcParameterResponse) (h : GetProcParameterResponseTyped m) : Runs (xGetProcParameterResponse m) (cGetProcParameterResponse m) := by
  obtain ⟨h0, h1, h2⟩ := h
  exact runs_struct procParameterResponseInit_src (.cons (runs_strOpt _ h0) <|
    .cons (runs_treePathOpt _ h1) <|
    .cons (runs_treeOpt _ h2) .nil)

theorem runs_getProcParameterResponseOpt : ∀ m, Opt GetProcParameterResponseTyped m → Runs (xOpt xGetProcParameterResponse m) (cOpt cGetProcParameterResponse m) := runs_opt runs_getProcParameterResponse

theorem runs_setProcParameterRequest (m : SetProcParameterRequest) (h : SetProcParameterRequestTyped m) : Runs (xSetProcParameterRequest m) (cSetProcParameterRequest m) := by
  obtain ⟨h0, h1, h2, h3, h4⟩ := h
  exact runs_struct setProcParameterRequestInit_src (.cons (runs_strOpt _ h0) <|
    .cons (runs_strOpt _ h1) <|
    .cons (runs_strOpt _ h2) <|
    .cons (runs_treePathOpt _ h3) <|
    .cons (runs_treeOpt _ h4) .nil)

theorem runs_setProcParameterRequestOpt : ∀ m, Opt SetProcParameterRequestTyped m → Runs (xOpt xSetProcParameterRequest m) (cOpt cSetProcParameterRequest m) := runs_opt runs_setProcParameterRequest

theorem runs_getListRequest (m : GetListRequest) (h : GetListRequestTyped m) : Runs (xGetListRequest m) (cGetListRequest m) := by
  obtain ⟨h0, h1, h2, h3, h4⟩ := h
  exact runs_struct getListRequestInit_src (.cons (runs_strOpt _ h0) <|
    .cons (runs_strOpt _ h1) <|
    .cons (runs_strOpt _ h2) <|
    .cons (runs_strOpt _ h3) <|
    .cons (runs_strOpt _ h4) .nil)

theorem runs_getListRequestOpt : ∀ m, Opt GetListRequestTyped m → Runs (xOpt xGetListRequest m) (cOpt cGetListRequest m) := runs_opt runs_getListRequest

theorem runs_getListResponse (m : GetListResponse) (h : GetListResponseTyped m) : Runs (xGetListResponse m) (cGetListResponse m) := by
  obtain ⟨h0, h1, h2, h3, h4, h5, h6⟩ := h
  exact runs_struct getListResponseInit_src (.cons (runs_strOpt _ h0) <|
    .cons (runs_strOpt _ h1) <|
    .cons (runs_strOpt _ h2) <|
    .cons (runs_timeOpt _ h3) <|
    .cons (runs_list _ h4) <|
    .cons (runs_strOpt _ h5) <|
    .cons (runs_timeOpt _ h6) .nil)

theorem runs_getListResponseOpt : ∀ m, Opt GetListResponseTyped m → Runs (xOpt xGetListResponse m) (cOpt cGetListResponse m) := runs_opt runs_getListResponse

theorem runs_attentionResponse (m : AttentionResponse) (h : AttentionResponseTyped m) : Runs (xAttentionResponse m) (cAttentionResponse m) := by
  obtain ⟨h0, h1, h2, h3⟩ := h
  exact runs_struct attentionResponseInit_src (.cons (runs_strOpt _ h0) <|
    .cons (runs_strOpt _ h1) <|
    .cons (runs_strOpt _ h2) <|
    .cons (runs_treeOpt _ h3) .nil)

theorem runs_attentionResponseOpt : ∀ m, Opt AttentionResponseTyped m → Runs (xOpt xAttentionResponse m) (cOpt cAttentionResponse m) := runs_opt runs_attentionResponse

theorem runs_getProfilePackRequest (m : GetProfilePackRequest) (h : GetProfilePackRequestTyped m) : Runs (xGetProfilePackRequest m) (cGetProfilePackRequest m) := by
  obtain ⟨h0, h1, h2, h4, h5, h6, h7, h8⟩ := h
  exact runs_struct packRequestInit_src (.cons (runs_strOpt _ h0) <|
    .cons (runs_strOpt _ h1) <|
    .cons (runs_strOpt _ h2) <|
    .cons (runs_boolOpt _) <|
    .cons (runs_timeOpt _ h4) <|
    .cons (runs_timeOpt _ h5) <|
    .cons (runs_treePathOpt _ h6) <|
    .cons (runs_objs _ h7) <|
    .cons (runs_treeOpt _ h8) .nil)

theorem runs_getProfilePackRequestOpt : ∀ m, Opt GetProfilePackRequestTyped m → Runs (xOpt xGetProfilePackRequest m) (cOpt cGetProfilePackRequest m) := runs_opt runs_getProfilePackRequest

theorem runs_bodyData (tag : Nat) (d : BodyData) (h : BodyDataTyped tag d) : Runs (xBodyData d) (cBodyData d) := by
  cases d with
  | null => exact runs_null
  | openRequest p => exact runs_openRequestOpt p h.2
  | openResponse p => exact runs_openResponseOpt p h.2
  | closeRequest p => exact runs_closeRequestOpt p h.2
  | closeResponse p => exact runs_closeResponseOpt p h.2
  | getProfilePackRequest p => exact runs_getProfilePackRequestOpt p h.2
  | getProfilePackResponse p => exact runs_getProfilePackResponseOpt p h.2
  | getProfileListRequest p => exact runs_getProfilePackRequestOpt p h.2
  | getProfileListResponse p => exact runs_getProfileListResponseOpt p h.2
  | getProcParameterRequest p => exact runs_getProcParameterRequestOpt p h.2
  | getProcParameterResponse p => exact runs_getProcParameterResponseOpt p h.2
  | setProcParameterRequest p => exact runs_setProcParameterRequestOpt p h.2
  | getListRequest p => exact runs_getListRequestOpt p h.2
  | getListResponse p => exact runs_getListResponseOpt p h.2
  | attentionResponse p => exact runs_attentionResponseOpt p h.2

/-! ## Messages -/

theorem runs_body (b : MessageBody) (h : BodyTyped b) : Runs (xBody b) (cBody b) := by
  obtain ⟨tag, d⟩ := b
  obtain ⟨t, rfl, ht, hd⟩ := h
  intro K st h hi a st' h' hr
  obtain ⟨x, s1, h1, e1, hr⟩ := P_bind_eq_ok hr
  obtain ⟨i1, N1, r1⟩ := runs_bodyData t.val d hd K st h hi x s1 h1 e1
  have hv : t.val < 4294967296 := ht.2
  obtain ⟨N2, r2⟩ := bodyInit_run (conc K s1 h1) i1.next_ne.1 (d := x) hv .u32
  unfold pMessageBodyInit at hr
  obtain ⟨b, s2, h2, e2, hr⟩ := P_bind_eq_ok hr
  cases e2
  obtain ⟨b, s2, h2, e2, hr⟩ := P_bind_eq_ok hr
  cases e2
  obtain ⟨_, s3, h3, e3, hr⟩ := P_bind_eq_ok hr
  cases hr
  have hs : Small (.struct [0, 0] []) := by intro n hn; cases hn
  have i2 := i1.grown (c := .struct [0, 0] []) hs
  have i3 := i2.grown (c := .num (numberInit t.val 4)) trivial
  have hc : (grown (grown h1 (.struct [0, 0] [])) (.num (numberInit t.val 4))).cells h1.next = some (.struct [0, 0] []) := by
    simp [grown, setCell]
  have e4 := store_ok (st := s1) (c' := .struct [h1.next + 1, x] []) i1.next_ne.1 hc
  have e5 := e3.symm.trans e4
  cases e5
  have i4 := i3.setPs hc [h1.next + 1, x]
  refine ⟨i4, max N1 N2, fun n hn env => ?_⟩
  rw [xBody, X_bind_ok (r1 n (by omega) env)]
  refine (r2 n (by omega) env).trans ?_
  have n1 := i1.next_ne
  have n2 : h1.next + 1 ≠ K.B ∧ h1.next + 1 ≠ K.A := i2.next_ne.2
  show XRes.ok _ _ _ = XRes.ok _ _ _
  congr 1
  simp only [conc, memOf, Mem.mk.injEq, and_true, true_and, grown]
  funext y
  simp only [setHeap, Ctx.blocks, setCell]
  by_cases hx : y = h1.next
  · subst hx
    simp [n1, enc]
  · by_cases hx1 : y = h1.next + 1
    · subst hx1
      simp only [if_true, if_neg n2.1, if_neg n2.2, if_neg (show h1.next + 1 ≠ h1.next by omega), enc, numberInit]
      rw [leBytes_mod]
    · simp [hx, hx1]

theorem runs_bodyOpt : ∀ v, Opt BodyTyped v → Runs (xOpt xBody v) (cOpt cBody v) := runs_opt runs_body

/-- Random bytes have been taken. -/
def Ctx.drawn (K : Ctx) (rest : List UInt8) : Ctx := { K with world := { K.world with random := rest } }

theorem Inv.drawn (hi : Inv K st h) (rest : List UInt8) : Inv (K.drawn rest) st h := ⟨hi.good, hi.nB, hi.nA, hi.lB, hi.lA, hi.ints, hi.lo, hi.old⟩

theorem generateUuid_eq (rnd : List UInt8) : pGenerateUuid rnd = pOctetStringInit (uuidOf rnd).str := by
  rw [pGenerateUuid, uuidOf]
  simp only [(uuid_bits _).1, (uuid_bits _).2]
  congr 3
  simp [List.getD_eq_getElem?_getD]

theorem uuidOf_length (h : rnd.length = 16) : (uuidOf rnd).str.length = 16 := by
  simp [uuidOf, h]

theorem messageInit_conc (hi : Inv K st h) (hl : rnd.length = 16) (hw : K.world.random = (uuidOf rnd).str ++ rest) (hr : pMessageInit rnd st h = .ok a st' h') :
    Inv (K.drawn rest) st' h' ∧ CallTo .sml_message_init [] (conc K st h) (ptrVal a) (conc (K.drawn rest) st' h') := by
  have hs : Small (.struct [0, 0, 0, 0, 0] []) := by intro n hn; cases hn
  have hu := uuidOf_length hl
  have hne : (uuidOf rnd).str ≠ [] := fun h => by rw [h] at hu; cases hu
  have hc := messageInit_run (conc K st h) hi.next_ne.1 (bs := (uuidOf rnd).str) (rest := rest) hw hu
  unfold pMessageInit at hr
  obtain ⟨m, s1, h1, e1, hr⟩ := P_bind_eq_ok hr
  cases e1
  obtain ⟨u, s2, h2, e2, hr⟩ := P_bind_eq_ok hr
  obtain ⟨_, s3, h3, e3, hr⟩ := P_bind_eq_ok hr
  cases hr
  rw [generateUuid_eq] at e2
  have i1 := hi.grown hs
  obtain ⟨rfl, rfl, i2, m2, k2⟩ := octetInit_conc i1 (by omega) e2
  obtain ⟨_, rfl, ps, is, hcell, _, rfl⟩ := writePtr_eq_ok e3
  refine ⟨(i2.setPs hcell _).drawn rest, ?_⟩
  rw [k2 h.next (Nat.lt_succ_self _), grown_cell] at hcell
  cases hcell
  have e : conc (K.drawn rest) st' { h2 with cells := setCell h2.cells h.next (some (.struct ([0, 0, 0, 0, 0].set 0 (grown h (.struct [0, 0, 0, 0, 0] [])).next) [])) } =
      { conc K st' { h2 with cells := setCell h2.cells h.next (some (.struct ([0, 0, 0, 0, 0].set 0 (grown h (.struct [0, 0, 0, 0, 0] [])).next) [])) } with
        world := { K.world with random := rest } } := rfl
  have e' := conc_set (st := st') (h := h2) hi.next_ne.2.1 hi.next_ne.2.2 h2.next (.struct ([0, 0, 0, 0, 0].set 0 (grown h (.struct [0, 0, 0, 0, 0] [])).next) [])
  rw [e, ← e']
  rw [show h2.next = (conc K st' h2).next from rfl, m2, withStr, if_neg hne, ← conc_grown hi, hu]
  refine cast (congrArg (CallTo _ _ _ _) ?_) hc
  simp only [Mem.mk.injEq, true_and]
  refine ⟨rfl, ?_, rfl⟩
  rw [show (conc K st' h).next = h.next from rfl, setHeap_comm (a := h.next + 1 + 1) (b := h.next) (by omega), setHeap_comm (a := h.next + 1) (b := h.next) (by omega), setHeap_twice]
  rfl

/-- A message from the client: its id comes from the random bytes. -/
theorem runs_message (d : Draft) (hd : DraftTyped d) (hi : Inv K st h) (hw : K.world.random = (uuidOf d.rnd).str ++ rest) (hr : cMessage d st h = .ok a st' h') :
    Inv (K.drawn rest) st' h' ∧ ∃ N, ∀ n, N ≤ n → ∀ env, xMessage d (call program n) env (conc K st h) = .ok (ptrVal a) env (conc (K.drawn rest) st' h') := by
  obtain ⟨⟨t0, t1, t2, t3, _⟩, hl⟩ := hd
  unfold cMessage at hr
  obtain ⟨m, s1, h1, e1, hr⟩ := P_bind_eq_ok hr
  obtain ⟨_, s2, h2, e2, hr⟩ := P_bind_eq_ok hr
  obtain ⟨_, s3, h3, e3, hr⟩ := P_bind_eq_ok hr
  cases hr
  obtain ⟨i1, N1, r1⟩ := messageInit_conc hi hl hw e1
  have key : Inv (K.drawn rest) s2 h2 ∧ ∃ N, ∀ n, N ≤ n → ∀ env, (if d.keepId then pure () else do
      let _ ← call program n .sml_octet_string_free [← loadPtr (ptrVal a) 0]
      let id ← xOpt xStr d.message.transactionId (call program n)
      storePtr (ptrVal a) 0 id : X Unit) env (conc (K.drawn rest) s1 h1) = .ok () env (conc (K.drawn rest) s2 h2) := by
    by_cases hk : d.keepId = true
    · rw [if_pos hk] at e2
      cases e2
      exact ⟨i1, 0, fun n _ env => by rw [if_pos hk]; rfl⟩
    · rw [if_neg hk] at e2
      obtain ⟨q, s4, h4, e4, e7⟩ := P_bind_eq_ok e2
      obtain ⟨_, s5, h5, e5, e8⟩ := P_bind_eq_ok e7
      obtain ⟨id, s6, h6, e6, e9⟩ := P_bind_eq_ok e8
      have l4 := fun env => loadPtr_cell (env := env) i1 e4
      obtain ⟨_, rfl, rfl, _⟩ := readPtr_eq_ok e4
      obtain ⟨i5, _, N5, r5⟩ := (octetStringFree_src q).run i1 trivial e5
      obtain ⟨i6, N6, r6⟩ := runs_strOpt _ t0 _ _ _ i5 _ _ _ e6
      have i7 : Inv (K.drawn rest) s2 h2 := by
        obtain ⟨_, rfl, ps, is, hc, _, rfl⟩ := writePtr_eq_ok e9
        exact i6.setPs hc _
      refine ⟨i7, max N5 N6, fun n hn env => ?_⟩
      rw [if_neg hk, X_bind_ok (l4 env), X_bind_ok (r5 n (by omega) env), X_bind_ok (r6 n (by omega) env)]
      exact storePtr_cell i6 e9
  obtain ⟨i2, N2, r2⟩ := key
  obtain ⟨i3, N3, r3⟩ := runs_members (.cons (runs_numOpt 1 (by omega) _ t1) <| .cons (runs_numOpt 1 (by omega) _ t2) <| .cons (runs_bodyOpt _ t3) .nil) i2 e3
  refine ⟨i3, max N1 (max N2 N3), fun n hn env => ?_⟩
  rw [xMessage, X_bind_ok (r1 n (by omega) env), X_bind_ok (r2 n (by omega) env), X_bind_ok (r3 n (by omega) env)]
  rfl

theorem runs_messages : ∀ (ds : List Draft), (∀ d ∈ ds, DraftTyped d) → ∀ {K st h rest a u st' h'}, Inv K st h → K.world.random = ids ds ++ rest →
    cAddAll pFileAddMessage a (ds.map cMessage) st h = .ok u st' h' →
    Inv (K.drawn rest) st' h' ∧ ∃ N, ∀ n, N ≤ n → ∀ env, xAddAll .sml_file_add_message (ptrVal a) (ds.map xMessage) (call program n) env (conc K st h) = .ok () env (conc (K.drawn rest) st' h')
  | [], _, K, st, h, rest, a, u, st', h', hi, hw, hr => by
    cases hr
    have : K.drawn rest = K := by
      rw [Ctx.drawn, ← show K.world.random = rest from hw]
    rw [this]
    exact ⟨hi, 0, fun _ _ _ => rfl⟩
  | d :: ds, hd, K, st, h, rest, a, u, st', h', hi, hw, hr => by
    rw [List.map_cons, cAddAll] at hr
    obtain ⟨v, s1, h1, e1, hr⟩ := P_bind_eq_ok hr
    obtain ⟨_, s2, h2, e2, hr⟩ := P_bind_eq_ok hr
    obtain ⟨i1, N1, r1⟩ := runs_message d (hd d (by simp)) hi (rest := ids ds ++ rest) (by rw [hw, ids, List.map_cons, List.flatten_cons, List.append_assoc]; rfl) e1
    obtain ⟨i2, _, N2, r2⟩ := (fileAdd_src a v).run i1 trivial e2
    obtain ⟨i3, N3, r3⟩ := runs_messages ds (fun x hx => hd x (by simp [hx])) i2 (rest := rest) rfl hr
    refine ⟨i3, max N1 (max N2 N3), fun n hn env => ?_⟩
    rw [List.map_cons, xAddAll, X_bind_ok (r1 n (by omega) env), X_bind_ok (r2 n (by omega) env)]
    exact r3 n (by omega) env

end Sml.C
