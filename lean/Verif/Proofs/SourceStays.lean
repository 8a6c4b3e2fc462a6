import Verif.Proofs.SourceMono
import Verif.Source.Program

/-!
# Steps that ask for no memory

Except for `malloc` and `realloc` no step of the C source gives out an address or brings a block into being.
-/

namespace Sml.C

/-- There is nothing at the addresses that were not given out yet. -/
structure Tidy (m : Mem) : Prop where
  pos : 0 < m.next
  none : ∀ a, m.next ≤ a → m.heap a = none

/-- No address is given out and no block comes into being. -/
structure Stays (x : X α) : Prop where
  run : ∀ env m a env' m', x env m = .ok a env' m' → m'.next = m.next ∧ ∀ c, m.heap c = none → m'.heap c = none

/-- The same, if the block at a place is live. -/
structure StaysAt (l : Loc) (x : X α) : Prop where
  run : ∀ env m a env' m' b e, getBlock l e m = .ok b e m → x env m = .ok a env' m' → m'.next = m.next ∧ ∀ c, m.heap c = none → m'.heap c = none

theorem Stays.same {x : X α} (h : ∀ env m a env' m', x env m = .ok a env' m' → m'.next = m.next ∧ m'.heap = m.heap) : Stays x :=
  ⟨fun env m a env' m' e => ⟨(h _ _ _ _ _ e).1, fun c hc => by rw [(h _ _ _ _ _ e).2]; exact hc⟩⟩

theorem Stays.pure (a : α) : Stays (Pure.pure a : X α) := .same fun _ _ _ _ _ e => by cases e; exact ⟨rfl, rfl⟩

theorem Stays.bad (b : Bad) : Stays (C.bad b : X α) := ⟨fun _ _ _ _ _ e => by cases e⟩

theorem Stays.bind {x : X α} {f : α → X β} (h : Stays x) (hf : ∀ a, Stays (f a)) : Stays (x >>= f) := by
  refine ⟨fun env m b env' m' e => ?_⟩
  obtain ⟨a, e1, m1, h1, h2⟩ := X_bind_eq_ok e
  obtain ⟨n1, k1⟩ := h.run _ _ _ _ _ h1
  obtain ⟨n2, k2⟩ := (hf _).run _ _ _ _ _ h2
  exact ⟨n2.trans n1, fun c hc => k2 c (k1 c hc)⟩

theorem getBlock_same (h : getBlock l env m = .ok b env' m') : env' = env ∧ m' = m ∧ ∀ e, getBlock l e m = .ok b e m := by
  unfold getBlock at h ⊢
  cases l with
  | heap a =>
    simp only at h ⊢
    split at h
    · cases h
    · next h0 =>
      split at h
      · next hb => cases h; exact ⟨rfl, rfl, fun e => if_neg h0⟩
      · cases h
  | stack k =>
    simp only at h ⊢
    split at h
    · next hb => cases h; exact ⟨rfl, rfl, fun e => rfl⟩
    · cases h

theorem Stays.block {f : Block → X β} (hf : ∀ b, StaysAt l (f b)) : Stays (getBlock l >>= f) := by
  refine ⟨fun env m b env' m' e => ?_⟩
  obtain ⟨a, e1, m1, h1, h2⟩ := X_bind_eq_ok e
  obtain ⟨rfl, rfl, hb⟩ := getBlock_same h1
  exact (hf _).run _ _ _ _ _ _ _ (hb (fun _ => .undef)) h2

theorem StaysAt.of {x : X α} (h : Stays x) : StaysAt l x := ⟨fun _ _ _ _ _ _ _ _ e => h.run _ _ _ _ _ e⟩

theorem StaysAt.set (b : Block) : StaysAt l (setBlock l b) := by
  refine ⟨fun env m a env' m' b' e hl h => ?_⟩
  unfold setBlock at h
  cases l with
  | stack k => cases h; exact ⟨rfl, fun _ hc => hc⟩
  | heap x =>
    cases h
    refine ⟨rfl, fun c hc => ?_⟩
    unfold getBlock at hl
    simp only at hl
    split at hl
    · cases hl
    · by_cases hx : c = x
      · subst hx
        rw [hc] at hl
        cases hl
      · exact (if_neg hx).trans hc

syntax "stays1" : tactic
macro_rules | `(tactic| stays1) => `(tactic| fail)
macro "stays" : tactic => `(tactic| repeat' (first | exact Stays.pure _ | exact Stays.bad _ | assumption | stays1 | exact StaysAt.set _ | apply Stays.block | apply Stays.bind | split | intro _ | apply StaysAt.of))

/-- A step that looks at memory and variables, or changes something else. -/
macro "stays_direct" : tactic => `(tactic| (refine Stays.same fun env m a env' m' e => ?_; (repeat' split at e) <;> first | (cases e; exact ⟨rfl, rfl⟩) | cases e))

theorem stays_getBlock : Stays (getBlock l) := .same fun _ _ _ _ _ e => by obtain ⟨_, rfl, _⟩ := getBlock_same e; exact ⟨rfl, rfl⟩
macro_rules | `(tactic| stays1) => `(tactic| exact stays_getBlock)
theorem stays_note : Stays (note b) := by unfold note; stays_direct
macro_rules | `(tactic| stays1) => `(tactic| exact stays_note)
theorem stays_getVar : Stays (getVar x) := by unfold getVar; stays_direct
macro_rules | `(tactic| stays1) => `(tactic| exact stays_getVar)
theorem stays_setVar : Stays (setVar x v) := by unfold setVar; stays_direct
macro_rules | `(tactic| stays1) => `(tactic| exact stays_setVar)
theorem stays_newLocal : Stays (newLocal b) := by unfold newLocal; stays_direct
macro_rules | `(tactic| stays1) => `(tactic| exact stays_newLocal)
theorem stays_asInt : Stays (asInt v) := by unfold asInt; stays
macro_rules | `(tactic| stays1) => `(tactic| exact stays_asInt)
theorem stays_asPtr : Stays (asPtr v) := by unfold asPtr; stays
macro_rules | `(tactic| stays1) => `(tactic| exact stays_asPtr)
theorem stays_asNat : Stays (asNat v) := by unfold asNat; stays
macro_rules | `(tactic| stays1) => `(tactic| exact stays_asNat)
theorem stays_truth : Stays (truth v) := by unfold truth; stays
macro_rules | `(tactic| stays1) => `(tactic| exact stays_truth)
theorem stays_convTo : Stays (convTo t v) := by unfold convTo; stays
macro_rules | `(tactic| stays1) => `(tactic| exact stays_convTo)
theorem stays_arith : Stays (arith t n) := by unfold arith; stays
macro_rules | `(tactic| stays1) => `(tactic| exact stays_arith)
theorem stays_intOp : Stays (intOp op ta a tb b) := by unfold intOp; simp only; stays
macro_rules | `(tactic| stays1) => `(tactic| exact stays_intOp)
theorem stays_binOp : Stays (binOp op a b) := by unfold binOp; stays
macro_rules | `(tactic| stays1) => `(tactic| exact stays_binOp)
theorem stays_loadPtr : Stays (loadPtr p j) := by unfold loadPtr; stays
macro_rules | `(tactic| stays1) => `(tactic| exact stays_loadPtr)
theorem stays_storePtr : Stays (storePtr p j v) := by unfold storePtr; stays
macro_rules | `(tactic| stays1) => `(tactic| exact stays_storePtr)
theorem stays_loadInt : Stays (loadInt p j) := by unfold loadInt; stays
macro_rules | `(tactic| stays1) => `(tactic| exact stays_loadInt)
theorem stays_storeInt : Stays (storeInt p j n) := by unfold storeInt; stays
macro_rules | `(tactic| stays1) => `(tactic| exact stays_storeInt)
theorem stays_loadBytes : Stays (loadBytes p n) := by unfold loadBytes; stays
macro_rules | `(tactic| stays1) => `(tactic| exact stays_loadBytes)
theorem stays_storeBytes : Stays (storeBytes p cs) := by unfold storeBytes; stays
macro_rules | `(tactic| stays1) => `(tactic| exact stays_storeBytes)
theorem stays_loadNum : Stays (loadNum t p) := by unfold loadNum; stays
macro_rules | `(tactic| stays1) => `(tactic| exact stays_loadNum)
theorem stays_storeNum : Stays (storeNum t p n) := stays_storeBytes
macro_rules | `(tactic| stays1) => `(tactic| exact stays_storeNum)
theorem stays_offset : Stays (offset p k) := by unfold offset; stays
macro_rules | `(tactic| stays1) => `(tactic| exact stays_offset)
theorem stays_release : Stays (release a i) := by
  refine ⟨fun env m u env' m' e => ?_⟩
  unfold release at e
  split at e
  · split at e
    · cases e
      refine ⟨rfl, fun c hc => ?_⟩
      show (if c = a then none else m.heap c) = none
      split
      · rfl
      · exact hc
    · cases e
  · cases e
macro_rules | `(tactic| stays1) => `(tactic| exact stays_release)
theorem stays_freeBlock : Stays (freeBlock p) := by unfold freeBlock; stays
macro_rules | `(tactic| stays1) => `(tactic| exact stays_freeBlock)
theorem stays_movedElems : Stays (movedElems a i) := by unfold movedElems; stays_direct
macro_rules | `(tactic| stays1) => `(tactic| exact stays_movedElems)
theorem stays_target : Stays (target p) := by unfold target; stays
macro_rules | `(tactic| stays1) => `(tactic| exact stays_target)
theorem stays_fnOf : Stays (fnOf n) := by unfold fnOf; stays
macro_rules | `(tactic| stays1) => `(tactic| exact stays_fnOf)
theorem stays_tabAt : Stays (tabAt t vs i) := by unfold tabAt; stays
macro_rules | `(tactic| stays1) => `(tactic| exact stays_tabAt)
theorem stays_tabBytes : Stays (tabBytes vs k) := by unfold tabBytes; stays
macro_rules | `(tactic| stays1) => `(tactic| exact stays_tabBytes)
theorem stays_lengthOf : Stays (lengthOf p) := by unfold lengthOf; stays
macro_rules | `(tactic| stays1) => `(tactic| exact stays_lengthOf)
theorem stays_memberAddr : Stays (memberAddr p j) := by unfold memberAddr; stays
macro_rules | `(tactic| stays1) => `(tactic| exact stays_memberAddr)
theorem stays_storeRec : Stays (storeRec p vs ns) := by unfold storeRec; stays
macro_rules | `(tactic| stays1) => `(tactic| exact stays_storeRec)
theorem stays_newArray : Stays (newArray k) := by unfold newArray; stays
macro_rules | `(tactic| stays1) => `(tactic| exact stays_newArray)
theorem stays_loadSet : Stays (loadSet p) := by unfold loadSet; stays
macro_rules | `(tactic| stays1) => `(tactic| exact stays_loadSet)
theorem stays_fdMember : Stays (fdMember d p) := by unfold fdMember; stays
macro_rules | `(tactic| stays1) => `(tactic| exact stays_fdMember)
theorem stays_fdInsert : Stays (fdInsert d p) := by unfold fdInsert; stays
macro_rules | `(tactic| stays1) => `(tactic| exact stays_fdInsert)
theorem stays_waitFor : Stays (waitFor n ss) := by unfold waitFor; stays_direct
macro_rules | `(tactic| stays1) => `(tactic| exact stays_waitFor)
theorem stays_selectOn : Stays (selectOn n p) := by unfold selectOn; stays
macro_rules | `(tactic| stays1) => `(tactic| exact stays_selectOn)
theorem stays_deliver : Stays (deliver d n) := by unfold deliver; stays_direct
macro_rules | `(tactic| stays1) => `(tactic| exact stays_deliver)
theorem stays_readInto : Stays (readInto d p n) := by unfold readInto; stays
macro_rules | `(tactic| stays1) => `(tactic| exact stays_readInto)
theorem stays_writeOut : Stays (writeOut d bs) := by unfold writeOut; stays_direct
macro_rules | `(tactic| stays1) => `(tactic| exact stays_writeOut)
theorem stays_getErrno : Stays getErrno := by unfold getErrno; stays_direct
macro_rules | `(tactic| stays1) => `(tactic| exact stays_getErrno)
theorem stays_takeUuid : Stays takeUuid := by unfold takeUuid; stays_direct
macro_rules | `(tactic| stays1) => `(tactic| exact stays_takeUuid)
theorem stays_uuidInto : Stays (uuidInto p) := by unfold uuidInto; stays
macro_rules | `(tactic| stays1) => `(tactic| exact stays_uuidInto)
theorem stays_textOf : Stays (textOf p) := by unfold textOf; stays
macro_rules | `(tactic| stays1) => `(tactic| exact stays_textOf)
theorem stays_fixedOf : Stays (fixedOf p v) := by unfold fixedOf; stays
macro_rules | `(tactic| stays1) => `(tactic| exact stays_fixedOf)
theorem stays_convert : Stays (convert q v) := by unfold convert; stays
macro_rules | `(tactic| stays1) => `(tactic| exact stays_convert)
theorem stays_render : (qs : List Piece) → (vs : List Val) → Stays (render qs vs) := by
  intro qs vs
  fun_induction render qs vs <;> stays
macro_rules | `(tactic| stays1) => `(tactic| exact stays_render _ _)
theorem stays_say : Stays (say bs) := by unfold say; stays_direct
macro_rules | `(tactic| stays1) => `(tactic| exact stays_say)
theorem stays_leave : Stays (leave n : X α) := by unfold leave; stays_direct
macro_rules | `(tactic| stays1) => `(tactic| exact stays_leave)
theorem stays_getFlag : Stays (getFlag i) := by unfold getFlag; stays_direct
macro_rules | `(tactic| stays1) => `(tactic| exact stays_getFlag)
theorem stays_powTen : Stays (powTen n) := by unfold powTen; stays_direct
macro_rules | `(tactic| stays1) => `(tactic| exact stays_powTen)
theorem stays_asDbl : Stays (asDbl v) := by unfold asDbl; stays
macro_rules | `(tactic| stays1) => `(tactic| exact stays_asDbl)
theorem stays_strAt : Stays (strAt ss i) := by unfold strAt; stays
macro_rules | `(tactic| stays1) => `(tactic| exact stays_strAt)
theorem stays_argAt : Stays (argAt v i) := by unfold argAt; stays
macro_rules | `(tactic| stays1) => `(tactic| exact stays_argAt)
theorem stays_setGlobal : Stays (setGlobal i n) := by unfold setGlobal; stays_direct
macro_rules | `(tactic| stays1) => `(tactic| exact stays_setGlobal)
theorem stays_setOpt : Stays (setOpt ind pos) := by unfold setOpt; stays_direct
macro_rules | `(tactic| stays1) => `(tactic| exact stays_setOpt)
theorem stays_optLetter : Stays (optLetter opts ind arg pos) := by unfold optLetter; stays
macro_rules | `(tactic| stays1) => `(tactic| exact stays_optLetter)
theorem stays_optNext : Stays (optNext opts ind pos arg) := by unfold optNext; stays
macro_rules | `(tactic| stays1) => `(tactic| exact stays_optNext)
theorem stays_getOption : Stays (getOption argc argv opts) := by
  refine ⟨fun env m a env' m' e => ?_⟩
  unfold getOption at e
  split at e
  · cases e; exact ⟨rfl, fun _ h => h⟩
  · exact (Stays.bind stays_argAt fun _ => stays_optNext).run _ _ _ _ _ e
macro_rules | `(tactic| stays1) => `(tactic| exact stays_getOption)
theorem stays_openAs : Stays (openAs name fl) := by unfold openAs; stays_direct
macro_rules | `(tactic| stays1) => `(tactic| exact stays_openAs)
theorem stays_lineOf : Stays (lineOf d) := by unfold lineOf; stays_direct
macro_rules | `(tactic| stays1) => `(tactic| exact stays_lineOf)
theorem stays_setModem : Stays (setModem b) := by unfold setModem; stays_direct
macro_rules | `(tactic| stays1) => `(tactic| exact stays_setModem)
theorem stays_setTerm : Stays (setTerm t) := by unfold setTerm; stays_direct
macro_rules | `(tactic| stays1) => `(tactic| exact stays_setTerm)
theorem stays_getModemInto : Stays (getModemInto d p) := by unfold getModemInto; stays
macro_rules | `(tactic| stays1) => `(tactic| exact stays_getModemInto)
theorem stays_setModemFrom : Stays (setModemFrom d p) := by unfold setModemFrom; stays
macro_rules | `(tactic| stays1) => `(tactic| exact stays_setModemFrom)
theorem stays_getTermInto : Stays (getTermInto d p) := by unfold getTermInto; stays
macro_rules | `(tactic| stays1) => `(tactic| exact stays_getTermInto)
theorem stays_setTermFrom : Stays (setTermFrom d p) := by unfold setTermFrom; stays
macro_rules | `(tactic| stays1) => `(tactic| exact stays_setTermFrom)
theorem stays_speedInto : Stays (speedInto p v) := by unfold speedInto; stays
macro_rules | `(tactic| stays1) => `(tactic| exact stays_speedInto)
theorem stays_closeFile : Stays (closeFile d) := by unfold closeFile; stays_direct
macro_rules | `(tactic| stays1) => `(tactic| exact stays_closeFile)
theorem stays_memberVal : Stays (memberVal t v) := by unfold memberVal; stays
macro_rules | `(tactic| stays1) => `(tactic| exact stays_memberVal)
theorem stays_resultOf : Stays (resultOf t v) := by unfold resultOf; stays
macro_rules | `(tactic| stays1) => `(tactic| exact stays_resultOf)
theorem stays_bindArgs : (ts : List (Option ITy)) → (vs : List Val) → Stays (bindArgs ts vs) := by
  intro ts vs
  fun_induction bindArgs ts vs <;> stays

macro_rules | `(tactic| stays1) => `(tactic| exact stays_bindArgs _ _)

end Sml.C
