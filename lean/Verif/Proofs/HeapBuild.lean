import Verif.Proofs.HeapFile
import Verif.Spec.Client

/-! # What the client builds: parts -/

namespace Sml

open Spec

/-- `p` makes an object that is represented by `r` in `c` new blocks and leaves everything else alone. -/
def Builds (p : P Addr) (r : Rep) (c : Nat) : Prop :=
  ∀ st n0 c0 h L, Own n0 c0 h L → ∃ a h' B, p st h = .ok a st h' ∧ r a B ∧ Own n0 c0 h' (B ++ L) ∧ B.length = c

theorem Builds.congr {r : Rep} (h : Builds p r c) (hc : c = c') : Builds p r c' := hc ▸ h

theorem malloc_ok : malloc c st h = .ok h.next st ⟨h.next + 1, setCell h.cells h.next (some c)⟩ := rfl

theorem builds_null : Builds (pure 0) nullRep 0 := fun _ _ _ h _ o => ⟨0, h, [], rfl, ⟨rfl, rfl⟩, o, rfl⟩

theorem builds_malloc {r : Rep} (hr : ∀ a, r a [(a, c)]) : Builds (malloc c) r 1 := fun _ _ _ h _ o =>
  ⟨h.next, _, [(h.next, c)], rfl, hr _, o.alloc c, rfl⟩

theorem builds_opt {P : α → Prop} {r : α → Rep} {c : Option α → Nat} (h0 : c none = 0)
    (h : ∀ v, P v → Builds (b v) (r v) (c (some v))) : ∀ o, Opt P o → Builds (cOpt b o) (repOpt r o) (c o)
  | none, _ => h0 ▸ builds_null
  | some v, ho => h v (ho v rfl)

/-- Parts of a structure, with the number of blocks of each. -/
inductive BuildsAll : List (P Addr) → List Rep → Nat → Prop
  | nil : BuildsAll [] [] 0
  | cons : Builds p r c → BuildsAll ps rs n → BuildsAll (p :: ps) (r :: rs) (c + n)

theorem BuildsAll.length (h : BuildsAll ps rs n) : rs.length = ps.length := by
  induction h with
  | nil => rfl
  | cons _ _ ih => rw [List.length_cons, List.length_cons, ih]

theorem members_ok {ps : List (P Addr)} {rs : List Rep} {n : Nat} (hb : BuildsAll ps rs n) :
    ∀ {qs zs ts is a st n0 c0 h L}, zs.length = ps.length → Own n0 c0 h ((a, .struct (qs ++ (zs ++ ts)) is) :: L) →
    ∃ xs h' B, cMembers a qs.length ps st h = .ok () st h' ∧ Fields rs xs B ∧
      Own n0 c0 h' ((a, .struct (qs ++ (xs ++ ts)) is) :: (B ++ L)) ∧ B.length = n := by
  induction hb with
  | nil =>
    intro qs zs ts is a st n0 c0 h L hz o
    rw [List.length_nil, List.length_eq_zero_iff] at hz
    subst hz
    exact ⟨[], h, [], rfl, ⟨rfl, rfl⟩, o, rfl⟩
  | @cons p r c ps rs n hp _ ih =>
    intro qs zs ts is a st n0 c0 h L hz o
    cases zs with
    | nil => cases hz
    | cons z zs =>
      obtain ⟨x, h1, B1, e1, hr, o1, l1⟩ := hp st n0 c0 h _ o
      have o2 := o1.perm List.perm_middle
      have o3 := o2.update (.struct ((qs ++ (z :: zs ++ ts)).set qs.length x) is)
      have hs : (qs ++ (z :: zs ++ ts)).set qs.length x = (qs ++ [x]) ++ (zs ++ ts) := by simp
      have e2 := writePtr_ok (v := x) (i := qs.length) (st := st) o2.ne0 o2.cell (by simp)
      rw [hs] at o3 e2
      obtain ⟨xs, h2, B2, e3, hF, o4, l2⟩ := ih (by simpa using hz) o3
      refine ⟨x :: xs, h2, B1 ++ B2, ?_, ⟨x, xs, B1, B2, rfl, hr, hF, rfl⟩, o4.perm ?_, ?_⟩
      · rw [cMembers, P.bind_ok e1, P.bind_ok e2]
        rw [List.length_append] at e3
        exact e3
      · simp only [List.append_assoc, List.cons_append, List.nil_append]
        refine List.Perm.cons _ ?_
        rw [← List.append_assoc, ← List.append_assoc]
        exact List.perm_append_comm.append_right L
      · rw [List.length_append, l1, l2]

theorem builds_struct {ps : List (P Addr)} {rs : List Rep} (zs : List Nat) (hb : BuildsAll ps rs n) (hz : zs.length = ps.length) :
    Builds (cStruct (malloc (.struct zs is)) ps) (Rec rs is) (n + 1) := by
  intro st n0 c0 h L o
  obtain ⟨xs, h1, B, e, hF, o1, l⟩ := members_ok (qs := []) (ts := []) (st := st) hb hz
    (by rw [List.append_nil]; exact o.alloc (.struct zs is))
  rw [List.append_nil] at o1
  refine ⟨h.next, h1, (h.next, .struct xs is) :: B, ?_, ⟨xs, B, hF, rfl⟩, o1, by rw [List.length_cons, l]⟩
  rw [cStruct, P.bind_ok malloc_ok]
  exact (P.bind_ok e).trans rfl

/-! ## Parts -/

theorem builds_num (k : Nat) (n : Num) (h : NumTyped k n) : Builds (cNum k n) (RNum n) (numberFreed (some n)) := by
  refine builds_malloc fun a => ?_
  obtain ⟨rfl, hv⟩ := h
  rw [numberInit, Nat.mod_eq_of_lt hv]
  rfl

theorem builds_numOpt (k : Nat) : ∀ n, Opt (NumTyped k) n → Builds (cOpt (cNum k) n) (repOpt RNum n) (numberFreed n) :=
  builds_opt rfl (builds_num k)

theorem builds_bool (b : UInt8) : Builds (pBooleanInit b) (RBool b) (booleanFreed (some b)) := builds_malloc fun _ => rfl

theorem builds_boolOpt : ∀ b, Builds (cOpt pBooleanInit b) (repOpt RBool b) (booleanFreed b)
  | none => builds_null
  | some b => builds_bool b

theorem builds_octetString (s : OctetString) :
    Builds (pOctetStringInit s.str) (RStr s) (octetStringFreed (some s)) := by
  intro st n0 c0 h L o
  have o1 := o.alloc (.struct [0] [0])
  by_cases hs : s.str = []
  · refine ⟨h.next, _, [(h.next, .struct [0] [0])], ?_, ⟨[0], [], Fields.single ?_, ?_⟩, o1, ?_⟩
    · rw [pOctetStringInit, hs]
      rfl
    · rw [RData, if_pos hs]
      exact ⟨rfl, rfl⟩
    · rw [hs]
      rfl
    · simp [octetStringFreed, hs]
  · have o2 := (o1.alloc (.bytes s.str)).perm (List.Perm.swap _ _ _)
    have o3 := o2.update (.struct [h.next + 1] [0])
    have o4 := o3.update (.struct [h.next + 1] [s.str.length])
    refine ⟨h.next, _, [(h.next, .struct [h.next + 1] [s.str.length]), (h.next + 1, .bytes s.str)], ?_,
      ⟨[h.next + 1], _, Fields.single ?_, rfl⟩, o4, ?_⟩
    · rw [pOctetStringInit, P.bind_ok malloc_ok, if_pos (List.length_pos_iff.mpr hs), P.bind_ok malloc_ok,
        P.bind_ok (writePtr_ok o2.ne0 o2.cell (by simp))]
      exact (P.bind_ok (writeInt_ok o3.ne0 o3.cell (by simp))).trans rfl
    · rw [RData, if_neg hs]
    · simp [octetStringFreed, hs]

theorem builds_str (s : OctetString) (h : StrTyped s) : Builds (cStr s) (RStr s) (octetStringFreed (some s)) := by
  rw [cStr, if_neg (by rw [StrTyped] at h; omega)]
  exact builds_octetString s

theorem builds_strOpt : ∀ s, Opt StrTyped s → Builds (cOpt cStr s) (repOpt RStr s) (octetStringFreed s) :=
  builds_opt rfl builds_str

theorem builds_time (t : Time) (h : TimeTyped t) : Builds (cTime t) (RTime t) (timeFreed (some t)) := by
  refine (builds_struct [0, 0] (.cons (builds_numOpt 1 _ h.1) (.cons (builds_numOpt 4 _ h.2) .nil)) rfl).congr ?_
  rw [timeFreed]
  omega

theorem builds_timeOpt : ∀ t, Opt TimeTyped t → Builds (cOpt cTime t) (repOpt RTime t) (timeFreed t) :=
  builds_opt rfl builds_time

/-- A structure with one pointer and one integer member, which is set first. -/
theorem builds_tagged {r : Rep} (z : Nat) (hp : Builds p r c) :
    Builds (malloc (.struct [0] [z]) >>= fun a => writeInt a 0 x >>= fun _ => cMembers a 0 [p] >>= fun _ => pure a)
      (Rec [r] [x]) (c + 1) := by
  intro st n0 c0 h L o
  have o1 := o.alloc (.struct [0] [z])
  have o2 := o1.update (.struct [0] [x])
  obtain ⟨xs, h1, B, e, hF, o3, l⟩ := members_ok (qs := []) (zs := [0]) (ts := []) (st := st) (.cons hp .nil) rfl o2
  rw [List.append_nil] at o3
  refine ⟨h.next, h1, _ :: B, ?_, ⟨xs, B, hF, rfl⟩, o3, by rw [List.length_cons, l]⟩
  rw [P.bind_ok malloc_ok, P.bind_ok (writeInt_ok o1.ne0 o1.cell (by simp))]
  exact (P.bind_ok e).trans rfl

theorem builds_value (v : Value) (h : ValueTyped v) : Builds (cValue v) (RValue v) (valueFreed (some v)) := by
  obtain ⟨ty, d⟩ := v
  have key : ∀ c, Builds (cVData ty d) (RVData d) c → (ty = tyOctet → ∃ p, d = .bytes p) →
      c + 1 = valueFreed (some ⟨ty, d⟩) → Builds (cValue ⟨ty, d⟩) (RValue ⟨ty, d⟩) (valueFreed (some ⟨ty, d⟩)) := by
    intro c hb ht hc st n0 c0 h L o
    obtain ⟨a, h', B, e, hr, o', l⟩ := (builds_tagged (x := ty) tyOctet hb) st n0 c0 h L o
    exact ⟨a, h', B, e, ⟨ht, hr⟩, o', l.trans hc⟩
  cases d with
  | bytes p =>
    obtain ⟨rfl, hp⟩ := h
    exact key _ (builds_strOpt p hp) (fun _ => ⟨p, rfl⟩) rfl
  | boolean p =>
    have h : ty = 0x40 := h
    subst h
    exact key _ (builds_boolOpt p) (fun h => absurd h (by decide)) (by cases p <;> rfl)
  | num p =>
    obtain ⟨k, hk, ht, hp⟩ := h
    have hty : ty % 16 = k := by
      simp only [sizes, List.mem_cons, List.not_mem_nil, or_false] at hk
      simp only at ht
      omega
    have hne : ty ≠ tyOctet := by
      simp only [sizes, List.mem_cons, List.not_mem_nil, or_false] at hk
      simp only [tyOctet] at ht ⊢
      omega
    refine key (numberFreed p) ?_ (fun h => absurd h hne) ?_
    · rw [cVData, hty]
      exact builds_numOpt k p hp
    · rw [valueFreed]
      simp only [if_neg hne]
      cases p <;> rfl

theorem builds_valueOpt : ∀ t, Opt ValueTyped t → Builds (cOpt cValue t) (repOpt RValue t) (valueFreed t) :=
  builds_opt rfl builds_value

theorem builds_status (v : Status) (h : StatusTyped v) : Builds (cStatus v) (RStatus v) (statusFreed (some v)) := by
  obtain ⟨k, hk, ht, hp⟩ := h
  have hty : v.type % 16 = k := by
    simp only [sizes, List.mem_cons, List.not_mem_nil, or_false] at hk
    omega
  have := builds_numOpt k v.data hp
  rw [← hty] at this
  exact builds_tagged tyUnsigned this

theorem builds_statusOpt : ∀ t, Opt StatusTyped t → Builds (cOpt cStatus t) (repOpt RStatus t) (statusFreed t) :=
  builds_opt rfl builds_status

/-! ## Arrays -/

/-- `pArrayAdd` on a heap with all blocks named. -/
theorem arrayAdd_ok {rs es : List Rep} {r : Rep} (hr : Rec rs (es.length :: is) s B0) (hi : rs[i]? = some (RArr es)) (he : r e Be)
    (hmax : es.length < 2147483647)
    (o : Own n0 c0 h (Be ++ (B0 ++ L))) :
    ∃ h' B, pArrayAdd s i e st h = .ok () st h' ∧ Rec (rs.set i (RArr (es ++ [r]))) ((es.length + 1) :: is) s B ∧
      Own n0 c0 h' (B ++ L) ∧ B.length = Be.length + B0.length + (if es = [] then 1 else 0) := by
  obtain ⟨ps, B', hF, rfl⟩ := hr
  obtain ⟨arr, B1, B2, hp, harr, hperm, hset⟩ := hF.split i hi
  have hlt : i < ps.length := by
    rw [hF.length]
    exact (List.getElem?_eq_some_iff.mp hi).1
  have o1 : Own n0 c0 h ((s, .struct ps (es.length :: is)) :: (Be ++ (B' ++ L))) := o.perm List.perm_middle
  have hs := o1.ne0
  have o2 := o1.update (.struct ps ((es.length + 1) :: is))
  have e0 : ∀ k : P Unit, pArrayAdd s i e st h =
      (reallocArray arr (es.length + 1) >>= fun arr => writePtr s i arr >>= fun _ => readPtr s i >>= fun arr => readInt s 0 >>= fun n => writePtr arr (n - 1) e) st
        { h with cells := setCell h.cells s (some (.struct ps ((es.length + 1) :: is))) } := by
    intro k
    rw [pArrayAdd, P.bind_ok (readInt_ok hs o1.cell rfl), if_neg (by omega), P.bind_ok (writeInt_ok hs o1.cell (by simp))]
    exact P.bind_ok (readPtr_ok hs o2.cell hp)
  have e0 := e0 (pure ())
  by_cases hes : es = []
  · subst hes
    rw [RArr, if_pos rfl] at harr
    obtain ⟨rfl, rfl⟩ := harr
    have o3 := (o2.alloc (.struct [0] [])).perm (List.Perm.swap _ _ _)
    have o4 := (o3.update (.struct (ps.set i h.next) (1 :: is))).perm (List.Perm.swap _ _ _)
    have o5 := o4.update (.struct [e] [])
    obtain ⟨C, hC, hCp⟩ := hset (RArr ([] ++ [r])) h.next ((h.next, .struct [e] []) :: Be)
      ((RArr.ne (by simp)).mpr ⟨[e], Be, Fields.single he, rfl⟩)
    refine ⟨_, (s, .struct (ps.set i h.next) (1 :: is)) :: C, ?_, ⟨_, C, hC, rfl⟩, o5.perm ?_, ?_⟩
    · refine e0.trans ?_
      rw [reallocArray, if_pos rfl, if_neg (show ¬ 1 < ([] : List Rep).length + 1 by simp), P.bind_ok malloc_ok]
      refine (P.bind_ok (writePtr_ok o3.ne0 o3.cell hlt)).trans ?_
      refine (P.bind_ok (readPtr_ok hs (o4.perm (List.Perm.swap _ _ _)).cell (p := h.next) (by simp [hlt]))).trans ?_
      refine (P.bind_ok (readInt_ok hs (o4.perm (List.Perm.swap _ _ _)).cell rfl)).trans ?_
      exact writePtr_ok o4.ne0 o4.cell (by simp)
    · refine (List.Perm.swap _ _ _).trans (List.Perm.cons _ ?_)
      rw [← List.append_assoc]
      refine List.Perm.append_right (t₁ := L) ?_ (l₁ := (h.next, HCell.struct [e] []) :: (Be ++ B')) |>.trans (List.Perm.refl _)
      refine List.Perm.trans ?_ hCp.symm
      exact List.Perm.cons _ (hperm.append_left Be)
    · have := hCp.length_eq
      have := hperm.length_eq
      simp only [List.length_cons, List.length_append, List.length_nil, if_true] at *
      omega
  · rw [RArr.ne hes] at harr
    obtain ⟨qs, C1, hq, rfl⟩ := harr
    have hql : qs.length = es.length := by rw [hq.length]
    have o3 := o2.perm (L' := (arr, .struct qs []) :: (s, .struct ps ((es.length + 1) :: is)) :: (C1 ++ Be ++ B2 ++ L)) (by
      refine List.Perm.trans (List.Perm.cons _ ?_) (List.Perm.swap _ _ _)
      rw [← List.append_assoc, ← List.cons_append]
      refine List.Perm.append_right _ ?_
      refine (hperm.append_left Be).trans ?_
      refine List.perm_middle.trans (List.Perm.cons _ ?_)
      show (Be ++ (C1 ++ B2)).Perm _
      rw [← List.append_assoc]
      exact List.perm_append_comm.append_right _)
    obtain ⟨h3, e3, hb, o4⟩ := realloc_ok (n := es.length + 1) (st := st) o3 (by omega)
    have htake : (qs ++ List.replicate (es.length + 1) 0).take (es.length + 1) = qs ++ [0] := by
      rw [List.take_append, hql, List.take_of_length_le (by omega)]
      simp
    rw [htake] at o4
    have o5 := o4.perm (List.Perm.swap _ _ _)
    have o6 := (o5.update (.struct (ps.set i h.next) ((es.length + 1) :: is))).perm (List.Perm.swap _ _ _)
    have hset' : (qs ++ [0]).set es.length e = qs ++ [e] := by
      rw [← hql]
      simp
    have o7 := o6.update (.struct (qs ++ [e]) [])
    obtain ⟨C, hC, hCp⟩ := hset (RArr (es ++ [r])) h.next ((h.next, .struct (qs ++ [e]) []) :: (C1 ++ Be))
      ((RArr.ne (by simp)).mpr ⟨_, _, hq.append (Fields.single he), rfl⟩)
    refine ⟨_, (s, .struct (ps.set i h.next) ((es.length + 1) :: is)) :: C, ?_, ⟨_, C, hC, rfl⟩, o7.perm ?_, ?_⟩
    · refine e0.trans ?_
      rw [P.bind_ok e3, P.bind_ok (writePtr_ok o5.ne0 o5.cell hlt),
        P.bind_ok (readPtr_ok hs (o6.perm (List.Perm.swap _ _ _)).cell (p := h.next) (by simp [hlt])),
        P.bind_ok (readInt_ok hs (o6.perm (List.Perm.swap _ _ _)).cell rfl), Nat.add_sub_cancel]
      refine (writePtr_ok o6.ne0 o6.cell (by simp [hql])).trans ?_
      rw [hset']
    · refine (List.Perm.swap _ _ _).trans (List.Perm.cons _ ?_)
      rw [← List.cons_append]
      exact hCp.symm.append_right L
    · have := hCp.length_eq
      have := hperm.length_eq
      simp only [List.length_cons, List.length_append, if_neg hes] at *
      omega

end Sml
