import Verif.Proofs.SourceScarce

/-!
# A request for memory and the write through the pointer behind it
-/

namespace Sml.C

/-- All requests that would get these addresses are met. -/
def AllMet (av : Nat → Bool) (lo hi : Nat) : Prop := ∀ c, lo ≤ c → c < hi → av c = true

theorem AllMet.split (h1 : lo ≤ mid) (h2 : mid ≤ hi) : AllMet av lo hi ↔ AllMet av lo mid ∧ AllMet av mid hi := by
  refine ⟨fun h => ⟨fun c a b => h c a (by omega), fun c a b => h c (by omega) b⟩, fun h c a b => ?_⟩
  by_cases hc : c < mid
  · exact h.1 c a hc
  · exact h.2 c (by omega) b

theorem AllMet.none : AllMet av n n := fun c a b => by omega

theorem AllMet.one : AllMet av n (n + 1) ↔ av n = true :=
  ⟨fun h => h n (Nat.le_refl _) (by omega), fun h c a b => by rw [show c = n by omega]; exact h⟩

/-- When `x` has a result, so has `y`, and the same, if all requests on the way are met; otherwise `y` writes through `NULL`. -/
structure Sim (av : Nat → Bool) (x y : X α) : Prop where
  run : ∀ env m a env' m', Tidy m → x env m = .ok a env' m' →
    Tidy m' ∧ m.next ≤ m'.next ∧ (AllMet av m.next m'.next → y env m = .ok a env' m') ∧ (¬ AllMet av m.next m'.next → y env m = .bad .null)

theorem Sim.of {x : X α} (h : Stays x) : Sim av x x := by
  refine ⟨fun env m a env' m' ht e => ?_⟩
  obtain ⟨h1, h2⟩ := h.run _ _ _ _ _ e
  exact ⟨⟨by rw [h1]; exact ht.pos, fun c hc => h2 c (ht.none c (by omega))⟩, by omega, fun _ => e, fun hn => absurd (by rw [h1]; exact .none) hn⟩

theorem Sim.bad {y : X α} : Sim av (C.bad b) y := ⟨fun _ _ _ _ _ _ e => by cases e⟩

theorem Sim.bindOf {x y : X α} {f g : α → X β} (h : Sim av x y) (hf : ∀ a, (∃ env m env' m', x env m = .ok a env' m') → Sim av (f a) (g a)) :
    Sim av (x >>= f) (y >>= g) := by
  refine ⟨fun env m b env' m' ht e => ?_⟩
  obtain ⟨a, e1, m1, h1, h2⟩ := X_bind_eq_ok e
  obtain ⟨t1, l1, k1, n1⟩ := h.run _ _ _ _ _ ht h1
  obtain ⟨t2, l2, k2, n2⟩ := (hf a ⟨_, _, _, _, h1⟩).run _ _ _ _ _ t1 h2
  refine ⟨t2, by omega, fun hall => ?_, fun hn => ?_⟩
  · obtain ⟨a1, a2⟩ := (AllMet.split l1 l2).mp hall
    rw [X_bind_ok (k1 a1)]
    exact k2 a2
  · by_cases a1 : AllMet av m.next m1.next
    · rw [X_bind_ok (k1 a1)]
      exact n2 fun a2 => hn ((AllMet.split l1 l2).mpr ⟨a1, a2⟩)
    · exact bind_bad (n1 a1)

theorem Sim.bind {x y : X α} {f g : α → X β} (h : Sim av x y) (hf : ∀ a, Sim av (f a) (g a)) : Sim av (x >>= f) (y >>= g) := h.bindOf fun a _ => hf a

theorem Sim.ite {x y x' y' : X α} (c : Prop) [Decidable c] (h : Sim av x x') (h' : Sim av y y') : Sim av (if c then x else y) (if c then x' else y') := by
  split <;> assumption

/-! ## Requests for memory -/

theorem tame_same (h : tameE x y e = true) : eval Γ e = eval Γ' e := by
  have atom : ∀ e, atomE x y e = true → eval Γ e = eval Γ' e := by
    intro e h
    unfold atomE at h
    split at h
    · rw [eval, eval]
    · rw [eval, eval]
    · rw [eval, eval]
    · rw [eval, eval, eval, eval]
    · cases h
  unfold tameE at h
  split at h
  · rw [Bool.and_eq_true] at h
    rw [eval, eval, atom _ h.1, atom _ h.2]
  · exact atom _ h

theorem Near.refl (y : Option Nat) (env : Env) (m : Mem) : Near none y env m env m :=
  ⟨fun _ _ => rfl, fun _ _ => ⟨fun h => (by cases h), fun _ _ ps _ _ hb => ⟨ps, hb⟩⟩⟩

/-- What a request for memory does in both runs. -/
structure Asked (av : Nat → Bool) (env : Env) (m : Mem) (v : Val) (env' : Env) (m' : Mem) (y : X Val) : Prop where
  same : env' = env
  val : v = .ptr (.heap m.next) 0
  next : m'.next = m.next + 1
  stack : m'.stack = m.stack
  heap : ∀ c b, c ≠ m.next → m'.heap c = some b → m.heap c = some b
  tidy : Tidy m'
  met : av m.next = true → y env m = .ok v env m'
  refused : av m.next = false → ∃ b, y env m = .ok nullPtr env { m with sovf := b, next := m.next + 1 }

theorem newHeap_asked {m1 : Mem} (hy1 : av m.next = true → y env m = newHeap b env m1) (hy2 : av m.next = false → y env m = .ok nullPtr env { m1 with next := m.next + 1 }) (ht : Tidy m) (hb : ∃ o, m1 = { m with sovf := o })
    (h : newHeap b env m1 = .ok v env' m') : Asked av env m v env' m' y ∧ m'.heap m.next = some b := by
  obtain ⟨o, rfl⟩ := hb
  have h' := h
  unfold newHeap at h
  cases h
  refine ⟨⟨rfl, rfl, rfl, rfl, fun c b' hc hb => ?_, ⟨by simp, fun a ha => ?_⟩, fun ha => (hy1 ha).trans h', fun ha => ⟨o, hy2 ha⟩⟩, if_pos rfl⟩
  · exact (if_neg hc).symm.trans hb
  · exact (if_neg (show a ≠ m.next by have : m.next + 1 ≤ a := ha; omega)).trans (ht.none a (by have : m.next + 1 ≤ a := ha; omega))

/-- Requests for the memory of a structure or an array of bytes. -/
def asksNew (y : Option Nat) : Expr → Bool
  | .mallocRec _ _ => true
  | .mallocBytes n => tameE none y n
  | _ => false

theorem room_rich (h : Γ.avail = fun _ => true) : room Γ env m = .ok true env m := by unfold room; rw [h]; rfl

theorem new_asked {Γ Γ' : Calls} (hr : Γ.avail = fun _ => true) (hs : Γ'.avail = av) (hA : asksNew y e = true) (ht : Tidy m) (h : eval Γ e env m = .ok v env' m') :
    Asked av env m v env' m' (eval Γ' e) ∧ ∃ b, m'.heap m.next = some b ∧ ∀ ps is, b ≠ .obj ps is := by
  unfold asksNew at hA
  split at hA
  · next np ni =>
    rw [eval, X_bind_ok (room_rich hr)] at h
    have hy1 : av m.next = true → eval Γ' (.mallocRec np ni) env m = newHeap _ env m := fun ha => by rw [eval, X_bind, room, hs]; simp only [ha]; rfl
    have hy2 : av m.next = false → eval Γ' (.mallocRec np ni) env m = .ok nullPtr env { m with next := m.next + 1 } := fun ha => by rw [eval, X_bind, room, hs]; simp only [ha]; rfl
    obtain ⟨h1, h2⟩ := newHeap_asked hy1 hy2 ht ⟨m.sovf, rfl⟩ h
    exact ⟨h1, _, h2, fun _ _ h => by cases h⟩
  · next n =>
    rw [eval] at h
    replace h := X_bind_eq_ok h
    obtain ⟨u, e1, m1, h1, h⟩ := h
    obtain ⟨rfl, ⟨b, rfl⟩, _⟩ := tame_near (Γ' := Γ') hA (Near.refl y _ _) h1
    rw [tame_same (Γ' := Γ') hA] at h1
    replace h := X_bind_eq_ok h
    obtain ⟨k, e2, m2, h2, h⟩ := h
    obtain ⟨rfl, rfl, _⟩ := asNat_again h2
    rw [X_bind_ok (room_rich hr)] at h
    have hy1 : av m.next = true → eval Γ' (.mallocBytes n) e2 m = newHeap _ e2 _ := fun ha => by
      rw [eval, X_bind_ok h1, X_bind_ok h2, X_bind, room, hs]; simp only [ha]; rfl
    have hy2 : av m.next = false → eval Γ' (.mallocBytes n) e2 m = .ok nullPtr e2 { m with sovf := b, next := m.next + 1 } := fun ha => by
      rw [eval, X_bind_ok h1, X_bind_ok h2, X_bind, room, hs]; simp only [ha]; rfl
    obtain ⟨h3, h4⟩ := newHeap_asked hy1 hy2 ht ⟨b, rfl⟩ h
    exact ⟨h3, _, h4, fun _ _ h => by cases h⟩
  · cases hA

/-- A request for more memory for the array that is the `i`-th pointer member of the object behind the variable `y`. -/
def asksMore (y i : Nat) : Expr → Bool
  | .realloc (.ldPtr (.var z) j) n => decide (z = y) && decide (j = i) && tameE none (some y) n
  | _ => false

theorem loadPtr_eq_ok (h : loadPtr p j env m = .ok v env' m') :
    env' = env ∧ m' = m ∧ ∃ l k ps is, p = .ptr l k ∧ blockAt m l = some (.obj ps is) ∧ ps[k + j]? = some v := by
  unfold loadPtr at h
  replace h := X_bind_eq_ok h
  obtain ⟨r, e1, m1, h1, h⟩ := h
  obtain ⟨rfl, rfl, rfl⟩ := asPtr_eq_ok h1
  replace h := X_bind_eq_ok h
  obtain ⟨b, e2, m2, h2, h⟩ := h
  obtain ⟨rfl, rfl, hb⟩ := getBlock_at h2
  cases b with
  | obj ps is =>
    simp only at h
    cases hj : ps[r.2 + j]? with
    | none => simp only [hj] at h; cases h
    | some w =>
      simp only [hj] at h
      cases w <;> cases h <;> exact ⟨rfl, rfl, r.1, r.2, ps, is, rfl, hb, hj⟩
  | fresh => cases h
  | raw bs => cases h

theorem loadPtr_of (hb : blockAt m l = some (.obj ps is)) (hj : ps[k + j]? = some (.ptr l' k')) : loadPtr (.ptr l k) j env m = .ok (.ptr l' k') env m := by
  unfold loadPtr
  rw [asPtr, X_bind_ok (X_pure _ _ _)]
  simp only
  rw [X_bind_ok (getBlock_of hb)]
  simp only [hj]
  rfl

theorem reallocFails_of (h : reallocBlock p k env m = .ok v env' m') (q : Nat) : reallocFails p env { m with next := q } = .ok nullPtr env { m with next := q } := by
  unfold reallocBlock at h
  unfold reallocFails
  replace h := X_bind_eq_ok h
  obtain ⟨⟨l, i⟩, e1, m1, h1, h⟩ := h
  obtain ⟨rfl, rfl, rfl⟩ := asPtr_eq_ok h1
  rw [X_bind_ok (show asPtr (.ptr l i) e1 { m1 with next := q } = .ok (l, i) e1 { m1 with next := q } from rfl)]
  cases l with
  | stack k => cases h
  | heap a =>
    simp only at h ⊢
    by_cases h0 : a = 0
    · rw [if_pos h0]; rfl
    · rw [if_neg h0] at h ⊢
      replace h := X_bind_eq_ok h
      obtain ⟨ps, e3, m3, h3, h⟩ := h
      have : movedElems a i e1 { m1 with next := q } = .ok ps e1 { m1 with next := q } := by
        unfold movedElems at h3 ⊢
        split at h3
        · next hh =>
          simp only [hh]
          split at h3
          · next hi => rw [if_pos hi]; cases h3; rfl
          · cases h3
        · cases h3
        · cases h3
      rw [X_bind_ok this]
      rfl

theorem realloc_asked {y : X Val} {m1 : Mem} (hy1 : av m.next = true → y env m = reallocBlock p k env m1) (hy2 : av m.next = false → y env m = reallocFails p env { m1 with next := m.next + 1 }) (ht : Tidy m)
    (hb : ∃ o, m1 = { m with sovf := o }) (h : reallocBlock p k env m1 = .ok v env' m') : Asked av env m v env' m' y := by
  have h' := h
  replace hy2 := fun ha => (hy2 ha).trans (reallocFails_of h _)
  unfold reallocBlock at h
  replace h := X_bind_eq_ok h
  obtain ⟨r, e1, m2, h1, h⟩ := h
  obtain ⟨rfl, rfl, rfl⟩ := asPtr_eq_ok h1
  obtain ⟨l, i⟩ := r
  cases l with
  | stack k => cases h
  | heap a =>
    simp only at h
    by_cases h0 : a = 0
    · rw [if_pos h0] at h
      exact (newHeap_asked (fun ha => (hy1 ha).trans (h'.trans h.symm)) hy2 ht hb h).1
    · rw [if_neg h0] at h
      replace h := X_bind_eq_ok h
      obtain ⟨ps, e3, m3, h3, h⟩ := h
      have hm : e3 = e1 ∧ m3 = m2 ∧ i = 0 ∧ ∃ b, m2.heap a = some b := by
        unfold movedElems at h3
        split at h3
        · next hh =>
          split at h3
          · next hi => cases h3; exact ⟨rfl, rfl, hi, _, hh⟩
          · cases h3
        · cases h3
        · cases h3
      obtain ⟨rfl, rfl, rfl, b, hlive⟩ := hm
      obtain ⟨o, rfl⟩ := hb
      have hne : a ≠ m.next := by
        rintro rfl
        rw [show ({ m with sovf := o } : Mem).heap m.next = m.heap m.next from rfl, ht.none _ (Nat.le_refl _)] at hlive
        cases hlive
      replace h := X_bind_eq_ok h
      obtain ⟨w, e5, m5, h5, h⟩ := h
      cases h5
      have hl2 : setHeap m.heap m.next (some (.obj ((ps ++ List.replicate (k / 8) Val.undef).take (k / 8)) [])) a = some b := (if_neg hne).trans hlive
      replace h := X_bind_eq_ok h
      obtain ⟨_, e6, m6, h6, h⟩ := h
      unfold release at h6
      simp only [hl2, if_pos] at h6
      cases h6
      cases h
      refine ⟨rfl, rfl, rfl, rfl, fun c b' hc hb => ?_, ⟨by simp, fun c hc => ?_⟩, fun ha => (hy1 ha).trans h', fun ha => ⟨_, hy2 ha⟩⟩
      · simp only [setHeap] at hb
        split at hb
        · cases hb
        · simpa only [if_neg hc] using hb
      · simp only at hc
        simp only [setHeap]
        split
        · rfl
        · rw [if_neg (by omega)]
          exact ht.none c (by omega)

theorem more_asked {Γ Γ' : Calls} (hr : Γ.avail = fun _ => true) (hs : Γ'.avail = av) (hA : asksMore y i e = true) (ht : Tidy m) (h : eval Γ e env m = .ok v env' m') :
    Asked av env m v env' m' (eval Γ' e) ∧ ∀ l k, env y = .ptr l k → blockAt m l ≠ none := by
  unfold asksMore at hA
  split at hA
  · next z j n =>
    simp only [Bool.and_eq_true] at hA
    obtain rfl := of_decide_eq_true hA.1.1
    obtain rfl := of_decide_eq_true hA.1.2
    rw [eval] at h
    replace h := X_bind_eq_ok h
    obtain ⟨p, e1, m1, h1, h⟩ := h
    have h1' : eval Γ' (.ldPtr (.var z) j) env m = .ok p e1 m1 := by rw [eval, eval] at h1 ⊢; exact h1
    rw [eval, eval] at h1
    replace h1 := X_bind_eq_ok h1
    obtain ⟨q, e2, m2, h2, h1⟩ := h1
    obtain ⟨rfl, rfl, hz, _⟩ := getVar_eq_ok h2
    obtain ⟨rfl, rfl, l, k, ps, is, rfl, hb, _⟩ := loadPtr_eq_ok h1
    replace h := X_bind_eq_ok h
    obtain ⟨u, e3, m3, h3, h⟩ := h
    obtain ⟨rfl, ⟨b, rfl⟩, _⟩ := tame_near (Γ' := Γ') hA.2 (Near.refl _ _ _) h3
    rw [tame_same (Γ' := Γ') hA.2] at h3
    replace h := X_bind_eq_ok h
    obtain ⟨w, e4, m4, h4, h⟩ := h
    obtain ⟨rfl, rfl, _⟩ := asNat_again h4
    rw [X_bind_ok (room_rich hr)] at h
    refine ⟨realloc_asked (y := eval Γ' (.realloc (.ldPtr (.var z) j) n)) (fun ha => ?_) (fun ha => ?_) ht ⟨b, rfl⟩ h, fun l' k' e => ?_⟩
    · rw [eval, X_bind_ok h1', X_bind_ok h3, X_bind_ok h4, X_bind, room, hs]; simp only [ha]; rfl
    · rw [eval, X_bind_ok h1', X_bind_ok h3, X_bind_ok h4, X_bind, room, hs]; simp only [ha]; rfl
    · rw [hz] at e
      cases e
      rw [hb]
      exact fun h => by cases h
  · cases hA

/-! ## A request and the write behind it -/

def isVar (x : Nat) : Expr → Bool
  | .var z => decide (z = x)
  | _ => false

def isMem (y i : Nat) : Expr → Bool
  | .ldPtr (.var z) j => decide (z = y) && decide (j = i)
  | _ => false

/-- `y->m = v` for an integer member. -/
def setsInt (y : Nat) : Stmt → Bool
  | .stInt _ (.var z) _ v => decide (z = y) && tameE none (some y) v
  | _ => false

/-- The statement asks for memory, and what follows writes through the pointer at once. -/
def allocThen (s : Stmt) (ss : List Stmt) : Bool :=
  match s with
  | .setPtr x e =>
    match ss with
    | s2 :: _ => asksNew none e && hits (some x) none (isVar x) s2
    | [] => false
  | .stPtr (.var y) i e =>
    match ss with
    | s2 :: ss => (asksNew (some y) e || asksMore y i e) && (hits none (some y) (isMem y i) s2 || setsInt y s2 &&
      match ss with
      | s3 :: _ => hits none (some y) (isMem y i) s3
      | [] => false)
    | [] => false
  | _ => false

theorem storePtr_eq_ok (h : storePtr p j v env m = .ok u env' m') :
    ∃ l k ps is, p = .ptr l k ∧ blockAt m l = some (.obj ps is) ∧ k + j < ps.length ∧ setBlock l (.obj (ps.set (k + j) v) is) env m = .ok u env' m' := by
  unfold storePtr at h
  replace h := X_bind_eq_ok h
  obtain ⟨r, e1, m1, h1, h⟩ := h
  obtain ⟨rfl, rfl, rfl⟩ := asPtr_eq_ok h1
  replace h := X_bind_eq_ok h
  obtain ⟨b, e2, m2, h2, h⟩ := h
  obtain ⟨rfl, rfl, hb⟩ := getBlock_at h2
  cases b with
  | obj ps is =>
    simp only at h
    by_cases hj : r.2 + j < ps.length
    · rw [if_pos hj] at h
      exact ⟨r.1, r.2, ps, is, rfl, hb, hj, h⟩
    · rw [if_neg hj] at h
      cases h
  | fresh => cases h
  | raw bs => cases h

theorem storePtr_of (hb : blockAt m l = some (.obj ps is)) (hj : k + j < ps.length) : storePtr (.ptr l k) j v env m = setBlock l (.obj (ps.set (k + j) v) is) env m := by
  unfold storePtr
  rw [asPtr, X_bind_ok (X_pure _ _ _)]
  simp only
  rw [X_bind_ok (getBlock_of hb)]
  simp only [if_pos hj]

theorem storeInt_eq_ok (h : storeInt p j n env m = .ok u env' m') :
    ∃ l ps is, p = .ptr l 0 ∧ blockAt m l = some (.obj ps is) ∧ j < is.length ∧ setBlock l (.obj ps (is.set j n)) env m = .ok u env' m' := by
  unfold storeInt at h
  replace h := X_bind_eq_ok h
  obtain ⟨r, e1, m1, h1, h⟩ := h
  obtain ⟨rfl, rfl, rfl⟩ := asPtr_eq_ok h1
  replace h := X_bind_eq_ok h
  obtain ⟨b, e2, m2, h2, h⟩ := h
  obtain ⟨rfl, rfl, hb⟩ := getBlock_at h2
  cases b with
  | obj ps is =>
    simp only at h
    by_cases hj : r.2 = 0 ∧ j < is.length
    · rw [if_pos hj] at h
      exact ⟨r.1, ps, is, by rw [hj.1], hb, hj.2, h⟩
    · rw [if_neg hj] at h
      cases h
  | fresh => cases h
  | raw bs => cases h

theorem storeInt_of (hb : blockAt m l = some (.obj ps is)) (hj : j < is.length) : storeInt (.ptr l 0) j n env m = setBlock l (.obj ps (is.set j n)) env m := by
  unfold storeInt
  rw [asPtr, X_bind_ok (X_pure _ _ _)]
  simp only
  rw [X_bind_ok (getBlock_of hb)]
  simp only [if_pos (show True ∧ j < is.length from ⟨trivial, hj⟩)]

/-- The memory after a store. -/
def setAt (m : Mem) (l : Loc) (b : Block) : Mem :=
  match l with
  | .heap a => { m with heap := setHeap m.heap a (some b) }
  | .stack k => { m with stack := m.stack.set k b }

theorem setBlock_at : setBlock l b env m = .ok () env (setAt m l b) := by cases l <;> rfl

theorem blockAt_set (h : blockAt m l ≠ none) : blockAt (setAt m l b) l = some b := by
  cases l with
  | heap a =>
    unfold blockAt at h ⊢
    simp only at h ⊢
    split at h
    · exact absurd rfl h
    · next h0 => rw [if_neg h0]; exact if_pos rfl
  | stack k =>
    unfold blockAt at h ⊢
    simp only [setAt] at h ⊢
    rw [List.getElem?_set_self]
    apply Decidable.byContradiction
    intro hk
    exact h (List.getElem?_eq_none (by omega))

theorem isVar_keeps : ∀ e, isVar x e = true → ∀ v e' m'', eval Γ e env m = .ok v e' m'' → e' = env ∧ m'' = m := by
  intro e h v e' m'' he
  unfold isVar at h
  split at h
  · rw [eval] at he
    exact ⟨(getVar_eq_ok he).1, (getVar_eq_ok he).2.1⟩
  · cases h

theorem isMem_keeps : ∀ e, isMem y i e = true → ∀ v e' m'', eval Γ e env m = .ok v e' m'' → e' = env ∧ m'' = m := by
  intro e h v e' m'' he
  unfold isMem at h
  split at h
  · rw [eval, eval] at he
    replace he := X_bind_eq_ok he
    obtain ⟨p, e1, m1, h1, he⟩ := he
    obtain ⟨rfl, rfl, _⟩ := getVar_eq_ok h1
    exact ⟨(loadPtr_eq_ok he).1, (loadPtr_eq_ok he).2.1⟩
  · cases h

theorem execs_eq_ok (h : execs Γ k (s :: ss) env m = .ok o env' m') :
    ∃ o1 env1 m1, exec Γ k s env m = .ok o1 env1 m1 ∧ (o1 = .next → execs Γ k ss env1 m1 = .ok o env' m') := by
  rw [execs] at h
  obtain ⟨o1, e1, m1, h1, h⟩ := X_bind_eq_ok h
  exact ⟨o1, e1, m1, h1, fun h0 => by subst h0; exact h⟩

theorem execs_head_bad {s : Stmt} (h : exec Γ k s env m = .bad b) : execs Γ k (s :: ss) env m = .bad b := by
  rw [execs]
  exact bind_bad h

theorem execs_next {s : Stmt} (h : exec Γ k s env m = .ok .next env1 m1) : execs Γ k (s :: ss) env m = execs Γ k ss env1 m1 := by
  rw [execs, X_bind_ok h]

theorem NullAt.mem {y i : Nat} (h : env y = .ptr l k) (hb : blockAt m l = some (.obj ps is)) (hj : ps[k + i]? = some nullPtr) : ∀ e, isMem y i e = true → NullAt e env m := by
  intro e he Γ b
  unfold isMem at he
  split at he
  · rw [Bool.and_eq_true] at he
    obtain rfl := of_decide_eq_true he.1
    obtain rfl := of_decide_eq_true he.2
    rw [eval, eval, X_bind_ok (getVar_of h (by intro h; cases h))]
    exact loadPtr_of (by cases l <;> exact hb) hj
  · cases he

theorem NullAt.var {x : Nat} (h : env x = nullPtr) : ∀ e, isVar x e = true → NullAt e env m := by
  intro e he Γ b
  unfold isVar at he
  split at he
  · obtain rfl := of_decide_eq_true he
    rw [eval]
    exact getVar_of h (by intro h; cases h)
  · cases he

/-- The object behind `y` before the request is what it is after it. -/
theorem obj_before (hA : Asked av env m v env' m' z) (ht : Tidy m) (hy : (∃ b, m'.heap m.next = some b ∧ ∀ ps is, b ≠ .obj ps is) ∨ blockAt m l ≠ none) (hb : blockAt m' l = some (.obj ps is)) :
    blockAt m l = some (.obj ps is) := by
  cases l with
  | stack k =>
    unfold blockAt at hb ⊢
    simp only at hb ⊢
    rwa [hA.stack] at hb
  | heap a =>
    unfold blockAt at hb ⊢ hy
    simp only at hb ⊢ hy
    split at hb
    · cases hb
    · next h0 =>
      rw [if_neg h0] at hy ⊢
      refine hA.heap a _ ?_ hb
      rintro rfl
      rcases hy with ⟨b, e, hn⟩ | hy
      · rw [hb] at e
        cases e
        exact hn _ _ rfl
      · exact hy (ht.none _ (Nat.le_refl _))

theorem setsInt_near (hs : setsInt y s = true) (h : Near none (some y) env m1 env m2) (hl1 : env y = .ptr l k) (hl2 : blockAt m2 l = some (.obj ps2 is2))
    (he : exec Γ q s env m1 = .ok o env' m') :
    o = .next ∧ env' = env ∧ ∃ m2', exec Γ' q s env m2 = .ok .next env m2' ∧ Near none (some y) env m' env m2' ∧ ∃ is2', blockAt m2' l = some (.obj ps2 is2') := by
  unfold setsInt at hs
  split at hs
  · next t z j v =>
    rw [Bool.and_eq_true] at hs
    obtain rfl := of_decide_eq_true hs.1
    rw [exec] at he ⊢
    replace he := X_bind_eq_ok he
    obtain ⟨u, e1, m3, h1, he⟩ := he
    obtain ⟨rfl, ⟨b1, rfl⟩, c1, k1⟩ := tame_near (Γ' := Γ') hs.2 h h1
    replace he := X_bind_eq_ok he
    obtain ⟨w, e2, m4, h2, he⟩ := he
    obtain ⟨rfl, rfl, k2⟩ := asInt_again h2
    rw [eval] at he ⊢
    replace he := X_bind_eq_ok he
    obtain ⟨p, e3, m5, h3, he⟩ := he
    obtain ⟨rfl, rfl, hz, hu⟩ := getVar_eq_ok h3
    replace he := X_bind_eq_ok he
    obtain ⟨_, e4, m6, h4, he⟩ := he
    obtain ⟨l', ps, is, rfl, hb, hj, h4⟩ := storeInt_eq_ok h4
    rw [hz] at hl1
    cases hl1
    rw [setBlock_at] at h4
    cases h4
    cases he
    have hb1 : blockAt m1 l = some (.obj ps is) := by cases l <;> exact hb
    obtain ⟨ps', hb2⟩ := (h.ints z rfl).2 l 0 ps is hz hb1
    rw [hl2] at hb2
    cases hb2
    have hb2 : blockAt { m2 with sovf := c1 } l = some (.obj ps2 is2) := by cases l <;> exact hl2
    refine ⟨rfl, rfl, setAt { m2 with sovf := c1 } l (.obj ps2 (is2.set j (t.conv w.2))), ?_, ⟨fun _ _ => rfl, ?_⟩, ⟨_, blockAt_set (by rw [hb2]; exact fun h => (by cases h))⟩⟩
    · rw [X_bind_ok k1, X_bind_ok (k2 _ _), X_bind_ok (getVar_of hz hu), X_bind_ok ((storeInt_of hb2 hj).trans setBlock_at)]
      rfl
    · intro z' hz'
      cases hz'
      refine ⟨fun h => (by cases h), fun l'' k'' ps'' is'' e hb'' => ?_⟩
      rw [hz] at e
      cases e
      rw [blockAt_set (by rw [hb]; exact fun h => (by cases h))] at hb''
      cases hb''
      exact ⟨_, blockAt_set (by rw [hb2]; exact fun h => (by cases h))⟩
  · cases hs

theorem allocThen_sim {Γ Γ' : Calls} (hr : Γ.avail = fun _ => true) (hs : Γ'.avail = av) (hA : allocThen s ss = true) (hrest : Sim av (execs Γ k ss) (execs Γ' k ss)) :
    Sim av (execs Γ k (s :: ss)) (execs Γ' k (s :: ss)) := by
  refine ⟨fun env m o env' m' ht he => ?_⟩
  -- the statement with the request
  suffices H : ∃ env1 m1, exec Γ k s env m = .ok .next env1 m1 ∧ m1.next = m.next + 1 ∧ Tidy m1 ∧ (av m.next = true → exec Γ' k s env m = .ok .next env1 m1) ∧
      (av m.next = false → execs Γ k ss env1 m1 = .ok o env' m' → execs Γ' k (s :: ss) env m = .bad .null) by
    obtain ⟨env1, m1, h1, hn, t1, met, refused⟩ := H
    rw [execs_next h1] at he
    obtain ⟨t2, l2, k2, n2⟩ := hrest.run _ _ _ _ _ t1 he
    refine ⟨t2, by omega, fun hall => ?_, fun hnot => ?_⟩
    · obtain ⟨a1, a2⟩ := (AllMet.split (mid := m1.next) (by omega) l2).mp hall
      rw [execs_next (met (a1 _ (Nat.le_refl _) (by omega)))]
      exact k2 a2
    · cases ha : av m.next with
      | false => exact refused ha he
      | true =>
        rw [execs_next (met ha)]
        refine n2 fun a2 => hnot ((AllMet.split (mid := m1.next) (by omega) l2).mpr ⟨?_, a2⟩)
        rw [hn]
        exact AllMet.one.mpr ha
  unfold allocThen at hA
  split at hA
  · next x e =>
    split at hA
    · next s2 rest =>
      rw [Bool.and_eq_true] at hA
      obtain ⟨o1, env1, m1, h1, _⟩ := execs_eq_ok he
      have h1' := h1
      rw [exec] at h1
      replace h1 := X_bind_eq_ok h1
      obtain ⟨v, e2, m2, h2, h1⟩ := h1
      obtain ⟨ask, _⟩ := new_asked hr hs hA.1 ht h2
      obtain rfl := ask.same
      cases h1
      refine ⟨_, _, h1', ask.next, ask.tidy, fun ha => ?_, fun ha he => ?_⟩
      · rw [exec, X_bind_ok (ask.met ha)]
        rfl
      · obtain ⟨b, hb⟩ := ask.refused ha
        have e1 : exec Γ' k (.setPtr x e) e2 m = .ok .next (upd e2 x nullPtr) { m with sovf := b, next := m.next + 1 } := by
          rw [exec, X_bind_ok hb]
          rfl
        rw [execs_next e1]
        obtain ⟨o3, e3, m3, h3, _⟩ := execs_eq_ok he
        refine execs_head_bad (hit_near (P := isVar x) (NullAt.var upd_same) hA.2 ⟨fun z hz => ?_, fun z hz => by cases hz⟩ h3 isVar_keeps fun e h b => isVar_keeps e h)
        rw [upd_other (by rintro rfl; exact hz rfl), upd_other (by rintro rfl; exact hz rfl)]
    · cases hA
  · next y i e =>
    split at hA
    · next s2 rest =>
      rw [Bool.and_eq_true, Bool.or_eq_true] at hA
      obtain ⟨o1, env1, m1, h1, _⟩ := execs_eq_ok he
      have h1' := h1
      rw [exec] at h1
      replace h1 := X_bind_eq_ok h1
      obtain ⟨v, e2, m2, h2, h1⟩ := h1
      have ask : Asked av env m v e2 m2 (eval Γ' e) ∧ ((∃ b, m2.heap m.next = some b ∧ ∀ ps is, b ≠ .obj ps is) ∨ ∀ l k, env y = .ptr l k → blockAt m l ≠ none) := by
        rcases hA.1 with h | h
        · exact ⟨(new_asked hr hs h ht h2).1, .inl (new_asked hr hs h ht h2).2⟩
        · exact ⟨(more_asked hr hs h ht h2).1, .inr (more_asked hr hs h ht h2).2⟩
      obtain ⟨ask, hy⟩ := ask
      obtain rfl := ask.same
      rw [eval] at h1
      replace h1 := X_bind_eq_ok h1
      obtain ⟨p, e3, m3, h3, h1⟩ := h1
      obtain ⟨rfl, rfl, hz, hu⟩ := getVar_eq_ok h3
      replace h1 := X_bind_eq_ok h1
      obtain ⟨u, e4, m4, h4, h1⟩ := h1
      have h4' := h4
      obtain ⟨l, q, ps, is, rfl, hb, hj, h4⟩ := storePtr_eq_ok h4
      rw [setBlock_at] at h4
      cases h4
      cases h1
      have hbm := obj_before ask ht (hy.imp id fun h => h l q hz) hb
      have hlive := blockAt_set (b := .obj (ps.set (q + i) v) is) (by rw [hb]; exact fun h => (by cases h) : blockAt m3 l ≠ none)
      refine ⟨_, _, h1', ?_, ?_, fun ha => ?_, fun ha he => ?_⟩
      · rw [← ask.next]; cases l <;> rfl
      · have hst := (StaysAt.set (l := l) (.obj (ps.set (q + i) v) is)).run env1 m3 () env1 _ _ env1 (getBlock_of hb) setBlock_at
        exact ⟨by rw [hst.1]; exact ask.tidy.pos, fun c hc => hst.2 c (ask.tidy.none c (by rw [← hst.1]; exact hc))⟩
      · rw [exec, X_bind_ok (ask.met ha), eval, X_bind_ok h3, X_bind_ok h4']
        rfl
      · obtain ⟨b, hb'⟩ := ask.refused ha
        have hbo : blockAt { m with sovf := b, next := m.next + 1 } l = some (.obj ps is) := by cases l <;> exact hbm
        have hlive2 := blockAt_set (b := .obj (ps.set (q + i) nullPtr) is) (by rw [hbo]; exact fun h => (by cases h) : blockAt { m with sovf := b, next := m.next + 1 } l ≠ none)
        have e1 : exec Γ' k (.stPtr (.var y) i e) env1 m = .ok .next env1 (setAt { m with sovf := b, next := m.next + 1 } l (.obj (ps.set (q + i) nullPtr) is)) := by
          rw [exec, X_bind_ok hb', eval, X_bind_ok (getVar_of hz hu), X_bind_ok ((storePtr_of hbo hj).trans setBlock_at)]
          rfl
        rw [execs_next e1]
        have near : Near none (some y) env1 (setAt m3 l (.obj (ps.set (q + i) v) is)) env1 (setAt { m with sovf := b, next := m.next + 1 } l (.obj (ps.set (q + i) nullPtr) is)) := by
          refine ⟨fun _ _ => rfl, fun z hz' => ⟨fun h => (by cases h), fun l' k' ps' is' e hb'' => ?_⟩⟩
          cases hz'
          rw [hz] at e
          cases e
          rw [hlive] at hb''
          cases hb''
          exact ⟨_, hlive2⟩
        have hnull : (ps.set (q + i) nullPtr)[q + i]? = some nullPtr := List.getElem?_set_self hj
        rcases (Bool.or_eq_true _ _).mp hA.2 with hh | hh
        · obtain ⟨o5, e5, m5, h5, _⟩ := execs_eq_ok he
          exact execs_head_bad (hit_near (P := isMem y i) (NullAt.mem hz hlive2 hnull) hh near h5 isMem_keeps fun e h b => isMem_keeps e h)
        · rw [Bool.and_eq_true] at hh
          obtain ⟨h6, h7⟩ := hh
          split at h7
          · next s3 rest' =>
            obtain ⟨o5, e5, m5, h5, he5⟩ := execs_eq_ok he
            obtain ⟨rfl, rfl, m6, k6, near6, is6, b6⟩ := setsInt_near (Γ' := Γ') h6 near hz hlive2 h5
            rw [execs_next k6]
            obtain ⟨o7, e7, m7, k7, _⟩ := execs_eq_ok (he5 rfl)
            exact execs_head_bad (hit_near (P := isMem y i) (NullAt.mem hz b6 hnull) h7 near6 k7 isMem_keeps fun e h b => isMem_keeps e h)
          · cases h7
    · cases hA
  · cases hA

end Sml.C
