import Verif.Proofs.SourceStays

/-!
# When memory runs out

Runs of the C source when some requests for memory are not met, next to runs when all are. Almost no function of the library looks at
what `malloc` and `realloc` return. For those that do not, and call none that does, a run is the same as with enough memory as long as
all requests are met, and it writes through `NULL` at once when one is not. Whether a function is of this kind can be seen from its text:
`calmS` is about statements, `allocThen` about the places at which memory is asked for.
-/

namespace Sml.C

/-! ## Steps that depend on nothing but their operands -/

/-- A step that changes at most the note of an overflow, and does the same everywhere. -/
structure Local (x : X α) : Prop where
  run : ∀ env m a env' m', x env m = .ok a env' m' →
    env' = env ∧ (∃ b, m' = { m with sovf := b }) ∧ ∀ env2 m2, ∃ b, x env2 m2 = .ok a env2 { m2 with sovf := b }

theorem Local.pure (a : α) : Local (Pure.pure a : X α) := ⟨fun _ m _ _ _ e => by cases e; exact ⟨rfl, ⟨m.sovf, rfl⟩, fun _ m2 => ⟨m2.sovf, rfl⟩⟩⟩

theorem Local.bad (b : Bad) : Local (C.bad b : X α) := ⟨fun _ _ _ _ _ e => by cases e⟩

theorem Local.bind {x : X α} {f : α → X β} (h : Local x) (hf : ∀ a, Local (f a)) : Local (x >>= f) := by
  refine ⟨fun env m b env' m' e => ?_⟩
  obtain ⟨a, e1, m1, h1, h2⟩ := X_bind_eq_ok e
  obtain ⟨rfl, ⟨b1, rfl⟩, k1⟩ := h.run _ _ _ _ _ h1
  obtain ⟨rfl, ⟨b2, rfl⟩, k2⟩ := (hf _).run _ _ _ _ _ h2
  refine ⟨rfl, ⟨b2, rfl⟩, fun env2 m2 => ?_⟩
  obtain ⟨c1, r1⟩ := k1 env2 m2
  obtain ⟨c2, r2⟩ := k2 env2 { m2 with sovf := c1 }
  exact ⟨c2, by rw [X_bind_ok r1]; exact r2⟩

theorem local_note : Local (note b) :=
  ⟨fun _ m _ _ _ e => by cases e; exact ⟨rfl, ⟨m.sovf || b, rfl⟩, fun _ m2 => ⟨m2.sovf || b, rfl⟩⟩⟩

macro "locals" : tactic => `(tactic| repeat' (first | exact Local.pure _ | exact Local.bad _ | exact local_note | assumption | apply Local.bind | split | intro _))

theorem local_asInt : Local (asInt v) := by unfold asInt; locals
theorem local_asNat : Local (asNat v) := by have := @local_asInt v; unfold asNat; locals
theorem local_arith : Local (arith t n) := by unfold arith; locals
theorem local_intOp : Local (intOp op ta a tb b) := by have := @local_arith; unfold intOp; simp only; locals <;> exact this
theorem local_binOp : Local (binOp op a b) := by have := @local_intOp; unfold binOp; locals <;> exact this
theorem local_memberVal : Local (memberVal t v) := by unfold memberVal; locals

/-! ## Two runs next to each other -/

/-- The block a pointer refers to. -/
def blockAt (m : Mem) : Loc → Option Block
  | .heap a => if a = 0 then none else m.heap a
  | .stack k => m.stack[k]?

theorem getBlock_at (h : getBlock l env m = .ok b env' m') : env' = env ∧ m' = m ∧ blockAt m l = some b := by
  obtain ⟨h1, h2, _⟩ := getBlock_same h
  refine ⟨h1, h2, ?_⟩
  unfold getBlock at h
  cases l with
  | heap a =>
    simp only at h
    unfold blockAt
    simp only
    split at h
    · cases h
    · next h0 =>
      split at h
      · next hb => cases h; rw [if_neg h0, hb]
      · cases h
  | stack k =>
    simp only at h
    unfold blockAt
    simp only
    split at h
    · next hb => cases h; rw [hb]
    · cases h

theorem getBlock_of (h : blockAt m l = some b) : getBlock l env m = .ok b env m := by
  unfold blockAt at h
  unfold getBlock
  cases l with
  | heap a =>
    simp only at h ⊢
    split at h
    · cases h
    · next h0 => rw [if_neg h0, h]
  | stack k =>
    simp only at h ⊢
    rw [h]

/-- A run with enough memory (`env1`, `m1`) and one in which a request was not met. The variable `x` is different, otherwise the
variables are the same; the object behind the variable `y` has the same integer members in both. -/
structure Near (x y : Option Nat) (env1 : Env) (m1 : Mem) (env2 : Env) (m2 : Mem) : Prop where
  vars : ∀ z, some z ≠ x → env1 z = env2 z
  ints : ∀ z, some z = y → some z ≠ x ∧ ∀ l k ps is, env1 z = .ptr l k → blockAt m1 l = some (.obj ps is) → ∃ ps', blockAt m2 l = some (.obj ps' is)

theorem Near.note (h : Near x y env1 m1 env2 m2) (b1 b2 : Bool) : Near x y env1 { m1 with sovf := b1 } env2 { m2 with sovf := b2 } :=
  ⟨h.vars, fun z hz => ⟨(h.ints z hz).1, fun l k ps is e hb => by
    obtain ⟨ps', h'⟩ := (h.ints z hz).2 l k ps is e (by cases l <;> exact hb)
    exact ⟨ps', by cases l <;> exact h'⟩⟩⟩

/-- Expressions that are the same in both. -/
def atomE (x y : Option Nat) : Expr → Bool
  | .lit _ _ => true
  | .null => true
  | .var z => decide (some z ≠ x)
  | .ldInt _ (.var z) _ => decide (some z = y)
  | _ => false

def tameE (x y : Option Nat) : Expr → Bool
  | .bin _ a b => atomE x y a && atomE x y b
  | e => atomE x y e

theorem getVar_eq_ok (h : getVar x env m = .ok v env' m') : env' = env ∧ m' = m ∧ env x = v ∧ v ≠ .undef := by
  unfold getVar at h
  split at h
  · cases h
  · next hne => cases h; exact ⟨rfl, rfl, rfl, hne⟩

theorem getVar_of (h : env x = v) (hv : v ≠ .undef) : getVar x env m = .ok v env m := by
  unfold getVar
  split
  · next hu => exact absurd (h.symm.trans hu) hv
  · rw [h]

theorem asPtr_eq_ok (h : asPtr v env m = .ok r env' m') : env' = env ∧ m' = m ∧ v = .ptr r.1 r.2 := by
  unfold asPtr at h
  split at h <;> cases h
  exact ⟨rfl, rfl, rfl⟩

theorem loadInt_eq_ok (h : loadInt p j env m = .ok n env' m') :
    env' = env ∧ m' = m ∧ ∃ l ps is, p = .ptr l 0 ∧ blockAt m l = some (.obj ps is) ∧ is[j]? = some n := by
  unfold loadInt at h
  replace h := X_bind_eq_ok h
  obtain ⟨r, e1, m1, h1, h⟩ := h
  obtain ⟨rfl, rfl, rfl⟩ := asPtr_eq_ok h1
  replace h := X_bind_eq_ok h
  obtain ⟨b, e2, m2, h2, h⟩ := h
  obtain ⟨rfl, rfl, hb⟩ := getBlock_at h2
  cases b with
  | obj ps is =>
    cases hj : is[j]? with
    | none => simp only [hj] at h; cases h
    | some k =>
      simp only [hj] at h
      by_cases h0 : r.2 = 0
      · rw [if_pos h0] at h
        cases h
        exact ⟨rfl, rfl, r.1, ps, is, by rw [h0], hb, hj⟩
      · rw [if_neg h0] at h
        cases h
  | fresh => cases h
  | raw bs => cases h

theorem loadInt_of (hb : blockAt m l = some (.obj ps is)) (hj : is[j]? = some n) : loadInt (.ptr l 0) j env m = .ok n env m := by
  unfold loadInt
  rw [asPtr, X_bind_ok (X_pure _ _ _)]
  simp only
  rw [X_bind_ok (getBlock_of hb)]
  simp only [hj, if_pos]
  rfl

theorem atom_near (ha : atomE x y e = true) (h : Near x y env1 m1 env2 m2) (he : eval Γ e env1 m1 = .ok v env' m') :
    env' = env1 ∧ m' = m1 ∧ eval Γ' e env2 m2 = .ok v env2 m2 := by
  unfold atomE at ha
  split at ha
  · rw [eval] at he ⊢; cases he; exact ⟨rfl, rfl, rfl⟩
  · rw [eval] at he ⊢; cases he; exact ⟨rfl, rfl, rfl⟩
  · rw [eval] at he ⊢
    obtain ⟨rfl, rfl, hz, hu⟩ := getVar_eq_ok he
    exact ⟨rfl, rfl, getVar_of ((h.vars _ (of_decide_eq_true ha)).symm.trans hz) hu⟩
  · next t z j =>
    have hy := of_decide_eq_true ha
    rw [eval] at he ⊢
    replace he := X_bind_eq_ok he
    obtain ⟨p, e2, m2', h2, he⟩ := he
    rw [eval] at h2 ⊢
    obtain ⟨rfl, rfl, hz, hu⟩ := getVar_eq_ok h2
    replace he := X_bind_eq_ok he
    obtain ⟨n, e1, m1', h1, he⟩ := he
    obtain ⟨rfl, rfl, l, ps, is, rfl, hb, hj⟩ := loadInt_eq_ok h1
    cases he
    obtain ⟨hx, hi⟩ := h.ints z hy
    obtain ⟨ps', hb'⟩ := hi l 0 ps is hz hb
    refine ⟨rfl, rfl, ?_⟩
    rw [X_bind_ok (getVar_of ((h.vars z hx).symm.trans hz) hu), X_bind_ok (loadInt_of hb' hj)]
    rfl
  · cases ha

theorem tame_near (ha : tameE x y e = true) (h : Near x y env1 m1 env2 m2) (he : eval Γ e env1 m1 = .ok v env' m') :
    env' = env1 ∧ (∃ b, m' = { m1 with sovf := b }) ∧ ∃ b, eval Γ' e env2 m2 = .ok v env2 { m2 with sovf := b } := by
  unfold tameE at ha
  split at ha
  · rw [Bool.and_eq_true] at ha
    rw [eval] at he ⊢
    replace he := X_bind_eq_ok he
    obtain ⟨u, e1, m1', h1, he⟩ := he
    obtain ⟨rfl, rfl, k1⟩ := atom_near (Γ' := Γ') ha.1 h h1
    replace he := X_bind_eq_ok he
    obtain ⟨w, e2, m2', h2, he⟩ := he
    obtain ⟨rfl, rfl, k2⟩ := atom_near (Γ' := Γ') ha.2 h h2
    obtain ⟨rfl, hm, k3⟩ := local_binOp.run _ _ _ _ _ he
    refine ⟨rfl, hm, ?_⟩
    rw [X_bind_ok k1, X_bind_ok k2]
    exact k3 _ _
  · obtain ⟨rfl, rfl, k⟩ := atom_near (Γ' := Γ') ha h he
    exact ⟨rfl, ⟨m'.sovf, rfl⟩, m2.sovf, k⟩

/-- The pointer that is `NULL` now. -/
def NullAt (e : Expr) (env : Env) (m : Mem) : Prop := ∀ (Γ : Calls) (b : Bool), eval Γ e env { m with sovf := b } = .ok nullPtr env { m with sovf := b }

theorem NullAt.note (h : NullAt e env m) (b : Bool) : NullAt e env { m with sovf := b } := fun Γ b' => h Γ b'

theorem NullAt.run (h : NullAt e env m) : eval Γ e env m = .ok nullPtr env m := h Γ m.sovf

theorem atoms_near : (es : List Expr) → es.all (atomE x y) = true → Near x y env1 m1 env2 m2 → evals Γ es env1 m1 = .ok vs env' m' →
    env' = env1 ∧ m' = m1 ∧ evals Γ' es env2 m2 = .ok vs env2 m2
  | [], _, _, he => by rw [evals] at he ⊢; cases he; exact ⟨rfl, rfl, rfl⟩
  | e :: es, ha, h, he => by
    rw [List.all_cons, Bool.and_eq_true] at ha
    rw [evals] at he ⊢
    replace he := X_bind_eq_ok he
    obtain ⟨u, e1, m1', h1, he⟩ := he
    obtain ⟨rfl, rfl, k1⟩ := atom_near (Γ' := Γ') ha.1 h h1
    replace he := X_bind_eq_ok he
    obtain ⟨w, e2, m2', h2, he⟩ := he
    obtain ⟨rfl, rfl, k2⟩ := atoms_near (Γ' := Γ') es ha.2 h h2
    cases he
    refine ⟨rfl, rfl, ?_⟩
    rw [X_bind_ok k1, X_bind_ok k2]
    rfl

theorem members_near : (es : List (ITy × Expr)) → es.all (fun p => atomE x y p.2) = true → Near x y env1 m1 env2 m2 → evalMembers Γ es env1 m1 = .ok vs env' m' →
    env' = env1 ∧ (∃ b, m' = { m1 with sovf := b }) ∧ ∃ b, evalMembers Γ' es env2 m2 = .ok vs env2 { m2 with sovf := b }
  | [], _, _, he => by rw [evalMembers] at he ⊢; cases he; exact ⟨rfl, ⟨_, rfl⟩, _, rfl⟩
  | (t, e) :: es, ha, h, he => by
    rw [List.all_cons, Bool.and_eq_true] at ha
    rw [evalMembers] at he ⊢
    replace he := X_bind_eq_ok he
    obtain ⟨u, e1, m1', h1, he⟩ := he
    obtain ⟨rfl, rfl, k1⟩ := atom_near (Γ' := Γ') ha.1 h h1
    replace he := X_bind_eq_ok he
    obtain ⟨n, e2, m2', h2, he⟩ := he
    obtain ⟨rfl, ⟨b2, rfl⟩, k2⟩ := local_memberVal.run _ _ _ _ _ h2
    obtain ⟨c2, k2⟩ := k2 env2 m2
    replace he := X_bind_eq_ok he
    obtain ⟨w, e3, m3', h3, he⟩ := he
    obtain ⟨rfl, ⟨b3, rfl⟩, c3, k3⟩ := members_near (Γ' := Γ') es ha.2 (h.note b2 c2) h3
    cases he
    refine ⟨rfl, ⟨b3, rfl⟩, c3, ?_⟩
    rw [X_bind_ok k1, X_bind_ok k2, X_bind_ok k3]
    rfl

/-- Statements that write through the pointer `p`. -/
def hits (x y : Option Nat) (p : Expr → Bool) : Stmt → Bool
  | .stRec e ps is => p e && ps.all (atomE x y) && is.all (fun q => atomE x y q.2)
  | .stDeref t e v => p e && tameE x y v && decide (t ≠ .bit)
  | .memset e c n => p e && tameE x y c && tameE x y n
  | .memcpy e s n => p e && tameE x y s && tameE x y n
  | .stElem e k v => p e && tameE x y k && tameE x y v
  | _ => false

theorem asInt_again (h : asInt v env m = .ok r env' m') : env' = env ∧ m' = m ∧ ∀ e2 m2, asInt v e2 m2 = .ok r e2 m2 := by
  unfold asInt at h ⊢
  split at h <;> cases h
  exact ⟨rfl, rfl, fun _ _ => rfl⟩

theorem asNat_again (h : asNat v env m = .ok r env' m') : env' = env ∧ m' = m ∧ ∀ e2 m2, asNat v e2 m2 = .ok r e2 m2 := by
  unfold asNat at h ⊢
  replace h := X_bind_eq_ok h
  obtain ⟨n, e1, m1, h1, h⟩ := h
  obtain ⟨rfl, rfl, k⟩ := asInt_again h1
  split at h
  · cases h
  · next hn =>
    cases h
    refine ⟨rfl, rfl, fun e2 m2 => ?_⟩
    rw [X_bind_ok (k e2 m2), if_neg hn]
    rfl

theorem bind_bad {x : X α} {f : α → X β} (h : x env m = .bad b) : (x >>= f) env m = .bad b := by rw [X_bind, h]

theorem getBlock_null : getBlock (.heap 0) env m = .bad .null := rfl

theorem storePtr_null : storePtr nullPtr i w env m = .bad .null := rfl

theorem storeRec_null : storeRec nullPtr vs ns env m = .bad .null := rfl

theorem target_null : target nullPtr env m = .bad .null := rfl

theorem storeNum_null (t : ITy) (ht : t ≠ .bit) : storeNum t nullPtr n env m = .bad .null := by
  have h : leBytes t.size (t.toBits n) ≠ [] := by
    cases t with
    | bit => exact absurd rfl ht
    | _ => intro h; cases h
  unfold storeNum storeBytes
  rw [nullPtr, asPtr, X_bind_ok (X_pure _ _ _)]
  simp only
  rw [if_neg h]
  exact bind_bad getBlock_null

theorem hit_near {P : Expr → Bool} (hp : ∀ e, P e = true → NullAt e env2 m2) (hs : hits x y P s = true) (h : Near x y env1 m1 env2 m2)
    (he : exec Γ k s env1 m1 = .ok o env' m') (hq : ∀ e, P e = true → ∀ v e' m'', eval Γ e env1 m1 = .ok v e' m'' → e' = env1 ∧ m'' = m1)
    (hq' : ∀ e, P e = true → ∀ b v e' m'', eval Γ e env1 { m1 with sovf := b } = .ok v e' m'' → e' = env1 ∧ m'' = { m1 with sovf := b }) :
    exec Γ' k s env2 m2 = .bad .null := by
  unfold hits at hs
  split at hs
  · simp only [Bool.and_eq_true] at hs
    rw [exec] at he ⊢
    replace he := X_bind_eq_ok he
    obtain ⟨p, e1, m1', h1, he⟩ := he
    obtain ⟨rfl, rfl⟩ := hq _ hs.1.1 _ _ _ h1
    replace he := X_bind_eq_ok he
    obtain ⟨vs, e2, m2', h2, he⟩ := he
    obtain ⟨rfl, rfl, k2⟩ := atoms_near (Γ' := Γ') _ hs.1.2 h h2
    replace he := X_bind_eq_ok he
    obtain ⟨ns, e3, m3', h3, he⟩ := he
    obtain ⟨rfl, ⟨b3, rfl⟩, c3, k3⟩ := members_near (Γ' := Γ') _ hs.2 h h3
    rw [X_bind_ok (hp _ hs.1.1).run, X_bind_ok k2, X_bind_ok k3]
    exact bind_bad storeRec_null
  · simp only [Bool.and_eq_true] at hs
    rw [exec] at he ⊢
    replace he := X_bind_eq_ok he
    obtain ⟨u, e0, m0', h0, he⟩ := he
    obtain ⟨rfl, ⟨b0, rfl⟩, c0, k0⟩ := tame_near (Γ' := Γ') hs.1.2 h h0
    replace he := X_bind_eq_ok he
    obtain ⟨w, e1, m1', h1, he⟩ := he
    obtain ⟨rfl, rfl, k1⟩ := asInt_again h1
    rw [X_bind_ok k0, X_bind_ok (k1 _ _), X_bind_ok ((hp _ hs.1.1).note c0).run]
    exact bind_bad (storeNum_null _ (of_decide_eq_true hs.2))
  · simp only [Bool.and_eq_true] at hs
    rw [exec] at he ⊢
    replace he := X_bind_eq_ok he
    obtain ⟨p, e1, m1', h1, he⟩ := he
    obtain ⟨rfl, rfl⟩ := hq _ hs.1.1 _ _ _ h1
    replace he := X_bind_eq_ok he
    obtain ⟨u, e0, m0', h0, he⟩ := he
    obtain ⟨rfl, ⟨b0, rfl⟩, c0, k0⟩ := tame_near (Γ' := Γ') hs.1.2 h h0
    replace he := X_bind_eq_ok he
    obtain ⟨w, e2, m2', h2, he⟩ := he
    obtain ⟨rfl, rfl, k1⟩ := asInt_again h2
    replace he := X_bind_eq_ok he
    obtain ⟨u3, e4, m4', h4, he⟩ := he
    obtain ⟨rfl, ⟨b4, rfl⟩, c4, k4⟩ := tame_near (Γ' := Γ') hs.2 (h.note b0 c0) h4
    replace he := X_bind_eq_ok he
    obtain ⟨n, e3, m3', h3, he⟩ := he
    obtain ⟨rfl, rfl, k3⟩ := asNat_again h3
    rw [X_bind_ok (hp _ hs.1.1).run, X_bind_ok k0, X_bind_ok (k1 _ _), X_bind_ok k4, X_bind_ok (k3 _ _)]
    exact bind_bad target_null
  · simp only [Bool.and_eq_true] at hs
    rw [exec] at he ⊢
    replace he := X_bind_eq_ok he
    obtain ⟨p, e1, m1', h1, he⟩ := he
    obtain ⟨rfl, rfl⟩ := hq _ hs.1.1 _ _ _ h1
    replace he := X_bind_eq_ok he
    obtain ⟨w, e2, m2', h2, he⟩ := he
    obtain ⟨rfl, ⟨b0, rfl⟩, c0, k0⟩ := tame_near (Γ' := Γ') hs.1.2 h h2
    replace he := X_bind_eq_ok he
    obtain ⟨u3, e4, m4', h4, he⟩ := he
    obtain ⟨rfl, ⟨b4, rfl⟩, c4, k4⟩ := tame_near (Γ' := Γ') hs.2 (h.note b0 c0) h4
    replace he := X_bind_eq_ok he
    obtain ⟨n, e3, m3', h3, he⟩ := he
    obtain ⟨rfl, rfl, k3⟩ := asNat_again h3
    rw [X_bind_ok (hp _ hs.1.1).run, X_bind_ok k0, X_bind_ok k4, X_bind_ok (k3 _ _)]
    exact bind_bad target_null
  · simp only [Bool.and_eq_true] at hs
    rw [exec] at he ⊢
    replace he := X_bind_eq_ok he
    obtain ⟨w, e2, m2', h2, he⟩ := he
    obtain ⟨rfl, ⟨b0, rfl⟩, c0, k0⟩ := tame_near (Γ' := Γ') hs.2 h h2
    replace he := X_bind_eq_ok he
    obtain ⟨p, e1, m1', h1, he⟩ := he
    obtain ⟨rfl, rfl⟩ := hq' _ hs.1.1 _ _ _ _ h1
    replace he := X_bind_eq_ok he
    obtain ⟨u3, e4, m4', h4, he⟩ := he
    obtain ⟨rfl, ⟨b4, rfl⟩, c4, k4⟩ := tame_near (Γ' := Γ') hs.1.2 (h.note b0 c0) h4
    replace he := X_bind_eq_ok he
    obtain ⟨n, e3, m3', h3, he⟩ := he
    obtain ⟨rfl, rfl, k3⟩ := asNat_again h3
    rw [X_bind_ok k0, X_bind_ok ((hp _ hs.1.1).note c0).run, X_bind_ok k4, X_bind_ok (k3 _ _)]
    exact bind_bad storePtr_null
  · cases hs

end Sml.C
