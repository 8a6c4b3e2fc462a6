import Verif.Proofs.ContractPrim

/-!
# What results look like

`Wlp m st Q`: if running `m` from `st` is defined, result and state satisfy `Q`.
-/

namespace Sml

def Wlp (m : M α) (st : St) (Q : α → St → Prop) : Prop :=
  ∀ a s, m st = .ok a s → Q a s

theorem Post.andWlp {m : M α} {st : St} {Q R : α → St → Prop}
    (h : Post m st Q) (h' : Wlp m st R) : Post m st (fun a s => Q a s ∧ R a s) := by
  rw [post_iff] at *
  obtain ⟨a, s, e, q⟩ := h
  exact ⟨a, s, e, q, h' a s e⟩

theorem Post.wlp {m : M α} {st : St} {Q : α → St → Prop} (h : Post m st Q) : Wlp m st Q := by
  rw [post_iff] at h
  obtain ⟨a, s, e, q⟩ := h
  intro a' s' e'
  rw [e] at e'; cases e'; exact q

theorem Wlp.mono {m : M α} {st : St} {Q R : α → St → Prop}
    (h : Wlp m st Q) (hqr : ∀ a s, Q a s → R a s) : Wlp m st R :=
  fun a s e => hqr a s (h a s e)

@[simp] theorem wlp_pure {a : α} {st : St} {Q : α → St → Prop} :
    Wlp (pure a) st Q ↔ Q a st := by
  constructor
  · intro h; exact h a st rfl
  · intro h a' s' e; cases e; exact h

@[simp] theorem wlp_bind {m : M α} {f : α → M β} {st : St} {Q : β → St → Prop} :
    Wlp (m >>= f) st Q ↔ Wlp m st (fun a s => Wlp (f a) s Q) := by
  have e : ∀ r, (m >>= f) st = r ↔ M.bind m f st = r := fun _ => Iff.rfl
  unfold Wlp
  simp only [e]
  unfold M.bind
  constructor
  · intro h a s h1 b s' h2
    apply h; rw [h1]; exact h2
  · intro h b s h1
    cases hm : m st with
    | ok a s' => rw [hm] at h1; exact h a s' hm b s h1
    | ub r => rw [hm] at h1; cases h1

@[simp] theorem wlp_ite {c : Prop} [Decidable c] {a b : M α} {st : St} {Q : α → St → Prop} :
    Wlp (if c then a else b) st Q ↔ (c → Wlp a st Q) ∧ (¬c → Wlp b st Q) := by
  split <;> simp_all

@[simp] theorem wlp_undef {r : Ub} {st : St} {Q : α → St → Prop} : Wlp (undef r) st Q := by
  intro a s h; cases h

@[simp] theorem wlp_getSt {st : St} {Q : St → St → Prop} : Wlp getSt st Q ↔ Q st st := by
  constructor
  · intro h; exact h _ _ rfl
  · intro h _ _ e; cases e; exact h

@[simp] theorem wlp_modSt {f : St → St} {st : St} {Q : Unit → St → Prop} :
    Wlp (modSt f) st Q ↔ Q () (f st) := by
  constructor
  · intro h; exact h _ _ rfl
  · intro h _ _ e; cases e; exact h

@[simp] theorem wlp_alloc {n : Nat} {st : St} {Q : Unit → St → Prop} :
    Wlp (alloc n) st Q ↔ Q () { st with live := st.live + n } := wlp_modSt

@[simp] theorem wlp_release {n : Nat} {st : St} {Q : Unit → St → Prop} :
    Wlp (release n) st Q ↔ (n ≤ st.live → Q () { st with live := st.live - n }) := by
  unfold Wlp release
  by_cases h : n ≤ st.live
  · simp only [h, if_true, true_implies]
    constructor
    · intro h; exact h _ _ rfl
    · intro h _ _ e; cases e; exact h
  · simp [h]

@[simp] theorem wlp_noteOvf {b : Bool} {st : St} {Q : Unit → St → Prop} :
    Wlp (noteOvf b) st Q ↔ Q () { st with sovf := st.sovf || b } := wlp_modSt

@[simp] theorem wlp_setError {st : St} {Q : Unit → St → Prop} :
    Wlp setError st Q ↔ Q () { st with error := true } := wlp_modSt

@[simp] theorem wlp_hasErrors {st : St} {Q : Bool → St → Prop} :
    Wlp hasErrors st Q ↔ Q st.error st := by
  constructor
  · intro h; exact h _ _ rfl
  · intro h _ _ e; cases e; exact h

@[simp] theorem wlp_updateBytesRead {n : Nat} {st : St} {Q : Unit → St → Prop} :
    Wlp (updateBytesRead n) st Q ↔ Q () { st with cursor := st.cursor + n } := wlp_modSt

@[simp] theorem wlp_getCurrentByte {st : St} {Q : UInt8 → St → Prop} :
    Wlp getCurrentByte st Q ↔ ∀ h : st.cursor < st.data.length, Q st.data[st.cursor] st := by
  unfold Wlp getCurrentByte
  by_cases h : st.cursor < st.data.length
  · simp only [List.getElem?_eq_getElem h]
    constructor
    · intro h' _; exact h' _ _ rfl
    · intro h' _ _ e; cases e; exact h' h
  · simp [h]

@[simp] theorem wlp_readBytes {n : Nat} {st : St} {Q : List UInt8 → St → Prop} :
    Wlp (readBytes n) st Q ↔
      (st.cursor + n ≤ st.data.length → Q ((st.data.drop st.cursor).take n) st) := by
  unfold Wlp readBytes
  by_cases h : st.cursor + n ≤ st.data.length
  · simp only [h, if_true, true_implies]
    constructor
    · intro h'; exact h' _ _ rfl
    · intro h' _ _ e; cases e; exact h'
  · simp [h]

@[simp] theorem wlp_failWith {own : Nat} {st : St} {Q : Option α → St → Prop} :
    Wlp (failWith own) st Q ↔
      (own ≤ st.live → Q none { st with error := true, live := st.live - own }) := by
  simp [failWith]

/-! ## Error from a clean start means NULL; no error means not NULL -/

/-- Started without error, the code returns NULL if it ends with an error. -/
def Clean (p : M (Option α)) : Prop :=
  ∀ st, st.error = false → Wlp p st fun a s => s.error = true → a = none

/-- The code never returns NULL without setting the error flag. -/
def Sure (p : M (Option α)) : Prop :=
  ∀ st, Wlp p st fun a s => s.error = false → a ≠ none

/-- Whatever happens, the result satisfies `P`. -/
def Inv (p : M α) (P : α → Prop) : Prop :=
  ∀ st, Wlp p st fun a _ => P a

theorem Leaf.clean {p : M (Option α)} {fr : Option α → Nat} (h : Leaf p fr) :
    ∀ st, st.cursor ≤ st.data.length → st.error = false →
      Wlp p st fun a s => s.error = true → a = none := by
  intro st hb he
  exact (h st hb).wlp.mono fun a s ⟨_, _, _, _, _, h6⟩ => h6 he

theorem clean_pure {a : α} : Clean (pure (some a)) := by
  intro st he; simp [he]

theorem clean_field {p : M α} {set : α → R} {freed : R → Nat} {k : R → M (Option β)}
    (hk : ∀ v, Clean (k (set v))) : Clean (field p set freed k) := by
  intro st he
  unfold field
  simp only [wlp_bind, wlp_hasErrors, wlp_ite, wlp_release, wlp_pure]
  intro v s _
  refine ⟨fun h _ => by simp, fun h => ?_⟩
  exact hk v s (by simpa using h)

theorem wlp_getNextType {st : St} {Q : Nat → St → Prop}
    (h1 : st.data.length ≤ st.cursor → Q 0x100 { st with error := true })
    (h2 : ∀ h : st.cursor < st.data.length, Q (st.data[st.cursor].toNat &&& 0x70) st) :
    Wlp getNextType st Q :=
  (post_getNextType.2 ⟨h1, h2⟩).wlp

theorem clean_expectList {n : Int} {own : Nat} {k : M (Option α)} (hn : 0 ≤ n) (hk : Clean k) :
    Clean (expectList n own k) := by
  intro st he
  unfold expectList
  simp only [wlp_bind, wlp_ite, wlp_failWith]
  apply wlp_getNextType
  · intro _; simp [tyList]
  · intro hlt
    refine ⟨fun _ => by simp, fun _ => ?_⟩
    refine (getNextLength_post hlt).wlp.mono ?_
    rintro r s ⟨_, _, _, _, h⟩
    refine ⟨fun _ => by simp, fun hr => hk s ?_⟩
    rcases h with h | ⟨_, h⟩
    · rw [h]; exact he
    · simp at hr; omega

theorem clean_node {n : Int} {own : Nat} {k : M (Option α)} (hn : 0 ≤ n) (hk : Clean k) :
    Clean (do alloc 1; expectList n own k) := by
  intro st he
  simp only [wlp_bind, wlp_alloc]
  exact clean_expectList hn hk _ he

theorem sure_pure {a : α} : Sure (pure (some a)) := by
  intro st; simp

theorem sure_field {p : M α} {set : α → R} {freed : R → Nat} {k : R → M (Option β)}
    (hk : ∀ v, Sure (k (set v))) : Sure (field p set freed k) := by
  intro st
  unfold field
  simp only [wlp_bind, wlp_hasErrors, wlp_ite, wlp_release, wlp_pure]
  intro v s _
  refine ⟨fun h _ => by simp [h], fun h => ?_⟩
  exact hk v s

theorem sure_expectList {n : Int} {own : Nat} {k : M (Option α)} (hk : Sure k) :
    Sure (expectList n own k) := by
  intro st
  unfold expectList
  simp only [wlp_bind, wlp_ite, wlp_failWith]
  intro t s _
  refine ⟨fun _ => by simp, fun _ => ?_⟩
  intro r s' _
  exact ⟨fun _ => by simp, fun _ => hk s'⟩

theorem sure_node {n : Int} {own : Nat} {k : M (Option α)} (hk : Sure k) :
    Sure (do alloc 1; expectList n own k) := by
  intro st
  simp only [wlp_bind, wlp_alloc]
  exact sure_expectList hk _

theorem inv_pure {a : α} {P : α → Prop} (h : P a) : Inv (pure a) P := by
  intro st; simpa using h

theorem inv_field {p : M α} {Pp : α → Prop} {set : α → R} {freed : R → Nat} {k : R → M (Option β)}
    {P : Option β → Prop} (hp : Inv p Pp) (hnone : P none) (hk : ∀ v, Pp v → Inv (k (set v)) P) :
    Inv (field p set freed k) P := by
  intro st
  unfold field
  simp only [wlp_bind, wlp_hasErrors, wlp_ite, wlp_release, wlp_pure]
  refine (hp st).mono fun v s hv => ?_
  exact ⟨fun h _ => hnone, fun h => hk v hv s⟩

theorem inv_expectList {n : Int} {own : Nat} {k : M (Option α)} {P : Option α → Prop}
    (hnone : P none) (hk : Inv k P) : Inv (expectList n own k) P := by
  intro st
  unfold expectList
  simp only [wlp_bind, wlp_ite, wlp_failWith]
  intro t s _
  refine ⟨fun _ _ => hnone, fun _ => ?_⟩
  intro r s' _
  exact ⟨fun _ _ => hnone, fun _ => hk s'⟩

theorem inv_node {n : Int} {own : Nat} {k : M (Option α)} {P : Option α → Prop}
    (hnone : P none) (hk : Inv k P) : Inv (do alloc 1; expectList n own k) P := by
  intro st
  simp only [wlp_bind, wlp_alloc]
  exact inv_expectList hnone hk _

theorem inv_optional {p : M (Option α)} {P : Option α → Prop}
    (hnone : P none) (hp : Inv p P) : Inv (optional p) P := by
  intro st
  unfold optional
  simp only [wlp_bind, wlp_ite, wlp_pure]
  intro b s _
  exact ⟨fun _ => hnone, fun _ => hp s⟩

theorem Inv.triv {p : M α} : Inv p fun _ => True := fun _ _ _ _ => trivial

end Sml
