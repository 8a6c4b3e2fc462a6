import Verif.Model.HeapMessage
import Verif.Spec.Heap

/-!
# Reasoning about the addressed heap

`Own n0 c0 h L`: compared with a heap `c0` whose addresses from `n0` on are unused, the heap `h` holds exactly the additional
blocks `L`. `Sim` relates a function on values (`M`) with its version on the heap (`P`), `Frees` says what a free
function does to the blocks of an object.
-/

namespace Sml

structure Own (n0 : Addr) (c0 : Addr → Option HCell) (h : Heap) (L : List Blk) : Prop where
  pos : 0 < n0
  le : n0 ≤ h.next
  base : ∀ a, n0 ≤ a → c0 a = none
  key : ∀ x ∈ L, n0 ≤ x.1 ∧ x.1 < h.next
  nodup : (L.map Prod.fst).Nodup
  mem : ∀ x ∈ L, h.cells x.1 = some x.2
  rest : ∀ a, a ∉ L.map Prod.fst → h.cells a = c0 a

theorem Own.perm (o : Own n0 c0 h L) (p : L.Perm L') : Own n0 c0 h L' where
  pos := o.pos
  le := o.le
  base := o.base
  key := fun x hx => o.key x (p.mem_iff.mpr hx)
  nodup := (p.map Prod.fst).nodup_iff.mp o.nodup
  mem := fun x hx => o.mem x (p.mem_iff.mpr hx)
  rest := fun a ha => o.rest a (fun hc => ha ((p.map Prod.fst).mem_iff.mp hc))

theorem Own.fresh (o : Own n0 c0 h L) : ∀ a, h.next ≤ a → h.cells a = none := by
  intro a ha
  rw [o.rest a]
  · exact o.base a (Nat.le_trans o.le ha)
  · intro hc
    obtain ⟨x, hx, rfl⟩ := List.mem_map.mp hc
    have := (o.key x hx).2
    omega

theorem Own.refl (hp : 0 < h.next) (hf : ∀ a, h.next ≤ a → h.cells a = none) : Own h.next h.cells h [] where
  pos := hp
  le := Nat.le_refl _
  base := hf
  key := fun _ hx => absurd hx (List.not_mem_nil)
  nodup := List.nodup_nil
  mem := fun _ hx => absurd hx (List.not_mem_nil)
  rest := fun _ _ => rfl

/-- The heap in front of a call. -/
theorem Own.here (o : Own n0 c0 h L) : Own h.next h.cells h [] :=
  Own.refl (Nat.lt_of_lt_of_le o.pos o.le) o.fresh

theorem Own.trans (o : Own n0 c0 h L) (o' : Own h.next h.cells h' L') : Own n0 c0 h' (L' ++ L) where
  pos := o.pos
  le := Nat.le_trans o.le o'.le
  base := o.base
  key := by
    intro x hx
    rcases List.mem_append.mp hx with hx | hx
    · have := o'.key x hx
      have := o.le
      omega
    · have := o.key x hx
      have := o'.le
      omega
  nodup := by
    rw [List.map_append]
    refine List.nodup_append.mpr ⟨o'.nodup, o.nodup, ?_⟩
    intro a ha b hb
    obtain ⟨x, hx, rfl⟩ := List.mem_map.mp ha
    obtain ⟨y, hy, rfl⟩ := List.mem_map.mp hb
    have := o'.key x hx
    have := o.key y hy
    omega
  mem := by
    intro x hx
    rcases List.mem_append.mp hx with hx | hx
    · exact o'.mem x hx
    · rw [o'.rest x.1]
      · exact o.mem x hx
      · intro hc
        obtain ⟨y, hy, he⟩ := List.mem_map.mp hc
        have := o'.key y hy
        have := o.key x hx
        omega
  rest := by
    intro a ha
    rw [List.map_append, List.mem_append, not_or] at ha
    rw [o'.rest a ha.1, o.rest a ha.2]

theorem setCell_same : setCell cs a c a = c := if_pos rfl
theorem setCell_other (hb : b ≠ a) : setCell cs a c b = cs b := if_neg hb

theorem Own.alloc (o : Own n0 c0 h L) (c : HCell) :
    Own n0 c0 { next := h.next + 1, cells := setCell h.cells h.next (some c) } ((h.next, c) :: L) where
  pos := o.pos
  le := Nat.le_succ_of_le o.le
  base := o.base
  key := by
    intro x hx
    rcases List.mem_cons.mp hx with rfl | hx
    · exact ⟨o.le, Nat.lt_succ_self _⟩
    · exact ⟨(o.key x hx).1, Nat.lt_succ_of_lt (o.key x hx).2⟩
  nodup := by
    rw [List.map_cons, List.nodup_cons]
    refine ⟨?_, o.nodup⟩
    intro hc
    obtain ⟨x, hx, he⟩ := List.mem_map.mp hc
    have := (o.key x hx).2
    simp only at he
    omega
  mem := by
    intro x hx
    rcases List.mem_cons.mp hx with rfl | hx
    · exact setCell_same
    · have := (o.key x hx).2
      exact (setCell_other (by omega)).trans (o.mem x hx)
  rest := by
    intro a ha
    rw [List.map_cons, List.mem_cons, not_or] at ha
    exact (setCell_other ha.1).trans (o.rest a ha.2)

theorem Own.update (o : Own n0 c0 h ((a, c) :: L)) (c' : HCell) :
    Own n0 c0 { h with cells := setCell h.cells a (some c') } ((a, c') :: L) where
  pos := o.pos
  le := o.le
  base := o.base
  key := by
    intro x hx
    rcases List.mem_cons.mp hx with rfl | hx
    · exact o.key (a, c) List.mem_cons_self
    · exact o.key x (List.mem_cons_of_mem _ hx)
  nodup := by
    have := o.nodup
    rwa [List.map_cons] at this ⊢
  mem := by
    intro x hx
    rcases List.mem_cons.mp hx with rfl | hx
    · exact setCell_same
    · have hn := o.nodup
      rw [List.map_cons, List.nodup_cons] at hn
      refine (setCell_other ?_).trans (o.mem x (List.mem_cons_of_mem _ hx))
      intro he
      exact hn.1 (List.mem_map.mpr ⟨x, hx, he⟩)
  rest := by
    intro b hb
    have hb' := hb
    rw [List.map_cons, List.mem_cons, not_or] at hb'
    exact (setCell_other hb'.1).trans (o.rest b hb)

theorem Own.drop (o : Own n0 c0 h ((a, c) :: L)) :
    Own n0 c0 { h with cells := setCell h.cells a none } L where
  pos := o.pos
  le := o.le
  base := o.base
  key := fun x hx => o.key x (List.mem_cons_of_mem _ hx)
  nodup := by
    have hn := o.nodup
    rw [List.map_cons, List.nodup_cons] at hn
    exact hn.2
  mem := by
    intro x hx
    have hn := o.nodup
    rw [List.map_cons, List.nodup_cons] at hn
    refine (setCell_other ?_).trans (o.mem x (List.mem_cons_of_mem _ hx))
    intro he
    exact hn.1 (List.mem_map.mpr ⟨x, hx, he⟩)
  rest := by
    intro b hb
    by_cases he : b = a
    · subst he
      exact setCell_same.trans (o.base _ (o.key (b, c) List.mem_cons_self).1).symm
    · refine (setCell_other he).trans ?_
      exact o.rest b (by
        rw [List.map_cons, List.mem_cons, not_or]
        exact ⟨he, hb⟩)

theorem Own.cell (o : Own n0 c0 h ((a, c) :: L)) : h.cells a = some c := o.mem (a, c) List.mem_cons_self

theorem Own.cell_of_mem (o : Own n0 c0 h L) (hm : (a, c) ∈ L) : h.cells a = some c := o.mem (a, c) hm

theorem Own.ne0 (o : Own n0 c0 h ((a, c) :: L)) : a ≠ 0 := by
  have := (o.key (a, c) List.mem_cons_self).1
  have := o.pos
  simp only at *
  omega

/-! ## Steps on the heap -/

theorem P.bind_ok {m : P α} {f : α → P β} (h : m st hp = .ok a st' hp') : (m >>= f) st hp = f a st' hp' := by
  show P.bind m f st hp = _
  rw [P.bind, h]

theorem P.pure_eq (a : α) (st : St) (h : Heap) : (pure a : P α) st h = .ok a st h := rfl

theorem deref_ok (hne : a ≠ 0) (hc : h.cells a = some c) : deref a st h = .ok c st h := by
  rw [deref, if_neg hne, hc]

theorem store_ok (hne : a ≠ 0) (hc : h.cells a = some c) :
    store a c' st h = .ok () st { h with cells := setCell h.cells a (some c') } := by
  exact P.bind_ok (deref_ok hne hc)

theorem free_ok (hne : a ≠ 0) (hc : h.cells a = some c) :
    free a st h = .ok () st { h with cells := setCell h.cells a none } := by
  rw [free, if_neg hne, hc]

theorem readPtr_ok (hne : a ≠ 0) (hc : h.cells a = some (.struct ps is)) (hi : ps[i]? = some p) :
    readPtr a i st h = .ok p st h := by
  rw [readPtr, P.bind_ok (deref_ok hne hc)]
  simp only [hi]
  rfl

theorem readInt_ok (hne : a ≠ 0) (hc : h.cells a = some (.struct ps is)) (hi : is[i]? = some n) :
    readInt a i st h = .ok n st h := by
  rw [readInt, P.bind_ok (deref_ok hne hc)]
  simp only [hi]
  rfl

theorem readNum_ok (hne : a ≠ 0) (hc : h.cells a = some (.num n)) : readNum a st h = .ok n st h := by
  rw [readNum, P.bind_ok (deref_ok hne hc)]
  rfl

theorem readTag_ok (hne : a ≠ 0) (hc : h.cells a = some (.num n)) (hn : Sized w n) : readTag w a st h = .ok n st h := by
  rw [readTag, P.bind_ok (readNum_ok hne hc), if_pos (show n.size = w ∧ n.val < 256 ^ w from hn)]
  rfl

theorem writePtr_ok (hne : a ≠ 0) (hc : h.cells a = some (.struct ps is)) (hi : i < ps.length) :
    writePtr a i v st h = .ok () st { h with cells := setCell h.cells a (some (.struct (ps.set i v) is)) } := by
  rw [writePtr, P.bind_ok (deref_ok hne hc)]
  simp only [hi, if_true]
  exact store_ok hne hc

theorem writeInt_ok (hne : a ≠ 0) (hc : h.cells a = some (.struct ps is)) (hi : i < is.length) :
    writeInt a i v st h = .ok () st { h with cells := setCell h.cells a (some (.struct ps (is.set i v))) } := by
  rw [writeInt, P.bind_ok (deref_ok hne hc)]
  simp only [hi, if_true]
  exact store_ok hne hc

/-! ## Objects as values and as blocks -/

theorem Fields.length : ∀ {rs ps B}, Fields rs ps B → ps.length = rs.length
  | [], _, _, h => by rw [h.1]; rfl
  | r :: rs, _, _, ⟨p, ps', B1, B2, hps, _, hf, _⟩ => by
    rw [hps, List.length_cons, List.length_cons, hf.length]

theorem Fields.append : ∀ {rs ps B rs' ps' B'}, Fields rs ps B → Fields rs' ps' B' →
    Fields (rs ++ rs') (ps ++ ps') (B ++ B')
  | [], _, _, _, _, _, h, h' => by
    rw [h.1, h.2]
    exact h'
  | r :: rs, _, _, _, _, _, ⟨p, ps1, B1, B2, hps, hr, hf, hB⟩, h' => by
    rw [hps, hB]
    exact ⟨p, _, B1, _, rfl, hr, hf.append h', by rw [List.append_assoc]⟩

theorem Fields.single {r : Rep} (h : r a B) : Fields [r] [a] B :=
  ⟨a, [], B, [], rfl, h, ⟨rfl, rfl⟩, by rw [List.append_nil]⟩

/-- Replace a NULL member. -/
theorem Fields.set : ∀ {rs ps B} (i : Nat) {r : Rep}, Fields rs ps B → rs[i]? = some nullRep → r p Bp →
    ∃ B', Fields (rs.set i r) (ps.set i p) B' ∧ B'.Perm (Bp ++ B)
  | [], _, _, i, _, _, hi, _ => by simp at hi
  | r0 :: rs, _, _, 0, r, ⟨p0, ps', B1, B2, hps, hr, hf, hB⟩, hi, hp => by
    simp only [List.getElem?_cons_zero, Option.some.injEq] at hi
    subst hi
    obtain ⟨_, rfl⟩ := hr
    subst hps
    refine ⟨Bp ++ B2, ⟨p, ps', Bp, B2, rfl, hp, hf, rfl⟩, ?_⟩
    rw [hB, List.nil_append]
  | r0 :: rs, _, _, i + 1, r, ⟨p0, ps', B1, B2, hps, hr, hf, hB⟩, hi, hp => by
    simp only [List.getElem?_cons_succ] at hi
    subst hps hB
    obtain ⟨B', hf', hperm⟩ := hf.set i hi hp
    refine ⟨B1 ++ B', ⟨p0, _, B1, B', rfl, hr, hf', rfl⟩, ?_⟩
    refine (hperm.append_left B1).trans ?_
    rw [← List.append_assoc, ← List.append_assoc]
    exact List.perm_append_comm.append_right B2

theorem Fields.get : ∀ {rs ps B} (i : Nat), Fields rs ps B → rs[i]? = some r →
    ∃ p B1 B2, ps[i]? = some p ∧ r p B1 ∧ B.Perm (B1 ++ B2)
  | [], _, _, i, _, hi => by simp at hi
  | r0 :: rs, _, _, 0, ⟨p0, ps', B1, B2, hps, hr, hf, hB⟩, hi => by
    simp only [List.getElem?_cons_zero, Option.some.injEq] at hi
    subst hi hps hB
    exact ⟨p0, B1, B2, rfl, hr, List.Perm.refl _⟩
  | r0 :: rs, _, _, i + 1, ⟨p0, ps', B1, B2, hps, hr, hf, hB⟩, hi => by
    simp only [List.getElem?_cons_succ] at hi
    subst hps hB
    obtain ⟨p, C1, C2, hp, hr', hperm⟩ := hf.get i hi
    refine ⟨p, C1, B1 ++ C2, hp, hr', ?_⟩
    refine (hperm.append_left B1).trans ?_
    rw [← List.append_assoc, ← List.append_assoc]
    exact List.perm_append_comm.append_right C2

/-! ## Simulation -/

/-- The buffer without its ghost components. -/
def St.dry (s : St) : St := { s with live := 0, confused := false }

/-- `pm` on the heap does what `m` does on values: from a heap with own blocks `B0` (and blocks `g0` that nothing refers to
any more) it gives a result that represents the value, its blocks and further unreferenced blocks; the counter
`live` of `m` moves by the number of blocks. -/
def Sim (B0 : List Blk) (m : M α) (pm : P β) (R : α → β → List Blk → Prop) : Prop :=
  ∀ s n0 c0 h g0, Own n0 c0 h (B0 ++ g0) → ∀ v s', m s = .ok v s' →
    ∃ p h' B g, pm s.dry h = .ok p s'.dry h' ∧ R v p B ∧ Own n0 c0 h' (B ++ g) ∧
      s'.live + (B0.length + g0.length) = s.live + (B.length + g.length)

/-- `f` releases an object: what remains of its blocks are `B.length - c` blocks. Nothing else changes. -/
def Frees (f : Addr → P Unit) (r : Rep) (c : Nat) : Prop :=
  ∀ a B, r a B → ∀ st n0 c0 h L, Own n0 c0 h (B ++ L) →
    ∃ h' g, f a st h = .ok () st h' ∧ Own n0 c0 h' (g ++ L) ∧ g.length + c = B.length

theorem M.bind_eq_ok {m : M α} {f : α → M β} {s s' : St} {b : β} (h : (m >>= f) s = .ok b s') :
    ∃ a s1, m s = .ok a s1 ∧ f a s1 = .ok b s' := by
  change M.bind m f s = _ at h
  rw [M.bind] at h
  split at h
  · exact ⟨_, _, ‹_›, h⟩
  · exact absurd h (by simp)

theorem M.pure_eq_ok {a b : α} {s s' : St} (h : (pure a : M α) s = .ok b s') : a = b ∧ s = s' := by
  change Res.ok a s = .ok b s' at h
  cases h
  exact ⟨rfl, rfl⟩

theorem Sim.bind {m : M α} {pm : P β} {k : α → M γ} {pk : β → P δ} {R : α → β → List Blk → Prop}
    (h1 : Sim B0 m pm R) (h2 : ∀ v p B, R v p B → Sim B (k v) (pk p) R') :
    Sim B0 (m >>= k) (pm >>= pk) R' := by
  intro s n0 c0 h g0 o v s' hm
  obtain ⟨a, s1, e1, e2⟩ := M.bind_eq_ok hm
  obtain ⟨p, h1', B, g, ep, hR, o1, l1⟩ := h1 s n0 c0 h g0 o a s1 e1
  obtain ⟨p2, h2', B2, g2, ep2, hR2, o2, l2⟩ := h2 a p B hR s1 n0 c0 h1' g o1 v s' e2
  refine ⟨p2, h2', B2, g2, ?_, hR2, o2, by omega⟩
  rw [P.bind_ok ep, ep2]

theorem Sim.ret {R : α → β → List Blk → Prop} (hR : R v p B) : Sim B (pure v) (pure p) R := by
  intro s n0 c0 h g0 o v' s' hm
  obtain ⟨rfl, rfl⟩ := M.pure_eq_ok hm
  exact ⟨p, h, B, g0, rfl, hR, o, rfl⟩

theorem Sim.weaken {R R' : α → β → List Blk → Prop} (h1 : Sim B0 m pm R) (hw : ∀ v p B, R v p B → R' v p B) :
    Sim B0 m pm R' := by
  intro s n0 c0 h g0 o v s' hm
  obtain ⟨p, h', B, g, e, hR, o', l⟩ := h1 s n0 c0 h g0 o v s' hm
  exact ⟨p, h', B, g, e, hw _ _ _ hR, o', l⟩

theorem Sim.perm {R : α → β → List Blk → Prop} (hp : B0.Perm B1) (h1 : Sim B1 m pm R) : Sim B0 m pm R := by
  intro s n0 c0 h g0 o v s' hm
  obtain ⟨p, h', B, g, e, hR, o', l⟩ := h1 s n0 c0 h g0 (o.perm (hp.append_right g0)) v s' hm
  exact ⟨p, h', B, g, e, hR, o', by rw [← hp.length_eq] at l; exact l⟩

/-- Blocks may be given up. -/
theorem Sim.forget {R : α → β → List Blk → Prop} (h1 : Sim B1 m pm R) : Sim (B1 ++ D) m pm R := by
  intro s n0 c0 h g0 o v s' hm
  rw [List.append_assoc] at o
  obtain ⟨p, h', B, g, e, hR, o', l⟩ := h1 s n0 c0 h (D ++ g0) o v s' hm
  refine ⟨p, h', B, g, e, hR, o', ?_⟩
  rw [List.length_append] at l ⊢
  omega

/-- A call leaves the caller's blocks alone. -/
theorem Sim.frame {R : α → β → List Blk → Prop} (h1 : Sim [] m pm R) :
    Sim B0 m pm (fun v p B => ∃ B1, R v p B1 ∧ B = B1 ++ B0) := by
  intro s n0 c0 h g0 o v s' hm
  obtain ⟨p, h', B, g, e, hR, o', l⟩ := h1 s h.next h.cells h [] o.here v s' hm
  refine ⟨p, h', B ++ B0, g ++ g0, e, ⟨B, hR, rfl⟩, ?_, ?_⟩
  · refine (o.trans o').perm ?_
    rw [List.append_assoc, List.append_assoc]
    refine List.Perm.append_left B ?_
    rw [← List.append_assoc, ← List.append_assoc]
    exact List.perm_append_comm.append_right g0
  · simp only [List.length_append, List.length_nil] at l ⊢
    omega

/-- Like `bind`, with the caller's blocks kept aside during the first part. -/
theorem Sim.call {m : M α} {pm : P β} {k : α → M γ} {pk : β → P δ} {R : α → β → List Blk → Prop}
    (h1 : Sim [] m pm R) (h2 : ∀ v p B, R v p B → Sim (B ++ B0) (k v) (pk p) R') :
    Sim B0 (m >>= k) (pm >>= pk) R' := by
  refine Sim.bind h1.frame ?_
  rintro v p B ⟨B1, hR, rfl⟩
  exact h2 v p B1 hR

/-- Code on the buffer that neither reads nor writes the ghost components. -/
def Dry (m : M α) : Prop := ∀ s v s', m s = .ok v s' → m s.dry = .ok v s'.dry ∧ s'.live = s.live

theorem Dry.sim {m : M α} {k : α → M γ} {pk : α → P δ} (hd : Dry m) (h2 : ∀ v, Sim B0 (k v) (pk v) R) :
    Sim B0 (m >>= k) (lift m >>= pk) R := by
  intro s n0 c0 h g0 o v s' hm
  obtain ⟨a, s1, e1, e2⟩ := M.bind_eq_ok hm
  obtain ⟨ed, el⟩ := hd _ _ _ e1
  obtain ⟨p2, h2', B2, g2, ep2, hR2, o2, l2⟩ := h2 a s1 n0 c0 h g0 o v s' e2
  refine ⟨p2, h2', B2, g2, ?_, hR2, o2, by omega⟩
  rw [P.bind_ok (a := a) (st' := s1.dry) (hp' := h) (by rw [lift, ed]), ep2]

theorem Dry.simPost {m : M α} {k : α → M γ} {pk : α → P δ} {Q : α → Prop} (hd : Dry m) (hq : ∀ s v s', m s = .ok v s' → Q v)
    (h2 : ∀ v, Q v → Sim B0 (k v) (pk v) R) : Sim B0 (m >>= k) (lift m >>= pk) R := by
  intro s n0 c0 h g0 o v s' hm
  obtain ⟨a, s1, e1, e2⟩ := M.bind_eq_ok hm
  obtain ⟨ed, el⟩ := hd _ _ _ e1
  obtain ⟨p2, h2', B2, g2, ep2, hR2, o2, l2⟩ := h2 a (hq _ _ _ e1) s1 n0 c0 h g0 o v s' e2
  refine ⟨p2, h2', B2, g2, ?_, hR2, o2, by omega⟩
  rw [P.bind_ok (a := a) (st' := s1.dry) (hp' := h) (by rw [lift, ed]), ep2]

theorem Sim.getSt {k : St → M γ} {pk : St → P δ} (h2 : ∀ s, Sim B0 (k s) (pk s.dry) R) :
    Sim B0 (getSt >>= k) (lift getSt >>= pk) R := by
  intro s n0 c0 h g0 o v s' hm
  exact h2 s s n0 c0 h g0 o v s' hm

theorem Sim.undef {R : α → β → List Blk → Prop} : Sim B0 (undef r) pm R := by
  intro s n0 c0 h g0 o v s' hm
  exact absurd hm (by simp [Sml.undef])

theorem Sim.alloc {k : M γ} {pk : Addr → P δ} (h2 : ∀ a, a ≠ 0 → Sim ((a, c) :: B0) k (pk a) R) :
    Sim B0 (Sml.alloc 1 >>= fun _ => k) (malloc c >>= pk) R := by
  intro s n0 c0 h g0 o v s' hm
  have hne : h.next ≠ 0 := Nat.pos_iff_ne_zero.mp (Nat.lt_of_lt_of_le o.pos o.le)
  obtain ⟨p2, h2', B2, g2, ep2, hR2, o2, l2⟩ :=
    h2 h.next hne { s with live := s.live + 1 } n0 c0 _ g0 (o.alloc c) v s' hm
  refine ⟨p2, h2', B2, g2, ep2, hR2, o2, ?_⟩
  simp only [List.length_cons] at l2
  omega

theorem P.pure_bind_eq (x : α) (f : α → P β) : (Pure.pure x >>= f) = f x := rfl

/-- A step on the heap alone. -/
theorem Sim.step {pm : P β} {pk : β → P δ}
    (h1 : ∀ st n0 c0 h L, Own n0 c0 h (B0 ++ L) →
      ∃ h' , pm st h = .ok p st h' ∧ Own n0 c0 h' (B1 ++ L))
    (hl : B1.length = B0.length)
    (h2 : Sim B1 m (pk p) R) : Sim B0 m (pm >>= pk) R := by
  intro s n0 c0 h g0 o v s' hm
  obtain ⟨h', e, o'⟩ := h1 s.dry n0 c0 h g0 o
  obtain ⟨p2, h2', B2, g2, ep2, hR2, o2, l2⟩ := h2 s n0 c0 h' g0 o' v s' hm
  exact ⟨p2, h2', B2, g2, by rw [P.bind_ok e, ep2], hR2, o2, by rw [← hl]; exact l2⟩

theorem Sim.store (hne : a ≠ 0) (h2 : Sim ((a, c') :: B0) m (pk ()) R) :
    Sim ((a, c) :: B0) m (Sml.store a c' >>= pk) R := by
  refine Sim.step (B1 := (a, c') :: B0) ?_ rfl h2
  intro st n0 c0 h L o
  exact ⟨_, store_ok hne o.cell, o.update c'⟩

theorem Sim.writePtr (hne : a ≠ 0) (hi : i < ps.length)
    (h2 : Sim ((a, .struct (ps.set i x) is) :: B0) m (pk ()) R) :
    Sim ((a, .struct ps is) :: B0) m (Sml.writePtr a i x >>= pk) R := by
  refine Sim.step (B1 := (a, .struct (ps.set i x) is) :: B0) (pk := pk) (p := ()) ?_ rfl h2
  intro st n0 c0 h L o
  exact ⟨_, writePtr_ok hne o.cell hi, o.update _⟩

theorem Sim.writeInt (hne : a ≠ 0) (hi : i < is.length)
    (h2 : Sim ((a, .struct ps (is.set i x)) :: B0) m (pk ()) R) :
    Sim ((a, .struct ps is) :: B0) m (Sml.writeInt a i x >>= pk) R := by
  refine Sim.step (B1 := (a, .struct ps (is.set i x)) :: B0) (pk := pk) (p := ()) ?_ rfl h2
  intro st n0 c0 h L o
  exact ⟨_, writeInt_ok hne o.cell hi, o.update _⟩

theorem Sim.readPtr (hne : a ≠ 0) (hi : ps[i]? = some x)
    (h2 : Sim ((a, .struct ps is) :: B0) m (pk x) R) :
    Sim ((a, .struct ps is) :: B0) m (Sml.readPtr a i >>= pk) R := by
  refine Sim.step (B1 := _ :: B0) ?_ rfl h2
  intro st n0 c0 h L o
  exact ⟨_, readPtr_ok hne o.cell hi, o⟩

theorem Sim.readInt (hne : a ≠ 0) (hi : is[i]? = some x)
    (h2 : Sim ((a, .struct ps is) :: B0) m (pk x) R) :
    Sim ((a, .struct ps is) :: B0) m (Sml.readInt a i >>= pk) R := by
  refine Sim.step (B1 := _ :: B0) ?_ rfl h2
  intro st n0 c0 h L o
  exact ⟨_, readInt_ok hne o.cell hi, o⟩

theorem Sim.readNum (hne : a ≠ 0) (h2 : Sim ((a, .num x) :: B0) m (pk x) R) :
    Sim ((a, .num x) :: B0) m (Sml.readNum a >>= pk) R := by
  refine Sim.step (B1 := _ :: B0) ?_ rfl h2
  intro st n0 c0 h L o
  exact ⟨_, readNum_ok hne o.cell, o⟩

theorem Sim.readTag (hne : a ≠ 0) (hx : Sized w x) (h2 : Sim ((a, .num x) :: B0) m (pk x) R) :
    Sim ((a, .num x) :: B0) m (Sml.readTag w a >>= pk) R := by
  refine Sim.step (B1 := _ :: B0) ?_ rfl h2
  intro st n0 c0 h L o
  exact ⟨_, readTag_ok hne o.cell hx, o⟩

/-- What is known about the value of `m` by itself. -/
theorem Sim.post {R : α → β → List Blk → Prop} {Q : α → Prop} (h1 : Sim B0 m pm R) (hq : ∀ s v s', m s = .ok v s' → Q v) :
    Sim B0 m pm (fun v p B => R v p B ∧ Q v) := by
  intro s n0 c0 h g0 o v s' hm
  obtain ⟨p, h', B, g, e, hR, o', l⟩ := h1 s n0 c0 h g0 o v s' hm
  exact ⟨p, h', B, g, e, ⟨hR, hq _ _ _ hm⟩, o', l⟩

/-- A free function against `release`. -/
theorem Sim.release {r : Rep} (hf : Frees f r c) (hr : r a B) {pk : Unit → P δ}
    (h2 : Sim D m (pk ()) R) :
    Sim (B ++ D) (Sml.release c >>= fun _ => m) (f a >>= pk) R := by
  intro s n0 c0 h g0 o v s' hm
  obtain ⟨u, s1, e1, e2⟩ := M.bind_eq_ok hm
  rw [List.append_assoc] at o
  obtain ⟨h', g, ef, o', hl⟩ := hf a B hr s.dry n0 c0 h (D ++ g0) o
  rw [Sml.release] at e1
  split at e1
  case isFalse => exact absurd e1 (by simp)
  case isTrue hle =>
    cases e1
    have o'' : Own n0 c0 h' (D ++ (g ++ g0)) := o'.perm (by
      rw [← List.append_assoc, ← List.append_assoc]
      exact List.perm_append_comm.append_right g0)
    obtain ⟨p2, h2', B2, g2, ep2, hR2, o2, l2⟩ := h2 _ n0 c0 h' (g ++ g0) o'' v s' e2
    refine ⟨p2, h2', B2, g2, ?_, hR2, o2, ?_⟩
    · rw [P.bind_ok ef]
      exact ep2
    · simp only [List.length_append] at l2 ⊢
      omega

/-! ## Blocks released -/

theorem Frees.null (hf : ∀ st h, f 0 st h = .ok () st h) : Frees f nullRep 0 := by
  rintro a B ⟨rfl, rfl⟩ st n0 c0 h L o
  exact ⟨h, [], hf st h, o, rfl⟩

theorem Frees.congr {r : Rep} (h : Frees f r c) (hc : c = c') : Frees f r c' := hc ▸ h

/-- Free functions for the members of a structure, with the number of blocks each releases. -/
inductive FreesAll : List (Addr → P Unit) → List Rep → Nat → Prop
  | nil : FreesAll [] [] 0
  | cons : Frees f r c → FreesAll fs rs n → FreesAll (f :: fs) (r :: rs) (c + n)

theorem freeFields_ok : ∀ {fs rs n}, FreesAll fs rs n → ∀ {qs ps ts is B a st n0 c0 h L}, a ≠ 0 → Fields rs ps B →
    Own n0 c0 h ((a, .struct (qs ++ (ps ++ ts)) is) :: (B ++ L)) →
    ∃ h' g, pFreeFields a qs.length fs st h = .ok () st h' ∧ Own n0 c0 h' (g ++ L) ∧ g.length + n = B.length := by
  intro fs rs n hfa
  induction hfa with
  | nil =>
    intro qs ps ts is B a st n0 c0 h L hne hF o
    obtain ⟨rfl, rfl⟩ := hF
    exact ⟨_, [], free_ok hne o.cell, o.drop, rfl⟩
  | @cons f r c fs rs n hf hfs ih =>
    intro qs ps ts is B a st n0 c0 h L hne hF o
    obtain ⟨p, ps', B1, B2, rfl, hr, hF', rfl⟩ := hF
    have o1 : Own n0 c0 h (B1 ++ ((a, .struct (qs ++ ((p :: ps') ++ ts)) is) :: (B2 ++ L))) := o.perm (by
      rw [List.append_assoc]
      exact List.perm_middle.symm)
    obtain ⟨h1, g1, e1, o2, l1⟩ := hf p B1 hr st n0 c0 h _ o1
    have o3 : Own n0 c0 h1 ((a, .struct ((qs ++ [p]) ++ (ps' ++ ts)) is) :: (B2 ++ (g1 ++ L))) := o2.perm (by
      rw [List.append_assoc qs]
      refine List.perm_middle.trans (List.Perm.cons _ ?_)
      rw [← List.append_assoc, ← List.append_assoc]
      exact List.perm_append_comm.append_right L)
    obtain ⟨h2, g2, e2, o4, l2⟩ := ih hne hF' o3
    refine ⟨h2, g2 ++ g1, ?_, ?_, ?_⟩
    · rw [pFreeFields, P.bind_ok (readPtr_ok (p := p) hne o.cell (by simp)), P.bind_ok e1]
      rw [List.length_append] at e2
      exact e2
    · rw [List.append_assoc]
      exact o4
    · rw [List.length_append, List.length_append]
      omega

theorem Frees.struct (hfa : FreesAll fs rs n) : Frees (pFreeStruct fs) (Rec rs is) (n + 1) := by
  rintro a B ⟨ps, B', hF, rfl⟩ st n0 c0 h L o
  have hne := o.ne0
  obtain ⟨h', g, e, o', l⟩ := freeFields_ok (qs := []) (ts := []) hfa hne hF (by rw [List.append_nil]; exact o)
  refine ⟨h', g, ?_, o', ?_⟩
  · rw [pFreeStruct, if_neg hne]
    exact e
  · rw [List.length_cons]
    omega

theorem Frees.structOpt {r : α → Rep} {c : Option α → Nat} (h : ∀ v, Frees (pFreeStruct fs) (r v) (c (some v)))
    (h0 : c none = 0) : ∀ o, Frees (pFreeStruct fs) (repOpt r o) (c o)
  | none => h0 ▸ Frees.null (fun _ _ => rfl)
  | some v => h v

theorem frees_free {r : Rep} (hr : ∀ a B, r a B → ∃ c, B = [(a, c)]) : Frees free r 1 := by
  intro a B hab st n0 c0 h L o
  obtain ⟨c, rfl⟩ := hr a B hab
  exact ⟨_, [], free_ok o.ne0 o.cell, o.drop, rfl⟩

theorem frees_number {r : Rep} (hr : ∀ a B, r a B → ∃ c, B = [(a, c)]) : Frees pNumberFree r 1 := by
  intro a B hab st n0 c0 h L o
  have hne : a ≠ 0 := by
    obtain ⟨c, rfl⟩ := hr a B hab
    exact o.ne0
  obtain ⟨h', g, e, o', l⟩ := frees_free hr a B hab st n0 c0 h L o
  exact ⟨h', g, by rw [pNumberFree, if_pos hne, e], o', l⟩

theorem frees_numberOpt : ∀ n : Option Num, Frees pNumberFree (repOpt RNum n) (numberFreed n)
  | none => Frees.null (fun _ _ => rfl)
  | some _ => frees_number (fun _ _ h => ⟨_, h⟩)

theorem frees_boolOpt : ∀ b : Option UInt8, Frees pNumberFree (repOpt RBool b) (booleanFreed b)
  | none => Frees.null (fun _ _ => rfl)
  | some _ => frees_number (fun _ _ h => ⟨_, h⟩)

theorem frees_octetString (s : OctetString) : Frees pOctetStringFree (RStr s) (octetStringFreed (some s)) := by
  rintro a B ⟨ps, B', ⟨p, ps', B1, B2, rfl, hr, ⟨rfl, rfl⟩, rfl⟩, rfl⟩ st n0 c0 h L o
  have hne := o.ne0
  rw [List.append_nil] at o
  rw [pOctetStringFree, if_pos hne, P.bind_ok (readPtr_ok hne o.cell rfl)]
  by_cases hs : s.str = []
  · rw [RData, if_pos hs] at hr
    obtain ⟨rfl, rfl⟩ := hr
    refine ⟨_, [], ?_, o.drop, ?_⟩
    · simp only [ne_eq, not_true_eq_false, if_false]
      exact free_ok hne o.cell
    · simp [octetStringFreed, hs]
  · rw [RData, if_neg hs] at hr
    subst hr
    have o1 := o.perm (List.Perm.swap _ _ _)
    have hp := o1.ne0
    have o2 := o1.drop
    refine ⟨_, [], ?_, o2.drop, ?_⟩
    · rw [if_pos hp]
      rw [P.bind_ok (readPtr_ok hne o.cell rfl), P.bind_ok (free_ok hp o1.cell)]
      exact free_ok hne o2.cell
    · simp [octetStringFreed, hs]

theorem frees_octetStringOpt : ∀ s : Option OctetString, Frees pOctetStringFree (repOpt RStr s) (octetStringFreed s)
  | none => Frees.null (fun _ _ => rfl)
  | some s => frees_octetString s


/-! ## Steps on the buffer -/

theorem dry_setError : Dry setError := by
  intro s v s' h
  cases h
  exact ⟨rfl, rfl⟩

theorem dry_hasErrors : Dry hasErrors := by
  intro s v s' h
  cases h
  exact ⟨rfl, rfl⟩

theorem dry_updateBytesRead (n : Nat) : Dry (updateBytesRead n) := by
  intro s v s' h
  cases h
  exact ⟨rfl, rfl⟩

theorem dry_noteOvf (b : Bool) : Dry (noteOvf b) := by
  intro s v s' h
  cases h
  exact ⟨rfl, rfl⟩

theorem dry_getCurrentByte : Dry getCurrentByte := by
  intro s v s' h
  rw [getCurrentByte] at h ⊢
  cases e : s.data[s.cursor]? with
  | none => rw [e] at h; exact absurd h (by simp)
  | some b =>
    rw [e] at h
    have e' : s.dry.data[s.dry.cursor]? = some b := e
    rw [e']
    cases h
    exact ⟨rfl, rfl⟩

theorem dry_readBytes (n : Nat) : Dry (readBytes n) := by
  intro s v s' h
  rw [readBytes] at h ⊢
  split at h
  · cases h
    rename_i hc
    have hc' : s.dry.cursor + n ≤ s.dry.data.length := hc
    rw [if_pos hc']
    exact ⟨rfl, rfl⟩
  · exact absurd h (by simp)

theorem dry_getNextType : Dry getNextType := by
  intro s v s' h
  rw [getNextType] at h ⊢
  split at h
  · cases h
    rename_i hc
    have hc' : s.dry.cursor ≥ s.dry.data.length := hc
    rw [if_pos hc']
    exact ⟨rfl, rfl⟩
  · rename_i hc
    have hc' : ¬ s.dry.cursor ≥ s.dry.data.length := hc
    rw [if_neg hc']
    cases e : s.data[s.cursor]? with
    | none => rw [e] at h; exact absurd h (by simp)
    | some b =>
      rw [e] at h
      have e' : s.dry.data[s.dry.cursor]? = some b := e
      rw [e']
      cases h
      exact ⟨rfl, rfl⟩

theorem dry_optionalIsSkipped : Dry optionalIsSkipped := by
  intro s v s' h
  rw [optionalIsSkipped] at h ⊢
  split at h
  · cases h
    rename_i hc
    have hc' : s.dry.cursor ≥ s.dry.data.length := hc
    rw [if_pos hc']
    exact ⟨rfl, rfl⟩
  · rename_i hc
    have hc' : ¬ s.dry.cursor ≥ s.dry.data.length := hc
    rw [if_neg hc']
    cases e : s.data[s.cursor]? with
    | none => rw [e] at h; exact absurd h (by simp)
    | some b =>
      rw [e] at h
      have e' : s.dry.data[s.dry.cursor]? = some b := e
      rw [e']
      simp only at h ⊢
      split at h
      · split at h
        · cases h
          rename_i hb hd
          have hd' : s.dry.cursor + 1 > s.dry.data.length := hd
          rw [if_pos hb, if_pos hd']
          exact ⟨rfl, rfl⟩
        · cases h
          rename_i hb hd
          have hd' : ¬ s.dry.cursor + 1 > s.dry.data.length := hd
          rw [if_pos hb, if_neg hd']
          exact ⟨rfl, rfl⟩
      · cases h
        rename_i hb
        rw [if_neg hb]
        exact ⟨rfl, rfl⟩

theorem M.bind_ok {m : M α} {f : α → M β} (h : m s = .ok a s1) : (m >>= f) s = f a s1 := by
  show M.bind m f s = _
  rw [M.bind, h]

theorem Dry.bind {m : M α} {f : α → M β} (hm : Dry m) (hf : ∀ a, Dry (f a)) : Dry (m >>= f) := by
  intro s v s' h
  obtain ⟨a, s1, e1, e2⟩ := M.bind_eq_ok h
  obtain ⟨d1, l1⟩ := hm _ _ _ e1
  obtain ⟨d2, l2⟩ := hf a _ _ _ e2
  exact ⟨by rw [M.bind_ok d1, d2], by rw [l2, l1]⟩

theorem Dry.ret (a : α) : Dry (pure a : M α) := by
  intro s v s' h
  cases h
  exact ⟨rfl, rfl⟩

theorem Dry.getSt {f : St → M β} (hf : ∀ s, Dry (f s)) (hd : ∀ s : St, f s = f s.dry) : Dry (getSt >>= f) := by
  intro s v s' h
  have h2 : f s s = .ok v s' := h
  obtain ⟨d2, l2⟩ := hf s _ _ _ h2
  refine ⟨?_, l2⟩
  show f s.dry s.dry = _
  rw [← hd, d2]

theorem Dry.ite [Decidable c] {m m' : M α} (h1 : Dry m) (h2 : Dry m') : Dry (if c then m else m') := by
  split
  · exact h1
  · exact h2

theorem dry_lenLoop : ∀ fuel length list, Dry (lenLoop fuel length list)
  | 0, _, _ => by
    intro s v s' h
    exact absurd h (by simp [lenLoop, undef])
  | fuel + 1, length, list => by
    rw [lenLoop]
    refine Dry.getSt (fun s => ?_) (fun s => rfl)
    refine Dry.ite ?_ (Dry.ret _)
    refine dry_getCurrentByte.bind fun byte => ?_
    refine (dry_noteOvf _).bind fun _ => ?_
    refine Dry.ite (Dry.ret _) ?_
    refine (dry_updateBytesRead _).bind fun _ => ?_
    exact dry_lenLoop fuel _ _

theorem dry_getNextLength : Dry getNextLength := by
  rw [getNextLength]
  refine Dry.getSt (fun s => ?_) (fun s => rfl)
  refine Dry.ite (dry_setError.bind fun _ => Dry.ret _) ?_
  refine dry_getCurrentByte.bind fun byte => ?_
  refine (dry_lenLoop _ _ _).bind fun r => ?_
  refine Dry.getSt (fun s => ?_) (fun s => rfl)
  refine Dry.ite ?_ (dry_setError.bind fun _ => Dry.ret _)
  exact (dry_updateBytesRead _).bind fun _ => (dry_noteOvf _).bind fun _ => Dry.ret _

/-! ## Patterns -/

theorem Sim.ite [Decidable c] {R : α → β → List Blk → Prop} (h1 : c → Sim B0 m1 p1 R) (h2 : ¬ c → Sim B0 m2 p2 R) :
    Sim B0 (if c then m1 else m2) (if c then p1 else p2) R := by
  by_cases hc : c
  · rw [if_pos hc, if_pos hc]
    exact h1 hc
  · rw [if_neg hc, if_neg hc]
    exact h2 hc

theorem release_zero (s : St) : release 0 s = .ok () s := by
  rw [release, if_pos (Nat.zero_le _)]
  rfl

theorem Sim.release0 {R : α → β → List Blk → Prop} (h : Sim B0 m pm R) :
    Sim B0 (Sml.release 0 >>= fun _ => m) pm R := by
  intro s n0 c0 hp g0 o v s' hm
  rw [M.bind_ok (release_zero s)] at hm
  exact h s n0 c0 hp g0 o v s' hm

theorem Sim.fail0 {R : Option α → β → List Blk → Prop} (hz : R none z []) :
    Sim [] (failWith 0) (lift setError >>= fun _ => pure z) R := by
  refine dry_setError.sim fun _ => ?_
  exact Sim.release0 (Sim.ret hz)

theorem Sim.abort {R : Option α → β → List Blk → Prop} {r : Rep} (hf : Frees f r c) (hr : r a B)
    (hz : R none z []) : Sim B (Sml.release c >>= fun _ => pure none) (pAbort f a z) R := by
  have h : Sim (B ++ []) (Sml.release c >>= fun _ => Pure.pure none) (f a >>= fun _ => Pure.pure z) R :=
    Sim.release hf hr (Sim.ret hz)
  rw [List.append_nil] at h
  exact h

theorem Sim.fail {R : Option α → β → List Blk → Prop} {r : Rep} (hf : Frees f r c) (hr : r a B)
    (hz : R none z []) : Sim B (failWith c) (lift setError >>= fun _ => pAbort f a z) R :=
  dry_setError.sim fun _ => Sim.abort hf hr hz

theorem Sim.expectList {R : Option α → β → List Blk → Prop} {r : Rep} (hf : Frees f r c) (hr : r a B)
    (hz : R none z []) (hk : Sim B k pk R) :
    Sim B (Sml.expectList n c k) (pExpectList n (pAbort f a z) pk) R := by
  refine dry_getNextType.sim fun ty => Sim.ite (fun _ => Sim.fail hf hr hz) fun _ => ?_
  exact dry_getNextLength.sim fun l => Sim.ite (fun _ => Sim.fail hf hr hz) fun _ => hk

theorem Sim.optional {r : α → Rep} (h : Sim [] p pp (repOpt r)) : Sim [] (Sml.optional p) (pOptional pp) (repOpt r) := by
  refine dry_optionalIsSkipped.sim fun b => Sim.ite (fun _ => ?_) fun _ => h
  exact Sim.ret ⟨rfl, rfl⟩

/-- Storing a member of a structure under construction. -/
theorem Rec.set {rs : List Rep} {r : Rep} (hr : Rec rs ints a B0) (hi : rs[i]? = some nullRep) (hv : r p Bp)
    (hk : ∀ B, Rec (rs.set i r) ints a B → Sim B m (pk ()) R) :
    Sim (Bp ++ B0) m (Sml.writePtr a i p >>= pk) R := by
  obtain ⟨ps, B', hF, rfl⟩ := hr
  have hlt : i < ps.length := by
    rw [hF.length]
    exact (List.getElem?_eq_some_iff.mp hi).1
  obtain ⟨B2, hF2, hperm⟩ := hF.set i hi hv
  have hs : Sim ((a, .struct ps ints) :: (Bp ++ B')) m (Sml.writePtr a i p >>= pk) R := by
    refine Sim.step (B1 := (a, .struct (ps.set i p) ints) :: (Bp ++ B')) (pk := pk) (p := ()) ?_ rfl ?_
    · intro st n0 c0 h L o
      exact ⟨_, writePtr_ok o.ne0 o.cell hlt, o.update _⟩
    · exact Sim.perm (List.Perm.cons _ hperm.symm) (hk _ ⟨_, _, hF2, rfl⟩)
  exact Sim.perm List.perm_middle hs

/-- One member of a structure (`field`, `pField`). -/
theorem Sim.field {p : M α} {set : α → S} {freed : S → Nat} {k : S → M (Option γ)}
    {Rf : α → Rep} {RR : S → Rep} {rs : List Rep} {ints : List Nat} {r0 : S} {z : δ}
    {R : Option γ → δ → List Blk → Prop}
    (hp : Sim [] p pp Rf) (hr : RR r0 a B0) (h0 : RR r0 = Rec rs ints) (hi : rs[i]? = some nullRep)
    (hs : ∀ v, RR (set v) = Rec (rs.set i (Rf v)) ints)
    (hf : ∀ r, Frees f (RR r) (freed r)) (hz : R none z [])
    (hk : ∀ v B, RR (set v) a B → Sim B (k (set v)) pk R) :
    Sim B0 (Sml.field p set freed k) (pField pp a i (pAbort f a z) pk) R := by
  rw [h0] at hr
  refine Sim.call hp fun v q Bq hv => ?_
  refine Rec.set hr hi hv fun B hB => ?_
  rw [← hs] at hB
  refine dry_hasErrors.sim fun b => Sim.ite (fun _ => Sim.abort (hf _) hB hz) fun _ => hk v B hB

/-! ## Numbers, octet strings, booleans, values, status words, times -/

theorem sim_number (type max : Nat) : Sim [] (numberParse type max) (pNumberParse type max) (repOpt RNum) := by
  have hz : repOpt RNum none 0 [] := ⟨rfl, rfl⟩
  rw [numberParse, pNumberParse]
  refine dry_optionalIsSkipped.sim fun b => Sim.ite (fun _ => Sim.ret hz) fun _ => ?_
  refine Sim.getSt fun s => ?_
  refine Sim.ite (fun _ => Sim.fail0 hz) fun _ => ?_
  refine dry_getNextType.sim fun ty => Sim.ite (fun _ => Sim.fail0 hz) fun _ => ?_
  refine dry_getNextLength.sim fun l => Sim.ite (fun _ => Sim.fail0 hz) fun _ => ?_
  refine Sim.alloc fun a ha => ?_
  have hff : Frees free (RNum { size := max, val := 0 }) 1 := frees_free fun _ _ h => ⟨_, h⟩
  refine Sim.getSt fun s => ?_
  refine Sim.ite (fun _ => Sim.fail hff rfl hz) fun _ => ?_
  refine Sim.ite (fun _ => Sim.fail hff rfl hz) fun _ => ?_
  refine dry_getCurrentByte.sim fun b => ?_
  refine (dry_readBytes _).sim fun bs => ?_
  refine Sim.store ha ?_
  refine (dry_updateBytesRead _).sim fun _ => ?_
  exact Sim.ret rfl

theorem sim_octetStringInit (bs : List UInt8) : Sim [] (octetStringInit bs) (pOctetStringInit bs) RStr := by
  rw [octetStringInit, pOctetStringInit]
  refine Sim.alloc fun a ha => ?_
  refine Sim.ite (fun hl => ?_) fun hl => ?_
  · refine Sim.alloc fun d hd => ?_
    refine Sim.perm (List.Perm.swap _ _ _) ?_
    refine Sim.writePtr ha (by simp) (Sim.writeInt ha (by simp) (Sim.ret ?_))
    refine ⟨[d], [(d, .bytes bs)], Fields.single ?_, rfl⟩
    have hne : bs ≠ [] := List.length_pos_iff.mp hl
    show (if bs = [] then _ else _)
    rw [if_neg hne]
  · refine Sim.ret ⟨[0], [], Fields.single ⟨rfl, rfl⟩, rfl⟩

theorem sim_octetString : Sim [] octetStringParse pOctetStringParse (repOpt RStr) := by
  have hz : repOpt RStr none 0 [] := ⟨rfl, rfl⟩
  rw [octetStringParse, pOctetStringParse]
  refine dry_optionalIsSkipped.sim fun b => Sim.ite (fun _ => Sim.ret hz) fun _ => ?_
  refine dry_getNextType.sim fun ty => Sim.ite (fun _ => Sim.fail0 hz) fun _ => ?_
  refine dry_getNextLength.sim fun l => ?_
  refine Sim.getSt fun s => ?_
  refine Sim.ite (fun _ => Sim.fail0 hz) fun _ => ?_
  refine (dry_readBytes _).sim fun bs => ?_
  refine Sim.bind (sim_octetStringInit bs) fun str a B hB => ?_
  refine (dry_updateBytesRead _).sim fun _ => ?_
  exact Sim.ret hB

theorem sim_boolean : Sim [] booleanParse pBooleanParse (repOpt RBool) := by
  have hz : repOpt RBool none 0 [] := ⟨rfl, rfl⟩
  rw [booleanParse, pBooleanParse]
  refine dry_optionalIsSkipped.sim fun b => Sim.ite (fun _ => Sim.ret hz) fun _ => ?_
  refine dry_getNextType.sim fun ty => Sim.ite (fun _ => Sim.fail0 hz) fun _ => ?_
  refine dry_getNextLength.sim fun l => Sim.ite (fun _ => Sim.fail0 hz) fun _ => ?_
  refine Sim.getSt fun s => ?_
  refine Sim.ite (fun _ => Sim.fail0 hz) fun _ => ?_
  refine dry_getCurrentByte.sim fun b => ?_
  refine (dry_updateBytesRead _).sim fun _ => ?_
  refine Sim.alloc (pk := pure) fun a ha => ?_
  by_cases hb : b ≠ 0
  · rw [if_pos hb, if_pos hb]
    exact Sim.ret rfl
  · rw [if_neg hb, if_neg hb]
    exact Sim.ret rfl

theorem Fields.one (h : Fields [r] ps B) : ∃ p, ps = [p] ∧ r p B := by
  obtain ⟨p, ps', B1, B2, rfl, hr, ⟨rfl, rfl⟩, rfl⟩ := h
  exact ⟨p, rfl, by rwa [List.append_nil]⟩

/-- `free` of a pointer to an octet string as if it were a number: the bytes stay. -/
theorem frees_ptr : ∀ d : VData, Frees pNumberFree (RVData d) d.ptrFreed
  | .num p => (frees_numberOpt p).congr (by cases p <;> rfl)
  | .boolean p => (frees_boolOpt p).congr (by cases p <;> rfl)
  | .bytes none => Frees.null (fun _ _ => rfl)
  | .bytes (some s) => by
    rintro a B ⟨ps, B', hF, rfl⟩ st n0 c0 h L o
    refine ⟨_, B', ?_, o.drop, rfl⟩
    rw [pNumberFree, if_pos o.ne0]
    exact free_ok o.ne0 o.cell

theorem frees_value (v : Value) : Frees pValueFree (RValue v) (valueFreed (some v)) := by
  rintro a B ⟨hw, ps, B', hF, rfl⟩ st n0 c0 h L o
  obtain ⟨p, rfl, hr⟩ := hF.one
  have hne := o.ne0
  have o1 : Own n0 c0 h (B' ++ ((a, .struct [p] [v.type]) :: L)) := o.perm List.perm_middle.symm
  have hd : ∃ f : Addr → P Unit, Frees f (RVData v.data) (valueFreed (some v) - 1) ∧ 1 ≤ valueFreed (some v) ∧
      pValueFree a st h = (f p >>= fun _ => free a) st h := by
    by_cases ht : v.type = tyOctet
    · obtain ⟨q, hq⟩ := hw ht
      refine ⟨pOctetStringFree, ?_, ?_, ?_⟩
      · rw [hq]
        refine (frees_octetStringOpt q).congr ?_
        simp [valueFreed, ht, hq]
      · simp [valueFreed]
      · rw [pValueFree, if_pos hne, P.bind_ok (readInt_ok hne o.cell rfl), P.bind_ok (readPtr_ok hne o.cell rfl), if_pos ht]
    · refine ⟨pNumberFree, ?_, ?_, ?_⟩
      · refine (frees_ptr v.data).congr ?_
        simp [valueFreed, ht]
      · simp [valueFreed]
      · rw [pValueFree, if_pos hne, P.bind_ok (readInt_ok hne o.cell rfl), P.bind_ok (readPtr_ok hne o.cell rfl), if_neg ht]
        split <;> rfl
  obtain ⟨f, hf, h1, he⟩ := hd
  obtain ⟨h', g, e, o', l⟩ := hf p B' hr st n0 c0 h _ o1
  have o2 := o'.perm List.perm_middle
  refine ⟨_, g, ?_, o2.drop, ?_⟩
  · rw [he, P.bind_ok e]
    exact free_ok hne o2.cell
  · rw [List.length_cons]
    omega

theorem frees_valueOpt : ∀ v : Option Value, Frees pValueFree (repOpt RValue v) (valueFreed v)
  | none => Frees.null (fun _ _ => rfl)
  | some v => frees_value v

theorem frees_status (s : Status) : Frees pStatusFree (RStatus s) (statusFreed (some s)) :=
  (Frees.struct (.cons (frees_numberOpt s.data) .nil)).congr rfl

theorem frees_statusOpt : ∀ v : Option Status, Frees pStatusFree (repOpt RStatus v) (statusFreed v)
  | none => Frees.null (fun _ _ => rfl)
  | some v => frees_status v

theorem frees_time (t : Time) : Frees pTimeFree (RTime t) (timeFreed (some t)) :=
  (Frees.struct (.cons (frees_numberOpt t.tag) (.cons (frees_numberOpt t.data) .nil))).congr rfl

theorem frees_timeOpt : ∀ v : Option Time, Frees pTimeFree (repOpt RTime v) (timeFreed v)
  | none => Frees.null (fun _ _ => rfl)
  | some v => frees_time v

/-- The end of `sml_value_parse` and `sml_status_parse`. -/
theorem Sim.finish {r : α → Rep} {freed : Option α → Nat} (hf : Frees f (r v) (freed (some v))) (hr : r v a B) :
    Sim B (hasErrors >>= fun b => if b = true then (Sml.release (freed (some v)) >>= fun _ => pure none)
        else pure (some v))
      (lift hasErrors >>= fun b => if b = true then (f a >>= fun _ => pure 0) else pure a) (repOpt r) := by
  refine dry_hasErrors.sim fun b => Sim.ite (fun _ => ?_) fun _ => Sim.ret hr
  exact Sim.abort hf hr ⟨rfl, rfl⟩

theorem Sim.assoc {R : α → β → List Blk → Prop} {pm : P γ} {pf : γ → P δ} {pk : δ → P β}
    (h : Sim B0 m (pm >>= fun x => pf x >>= pk) R) : Sim B0 m ((pm >>= pf) >>= pk) R := by
  have e : ((pm >>= pf) >>= pk) = (pm >>= fun x => pf x >>= pk) := by
    funext st h
    show P.bind (P.bind pm pf) pk st h = P.bind pm (fun x => P.bind (pf x) pk) st h
    unfold P.bind
    cases pm st h <;> rfl
  rw [e]
  exact h

theorem M.assoc {m : M α} {f : α → M β} {k : β → M γ} : ((m >>= f) >>= k) = (m >>= fun x => f x >>= k) := by
  funext st
  show M.bind (M.bind m f) k st = M.bind m (fun x => M.bind (f x) k) st
  unfold M.bind
  cases m st <;> rfl

theorem P.assoc {m : P α} {f : α → P β} {k : β → P γ} : ((m >>= f) >>= k) = (m >>= fun x => f x >>= k) := by
  funext st h
  show P.bind (P.bind m f) k st h = P.bind m (fun x => P.bind (f x) k) st h
  unfold P.bind
  cases m st h <;> rfl

theorem growMax_pos : ∀ fuel max byte, 1 ≤ max → 1 ≤ growMax fuel max byte
  | 0, _, _, h => h
  | fuel + 1, max, byte, h => by
    rw [growMax]
    split
    · exact growMax_pos fuel _ _ (by omega)
    · exact h

end Sml
