import Verif.Model.HeapWrite
import Verif.Proofs.HeapFile

/-!
# Code that uses objects on the heap without changing them

`Use S m pm`: on a heap with the blocks `S`, the code `pm` does what `m` does on values and leaves all blocks as they are.
-/

namespace Sml

def Use (S : List Blk) (m : M α) (pm : P α) : Prop :=
  ∀ s n0 c0 h, Own n0 c0 h S → ∀ v s', m s = .ok v s' →
    ∃ h', pm s.dry h = .ok v s'.dry h' ∧ Own n0 c0 h' S ∧ s'.live = s.live

/-- The blocks `B` are among `S`. -/
def Within (B S : List Blk) : Prop := ∃ L, S.Perm (B ++ L)

theorem Within.refl : Within B B := ⟨[], by rw [List.append_nil]⟩

theorem Within.left (h : Within (B1 ++ B2) S) : Within B1 S := by
  obtain ⟨L, h⟩ := h
  exact ⟨B2 ++ L, by rwa [← List.append_assoc]⟩

theorem Within.right (h : Within (B1 ++ B2) S) : Within B2 S := by
  obtain ⟨L, h⟩ := h
  refine ⟨B1 ++ L, h.trans ?_⟩
  rw [← List.append_assoc]
  exact List.perm_append_comm.append_right L

theorem Within.tail (h : Within (x :: B) S) : Within B S := Within.right (B1 := [x]) h

theorem Within.mem (h : Within B S) (hx : x ∈ B) : x ∈ S := by
  obtain ⟨L, h⟩ := h
  exact h.mem_iff.mpr (List.mem_append_left _ hx)

theorem Within.head (h : Within (x :: B) S) : x ∈ S := h.mem List.mem_cons_self

theorem Within.length_le (h : Within B S) : B.length ≤ S.length := by
  obtain ⟨L, h⟩ := h
  rw [h.length_eq, List.length_append]
  omega

/-! ## Steps -/

theorem Use.bind {m : M α} {pm : P α} {k : α → M β} {pk : α → P β} (h1 : Use S m pm) (h2 : ∀ v, Use S (k v) (pk v)) :
    Use S (m >>= k) (pm >>= pk) := by
  intro s n0 c0 h o v s' hm
  obtain ⟨a, s1, e1, e2⟩ := M.bind_eq_ok hm
  obtain ⟨h1', ep, o1, l1⟩ := h1 s n0 c0 h o a s1 e1
  obtain ⟨h2', ep2, o2, l2⟩ := h2 a s1 n0 c0 h1' o1 v s' e2
  exact ⟨h2', by rw [P.bind_ok ep, ep2], o2, by omega⟩

theorem Use.ret (v : α) : Use S (pure v) (pure v) := by
  intro s n0 c0 h o v' s' hm
  obtain ⟨rfl, rfl⟩ := M.pure_eq_ok hm
  exact ⟨h, rfl, o, rfl⟩

theorem Use.undef : Use S (undef r : M α) pm := by
  intro s n0 c0 h o v s' hm
  cases hm

theorem Dry.use {m : M α} (hd : Dry m) : Use S m (lift m) := by
  intro s n0 c0 h o v s' hm
  obtain ⟨ed, el⟩ := hd _ _ _ hm
  exact ⟨h, by rw [lift, ed], o, el⟩

theorem Use.getSt {k : St → M β} {pk : St → P β} (h2 : ∀ s, Use S (k s) (pk s.dry)) :
    Use S (getSt >>= k) (lift getSt >>= pk) := by
  intro s n0 c0 h o v s' hm
  exact h2 s s n0 c0 h o v s' hm

theorem Use.ite {c : Prop} [Decidable c] {m m' : M α} {pm pm' : P α} (h1 : c → Use S m pm) (h2 : ¬ c → Use S m' pm') :
    Use S (if c then m else m') (if c then pm else pm') := by
  split
  · exact h1 ‹_›
  · exact h2 ‹_›

theorem Use.ne0 {m : M α} (hm : (a, c) ∈ S) (hk : a ≠ 0 → Use S m pm) : Use S m pm := by
  intro s n0 c0 h o
  exact hk (o.ne0_of_mem hm) s n0 c0 h o

/-- A step that reads the heap. -/
theorem Use.read {pm : P β} {pk : β → P α} {m : M α}
    (h1 : ∀ st n0 c0 h, Own n0 c0 h S → pm st h = .ok p st h) (h2 : Use S m (pk p)) : Use S m (pm >>= pk) := by
  intro s n0 c0 h o v s' hm
  rw [P.bind_ok (h1 s.dry n0 c0 h o)]
  exact h2 s n0 c0 h o v s' hm

theorem Use.ptr {pk : Nat → P α} {m : M α} (hm : (a, .struct ps is) ∈ S) (hi : ps[i]? = some p)
    (h2 : Use S m (pk p)) : Use S m (readPtr a i >>= pk) :=
  Use.read (fun _ _ _ _ o => readPtr_ok (o.ne0_of_mem hm) (o.cell_of_mem hm) hi) h2

theorem Use.int {pk : Nat → P α} {m : M α} (hm : (a, .struct ps is) ∈ S) (hi : is[i]? = some n)
    (h2 : Use S m (pk n)) : Use S m (readInt a i >>= pk) :=
  Use.read (fun _ _ _ _ o => readInt_ok (o.ne0_of_mem hm) (o.cell_of_mem hm) hi) h2

theorem Use.num {pk : Num → P α} {m : M α} (hm : (a, .num n) ∈ S) (h2 : Use S m (pk n)) :
    Use S m (readNum a >>= pk) :=
  Use.read (fun _ _ _ _ o => readNum_ok (o.ne0_of_mem hm) (o.cell_of_mem hm)) h2

theorem Use.tag {pk : Num → P α} {m : M α} (hm : (a, .num n) ∈ S) (hn : Sized w n) (h2 : Use S m (pk n)) :
    Use S m (readTag w a >>= pk) :=
  Use.read (fun _ _ _ _ o => readTag_ok (o.ne0_of_mem hm) (o.cell_of_mem hm) hn) h2

theorem Use.raw {pk : List UInt8 → P α} {m : M α} (hm : (a, .bytes bs) ∈ S) (hl : n ≤ bs.length)
    (h2 : Use S m (pk (bs.take n))) : Use S m (readRaw a n >>= pk) := by
  refine Use.read (fun st _ _ h o => ?_) h2
  rw [readRaw, P.bind_ok (deref_ok (o.ne0_of_mem hm) (o.cell_of_mem hm))]
  simp only [if_pos hl]
  rfl

theorem Use.congr {m m' : M α} (h : Use S m pm) (e : m' = m) : Use S m' pm := e ▸ h

/-! ## Writing to the buffer -/

theorem dry_setByte (b : UInt8) : Dry (setByte b) := by
  intro s v s' h
  rw [setByte] at h ⊢
  show (if s.cursor < s.data.length then _ else _) = _ ∧ _
  split at h
  · cases h
    rw [if_pos (by assumption)]
    exact ⟨rfl, rfl⟩
  · cases h

theorem dry_orByte (b : UInt8) : Dry (orByte b) := by
  intro s v s' h
  rw [orByte] at h ⊢
  change (match s.data[s.cursor]? with
    | some o => Res.ok () { s with data := s.data.set s.cursor (o ||| b) }
    | none => .ub .oobWrite) = _ at h
  show (match s.data[s.cursor]? with
    | some o => Res.ok () { s.dry with data := s.data.set s.cursor (o ||| b) }
    | none => .ub .oobWrite) = _ ∧ _
  cases hb : s.data[s.cursor]? with
  | none =>
    rw [hb] at h
    cases h
  | some o =>
    rw [hb] at h
    cases h
    exact ⟨rfl, rfl⟩

theorem dry_putBytes (bs : List UInt8) : Dry (putBytes bs) := by
  intro s v s' h
  rw [putBytes] at h ⊢
  show (if s.cursor + bs.length ≤ s.data.length then _ else _) = _ ∧ _
  split at h
  · cases h
    rw [if_pos (by assumption)]
    exact ⟨rfl, rfl⟩
  · cases h

theorem dry_advance : Dry advance := dry_updateBytesRead 1

theorem dry_undef : Dry (undef r : M α) := by
  intro s v s' h
  cases h

theorem dry_copyLoop : ∀ fuel mask pos l, Dry (copyLoop fuel mask pos l)
  | 0, _, _, _ => dry_undef
  | fuel + 1, mask, pos, l => by
    rw [copyLoop]
    refine Dry.ite ?_ (Dry.ret _)
    exact (dry_orByte _).bind fun _ => (dry_orByte _).bind fun _ => dry_advance.bind fun _ => dry_copyLoop fuel _ _ _

theorem dry_setTypeAndLength (type l : Nat) : Dry (setTypeAndLength type l) := by
  rw [setTypeAndLength]
  refine (dry_setByte _).bind fun _ => ?_
  have hb : ∀ b, Dry (orByte b >>= fun _ => advance) := fun b => (dry_orByte b).bind fun _ => dry_advance
  refine Dry.ite (Dry.ite dry_undef ?_) (hb _)
  refine (dry_noteOvf _).bind fun _ => Dry.ite ?_ ?_
  · exact (dry_copyLoop _ _ _ _).bind fun _ => hb _
  · exact (dry_copyLoop _ _ _ _).bind fun _ => hb _

theorem dry_optionalWrite : Dry optionalWrite := (dry_setByte _).bind fun _ => dry_advance

/-! ## Writers -/

/-- `pw` writes the object that `r` describes as `w` does. -/
def Wr1 (w : M Unit) (pw : Addr → P Unit) (r : Rep) : Prop :=
  ∀ S a B, r a B → Within B S → Use S w (pw a)

/-- Writers for the members of a structure. -/
inductive WAll : List (M Unit) → List (Addr → P Unit) → List Rep → Prop
  | nil : WAll [] [] []
  | cons (h : Wr1 w pw r) (t : WAll ws pws rs) : WAll (w :: ws) (pw :: pws) (r :: rs)

/-- One after the other. -/
def seqM : List (M Unit) → M Unit
  | [] => pure ()
  | [w] => w
  | w :: w' :: ws => w >>= fun _ => seqM (w' :: ws)

theorem use_pure_right {w : M Unit} {pw : P Unit} (h : Use S w pw) : Use S w (pw >>= fun _ => pure ()) := by
  intro s n0 c0 hp o v s' hm
  obtain ⟨h', e, o', l⟩ := h s n0 c0 hp o v s' hm
  exact ⟨h', by rw [P.bind_ok e]; rfl, o', l⟩

theorem WAll.use (hW : WAll ws pws rs) : ∀ {qs ps B}, Fields rs ps B → Within B S →
    (a, .struct (qs ++ ps ++ ts) is) ∈ S → Use S (seqM ws) (pWriteFields a qs.length pws) := by
  induction hW with
  | nil =>
    intro qs ps B hF hB ha
    exact Use.ret ()
  | @cons w pw r ws pws rs h t ih =>
    rintro qs _ _ ⟨p, ps', B1, B2, rfl, hr, hF, rfl⟩ hB ha
    have hi : (qs ++ p :: ps' ++ ts)[qs.length]? = some p := by simp
    have ha' : (a, HCell.struct (qs ++ [p] ++ ps' ++ ts) is) ∈ S := by simpa using ha
    have hw := h S p B1 hr hB.left
    have hk := ih hF hB.right ha'
    rw [List.length_append] at hk
    show Use S _ (readPtr a qs.length >>= fun x => pw x >>= fun _ => pWriteFields a (qs.length + 1) pws)
    refine Use.ptr ha hi ?_
    cases t with
    | nil => exact use_pure_right hw
    | cons h' t' => exact hw.bind fun _ => hk

theorem Wr1.fields (hW : WAll ws pws rs) (n : Nat) (hF : Fields rs ps B) (hB : Within B S)
    (ha : (a, .struct (ps ++ ts) is) ∈ S) :
    Use S (setTypeAndLength tyList n >>= fun _ => seqM ws) (pWriteStruct n pws a) :=
  (dry_setTypeAndLength _ _).use.bind fun _ => hW.use (qs := []) hF hB (by simpa using ha)

theorem Wr1.struct (hW : WAll ws pws rs) (n : Nat) :
    Wr1 (setTypeAndLength tyList n >>= fun _ => seqM ws) (pWriteStruct n pws) (Rec rs is) := by
  rintro S a B ⟨ps, B', hF, rfl⟩ hB
  exact Wr1.fields (ts := []) hW n hF hB.tail (by simpa using hB.head)

/-- A pointer that may be NULL. -/
theorem Wr1.opt {w : Option α → M Unit} {R : α → Rep} (h0 : w none = optionalWrite)
    (hd : ∀ v a B, R v a B → ∃ c, (a, c) ∈ B) (h1 : ∀ v, Wr1 (w (some v)) pw (R v)) (v : Option α) :
    Wr1 (w v) (fun a => if a = 0 then lift optionalWrite else pw a) (repOpt R v) := by
  intro S a B hr hB
  cases v with
  | none =>
    obtain ⟨rfl, rfl⟩ := hr
    rw [h0]
    exact dry_optionalWrite.use
  | some v =>
    obtain ⟨c, hc⟩ := hd v a B hr
    refine Use.ne0 (hB.mem hc) fun hne => ?_
    simp only [if_neg hne]
    exact h1 v S a B hr hB

/-- A pointer that is dereferenced in any case. -/
theorem Wr1.must {w : Option α → M Unit} {R : α → Rep} (h0 : w none = Sml.undef .nullDeref)
    (h1 : ∀ v, Wr1 (w (some v)) pw (R v)) (v : Option α) : Wr1 (w v) pw (repOpt R v) := by
  intro S a B hr hB
  cases v with
  | none =>
    rw [h0]
    exact Use.undef
  | some v => exact h1 v S a B hr hB

theorem Rec.head (h : Rec rs is a B) : ∃ c, (a, c) ∈ B := by
  obtain ⟨ps, B', _, rfl⟩ := h
  exact ⟨_, List.mem_cons_self⟩

end Sml
