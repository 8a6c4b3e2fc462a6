import Verif.Proofs.Emits
import Verif.Spec.Syntax

/-!
# What the writers of fields emit
-/

namespace Sml

open Spec

mutual
/-- The encoding of a term, with the header bytes that are OR-ed in marked. -/
def cells : Term → List Cell
  | .absent => plain [0x01]
  | .octets bs => hdrCells (encHeader 0 bs.length) ++ plain bs
  | .bool b => hdrCells (encHeader 4 1) ++ plain [if b then 0xFF else 0x00]
  | .int bs => hdrCells (encHeader 5 bs.length) ++ plain bs
  | .uint bs => hdrCells (encHeader 6 bs.length) ++ plain bs
  | .list ts => hdrCells (encHeader 7 ts.length) ++ cellsAll ts
def cellsAll : List Term → List Cell
  | [] => []
  | t :: ts => cells t ++ cellsAll ts
end

/-- The bytes, without the marks. -/
def bytes (cs : List Cell) : List UInt8 := cs.map Cell.b

@[simp] theorem bytes_append (a b : List Cell) : bytes (a ++ b) = bytes a ++ bytes b := by simp [bytes]
@[simp] theorem bytes_plain (bs : List UInt8) : bytes (plain bs) = bs := by simp [bytes, plain, Function.comp_def]
@[simp] theorem bytes_hdr (bs : List UInt8) : bytes (hdrCells bs) = bs := by cases bs <;> simp [bytes, hdrCells, Function.comp_def]
@[simp] theorem bytes_length (cs : List Cell) : (bytes cs).length = cs.length := by simp [bytes]

mutual
theorem bytes_cells : (t : Term) → bytes (cells t) = enc t
  | .absent => by simp [cells, enc]
  | .octets bs => by simp [cells, enc]
  | .bool b => by simp [cells, enc]
  | .int bs => by simp [cells, enc]
  | .uint bs => by simp [cells, enc]
  | .list ts => by simp [cells, enc, bytes_cellsAll ts]
theorem bytes_cellsAll : (ts : List Term) → bytes (cellsAll ts) = encAll ts
  | [] => by simp [cellsAll, encAll, bytes]
  | t :: ts => by simp [cellsAll, encAll, bytes_cells t, bytes_cellsAll ts]
end

theorem emits_last {w : M Unit} {a : List Cell} (h : Emits w a) : Emits w (a ++ []) := by simpa using h

theorem emits_optionalWrite : Emits optionalWrite (cells .absent) := by
  simpa [cells, plain, optionalWrite] using emits_setByte 0x01

/-- Optional fields. -/
theorem emits_opt {w : Option α → M Unit} {f : α → Term} {P : α → Prop} (h0 : w none = optionalWrite)
    (h1 : ∀ a, P a → Emits (w (some a)) (cells (f a))) (o : Option α) (h : Opt P o) : Emits (w o) (cells (opt f o)) := by
  cases o with
  | none => rw [h0]; exact emits_optionalWrite
  | some a => exact h1 a (h a rfl)

/-- List headers. -/
theorem emits_list {n : Nat} (h : n < 16) : Emits (setTypeAndLength tyList n) (hdrCells (encHeader 7 n)) :=
  emits_setTypeAndLength (by decide) (Or.inl ⟨rfl, h⟩)

/-- A list header followed by the elements. -/
theorem emits_node {ts : List Term} {n : Nat} {w : M Unit} (hn : ts.length = n) (h : n < 16) (hw : Emits w (cellsAll ts)) :
    Emits (do setTypeAndLength tyList n; w) (cells (.list ts)) := by
  subst hn
  exact emits_bind (emits_list h) hw

theorem emits_cons {w1 w2 : M Unit} {t : Term} {ts : List Term} (h1 : Emits w1 (cells t)) (h2 : Emits w2 (cellsAll ts)) :
    Emits (do w1; w2) (cellsAll (t :: ts)) := emits_bind h1 h2

theorem emits_one {w : M Unit} {t : Term} (h : Emits w (cells t)) : Emits w (cellsAll [t]) := emits_last h

theorem noCarry_small {n : Nat} (h : n < 15) : NoCarry n := by
  rintro k ⟨h1, h2⟩
  cases k with
  | zero => simp at h1
  | succ k =>
    have := lt_pow16 k
    cases k with
    | zero => simp at *; omega
    | succ k =>
      have h4 := lt_pow16 k
      simp only [Nat.pow_succ] at *
      omega

theorem emits_octetString (s : Bool) (o : Option OctetString) (h : Opt (StrOk s) o) :
    Emits (octetStringWrite o) (cells (opt strTerm o)) := by
  refine emits_opt rfl (fun x hx => ?_) o h
  exact emits_bind (emits_setTypeAndLength (ty := 0) (by decide) (Or.inr ⟨by decide, hx.2.2, hx.2.1⟩)) (emits_putBytes _)

theorem beBytes_bigEndian (n v : Nat) : beBytes n v = bigEndian n v := by
  unfold bigEndian
  induction n with
  | zero => rfl
  | succ n ih =>
    rw [beBytes, ih, List.range_succ, List.reverse_append]
    have : UInt8.ofNat (v / 256 ^ n) = UInt8.ofNat (v / 256 ^ n % 256) := by
      apply UInt8.toNat_inj.1
      rw [UInt8.toNat_ofNat', UInt8.toNat_ofNat']
      omega
    simp [this]

theorem bigEndian_length (n v : Nat) : (bigEndian n v).length = n := by simp [bigEndian]

theorem beBytes_length (n v : Nat) : (beBytes n v).length = n := by rw [beBytes_bigEndian, bigEndian_length]

theorem emits_number {size ty : Nat} {n : Num} (hty : ty < 7) (h0 : 0 < size) (h15 : size < 15) (h : size ≤ n.size) :
    Emits (numberWrite (some n) (16 * ty) size) (hdrCells (encHeader ty size) ++ plain (bigEndian size n.val)) := by
  unfold numberWrite
  have hne : ¬ size = 0 := by omega
  simp only [hne, if_false, h, if_true]
  rw [beBytes_bigEndian]
  refine emits_bind (emits_setTypeAndLength (by omega) (Or.inr ⟨by omega, ?_, noCarry_small h15⟩)) (emits_putBytes _)
  exact Nat.lt_of_le_of_lt (show size + 1 ≤ 15 by omega) (by decide)

theorem emits_uint (s : Bool) {size : Nat} (h0 : 0 < size) (h15 : size < 15) (o : Option Num) (h : Opt (NumOk s size) o) :
    Emits (numberWrite o tyUnsigned size) (cells (opt (uintTerm size) o)) := by
  refine emits_opt (w := fun o => numberWrite o tyUnsigned size) rfl (fun x hx => ?_) o h
  have := emits_number (ty := 6) (by decide) h0 h15 hx.1
  simpa [uintTerm, cells, bigEndian_length] using this

theorem emits_int (s : Bool) {size : Nat} (h0 : 0 < size) (h15 : size < 15) (o : Option Num) (h : Opt (NumOk s size) o) :
    Emits (numberWrite o tyInteger size) (cells (opt (intTerm size) o)) := by
  refine emits_opt (w := fun o => numberWrite o tyInteger size) rfl (fun x hx => ?_) o h
  have := emits_number (ty := 5) (by decide) h0 h15 hx.1
  simpa [intTerm, cells, bigEndian_length] using this

theorem emits_boolean (s : Bool) (o : Option UInt8) (h : Opt (BoolOk s) o) : Emits (booleanWrite o) (cells (opt boolTerm o)) := by
  refine emits_opt rfl (fun b _ => ?_) o h
  refine emits_bind (emits_setTypeAndLength (ty := 4) (by decide) (Or.inr ⟨by decide, by decide, noCarry_small (by decide)⟩)) ?_
  by_cases hb : b = 0
  · subst hb
    simpa [plain] using emits_setByte 0x00
  · simpa [plain, hb] using emits_setByte 0xFF

theorem sizes_bounds {k : Nat} (h : k ∈ sizes) : 0 < k ∧ k < 15 := by
  simp [sizes] at h; omega

theorem sizes_type {k : Nat} (h : k ∈ sizes) : (0x50 + k) &&& 0x70 = 0x50 ∧ (0x50 + k) &&& 0xF = k ∧ (0x60 + k) &&& 0x70 = 0x60 ∧
    (0x60 + k) &&& 0xF = k ∧ (0x50 + k) / 16 = 5 ∧ (0x60 + k) / 16 = 6 ∧ (0x50 + k) % 16 = k ∧ (0x60 + k) % 16 = k ∧
    (0x50 ||| k) = 0x50 + k ∧ (0x60 ||| k) = 0x60 + k := by
  simp only [sizes, List.mem_cons, List.not_mem_nil, or_false] at h
  rcases h with rfl | rfl | rfl | rfl <;> decide

theorem emits_value (s : Bool) (o : Option Value) (h : Opt (ValOk s) o) : Emits (valueWrite o) (cells (opt valueTerm o)) := by
  refine emits_opt rfl (fun v hv => ?_) o h
  obtain ⟨ty, d⟩ := v
  unfold ValOk at hv
  unfold valueWrite valueTerm
  cases d with
  | bytes p =>
    obtain ⟨rfl, hp, _⟩ := hv
    simpa using emits_octetString s p hp
  | boolean p =>
    obtain ⟨rfl, hp, _⟩ := hv
    simpa [tyOctet, tyBoolean] using emits_boolean s p hp
  | num p =>
    obtain ⟨k, hk, hty, hp, _⟩ := hv
    obtain ⟨h1, h2⟩ := sizes_bounds hk
    obtain ⟨a1, a2, a3, a4, a5, a6, a7, a8, _⟩ := sizes_type hk
    simp only at hty
    rcases hty with rfl | rfl
    · simpa [a1, a2, a5, a7, tyOctet, tyBoolean, tyInteger] using emits_int s h1 h2 p hp
    · simpa [a3, a4, a6, a8, tyOctet, tyBoolean, tyUnsigned] using emits_uint s h1 h2 p hp

theorem emits_status (s : Bool) (o : Option Status) (h : Opt (StatusOk s) o) : Emits (statusWrite o) (cells (opt statusTerm o)) := by
  refine emits_opt rfl (fun v hv => ?_) o h
  obtain ⟨ty, d⟩ := v
  obtain ⟨k, hk, rfl, hp, _⟩ := hv
  obtain ⟨h1, h2⟩ := sizes_bounds hk
  obtain ⟨_, _, a3, a4, _, a6, _, a8, _⟩ := sizes_type hk
  simpa [statusWrite, statusTerm, a3, a4, a8] using emits_uint s h1 h2 d hp

theorem emits_time (s : Bool) (o : Option Time) (h : Opt (TimeOk s) o) : Emits (timeWrite o) (cells (opt timeTerm o)) := by
  refine emits_opt rfl (fun v hv => ?_) o h
  refine emits_node rfl (by decide) (emits_cons ?_ (emits_one ?_))
  · exact emits_uint s (by decide) (by decide) _ hv.1
  · exact emits_uint s (by decide) (by decide) _ hv.2.1

/-! ## Sequences, paths, lists -/

theorem emits_loop {w : Option α → M Unit} {f : Option α → Term} {es : List (Option α)}
    (h : ∀ e ∈ es, Emits (w e) (cells (f e))) : Emits (sequenceWriteLoop w es) (cellsAll (es.map f)) := by
  induction es with
  | nil => exact emits_pure
  | cons e es ih => exact emits_cons (h e (by simp)) (ih fun x hx => h x (by simp [hx]))

theorem emits_sequence (s : Bool) {w : Option α → M Unit} {f : Option α → Term} {P : Option α → Prop}
    (hw : ∀ e, P e → Emits (w e) (cells (f e))) (o : Option (Sequence α)) (h : SeqOk s P o) :
    Emits (sequenceWrite w o) (cells (opt (seqTerm f) o)) := by
  refine emits_opt rfl (fun q hq => ?_) o h.1
  exact emits_node (by simp) hq.1 (emits_loop fun e he => hw e (hq.2 e he))

theorem treePathWriteLoop_eq (es : List (Option OctetString)) : treePathWriteLoop es = sequenceWriteLoop octetStringWrite es := by
  induction es with
  | nil => rfl
  | cons e es ih => rw [treePathWriteLoop, sequenceWriteLoop, ih]

theorem emits_path (s : Bool) (o : Option TreePath) (h : Opt (PathOk s) o) : Emits (treePathWrite o) (cells (opt pathTerm o)) := by
  refine emits_opt rfl (fun p hp => ?_) o h
  unfold treePathWrite
  simp only [ne_eq, hp.1, not_false_eq_true, if_true, treePathWriteLoop_eq]
  exact emits_node (by simp) hp.2.1 (emits_loop fun e he => emits_octetString s e (hp.2.2 e he).1)

theorem emits_listEntry (s : Bool) (e : ListEntry) (h : ListEntryOk s e) : Emits (listEntryWrite e) (cells (listEntryTerm e)) := by
  obtain ⟨h1, h2, h3, h4, h5, h6, h7⟩ := h
  refine emits_node rfl (by decide) ?_
  refine emits_cons (emits_octetString s _ h1) ?_
  refine emits_cons (emits_status s _ h2) ?_
  refine emits_cons (emits_time s _ h3) ?_
  refine emits_cons (emits_uint s (by decide) (by decide) _ h4) ?_
  refine emits_cons (emits_int s (by decide) (by decide) _ h5) ?_
  refine emits_cons (emits_value s _ h6) ?_
  exact emits_one (emits_octetString s _ h7)

theorem emits_listLoop (s : Bool) (es : List ListEntry) (h : ∀ e ∈ es, ListEntryOk s e) :
    Emits (listWriteLoop es) (cellsAll (es.map listEntryTerm)) := by
  induction es with
  | nil => exact emits_pure
  | cons e es ih => exact emits_cons (emits_listEntry s e (h e (by simp))) (ih fun x hx => h x (by simp [hx]))

theorem emits_listW (s : Bool) (es : List ListEntry) (h : ListOk s es) : Emits (listWrite es) (cells (listTerm es)) := by
  cases es with
  | nil => exact emits_optionalWrite
  | cons e es =>
    unfold listWrite listTerm
    rw [if_neg (by simp)]
    exact emits_node (by simp) h.1 (emits_listLoop s _ h.2.1)

/-! ## Trees -/

theorem emits_periodEntry (s : Bool) (o : Option PeriodEntry) (h : Opt (PeriodEntryOk s) o) :
    Emits (periodEntryWrite o) (cells (opt periodEntryTerm o)) := by
  refine emits_opt rfl (fun m hm => ?_) o h
  obtain ⟨h1, h2, h3, h4, h5⟩ := hm
  refine emits_node rfl (by decide) ?_
  refine emits_cons (emits_octetString s _ h1) ?_
  refine emits_cons (emits_uint s (by decide) (by decide) _ h2) ?_
  refine emits_cons (emits_int s (by decide) (by decide) _ h3) ?_
  refine emits_cons (emits_value s _ h4) ?_
  exact emits_one (emits_octetString s _ h5)

theorem emits_ppv (s : Bool) (o : Option ProcParValue) (h : Opt (PpvOk s) o) :
    Emits (procParValueWrite o) (cells (opt ppvTerm o)) := by
  refine emits_opt rfl (fun v hv => ?_) o h
  obtain ⟨tag, d⟩ := v
  obtain ⟨t, rfl, ht, hd⟩ := hv
  refine emits_node rfl (by decide) ?_
  refine emits_cons (emits_uint s (by decide) (by decide) _ (fun a ha => by cases ha; exact ht)) ?_
  refine emits_one ?_
  simp only
  cases d with
  | null => exact hd.elim
  | tupelEntry p => exact hd.elim
  | value p => simp only at hd; obtain ⟨hv, hp⟩ := hd; rw [hv]; exact emits_value s p hp
  | periodEntry p => simp only at hd; obtain ⟨hv, hp⟩ := hd; rw [hv]; exact emits_periodEntry s p hp
  | time p => simp only at hd; obtain ⟨hv, hp⟩ := hd; rw [hv]; exact emits_time s p hp

theorem treeTerms_length (cs : List Tree) : (treeTerms cs).length = cs.length := by
  induction cs with
  | nil => rfl
  | cons c cs ih => simp [treeTerms, ih]

mutual
theorem emits_tree1 (s : Bool) : (t : Tree) → TreeFits s t → Emits (treeWrite1 t) (cells (treeTerm t))
  | .mk n v cs, h => by
    have h' : Opt (StrOk s) n ∧ Opt (PpvOk s) v ∧ cs.length < 16 ∧ ∀ c, c ∈ cs → TreeFits s c := by
      cases h with
      | mk h1 h2 h3 h4 => exact ⟨h1, h2, h3, h4⟩
    obtain ⟨h1, h2, h3, h4⟩ := h'
    unfold treeWrite1 treeTerm
    refine emits_node rfl (by decide) ?_
    refine emits_cons (emits_octetString s _ h1) ?_
    refine emits_cons (emits_ppv s _ h2) ?_
    refine emits_one ?_
    cases cs with
    | nil => exact emits_optionalWrite
    | cons c cs =>
      refine emits_node (by simp [treeTerms_length]) (by simpa using h3) ?_
      exact emits_cons (emits_tree1 s c (h4 c (by simp))) (emits_trees s cs fun x hx => h4 x (by simp [hx]))
theorem emits_trees (s : Bool) : (ts : List Tree) → (∀ c, c ∈ ts → TreeFits s c) → Emits (treeWriteList ts) (cellsAll (treeTerms ts))
  | [], _ => by unfold treeWriteList treeTerms; exact emits_pure
  | t :: ts, h => by
    unfold treeWriteList treeTerms
    exact emits_cons (emits_tree1 s t (h t (by simp))) (emits_trees s ts fun x hx => h x (by simp [hx]))
end

theorem emits_tree (s : Bool) (o : Option Tree) (h : Opt (TreeFits s) o) : Emits (treeWrite o) (cells (opt treeTerm o)) :=
  emits_opt rfl (fun t ht => emits_tree1 s t ht) o h

end Sml
