import Verif.Proofs.Encode
import Verif.Proofs.Run

/-!
# What the writers do to the buffer

A writer overwrites some bytes and OR-s others into what the buffer held before: a list of `Cell`s
says which.
-/

namespace Sml

open Spec

/-- One byte of output; with `keep` it is OR-ed into the byte that was there. -/
structure Cell where
  keep : Bool
  b : UInt8
deriving DecidableEq, Repr

/-- The byte a cell leaves behind. -/
def Cell.on (c : Cell) (old : UInt8) : UInt8 := if c.keep then old ||| c.b else c.b

/-- Cells applied to the bytes from the cursor on. -/
def paint : List Cell → List UInt8 → List UInt8
  | [], old => old
  | _ :: _, [] => []
  | c :: cs, o :: old => c.on o :: paint cs old

theorem paint_length (cs : List Cell) : ∀ old, (paint cs old).length = old.length := by
  induction cs with
  | nil => intro old; rfl
  | cons c cs ih => intro old; cases old <;> simp [paint, ih]

theorem paint_append (a b : List Cell) : ∀ old, a.length ≤ old.length →
    paint (a ++ b) old = (paint a old).take a.length ++ paint b (old.drop a.length) := by
  induction a with
  | nil => intro old _; simp [paint]
  | cons c a ih =>
    intro old h
    cases old with
    | nil => simp at h
    | cons o old => simp [paint, ih old (by simpa using h)]

theorem paint_drop (a : List Cell) : ∀ old, (paint a old).drop a.length = old.drop a.length := by
  induction a with
  | nil => intro old; simp [paint]
  | cons c a ih =>
    intro old
    cases old with
    | nil => simp [paint]
    | cons o old => simp [paint, ih old]

/-- The buffer after writing cells at the cursor. -/
def place (cs : List Cell) (st : St) : St :=
  { st with data := st.data.take st.cursor ++ paint cs (st.data.drop st.cursor), cursor := st.cursor + cs.length }

/-- `w` writes these cells, or runs over the end of the buffer. -/
def Emits (w : M Unit) (cs : List Cell) : Prop := ∀ st, st.cursor ≤ st.data.length →
  w st = if st.cursor + cs.length ≤ st.data.length then .ok () (place cs st) else .ub .oobWrite

theorem place_length (cs : List Cell) (st : St) (h : st.cursor ≤ st.data.length) :
    (place cs st).data.length = st.data.length := by
  simp [place, paint_length]; omega

theorem place_nil (st : St) : place [] st = st := by
  simp [place, paint]

theorem place_place (a b : List Cell) (st : St) (h : st.cursor + a.length ≤ st.data.length) :
    place b (place a st) = place (a ++ b) st := by
  have hl : (st.data.take st.cursor).length = st.cursor := by simp; omega
  unfold place
  simp only [List.length_append]
  congr 1
  · rw [paint_append _ _ _ (by simp; omega), List.take_append, List.drop_append, hl]
    simp only [Nat.add_sub_cancel_left]
    rw [List.take_of_length_le (by rw [hl]; omega), paint_drop, List.drop_of_length_le (l := st.data.take st.cursor) (by rw [hl]; omega)]
    simp
  · omega

theorem m_bind_assoc (x : M α) (f : α → M β) (g : β → M γ) : ((x >>= f) >>= g) = x >>= fun a => f a >>= g := by
  funext st
  simp only [run_bind]
  cases x st <;> rfl

theorem emits_pure : Emits (pure ()) [] := by
  intro st h
  simp [place_nil, run_pure, h]

theorem emits_bind {w1 w2 : M Unit} {a b : List Cell} (h1 : Emits w1 a) (h2 : Emits w2 b) :
    Emits (do w1; w2) (a ++ b) := by
  intro st h
  rw [run_bind, h1 st h]
  by_cases hc : st.cursor + a.length ≤ st.data.length
  · rw [if_pos hc, Res.andThen_ok, h2 _ (by rw [place_length _ _ h]; exact hc), place_length _ _ h, place_place _ _ _ hc]
    simp only [place, List.length_append]
    congr 2; omega
  · rw [if_neg hc, if_neg (by simp; omega)]
    rfl

theorem emits_congr {w : M Unit} {a b : List Cell} (h : Emits w a) (e : a = b) : Emits w b := e ▸ h

/-- Plain output. -/
def plain (bs : List UInt8) : List Cell := bs.map (Cell.mk false)

@[simp] theorem plain_length (bs : List UInt8) : (plain bs).length = bs.length := by simp [plain]

theorem paint_plain (bs : List UInt8) : ∀ old, bs.length ≤ old.length → paint (plain bs) old = bs ++ old.drop bs.length := by
  induction bs with
  | nil => intro old _; rfl
  | cons b bs ih =>
    intro old h
    cases old with
    | nil => simp at h
    | cons o old =>
      have := ih old (by simpa using h)
      simp only [plain] at this
      simp [plain, paint, Cell.on, this]

theorem emits_putBytes (bs : List UInt8) : Emits (putBytes bs) (plain bs) := by
  intro st h
  unfold putBytes
  rw [plain_length]
  split
  · next hc =>
    unfold place
    rw [paint_plain _ _ (by simp; omega)]
    simp [List.drop_drop]
  · rfl

theorem set_eq_take (l : List UInt8) (n : Nat) (b : UInt8) (h : n < l.length) :
    l.set n b = l.take n ++ b :: l.drop (n + 1) := by
  rw [List.set_eq_take_append_cons_drop, if_pos h]

theorem emits_setByte (b : UInt8) : Emits (do setByte b; advance) [⟨false, b⟩] := by
  intro st h
  rw [run_bind]
  unfold setByte
  by_cases hc : st.cursor < st.data.length
  · rw [if_pos hc, if_pos (by simp; omega)]
    simp only [Res.andThen_ok, run_advance, place]
    rw [List.drop_eq_getElem_cons hc, set_eq_take _ _ _ hc]
    simp [paint, Cell.on]
  · rw [if_neg hc, if_neg (by simp; omega)]
    rfl

theorem emits_orByte (b : UInt8) : Emits (do orByte b; advance) [⟨true, b⟩] := by
  intro st h
  rw [run_bind]
  by_cases hc : st.cursor < st.data.length
  · rw [run_orByte hc, if_pos (by simp; omega)]
    simp only [Res.andThen_ok, run_advance, place]
    rw [List.drop_eq_getElem_cons hc, set_eq_take _ _ _ hc]
    simp [paint, Cell.on]
  · have : st.data[st.cursor]? = none := by simp; omega
    rw [if_neg (by simp; omega)]
    simp [orByte, this]

/-- `setByte` before a first OR-ed byte. -/
theorem emits_setByte_or {w : M Unit} {b x : UInt8} {cs : List Cell} (h : Emits w (⟨true, x⟩ :: cs)) :
    Emits (do setByte b; w) (⟨false, b ||| x⟩ :: cs) := by
  intro st hle
  rw [run_bind]
  unfold setByte
  by_cases hc : st.cursor < st.data.length
  · rw [if_pos hc]
    simp only [Res.andThen_ok]
    rw [h _ (by simpa using hle)]
    simp only [List.length_set, List.length_cons]
    split
    · simp only [place]
      rw [List.drop_eq_getElem_cons hc, List.drop_eq_getElem_cons (by simpa using hc)]
      simp [paint, Cell.on, List.drop_set, List.take_set_of_le]
    · rfl
  · rw [if_neg hc, if_neg (by simp; omega)]
    rfl

/-- Two OR-s into the same byte. -/
theorem emits_or_or {w : M Unit} {b x : UInt8} {cs : List Cell} (h : Emits w (⟨true, x⟩ :: cs)) :
    Emits (do orByte b; w) (⟨true, b ||| x⟩ :: cs) := by
  intro st hle
  rw [run_bind]
  by_cases hc : st.cursor < st.data.length
  · rw [run_orByte hc]
    simp only [Res.andThen_ok]
    rw [h _ (by simpa using hle)]
    simp only [List.length_set, List.length_cons]
    split
    · simp only [place]
      rw [List.drop_eq_getElem_cons hc, List.drop_eq_getElem_cons (by simpa using hc)]
      simp [paint, Cell.on, List.drop_set, List.take_set_of_le, UInt8.or_assoc]
    · rfl
  · have : st.data[st.cursor]? = none := by simp; omega
    rw [if_neg (by simp; omega)]
    simp [orByte, this]

/-! ## The type-length field -/

/-- Selecting one hexadecimal digit. -/
theorem mask_and (j l : Nat) : 15 * 16 ^ j &&& l = l / 16 ^ j % 16 * 16 ^ j := by
  have h16 : ∀ j, (16 : Nat) ^ j = 2 ^ (4 * j) := fun j => by rw [Nat.pow_mul]
  rw [h16]
  apply Nat.eq_of_testBit_eq
  intro i
  rw [Nat.testBit_and, Nat.testBit_mul_two_pow, Nat.testBit_mul_two_pow]
  by_cases hi : 4 * j ≤ i
  · have h15 : (15 : Nat) = 2 ^ 4 - 1 := rfl
    have h16' : (16 : Nat) = 2 ^ 4 := rfl
    rw [h15, Nat.testBit_two_pow_sub_one, h16', Nat.testBit_mod_two_pow, Nat.testBit_div_two_pow]
    have : i - 4 * j + 4 * j = i := by omega
    simp [hi, this]
  · simp [hi]

theorem findMask_eq (p l : Nat) (h1 : 16 ^ p ≤ l) (h2 : l < 16 ^ (p + 1)) : ∀ (fuel q : Nat), p ≤ q → q < p + fuel →
    findMask fuel (15 * 16 ^ q) q l = (15 * 16 ^ p, p) := by
  intro fuel
  induction fuel with
  | zero => intro q h3 h4; omega
  | succ fuel ih =>
    intro q h3 h4
    unfold findMask
    rw [mask_and]
    by_cases hq : q = p
    · subst hq
      have h5 : 0 < l / 16 ^ q := Nat.div_pos h1 (Nat.pow_pos (by decide))
      have h6 : l / 16 ^ q < 16 := by
        rw [Nat.div_lt_iff_lt_mul (Nat.pow_pos (by decide)), ← Nat.pow_succ']; exact h2
      have h7 : ¬ l / 16 ^ q % 16 * 16 ^ q = 0 := by
        rw [Nat.mod_eq_of_lt h6]
        exact Nat.ne_of_gt (Nat.mul_pos h5 (Nat.pow_pos (by decide)))
      rw [if_neg h7]
    · have h5 : l / 16 ^ q = 0 := Nat.div_eq_of_lt (Nat.lt_of_lt_of_le h2 (Nat.pow_le_pow_right (by decide) (by omega)))
      rw [if_pos (by simp [h5])]
      obtain ⟨q, rfl⟩ : ∃ r, q = r + 1 := ⟨q - 1, by omega⟩
      have h6 : (15 * 16 ^ (q + 1)) >>> 4 = 15 * 16 ^ q := by
        rw [Nat.shiftRight_eq_div_pow, Nat.pow_succ, ← Nat.mul_assoc]
        exact Nat.mul_div_cancel _ (by decide)
      rw [h6]
      exact ih q (by omega) (by omega)

/-- The continuation bytes the copy loop OR-s in. -/
def contCells (l : Nat) : Nat → List Cell
  | 0 => []
  | j + 1 => ⟨true, 0x80 ||| UInt8.ofNat (l / 16 ^ (j + 1) % 16)⟩ :: contCells l j

theorem emits_copyLoop (l : Nat) : ∀ (fuel j : Nat), j < fuel → Emits (copyLoop fuel (15 * 16 ^ j) j l) (contCells l j) := by
  intro fuel
  induction fuel with
  | zero => intro j h; omega
  | succ fuel ih =>
    intro j h
    unfold copyLoop
    cases j with
    | zero => simp only [Nat.pow_zero, Nat.mul_one, gt_iff_lt, Nat.lt_irrefl, if_false]; exact emits_pure
    | succ j =>
      have h1 : 15 * 16 ^ (j + 1) > 15 := by
        have : 0 < 16 ^ j := Nat.pow_pos (by decide)
        rw [Nat.pow_succ]; omega
      have h6 : (15 * 16 ^ (j + 1)) >>> 4 = 15 * 16 ^ j := by
        rw [Nat.shiftRight_eq_div_pow, Nat.pow_succ, ← Nat.mul_assoc]
        exact Nat.mul_div_cancel _ (by decide)
      have h7 : (15 * 16 ^ (j + 1) &&& l) >>> (4 * (j + 1)) = l / 16 ^ (j + 1) % 16 := by
        rw [mask_and, Nat.shiftRight_eq_div_pow, Nat.pow_mul]
        exact Nat.mul_div_cancel _ (Nat.pow_pos (by decide))
      rw [if_pos h1, h6, h7]
      have h8 : j + 1 - 1 = j := by omega
      rw [h8]
      have := emits_bind (emits_orByte (UInt8.ofNat (l / 16 ^ (j + 1) % 16))) (ih j (by omega))
      rw [m_bind_assoc] at this
      exact emits_or_or this

/-- Header cells: the first byte is written, the others are OR-ed in. -/
def hdrCells : List UInt8 → List Cell
  | [] => []
  | b :: bs => ⟨false, b⟩ :: bs.map (Cell.mk true)

theorem nib_or : ∀ ty : Fin 8, ∀ n : Fin 16, UInt8.ofNat (16 * ty.val) ||| (0x80 ||| UInt8.ofNat n.val) = UInt8.ofNat (0x80 + 16 * ty.val + n.val) ∧
    UInt8.ofNat (16 * ty.val) ||| UInt8.ofNat n.val = UInt8.ofNat (0 + 16 * ty.val + n.val) ∧
    0x80 ||| UInt8.ofNat n.val = UInt8.ofNat (0x80 + 0 + n.val) := by decide +kernel

theorem contCells_eq (ty v k j : Nat) (h : j + 1 < k) :
    contCells v j ++ [⟨true, UInt8.ofNat (v &&& 15)⟩] = (headerBytes ty v k (j + 1)).map (Cell.mk true) := by
  induction j with
  | zero =>
    have hk : ¬ 1 = k := by omega
    simp [contCells, headerBytes, hk, and15]
  | succ j ih =>
    rw [headerBytes, List.map_cons, ← ih (by omega), contCells, List.cons_append]
    have hk : ¬ j + 1 + 1 = k := by omega
    have := (nib_or 0 ⟨v / 16 ^ (j + 1) % 16, Nat.mod_lt _ (by decide)⟩).2.2
    simp only at this
    simp [hk, this]

/-- The position of the leading hexadecimal digit. -/
theorem exists_pos (l : Nat) (h : 0 < l) : ∃ p, 16 ^ p ≤ l ∧ l < 16 ^ (p + 1) := by
  induction l using Nat.strongRecOn with
  | ind l ih =>
    by_cases hl : l < 16
    · exact ⟨0, by simp; omega, by simpa using hl⟩
    · obtain ⟨p, h1, h2⟩ := ih (l / 16) (by omega) (by omega)
      exact ⟨p + 1, by rw [Nat.pow_succ]; omega, by rw [Nat.pow_succ 16 (p+1)]; omega⟩

/-- `sml_buf_set_type_and_length` writes the minimal header, the bytes after the first OR-ed in. -/
theorem emits_setTypeAndLength {ty n : Nat} (hty : ty < 8) (h : (ty = 7 ∧ n < 16) ∨ (ty ≠ 7 ∧ n + 1 < 16 ^ 6 ∧ NoCarry n)) :
    Emits (setTypeAndLength (16 * ty) n) (hdrCells (encHeader ty n)) := by
  have hshort : ∀ l, l < 16 → Emits (do setByte (UInt8.ofNat (16 * ty)); orByte (UInt8.ofNat (l &&& 0xF)); advance)
      [⟨false, UInt8.ofNat (16 * ty + l)⟩] := by
    intro l hl
    have h1 := emits_setByte_or (b := UInt8.ofNat (16 * ty)) (emits_orByte (UInt8.ofNat (l &&& 0xF)))
    have h2 := (nib_or ⟨ty, hty⟩ ⟨l, hl⟩).2.1
    rw [and15, Nat.mod_eq_of_lt hl] at h1 ⊢
    simp only [Nat.zero_add] at h2
    rw [h2] at h1
    exact h1
  unfold setTypeAndLength
  rcases h with ⟨rfl, h16⟩ | ⟨hne, hn, hcar⟩
  · simp only [tyList, ne_eq, not_true_eq_false, if_false, Nat.reduceMul]
    rw [if_neg (by omega), encHeader_short (by simpa [spelled] using h16)]
    simpa [hdrCells, spelled] using hshort n h16
  · have hne' : 16 * ty ≠ tyList := by simp only [tyList]; omega
    simp only [ne_eq, hne', not_false_eq_true, if_true]
    have hm : (n + 1) % 4294967296 = n + 1 := Nat.mod_eq_of_lt (by omega)
    rw [hm]
    by_cases h16 : n + 1 < 16
    · rw [if_neg (by omega), encHeader_short (by simpa [spelled, hne] using h16)]
      simpa [hdrCells, spelled, hne] using hshort (n + 1) h16
    · rw [if_pos (by omega)]
      obtain ⟨p, hp1, hp2⟩ := exists_pos (n + 1) (by omega)
      have hp6 : p < 6 := by
        refine Nat.lt_of_not_le fun hge => ?_
        have := Nat.pow_le_pow_right (show 0 < 16 by decide) hge
        omega
      have hp0 : 0 < p := by
        refine Nat.pos_of_ne_zero fun h0 => ?_
        subst h0
        simp at hp2; omega
      have hmask := findMask_eq p (n + 1) hp1 hp2 8 7 (by omega) (by omega)
      have : 15 * 16 ^ 7 = 0xF0000000 := by decide
      rw [this] at hmask
      rw [hmask]
      simp only
      have hnc : n + 1 + p < 16 ^ (p + 1) := by
        have := hcar (p + 1)
        omega
      have hm2 : (n + 1 + p) % 4294967296 = n + 1 + p := Nat.mod_eq_of_lt (by omega)
      rw [hm2, if_neg (by omega)]
      have hsh : 0xF <<< (4 * (p + 1)) &&& (n + 1 + p) = 0 := by
        rw [Nat.shiftLeft_eq, Nat.pow_mul, mask_and, Nat.div_eq_of_lt hnc]
        simp
      have hsz : headerSize ty n = p + 1 := by
        refine headerSize_eq (by omega) (by simpa [spelled, hne, Nat.add_assoc, Nat.add_comm 1 p] using hnc) ?_
        intro j hj1 hj2
        simp only [spelled, hne, if_false]
        have h1 : 16 ^ j ≤ 16 ^ p := Nat.pow_le_pow_right (by decide) (by omega)
        omega
      simp only [hsh, not_true_eq_false, if_false]
      have hsp : spelled ty n (p + 1) = n + 1 + p := by simp [spelled, hne]; omega
      have hnote : ∀ (k : M Unit), (do noteOvf (decide (p = 6)); k) = k := by
        intro k
        funext st
        have : ¬ p = 6 := by omega
        rw [run_bind, run_noteOvf]
        simp [this]
      rw [hnote]
      have hbody := emits_bind (emits_copyLoop (n + 1 + p) 9 p (by omega)) (emits_orByte (UInt8.ofNat ((n + 1 + p) &&& 0xF)))
      obtain ⟨p, rfl⟩ : ∃ q, p = q + 1 := ⟨p - 1, by omega⟩
      have hb2 := emits_setByte_or (b := UInt8.ofNat (16 * ty)) hbody
      refine emits_congr hb2 ?_
      unfold encHeader
      rw [hsz]
      dsimp only
      rw [hsp, headerBytes]
      rw [if_neg (Nat.succ_ne_zero p), if_pos rfl]
      simp only [hdrCells]
      have h3 := contCells_eq ty (n + 1 + (p + 1)) (p + 1 + 1) p (by omega)
      have h4 := (nib_or ⟨ty, hty⟩ ⟨(n + 1 + (p + 1)) / 16 ^ (p + 1) % 16, Nat.mod_lt _ (by decide)⟩).1
      simp only at h4
      rw [h4, ← h3]
      rfl

end Sml
