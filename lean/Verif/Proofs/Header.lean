import Verif.Proofs.ContractMessage
import Verif.Proofs.Run
import Verif.Spec.Header

/-!
# Decoding of type-length headers
-/

namespace Sml

set_option linter.unusedSimpArgs false

theorem and15 (b : Nat) : b &&& 0xF = b % 16 := by
  have := Nat.and_two_pow_sub_one_eq_mod b 4
  simpa using this

theorem type_bits (b : UInt8) : b.toNat &&& 0x70 = b.toNat / 16 % 8 * 16 := by
  have key : ∀ n : Fin 256, n.val &&& 0x70 = n.val / 16 % 8 * 16 := by decide +kernel
  exact key ⟨b.toNat, UInt8.toNat_lt b⟩

theorem drop_cons_get {l : List UInt8} {n : Nat} {b : UInt8} {r : List UInt8} (h : l.drop n = b :: r) :
    ∃ hn : n < l.length, l[n] = b ∧ l.drop (n + 1) = r := by
  have hn : n < l.length := by
    rcases Nat.lt_or_ge n l.length with h' | h'
    · exact h'
    · rw [List.drop_eq_nil_of_le h'] at h; cases h
  rw [List.drop_eq_getElem_cons hn] at h
  injection h with h1 h2
  exact ⟨hn, h1, h2⟩

/-- Number and low-nibble accumulator of `lenLoop`. -/
def lenAcc (v : Nat) (bs : List UInt8) : Nat :=
  bs.foldl (fun v b => (v * 16 % 4294967296) ||| (b.toNat &&& 0xF)) v

/-- The mathematical value of the nibbles after `v`. -/
def nibbles (v : Nat) (bs : List UInt8) : Nat := bs.foldl (fun v b => v * 16 + b.toNat % 16) v

theorem nibbles_ge (bs : List UInt8) : ∀ v, v ≤ nibbles v bs := by
  induction bs with
  | nil => intro v; exact Nat.le_refl _
  | cons b bs ih =>
    intro v
    have := ih (v * 16 + b.toNat % 16)
    simp only [nibbles, List.foldl_cons] at this ⊢
    omega

theorem lenLoop_run (more : List UInt8) : ∀ (last : UInt8) (rest : List UInt8) (fuel length : Nat)
    (list : Int) (st : St), st.data.drop st.cursor = more ++ last :: rest →
    (∀ b ∈ more, 128 ≤ b.toNat) → last.toNat < 128 → more.length < fuel → list ≤ 0 →
    ∃ o, lenLoop fuel length list st = .ok (lenAcc length (more ++ [last]),
        if list = 0 then 0 else list - more.length)
      { st with cursor := st.cursor + more.length, sovf := o } ∧
      (nibbles length (more ++ [last]) < 2147483648 →
        o = st.sovf ∧ lenAcc length (more ++ [last]) = nibbles length (more ++ [last])) := by
  induction more with
  | nil =>
    intro last rest fuel length list st hd _ hl hf hlist
    obtain ⟨hn, hb, hr⟩ := drop_cons_get hd
    cases fuel with
    | zero => simp at hf
    | succ fuel =>
      have hnc : ¬ (last &&& 0x80 = 0x80) := by rw [cont_bit]; omega
      refine ⟨st.sovf || decide (length * 16 ≥ 2147483648), ?_, ?_⟩
      · unfold lenLoop
        run
        rw [if_pos hn, run_getCurrentByte hn, hb]
        run
        rw [if_pos hnc]
        simp [lenAcc]
      · intro hv
        simp only [nibbles, List.nil_append, List.foldl_cons, List.foldl_nil] at hv
        have h1 : length * 16 < 2147483648 := by omega
        refine ⟨by simp; omega, ?_⟩
        simp only [lenAcc, nibbles, List.nil_append, List.foldl_cons, List.foldl_nil, and15]
        rw [Nat.mod_eq_of_lt (by omega), shift_or_eq (by omega)]
  | cons b more ih =>
    intro last rest fuel length list st hd hmore hl hf hlist
    obtain ⟨hn, hb, hr⟩ := drop_cons_get hd
    cases fuel with
    | zero => simp at hf
    | succ fuel =>
      have hc : b &&& 0x80 = 0x80 := by rw [cont_bit]; exact hmore b (by simp)
      obtain ⟨o, h1, h2⟩ := ih last rest fuel ((length * 16 % 4294967296) ||| (b.toNat &&& 0xF))
        (if list ≠ 0 then list - 1 else list)
        { st with cursor := st.cursor + 1, sovf := st.sovf || decide (length * 16 ≥ 2147483648) } hr
        (fun x hx => hmore x (by simp [hx])) hl (by simp at hf; omega) (by split <;> omega)
      refine ⟨o, ?_, ?_⟩
      · unfold lenLoop
        run
        rw [if_pos hn, run_getCurrentByte hn, hb]
        run
        rw [if_neg (by simpa using hc), h1]
        simp only [lenAcc, List.cons_append, List.foldl_cons, List.length_cons]
        congr 1
        · congr 1
          split <;> split <;> simp_all <;> omega
        · congr 1; omega
      · intro hv
        simp only [nibbles, List.cons_append, List.foldl_cons] at hv
        have hge := nibbles_ge (more ++ [last]) (length * 16 + b.toNat % 16)
        simp only [nibbles] at hge
        have hlt : length * 16 < 2147483648 := by omega
        have hacc : (length * 16 % 4294967296) ||| (b.toNat &&& 0xF) = length * 16 + b.toNat % 16 := by
          rw [and15, Nat.mod_eq_of_lt (by omega), shift_or_eq (by omega)]
        rw [hacc] at h2
        obtain ⟨g1, g2⟩ := h2 hv
        have hno : ¬ length * 16 ≥ 2147483648 := by omega
        refine ⟨by rw [g1]; simp [hno], ?_⟩
        simp only [lenAcc, nibbles, List.cons_append, List.foldl_cons] at g2 ⊢
        rw [hacc]; exact g2

/-- Exactly what a complete header yields. -/
theorem getNextLength_run {hdr rest : List UInt8} {st : St} (hh : Spec.IsHeader hdr)
    (hd : st.data.drop st.cursor = hdr ++ rest) :
    ∃ o, getNextLength st = .ok (wrap32 (toI32 (lenAcc 0 hdr) +
        (if Spec.headerType hdr = 7 then 0 else - (hdr.length : Int))))
      { st with cursor := st.cursor + hdr.length, sovf := o } ∧
      (Spec.headerValue hdr < 2147483648 → hdr.length ≤ 2147483648 → o = st.sovf ∧ lenAcc 0 hdr = Spec.headerValue hdr) := by
  obtain ⟨more, last, rfl, hmore, hlast⟩ := hh
  have hlen : (st.data.drop st.cursor).length = (more ++ [last] ++ rest).length := by rw [hd]
  simp at hlen
  have hlt : st.cursor < st.data.length := by omega
  let list : Int := if st.data[st.cursor].toNat &&& 0x70 = tyList then 0 else -1
  obtain ⟨o, h1, h2⟩ := lenLoop_run more last rest (st.data.length - st.cursor + 1) 0 list st
    (by simpa using hd) hmore hlast (by omega) (by simp only [list]; split <;> omega)
  have hty : Spec.headerType (more ++ [last]) = st.data[st.cursor].toNat / 16 % 8 := by
    cases more with
    | nil => 
      obtain ⟨_, hb, _⟩ := drop_cons_get hd
      simp [Spec.headerType, hb]
    | cons b more =>
      obtain ⟨_, hb, _⟩ := drop_cons_get hd
      simp [Spec.headerType, hb]
  have hl : (if list = 0 then 0 else list - (more.length : Int)) =
      if Spec.headerType (more ++ [last]) = 7 then 0 else -((more ++ [last]).length : Int) := by
    simp only [list, hty, type_bits]
    by_cases h7 : st.data[st.cursor].toNat / 16 % 8 = 7
    · simp [h7]
    · have : ¬ st.data[st.cursor].toNat / 16 % 8 * 16 = tyList := by simp only [tyList]; omega
      simp [h7, this]; omega
  rw [hl] at h1
  have hlast : more.length + 1 ≤ st.data.length - st.cursor := by omega
  refine ⟨o || decide (toI32 (lenAcc 0 (more ++ [last])) + (if Spec.headerType (more ++ [last]) = 7 then 0
    else -((more ++ [last]).length : Int)) < -2147483648), ?_, ?_⟩
  · have hne : ¬ st.cursor + 1 > st.data.length := by omega
    have hlt2 : st.cursor + more.length < st.data.length := by omega
    unfold getNextLength
    run
    rw [if_neg hne, run_getCurrentByte hlt]
    run
    rw [h1]
    run
    rw [if_pos hlt2]
    simp [Nat.add_assoc]
  · intro hv hlen
    obtain ⟨g1, g2⟩ := h2 hv
    refine ⟨?_, g2⟩
    rw [g1, g2]
    have : toI32 (nibbles 0 (more ++ [last])) = (nibbles 0 (more ++ [last]) : Int) := by
      unfold toI32; rw [if_pos]; exact hv
    rw [this]
    have : ¬ ((nibbles 0 (more ++ [last]) : Int) + (if Spec.headerType (more ++ [last]) = 7 then 0
      else -((more ++ [last]).length : Int)) < -2147483648) := by split <;> omega
    simp only [this, decide_false, Bool.or_false]

/-- A header whose length fits is decoded to exactly that length. -/
theorem getNextLength_spec {hdr rest : List UInt8} {st : St} (hh : Spec.IsHeader hdr)
    (hd : st.data.drop st.cursor = hdr ++ rest) (hv : Spec.headerValue hdr < 2147483648)
    (hl : hdr.length ≤ 2147483648) :
    getNextLength st = .ok (Spec.headerLength hdr) { st with cursor := st.cursor + hdr.length } := by
  obtain ⟨o, h1, h2⟩ := getNextLength_run hh hd
  obtain ⟨rfl, g2⟩ := h2 hv hl
  rw [h1, g2]
  have : toI32 (Spec.headerValue hdr) = (Spec.headerValue hdr : Int) := by
    unfold toI32; rw [if_pos]; exact hv
  rw [this]
  congr 1
  unfold Spec.headerLength wrap32
  split <;> · rw [Int.bmod_eq_of_le] <;> omega

theorem lenLoop_cut (more : List UInt8) : ∀ (fuel length : Nat) (list : Int) (st : St),
    st.data.drop st.cursor = more → (∀ b ∈ more, 128 ≤ b.toNat) → more.length < fuel →
    ∃ r o, lenLoop fuel length list st =
      .ok r { st with cursor := st.cursor + more.length, sovf := o } := by
  induction more with
  | nil =>
    intro fuel length list st hd _ hf
    have hge : ¬ st.cursor < st.data.length := by
      intro h; rw [List.drop_eq_getElem_cons h] at hd; cases hd
    cases fuel with
    | zero => simp at hf
    | succ fuel =>
      refine ⟨(length, list), st.sovf, ?_⟩
      unfold lenLoop
      run
      rw [if_neg hge]
      simp
  | cons b more ih =>
    intro fuel length list st hd hmore hf
    obtain ⟨hn, hb, hr⟩ := drop_cons_get hd
    cases fuel with
    | zero => simp at hf
    | succ fuel =>
      have hc : b &&& 0x80 = 0x80 := by rw [cont_bit]; exact hmore b (by simp)
      obtain ⟨r, o, h1⟩ := ih fuel ((length * 16 % 4294967296) ||| (b.toNat &&& 0xF))
        (if list ≠ 0 then list - 1 else list)
        { st with cursor := st.cursor + 1, sovf := st.sovf || decide (length * 16 ≥ 2147483648) } hr
        (fun x hx => hmore x (by simp [hx])) (by simp at hf; omega)
      refine ⟨r, o, ?_⟩
      unfold lenLoop
      run
      rw [if_pos hn, run_getCurrentByte hn, hb]
      run
      rw [if_neg (by simpa using hc), h1]
      simp only [List.length_cons]
      congr 2; omega

/-- A header cut off by the end of the buffer is an error. -/
theorem getNextLength_cut {st : St} (hc : st.cursor ≤ st.data.length)
    (hd : ∀ b ∈ st.data.drop st.cursor, 128 ≤ b.toNat) :
    ∃ o, getNextLength st = .ok (-1) { st with cursor := st.data.length, sovf := o, error := true } := by
  by_cases h : st.cursor + 1 > st.data.length
  · refine ⟨st.sovf, ?_⟩
    unfold getNextLength
    run
    rw [if_pos h]
    have : st.cursor = st.data.length := by omega
    simp [this]
  · have hlt : st.cursor < st.data.length := by omega
    obtain ⟨r, o, h1⟩ := lenLoop_cut _ (st.data.length - st.cursor + 1) 0
      (if st.data[st.cursor].toNat &&& 0x70 = tyList then 0 else -1) st rfl hd (by simp)
    refine ⟨o, ?_⟩
    unfold getNextLength
    run
    rw [if_neg h, run_getCurrentByte hlt]
    run
    rw [h1]
    run
    have h2 : ¬ st.cursor + (st.data.drop st.cursor).length < st.data.length := by simp; omega
    rw [if_neg h2]
    have h3 : st.cursor + (st.data.drop st.cursor).length = st.data.length := by simp; omega
    rw [h3]

/-- Any bytes start with a header, or the header is cut off. -/
theorem header_or_cut (bs : List UInt8) :
    (∃ hdr rest, bs = hdr ++ rest ∧ Spec.IsHeader hdr) ∨ ∀ b ∈ bs, 128 ≤ b.toNat := by
  induction bs with
  | nil => right; simp
  | cons b bs ih =>
    by_cases hb : b.toNat < 128
    · left; exact ⟨[b], bs, rfl, [], b, rfl, by simp, hb⟩
    · rcases ih with ⟨hdr, rest, rfl, more, last, rfl, hm, hl⟩ | h
      · left
        refine ⟨b :: (more ++ [last]), rest, rfl, b :: more, last, rfl, ?_, hl⟩
        intro x hx
        simp at hx
        rcases hx with rfl | hx
        · omega
        · exact hm x hx
      · right
        intro x hx
        simp at hx
        rcases hx with rfl | hx
        · omega
        · exact h x hx

end Sml
