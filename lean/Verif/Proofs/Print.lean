import Verif.Spec.Print
import Verif.Proofs.Double

/-!
# Digits
-/

namespace Sml
open Spec

theorem decDigit_decChar {d : Nat} (h : d < 10) : decDigit (decChar d) = some d := by
  have : ∀ d : Fin 10, decDigit (decChar d.val) = some d.val := by decide +kernel
  exact this ⟨d, h⟩

theorem decChar_decDigit {c : UInt8} {d : Nat} (h : decDigit c = some d) : c = decChar d ∧ d < 10 := by
  have : ∀ c : Fin 256, (decDigit (UInt8.ofNat c.val)).all (fun d => decide (UInt8.ofNat c.val = decChar d) && decide (d < 10)) = true := by decide +kernel
  have h1 := this ⟨c.toNat, UInt8.toNat_lt c⟩
  simp only [UInt8.ofNat_toNat, h, Option.all_some, Bool.and_eq_true, decide_eq_true_eq] at h1
  exact h1

theorem readDec_nil : readDec [] = some 0 := rfl

theorem readDec_snoc (t : List UInt8) (c : UInt8) : readDec (t ++ [c]) = (do
    let a ← readDec t
    let d ← decDigit c
    pure (10 * a + d)) := by
  simp [readDec, List.foldl_append]

theorem readDec_snoc_some {t : List UInt8} {c : UInt8} {n : Nat} (h : readDec (t ++ [c]) = some n) :
    ∃ a d, readDec t = some a ∧ decDigit c = some d ∧ n = 10 * a + d := by
  rw [readDec_snoc] at h
  cases ha : readDec t with
  | none => rw [ha] at h; cases h
  | some a =>
    cases hd : decDigit c with
    | none => rw [ha, hd] at h; cases h
    | some d =>
      rw [ha, hd] at h
      exact ⟨a, d, rfl, rfl, (Option.some.inj h).symm⟩

theorem snoc_cases {α : Type} (t : List α) : t = [] ∨ ∃ t0 c, t = t0 ++ [c] := by
  cases t with
  | nil => exact Or.inl rfl
  | cons a t => exact Or.inr ⟨(a :: t).dropLast, (a :: t).getLast (by simp), (List.dropLast_concat_getLast (by simp)).symm⟩

/-- Digits in two parts. -/
theorem readDec_append {a : List UInt8} {v : Nat} (ha : readDec a = some v) (b : List UInt8) (w : Nat) (hb : readDec b = some w) :
    readDec (a ++ b) = some (v * 10 ^ b.length + w) := by
  induction hl : b.length generalizing b w with
  | zero =>
    have : b = [] := List.length_eq_zero_iff.1 hl
    subst this
    cases hb
    simp [ha]
  | succ k ih =>
    rcases snoc_cases b with rfl | ⟨b0, c, rfl⟩
    · simp at hl
    · obtain ⟨w0, d, h1, h2, rfl⟩ := readDec_snoc_some hb
      simp only [List.length_append, List.length_singleton, Nat.add_right_cancel_iff] at hl
      rw [← List.append_assoc, readDec_snoc, ih b0 w0 h1 hl, h2]
      simp only [Option.bind_eq_bind, Option.bind_some, Option.pure_def, Option.some.injEq, Nat.pow_succ]
      rw [Nat.mul_add, Nat.add_assoc]
      congr 1
      rw [Nat.mul_left_comm, Nat.mul_comm 10]

theorem readDec_parts {a b : List UInt8} {n : Nat} (h : readDec (a ++ b) = some n) :
    ∃ v w, readDec a = some v ∧ readDec b = some w := by
  induction hl : b.length generalizing b n with
  | zero =>
    have : b = [] := List.length_eq_zero_iff.1 hl
    subst this
    rw [List.append_nil] at h
    exact ⟨n, 0, h, rfl⟩
  | succ k ih =>
    rcases snoc_cases b with rfl | ⟨b0, c, rfl⟩
    · simp at hl
    · rw [← List.append_assoc] at h
      obtain ⟨m, d, h1, h2, rfl⟩ := readDec_snoc_some h
      simp only [List.length_append, List.length_singleton, Nat.add_right_cancel_iff] at hl
      obtain ⟨v, w, h3, h4⟩ := ih h1 hl
      refine ⟨v, 10 * w + d, h3, ?_⟩
      rw [readDec_snoc, h4, h2]
      rfl

theorem readDec_lt {b : List UInt8} {w : Nat} (h : readDec b = some w) : w < 10 ^ b.length := by
  induction hl : b.length generalizing b w with
  | zero =>
    have : b = [] := List.length_eq_zero_iff.1 hl
    subst this
    cases h
    decide
  | succ k ih =>
    rcases snoc_cases b with rfl | ⟨b0, c, rfl⟩
    · simp at hl
    · obtain ⟨w0, d, h1, h2, rfl⟩ := readDec_snoc_some h
      simp only [List.length_append, List.length_singleton, Nat.add_right_cancel_iff] at hl
      have := ih h1 hl
      have := (decChar_decDigit h2).2
      rw [Nat.pow_succ]
      omega

/-- Strings of digits of the same length and value are equal. -/
theorem readDec_inj {a b : List UInt8} {n : Nat} (hl : a.length = b.length) (ha : readDec a = some n) (hb : readDec b = some n) : a = b := by
  induction hk : b.length generalizing a b n with
  | zero =>
    have h1 : b = [] := List.length_eq_zero_iff.1 hk
    have h2 : a = [] := List.length_eq_zero_iff.1 (hl.trans hk)
    rw [h1, h2]
  | succ k ih =>
    rcases snoc_cases b with rfl | ⟨b0, c, rfl⟩
    · simp at hk
    rcases snoc_cases a with rfl | ⟨a0, c', rfl⟩
    · simp at hl
    obtain ⟨w, d, h1, h2, rfl⟩ := readDec_snoc_some hb
    obtain ⟨w', d', h3, h4, h5⟩ := readDec_snoc_some ha
    obtain ⟨rfl, h6⟩ := decChar_decDigit h2
    obtain ⟨rfl, h7⟩ := decChar_decDigit h4
    have e1 : w' = w := by omega
    have e2 : d' = d := by omega
    subst e1
    subst e2
    simp only [List.length_append, List.length_singleton, Nat.add_right_cancel_iff] at hl hk
    rw [ih hl h3 h1 hk]

theorem readDec_pos {c : UInt8} {t : List UInt8} {n : Nat} (hc : c ≠ 0x30) (h : readDec (c :: t) = some n) : 10 ^ t.length ≤ n := by
  obtain ⟨v, w, h1, h2⟩ := readDec_parts (a := [c]) (b := t) h
  have h3 := readDec_append h1 t w h2
  rw [show [c] ++ t = c :: t from rfl, h] at h3
  obtain ⟨a, d, h4, h5, h6⟩ := readDec_snoc_some (t := []) h1
  cases h4
  have hd : d ≠ 0 := by
    rintro rfl
    exact hc ((decChar_decDigit h5).1)
  have hv : 1 ≤ v := by omega
  have := Nat.mul_le_mul_right (10 ^ t.length) hv
  have := Option.some.inj h3
  omega

theorem decGo_spells : ∀ (fuel n : Nat), n < 10 ^ fuel → (0 < fuel) → Spells n (decGo fuel n)
  | 0, _, _, h => absurd h (by decide)
  | fuel + 1, n, h, _ => by
    unfold decGo
    by_cases hn : n < 10
    · rw [if_pos hn]
      refine ⟨?_, by simp, ?_⟩
      · rw [show [decChar n] = [] ++ [decChar n] from rfl, readDec_snoc, decDigit_decChar hn]
        simp [readDec_nil]
      · intro h
        simpa using h
    · rw [if_neg hn]
      have hf : 0 < fuel := by
        rcases Nat.eq_zero_or_pos fuel with rfl | h
        · simp at h; omega
        · exact h
      rw [Nat.pow_succ] at h
      obtain ⟨h1, h2, h3⟩ := decGo_spells fuel (n / 10) (by omega) hf
      refine ⟨?_, by simp, ?_⟩
      · rw [readDec_snoc, h1, decDigit_decChar (Nat.mod_lt _ (by decide))]
        simp only [Option.bind_eq_bind, Option.bind_some, Option.pure_def, Option.some.injEq]
        omega
      · intro hh
        cases hg : decGo fuel (n / 10) with
        | nil => exact absurd hg h2
        | cons c cs =>
          rw [hg] at hh h3 h1
          simp only [List.cons_append, List.head?_cons, Option.some.injEq] at hh
          have := h3 (by simp [hh])
          rw [this] at h1
          have : readDec [(0x30 : UInt8)] = some 0 := rfl
          rw [this] at h1
          have := Option.some.inj h1
          omega

theorem decText_spells (n : Nat) : Spells n (decText n) :=
  decGo_spells _ _ (Nat.lt_of_lt_of_le Nat.lt_two_pow_self
    (Nat.le_trans (Nat.pow_le_pow_right (by decide) (Nat.le_succ n)) (Nat.pow_le_pow_left (by decide) _))) (by omega)

/-- There is only one spelling. -/
theorem spells_unique {n : Nat} {t t' : List UInt8} (h : Spells n t) (h' : Spells n t') : t = t' := by
  have key : ∀ {t t' : List UInt8}, Spells n t → Spells n t' → t.length ≤ t'.length := by
    rintro t t' ⟨h1, h2, h3⟩ ⟨h4, h5, h6⟩
    have hpos : 1 ≤ t'.length := by
      cases t' with
      | nil => exact absurd rfl h5
      | cons _ _ => simp
    cases t with
    | nil => simp
    | cons c cs =>
      by_cases hc : c = 0x30
      · have := h3 (by simp [hc])
        rw [this]
        exact hpos
      · have h7 := readDec_pos hc h1
        have h8 := readDec_lt h4
        have := (Nat.pow_lt_pow_iff_right (a := 10) (by decide)).1 (Nat.lt_of_le_of_lt h7 h8)
        simp only [List.length_cons]
        omega
  exact readDec_inj (Nat.le_antisymm (key h h') (key h' h)) h.1 h'.1

/-- A number has only one value. -/
theorem spells_value {n n' : Nat} {t : List UInt8} (h : Spells n t) (h' : Spells n' t) : n = n' :=
  Option.some.inj (h.1.symm.trans h'.1)

theorem decPad_length (w n : Nat) : (decPad w n).length = w := by
  induction w generalizing n with
  | zero => rfl
  | succ w ih => simp [decPad, ih]

theorem decPad_value (w n : Nat) : readDec (decPad w n) = some (n % 10 ^ w) := by
  induction w generalizing n with
  | zero => simp [decPad, readDec_nil, Nat.mod_one]
  | succ w ih =>
    unfold decPad
    rw [readDec_snoc, ih, decDigit_decChar (Nat.mod_lt _ (by decide))]
    simp only [Option.bind_eq_bind, Option.bind_some, Option.pure_def, Option.some.injEq]
    rw [Nat.pow_succ, Nat.mul_comm (10 ^ w) 10, Nat.mod_mul]
    omega

/-- `%.*f` spells the nearest decimal number. -/
theorem fixedText_spells (prec : Nat) (v e : Int) :
    SpellsFixed (decide (v < 0)) (roundDiv (v.natAbs * 2 ^ e.toNat * 10 ^ prec) (2 ^ (-e).toNat)) prec (fixedText prec v e) := by
  unfold fixedText
  simp only
  generalize roundDiv (v.natAbs * 2 ^ e.toNat * 10 ^ prec) (2 ^ (-e).toNat) = n
  obtain ⟨h1, h2, h3⟩ := decText_spells (n / 10 ^ prec)
  refine ⟨decText (n / 10 ^ prec), decPad prec n, ?_, decPad_length _ _, ?_, h2, h3⟩
  · simp only [decide_eq_true_eq]
  · rw [readDec_append h1 _ _ (decPad_value prec n), decPad_length, Nat.mul_comm, Nat.div_add_mod]

theorem fixed_parts {neg : Bool} {n k : Nat} {t : List UInt8} (h : SpellsFixed neg n k t) :
    ∃ ip fp, t = (if neg then [0x2D] else []) ++ ip ++ (if k = 0 then [] else 0x2E :: fp) ∧ fp.length = k ∧
      Spells (n / 10 ^ k) ip ∧ readDec fp = some (n % 10 ^ k) ∧ readDec (ip ++ fp) = some n := by
  obtain ⟨ip, fp, h1, h2, h3, h4, h5⟩ := h
  obtain ⟨v, w, h6, h7⟩ := readDec_parts h3
  have h8 := readDec_append h6 fp w h7
  rw [h3, h2] at h8
  have h9 := readDec_lt h7
  rw [h2] at h9
  have hn : n = w + 10 ^ k * v := by
    have := Option.some.inj h8
    rw [Nat.mul_comm] at this
    omega
  have e1 : n / 10 ^ k = v := by
    rw [hn, Nat.add_mul_div_left _ _ (Nat.pow_pos (by decide)), Nat.div_eq_of_lt h9, Nat.zero_add]
  have e2 : n % 10 ^ k = w := by
    rw [hn, Nat.add_mul_mod_self_left, Nat.mod_eq_of_lt h9]
  rw [e1, e2]
  exact ⟨ip, fp, h1, h2, ⟨h6, h4, h5⟩, h7, h3⟩

/-- There is only one spelling with `k` digits after the point. -/
theorem fixed_unique {neg : Bool} {n k : Nat} {t t' : List UInt8} (h : SpellsFixed neg n k t) (h' : SpellsFixed neg n k t') : t = t' := by
  obtain ⟨ip, fp, rfl, h1, h2, h3, _⟩ := fixed_parts h
  obtain ⟨ip', fp', rfl, h1', h2', h3', _⟩ := fixed_parts h'
  rw [spells_unique h2 h2', readDec_inj (h1.trans h1'.symm) h3 h3']

theorem digit_head {c : UInt8} {t : List UInt8} {n : Nat} (h : readDec (c :: t) = some n) : c ≠ 0x2D := by
  obtain ⟨v, w, h1, _⟩ := readDec_parts (a := [c]) (b := t) h
  obtain ⟨a, d, _, h5, _⟩ := readDec_snoc_some (t := []) h1
  rintro rfl
  cases h5

/-- Two different numbers are spelt differently. -/
theorem fixed_value {neg neg' : Bool} {n n' k : Nat} {t : List UInt8} (h : SpellsFixed neg n k t) (h' : SpellsFixed neg' n' k t) :
    neg = neg' ∧ n = n' := by
  obtain ⟨ip, fp, ht, h1, h2, h3, h4⟩ := fixed_parts h
  obtain ⟨ip', fp', ht', h1', h2', h3', h4'⟩ := fixed_parts h'
  have hne : ∃ c cs, ip = c :: cs ∧ c ≠ 0x2D := by
    cases hip : ip with
    | nil => exact absurd hip h2.2.1
    | cons c cs => exact ⟨c, cs, rfl, digit_head (hip ▸ h2.1)⟩
  have hne' : ∃ c cs, ip' = c :: cs ∧ c ≠ 0x2D := by
    cases hip : ip' with
    | nil => exact absurd hip h2'.2.1
    | cons c cs => exact ⟨c, cs, rfl, digit_head (hip ▸ h2'.1)⟩
  obtain ⟨c, cs, rfl, hc⟩ := hne
  obtain ⟨c', cs', rfl, hc'⟩ := hne'
  have hneg : neg = neg' := by
    rw [ht] at ht'
    cases neg <;> cases neg'
    · rfl
    · simp only [Bool.false_eq_true, if_false, if_true, List.nil_append, List.cons_append, List.cons.injEq] at ht'
      exact absurd ht'.1 hc
    · simp only [Bool.false_eq_true, if_false, if_true, List.nil_append, List.cons_append, List.cons.injEq] at ht'
      exact absurd ht'.1.symm hc'
    · rfl
  subst hneg
  refine ⟨rfl, ?_⟩
  rw [ht, List.append_assoc, List.append_assoc] at ht'
  have ht' := List.append_cancel_left ht'
  have hlen : fp.length = fp'.length := by omega
  by_cases hk : k = 0
  · simp only [hk, if_true, List.append_nil] at ht'
    have e1 : fp = [] := List.length_eq_zero_iff.1 (by omega)
    have e2 : fp' = [] := List.length_eq_zero_iff.1 (by omega)
    rw [e1] at h4
    rw [e2, ← ht'] at h4'
    exact Option.some.inj (h4.symm.trans h4')
  · simp only [hk, if_false] at ht'
    obtain ⟨e1, e2⟩ := List.append_inj' ht' (by simp [hlen])
    obtain ⟨_, e2⟩ := List.cons.inj e2
    rw [e1, e2] at h4
    exact Option.some.inj (h4.symm.trans h4')

/-! ## Rounding -/

theorem roundDiv_eq {num den x : Nat} (h : 2 * ((num : Int) - x * den).natAbs < den) : roundDiv num den = x := by
  have hd : 0 < den := by omega
  have h1 : num = den * (num / den) + num % den := (Nat.div_add_mod num den).symm
  have h2 := Nat.mod_lt num hd
  unfold roundDiv
  generalize num / den = q at h1 ⊢
  generalize num % den = r at h1 h2 ⊢
  subst h1
  rcases Nat.lt_trichotomy x q with hx | hx | hx
  · obtain ⟨d, rfl⟩ : ∃ d, q = x + 1 + d := ⟨q - x - 1, by omega⟩
    exfalso
    have : den * (x + 1 + d) = x * den + den + den * d := by rw [Nat.mul_add, Nat.mul_add, Nat.mul_comm den x]; omega
    have h3 : 0 ≤ den * d := Nat.zero_le _
    rw [this] at h
    omega
  · subst hx
    have : den * x = x * den := Nat.mul_comm _ _
    rw [this] at h
    rw [if_neg (by omega)]
  · obtain ⟨d, rfl⟩ : ∃ d, x = q + 1 + d := ⟨x - q - 1, by omega⟩
    have e : (q + 1 + d) * den = den * q + den + d * den := by rw [Nat.add_mul, Nat.add_mul, Nat.mul_comm q den]; omega
    have e' : ((q + 1 + d : Nat) : Int) * den = ((den * q + den + d * den : Nat) : Int) := by rw [← e]; simp
    rw [e'] at h
    rcases Nat.eq_zero_or_pos d with rfl | hd'
    · rw [Nat.zero_mul] at h
      rw [if_pos (by omega)]
    · exfalso
      have := Nat.mul_le_mul_right den hd'
      omega

theorem roundDouble_error (m : Nat) : ((roundDouble m : Int) - m).natAbs * 2 ^ 53 ≤ m := by
  by_cases h : m < 2 ^ 53
  · rw [roundDouble_exact m (by omega)]
    simp
  · obtain ⟨e, q, r, _, hm, hr, hq, _, ⟨h1, h2⟩ | ⟨h1, h2⟩⟩ := roundDouble_cases m (by omega)
    · rw [h1]
      have h3 := Nat.mul_le_mul_right (2 ^ e) hq
      generalize q * 2 ^ e = Q at *
      generalize 2 ^ e = E at *
      omega
    · rw [h1, Nat.add_mul, Nat.one_mul]
      have h3 := Nat.mul_le_mul_right (2 ^ e) hq
      generalize q * 2 ^ e = Q at *
      generalize 2 ^ e = E at *
      omega

/-- A reading of up to 50 bits, multiplied with a negative power of ten and rounded to as many decimal places, is unchanged. -/
theorem scaled_exact {X k : Nat} {p : Dbl} (hX : X ≤ 2 ^ 50) (hp : NearPower k p) :
    roundDiv (roundDouble (X * p.m) * 2 ^ p.e.toNat * 10 ^ k) (2 ^ (-p.e).toNat) = X := by
  apply roundDiv_eq
  unfold NearPower at hp
  have hb : 0 < 2 ^ (-p.e).toNat := Nat.pow_pos (by decide)
  have herr := roundDouble_error (X * p.m)
  have hcast : (2 : Int) ^ (-p.e).toNat = ((2 ^ (-p.e).toNat : Nat) : Int) := by simp
  have hA : (p.m * 2 ^ p.e.toNat * 10 ^ k : Int) = ((p.m * (2 ^ p.e.toNat * 10 ^ k) : Nat) : Int) := by simp [Int.mul_assoc]
  rw [hcast, hA] at hp
  rw [Nat.mul_assoc]
  generalize 2 ^ (-p.e).toNat = b at *
  generalize 2 ^ p.e.toNat * 10 ^ k = c at *
  generalize roundDouble (X * p.m) = R at *
  generalize p.m = m at *
  -- R c - X b = (R - X m) c + X (m c - b)
  have key : ((R * c : Nat) : Int) - X * b = (R - (X * m : Nat)) * c + X * ((m * c : Nat) - b) := by
    simp only [Int.natCast_mul]
    rw [Int.sub_mul, Int.mul_sub, Int.mul_assoc (X : Int)]
    omega
  have h1 : (((R * c : Nat) : Int) - X * b).natAbs ≤ ((R : Int) - (X * m : Nat)).natAbs * c + X * (((m * c : Nat) : Int) - b).natAbs := by
    rw [key]
    refine Nat.le_trans (Int.natAbs_add_le _ _) ?_
    rw [Int.natAbs_mul, Int.natAbs_mul, Int.natAbs_natCast, Int.natAbs_natCast]
    exact Nat.le_refl _
  generalize ((R : Int) - (X * m : Nat)).natAbs = E1 at *
  generalize hE2 : (((m * c : Nat) : Int) - b).natAbs = E2 at *
  generalize (((R * c : Nat) : Int) - X * b).natAbs = E at *
  -- sizes
  have h2 : E1 * c * 2 ^ 53 ≤ X * (m * c) := by
    have := Nat.mul_le_mul_right c herr
    calc E1 * c * 2 ^ 53 = E1 * 2 ^ 53 * c := by ac_rfl
      _ ≤ X * m * c := this
      _ = X * (m * c) := by ac_rfl
  have h3 : m * c ≤ b + E2 := by omega
  have h4 : X * (m * c) ≤ X * b + X * E2 := by
    have := Nat.mul_le_mul_left X h3
    rwa [Nat.mul_add] at this
  have h5 : X * E2 * 2 ^ 52 ≤ X * b := by
    have := Nat.mul_le_mul_left X hp
    rwa [← Nat.mul_assoc] at this
  have h6 : X * b ≤ 2 ^ 50 * b := Nat.mul_le_mul_right b hX
  generalize X * b = Xb at *
  generalize X * E2 = XE at *
  generalize E1 * c = E1c at *
  generalize X * (m * c) = Xmc at *
  omega

theorem roundDiv_error {num den : Nat} (hd : 0 < den) : 2 * (((roundDiv num den * den : Nat) : Int) - (num : Int)).natAbs ≤ den := by
  have h1 : num = num / den * den + num % den := by rw [Nat.mul_comm]; exact (Nat.div_add_mod num den).symm
  have h2 := Nat.mod_lt num hd
  unfold roundDiv
  split
  · rw [Nat.add_mul, Nat.one_mul]
    omega
  · omega

theorem error_sum {F E A W B V b K : Nat} (hK : 0 < K) (h1 : F ≤ E + (A + W)) (h2 : 2 * E ≤ b) (h3 : A * (8 * K) ≤ B) (h4 : B ≤ V + W)
    (h5 : W * (4 * K) ≤ V) : F * (2 * K) ≤ K * b + V := by
  have s1 := Nat.mul_le_mul_right K h1
  have s2 := Nat.mul_le_mul_left K h2
  have s3 : W ≤ W * K := Nat.le_mul_of_pos_right _ hK
  rw [Nat.add_mul, Nat.add_mul] at s1
  rw [Nat.mul_left_comm, Nat.mul_comm K E] at s2
  rw [Nat.mul_left_comm] at h3 h5
  rw [Nat.mul_left_comm]
  omega

theorem error_last {d dn dw V W K : Nat} (hK : 0 < K) (h1 : d ≤ dn + dw) (h2 : W ≤ V + dw) (h3 : dn * (4 * K) ≤ 2 * K + W) (h4 : dw * (16 * K) ≤ V) :
    d * (2 * K) ≤ K + V := by
  have s1 := Nat.mul_le_mul_right K h1
  have s2 : dw ≤ dw * K := Nat.le_mul_of_pos_right _ hK
  rw [Nat.add_mul] at s1
  rw [Nat.mul_left_comm] at h3 h4 ⊢
  omega

/-- The sum of the errors: of the power `m` (up to the factors `c` and `b`) from `T`, of the product and of the printed number. -/
theorem rounding_errors {R c X m b T n : Nat} (hb : 0 < b) (h1 : (((m * c : Nat) : Int) - (T * b : Nat)).natAbs * 2 ^ 52 ≤ T * b)
    (h2 : ((R : Int) - (X * m : Nat)).natAbs * 2 ^ 53 ≤ X * m) (h3 : 2 * (((n * b : Nat) : Int) - (R * c : Nat)).natAbs ≤ b) :
    ((n : Int) - (X * T : Nat)).natAbs * 2 ^ 51 ≤ 2 ^ 50 + X * T := by
  have key : ((n : Int) - (X * T : Nat)) * b = ((n * b : Nat) - (R * c : Nat)) + ((R - (X * m : Nat)) * c + X * ((m * c : Nat) - (T * b : Nat))) := by
    simp only [Int.natCast_mul]
    rw [Int.sub_mul, Int.sub_mul, Int.mul_sub, Int.mul_assoc (X : Int), Int.mul_assoc (X : Int)]
    omega
  have h4 : ((n : Int) - (X * T : Nat)).natAbs * b ≤ (((n * b : Nat) : Int) - (R * c : Nat)).natAbs +
      (((R : Int) - (X * m : Nat)).natAbs * c + X * (((m * c : Nat) : Int) - (T * b : Nat)).natAbs) := by
    have := congrArg Int.natAbs key
    rw [Int.natAbs_mul, Int.natAbs_natCast] at this
    rw [this]
    refine Nat.le_trans (Int.natAbs_add_le _ _) (Nat.add_le_add_left (Nat.le_trans (Int.natAbs_add_le _ _) ?_) _)
    rw [Int.natAbs_mul, Int.natAbs_mul, Int.natAbs_natCast, Int.natAbs_natCast]
    exact Nat.le_refl _
  generalize (((n * b : Nat) : Int) - (R * c : Nat)).natAbs = E3 at *
  generalize ((R : Int) - (X * m : Nat)).natAbs = E1 at *
  generalize hE2 : (((m * c : Nat) : Int) - (T * b : Nat)).natAbs = E2 at *
  generalize ((n : Int) - (X * T : Nat)).natAbs = E at *
  have h5 : E1 * c * 2 ^ 53 ≤ X * (m * c) := by
    have := Nat.mul_le_mul_right c h2
    calc E1 * c * 2 ^ 53 = E1 * 2 ^ 53 * c := by ac_rfl
      _ ≤ X * m * c := this
      _ = X * (m * c) := by ac_rfl
  have h6 : X * (m * c) ≤ X * (T * b) + X * E2 := by
    have : m * c ≤ T * b + E2 := by omega
    have := Nat.mul_le_mul_left X this
    rwa [Nat.mul_add] at this
  have h7 : X * E2 * 2 ^ 52 ≤ X * (T * b) := by
    have := Nat.mul_le_mul_left X h1
    rwa [← Nat.mul_assoc] at this
  have h8 : E * 2 ^ 51 * b ≤ (2 ^ 50 + X * T) * b := by
    have e1 : E * 2 ^ 51 * b = E * b * 2 ^ 51 := by ac_rfl
    have e2 : (2 ^ 50 + X * T) * b = 2 ^ 50 * b + X * (T * b) := by rw [Nat.add_mul, Nat.mul_assoc X]
    rw [e1, e2]
    rw [show 2 ^ 53 = 8 * 2 ^ 50 from rfl] at h5
    rw [show 2 ^ 52 = 4 * 2 ^ 50 from rfl] at h7
    rw [show 2 ^ 51 = 2 * 2 ^ 50 from rfl]
    exact error_sum (Nat.pow_pos (by decide)) h4 h3 h5 h6 h7
  exact Nat.le_of_mul_le_mul_right h8 hb


/-- Multiples of a power of two with at most 53 further bits are `double` numbers. -/
theorem roundDouble_shift (y t : Nat) (h : y ≤ 2 ^ 53) : roundDouble (y * 2 ^ t) = y * 2 ^ t := by
  obtain ⟨_, h1, _⟩ := roundDouble_nearest (y * 2 ^ t)
  by_cases hy : y < 2 ^ 53
  · have := h1 y t (by simpa using hy)
    simp only [Int.natCast_mul, Int.natCast_pow] at this
    have e : ((y * 2 ^ t : Nat) : Int) = (y : Int) * 2 ^ t := by simp
    rw [show ((2 : Nat) : Int) = 2 from rfl] at this
    omega
  · have : y = 2 ^ 53 := by omega
    subst this
    have h2 := h1 (2 ^ 52 : Nat) (t + 1) (by simp)
    have e : ((2 ^ 53 * 2 ^ t : Nat) : Int) = ((2 ^ 52 : Nat) : Int) * 2 ^ (t + 1) := by
      rw [Int.pow_succ]
      simp
      omega
    rw [e] at h2
    omega

/-- A reading times a positive power of ten. -/
theorem raised_exact {X n : Nat} {p : Dbl} (hX : X * n ≤ 2 ^ 53) (hp : ExactPower n p) :
    roundDiv (roundDouble (X * p.m) * 2 ^ p.e.toNat * 10 ^ 0) (2 ^ (-p.e).toNat) = X * n := by
  have hr : roundDouble (X * p.m) = X * p.m := by
    unfold ExactPower at hp
    by_cases he : p.e ≤ 0
    · rw [show p.e.toNat = 0 by omega, Nat.pow_zero, Nat.mul_one] at hp
      rw [hp, ← Nat.mul_assoc]
      exact roundDouble_shift _ _ hX
    · rw [show (-p.e).toNat = 0 by omega, Nat.pow_zero, Nat.mul_one] at hp
      refine roundDouble_exact _ (Nat.le_trans (Nat.mul_le_mul_left X ?_) hX)
      rw [← hp]
      exact Nat.le_mul_of_pos_right _ (Nat.pow_pos (by decide))
  rw [hr]
  apply roundDiv_eq
  unfold ExactPower at hp
  rw [Nat.mul_assoc X, hp, Nat.pow_zero, Nat.mul_one, ← Nat.mul_assoc]
  have : 0 < 2 ^ (-p.e).toNat := Nat.pow_pos (by decide)
  simp
  omega

/-! ## Dumps -/

theorem hexValue_upper {n : Nat} (h : n < 16) : hexValue (hexUpper n) = some n ∧ hexUpper n ≠ 0x20 ∧ hexUpper n ≠ 0x0A := by
  have : ∀ n : Fin 16, hexValue (hexUpper n.val) = some n.val ∧ hexUpper n.val ≠ 0x20 ∧ hexUpper n.val ≠ 0x0A := by decide +kernel
  exact this ⟨n, h⟩

theorem readDump_space (cs : List UInt8) : readDump (0x20 :: cs) = readDump cs := by
  rw [readDump.eq_def]
  simp

theorem readDump_newline (cs : List UInt8) : readDump (0x0A :: cs) = readDump cs := by
  rw [readDump.eq_def]
  simp

theorem readDump_byte (b : UInt8) (cs : List UInt8) :
    readDump (hexUpper (b.toNat / 16) :: hexUpper (b.toNat % 16) :: cs) = (readDump cs).map (b :: ·) := by
  have hb := UInt8.toNat_lt b
  obtain ⟨h1, h2, h3⟩ := hexValue_upper (n := b.toNat / 16) (by omega)
  obtain ⟨h4, _, _⟩ := hexValue_upper (n := b.toNat % 16) (by omega)
  rw [readDump.eq_def]
  simp only [h2, h3, or_self, if_false, h1, h4]
  have : UInt8.ofNat (16 * (b.toNat / 16) + b.toNat % 16) = b := by rw [Nat.div_add_mod]; simp
  simp only [Option.bind_eq_bind, Option.bind_some, Option.pure_def, this]
  cases readDump cs <;> rfl

theorem hexdumpLoop_read (i : Nat) (bs : List UInt8) (rest : List UInt8) : readDump (hexdumpLoop i bs ++ rest) = (readDump rest).map (bs ++ ·) := by
  induction bs generalizing i with
  | nil =>
    simp only [hexdumpLoop, List.nil_append]
    cases readDump rest <;> rfl
  | cons b bs ih =>
    unfold hexdumpLoop
    simp only [List.cons_append, List.nil_append, List.append_assoc]
    rw [readDump_byte, readDump_space]
    split
    · rw [List.cons_append, readDump_newline, List.nil_append, ih]
      cases readDump rest <;> rfl
    · rw [List.nil_append, ih]
      cases readDump rest <;> rfl

end Sml
