import Verif.Spec.Units
import Verif.Model.Example
import Verif.Proofs.Double
import Verif.Proofs.Run

/-!
# Strings, conversions, units, appending: C42 to C45, C47 to C49
-/

namespace Sml

open Spec

/-! ## C42 -/

theorem memcmp_zero : ∀ a b : List UInt8, a.length = b.length → (memcmp a b = 0 ↔ a = b)
  | [], [], _ => by simp [memcmp]
  | x :: a, y :: b, h => by
    have ih := memcmp_zero a b (by simpa using h)
    unfold memcmp
    by_cases hxy : x = y
    · rw [if_pos hxy, ih, hxy]; simp
    · rw [if_neg hxy]
      have : ¬ (x :: a = y :: b) := by simp [hxy]
      simp only [this, iff_false]
      split <;> decide
  | [], _ :: _, h => by simp at h
  | _ :: _, [], h => by simp at h

theorem memcmp_neg : ∀ a b : List UInt8, a.length = b.length → (memcmp a b < 0 ↔ a < b)
  | [], [], _ => by simp [memcmp]
  | x :: a, y :: b, h => by
    have ih := memcmp_neg a b (by simpa using h)
    unfold memcmp
    rw [List.cons_lt_cons_iff]
    by_cases hxy : x = y
    · rw [if_pos hxy, ih, hxy]
      have : ¬ y < y := by simp
      simp [this]
    · rw [if_neg hxy]
      by_cases hlt : x < y
      · simp [hlt]
      · simp [hlt, hxy]
  | [], _ :: _, h => by simp at h
  | _ :: _, [], h => by simp at h

/-- C42: the comparison is 0 exactly for equal strings. -/
theorem c42_equal (a b : OctetString) : octetStringCmp a b = 0 ↔ a = b := by
  obtain ⟨a⟩ := a
  obtain ⟨b⟩ := b
  unfold octetStringCmp
  by_cases h : a.length = b.length
  · rw [if_neg (by simpa using h), memcmp_zero a b h]
    simp
  · rw [if_pos h]
    simp only [OctetString.mk.injEq]
    constructor
    · intro h0; cases h0
    · intro e; rw [e] at h; exact absurd rfl h

/-- C42: for strings of the same length the sign is that of the lexicographic order; strings of different
length are each less than the other. -/
theorem c42_sign (a b : OctetString) :
    (a.str.length = b.str.length → (octetStringCmp a b < 0 ↔ a.str < b.str)) ∧
    (a.str.length ≠ b.str.length → octetStringCmp a b = -1 ∧ octetStringCmp b a = -1) := by
  unfold octetStringCmp
  refine ⟨fun h => ?_, fun h => ?_⟩
  · rw [if_neg (by simpa using h)]; exact memcmp_neg _ _ h
  · exact ⟨if_pos h, if_pos (Ne.symm h)⟩

example : octetStringCmp ⟨[1, 2, 3]⟩ ⟨[1, 2, 4]⟩ < 0 ∧ octetStringCmp ⟨[1]⟩ ⟨[1, 2]⟩ = -1 ∧ octetStringCmp ⟨[1, 2]⟩ ⟨[1]⟩ = -1 := by decide

/-! ## C43 -/

theorem ctoi_digit (c : UInt8) (n : Nat) (h : digitValue c = some n) : (ctoi c).toNat = n ∧ n < 16 := by
  have key : ∀ i : Fin 256, ∀ k : Fin 16, digitValue (UInt8.ofNat i.val) = some k.val → (ctoi (UInt8.ofNat i.val)).toNat = k.val := by decide +kernel
  have bound : ∀ i : Fin 256, ∀ n ∈ digitValue (UInt8.ofNat i.val), n < 16 := by
    have : ∀ i : Fin 256, (match digitValue (UInt8.ofNat i.val) with | some n => decide (n < 16) | none => true) = true := by decide +kernel
    intro i n hn
    have := this i
    rw [hn] at this
    simpa using this
  have hc : UInt8.ofNat (⟨c.toNat, c.toNat_lt⟩ : Fin 256).val = c := by simp
  have hb := bound ⟨c.toNat, c.toNat_lt⟩ n (by rw [hc]; exact h)
  have := key ⟨c.toNat, c.toNat_lt⟩ ⟨n, hb⟩ (by rw [hc]; exact h)
  rw [hc] at this
  exact ⟨this, hb⟩

theorem nibble_pair (a b : UInt8) (ha : a.toNat < 16) (hb : b.toNat < 16) : (a <<< 4 ||| b).toNat = 16 * a.toNat + b.toNat := by
  have key : ∀ i j : Fin 16, (UInt8.ofNat i.val <<< 4 ||| UInt8.ofNat j.val).toNat = 16 * i.val + j.val := by decide +kernel
  have := key ⟨a.toNat, ha⟩ ⟨b.toNat, hb⟩
  simpa using this

theorem hexLoop_run {text bs : List UInt8} (h : Denotes text bs) : ∀ (pre acc : List UInt8) (i : Nat) (st : St), pre.length = i * 2 →
    hexLoop (pre ++ text) bs.length i acc st = .ok (acc ++ bs) st := by
  induction h with
  | nil => intro pre acc i st _; simp [hexLoop, run_pure]
  | @cons c1 c2 b hi lo t bs h1 h2 h3 h4 ih =>
    intro pre acc i st hp
    have e1 : (pre ++ c1 :: c2 :: t)[i * 2]? = some c1 := by rw [← hp]; simp
    have e2 : (pre ++ c1 :: c2 :: t)[i * 2 + 1]? = some c2 := by rw [← hp, List.getElem?_append_right (by omega)]; simp
    have hb : c2toi c1 c2 = b := by
      obtain ⟨a1, a2⟩ := ctoi_digit c1 hi h1
      obtain ⟨b1, b2⟩ := ctoi_digit c2 lo h2
      apply UInt8.toNat_inj.1
      unfold c2toi
      rw [nibble_pair _ _ (by omega) (by omega), a1, b1, h3]
    have := ih (pre ++ [c1, c2]) (acc ++ [b]) (i + 1) st (by simp; omega)
    show hexLoop (pre ++ c1 :: c2 :: t) (bs.length + 1) i acc st = _
    unfold hexLoop
    rw [e1, e2]
    simp only [hb]
    simpa using this

theorem denotes_length {text bs : List UInt8} (h : Denotes text bs) : text.length = 2 * bs.length := by
  induction h with
  | nil => rfl
  | cons _ _ _ _ ih => simp [ih]; omega

/-- C43: a hexadecimal text, in upper, lower or mixed case, gives the bytes it denotes. -/
theorem c43_init (text bs : List UInt8) (h : Denotes text bs) (hne : text ≠ []) (hi : text.length ≤ 2147483647) (st : St) :
    octetStringInitFromHex text st = .ok (some ⟨bs⟩) { st with live := st.live + 2 } := by
  have hl := denotes_length h
  have hpos : 0 < text.length := List.length_pos_iff.2 hne
  unfold octetStringInitFromHex
  rw [if_neg (by omega), if_neg (by omega), if_neg (by omega), run_bind, show text.length / 2 = bs.length by omega]
  have := hexLoop_run h [] [] 0 st rfl
  simp only [List.nil_append] at this
  rw [this, Res.andThen_ok]
  unfold octetStringInit
  run
  rw [if_pos (by omega)]
  run

theorem digit_value (n : Nat) (h : n < 16) : digitValue (digit n) = some n := by
  have : ∀ i : Fin 16, digitValue (digit i.val) = some i.val := by decide +kernel
  exact this ⟨n, h⟩

/-- C43: every byte string has a hexadecimal text. -/
theorem c43_text (bs : List UInt8) : Denotes (hexText bs) bs := by
  induction bs with
  | nil => exact .nil
  | cons b bs ih =>
    have hb := b.toNat_lt
    exact .cons (digit_value _ (by omega)) (digit_value _ (by omega)) (by omega) ih

/-- C43: comparing with a hexadecimal text is 0 exactly for the string it denotes, and leaves no memory behind. -/
theorem c43_compare (s : OctetString) (text bs : List UInt8) (h : Denotes text bs) (hne : text ≠ []) (hi : text.length ≤ 2147483647) (st : St) :
    ∃ r, octetStringCmpWithHex s text st = .ok r st ∧ (r = 0 ↔ s.str = bs) := by
  have hl := denotes_length h
  have hbs : bs ≠ [] := by
    rintro rfl
    exact hne (List.length_eq_zero_iff.1 (by simpa using hl))
  unfold octetStringCmpWithHex
  rw [run_bind, c43_init text bs h hne hi st, Res.andThen_ok]
  simp only
  have hf : octetStringFreed (some ⟨bs⟩) = 2 := by simp [octetStringFreed, hbs]
  by_cases hlen : s.str.length = bs.length
  · rw [if_neg (by simpa using hlen), run_bind, run_release (by rw [hf]; simp), Res.andThen_ok, run_pure, hf]
    exact ⟨_, rfl, memcmp_zero _ _ hlen⟩
  · rw [if_pos hlen, run_bind, run_release (by rw [hf]; simp), Res.andThen_ok, run_pure, hf]
    refine ⟨-1, rfl, ?_⟩
    constructor
    · intro h0; cases h0
    · intro e; rw [e] at hlen; exact absurd rfl hlen

/-- C43: a text of odd length gives NULL, and comparing with it dereferences NULL; the empty text makes
an array of no elements. -/
theorem c43_bad (s : OctetString) (text : List UInt8) (hi : text.length ≤ 2147483647) (st : St) :
    (text.length % 2 = 1 → octetStringInitFromHex text st = .ok none st ∧ octetStringCmpWithHex s text st = .ub .nullDeref) ∧
    (text = [] → octetStringInitFromHex text st = .ub .vla ∧ octetStringCmpWithHex s text st = .ub .vla) := by
  refine ⟨fun h => ?_, fun h => ?_⟩
  · have : octetStringInitFromHex text st = .ok none st := by
      unfold octetStringInitFromHex
      rw [if_neg (by omega), if_pos (by omega), run_pure]
    refine ⟨this, ?_⟩
    unfold octetStringCmpWithHex
    rw [run_bind, this]
    rfl
  · subst h
    exact ⟨rfl, rfl⟩

/-- "0aFf" -/
example : Denotes [0x30, 0x61, 0x46, 0x66] [0x0A, 0xFF] :=
  .cons (h := 0) (l := 10) (by decide +kernel) (by decide +kernel) rfl (.cons (h := 15) (l := 15) (by decide +kernel) (by decide +kernel) rfl .nil)

/-! ## C44 -/

theorem hexDigits (b : UInt8) : [hexDigit ((b >>> 4) &&& 0x0F), hexDigit (b &&& 0x0F), 0x20] = triple b := by
  have key : ∀ i : Fin 256, [hexDigit ((UInt8.ofNat i.val >>> 4) &&& 0x0F), hexDigit (UInt8.ofNat i.val &&& 0x0F), 0x20] = triple (UInt8.ofNat i.val) := by decide +kernel
  have := key ⟨b.toNat, b.toNat_lt⟩
  simpa using this

theorem printable_iff (b : UInt8) : (b > 0x20 ∧ b < 0x7b) ↔ Printable b = true := by
  unfold Printable
  rw [gt_iff_lt, UInt8.lt_iff_toNat_lt, UInt8.lt_iff_toNat_lt]
  simp only [Bool.and_eq_true, decide_eq_true_eq]
  show (32 < b.toNat ∧ b.toNat < 123) ↔ _
  omega

theorem rendering_printable {b : UInt8} (h : Printable b = true) (bs : List UInt8) : rendering true (b :: bs) = b :: rendering true bs := by
  simp [rendering, h]

theorem rendering_other {b : UInt8} (h : Printable b = false) (bs : List UInt8) : rendering true (b :: bs) = triple b ++ rendering false bs := by
  simp [rendering, h]

theorem rendering_hex (b : UInt8) (bs : List UInt8) : rendering false (b :: bs) = triple b ++ rendering false bs := by
  simp [rendering]

theorem strhexLoop_run (cap : Nat) : ∀ (bs : List UInt8) (mixed : Bool) (out : List UInt8) (st : St), out.length + 3 * bs.length < cap →
    strhexLoop cap bs mixed out st = .ok (out ++ rendering mixed bs) st
  | [], mixed, out, st, h => by
    unfold strhexLoop
    rw [if_pos (by simpa using h), run_pure]
    simp [rendering]
  | b :: bs, mixed, out, st, h => by
    simp only [List.length_cons] at h
    unfold strhexLoop
    cases mixed with
    | true =>
      by_cases hp : Printable b = true
      · rw [if_pos ⟨rfl, (printable_iff b).2 hp⟩, if_pos (by omega), strhexLoop_run cap bs true _ st (by simp; omega), rendering_printable hp]
        simp
      · rw [if_neg (by rintro ⟨_, h⟩; exact hp ((printable_iff b).1 h)), if_pos (by omega), strhexLoop_run cap bs false _ st (by simp; omega), hexDigits,
          rendering_other (by simpa using hp)]
        simp
    | false =>
      rw [if_neg (by rintro ⟨h, _⟩; cases h), if_pos (by omega), strhexLoop_run cap bs false _ st (by simp; omega), hexDigits, rendering_hex]
      simp

theorem rendering_length (mixed : Bool) : ∀ bs : List UInt8, (rendering mixed bs).length ≤ 3 * bs.length := by
  have hf : ∀ bs : List UInt8, (rendering false bs).length = 3 * bs.length := by
    intro bs
    induction bs with
    | nil => rfl
    | cons b bs ih => rw [rendering_hex, List.length_append, ih]; simp [triple]; omega
  intro bs
  cases mixed with
  | false => exact Nat.le_of_eq (hf bs)
  | true =>
    induction bs with
    | nil => simp [rendering]
    | cons b bs ih =>
      by_cases hp : Printable b = true
      · rw [rendering_printable hp]; simp; omega
      · rw [rendering_other (by simpa using hp), List.length_append, hf]; simp [triple]; omega

/-- C44: a non-empty string is rendered as the specification says; the array for it has three characters for every byte
and one more, and nothing is written beyond it. -/
theorem c44_rendering (s : OctetString) (t : Nat) (mixed : Bool) (hne : s.str ≠ []) (hlen : 3 * s.str.length + 1 ≤ 2147483647) (st : St) :
    valueToStrhex (some ⟨t, .bytes (some s)⟩) mixed st = .ok (some (rendering mixed s.str)) { st with live := st.live + 1 } ∧
    (rendering mixed s.str).length + 1 ≤ 3 * s.str.length + 1 := by
  refine ⟨?_, Nat.succ_le_succ (rendering_length mixed s.str)⟩
  unfold valueToStrhex
  simp only
  rw [if_neg hne, if_neg (by omega)]
  run
  rw [strhexLoop_run _ _ _ _ _ (by simp; omega)]
  rfl

theorem digit_inj {a b : Nat} (ha : a < 16) (hb : b < 16) (h : digit a = digit b) : a = b := by
  have h1 := digit_value a ha
  rw [h, digit_value b hb] at h1
  exact (Option.some.inj h1).symm

theorem triple_inj {a b : UInt8} {x y : List UInt8} (h : triple a ++ x = triple b ++ y) : a = b ∧ x = y := by
  simp only [triple, List.cons_append, List.nil_append, List.cons.injEq, true_and] at h
  obtain ⟨h1, h2, h3⟩ := h
  have := a.toNat_lt
  have := b.toNat_lt
  have e1 := digit_inj (by omega) (by omega) h1
  have e2 := digit_inj (by omega) (by omega) h2
  exact ⟨UInt8.toNat_inj.1 (by omega), h3⟩

theorem hex_inj : ∀ a b : List UInt8, rendering false a = rendering false b → a = b
  | [], [], _ => rfl
  | [], b :: bs, h => by rw [rendering_hex] at h; simp [rendering, triple] at h
  | a :: as, [], h => by rw [rendering_hex] at h; simp [rendering, triple] at h
  | a :: as, b :: bs, h => by
    rw [rendering_hex, rendering_hex] at h
    obtain ⟨h1, h2⟩ := triple_inj h
    rw [h1, hex_inj as bs h2]

theorem digit_not_space (n : Nat) (h : n < 16) : digit n ≠ 0x20 := by
  have : ∀ i : Fin 16, digit i.val ≠ 0x20 := by decide +kernel
  exact this ⟨n, h⟩

theorem rendering_head_not_space (bs : List UInt8) (l : List UInt8) : rendering true bs ≠ 0x20 :: l := by
  intro h
  cases bs with
  | nil => simp [rendering] at h
  | cons b bs =>
    by_cases hp : Printable b = true
    · rw [rendering_printable hp] at h
      have : b = 0x20 := (List.cons.inj h).1
      subst this
      revert hp
      decide
    · rw [rendering_other (by simpa using hp)] at h
      exact digit_not_space _ (by have := b.toNat_lt; omega) (List.cons.inj h).1

theorem printable_vs_hex {x y : UInt8} (xs : List UInt8) (l : List UInt8) : x :: rendering true xs ≠ triple y ++ l := by
  intro h
  have h2 : rendering true xs = digit (y.toNat % 16) :: 0x20 :: l := (List.cons.inj h).2
  cases xs with
  | nil => simp [rendering] at h2
  | cons b bs =>
    by_cases hp : Printable b = true
    · rw [rendering_printable hp] at h2
      exact rendering_head_not_space bs l (List.cons.inj h2).2
    · rw [rendering_other (by simpa using hp)] at h2
      exact digit_not_space _ (by have := b.toNat_lt; omega) (List.cons.inj (List.cons.inj h2).2).1

theorem mixed_inj : ∀ a b : List UInt8, rendering true a = rendering true b → a = b
  | [], [], _ => rfl
  | [], b :: bs, h => by
    by_cases hp : Printable b = true
    · rw [rendering_printable hp] at h; simp [rendering] at h
    · rw [rendering_other (by simpa using hp)] at h; simp [rendering, triple] at h
  | a :: as, [], h => by
    by_cases hp : Printable a = true
    · rw [rendering_printable hp] at h; simp [rendering] at h
    · rw [rendering_other (by simpa using hp)] at h; simp [rendering, triple] at h
  | a :: as, b :: bs, h => by
    by_cases hpa : Printable a = true <;> by_cases hpb : Printable b = true
    · rw [rendering_printable hpa, rendering_printable hpb] at h
      obtain ⟨h1, h2⟩ := List.cons.inj h
      rw [h1, mixed_inj as bs h2]
    · rw [rendering_printable hpa, rendering_other (by simpa using hpb)] at h
      exact absurd h (printable_vs_hex _ _)
    · rw [rendering_other (by simpa using hpa), rendering_printable hpb] at h
      exact absurd h.symm (printable_vs_hex _ _)
    · rw [rendering_other (by simpa using hpa), rendering_other (by simpa using hpb)] at h
      obtain ⟨h1, h2⟩ := triple_inj h
      rw [h1, hex_inj as bs h2]

/-- C44: different strings have different renderings, in either mode. -/
theorem c44_injective (mixed : Bool) (a b : List UInt8) (h : rendering mixed a = rendering mixed b) : a = b := by
  cases mixed with
  | true => exact mixed_inj a b h
  | false => exact hex_inj a b h

/-- C44: without a string, or for an empty one, NULL is returned. -/
theorem c44_null (t : Nat) (mixed : Bool) (st : St) :
    valueToStrhex none mixed st = .ok none st ∧ valueToStrhex (some ⟨t, .bytes none⟩) mixed st = .ok none st ∧
    valueToStrhex (some ⟨t, .bytes (some ⟨[]⟩)⟩) mixed st = .ok none st := ⟨rfl, rfl, rfl⟩

example : rendering true [0x45, 0x4D, 0x48, 0x01, 0x4D] = "EMH01 4d ".toUTF8.toList ∧ rendering false [0x45, 0x0A] = "45 0a ".toUTF8.toList := by decide +kernel

/-! ## C45 -/

theorem numberOf_run {v : Value} {x : Int} (h : NumberOf v x) (st : St) : valueToDouble v st = .ok (toDouble x) st := by
  cases h with
  | @signed n v h hv =>
    have e : (⟨n, v⟩ : Num).toInt = if 2 * v < 256 ^ n then (v : Int) else (v : Int) - 256 ^ n := by
      unfold Num.toInt
      have hp : 2 ^ (8 * n - 1) * 2 = 256 ^ n := by rcases h with rfl | rfl | rfl | rfl <;> decide
      have hq : (2 : Int) ^ (8 * n) = 256 ^ n := by rcases h with rfl | rfl | rfl | rfl <;> decide
      rw [hq]
      by_cases hlt : 2 * v < 256 ^ n
      · rw [if_pos hlt, if_pos (by show v < 2 ^ (8 * n - 1); omega)]
      · rw [if_neg hlt, if_neg (by show ¬ v < 2 ^ (8 * n - 1); omega)]
    rw [← e]
    rcases h with rfl | rfl | rfl | rfl <;> rfl
  | unsigned h hv => rcases h with rfl | rfl | rfl | rfl <;> rfl

/-- C45: the result is the nearest double, and the number itself if its magnitude is at most 2^53. -/
theorem c45_nearest (v : Value) (x : Int) (h : NumberOf v x) (st : St) :
    ∃ r, valueToDouble v st = .ok r st ∧ NearestDouble x r ∧ (x.natAbs ≤ 2 ^ 53 → r = x) :=
  ⟨toDouble x, numberOf_run h st, toDouble_nearest x, toDouble_exact x⟩

/-- C45: numbers of 8, 16 and 32 bits are exact. -/
theorem c45_exact (v : Value) (x : Int) (h : NumberOf v x) (hs : v.type % 16 ≤ 4) (st : St) : valueToDouble v st = .ok x st := by
  rw [numberOf_run h st, toDouble_exact]
  cases h with
  | signed h hv =>
    rcases h with rfl | rfl | rfl | rfl
    · simp at hv ⊢; split <;> omega
    · simp at hv ⊢; split <;> omega
    · simp at hv ⊢; split <;> omega
    · simp at hs
  | unsigned h hv =>
    rcases h with rfl | rfl | rfl | rfl
    · simp at hv ⊢; omega
    · simp at hv ⊢; omega
    · simp at hv ⊢; omega
    · simp at hs

/-- C45: every other type gives 0. -/
theorem c45_other (v : Value) (h : ∀ n, n = 1 ∨ n = 2 ∨ n = 4 ∨ n = 8 → v.type ≠ 0x50 + n ∧ v.type ≠ 0x60 + n) (st : St) : valueToDouble v st = .ok 0 st := by
  obtain ⟨t, d⟩ := v
  have h1 := h 1 (by simp)
  have h2 := h 2 (by simp)
  have h4 := h 4 (by simp)
  have h8 := h 8 (by simp)
  simp only [ne_eq, Nat.reduceAdd] at h1 h2 h4 h8
  unfold valueToDouble
  simp only
  split
  all_goals first | rfl | omega

/-- -200, -2^31, 2^53 + 1 (a tie, rounded to the even neighbour) and 2^64 - 1. -/
example : NumberOf ⟨0x52, .num (some ⟨2, 0xFF38⟩)⟩ (-200) ∧ NumberOf ⟨0x54, .num (some ⟨4, 0x80000000⟩)⟩ (-2147483648) ∧
    toDouble 9007199254740993 = 9007199254740992 ∧ toDouble 9007199254740995 = 9007199254740996 ∧ toDouble 18446744073709551615 = 18446744073709551616 :=
  ⟨.signed (n := 2) (by simp) (by decide), .signed (n := 4) (by simp) (by decide), by decide +kernel, by decide +kernel, by decide +kernel⟩

/-! ## C47 -/

theorem version_bits (b : UInt8) : ((b &&& 0x0F) ||| 0x40).toNat = 4 * 16 + b.toNat % 16 := by
  have key : ∀ i : Fin 256, ((UInt8.ofNat i.val &&& 0x0F) ||| 0x40).toNat = 4 * 16 + i.val % 16 := by decide +kernel
  simpa using key ⟨b.toNat, b.toNat_lt⟩

theorem variant_bits (b : UInt8) : ((b &&& 0x3F) ||| 0x80).toNat = 2 * 64 + b.toNat % 64 := by
  have key : ∀ i : Fin 256, ((UInt8.ofNat i.val &&& 0x3F) ||| 0x80).toNat = 2 * 64 + i.val % 64 := by decide +kernel
  simpa using key ⟨b.toNat, b.toNat_lt⟩

/-- C47: version 4, variant 10, and all other bits are those of the random source. -/
theorem c47_uuid (rnd : List UInt8) (h : rnd.length = 16) (st : St) :
    ∃ u, generateUuid rnd st = .ok ⟨u⟩ { st with live := st.live + 2 } ∧ u.length = 16 ∧
      (∃ a b, u[6]? = some a ∧ rnd[6]? = some b ∧ a.toNat / 16 = 4 ∧ a.toNat % 16 = b.toNat % 16) ∧
      (∃ a b, u[8]? = some a ∧ rnd[8]? = some b ∧ a.toNat / 64 = 2 ∧ a.toNat % 64 = b.toNat % 64) ∧
      ∀ i, i ≠ 6 → i ≠ 8 → u[i]? = rnd[i]? := by
  have h6 : rnd.getD 6 0 = rnd[6] := by simp [h]
  have h8 : (rnd.set 6 ((rnd.getD 6 0 &&& 0x0F) ||| 0x40)).getD 8 0 = rnd[8] := by simp [h]
  refine ⟨(rnd.set 6 ((rnd[6] &&& 0x0F) ||| 0x40)).set 8 ((rnd[8] &&& 0x3F) ||| 0x80), ?_, by simpa using h, ?_, ?_, ?_⟩
  · have e : generateUuid rnd = octetStringInit ((rnd.set 6 ((rnd[6] &&& 0x0F) ||| 0x40)).set 8 ((rnd[8] &&& 0x3F) ||| 0x80)) := by
      rw [← h8, ← h6]
      rfl
    rw [e]
    unfold octetStringInit
    run
    rw [if_pos (by simp; omega)]
  · refine ⟨(rnd[6] &&& 0x0F) ||| 0x40, rnd[6], by simp [h], by simp, ?_, ?_⟩
    · rw [version_bits]; omega
    · rw [version_bits]; omega
  · refine ⟨(rnd[8] &&& 0x3F) ||| 0x80, rnd[8], by simp [h], by simp, ?_, ?_⟩
    · rw [variant_bits]; omega
    · rw [variant_bits]; omega
  · intro i h1 h2
    rw [List.getElem?_set_ne (Ne.symm h2), List.getElem?_set_ne (Ne.symm h1)]

example : (List.replicate 16 0xFF : List UInt8).length = 16 := rfl

/-! ## C48 -/

theorem getUnit_run (code : Nat) (last : Nat × String) (hlast : last.1 = 0) : ∀ (table : List (Nat × String)), table ≠ [] → (∀ p ∈ table, p.1 ≠ 0) →
    dlmsGetUnit code (table ++ [last]) = .ok ((table.find? fun p => p.1 = code).map Prod.snd)
  | [], h, _ => absurd rfl h
  | [(c, u)], _, _ => by
    obtain ⟨l, lu⟩ := last
    simp only at hlast
    subst hlast
    show dlmsGetUnit code ((c, u) :: [(0, lu)]) = _
    unfold dlmsGetUnit
    by_cases hc : c = code
    · rw [if_pos hc, List.find?_cons_of_pos (by simpa using hc)]; rfl
    · rw [if_neg hc, List.find?_cons_of_neg (by simpa using hc)]; rfl
  | (c, u) :: (c', u') :: table, _, h => by
    have ih := getUnit_run code last hlast ((c', u') :: table) (by simp) fun p hp => h p (by simp [hp])
    show dlmsGetUnit code ((c, u) :: (c', u') :: (table ++ [last])) = _
    unfold dlmsGetUnit
    by_cases hc : c = code
    · rw [if_pos hc, List.find?_cons_of_pos (by simpa using hc)]; rfl
    · rw [if_neg hc, List.find?_cons_of_neg (by simpa using hc)]
      simp only
      rw [if_pos (h (c', u') (by simp))]
      exact ih

/-- C48: the codes of the table are different from each other. -/
theorem c48_unique : (dlmsUnits.dropLast.map Prod.fst).Nodup ∧ dlmsUnits.length = 66 := by decide +kernel

/-- C48: the unit found is that of the table, for every code; there is none for other codes, in particular not for 0. -/
theorem c48_lookup (code : Nat) : ∃ r, dlmsGetUnit code dlmsUnits = .ok r ∧ (∀ u, r = some u ↔ (code, u) ∈ dlmsUnits.dropLast) ∧ (code = 0 → r = none) := by
  have hrun := getUnit_run code (0, "") rfl dlmsUnits.dropLast (by decide) (by decide)
  have hsplit : dlmsUnits.dropLast ++ [(0, "")] = dlmsUnits := by decide
  rw [hsplit] at hrun
  refine ⟨_, hrun, fun u => ?_, ?_⟩
  · constructor
    · intro h
      obtain ⟨p, hp, rfl⟩ := Option.map_eq_some_iff.1 h
      have h1 := List.find?_some hp
      simp only [decide_eq_true_eq] at h1
      rw [← h1]
      exact List.mem_of_find?_eq_some hp
    · intro h
      cases hf : dlmsUnits.dropLast.find? (fun p => p.1 = code) with
      | none =>
        have := List.find?_eq_none.1 hf (code, u) h
        simp at this
      | some p =>
        have h1 := List.find?_some hf
        simp only [decide_eq_true_eq] at h1
        have h2 := List.mem_of_find?_eq_some hf
        have hu := c48_unique.1
        have : ∀ l : List (Nat × String), (l.map Prod.fst).Nodup → ∀ a ∈ l, ∀ b ∈ l, a.1 = b.1 → a = b := by
          intro l
          induction l with
          | nil => simp
          | cons x l ih =>
            intro hn a ha b hb hab
            rw [List.map_cons, List.nodup_cons] at hn
            rcases List.mem_cons.1 ha with h1 | h1 <;> rcases List.mem_cons.1 hb with h2 | h2
            · rw [h1, h2]
            · exact absurd (by rw [← h1, hab]; exact List.mem_map_of_mem h2) hn.1
            · exact absurd (by rw [← h2, ← hab]; exact List.mem_map_of_mem h1) hn.1
            · exact ih hn.2 a h1 b h2 hab
        have := this _ hu p h2 (code, u) h h1
        rw [this]
        rfl
  · rintro rfl
    decide +kernel

/-- C48: for every code of a byte the unit found is the one of the standard, written with the symbols of its parts. -/
theorem c48_standard : ∀ code : Fin 256, dlmsGetUnit code.val dlmsUnits = .ok ((Spec.unitOf code.val).map Spec.PhysUnit.text) := by decide +kernel

example : dlmsGetUnit 30 dlmsUnits = .ok (some "Wh") ∧ dlmsGetUnit 58 dlmsUnits = .ok none ∧ dlmsGetUnit 0 dlmsUnits = .ok none := by decide +kernel

/-! ## C49 -/

/-- Add one after the other. -/
def addAll (add : σ → α → M σ) : σ → List α → M σ
  | s, [] => pure s
  | s, a :: as => do
    let s ← add s a
    addAll add s as

/-- C49: sequences. One block is made for the array, the first time. -/
theorem c49_sequence (es : List (Option α)) : ∀ (s : Sequence α) (st : St), addAll sequenceAdd s es st =
    .ok { elems := s.elems ++ es } { st with live := st.live + (if s.elems = [] ∧ es ≠ [] then 1 else 0) } := by
  induction es with
  | nil => intro s st; simp [addAll, run_pure]
  | cons e es ih =>
    intro s st
    unfold addAll
    rw [run_bind]
    by_cases h : s.elems = []
    · have : sequenceAdd s e st = .ok { elems := s.elems ++ [e] } { st with live := st.live + 1 } := by
        unfold sequenceAdd
        rw [if_pos h]
        rfl
      rw [this, Res.andThen_ok, ih]
      simp [h]
    · have : sequenceAdd s e st = .ok { elems := s.elems ++ [e] } st := by
        unfold sequenceAdd
        rw [if_neg h]
        rfl
      rw [this, Res.andThen_ok, ih]
      simp [h]

/-- C49: paths. -/
theorem c49_path (es : List (Option OctetString)) : ∀ (p : TreePath) (st : St), addAll treePathAdd p es st =
    .ok { entries := p.entries ++ es } { st with live := st.live + (if p.entries = [] ∧ es ≠ [] then 1 else 0) } := by
  induction es with
  | nil => intro s st; simp [addAll, run_pure]
  | cons e es ih =>
    intro s st
    unfold addAll
    rw [run_bind]
    by_cases h : s.entries = []
    · have : treePathAdd s e st = .ok { entries := s.entries ++ [e] } { st with live := st.live + 1 } := by
        unfold treePathAdd
        rw [if_pos h]
        rfl
      rw [this, Res.andThen_ok, ih]
      simp [h]
    · have : treePathAdd s e st = .ok { entries := s.entries ++ [e] } st := by
        unfold treePathAdd
        rw [if_neg h]
        rfl
      rw [this, Res.andThen_ok, ih]
      simp [h]

/-- C49: children of a tree. -/
theorem c49_tree (es : List Tree) : ∀ (n : Option OctetString) (v : Option ProcParValue) (cs : List Tree) (st : St), addAll treeAddTree (.mk n v cs) es st =
    .ok (.mk n v (cs ++ es)) { st with live := st.live + (if cs = [] ∧ es ≠ [] then 1 else 0) } := by
  induction es with
  | nil => intro n v cs st; simp [addAll, run_pure]
  | cons e es ih =>
    intro n v cs st
    unfold addAll
    rw [run_bind]
    cases cs with
    | nil =>
      have : treeAddTree (.mk n v []) e st = .ok (.mk n v [e]) { st with live := st.live + 1 } := rfl
      rw [this, Res.andThen_ok, ih]
      simp
    | cons c cs =>
      have : treeAddTree (.mk n v (c :: cs)) e st = .ok (.mk n v (c :: cs ++ [e])) st := rfl
      rw [this, Res.andThen_ok, ih]
      simp

/-- C49: messages of a file, up to 32767 of them. One more and the counter overflows. -/
theorem c49_file (es : List Message) : ∀ (f : File) (st : St), f.messages.length ≤ 32767 → addAll fileAddMessage f es st =
    if f.messages.length + es.length ≤ 32767 then
      .ok { messages := f.messages ++ es } { st with live := st.live + (if f.messages = [] ∧ es ≠ [] then 1 else 0) }
    else .ub .counter := by
  induction es with
  | nil => intro f st h; simp [addAll, run_pure, h]
  | cons e es ih =>
    intro f st hf
    unfold addAll
    rw [run_bind]
    by_cases hmax : f.messages.length ≥ 32767
    · have : fileAddMessage f e st = .ub .counter := by
        unfold fileAddMessage
        rw [if_pos hmax]
        rfl
      rw [this, Res.andThen_ub, if_neg (by simp; omega)]
    by_cases h : f.messages = []
    · have : fileAddMessage f e st = .ok { messages := f.messages ++ [e] } { st with live := st.live + 1 } := by
        unfold fileAddMessage
        rw [if_neg hmax, h]
        rfl
      rw [this, Res.andThen_ok, ih _ _ (by simp; omega)]
      simp [h]
      congr 1
      simp
      omega
    · have : fileAddMessage f e st = .ok { messages := f.messages ++ [e] } st := by
        unfold fileAddMessage
        rw [if_neg hmax, if_neg (by simpa using h)]
        rfl
      rw [this, Res.andThen_ok, ih _ _ (by simp; omega)]
      simp [h]
      congr 1
      simp
      omega

/-- C49: `sml_list_add` drops what followed the entry, so of two additions to the same entry only the second
is left. Nothing is given back. -/
theorem c49_list (e : ListEntry) (old : List ListEntry) (a b : ListEntry) (st : St) :
    addAll listAdd (e :: old) [[a], [b]] st = .ok [e, b] st := rfl

example : addAll sequenceAdd (⟨[]⟩ : Sequence Nat) [some 1, none, some 2] {data := []} = .ok ⟨[some 1, none, some 2]⟩ {data := [], live := 1} := by
  rw [c49_sequence]; rfl

end Sml
