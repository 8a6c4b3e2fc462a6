import Verif.Proofs.Print
import Verif.Props.Example

/-!
# C53, C54: the printed text
-/

namespace Sml
open Spec Samples

/-! ## C53 -/

theorem obisText_spells {e : ListEntry} {o : List UInt8} (h : Named e o) : SpellsObis o (obisText o) := by
  obtain ⟨s, _, hl, rfl⟩ := h
  obtain ⟨str⟩ := s
  simp only at hl ⊢
  match str, hl with
  | a :: b :: c :: d :: e :: f :: _, _ =>
    exact ⟨a, b, c, d, e, f, _, _, _, _, _, _, rfl, decText_spells _, decText_spells _, decText_spells _, decText_spells _, decText_spells _,
      decText_spells _, rfl⟩

theorem toDouble_natAbs (v : Int) : (toDouble v).natAbs = roundDouble v.natAbs := by
  unfold toDouble
  split <;> simp

theorem toDouble_neg (v : Int) : toDouble v < 0 ↔ v < 0 := by
  have hr : v ≠ 0 → 0 < roundDouble v.natAbs := by
    intro hv
    have h1 := roundDouble_error v.natAbs
    rcases Nat.eq_zero_or_pos (roundDouble v.natAbs) with h0 | h0
    · rw [h0] at h1
      have : ((0 : Nat) : Int) - (v.natAbs : Int) = -(v.natAbs : Int) := by omega
      rw [this, Int.natAbs_neg, Int.natAbs_natCast] at h1
      omega
    · exact h0
  unfold toDouble
  split
  · next h =>
    have := hr (by omega)
    omega
  · omega

theorem pow_pos_of_good {pow : Int → Dbl} (hp : GoodPow pow) {x s : Int} (h : Legible x s) : 0 < (pow s).m := by
  rcases Nat.eq_zero_or_pos (pow s).m with h0 | h0
  · exfalso
    rcases h with ⟨h1, h2, _⟩ | ⟨h1, h2, _⟩
    · have := hp.near (-s).toNat (by omega)
      rw [show (-((-s).toNat : Int)) = s by omega] at this
      unfold NearPower at this
      rw [h0] at this
      have hb : 0 < 2 ^ (-(pow s).e).toNat := Nat.pow_pos (by decide)
      have hcast : (2 : Int) ^ (-(pow s).e).toNat = ((2 ^ (-(pow s).e).toNat : Nat) : Int) := by simp
      rw [hcast] at this
      generalize 2 ^ (-(pow s).e).toNat = b at *
      simp only [Int.cast_ofNat_Int, Int.zero_mul] at this
      omega
    · have := hp.exact s.toNat (by omega)
      rw [show ((s.toNat : Nat) : Int) = s by omega] at this
      unfold ExactPower at this
      rw [h0, Nat.zero_mul] at this
      have h3 : 0 < 10 ^ s.toNat * 2 ^ (-(pow s).e).toNat := Nat.mul_pos (Nat.pow_pos (by decide)) (Nat.pow_pos (by decide))
      omega
  · exact h0

/-- The number part of a line is exact. -/
theorem number_exact {pow : Int → Dbl} (hp : GoodPow pow) {x s : Int} (h : Legible x s) :
    SpellsFixed (decide (x < 0)) (x.natAbs * 10 ^ s.toNat) (-s).toNat (fixedText (max 0 (-s)).toNat (mulDouble x (pow s)) (pow s).e) := by
  have hm := pow_pos_of_good hp h
  have hneg : decide (mulDouble x (pow s) < 0) = decide (x < 0) := by
    refine decide_eq_decide.2 ?_
    unfold mulDouble
    rw [toDouble_neg]
    constructor
    · intro h
      rcases Int.lt_or_le x 0 with h1 | h1
      · exact h1
      · have := Int.mul_nonneg h1 (Int.natCast_nonneg (pow s).m)
        omega
    · intro h
      exact Int.mul_neg_of_neg_of_pos h (by omega)
  have hk : (max 0 (-s)).toNat = (-s).toNat := by omega
  have hs := fixedText_spells (max 0 (-s)).toNat (mulDouble x (pow s)) (pow s).e
  rw [hneg] at hs
  have hn : roundDiv ((mulDouble x (pow s)).natAbs * 2 ^ (pow s).e.toNat * 10 ^ (max 0 (-s)).toNat) (2 ^ (-(pow s).e).toNat) = x.natAbs * 10 ^ s.toNat := by
    unfold mulDouble
    rw [toDouble_natAbs, Int.natAbs_mul, Int.natAbs_natCast]
    rcases h with ⟨h1, h2, h3⟩ | ⟨h1, h2, h3⟩
    · have := hp.near (-s).toNat (by omega)
      rw [show (-((-s).toNat : Int)) = s by omega] at this
      rw [hk, scaled_exact h3 this, show s.toNat = 0 by omega, Nat.pow_zero, Nat.mul_one]
    · have := hp.exact s.toNat (by omega)
      rw [show ((s.toNat : Nat) : Int) = s by omega] at this
      rw [hk, show (-s).toNat = 0 by omega]
      exact raised_exact h3 this
  rw [hn] at hs
  rw [hk] at hs ⊢
  exact hs

theorem zero_exact (p : Dbl) (k : Int) : SpellsFixed false 0 (-k).toNat (fixedText (max 0 (-k)).toNat (mulDouble 0 p) p.e) := by
  have hs := fixedText_spells (max 0 (-k)).toNat (mulDouble 0 p) p.e
  have h0 : mulDouble 0 p = 0 := by
    unfold mulDouble
    rw [Int.zero_mul]
    rfl
  have hk : (max 0 (-k)).toNat = (-k).toNat := by omega
  rw [h0] at hs ⊢
  rw [hk] at hs ⊢
  have hn : roundDiv ((0 : Int).natAbs * 2 ^ p.e.toNat * 10 ^ (-k).toNat) (2 ^ (-p.e).toNat) = 0 := by
    apply roundDiv_eq
    have : 0 < 2 ^ (-p.e).toNat := Nat.pow_pos (by decide)
    simp
    omega
  rw [hn] at hs
  exact hs

theorem legible_small {x s : Int} (h : Legible x s) : x.natAbs ≤ 2 ^ 53 := by
  rcases h with ⟨_, _, h⟩ | ⟨_, _, h⟩
  · exact Nat.le_trans h (by decide)
  · exact Nat.le_trans (Nat.le_mul_of_pos_right _ (Nat.pow_pos (by decide))) h

/-- C53 for one entry. -/
theorem c53_entry (pow : Int → Dbl) (hp : GoodPow pow) (e : ListEntry) (l : List Line) (h : Shows e l)
    (hl : ∀ v x, e.value = some v → NumberOf v x → Legible x (powerOfTen e)) : Prints e (l.flatMap (lineText pow)) := by
  cases h with
  | absent h => exact .absent h
  | wide h1 h2 => exact .wide h1 h2
  | text h1 h2 h3 =>
    simp only [List.flatMap_cons, List.flatMap_nil, List.append_nil, lineText]
    exact .text h1 h2 h3 (obisText_spells h3)
  | bool h1 h2 =>
    simp only [List.flatMap_cons, List.flatMap_nil, List.append_nil, lineText, if_true]
    have : "true#\n".toUTF8.toList = [0x74, 0x72, 0x75, 0x65, 0x23, 0x0A] := by decide +kernel
    have h := Prints.bool h1 h2 (obisText_spells h2)
    rw [this] at h
    simpa using h
  | @number v x r o u h1 h2 h3 h4 h5 h6 =>
    have hx := hl v x h1 h2
    rw [h4 (legible_small hx)]
    simp only [List.flatMap_cons, List.flatMap_nil, List.append_nil, lineText]
    exact .number h1 h2 h5 (obisText_spells h5) (number_exact hp hx) h6
  | zero h1 h2 h3 h4 =>
    simp only [List.flatMap_cons, List.flatMap_nil, List.append_nil, lineText]
    exact .zero h1 h2 h3 (obisText_spells h3) (zero_exact _ _) h4

theorem prints_all {pow : Int → Dbl} (hp : GoodPow pow) {es : List ListEntry} {ls : List Line} (h : ShowsAll es ls) (hl : AllLegible es) :
    PrintsAll es (ls.flatMap (lineText pow)) := by
  induction h with
  | nil => exact .nil
  | cons h1 _ ih =>
    rw [List.flatMap_append]
    exact .cons (c53_entry pow hp _ _ h1 (hl _ (by simp))) (ih fun e he => hl e (by simp [he]))

theorem hexGo_spells : ∀ (fuel n : Nat), n < 16 ^ fuel → readHexNum (hexGo fuel n) = some n ∧ (n = 0 ↔ hexGo fuel n = [])
  | 0, n, h => by
    have : n = 0 := by simpa using h
    subst this
    exact ⟨rfl, by simp [hexGo]⟩
  | fuel + 1, n, h => by
    unfold hexGo
    by_cases hn : n = 0
    · rw [if_pos hn, hn]
      exact ⟨rfl, by simp⟩
    · rw [if_neg hn]
      rw [Nat.pow_succ] at h
      obtain ⟨h1, _⟩ := hexGo_spells fuel (n / 16) (by omega)
      refine ⟨?_, by simp [hn]⟩
      have h2 := (hexValue_upper (n := n % 16) (Nat.mod_lt _ (by decide))).1
      unfold readHexNum at h1 ⊢
      rw [List.foldl_append, h1]
      simp only [List.foldl_cons, List.foldl_nil, Option.bind_eq_bind, Option.bind_some, h2, Option.pure_def, Option.some.injEq]
      omega

theorem hex4_spells (n : Nat) : SpellsTag n (hex4 n) := by
  obtain ⟨h1, h2⟩ := hexGo_spells (n + 1) n (Nat.lt_of_lt_of_le Nat.lt_two_pow_self
    (Nat.le_trans (Nat.pow_le_pow_right (by decide) (Nat.le_succ n)) (Nat.pow_le_pow_left (by decide) _)))
  refine ⟨_, _, rfl, fun c hc => (List.mem_replicate.1 hc).2, h1, fun hp => ?_, ?_, h2⟩
  · unfold hex4
    simp only [List.length_append, List.length_replicate]
    have : 4 - (hexGo (n + 1) n).length ≠ 0 := by
      intro h0
      rw [h0] at hp
      exact hp rfl
    omega
  · unfold hex4
    simp only [List.length_append, List.length_replicate]
    omega

theorem info_spells (n c : Nat) (tags : List Nat) : SpellsInfo n c tags (fileInfoText ⟨n, c, tags⟩) := by
  refine ⟨_, _, _, decText_spells _, decText_spells _, ?_, rfl⟩
  induction tags with
  | nil => exact .nil
  | cons t ts ih => exact .cons (hex4_spells t) ih

/-- C53: let `fr` be any frame such as the transport layer delivers, and let the file `f` in it be manageable (C50) and its readings
legible. Then the receiver prints exactly: with `-v` the number of messages, of bytes and the tags; then, for each entry of the
list responses, its OBIS code, its reading as an exact decimal number with as many decimals as the scaler asks for, and its unit. `pow`
may be any function that is precise to one unit in the last place. -/
theorem c53_text (pow : Int → Dbl) (hp : GoodPow pow) (fr : List UInt8) (hfr : IsFrame fr) (hlen : fr.length < 8096) (depth : Nat)
    (hdepth : fr.length < 4 * depth) (verbose single : Bool) :
    ∃ body x y z f s, fr = frame body x y z ∧ fileParse depth body = .ok f s ∧
      (Manageable verbose single f.messages → AllLegible (entriesOf (lookedAt single f.messages)) →
        ∃ r s' th tl, transportReceiver depth verbose single fr = .ok r s' ∧ receiverText pow r = th ++ tl ∧
          (r.2.2 = true ↔ single = true ∧ ∃ m ∈ f.messages, responseOf m ≠ none) ∧
          PrintsAll (entriesOf (lookedAt single f.messages)) tl ∧
          (verbose = false → th = []) ∧
          (verbose = true → ∃ ti, th = ti ++ "OBIS data\n".toUTF8.toList ∧ SpellsInfo f.messages.length s.cursor (f.messages.map tagOf) ti)) := by
  obtain ⟨body, x, y, z, f, s, h1, h2, h3, _⟩ := c50_exact fr hfr hlen depth hdepth verbose single
  refine ⟨body, x, y, z, f, s, h1, h2, fun hm hl => ?_⟩
  obtain ⟨info, ls, ex, s', h4, h5, h6, h7, _⟩ := h3 hm
  refine ⟨(info, ls, ex), s', _, _, h4, rfl, h7, prints_all hp h6 hl, ?_, ?_⟩
  · rintro rfl
    rw [h5]
    rfl
  · rintro rfl
    rw [h5]
    exact ⟨_, rfl, info_spells _ _ _⟩

/-- C53: the text determines the reading: two readings printed with the same number of decimals and the same text are the same; and
there is only one text for a reading. -/
theorem c53_unique (neg neg' : Bool) (n n' k : Nat) (t t' : List UInt8) :
    (SpellsFixed neg n k t → SpellsFixed neg n k t' → t = t') ∧ (SpellsFixed neg n k t → SpellsFixed neg' n' k t → neg = neg' ∧ n = n') :=
  ⟨fixed_unique, fixed_value⟩

/-- Powers of ten, correctly rounded to 53 bits. -/
def pow10 (s : Int) : Dbl :=
  if 0 ≤ s then ⟨roundDouble (10 ^ s.toNat), 0⟩
  else
    let t : Nat := 53 + (10 ^ (-s).toNat).log2
    ⟨roundDiv (2 ^ t) (10 ^ (-s).toNat), -(t : Int)⟩

/-- Correctly rounded powers are good enough. -/
theorem pow10_good : GoodPow pow10 := by
  constructor
  · intro k hk
    rcases Nat.eq_zero_or_pos k with rfl | hk0
    · have : pow10 (-((0 : Nat) : Int)) = ⟨1, 0⟩ := by decide +kernel
      rw [this]
      unfold NearPower
      decide
    · have hneg : ¬ (0 : Int) ≤ -(k : Int) := by omega
      unfold pow10 NearPower
      rw [if_neg hneg]
      simp only [Int.neg_neg, Int.toNat_natCast]
      have hp : 0 < 10 ^ k := Nat.pow_pos (by decide)
      have h1 := roundDiv_error (num := 2 ^ (53 + (10 ^ k).log2)) hp
      have h2 : 10 ^ k < 2 ^ ((10 ^ k).log2 + 1) := Nat.lt_log2_self
      have h3 : 2 ^ (53 + (10 ^ k).log2) = 2 ^ 52 * 2 ^ ((10 ^ k).log2 + 1) := by rw [← Nat.pow_add]; congr 1; omega
      have e1 : (-((53 + (10 ^ k).log2 : Nat) : Int)).toNat = 0 := by omega
      rw [e1]
      have e2 : ((roundDiv (2 ^ (53 + (10 ^ k).log2)) (10 ^ k) : Int) * 2 ^ 0 * 10 ^ k - 2 ^ (53 + (10 ^ k).log2)) =
          ((roundDiv (2 ^ (53 + (10 ^ k).log2)) (10 ^ k) * 10 ^ k : Nat) : Int) - (2 ^ (53 + (10 ^ k).log2) : Nat) := by simp
      rw [e2]
      generalize (((roundDiv (2 ^ (53 + (10 ^ k).log2)) (10 ^ k) * 10 ^ k : Nat) : Int) - (2 ^ (53 + (10 ^ k).log2) : Nat)).natAbs = E at *
      generalize 2 ^ ((10 ^ k).log2 + 1) = B at *
      generalize 10 ^ k = T at *
      omega
  · intro k hk
    unfold pow10 ExactPower
    rw [if_pos (by omega)]
    simp only [Int.toNat_natCast]
    have : ∀ k : Fin 23, roundDouble (10 ^ k.val) = 10 ^ k.val := by decide +kernel
    simpa using this ⟨k, by omega⟩

/-- A number printed for `x * 10 ^ s`: the error is less than one unit of the last decimal, as long as the reading has at most
50 bits, and otherwise at most the `2 ^ 50`th part. -/
theorem number_near {pow : Int → Dbl} (hp : GoodPow pow) {x r s : Int} (hr : NearestDouble x r) (h1 : -128 ≤ s) (h2 : s ≤ 22) :
    ∃ n, SpellsFixed (decide (x < 0)) n (-s).toNat (fixedText (max 0 (-s)).toNat (mulDouble r (pow s)) (pow s).e) ∧
      ((n : Int) - (x.natAbs * 10 ^ s.toNat : Nat)).natAbs * 2 ^ 50 ≤ 2 ^ 49 + x.natAbs * 10 ^ s.toNat := by
  have hm : 0 < (pow s).m := pow_pos_of_good hp (x := 0) (by
    unfold Legible
    rcases Int.le_total s 0 with h | h
    · exact Or.inl ⟨h1, h, by simp⟩
    · exact Or.inr ⟨h, h2, by simp⟩)
  -- the error of the conversion
  have herr : (x - r).natAbs * 2 ^ 53 ≤ x.natAbs := by
    obtain ⟨m, e, hm, he⟩ := (toDouble_nearest x).1
    have a := hr.2.1 m e hm
    rw [← he] at a
    have b := roundDouble_error x.natAbs
    have c : (x - toDouble x).natAbs = ((roundDouble x.natAbs : Int) - x.natAbs).natAbs := by
      unfold toDouble
      split <;> omega
    rw [← c] at b
    exact Nat.le_trans (Nat.mul_le_mul_right _ a) b
  have hrneg : r < 0 ↔ x < 0 := by omega
  have hneg : decide (mulDouble r (pow s) < 0) = decide (x < 0) := by
    refine decide_eq_decide.2 ?_
    unfold mulDouble
    rw [toDouble_neg, ← hrneg]
    constructor
    · intro h
      rcases Int.lt_or_le r 0 with h1 | h1
      · exact h1
      · have := Int.mul_nonneg h1 (Int.natCast_nonneg (pow s).m)
        omega
    · intro h
      exact Int.mul_neg_of_neg_of_pos h (by omega)
  have hk : (max 0 (-s)).toNat = (-s).toNat := by omega
  have hs := fixedText_spells (max 0 (-s)).toNat (mulDouble r (pow s)) (pow s).e
  rw [hneg] at hs
  rw [hk] at hs ⊢
  refine ⟨_, hs, ?_⟩
  have hb : 0 < 2 ^ (-(pow s).e).toNat := Nat.pow_pos (by decide)
  have hprod := roundDouble_error (r.natAbs * (pow s).m)
  have habs : (mulDouble r (pow s)).natAbs = roundDouble (r.natAbs * (pow s).m) := by
    unfold mulDouble
    rw [toDouble_natAbs, Int.natAbs_mul, Int.natAbs_natCast]
  rw [habs]
  have hpow : ((((pow s).m * (2 ^ (pow s).e.toNat * 10 ^ (-s).toNat) : Nat) : Int) - (10 ^ s.toNat * 2 ^ (-(pow s).e).toNat : Nat)).natAbs * 2 ^ 52 ≤
      10 ^ s.toNat * 2 ^ (-(pow s).e).toNat := by
    rcases Int.le_total s 0 with h | h
    · have := hp.near (-s).toNat (by omega)
      rw [show (-((-s).toNat : Int)) = s by omega] at this
      unfold NearPower at this
      rw [show s.toNat = 0 by omega, Nat.pow_zero, Nat.one_mul]
      have hcast : (2 : Int) ^ (-(pow s).e).toNat = ((2 ^ (-(pow s).e).toNat : Nat) : Int) := by simp
      have hA : ((pow s).m * 2 ^ (pow s).e.toNat * 10 ^ (-s).toNat : Int) = (((pow s).m * (2 ^ (pow s).e.toNat * 10 ^ (-s).toNat) : Nat) : Int) := by
        simp [Int.mul_assoc]
      rwa [hcast, hA] at this
    · have := hp.exact s.toNat (by omega)
      rw [show ((s.toNat : Nat) : Int) = s by omega] at this
      unfold ExactPower at this
      rw [show (-s).toNat = 0 by omega, Nat.pow_zero, Nat.mul_one, this]
      simp
  have hdiv := roundDiv_error (num := roundDouble (r.natAbs * (pow s).m) * 2 ^ (pow s).e.toNat * 10 ^ (-s).toNat) hb
  rw [Nat.mul_assoc (roundDouble (r.natAbs * (pow s).m))] at hdiv ⊢
  have := rounding_errors hb hpow hprod hdiv
  generalize roundDiv (roundDouble (r.natAbs * (pow s).m) * (2 ^ (pow s).e.toNat * 10 ^ (-s).toNat)) (2 ^ (-(pow s).e).toNat) = n at *
  have hT : ((r.natAbs * 10 ^ s.toNat : Nat) : Int) - (x.natAbs * 10 ^ s.toNat : Nat) = ((r.natAbs : Int) - x.natAbs) * (10 ^ s.toNat : Nat) := by
    rw [Int.sub_mul]; simp
  have hT' : (((r.natAbs * 10 ^ s.toNat : Nat) : Int) - (x.natAbs * 10 ^ s.toNat : Nat)).natAbs * 2 ^ 53 ≤ x.natAbs * 10 ^ s.toNat := by
    rw [hT, Int.natAbs_mul, Int.natAbs_natCast]
    have e : ((r.natAbs : Int) - x.natAbs).natAbs ≤ (x - r).natAbs := by omega
    calc ((r.natAbs : Int) - x.natAbs).natAbs * 10 ^ s.toNat * 2 ^ 53 = ((r.natAbs : Int) - x.natAbs).natAbs * 2 ^ 53 * 10 ^ s.toNat := by ac_rfl
      _ ≤ (x - r).natAbs * 2 ^ 53 * 10 ^ s.toNat := Nat.mul_le_mul_right _ (Nat.mul_le_mul_right _ e)
      _ ≤ x.natAbs * 10 ^ s.toNat := Nat.mul_le_mul_right _ herr
  rw [show 2 ^ 51 = 4 * 2 ^ 49 from rfl, show 2 ^ 50 = 2 * 2 ^ 49 from rfl] at this
  rw [show 2 ^ 53 = 16 * 2 ^ 49 from rfl] at hT'
  rw [show 2 ^ 50 = 2 * 2 ^ 49 from rfl]
  exact error_last (Nat.pow_pos (by decide)) (by omega) (by omega) this hT'

/-- C53, readings of any size: an entry with a number `x` and a scaler up to 22 is printed as OBIS code, a decimal number with as many decimals as the scaler asks for,
and the unit; the decimal number is off by at most half a unit of its last place and the `2 ^ 50`th part of the reading. -/
theorem c53_error (pow : Int → Dbl) (hp : GoodPow pow) (e : ListEntry) (l : List Line) (h : Shows e l) (v : Value) (x : Int) (hv : e.value = some v)
    (hx : NumberOf v x) (h1 : -128 ≤ powerOfTen e) (h2 : powerOfTen e ≤ 22) :
    ∃ o t d u n, Named e o ∧ SpellsObis o t ∧ UnitIs e u ∧ SpellsFixed (decide (x < 0)) n (-powerOfTen e).toNat d ∧
      ((n : Int) - (x.natAbs * 10 ^ (powerOfTen e).toNat : Nat)).natAbs * 2 ^ 50 ≤ 2 ^ 49 + x.natAbs * 10 ^ (powerOfTen e).toNat ∧
      l.flatMap (lineText pow) = t ++ d ++ [0x23] ++ unitBytes u ++ [0x0A] := by
  have hty : 0x50 < v.type ∧ v.type < 0x70 ∧ v.type ≠ 0x60 := by cases hx <;> simp only <;> omega
  cases h with
  | absent h => rw [hv] at h; cases h
  | wide a b => rw [hv] at a; injection a with a; subst a; omega
  | text a _ _ => rw [hv] at a; injection a with a; subst a; simp at hty
  | bool a _ => rw [hv] at a; injection a with a; subst a; simp at hty
  | zero a b => rw [hv] at a; injection a with a; subst a; omega
  | @number v' x' r o u a b c _ g6 g7 =>
    rw [hv] at a
    cases a
    have : x' = x := by
      cases hx with
      | signed q1 q2 =>
        generalize hgen : (⟨_, _⟩ : Value) = w at b
        cases b with
        | signed =>
          injection hgen with e1 e2
          injection e2 with e2
          injection e2 with e2
          injection e2 with e3 e4
          subst e3 e4
          rfl
        | unsigned =>
          injection hgen with e1 e2
          omega
      | unsigned q1 q2 =>
        generalize hgen : (⟨_, _⟩ : Value) = w at b
        cases b with
        | signed =>
          injection hgen with e1 e2
          omega
        | unsigned =>
          injection hgen with e1 e2
          injection e2 with e2
          injection e2 with e2
          injection e2 with e3 e4
          subst e3 e4
          rfl
    subst this
    obtain ⟨n, hn1, hn2⟩ := number_near hp c h1 h2
    refine ⟨o, _, _, u, n, g6, obisText_spells g6, g7, hn1, hn2, ?_⟩
    simp only [List.flatMap_cons, List.flatMap_nil, List.append_nil, lineText]
    rfl

theorem roundDiv_nearest {num den : Nat} (hd : 0 < den) : NearestInt num den (roundDiv num den) := by
  refine ⟨roundDiv_error hd, fun h => ?_⟩
  have h1 : num = num / den * den + num % den := by rw [Nat.mul_comm]; exact (Nat.div_add_mod num den).symm
  have h2 := Nat.mod_lt num hd
  unfold roundDiv at h ⊢
  split at h
  · next hc =>
    rw [Nat.add_mul, Nat.one_mul] at h
    rw [if_pos hc]
    omega
  · next hc =>
    rw [if_neg hc]
    omega

/-- C53, the roundings: whatever `pow` is, the number in a line is the product of the reading and the power as the nearest double, printed as the nearest
decimal number with the required number of decimals, the even one of two. -/
theorem c53_rounding (pow : Int → Dbl) (o : List UInt8) (r s : Int) (k : Nat) (u : Option String) :
    ∃ q n d, NearestDouble (r * (pow s).m) q ∧ NearestInt (q.natAbs * 2 ^ (pow s).e.toNat * 10 ^ k) (2 ^ (-(pow s).e).toNat) n ∧
      SpellsFixed (decide (q < 0)) n k d ∧ lineText pow (.number o r s k u) = obisText o ++ d ++ [0x23] ++ unitBytes u ++ [0x0A] :=
  ⟨_, _, _, toDouble_nearest _, roundDiv_nearest (Nat.pow_pos (by decide)), fixedText_spells k _ _, rfl⟩

/-- 0.125 with two decimals is 0.12, 0.375 is 0.38. -/
example : fixedText 2 1 (-3) = "0.12".toUTF8.toList ∧ fixedText 2 3 (-3) = "0.38".toUTF8.toList ∧ fixedText 0 (-5) (-1) = "-2".toUTF8.toList := by decide +kernel

/-- C53: without the bound it is false: the counter reading 2^53 + 1 is printed as 2^53. -/
theorem c53_inexact : lineText pow10 (.number [1, 0, 1, 8, 0, 255] (toDouble 9007199254740993) 0 0 (some "Wh")) =
    "1-0:1.8.0*255#9007199254740992#Wh\n".toUTF8.toList := by decide +kernel

/-- The energy 0x1234 = 4660, scaler -1, and the power -200, and the server id, as text. -/
example : holds (transportReceiver 2024 true false sampleFrame) (fun r _ => decide (receiverText pow10 r =
    ("SML file (3 SML messages, 140 bytes)\nSML message  101\nSML message  701\nSML message  201\nOBIS data\n" ++
      "1-0:1.8.0*255#466.0#Wh\n1-0:16.7.0*255#-200#W\n1-0:96.1.0*255#0a 01 02 03 04 #\n").toUTF8.toList)) = true := by decide +kernel

example : Legible 4660 (-1) ∧ Legible (-200) 0 := by unfold Legible; decide

/-! ## C54 -/

/-- C54: what `sml_hexdump` prints can be read back. -/
theorem c54_readable (bs : List UInt8) : readDump (hexdumpText bs) = some bs := by
  unfold hexdumpText
  rw [hexdumpLoop_read, readDump_newline]
  simp [readDump]

theorem hexdumpLoop_row (i : Nat) (bs rest : List UInt8) (h : i % 8 + bs.length < 8) :
    hexdumpLoop i (bs ++ rest) = (bs.flatMap fun b => [hexUpper (b.toNat / 16), hexUpper (b.toNat % 16), 0x20]) ++ hexdumpLoop (i + bs.length) rest := by
  induction bs generalizing i with
  | nil => rfl
  | cons b bs ih =>
    simp only [List.length_cons] at h
    rw [List.cons_append, hexdumpLoop, if_neg (by omega), ih (i + 1) (by omega)]
    simp only [List.append_nil, List.flatMap_cons, List.append_assoc, List.length_cons]
    rw [show i + 1 + bs.length = i + (bs.length + 1) by omega]

theorem hexdumpLoop_mod (i : Nat) (bs : List UInt8) : hexdumpLoop (i + 8) bs = hexdumpLoop i bs := by
  induction bs generalizing i with
  | nil => rfl
  | cons b bs ih =>
    rw [hexdumpLoop, hexdumpLoop, show i + 8 + 1 = (i + 1) + 8 by omega, ih, Nat.add_mod_right]

/-- C54: it has eight bytes in each row but the last. -/
theorem c54_rows (bs : List UInt8) : (bs.length < 8 → hexdumpText bs = dumpRow bs) ∧
    ∀ rest, bs.length = 8 → hexdumpText (bs ++ rest) = dumpRow bs ++ hexdumpText rest := by
  constructor
  · intro h
    unfold hexdumpText dumpRow
    have := hexdumpLoop_row 0 bs [] (by omega)
    rw [List.append_nil] at this
    rw [this]
    simp [hexdumpLoop]
  · intro rest h
    obtain ⟨b0, c, rfl⟩ : ∃ b0 c, bs = b0 ++ [c] := by
      rcases snoc_cases bs with rfl | h'
      · cases h
      · exact h'
    simp only [List.length_append, List.length_singleton] at h
    unfold hexdumpText dumpRow
    rw [List.append_assoc, hexdumpLoop_row 0 b0 _ (by omega), List.singleton_append, hexdumpLoop, if_pos (by omega),
      show 0 + b0.length + 1 = 0 + 8 by omega, hexdumpLoop_mod]
    simp

example : hexdumpText [0x1b, 0x1b, 0x1b, 0x1b, 0x01, 0x01, 0x01, 0x01, 0x76] = "1B 1B 1B 1B 01 01 01 01 \n76 \n".toUTF8.toList := by decide +kernel

end Sml
