import Verif.Proofs.Crc

/-!
# Error detection
-/

namespace Sml

open Spec

/-! ## Parity -/

/-- Exclusive or of a list of bits. -/
def parity (l : List Bool) : Bool := l.foldr (fun a b => a ^^ b) false

/-- Exclusive or of the bits of a word. -/
def par (x : BitVec 16) : Bool := parity ((List.range 16).map fun i => x.getLsbD i)

theorem filter_parity {α : Type} (f : α → Bool) (l : List α) :
    (l.filter f).length % 2 = (parity (l.map f)).toNat := by
  induction l with
  | nil => rfl
  | cons a l ih =>
    simp only [List.filter_cons, List.map_cons, parity, List.foldr_cons] at ih ⊢
    revert ih
    generalize (l.map f).foldr (fun a b => a ^^ b) false = q
    intro ih
    cases f a <;> cases q <;> simp at ih ⊢ <;> omega

theorem weight16_parity (x : BitVec 16) : weight16 x % 2 = (par x).toNat := filter_parity _ _

theorem range16 : List.range 16 = [0, 1, 2, 3, 4, 5, 6, 7, 8, 9, 10, 11, 12, 13, 14, 15] := by decide

theorem par_xor (x y : BitVec 16) : par (x ^^^ y) = (par x ^^ par y) := by
  simp only [par, parity, BitVec.getLsbD_xor]
  induction List.range 16 with
  | nil => rfl
  | cons i l ih =>
    simp only [List.map_cons, List.foldr_cons, ih]
    simp only [Bool.xor_assoc, Bool.xor_left_comm]

theorem par_shift (r : BitVec 16) : par (r >>> 1) = (par r ^^ r.getLsbD 0) := by
  simp only [par, parity, range16, List.map_cons, List.map_nil, List.foldr_cons, List.foldr_nil,
    BitVec.getLsbD_ushiftRight, Nat.reduceAdd]
  rw [BitVec.getLsbD_of_ge r 16 (by decide)]
  generalize r.getLsbD 0 = a
  cases a <;> simp

theorem par_bitStep (r : BitVec 16) (b : Bool) : par (bitStep r b) = (par r ^^ b) := by
  unfold bitStep
  split
  · rename_i h
    rw [par_xor, par_shift, show par 0x8408#16 = true by decide]
    revert h
    cases r.getLsbD 0 <;> cases b <;> simp
  · rename_i h
    rw [par_shift]
    revert h
    cases r.getLsbD 0 <;> cases b <;> simp

theorem par_crcBits (bits : List Bool) : ∀ r, par (crcBits r bits) = (par r ^^ parity bits) := by
  induction bits with
  | nil => intro r; simp [crcBits, parity]
  | cons b bits ih =>
    intro r
    have := ih (bitStep r b)
    simp only [crcBits, List.foldl_cons] at this ⊢
    rw [this, par_bitStep]
    simp [parity, List.foldr_cons]

theorem parity_append (a b : List Bool) : parity (a ++ b) = (parity a ^^ parity b) := by
  induction a with
  | nil => simp [parity]
  | cons x a ih =>
    simp only [parity, List.cons_append, List.foldr_cons] at ih ⊢
    rw [ih, Bool.xor_assoc]

theorem par_halves (x : BitVec 16) :
    par x = (parity ([0, 1, 2, 3, 4, 5, 6, 7].map fun i => x.getLsbD i) ^^
      parity ([8, 9, 10, 11, 12, 13, 14, 15].map fun i => x.getLsbD i)) := by
  rw [← parity_append]
  rfl

theorem par_swap (x : BitVec 16) : par (swap16 x) = par x := by
  rw [par_halves x, Bool.xor_comm, par_halves]
  simp [swap16, BitVec.getLsbD_rotateLeft]

theorem par_crc16 (bs : List UInt8) : par (crc16 bs) = parity (bitsOf bs) := by
  rw [crc16_eq, par_swap]
  unfold crcX25
  rw [par_xor, par_crcBits, show par 0xffff#16 = false by decide]
  simp

theorem par_kermit (bs : List UInt8) : par (crc16kermit bs) = parity (bitsOf bs) := by
  rw [crc16kermit_eq]
  unfold crcKermit
  rw [par_crcBits, show par 0#16 = false by decide]
  simp

theorem bitDistance_parity (a : List Bool) : ∀ b, a.length = b.length →
    bitDistance a b % 2 = (parity a ^^ parity b).toNat := by
  induction a with
  | nil => intro b h; cases b <;> simp_all [bitDistance, parity]
  | cons x a ih =>
    intro b h
    cases b with
    | nil => simp at h
    | cons y b =>
      have := ih b (by simpa using h)
      simp only [bitDistance, parity, List.foldr_cons] at this ⊢
      revert this
      generalize a.foldr (fun a b => a ^^ b) false = p
      generalize b.foldr (fun a b => a ^^ b) false = q
      intro this
      cases x <;> cases y <;> cases p <;> cases q <;> simp at this ⊢ <;> omega

theorem bitsOf_length (bs : List UInt8) : (bitsOf bs).length = 8 * bs.length := by
  induction bs with
  | nil => rfl
  | cons b bs ih => 
    simp only [bitsOf, List.flatMap_cons, List.length_append, byteBits_length, List.length_cons] at ih ⊢
    omega

/-! ## The register is injective -/

theorem lfsr_xor (x y : BitVec 16) : lfsr (x ^^^ y) = lfsr x ^^^ lfsr y := bitStep_xor x y false false

theorem bitStep_true (x : BitVec 16) : bitStep x true = lfsr x ^^^ 0x8408#16 := by
  have := bitStep_xor x 0#16 false true
  simpa [lfsr, show bitStep 0#16 true = 0x8408#16 by decide] using this

theorem lfsr_eq_zero {x : BitVec 16} (h : lfsr x = 0#16) : x = 0#16 := by
  unfold lfsr bitStep at h
  split at h
  · have := congrArg (fun v : BitVec 16 => v.getLsbD 15) h
    simp at this
  · rename_i h0
    apply BitVec.eq_of_getLsbD_eq
    intro i hi
    cases i with
    | zero => simpa using h0
    | succ i =>
      have := congrArg (fun v : BitVec 16 => v.getLsbD i) h
      simp only [BitVec.getLsbD_ushiftRight] at this
      rw [Nat.add_comm] at this
      simpa using this

theorem zeros_ne_zero (n : Nat) : ∀ x : BitVec 16, x ≠ 0#16 → crcBits x (List.replicate n false) ≠ 0#16 := by
  induction n with
  | zero => intro x h; simpa [crcBits] using h
  | succ n ih =>
    intro x h
    have : lfsr x ≠ 0#16 := fun h' => h (lfsr_eq_zero h')
    simpa [crcBits, List.replicate_succ, lfsr] using ih _ this

theorem zeros_zero (n : Nat) : crcBits 0#16 (List.replicate n false) = 0#16 := by
  induction n with
  | zero => rfl
  | succ n ih =>
    simp only [crcBits, List.replicate_succ, List.foldl_cons] at ih ⊢
    rw [show bitStep 0#16 false = 0#16 by decide, ih]

/-! ## Bursts -/

/-- The number whose binary digits are the given bits, least significant first. -/
def patN : List Bool → Nat
  | [] => 0
  | b :: bs => b.toNat + 2 * patN bs

theorem patN_lt (bs : List Bool) : patN bs < 2 ^ bs.length := by
  induction bs with
  | nil => decide
  | cons b bs ih =>
    have : b.toNat ≤ 1 := by cases b <;> decide
    simp only [patN, List.length_cons, Nat.pow_succ]
    omega

theorem patN_pos (bs : List Bool) (h : true ∈ bs) : 0 < patN bs := by
  induction bs with
  | nil => simp at h
  | cons b bs ih =>
    cases b with
    | true => simp [patN]; omega
    | false =>
      have := ih (by simpa using h)
      simp only [patN]; omega

theorem lfsr_pat {b : Bool} {n : Nat} (hn : n < 2 ^ 15) :
    lfsr (BitVec.ofNat 16 (b.toNat + 2 * n)) = BitVec.ofNat 16 n ^^^ (if b then 0x8408#16 else 0#16) := by
  have hs : BitVec.ofNat 16 (b.toNat + 2 * n) >>> 1 = BitVec.ofNat 16 n := by
    apply BitVec.eq_of_toNat_eq
    rw [BitVec.toNat_ushiftRight, BitVec.toNat_ofNat, BitVec.toNat_ofNat, Nat.shiftRight_eq_div_pow]
    cases b <;> simp <;> omega
  have hb : (BitVec.ofNat 16 (b.toNat + 2 * n)).getLsbD 0 = b := by
    rw [BitVec.getLsbD_ofNat]
    cases b <;> simp
  unfold lfsr bitStep
  rw [hb, hs]
  cases b <;> simp

theorem crcBits_pat (bits : List Bool) : ∀ r, bits.length ≤ 16 →
    crcBits r bits = crcBits (r ^^^ BitVec.ofNat 16 (patN bits)) (List.replicate bits.length false) := by
  induction bits with
  | nil => intro r _; simp [patN, crcBits]
  | cons b bits ih =>
    intro r hl
    simp only [List.length_cons] at hl
    have hlt : patN bits < 2 ^ 15 :=
      Nat.lt_of_lt_of_le (patN_lt bits) (Nat.pow_le_pow_right (by decide) (by omega))
    have h1 := ih (bitStep r b) (by omega)
    have h2 : bitStep (r ^^^ BitVec.ofNat 16 (patN (b :: bits))) false =
        bitStep r b ^^^ BitVec.ofNat 16 (patN bits) := by
      have := lfsr_xor r (BitVec.ofNat 16 (patN (b :: bits)))
      rw [show bitStep (r ^^^ BitVec.ofNat 16 (patN (b :: bits))) false = lfsr (r ^^^ BitVec.ofNat 16 (patN (b :: bits))) from rfl,
        this, patN, lfsr_pat hlt]
      cases b
      · simp [lfsr]
      · rw [bitStep_true]; simp [BitVec.xor_assoc, BitVec.xor_comm, xor_left_comm]
    simp only [crcBits, List.foldl_cons, List.length_cons, List.replicate_succ] at h1 ⊢
    rw [h1, h2]

theorem ofNat_ne_zero {n : Nat} (h : 0 < n) (hn : n < 2 ^ 16) : BitVec.ofNat 16 n ≠ 0#16 := by
  intro h'
  have := congrArg BitVec.toNat h'
  rw [BitVec.toNat_ofNat, BitVec.toNat_ofNat] at this
  omega

theorem burst_ne_zero {i j : Nat} {mid : List Bool} (hl : mid.length ≤ 16) (ht : true ∈ mid) :
    crcBits 0#16 (List.replicate i false ++ mid ++ List.replicate j false) ≠ 0#16 := by
  rw [crcBits_append, crcBits_append, zeros_zero]
  apply zeros_ne_zero
  rw [crcBits_pat _ _ hl]
  apply zeros_ne_zero
  rw [BitVec.zero_xor]
  exact ofNat_ne_zero (patN_pos _ ht) (Nat.lt_of_lt_of_le (patN_lt mid) (Nat.pow_le_pow_right (by decide) hl))

/-! ## Two bit errors -/

/-- `lfsr` on numbers. -/
def lfsrN (n : Nat) : Nat := if n % 2 = 1 then (n / 2) ^^^ 0x8408 else n / 2

/-- The next `n` states after `x` are neither zero nor the start. -/
def noReturn : Nat → Nat → Bool
  | 0, _ => true
  | n + 1, x => match lfsrN x with
    | 0 => false
    | k + 1 => if k + 1 = 0x8408 then false else noReturn n (k + 1)

/-- `n`-fold application of `lfsrN`. -/
def iterN : Nat → Nat → Nat
  | 0, x => x
  | n + 1, x => iterN n (lfsrN x)

theorem noReturn_spec (n : Nat) : ∀ x, noReturn n x = true → ∀ d, 1 ≤ d → d ≤ n → iterN d x ≠ 0x8408 := by
  induction n with
  | zero => intro x _ d h1 h2; omega
  | succ n ih =>
    intro x h d h1 h2
    unfold noReturn at h
    split at h
    · cases h
    · rename_i k hk
      split at h
      · cases h
      · rename_i hne
        cases d with
        | zero => omega
        | succ d =>
          simp only [iterN, hk]
          cases d with
          | zero => simpa [iterN] using hne
          | succ d => exact ih _ h (d + 1) (by omega) (by omega)

/-- `iterN`, evaluating the state in every round. -/
def iterF : Nat → Nat → Nat
  | 0, x => x
  | n + 1, x => match lfsrN x with
    | 0 => iterF n 0
    | k + 1 => iterF n (k + 1)

theorem iterN_forced (n : Nat) : ∀ x, iterN n x = iterF n x := by
  induction n with
  | zero => intro x; rfl
  | succ n ih =>
    intro x
    unfold iterN iterF
    split
    · rename_i h; rw [h, ih]
    · rename_i h; rw [h, ih]

theorem noReturn_32766 : noReturn 32766 0x8408 = true := by decide +kernel

theorem lfsrN_lt {n : Nat} (h : n < 2 ^ 16) : lfsrN n < 2 ^ 16 := by
  unfold lfsrN
  split
  · exact Nat.xor_lt_two_pow (by omega) (by decide)
  · omega

theorem lfsr_toNat (x : BitVec 16) : (lfsr x).toNat = lfsrN x.toNat := by
  unfold lfsr bitStep lfsrN
  have h0 : x.getLsbD 0 = decide (x.toNat % 2 = 1) := by
    simp [BitVec.getLsbD, Nat.testBit_zero]
  rw [h0]
  by_cases h : x.toNat % 2 = 1
  · simp [h, Nat.shiftRight_eq_div_pow]
  · simp [h, Nat.shiftRight_eq_div_pow]

theorem zeros_toNat (n : Nat) : ∀ x : BitVec 16, (crcBits x (List.replicate n false)).toNat = iterN n x.toNat := by
  induction n with
  | zero => intro x; rfl
  | succ n ih =>
    intro x
    have := ih (lfsr x)
    simp only [crcBits, List.replicate_succ, List.foldl_cons, iterN] at this ⊢
    rw [show bitStep x false = lfsr x from rfl, this, lfsr_toNat]

theorem twobit_ne_zero {i d j : Nat} (hd : d + 1 < 32767) :
    crcBits 0#16 (List.replicate i false ++ [true] ++ List.replicate d false ++ [true] ++ List.replicate j false) ≠ 0#16 := by
  simp only [crcBits_append, zeros_zero]
  apply zeros_ne_zero
  have e1 : crcBits 0#16 [true] = 0x8408#16 := by decide
  rw [e1]
  generalize hy : crcBits 0x8408#16 (List.replicate d false) = y
  have e2 : crcBits y [true] = lfsr y ^^^ 0x8408#16 := by rw [← bitStep_true]; rfl
  rw [e2]
  intro h
  have h' : lfsr y = 0x8408#16 := by
    have := congrArg (· ^^^ 0x8408#16) h
    simpa [BitVec.xor_assoc] using this
  have h2 : crcBits 0x8408#16 (List.replicate (d + 1) false) = 0x8408#16 := by
    rw [List.replicate_succ', crcBits_append, hy]
    exact h'
  have h3 := congrArg BitVec.toNat h2
  rw [zeros_toNat] at h3
  exact noReturn_spec 32766 0x8408 noReturn_32766 (d + 1) (by omega) (by omega) h3

/-! ## Differences -/

theorem crcBits_diff (r : BitVec 16) {a b : List Bool} (h : a.length = b.length) :
    crcBits r a ^^^ crcBits r b = crcBits 0#16 (List.zipWith (· != ·) a b) := by
  have := crcBits_xor a b r r h
  rw [BitVec.xor_self] at this
  exact this.symm

theorem swap16_inj {x y : BitVec 16} (h : swap16 x = swap16 y) : x = y := by
  have key : ∀ z : BitVec 16, swap16 (swap16 z) = z := by
    intro z
    apply BitVec.eq_of_getLsbD_eq
    intro i hi
    unfold swap16
    simp only [BitVec.getLsbD_rotateLeft]
    by_cases h8 : i < 8
    · simp [h8, show ¬ 8 + i < 8 by omega, show 8 + i < 16 by omega]
    · simp [h8, hi, show i - 8 < 8 by omega, show 8 + (i - 8) = i by omega]
  rw [← key x, ← key y, h]

theorem crc_ne_of_diff {a b : List UInt8} (hl : a.length = b.length)
    (h : crcBits 0#16 (List.zipWith (· != ·) (bitsOf a) (bitsOf b)) ≠ 0#16) :
    crc16 a ≠ crc16 b ∧ crc16kermit a ≠ crc16kermit b := by
  have hbl : (bitsOf a).length = (bitsOf b).length := by rw [bitsOf_length, bitsOf_length, hl]
  constructor
  · intro heq
    rw [crc16_eq, crc16_eq] at heq
    have heq := swap16_inj heq
    unfold crcX25 at heq
    apply h
    rw [← crcBits_diff 0xffff#16 hbl]
    have := congrArg (· ^^^ 0xffff#16) heq
    simp only [BitVec.xor_assoc, BitVec.xor_self, BitVec.xor_zero] at this
    rw [this, BitVec.xor_self]
  · intro heq
    rw [crc16kermit_eq, crc16kermit_eq] at heq
    unfold crcKermit at heq
    apply h
    rw [← crcBits_diff 0#16 hbl, heq, BitVec.xor_self]

end Sml
