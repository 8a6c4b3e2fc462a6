import Verif.Model.NumMem
import Verif.Spec.Number
import Verif.Proofs.Reads

/-!
# Numbers in memory, on hosts of either byte order
-/

namespace Sml

open Spec

theorem beNat_unsigned (bs : List UInt8) : beNat bs = unsignedOf bs := by
  have h : ∀ (bs : List UInt8) (a : Nat), bs.foldl (fun a b => a * 256 + b.toNat) a = a * 256 ^ bs.length + unsignedOf bs := by
    intro bs
    induction bs with
    | nil => intro a; simp [unsignedOf]
    | cons b bs ih =>
      intro a
      rw [List.foldl_cons, ih, unsignedOf, List.length_cons, Nat.pow_succ, Nat.add_mul, Nat.mul_assoc, Nat.mul_comm 256]
      omega
  unfold beNat
  rw [h]
  simp

theorem unsigned_lt (bs : List UInt8) : unsignedOf bs < 256 ^ bs.length := by
  induction bs with
  | nil => simp [unsignedOf]
  | cons b bs ih =>
    rw [unsignedOf, List.length_cons, Nat.pow_succ]
    have h := b.toNat_lt
    have h2 : b.toNat * 256 ^ bs.length ≤ 255 * 256 ^ bs.length := Nat.mul_le_mul_right _ (by omega)
    omega

theorem unsigned_append (a b : List UInt8) : unsignedOf (a ++ b) = unsignedOf a * 256 ^ b.length + unsignedOf b := by
  induction a with
  | nil => simp [unsignedOf]
  | cons x a ih =>
    rw [List.cons_append, unsignedOf, ih, unsignedOf, List.length_append, Nat.pow_add, Nat.add_mul, Nat.mul_assoc]
    omega

theorem unsigned_zeros (n : Nat) : unsignedOf (List.replicate n 0x00) = 0 := by
  induction n with
  | zero => rfl
  | succ n ih => simp [List.replicate_succ, unsignedOf, ih]

theorem unsigned_ones (n : Nat) : unsignedOf (List.replicate n 0xFF) + 1 = 256 ^ n := by
  induction n with
  | zero => rfl
  | succ n ih =>
    rw [List.replicate_succ, unsignedOf, List.length_replicate, Nat.pow_succ]
    have : (0xFF : UInt8).toNat = 255 := rfl
    rw [this]
    omega

theorem pow256 (n : Nat) : (256 : Nat) ^ n = 2 ^ (8 * n) := by rw [Nat.pow_mul]

/-- Reading an object of `n` bytes as a signed number. -/
theorem toInt_signed (bs : List UInt8) (h : bs ≠ []) : ({ size := bs.length, val := unsignedOf bs } : Num).toInt = signedOf bs := by
  cases bs with
  | nil => exact absurd rfl h
  | cons b bs =>
    unfold Num.toInt signedOf
    simp only
    have hp : 2 ^ (8 * (b :: bs).length - 1) = 128 * 256 ^ bs.length := by
      rw [pow256, show (128 : Nat) = 2 ^ 7 from rfl, ← Nat.pow_add]
      congr 1
      simp; omega
    have hq : (2 : Int) ^ (8 * (b :: bs).length) = 256 ^ (b :: bs).length := by
      rw [Int.pow_mul]; rfl
    rw [hp, hq]
    have hlt := unsigned_lt bs
    have hpos : 0 < 256 ^ bs.length := Nat.pow_pos (by decide)
    have hb := b.toNat_lt
    by_cases hc : b.toNat < 128
    · rw [if_pos hc, if_pos]
      rw [unsignedOf]
      have : b.toNat * 256 ^ bs.length ≤ 127 * 256 ^ bs.length := Nat.mul_le_mul_right _ (by omega)
      omega
    · rw [if_neg hc, if_neg]
      rw [unsignedOf]
      have : 128 * 256 ^ bs.length ≤ b.toNat * 256 ^ bs.length := Nat.mul_le_mul_right _ (by omega)
      omega

/-- Sign extension keeps the value. -/
theorem signed_extend (b : UInt8) (bs : List UInt8) (n : Nat) :
    signedOf (List.replicate n (if 128 ≤ b.toNat then 0xFF else 0x00) ++ b :: bs) = signedOf (b :: bs) := by
  cases n with
  | zero => simp
  | succ n =>
    by_cases hc : 128 ≤ b.toNat
    · rw [if_pos hc, List.replicate_succ, List.cons_append]
      unfold signedOf
      simp only
      rw [if_neg (by decide), if_neg (by omega)]
      rw [← List.cons_append, ← List.replicate_succ, unsigned_append, List.length_append, List.length_replicate, Int.pow_add]
      have h1 := unsigned_ones (n + 1)
      have h2 : ((unsignedOf (List.replicate (n + 1) 0xFF) : Nat) : Int) = 256 ^ (n + 1) - 1 := by
        have : ((unsignedOf (List.replicate (n + 1) 0xFF) + 1 : Nat) : Int) = ((256 ^ (n + 1) : Nat) : Int) := by rw [h1]
        rw [Int.natCast_pow] at this
        simp only [Int.cast_ofNat_Int] at this
        omega
      rw [Int.natCast_add, Int.natCast_mul, h2, Int.natCast_pow, Int.sub_mul]
      simp only [Int.cast_ofNat_Int]
      omega
    · rw [if_neg hc, List.replicate_succ, List.cons_append]
      unfold signedOf
      simp only
      rw [if_pos (by decide), if_pos (by omega), ← List.cons_append, ← List.replicate_succ, unsigned_append, unsigned_zeros]
      simp

theorem top_bit : ∀ b : Fin 256, ((UInt8.ofNat b.val) &&& 128 ≠ 0) ↔ 128 ≤ (UInt8.ofNat b.val).toNat := by decide +kernel

theorem top_bit' (b : UInt8) : (b &&& 128 ≠ 0) ↔ 128 ≤ b.toNat := by
  have := top_bit ⟨b.toNat, b.toNat_lt⟩
  simpa using this

/-- A number field with any header. -/
theorem run_number {ty max : Nat} {hdr bytes rest : List UInt8} {st : St} (hty : ty = 5 ∨ ty = 6) (hh : IsHeader hdr) (ht : headerType hdr = ty)
    (hl : headerLength hdr = bytes.length) (hmax : bytes.length ≤ max) (hv : headerValue hdr < 2147483648) (hs : hdr.length ≤ 2147483648)
    (hd : st.data.drop st.cursor = hdr ++ (bytes ++ rest)) (hne : bytes ++ rest ≠ []) :
    numberParse (ty * 16) max st = .ok (some { size := max, val := unsignedOf (List.replicate (max - bytes.length)
      (if ty = 5 ∧ 128 ≤ ((bytes ++ rest).head hne).toNat then 0xFF else 0x00) ++ bytes) })
      { st with cursor := st.cursor + hdr.length + bytes.length, live := st.live + 1 } := by
  obtain ⟨b, bs, hb⟩ : ∃ b bs, hdr = b :: bs := by
    obtain ⟨more, last, rfl, _⟩ := hh
    cases more <;> simp
  have hne1 : b ≠ 1 := by
    rintro rfl
    rw [hb] at ht
    simp [headerType] at ht
    omega
  have hlen : st.data.length = st.cursor + hdr.length + bytes.length + rest.length := by
    have h1 : (st.data.drop st.cursor).length = _ := congrArg List.length hd
    have : 0 < hdr.length := by rw [hb]; simp
    simp at h1
    omega
  have hpos : 0 < (bytes ++ rest).length := List.length_pos_iff.2 hne
  rw [List.length_append] at hpos
  have hd2 := drop_add hd
  have hd3 : (st.data.drop (st.cursor + hdr.length)).take bytes.length = bytes := by rw [hd2, List.take_left]
  have hskip : optionalIsSkipped st = .ok false st := by
    have hd' := hd
    rw [hb] at hd'
    exact run_notSkipped hd' hne1
  have hhl : 0 < hdr.length := by rw [hb]; simp
  unfold numberParse
  rw [run_bind, hskip]
  run
  simp only [Bool.false_eq_true, if_false]
  rw [if_neg (by omega), reads_type (by rw [hb]; simp) ht hd]
  run
  rw [if_neg (by simp), getNextLength_spec hh hd hv hs, hl]
  run
  rw [if_neg (by omega)]
  simp only [Int.toNat_natCast]
  rw [if_neg (by omega), if_neg (by omega), run_getCurrentByte (by simp only; omega)]
  run
  rw [run_readBytes (by simp only; omega)]
  run
  simp only [hd3]
  have hhead : st.data[st.cursor + hdr.length]'(by omega) = (bytes ++ rest).head hne := by
    have h0 : (st.data.drop (st.cursor + hdr.length))[0]'(by rw [hd2, List.length_append]; exact hpos) = (bytes ++ rest).head hne := by
      simp only [hd2]
      rw [List.head_eq_getElem]
    rw [List.getElem_drop] at h0
    simpa using h0
  rw [hhead, beNat_unsigned]
  have hneg : (decide (ty * 16 = tyInteger) && decide ((bytes ++ rest).head hne &&& 128 ≠ 0)) = true ↔ (ty = 5 ∧ 128 ≤ ((bytes ++ rest).head hne).toNat) := by
    rw [Bool.and_eq_true, decide_eq_true_iff, decide_eq_true_iff, top_bit']
    simp only [tyInteger]
    omega
  simp only [hneg]

/-! ## Byte order -/

theorem numberEndian_eq (e : Endian) : numberEndian e = decide (e = .big) := by cases e <;> decide

theorem numberByteSwap_eq (bs : List UInt8) : numberByteSwap bs = bs.reverse := by
  unfold numberByteSwap
  apply List.ext_getElem
  · simp
  · intro i h1 h2
    simp at h1 h2 ⊢
    rw [List.getElem?_eq_getElem (by omega)]
    simp
    congr 1
    omega

theorem beBytes_value (n v : Nat) : beNat (beBytes n v) = v % 256 ^ n := by
  rw [beNat_unsigned]
  induction n with
  | zero => simp [beBytes, unsignedOf]; omega
  | succ n ih =>
    rw [beBytes, unsignedOf, ih, beBytes_length, UInt8.toNat_ofNat', Nat.pow_succ 256 n, Nat.mod_mul]
    have : v / 256 ^ n % 2 ^ 8 = v / 256 ^ n % 256 := rfl
    rw [this, Nat.mul_comm]
    omega

theorem layout_read (e : Endian) (n v : Nat) : e.read (e.layout n v) = v % 256 ^ n := by
  cases e <;> simp [Endian.read, Endian.layout, beBytes_value]

theorem beBytes_drop (n k v : Nat) : (beBytes (n + k) v).drop k = beBytes n v := by
  induction k with
  | zero => simp
  | succ k ih => rw [← Nat.add_assoc, beBytes, List.drop_succ_cons, ih]

theorem numberInitMem_eq (e : Endian) (number size : Nat) (h : size ≤ 8) : numberInitMem e number size = e.layout size number := by
  have hk : (beBytes 8 number).drop (8 - size) = beBytes size number := by
    have := beBytes_drop size (8 - size) number
    rwa [show size + (8 - size) = 8 by omega] at this
  unfold numberInitMem
  rw [numberEndian_eq]
  cases e with
  | big =>
    simp only [Endian.layout, decide_true, if_true, hk]
    exact List.take_of_length_le (by rw [beBytes_length]; exact Nat.le_refl _)
  | little =>
    simp only [Endian.layout, reduceCtorEq, decide_false, Bool.false_eq_true, if_false]
    rw [List.take_reverse, beBytes_length, hk]

/-- The object a parsed number leaves in memory, whatever the byte order, is read as the number. -/
theorem numberParse_mem (e : Endian) (type max : Nat) (st : St) : numberParse type max st =
    match numberParseMem e type max st with
    | .ok np st' => .ok (np.map fun bs => { size := bs.length, val := e.read bs }) st'
    | .ub r => .ub r := by
  have hfail : ∀ (n : Nat) (s : St), (failWith n : M (Option Num)) s = match (failWith n : M (Option (List UInt8))) s with
      | .ok np st' => .ok (np.map fun bs => { size := bs.length, val := e.read bs }) st'
      | .ub r => .ub r := by
    intro n s
    by_cases h : n ≤ s.live <;> simp [failWith, release, run_bind, run_setError, run_pure, h, Res.andThen]
  unfold numberParse numberParseMem
  run
  cases h1 : optionalIsSkipped st with
  | ub r => rfl
  | ok b s1 =>
    run
    by_cases hb : b = true
    · simp [hb]
    · simp only [hb]
      by_cases h2 : s1.cursor + 1 > s1.data.length
      · simp only [h2, if_true]
        exact hfail 0 s1
      · simp only [h2, if_false]
        cases h3 : getNextType s1 with
        | ub r => rfl
        | ok t s2 =>
          run
          by_cases h4 : t ≠ type
          · rw [if_pos h4, if_pos h4]
            exact hfail 0 s2
          · simp only [h4, if_false]
            cases h5 : getNextLength s2 with
            | ub r => rfl
            | ok l s3 =>
              run
              by_cases h6 : l < 0 ∨ l > (max : Int)
              · simp only [h6, if_true]
                exact hfail 0 s3
              · simp only [h6, if_false]
                by_cases h7 : s3.cursor + l.toNat > s3.data.length
                · simp only [h7, if_true]
                  exact hfail 1 _
                · simp only [h7, if_false]
                  by_cases h8 : s3.cursor + 1 > s3.data.length
                  · simp only [h8, if_true]
                    exact hfail 1 _
                  · simp only [h8, if_false]
                    rw [run_getCurrentByte (by simp only; omega)]
                    run
                    rw [run_readBytes (by simp only; omega)]
                    run
                    have hl : l.toNat ≤ max := by omega
                    generalize hbs : (s3.data.drop s3.cursor).take l.toNat = bs
                    have hbl : bs.length = l.toNat := by rw [← hbs]; simp; omega
                    generalize hc : (decide (type = tyInteger) && decide (s3.data[s3.cursor] &&& 128 ≠ 0)) = neg
                    have hmem : (if neg = true then List.replicate (max - l.toNat) 0xFF ++ ((List.replicate max (0 : UInt8)).take (max - l.toNat) ++ bs).drop (max - l.toNat)
                        else (List.replicate max (0 : UInt8)).take (max - l.toNat) ++ bs) = List.replicate (max - l.toNat) (if neg = true then 0xFF else 0x00) ++ bs := by
                      have htk : (List.replicate max (0 : UInt8)).take (max - l.toNat) = List.replicate (max - l.toNat) 0 := by
                        rw [List.take_replicate]; congr 1; omega
                      rw [htk]
                      cases neg <;> simp
                    rw [hmem]
                    have hml : (List.replicate (max - l.toNat) (if neg = true then (0xFF : UInt8) else 0x00) ++ bs).length = max := by simp; omega
                    generalize List.replicate (max - l.toNat) (if neg = true then (0xFF : UInt8) else 0x00) ++ bs = mem at hml
                    rw [numberEndian_eq]
                    cases e <;> simp [Endian.read, numberByteSwap_eq, hml]

theorem beBytes_beNat (bs : List UInt8) : beBytes bs.length (beNat bs) = bs := by
  rw [beNat_unsigned]
  induction bs with
  | nil => rfl
  | cons b bs ih =>
    rw [List.length_cons, beBytes, unsignedOf]
    have hpos : 0 < 256 ^ bs.length := Nat.pow_pos (by decide)
    have hlt := unsigned_lt bs
    have h1 : (b.toNat * 256 ^ bs.length + unsignedOf bs) / 256 ^ bs.length = b.toNat := by
      rw [Nat.add_comm, Nat.add_mul_div_right _ _ hpos, Nat.div_eq_of_lt hlt]
      omega
    have h2 : ∀ n v w, v % 256 ^ n = w % 256 ^ n → beBytes n v = beBytes n w := by
      intro n
      induction n with
      | zero => intro v w _; rfl
      | succ n ih =>
        intro v w h
        rw [beBytes, beBytes]
        rw [Nat.pow_succ] at h
        have hm : v % 256 ^ n = w % 256 ^ n := by
          have := congrArg (· % 256 ^ n) h
          simpa [Nat.mod_mul_right_mod] using this
        have hd : v / 256 ^ n % 256 = w / 256 ^ n % 256 := by
          have := congrArg (· / 256 ^ n) h
          simpa [Nat.mod_mul_right_div_self] using this
        rw [ih v w hm]
        congr 1
        apply UInt8.toNat_inj.1
        rw [UInt8.toNat_ofNat', UInt8.toNat_ofNat']
        exact hd
    rw [h1, h2 bs.length _ (unsignedOf bs) (by rw [Nat.add_comm, Nat.add_mul_mod_self_right]), ih]
    simp

/-- Writing an object from memory, whatever the byte order, writes the number it is read as. -/
theorem numberWrite_mem (e : Endian) (type : Nat) (bs : List UInt8) (h : bs ≠ []) :
    numberWriteMem e (some bs) type bs.length = numberWrite (some { size := bs.length, val := e.read bs }) type bs.length := by
  have h0 : bs.length ≠ 0 := by simpa using h
  unfold numberWriteMem numberWrite
  simp only [Nat.le_refl, if_true, h0, if_false, numberEndian_eq, List.take_length, numberByteSwap_eq]
  cases e with
  | big => simp [Endian.read, beBytes_beNat]
  | little =>
    have := beBytes_beNat bs.reverse
    rw [List.length_reverse] at this
    simp [Endian.read, this]

end Sml
