import Verif.Proofs.NumMem
import Verif.Proofs.WrittenHeader
import Verif.Proofs.RoundFile
import Verif.Spec.Number

/-!
# Headers, numbers and simple fields: C20 to C25
-/

namespace Sml

open Spec

/-! ## C20 -/

theorem pow16_gap (k j : Nat) : 16 ^ k + j ≤ 16 ^ (k + j) := by
  induction j with
  | zero => simp
  | succ j ih =>
    have : 0 < 16 ^ (k + j) := Nat.pow_pos (by decide)
    rw [show k + (j + 1) = (k + j) + 1 by omega, Nat.pow_succ]
    omega

theorem noCarry_of_fit {n k : Nat} (hk : 1 ≤ k) (h1 : 16 ^ (k - 1) ≤ n + 1) (h2 : n + k < 16 ^ k) : NoCarry n := by
  rintro j ⟨h3, h4⟩
  rcases Nat.lt_trichotomy j k with h | h | h
  · have : 16 ^ j ≤ 16 ^ (k - 1) := Nat.pow_le_pow_right (by decide) (by omega)
    omega
  · subst h; omega
  · have := pow16_gap k (j - k)
    rw [show k + (j - k) = j by omega] at this
    omega

/-- C20: a header written into zeroed memory is read with the right type; and with the right length
exactly if it is a list of fewer than 16 elements, or anything else whose length does not carry. -/
theorem c20_header_round_trip (ty n : Nat) (hty : ty < 8) (hn : n + 1 < 16 ^ 6) :
    ∃ k r, 0 < k ∧ k ≤ 6 ∧ (r = (n : Int) ↔ (ty = 7 ∧ n < 16) ∨ (ty ≠ 7 ∧ NoCarry n)) ∧
    ∀ st : St, st.cursor + k ≤ st.data.length → (∀ b ∈ (st.data.drop st.cursor).take k, b = 0) →
      ∃ st', setTypeAndLength (16 * ty) n st = .ok () st' ∧ st'.cursor = st.cursor + k ∧
        getNextType { st' with cursor := st.cursor } = .ok (ty * 16) { st' with cursor := st.cursor } ∧
        getNextLength { st' with cursor := st.cursor } = .ok r st' := by
  obtain ⟨k, v, hk, hk6, hv, hE, hcase⟩ := emits_header hty hn
  have hvv : headerValue (headerBytes ty v k k) = v := by
    unfold headerValue
    rw [headerBytes_value, Nat.mod_eq_of_lt hv]
    simp
  have hll : (headerBytes ty v k k).length = k := headerBytes_length _ _ _ _
  have htt := headerBytes_type ty v k hty hk
  refine ⟨k, headerLength (headerBytes ty v k k), hk, hk6, ?_, ?_⟩
  · unfold headerLength
    rw [htt, hvv, hll]
    have h16 : ∀ j, 2 ≤ j → j < 16 ^ j := fun j _ => Nat.lt_pow_self (by decide)
    by_cases h7 : ty = 7
    · subst h7
      simp only [spelled, if_true] at hcase ⊢
      simp only [true_and, ne_eq, not_true_eq_false, false_and, or_false]
      rcases hcase with ⟨h1, _, h3⟩ | ⟨h1, h2, _, _, h3⟩ | ⟨h1, h2, _, _, h3⟩
      · constructor <;> intro <;> omega
      · constructor <;> intro <;> omega
      · have := h16 k h2
        constructor <;> intro <;> omega
    · simp only [spelled, h7, if_false] at hcase ⊢
      rw [show ((False ∧ n < 16) ∨ (ty ≠ 7 ∧ NoCarry n)) = NoCarry n by simp [h7]]
      rcases hcase with ⟨h1, h2, h3⟩ | ⟨h1, h2, h3, h4, h5⟩ | ⟨h1, h2, h3, h4, h5⟩
      · exact ⟨fun _ => noCarry_small (by omega), fun _ => by omega⟩
      · exact ⟨fun _ => noCarry_of_fit (by omega) h3 (by omega), fun _ => by omega⟩
      · have := h16 k h2
        constructor
        · intro; omega
        · intro h; exact absurd ⟨h3, by omega⟩ (h k)
  · intro st hfit hz
    have hcl : (hdrCells (headerBytes ty v k k)).length = k := by
      rw [← bytes_length, bytes_hdr, hll]
    have hp := place_neutral (hdrCells (headerBytes ty v k k)) st (by omega)
      (neutral_covered _ _ (by rw [bytes_hdr]; exact zeros_covered _ _ (by rw [hll]; exact hz)))
    rw [bytes_hdr] at hp
    refine ⟨place (hdrCells (headerBytes ty v k k)) st, ?_, ?_, ?_, ?_⟩
    · rw [hE st (by omega), if_pos (by omega)]
    · simp [place, hcl]
    all_goals
      have hd : (overwrite st (headerBytes ty v k k)).drop st.cursor = headerBytes ty v k k ++ st.data.drop (st.cursor + k) := by
        unfold overwrite
        rw [List.append_assoc, List.drop_append_of_le_length (by simp; omega), hll]
        simp
    · refine reads_type ?_ htt (rest := st.data.drop (st.cursor + k)) (by simp only [hp]; exact hd)
      intro h; rw [h] at hll; simp at hll; omega
    · rw [getNextLength_spec (headerBytes_tail ty v k hty k hk) (rest := st.data.drop (st.cursor + k)) (by simp only [hp]; exact hd)
        (by rw [hvv]; exact Nat.lt_of_lt_of_le hv (Nat.le_trans (Nat.pow_le_pow_right (by decide) hk6) (by decide))) (by omega)]
      simp [place, hcl, hll]

/-- Non-trivial instances: 200 bytes are fine, 254 bytes and 16 elements are not. -/
example : NoCarry 200 ∧ ¬ NoCarry 254 := by
  refine ⟨noCarry_of_fit (k := 2) (by decide) (by decide) (by decide), fun h => h 2 (by decide)⟩

/-- C20: the header written for a list of 16 or more elements is never read as that many elements. -/
theorem c20_long_lists (n : Nat) (h16 : 16 ≤ n) (hn : n + 1 < 16 ^ 6) :
    ∃ k r, r ≠ (n : Int) ∧ ∀ st : St, st.cursor + k ≤ st.data.length → (∀ b ∈ (st.data.drop st.cursor).take k, b = 0) →
      ∃ st', setTypeAndLength tyList n st = .ok () st' ∧ getNextLength { st' with cursor := st.cursor } = .ok r st' := by
  obtain ⟨k, r, _, _, hiff, h⟩ := c20_header_round_trip 7 n (by decide) hn
  refine ⟨k, r, fun hr => ?_, fun st h1 h2 => ?_⟩
  · have := hiff.1 hr
    simp at this
    omega
  · obtain ⟨st', h3, _, _, h4⟩ := h st h1 h2
    exact ⟨st', h3, h4⟩

/-- A list of 16 elements read back as a list of another length. -/
example : ∃ k r, r ≠ 16 ∧ ∀ st : St, st.cursor + k ≤ st.data.length → (∀ b ∈ (st.data.drop st.cursor).take k, b = 0) →
    ∃ st', setTypeAndLength tyList 16 st = .ok () st' ∧ getNextLength { st' with cursor := st.cursor } = .ok r st' :=
  c20_long_lists 16 (by decide) (by decide)

/-- C20: sixteen elements are announced as seventeen, 254 bytes as a negative number. -/
theorem c20_false :
    setTypeAndLength tyList 16 { data := [0, 0] } = .ok () { data := [0xF1, 0x01], cursor := 2 } ∧
    getNextLength { data := [0xF1, 0x01] } = .ok 17 { data := [0xF1, 0x01], cursor := 2 } ∧
    setTypeAndLength tyOctet 254 { data := [0, 0, 0] } = .ok () { data := [0x80, 0x01, 0], cursor := 2 } ∧
    getNextLength { data := [0x80, 0x01, 0] } = .ok (-1) { data := [0x80, 0x01, 0], cursor := 2 } := by
  decide +kernel

/-! ## C21 -/

/-- C21: an unsigned field of 1 to `max` bytes, with any header that says so, has the value of its bytes;
the field is consumed exactly. -/
theorem c21_unsigned (max : Nat) (hdr bytes rest : List UInt8) (st : St) (hh : IsHeader hdr) (ht : headerType hdr = 6)
    (hl : headerLength hdr = bytes.length) (h0 : bytes ≠ []) (hmax : bytes.length ≤ max) (hv : headerValue hdr < 2 ^ 31)
    (hs : hdr.length < 2 ^ 31) (hd : st.data.drop st.cursor = hdr ++ (bytes ++ rest)) :
    numberParse tyUnsigned max st = .ok (some { size := max, val := unsignedOf bytes })
      { st with cursor := st.cursor + hdr.length + bytes.length, live := st.live + 1 } := by
  have := run_number (ty := 6) (max := max) (Or.inr rfl) hh ht hl hmax (by simpa using hv) (by omega) hd (by simp [h0])
  simp only [show ¬ ((6 : Nat) = 5) by decide, false_and, if_false, unsigned_append, unsigned_zeros, Nat.zero_mul, Nat.zero_add] at this
  exact this

/-- C21: a signed field has the two's-complement value of its bytes, whatever the size of the target. -/
theorem c21_signed (max : Nat) (hdr bytes rest : List UInt8) (st : St) (hh : IsHeader hdr) (ht : headerType hdr = 5)
    (hl : headerLength hdr = bytes.length) (h0 : bytes ≠ []) (hmax : bytes.length ≤ max) (hv : headerValue hdr < 2 ^ 31)
    (hs : hdr.length < 2 ^ 31) (hd : st.data.drop st.cursor = hdr ++ (bytes ++ rest)) :
    ∃ n, numberParse tyInteger max st = .ok (some n)
      { st with cursor := st.cursor + hdr.length + bytes.length, live := st.live + 1 } ∧
      n.size = max ∧ n.toInt = signedOf bytes := by
  have h := run_number (ty := 5) (max := max) (Or.inl rfl) hh ht hl hmax (by simpa using hv) (by omega) hd (by simp [h0])
  refine ⟨_, h, rfl, ?_⟩
  cases bytes with
  | nil => exact absurd rfl h0
  | cons b bs =>
    simp only [List.cons_append, List.head_cons, true_and]
    have hlen : (List.replicate (max - (b :: bs).length) (if 128 ≤ b.toNat then (0xFF : UInt8) else 0x00) ++ b :: bs).length = max := by
      rw [List.length_append, List.length_replicate]
      omega
    have := toInt_signed (List.replicate (max - (b :: bs).length) (if 128 ≤ b.toNat then (0xFF : UInt8) else 0x00) ++ b :: bs) (by simp)
    rw [hlen] at this
    rw [this, signed_extend]

/-- C21: on either byte order, the object in memory is the number of `Verif.Model.Prim`: parsing at the level
of memory and reading the object in host byte order gives the same. -/
theorem c21_byte_order (e : Endian) (type max : Nat) (st : St) : numberParse type max st =
    match numberParseMem e type max st with
    | .ok np st' => .ok (np.map fun bs => { size := bs.length, val := e.read bs }) st'
    | .ub r => .ub r := numberParse_mem e type max st

/-- Non-trivial instances: -2 in one byte for a target of four, on both byte orders; a header of two bytes. -/
example : IsHeader [0xE0, 0x04] ∧ headerType [0xE0, 0x04] = 6 ∧ headerLength [0xE0, 0x04] = 2 ∧ signedOf [0xFE] = -2 ∧ signedOf [0x80, 0x00] = -32768 ∧
    unsignedOf [0x80, 0x00] = 32768 := by
  refine ⟨⟨[0xE0], 0x04, rfl, by decide, by decide⟩, ?_⟩
  decide

example : numberParseMem .little tyInteger 4 { data := [0x52, 0xFE] } = .ok (some [0xFE, 0xFF, 0xFF, 0xFF]) { data := [0x52, 0xFE], cursor := 2, live := 1 } ∧
    numberParseMem .big tyInteger 4 { data := [0x52, 0xFE] } = .ok (some [0xFF, 0xFF, 0xFF, 0xFE]) { data := [0x52, 0xFE], cursor := 2, live := 1 } := by
  decide +kernel

/-! ## C22 -/

theorem layout_length (e : Endian) (n v : Nat) : (e.layout n v).length = n := by
  cases e <;> simp [Endian.layout, beBytes_length]

theorem read_layout (e : Endian) (bs : List UInt8) : e.layout bs.length (e.read bs) = bs := by
  cases e with
  | big => exact beBytes_beNat bs
  | little =>
    have := beBytes_beNat bs.reverse
    rw [List.length_reverse] at this
    simp [Endian.read, Endian.layout, this]

/-- C22: initialising keeps the low bytes, on either byte order. -/
theorem c22_init (e : Endian) (size x : Nat) (hs : size ∈ sizes) : (numberInitMem e x size).length = size ∧
    e.read (numberInitMem e x size) = x % 256 ^ size ∧ numberInit x size = { size := size, val := x % 256 ^ size } := by
  have h8 : size ≤ 8 := by simp [sizes] at hs; omega
  rw [numberInitMem_eq e x size h8, layout_length, layout_read]
  exact ⟨rfl, rfl, rfl⟩

/-- C22: a number initialised and written is read back unchanged: on either byte order, as an object in memory
and as a value. The bytes in between are a header and the number, most significant byte first. -/
theorem c22_round_trip (e : Endian) (size x ty : Nat) (hs : size ∈ sizes) (hty : ty = 5 ∨ ty = 6) :
    RoundTrips (numberWriteMem e (some (numberInitMem e x size)) (16 * ty) size) (numberParseMem e (16 * ty) size)
      (some (numberInitMem e x size)) (UInt8.ofNat (16 * ty + size + 1) :: bigEndian size (x % 256 ^ size)) 1 ∧
    RoundTrips (numberWrite (some (numberInit x size)) (16 * ty) size) (numberParse (16 * ty) size)
      (some (numberInit x size)) (UInt8.ofNat (16 * ty + size + 1) :: bigEndian size (x % 256 ^ size)) 1 := by
  obtain ⟨hlen, hread, hinit⟩ := c22_init e size x hs
  have hb : 0 < size ∧ size < 15 := sizes_bounds hs
  have h8 : size ≤ 8 := by simp [sizes] at hs; omega
  have hok : NumOk true size (numberInit x size) := by
    refine ⟨by simp [numberInit], fun _ => ⟨rfl, ?_⟩⟩
    rw [hinit]
    exact Nat.mod_lt _ (Nat.pow_pos (by decide))
  have hhdr : encHeader ty size = [UInt8.ofNat (16 * ty + size + 1)] := by
    have hsp : spelled ty size 1 = size + 1 := by unfold spelled; rw [if_neg (by omega)]
    rw [encHeader_short (by omega), hsp]
    rfl
  have h2 : RoundTrips (numberWrite (some (numberInit x size)) (16 * ty) size) (numberParse (16 * ty) size)
      (some (numberInit x size)) (UInt8.ofNat (16 * ty + size + 1) :: bigEndian size (x % 256 ^ size)) 1 := by
    have hw := emits_number (ty := ty) (by omega) hb.1 hb.2 hok.1
    have hr := reads_number_some hty hb.1 hb.2 hok
    rw [Nat.mul_comm] at hr
    rcases hty with rfl | rfl
    · have := roundTrips (t := intTerm size (numberInit x size)) (by simpa [intTerm, cells, bigEndian_length] using hw)
        (by simpa [intTerm, enc, bigEndian_length] using hr)
      simpa [intTerm, enc, bigEndian_length, hhdr, hinit] using this
    · have := roundTrips (t := uintTerm size (numberInit x size)) (by simpa [uintTerm, cells, bigEndian_length] using hw)
        (by simpa [uintTerm, enc, bigEndian_length] using hr)
      simpa [uintTerm, enc, bigEndian_length, hhdr, hinit] using this
  refine ⟨?_, h2⟩
  intro st he hfit hcov
  obtain ⟨st', h3, h4, h5⟩ := h2 st he hfit hcov
  refine ⟨st', ?_, h4, ?_⟩
  · have := numberWrite_mem e (16 * ty) (numberInitMem e x size) (by intro h; rw [h] at hlen; simp at hlen; omega)
    rw [hlen, hread] at this
    rw [this, ← hinit]
    exact h3
  · rw [numberParse_mem e] at h5
    cases hp : numberParseMem e (16 * ty) size { st' with cursor := st.cursor } with
    | ub r => rw [hp] at h5; cases h5
    | ok np s =>
      rw [hp] at h5
      simp only [Res.ok.injEq, Option.map_eq_some_iff] at h5
      obtain ⟨⟨bs, rfl, hbs⟩, h6⟩ := h5
      rw [hinit] at hbs
      simp only [Num.mk.injEq] at hbs
      rw [h6, numberInitMem_eq e x size h8, ← hbs.1]
      congr 2
      rw [← read_layout e bs, layout_length, hbs.2, hbs.1]
      have hc : ∀ n v, beBytes n (v % 256 ^ n) = beBytes n v := by
        intro n v
        have := beBytes_beNat (beBytes n v)
        rwa [beBytes_length, beBytes_value] at this
      cases e <;> simp [Endian.layout, hc]

/-- C22: every value of the unsigned type of `size` bytes is its own low bytes. -/
theorem c22_unsigned_value (size x : Nat) (hx : x < 256 ^ size) : (numberInit x size).val = x :=
  Nat.mod_eq_of_lt hx

/-- C22: every value of the signed type of `size` bytes, passed as `u64`, is the value of the object initialised. -/
theorem c22_signed_value (size : Nat) (hs : size ∈ sizes) (x : Int) (h1 : -2 ^ (8 * size - 1) ≤ x) (h2 : x < 2 ^ (8 * size - 1)) :
    (numberInit (x % 2 ^ 64).toNat size).toInt = x := by
  simp only [sizes, List.mem_cons, List.not_mem_nil, or_false] at hs
  rcases hs with rfl | rfl | rfl | rfl <;> simp only [numberInit, Num.toInt] <;> simp at h1 h2 ⊢ <;> split <;> omega

example : (numberInit (((-2 : Int) % 2 ^ 64).toNat) 4).toInt = -2 ∧ numberInit 0x12345 2 = { size := 2, val := 0x2345 } := by decide

/-! ## C23 -/

/-- The length decoded from a header, of whatever size. -/
def decodedLength (hdr : List UInt8) : Int :=
  wrap32 (toI32 (lenAcc 0 hdr) + (if headerType hdr = 7 then 0 else - (hdr.length : Int)))

/-- Number fields with any header at all. -/
theorem number_any {type max : Nat} {hdr tail : List UInt8} {st : St} (hh : IsHeader hdr) (h1 : hdr.head? ≠ some 1)
    (hd : st.data.drop st.cursor = hdr ++ tail) (hne : tail ≠ []) :
    ((headerType hdr * 16 = type ∧ 0 ≤ decodedLength hdr ∧ decodedLength hdr ≤ max ∧ decodedLength hdr ≤ tail.length) → ∃ o,
      numberParse type max st = .ok (some { size := max, val := unsignedOf (List.replicate (max - (decodedLength hdr).toNat)
        (if type = tyInteger ∧ 128 ≤ (tail.head hne).toNat then 0xFF else 0x00) ++ tail.take (decodedLength hdr).toNat) })
        { st with cursor := st.cursor + hdr.length + (decodedLength hdr).toNat, live := st.live + 1, sovf := o }) ∧
    (¬ (headerType hdr * 16 = type ∧ 0 ≤ decodedLength hdr ∧ decodedLength hdr ≤ max ∧ decodedLength hdr ≤ tail.length) →
      ∃ s, numberParse type max st = .ok none s) := by
  obtain ⟨b, bs, hb⟩ : ∃ b bs, hdr = b :: bs := by
    obtain ⟨more, last, rfl, _⟩ := hh
    cases more <;> simp
  have hne1 : b ≠ 1 := by
    rintro rfl
    rw [hb] at h1
    simp at h1
  have hlen : st.data.length = st.cursor + hdr.length + tail.length := by
    have h1 : (st.data.drop st.cursor).length = _ := congrArg List.length hd
    have : 0 < hdr.length := by rw [hb]; simp
    simp at h1
    omega
  have hpos : 0 < tail.length := List.length_pos_iff.2 hne
  have hd2 := drop_add hd
  have hskip : optionalIsSkipped st = .ok false st := by
    have hd' := hd
    rw [hb] at hd'
    exact run_notSkipped hd' hne1
  have hhl : 0 < hdr.length := by rw [hb]; simp
  obtain ⟨o, hg, _⟩ := getNextLength_run hh hd
  change getNextLength st = .ok (decodedLength hdr) _ at hg
  have hgt := reads_type (ty := headerType hdr) (by rw [hb]; simp) rfl hd
  have htop : st.data[st.cursor + hdr.length]'(by omega) = tail.head hne := by
    have h0 : (st.data.drop (st.cursor + hdr.length))[0]'(by rw [hd2]; exact hpos) = tail.head hne := by
      simp only [hd2]
      rw [List.head_eq_getElem]
    rw [List.getElem_drop] at h0
    simpa using h0
  constructor
  · rintro ⟨ht, hl0, hlm, hlt⟩
    refine ⟨o, ?_⟩
    unfold numberParse
    rw [run_bind, hskip]
    run
    simp only [Bool.false_eq_true, if_false]
    rw [if_neg (by omega), hgt]
    run
    rw [if_neg (by omega), hg]
    run
    rw [if_neg (by omega)]
    rw [if_neg (by omega), if_neg (by omega), run_getCurrentByte (by simp only; omega)]
    run
    rw [run_readBytes (by simp only; omega)]
    run
    simp only [htop, hd2]
    rw [beNat_unsigned]
    have hneg : (decide (type = tyInteger) && decide (tail.head hne &&& 128 ≠ 0)) = true ↔ (type = tyInteger ∧ 128 ≤ (tail.head hne).toNat) := by
      rw [Bool.and_eq_true, decide_eq_true_iff, decide_eq_true_iff, top_bit']
    simp only [hneg]
  · intro hn
    unfold numberParse
    rw [run_bind, hskip]
    run
    simp only [Bool.false_eq_true, if_false]
    rw [if_neg (by omega), hgt]
    run
    by_cases ht : headerType hdr * 16 = type
    · rw [if_neg (by omega), hg]
      run
      by_cases hl : decodedLength hdr < 0 ∨ decodedLength hdr > (max : Int)
      · rw [if_pos hl]; exact ⟨_, rfl⟩
      · rw [if_neg hl]
        rw [if_pos (by omega)]
        exact ⟨_, rfl⟩
    · rw [if_pos ht]; exact ⟨_, rfl⟩

/-- C23: wherever a number field with the header `hdr` and the bytes `bytes` is accepted, it has the same
value; only zero-length signed fields are excluded. (If there is anything behind the header.) -/
theorem c23_own_bytes (type max : Nat) (hdr bytes : List UInt8) (hh : IsHeader hdr) (hz : bytes ≠ [] ∨ type ≠ tyInteger)
    (st1 st2 s1 : St) (rest1 rest2 : List UInt8) (v : Num) (hd1 : st1.data.drop st1.cursor = hdr ++ (bytes ++ rest1))
    (hd2 : st2.data.drop st2.cursor = hdr ++ (bytes ++ rest2)) (hne1 : bytes ++ rest1 ≠ []) (hne : bytes ++ rest2 ≠ [])
    (h1 : numberParse type max st1 = .ok (some v) s1) (hc : s1.cursor = st1.cursor + hdr.length + bytes.length) :
    ∃ s2, numberParse type max st2 = .ok (some v) s2 ∧ s2.cursor = st2.cursor + hdr.length + bytes.length := by
  have hhne : hdr.head? ≠ some 1 := by
    intro h
    cases hdr with
    | nil => simp at h
    | cons b bs =>
      simp at h
      subst h
      obtain ⟨g1, g2, _⟩ := drop_cons_get hd1
      unfold numberParse at h1
      rw [run_bind, run_optionalIsSkipped g1, g2] at h1
      simp at h1
      cases h1
  obtain ⟨p1, q1⟩ := number_any (type := type) (max := max) hh hhne hd1 hne1
  obtain ⟨p2, q2⟩ := number_any (type := type) (max := max) hh hhne hd2 hne
  by_cases hcond : headerType hdr * 16 = type ∧ 0 ≤ decodedLength hdr ∧ decodedLength hdr ≤ max ∧ decodedLength hdr ≤ (bytes ++ rest1).length
  · obtain ⟨o, e1⟩ := p1 hcond
    rw [e1] at h1
    cases h1
    simp only at hc
    have hl : (decodedLength hdr).toNat = bytes.length := by omega
    obtain ⟨o2, e2⟩ := p2 ⟨hcond.1, hcond.2.1, hcond.2.2.1, by rw [List.length_append]; omega⟩
    refine ⟨{ st2 with cursor := st2.cursor + hdr.length + (decodedLength hdr).toNat, live := st2.live + 1, sovf := o2 }, e2.trans ?_, ?_⟩
    · rw [hl, List.take_left, List.take_left]
      congr 5
      cases bytes with
      | nil =>
        have : type ≠ tyInteger := by simpa using hz
        simp [this]
      | cons b bs => rfl
    · simp only; omega
  · obtain ⟨s, e⟩ := q1 hcond
    rw [e] at h1
    cases h1

/-- The same number before different bytes. -/
example : ∃ s2, numberParse tyInteger 4 { data := [0x52, 0xFE, 0x80] } = .ok (some { size := 4, val := 0xFFFFFFFE }) s2 ∧ s2.cursor = 0 + [0x52].length + [0xFE].length :=
  c23_own_bytes tyInteger 4 [0x52] [0xFE] ⟨[], 0x52, rfl, by simp, by decide⟩ (.inl (by decide)) { data := [0x52, 0xFE, 0x00] } { data := [0x52, 0xFE, 0x80] }
    { data := [0x52, 0xFE, 0x00], cursor := 2, live := 1 } [0x00] [0x80] _ rfl rfl (by decide) (by decide) (by decide +kernel) rfl

/-- C23: a zero-length signed field is 0 or -1, depending on the byte behind it. -/
theorem c23_zero_length (max : Nat) (hmax : 0 < max) (b : UInt8) (rest : List UInt8) (st : St)
    (hd : st.data.drop st.cursor = [0x51] ++ ([] ++ b :: rest)) :
    ∃ n, numberParse tyInteger max st = .ok (some n) { st with cursor := st.cursor + 1, live := st.live + 1 } ∧
      n.size = max ∧ n.toInt = if 128 ≤ b.toNat then -1 else 0 := by
  have h := run_number (ty := 5) (max := max) (hdr := [0x51]) (bytes := []) (Or.inl rfl) ⟨[], 0x51, rfl, by simp, by decide⟩ (by decide) (by decide) (by simp)
    (by decide) (by decide) hd (by simp)
  refine ⟨_, h, rfl, ?_⟩
  have := toInt_signed (List.replicate max (if 128 ≤ b.toNat then (0xFF : UInt8) else 0x00)) (by simp; omega)
  rw [List.length_replicate] at this
  simp only [List.length_nil, Nat.sub_zero, List.append_nil, true_and, List.nil_append, List.head_cons]
  rw [this]
  obtain ⟨k, rfl⟩ : ∃ k, max = k + 1 := ⟨max - 1, by omega⟩
  by_cases hb : 128 ≤ b.toNat
  · have := unsigned_ones (k + 1)
    have h2 : (unsignedOf (List.replicate (k + 1) 0xFF) : Int) + 1 = 256 ^ (k + 1) := by
      rw [← Int.natCast_one, ← Int.natCast_add, this, Int.natCast_pow]; rfl
    simp only [hb, if_true]
    rw [List.replicate_succ, signedOf, if_neg (by decide), ← List.replicate_succ, List.length_replicate]
    omega
  · simp only [hb, if_false]
    rw [List.replicate_succ, signedOf, if_pos (by decide), ← List.replicate_succ, unsigned_zeros]
    rfl

example : ∃ n, numberParse tyInteger 2 { data := [0x51, 0x90, 0x01] } = .ok (some n) { data := [0x51, 0x90, 0x01], cursor := 0 + 1, live := 0 + 1 } ∧ n.size = 2 ∧
    n.toInt = if 128 ≤ (0x90 : UInt8).toNat then -1 else 0 :=
  c23_zero_length 2 (by decide) 0x90 [0x01] { data := [0x51, 0x90, 0x01] } rfl

/-- C23 is false without the exclusion: the field `51` is 0 before `00` and -1 before `FF`. -/
theorem c23_false : ∃ s1 s2, numberParse tyInteger 4 { data := [0x51, 0x00] } = .ok (some { size := 4, val := 0 }) s1 ∧
    numberParse tyInteger 4 { data := [0x51, 0xFF] } = .ok (some { size := 4, val := 0xFFFFFFFF }) s2 ∧
    s1.cursor = 1 ∧ s2.cursor = 1 :=
  ⟨{ data := [0x51, 0x00], cursor := 1, live := 1 }, { data := [0x51, 0xFF], cursor := 1, live := 1 }, by decide +kernel, by decide +kernel, rfl, rfl⟩

/-! ## C24 -/

theorem readsAbsent_optional (p : M (Option α)) : ReadsAbsent (optional p) none := by
  intro st h
  obtain ⟨h1, h2⟩ := List.getElem?_eq_some_iff.1 h
  unfold optional
  rw [run_bind, run_optionalIsSkipped h1, h2]
  rfl

theorem writesAbsent_optionalWrite : WritesAbsent optionalWrite := by
  intro st h
  rw [emits_optionalWrite st (by omega), if_pos (by simp [cells, plain]; omega)]
  have h1 : st.data.drop st.cursor = st.data[st.cursor] :: st.data.drop (st.cursor + 1) := List.drop_eq_getElem_cons h
  simp only [place, cells, plain, List.map_cons, List.map_nil, List.length_cons, List.length_nil, Nat.zero_add]
  congr 2
  rw [h1, List.set_eq_take_append_cons_drop, if_pos h]
  simp [paint, Cell.on]

/-- C24: the byte 0x01 stands for an absent field of each type. (An absent list is the empty one. The tree
parser needs stack for its own call.) -/
theorem c24_absent_read : ReadsAbsent octetStringParse none ∧ ReadsAbsent booleanParse none ∧ (∀ type max, ReadsAbsent (numberParse type max) none) ∧
    ReadsAbsent valueParse none ∧ ReadsAbsent statusParse none ∧ ReadsAbsent timeParse none ∧ (∀ depth, ReadsAbsent (treeParse (depth + 1)) none) ∧
    ReadsAbsent treePathParse none ∧ ReadsAbsent listParse [] ∧ ReadsAbsent periodEntryParse none ∧ ReadsAbsent tupelEntryParse none ∧
    ReadsAbsent procParValueParse none := by
  refine ⟨readsAbsent_optional _, readsAbsent_optional _, fun _ _ => readsAbsent_optional _, readsAbsent_optional _, readsAbsent_optional _,
    readsAbsent_optional _, fun _ => ?_, readsAbsent_optional _, ?_, readsAbsent_optional _, readsAbsent_optional _, readsAbsent_optional _⟩
  · unfold treeParse
    exact readsAbsent_optional _
  · intro st h
    obtain ⟨h1, h2⟩ := List.getElem?_eq_some_iff.1 h
    unfold listParse
    rw [run_bind, run_optionalIsSkipped h1, h2]
    rfl

/-- C24: an absent field of each type is written as the byte 0x01. -/
theorem c24_absent_written : WritesAbsent (octetStringWrite none) ∧ WritesAbsent (booleanWrite none) ∧ (∀ type size, WritesAbsent (numberWrite none type size)) ∧
    WritesAbsent (valueWrite none) ∧ WritesAbsent (statusWrite none) ∧ WritesAbsent (timeWrite none) ∧ WritesAbsent (treeWrite none) ∧
    WritesAbsent (treePathWrite none) ∧ WritesAbsent (listWrite []) ∧ WritesAbsent (periodEntryWrite none) ∧ WritesAbsent (tupelEntryWrite none) ∧
    WritesAbsent (procParValueWrite none) :=
  ⟨writesAbsent_optionalWrite, writesAbsent_optionalWrite, fun _ _ => writesAbsent_optionalWrite, writesAbsent_optionalWrite, writesAbsent_optionalWrite,
    writesAbsent_optionalWrite, writesAbsent_optionalWrite, writesAbsent_optionalWrite, writesAbsent_optionalWrite, writesAbsent_optionalWrite, writesAbsent_optionalWrite,
    writesAbsent_optionalWrite⟩

/-- The hypotheses of both can be met. -/
example : ({ data := [0x72, 0x01], cursor := 1 } : St).data[1]? = some 0x01 ∧ 1 < ({ data := [0x72, 0xFF], cursor := 1 } : St).data.length := by decide

/-! ## C25 -/

/-- C25: strings that are absent, or not empty and with a length that does not carry. -/
theorem c25_string (o : Option OctetString) (h : Opt (StrOk true) o) :
    RoundTrips (octetStringWrite o) octetStringParse o (enc (opt strTerm o)) (own OctetString.blocks o) :=
  roundTrips (emits_octetString true o h) (reads_octetString o h)

theorem c25_boolean (o : Option UInt8) (h : Opt (BoolOk true) o) :
    RoundTrips (booleanWrite o) booleanParse o (enc (opt boolTerm o)) (own boolBlocks o) :=
  roundTrips (emits_boolean true o h) (reads_boolean o h)

/-- C25: any byte that is not 0 means true; it is read back as 0xFF. -/
theorem c25_boolean_any (b : UInt8) :
    RoundTrips (booleanWrite (some b)) booleanParse (some (if b = 0 then 0x00 else 0xFF)) [0x42, if b = 0 then 0x00 else 0xFF] 1 := by
  have h1 := emits_boolean false (some b) (by intro _ _ h; cases h)
  have h2 := reads_boolean (some (if b = 0 then 0x00 else 0xFF)) (by intro a ha _; cases ha; by_cases hb : b = 0 <;> simp [hb])
  have he : boolTerm (if b = 0 then 0x00 else 0xFF) = boolTerm b := by
    unfold boolTerm
    by_cases hb : b = 0 <;> simp [hb]
  simp only [opt, he] at h1 h2
  have := roundTrips h1 h2
  rw [show enc (boolTerm b) = [0x42, if b = 0 then 0x00 else 0xFF] by
    unfold boolTerm
    by_cases hb : b = 0 <;> simp [hb, enc] <;> decide] at this
  exact this

theorem c25_value (o : Option Value) (h : Opt (ValOk true) o) :
    RoundTrips (valueWrite o) valueParse o (enc (opt valueTerm o)) (own Value.blocks o) :=
  roundTrips (emits_value true o h) (reads_value o h)

theorem c25_status (o : Option Status) (h : Opt (StatusOk true) o) :
    RoundTrips (statusWrite o) statusParse o (enc (opt statusTerm o)) (own Status.blocks o) :=
  roundTrips (emits_status true o h) (reads_status o h)

/-- C25: times with a tag and a timestamp. -/
theorem c25_time (o : Option Time) (h : Opt (TimeOk true) o) :
    RoundTrips (timeWrite o) timeParse o (enc (opt timeTerm o)) (own Time.blocks o) :=
  roundTrips (emits_time true o h) (reads_time o h)

/-- The hypotheses can be met, with bytes as they occur in practice. -/
example : StrOk true ⟨[0x45, 0x4D, 0x48]⟩ ∧ enc (strTerm ⟨[0x45, 0x4D, 0x48]⟩) = [0x04, 0x45, 0x4D, 0x48] ∧
    ValOk true ⟨0x58, .num (some ⟨8, 0xFFFFFFFFFFFFFFFE⟩)⟩ ∧ StatusOk true ⟨0x64, some ⟨4, 0x182⟩⟩ ∧ TimeOk true ⟨some ⟨1, 1⟩, some ⟨4, 0x5E⟩⟩ ∧
    enc (timeTerm ⟨some ⟨1, 1⟩, some ⟨4, 0x5E⟩⟩) = [0x72, 0x62, 0x01, 0x65, 0x00, 0x00, 0x00, 0x5E] := by
  refine ⟨⟨by simp, noCarry_small (by decide), by decide⟩, by decide, ⟨8, by decide, Or.inl rfl, ?_, by simp⟩, ⟨4, by decide, rfl, ?_, by simp⟩,
    ⟨?_, ?_, by simp⟩, by decide⟩ <;> (rintro _ ⟨⟩; exact ⟨by decide, fun _ => ⟨rfl, by decide⟩⟩)

/-- C25: an empty string is written like an absent one, and so read as absent. -/
theorem c25_empty_string : RoundTrips (octetStringWrite (some ⟨[]⟩)) octetStringParse none [0x01] 0 := by
  have h1 := emits_octetString false (some ⟨[]⟩) (by rintro _ ⟨⟩; exact ⟨by simp, noCarry_small (by decide), by decide⟩)
  have h2 := reads_octetString none (by rintro _ ⟨⟩)
  have h3 : cells (opt strTerm (some ⟨[]⟩)) = cells .absent := by decide
  rw [h3] at h1
  exact roundTrips h1 h2

/-- C25: a time without timestamp is written as tag and 0x01. Its own parser delivers nothing, reports no
error, and leaves the 0x01 unread. -/
theorem c25_time_without_timestamp (t : Num) (ht : NumOk true 1 t) (st : St) (he : st.error = false)
    (hfit : st.cursor + 4 < st.data.length) (hcov : Covered (st.data.drop st.cursor) [0x72, 0x62, UInt8.ofNat t.val, 0x01]) :
    ∃ st', timeWrite (some { tag := some t, data := none }) st = .ok () st' ∧ st'.cursor = st.cursor + 4 ∧
      timeParse { st' with cursor := st.cursor } = .ok none { st' with cursor := st.cursor + 3 } := by
  have hok : Opt (TimeOk false) (some { tag := some t, data := none }) := by
    rintro _ ⟨⟩
    refine ⟨?_, by rintro _ ⟨⟩, by simp⟩
    rintro _ ⟨⟩
    exact ⟨ht.1, by simp⟩
  have hb : bigEndian 1 t.val = [UInt8.ofNat t.val] := by
    have : t.val < 256 := by have := (ht.2 rfl).2; omega
    simp [bigEndian, Nat.mod_eq_of_lt this]
  have henc : enc (opt timeTerm (some { tag := some t, data := none })) = [0x72, 0x62, UInt8.ofNat t.val, 0x01] := by
    simp only [opt, timeTerm, enc, encAll, uintTerm, hb, List.length_cons, List.length_nil, Nat.zero_add]
    rw [show encHeader 6 1 = [0x62] by decide, show encHeader 7 (1 + 1) = [0x72] by decide]
    rfl
  refine ⟨_, emits_covered (emits_time false _ hok) st (by rw [henc]; simp; omega) (by rw [henc]; exact hcov), by rw [henc]; rfl, ?_⟩
  rw [henc]
  have hd : (overwrite st [0x72, 0x62, UInt8.ofNat t.val, 0x01]).drop st.cursor =
      [0x72] ++ ([0x62, UInt8.ofNat t.val] ++ ([0x01] ++ st.data.drop (st.cursor + 4))) := by
    unfold overwrite
    rw [List.append_assoc, List.drop_append_of_le_length (by simp; omega)]
    simp
  have hl := overwrite_length st [0x72, 0x62, UInt8.ofNat t.val, 0x01] (by simp; omega)
  generalize overwrite st [0x72, 0x62, UInt8.ofNat t.val, 0x01] = data at hd hl
  obtain ⟨hc, hg, hd2⟩ := drop_cons_get (show data.drop st.cursor = 0x72 :: _ from hd)
  have hr : Reads u8Parse (some t) ([0x62, UInt8.ofNat t.val]) 1 := by
    have := reads_uint (size := 1) (by decide) (by decide) (some t) (by rintro _ ⟨⟩; exact ht)
    rw [show enc (opt (uintTerm 1) (some t)) = [0x62, UInt8.ofNat t.val] by
      simp only [opt, enc, uintTerm, hb, List.length_cons, List.length_nil, Nat.zero_add]; rw [show encHeader 6 1 = [0x62] by decide]; rfl] at this
    exact this
  simp only
  unfold timeParse optional
  rw [run_bind, run_notSkipped (st := { st with data := data }) (show data.drop st.cursor = 0x72 :: _ from hd) (by decide)]
  run
  rw [if_neg (by decide), run_getCurrentByte (by simpa using hc), Res.andThen_ok]
  simp only [hg]
  rw [if_neg (by decide)]
  unfold expectList
  rw [run_bind, reads_type (st := { st with data := data, live := st.live + 1 }) (hdr := [0x72]) (ty := 7) (by simp) (by decide) hd]
  run
  rw [if_neg (by decide), getNextLength_spec (st := { st with data := data, live := st.live + 1 }) (hdr := [0x72]) ⟨[], 0x72, rfl, by simp, by decide⟩ hd (by decide) (by decide)]
  run
  rw [if_neg (by decide)]
  unfold field
  rw [run_bind, hr { st with data := data, cursor := st.cursor + [(0x72 : UInt8)].length, live := st.live + 1 } _ hd2 (by simp) he]
  run
  rw [if_neg (by simp [he])]
  have hd3 := drop_add (a := [0x62, UInt8.ofNat t.val]) hd2
  unfold timeParseData
  rw [run_bind, reads_type (st := { st with data := data, cursor := st.cursor + [(0x72 : UInt8)].length + [0x62, UInt8.ofNat t.val].length, live := st.live + 1 + 1 }) (hdr := [0x01]) (ty := 0) (by simp) (by decide) hd3]
  run
  rw [if_neg (by decide), if_neg (by decide), run_release (by simp [timeFreed, numberFreed]), Res.andThen_ok]
  simp [timeFreed, numberFreed, run_pure]

example : ∃ st', timeWrite (some { tag := some ⟨1, 2⟩, data := none }) { data := List.replicate 5 0 } = .ok () st' ∧ st'.cursor = 0 + 4 ∧
    timeParse { st' with cursor := 0 } = .ok none { st' with cursor := 0 + 3 } :=
  c25_time_without_timestamp ⟨1, 2⟩ ⟨Nat.le_refl _, fun _ => ⟨rfl, by decide⟩⟩ { data := List.replicate 5 0 } rfl (by decide) (fun p hp => by
    have : p.1 = 0 := by
      have := (List.of_mem_zip hp).1
      exact (List.mem_replicate.1 (List.drop_zero ▸ this)).2
    rw [this]; exact UInt8.zero_or)

end Sml
