import Verif.Proofs.EmitsPrim
import Verif.Proofs.Content

/-!
# What the parsers make of an encoding
-/

namespace Sml

open Spec

/-- On input `bs` followed by at least one more byte, `p` consumes exactly `bs`, allocates `n` blocks
and returns `v`. -/
def Reads (p : M α) (v : α) (bs : List UInt8) (n : Nat) : Prop :=
  ∀ st rest, st.data.drop st.cursor = bs ++ rest → rest ≠ [] → st.error = false →
    p st = .ok v { st with cursor := st.cursor + bs.length, live := st.live + n }

theorem drop_add {l a b : List UInt8} {n : Nat} (h : l.drop n = a ++ b) : l.drop (n + a.length) = b := by
  rw [← List.drop_drop, h, List.drop_left]

theorem reads_pure (v : α) : Reads (pure v) v [] 0 := by
  intro st rest _ _ _
  rfl

theorem reads_alloc {k : M β} {r : β} {bs : List UInt8} {n m : Nat} (h : Reads k r bs m) :
    Reads (do alloc n; k) r bs (n + m) := by
  intro st rest hd hr he
  rw [run_bind, run_alloc, Res.andThen_ok, h { st with live := st.live + n } rest hd hr he]
  simp [Nat.add_assoc]

theorem reads_bind {p : M α} {k : α → M β} {v : α} {r : β} {bs bs' : List UInt8} {n n' : Nat} (hp : Reads p v bs n)
    (hk : Reads (k v) r bs' n') : Reads (p >>= k) r (bs ++ bs') (n + n') := by
  intro st rest hd hr he
  rw [List.append_assoc] at hd
  rw [run_bind, hp st _ hd (by simp [hr]) he, Res.andThen_ok, hk { st with cursor := st.cursor + bs.length, live := st.live + n } rest (drop_add hd) hr he]
  simp [Nat.add_assoc]

theorem reads_field {p : M α} {set : α → R} {freed : R → Nat} {k : R → M (Option β)} {v : α} {r : Option β}
    {bs bs' : List UInt8} {n n' : Nat} (hp : Reads p v bs n) (hk : Reads (k (set v)) r bs' n') :
    Reads (field p set freed k) r (bs ++ bs') (n + n') := by
  intro st rest hd hr he
  rw [List.append_assoc] at hd
  unfold field
  rw [run_bind, hp st _ hd (by simp [hr]) he]
  run
  have hf : ¬ st.error = true := by simp [he]
  rw [if_neg hf, hk { st with cursor := st.cursor + bs.length, live := st.live + n } rest (drop_add hd) hr he]
  simp [Nat.add_assoc]

theorem reads_field_end {p : M α} {set : α → R} {freed : R → Nat} {k : R → M (Option β)} {v : α} {r : Option β}
    {bs : List UInt8} {n : Nat} (hp : Reads p v bs n) (hk : k (set v) = pure r) :
    Reads (field p set freed k) r (bs ++ []) n := by
  refine reads_field (n' := 0) hp ?_
  rw [hk]
  exact reads_pure _

/-- The type of the element at the cursor. -/
theorem reads_type {hdr rest : List UInt8} {st : St} {ty : Nat} (h : hdr ≠ []) (ht : headerType hdr = ty)
    (hd : st.data.drop st.cursor = hdr ++ rest) : getNextType st = .ok (ty * 16) st := by
  cases hdr with
  | nil => exact absurd rfl h
  | cons b bs =>
    obtain ⟨h1, h2, _⟩ := drop_cons_get hd
    rw [run_getNextType h1, type_bits, h2]
    simp [← ht, headerType]

theorem encHeader_ne (ty n : Nat) : encHeader ty n ≠ [] := by
  intro h
  have h1 := encHeader_length ty n
  have h2 := (headerSize_spec ty n).1
  rw [h] at h1
  simp at h1; omega

theorem headerSize_le {ty n k : Nat} (hk : 1 ≤ k) (h : spelled ty n k < 16 ^ k) : headerSize ty n ≤ k := by
  obtain ⟨_, _, h3⟩ := headerSize_spec ty n
  exact Nat.le_of_not_lt fun hlt => h3 k hk hlt h

/-- A header made by the encoder yields the length it was made for. -/
theorem reads_length {ty n : Nat} {st : St} {rest : List UInt8} (hty : ty < 8) (hn : n + 1 < 16 ^ 6)
    (hd : st.data.drop st.cursor = encHeader ty n ++ rest) :
    getNextLength st = .ok (n : Int) { st with cursor := st.cursor + (encHeader ty n).length } := by
  have h7 : headerSize ty n ≤ 7 := headerSize_le (by decide) (by unfold spelled; split <;> omega)
  rw [getNextLength_spec (encHeader_isHeader hty) hd, encHeader_headerLength hty]
  · rw [encHeader_value]
    unfold spelled
    split <;> omega
  · rw [encHeader_length]; omega

theorem encHeader_list {n : Nat} (h : n < 16) : encHeader 7 n = [UInt8.ofNat (0x70 + n)] := by
  rw [encHeader_short (by simpa [spelled] using h)]
  simp [spelled]

/-- Any length fits when there are few elements. -/
theorem small_len {n : Nat} (h : n < 16) : n + 1 < 16 ^ 6 := Nat.lt_of_le_of_lt (show n + 1 ≤ 16 by omega) (by decide)

theorem reads_expectList {n own : Nat} {k : M (Option α)} {r : Option α} {bs : List UInt8} {m : Nat} (hn : n < 16)
    (hk : Reads k r bs m) : Reads (expectList n own k) r (encHeader 7 n ++ bs) m := by
  intro st rest hd hr he
  rw [List.append_assoc] at hd
  unfold expectList
  rw [run_bind, reads_type (encHeader_ne _ _) (encHeader_type (by decide)) hd]
  run
  rw [if_neg (by simp), reads_length (by decide) (small_len hn) hd]
  run
  rw [if_neg (by simp), hk { st with cursor := st.cursor + (encHeader 7 n).length } rest (drop_add hd) hr he]
  simp [Nat.add_assoc]

/-- An object that is a list of fields. -/
theorem reads_node {n own m : Nat} {k : M (Option α)} {r : Option α} {ts : List Term} (hl : ts.length = n) (hn : n < 16)
    (hk : Reads k r (encAll ts) m) : Reads (do alloc 1; expectList n own k) r (enc (.list ts)) (1 + m) := by
  subst hl
  exact reads_alloc (reads_expectList hn hk)

theorem reads_optional_none {p : M (Option α)} : Reads (optional p) none (enc .absent) 0 := by
  intro st rest hd _ _
  obtain ⟨h1, h2, _⟩ := drop_cons_get (show st.data.drop st.cursor = 1 :: rest by simpa [enc] using hd)
  unfold optional
  rw [run_bind, run_optionalIsSkipped h1, h2]
  rfl

theorem run_notSkipped {st : St} {b : UInt8} {bs : List UInt8} (h : st.data.drop st.cursor = b :: bs) (hb : b ≠ 1) :
    optionalIsSkipped st = .ok false st := by
  obtain ⟨h1, h2, _⟩ := drop_cons_get h
  rw [run_optionalIsSkipped h1, h2, if_neg hb]

theorem reads_optional_some {p : M (Option α)} {v : Option α} {b : UInt8} {bs : List UInt8} {n : Nat} (hb : b ≠ 1)
    (h : Reads p v (b :: bs) n) : Reads (optional p) v (b :: bs) n := by
  intro st rest hd hr he
  unfold optional
  rw [run_bind, run_notSkipped hd hb]
  run
  exact h st rest hd hr he

/-- The first byte of an encoding that is not absent. -/
theorem encHeader_first {ty n : Nat} (hty : ty < 8) (h : ty ≠ 0 ∨ 0 < n) : ∃ b bs, encHeader ty n = b :: bs ∧ b ≠ 1 := by
  cases hh : encHeader ty n with
  | nil => exact absurd hh (encHeader_ne _ _)
  | cons b bs =>
    refine ⟨b, bs, rfl, ?_⟩
    rintro rfl
    have h1 := encHeader_type (n := n) hty
    have h2 : IsHeader (encHeader ty n) := encHeader_isHeader hty
    have h3 := encHeader_headerLength (n := n) hty
    rw [hh] at h1 h2 h3
    have h4 : bs = [] := by
      obtain ⟨more, last, he, hm, _⟩ := h2
      cases more with
      | nil => simp at he; exact he.2
      | cons x more =>
        simp at he
        have := hm x (by simp)
        rw [← he.1] at this
        simp at this
    subst h4
    have h0 : ty = 0 := by rw [← h1]; rfl
    have hn : n = 0 := by
      have h5 : headerLength [1] = 0 := by decide
      rw [h5] at h3
      omega
    omega

/-- Optional objects that are lists of fields. -/
theorem reads_opt_list {p : M (Option α)} {f : α → Term} {ts : α → List Term} {blk : α → Nat} {P : α → Prop}
    (hf : ∀ a, f a = .list (ts a)) (hp : ∀ a, P a → Reads p (some a) (enc (f a)) (blk a)) (o : Option α) (h : Opt P o) :
    Reads (optional p) o (enc (opt f o)) (own blk o) := by
  cases o with
  | none => exact reads_optional_none
  | some a =>
    have := hp a (h a rfl)
    simp only [opt, own]
    rw [hf, enc] at this ⊢
    obtain ⟨b, bs, hb, hne⟩ := encHeader_first (ty := 7) (n := (ts a).length) (by decide) (Or.inl (by decide))
    rw [hb] at this ⊢
    exact reads_optional_some hne this

/-! ## Numbers -/

theorem number_bigEndian (n v : Nat) (h : v < 256 ^ n) : beNat (bigEndian n v) = v := by
  have hg : ∀ n v a, (bigEndian n v).foldl (fun a b => a * 256 + b.toNat) a = a * 256 ^ n + v % 256 ^ n := by
    intro n v
    induction n with
    | zero => intro a; simp [bigEndian]; omega
    | succ n ih =>
      intro a
      rw [← beBytes_bigEndian, beBytes, beBytes_bigEndian, List.foldl_cons, ih, UInt8.toNat_ofNat']
      have : (v / 256 ^ n) % 2 ^ 8 = v / 256 ^ n % 256 := by rfl
      rw [this, Nat.add_mul, Nat.pow_succ, Nat.mod_mul, Nat.mul_assoc, Nat.mul_comm 256 (256 ^ n), Nat.mul_comm (v / 256 ^ n % 256)]
      omega
  unfold beNat
  rw [hg, Nat.mod_eq_of_lt h]
  simp

theorem reads_number_some {ty size : Nat} (hty : ty = 5 ∨ ty = 6) {n : Num} (h0 : 0 < size) (h15 : size < 15)
    (hn : NumOk true size n) : Reads (numberParse (ty * 16) size) (some n) (encHeader ty size ++ bigEndian size n.val) 1 := by
  intro st rest hd hr he
  have hty8 : ty < 8 := by omega
  rw [List.append_assoc] at hd
  obtain ⟨b, bs, hb, hne⟩ := encHeader_first (n := size) hty8 (Or.inl (by omega))
  have hlen : st.data.length = st.cursor + (encHeader ty size).length + size + rest.length := by
    have h1 : (st.data.drop st.cursor).length = _ := congrArg List.length hd
    simp [bigEndian_length] at h1
    have : rest.length ≠ 0 := by simp [hr]
    omega
  have hrl : 0 < rest.length := List.length_pos_iff.2 hr
  have hd2 := drop_add hd
  have hd3 : (st.data.drop (st.cursor + (encHeader ty size).length)).take size = bigEndian size n.val := by
    rw [hd2]
    have := List.take_left' (l₂ := rest) (bigEndian_length size n.val)
    exact this
  unfold numberParse
  have hskip : optionalIsSkipped st = .ok false st := by
    have hd' := hd
    rw [hb] at hd'
    exact run_notSkipped hd' hne
  rw [run_bind, hskip]
  run
  simp only [Bool.false_eq_true, if_false]
  rw [if_neg (by omega), reads_type (encHeader_ne _ _) (encHeader_type hty8) hd]
  run
  rw [if_neg (by simp), reads_length hty8 (small_len (by omega)) hd]
  run
  rw [if_neg (by omega)]
  simp only [Int.toNat_natCast]
  rw [if_neg (by omega), if_neg (by omega), run_getCurrentByte (by simp only; omega)]
  run
  rw [run_readBytes (by simp only; omega)]
  run
  simp only [Nat.sub_self, List.replicate_zero, List.nil_append, hd3]
  rw [number_bigEndian _ _ (hn.2 rfl).2]
  obtain ⟨sz, v⟩ := n
  have := (hn.2 rfl).1
  simp only at this
  subst this
  simp [bigEndian_length, Nat.add_assoc]

theorem reads_number_none {ty size : Nat} : Reads (numberParse ty size) none (enc .absent) 0 := by
  intro st rest hd _ _
  obtain ⟨h1, h2, _⟩ := drop_cons_get (show st.data.drop st.cursor = 1 :: rest by simpa [enc] using hd)
  unfold numberParse
  rw [run_bind, run_optionalIsSkipped h1, h2]
  rfl

theorem reads_uint {size : Nat} (h0 : 0 < size) (h15 : size < 15) (o : Option Num) (h : Opt (NumOk true size) o) :
    Reads (numberParse tyUnsigned size) o (enc (opt (uintTerm size) o)) (own Num.blocks o) := by
  cases o with
  | none => exact reads_number_none
  | some n =>
    have := reads_number_some (ty := 6) (Or.inr rfl) h0 h15 (h n rfl)
    simpa [opt, uintTerm, enc, bigEndian_length, own, Num.blocks] using this

theorem reads_int {size : Nat} (h0 : 0 < size) (h15 : size < 15) (o : Option Num) (h : Opt (NumOk true size) o) :
    Reads (numberParse tyInteger size) o (enc (opt (intTerm size) o)) (own Num.blocks o) := by
  cases o with
  | none => exact reads_number_none
  | some n =>
    have := reads_number_some (ty := 5) (Or.inl rfl) h0 h15 (h n rfl)
    simpa [opt, intTerm, enc, bigEndian_length, own, Num.blocks] using this

/-! ## Strings and booleans -/

theorem reads_octetString (o : Option OctetString) (h : Opt (StrOk true) o) :
    Reads octetStringParse o (enc (opt strTerm o)) (own OctetString.blocks o) := by
  cases o with
  | none =>
    intro st rest hd _ _
    obtain ⟨h1, h2, _⟩ := drop_cons_get (show st.data.drop st.cursor = 1 :: rest by simpa [enc, opt] using hd)
    unfold octetStringParse
    rw [run_bind, run_optionalIsSkipped h1, h2]
    rfl
  | some s =>
    obtain ⟨hne, _, hlen⟩ := h s rfl
    obtain ⟨str⟩ := s
    replace hne : str ≠ [] := hne rfl
    simp only at hlen
    have hpos : 0 < str.length := List.length_pos_iff.2 hne
    intro st rest hd hr he
    simp only [opt, strTerm, enc] at hd ⊢
    rw [List.append_assoc] at hd
    obtain ⟨b, bs, hb, hb1⟩ := encHeader_first (ty := 0) (n := str.length) (by decide) (Or.inr hpos)
    have hskip : optionalIsSkipped st = .ok false st := by
      have hd' := hd
      rw [hb] at hd'
      exact run_notSkipped hd' hb1
    have hrl : 0 < rest.length := List.length_pos_iff.2 hr
    have hl : st.data.length = st.cursor + (encHeader 0 str.length).length + str.length + rest.length := by
      have h1 : (st.data.drop st.cursor).length = _ := congrArg List.length hd
      simp at h1
      omega
    have hd2 := drop_add hd
    have hd3 : (st.data.drop (st.cursor + (encHeader 0 str.length).length)).take str.length = str := by
      rw [hd2, List.take_left]
    unfold octetStringParse
    rw [run_bind, hskip]
    run
    simp only [Bool.false_eq_true, if_false]
    rw [reads_type (encHeader_ne _ _) (encHeader_type (by decide)) hd]
    run
    rw [if_neg (by simp), reads_length (by decide) hlen hd]
    run
    rw [if_neg (by omega)]
    simp only [Int.toNat_natCast]
    rw [run_readBytes (by simp only; omega)]
    unfold octetStringInit
    run
    rw [hd3, if_pos hpos]
    run
    simp [own, OctetString.blocks, hne, Nat.add_assoc]

theorem reads_boolean (o : Option UInt8) (h : Opt (BoolOk true) o) :
    Reads booleanParse o (enc (opt boolTerm o)) (own boolBlocks o) := by
  cases o with
  | none =>
    intro st rest hd _ _
    obtain ⟨h1, h2, _⟩ := drop_cons_get (show st.data.drop st.cursor = 1 :: rest by simpa [enc, opt] using hd)
    unfold booleanParse
    rw [run_bind, run_optionalIsSkipped h1, h2]
    rfl
  | some b =>
    have hb : b = 0x00 ∨ b = 0xFF := h b rfl rfl
    intro st rest hd hr he
    simp only [opt, boolTerm, enc] at hd ⊢
    rw [List.append_assoc] at hd
    obtain ⟨b', bs, hb', hb1⟩ := encHeader_first (ty := 4) (n := 1) (by decide) (Or.inr (by decide))
    have hskip : optionalIsSkipped st = .ok false st := by
      have hd' := hd
      rw [hb'] at hd'
      exact run_notSkipped hd' hb1
    have hl : st.data.length = st.cursor + (encHeader 4 1).length + 1 + rest.length := by
      have h1 : (st.data.drop st.cursor).length = _ := congrArg List.length hd
      simp at h1
      omega
    have hd2 := drop_add hd
    obtain ⟨hc, hg, _⟩ := drop_cons_get hd2
    unfold booleanParse
    rw [run_bind, hskip]
    run
    simp only [Bool.false_eq_true, if_false]
    rw [reads_type (encHeader_ne _ _) (encHeader_type (by decide)) hd]
    run
    rw [if_neg (by simp), reads_length (by decide) (by decide) hd]
    run
    rw [if_neg (by simp), if_neg (by omega), run_getCurrentByte hc, hg]
    run
    rcases hb with rfl | rfl <;> simp [own, boolBlocks, Nat.add_assoc]

/-! ## Values, status words, times -/

theorem growMax_size {k : Nat} (hk : k ∈ sizes) (ty : Nat) (hty : ty = 5 ∨ ty = 6) :
    growMax 4 1 (UInt8.ofNat (16 * ty + (k + 1))) = k := by
  simp only [sizes, List.mem_cons, List.not_mem_nil, or_false] at hk
  rcases hk with rfl | rfl | rfl | rfl <;> rcases hty with rfl | rfl <;> decide +kernel

/-- The common part of values and status words: the pointer is found by a parser for what is there. -/
theorem reads_value (o : Option Value) (h : Opt (ValOk true) o) :
    Reads valueParse o (enc (opt valueTerm o)) (own Value.blocks o) := by
  cases o with
  | none =>
    intro st rest hd _ _
    obtain ⟨h1, h2, _⟩ := drop_cons_get (show st.data.drop st.cursor = 1 :: rest by simpa [enc, opt] using hd)
    unfold valueParse
    rw [run_bind, run_optionalIsSkipped h1, h2]
    rfl
  | some v =>
    replace h := h v rfl
    obtain ⟨ty, d⟩ := v
    intro st rest hd hr he
    simp only [opt, own, Value.blocks] at hd ⊢
    have hf : ¬ st.error = true := by simp [he]
    unfold ValOk at h
    unfold valueTerm at hd ⊢
    unfold valueParse
    cases d with
    | bytes p =>
      obtain ⟨rfl, hp, hs⟩ := h
      obtain ⟨s, rfl⟩ := Option.isSome_iff_exists.1 (hs rfl)
      have hs0 : 0 < s.str.length := List.length_pos_iff.2 ((hp s rfl).1 rfl)
      have hread := reads_octetString (some s) hp
      simp only [opt, strTerm] at hd hread ⊢
      have hd' := hd
      rw [enc, List.append_assoc] at hd'
      obtain ⟨b, bs, hb, hb1⟩ := encHeader_first (ty := 0) (n := s.str.length) (by decide) (Or.inr hs0)
      have hd'' := hd'
      rw [hb] at hd''
      obtain ⟨hc, _, _⟩ := drop_cons_get hd''
      rw [run_bind, run_notSkipped hd'' hb1]
      run
      simp only [Bool.false_eq_true, if_false]
      rw [reads_type (encHeader_ne _ _) (encHeader_type (by decide)) hd', Res.andThen_ok, run_bind, run_getCurrentByte hc]
      run
      rw [if_pos (by simp), hread { st with live := st.live + 1 } rest hd hr he]
      run
      rw [if_neg hf]
      simp [VData.blocks, own, Nat.add_assoc]
    | boolean p =>
      obtain ⟨rfl, hp, hs⟩ := h
      obtain ⟨s, rfl⟩ := Option.isSome_iff_exists.1 (hs rfl)
      have hread := reads_boolean (some s) hp
      simp only [opt, boolTerm] at hd hread ⊢
      have hd' := hd
      rw [enc, List.append_assoc] at hd'
      obtain ⟨b, bs, hb, hb1⟩ := encHeader_first (ty := 4) (n := 1) (by decide) (Or.inr (by decide))
      have hd'' := hd'
      rw [hb] at hd''
      obtain ⟨hc, _, _⟩ := drop_cons_get hd''
      rw [run_bind, run_notSkipped hd'' hb1]
      run
      simp only [Bool.false_eq_true, if_false]
      rw [reads_type (encHeader_ne _ _) (encHeader_type (by decide)) hd', Res.andThen_ok, run_bind, run_getCurrentByte hc]
      run
      rw [if_neg (by decide), if_pos (by decide), hread { st with live := st.live + 1 } rest hd hr he]
      run
      rw [if_neg hf]
      simp [VData.blocks, own, Nat.add_assoc]
    | num p =>
      obtain ⟨k, hk, hty, hp, hs⟩ := h
      obtain ⟨n, rfl⟩ := Option.isSome_iff_exists.1 (hs rfl)
      obtain ⟨hk0, hk15⟩ := sizes_bounds hk
      obtain ⟨_, _, _, _, a5, a6, a7, a8, a9, a10⟩ := sizes_type hk
      simp only at hty
      have key : ∀ t, t = 5 ∨ t = 6 → (t * 16 ||| k) = ty → st.data.drop st.cursor = encHeader t k ++ bigEndian k n.val ++ rest →
          (valueParse st) = .ok (some { type := ty, data := .num (some n) })
            { st with cursor := st.cursor + (encHeader t k ++ bigEndian k n.val).length, live := st.live + (1 + 1) } := by
        intro t ht hor hd
        have ht8 : t < 8 := by omega
        have hread := reads_number_some ht hk0 hk15 (hp n rfl)
        have hd' := hd
        rw [List.append_assoc] at hd'
        have hsh : encHeader t k = [UInt8.ofNat (16 * t + (k + 1))] := by
          have ht7 : t ≠ 7 := by omega
          rw [encHeader_short (by simp [spelled, ht7]; omega)]
          simp [spelled, ht7]
        obtain ⟨b, bs, hb, hb1⟩ := encHeader_first (ty := t) (n := k) ht8 (Or.inl (by omega))
        have hd'' := hd'
        rw [hsh] at hd'' hb
        have hbb : UInt8.ofNat (16 * t + (k + 1)) = b := by cases hb; rfl
        obtain ⟨hc, hg, _⟩ := drop_cons_get hd''
        unfold valueParse
        rw [run_bind, run_notSkipped hd'' (hbb ▸ hb1)]
        run
        simp only [Bool.false_eq_true, if_false]
        rw [reads_type (encHeader_ne _ _) (encHeader_type ht8) hd', Res.andThen_ok, run_bind, run_getCurrentByte hc, hg]
        run
        have c1 : ¬ t * 16 = tyOctet := by simp only [tyOctet]; omega
        have c2 : ¬ t * 16 = tyBoolean := by simp only [tyBoolean]; omega
        have c3 : t * 16 = tyUnsigned ∨ t * 16 = tyInteger := by simp only [tyUnsigned, tyInteger]; omega
        rw [if_neg c1, if_neg c2, if_pos c3, growMax_size hk t ht, hread { st with live := st.live + 1 } rest hd hr he]
        run
        rw [if_neg hf, hor]
      rcases hty with rfl | rfl
      · simp only [a5, a7, if_true, opt, intTerm, enc, bigEndian_length] at hd ⊢
        exact key 5 (Or.inl rfl) a9 hd
      · have : ¬ (6 : Nat) = 5 := by decide
        simp only [a6, a8, this, if_false, opt, uintTerm, enc, bigEndian_length] at hd ⊢
        exact key 6 (Or.inr rfl) a10 hd

theorem reads_status (o : Option Status) (h : Opt (StatusOk true) o) :
    Reads statusParse o (enc (opt statusTerm o)) (own Status.blocks o) := by
  cases o with
  | none =>
    intro st rest hd _ _
    obtain ⟨h1, h2, _⟩ := drop_cons_get (show st.data.drop st.cursor = 1 :: rest by simpa [enc, opt] using hd)
    unfold statusParse
    rw [run_bind, run_optionalIsSkipped h1, h2]
    rfl
  | some v =>
    replace h := h v rfl
    obtain ⟨ty, d⟩ := v
    intro st rest hd hr he
    obtain ⟨k, hk, hty, hp, hs⟩ := h
    obtain ⟨n, hnum⟩ := Option.isSome_iff_exists.1 (hs rfl)
    simp only at hty hnum hp
    subst hty hnum
    obtain ⟨hk0, hk15⟩ := sizes_bounds hk
    obtain ⟨_, _, _, _, _, a6, _, a8, _, a10⟩ := sizes_type hk
    have hf : ¬ st.error = true := by simp [he]
    simp only [opt, own, Status.blocks, statusTerm, a8, uintTerm, enc, bigEndian_length] at hd ⊢
    have hread := reads_number_some (ty := 6) (Or.inr rfl) hk0 hk15 (hp n rfl)
    have hd' := hd
    rw [List.append_assoc] at hd'
    have hsh : encHeader 6 k = [UInt8.ofNat (16 * 6 + (k + 1))] := by
      rw [encHeader_short (by simp [spelled]; omega)]
      simp [spelled]
    obtain ⟨b, bs, hb, hb1⟩ := encHeader_first (ty := 6) (n := k) (by decide) (Or.inl (by decide))
    have hd'' := hd'
    rw [hsh] at hd'' hb
    have hbb : UInt8.ofNat (16 * 6 + (k + 1)) = b := by cases hb; rfl
    obtain ⟨hc, hg, _⟩ := drop_cons_get hd''
    unfold statusParse
    rw [run_bind, run_notSkipped hd'' (hbb ▸ hb1)]
    run
    simp only [Bool.false_eq_true, if_false]
    rw [reads_type (encHeader_ne _ _) (encHeader_type (by decide)) hd', Res.andThen_ok, run_bind, run_getCurrentByte hc, hg]
    run
    rw [if_pos (by decide), growMax_size hk 6 (Or.inr rfl), hread { st with live := st.live + 1 } rest hd hr he]
    run
    rw [if_neg hf]
    have : 6 * 16 ||| k = 96 + k := a10
    rw [this]
    simp [Nat.add_assoc, Num.blocks]

theorem reads_time (o : Option Time) (h : Opt (TimeOk true) o) :
    Reads timeParse o (enc (opt timeTerm o)) (own Time.blocks o) := by
  unfold timeParse
  refine reads_opt_list (P := TimeOk true) (ts := fun t => [opt (uintTerm 1) t.tag, opt (uintTerm 4) t.data]) (fun a => rfl) ?_ o h
  rintro ⟨tag, data⟩ ⟨h1, h2, h3⟩
  obtain ⟨h3, h4⟩ := h3 rfl
  obtain ⟨t, ht⟩ := Option.isSome_iff_exists.1 h3
  obtain ⟨d, hd⟩ := Option.isSome_iff_exists.1 h4
  simp only at ht hd h1 h2
  subst ht hd
  unfold Time.blocks
  rw [Nat.add_assoc]
  refine reads_alloc ?_
  have hbody : ∀ own, Reads (expectList 2 own (field u8Parse (fun v => ({ tag := v, data := none } : Time)) (fun t => timeFreed (some t))
      fun tme => timeParseData tme.tag)) (some ⟨some t, some d⟩) (enc (.list [opt (uintTerm 1) (some t), opt (uintTerm 4) (some d)]))
      (Num.blocks t + Num.blocks d) := by
    intro own
    refine reads_expectList (n := 2) (by decide) ?_
    refine reads_field (reads_uint (size := 1) (by decide) (by decide) (some t) h1) ?_
    have hu32 := reads_uint (size := 4) (by decide) (by decide) (some d) h2
    intro st rest hdr hr he
    have hdr' : st.data.drop st.cursor = encHeader 6 4 ++ (bigEndian 4 d.val ++ rest) := by
      rw [hdr]; simp [opt, uintTerm, enc, encAll, bigEndian_length]
    unfold timeParseData
    run
    rw [reads_type (encHeader_ne _ _) (encHeader_type (by decide)) hdr']
    run
    rw [if_pos (by decide)]
    exact reads_field_end hu32 rfl st rest hdr hr he
  intro st rest hd hr he
  have hb : st.data.drop st.cursor = 0x72 :: (encAll [opt (uintTerm 1) (some t), opt (uintTerm 4) (some d)] ++ rest) := by
    rw [hd, enc]
    have : encHeader 7 [opt (uintTerm 1) (some t), opt (uintTerm 4) (some d)].length = [0x72] := encHeader_list (n := 2) (by decide)
    rw [this]
    rfl
  obtain ⟨hc, hg, _⟩ := drop_cons_get hb
  rw [run_bind, run_getCurrentByte hc, hg]
  run
  rw [if_neg (by decide)]
  exact hbody _ st rest hd hr he

end Sml
