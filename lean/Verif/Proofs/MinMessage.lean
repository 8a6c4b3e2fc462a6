import Verif.Proofs.MessageInv

/-!
# No accepted message is shorter than nine bytes
-/

namespace Sml

set_option linter.unusedSimpArgs false

/-! ## Inversion of the small parsers -/

theorem getNextLength_inv {st s : St} {r : Int} (hc : st.cursor ≤ st.data.length)
    (h : getNextLength st = .ok r s) (he : s.error = false) :
    ∃ hdr rest o, st.data.drop st.cursor = hdr ++ rest ∧ Spec.IsHeader hdr ∧
      r = wrap32 (toI32 (lenAcc 0 hdr) + (if Spec.headerType hdr = 7 then 0 else - (hdr.length : Int))) ∧
      s = { st with cursor := st.cursor + hdr.length, sovf := o } ∧
      (Spec.headerValue hdr < 2147483648 → hdr.length ≤ 2147483648 → r = Spec.headerLength hdr) := by
  rcases header_or_cut (st.data.drop st.cursor) with ⟨hdr, rest, hd, hh⟩ | hcut
  · obtain ⟨o, h1, _⟩ := getNextLength_run hh hd
    rw [h1] at h
    cases h
    refine ⟨hdr, rest, o, hd, hh, rfl, rfl, fun hv hl => ?_⟩
    have := getNextLength_spec hh hd hv hl
    rw [h1] at this
    injection this
  · obtain ⟨o, h1⟩ := getNextLength_cut hc hcut
    rw [h1] at h
    cases h
    simp at he

theorem expectList_inv {n : Int} {own : Nat} {k : M (Option α)} {st s : St} {a : α}
    (h : expectList n own k st = .ok (some a) s) :
    ∃ (hlt : st.cursor < st.data.length) (s0 : St), st.data[st.cursor].toNat &&& 0x70 = 0x70 ∧
      getNextLength st = .ok n s0 ∧ k s0 = .ok (some a) s := by
  have key : Wlp (expectList n own k) st fun a s => ∀ x, a = some x →
      ∃ (hlt : st.cursor < st.data.length) (s0 : St), st.data[st.cursor].toNat &&& 0x70 = 0x70 ∧
      getNextLength st = .ok n s0 ∧ k s0 = .ok (some x) s := by
    unfold expectList
    simp only [wlp_bind, wlp_ite, wlp_failWith]
    apply wlp_getNextType
    · intro _; exact ⟨fun _ _ => by simp, fun h => absurd (by decide) h⟩
    intro hlt
    refine ⟨fun _ _ => by simp, fun ht r s0 hr => ⟨fun _ _ => by simp, fun hn b s' hk x hx => ?_⟩⟩
    subst hx
    have hn : r = n := by simpa using hn
    subst hn
    exact ⟨hlt, s0, by simpa using ht, hr, hk⟩
  exact key _ _ h a rfl

/-- A number field that was read without error. -/
theorem number_inv {type max : Nat} {st s : St} {a : Option Num}
    (h : numberParse type max st = .ok a s) (he : s.error = false) :
    ∃ hlt : st.cursor < st.data.length,
      (st.data[st.cursor] = 1 ∧ a = none ∧ s = { st with cursor := st.cursor + 1 }) ∨
      (st.data[st.cursor] ≠ 1 ∧ st.data[st.cursor].toNat &&& 0x70 = type ∧
        ∃ (l : Nat) (s1 : St) (hl1 : s1.cursor < s1.data.length), getNextLength st = .ok (l : Int) s1 ∧ s1.error = false ∧ l ≤ max ∧
          s1.cursor + l ≤ s1.data.length ∧
          a = some { size := max, val := beNat (List.replicate (max - l)
            (if (decide (type = tyInteger) && decide (s1.data[s1.cursor] &&& 128 ≠ 0)) = true then 0xFF else 0x00) ++
            (s1.data.drop s1.cursor).take l) } ∧
          s = { s1 with cursor := s1.cursor + l, live := s1.live + 1 }) := by
  have key : Wlp (numberParse type max) st fun a s => s.error = false →
    ∃ hlt : st.cursor < st.data.length,
      (st.data[st.cursor] = 1 ∧ a = none ∧ s = { st with cursor := st.cursor + 1 }) ∨
      (st.data[st.cursor] ≠ 1 ∧ st.data[st.cursor].toNat &&& 0x70 = type ∧
        ∃ (l : Nat) (s1 : St) (hl1 : s1.cursor < s1.data.length), getNextLength st = .ok (l : Int) s1 ∧ s1.error = false ∧ l ≤ max ∧
          s1.cursor + l ≤ s1.data.length ∧
          a = some { size := max, val := beNat (List.replicate (max - l)
            (if (decide (type = tyInteger) && decide (s1.data[s1.cursor] &&& 128 ≠ 0)) = true then 0xFF else 0x00) ++
            (s1.data.drop s1.cursor).take l) } ∧
          s = { s1 with cursor := s1.cursor + l, live := s1.live + 1 }) := by
    unfold numberParse
    simp only [wlp_bind, wlp_ite, wlp_pure, wlp_failWith, wlp_getSt]
    apply wlp_skipped
    · intro h; simp
    · intro h h1
      exact ⟨fun _ _ => ⟨h, Or.inl ⟨h1, trivial, rfl⟩⟩, by simp⟩
    · intro h h1
      refine ⟨by simp, fun _ => ⟨fun _ _ => by simp, fun _ => ?_⟩⟩
      apply wlp_getNextType
      · intro h2; omega
      · intro h2
        refine ⟨fun _ _ => by simp, fun ht r s1 hr => ?_⟩
        simp only [wlp_alloc]
        refine ⟨fun _ _ => by simp, fun hr1 => ⟨fun _ _ => by simp, fun hr2 => ⟨fun _ _ => by simp, fun hr3 => ?_⟩⟩⟩
        simp only [wlp_readBytes, wlp_getCurrentByte, wlp_updateBytesRead]
        intro hlt hrange herr
        refine ⟨h, Or.inr ⟨h1, by simpa using ht, r.toNat, s1, hlt, ?_, herr, by omega, hrange, rfl, rfl⟩⟩
        rw [hr]; congr 1; omega
  exact key _ _ h he

/-- A string field that was read without error. -/
theorem octetString_inv {st s : St} {a : Option OctetString}
    (h : octetStringParse st = .ok a s) (he : s.error = false) :
    ∃ hlt : st.cursor < st.data.length,
      (st.data[st.cursor] = 1 ∧ a = none ∧ s = { st with cursor := st.cursor + 1 }) ∨
      (st.data[st.cursor] ≠ 1 ∧ st.data[st.cursor].toNat &&& 0x70 = 0 ∧
        ∃ (l : Nat) (s1 : St), getNextLength st = .ok (l : Int) s1 ∧ s1.error = false ∧
          s1.cursor + l < s1.data.length ∧
          a = some { str := (s1.data.drop s1.cursor).take l } ∧
          s = { s1 with cursor := s1.cursor + l, live := s1.live + if l = 0 then 1 else 2 }) := by
  have key : Wlp octetStringParse st fun a s => s.error = false →
    ∃ hlt : st.cursor < st.data.length,
      (st.data[st.cursor] = 1 ∧ a = none ∧ s = { st with cursor := st.cursor + 1 }) ∨
      (st.data[st.cursor] ≠ 1 ∧ st.data[st.cursor].toNat &&& 0x70 = 0 ∧
        ∃ (l : Nat) (s1 : St), getNextLength st = .ok (l : Int) s1 ∧ s1.error = false ∧
          s1.cursor + l < s1.data.length ∧
          a = some { str := (s1.data.drop s1.cursor).take l } ∧
          s = { s1 with cursor := s1.cursor + l, live := s1.live + if l = 0 then 1 else 2 }) := by
    unfold octetStringParse
    simp only [wlp_bind, wlp_ite, wlp_pure, wlp_failWith, wlp_getSt]
    apply wlp_skipped
    · intro h; simp
    · intro h h1
      exact ⟨fun _ _ => ⟨h, Or.inl ⟨h1, trivial, rfl⟩⟩, by simp⟩
    · intro h h1
      refine ⟨by simp, fun _ => ?_⟩
      apply wlp_getNextType
      · intro h2; omega
      · intro h2
        refine ⟨fun _ _ => by simp, fun ht r s1 hr => ?_⟩
        refine ⟨fun _ _ => by simp, fun hr1 => ?_⟩
        simp only [wlp_readBytes, wlp_bind, octetStringInit, wlp_alloc, wlp_ite, wlp_pure, wlp_updateBytesRead]
        intro hrange
        have hlen : ((s1.data.drop s1.cursor).take r.toNat).length = r.toNat := by simp; omega
        refine ⟨fun hpos herr => ?_, fun hz herr => ?_⟩
        · refine ⟨h, Or.inr ⟨h1, by simpa using ht, r.toNat, s1, ?_, herr, by omega, rfl, ?_⟩⟩
          · rw [hr]; congr 1; omega
          · rw [hlen] at hpos
            have : ¬ r.toNat = 0 := by omega
            simp [this]
        · rw [hlen] at hz
          have h0 : r.toNat = 0 := by omega
          refine ⟨h, Or.inr ⟨h1, by simpa using ht, 0, s1, ?_, herr, by omega, by simp, ?_⟩⟩
          · rw [hr]; congr 1; omega
          · simp [h0]
  exact key _ _ h he

theorem body_inv {depth : Nat} {st s : St} {a : Option MessageBody}
    (h : messageBodyParse depth st = .ok a s) (he : s.error = false) :
    ∃ (hlt : st.cursor < st.data.length) (s0 s1 : St) (t : Option Num),
      st.data[st.cursor].toNat &&& 0x70 = 0x70 ∧
      getNextLength { st with live := st.live + 1 } = .ok 2 s0 ∧
      u32Parse s0 = .ok t s1 ∧ s1.error = false ∧
      ((t = none ∧ a = none ∧ s = { s1 with live := s1.live - 1 }) ∨
       ∃ tt d, t = some tt ∧ bodyDataParse depth tt.val s1 = .ok d s ∧ a = some { tag := some tt, data := d }) := by
  have key : Wlp (messageBodyParse depth) st fun a s => s.error = false →
    ∃ (hlt : st.cursor < st.data.length) (s0 s1 : St) (t : Option Num),
      st.data[st.cursor].toNat &&& 0x70 = 0x70 ∧
      getNextLength { st with live := st.live + 1 } = .ok 2 s0 ∧
      u32Parse s0 = .ok t s1 ∧ s1.error = false ∧
      ((t = none ∧ a = none ∧ s = { s1 with live := s1.live - 1 }) ∨
       ∃ tt d, t = some tt ∧ bodyDataParse depth tt.val s1 = .ok d s ∧ a = some { tag := some tt, data := d }) := by
    unfold messageBodyParse expectList field
    simp only [wlp_bind, wlp_alloc, wlp_getSt, wlp_ite, wlp_failWith, wlp_hasErrors, wlp_release, wlp_pure]
    refine ⟨fun _ _ => by simp, fun hlt => ?_⟩
    apply wlp_getNextType
    · intro _; exact ⟨fun _ _ => by simp, fun h => absurd (by decide) h⟩
    intro hlt'
    refine ⟨fun _ _ => by simp, fun ht r s0 hr => ⟨fun _ _ => by simp, fun hn t s1 ht1 => ⟨fun herr _ h => absurd herr (by simp [h]), fun herr => ?_⟩⟩⟩
    have hn : r = 2 := by simpa using hn
    subst hn
    cases t with
    | none =>
      simp only [wlp_bind, wlp_release, wlp_pure]
      intro _ _
      exact ⟨hlt', s0, s1, none, by simpa using ht, hr, ht1, by simpa using herr, Or.inl ⟨rfl, trivial, rfl⟩⟩
    | some tt =>
      simp only [wlp_bind, wlp_pure]
      intro d s hd _
      exact ⟨hlt', s0, s1, some tt, by simpa using ht, hr, ht1, by simpa using herr, Or.inr ⟨tt, d, rfl, hd, rfl⟩⟩
  exact key _ _ h he

/-! ## Short fields -/

theorem header_len1 {hdr : List UInt8} (hh : Spec.IsHeader hdr) (h1 : hdr.length = 1) :
    ∃ b, hdr = [b] ∧ b.toNat < 128 := by
  obtain ⟨more, last, rfl, _, hl⟩ := hh
  have : more = [] := List.eq_nil_of_length_eq_zero (by simpa using h1)
  subst this
  exact ⟨last, rfl, hl⟩

theorem header_len2 {hdr : List UInt8} (hh : Spec.IsHeader hdr) (h2 : hdr.length = 2) :
    ∃ b c, hdr = [b, c] ∧ 128 ≤ b.toNat ∧ c.toNat < 128 := by
  obtain ⟨more, last, rfl, hm, hl⟩ := hh
  have : more.length = 1 := by simpa using h2
  obtain ⟨b, rfl⟩ := List.length_eq_one_iff.1 this
  exact ⟨b, last, rfl, hm b (by simp), hl⟩

theorem header_pos {hdr : List UInt8} (hh : Spec.IsHeader hdr) : 0 < hdr.length := by
  obtain ⟨more, last, rfl, _, _⟩ := hh
  simp

/-- Type-length fields of at most two bytes for type `t` with length `n`. -/
def shortHdr (t n : Nat) : Nat → List (List UInt8)
  | 1 => [[UInt8.ofNat (16 * t + if t = 7 then n else n + 1)]]
  | 2 => (List.range 8).map fun j => [UInt8.ofNat (128 + 16 * t), UInt8.ofNat (16 * j + if t = 7 then n else n + 2)]
  | _ => []

/-- Numbers and strings of at most two bytes. -/
def shortField (t : Nat) : Nat → List (List UInt8)
  | 1 => [[1]] ++ shortHdr t 0 1
  | 2 => (List.range 256).map (fun j => [UInt8.ofNat (16 * t + 2), UInt8.ofNat j]) ++ shortHdr t 0 2
  | _ => []

theorem shortHdr_mem {hdr : List UInt8} {t n : Nat} (hh : Spec.IsHeader hdr) (ht : Spec.headerType hdr = t)
    (hn : n ≤ 6) (hl : hdr.length ≤ 2) (hv : Spec.headerLength hdr = n) : hdr ∈ shortHdr t n hdr.length := by
  have hp := header_pos hh
  have hv' : (Spec.headerValue hdr : Int) = n + if t = 7 then 0 else (hdr.length : Int) := by
    rw [Spec.headerLength, ht] at hv
    split at hv <;> simp_all <;> omega
  rcases (show hdr.length = 1 ∨ hdr.length = 2 by omega) with h | h
  · obtain ⟨b, rfl, hb⟩ := header_len1 hh h
    simp only [Spec.headerType, Spec.headerValue, List.foldl_cons, List.foldl_nil, List.length_cons, List.length_nil] at ht hv'
    simp only [List.length_cons, List.length_nil, shortHdr, List.mem_singleton, List.cons.injEq, and_true]
    apply UInt8.toNat.inj
    rw [UInt8.toNat_ofNat']
    split at hv' <;> split <;> omega
  · obtain ⟨b, c, rfl, hb, hc⟩ := header_len2 hh h
    have hb' := UInt8.toNat_lt b
    simp only [Spec.headerType, Spec.headerValue, List.foldl_cons, List.foldl_nil, List.length_cons, List.length_nil] at ht hv'
    simp only [List.length_cons, List.length_nil, shortHdr, List.mem_map, List.mem_range, List.cons.injEq, and_true]
    refine ⟨c.toNat / 16, by omega, ?_, ?_⟩
    · apply UInt8.toNat.inj
      rw [UInt8.toNat_ofNat']
      split at hv' <;> omega
    · apply UInt8.toNat.inj
      rw [UInt8.toNat_ofNat']
      split at hv' <;> split <;> omega

theorem headerValue_short {hdr : List UInt8} (h : hdr.length ≤ 2) : Spec.headerValue hdr < 256 := by
  match hdr, h with
  | [], _ => decide
  | [b], _ => simp only [Spec.headerValue, List.foldl_cons, List.foldl_nil]; omega
  | [b, c], _ => simp only [Spec.headerValue, List.foldl_cons, List.foldl_nil]; omega

theorem headerType_get {st : St} {hdr rest : List UInt8} (hh : Spec.IsHeader hdr)
    (hd : st.data.drop st.cursor = hdr ++ rest) (hlt : st.cursor < st.data.length) {t : Nat}
    (ht : st.data[st.cursor].toNat &&& 0x70 = 16 * t) : Spec.headerType hdr = t := by
  have := header_pos hh
  match hdr, hd with
  | [], _ => simp at this
  | b :: l, hd =>
    obtain ⟨_, hb, _⟩ := drop_cons_get hd
    rw [type_bits, hb] at ht
    simp only [Spec.headerType]
    omega

/-- A one- or two-byte field, header `hdr` and `l` bytes of content. -/
theorem short_mem {st : St} {hdr rest : List UInt8} {t l : Nat} (hh : Spec.IsHeader hdr)
    (hd : st.data.drop st.cursor = hdr ++ rest) (ht : Spec.headerType hdr = t) (h7 : t ≤ 6)
    (hk : hdr.length + l ≤ 2) (hv : Spec.headerLength hdr = l) (hr : st.cursor + hdr.length + l ≤ st.data.length) :
    (st.data.drop st.cursor).take (hdr.length + l) ∈ shortField t (hdr.length + l) := by
  have hp := header_pos hh
  have hm := shortHdr_mem hh ht (by omega) (by omega) hv
  rcases (show l = 0 ∨ l = 1 by omega) with rfl | rfl
  · have : (st.data.drop st.cursor).take (hdr.length + 0) = hdr := by rw [hd]; simp
    rw [this]
    rcases (show hdr.length = 1 ∨ hdr.length = 2 by omega) with h | h
    · rw [h] at hm ⊢; exact List.mem_append_right _ hm
    · rw [h] at hm ⊢; exact List.mem_append_right _ hm
  · have h1 : hdr.length = 1 := by omega
    rw [h1] at hm ⊢
    have h7' : ¬ t = 7 := by omega
    simp only [shortHdr, List.mem_singleton, h7', if_false] at hm
    subst hm
    have hlen : (st.data.drop st.cursor).length = rest.length + 1 := by rw [hd]; simp
    simp at hlen
    match rest, hd with
    | [], _ => simp at hlen; omega
    | y :: rest, hd =>
      rw [hd]
      apply List.mem_append_left
      simp only [List.mem_map, List.mem_range]
      exact ⟨y.toNat, UInt8.toNat_lt y, by simp⟩

theorem take_one {st : St} (hlt : st.cursor < st.data.length) :
    (st.data.drop st.cursor).take 1 = [st.data[st.cursor]] := by
  rw [List.drop_eq_getElem_cons hlt, List.take_succ_cons, List.take_zero]

theorem number_short {max : Nat} {st s : St} {a : Option Num} (h : numberParse 0x60 max st = .ok a s)
    (he : s.error = false) (hk : s.cursor ≤ st.cursor + 2) :
    (st.data.drop st.cursor).take (s.cursor - st.cursor) ∈ shortField 6 (s.cursor - st.cursor) := by
  obtain ⟨hlt, ⟨h1, _, rfl⟩ | ⟨h1, hty, l, s1, hl1, hn, he1, hl, hr, -, rfl⟩⟩ := number_inv h he
  · simp only [Nat.add_sub_cancel_left]
    rw [take_one hlt, h1]; decide
  · obtain ⟨hdr, rest, o, hd, hh, -, rfl, hlen⟩ := getNextLength_inv (by omega) hn he1
    simp only at hk hr
    have hp := header_pos hh
    have hv := hlen (by have := headerValue_short (hdr := hdr) (by omega); omega) (by omega)
    have := short_mem hh hd (headerType_get (t := 6) hh hd hlt hty) (by decide) (by omega) hv.symm hr
    simpa [Nat.add_assoc] using this

theorem octetString_short {st s : St} {a : Option OctetString} (h : octetStringParse st = .ok a s)
    (he : s.error = false) (hk : s.cursor ≤ st.cursor + 2) :
    (st.data.drop st.cursor).take (s.cursor - st.cursor) ∈ shortField 0 (s.cursor - st.cursor) := by
  obtain ⟨hlt, ⟨h1, _, rfl⟩ | ⟨h1, hty, l, s1, hn, he1, hr, -, rfl⟩⟩ := octetString_inv h he
  · simp only [Nat.add_sub_cancel_left]
    rw [take_one hlt, h1]; decide
  · obtain ⟨hdr, rest, o, hd, hh, -, rfl, hlen⟩ := getNextLength_inv (by omega) hn he1
    simp only at hk hr
    have hp := header_pos hh
    have hv := hlen (by have := headerValue_short (hdr := hdr) (by omega); omega) (by omega)
    have := short_mem hh hd (headerType_get (t := 0) hh hd hlt hty) (by decide) (by omega) hv.symm (by omega)
    simpa [Nat.add_assoc] using this

theorem list_short {n : Nat} {st s : St} (hlt : st.cursor < st.data.length)
    (hty : st.data[st.cursor].toNat &&& 0x70 = 0x70) (h : getNextLength st = .ok (n : Int) s)
    (he : s.error = false) (hn : n ≤ 6) (hk : s.cursor ≤ st.cursor + 2) :
    (st.data.drop st.cursor).take (s.cursor - st.cursor) ∈ shortHdr 7 n (s.cursor - st.cursor) := by
  obtain ⟨hdr, rest, o, hd, hh, -, rfl, hlen⟩ := getNextLength_inv (by omega) h he
  simp only at hk
  have hv := hlen (by have := headerValue_short (hdr := hdr) (by omega); omega) (by omega)
  have := shortHdr_mem hh (headerType_get (t := 7) hh hd hlt hty) hn (by omega) hv.symm
  simpa [hd] using this

theorem beNat_append (a b : List UInt8) : beNat (a ++ b) = beNat a * 256 ^ b.length + beNat b := by
  unfold beNat
  rw [List.foldl_append, beNat_foldl]
  rfl

theorem beNat_zeros (n : Nat) : beNat (List.replicate n 0) = 0 := by
  induction n with
  | zero => rfl
  | succ n ih =>
    rw [List.replicate_succ, show (0 : UInt8) :: List.replicate n 0 = [0] ++ List.replicate n 0 from rfl, beNat_append, ih]
    simp [beNat]

theorem number_small {max : Nat} {st s : St} {a : Num} (h : numberParse 0x60 max st = .ok (some a) s)
    (he : s.error = false) : ∃ l, a.val < 256 ^ l ∧ st.cursor + 1 + l ≤ s.cursor := by
  obtain ⟨hlt, ⟨h1, h2, rfl⟩ | ⟨h1, hty, l, s1, hl1, hn, he1, hl, hr, ha, rfl⟩⟩ := number_inv h he
  · cases h2
  · obtain ⟨hdr, rest, o, hd, hh, -, rfl, hlen⟩ := getNextLength_inv (by omega) hn he1
    have hp := header_pos hh
    simp only [Option.some.injEq] at ha hr
    refine ⟨l, ?_, by simp only; omega⟩
    subst ha
    rw [show decide (0x60 = tyInteger) = false from rfl, Bool.false_and, if_neg (by decide), beNat_append, beNat_zeros]
    have := beNat_lt ((st.data.drop (st.cursor + hdr.length)).take l)
    rw [List.length_take_of_le (by simp; omega)] at this
    simp only
    omega

/-! ## Nine bytes -/

/-- All concatenations of one element of each list. -/
def allConcat : List (List (List UInt8)) → List (List UInt8)
  | [] => [[]]
  | l :: ls => l.flatMap fun x => (allConcat ls).map fun y => x ++ y

theorem mem_allConcat_cons {l : List (List UInt8)} {ls : List (List (List UInt8))} {x y : List UInt8}
    (hx : x ∈ l) (hy : y ∈ allConcat ls) : x ++ y ∈ allConcat (l :: ls) := by
  simp only [allConcat, List.mem_flatMap, List.mem_map]
  exact ⟨x, hx, y, hy, rfl⟩

/-- Everything a message can consist of before its checksum, by the sizes of the six parts. -/
def shortPrefix (a b c d e f : Nat) : List (List UInt8) :=
  allConcat [shortHdr 7 6 a, shortField 0 b, shortField 6 c, shortField 6 d, shortHdr 7 2 e, shortField 6 f]

theorem short6 : ∀ p ∈ shortPrefix 1 1 1 1 1 1, 256 ≤ (crc16 p).toNat ∧ 256 ≤ (crc16kermit p).toNat := by
  decide +kernel

/-- No checksum over a seven-byte prefix is zero. -/
def short7ok (l : List (List UInt8)) : Bool :=
  l.all fun p => (crc16 p).toNat != 0 && (crc16kermit p).toNat != 0

theorem short7 : short7ok (shortPrefix 2 1 1 1 1 1) = true ∧ short7ok (shortPrefix 1 2 1 1 1 1) = true ∧
    short7ok (shortPrefix 1 1 2 1 1 1) = true ∧ short7ok (shortPrefix 1 1 1 2 1 1) = true ∧
    short7ok (shortPrefix 1 1 1 1 2 1) = true ∧ short7ok (shortPrefix 1 1 1 1 1 2) = true := by
  decide +kernel

theorem take_split {l : List UInt8} {i j k : Nat} (hij : i ≤ j) (hjk : j ≤ k) :
    (l.drop i).take (k - i) = (l.drop i).take (j - i) ++ (l.drop j).take (k - j) := by
  have h1 : k - i = (j - i) + (k - j) := by omega
  have h2 : l.drop j = (l.drop i).drop (j - i) := by rw [List.drop_drop]; congr 1; omega
  rw [h1, h2, List.take_add]

theorem bodyData_unknown {depth tag : Nat} (h : tag < 256) : bodyDataParse depth tag = pure .null := by
  unfold bodyDataParse
  simp only [tagOpenRequest, tagOpenResponse, tagCloseRequest, tagCloseResponse, tagGetProfilePackRequest,
    tagGetProfilePackResponse, tagGetProfileListRequest, tagGetProfileListResponse, tagGetProcParameterRequest,
    tagGetProcParameterResponse, tagSetProcParameterRequest, tagGetListRequest, tagGetListResponse,
    tagAttentionResponse]
  repeat rw [if_neg (by omega)]

theorem short_parts {p : List UInt8} {a b c d e f : Nat} (hp : p ∈ shortPrefix a b c d e f)
    (hsum : a + b + c + d + e + f ≤ 7) (ha : 1 ≤ a) (hb : 1 ≤ b) (hc : 1 ≤ c) (hd : 1 ≤ d) (he : 1 ≤ e) (hf : 1 ≤ f) :
    (crc16 p).toNat ≠ 0 ∧ (crc16kermit p).toNat ≠ 0 ∧
      (a + b + c + d + e + f = 6 → 256 ≤ (crc16 p).toNat ∧ 256 ≤ (crc16kermit p).toNat) := by
  obtain ⟨h1, h2, h3, h4, h5, h6⟩ := short7
  simp only [short7ok, List.all_eq_true, Bool.and_eq_true, bne_iff_ne, ne_eq] at h1 h2 h3 h4 h5 h6
  rcases (show a + b + c + d + e + f = 6 ∨ a + b + c + d + e + f = 7 by omega) with h | h
  · obtain ⟨rfl, rfl, rfl, rfl, rfl, rfl⟩ : a = 1 ∧ b = 1 ∧ c = 1 ∧ d = 1 ∧ e = 1 ∧ f = 1 := by omega
    have := short6 p hp
    exact ⟨by omega, by omega, fun _ => this⟩
  · have h' : (crc16 p).toNat ≠ 0 ∧ (crc16kermit p).toNat ≠ 0 := by
      rcases (show (a = 2 ∧ b = 1 ∧ c = 1 ∧ d = 1 ∧ e = 1 ∧ f = 1) ∨ (a = 1 ∧ b = 2 ∧ c = 1 ∧ d = 1 ∧ e = 1 ∧ f = 1) ∨
        (a = 1 ∧ b = 1 ∧ c = 2 ∧ d = 1 ∧ e = 1 ∧ f = 1) ∨ (a = 1 ∧ b = 1 ∧ c = 1 ∧ d = 2 ∧ e = 1 ∧ f = 1) ∨
        (a = 1 ∧ b = 1 ∧ c = 1 ∧ d = 1 ∧ e = 2 ∧ f = 1) ∨ (a = 1 ∧ b = 1 ∧ c = 1 ∧ d = 1 ∧ e = 1 ∧ f = 2) by omega)
        with ⟨rfl, rfl, rfl, rfl, rfl, rfl⟩ | ⟨rfl, rfl, rfl, rfl, rfl, rfl⟩ | ⟨rfl, rfl, rfl, rfl, rfl, rfl⟩ |
          ⟨rfl, rfl, rfl, rfl, rfl, rfl⟩ | ⟨rfl, rfl, rfl, rfl, rfl, rfl⟩ | ⟨rfl, rfl, rfl, rfl, rfl, rfl⟩
      · exact h1 p hp
      · exact h2 p hp
      · exact h3 p hp
      · exact h4 p hp
      · exact h5 p hp
      · exact h6 p hp
    exact ⟨h'.1, h'.2, fun h6 => by omega⟩

theorem minMessage : MinMessage 9 := by
  intro depth st m s hpre h he
  obtain ⟨s0, s1, s2, s3, s4, s5, c, hd⟩ := message_inv h
  obtain ⟨start, type, header, tid, tid_err, group, group_err, abort, abort_err, body, body_err, crc, crc_err, stored, range, check, more, final⟩ := hd
  obtain ⟨hs0, hc0, -, -, he0⟩ := (getNextLength_post (st := { st with live := st.live + 1 }) start).wlp _ _ header
  have he0 : s0.error = false := by
    rcases he0 with he0 | ⟨_, he0⟩
    · rw [he0]; exact hpre.clean
    · cases he0
  simp only at hc0
  have hd0 : s0.data = st.data := hs0.data
  have hb0 : s0.cursor ≤ s0.data.length := by rw [hd0]; exact hs0.bound
  obtain ⟨hs1, -, -, -, hc1, -⟩ := (leaf_octetString s0 hb0).wlp _ _ tid
  have hc1 := hc1 tid_err
  have hd1 : s1.data = st.data := hs1.data.trans hd0
  have hb1 : s1.cursor ≤ s1.data.length := by rw [hs1.data]; exact hs1.bound
  obtain ⟨hs2, -, -, -, hc2, -⟩ := (leaf_number _ _ s1 hb1).wlp _ _ group
  have hc2 := hc2 group_err
  have hd2 : s2.data = st.data := hs2.data.trans hd1
  have hb2 : s2.cursor ≤ s2.data.length := by rw [hs2.data]; exact hs2.bound
  obtain ⟨hs3, -, -, -, hc3, -⟩ := (leaf_number _ _ s2 hb2).wlp _ _ abort
  have hc3 := hc3 abort_err
  have hd3 : s3.data = st.data := hs3.data.trans hd2
  have hb3 : s3.cursor ≤ s3.data.length := by rw [hs3.data]; exact hs3.bound
  have hpre3 : Pre (4 * depth) s3 := ⟨hb3, abort_err, by rw [hd3]; have := hpre.depth; omega⟩
  -- the body
  obtain ⟨hlt, t0, t1, t, hty, hhdr, htag, htag_err, hrest⟩ := body_inv body body_err
  obtain ⟨ht0, hk0, -, -, hke0⟩ := (getNextLength_post (st := { s3 with live := s3.live + 1 }) hlt).wlp _ _ hhdr
  simp only at hk0
  have hte0 : t0.error = false := by
    rcases hke0 with hke0 | ⟨_, hke0⟩
    · rw [hke0]; exact abort_err
    · cases hke0
  have htd0 : t0.data = st.data := ht0.data.trans hd3
  have htb0 : t0.cursor ≤ t0.data.length := by rw [htd0, ← hd3]; exact ht0.bound
  obtain ⟨ht1, -, -, -, hk1, -⟩ := (leaf_number _ _ t0 htb0).wlp _ _ htag
  have hk1 := hk1 htag_err
  have htd1 : t1.data = st.data := ht1.data.trans htd0
  have htb1 : t1.cursor ≤ t1.data.length := by rw [ht1.data]; exact ht1.bound
  have hpret : Pre (4 * depth) t1 := ⟨htb1, htag_err, by rw [htd1]; have := hpre.depth; omega⟩
  have hmono : t1.cursor ≤ s4.cursor ∧ s4.data = st.data := by
    rcases hrest with ⟨_, _, rfl⟩ | ⟨tt, d, _, hdd, _⟩
    · exact ⟨Nat.le_refl _, htd1⟩
    · have := (good_bodyData depth tt.val t1 hpret (by omega)).wlp _ _ hdd
      exact ⟨this.1.mono, this.1.data.trans htd1⟩
  obtain ⟨hmono, hd4⟩ := hmono
  have hb4 : s4.cursor ≤ s4.data.length := by
    rcases hrest with ⟨_, _, rfl⟩ | ⟨tt, d, _, hdd, _⟩
    · exact htb1
    · have := (good_bodyData depth tt.val t1 hpret (by omega)).wlp _ _ hdd
      rw [this.1.data]; exact this.1.bound
  obtain ⟨hs5, -, -, -, hc5, -⟩ := (leaf_number _ _ s4 hb4).wlp _ _ crc
  have hc5 := hc5 crc_err
  have hd5 : s5.data = st.data := hs5.data.trans hd4
  have hsc : s5.cursor ≤ s.cursor := by rw [final]; simp
  have hmore : s5.cursor < st.data.length := by rw [← hd5]; exact more
  suffices hmain : st.cursor + 9 ≤ s5.cursor by exact ⟨by omega, by omega⟩
  -- suppose it is shorter
  apply Classical.byContradiction
  intro hshort
  have hsame : s4.cursor = t1.cursor := by
    rcases hrest with ⟨_, _, rfl⟩ | ⟨tt, d, rfl, hdd, _⟩
    · rfl
    · obtain ⟨l, hl1, hl2⟩ := number_small htag htag_err
      have : l ≤ 1 := by omega
      have : 256 ^ l ≤ 256 ^ 1 := Nat.pow_le_pow_right (by decide) this
      rw [bodyData_unknown (by omega)] at hdd
      cases hdd
      rfl
  have e0 := list_short (st := { st with live := st.live + 1 }) (n := 6) start (type start) header he0 (by decide) (by simp only; omega)
  have e1 := octetString_short tid tid_err (by omega)
  have e2 := number_short group group_err (by omega)
  have e3 := number_short abort abort_err (by omega)
  have e4 := list_short (st := { s3 with live := s3.live + 1 }) (n := 2) hlt hty hhdr hte0 (by decide) (by simp only; omega)
  have e5 := number_short htag htag_err (by omega)
  simp only [hd0, hd1, hd2, hd3, htd0] at e0 e1 e2 e3 e4 e5
  have hp := mem_allConcat_cons e0 <| mem_allConcat_cons e1 <| mem_allConcat_cons e2 <| mem_allConcat_cons e3 <|
    mem_allConcat_cons e4 <| mem_allConcat_cons e5 (ls := []) (y := []) (by simp [allConcat])
  rw [List.append_nil, ← take_split (i := s3.cursor) (by omega) (by omega), ← take_split (i := s2.cursor) (by omega) (by omega),
    ← take_split (i := s1.cursor) (by omega) (by omega), ← take_split (i := s0.cursor) (by omega) (by omega),
    ← take_split (i := st.cursor) (by omega) (by omega), ← hsame, ← hd5] at hp
  obtain ⟨g1, g2, g3⟩ := short_parts hp (by omega) (by omega) (by omega) (by omega) (by omega) (by omega) (by omega)
  obtain ⟨l, hl1, hl2⟩ := number_small crc crc_err
  rcases (show s4.cursor - st.cursor = 6 ∨ l = 0 by omega) with h6 | rfl
  · obtain ⟨g4, g5⟩ := g3 (by omega)
    have : l ≤ 1 := by omega
    have : 256 ^ l ≤ 256 ^ 1 := Nat.pow_le_pow_right (by decide) this
    omega
  · omega

end Sml
