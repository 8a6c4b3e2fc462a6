import Verif.Spec.Grammar
import Verif.Proofs.LocalBodies
import Verif.Proofs.MinMessage
import Verif.Proofs.Reads
import Verif.Proofs.Dzg
import Verif.Proofs.NumMem

/-!
# Parsers and the grammar
-/

namespace Sml

open Spec Spec.Grammar

/-- The bytes in front of the reader. -/
def St.rest (st : St) : List UInt8 := st.data.drop st.cursor

/-- The parser `p` accepts exactly what the rule `g` describes. -/
structure Parses (p : M α) (g : α → Rel) : Prop where
  loc : Loc p
  sound : ∀ st s v, st.cursor ≤ st.data.length → p st = .ok v s → s.error = false → g v st.rest s.rest
  complete : ∀ st v o, st.error = false → st.cursor ≤ st.data.length → g v st.rest o →
    ∃ s, p st = .ok v s ∧ s.error = false ∧ s.rest = o ∧ st.live ≤ s.live

theorem Parses.congr {p : M α} {g g' : α → Rel} (h : Parses p g) (hg : ∀ v i o, g v i o ↔ g' v i o) : Parses p g' :=
  ⟨h.loc, fun st s v hc hp he => (hg _ _ _).1 (h.sound st s v hc hp he),
    fun st v o he hc hgo => h.complete st v o he hc ((hg _ _ _).2 hgo)⟩

/-- The state afterwards is in bounds, on the same data. -/
theorem Parses.after {p : M α} {g : α → Rel} (h : Parses p g) {st s : St} {v : α} (hc : st.cursor ≤ st.data.length)
    (hp : p st = .ok v s) : s.data = st.data ∧ st.cursor ≤ s.cursor ∧ s.cursor ≤ s.data.length := by
  have := h.loc.adv st hc _ _ hp
  exact ⟨this.1, this.2.1, by rw [this.1]; exact this.2.2⟩

/-- An error flag that was set stays set. -/
theorem Parses.clean {p : M α} {g : α → Rel} (h : Parses p g) {st s : St} {v : α} (hp : p st = .ok v s)
    (he : s.error = false) : st.error = false := by
  cases hs : st.error with
  | false => rfl
  | true => have := h.loc.sticky st hs _ _ hp; rw [this] at he; cases he

theorem parses_pure (a : α) : Parses (pure a : M α) (fun v i o => v = a ∧ i = o) := by
  refine ⟨loc_pure a, fun st s v _ hp _ => ?_, fun st v o he _ ⟨h1, h2⟩ => ?_⟩
  · cases hp; exact ⟨rfl, rfl⟩
  · subst h1; exact ⟨st, rfl, he, h2, Nat.le_refl _⟩

theorem parses_bind {p : M α} {k : α → M β} {g : α → Rel} {g' : α → β → Rel} (hp : Parses p g) (hk : ∀ a, Parses (k a) (g' a)) :
    Parses (p >>= k) (fun r i o => ∃ a, (g a ⟫ g' a r) i o) := by
  refine ⟨loc_bind hp.loc fun a => (hk a).loc, fun st s v hc h he => ?_, fun st v o he hc ⟨a, m, h1, h2⟩ => ?_⟩
  · obtain ⟨a, s1, h1, h2⟩ := bind_inv h
    obtain ⟨_, _, h3⟩ := hp.after hc h1
    exact ⟨a, s1.rest, hp.sound st s1 a hc h1 ((hk a).clean h2 he), (hk a).sound s1 s v h3 h2 he⟩
  · obtain ⟨s1, h3, h4, h5, h6⟩ := hp.complete st a m he hc h1
    obtain ⟨_, _, h7⟩ := hp.after hc h3
    rw [← h5] at h2
    obtain ⟨s, h8, h9, h10, h11⟩ := (hk a).complete s1 v o h4 h7 h2
    exact ⟨s, by rw [bind_ok h3, h8], h9, h10, Nat.le_trans h6 h11⟩

/-- A test of the program. -/
theorem parses_ite {c : Prop} [Decidable c] {p q : M α} {g g' : α → Rel} (hp : c → Parses p g) (hq : ¬ c → Parses q g') :
    Parses (if c then p else q) (fun v i o => (c ∧ g v i o) ∨ (¬ c ∧ g' v i o)) := by
  by_cases h : c
  · rw [if_pos h]; exact (hp h).congr fun v i o => by simp [h]
  · rw [if_neg h]; exact (hq h).congr fun v i o => by simp [h]

theorem parses_alloc {n : Nat} {k : M β} {g : β → Rel} (hk : Parses k g) : Parses (do alloc n; k) g := by
  refine ⟨loc_bind (loc_alloc n) fun _ => hk.loc, fun st s v hc h he => ?_, fun st v o he hc hg => ?_⟩
  · exact hk.sound { st with live := st.live + n } s v hc h he
  · obtain ⟨s, h1, h2, h3, h4⟩ := hk.complete { st with live := st.live + n } v o he hc hg
    exact ⟨s, h1, h2, h3, by simp only at h4; omega⟩

theorem failWith_error {n : Nat} {st s : St} {v : Option α} (h : (failWith n : M (Option α)) st = .ok v s) : s.error = true := by
  unfold failWith at h
  rw [run_bind, run_setError, Res.andThen_ok] at h
  exact sticky_bind (sticky_release n) (fun _ => sticky_pure _) { st with error := true } rfl _ _ h

theorem parses_fail (n : Nat) : Parses (failWith n : M (Option α)) (fun _ _ _ => False) := by
  refine ⟨loc_failWith n, fun st s v _ h he => ?_, fun st v o _ _ h => h.elim⟩
  have := failWith_error h
  rw [this] at he; cases he

theorem parses_setError {k : M α} (hk : Loc k) : Parses (do setError; k) (fun _ _ _ => False) := by
  refine ⟨loc_bind loc_setError fun _ => hk, fun st s v _ h he => ?_, fun st v o _ _ h => h.elim⟩
  have := hk.sticky { st with error := true } rfl _ _ h
  rw [this] at he; cases he

theorem parses_hasErrors : Parses hasErrors (fun b i o => b = false ∧ i = o) := by
  refine ⟨loc_hasErrors, fun st s v _ h he => ?_, fun st v o he _ ⟨h1, h2⟩ => ?_⟩
  · cases h; exact ⟨he, rfl⟩
  · subst h1; exact ⟨st, by rw [run_hasErrors, he], he, h2, Nat.le_refl _⟩

theorem parses_field {p : M α} {set : α → R} {freed : R → Nat} {k : R → M (Option β)} {g : α → Rel} {g' : α → Option β → Rel}
    (hp : Parses p g) (hk : ∀ a, Parses (k (set a)) (g' a)) (hl : ∀ r, Loc (k r)) :
    Parses (field p set freed k) (fun r i o => ∃ a, (g a ⟫ g' a r) i o) := by
  refine ⟨loc_field hp.loc hl, fun st s v hc h he => ?_, fun st v o he hc ⟨a, m, h1, h2⟩ => ?_⟩
  · obtain ⟨a, s1, h1, h2, h3⟩ := field_inv h he
    obtain ⟨_, _, h4⟩ := hp.after hc h1
    exact ⟨a, s1.rest, hp.sound st s1 a hc h1 h2, (hk a).sound s1 s v h4 h3 he⟩
  · obtain ⟨s1, h3, h4, h5, h6⟩ := hp.complete st a m he hc h1
    obtain ⟨_, _, h7⟩ := hp.after hc h3
    rw [← h5] at h2
    obtain ⟨s, h8, h9, h10, h11⟩ := (hk a).complete s1 v o h4 h7 h2
    refine ⟨s, ?_, h9, h10, Nat.le_trans h6 h11⟩
    unfold field
    rw [run_bind, h3]
    run
    rw [h4]
    simpa using h8

/-! ## Headers -/

theorem rest_cons {st : St} (h : st.cursor < st.data.length) : st.rest = st.data[st.cursor] :: st.data.drop (st.cursor + 1) :=
  List.drop_eq_getElem_cons h

theorem rest_head {st : St} {b : UInt8} : st.rest.head? = some b ↔ ∃ h : st.cursor < st.data.length, st.data[st.cursor] = b := by
  constructor
  · intro h
    cases hr : st.rest with
    | nil => rw [hr] at h; cases h
    | cons c cs =>
      rw [hr] at h
      cases h
      obtain ⟨h1, h2, _⟩ := drop_cons_get hr
      exact ⟨h1, h2⟩
  · rintro ⟨h, rfl⟩
    rw [rest_cons h]; rfl

theorem rest_ne_nil {st : St} : st.rest ≠ [] ↔ st.cursor < st.data.length := by
  constructor
  · intro h
    rcases Nat.lt_or_ge st.cursor st.data.length with h' | h'
    · exact h'
    · exact absurd (List.drop_eq_nil_of_le h') h
  · intro h hn
    rw [rest_cons h] at hn; cases hn

theorem parses_getNextType : Parses getNextType (fun t i o => ∃ ty, t = ty * 16 ∧ nextType ty i ∧ i = o) := by
  refine ⟨loc_getNextType, fun st s v hc h he => ?_, ?_⟩
  · rcases Nat.lt_or_ge st.cursor st.data.length with h' | h'
    · rw [run_getNextType h'] at h
      cases h
      exact ⟨_, type_bits _, ⟨_, rest_head.2 ⟨h', rfl⟩, rfl⟩, rfl⟩
    · unfold getNextType at h
      rw [if_pos h'] at h
      cases h
      cases he
  · rintro st v o he hc ⟨ty, rfl, ⟨b, h1, h2⟩, rfl⟩
    obtain ⟨h3, rfl⟩ := rest_head.1 h1
    exact ⟨st, by rw [run_getNextType h3, type_bits, h2], he, rfl, Nat.le_refl _⟩

theorem lenAcc_mod (bs : List UInt8) : ∀ a b : Nat, a = b % 4294967296 →
    lenAcc a bs = bs.foldl (fun v b => v * 16 + b.toNat % 16) b % 4294967296 := by
  induction bs with
  | nil => intro a b h; exact h
  | cons x bs ih =>
    intro a b h
    simp only [lenAcc, List.foldl_cons]
    refine ih _ _ ?_
    rw [and15, h]
    have hx := x.toNat_lt
    have e : b % 4294967296 * 16 % 4294967296 = 2 ^ 4 * (b % 4294967296 % 268435456) := by omega
    rw [e, ← Nat.two_pow_add_eq_or_of_lt (i := 4) (by omega)]
    omega

theorem wrap_eq (hdr : List UInt8) :
    wrap32 (toI32 (lenAcc 0 hdr) + (if headerType hdr = 7 then 0 else - (hdr.length : Int))) = announced hdr := by
  have h1 : lenAcc 0 hdr = headerValue hdr % 4294967296 := lenAcc_mod hdr 0 0 rfl
  have h2 : ∃ k : Int, toI32 (lenAcc 0 hdr) = (headerValue hdr : Int) + 4294967296 * k := by
    rw [h1]
    unfold toI32
    split
    · exact ⟨-((headerValue hdr / 4294967296 : Nat) : Int), by omega⟩
    · exact ⟨-((headerValue hdr / 4294967296 : Nat) : Int) - 1, by omega⟩
  obtain ⟨k, h2⟩ := h2
  unfold wrap32 announced headerLength
  rw [h2]
  split
  · rw [show (headerValue hdr : Int) + 4294967296 * k + 0 = (headerValue hdr : Int) + 4294967296 * k by omega]
    exact Int.add_mul_bmod_self_left _ 4294967296 k
  · rw [show (headerValue hdr : Int) + 4294967296 * k + -(hdr.length : Int) = ((headerValue hdr : Int) - hdr.length) + 4294967296 * k by omega]
    exact Int.add_mul_bmod_self_left _ 4294967296 k

theorem parses_getNextLength : Parses getNextLength (fun n i o => ∃ ty, header ty n i o) := by
  refine ⟨loc_getNextLength, fun st s v hc h he => ?_, ?_⟩
  · obtain ⟨hdr, rest, o, h1, h2, h3, h4, _⟩ := getNextLength_inv hc h he
    refine ⟨headerType hdr, hdr, h2, rfl, ?_, ?_⟩
    · rw [h3, wrap_eq]
    · rw [h4]
      show st.data.drop st.cursor = hdr ++ st.data.drop (st.cursor + hdr.length)
      rw [drop_add h1, h1]
  · rintro st v o he hc ⟨ty, hdr, h1, rfl, rfl, h2⟩
    obtain ⟨ov, h3, _⟩ := getNextLength_run h1 h2
    rw [wrap_eq] at h3
    exact ⟨_, h3, he, drop_add h2, Nat.le_refl _⟩

/-- The first byte of a header has its type. -/
theorem header_next {ty : Nat} {n : Int} {i o : List UInt8} (h : header ty n i o) : nextType ty i := by
  obtain ⟨hdr, ⟨more, last, rfl, _, _⟩, h2, _, rfl⟩ := h
  cases more with
  | nil => exact ⟨last, rfl, by simpa [headerType] using h2⟩
  | cons b bs => exact ⟨b, rfl, by simpa [headerType] using h2⟩

theorem nextType_unique {t t' : Nat} {i : List UInt8} (h : nextType t i) (h' : nextType t' i) : t = t' := by
  obtain ⟨b, h1, h2⟩ := h
  obtain ⟨c, h3, h4⟩ := h'
  rw [h1] at h3
  cases h3
  omega

theorem header_not_absent {ty : Nat} {n : Int} {i o : List UInt8} (h : header ty n i o) (hty : ty ≠ 0) : i.head? ≠ some 0x01 := by
  obtain ⟨b, h1, h2⟩ := header_next h
  rw [h1]
  intro h3
  cases h3
  exact hty h2.symm

theorem parses_expectList {n : Int} {own : Nat} {k : M (Option α)} {g : Option α → Rel} (hk : Parses k g) :
    Parses (expectList n own k) (fun r => header 7 n ⟫ g r) := by
  unfold expectList
  refine (parses_bind parses_getNextType fun t => parses_ite (fun _ => parses_fail _) fun _ =>
    parses_bind parses_getNextLength fun l => parses_ite (fun _ => parses_fail _) fun _ => hk).congr ?_
  intro r i o
  constructor
  · rintro ⟨t, m, ⟨ty, rfl, h1, rfl⟩, ⟨_, h⟩ | ⟨h2, l, m', ⟨ty', h3⟩, ⟨_, h⟩ | ⟨h4, h5⟩⟩⟩
    · exact h.elim
    · exact h.elim
    · have : ty = 7 := by
        have : ty * 16 = 0x70 := by simpa using h2
        omega
      subst this
      have : ty' = 7 := nextType_unique (header_next h3) h1
      subst this
      have : l = n := by simpa using h4
      subst this
      exact ⟨m', h3, h5⟩
  · rintro ⟨m, h1, h2⟩
    exact ⟨112, i, ⟨7, rfl, header_next h1, rfl⟩, Or.inr ⟨by simp, n, m, ⟨7, h1⟩, Or.inr ⟨by simp, h2⟩⟩⟩

theorem parses_skipped : Parses optionalIsSkipped (fun b i o => (b = true ∧ absent i o) ∨ (b = false ∧ i = o ∧ i ≠ [] ∧ i.head? ≠ some 0x01)) := by
  refine ⟨loc_optionalIsSkipped, fun st s v hc h he => ?_, ?_⟩
  · rcases Nat.lt_or_ge st.cursor st.data.length with h' | h'
    · rw [run_optionalIsSkipped h'] at h
      split at h
      · next h1 => cases h; exact Or.inl ⟨rfl, by rw [absent, rest_cons h', h1]; rfl⟩
      · next h1 =>
        cases h
        refine Or.inr ⟨rfl, rfl, rest_ne_nil.2 h', fun hx => ?_⟩
        obtain ⟨_, hx⟩ := rest_head.1 hx
        exact h1 hx
    · unfold optionalIsSkipped at h
      rw [if_pos h'] at h
      cases h
      cases he
  · rintro st v o he hc (⟨rfl, h⟩ | ⟨rfl, rfl, h1, h2⟩)
    · obtain ⟨h1, h2, h3⟩ := drop_cons_get (show st.data.drop st.cursor = 0x01 :: o from h)
      exact ⟨{ st with cursor := st.cursor + 1 }, by rw [run_optionalIsSkipped h1, if_pos h2], he, h3, Nat.le_refl _⟩
    · have h3 := rest_ne_nil.1 h1
      refine ⟨st, by rw [run_optionalIsSkipped h3, if_neg fun hx => h2 (rest_head.2 ⟨h3, hx⟩)], he, rfl, Nat.le_refl _⟩

theorem parses_optional {p : M (Option α)} {g : Option α → Rel} (hp : Parses p g) :
    Parses (optional p) (fun r i o => (r = none ∧ absent i o) ∨ (i ≠ [] ∧ i.head? ≠ some 0x01 ∧ g r i o)) := by
  unfold optional
  refine (parses_bind parses_skipped fun b => parses_ite (fun _ => parses_pure none) fun _ => hp).congr ?_
  intro r i o
  constructor
  · rintro ⟨b, m, ⟨rfl, h1⟩ | ⟨rfl, rfl, h1, h2⟩, ⟨h3, h4⟩ | ⟨h3, h4⟩⟩
    · obtain ⟨rfl, rfl⟩ := h4; exact Or.inl ⟨rfl, h1⟩
    · exact absurd rfl h3
    · cases h3
    · exact Or.inr ⟨h1, h2, h4⟩
  · rintro (⟨rfl, h⟩ | ⟨h1, h2, h3⟩)
    · exact ⟨true, o, Or.inl ⟨rfl, h⟩, Or.inl ⟨rfl, rfl, rfl⟩⟩
    · exact ⟨false, i, Or.inr ⟨rfl, rfl, h1, h2⟩, Or.inr ⟨by simp, h3⟩⟩

/-! ## Simple types -/

theorem take_append_drop_rest {l : List UInt8} {c n : Nat} : l.drop c = (l.drop c).take n ++ l.drop (c + n) := by
  rw [← List.drop_drop, List.take_append_drop]

/-- What happens on a header. -/
theorem header_run {st : St} {ty : Nat} {n : Int} {o : List UInt8} (h : header ty n st.rest o) :
    ∃ (_ : st.cursor < st.data.length) (k : Nat) (ov : Bool), getNextLength st = .ok n { st with cursor := st.cursor + k, sovf := ov } ∧
      st.data.drop (st.cursor + k) = o ∧ st.cursor + k + o.length = st.data.length ∧ getNextType st = .ok (ty * 16) st := by
  have h0 := header_next h
  obtain ⟨hdr, h1, rfl, rfl, h2⟩ := h
  obtain ⟨ov, h3, _⟩ := getNextLength_run h1 h2
  rw [wrap_eq] at h3
  obtain ⟨b, hb, hb2⟩ := h0
  obtain ⟨hlt, rfl⟩ := rest_head.1 hb
  refine ⟨hlt, hdr.length, ov, h3, drop_add h2, ?_, ?_⟩
  · have := congrArg List.length h2
    simp [St.rest] at this
    omega
  · rw [run_getNextType hlt, type_bits, hb2]

theorem skipped_run {st : St} (h : st.cursor < st.data.length) (h1 : st.rest.head? ≠ some 0x01) : optionalIsSkipped st = .ok false st := by
  rw [run_optionalIsSkipped h, if_neg fun hx => h1 (rest_head.2 ⟨h, hx⟩)]

theorem absent_run {st : St} {o : List UInt8} (h : absent st.rest o) :
    optionalIsSkipped st = .ok true { st with cursor := st.cursor + 1 } ∧ st.data.drop (st.cursor + 1) = o := by
  obtain ⟨h1, h2, h3⟩ := drop_cons_get (show st.data.drop st.cursor = 0x01 :: o from h)
  exact ⟨by rw [run_optionalIsSkipped h1, if_pos h2], h3⟩

theorem parses_str : Parses octetStringParse str := by
  refine ⟨loc_octetString, fun st s v hc h he => ?_, ?_⟩
  · obtain ⟨hlt, ⟨h1, rfl, rfl⟩ | ⟨h1, h2, l, s1, h3, h4, h5, rfl, rfl⟩⟩ := octetString_inv h he
    · show st.rest = 0x01 :: _
      rw [rest_cons hlt, h1]; rfl
    · obtain ⟨ty, h6⟩ := parses_getNextLength.sound st s1 _ hc h3 h4
      have h0 : ty = 0 := nextType_unique (header_next h6) ⟨_, rest_head.2 ⟨hlt, rfl⟩, by rw [type_bits] at h2; omega⟩
      subst h0
      have hlen : ((s1.data.drop s1.cursor).take l).length = l := by simp; omega
      refine ⟨st.rest, ⟨rfl, fun hx => ?_⟩, s1.rest, ?_, s1.data.drop (s1.cursor + l), take_append_drop_rest, rfl, ?_⟩
      · obtain ⟨_, hx⟩ := rest_head.1 hx
        exact h1 hx
      · rw [hlen]; exact h6
      · intro hx
        have := congrArg List.length hx
        simp at this; omega
  · rintro st (_ | ⟨t⟩) o he hc h
    · obtain ⟨h1, h2⟩ := absent_run h
      refine ⟨{ st with cursor := st.cursor + 1 }, ?_, he, h2, Nat.le_refl _⟩
      unfold octetStringParse
      rw [run_bind, h1]; rfl
    · obtain ⟨_, ⟨rfl, h1⟩, m, h2, _, h3, rfl, h4⟩ := h
      obtain ⟨hlt, k, ov, h5, h6, h7, h8⟩ := header_run h2
      have hm : m = t.str ++ _ := h3
      subst hm
      rename_i m
      simp only [List.length_append] at h7
      have hpos : 0 < m.length := List.length_pos_iff.2 h4
      have ht : ((st.data.drop (st.cursor + k)).take t.str.length) = t.str := by rw [h6]; simp
      have hd : st.data.drop (st.cursor + k + t.str.length) = m := drop_add h6
      unfold octetStringParse
      rw [run_bind, skipped_run hlt h1]
      run
      simp only [Bool.false_eq_true, if_false]
      rw [h8]
      run
      rw [if_neg (by simp), h5]
      run
      rw [if_neg (by omega), run_readBytes (by simp only [Int.toNat_natCast]; omega)]
      run
      simp only [Int.toNat_natCast, ht, octetStringInit]
      by_cases h0 : t.str.length > 0
      · rw [if_pos h0]
        run
        exact ⟨_, rfl, he, hd, by simp only; omega⟩
      · rw [if_neg h0]
        run
        have : t.str = [] := by cases hs : t.str with | nil => rfl | cons a as => rw [hs] at h0; simp at h0
        have ht' : t = ⟨[]⟩ := by cases t; simpa using this
        refine ⟨{ st with cursor := st.cursor + k + t.str.length, live := st.live + 1, sovf := ov }, by rw [ht'], he, hd, by simp only; omega⟩


theorem top_bit_iff (b : UInt8) : b &&& 128 ≠ 0 ↔ 128 ≤ b.toNat := by
  have key : ∀ n : Fin 256, (UInt8.ofNat n) &&& 128 ≠ 0 ↔ 128 ≤ n.val := by decide +kernel
  have := key ⟨b.toNat, UInt8.toNat_lt b⟩
  simpa only [UInt8.ofNat_toNat] using this

theorem number_value {ty size : Nat} {bs rest : List UInt8} {b : UInt8} {tl : List UInt8} (hb : bs ++ rest = b :: tl) (hl : bs.length ≤ size) :
    beNat (List.replicate (size - bs.length) (if (decide (ty * 16 = tyInteger) && decide (b &&& 128 ≠ 0)) = true then 0xFF else 0x00) ++ bs)
      = numberOf ty size bs rest := by
  rw [beNat_unsigned, unsigned_append]
  unfold numberOf
  have hty : (ty * 16 = tyInteger) ↔ ty = 5 := by simp only [tyInteger]; omega
  by_cases h5 : ty = 5
  · subst h5
    rw [if_pos rfl]
    have ht : (decide (5 * 16 = tyInteger) && decide (b &&& 128 ≠ 0)) = decide (128 ≤ b.toNat) := by
      rw [decide_eq_true (show 5 * 16 = tyInteger from rfl), Bool.true_and]
      exact decide_eq_decide.2 (top_bit_iff b)
    rw [ht]
    cases bs with
    | nil =>
      simp only [List.nil_append] at hb
      subst hb
      simp only [List.length_nil, Nat.sub_zero, unsignedOf, Nat.pow_zero, Nat.mul_one, Nat.add_zero]
      by_cases hn : 128 ≤ b.toNat
      · rw [if_pos (by simpa using hn), if_neg (by omega)]
        have := unsigned_ones size
        omega
      · rw [if_neg (by simpa using hn), if_pos (by omega), unsigned_zeros]
    | cons c cs =>
      simp only [List.cons_append, List.cons.injEq] at hb
      obtain ⟨rfl, _⟩ := hb
      simp only
      have hlt := unsigned_lt (c :: cs)
      have hpow : 256 ^ size = 256 ^ (size - (c :: cs).length) * 256 ^ (c :: cs).length := by
        rw [← Nat.pow_add, Nat.sub_add_cancel hl]
      have hle : 256 ^ (c :: cs).length ≤ 256 ^ size := Nat.pow_le_pow_right (by decide) hl
      have hc : ((256 ^ size : Nat) : Int) = (256 : Int) ^ size := by simp
      have hc' : ((256 ^ (c :: cs).length : Nat) : Int) = (256 : Int) ^ (c :: cs).length := by simp
      unfold signedOf
      simp only
      rw [← hc, ← hc']
      generalize h1 : unsignedOf (c :: cs) = u at *
      generalize h2 : 256 ^ (c :: cs).length = w at *
      generalize h3 : 256 ^ size = W at *
      by_cases hn : 128 ≤ c.toNat
      · rw [if_pos (by simpa using hn), if_neg (by omega)]
        have h1 := unsigned_ones (size - (c :: cs).length)
        generalize 256 ^ (size - (c :: cs).length) = v at *
        generalize unsignedOf (List.replicate (size - (c :: cs).length) 0xFF) = f at *
        have : f * w + w = W := by rw [hpow, ← h1, Nat.add_mul, Nat.one_mul]
        have e : ((u : Int) - w) % W = (u : Int) - w + W := by
          rw [← Int.add_emod_right, Int.emod_eq_of_lt] <;> omega
        rw [e]; omega
      · rw [if_neg (by simpa using hn), if_pos (by omega), unsigned_zeros, Int.emod_eq_of_lt] <;> omega
  · rw [if_neg h5]
    have : decide (ty * 16 = tyInteger) = false := by simpa [hty] using h5
    rw [this]
    simp only [Bool.false_and, Bool.false_eq_true, if_false]
    rw [unsigned_zeros]; omega

/-- What happens on a number; the heap too. -/
theorem num_run {st : St} {ty size : Nat} {v : Option Num} {o : List UInt8} (hty : ty = 5 ∨ ty = 6) (h : num ty size v st.rest o) :
    ∃ (k : Nat) (ov : Bool), numberParse (ty * 16) size st = .ok v { st with cursor := st.cursor + k, sovf := ov, live := st.live + numberFreed v } ∧
      st.data.drop (st.cursor + k) = o ∧ st.cursor + k + o.length = st.data.length := by
  cases v with
  | none =>
    obtain ⟨h1, h2⟩ := absent_run h
    refine ⟨1, st.sovf, ?_, h2, ?_⟩
    · unfold numberParse
      rw [run_bind, h1]; rfl
    · have := congrArg List.length (show st.data.drop st.cursor = 0x01 :: o from h)
      simp at this
      omega
  | some n =>
    obtain ⟨bs, hbs, ⟨m, h1, m', ⟨rfl, h2⟩, h3⟩, rfl⟩ := h
    obtain ⟨hlt, k, ov, h5, h6, h7, h8⟩ := header_run h1
    have hm : m = bs ++ o := h3
    subst hm
    simp only [List.length_append] at h7
    have hne := header_not_absent h1 (by omega)
    have ht : ((st.data.drop (st.cursor + k)).take bs.length) = bs := by rw [h6]; simp
    obtain ⟨b, tl, hb⟩ : ∃ b tl, bs ++ o = b :: tl := by
      cases hh : bs ++ o with
      | nil => exact absurd hh h2
      | cons b tl => exact ⟨b, tl, rfl⟩
    rw [hb] at h6
    obtain ⟨h9, h10, _⟩ := drop_cons_get h6
    refine ⟨k + bs.length, ov, ?_, ?_, by omega⟩
    · unfold numberParse
      rw [run_bind, skipped_run hlt hne]
      run
      simp only [Bool.false_eq_true, if_false]
      rw [if_neg (by omega), h8]
      run
      rw [if_neg (by simp), h5]
      run
      rw [if_neg (by omega), if_neg (by simp only [Int.toNat_natCast]; omega), if_neg (by omega), run_getCurrentByte (by exact h9)]
      run
      rw [run_readBytes (by simp only [Int.toNat_natCast]; omega)]
      run
      simp only [Int.toNat_natCast, ht, h10, number_value hb hbs, numberFreed, Nat.add_assoc]
    · rw [← Nat.add_assoc]
      rw [← hb] at h6
      exact drop_add h6

theorem parses_num {ty size : Nat} (hty : ty = 5 ∨ ty = 6) : Parses (numberParse (ty * 16) size) (num ty size) := by
  refine ⟨loc_number _ _, fun st s v hc h he => ?_, ?_⟩
  · obtain ⟨hlt, ⟨h1, rfl, rfl⟩ | ⟨h1, h2, l, s1, hl1, h3, h4, h5, h6, rfl, rfl⟩⟩ := number_inv h he
    · show st.rest = 0x01 :: _
      rw [rest_cons hlt, h1]; rfl
    · obtain ⟨ty', h7⟩ := parses_getNextLength.sound st s1 _ hc h3 h4
      have h0 : ty' = ty := nextType_unique (header_next h7) ⟨_, rest_head.2 ⟨hlt, rfl⟩, by rw [type_bits] at h2; omega⟩
      subst h0
      have hlen : ((s1.data.drop s1.cursor).take l).length = l := by simp; omega
      refine ⟨(s1.data.drop s1.cursor).take l, by omega, ⟨s1.rest, by rw [hlen]; exact h7, s1.rest, ⟨rfl, rest_ne_nil.2 hl1⟩, take_append_drop_rest⟩, ?_⟩
      have := number_value (ty := ty') (size := size) (bs := (s1.data.drop s1.cursor).take l) (rest := s1.data.drop (s1.cursor + l)) (b := s1.data[s1.cursor]) (tl := s1.data.drop (s1.cursor + 1))
        (by rw [← take_append_drop_rest]; exact rest_cons hl1) (by omega)
      rw [hlen] at this
      rw [this]; rfl
  · intro st v o he hc h
    obtain ⟨k, ov, h1, h2, _⟩ := num_run hty h
    exact ⟨_, h1, he, h2, by simp only; omega⟩


theorem parses_u (size : Nat) : Parses (numberParse tyUnsigned size) (num 6 size) := parses_num (ty := 6) (Or.inr rfl)
theorem parses_i (size : Nat) : Parses (numberParse tyInteger size) (num 5 size) := parses_num (ty := 5) (Or.inl rfl)

theorem parses_guard {c : St → Prop} [DecidablePred c] {n : Nat} {p : M (Option α)} {g : Option α → Rel} (P : List UInt8 → Prop)
    (hc : ∀ st, st.cursor ≤ st.data.length → (c st ↔ ¬ P st.rest)) (hl : Loc (do let st ← getSt; if c st then failWith n else p)) (hp : Parses p g) :
    Parses (do let st ← getSt; if c st then failWith n else p) (fun r i o => P i ∧ g r i o) := by
  refine ⟨hl, fun st s v hcur h he => ?_, fun st v o he hcur ⟨h1, h2⟩ => ?_⟩
  · rw [run_bind, run_getSt, Res.andThen_ok, run_ite] at h
    split at h
    · have := failWith_error h
      rw [this] at he; cases he
    · next hn =>
      rw [hc st hcur, Classical.not_not] at hn
      exact ⟨hn, hp.sound st s v hcur h he⟩
  · have hn : ¬ c st := by rw [hc st hcur]; simpa using h1
    obtain ⟨s, h3, h4⟩ := hp.complete st v o he hcur h2
    refine ⟨s, ?_, h4⟩
    rw [run_bind, run_getSt, Res.andThen_ok, run_ite, if_neg hn, h3]

theorem parses_byte {k : UInt8 → M α} {g : UInt8 → α → Rel} (hk : ∀ b, Parses (k b) (g b)) :
    Parses (do let b ← getCurrentByte; updateBytesRead 1; k b) (fun r i o => ∃ b m, i = b :: m ∧ g b r m o) := by
  refine ⟨loc_next fun b => (hk b).loc, fun st s v hc h he => ?_, ?_⟩
  · rcases Nat.lt_or_ge st.cursor st.data.length with h' | h'
    · rw [run_bind, run_getCurrentByte h', Res.andThen_ok, run_bind, run_updateBytesRead, Res.andThen_ok] at h
      exact ⟨_, _, rest_cons h', (hk _).sound { st with cursor := st.cursor + 1 } s v h' h he⟩
    · rw [run_bind] at h
      simp [getCurrentByte, h'] at h
  · rintro st v o he hc ⟨b, m, h1, h2⟩
    obtain ⟨h3, h4, h5⟩ := drop_cons_get (show st.data.drop st.cursor = b :: m from h1)
    rw [← h5] at h2
    obtain ⟨s, h6, h7⟩ := (hk b).complete { st with cursor := st.cursor + 1 } v o he h3 h2
    refine ⟨s, ?_, h7⟩
    rw [run_bind, run_getCurrentByte h3, Res.andThen_ok, run_bind, run_updateBytesRead, Res.andThen_ok, h4, h6]

/-- Type and length in turn. -/
theorem parses_typed {ty : Nat} {n : Int} {own : Nat} {k : M (Option α)} {g : Option α → Rel} (hk : Parses k g) :
    Parses (do if (← getNextType) ≠ ty * 16 then failWith own else if (← getNextLength) ≠ n then failWith own else k) (fun r => header ty n ⟫ g r) := by
  refine (parses_bind parses_getNextType fun t => parses_ite (fun _ => parses_fail _) fun _ =>
    parses_bind parses_getNextLength fun l => parses_ite (fun _ => parses_fail _) fun _ => hk).congr ?_
  intro r i o
  constructor
  · rintro ⟨t, m, ⟨ty', rfl, h1, rfl⟩, ⟨_, h⟩ | ⟨h2, l, m', ⟨ty'', h3⟩, ⟨_, h⟩ | ⟨h4, h5⟩⟩⟩
    · exact h.elim
    · exact h.elim
    · have : ty' = ty := by simp at h2; omega
      subst this
      have : ty'' = ty' := nextType_unique (header_next h3) h1
      subst this
      have : l = n := by simpa using h4
      subst this
      exact ⟨m', h3, h5⟩
  · rintro ⟨m, h1, h2⟩
    exact ⟨_, i, ⟨ty, rfl, header_next h1, rfl⟩, Or.inr ⟨by simp, n, m, ⟨ty, h1⟩, Or.inr ⟨by simp, h2⟩⟩⟩

theorem guard_end {n : Nat} {p : M (Option α)} {g : Option α → Rel} (hp : Parses p g) :
    Parses (do let st ← getSt; if st.cursor ≥ st.data.length then failWith n else p) (fun r i o => i ≠ [] ∧ g r i o) :=
  parses_guard (fun i => i ≠ []) (fun st _ => by rw [rest_ne_nil]; omega) (loc_guard (by omega) hp.loc) hp

theorem parses_boolean : Parses booleanParse boolean := by
  refine (parses_bind parses_skipped fun b => parses_ite (fun _ => parses_pure none) fun _ =>
    parses_typed (ty := 4) (n := 1) (guard_end (parses_byte fun b => parses_alloc (parses_ite (fun _ => parses_pure _) fun _ => parses_pure _)))).congr ?_
  intro r i o
  constructor
  · rintro ⟨b, m, ⟨rfl, h1⟩ | ⟨rfl, rfl, h1, h2⟩, ⟨h3, rfl, rfl⟩ | ⟨h3, m', h4, h5, x, m'', rfl, h6⟩⟩
    · exact h1
    · exact absurd rfl h3
    · cases h3
    · rcases h6 with ⟨h6, rfl, rfl⟩ | ⟨h6, rfl, rfl⟩
      · exact ⟨_, h4, x, rfl, by rw [if_neg h6]⟩
      · exact ⟨_, h4, x, rfl, by rw [if_pos (by simpa using h6)]⟩
  · cases r with
    | none => intro h; exact ⟨true, o, Or.inl ⟨rfl, h⟩, Or.inl ⟨rfl, rfl, rfl⟩⟩
    | some b =>
      rintro ⟨m, h1, x, rfl, rfl⟩
      have hne := header_not_absent h1 (by decide)
      have hni : i ≠ [] := by rintro rfl; obtain ⟨b, h, _⟩ := header_next h1; cases h
      refine ⟨false, i, Or.inr ⟨rfl, rfl, hni, hne⟩, Or.inr ⟨by simp, _, h1, by simp, x, o, rfl, ?_⟩⟩
      by_cases hx : x = 0
      · exact Or.inr ⟨by simpa using hx, by rw [if_pos hx], rfl⟩
      · exact Or.inl ⟨hx, by rw [if_neg hx], rfl⟩

theorem ahead_self {P : List UInt8 → Prop} {i : List UInt8} (h : P i) : ahead P i i := ⟨rfl, h⟩


theorem parses_current : Parses getCurrentByte (fun b i o => i.head? = some b ∧ i = o) := by
  refine ⟨loc_getCurrentByte, fun st s v hc h he => ?_, ?_⟩
  · rcases Nat.lt_or_ge st.cursor st.data.length with h' | h'
    · rw [run_getCurrentByte h'] at h
      cases h
      exact ⟨rest_head.2 ⟨h', rfl⟩, rfl⟩
    · simp [getCurrentByte, h'] at h
  · rintro st v o he hc ⟨h1, rfl⟩
    obtain ⟨h2, rfl⟩ := rest_head.1 h1
    exact ⟨st, run_getCurrentByte h2, he, rfl, Nat.le_refl _⟩

/-- The check for errors at the end of a parser. -/
theorem parses_check {n : Nat} {k : M (Option α)} {g : Option α → Rel} (hk : Parses k g) :
    Parses (do if ← hasErrors then (do release n; pure none) else k : M (Option α)) g := by
  refine ⟨loc_bind loc_hasErrors fun _ => loc_ite (loc_bind (loc_release _) fun _ => loc_pure _) hk.loc, fun st s v hc h he => ?_, ?_⟩
  · rw [run_bind, run_hasErrors, Res.andThen_ok, run_ite] at h
    split at h
    · next h1 =>
      have := sticky_bind (sticky_release n) (fun _ => sticky_pure (none : Option α)) st h1 _ _ h
      rw [this] at he; cases he
    · exact hk.sound st s v hc h he
  · intro st v o he hc h
    obtain ⟨s, h1, h2⟩ := hk.complete st v o he hc h
    refine ⟨s, ?_, h2⟩
    rw [run_bind, run_hasErrors, Res.andThen_ok, run_ite, if_neg (by simp [he]), h1]

theorem growMax_room (b : UInt8) : growMax 4 1 b = room b := by
  have key : ∀ n : Fin 256, growMax 4 1 (UInt8.ofNat n) = room (UInt8.ofNat n) := by decide +kernel
  have := key ⟨b.toNat, UInt8.toNat_lt b⟩
  simpa only [UInt8.ofNat_toNat] using this

theorem room_cases (b : UInt8) : room b = 1 ∨ room b = 2 ∨ room b = 4 ∨ room b = 8 ∨ room b = 16 := by
  unfold room
  split
  · simp
  split
  · simp
  split
  · simp
  split <;> simp

theorem label_eq (b : UInt8) {ty : Nat} (h : ty = 5 ∨ ty = 6) : ty * 16 ||| room b = label ty (room b) := by
  rcases h with rfl | rfl <;> rcases room_cases b with h | h | h | h | h <;> rw [h] <;> decide

/-- Which of the four cases of `sml_value_parse` applies. -/
theorem type_lt {ty : Nat} {i : List UInt8} (h : nextType ty i) : ty < 8 := by
  obtain ⟨b, _, rfl⟩ := h
  omega

theorem str_type {s : OctetString} {i o : List UInt8} (h : str (some s) i o) : nextType 0 i := by
  obtain ⟨_, ⟨rfl, _⟩, m, h, _⟩ := h
  exact header_next h

theorem num_type {ty size : Nat} {n : Num} {i o : List UInt8} (h : num ty size (some n) i o) : nextType ty i := by
  obtain ⟨_, _, ⟨m, h, _⟩, _⟩ := h
  exact header_next h

theorem boolean_type {b : UInt8} {i o : List UInt8} (h : boolean (some b) i o) : nextType 4 i := by
  obtain ⟨m, h, _⟩ := h
  exact header_next h

theorem absent_head {i o : List UInt8} (h : absent i o) : i.head? = some 0x01 := by
  rw [show i = 0x01 :: o from h]; rfl

/-- A rule that may be omitted is not, when the next byte says so. -/
theorem must_some {g : Option α → Rel} (hg : g none = absent) {p : Option α} {i o : List UInt8} (h : g p i o) (hi : i.head? ≠ some 0x01) :
    ∃ a, p = some a ∧ g (some a) i o := by
  cases p with
  | none => rw [hg] at h; exact absurd (absent_head h) hi
  | some a => exact ⟨a, rfl, h⟩

theorem parses_value : Parses valueParse value := by
  unfold valueParse
  refine (parses_bind parses_skipped fun b => parses_ite (fun _ => parses_pure none) fun _ =>
    parses_bind parses_getNextType fun t => parses_bind parses_current fun c => parses_alloc <|
    parses_bind (g := fun (v : Value) i o =>
      (t = tyOctet ∧ ∃ p, v = { type := t, data := .bytes p } ∧ str p i o) ∨
      (t ≠ tyOctet ∧ t = tyBoolean ∧ ∃ p, v = { type := t, data := .boolean p } ∧ boolean p i o) ∨
      (t ≠ tyOctet ∧ t ≠ tyBoolean ∧ ∃ ty, (ty = 5 ∨ ty = 6) ∧ t = ty * 16 ∧ ∃ p, v = { type := label ty (room c), data := .num p } ∧ num ty (room c) p i o))
    (?_ : Parses _ _) fun v => parses_check (parses_pure (some v))).congr ?_
  · refine (parses_ite (fun _ => parses_bind parses_str fun p => parses_pure _) fun _ => parses_ite (fun _ => parses_bind parses_boolean fun p => parses_pure _) fun _ =>
      parses_ite (g := fun v i o => ∃ ty, (ty = 5 ∨ ty = 6) ∧ t = ty * 16 ∧ ∃ p, v = ({ type := label ty (room c), data := .num p } : Value) ∧ num ty (room c) p i o) (fun ht => ?_) fun _ => parses_setError (loc_pure _)).congr ?_
    · rw [growMax_room]
      obtain ⟨ty, hty, rfl⟩ : ∃ ty, (ty = 5 ∨ ty = 6) ∧ t = ty * 16 := by
        rcases ht with rfl | rfl
        · exact ⟨6, Or.inr rfl, rfl⟩
        · exact ⟨5, Or.inl rfl, rfl⟩
      refine (parses_bind (parses_num hty) fun p => parses_pure _).congr ?_
      intro v i o
      constructor
      · rintro ⟨p, m, h1, rfl, rfl⟩
        exact ⟨ty, hty, rfl, p, by rw [label_eq c hty], h1⟩
      · rintro ⟨ty', _, h1, p, rfl, h2⟩
        have : ty' = ty := by omega
        subst this
        exact ⟨p, o, h2, by rw [label_eq c hty], rfl⟩
    · intro v i o
      constructor
      · rintro (⟨rfl, p, m, h1, rfl, rfl⟩ | ⟨h0, ⟨rfl, p, m, h1, rfl, rfl⟩ | ⟨h3, ⟨h4, h5⟩ | ⟨_, h⟩⟩⟩)
        · exact Or.inl ⟨rfl, p, rfl, h1⟩
        · exact Or.inr (Or.inl ⟨h0, rfl, p, rfl, h1⟩)
        · exact Or.inr (Or.inr ⟨h0, h3, h5⟩)
        · exact h.elim
      · rintro (⟨rfl, p, rfl, h1⟩ | ⟨h0, rfl, p, rfl, h1⟩ | ⟨h0, h3, ty, hty, rfl, p, rfl, h5⟩)
        · exact Or.inl ⟨rfl, p, o, h1, rfl, rfl⟩
        · exact Or.inr ⟨h0, Or.inl ⟨rfl, p, o, h1, rfl, rfl⟩⟩
        · refine Or.inr ⟨h0, Or.inr ⟨h3, Or.inl ⟨?_, ty, hty, rfl, p, rfl, h5⟩⟩⟩
          rcases hty with rfl | rfl
          · exact Or.inr rfl
          · exact Or.inl rfl
  · intro r i o
    constructor
    · rintro ⟨b, m, ⟨rfl, h1⟩ | ⟨rfl, rfl, h1, h2⟩, ⟨h3, rfl, rfl⟩ | ⟨h3, t, m1, ⟨ty, rfl, h4, rfl⟩, c, m2, ⟨h5, rfl⟩, v, m3, h6, rfl, rfl⟩⟩
      · exact h1
      · exact absurd rfl h3
      · cases h3
      · refine ⟨c, h5, fun hx => h2 (by rw [h5, hx]), ?_⟩
        rcases h6 with ⟨h7, p, rfl, h8⟩ | ⟨_, h7, p, rfl, h8⟩ | ⟨_, _, ty', hty, h7, p, rfl, h8⟩
        · exact ⟨h7, h8⟩
        · exact ⟨h7, h8⟩
        · exact ⟨ty', hty, rfl, h8⟩
    · cases r with
      | none => intro h; exact ⟨true, o, Or.inl ⟨rfl, h⟩, Or.inl ⟨rfl, rfl, rfl⟩⟩
      | some v =>
        rintro ⟨b, h1, h2, h3⟩
        have hni : i ≠ [] := by rintro rfl; cases h1
        have hne : i.head? ≠ some 0x01 := by rw [h1]; intro hx; cases hx; exact h2 rfl
        refine ⟨false, i, Or.inr ⟨rfl, rfl, hni, hne⟩, Or.inr ⟨by simp, ?_⟩⟩
        obtain ⟨ty, d⟩ := v
        cases d with
        | bytes p =>
          obtain ⟨h4, h5⟩ := h3
          simp only at h4
          subst h4
          obtain ⟨x, rfl, h6⟩ := must_some (g := str) rfl h5 hne
          exact ⟨_, i, ⟨0, rfl, str_type h6, rfl⟩, b, i, ⟨h1, rfl⟩, _, o, Or.inl ⟨rfl, _, rfl, h6⟩, rfl, rfl⟩
        | boolean p =>
          obtain ⟨h4, h5⟩ := h3
          simp only at h4
          subst h4
          obtain ⟨x, rfl, h6⟩ := must_some (g := boolean) rfl h5 hne
          exact ⟨_, i, ⟨4, rfl, boolean_type h6, rfl⟩, b, i, ⟨h1, rfl⟩, _, o, Or.inr (Or.inl ⟨by decide, rfl, _, rfl, h6⟩), rfl, rfl⟩
        | num p =>
          obtain ⟨t, ht, h4, h5⟩ := h3
          simp only at h4
          subst h4
          obtain ⟨x, rfl, h6⟩ := must_some (g := num t (room b)) rfl h5 hne
          refine ⟨_, i, ⟨t, rfl, num_type h6, rfl⟩, b, i, ⟨h1, rfl⟩, _, o, Or.inr (Or.inr ⟨?_, ?_, t, ht, rfl, _, rfl, h6⟩), rfl, rfl⟩
          · rcases ht with rfl | rfl <;> decide
          · rcases ht with rfl | rfl <;> decide

end Sml
