import Verif.Proofs.FileLong
import Verif.Proofs.GrammarMessage
import Verif.Spec.Tokens

/-!
# Without an error, fields are read as a whole, and no length overflows
-/

namespace Sml

open Spec Spec.Grammar

set_option linter.unusedSimpArgs false
set_option linter.unusedVariables false
set_option maxRecDepth 4000

/-- From a sequence of fields to a sequence of fields, without an overflow. -/
structure Smooth (p : M α) : Prop where
  loc : Loc p
  tok : ∀ st a s, st.cursor ≤ st.data.length → st.data.length ≤ 2147483647 → Tokens st.rest → p st = .ok a s → s.error = false →
    Tokens s.rest ∧ s.sovf = st.sovf

/-- The same if a list comes next. -/
structure SmoothL (p : M α) : Prop where
  loc : Loc p
  tok : ∀ st a s, st.cursor ≤ st.data.length → st.data.length ≤ 2147483647 → Tokens st.rest → nextType 7 st.rest → p st = .ok a s → s.error = false →
    Tokens s.rest ∧ s.sovf = st.sovf

theorem error_back {f : M α} (hf : Loc f) {s1 s : St} {a : α} (h : f s1 = .ok a s) (he : s.error = false) : s1.error = false := by
  cases h1 : s1.error with
  | false => rfl
  | true =>
    have := hf.sticky s1 h1 _ _ h
    rw [this] at he
    cases he

theorem smooth_bind {p : M α} {f : α → M β} (hp : Smooth p) (hf : ∀ a, Smooth (f a)) : Smooth (p >>= f) := by
  refine ⟨loc_bind hp.loc fun a => (hf a).loc, fun st b s hc hl ht h he => ?_⟩
  obtain ⟨a, s1, h1, h2⟩ := bind_inv h
  obtain ⟨d1, d2, d3⟩ := hp.loc.adv st hc _ _ h1
  obtain ⟨t1, o1⟩ := hp.tok st a s1 hc hl ht h1 (error_back (hf a).loc h2 he)
  obtain ⟨t2, o2⟩ := (hf a).tok s1 b s (by rw [d1]; exact d3) (by rw [d1]; exact hl) t1 h2 he
  exact ⟨t2, o2.trans o1⟩

theorem smoothL_bind {p : M α} {f : α → M β} (hp : SmoothL p) (hf : ∀ a, Smooth (f a)) : SmoothL (p >>= f) := by
  refine ⟨loc_bind hp.loc fun a => (hf a).loc, fun st b s hc hl ht hn h he => ?_⟩
  obtain ⟨a, s1, h1, h2⟩ := bind_inv h
  obtain ⟨d1, d2, d3⟩ := hp.loc.adv st hc _ _ h1
  obtain ⟨t1, o1⟩ := hp.tok st a s1 hc hl ht hn h1 (error_back (hf a).loc h2 he)
  obtain ⟨t2, o2⟩ := (hf a).tok s1 b s (by rw [d1]; exact d3) (by rw [d1]; exact hl) t1 h2 he
  exact ⟨t2, o2.trans o1⟩

/-- Programs that leave bytes, cursor and overflow flag alone. -/
theorem smooth_of {p : M α} (hl : Loc p) (h : ∀ st, Wlp p st fun _ s => s.error = false → s.data = st.data ∧ s.cursor = st.cursor ∧ s.sovf = st.sovf) : Smooth p := by
  refine ⟨hl, fun st a s _ _ ht hp he => ?_⟩
  obtain ⟨h1, h2, h3⟩ := h st a s hp he
  exact ⟨by unfold St.rest; rw [h1, h2]; exact ht, h3⟩

theorem smooth_pure (a : α) : Smooth (pure a : M α) := smooth_of (loc_pure a) fun st => by simp

theorem smooth_undef {r : Ub} : Smooth (undef r : M α) := smooth_of loc_undef fun st => by simp

theorem smooth_alloc (n : Nat) : Smooth (alloc n) := smooth_of (loc_alloc n) fun st => by simp

theorem smooth_release (n : Nat) : Smooth (release n) := smooth_of (loc_release n) fun st => by simp

theorem smooth_setError : Smooth setError := smooth_of loc_setError fun st => by simp

theorem smooth_hasErrors : Smooth hasErrors := smooth_of loc_hasErrors fun st => by simp

theorem smooth_getCurrentByte : Smooth getCurrentByte := smooth_of loc_getCurrentByte fun st => by simp

theorem smooth_getNextType : Smooth getNextType := smooth_of loc_getNextType fun st => by
  refine wlp_getNextType (fun _ h => ?_) fun _ _ => ⟨rfl, rfl, rfl⟩
  cases h

theorem smooth_ite {c : Prop} [Decidable c] {p q : M α} (hp : Smooth p) (hq : Smooth q) : Smooth (if c then p else q) := by
  split
  · exact hp
  · exact hq

theorem smooth_failWith (n : Nat) : Smooth (failWith n : M (Option α)) :=
  smooth_bind smooth_setError fun _ => smooth_bind (smooth_release n) fun _ => smooth_pure _

/-- What the first field of a sequence is. -/
theorem Tokens.cases_head {b : UInt8} {x : List UInt8} (h : Tokens (b :: x)) : (b = 0 ∧ Tokens x) ∨
    (∃ hd r, IsHeader hd ∧ headerType hd = 7 ∧ b.toNat / 16 % 8 = 7 ∧ headerValue hd < 2147483648 ∧ Tokens r ∧ b :: x = hd ++ r) ∨
    (∃ hd bs r, IsHeader hd ∧ headerType hd = b.toNat / 16 % 8 ∧ b.toNat / 16 % 8 ≠ 7 ∧ headerValue hd < 2147483648 ∧ headerLength hd = bs.length ∧ Tokens r ∧ b :: x = hd ++ (bs ++ r)) := by
  have first : ∀ hd r, IsHeader hd → b :: x = hd ++ r → headerType hd = b.toNat / 16 % 8 := by
    rintro hd r ⟨more, last, rfl, _, _⟩ h
    cases more with
    | nil => simp at h; simp [headerType, h.1]
    | cons c more => simp at h; simp [headerType, h.1]
  generalize hi : b :: x = i at h
  cases h with
  | nil => cases hi
  | stop h => injection hi with h1 h2; subst h1; subst h2; exact .inl ⟨rfl, h⟩
  | list h1 h2 h3 h4 => exact .inr (.inl ⟨_, _, h1, h2, by rw [← first _ _ h1 hi]; exact h2, h3, h4, rfl⟩)
  | field h1 h2 h3 h4 h5 => exact .inr (.inr ⟨_, _, _, h1, first _ _ h1 hi, by rw [← first _ _ h1 hi]; exact h2, h3, h4, h5, rfl⟩)

/-- A header of one byte. -/
theorem header_one {b : UInt8} {x hd r : List UInt8} (hb : b.toNat < 128) (hh : IsHeader hd) (h : b :: x = hd ++ r) : hd = [b] := by
  obtain ⟨more, last, rfl, hm, hl⟩ := hh
  cases more with
  | nil => simp at h; simp [h.1]
  | cons c more =>
    simp at h
    have := hm c (by simp)
    rw [← h.1] at this
    omega

theorem Tokens.skip {x : List UInt8} (h : Tokens (0x00 :: x)) : Tokens x := by
  rcases Tokens.cases_head h with ⟨_, h⟩ | ⟨_, _, _, _, h, _⟩ | ⟨hd, bs, r, h1, _, _, _, h5, _, h7⟩
  · exact h
  · exact absurd h (by decide)
  · have := header_one (by decide) h1 h7
    subst this
    have hz : headerLength [0x00] = -1 := by decide
    omega

theorem smooth_optionalIsSkipped : Smooth optionalIsSkipped := by
  refine ⟨loc_optionalIsSkipped, fun st a s hc hl ht h he => ?_⟩
  have : Wlp optionalIsSkipped st fun _ s => s.error = false → Tokens s.rest ∧ s.sovf = st.sovf := by
    apply wlp_skipped
    · intro _ h; cases h
    · intro hlt hb _
      refine ⟨?_, rfl⟩
      have hrest : st.rest = st.data[st.cursor] :: st.data.drop (st.cursor + 1) := List.drop_eq_getElem_cons hlt
      rw [hrest, hb] at ht
      show Tokens (st.data.drop (st.cursor + 1))
      rcases Tokens.cases_head ht with ⟨h, _⟩ | ⟨_, _, _, _, h, _⟩ | ⟨hd, bs, r, h1, h2, h3, h4, h5, h6, h7⟩
      · cases h
      · exact absurd h (by decide)
      · have := header_one (by decide) h1 h7
        subst this
        have hz : headerLength [0x01] = 0 := by decide
        rw [hz] at h5
        have : bs = [] := List.length_eq_zero_iff.mp (by omega)
        subst this
        simp only [List.nil_append, List.cons_append, List.cons.injEq, true_and] at h7
        rw [h7]
        exact h6
    · intro _ _ _
      exact ⟨ht, rfl⟩
  exact this a s h he

theorem smooth_optional {p : M (Option α)} (hp : Smooth p) : Smooth (optional p) :=
  smooth_bind smooth_optionalIsSkipped fun _ => smooth_ite (smooth_pure _) hp

theorem smooth_field {p : M α} {set : α → R} {freed : R → Nat} {k : R → M (Option β)}
    (hp : Smooth p) (hk : ∀ v, Smooth (k v)) : Smooth (field p set freed k) :=
  smooth_bind hp fun _ => smooth_bind smooth_hasErrors fun _ =>
    smooth_ite (smooth_bind (smooth_release _) fun _ => smooth_pure _) (hk _)

theorem smooth_guard' {c : St → Prop} [DecidablePred c] {q p : M α}
    (hl : Loc (do let st ← getSt; if c st then q else p)) (hq : Smooth q) (hp : Smooth p) :
    Smooth (do let st ← getSt; if c st then q else p) := by
  refine ⟨hl, fun st a s hc hl ht h he => ?_⟩
  change (if c st then q else p) st = _ at h
  split at h
  · exact hq.tok st a s hc hl ht h he
  · exact hp.tok st a s hc hl ht h he

theorem smooth_guard {c : St → Prop} [DecidablePred c] {n : Nat} {p : M (Option α)}
    (hcond : ∀ st st', st.cursor ≤ st.data.length → st'.cursor ≤ st'.data.length →
      st.data.length - st.cursor ≤ st'.data.length - st'.cursor → c st' → c st) (hp : Smooth p) :
    Smooth (do let st ← getSt; if c st then failWith n else p) :=
  smooth_guard' (loc_guard hcond hp.loc) (smooth_failWith n) hp

/-! ## Headers -/

theorem wrap_small {x : Int} (h1 : -2147483648 ≤ x) (h2 : x < 2147483648) : wrap32 x = x := by
  unfold wrap32
  exact Int.bmod_eq_of_le (by omega) (by omega)

/-- The header of the next field is read without an overflow. -/
theorem header_smooth {st : St} {hd r : List UInt8} (hc : st.cursor ≤ st.data.length) (hl : st.data.length ≤ 2147483647) (hh : IsHeader hd)
    (hv : headerValue hd < 2147483648) (hr : st.rest = hd ++ r) : getNextLength st = .ok (headerLength hd) { st with cursor := st.cursor + hd.length } ∧
      st.data.drop (st.cursor + hd.length) = r := by
  have hle : hd.length ≤ st.data.length := by
    have := congrArg List.length hr
    simp [St.rest] at this
    omega
  obtain ⟨o, h1, h2⟩ := getNextLength_run hh hr
  obtain ⟨rfl, h3⟩ := h2 hv (by omega)
  refine ⟨?_, ?_⟩
  · rw [h1, h3]
    congr 1
    unfold toI32
    rw [if_pos hv, wrap_small]
    · unfold headerLength
      split <;> omega
    · split <;> omega
    · split <;> omega
  · rw [← List.drop_drop, show st.data.drop st.cursor = hd ++ r from hr, List.drop_left]

theorem smoothL_getNextLength : SmoothL getNextLength := by
  refine ⟨loc_getNextLength, fun st a s hc hl ht hn h he => ?_⟩
  obtain ⟨b, hb, h7⟩ := hn
  obtain ⟨x, hx⟩ : ∃ x, st.rest = b :: x := by
    cases hr : st.rest with
    | nil => rw [hr] at hb; cases hb
    | cons c x => rw [hr] at hb; cases hb; exact ⟨x, rfl⟩
  rw [hx] at ht
  rcases Tokens.cases_head ht with ⟨rfl, _⟩ | ⟨hd, r, h1, h2, _, h3, h4, h5⟩ | ⟨_, _, _, _, _, h, _⟩
  · exact absurd h7 (by decide)
  · obtain ⟨g1, g2⟩ := header_smooth hc hl h1 h3 (hx.trans h5)
    rw [g1] at h
    cases h
    exact ⟨by show Tokens (st.data.drop _); rw [g2]; exact h4, rfl⟩
  · exact absurd h7 h

theorem Smooth.weaken {p : M α} (h : Smooth p) : SmoothL p := ⟨h.loc, fun st a s hc hl ht _ hp he => h.tok st a s hc hl ht hp he⟩

theorem smoothL_alloc {n : Nat} {p : M α} (h : SmoothL p) : SmoothL (do alloc n; p) := by
  refine ⟨loc_bind (loc_alloc n) fun _ => h.loc, fun st a s hc hl ht hn hp he => ?_⟩
  exact h.tok { st with live := st.live + n } a s hc hl ht hn hp he

/-- The program behind a look at the type. -/
theorem smooth_type {k : Nat → M α} (hk : ∀ t, t ≠ tyList → Smooth (k t)) (hL : SmoothL (k tyList)) : Smooth (getNextType >>= k) := by
  refine ⟨loc_bind loc_getNextType fun t => ?_, fun st a s hc hl ht h he => ?_⟩
  · by_cases h : t = tyList
    · rw [h]; exact hL.loc
    · exact (hk t h).loc
  · by_cases hlt : st.cursor < st.data.length
    · rw [bind_ok (run_getNextType hlt)] at h
      by_cases h7 : st.data[st.cursor].toNat &&& 0x70 = tyList
      · rw [h7] at h
        refine hL.tok st a s hc hl ht ⟨_, rest_head.2 ⟨hlt, rfl⟩, ?_⟩ h he
        rw [type_bits] at h7
        simp only [tyList] at h7
        omega
      · exact (hk _ h7).tok st a s hc hl ht h he
    · have hg : getNextType st = .ok 0x100 { st with error := true } := by unfold getNextType; rw [if_pos (by omega)]
      rw [bind_ok hg] at h
      have := error_back (hk 0x100 (by decide)).loc h he
      cases this

theorem smooth_notList {f p : M α} (hf : Smooth f) (hp : SmoothL p) : Smooth (do let t ← getNextType; if t ≠ tyList then f else p) := by
  refine smooth_type (fun t ht => ?_) ?_
  · rw [if_pos ht]; exact hf
  · rw [if_neg (by simp)]; exact hp

theorem smooth_expectList {n : Int} {own : Nat} {k : M (Option α)} (hk : Smooth k) : Smooth (expectList n own k) :=
  smooth_notList (smooth_failWith _) (smoothL_bind smoothL_getNextLength fun _ => smooth_ite (smooth_failWith _) hk)

/-- `k` takes as many bytes as were announced. -/
def Takes (l : Int) (k : M α) : Prop := ∀ st, st.cursor ≤ st.data.length → Wlp k st fun _ s => s.error = false →
  0 ≤ l ∧ s.data = st.data ∧ s.cursor = st.cursor + l.toNat ∧ s.cursor ≤ st.data.length ∧ s.sovf = st.sovf

theorem smooth_prim {ty : Nat} {f : M α} {k : Int → M α} (h7 : ty ≠ tyList) (hf : Smooth f) (hl : ∀ l, Loc (k l)) (hk : ∀ l, Takes l (k l)) :
    Smooth (do let t ← getNextType; if t ≠ ty then f else do let l ← getNextLength; k l) := by
  refine ⟨loc_bind loc_getNextType fun t => loc_ite hf.loc (loc_bind loc_getNextLength hl), fun st a s hc hlen ht h he => ?_⟩
  by_cases hlt : st.cursor < st.data.length
  · rw [bind_ok (run_getNextType hlt)] at h
    split at h
    · exact hf.tok st a s hc hlen ht h he
    · next hty =>
      have hty : st.data[st.cursor].toNat &&& 0x70 = ty := Decidable.byContradiction hty
      have hrest : st.rest = st.data[st.cursor] :: st.data.drop (st.cursor + 1) := List.drop_eq_getElem_cons hlt
      have go : ∀ hd bs r, IsHeader hd → headerValue hd < 2147483648 → headerLength hd = (bs.length : Int) → Tokens r → st.rest = hd ++ (bs ++ r) → Tokens s.rest ∧ s.sovf = st.sovf := by
        intro hd bs r h1 h2 h3 h4 h5
        obtain ⟨g1, g2⟩ := header_smooth hc hlen h1 h2 h5
        rw [bind_ok g1, h3] at h
        have hle : st.cursor + hd.length ≤ st.data.length := by
          have := congrArg List.length h5
          simp [St.rest] at this
          omega
        obtain ⟨_, q1, q2, q3, q4⟩ := hk _ _ (by exact hle) _ _ h he
        refine ⟨?_, q4⟩
        unfold St.rest
        rw [q1, q2]
        simp only
        rw [show st.cursor + hd.length + ((bs.length : Int)).toNat = st.cursor + hd.length + bs.length by omega, ← List.drop_drop, g2, List.drop_left]
        exact h4
      rw [hrest] at ht
      rcases Tokens.cases_head ht with ⟨h0, hx⟩ | ⟨_, _, _, _, h, _⟩ | ⟨hd, bs, r, h1, _, _, h3, h4, h5, h6⟩
      · have hh : IsHeader [0x00] := ⟨[], 0x00, rfl, by simp, by decide⟩
        obtain ⟨g1, g2⟩ := header_smooth (hd := [0x00]) hc hlen hh (by decide) (by rw [hrest, h0]; rfl)
        rw [bind_ok g1] at h
        obtain ⟨q, _⟩ := hk _ _ (by simp; omega) _ _ h he
        exact absurd q (by decide)
      · exfalso
        rw [type_bits] at hty
        simp only [tyList] at h7
        omega
      · exact go hd bs r h1 h3 h4 h5 (hrest.trans h6)
  · have hg : getNextType st = .ok 0x100 { st with error := true } := by unfold getNextType; rw [if_pos (by omega)]
    rw [bind_ok hg] at h
    split at h
    · have := error_back hf.loc h he
      cases this
    · have := error_back (loc_bind loc_getNextLength hl) h he
      cases this

/-! ## Primitive values -/

theorem smooth_ite' {c : Prop} [Decidable c] {p q : M α} (hp : c → Smooth p) (hq : ¬ c → Smooth q) : Smooth (if c then p else q) := by
  split
  · exact hp ‹_›
  · exact hq ‹_›

theorem smooth_number {type max : Nat} (h7 : type ≠ tyList) : Smooth (numberParse type max) := by
  refine ⟨loc_number type max, ?_⟩
  unfold numberParse
  refine (smooth_bind smooth_optionalIsSkipped fun _ => smooth_ite (smooth_pure _) ?_).tok
  refine smooth_guard (by omega) ?_
  refine smooth_prim h7 (smooth_failWith _) (fun l => ?_) fun l st hc => ?_
  · refine loc_ite (loc_failWith _) ?_
    refine loc_bind (loc_alloc _) fun _ => ?_
    have e : ∀ p : M (Option Num), (do
        let st ← getSt
        if st.cursor + l.toNat > st.data.length then failWith 1
        else if st.cursor + 1 > st.data.length then failWith 1
        else p) = (do
        let st ← getSt
        if st.cursor + l.toNat > st.data.length ∨ st.cursor + 1 > st.data.length then failWith 1
        else p) := by
      intro p
      funext st
      show (if _ then _ else if _ then _ else _ : M (Option Num)) st = (if _ then _ else _ : M (Option Num)) st
      by_cases h1 : st.cursor + l.toNat > st.data.length
      · rw [if_pos h1, if_pos (Or.inl h1)]
      · rw [if_neg h1]
        by_cases h2 : st.cursor + 1 > st.data.length
        · rw [if_pos h2, if_pos (Or.inr h2)]
        · rw [if_neg h2, if_neg (by omega)]
    rw [e]
    refine loc_guard (by omega) ?_
    exact loc_bind loc_getCurrentByte fun _ => loc_take _ fun _ => loc_pure _
  · simp only [wlp_bind, wlp_ite, wlp_failWith, wlp_alloc, wlp_getSt, wlp_getCurrentByte, wlp_readBytes, wlp_updateBytesRead, wlp_pure]
    refine ⟨fun _ _ => by simp, fun h1 => ⟨fun _ _ => by simp, fun h2 => ⟨fun _ _ => by simp, fun h3 h4 h5 => ?_⟩⟩⟩
    intro _
    exact ⟨by omega, trivial, trivial, by omega, trivial⟩

theorem smooth_octetString : Smooth octetStringParse := by
  unfold octetStringParse
  refine smooth_bind smooth_optionalIsSkipped fun _ => smooth_ite (smooth_pure _) ?_
  refine smooth_prim (by decide) (smooth_failWith _) (fun l => ?_) fun l st hc => ?_
  · refine loc_guard (by omega) ?_
    have h := loc_take l.toNat (f := fun bs => do let str ← octetStringInit bs; pure (some str))
      fun bs => loc_bind (loc_octetStringInit bs) fun _ => loc_pure _
    have e : (do
        let bytes ← readBytes l.toNat
        let str ← octetStringInit bytes
        updateBytesRead l.toNat
        pure (some str)) = (do
        let bytes ← readBytes l.toNat
        updateBytesRead l.toNat
        let str ← octetStringInit bytes
        pure (some str)) := by
      funext st
      show M.bind _ _ st = M.bind _ _ st
      unfold M.bind
      cases readBytes l.toNat st with
      | ub _ => rfl
      | ok bs s =>
        unfold octetStringInit
        show M.bind _ _ s = M.bind _ _ s
        unfold M.bind
        cases bs <;> rfl
    rw [e]
    exact h
  · simp only [octetStringInit, wlp_bind, wlp_ite, wlp_failWith, wlp_alloc, wlp_getSt, wlp_readBytes, wlp_updateBytesRead, wlp_pure]
    refine ⟨fun _ _ => by simp, fun h1 h2 => ⟨fun _ => ?_, fun _ => ?_⟩⟩
    · intro _
      exact ⟨by omega, trivial, trivial, by omega, trivial⟩
    · intro _
      exact ⟨by omega, trivial, trivial, by omega, trivial⟩

theorem smooth_boolean : Smooth booleanParse := by
  unfold booleanParse
  refine smooth_bind smooth_optionalIsSkipped fun _ => smooth_ite (smooth_pure _) ?_
  refine smooth_prim (by decide) (smooth_failWith _) (fun l => ?_) fun l st hc => ?_
  · refine loc_ite (loc_failWith _) ?_
    refine loc_guard (by omega) ?_
    exact loc_next fun _ => loc_bind (loc_alloc _) fun _ => loc_ite (loc_pure _) (loc_pure _)
  · simp only [wlp_bind, wlp_ite, wlp_failWith, wlp_alloc, wlp_getSt, wlp_getCurrentByte, wlp_updateBytesRead, wlp_pure]
    refine ⟨fun _ _ => by simp, fun h1 => ⟨fun _ _ => by simp, fun h2 h3 => ⟨fun _ => ?_, fun _ => ?_⟩⟩⟩
    · intro _
      exact ⟨by omega, trivial, by omega, by omega, trivial⟩
    · intro _
      exact ⟨by omega, trivial, by omega, by omega, trivial⟩

theorem smooth_value : Smooth valueParse := by
  unfold valueParse
  refine smooth_bind smooth_optionalIsSkipped fun _ => smooth_ite (smooth_pure _) ?_
  refine smooth_bind smooth_getNextType fun t => smooth_bind smooth_getCurrentByte fun b => smooth_bind (smooth_alloc _) fun _ => ?_
  refine smooth_bind ?_ fun v => smooth_bind smooth_hasErrors fun _ =>
    smooth_ite (smooth_bind (smooth_release _) fun _ => smooth_pure _) (smooth_pure _)
  refine smooth_ite (smooth_bind smooth_octetString fun _ => smooth_pure _) ?_
  refine smooth_ite (smooth_bind smooth_boolean fun _ => smooth_pure _) ?_
  refine smooth_ite' (fun h => smooth_bind (smooth_number ?_) fun _ => smooth_pure _) fun _ => smooth_bind smooth_setError fun _ => smooth_pure _
  rcases h with h | h <;> rw [h] <;> decide

theorem smooth_status : Smooth statusParse := by
  unfold statusParse
  refine smooth_bind smooth_optionalIsSkipped fun _ => smooth_ite (smooth_pure _) ?_
  refine smooth_bind smooth_getNextType fun t => smooth_bind smooth_getCurrentByte fun b => smooth_bind (smooth_alloc _) fun _ => ?_
  refine smooth_bind ?_ fun v => smooth_bind smooth_hasErrors fun _ =>
    smooth_ite (smooth_bind (smooth_release _) fun _ => smooth_pure _) (smooth_pure _)
  exact smooth_ite' (fun h => smooth_bind (smooth_number (by rw [h]; decide)) fun _ => smooth_pure _) fun _ => smooth_bind smooth_setError fun _ => smooth_pure _

/-- Composition. -/
macro "smooths" "[" xs:term,* "]" : tactic => do
  let alts ← xs.getElems.mapM fun t => `(tacticSeq| exact $t)
  `(tactic| repeat' first
    | exact smooth_pure _ | exact smooth_number (by decide) | exact smooth_octetString | exact smooth_boolean | exact smooth_value
    | exact smooth_status | exact smooth_failWith _ | exact smooth_alloc _ | exact smooth_release _ | exact smooth_setError
    | exact smooth_hasErrors | exact smooth_getCurrentByte
    | exact smooth_optionalIsSkipped
    $[| $alts:tacticSeq]*
    | refine smooth_field ?_ fun _ => ?_
    | refine smooth_expectList ?_
    | refine smooth_optional ?_
    | refine smooth_notList ?_ ?_
    | refine smoothL_alloc ?_
    | refine smoothL_bind smoothL_getNextLength fun _ => ?_
    | refine smooth_ite ?_ ?_
    | refine smooth_bind ?_ fun _ => ?_)

theorem smooth_timeData (tag : Option Num) : Smooth (timeParseData tag) := by
  unfold timeParseData
  refine smooth_type (fun t ht => ?_) ?_
  · dsimp only
    rw [if_neg ht]
    smooths []
  · dsimp only
    rw [if_neg (by decide), if_pos rfl]
    smooths []

theorem smooth_time : Smooth timeParse := by
  unfold timeParse
  smooths [smooth_timeData _]

/-! ## Lists -/

theorem smooth_sequenceAdd (s : Sequence α) (e : Option α) : Smooth (sequenceAdd s e) := by
  unfold sequenceAdd
  smooths []

theorem smooth_sequenceLoop {p : M (Option α)} (hp : Smooth p) (freed : Option α → Nat) (i : Nat) :
    ∀ s, Smooth (sequenceLoop p freed i s) := by
  induction i with
  | zero => intro s; exact smooth_pure _
  | succ i ih => intro s; unfold sequenceLoop; smooths [hp, smooth_sequenceAdd _ _, ih _]

theorem smooth_sequence {p : M (Option α)} (hp : Smooth p) (freed : Option α → Nat) : Smooth (sequenceParse p freed) := by
  unfold sequenceParse
  smooths [smooth_sequenceLoop hp freed _ _]

theorem smooth_noteConfused (v : Value) : Smooth (noteConfused v) := by
  refine smooth_of (loc_noteConfused v) fun st => ?_
  unfold noteConfused
  split <;> simp

theorem smooth_detect (l : ListEntry) : Smooth (detectBuggyDzgDvs74 l) := by
  unfold detectBuggyDzgDvs74
  repeat' (first | exact smooth_pure _ | exact smooth_undef | split)

theorem smooth_listEntryFinish (l : ListEntry) (b : UInt8) (wa : Bool) : Smooth (listEntryFinish l b wa) := by
  unfold listEntryFinish
  refine smooth_bind (smooth_detect _) fun _ => smooth_ite (smooth_pure _) ?_
  split
  · smooths [smooth_noteConfused _]
  · exact smooth_pure _

theorem smooth_listEntry (wa : Bool) : Smooth (listEntryParse wa) := by
  unfold listEntryParse
  dsimp only
  smooths [smooth_time, smooth_listEntryFinish _ _ _, smooth_guard (by omega) (by smooths [smooth_time, smooth_listEntryFinish _ _ _])]

theorem smooth_listLoop (elems : Nat) : ∀ wa acc, Smooth (listLoop elems wa acc) := by
  induction elems with
  | zero => intro wa acc; exact smooth_pure _
  | succ n ih =>
    intro wa acc
    unfold listLoop
    refine smooth_bind (smooth_listEntry wa) fun e => ?_
    refine smooth_bind smooth_hasErrors fun _ => ?_
    refine smooth_ite (by smooths []) ?_
    split
    · exact smooth_undef
    · exact ih _ _

theorem smooth_list : Smooth listParse := by
  unfold listParse
  smooths [smooth_listLoop _ _ _]

/-! ## Trees -/

theorem smooth_treePathAdd (p : TreePath) (e : Option OctetString) : Smooth (treePathAdd p e) := by
  unfold treePathAdd
  smooths []

theorem smooth_treePathLoop (n : Nat) : ∀ p, Smooth (treePathLoop n p) := by
  induction n with
  | zero => intro p; exact smooth_pure _
  | succ n ih =>
    intro p
    unfold treePathLoop
    refine smooth_bind smooth_octetString fun e => smooth_bind smooth_hasErrors fun _ => smooth_ite (smooth_failWith _) ?_
    split
    · exact ih _
    · exact smooth_bind (smooth_treePathAdd _ _) fun _ => ih _

theorem smooth_treePath : Smooth treePathParse := by
  unfold treePathParse
  smooths [smooth_treePathLoop _ _]

theorem smooth_periodEntry : Smooth periodEntryParse := by
  unfold periodEntryParse
  dsimp only
  smooths []

theorem smooth_tupelEntry : Smooth tupelEntryParse := by
  unfold tupelEntryParse
  dsimp only
  smooths [smooth_time]

theorem smooth_procParValue : Smooth procParValueParse := by
  unfold procParValueParse
  dsimp only
  refine smooth_optional (smooth_bind (smooth_alloc _) fun _ => smooth_expectList (smooth_field (smooth_number (by decide)) fun _ => ?_))
  split
  · smooths []
  · split <;> smooths [smooth_periodEntry, smooth_tupelEntry, smooth_time]

theorem smooth_treeAddTree (t c : Tree) : Smooth (treeAddTree t c) := by
  cases t
  unfold treeAddTree
  dsimp only
  smooths []

theorem smooth_treeLoop {p : M (Option Tree)} (hp : Smooth p) (n : Nat) : ∀ t, Smooth (treeLoop p n t) := by
  induction n with
  | zero => intro t; exact smooth_pure _
  | succ n ih =>
    intro t
    unfold treeLoop
    refine smooth_bind hp fun c => smooth_bind smooth_hasErrors fun _ => smooth_ite (by smooths []) ?_
    split
    · exact ih _
    · exact smooth_bind (smooth_treeAddTree _ _) fun _ => ih _

theorem smooth_tree (depth : Nat) : Smooth (treeParse depth) := by
  induction depth with
  | zero => exact smooth_undef
  | succ d ih =>
    unfold treeParse
    dsimp only
    smooths [smooth_procParValue, smooth_treeLoop ih _ _]

theorem smooth_openRequest : Smooth openRequestParse := by
  unfold openRequestParse
  dsimp only
  smooths [smooth_time]

theorem smooth_openResponse : Smooth openResponseParse := by
  unfold openResponseParse
  dsimp only
  smooths [smooth_time]

theorem smooth_closeRequest : Smooth closeRequestParse := by
  unfold closeRequestParse
  dsimp only
  smooths [smooth_time]

theorem smooth_closeResponse : Smooth closeResponseParse := by
  unfold closeResponseParse
  dsimp only
  smooths [smooth_time]

theorem smooth_valueEntry : Smooth valueEntryParse := by
  unfold valueEntryParse
  dsimp only
  smooths [smooth_time]

theorem smooth_profObjHeaderEntry : Smooth profObjHeaderEntryParse := by
  unfold profObjHeaderEntryParse
  dsimp only
  smooths [smooth_time]

theorem smooth_profObjPeriodEntry : Smooth profObjPeriodEntryParse := by
  unfold profObjPeriodEntryParse
  dsimp only
  smooths [smooth_time, smooth_sequence smooth_valueEntry _]

theorem smooth_getProfilePackResponse : Smooth getProfilePackResponseParse := by
  unfold getProfilePackResponseParse
  dsimp only
  smooths [smooth_time, smooth_treePath, smooth_sequence smooth_profObjHeaderEntry _, smooth_sequence smooth_profObjPeriodEntry _]

theorem smooth_getProfileListResponse : Smooth getProfileListResponseParse := by
  unfold getProfileListResponseParse
  dsimp only
  smooths [smooth_time, smooth_treePath, smooth_sequence smooth_periodEntry _]

theorem smooth_getProcParameterRequest : Smooth getProcParameterRequestParse := by
  unfold getProcParameterRequestParse
  dsimp only
  smooths [smooth_treePath]

theorem smooth_getProcParameterResponse (depth : Nat) : Smooth (getProcParameterResponseParse depth) := by
  unfold getProcParameterResponseParse
  dsimp only
  smooths [smooth_treePath, smooth_tree _]

theorem smooth_setProcParameterRequest (depth : Nat) : Smooth (setProcParameterRequestParse depth) := by
  unfold setProcParameterRequestParse
  dsimp only
  smooths [smooth_treePath, smooth_tree _]

theorem smooth_getListRequest : Smooth getListRequestParse := by
  unfold getListRequestParse
  dsimp only
  smooths [smooth_time]

theorem smooth_getListResponse : Smooth getListResponseParse := by
  unfold getListResponseParse
  dsimp only
  smooths [smooth_time, smooth_list]

theorem smooth_attentionResponse (depth : Nat) : Smooth (attentionResponseParse depth) := by
  unfold attentionResponseParse
  dsimp only
  smooths [smooth_tree _]

theorem smooth_objectListLoop (n : Nat) : ∀ m, Smooth (objectListLoop n m) := by
  induction n with
  | zero => intro m; exact smooth_pure _
  | succ n ih => intro m; unfold objectListLoop; smooths [ih _]

theorem smooth_objectList (m : GetProfilePackRequest) : Smooth (objectListParse m) := by
  unfold objectListParse
  smooths [smooth_objectListLoop _ _]

theorem smooth_getProfilePackRequest (depth : Nat) : Smooth (getProfilePackRequestParse depth) := by
  have h : ∀ r : Option GetProfilePackRequest, Smooth (match r with
      | none => pure none
      | some m => field (treeParse depth) (fun v => { m with dasDetails := v })
          (fun m => getProfilePackRequestFreed (some m)) fun m => pure (some m) : M (Option GetProfilePackRequest)) := by
    intro r
    cases r with
    | none => exact smooth_pure _
    | some m => dsimp only; smooths [smooth_tree _]
  unfold getProfilePackRequestParse
  dsimp only
  smooths [smooth_time, smooth_treePath, smooth_objectList _, h _]

theorem smooth_bodyData (depth tag : Nat) : Smooth (bodyDataParse depth tag) := by
  unfold bodyDataParse
  refine smooth_ite (smooth_bind smooth_openRequest fun _ => smooth_pure _) ?_
  refine smooth_ite (smooth_bind smooth_openResponse fun _ => smooth_pure _) ?_
  refine smooth_ite (smooth_bind smooth_closeRequest fun _ => smooth_pure _) ?_
  refine smooth_ite (smooth_bind smooth_closeResponse fun _ => smooth_pure _) ?_
  refine smooth_ite (smooth_bind (smooth_getProfilePackRequest _) fun _ => smooth_pure _) ?_
  refine smooth_ite (smooth_bind smooth_getProfilePackResponse fun _ => smooth_pure _) ?_
  refine smooth_ite (smooth_bind (smooth_getProfilePackRequest _) fun _ => smooth_pure _) ?_
  refine smooth_ite (smooth_bind smooth_getProfileListResponse fun _ => smooth_pure _) ?_
  refine smooth_ite (smooth_bind smooth_getProcParameterRequest fun _ => smooth_pure _) ?_
  refine smooth_ite (smooth_bind (smooth_getProcParameterResponse _) fun _ => smooth_pure _) ?_
  refine smooth_ite (smooth_bind (smooth_setProcParameterRequest _) fun _ => smooth_pure _) ?_
  refine smooth_ite (smooth_bind smooth_getListRequest fun _ => smooth_pure _) ?_
  refine smooth_ite (smooth_bind smooth_getListResponse fun _ => smooth_pure _) ?_
  refine smooth_ite (smooth_bind (smooth_attentionResponse _) fun _ => smooth_pure _) ?_
  exact smooth_pure _

theorem smooth_messageBody (depth : Nat) : Smooth (messageBodyParse depth) := by
  unfold messageBodyParse
  refine smooth_bind (smooth_alloc _) fun _ => ?_
  refine smooth_guard (by omega) ?_
  refine smooth_expectList (smooth_field (smooth_number (by decide)) fun tag => ?_)
  cases tag with
  | none => dsimp only; smooths []
  | some t => dsimp only; smooths [smooth_bodyData _ _]

theorem smooth_messageBodyFree (b : Option MessageBody) : Smooth (messageBodyFree b) := by
  unfold messageBodyFree
  split
  · exact smooth_pure _
  · split
    · exact smooth_undef
    · exact smooth_release _

theorem smooth_messageFail (m : Message) : Smooth (messageFail m) := by
  unfold messageFail messageFree
  smooths [smooth_messageBodyFree _]

/-! ## Messages -/

theorem smooth_endByte (m : Message) : Smooth (do
    let b ← getCurrentByte
    if b = 0x00 then do
      updateBytesRead 1
      pure (some m)
    else pure (some m)) := by
  refine ⟨loc_endByte m, fun st a s hc hl ht h he => ?_⟩
  have : Wlp (do
    let b ← getCurrentByte
    if b = 0x00 then do
      updateBytesRead 1
      pure (some m)
    else pure (some m)) st fun _ s => Tokens s.rest ∧ s.sovf = st.sovf := by
    simp only [wlp_bind, wlp_getCurrentByte, wlp_updateBytesRead, wlp_pure, wlp_ite]
    intro hlt
    refine ⟨fun hz => ⟨?_, trivial⟩, fun _ => ⟨ht, trivial⟩⟩
    have hrest : st.rest = st.data[st.cursor] :: st.data.drop (st.cursor + 1) := List.drop_eq_getElem_cons hlt
    rw [hrest, hz] at ht
    exact Tokens.skip ht
  exact this a s h

theorem smooth_tailWith (bytes : List UInt8) (m : Message) : Smooth (tailWith bytes m) := by
  have hE : ∀ m, Smooth (do setError; messageFail m) := fun m => smooth_bind smooth_setError fun _ => smooth_messageFail m
  have hl : ∀ m, Loc (do setError; messageFail m) := fun m => (hE m).loc
  unfold tailWith
  have k : Smooth (do
      let crc ← u16Parse
      let m := { m with crc := crc }
      let bad ← hasErrors
      match bad, crc with
      | false, some c =>
        if c.val ≠ (crc16 bytes).toNat ∧ c.val ≠ (crc16kermit bytes).toNat then
          messageFail m
        else do
          let st ← getSt
          if st.cursor ≥ st.data.length then do
            setError
            messageFail m
          else
            let b ← getCurrentByte
            if b = 0x00 then do
              updateBytesRead 1
              pure (some m)
            else pure (some m)
      | _, _ => do
        setError
        messageFail m) := by
    refine smooth_bind (smooth_number (by decide)) fun crc => smooth_bind smooth_hasErrors fun bad => ?_
    split
    · refine smooth_ite (smooth_messageFail _) ?_
      exact smooth_guard' (loc_guard' (by omega) (hl _) (errorFail _) (loc_endByte _)) (hE _) (smooth_endByte _)
    · exact hE _
  exact smooth_guard' (loc_guard' (by omega) (hl m) (errorFail m) k.loc) (hE m) k

theorem smooth_message {depth : Nat} {st s : St} {r : Option Message} (hc : st.cursor ≤ st.data.length) (hl : st.data.length ≤ 2147483647)
    (ht : Tokens st.rest) (h : messageParse depth st = .ok r s) (he : s.error = false) : Tokens s.rest ∧ s.sovf = st.sovf := by
  obtain ⟨m, s0, s1, s2, s3, s4, s5, c, hst, _⟩ := message_steps hc hl h he
  have hty : getNextType { st with live := st.live + 1 } = .ok 0x70 { st with live := st.live + 1 } := by
    rw [run_getNextType (by exact hst.start)]
    have := hst.type hst.start
    simp only [this]
  rw [message_run (m := { m with crc := none }) rfl (by omega) hty hst.header hst.tid hst.tid_err hst.group hst.group_err hst.abort hst.abort_err hst.body hst.body_err] at h
  have e0 : s0.error = false := parses_str.clean hst.tid hst.tid_err
  obtain ⟨d0, l0, c0⟩ := parses_getNextLength.after (by exact hc) hst.header
  obtain ⟨d1, l1, c1⟩ := parses_str.after c0 hst.tid
  obtain ⟨d2, l2, c2⟩ := (parses_u 1).after c1 hst.group
  obtain ⟨d3, l3, c3⟩ := (parses_u 1).after c2 hst.abort
  obtain ⟨d4, l4, c4⟩ := (parses_body depth).after c3 hst.body
  simp only at d0 l0
  have hn : nextType 7 st.rest := by
    refine ⟨_, rest_head.2 ⟨hst.start, rfl⟩, ?_⟩
    have := hst.type hst.start
    rw [type_bits] at this
    omega
  obtain ⟨t0, o0⟩ := smoothL_getNextLength.tok _ _ _ (by exact hc) (by exact hl) (by exact ht) (by exact hn) hst.header e0
  obtain ⟨t1, o1⟩ := smooth_octetString.tok _ _ _ c0 (by rw [d0]; exact hl) t0 hst.tid hst.tid_err
  obtain ⟨t2, o2⟩ := (smooth_number (by decide)).tok _ _ _ c1 (by rw [d1, d0]; exact hl) t1 hst.group hst.group_err
  obtain ⟨t3, o3⟩ := (smooth_number (by decide)).tok _ _ _ c2 (by rw [d2, d1, d0]; exact hl) t2 hst.abort hst.abort_err
  obtain ⟨t4, o4⟩ := (smooth_messageBody depth).tok _ _ _ c3 (by rw [d3, d2, d1, d0]; exact hl) t3 hst.body hst.body_err
  have h4 : s4.data.length ≤ 2147483647 := by rw [d4, d3, d2, d1, d0]; exact hl
  rw [tail_eq (by omega) c4 (by omega)] at h
  obtain ⟨t5, o5⟩ := (smooth_tailWith _ _).tok _ _ _ c4 h4 t4 h he
  exact ⟨t5, by rw [o5, o4, o3, o2, o1, o0]⟩

/-- The loop on a sequence of fields. -/
theorem fileLoop_smooth {depth : Nat} (fuel : Nat) : ∀ (f : File) (st : St), st.data.length ≤ 2147483647 → Pre (4 * depth) st → Tokens st.rest →
    Wlp (fileLoop depth fuel f) st fun _ s => s.error = false → s.sovf = st.sovf := by
  induction fuel with
  | zero => intro f st _ _ _ f' s h; cases h
  | succ fuel ih =>
    intro f st hN hpre ht f' s hr hok
    have hb := hpre.bound
    by_cases hlt : st.cursor < st.data.length
    · have hrest : st.rest = st.data[st.cursor] :: st.data.drop (st.cursor + 1) := List.drop_eq_getElem_cons hlt
      by_cases hz : st.data[st.cursor] = 0
      · have h1 : Step st { st with cursor := st.cursor + 1 } :=
          ⟨rfl, by simp, by simp; omega, by simp, Or.inl, Or.inl, id⟩
        rw [fileLoop_skip hlt hz] at hr
        rw [hrest, hz] at ht
        exact ih f { st with cursor := st.cursor + 1 } hN (hpre.step h1 hpre.clean) (Tokens.skip ht) f' s hr hok
      · obtain ⟨msg, s1, hm, h1, h2, h3, _, h5⟩ := post_iff.1 (good_message depth st hN (by omega) hpre (by omega))
        have hlen : s1.data.length = st.data.length := by rw [h1.data]
        rw [fileLoop_round hlt hz hm] at hr
        by_cases he : s1.error = true
        · rw [if_pos he] at hr
          cases hr
          rw [he] at hok; cases hok
        · rw [if_neg he] at hr
          have he' : s1.error = false := by simpa using he
          obtain ⟨t1, o1⟩ := smooth_message hb hN ht hm he'
          rw [← o1]
          cases msg with
          | none => exact ih f s1 (by omega) (hpre.step h1 he') t1 f' s hr hok
          | some m =>
            by_cases hge : f.messages.length ≥ 32767
            · simp only [fileAddMessage, if_pos hge] at hr
              cases hr
            obtain ⟨ms⟩ := f
            simp only [fileAddMessage, if_neg hge] at hr
            have hpre' : Pre (4 * depth) { s1 with live := s1.live + if ms.isEmpty = true then 1 else 0 } := hpre.step (h1.liveR _) he'
            have hr' : fileLoop depth fuel { messages := ms ++ [m] } { s1 with live := s1.live + if ms.isEmpty = true then 1 else 0 } = .ok f' s := by
              cases h : ms.isEmpty <;> rw [h] at hr <;> exact hr
            exact ih { messages := ms ++ [m] } _ (by simp; omega) hpre' t1 f' s hr' hok
    · unfold fileLoop at hr
      simp [bind, M.bind, getSt, hlt, pure] at hr
      obtain ⟨rfl, rfl⟩ := hr
      rfl

/-- `sml_file_parse` on a sequence of fields. -/
theorem fileParse_smooth {depth : Nat} {buffer : List UInt8} {f : File} {s : St} (hlen : buffer.length ≤ 2147483647) (hdepth : buffer.length < 4 * depth)
    (ht : Tokens buffer) (h : fileParse depth buffer = .ok f s) (he : s.error = false) : s.sovf = false :=
  fileLoop_smooth (depth := depth) (buffer.length + 1) { messages := [] } { data := buffer, live := 3 } hlen
    ⟨by simp, rfl, by simpa using hdepth⟩ (by simpa [St.rest] using ht) f s h he

end Sml
