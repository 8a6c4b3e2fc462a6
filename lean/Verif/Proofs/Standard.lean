import Verif.Spec.Standard
import Verif.Spec.Grammar

/-!
# What a conforming sender sends is in the language of the grammar
-/

namespace Sml

open Spec

namespace Std

variable {d : Nat}

/-- What is of kind `p` is read by `g`, if something follows. -/
def Und (d : Nat) (p : Term → Prop) (g : Grammar.Rel) : Prop :=
  ∀ t bs o, p t → Standard.Encodes t bs → bs.length < 2147483648 ∧ bs.length < 4 * d → o ≠ [] → g (bs ++ o) o

/-- The same for several terms. -/
def Unds (d : Nat) (ps : List (Term → Prop)) (g : Grammar.Rel) : Prop :=
  ∀ ts bs o, Standard.Each ps ts → Standard.EncodeAll ts bs → bs.length < 2147483648 ∧ bs.length < 4 * d → o ≠ [] → g (bs ++ o) o

theorem Unds.one {p : Term → Prop} {g : Grammar.Rel} (h : Und d p g) : Unds d [p] g := by
  intro ts bs o he hb hl ho
  match ts, he with
  | [t], he =>
    obtain ⟨x, y, h1, h2, rfl⟩ := hb
    cases h2
    rw [List.append_nil] at *
    exact h t x o he.1 h1 hl ho

theorem Und.cons {p : Term → Prop} {ps : List (Term → Prop)} {g G : Grammar.Rel} (h : Und d p g) (h' : Unds d ps G) :
    Unds d (p :: ps) (g.andThen G) := by
  intro ts bs o he hb hl ho
  match ts, he with
  | t :: ts, he =>
    obtain ⟨x, y, h1, h2, rfl⟩ := hb
    simp only [List.length_append] at hl
    rw [List.append_assoc]
    exact ⟨y ++ o, h t x (y ++ o) he.1 h1 (by omega) (by simp [ho]), h' ts y o he.2 h2 (by omega) ho⟩

theorem header_intro {ty n : Nat} {h o : List UInt8} (hh : Standard.Header ty n h) (hn : n < 2147483648) :
    Grammar.header ty n (h ++ o) o := by
  refine ⟨h, hh.1, hh.2.1, ?_, rfl⟩
  rw [Grammar.announced, hh.2.2]
  apply Int.bmod_eq_of_le <;> omega

theorem each_length {ps : List (Term → Prop)} {ts : List Term} (h : Standard.Each ps ts) : ts.length = ps.length := by
  induction ps generalizing ts with
  | nil => match ts, h with | [], _ => rfl
  | cons p ps ih => match ts, h with | t :: ts, h => simp [ih h.2]

theorem header_ne {ty n : Nat} {h : List UInt8} (hh : Standard.Header ty n h) : ∃ b r, h = b :: r := by
  obtain ⟨⟨more, last, rfl, _⟩, _⟩ := hh
  cases more <;> simp

theorem header_pos {ty n : Nat} {h : List UInt8} (hh : Standard.Header ty n h) : 1 ≤ h.length := by
  obtain ⟨b, r, rfl⟩ := header_ne hh
  simp

theorem encodes_pos {t : Term} {bs : List UInt8} (h : Standard.Encodes t bs) : 1 ≤ bs.length := by
  cases t with
  | absent => rw [Standard.Encodes] at h; subst h; decide
  | octets s => rw [Standard.Encodes] at h; obtain ⟨h, hh, _, rfl⟩ := h; have := header_pos hh; simp; omega
  | bool b => rw [Standard.Encodes] at h; obtain ⟨h, x, hh, _, rfl⟩ := h; simp
  | int s => rw [Standard.Encodes] at h; obtain ⟨h, hh, _, rfl⟩ := h; have := header_pos hh; simp; omega
  | uint s => rw [Standard.Encodes] at h; obtain ⟨h, hh, _, rfl⟩ := h; have := header_pos hh; simp; omega
  | list ts => rw [Standard.Encodes] at h; obtain ⟨h, r, hh, _, rfl⟩ := h; have := header_pos hh; simp; omega

theorem encodeAll_length {ts : List Term} {bs : List UInt8} (h : Standard.EncodeAll ts bs) : ts.length ≤ bs.length := by
  induction ts generalizing bs with
  | nil => simp
  | cons t ts ih =>
    obtain ⟨x, y, h1, h2, rfl⟩ := h
    have := encodes_pos h1
    have := ih h2
    simp; omega

theorem Unds.record {ps : List (Term → Prop)} {g : Grammar.Rel} (h : Unds d ps g) (n : Int) (hn : n = ps.length) :
    Und d (Standard.record ps) ((Grammar.header 7 n).andThen g) := by
  subst hn
  rintro t bs o ⟨ts, rfl, he⟩ hb hl ho
  rw [Standard.Encodes] at hb
  obtain ⟨hd, r, hh, hr, rfl⟩ := hb
  rw [each_length he] at hh
  have h1 := encodeAll_length hr
  rw [each_length he] at h1
  simp only [List.length_append] at hl
  rw [List.append_assoc]
  exact ⟨r ++ o, header_intro hh (by omega), h ts r o he hr (by omega) ho⟩

theorem Und.optional {p : α → Term → Prop} {g : Option α → Grammar.Rel} (h0 : g none = Grammar.absent) (h : ∀ a, Und d (p a) (g (some a)))
    (x : Option α) : Und d (Standard.optional p x) (g x) := by
  cases x with
  | none =>
    intro t bs o ht hb hl ho
    cases ht
    rw [Standard.Encodes] at hb
    subst hb
    rw [h0]
    exact rfl
  | some a => exact h a

theorem Und.required {p : α → Term → Prop} {g : Option α → Grammar.Rel} (h : ∀ a, Und d (p a) (g (some a)))
    (x : Option α) : Und d (Standard.required p x) (g x) := by
  rintro t bs o ⟨a, rfl, ht⟩ hb hl ho
  exact h a t bs o ht hb hl ho

/-! ## Simple types -/

theorem und_str (s : OctetString) : Und d (Standard.str s) (Grammar.str (some s)) := by
  intro t bs o ht hb hl ho
  cases ht
  rw [Standard.Encodes] at hb
  obtain ⟨hd, hh, h1, rfl⟩ := hb
  simp only [List.length_append] at hl
  rw [List.append_assoc]
  refine ⟨_, ⟨rfl, ?_⟩, _, header_intro hh (by omega), _, rfl, rfl, ho⟩
  obtain ⟨⟨more, last, rfl, h2, h3⟩, _⟩ := hh
  cases more with
  | nil => simpa using h1
  | cons b more =>
    have := h2 b (by simp)
    intro hx
    simp only [List.cons_append, List.head?_cons, Option.some.injEq] at hx
    subst hx
    exact absurd this (by decide)

theorem und_uint (size : Nat) (n : Num) : Und d (Standard.uint size n) (Grammar.num 6 size (some n)) := by
  rintro t bs o ⟨s, rfl, h1, h2, rfl⟩ hb hl ho
  rw [Standard.Encodes] at hb
  obtain ⟨hd, hh, _, rfl⟩ := hb
  simp only [List.length_append] at hl
  rw [List.append_assoc]
  exact ⟨s, h2, ⟨_, header_intro hh (by omega), _, ⟨rfl, by simp [h1]⟩, rfl⟩, by simp [Grammar.numberOf]⟩

theorem und_int (size : Nat) (n : Num) : Und d (Standard.int size n) (Grammar.num 5 size (some n)) := by
  rintro t bs o ⟨s, rfl, h1, h2, rfl⟩ hb hl ho
  rw [Standard.Encodes] at hb
  obtain ⟨hd, hh, _, rfl⟩ := hb
  simp only [List.length_append] at hl
  rw [List.append_assoc]
  refine ⟨s, h2, ⟨_, header_intro hh (by omega), _, ⟨rfl, by simp [h1]⟩, rfl⟩, ?_⟩
  cases s with
  | nil => exact absurd rfl h1
  | cons b s => simp [Grammar.numberOf]

theorem und_boolean (b : UInt8) : Und d (Standard.boolean b) (Grammar.boolean (some b)) := by
  rintro t bs o ⟨x, rfl, rfl⟩ hb hl ho
  rw [Standard.Encodes] at hb
  obtain ⟨hd, y, hh, rfl, rfl⟩ := hb
  rw [List.append_assoc]
  refine ⟨_, header_intro hh (by decide), y, rfl, ?_⟩
  by_cases h : y = 0 <;> simp [h]

/-- The header of a number is one byte, which tells the size of the object to store it in. -/
theorem one_byte {ty n : Nat} {h : List UInt8} (hh : Standard.Header ty n h) (h1 : h.length = 1) (hty : ty ≠ 7) (hn : 1 ≤ n) (hn8 : n ≤ 8) :
    ∃ b, h = [b] ∧ b ≠ 0x01 ∧ b.toNat / 16 % 8 = ty ∧ Grammar.room b = Standard.sizeFor n := by
  match h, h1 with
  | [b], _ =>
    obtain ⟨_, h2, h3⟩ := hh
    simp only [headerType] at h2
    rw [headerLength, if_neg (by simp only [headerType]; omega)] at h3
    simp only [headerValue, List.foldl_cons, List.foldl_nil, List.length_singleton] at h3
    refine ⟨b, rfl, ?_, h2, ?_⟩
    · rintro rfl
      simp at h3
      omega
    · have : b.toNat % 16 = n + 1 := by omega
      simp only [Grammar.room, Standard.sizeFor, this]
      repeat' split
      all_goals omega

theorem sizeFor_ne (n : Nat) : Standard.sizeFor n ≠ 16 := by
  unfold Standard.sizeFor
  repeat' split
  all_goals decide

theorem und_value (v : Value) : Und d (Standard.value v) (Grammar.value (some v)) := by
  intro t bs o ht hb hl ho
  unfold Standard.value at ht
  unfold Grammar.value
  split at ht
  next p hp =>
    obtain ⟨h1, s, rfl, ht⟩ := ht
    have h := und_str s t bs o ht hb hl ho
    obtain ⟨m, ⟨rfl, hne⟩, _⟩ := id h
    cases hi : bs ++ o with
    | nil => simp [ho] at hi
    | cons b r =>
      refine ⟨b, rfl, ?_, ?_⟩
      · rw [hi] at hne
        simpa using hne
      · rw [hp, ← hi]
        exact ⟨h1, h⟩
  next p hp =>
    obtain ⟨h1, s, rfl, ht⟩ := ht
    have h := und_boolean s t bs o ht hb hl ho
    obtain ⟨m, ⟨hd, h2, h3, h4, h5⟩, _⟩ := id h
    obtain ⟨more, last, rfl, _⟩ := id h2
    have : ∃ b r, more ++ [last] = b :: r := by cases more <;> simp
    obtain ⟨b, r, hbr⟩ := this
    rw [hbr] at h5 h3
    refine ⟨b, by rw [h5]; rfl, ?_, ?_⟩
    · rintro rfl
      simp [headerType] at h3
    · rw [hp]
      exact ⟨h1, h⟩
  next p hp =>
    obtain ⟨s, hs, hs8, ⟨rfl, h1, n, rfl, ht⟩ | ⟨rfl, h1, n, rfl, ht⟩⟩ := ht
    · have h := und_int _ n _ bs o ht hb hl ho
      rw [Standard.Encodes] at hb
      obtain ⟨hd, hh, hd1, rfl⟩ := hb
      obtain ⟨b, rfl, hb1, hb2, hb3⟩ := one_byte hh hd1 (by decide) (by cases s; exact absurd rfl hs; simp) hs8
      refine ⟨b, rfl, hb1, ?_⟩
      rw [hp]
      refine ⟨5, .inl rfl, ?_, ?_⟩
      · rw [h1, hb3, Grammar.label, if_neg (sizeFor_ne _)]
      · rw [hb3]; exact h
    · have h := und_uint _ n _ bs o ht hb hl ho
      rw [Standard.Encodes] at hb
      obtain ⟨hd, hh, hd1, rfl⟩ := hb
      obtain ⟨b, rfl, hb1, hb2, hb3⟩ := one_byte hh hd1 (by decide) (by cases s; exact absurd rfl hs; simp) hs8
      refine ⟨b, rfl, hb1, ?_⟩
      rw [hp]
      refine ⟨6, .inr rfl, ?_, ?_⟩
      · rw [h1, hb3, Grammar.label, if_neg (sizeFor_ne _)]
      · rw [hb3]; exact h

theorem und_status (v : Status) : Und d (Standard.status v) (Grammar.status (some v)) := by
  rintro t bs o ⟨s, hs, hs8, rfl, h1, n, hn, ht⟩ hb hl ho
  have h := und_uint _ n _ bs o ht hb hl ho
  rw [Standard.Encodes] at hb
  obtain ⟨hd, hh, hd1, rfl⟩ := hb
  obtain ⟨b, rfl, hb1, hb2, hb3⟩ := one_byte hh hd1 (by decide) (by cases s; exact absurd rfl hs; simp) hs8
  refine ⟨b, rfl, hb1, ?_, ?_⟩
  · rw [h1, hb3, Grammar.label, if_neg (sizeFor_ne _)]
  · rw [hb3, hn]; exact h

theorem und_time (v : Time) : Und d (Standard.time v) (Grammar.time (some v)) := by
  rintro t bs o ⟨tag, htag, ⟨_, ht⟩ | ⟨_, hd, a, b, c, ht⟩⟩ hb hl ho
  · refine .inr ?_
    rw [htag]
    refine (Und.cons (und_uint 1 tag) (Unds.one ?_)).record 2 rfl t bs o ht hb hl ho
    rintro t bs o ⟨n, hn, ht⟩ hb hl ho
    exact .inl ⟨n, hn, hn ▸ und_uint 4 n t bs o ht hb hl ho⟩
  · refine .inr ?_
    rw [htag]
    refine (Und.cons (und_uint 1 tag) (Unds.one ?_)).record 2 rfl t bs o ht hb hl ho
    intro t bs o ht hb hl ho
    exact .inr ⟨hd, 3, a, b, c,
      (Und.cons (und_uint 4 a) (Und.cons (und_int 2 b) (Unds.one (und_int 2 c)))).record 3 rfl t bs o ht hb hl ho⟩

/-! ## Lists -/

theorem und_times {p : α → Term → Prop} {g : α → Grammar.Rel} (h : ∀ a, Und d (p a) (g a)) (as : List α) :
    Unds d (as.map p) (Grammar.times g as) := by
  induction as with
  | nil =>
    intro ts bs o he hb hl ho
    match ts, he with
    | [], _ => cases hb; exact rfl
  | cons a as ih => exact (h a).cons ih

theorem und_many {p : α → Term → Prop} {g : α → Grammar.Rel} (h : ∀ a, Und d (p a) (g a)) (as : List α) :
    Und d (Standard.many p as) (Grammar.listOf g as) := by
  rintro t bs o ⟨ts, rfl, he⟩ hb hl ho
  exact ⟨as.length, by simp, (und_times h as).record as.length (by simp) _ bs o ⟨ts, rfl, he⟩ hb hl ho⟩

/-! The fields of structures. -/

theorem oStr (x : Option OctetString) : Und d (Standard.optional Standard.str x) (Grammar.str x) := Und.optional rfl und_str x
theorem rStr (x : Option OctetString) : Und d (Standard.required Standard.str x) (Grammar.str x) := Und.required und_str x
theorem oUint (k : Nat) (x : Option Num) : Und d (Standard.optional (Standard.uint k) x) (Grammar.num 6 k x) := Und.optional rfl (und_uint k) x
theorem rUint (k : Nat) (x : Option Num) : Und d (Standard.required (Standard.uint k) x) (Grammar.num 6 k x) := Und.required (und_uint k) x
theorem oInt (k : Nat) (x : Option Num) : Und d (Standard.optional (Standard.int k) x) (Grammar.num 5 k x) := Und.optional rfl (und_int k) x
theorem rInt (k : Nat) (x : Option Num) : Und d (Standard.required (Standard.int k) x) (Grammar.num 5 k x) := Und.required (und_int k) x
theorem oBoolean (x : Option UInt8) : Und d (Standard.optional Standard.boolean x) (Grammar.boolean x) := Und.optional rfl und_boolean x
theorem rValue (x : Option Value) : Und d (Standard.required Standard.value x) (Grammar.value x) := Und.required und_value x
theorem oStatus (x : Option Status) : Und d (Standard.optional Standard.status x) (Grammar.status x) := Und.optional rfl und_status x
theorem rTime (x : Option Time) : Und d (Standard.required Standard.time x) (Grammar.time x) := Und.required und_time x
theorem oTime (x : Option Time) : Und d (Standard.optional Standard.time x) (Grammar.time x) := by
  cases x with
  | none =>
    intro t bs o ht hb hl ho
    cases ht
    rw [Standard.Encodes] at hb
    subst hb
    exact .inl rfl
  | some a => exact und_time a

theorem und_entry (e : ListEntry) (t : Term) (bs o : List UInt8) (ht : Standard.listEntry e t) (hb : Standard.Encodes t bs)
    (hl : bs.length < 2147483648 ∧ bs.length < 4 * d) (ho : o ≠ []) : ∃ h, Grammar.entry (e, h) (bs ++ o) o := by
  have hv : Unds d [Standard.required Standard.value e.value, Standard.optional Standard.str e.valueSignature]
      (fun i o => ∃ h, ((Grammar.ahead fun i => i.head? = some h).andThen ((Grammar.value e.value).andThen (Grammar.str e.valueSignature))) i o) := by
    intro ts bs o he hb hl ho
    have := (rValue e.value).cons (Unds.one (oStr e.valueSignature)) ts bs o he hb hl ho
    cases hi : bs ++ o with
    | nil => simp [ho] at hi
    | cons b r => exact ⟨b, _, ⟨rfl, rfl⟩, hi ▸ this⟩
  obtain ⟨m0, h0, m1, h1, m2, h2, m3, h3, m4, h4, m5, h5, h, h6⟩ := ((rStr e.objName).cons ((oStatus e.status).cons ((oTime e.valTime).cons ((oUint 1 e.unit).cons
    ((oInt 1 e.scaler).cons hv))))).record 7 rfl t bs o ht hb hl ho
  exact ⟨h, m0, h0, m1, h1, m2, h2, m3, h3, m4, h4, m5, h5, h6⟩

theorem und_entries (es : List ListEntry) (ts : List Term) (bs o : List UInt8) (ht : Standard.Each (es.map Standard.listEntry) ts)
    (hb : Standard.EncodeAll ts bs) (hl : bs.length < 2147483648 ∧ bs.length < 4 * d) (ho : o ≠ []) :
    ∃ sent, sent.map Prod.fst = es ∧ Grammar.times Grammar.entry sent (bs ++ o) o := by
  induction es generalizing ts bs with
  | nil =>
    match ts, ht with
    | [], _ => cases hb; exact ⟨[], rfl, rfl⟩
  | cons e es ih =>
    match ts, ht with
    | t :: ts, ht =>
      obtain ⟨x, y, h1, h2, rfl⟩ := hb
      simp only [List.length_append] at hl
      rw [List.append_assoc]
      obtain ⟨sent, h3, h4⟩ := ih ts y ht.2 h2 (by omega)
      obtain ⟨h, h5⟩ := und_entry (d := d) e t x (y ++ o) ht.1 h1 (by omega) (by simp [ho])
      exact ⟨(e, h) :: sent, by simp [h3], y ++ o, h5, h4⟩

theorem corrected_same (sent : List (ListEntry × UInt8)) (seen : Bool) (h1 : seen = true → ∀ x ∈ sent, ¬ IsPower x.1)
    (h2 : (sent.map Prod.fst).Pairwise fun a b => ¬ (IsDzgSerial a ∧ IsPower b)) : Grammar.Corrected seen sent (sent.map Prod.fst) := by
  induction sent generalizing seen with
  | nil => exact .nil
  | cons x sent ih =>
    obtain ⟨e, h⟩ := x
    simp only [List.map_cons, List.pairwise_cons] at h2
    by_cases hd : IsDzgSerial e
    · refine .serial hd (ih true (fun _ x hx hp => ?_) h2.2)
      exact h2.1 x.1 (List.mem_map_of_mem hx) ⟨hd, hp⟩
    · refine .other hd (fun hx => h1 hx.1 (e, h) (by simp) hx.2.1) (ih seen (fun hs x hx => h1 hs x (by simp [hx])) h2.2)

theorem und_list (es : List ListEntry) : Und d (Standard.list es) (Grammar.entries es) := by
  rintro t bs o ⟨⟨ts, rfl, he⟩, hp⟩ hb hl ho
  rw [Standard.Encodes] at hb
  obtain ⟨hd, r, hh, hr, rfl⟩ := hb
  simp only [List.length_append] at hl
  obtain ⟨sent, rfl, h2⟩ := und_entries (d := d) es ts r o he hr (by omega) ho
  have h3 := encodeAll_length hr
  have h4 := each_length he
  simp only [List.length_map] at h4
  refine .inr ⟨sent, corrected_same sent false (by simp) hp, sent.length, by simp, ?_⟩
  rw [List.append_assoc]
  exact ⟨r ++ o, h4 ▸ header_intro hh (by omega), h2⟩

theorem und_sequence {p : α → Term → Prop} {g : Option α → Grammar.Rel} (h : ∀ a, Und d (p a) (g (some a))) (q : Sequence α) :
    Und d (Standard.sequence p q) (Grammar.sequence g (some q)) := und_many (Und.required h) q.elems

/-! ## Parameter trees -/

theorem und_path (p : TreePath) : Und d (Standard.path p) (Grammar.path (some p)) := by
  rintro t bs o ⟨ts, rfl, he⟩ hb hl ho
  refine ⟨p.entries, ?_, und_many rStr p.entries _ bs o ⟨ts, rfl, he⟩ hb hl ho⟩
  have : ∀ (es : List (Option OctetString)) ts, Standard.Each (es.map (Standard.required Standard.str)) ts → ∀ e ∈ es, e.isSome := by
    intro es
    induction es with
    | nil => simp
    | cons e es ih =>
      intro ts h
      match ts, h with
      | t :: ts, h =>
        obtain ⟨⟨a, rfl, _⟩, h2⟩ := h
        simpa using ih ts h2
  exact (List.filter_eq_self.2 (this _ _ he)).symm

theorem und_periodEntry (m : PeriodEntry) : Und d (Standard.periodEntry m) (Grammar.periodEntry (some m)) :=
  ((rStr _).cons ((rUint 1 _).cons ((rInt 1 _).cons ((rValue _).cons (.one (oStr _)))))).record 5 rfl

theorem und_tupelEntry (m : TupelEntry) : Und d (Standard.tupelEntry m) (Grammar.tupelEntry (some m)) :=
  ((rStr _).cons ((rTime _).cons ((rUint 8 _).cons ((rUint 1 _).cons ((rInt 1 _).cons ((rInt 8 _).cons ((rUint 1 _).cons ((rInt 1 _).cons ((rInt 8 _).cons
    ((rUint 1 _).cons ((rInt 1 _).cons ((rInt 8 _).cons ((rStr _).cons ((rUint 1 _).cons ((rInt 1 _).cons ((rInt 8 _).cons ((rUint 1 _).cons ((rInt 1 _).cons
    ((rInt 8 _).cons ((rUint 1 _).cons ((rInt 1 _).cons ((rInt 8 _).cons (.one (rStr _)))))))))))))))))))))))).record 23 rfl

theorem und_procParValue (v : ProcParValue) : Und d (Standard.procParValue v) (Grammar.procParValue (some v)) := by
  rintro t bs o ⟨tag, htag, ht⟩ hb hl ho
  refine ⟨tag, htag, ?_⟩
  have key : ∀ {p : Term → Prop} {g : Grammar.Rel}, Und d p g → Standard.record [Standard.uint 1 tag, p] t →
      ((Grammar.header 7 2).andThen ((Grammar.num 6 1 (some tag)).andThen g)) (bs ++ o) o := fun hu ht =>
    ((und_uint 1 tag).cons (.one hu)).record 2 rfl t bs o ht hb hl ho
  split at ht
  next => exact ht.elim
  next p hp =>
    rw [hp]
    obtain ⟨m, h1, m', h2, h3⟩ := key (rValue p) ht.2
    exact ⟨m, h1, m', h2, ht.1, h3⟩
  next p hp =>
    rw [hp]
    obtain ⟨m, h1, m', h2, h3⟩ := key (Und.required und_periodEntry p) ht.2
    exact ⟨m, h1, m', h2, ht.1, h3⟩
  next p hp =>
    rw [hp]
    obtain ⟨m, h1, m', h2, h3⟩ := key (Und.required und_tupelEntry p) ht.2
    exact ⟨m, h1, m', h2, ht.1, h3⟩
  next p hp =>
    rw [hp]
    obtain ⟨m, h1, m', h2, h3⟩ := key (rTime p) ht.2
    exact ⟨m, h1, m', h2, ht.1, h3⟩

theorem oProcParValue (x : Option ProcParValue) : Und d (Standard.optional Standard.procParValue x) (Grammar.procParValue x) := by
  cases x with
  | none =>
    intro t bs o ht hb hl ho
    cases ht
    rw [Standard.Encodes] at hb
    subst hb
    exact .inl rfl
  | some a => exact und_procParValue a

theorem und_tree (d : Nat) : ∀ tr : Tree, Und d (Standard.tree tr) (Grammar.tree d (some tr)) := by
  induction d with
  | zero => intro tr t bs o _ _ hl _; omega
  | succ d ih =>
    rintro ⟨name, v, cs⟩ t bs o ht hb hl ho
    rw [Standard.tree] at ht
    obtain ⟨a, b, c, rfl, ha, hb', hc⟩ := ht
    rw [Standard.Encodes] at hb
    obtain ⟨hd, r, hh, ⟨xa, ya, ea, ⟨xb, yb, eb, ⟨xc, yc, ec, hy, rfl⟩, rfl⟩, rfl⟩, rfl⟩ := hb
    cases hy
    have l1 := header_pos hh
    have l2 := encodes_pos ea
    have l3 := encodes_pos eb
    simp only [List.length_append, List.append_nil] at hl
    simp only [List.append_nil, List.append_assoc]
    rw [Grammar.tree]
    refine ⟨_, header_intro hh (by simp), _, rStr (d := d + 1) name a xa _ ha ea (by omega) (by simp [ho]), _,
      oProcParValue (d := d + 1) v b xb _ hb' eb (by omega) (by simp [ho]), ?_⟩
    rcases hc with ⟨rfl, rfl⟩ | ⟨ts, rfl, hc⟩
    · rw [Standard.Encodes] at ec
      subst ec
      exact .inl ⟨rfl, rfl⟩
    · rw [Standard.Encodes] at ec
      obtain ⟨hd', r', hh', hr', rfl⟩ := ec
      have l4 := header_pos hh'
      simp only [List.length_append] at hl
      have l5 := encodeAll_length hr'
      have key : ∀ (cs : List Tree) ts r', Standard.trees cs ts → Standard.EncodeAll ts r' → r'.length < 2147483648 ∧ r'.length < 4 * d →
          ts.length = cs.length ∧ Grammar.times (Grammar.tree d) (cs.map some) (r' ++ o) o := by
        intro cs
        induction cs with
        | nil =>
          intro ts r' h1 h2 _
          rw [Standard.trees] at h1
          subst h1
          cases h2
          exact ⟨rfl, rfl⟩
        | cons c cs ih2 =>
          intro ts r' h1 h2 h3
          rw [Standard.trees] at h1
          obtain ⟨t, ts', rfl, k1, k2⟩ := h1
          obtain ⟨x, y, k3, k4, rfl⟩ := h2
          simp only [List.length_append] at h3
          obtain ⟨k5, k6⟩ := ih2 ts' y k2 k4 (by omega)
          refine ⟨by simp [k5], ?_⟩
          rw [List.append_assoc]
          exact ⟨_, ih c t x _ k1 k3 (by omega) (by simp [ho]), k6⟩
      obtain ⟨k1, k2⟩ := key cs ts r' hc hr' (by omega)
      refine .inr ⟨cs.map some, by simp, cs.length, by simp, ?_⟩
      rw [List.append_assoc]
      exact ⟨_, k1 ▸ header_intro hh' (by omega), k2⟩

theorem rTree (x : Option Tree) : Und d (Standard.required Standard.tree x) (Grammar.tree d x) := Und.required (und_tree d) x
theorem oTree (x : Option Tree) : Und d (Standard.optional Standard.tree x) (Grammar.tree d x) := by
  cases x with
  | none =>
    intro t bs o ht hb hl ho
    cases ht
    rw [Standard.Encodes] at hb
    subst hb
    match d, hl with
    | d + 1, _ => exact rfl
  | some a => exact und_tree d a

theorem rPath (x : Option TreePath) : Und d (Standard.required Standard.path x) (Grammar.path x) := Und.required und_path x
theorem rSequence {p : α → Term → Prop} {g : Option α → Grammar.Rel} (h : ∀ a, Und d (p a) (g (some a))) (x : Option (Sequence α)) :
    Und d (Standard.required (Standard.sequence p) x) (Grammar.sequence g x) := Und.required (und_sequence h) x

theorem und_objects (os : List (Option OctetString)) : Und d (Standard.objects os) (Grammar.objects os) := by
  intro t bs o ht hb hl ho
  unfold Standard.objects at ht
  split at ht
  · rcases ht with rfl | rfl
    · rw [Standard.Encodes] at hb
      subst hb
      exact .inl ⟨rfl, rfl⟩
    · exact .inr (und_many rStr [] _ bs o ⟨[], rfl, trivial⟩ hb hl ho)
  · exact .inr (und_many rStr _ t bs o ht hb hl ho)

/-! ## Message bodies -/

theorem und_openRequest (m : OpenRequest) : Und d (Standard.openRequest m) (Grammar.openRequest m) :=
  ((oStr _).cons ((rStr _).cons ((rStr _).cons ((oStr _).cons ((oStr _).cons ((oStr _).cons (.one (oUint 1 _)))))))).record 7 rfl

theorem und_openResponse (m : OpenResponse) : Und d (Standard.openResponse m) (Grammar.openResponse m) :=
  ((oStr _).cons ((oStr _).cons ((rStr _).cons ((rStr _).cons ((oTime _).cons (.one (oUint 1 _))))))).record 6 rfl

theorem und_closeRequest (m : CloseRequest) : Und d (Standard.closeRequest m) (Grammar.closeRequest m) := (Unds.one (oStr _)).record 1 rfl

theorem und_closeResponse (m : CloseResponse) : Und d (Standard.closeResponse m) (Grammar.closeResponse m) := (Unds.one (oStr _)).record 1 rfl

theorem und_getProfilePackRequest (m : GetProfilePackRequest) : Und d (Standard.getProfilePackRequest m) (Grammar.getProfilePackRequest d m) :=
  ((oStr _).cons ((oStr _).cons ((oStr _).cons ((oBoolean _).cons ((oTime _).cons ((oTime _).cons ((rPath _).cons ((und_objects _).cons
    (.one (oTree _)))))))))).record 9 rfl

theorem und_profObjHeaderEntry (m : ProfObjHeaderEntry) : Und d (Standard.profObjHeaderEntry m) (Grammar.profObjHeaderEntry (some m)) :=
  ((rStr _).cons ((rUint 1 _).cons (.one (rInt 1 _)))).record 3 rfl

theorem und_valueEntry (m : ValueEntry) : Und d (Standard.valueEntry m) (Grammar.valueEntry (some m)) :=
  ((rValue _).cons (.one (oStr _))).record 2 rfl

theorem und_profObjPeriodEntry (m : ProfObjPeriodEntry) : Und d (Standard.profObjPeriodEntry m) (Grammar.profObjPeriodEntry (some m)) :=
  ((rTime _).cons ((rUint 8 _).cons ((rSequence und_valueEntry _).cons (.one (oStr _))))).record 4 rfl

theorem und_getProfilePackResponse (m : GetProfilePackResponse) : Und d (Standard.getProfilePackResponse m) (Grammar.getProfilePackResponse m) :=
  ((rStr _).cons ((rTime _).cons ((rUint 4 _).cons ((rPath _).cons ((rSequence und_profObjHeaderEntry _).cons ((rSequence und_profObjPeriodEntry _).cons
    ((oStr _).cons (.one (oStr _))))))))).record 8 rfl

theorem und_getProfileListResponse (m : GetProfileListResponse) : Und d (Standard.getProfileListResponse m) (Grammar.getProfileListResponse m) :=
  ((rStr _).cons ((rTime _).cons ((rUint 4 _).cons ((rPath _).cons ((rTime _).cons ((rUint 8 _).cons ((rSequence und_periodEntry _).cons
    ((oStr _).cons (.one (oStr _)))))))))).record 9 rfl

theorem und_getProcParameterRequest (m : GetProcParameterRequest) : Und d (Standard.getProcParameterRequest m) (Grammar.getProcParameterRequest m) :=
  ((oStr _).cons ((oStr _).cons ((oStr _).cons ((rPath _).cons (.one (oStr _)))))).record 5 rfl

theorem und_getProcParameterResponse (m : GetProcParameterResponse) :
    Und d (Standard.getProcParameterResponse m) (Grammar.getProcParameterResponse d m) :=
  ((rStr _).cons ((rPath _).cons (.one (rTree _)))).record 3 rfl

theorem und_setProcParameterRequest (m : SetProcParameterRequest) :
    Und d (Standard.setProcParameterRequest m) (Grammar.setProcParameterRequest d m) :=
  ((oStr _).cons ((oStr _).cons ((oStr _).cons ((rPath _).cons (.one (rTree _)))))).record 5 rfl

theorem und_getListRequest (m : GetListRequest) : Und d (Standard.getListRequest m) (Grammar.getListRequest m) :=
  ((rStr _).cons ((oStr _).cons ((oStr _).cons ((oStr _).cons (.one (oStr _)))))).record 5 rfl

theorem und_getListResponse (m : GetListResponse) : Und d (Standard.getListResponse m) (Grammar.getListResponse m) :=
  ((oStr _).cons ((rStr _).cons ((oStr _).cons ((oTime _).cons ((und_list _).cons ((oStr _).cons (.one (oTime _)))))))).record 7 rfl

theorem und_attentionResponse (m : AttentionResponse) : Und d (Standard.attentionResponse m) (Grammar.attentionResponse d m) :=
  ((rStr _).cons ((rStr _).cons ((oStr _).cons (.one (oTree _))))).record 4 rfl

theorem must_of {p : α → Term → Prop} {g : α → Grammar.Rel} {c : Prop} (h : ∀ a, Und d (p a) (g a)) (x : Option α) :
    Und d (fun t => c ∧ Standard.required p x t) (fun i o => c ∧ Grammar.must g x i o) := by
  rintro t bs o ⟨hc, a, rfl, ht⟩ hb hl ho
  exact ⟨hc, h a t bs o ht hb hl ho⟩

theorem und_bodyData (tag : Nat) (b : BodyData) : Und d (Standard.bodyData tag b) (Grammar.bodyData d tag b) := by
  cases b with
  | null => intro t bs o ht; exact ht.elim
  | openRequest p => exact must_of und_openRequest p
  | openResponse p => exact must_of und_openResponse p
  | closeRequest p => exact must_of und_closeRequest p
  | closeResponse p => exact must_of und_closeResponse p
  | getProfilePackRequest p => exact must_of und_getProfilePackRequest p
  | getProfilePackResponse p => exact must_of und_getProfilePackResponse p
  | getProfileListRequest p => exact must_of und_getProfilePackRequest p
  | getProfileListResponse p => exact must_of und_getProfileListResponse p
  | getProcParameterRequest p => exact must_of und_getProcParameterRequest p
  | getProcParameterResponse p => exact must_of und_getProcParameterResponse p
  | setProcParameterRequest p => exact must_of und_setProcParameterRequest p
  | getListRequest p => exact must_of und_getListRequest p
  | getListResponse p => exact must_of und_getListResponse p
  | attentionResponse p => exact must_of und_attentionResponse p

theorem und_body (b : MessageBody) : Und d (Standard.body b) (Grammar.body d (some b)) := by
  rintro t bs o ⟨tag, htag, ht⟩ hb hl ho
  exact ⟨tag, htag, ((und_uint 4 tag).cons (.one (und_bodyData tag.val b.data))).record 2 rfl t bs o ht hb hl ho⟩

/-! ## Messages -/

theorem und_message {m : Message} {bs o : List UInt8} (h : Standard.Message m bs) (hl : bs.length < 2147483648 ∧ bs.length < 4 * d) :
    Grammar.message d (some m) (bs ++ o) o := by
  obtain ⟨hd, ts, r, c, crc, hcrc, hh, he, hr, ⟨t, ht, hc⟩, hm, rfl⟩ := h
  simp only [List.length_append] at hl
  have key : Unds d _ _ := (rStr m.transactionId).cons ((rUint 1 m.groupId).cons ((rUint 1 m.abortOnError).cons (.one (Und.required und_body m.messageBody))))
  refine ⟨crc, hd ++ r, hcrc, .inl hm, 0x00 :: o, ⟨c ++ 0x00 :: o, by simp, ?_, ?_, ?_⟩, .inl rfl⟩
  · rw [List.append_assoc, List.append_assoc, List.append_assoc]
    have := key ts r (c ++ 0x00 :: o) he hr (by omega) (by simp)
    exact ⟨_, header_intro hh (by decide), by simpa using this⟩
  · obtain ⟨s, rfl, hs, _⟩ := id ht
    rw [Standard.Encodes] at hc
    obtain ⟨h', hh', h1, rfl⟩ := hc
    have : 1 ≤ s.length := by cases s; exact absurd rfl hs; simp
    simp
    omega
  · exact und_uint (d := d) 2 crc t c _ ht hc (by omega) (by simp)

theorem und_telegram {ms : List Message} {bs : List UInt8} (h : Standard.Telegram ms bs) (hl : bs.length < 2147483648 ∧ bs.length < 4 * d) :
    Grammar.Telegram d bs ms := by
  induction h with
  | fill n =>
    clear hl
    induction n with
    | zero => exact .done
    | succ n ih => exact .padding ih
  | message hm _ ih =>
    simp only [List.length_append] at hl
    exact .deliver (und_message hm (by omega)) (ih (by omega))

end Std

end Sml
