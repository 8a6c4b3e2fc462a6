import Verif.Model.HeapExample
import Verif.Proofs.Example
import Verif.Proofs.HeapWriteFile

/-!
# The example program on the addressed heap

`Alike S m pm`: on a heap with the blocks `S`, the code `pm` does what `m` does on values and leaves all blocks as they are; where
`m` is undefined, `pm` is.
-/

namespace Sml

open Spec

def Alike (S : List Blk) (m : M α) (pm : P α) : Prop :=
  Use S m pm ∧ ∀ s n0 c0 h, Own n0 c0 h S → ∀ r, m s = .ub r → ∃ b, pm s.dry h = .bad b

theorem P.bind_bad {m : P α} {f : α → P β} (h : m st hp = .bad b) : (m >>= f) st hp = .bad b := by
  show P.bind m f st hp = _
  rw [P.bind, h]

theorem M.bind_eq_ub {m : M α} {f : α → M β} {s : St} (h : (m >>= f) s = .ub r) :
    m s = .ub r ∨ ∃ a s1, m s = .ok a s1 ∧ f a s1 = .ub r := by
  change M.bind m f s = _ at h
  rw [M.bind] at h
  cases hm : m s with
  | ub r' =>
    rw [hm] at h
    cases h
    exact Or.inl rfl
  | ok a s1 =>
    rw [hm] at h
    exact Or.inr ⟨a, s1, rfl, h⟩

theorem Alike.bind {m : M α} {pm : P α} {k : α → M β} {pk : α → P β} (h1 : Alike S m pm) (h2 : ∀ v, Alike S (k v) (pk v)) :
    Alike S (m >>= k) (pm >>= pk) := by
  refine ⟨h1.1.bind fun v => (h2 v).1, fun s n0 c0 h o r hm => ?_⟩
  rcases M.bind_eq_ub hm with hm | ⟨a, s1, e1, e2⟩
  · obtain ⟨b, hb⟩ := h1.2 s n0 c0 h o r hm
    exact ⟨b, P.bind_bad hb⟩
  · obtain ⟨h', ep, o', _⟩ := h1.1 s n0 c0 h o a s1 e1
    obtain ⟨b, hb⟩ := (h2 a).2 s1 n0 c0 h' o' r e2
    exact ⟨b, by rw [P.bind_ok ep, hb]⟩

theorem Alike.ret (v : α) : Alike S (pure v) (pure v) := ⟨Use.ret v, fun _ _ _ _ _ _ h => by cases h⟩

theorem Alike.undef {pm : P α} (h : ∀ st n0 c0 h, Own n0 c0 h S → ∃ b, pm st h = .bad b) : Alike S (undef r : M α) pm :=
  ⟨Use.undef, fun s n0 c0 hp o _ _ => h s.dry n0 c0 hp o⟩

theorem Alike.read {pm : P β} {pk : β → P α} {m : M α}
    (h1 : ∀ st n0 c0 h, Own n0 c0 h S → pm st h = .ok p st h) (h2 : Alike S m (pk p)) : Alike S m (pm >>= pk) := by
  refine ⟨Use.read h1 h2.1, fun s n0 c0 h o r hm => ?_⟩
  rw [P.bind_ok (h1 s.dry n0 c0 h o)]
  exact h2.2 s n0 c0 h o r hm

theorem Alike.ite {c : Prop} [Decidable c] {m m' : M α} {pm pm' : P α} (h1 : c → Alike S m pm) (h2 : ¬ c → Alike S m' pm') :
    Alike S (if c then m else m') (if c then pm else pm') := by
  split
  · exact h1 ‹_›
  · exact h2 ‹_›

theorem Alike.ne0 {m : M α} (hm : (a, c) ∈ S) (hk : a ≠ 0 → Alike S m pm) : Alike S m pm :=
  ⟨fun s n0 c0 h o => (hk (o.ne0_of_mem hm)).1 s n0 c0 h o, fun s n0 c0 h o => (hk (o.ne0_of_mem hm)).2 s n0 c0 h o⟩

theorem Alike.ptr {pk : Nat → P α} {m : M α} (hm : (a, .struct ps is) ∈ S) (hi : ps[i]? = some p)
    (h2 : Alike S m (pk p)) : Alike S m (readPtr a i >>= pk) :=
  Alike.read (fun _ _ _ _ o => readPtr_ok (o.ne0_of_mem hm) (o.cell_of_mem hm) hi) h2

theorem Alike.int {pk : Nat → P α} {m : M α} (hm : (a, .struct ps is) ∈ S) (hi : is[i]? = some n)
    (h2 : Alike S m (pk n)) : Alike S m (readInt a i >>= pk) :=
  Alike.read (fun _ _ _ _ o => readInt_ok (o.ne0_of_mem hm) (o.cell_of_mem hm) hi) h2

theorem Alike.num {pk : Num → P α} {m : M α} (hm : (a, .num n) ∈ S) (h2 : Alike S m (pk n)) :
    Alike S m (readNum a >>= pk) :=
  Alike.read (fun _ _ _ _ o => readNum_ok (o.ne0_of_mem hm) (o.cell_of_mem hm)) h2

theorem Alike.tag {pk : Num → P α} {m : M α} (hm : (a, .num n) ∈ S) (hn : Sized w n) (h2 : Alike S m (pk n)) :
    Alike S m (readTag w a >>= pk) :=
  Alike.read (fun _ _ _ _ o => readTag_ok (o.ne0_of_mem hm) (o.cell_of_mem hm) hn) h2

theorem Alike.congr {m m' : M α} (h : Alike S m pm) (e : m' = m) : Alike S m' pm := e ▸ h

theorem Alike.pcongr {m : M α} (h : Alike S m pm) (e : pm' = pm) : Alike S m pm' := e ▸ h

theorem deref_null : deref 0 st h = .bad .null := rfl
theorem readPtr_null : readPtr 0 i st h = .bad .null := rfl
theorem readNum_null : readNum 0 st h = .bad .null := rfl
theorem readTag_null : readTag w 0 st h = .bad .null := rfl
theorem readByte_null : readByte 0 i st h = .bad .null := rfl

theorem readByte_ok (hne : a ≠ 0) (hc : h.cells a = some (.bytes bs)) (hi : bs[i]? = some b) :
    readByte a i st h = .ok b st h := by
  rw [readByte, P.bind_ok (deref_ok hne hc)]
  simp only [hi]
  rfl

theorem readByte_bad (hne : a ≠ 0) (hc : h.cells a = some (.bytes bs)) (hi : bs[i]? = none) :
    readByte a i st h = .bad (.buf .oobRead) := by
  rw [readByte, P.bind_ok (deref_ok hne hc)]
  simp only [hi]
  rfl

theorem writeByte_ok (hne : a ≠ 0) (hc : h.cells a = some (.bytes bs)) (hi : i < bs.length) :
    writeByte a i b st h = .ok () st { h with cells := setCell h.cells a (some (.bytes (bs.set i b))) } := by
  rw [writeByte, P.bind_ok (deref_ok hne hc)]
  simp only [if_pos hi]
  exact store_ok hne hc

/-! ## The text of an octet string -/

theorem Own.writeByte (o : Own n0 c0 h ((a, .bytes (out ++ x :: tl)) :: L)) (b : UInt8) (st : St) :
    ∃ h', Sml.writeByte a out.length b st h = .ok () st h' ∧ Own n0 c0 h' ((a, .bytes (out ++ b :: tl)) :: L) := by
  refine ⟨_, writeByte_ok o.ne0 o.cell (by simp), ?_⟩
  have := o.update (.bytes ((out ++ x :: tl).set out.length b))
  simpa using this

theorem strhexLoop_heap : ∀ (bs : List UInt8) (mixed : Bool) {pre out rest : List UInt8} {h : Heap} {st : St}, str ≠ 0 →
    (str, .bytes (pre ++ bs)) ∈ L → Own n0 c0 h ((res, .bytes (out ++ rest)) :: L) → 3 * bs.length < rest.length →
    ∃ rest' h', pStrhexLoop str res bs.length pre.length mixed out.length st h = .ok (out ++ rendering mixed bs).length st h' ∧
      Own n0 c0 h' ((res, .bytes (out ++ rendering mixed bs ++ rest')) :: L) ∧ 0 < rest'.length
  | [], mixed, pre, out, rest, h, st, hs, hm, o, hl => by
    have he : rendering mixed [] = [] := by cases mixed <;> rfl
    rw [he, List.append_nil]
    exact ⟨rest, h, rfl, o, by simpa using hl⟩
  | b :: bs, mixed, pre, out, rest, h, st, hs, hm, o, hl => by
    simp only [List.length_cons] at hl
    have hm' : (str, HCell.bytes ((pre ++ [b]) ++ bs)) ∈ L := by simpa using hm
    rw [List.length_cons, pStrhexLoop, P.bind_ok (readByte_ok (b := b) hs (o.cell_of_mem (List.mem_cons_of_mem _ hm)) (by simp))]
    by_cases hp : mixed = true ∧ b > 0x20 ∧ b < 0x7b
    · rw [if_pos hp]
      obtain ⟨rfl, hp⟩ := hp
      match rest, hl, o with
      | x :: rest, hl, o =>
        obtain ⟨h1, e1, o1⟩ := o.writeByte b st
        rw [P.bind_ok e1]
        have o1' : Own n0 c0 h1 ((res, .bytes ((out ++ [b]) ++ rest)) :: L) := by simpa using o1
        obtain ⟨rest', h2, e2, o2, l2⟩ := strhexLoop_heap bs true (st := st) hs hm' o1' (by simp at hl; omega)
        rw [rendering_printable ((printable_iff b).1 hp)]
        refine ⟨rest', h2, ?_, by simpa using o2, l2⟩
        rw [List.length_append, List.length_append] at e2
        simp only [List.length_singleton] at e2
        rw [e2]
        simp
    · rw [if_neg hp]
      have hr : rendering mixed (b :: bs) = triple b ++ rendering false bs := by
        cases mixed with
        | false => exact rendering_hex b bs
        | true => exact rendering_other (by
            cases hb : Printable b with
            | false => rfl
            | true => exact absurd ⟨rfl, (printable_iff b).2 hb⟩ hp) bs
      match rest, hl, o with
      | x :: y :: z :: rest, hl, o =>
        obtain ⟨h1, e1, o1⟩ := o.writeByte (hexDigit ((b >>> 4) &&& 0x0F)) st
        have o1' : Own n0 c0 h1 ((res, .bytes ((out ++ [hexDigit ((b >>> 4) &&& 0x0F)]) ++ y :: z :: rest)) :: L) := by simpa using o1
        obtain ⟨h2, e2, o2⟩ := o1'.writeByte (hexDigit (b &&& 0x0F)) st
        have o2' : Own n0 c0 h2 ((res, .bytes ((out ++ [hexDigit ((b >>> 4) &&& 0x0F), hexDigit (b &&& 0x0F)]) ++ z :: rest)) :: L) := by
          simpa using o2
        obtain ⟨h3, e3, o3⟩ := o2'.writeByte 0x20 st
        have o3' : Own n0 c0 h3 ((res, .bytes ((out ++ triple b) ++ rest)) :: L) := by
          rw [← hexDigits]
          simpa using o3
        obtain ⟨rest', h4, e4, o4, l4⟩ := strhexLoop_heap bs false (st := st) hs hm' o3' (by simp at hl; omega)
        rw [List.length_append] at e2 e3
        rw [P.bind_ok e1, P.bind_ok (show writeByte res (out.length + 1) _ st h1 = _ from e2),
          P.bind_ok (show writeByte res (out.length + 2) _ st h2 = _ from e3), hr]
        refine ⟨rest', h4, ?_, by simpa using o4, l4⟩
        rw [List.length_append, List.length_append] at e4
        simp only [List.length_singleton] at e4
        rw [show (triple b).length = 3 from rfl] at e4
        rw [e4]
        simp
      | [], hl, o => simp at hl
      | [_], hl, o => simp at hl
      | [_, _], hl, o => simp at hl; omega

theorem digit_ne0 (n : Nat) (h : n < 16) : digit n ≠ 0 := by
  have : ∀ n, n < 16 → digit n ≠ 0 := by decide
  exact this n h

/-- No character of a rendering is 0. -/
theorem rendering_ne0 (mixed : Bool) (bs : List UInt8) : ∀ c ∈ rendering mixed bs, c ≠ 0 := by
  have ht : ∀ b, ∀ c ∈ triple b, c ≠ 0 := by
    intro b c hc
    have := b.toNat_lt
    simp only [triple, List.mem_cons, List.not_mem_nil, or_false] at hc
    rcases hc with rfl | rfl | rfl
    · exact digit_ne0 _ (by omega)
    · exact digit_ne0 _ (by omega)
    · decide
  have hp : ∀ l : List UInt8, ∀ c ∈ l.takeWhile Printable, c ≠ 0 := by
    intro l c hc h0
    have := List.all_takeWhile (p := Printable) (l := l)
    rw [List.all_eq_true] at this
    have := this c hc
    rw [h0] at this
    revert this
    decide
  intro c hc
  unfold rendering at hc
  split at hc
  · rcases List.mem_append.mp hc with h | h
    · exact hp _ c h
    · obtain ⟨b, _, h⟩ := List.mem_flatMap.mp h
      exact ht b c h
  · obtain ⟨b, _, h⟩ := List.mem_flatMap.mp hc
    exact ht b c h

theorem readText_ok (hne : a ≠ 0) (hc : h.cells a = some (.bytes (text ++ 0 :: rest))) (ht : ∀ c ∈ text, c ≠ 0) :
    readText a st h = .ok text st h := by
  rw [readText, P.bind_ok (deref_ok hne hc)]
  simp only [if_pos (show (0 : UInt8) ∈ text ++ 0 :: rest by simp)]
  have : (text ++ 0 :: rest).takeWhile (· ≠ (0 : UInt8)) = text := by
    rw [List.takeWhile_append_of_pos (by simpa using ht)]
    simp
  rw [this]
  rfl

/-- `sml_value_to_strhex` on the heap, for a string that is not empty. -/
theorem strhex_heap (o : Own n0 c0 h S) (hv : (v, .struct [d] [ty]) ∈ S) (hd : (d, .struct [p] [bs.length]) ∈ S) (hp : (p, .bytes bs) ∈ S)
    (hl : bs.length * 3 + 1 ≤ 2147483647) (mixed : Bool) (st : St) : ∃ res rest h', pValueToStrhex v mixed st h = .ok res st h' ∧
      Own n0 c0 h' ((res, .bytes (rendering mixed bs ++ 0 :: rest)) :: S) := by
  have h0 := o.ne0_of_mem hv
  have h1 := o.ne0_of_mem hd
  have h2 := o.ne0_of_mem hp
  rw [pValueToStrhex, if_neg h0, P.bind_ok (readPtr_ok h0 (o.cell_of_mem hv) rfl), if_neg h1,
    P.bind_ok (readPtr_ok h1 (o.cell_of_mem hd) rfl), if_neg h2, P.bind_ok (readInt_ok h1 (o.cell_of_mem hd) rfl), if_neg (by omega)]
  have o1 := o.alloc (.bytes (List.replicate (bs.length * 3 + 1) 0xFF))
  obtain ⟨rest, h', e, o2, l2⟩ := strhexLoop_heap bs mixed (pre := []) (out := []) (st := st) h2 hp o1 (by simp; omega)
  match rest, l2, o2 with
  | x :: rest, _, o2 =>
    obtain ⟨h'', e3, o3⟩ := o2.writeByte 0 st
    refine ⟨h.next, rest, h'', ?_, by simpa using o3⟩
    show (pStrhexLoop p h.next bs.length 0 mixed 0 >>= fun pos => Sml.writeByte h.next pos 0 >>= fun _ => pure h.next) st _ = _
    simp only [List.length_nil] at e
    rw [P.bind_ok e, P.bind_ok e3]
    rfl

/-! ## Entries -/

/-- The pointer members of a list entry that are read. -/
theorem entry_ptrs (hF : Fields (entryReps e) ps B) (hB : Within B S) : ∃ nm un sc v Bn Bu Bs Bv,
    (∀ ts : List Nat, (ps ++ ts)[0]? = some nm ∧ (ps ++ ts)[3]? = some un ∧ (ps ++ ts)[4]? = some sc ∧ (ps ++ ts)[5]? = some v) ∧
    repOpt RStr e.objName nm Bn ∧ repOpt RNum e.unit un Bu ∧ repOpt RNum e.scaler sc Bs ∧ repOpt RValue e.value v Bv ∧
    Within Bn S ∧ Within Bu S ∧ Within Bs S ∧ Within Bv S := by
  obtain ⟨p0, _, B0, _, rfl, r0, ⟨p1, _, B1, _, rfl, _, ⟨p2, _, B2, _, rfl, _, ⟨p3, _, B3, _, rfl, r3, ⟨p4, _, B4, _, rfl, r4,
    ⟨p5, _, B5, _, rfl, r5, _, rfl⟩, rfl⟩, rfl⟩, rfl⟩, rfl⟩, rfl⟩ := hF
  exact ⟨p0, p3, p4, p5, B0, B3, B4, B5, fun ts => ⟨rfl, rfl, rfl, rfl⟩, r0, r3, r4, r5, hB.left, hB.right.right.right.left,
    hB.right.right.right.right.left, hB.right.right.right.right.right.left⟩

theorem obis_ok : ∀ (n : Nat) {i : Nat} {bs : List UInt8} {st : St}, Own n0 c0 h S → (e, .struct ps is) ∈ S → ps[0]? = some nm →
    (nm, .struct [d] [l]) ∈ S → (d, .bytes bs) ∈ S → i + n ≤ bs.length →
    pObis e n i st h = .ok ((bs.drop i).take n) st h
  | 0, i, bs, st, o, he, h0, hn, hd, hl => by simp [pObis, P.pure_eq]
  | n + 1, i, bs, st, o, he, h0, hn, hd, hl => by
    rw [pObis, P.bind_ok (readPtr_ok (o.ne0_of_mem he) (o.cell_of_mem he) h0), P.bind_ok (readPtr_ok (o.ne0_of_mem hn) (o.cell_of_mem hn) rfl),
      P.bind_ok (readByte_ok (b := bs[i]) (o.ne0_of_mem hd) (o.cell_of_mem hd) (List.getElem?_eq_getElem (by omega))),
      P.bind_ok (obis_ok n o he h0 hn hd (by omega)), P.pure_eq]
    rw [List.drop_eq_getElem_cons (show i < bs.length by omega), List.take_succ_cons]

theorem obis_bad : ∀ (n : Nat) {i : Nat} {bs : List UInt8} {st : St}, Own n0 c0 h S → (e, .struct ps is) ∈ S → ps[0]? = some nm →
    (nm, .struct [d] [l]) ∈ S → (d, .bytes bs) ∈ S → bs.length < i + n → i ≤ bs.length → ∃ b, pObis e n i st h = .bad b
  | 0, i, bs, st, o, he, h0, hn, hd, hl, hi => by omega
  | n + 1, i, bs, st, o, he, h0, hn, hd, hl, hi => by
    rw [pObis, P.bind_ok (readPtr_ok (o.ne0_of_mem he) (o.cell_of_mem he) h0), P.bind_ok (readPtr_ok (o.ne0_of_mem hn) (o.cell_of_mem hn) rfl)]
    by_cases h : i = bs.length
    · exact ⟨_, P.bind_bad (readByte_bad (o.ne0_of_mem hd) (o.cell_of_mem hd) (by rw [h]; simp))⟩
    · rw [P.bind_ok (readByte_ok (b := bs[i]) (o.ne0_of_mem hd) (o.cell_of_mem hd) (List.getElem?_eq_getElem (by omega)))]
      obtain ⟨b, hb⟩ := obis_bad n (st := st) (i := i + 1) o he h0 hn hd (by omega) (by omega)
      exact ⟨b, P.bind_bad hb⟩

/-- `entry->obj_name->str[0]` to `str[5]`. -/
theorem same_obis {name : Option OctetString} (he : (e, .struct ps is) ∈ S) (h0 : ps[0]? = some nm) (hr : repOpt RStr name nm B)
    (hB : Within B S) : Alike S (obisOf name) (pObis e 6 0) := by
  cases name with
  | none =>
    obtain ⟨rfl, rfl⟩ := hr
    refine Alike.undef fun st n0 c0 h o => ⟨.null, ?_⟩
    rw [pObis, P.bind_ok (readPtr_ok (o.ne0_of_mem he) (o.cell_of_mem he) h0), P.bind_bad readPtr_null]
  | some s =>
    obtain ⟨d, hd, hs⟩ := RStr.cells hr
    have hd := hB.mem hd
    rw [obisOf]
    split
    · rename_i hn
      have hr' : RStr s nm B := hr
      obtain ⟨qs, B', hF, rfl⟩ := hr'
      obtain ⟨d', rfl, hd'⟩ := hF.one
      rw [RData, if_pos hn] at hd'
      obtain ⟨rfl, rfl⟩ := hd'
      refine Alike.undef fun st n0 c0 h o => ⟨.null, ?_⟩
      rw [pObis, P.bind_ok (readPtr_ok (o.ne0_of_mem he) (o.cell_of_mem he) h0),
        P.bind_ok (readPtr_ok (o.ne0_of_mem hB.head) (o.cell_of_mem hB.head) rfl), P.bind_bad readByte_null]
    · rename_i hn
      have hs := hB.mem (hs hn)
      split
      · rename_i h6
        have hk : ∀ st n0 c0 h, Own n0 c0 h S → pObis e 6 0 st h = .ok (s.str.take 6) st h := by
          intro st n0 c0 h o
          have := obis_ok 6 (i := 0) (st := st) o he h0 hd hs (by omega)
          simpa using this
        refine ⟨fun s n0 c0 h o v s' hm => ?_, fun s n0 c0 h o r hm => by cases hm⟩
        obtain ⟨rfl, rfl⟩ := M.pure_eq_ok hm
        exact ⟨h, hk _ n0 c0 h o, o, rfl⟩
      · exact Alike.undef fun st n0 c0 h o => obis_bad 6 o he h0 hd hs (by omega) (by omega)

theorem same_scaler {m : Int → M α} {pk : Int → P α} {scaler : Option Num} (he : (e, .struct ps is) ∈ S) (h4 : ps[4]? = some sc)
    (hr : repOpt RNum scaler sc B) (hB : Within B S) (hs : ∀ x, scaler = some x → Sized 1 x) (hk : ∀ i, Alike S (m i) (pk i)) : Alike S (m (scalerInt scaler)) (pScaler e >>= pk) := by
  rw [pScaler, P.assoc]
  refine Alike.ptr he h4 ?_
  cases scaler with
  | none =>
    obtain ⟨rfl, rfl⟩ := hr
    exact hk 0
  | some n =>
    obtain rfl : B = [(sc, .num n)] := hr
    refine Alike.ne0 hB.head fun hne => ?_
    rw [if_pos hne, P.assoc]
    exact Alike.tag hB.head (hs n rfl) (hk n.toInt)

theorem same_unit {unit : Option Num} (he : (e, .struct ps is) ∈ S) (h3 : ps[3]? = some un)
    (hr : repOpt RNum unit un B) (hB : Within B S) (hs : ∀ x, unit = some x → Sized 1 x) : Alike S (unitText unit) (pUnitText e) := by
  rw [pUnitText]
  refine Alike.ptr he h3 ?_
  cases unit with
  | none =>
    obtain ⟨rfl, rfl⟩ := hr
    exact Alike.ret none
  | some n =>
    obtain rfl : B = [(un, .num n)] := hr
    refine Alike.ne0 hB.head fun hne => ?_
    rw [if_pos hne]
    refine Alike.tag hB.head (hs n rfl) ?_
    rw [unitText]
    cases dlmsGetUnit n.val dlmsUnits with
    | ok r => exact Alike.ret r
    | ub r => exact Alike.undef fun st n0 c0 h o => ⟨_, rfl⟩

theorem same_double {v : Value} (hr : RValue v a B) (hB : Within B S) (ht : WellTyped v ∨ Mislabelled v) :
    Alike S (valueToDouble v) (pValueToDouble a) := by
  obtain ⟨_, ps, B', hF, rfl⟩ := hr
  obtain ⟨d, rfl, hd⟩ := hF.one
  refine Alike.int hB.head rfl ?_
  obtain ⟨ty, data⟩ := v
  have key : ∀ n signed, ty = (if signed then 0x50 else 0x60) + n → 0 < n → n ≤ 8 → Alike S (match data with
      | .num (some x) => if x.size = n then pure (toDouble (if signed then x.toInt else (x.val : Int))) else Sml.undef .confusion
      | .num none => Sml.undef .nullDeref
      | .bytes none => Sml.undef .nullDeref
      | .boolean none => Sml.undef .nullDeref
      | _ => Sml.undef .confusion : M Int) (pReadDouble a n signed) := by
    intro n signed hty hn hn8
    rw [pReadDouble]
    refine Alike.ptr hB.head rfl ?_
    have nul : d = 0 → Alike S (Sml.undef .nullDeref : M Int) (readTag n d >>= fun x =>
        pure (toDouble (if signed then x.toInt else (x.val : Int)))) := by
      rintro rfl
      exact Alike.undef fun st n0 c0 h o => ⟨_, P.bind_bad readTag_null⟩
    match data, hd, ht with
    | .num none, hd, ht => exact nul hd.1
    | .bytes none, hd, ht => exact nul hd.1
    | .boolean none, hd, ht => exact nul hd.1
    | .num (some x), hd, ht =>
      obtain rfl : B' = [(d, .num x)] := hd
      by_cases hsz : x.size = n
      · refine Alike.tag hB.tail.head ⟨hsz, ?_⟩ ?_
        · rcases ht with ht | ht
          · rw [← hsz]
            exact ht.1
          · rcases ht.2 with ⟨_, h⟩ | ⟨_, h, _⟩ <;> cases h
        · simp only [if_pos hsz]
          exact Alike.ret _
      · simp only [if_neg hsz]
        refine Alike.undef fun st n0 c0 h o => ⟨.kind, P.bind_bad ?_⟩
        rw [readTag, P.bind_ok (readNum_ok (o.ne0_of_mem hB.tail.head) (o.cell_of_mem hB.tail.head)), if_neg (fun h => hsz h.1)]
        rfl
    | .bytes (some x), hd, ht =>
      obtain ⟨q, hq, _⟩ := RStr.cells hd
      have hq := hB.tail.mem hq
      refine Alike.undef fun st n0 c0 h o => ⟨.kind, ?_⟩
      refine P.bind_bad (P.bind_bad ?_)
      rw [readNum, P.bind_ok (deref_ok (o.ne0_of_mem hq) (o.cell_of_mem hq))]
      rfl
    | .boolean (some x), hd, ht =>
      exfalso
      rcases ht with ht | ht
      · have : ty = 0x40 := ht.1
        cases signed <;> simp at hty <;> omega
      · have : ty = 0x60 := ht.1
        cases signed <;> simp at hty <;> omega
  rw [valueToDouble]
  simp only
  split
  · exact key 1 true rfl (by omega) (by omega)
  · exact key 2 true rfl (by omega) (by omega)
  · exact key 4 true rfl (by omega) (by omega)
  · exact key 8 true rfl (by omega) (by omega)
  · exact key 1 false rfl (by omega) (by omega)
  · exact key 2 false rfl (by omega) (by omega)
  · exact key 4 false rfl (by omega) (by omega)
  · exact key 8 false rfl (by omega) (by omega)
  · split <;> first | exact absurd rfl (by assumption) | exact Alike.ret _

theorem Within.more (h : Within B S) : Within B (x :: S) := by
  obtain ⟨L, h⟩ := h
  refine ⟨x :: L, (h.cons x).trans ?_⟩
  exact List.perm_middle.symm

theorem obisOf_keeps {name : Option OctetString} (h : obisOf name s = .ok v s') : s' = s := by
  unfold obisOf at h
  cases name with
  | none => cases h
  | some n =>
    simp only at h
    split at h
    · cases h
    · split at h
      · cases h; rfl
      · cases h

/-- Printing an octet string. -/
theorem same_text {v : Value} {e : ListEntry} (he : (a, .struct ps is) ∈ S) (h0 : ps[0]? = some nm) (hn : repOpt RStr e.objName nm Bn)
    (hBn : Within Bn S) (hr : RValue v p Bv) (hBv : Within Bv S) (ht : v.type = tyOctet) :
    Alike S (do
      let obis ← obisOf e.objName
      let s ← valueToStrhex (some v) true
      match s with
      | none => Sml.undef .uninit
      | some s => do
        release 1
        pure [Line.text obis s]) (do
      let obis ← pObis a 6 0
      let s ← pValueToStrhex p true
      if s = 0 then fault (.buf .uninit)
      else do
        let text ← readText s
        free s
        pure [Line.text obis text]) := by
  obtain ⟨hd, qs, B', hF, rfl⟩ := hr
  obtain ⟨d, rfl, hdd⟩ := hF.one
  obtain ⟨x, hx⟩ := hd ht
  obtain ⟨ty, data⟩ := v
  simp only at hx ht
  subst hx ht
  have hv := hBv.head
  refine (same_obis he h0 hn hBn).bind fun obis => ?_
  have none1 : Alike S (Sml.undef .uninit : M (List Line)) (fault (.buf .uninit)) := Alike.undef fun _ _ _ _ _ => ⟨_, rfl⟩
  refine Alike.ne0 hv fun hne => ?_
  rw [pValueToStrhex, if_neg hne]
  cases x with
  | none =>
    obtain ⟨rfl, rfl⟩ := hdd
    rw [P.assoc]
    exact Alike.ptr hv rfl none1
  | some s =>
    by_cases hs : s.str = []
    · have hr : RStr s d B' := hdd
      obtain ⟨qs, B'', hF', rfl⟩ := hr
      obtain ⟨q, rfl, hq⟩ := hF'.one
      rw [RData, if_pos hs] at hq
      obtain ⟨rfl, rfl⟩ := hq
      rw [P.assoc]
      refine Alike.ptr hv rfl (Alike.ne0 hBv.tail.head fun hnd => ?_)
      rw [if_neg hnd, P.assoc]
      refine Alike.ptr hBv.tail.head rfl (none1.congr ?_)
      rw [valueToStrhex]
      simp only [if_pos hs]
      rfl
    · obtain ⟨q, hq, hqs⟩ := RStr.cells hdd
      have hq := hBv.tail.mem hq
      have hqs := hBv.tail.mem (hqs hs)
      by_cases hl : s.str.length * 3 + 1 > 2147483647
      · rw [P.assoc]
        refine Alike.ptr hv rfl (Alike.ne0 hq fun hnd => ?_)
        rw [if_neg hnd, P.assoc]
        refine Alike.ptr hq rfl (Alike.ne0 hqs fun hnq => ?_)
        rw [if_neg hnq, P.assoc]
        refine Alike.int hq rfl ?_
        rw [if_pos hl]
        refine (Alike.undef (r := .narrowing) fun _ _ _ _ _ => ⟨_, P.bind_bad rfl⟩).congr ?_
        rw [valueToStrhex]
        simp only [if_neg hs, if_pos hl]
        rfl
      · have hf : ∀ st, valueToStrhex (some ⟨tyOctet, .bytes (some s)⟩) true st =
            .ok (some (rendering true s.str)) { st with live := st.live + 1 } :=
          fun st => (c44_rendering s tyOctet true hs (by omega) st).1
        have hunf : pValueToStrhex p true = (do
            let d ← readPtr p 0
            if d = 0 then pure 0
            else do
              let str ← readPtr d 0
              if str = 0 then pure 0
              else do
                let len ← readInt d 0
                if len * 3 + 1 > 2147483647 then fault (.buf .narrowing)
                else do
                  let res ← malloc (.bytes (List.replicate (len * 3 + 1) 0xFF))
                  let pos ← pStrhexLoop str res len 0 true 0
                  writeByte res pos 0
                  pure res) := by rw [pValueToStrhex, if_neg hne]
        rw [← hunf]
        refine ⟨fun s0 n0 c0 h o l s' hm => ?_, fun s0 n0 c0 h o r hm => ?_⟩
        · rw [M.bind_ok (hf s0)] at hm
          obtain ⟨_, s2, e2, hm⟩ := M.bind_eq_ok hm
          obtain ⟨rfl, rfl⟩ := M.pure_eq_ok hm
          obtain ⟨res, rest, h1, p1, o1⟩ := strhex_heap o hv hq hqs (by omega) true s0.dry
          have p3 := readText_ok (st := s0.dry) o1.ne0 o1.cell (rendering_ne0 true s.str)
          have p4 := free_ok (st := s0.dry) o1.ne0 o1.cell
          rw [P.bind_ok p1, if_neg o1.ne0, P.bind_ok p3, P.bind_ok p4]
          rw [release, if_pos (by show 1 ≤ s0.live + 1; omega)] at e2
          injection e2 with _ e2
          subst e2
          refine ⟨_, rfl, o1.drop, ?_⟩
          show s0.live + 1 - 1 = s0.live
          omega
        · rw [M.bind_ok (hf s0)] at hm
          rcases M.bind_eq_ub hm with hm | ⟨_, s2, _, hm⟩
          · rw [release, if_pos (by show 1 ≤ s0.live + 1; omega)] at hm
            cases hm
          · cases hm

/-- What the program needs to know about an entry. -/
structure GoodEntry (e : ListEntry) : Prop where
  value : ∀ v, e.value = some v → WellTyped v ∨ Mislabelled v
  scaler : ∀ x, e.scaler = some x → Sized 1 x
  unit : ∀ x, e.unit = some x → Sized 1 x

theorem same_entry {e : ListEntry} (he : (a, .struct (ps ++ ts) is) ∈ S) (hF : Fields (entryReps e) ps B) (hB : Within B S)
    (ht : GoodEntry e) : Alike S (printEntry e) (pPrintEntry a) := by
  obtain ⟨nm, un, sc, v, Bn, Bu, Bs, Bv, hps, rn, ru, rs, rv, wn, wu, ws, wv⟩ := entry_ptrs hF hB
  obtain ⟨h0, h3, h4, h5⟩ := hps ts
  have hob := same_obis he h0 rn wn
  rw [printEntry, pPrintEntry]
  refine Alike.ptr he h5 ?_
  cases hev : e.value with
  | none =>
    rw [hev] at rv
    obtain ⟨rfl, rfl⟩ := rv
    exact Alike.ret []
  | some x =>
    rw [hev] at rv
    have rv' : RValue x v Bv := rv
    obtain ⟨hx, qs, B', hF', rfl⟩ := rv'
    obtain ⟨d, rfl, hd⟩ := hF'.one
    refine Alike.ne0 wv.head fun hne => ?_
    rw [if_neg hne]
    refine Alike.int wv.head rfl ?_
    refine Alike.ite (fun hty => same_text he h0 rn wn rv wv hty) fun _ => Alike.ite (fun _ => ?_) fun _ => Alike.ite (fun _ => ?_) fun _ => Alike.ret []
    · refine hob.bind fun o => Alike.ptr wv.head rfl ?_
      have key : ∀ {β : Type} {R : β → Rep} (q : Option β), repOpt R q d B' → (∀ v a B, R v a B → ∃ c, (a, c) ∈ B) →
          Alike S (pure [Line.bool o q.isSome]) (pure [Line.bool o (decide (d ≠ 0))]) := by
        intro β R q hq hh
        cases q with
        | none =>
          obtain ⟨rfl, rfl⟩ := hq
          exact Alike.ret _
        | some y =>
          obtain ⟨c, hc⟩ := hh y d B' hq
          refine Alike.ne0 (wv.tail.mem hc) fun hnd => ?_
          rw [decide_eq_true hnd]
          exact Alike.ret _
      cases hxd : x.data with
      | bytes q => rw [hxd] at hd; exact key (R := RStr) q hd fun _ _ _ h => Rec.head h
      | boolean q => rw [hxd] at hd; exact key (R := RBool) q hd fun _ _ _ h => RBool.head h
      | num q => rw [hxd] at hd; exact key (R := RNum) q hd fun _ _ _ h => RNum.head h
    · refine (same_double rv wv (ht.value x hev)).bind fun value => ?_
      refine same_scaler (m := fun i => do
        let obis ← obisOf e.objName
        let unit ← unitText e.unit
        pure [Line.number obis value i (if -i < 0 then 0 else -i) unit]) he h4 rs ws ht.scaler fun i => ?_
      exact hob.bind fun o => (same_unit he h3 ru wu ht.unit).bind fun u => Alike.ret _

theorem same_entries : ∀ (es : List ListEntry) {a B fuel S}, RList es a B → Within B S → es.length < fuel →
    (∀ e ∈ es, GoodEntry e) → Alike S (printEntries es) (pPrintEntries fuel a)
  | [], a, B, fuel + 1, S, hr, hB, hf, ht => by
    obtain ⟨rfl, rfl⟩ := hr
    exact Alike.ret []
  | e :: es, a, B, fuel + 1, S, hr, hB, hf, ht => by
    obtain ⟨ps, n, B1, B2, hF, hl, hn, rfl⟩ := hr.cons
    refine Alike.ne0 hB.head fun hne => ?_
    rw [pPrintEntries, if_pos hne, printEntries]
    refine (same_entry hB.head hF hB.tail.left (ht e List.mem_cons_self)).bind fun l => ?_
    refine Alike.ptr (p := n) hB.head (by rw [← hl]; simp) ?_
    exact (same_entries es hn hB.tail.right (by simp at hf; omega) fun e' he' => ht e' (List.mem_cons_of_mem _ he')).bind fun ls => Alike.ret _
  | [], _, _, 0, _, _, _, hf, _ => by simp at hf
  | _ :: _, _, _, 0, _, _, _, hf, _ => by simp at hf

/-! ## Messages -/

theorem message_body {m : Message} (hr : RMessage m a B) (hB : Within B S) : ∃ ps b Bb, (a, .struct ps []) ∈ S ∧ ps[3]? = some b ∧
    repOpt RMessageBody m.messageBody b Bb ∧ Within Bb S := by
  obtain ⟨ps, B', ⟨p0, _, B0, _, rfl, r0, ⟨p1, _, B1, _, rfl, _, ⟨p2, _, B2, _, rfl, _, ⟨p3, _, B3, _, rfl, r3, _, rfl⟩, rfl⟩, rfl⟩, rfl⟩, rfl⟩ := hr
  exact ⟨_, p3, B3, hB.head, rfl, r3, hB.tail.right.right.right.left⟩

/-- What the program needs to know about the values of a message. -/
def GoodValues (m : Message) : Prop := ∀ b r, m.messageBody = some b → b.data = .getListResponse (some r) →
  ∀ e ∈ r.valList, GoodEntry e

theorem Arrived.good {m : Message} (h : Arrived n m) : GoodValues m := by
  intro b r hb hd
  obtain ⟨t, _, hok⟩ := h.kind b hb
  rw [hd] at hok
  obtain ⟨_, r', hr, hes⟩ := hok
  cases hr
  have hf := h.fits r (by
    obtain ⟨bt, bd⟩ := b
    simp only at hd
    rw [responseOf, hb, hd])
  intro e he
  exact ⟨entriesOk_values hes e he, fun x hx => (hf e he).1 x hx, fun x hx => (hf e he).2.2 x hx⟩

theorem same_message {m : Message} (hr : RMessage m a B) (hB : Within B S) (hg : GoodValues m) :
    Alike S (printMessage m) (pPrintMessage a) := by
  obtain ⟨ps, b, Bb, ha, h3, hb, wb⟩ := message_body hr hB
  have key : ∀ fuel, S.length < fuel → Alike S (printMessage m) (do
      let body ← readPtr a 3
      let t ← readTag 4 (← readPtr body 0)
      if t.val = tagGetListResponse then do
        let data ← readPtr body 1
        let ls ← pPrintEntries fuel (← readPtr data 4)
        pure (some ls)
      else pure none) := by
    intro fuel hfuel
    refine Alike.ptr ha h3 ?_
    rw [printMessage]
    cases hmb : m.messageBody with
    | none =>
      rw [hmb] at hb
      obtain ⟨rfl, rfl⟩ := hb
      exact Alike.undef fun _ _ _ _ _ => ⟨_, P.bind_bad readPtr_null⟩
    | some body =>
      rw [hmb] at hb
      obtain ⟨⟨t, ht, hsz, hwf⟩, qs, B', hF, rfl⟩ := hb
      obtain ⟨p, q, B1, B2, rfl, hp, hq, rfl⟩ := hF.two
      rw [ht] at hp
      obtain rfl : B1 = [(p, .num t)] := hp
      simp only [ht]
      refine Alike.ptr wb.head rfl (Alike.tag wb.tail.left.head hsz ?_)
      refine Alike.ite (fun htag => ?_) fun _ => Alike.ret none
      refine Alike.ptr wb.head rfl ?_
      rw [htag] at hwf
      have nul : q = 0 → Alike S (Sml.undef .nullDeref : M (Option (List Line))) (readPtr q 4 >>= fun x => pPrintEntries fuel x >>= fun ls => pure (some ls)) := by
        rintro rfl
        exact Alike.undef fun _ _ _ _ _ => ⟨_, P.bind_bad readPtr_null⟩
      have wq := wb.tail.right
      cases hdat : body.data with
      | getListResponse r =>
        rw [hdat] at hq
        cases r with
        | none => exact nul hq.1
        | some r =>
          obtain ⟨ps', B', ⟨p0, _, C0, _, rfl, _, ⟨p1, _, C1, _, rfl, _, ⟨p2, _, C2, _, rfl, _, ⟨p3, _, C3, _, rfl, _, ⟨p4, _, C4, _, rfl, r4, _, rfl⟩, rfl⟩, rfl⟩, rfl⟩, rfl⟩, rfl⟩ := hq
          refine Alike.ptr wq.head rfl ?_
          have w4 := wq.tail.right.right.right.right.left
          have hlen := r4.length_le
          have hle := w4.length_le
          exact (same_entries r.valList r4 w4 (by omega) (hg body r hmb hdat)).bind fun ls => Alike.ret _
      | null => rw [hdat] at hq; exact nul hq.1
      | _ => rw [hdat] at hwf; exact absurd (show _ = _ from hwf) (by decide)
  refine ⟨fun s n0 c0 h o => ?_, fun s n0 c0 h o => ?_⟩
  · exact (key (h.next + 1) (by have := o.length_lt; omega)).1 s n0 c0 h o
  · exact (key (h.next + 1) (by have := o.length_lt; omega)).2 s n0 c0 h o

theorem same_messages (single : Bool) : ∀ (ms : List Message) {qs ps C}, Fields (ms.map RMessage) ps C → Within C S → (∀ m ∈ ms, GoodValues m) →
    (a, .struct sp is) ∈ S → sp[0]? = some arr → (arr, .struct (qs ++ ps) []) ∈ S →
    Alike S (printMessages single ms) (pPrintMessages single a ms.length qs.length)
  | [], qs, ps, C, hF, hC, hg, ha, hi, harr => Alike.ret _
  | m :: ms, qs, ps, C, hF, hC, hg, ha, hi, harr => by
    obtain ⟨p, ps', B1, B2, rfl, hr, hF', rfl⟩ := hF
    have harr' : (arr, HCell.struct ((qs ++ [p]) ++ ps') []) ∈ S := by simpa using harr
    have hk := same_messages single ms (qs := qs ++ [p]) hF' hC.right (fun m' hm' => hg m' (List.mem_cons_of_mem _ hm')) ha hi harr'
    rw [List.length_append] at hk
    rw [List.length_cons, pPrintMessages, printMessages]
    refine Alike.ptr ha hi (Alike.ptr (p := p) harr (by simp) ?_)
    refine (same_message hr hC.left (hg m List.mem_cons_self)).bind fun x => ?_
    cases x with
    | none => exact hk
    | some ls => exact Alike.ite (fun _ => Alike.ret _) fun _ => hk.bind fun _ => Alike.ret _

theorem same_tags : ∀ (ms : List Message) {qs ps C}, Fields (ms.map RMessage) ps C → Within C S →
    (a, .struct sp is) ∈ S → sp[0]? = some arr → (arr, .struct (qs ++ ps) []) ∈ S →
    Alike S (printTags ms) (pPrintTags a ms.length qs.length)
  | [], qs, ps, C, hF, hC, ha, hi, harr => Alike.ret _
  | m :: ms, qs, ps, C, hF, hC, ha, hi, harr => by
    obtain ⟨p, ps', B1, B2, rfl, hr, hF', rfl⟩ := hF
    have harr' : (arr, HCell.struct ((qs ++ [p]) ++ ps') []) ∈ S := by simpa using harr
    have hk := same_tags ms (qs := qs ++ [p]) hF' hC.right ha hi harr'
    rw [List.length_append] at hk
    rw [List.length_cons, pPrintTags, printTags]
    refine Alike.ptr ha hi (Alike.ptr (p := p) harr (by simp) ?_)
    obtain ⟨qs', b, Bb, hm, h3, hb, wb⟩ := message_body hr hC.left
    refine Alike.ptr hm h3 ?_
    cases hmb : m.messageBody with
    | none =>
      rw [hmb] at hb
      obtain ⟨rfl, rfl⟩ := hb
      exact Alike.undef fun _ _ _ _ _ => ⟨_, P.bind_bad readPtr_null⟩
    | some body =>
      rw [hmb] at hb
      obtain ⟨⟨t, ht, hsz, _⟩, qs, B', hF, rfl⟩ := hb
      obtain ⟨p, q, B1, B2, rfl, hp, hq, rfl⟩ := hF.two
      rw [ht] at hp
      obtain rfl : B1 = [(p, .num t)] := hp
      simp only [ht]
      refine Alike.ptr wb.head rfl (Alike.tag wb.tail.left.head hsz ?_)
      exact hk.bind fun _ => Alike.ret _

theorem same_filePrint {f : File} (hr : RFile bs f a B) (hB : Within B S) : Alike S (filePrint f) (pFilePrint a) := by
  obtain ⟨ps, B', hF, rfl⟩ := hr
  obtain ⟨arr, buf, B1, B2, rfl, harr, hbuf, rfl⟩ := hF.two
  obtain ⟨qs, C, hq, rfl⟩ := hbuf
  obtain ⟨x, y, _, _, rfl, _, _, rfl⟩ := hq.two
  rw [pFilePrint, filePrint]
  refine Alike.int hB.head rfl (Alike.ptr hB.head rfl (Alike.ptr hB.tail.right.head rfl ?_))
  have hk : Alike S (printTags f.messages) (pPrintTags a f.messages.length 0) := by
    by_cases hs : f.messages = []
    · rw [hs]
      exact Alike.ret []
    · rw [RArr.ne (by simpa using hs)] at harr
      obtain ⟨rs, D, hD, rfl⟩ := harr
      exact same_tags f.messages (qs := []) hD hB.tail.left.tail hB.head rfl hB.tail.left.head
  have hk' : ∀ n : Nat, Alike S (printTags f.messages >>= fun tags => pure (⟨f.messages.length, n, tags⟩ : FileInfo))
      (pPrintTags a f.messages.length 0 >>= fun tags => pure ⟨f.messages.length, n, tags⟩) := fun n => hk.bind fun _ => Alike.ret _
  exact ⟨fun s n0 c0 h o => (hk' s.cursor).1 s n0 c0 h o, fun s n0 c0 h o => (hk' s.cursor).2 s n0 c0 h o⟩

theorem same_printing {f : File} (single : Bool) (hr : RFile bs f a B) (hB : Within B S) (hg : ∀ m ∈ f.messages, GoodValues m) :
    Alike S (printMessages single f.messages) (readInt a 0 >>= fun n => pPrintMessages single a n 0) := by
  obtain ⟨ps, B', hF, rfl⟩ := hr
  obtain ⟨arr, buf, B1, B2, rfl, harr, hbuf, rfl⟩ := hF.two
  refine Alike.int hB.head rfl ?_
  by_cases hs : f.messages = []
  · rw [hs]
    exact Alike.ret _
  · rw [RArr.ne (by simpa using hs)] at harr
    obtain ⟨rs, D, hD, rfl⟩ := harr
    exact same_messages single f.messages (qs := []) hD hB.tail.left.tail hg hB.head rfl hB.tail.left.head

end Sml
