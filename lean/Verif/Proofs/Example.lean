import Verif.Spec.Example
import Verif.Props.Dzg
import Verif.Props.Content
import Verif.Props.Util
import Verif.Props.Safety

/-!
# The example program
-/

namespace Sml

open Spec

/-! ## Strings are not longer than the telegram -/

theorem string_fits {st s : St} {a : OctetString} (hb : st.cursor ≤ st.data.length) (h : octetStringParse st = .ok (some a) s) :
    a.str.length ≤ st.data.length := by
  unfold octetStringParse at h
  obtain ⟨sk, s1, h1, h⟩ := bind_inv h
  obtain ⟨d1, _, b1⟩ := loc_optionalIsSkipped.adv _ hb _ _ h1
  cases sk with
  | true => cases h
  | false =>
    simp only [Bool.false_eq_true, if_false] at h
    obtain ⟨t, s2, h2, h⟩ := bind_inv h
    rw [← d1] at b1
    obtain ⟨d2, _, b2⟩ := loc_getNextType.adv _ b1 _ _ h2
    rw [← d2] at b2
    rcases ite_run h with ⟨_, h⟩ | ⟨_, h⟩
    · have : Wlp (failWith 0 : M (Option OctetString)) s2 fun a _ => a = none := by simp
      cases this _ _ h
    obtain ⟨l, s3, h3, h⟩ := bind_inv h
    obtain ⟨d3, _, b3⟩ := loc_getNextLength.adv _ b2 _ _ h3
    obtain ⟨s4, s5, h4, h⟩ := bind_inv h
    cases h4
    rcases ite_run h with ⟨_, h⟩ | ⟨hl, h⟩
    · have : Wlp (failWith 0 : M (Option OctetString)) s3 fun a _ => a = none := by simp
      cases this _ _ h
    obtain ⟨bs, s6, h6, h⟩ := bind_inv h
    obtain ⟨a', s7, h7, h⟩ := bind_inv h
    obtain ⟨_, s8, h8, h⟩ := bind_inv h
    cases h
    have ha : a.str = bs := by
      have : Wlp (octetStringInit bs) s6 fun a _ => a.str = bs := by
        unfold octetStringInit
        simp only [wlp_bind, wlp_alloc, wlp_ite, wlp_pure]
        refine ⟨fun _ => trivial, fun h => ?_⟩
        exact (List.length_eq_zero_iff.1 (by omega)).symm
      exact this _ _ h7
    have hlen : bs.length ≤ s3.data.length := by
      have : Wlp (readBytes l.toNat) s3 fun bs _ => bs.length ≤ s3.data.length := by
        simp only [wlp_readBytes]
        intro _
        simp only [List.length_take, List.length_drop]
        omega
      exact this _ _ h6
    rw [ha, ← d1, ← d2, ← d3]
    exact hlen

/-- A string in a value that was read. -/
theorem value_fits {st s : St} {v : Value} {a : OctetString} (hb : st.cursor ≤ st.data.length) (h : valueParse st = .ok (some v) s)
    (hv : v.data = .bytes (some a)) : a.str.length ≤ st.data.length := by
  unfold valueParse at h
  obtain ⟨sk, s1, h1, h⟩ := bind_inv h
  obtain ⟨d1, _, b1⟩ := loc_optionalIsSkipped.adv _ hb _ _ h1
  cases sk with
  | true => cases h
  | false =>
    simp only [Bool.false_eq_true, if_false] at h
    obtain ⟨t, s2, h2, h⟩ := bind_inv h
    rw [← d1] at b1
    obtain ⟨d2, _, b2⟩ := loc_getNextType.adv _ b1 _ _ h2
    rw [← d2] at b2
    obtain ⟨byte, s3, h3, h⟩ := bind_inv h
    obtain ⟨d3, _, b3⟩ := loc_getCurrentByte.adv _ b2 _ _ h3
    rw [← d3] at b3
    obtain ⟨_, s4, h4, h⟩ := bind_inv h
    cases h4
    obtain ⟨v', s5, h5, h⟩ := bind_inv h
    obtain ⟨er, s6, h6, h⟩ := bind_inv h
    cases h6
    rcases ite_run h with ⟨_, h⟩ | ⟨_, h⟩
    · obtain ⟨_, s7, _, h⟩ := bind_inv h
      cases h
    cases h
    rcases ite_run h5 with ⟨_, h5⟩ | ⟨_, h5⟩
    · obtain ⟨p, s7, h7, h5⟩ := bind_inv h5
      cases h5
      simp only [VData.bytes.injEq] at hv
      subst hv
      have := string_fits (by exact b3) h7
      simpa [d1, d2, d3] using this
    rcases ite_run h5 with ⟨_, h5⟩ | ⟨_, h5⟩
    · obtain ⟨p, s7, h7, h5⟩ := bind_inv h5
      cases h5
      cases hv
    rcases ite_run h5 with ⟨_, h5⟩ | ⟨_, h5⟩
    · obtain ⟨p, s7, h7, h5⟩ := bind_inv h5
      cases h5
      cases hv
    · obtain ⟨_, s7, h7, h5⟩ := bind_inv h5
      cases h5
      cases hv

/-- The scaler and the unit are bytes and a string value has at most `n` bytes. -/
def EntryFits (n : Nat) (e : ListEntry) : Prop :=
  (∀ x, e.scaler = some x → x.size = 1 ∧ x.val < 256) ∧
  (∀ v a, e.value = some v → v.data = .bytes (some a) → a.str.length ≤ n) ∧
  ∀ x, e.unit = some x → x.size = 1 ∧ x.val < 256

theorem entryAt_fits {st s : St} {e : ListEntry} {b : UInt8} (hb : st.cursor ≤ st.data.length) (h : EntryAt st e b s) :
    EntryFits st.data.length e ∧ s.data = st.data ∧ s.cursor ≤ s.data.length := by
  obtain ⟨_, ⟨s0, s1, s2, s3, s4, s5, s6, h0, h1, h2, h3, h4, h5, _, h6, h7⟩, _⟩ := h
  obtain ⟨d0, _, b0⟩ := loc_getNextLength.adv _ hb _ _ h0
  rw [← d0] at b0
  obtain ⟨d1, _, b1⟩ := loc_octetString.adv _ (by exact b0) _ _ h1
  simp only at d1 b1
  rw [← d1] at b1
  obtain ⟨d2, _, b2⟩ := loc_status.adv _ b1 _ _ h2
  rw [← d2] at b2
  obtain ⟨d3, _, b3⟩ := loc_time.adv _ b2 _ _ h3
  rw [← d3] at b3
  obtain ⟨d4, _, b4⟩ := (loc_number tyUnsigned 1).adv _ b3 _ _ h4
  rw [← d4] at b4
  obtain ⟨d5, _, b5⟩ := (loc_number tyInteger 1).adv _ b4 _ _ h5
  rw [← d5] at b5
  obtain ⟨d6, _, b6⟩ := loc_value.adv _ b5 _ _ h6
  rw [← d6] at b6
  obtain ⟨d7, _, b7⟩ := loc_octetString.adv _ b6 _ _ h7
  rw [← d7] at b7
  refine ⟨⟨fun x hx => ?_, fun v a hv ha => ?_, fun x hx => (number_result tyUnsigned 1 s3 _ _ h4).1 x hx⟩, by rw [d7, d6, d5, d4, d3, d2, d1, d0], b7⟩
  · exact (number_result tyInteger 1 s4 _ _ h5).1 x hx
  · rw [hv] at h6
    have := value_fits b5 h6 ha
    rwa [d5, d4, d3, d2, d1, d0] at this

theorem entriesAt_fits {st s : St} {es : List (ListEntry × UInt8)} (h : EntriesAt st es s) :
    st.cursor ≤ st.data.length → ∀ p ∈ es, EntryFits st.data.length p.1 := by
  induction h with
  | nil => simp
  | cons h1 _ ih =>
    intro hb p hp
    obtain ⟨h2, h3, h4⟩ := entryAt_fits hb h1
    rcases List.mem_cons.1 hp with rfl | hp
    · exact h2
    · have := ih (by exact h4) p hp
      simp only [h3] at this
      exact this

theorem list_fits {st s : St} {es : List ListEntry} (hb : st.cursor ≤ st.data.length) (h : listParse st = .ok es s) (he : s.error = false) :
    ∀ e ∈ es, EntryFits st.data.length e := by
  intro e hm
  rcases c46_list st s es h he with rfl | ⟨n, st', sent, h1, h2, _, h4, h5⟩
  · cases hm
  · obtain ⟨d, _, b⟩ := loc_getNextLength.adv _ hb _ _ h1
    rw [← d] at b
    have hall := entriesAt_fits h2 b
    rw [d] at hall
    obtain ⟨i, hi, rfl⟩ := List.getElem_of_mem hm
    have hi' : i < sent.length := by omega
    have hs : sent[i]? = some (sent[i].1, sent[i].2) := by rw [List.getElem?_eq_getElem hi']
    have hf := hall sent[i] (List.getElem_mem hi')
    obtain ⟨h6, h7⟩ := h5 i _ _ hs
    by_cases ha : Affected sent i
    · have := h6 ha
      rw [List.getElem?_eq_getElem hi] at this
      rw [Option.some.inj this]
      refine ⟨hf.1, fun v a hv ha => ?_, hf.2.2⟩
      simp only [Option.map_eq_some_iff] at hv
      obtain ⟨v', hv', rfl⟩ := hv
      exact hf.2.1 v' a hv' ha
    · have := h7 ha
      rw [List.getElem?_eq_getElem hi] at this
      rw [Option.some.inj this]
      exact hf

theorem listResponse_fits {st s : St} {r : GetListResponse} (hb : st.cursor ≤ st.data.length) (h : getListResponseParse st = .ok (some r) s)
    (he : s.error = false) : ∀ e ∈ r.valList, EntryFits st.data.length e := by
  unfold getListResponseParse at h
  obtain ⟨_, s0, ha, h⟩ := bind_inv h
  cases ha
  obtain ⟨_, s0, _, hl, h⟩ := expectList_inv h
  obtain ⟨d0, _, b0⟩ := loc_getNextLength.adv _ (by exact hb) _ _ hl
  obtain ⟨v1, s1, h1, _, h⟩ := field_inv h he
  obtain ⟨v2, s2, h2, _, h⟩ := field_inv h he
  obtain ⟨v3, s3, h3, _, h⟩ := field_inv h he
  obtain ⟨v4, s4, h4, _, h⟩ := field_inv h he
  obtain ⟨v5, s5, h5, e5, h⟩ := field_inv h he
  obtain ⟨v6, s6, h6, _, h⟩ := field_inv h he
  obtain ⟨v7, s7, h7, _, h⟩ := field_inv h he
  cases h
  simp only at d0 b0
  rw [← d0] at b0
  obtain ⟨d1, _, b1⟩ := loc_octetString.adv _ b0 _ _ h1
  rw [← d1] at b1
  obtain ⟨d2, _, b2⟩ := loc_octetString.adv _ b1 _ _ h2
  rw [← d2] at b2
  obtain ⟨d3, _, b3⟩ := loc_octetString.adv _ b2 _ _ h3
  rw [← d3] at b3
  obtain ⟨d4, _, b4⟩ := loc_time.adv _ b3 _ _ h4
  rw [← d4] at b4
  have := list_fits b4 h5 e5
  rwa [d4, d3, d2, d1, d0] at this

theorem bodyData_list {depth tag : Nat} {st s : St} {r : GetListResponse} (h : bodyDataParse depth tag st = .ok (.getListResponse (some r)) s) :
    getListResponseParse st = .ok (some r) s := by
  unfold bodyDataParse at h
  iterate 12
    rcases ite_run h with ⟨_, h⟩ | ⟨_, h⟩
    · obtain ⟨x, s1, h1, h2⟩ := bind_inv h
      cases h2
  rcases ite_run h with ⟨_, h⟩ | ⟨_, h⟩
  · obtain ⟨x, s1, h1, h2⟩ := bind_inv h
    cases h2
    exact h1
  rcases ite_run h with ⟨_, h⟩ | ⟨_, h⟩
  · obtain ⟨x, s1, h1, h2⟩ := bind_inv h
    cases h2
  cases h

/-- The entries of a delivered list response. -/
theorem delivered_fits {depth : Nat} {buffer : List UInt8} (hlen : buffer.length ≤ 2147483647) {f : File} {s : St} (h : fileParse depth buffer = .ok f s)
    {m : Message} (hm : m ∈ f.messages) {r : GetListResponse} (hr : responseOf m = some r) : ∀ e ∈ r.valList, EntryFits buffer.length e := by
  obtain ⟨s3, s4, hd, hb, he⟩ := delivered_body hlen h hm
  unfold responseOf at hr
  split at hr
  next t r' hmb =>
    subst hr
    rw [hmb] at hb
    obtain ⟨hlt, s0, s1, t', _, hl, ht, _, ⟨_, hx, _⟩ | ⟨tt, d, rfl, hd', hx⟩⟩ := body_inv hb he
    · cases hx
    · simp only [Option.some.injEq, MessageBody.mk.injEq] at hx
      obtain ⟨_, rfl⟩ := hx
      obtain ⟨d0, _, b0⟩ := loc_getNextLength.adv _ (by exact Nat.le_of_lt hlt) _ _ hl
      simp only at d0 b0
      rw [← d0] at b0
      obtain ⟨d1, _, b1⟩ := (loc_number tyUnsigned 4).adv _ b0 _ _ ht
      rw [← d1] at b1
      have := listResponse_fits b1 (bodyData_list hd') he
      rwa [d1, d0, hd] at this
  next => cases hr

/-! ## Printing -/

theorem obisOf_run (e : ListEntry) (st : St) : (∀ o, Named e o → obisOf e.objName st = .ok o st) ∧ ((¬ ∃ o, Named e o) → ∃ u, obisOf e.objName st = .ub u) := by
  unfold Named obisOf
  cases e.objName with
  | none => exact ⟨(by rintro o ⟨s, h, _⟩; cases h), fun _ => ⟨_, rfl⟩⟩
  | some s =>
    dsimp only
    by_cases h6 : 6 ≤ s.str.length
    · have hne : s.str ≠ [] := by intro h; rw [h] at h6; simp at h6
      rw [if_neg hne, if_pos h6]
      exact ⟨(by rintro o ⟨s', h, _, rfl⟩; cases h; rfl), fun h => absurd ⟨_, s, rfl, h6, rfl⟩ h⟩
    · refine ⟨(by rintro o ⟨s', h, h', _⟩; cases h; exact absurd h' h6), fun _ => ?_⟩
      by_cases hne : s.str = []
      · rw [if_pos hne]; exact ⟨_, rfl⟩
      · rw [if_neg hne, if_neg h6]; exact ⟨_, rfl⟩

/-- The power of ten as the program computes it. -/
theorem scaler_eq {n : Nat} {e : ListEntry} (h : EntryFits n e) : scalerInt e.scaler = powerOfTen e := by
  unfold powerOfTen scalerInt
  cases hs : e.scaler with
  | none => rfl
  | some x =>
    obtain ⟨h1, h2⟩ := h.1 x hs
    simp only [Num.toInt, h1]
    simp

/-- The unit as the program finds it. -/
theorem unit_run (e : ListEntry) (st : St) : ∃ u, UnitIs e u ∧ unitText e.unit st = .ok u st := by
  unfold unitText
  cases hu : e.unit with
  | none => exact ⟨none, by simp [UnitIs, hu], rfl⟩
  | some n =>
    obtain ⟨r, h1, h2, _⟩ := c48_lookup n.val
    refine ⟨r, fun s => ?_, by simp only [h1]; rfl⟩
    rw [h2 s, hu]
    simp

theorem prec_eq (x : Int) : (if -x < 0 then 0 else -x) = max 0 (-x) := by omega

/-- The last branch of the loop body: numbers. -/
theorem printNumber {n : Nat} {e : ListEntry} {v : Value} {r : Int} (hf : EntryFits n e) (hv : e.value = some v)
    (ht : v.type &&& 0x70 = tyInteger ∨ v.type &&& 0x70 = tyUnsigned) (st : St) (hr : valueToDouble v st = .ok r st) :
    (∀ o, Named e o → ∃ u, UnitIs e u ∧ printEntry e st = .ok [.number o r (powerOfTen e) (max 0 (-powerOfTen e)) u] st) ∧
    ((¬ ∃ o, Named e o) → ∃ u, printEntry e st = .ub u) := by
  have h0 : ¬ v.type = tyOctet := by rintro h; rw [h] at ht; revert ht; decide
  have h4 : ¬ v.type = tyBoolean := by rintro h; rw [h] at ht; revert ht; decide
  obtain ⟨g1, g2⟩ := obisOf_run e st
  obtain ⟨u, hu, hur⟩ := unit_run e st
  unfold printEntry
  rw [hv]
  dsimp only
  rw [run_ite, if_neg h0, run_ite, if_neg h4, run_ite, if_pos ht, run_bind, hr, Res.andThen_ok, run_bind]
  refine ⟨fun o ho => ⟨u, hu, ?_⟩, fun hn => ?_⟩
  · rw [g1 o ho, Res.andThen_ok, run_bind, hur, Res.andThen_ok, scaler_eq hf, prec_eq]
    rfl
  · obtain ⟨x, hx⟩ := g2 hn
    exact ⟨x, by rw [hx, Res.andThen_ub]⟩

/-- A well-typed value is a string, a boolean, a number of a usual size or a number sent with more than eight bytes. -/
theorem wellTyped_cases {v : Value} (h : WellTyped v) :
    (∃ s, v = ⟨0x00, .bytes (some s)⟩) ∨ (∃ b, v = ⟨0x40, .boolean (some b)⟩) ∨ (∃ x, NumberOf v x) ∨ v.type = 0x50 ∨ v.type = 0x70 := by
  obtain ⟨t, d⟩ := v
  unfold WellTyped at h
  split at h
  next s hd => simp only at hd h; subst hd; subst h; exact Or.inl ⟨s, rfl⟩
  next b hd => simp only at hd h; subst hd; obtain ⟨rfl, _⟩ := h; exact Or.inr (Or.inl ⟨b, rfl⟩)
  next n hd =>
    simp only at hd h
    subst hd
    obtain ⟨sz, vl⟩ := n
    simp only at h
    obtain ⟨h1, ⟨h2, rfl | rfl⟩ | ⟨_, rfl | rfl⟩⟩ := h
    · exact Or.inr (Or.inr (Or.inl ⟨_, .signed h2 h1⟩))
    · exact Or.inr (Or.inr (Or.inl ⟨_, .unsigned h2 h1⟩))
    · exact Or.inr (Or.inr (Or.inr (Or.inl rfl)))
    · exact Or.inr (Or.inr (Or.inr (Or.inr rfl)))
  next => exact h.elim

theorem numberOf_type {v : Value} {x : Int} (h : NumberOf v x) : (v.type &&& 0x70 = tyInteger ∨ v.type &&& 0x70 = tyUnsigned) ∧ v.type ≠ 0x70 ∧ v.type ≠ 0 := by
  cases h with
  | signed h hv => rcases h with rfl | rfl | rfl | rfl <;> simp [tyInteger, tyUnsigned]
  | unsigned h hv => rcases h with rfl | rfl | rfl | rfl <;> simp [tyInteger, tyUnsigned]

theorem valueToDouble_zero {v : Value} (h : v.type = 0x50 ∨ v.type = 0x60) (st : St) : valueToDouble v st = .ok 0 st := by
  refine c45_other v (fun n hn => ?_) st
  rcases h with h | h <;> rw [h] <;> omega

theorem printEntry_run {n : Nat} (hn : 3 * n + 1 ≤ 2147483647) {e : ListEntry} (hf : EntryFits n e) (hv : ∀ v, e.value = some v → WellTyped v ∨ Mislabelled v)
    (st : St) : (EntrySafe e → ∃ l, printEntry e st = .ok l st ∧ Shows e l) ∧ (¬ EntrySafe e → ∃ u, printEntry e st = .ub u) := by
  cases hev : e.value with
  | none =>
    refine ⟨fun _ => ⟨[], ?_, .absent hev⟩, fun h => absurd ?_ h⟩
    · unfold printEntry; rw [hev]; rfl
    · intro v h; rw [hev] at h; cases h
  | some v =>
    obtain ⟨g1, g2⟩ := obisOf_run e st
    have hsafe : EntrySafe e ↔ v.type = 0x70 ∨ (∃ o, Named e o) ∧ v ≠ ⟨0x00, .bytes (some ⟨[]⟩)⟩ := by
      unfold EntrySafe
      rw [hev]
      exact ⟨fun h => h v rfl, fun h v' hv' => by cases hv'; exact h⟩
    rw [hsafe]
    have hzero : v.type = 0x50 ∨ v.type = 0x60 → (v.type = 0x70 ∨ (∃ o, Named e o) ∧ v ≠ ⟨0x00, .bytes (some ⟨[]⟩)⟩ → ∃ l, printEntry e st = .ok l st ∧ Shows e l) ∧
        (¬ (v.type = 0x70 ∨ (∃ o, Named e o) ∧ v ≠ ⟨0x00, .bytes (some ⟨[]⟩)⟩) → ∃ u, printEntry e st = .ub u) := by
      intro h
      obtain ⟨p1, p2⟩ := printNumber hf hev (by rcases h with h | h <;> rw [h] <;> decide) st (valueToDouble_zero h st)
      refine ⟨fun hs => ?_, fun hs => ?_⟩
      · rcases hs with hs | ⟨⟨o, ho⟩, _⟩
        · omega
        · obtain ⟨u, hu, hp⟩ := p1 o ho
          exact ⟨_, hp, .zero hev h ho hu⟩
      · refine p2 fun ho => hs (Or.inr ⟨ho, ?_⟩)
        rintro rfl
        simp at h
    rcases hv v hev with hw | ⟨hm, _⟩
    · rcases wellTyped_cases hw with ⟨s, rfl⟩ | ⟨b, rfl⟩ | ⟨x, hx⟩ | h50 | h70
      · -- strings
        by_cases hs : s.str = []
        · have hse : s = ⟨[]⟩ := by cases s; simp only at hs; rw [hs]
          refine ⟨fun h => ?_, fun _ => ?_⟩
          · rcases h with h | ⟨_, h⟩
            · cases h
            · exact absurd (by rw [hse]) h
          · unfold printEntry
            rw [hev]
            dsimp only
            rw [run_ite, if_pos (by rfl), run_bind, hse]
            by_cases ho : ∃ o, Named e o
            · obtain ⟨o, ho⟩ := ho
              rw [g1 o ho, Res.andThen_ok, run_bind, (c44_null _ _ _).2.2]
              exact ⟨_, rfl⟩
            · obtain ⟨u, hu⟩ := g2 ho
              rw [hu]
              exact ⟨_, rfl⟩
        · have hlen := hf.2.1 _ _ hev rfl
          have hr := (c44_rendering s 0 true hs (by omega) st).1
          unfold printEntry
          rw [hev]
          dsimp only
          rw [run_ite, if_pos (by rfl), run_bind]
          refine ⟨fun h => ?_, fun h => ?_⟩
          · rcases h with h | ⟨⟨o, ho⟩, _⟩
            · cases h
            · refine ⟨_, ?_, .text hev hs ho⟩
              rw [g1 o ho, Res.andThen_ok, run_bind, hr]
              rfl
          · obtain ⟨u, hu⟩ := g2 fun ho => h (Or.inr ⟨ho, fun hc => hs (by
              simp only [Value.mk.injEq, VData.bytes.injEq, Option.some.injEq, true_and] at hc
              rw [hc])⟩)
            rw [hu]
            exact ⟨_, rfl⟩
      · -- booleans
        unfold printEntry
        rw [hev]
        dsimp only
        rw [run_ite, if_neg (by decide), run_ite, if_pos (by rfl), run_bind]
        refine ⟨fun h => ?_, fun h => ?_⟩
        · rcases h with h | ⟨⟨o, ho⟩, _⟩
          · cases h
          · exact ⟨_, by rw [g1 o ho]; rfl, .bool hev ho⟩
        · obtain ⟨u, hu⟩ := g2 fun ho => h (Or.inr ⟨ho, by simp⟩)
          rw [hu]
          exact ⟨_, rfl⟩
      · -- numbers
        obtain ⟨r, h1, h2, h3⟩ := c45_nearest v x hx st
        obtain ⟨t1, t2, t3⟩ := numberOf_type hx
        obtain ⟨p1, p2⟩ := printNumber hf hev t1 st h1
        refine ⟨fun hs => ?_, fun hs => ?_⟩
        · rcases hs with hs | ⟨⟨o, ho⟩, _⟩
          · exact absurd hs t2
          · obtain ⟨u, hu, hp⟩ := p1 o ho
            exact ⟨_, hp, .number hev hx h2 h3 ho hu⟩
        · refine p2 fun ho => hs (Or.inr ⟨ho, ?_⟩)
          rintro rfl
          exact t3 rfl
      · exact hzero (Or.inl h50)
      · refine ⟨fun _ => ⟨[], ?_, .wide hev h70⟩, fun h => absurd (Or.inl h70) h⟩
        unfold printEntry
        rw [hev]
        dsimp only
        rw [run_ite, if_neg (by rw [h70]; decide), run_ite, if_neg (by rw [h70]; decide), run_ite, if_neg (by rw [h70]; decide)]
        rfl
    · exact hzero (Or.inr hm)

theorem printEntries_run {n : Nat} (hn : 3 * n + 1 ≤ 2147483647) (es : List ListEntry) (hf : ∀ e ∈ es, EntryFits n e)
    (hv : ∀ e ∈ es, ∀ v, e.value = some v → WellTyped v ∨ Mislabelled v) (st : St) :
    ((∀ e ∈ es, EntrySafe e) → ∃ l, printEntries es st = .ok l st ∧ ShowsAll es l) ∧ ((¬ ∀ e ∈ es, EntrySafe e) → ∃ u, printEntries es st = .ub u) := by
  induction es with
  | nil => exact ⟨fun _ => ⟨[], rfl, .nil⟩, fun h => absurd (by simp) h⟩
  | cons e es ih =>
    obtain ⟨i1, i2⟩ := ih (fun x hx => hf x (by simp [hx])) (fun x hx => hv x (by simp [hx]))
    obtain ⟨e1, e2⟩ := printEntry_run hn (hf e (by simp)) (hv e (by simp)) st
    unfold printEntries
    rw [run_bind]
    refine ⟨fun h => ?_, fun h => ?_⟩
    · obtain ⟨l, a, b⟩ := e1 (h e (by simp))
      obtain ⟨ls, c, d⟩ := i1 fun x hx => h x (by simp [hx])
      exact ⟨l ++ ls, by rw [a, Res.andThen_ok, run_bind, c]; rfl, .cons b d⟩
    · by_cases he : EntrySafe e
      · obtain ⟨l, a, b⟩ := e1 he
        obtain ⟨u, hu⟩ := i2 fun hx => h fun x hm => by
          rcases List.mem_cons.1 hm with rfl | hm
          · exact he
          · exact hx x hm
        exact ⟨u, by rw [a, Res.andThen_ok, run_bind, hu, Res.andThen_ub]⟩
      · obtain ⟨u, hu⟩ := e2 he
        exact ⟨u, by rw [hu, Res.andThen_ub]⟩

/-- What is known of a delivered message. -/
structure Arrived (n : Nat) (m : Message) : Prop where
  kind : ∀ b, m.messageBody = some b → ∃ t, b.tag = some t ∧ BodyOk t.val b.data
  fits : ∀ r, responseOf m = some r → ∀ e ∈ r.valList, EntryFits n e

theorem entriesOk_values {es : List ListEntry} (h : EntriesOk es) : ∀ e ∈ es, ∀ v, e.value = some v → WellTyped v ∨ Mislabelled v := by
  intro e he v hv
  obtain ⟨i, hi, rfl⟩ := List.getElem_of_mem he
  rcases h i es[i] v (List.getElem?_eq_getElem hi) hv with h | h
  · exact Or.inl h
  · exact Or.inr h.1

theorem printMessage_run {n : Nat} (hn : 3 * n + 1 ≤ 2147483647) {m : Message} (hd : Arrived n m) (st : St) :
    (MessageSafe m → (responseOf m = none ∧ printMessage m st = .ok none st) ∨
      ∃ r l, responseOf m = some r ∧ ShowsAll r.valList l ∧ printMessage m st = .ok (some l) st) ∧
    (¬ MessageSafe m → ∃ u, printMessage m st = .ub u) := by
  cases hmb : m.messageBody with
  | none =>
    refine ⟨fun h => absurd hmb h.1, fun _ => ⟨.nullDeref, ?_⟩⟩
    unfold printMessage
    rw [hmb]
    rfl
  | some b =>
    obtain ⟨tag, d⟩ := b
    obtain ⟨t, ht, hok⟩ := hd.kind _ hmb
    simp only at ht hok
    subst ht
    by_cases hl : t.val = 0x701
    · obtain ⟨r, rfl, hes⟩ : ∃ r, d = .getListResponse (some r) ∧ EntriesOk r.valList := by
        rw [hl] at hok
        cases d <;> simp [BodyOk, knownTags] at hok
        obtain ⟨r, rfl, h⟩ := hok
        exact ⟨r, rfl, h⟩
      have hr : responseOf m = some r := by simp [responseOf, hmb]
      have hsafe : MessageSafe m ↔ ∀ e ∈ r.valList, EntrySafe e := by
        unfold MessageSafe
        rw [hr, hmb]
        simp
      obtain ⟨p1, p2⟩ := printEntries_run hn r.valList (hd.fits r hr) (entriesOk_values hes) st
      have hp : printMessage m st = (printEntries r.valList >>= fun ls => pure (some ls) : M (Option (List Line))) st := by
        unfold printMessage
        rw [hmb]
        dsimp only
        rw [if_pos hl]
      rw [hsafe, hp, run_bind]
      refine ⟨fun h => Or.inr ?_, fun h => ?_⟩
      · obtain ⟨l, a, b⟩ := p1 h
        exact ⟨r, l, hr, b, by rw [a]; rfl⟩
      · obtain ⟨u, hu⟩ := p2 h
        exact ⟨u, by rw [hu]; rfl⟩
    · have hr : responseOf m = none := by
        unfold responseOf
        rw [hmb]
        split
        next t' r' h =>
          simp only [Option.some.injEq, MessageBody.mk.injEq] at h
          obtain ⟨_, rfl⟩ := h
          exact absurd hok.1 hl
        next => rfl
      refine ⟨fun _ => Or.inl ⟨hr, ?_⟩, fun h => absurd ⟨by rw [hmb]; simp, by rw [hr]; simp⟩ h⟩
      unfold printMessage
      rw [hmb]
      dsimp only
      rw [if_neg hl]
      rfl

theorem showsAll_append {es es' : List ListEntry} {l l' : List Line} (h : ShowsAll es l) (h' : ShowsAll es' l') : ShowsAll (es ++ es') (l ++ l') := by
  induction h with
  | nil => exact h'
  | cons a _ ih => rw [List.cons_append, List.append_assoc]; exact .cons a ih

theorem showsAll_nil {es : List ListEntry} {l : List Line} (h : ShowsAll es l) : ShowsAll (es ++ []) l := by rwa [List.append_nil]

theorem printMessages_run {n : Nat} (hn : 3 * n + 1 ≤ 2147483647) (single : Bool) (ms : List Message) (hd : ∀ m ∈ ms, Arrived n m) (st : St) :
    ((∀ m ∈ lookedAt single ms, MessageSafe m) → ∃ l ex, printMessages single ms st = .ok (l, ex) st ∧ ShowsMessages (lookedAt single ms) l ∧
      (ex = true ↔ single = true ∧ ∃ m ∈ ms, responseOf m ≠ none)) ∧
    ((¬ ∀ m ∈ lookedAt single ms, MessageSafe m) → ∃ u, printMessages single ms st = .ub u) := by
  induction ms with
  | nil => exact ⟨fun _ => ⟨[], false, rfl, .nil, by simp⟩, fun h => absurd (by simp [lookedAt]) h⟩
  | cons m ms ih =>
    obtain ⟨i1, i2⟩ := ih fun x hx => hd x (by simp [hx])
    obtain ⟨p1, p2⟩ := printMessage_run hn (hd m (by simp)) st
    unfold printMessages
    rw [run_bind]
    by_cases hm : MessageSafe m
    · rcases p1 hm with ⟨hr, hp⟩ | ⟨r, l, hr, hl, hp⟩
      · have hlook : lookedAt single (m :: ms) = m :: lookedAt single ms := by simp [lookedAt, hr]
        have hshow : ∀ l, ShowsMessages (lookedAt single ms) l → ShowsMessages (m :: lookedAt single ms) l := by
          intro l h
          unfold ShowsMessages at h ⊢
          simpa [hr] using h
        rw [hlook, hp, Res.andThen_ok]
        refine ⟨fun h => ?_, fun h => ?_⟩
        · obtain ⟨l, ex, a, b, c⟩ := i1 fun x hx => h x (by simp [hx])
          exact ⟨l, ex, a, hshow l b, by rw [c]; simp [hr]⟩
        · exact i2 fun hx => h fun x hxm => by
            rcases List.mem_cons.1 hxm with rfl | hxm
            · exact hm
            · exact hx x hxm
      · rw [hp, Res.andThen_ok]
        cases single with
        | true =>
          have hlook : lookedAt true (m :: ms) = [m] := by simp [lookedAt, hr]
          rw [hlook]
          refine ⟨fun _ => ⟨l, true, rfl, ?_, by simp [hr]⟩, fun h => absurd (by simpa using hm) h⟩
          unfold ShowsMessages
          simp [hr]
          exact hl
        | false =>
          have hlook : lookedAt false (m :: ms) = m :: lookedAt false ms := by simp [lookedAt]
          rw [hlook]
          simp only [Bool.false_eq_true, if_false]
          rw [run_bind]
          refine ⟨fun h => ?_, fun h => ?_⟩
          · obtain ⟨l', ex, a, b, c⟩ := i1 fun x hx => h x (by simp [hx])
            refine ⟨l ++ l', ex, by rw [a]; rfl, ?_, by rw [c]; simp⟩
            unfold ShowsMessages at b ⊢
            rw [List.flatMap_cons, hr]
            exact showsAll_append hl b
          · obtain ⟨u, hu⟩ := i2 fun hx => h fun x hxm => by
              rcases List.mem_cons.1 hxm with rfl | hxm
              · exact hm
              · exact hx x hxm
            exact ⟨u, by rw [hu]; rfl⟩
    · obtain ⟨u, hu⟩ := p2 hm
      rw [hu]
      refine ⟨fun h => absurd (h m (by simp [lookedAt])) hm, fun _ => ⟨u, rfl⟩⟩

theorem printTags_run {n : Nat} (ms : List Message) (hd : ∀ m ∈ ms, Arrived n m) (st : St) :
    ((∀ m ∈ ms, m.messageBody ≠ none) → printTags ms st = .ok (ms.map tagOf) st) ∧
    ((¬ ∀ m ∈ ms, m.messageBody ≠ none) → ∃ u, printTags ms st = .ub u) := by
  induction ms with
  | nil => exact ⟨fun _ => rfl, fun h => absurd (by simp) h⟩
  | cons m ms ih =>
    obtain ⟨i1, i2⟩ := ih fun x hx => hd x (by simp [hx])
    unfold printTags
    cases hmb : m.messageBody with
    | none => exact ⟨fun h => absurd hmb (h m (by simp)), fun _ => ⟨_, rfl⟩⟩
    | some b =>
      obtain ⟨t, ht, _⟩ := (hd m (by simp)).kind b hmb
      simp only [ht]
      rw [run_bind]
      refine ⟨fun h => ?_, fun h => ?_⟩
      · rw [i1 fun x hx => h x (by simp [hx])]
        simp only [Res.andThen_ok, List.map_cons, tagOf, hmb, Option.bind_some, ht, Option.map_some, Option.getD_some]
        rfl
      · obtain ⟨u, hu⟩ := i2 fun hx => h fun x hxm => by
          rcases List.mem_cons.1 hxm with rfl | hxm
          · rw [hmb]; simp
          · exact hx x hxm
        exact ⟨u, by rw [hu]; rfl⟩

end Sml
