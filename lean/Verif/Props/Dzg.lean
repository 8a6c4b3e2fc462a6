import Verif.Proofs.Dzg
import Verif.Proofs.MinMessage
import Verif.Spec.Samples

/-!
# The workaround for the DZG DVS74: C46
-/

namespace Sml

open Spec Samples

/-- C46: a list delivered without error consists of the entries as sent, each read on its own, except for those that are
affected: they have the same content with the type unsigned. -/
theorem c46_list (st s : St) (es : List ListEntry) (h : listParse st = .ok es s) (he : s.error = false) :
    es = [] ∨ ∃ n st' sent, getNextLength st = .ok n st' ∧ EntriesAt st' sent s ∧ sent.length = n.toNat ∧ es.length = sent.length ∧
      ∀ (i : Nat) (e : ListEntry) (b : UInt8), sent[i]? = some (e, b) →
        (Affected sent i → es[i]? = some { e with value := e.value.map asUnsigned }) ∧ (¬ Affected sent i → es[i]? = some e) := by
  unfold listParse at h
  obtain ⟨sk, s1, h1, h2⟩ := bind_inv h
  cases sk with
  | true => cases h2; exact Or.inl rfl
  | false =>
    have hs1 : s1 = st := by
      unfold optionalIsSkipped at h1
      split at h1
      · cases h1
      · split at h1
        · split at h1
          · split at h1 <;> cases h1
          · cases h1; rfl
        · cases h1
    subst hs1
    simp only [Bool.false_eq_true, if_false] at h2
    obtain ⟨t, s2, h3, h4⟩ := bind_inv h2
    by_cases ht : t = tyList
    · rw [if_neg (by simpa using ht)] at h4
      have hs2 : s2 = s1 := by
        unfold getNextType at h3
        split at h3
        · cases h3; exact absurd ht (by decide)
        · split at h3
          · cases h3; rfl
          · cases h3
      subst hs2
      obtain ⟨n, s3, h5, h6⟩ := bind_inv h4
      obtain ⟨sent, out, hsent, ho, hlen, hn, hall⟩ := listLoop_inv _ _ _ _ _ _ h6 he
      rw [List.nil_append] at ho
      subst ho
      refine Or.inr ⟨n, s3, sent, h5, hsent, hn, hlen, fun i e b hi => ?_⟩
      have key : Affected sent i ↔ ((false = true ∨ ∃ (j : Nat) (x : ListEntry × UInt8), j < i ∧ sent[j]? = some x ∧ IsDzgSerial x.1) ∧ IsPower e ∧ ShortHeader b) := by
        unfold Affected
        constructor
        · rintro ⟨h1, x, hx, h2, h3⟩
          rw [hi] at hx
          cases hx
          exact ⟨Or.inr h1, h2, h3⟩
        · rintro ⟨h1, h2, h3⟩
          exact ⟨h1.elim (fun h => nomatch h) id, _, hi, h2, h3⟩
      rw [key]
      exact hall i e b hi
    · rw [if_pos ht] at h4
      obtain ⟨_, s3, h5, h6⟩ := bind_inv h4
      cases h6
      exact Or.inl rfl

/-- C46: what the change means for a number: the same bytes without sign. -/
theorem c46_number (v : Value) (x : Int) (h : NumberOf v x) : NumberOf (asUnsigned v) (x % 256 ^ (v.type % 16)) := by
  cases h with
  | @signed n v h hv =>
    have e : (asUnsigned ⟨0x50 + n, .num (some ⟨n, v⟩)⟩) = ⟨0x60 + n, .num (some ⟨n, v⟩)⟩ := by
      rcases h with rfl | rfl | rfl | rfl <;> simp [asUnsigned]
    have hm : (0x50 + n) % 16 = n := by rcases h with rfl | rfl | rfl | rfl <;> rfl
    have hx : (if 2 * v < 256 ^ n then (v : Int) else (v : Int) - 256 ^ n) % 256 ^ n = v := by
      have hc : ((256 ^ n : Nat) : Int) = (256 : Int) ^ n := by simp
      rw [← hc]
      split
      · exact Int.emod_eq_of_lt (by omega) (by omega)
      · rw [Int.sub_emod_right]
        exact Int.emod_eq_of_lt (by omega) (by omega)
    rw [e]
    simp only [hm, hx]
    exact .unsigned h hv
  | @unsigned n v h hv =>
    have e : (asUnsigned ⟨0x60 + n, .num (some ⟨n, v⟩)⟩) = ⟨0x60 + n, .num (some ⟨n, v⟩)⟩ := by
      rcases h with rfl | rfl | rfl | rfl <;> simp [asUnsigned]
    have hm : (0x60 + n) % 16 = n := by rcases h with rfl | rfl | rfl | rfl <;> rfl
    have hx : (v : Int) % 256 ^ n = v := by
      have hc : ((256 ^ n : Nat) : Int) = (256 : Int) ^ n := by simp
      rw [← hc]
      exact Int.emod_eq_of_lt (by omega) (by omega)
    rw [e]
    simp only [hm, hx]
    exact .unsigned h hv

/-- The signed number `80 25` is -32731; affected it is 32805. -/
example : NumberOf ⟨0x52, .num (some ⟨2, 0x8025⟩)⟩ (-32731) ∧ NumberOf (asUnsigned ⟨0x52, .num (some ⟨2, 0x8025⟩)⟩) 32805 := by
  have h : NumberOf ⟨0x52, .num (some ⟨2, 0x8025⟩)⟩ (-32731) := .signed (n := 2) (by simp) (by decide)
  exact ⟨h, c46_number _ _ h⟩

/-- Entries of a list response: name and value. -/
def valuesOf (r : Res File) : List (Option OctetString × Option Value) :=
  match r with
  | .ub _ => []
  | .ok f _ => f.messages.flatMap fun m => match m.messageBody with
    | some ⟨_, .getListResponse (some g)⟩ => g.valList.map fun e => (e.objName, e.value)
    | _ => []

/-- A list of a DZG DVS74: power `53 80 25`, serial number 42000001, power again, another value `53 80 25`, power
`54 ff 80 25` (header length 4). Only the third entry is changed. -/
def dzgList : List UInt8 := [0x75,
  0x77, 0x07, 1, 0, 16, 7, 0, 255, 1, 1, 1, 1, 0x53, 0x80, 0x25, 1,
  0x77, 0x07, 1, 0, 96, 1, 0, 255, 1, 1, 1, 1, 0x0b, 0x0a, 0x01, 0x44, 0x5a, 0x47, 0x00, 0x02, 0x80, 0xde, 0x81, 1,
  0x77, 0x07, 1, 0, 16, 7, 0, 255, 1, 1, 1, 1, 0x53, 0x80, 0x25, 1,
  0x77, 0x07, 1, 0, 1, 7, 0, 255, 1, 1, 1, 1, 0x53, 0x80, 0x25, 1,
  0x77, 0x07, 1, 0, 16, 7, 0, 255, 1, 1, 1, 1, 0x54, 0xff, 0x80, 0x25, 1]

example : holds (listParse { data := dzgList }) (fun es s => !s.error && decide (es.map (·.value) = [some ⟨0x52, .num (some ⟨2, 0x8025⟩)⟩, some ⟨0, .bytes (some ⟨[0x0a, 0x01, 0x44, 0x5a, 0x47, 0x00, 0x02, 0x80, 0xde, 0x81]⟩)⟩,
      some ⟨0x62, .num (some ⟨2, 0x8025⟩)⟩, some ⟨0x52, .num (some ⟨2, 0x8025⟩)⟩, some ⟨0x54, .num (some ⟨4, 0xffff8025⟩)⟩])) = true := by decide +kernel

/-- The whole way from the telegram. -/
example : valuesOf (fileParse 35 dzgNumMsg) = [(some ⟨[1, 0, 96, 1, 0, 255]⟩, some ⟨0, .bytes (some ⟨[0x0a, 0x01, 0x44, 0x5a, 0x47, 0x00, 0x02, 0x80, 0xde, 0x81]⟩)⟩),
    (some ⟨[1, 0, 16, 7, 0, 255]⟩, some ⟨0x62, .num (some ⟨2, 32805⟩)⟩)] := by decide +kernel

end Sml
