import Verif.Proofs.ContractSeq
import Verif.Spec.Shape

/-!
# What parsed strings, numbers and values look like
-/

namespace Sml

set_option linter.unusedSimpArgs false

theorem wlp_skipped {st : St} {Q : Bool → St → Prop}
    (h1 : st.data.length ≤ st.cursor → Q true { st with error := true })
    (h2 : ∀ h : st.cursor < st.data.length, st.data[st.cursor] = 1 →
      Q true { st with cursor := st.cursor + 1 })
    (h3 : ∀ h : st.cursor < st.data.length, st.data[st.cursor] ≠ 1 → Q false st) :
    Wlp optionalIsSkipped st Q :=
  (post_optionalIsSkipped.2 ⟨h1, fun h => ⟨h2 h, h3 h⟩⟩).wlp

/-- The result of a string field is a piece of the input; it is NULL only for an omitted field or
an error. -/
theorem octetString_result (st : St) :
    Wlp octetStringParse st fun a s =>
      (∀ x, a = some x → ∃ i, x.str = (st.data.drop i).take x.str.length) ∧
      (s.error = false → (∃ x, a = some x) ∨ (a = none ∧ ∃ h : st.cursor < st.data.length, st.data[st.cursor] = 1)) := by
  unfold octetStringParse
  simp only [wlp_bind, wlp_ite, wlp_pure, wlp_failWith]
  apply wlp_skipped
  · intro h; simp
  · intro h h1
    exact ⟨fun _ => ⟨by simp, fun _ => Or.inr ⟨trivial, h, h1⟩⟩, by simp⟩
  · intro h h1
    refine ⟨by simp, fun _ => ?_⟩
    apply wlp_getNextType
    · intro h2; omega
    · intro h2
      refine ⟨fun _ _ => by simp, fun _ => ?_⟩
      refine (getNextLength_post h).wlp.mono ?_
      rintro r s ⟨hs, -⟩
      simp only [wlp_getSt]
      refine ⟨fun _ _ => by simp, fun hr => ?_⟩
      have : s.cursor + r.toNat ≤ s.data.length := by omega
      simp only [wlp_readBytes, wlp_bind, octetStringInit, wlp_alloc, wlp_ite, wlp_pure,
        wlp_updateBytesRead]
      refine fun _ => ⟨fun _ => ⟨?_, fun _ => Or.inl ⟨_, rfl⟩⟩, fun h0 => ⟨?_, fun _ => Or.inl ⟨_, rfl⟩⟩⟩
      · intro x hx
        cases hx
        refine ⟨s.cursor, ?_⟩
        rw [hs.data]
        simp
      · intro x hx
        cases hx
        exact ⟨0, by simp⟩

theorem beNat_foldl (bs : List UInt8) (a : Nat) :
    bs.foldl (fun a b => a * 256 + b.toNat) a = a * 256 ^ bs.length + beNat bs := by
  unfold beNat
  induction bs generalizing a with
  | nil => simp
  | cons b bs ih =>
    simp only [List.foldl_cons, List.length_cons]
    rw [ih (a * 256 + b.toNat), ih (0 * 256 + b.toNat)]
    rw [Nat.pow_succ, Nat.add_mul, Nat.zero_mul, Nat.zero_add, Nat.mul_assoc]
    rw [Nat.mul_comm 256]
    omega

theorem beNat_cons (b : UInt8) (bs : List UInt8) :
    beNat (b :: bs) = b.toNat * 256 ^ bs.length + beNat bs := by
  have := beNat_foldl bs (0 * 256 + b.toNat)
  simp only [Nat.zero_mul, Nat.zero_add] at this
  rw [← this]
  simp [beNat]

theorem beNat_lt (bs : List UInt8) : beNat bs < 256 ^ bs.length := by
  induction bs with
  | nil => simp [beNat]
  | cons b bs ih =>
    rw [beNat_cons, List.length_cons, Nat.pow_succ]
    have := UInt8.toNat_lt b
    have h : b.toNat * 256 ^ bs.length ≤ 255 * 256 ^ bs.length :=
      Nat.mul_le_mul_right _ (by omega)
    omega

/-- A parsed number occupies `max` bytes. -/
theorem number_result (type max : Nat) (st : St) :
    Wlp (numberParse type max) st fun a s =>
      (∀ x, a = some x → x.size = max ∧ x.val < 256 ^ max) ∧
      (s.error = false → (∃ x, a = some x) ∨ (a = none ∧ ∃ h : st.cursor < st.data.length, st.data[st.cursor] = 1)) := by
  unfold numberParse
  simp only [wlp_bind, wlp_ite, wlp_pure, wlp_failWith, wlp_getSt]
  apply wlp_skipped
  · intro h; simp
  · intro h h1
    exact ⟨fun _ => ⟨by simp, fun _ => Or.inr ⟨trivial, h, h1⟩⟩, by simp⟩
  · intro h h1
    refine ⟨by simp, fun _ => ⟨fun _ _ => by simp, fun _ => ?_⟩⟩
    apply wlp_getNextType
    · intro h2; omega
    · intro h2
      refine ⟨fun _ _ => by simp, fun _ => ?_⟩
      refine (getNextLength_post h).wlp.mono ?_
      rintro r s ⟨hs, -⟩
      simp only [wlp_alloc]
      refine ⟨fun _ _ => by simp, fun hr => ⟨fun _ _ => by simp, fun hr2 => ⟨fun _ _ => by simp, fun hr3 => ?_⟩⟩⟩
      simp only [wlp_readBytes, wlp_getCurrentByte, wlp_updateBytesRead]
      refine fun _ _ => ⟨?_, fun _ => Or.inl ⟨_, rfl⟩⟩
      intro x hx
      cases hx
      refine ⟨rfl, ?_⟩
      have hl := beNat_lt (List.replicate (max - r.toNat) (if (decide (type = tyInteger) && decide ((s.data[s.cursor]'(by omega)) &&& 128 ≠ 0)) = true then (255 : UInt8) else 0) ++
        List.take r.toNat (List.drop s.cursor s.data))
      refine Nat.lt_of_lt_of_le hl (Nat.pow_le_pow_right (by decide) ?_)
      simp
      omega

theorem boolean_result (st : St) :
    Wlp booleanParse st fun a s =>
      (∀ x, a = some x → x = 0 ∨ x = 0xFF) ∧
      (s.error = false → (∃ x, a = some x) ∨ (a = none ∧ ∃ h : st.cursor < st.data.length, st.data[st.cursor] = 1)) := by
  unfold booleanParse
  simp only [wlp_bind, wlp_ite, wlp_pure, wlp_failWith, wlp_getSt]
  apply wlp_skipped
  · intro h; simp
  · intro h h1
    exact ⟨fun _ => ⟨by simp, fun _ => Or.inr ⟨trivial, h, h1⟩⟩, by simp⟩
  · intro h h1
    refine ⟨by simp, fun _ => ?_⟩
    apply wlp_getNextType
    · intro h2; omega
    · intro h2
      refine ⟨fun _ _ => by simp, fun _ => ?_⟩
      refine (getNextLength_post h).wlp.mono ?_
      rintro r s ⟨hs, -⟩
      refine ⟨fun _ _ => by simp, fun hr => ⟨fun _ _ => by simp, fun hr2 => ?_⟩⟩
      intro b s' _
      simp only [wlp_updateBytesRead, wlp_alloc]
      refine ⟨fun _ => ⟨?_, fun _ => Or.inl ⟨_, rfl⟩⟩, fun _ => ⟨?_, fun _ => Or.inl ⟨_, rfl⟩⟩⟩
      · intro x hx; cases hx; exact Or.inr rfl
      · intro x hx; cases hx; exact Or.inl rfl

theorem growMax_cases (b : UInt8) :
    growMax 4 1 b = 1 ∨ growMax 4 1 b = 2 ∨ growMax 4 1 b = 4 ∨ growMax 4 1 b = 8 ∨ growMax 4 1 b = 16 := by
  have key : ∀ n : Fin 256, let b := UInt8.ofNat n
    growMax 4 1 b = 1 ∨ growMax 4 1 b = 2 ∨ growMax 4 1 b = 4 ∨ growMax 4 1 b = 8 ∨ growMax 4 1 b = 16 := by
    decide +kernel
  have := key ⟨b.toNat, UInt8.toNat_lt b⟩
  simpa using this

/-- Every parsed value is well typed, and strings in it are pieces of the input. -/
theorem value_result (st : St) :
    Wlp valueParse st fun a _ => ∀ v, a = some v → Spec.WellTyped v ∧
      (∀ x, v.data = .bytes (some x) → ∃ i, x.str = (st.data.drop i).take x.str.length) := by
  unfold valueParse
  simp only [wlp_bind, wlp_ite, wlp_pure, wlp_failWith, wlp_hasErrors, wlp_release]
  apply wlp_skipped
  · intro h; simp
  · intro h h1; simp
  · intro h h1
    refine ⟨by simp, fun _ => ?_⟩
    apply wlp_getNextType
    · intro h2; omega
    · intro h2
      simp only [wlp_getCurrentByte, wlp_alloc, wlp_setError]
      intro _
      refine ⟨fun ht => ?_, fun ht => ⟨fun ht2 => ?_, fun ht2 => ⟨fun ht3 => ?_, fun ht3 => ?_⟩⟩⟩
      · refine (octetString_result _).mono ?_
        rintro a s ⟨r1, r2⟩
        refine ⟨fun _ _ => by simp, fun he v hv => ?_⟩
        cases hv
        rcases r2 (by simpa using he) with ⟨x, rfl⟩ | ⟨-, _, r3⟩
        · refine ⟨ht, fun y hy => ?_⟩
          cases hy
          exact r1 x rfl
        · exact absurd r3 h1
      · refine (boolean_result _).mono ?_
        rintro a s ⟨r1, r2⟩
        refine ⟨fun _ _ => by simp, fun he v hv => ?_⟩
        cases hv
        rcases r2 (by simpa using he) with ⟨x, rfl⟩ | ⟨-, _, r3⟩
        · exact ⟨⟨ht2, r1 x rfl⟩, by simp⟩
        · exact absurd r3 h1
      · refine (number_result _ _ _).mono ?_
        rintro a s ⟨r1, r2⟩
        refine ⟨fun _ _ => by simp, fun he v hv => ?_⟩
        cases hv
        rcases r2 (by simpa using he) with ⟨x, rfl⟩ | ⟨-, _, r3⟩
        · refine ⟨?_, by simp⟩
          obtain ⟨r4, r5⟩ := r1 x rfl
          unfold Spec.WellTyped
          simp only [r4]
          refine ⟨r5, ?_⟩
          rcases growMax_cases st.data[st.cursor] with hg | hg | hg | hg | hg <;>
            rcases ht3 with ht3 | ht3 <;> rw [hg, ht3] <;> simp [tyUnsigned, tyInteger]
        · exact absurd r3 h1
      · exact ⟨fun _ _ => by simp, by simp⟩

end Sml
