import Verif.Proofs.RoundFile

/-!
# When old buffer contents show in the output
-/

namespace Sml

open Spec

/-- No byte is OR-ed into what was there. -/
def NoKeep (cs : List Cell) : Prop := ∀ c ∈ cs, c.keep = false

theorem noKeep_append {a b : List Cell} : NoKeep (a ++ b) ↔ NoKeep a ∧ NoKeep b := by
  unfold NoKeep
  simp only [List.mem_append]
  exact ⟨fun h => ⟨fun c hc => h c (Or.inl hc), fun c hc => h c (Or.inr hc)⟩, fun h c hc => hc.elim (h.1 c) (h.2 c)⟩

theorem noKeep_plain (bs : List UInt8) : NoKeep (plain bs) := by
  intro c hc
  simp only [plain, List.mem_map] at hc
  obtain ⟨b, _, rfl⟩ := hc
  rfl

theorem noKeep_hdr (bs : List UInt8) : NoKeep (hdrCells bs) ↔ bs.length ≤ 1 := by
  match bs with
  | [] => simp [NoKeep, hdrCells]
  | [b] => simp [NoKeep, hdrCells]
  | b :: b' :: bs => simp [NoKeep, hdrCells]

theorem headerSize_one (ty n : Nat) : headerSize ty n ≤ 1 ↔ spelled ty n 1 < 16 := by
  obtain ⟨h1, h2, h3⟩ := headerSize_spec ty n
  constructor
  · intro h
    have : headerSize ty n = 1 := by omega
    rw [this] at h2
    simpa using h2
  · intro h
    exact headerSize_le (by decide) (by simpa using h)

mutual
theorem noKeep_cells : (t : Term) → (NoKeep (cells t) ↔ OneByteHeaders t)
  | .absent => by simp [cells, OneByteHeaders, noKeep_plain]
  | .octets bs => by
    simp only [cells, OneByteHeaders, noKeep_append, noKeep_plain, and_true, noKeep_hdr, encHeader_length, headerSize_one, spelled]
    rw [if_neg (by decide)]
    omega
  | .bool b => by
    simp only [cells, OneByteHeaders, noKeep_append, noKeep_plain, and_true, noKeep_hdr, encHeader_length, headerSize_one, spelled]
    decide
  | .int bs => by
    simp only [cells, OneByteHeaders, noKeep_append, noKeep_plain, and_true, noKeep_hdr, encHeader_length, headerSize_one, spelled]
    rw [if_neg (by decide)]
    omega
  | .uint bs => by
    simp only [cells, OneByteHeaders, noKeep_append, noKeep_plain, and_true, noKeep_hdr, encHeader_length, headerSize_one, spelled]
    rw [if_neg (by decide)]
    omega
  | .list ts => by
    simp only [cells, OneByteHeaders, noKeep_append, noKeep_hdr, encHeader_length, headerSize_one, spelled, noKeep_cellsAll ts]
    simp only [if_true]
    have : ts.length < 16 ↔ ts.length ≤ 15 := by omega
    rw [this]
theorem noKeep_cellsAll : (ts : List Term) → (NoKeep (cellsAll ts) ↔ AllOneByteHeaders ts)
  | [] => by simp [cellsAll, AllOneByteHeaders, NoKeep]
  | t :: ts => by simp only [cellsAll, AllOneByteHeaders, noKeep_append, noKeep_cells t, noKeep_cellsAll ts]
end

/-- Bytes that are OR-ed in are never all ones. -/
def SomeZero (cs : List Cell) : Prop := ∀ c ∈ cs, c.keep = true → c.b ≠ 0xFF

theorem someZero_append {a b : List Cell} : SomeZero (a ++ b) ↔ SomeZero a ∧ SomeZero b := by
  unfold SomeZero
  simp only [List.mem_append]
  exact ⟨fun h => ⟨fun c hc => h c (Or.inl hc), fun c hc => h c (Or.inr hc)⟩, fun h c hc => hc.elim (h.1 c) (h.2 c)⟩

theorem someZero_plain (bs : List UInt8) : SomeZero (plain bs) := by
  intro c hc h
  have := noKeep_plain bs c hc
  rw [this] at h
  cases h

theorem someZero_hdr (ty n : Nat) : SomeZero (hdrCells (encHeader ty n)) := by
  have key : ∀ v k j, j < k → ∀ b ∈ headerBytes ty v k j, b ≠ 0xFF := by
    intro v k j
    induction j with
    | zero => simp [headerBytes]
    | succ j ih =>
      intro hj b hb
      simp only [headerBytes, List.mem_cons] at hb
      rcases hb with rfl | hb
      · have hjk : ¬ j + 1 = k := by omega
        simp only [hjk, if_false]
        intro h
        have h2 := congrArg UInt8.toNat h
        have h3 : v / 16 ^ j % 16 < 16 := Nat.mod_lt _ (by decide)
        rw [UInt8.toNat_ofNat'] at h2
        have h4 : (0xFF : UInt8).toNat = 255 := rfl
        rw [h4] at h2
        split at h2 <;> omega
      · exact ih (by omega) b hb
  unfold encHeader
  simp only
  generalize hk : headerSize ty n = k
  obtain ⟨j, rfl⟩ : ∃ j, k = j + 1 := ⟨k - 1, by have := (headerSize_spec ty n).1; omega⟩
  intro c hc hkeep
  rw [headerBytes, hdrCells] at hc
  rcases List.mem_cons.1 hc with rfl | hc
  · cases hkeep
  · obtain ⟨b, hb, rfl⟩ := List.mem_map.1 hc
    exact key _ _ j (by omega) b hb

mutual
theorem someZero_cells : (t : Term) → SomeZero (cells t)
  | .absent => by simp [cells, someZero_plain]
  | .octets bs => by simp [cells, someZero_append, someZero_plain, someZero_hdr]
  | .bool b => by simp [cells, someZero_append, someZero_plain, someZero_hdr]
  | .int bs => by simp [cells, someZero_append, someZero_plain, someZero_hdr]
  | .uint bs => by simp [cells, someZero_append, someZero_plain, someZero_hdr]
  | .list ts => by simp [cells, someZero_append, someZero_hdr, someZero_cellsAll ts]
theorem someZero_cellsAll : (ts : List Term) → SomeZero (cellsAll ts)
  | [] => by simp [cellsAll, SomeZero]
  | t :: ts => by simp [cellsAll, someZero_append, someZero_cells t, someZero_cellsAll ts]
end

theorem paint_differs (cs : List Cell) : ∀ n, cs.length ≤ n → SomeZero cs → ¬ NoKeep cs →
    (paint cs (List.replicate n 0x00)).take cs.length ≠ (paint cs (List.replicate n 0xFF)).take cs.length := by
  induction cs with
  | nil => intro n _ _ h; exact absurd (by simp [NoKeep]) h
  | cons c cs ih =>
    intro n hn hz hk
    obtain ⟨n, rfl⟩ : ∃ m, n = m + 1 := ⟨n - 1, by simp at hn; omega⟩
    simp only [List.replicate_succ, paint, List.length_cons, List.take_succ_cons, ne_eq, List.cons.injEq]
    rintro ⟨h1, h2⟩
    by_cases hc : c.keep = true
    · simp only [Cell.on, hc, if_true] at h1
      have hb : ∀ b : UInt8, 0x00 ||| b = b := fun b => UInt8.zero_or
      have hb2 : ∀ b : UInt8, 0xFF ||| b = 0xFF := by
        intro b
        have : ∀ n : Fin 256, (0xFF : UInt8) ||| UInt8.ofNat n.val = 0xFF := by decide +kernel
        simpa using this ⟨b.toNat, b.toNat_lt⟩
      rw [hb, hb2] at h1
      exact hz c (by simp) hc h1
    · refine ih n (by simpa using hn) (fun x hx => hz x (by simp [hx])) (fun h => hk ?_) h2
      intro x hx
      rcases List.mem_cons.1 hx with rfl | hx
      · simpa using hc
      · exact h x hx

theorem neutral_noKeep (cs : List Cell) : ∀ old, NoKeep cs → Neutral cs old := by
  induction cs with
  | nil => intro old _; simp [Neutral]
  | cons c cs ih =>
    intro old h
    cases old with
    | nil => simp [Neutral]
    | cons o old => exact ⟨by simp [Cell.on, h c (by simp)], ih old fun x hx => h x (by simp [hx])⟩

theorem noKeep_head (m : Message) : NoKeep (headCells m) ↔ AllOneByteHeaders (messageFields m) := by
  unfold headCells
  rw [noKeep_append, noKeep_cellsAll, noKeep_hdr]
  have : (encHeader 7 6).length ≤ 1 := by decide
  simp only [this, true_and]

theorem someZero_head (m : Message) : SomeZero (headCells m) := by
  unfold headCells
  rw [someZero_append]
  exact ⟨someZero_hdr _ _, someZero_cellsAll _⟩

end Sml
