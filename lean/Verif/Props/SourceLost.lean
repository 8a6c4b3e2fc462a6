import Verif.Proofs.CostFile
import Verif.Props.SourceLong

/-!
# C88: how many blocks are lost to the DZG workaround

C58 and C85 say that blocks can be lost after `sml_file_parse` and `sml_file_free` if the telegram holds the start of a DZG serial number. Here they
are counted: one for each value of a measurement list that is a string of at least one byte and that is labelled as a number. The
count is read off the messages alone (`Spec.stranded`), of those that are kept and of those that are dropped for a wrong checksum.
-/

namespace Sml.C

open Spec Samples

set_option linter.unusedVariables false

/-- A telegram that is read to its end is a telegram. -/
theorem whole_telegram {depth : Nat} {i : List UInt8} {ms ds : List Message} (h : Whole depth i ms ds) : Grammar.Telegram depth i ms := by
  induction h with
  | done => exact .done
  | padding _ ih => exact .padding ih
  | keep h _ ih => exact .deliver h ih
  | drop h h' _ ih => exact .drop ⟨_, _, _, h, h'⟩ ih

/-- C88: parsing and freeing a telegram of up to `INT_MAX` bytes, both from the source, leaves the blocks of the caller as they are and a list of new
blocks that nothing points to: at least one for each stranded string in its messages, and exactly one for each in the
messages kept and dropped if the telegram is read to its end. -/
theorem c88_lost (m : Mem) (h0 : 0 < m.next) (hw : ∀ a, m.next ≤ a → m.heap a = none) (hov : m.sovf = false) (buffer : List UInt8)
    (hlen : buffer.length ≤ 2147483647) (p : Val) (hp : ∀ env, loadBytes p buffer.length env m = .ok buffer env m) (ms : List Message)
    (ht : Grammar.Telegram (buffer.length + 1) buffer ms) (hc : ms.length ≤ 32767) :
    ∃ (file buf : Nat) (m1 m2 : Mem) (L : List Blk) (lost : List Nat), CallTo .sml_file_parse [p, .int .u64 buffer.length] m (.ptr (.heap file) 0) m1 ∧ HoldsFile m1 file buf ms L ∧
      CallTo .sml_file_free [.ptr (.heap file) 0] m1 .undef m2 ∧ m2.stack = m.stack ∧
      lost.Nodup ∧ (∀ a, a ∈ lost ↔ m2.heap a ≠ m.heap a) ∧ (∀ a ∈ lost, m.heap a = none) ∧
      m.next ≤ m2.next ∧ (∀ a, m2.next ≤ a → m2.heap a = none) ∧
      (m2.sovf = true → ∃ i, ∀ j, j < 7 → ∃ b, buffer[i + j]? = some b ∧ 128 ≤ b.toNat) ∧
      stranded ms ≤ lost.length ∧
      ∀ ds, Whole (buffer.length + 1) buffer ms ds → lost.length = stranded ms + stranded ds := by
  obtain ⟨s, e⟩ : ∃ s, fileParse (buffer.length + 1) buffer = .ok { messages := ms } s := by
    rcases c85_model buffer hlen ms ht with ⟨_, h⟩ | ⟨h, _⟩
    · exact h
    · omega
  obtain ⟨hst, _⟩ := fileParse_ok hlen (by omega) e
  obtain ⟨k1, k2⟩ := fileParse_cost hlen (by omega) e
  obtain ⟨h1, h2, L, g, g', c1, c2, i1, hr, o1, o2, l1, l2, _⟩ := source_run_ok h0 hw hov hlen hp e
  have new : ∀ a ∈ (g' ++ g).map Prod.fst, m.heap a = none := by
    intro a ha
    obtain ⟨x, hx, rfl⟩ := List.mem_map.mp ha
    exact hw _ (o2.key x hx).1
  refine ⟨m.next, m.next + 1, _, _, L, (g' ++ g).map Prod.fst, c1, ⟨hr, ?_, ?_⟩, c2, rfl, o2.nodup, fun a => ⟨fun ha => ?_, fun ha => ?_⟩, new, o2.le, fun a ha => ?_, fun ho => ?_, ?_, fun ds hd => ?_⟩
  · have := o1.nodup
    rw [List.map_append] at this
    exact (List.nodup_append.mp this).1
  · intro x hx
    exact conc_cell i1 (o1.mem x (List.mem_append_left g hx))
  · have hn := new a ha
    obtain ⟨x, hx, rfl⟩ := List.mem_map.mp ha
    show (fileCtx m).blocks h2 x.1 ≠ _
    simp only [Ctx.blocks, o2.mem x hx, hn]
    simp
  · apply Decidable.byContradiction
    intro hx
    refine ha ?_
    show (fileCtx m).blocks h2 a = _
    simp only [Ctx.blocks, o2.rest a hx]
    rfl
  · have ha : h2.next ≤ a := ha
    show (fileCtx m).blocks h2 a = _
    have hx : a ∉ (g' ++ g).map Prod.fst := by
      intro hx
      obtain ⟨x, hx', rfl⟩ := List.mem_map.mp hx
      have := (o2.key x hx').2
      omega
    simp only [Ctx.blocks, o2.rest a hx]
    exact hw a (by have := o2.le; omega)
  · rcases hst.sovf ho with h | h
    · cases h
    · exact h
  · rw [List.length_map, List.length_append]
    simp only at k1
    omega
  · have := k2 ds hd
    rw [List.length_map, List.length_append]
    simp only at this
    omega

/-- C88: of a telegram that is read to its end nothing is lost exactly if no measured value is a string under the label of a number. -/
theorem c88_clean_iff (m : Mem) (h0 : 0 < m.next) (hw : ∀ a, m.next ≤ a → m.heap a = none) (hov : m.sovf = false) (buffer : List UInt8)
    (hlen : buffer.length ≤ 2147483647) (p : Val) (hp : ∀ env, loadBytes p buffer.length env m = .ok buffer env m) (ms ds : List Message)
    (hd : Whole (buffer.length + 1) buffer ms ds) (hc : ms.length ≤ 32767) :
    ∃ file m1 m2, CallTo .sml_file_parse [p, .int .u64 buffer.length] m (.ptr (.heap file) 0) m1 ∧
      CallTo .sml_file_free [.ptr (.heap file) 0] m1 .undef m2 ∧
      (m2.heap = m.heap ↔ ∀ x ∈ ms ++ ds, ∀ t r, x.messageBody = some ⟨t, .getListResponse (some r)⟩ →
        ∀ y ∈ r.valList, ∀ v s, y.value = some v → v.data = .bytes (some s) → s.str ≠ [] → v.type = 0) := by
  obtain ⟨file, buf, m1, m2, L, lost, c1, _, c2, _, _, hm, _, _, _, _, _, hl⟩ := c88_lost m h0 hw hov buffer hlen p hp ms (whole_telegram hd) hc
  refine ⟨file, m1, m2, c1, c2, ?_⟩
  have hl := hl ds hd
  have h1 : m2.heap = m.heap ↔ lost = [] := by
    rw [List.eq_nil_iff_forall_not_mem]
    refine ⟨fun h a ha => (hm a).1 ha (by rw [h]), fun h => funext fun a => ?_⟩
    exact Decidable.byContradiction fun hx => h a ((hm a).2 hx)
  have h2 : stranded ms + stranded ds = stranded (ms ++ ds) := by simp [stranded]
  rw [h1, ← List.length_eq_zero_iff, hl, h2]
  unfold stranded
  rw [List.sum_eq_zero_iff_forall_eq_nat, List.forall_mem_map]
  refine forall_congr' fun x => forall_congr' fun hx => ?_
  obtain ⟨x1, x2, x3, b, x5⟩ := x
  constructor
  · intro h t r hb y hy v s hv hs hne
    simp only at hb
    subst hb
    simp only [strandedMessage, strandedList] at h
    rw [List.sum_eq_zero_iff_forall_eq_nat, List.forall_mem_map] at h
    have := h y hy
    simp only [strandedEntry, hv, strandedValue, hs] at this
    apply Decidable.byContradiction
    intro ht
    rw [if_pos ⟨ht, hne⟩] at this
    cases this
  · intro h
    unfold strandedMessage
    split
    · next t r hb =>
      unfold strandedList
      rw [List.sum_eq_zero_iff_forall_eq_nat, List.forall_mem_map]
      intro y hy
      unfold strandedEntry
      split
      · next v hv =>
        unfold strandedValue
        split
        · next s hs =>
          refine if_neg fun hx => hx.1 ?_
          exact h _ _ hb y hy v s hv hs hx.2
        · rfl
      · rfl
    · rfl

/-- `k` readings of the bytes at `p`, each parsed and freed. -/
inductive Readings (p : Val) (n : Nat) : Nat → Mem → Mem → Prop where
  | none (m : Mem) : Readings p n 0 m m
  | more {k file : Nat} {m m' m1 m2 : Mem} : Readings p n k m m' → CallTo .sml_file_parse [p, .int .u64 n] m' (.ptr (.heap file) 0) m1 →
      CallTo .sml_file_free [.ptr (.heap file) 0] m1 .undef m2 → Readings p n (k + 1) m m2

/-- C88: the loss adds up. A meter that sends the same telegram with every reading costs a program that frees each file it gets as many blocks
each time: after `k` readings exactly `k` times as many blocks are lost. -/
theorem c88_readings (m : Mem) (h0 : 0 < m.next) (hw : ∀ a, m.next ≤ a → m.heap a = none) (hov : m.sovf = false) (buffer : List UInt8)
    (hlen : buffer.length ≤ 2147483647) (hno : ¬ ∃ i, ∀ j, j < 7 → ∃ b, buffer[i + j]? = some b ∧ 128 ≤ b.toNat) (d : Nat) (hd0 : d ≠ 0)
    (hb : m.heap d = some (.raw (buffer.map some))) (ms ds : List Message) (hd : Whole (buffer.length + 1) buffer ms ds) (hc : ms.length ≤ 32767) (k : Nat) :
    ∃ (m2 : Mem) (lost : List Nat), Readings (.ptr (.heap d) 0) buffer.length k m m2 ∧ lost.Nodup ∧ (∀ a, a ∈ lost ↔ m2.heap a ≠ m.heap a) ∧
      (∀ a ∈ lost, m.heap a = none) ∧ lost.length = k * (stranded ms + stranded ds) := by
  suffices ∃ (m2 : Mem) (lost : List Nat), Readings (.ptr (.heap d) 0) buffer.length k m m2 ∧ lost.Nodup ∧ (∀ a, a ∈ lost ↔ m2.heap a ≠ m.heap a) ∧
      (∀ a ∈ lost, m.heap a = none) ∧ lost.length = k * (stranded ms + stranded ds) ∧ m.next ≤ m2.next ∧ (∀ a, m2.next ≤ a → m2.heap a = none) ∧ m2.sovf = false by
    obtain ⟨m2, lost, a, b, c, d, e, _⟩ := this
    exact ⟨m2, lost, a, b, c, d, e⟩
  induction k with
  | zero => exact ⟨m, [], .none m, by simp, by simp, by simp, by simp, Nat.le_refl _, hw, hov⟩
  | succ k ih =>
    obtain ⟨m', lost, hr, hn, hm, hnew, hl, hle, hw', hov'⟩ := ih
    have hb' : m'.heap d = some (.raw (buffer.map some)) := by
      have : d ∉ lost := fun hx => by rw [hnew d hx] at hb; cases hb
      rw [← hb]
      exact Decidable.byContradiction fun hx => this ((hm d).2 hx)
    have hp : ∀ env, loadBytes (.ptr (.heap d) 0) buffer.length env m' = .ok buffer env m' := by
      intro env
      have := loadBytes_raw (l := .heap d) (i := 0) (n := buffer.length) (env := env) (m := m') (bs := buffer) (getBlock_heap hd0 hb') (by omega)
      rwa [List.drop_zero, List.take_length] at this
    obtain ⟨file, buf, m1, m2, L, lost', c1, _, c2, _, hn', hm', hnew', hle', hw2, hov2, _, hl'⟩ :=
      c88_lost m' (by omega) hw' hov' buffer hlen _ hp ms (whole_telegram hd) hc
    have dis : ∀ a ∈ lost, a ∉ lost' := fun a ha hx => (hm a).1 ha (by rw [hnew' a hx, hnew a ha])
    refine ⟨m2, lost ++ lost', hr.more c1 c2, ?_, fun a => ?_, fun a ha => ?_, ?_, by omega, hw2, ?_⟩
    · exact List.nodup_append.mpr ⟨hn, hn', fun a ha b hb h => dis a ha (h ▸ hb)⟩
    · rw [List.mem_append]
      constructor
      · rintro (ha | ha)
        · have : m2.heap a = m'.heap a := Decidable.byContradiction fun hx => dis a ha ((hm' a).2 hx)
          rw [this]
          exact (hm a).1 ha
        · have h1 : m'.heap a = m.heap a := Decidable.byContradiction fun hx => dis a ((hm a).2 hx) ha
          rw [← h1]
          exact (hm' a).1 ha
      · intro ha
        apply Decidable.byContradiction
        intro hx
        have h1 : m2.heap a = m'.heap a := Decidable.byContradiction fun h => hx (.inr ((hm' a).2 h))
        have h2 : m'.heap a = m.heap a := Decidable.byContradiction fun h => hx (.inl ((hm a).2 h))
        exact ha (by rw [h1, h2])
    · rcases List.mem_append.mp ha with ha | ha
      · exact hnew a ha
      · have h1 : m'.heap a = m.heap a := Decidable.byContradiction fun hx => dis a ((hm a).2 hx) ha
        rw [← h1]
        exact hnew' a ha
    · rw [List.length_append, hl, hl' ds hd, Nat.succ_mul]
    · cases h : m2.sovf with
      | false => rfl
      | true => exact absurd (hov2 h) hno

/-! ## Telegrams of both kinds -/

/-- The telegram of a DZG meter whose energy register is a string: every reading loses a block. -/
example : ∃ ms ds, Whole (dzgStrMsg.length + 1) dzgStrMsg ms ds ∧ ms.length = 1 ∧ stranded ms = 1 ∧ stranded ds = 0 ∧
    ∀ k, ∃ (m2 : Mem) (lost : List Nat), Readings (.ptr (.heap 1) 0) dzgStrMsg.length k (bytesMem dzgStrMsg) m2 ∧ lost.Nodup ∧
      (∀ a, a ∈ lost ↔ m2.heap a ≠ (bytesMem dzgStrMsg).heap a) ∧ lost.length = k := by
  have hh : holds (fileParse (dzgStrMsg.length + 1) dzgStrMsg) (fun f s => !s.error && f.messages.length == 1 && stranded f.messages == 1 && s.live == fileFreed f + 1) = true := by
    decide +kernel
  have hlen : dzgStrMsg.length ≤ 2147483647 := by decide
  cases e : fileParse (dzgStrMsg.length + 1) dzgStrMsg with
  | ub u => rw [e] at hh; cases hh
  | ok f s =>
    rw [e] at hh
    simp only [holds, Bool.and_eq_true, Bool.not_eq_true', beq_iff_eq] at hh
    obtain ⟨⟨⟨h1, h2⟩, h3⟩, h4⟩ := hh
    obtain ⟨ds, hd⟩ := fileParse_whole hlen (by omega) e h1
    have hc := (fileParse_cost hlen (by omega) e).2 ds hd
    have hz : stranded ds = 0 := by omega
    have hno : ¬ ∃ i, ∀ j, j < 7 → ∃ b, dzgStrMsg[i + j]? = some b ∧ 128 ≤ b.toNat := by
      rintro ⟨i, hi⟩
      have hlt : i < dzgStrMsg.length := by
        obtain ⟨b, hb, _⟩ := hi 0 (by omega)
        exact (List.getElem?_eq_some_iff.mp hb).1
      have hd : ∀ i, i < dzgStrMsg.length → ∃ j, j < 7 ∧ ∀ b, dzgStrMsg[i + j]? = some b → b.toNat < 128 := by
        have hd : (List.range dzgStrMsg.length).all (fun i => (List.range 7).any fun j => (dzgStrMsg[i + j]?).all fun b => decide (b.toNat < 128)) = true := by decide +kernel
        intro i hi
        obtain ⟨j, hj, hb⟩ := List.any_eq_true.mp (List.all_eq_true.mp hd i (List.mem_range.mpr hi))
        refine ⟨j, List.mem_range.mp hj, fun b hx => ?_⟩
        rw [hx] at hb
        simpa using hb
      obtain ⟨j, hj, hx⟩ := hd i hlt
      obtain ⟨b, hb, hge⟩ := hi j hj
      have := hx b hb
      omega
    refine ⟨f.messages, ds, hd, h2, h3, hz, fun k => ?_⟩
    obtain ⟨m2, lost, a, b, c, _, d⟩ := c88_readings (bytesMem dzgStrMsg) Nat.zero_lt_two (fun a ha => if_neg (by simp only [bytesMem] at ha; omega)) rfl dzgStrMsg hlen hno 1 (by decide)
      rfl f.messages ds hd (by omega) k
    exact ⟨m2, lost, a, b, c, by rw [d, h3, hz, Nat.add_zero, Nat.mul_one]⟩

/-- The other sample has no such string, and nothing is lost. -/
example : ∃ ms ds, Whole (telegram.length + 1) telegram ms ds ∧ 0 < ms.length ∧ ∃ file m1 m2,
    CallTo .sml_file_parse [.ptr (.heap 1) 0, .int .u64 telegram.length] (bytesMem telegram) (.ptr (.heap file) 0) m1 ∧
      CallTo .sml_file_free [.ptr (.heap file) 0] m1 .undef m2 ∧ m2.heap = (bytesMem telegram).heap := by
  have hh : holds (fileParse (telegram.length + 1) telegram) (fun f s => !s.error && decide (0 < f.messages.length) && decide (f.messages.length ≤ 32767) && s.live == fileFreed f) = true := by
    decide +kernel
  have hlen : telegram.length ≤ 2147483647 := by decide +kernel
  cases e : fileParse (telegram.length + 1) telegram with
  | ub u => rw [e] at hh; cases hh
  | ok f s =>
    rw [e] at hh
    simp only [holds, Bool.and_eq_true, Bool.not_eq_true', beq_iff_eq, decide_eq_true_eq] at hh
    obtain ⟨⟨⟨h1, h2⟩, h3⟩, h4⟩ := hh
    obtain ⟨ds, hd⟩ := fileParse_whole hlen (by omega) e h1
    have hc := (fileParse_cost hlen (by omega) e).2 ds hd
    obtain ⟨file, buf, m1, m2, L, lost, c1, _, c2, _, _, hm, _, _, _, _, _, hl⟩ := c88_lost (bytesMem telegram) Nat.zero_lt_two
      (fun a ha => if_neg (by simp only [bytesMem] at ha; omega)) rfl telegram hlen _ (bytesMem_load telegram) _ (whole_telegram hd) h3
    refine ⟨f.messages, ds, hd, h2, file, m1, m2, c1, c2, funext fun a => ?_⟩
    have hn : lost = [] := List.length_eq_zero_iff.mp (by rw [hl ds hd]; omega)
    subst hn
    exact Decidable.byContradiction fun hx => absurd ((hm a).2 hx) (by simp)

end Sml.C
