import Verif.Proofs.FileLong
import Verif.Props.Heap
import Verif.Props.Standard

/-!
# Telegrams of any length in the model: C01, C03, C04, C06, C51, C58

`Safety.lean`, `Grammar.lean` and `Heap.lean` state these for at most 294912 bytes, within which the counter of messages cannot overflow.
Here the buffer has up to `INT_MAX` bytes, and the number of messages the grammar finds in it decides.
-/

namespace Sml

open Spec Spec.Grammar

/-- C51, any length: every buffer has exactly one reading in the grammar. With at most 32767 messages `sml_file_parse` delivers it; with more the
counter of messages overflows. -/
theorem c51_long (buffer : List UInt8) (depth : Nat) (hlen : buffer.length ≤ 2147483647) (hdepth : buffer.length < 4 * depth) :
    ∃ ms, (∀ ms', Telegram depth buffer ms' ↔ ms' = ms) ∧
      (ms.length ≤ 32767 → ∃ s, fileParse depth buffer = .ok { messages := ms } s) ∧
      (32768 ≤ ms.length → fileParse depth buffer = .ub .counter) := by
  have hpre : Pre (4 * depth) ({ data := buffer, live := 3 } : St) := ⟨by simp, rfl, by simpa using hdepth⟩
  obtain ⟨ms, s, h⟩ := run_total (depth := depth) buffer.length { data := buffer, live := 3 } hlen hpre (by simp)
  have hone : ∀ ms', Telegram depth buffer ms' → ms' = ms := telegram_unique h rfl (by simp) hlen
  refine ⟨ms, fun ms' => ⟨hone ms', fun e => e ▸ run_telegram h rfl (by simp) hlen⟩, ?_⟩
  rcases fileLoop_ends (depth := depth) (buffer.length + 1) { messages := [] } { data := buffer, live := 3 } hlen hpre (by simp) with ⟨f, s', e, _⟩ | ⟨e, _⟩
  · have := hone _ (run_telegram (Sml.fileParse_run (depth := depth) e) rfl (by simp) hlen)
    subst this
    have hc := fileLoop_count _ _ _ _ _ e (by simp)
    exact ⟨fun _ => ⟨s', e⟩, fun hn => by omega⟩
  · obtain ⟨ms', s, hr, hc⟩ := fileLoop_over _ _ _ hlen hpre (by simp) e
    have := hone _ (run_telegram hr rfl (by simp) hlen)
    subst this
    have hc : 32768 ≤ ms'.length := by simpa using hc
    exact ⟨fun hn => by omega, fun _ => e⟩

/-- C01, any length: `sml_file_parse` is defined exactly on the buffers with at most 32767 messages. -/
theorem c01_exact (buffer : List UInt8) (depth : Nat) (hlen : buffer.length ≤ 2147483647) (hdepth : buffer.length < 4 * depth) :
    (∃ f s, fileParse depth buffer = .ok f s) ↔ ∃ ms, Telegram depth buffer ms ∧ ms.length ≤ 32767 := by
  obtain ⟨ms, h1, h2, h3⟩ := c51_long buffer depth hlen hdepth
  constructor
  · rintro ⟨f, s, h⟩
    refine ⟨ms, (h1 ms).2 rfl, ?_⟩
    apply Decidable.byContradiction
    intro hn
    rw [h3 (by omega)] at h
    cases h
  · rintro ⟨ms', ht, hc⟩
    rw [(h1 ms').1 ht] at hc
    obtain ⟨s, h⟩ := h2 hc
    exact ⟨_, s, h⟩

/-- C01, C03, C04, C06, any length: a buffer with at most 32767 messages is read without leaving it, with at most two blocks per byte plus four. The
result can be freed, and then no block is left, unless the DZG workaround re-labelled a value. A signed overflow needs seven
consecutive bytes with the top bit set. -/
theorem c01_long (buffer : List UInt8) (depth : Nat) (hlen : buffer.length ≤ 2147483647) (hdepth : buffer.length < 4 * depth)
    (ms : List Message) (ht : Telegram depth buffer ms) (hc : ms.length ≤ 32767) :
    ∃ s s', fileParse depth buffer = .ok { messages := ms } s ∧ fileFree { messages := ms } s = .ok () s' ∧
      s.data = buffer ∧ s.cursor ≤ buffer.length ∧ s.live ≤ 2 * s.cursor + 4 ∧
      (s'.live = 0 ∨ (s.confused = true ∧ ∃ i, (buffer.drop i).take 5 = [0x0a, 0x01, 0x44, 0x5a, 0x47])) ∧
      (s.sovf = true → ∃ i, ∀ j, j < 7 → ∃ b, buffer[i + j]? = some b ∧ 128 ≤ b.toNat) := by
  obtain ⟨ms', h1, h2, _⟩ := c51_long buffer depth hlen hdepth
  have := (h1 ms).1 ht
  subst this
  obtain ⟨s, e⟩ := h2 hc
  obtain ⟨hst, hok, hfr, hex⟩ := fileParse_ok hlen hdepth e
  obtain ⟨_, s', e', h'⟩ := post_iff.1 ((post_fileFree (Q := fun _ s' => s'.live = s.live - fileFreed { messages := ms }) hok).2 ⟨hfr, rfl⟩)
  refine ⟨s, s', e, e', hst.data, hst.bound, fileParse_live hlen hdepth e, ?_, fun ho => ?_⟩
  · cases hcf : s.confused with
    | false =>
      have := hex hcf
      exact .inl (by omega)
    | true =>
      rcases hst.conf hcf with h | h
      · cases h
      · exact .inr ⟨rfl, h⟩
  · rcases hst.sovf ho with h | h
    · cases h
    · exact h

/-- C58, any length: on every heap, reading a buffer with at most 32767 messages and freeing the result makes no bad access and no bad `free`; the heap
holds these messages in between, in new and distinct blocks. Afterwards the blocks the caller had are the same, and no other block remains,
unless the DZG workaround re-labelled a value. -/
theorem c58_long (h : Heap) (hw : h.Wf) (buffer : List UInt8) (depth : Nat) (hlen : buffer.length ≤ 2147483647) (hdepth : buffer.length < 4 * depth)
    (ms : List Message) (ht : Telegram depth buffer ms) (hc : ms.length ≤ 32767) :
    ∃ a st h1 h2 B, pFileParse depth buffer h = .ok a st h1 ∧ pFileFree a st h1 = .ok () st h2 ∧
      RFile buffer { messages := ms } a B ∧ (B.map Prod.fst).Nodup ∧ (∀ x ∈ B, h1.cells x.1 = some x.2 ∧ h.next ≤ x.1) ∧
      (∀ x, x < h.next → h1.cells x = h.cells x ∧ h2.cells x = h.cells x) ∧
      ((∀ x, h2.cells x = h.cells x) ∨ ∃ i, (buffer.drop i).take 5 = [0x0a, 0x01, 0x44, 0x5a, 0x47]) := by
  obtain ⟨ms', h1, h2, _⟩ := c51_long buffer depth hlen hdepth
  have := (h1 ms).1 ht
  subst this
  obtain ⟨s, e⟩ := h2 hc
  obtain ⟨hst, hok, hfr, hex⟩ := fileParse_ok hlen hdepth e
  obtain ⟨a, k1, B, g, e1, hr, o1, l1⟩ := pFileParse_ok hw.1 hw.2 e
  obtain ⟨k2, g', e2, o2, l2⟩ := frees_file buffer _ a B hr s.dry h.next h.cells k1 g o1
  refine ⟨a, s.dry, k1, k2, B, e1, e2, hr, ?_, ?_, fun x hx => ⟨o1.old x hx, o2.old x hx⟩, ?_⟩
  · have := o1.nodup
    rw [List.map_append] at this
    exact (List.nodup_append.mp this).1
  · intro x hx
    have hx' := List.mem_append_left g hx
    exact ⟨o1.mem x hx', (o1.key x hx').1⟩
  · cases hcf : s.confused with
    | false =>
      have := hex hcf
      obtain ⟨rfl, rfl⟩ : g = [] ∧ g' = [] := ⟨List.length_eq_zero_iff.mp (by omega), List.length_eq_zero_iff.mp (by omega)⟩
      exact .inl fun x => o2.rest x (by simp)
    | true =>
      rcases hst.conf hcf with h | h
      · cases h
      · exact .inr h

/-- A conforming telegram of 32767 messages, longer than 294912 bytes, meets the hypotheses; one of 32768 messages is beyond the limit. -/
example : ∃ bs bs' : List UInt8, 294912 < bs.length ∧ bs.length ≤ 2147483647 ∧ bs'.length ≤ 2147483647 ∧
    Telegram (bs.length + 1) bs (List.replicate 32767 stdMessage) ∧ (∃ f s, fileParse (bs.length + 1) bs = .ok f s) ∧
    ¬ ∃ f s, fileParse (bs'.length + 1) bs' = .ok f s := by
  have hl : 10 ≤ stdMsg.length ∧ stdMsg.length ≤ 1000 := by decide +kernel
  have l1 := stdMany_length 32767
  have l2 := stdMany_length 32768
  have s1 := stdMany 32767
  have s2 := stdMany 32768
  generalize stdMsg.length = k at hl l1 l2
  generalize (List.replicate 32767 stdMsg).flatten ++ [(0x00 : UInt8)] = bs at l1 s1
  generalize (List.replicate 32768 stdMsg).flatten ++ [(0x00 : UInt8)] = bs' at l2 s2
  have t1 : Telegram (bs.length + 1) bs (List.replicate 32767 stdMessage) := Std.und_telegram s1 ⟨by omega, by omega⟩
  have t2 : Telegram (bs'.length + 1) bs' (List.replicate 32768 stdMessage) := Std.und_telegram s2 ⟨by omega, by omega⟩
  refine ⟨bs, bs', by omega, by omega, by omega, t1, (c01_exact bs _ (by omega) (by omega)).2 ⟨_, t1, by rw [List.length_replicate]; omega⟩, ?_⟩
  obtain ⟨ms, h1, _, h3⟩ := c51_long bs' (bs'.length + 1) (by omega) (by omega)
  have := (h1 _).1 t2
  subst this
  rw [h3 (by rw [List.length_replicate]; omega)]
  rintro ⟨f, s, h⟩
  cases h

end Sml
