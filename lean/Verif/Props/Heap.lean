import Verif.Proofs.HeapFile
import Verif.Props.Safety

/-!
# Parsing and freeing on a heap of addressed blocks: C58

`pFileParse` and `pFileFree` work on a heap in which a NULL dereference, an access to a block that was freed, a second
`free` and an access to a block of another kind are faults. `h.next` is the first address that was never used.
-/

namespace Sml

open Spec Samples

/-- A heap whose addresses from `next` on have never been used; 0 is not one of them. -/
def Heap.Wf (h : Heap) : Prop := 0 < h.next ∧ ∀ a, h.next ≤ a → h.cells a = none

theorem Own.old (o : Own n0 c0 h L) : ∀ a, a < n0 → h.cells a = c0 a := by
  intro a ha
  refine o.rest a fun hc => ?_
  obtain ⟨x, hx, rfl⟩ := List.mem_map.mp hc
  have := (o.key x hx).1
  omega

/-- Parsing and freeing with the blocks of the result (`B`) and the lost blocks (`g`, `g'`). -/
theorem parse_free_blocks {buffer : List UInt8} {depth : Nat} {h : Heap} (hw : h.Wf) (hlen : buffer.length ≤ 294912)
    (hdepth : buffer.length < 4 * depth) :
    ∃ f s a h1 h2 B g g', fileParse depth buffer = .ok f s ∧ pFileParse depth buffer h = .ok a s.dry h1 ∧
      RFile buffer f a B ∧ Own h.next h.cells h1 (B ++ g) ∧ pFileFree a s.dry h1 = .ok () s.dry h2 ∧
      Own h.next h.cells h2 (g' ++ g) ∧ s.live = B.length + g.length ∧ g'.length + g.length = s.live - fileFreed f ∧
      (s.confused = false → g = [] ∧ g' = []) ∧
      (s.confused = true → ∃ i, (buffer.drop i).take 5 = [0x0a, 0x01, 0x44, 0x5a, 0x47]) := by
  obtain ⟨f, s, e, h1, hok, hfr, hex, _⟩ := fileParse_post hlen hdepth
  obtain ⟨a, k1, B, g, e1, hr, o1, l1⟩ := pFileParse_ok hw.1 hw.2 e
  obtain ⟨k2, g', e2, o2, l2⟩ := frees_file buffer f a B hr s.dry h.next h.cells k1 g o1
  refine ⟨f, s, a, k1, k2, B, g, g', e, e1, hr, o1, e2, o2, l1, by omega, ?_, ?_⟩
  · intro hc
    have := hex hc
    exact ⟨List.length_eq_zero_iff.mp (by omega), List.length_eq_zero_iff.mp (by omega)⟩
  · intro hc
    rcases h1.conf hc with h | h
    · cases h
    · exact h

/-- C58: on every heap, parsing a buffer and freeing the result makes no bad access and no bad `free`; the blocks the caller
had are the same afterwards, and no other block remains, unless the DZG workaround re-labelled a value. -/
theorem c58_parse_free (h : Heap) (hw : h.Wf) (buffer : List UInt8) (depth : Nat) (hlen : buffer.length ≤ 294912)
    (hdepth : buffer.length < 4 * depth) :
    ∃ a st h1 h2, pFileParse depth buffer h = .ok a st h1 ∧ pFileFree a st h1 = .ok () st h2 ∧
      (∀ x, x < h.next → h1.cells x = h.cells x ∧ h2.cells x = h.cells x) ∧
      ((∀ x, h2.cells x = h.cells x) ∨ ∃ i, (buffer.drop i).take 5 = [0x0a, 0x01, 0x44, 0x5a, 0x47]) := by
  obtain ⟨f, s, a, h1, h2, B, g, g', e, e1, hr, o1, e2, o2, l1, l2, hc, hd⟩ := parse_free_blocks hw hlen hdepth
  refine ⟨a, s.dry, h1, h2, e1, e2, fun x hx => ⟨o1.old x hx, o2.old x hx⟩, ?_⟩
  cases hcf : s.confused with
  | false =>
    obtain ⟨rfl, rfl⟩ := hc hcf
    exact Or.inl fun x => o2.rest x (by simp)
  | true => exact Or.inr (hd hcf)

/-- The sample telegram of three messages meets the conditions, on an empty heap and on one that already holds a block. -/
example : Heap.Wf {} ∧ Heap.Wf { next := 2, cells := setCell (fun _ => none) 1 (some (.bytes [1, 2])) } ∧
    telegram.length ≤ 294912 ∧ telegram.length < 4 * 35 ∧
    holds (fileParse 35 telegram) (fun f s => f.messages.length == 3 && !s.error && !s.confused && s.live == 63) = true :=
  ⟨⟨by decide, fun _ _ => rfl⟩, ⟨by decide, fun a ha => if_neg (by simp at ha; omega)⟩, by decide +kernel,
    by decide +kernel, by decide +kernel⟩

/-- C58: the heap holds the file that the model on values delivers (so everything proved about that one holds for what the
pointers lead to): its blocks are distinct, none of them existed before, and nothing else on the heap has changed, unless
the DZG workaround re-labelled a value. The buffer is in the same state, too. -/
theorem c58_result (h : Heap) (hw : h.Wf) (buffer : List UInt8) (depth : Nat) (hlen : buffer.length ≤ 294912)
    (hdepth : buffer.length < 4 * depth) :
    ∃ f s a st h1 B, fileParse depth buffer = .ok f s ∧ pFileParse depth buffer h = .ok a st h1 ∧
      st.data = s.data ∧ st.cursor = s.cursor ∧ st.error = s.error ∧
      RFile buffer f a B ∧ (B.map Prod.fst).Nodup ∧
      (∀ x ∈ B, h1.cells x.1 = some x.2 ∧ h.next ≤ x.1) ∧
      (s.confused = false → ∀ x, x ∉ B.map Prod.fst → h1.cells x = h.cells x) := by
  obtain ⟨f, s, a, h1, h2, B, g, g', e, e1, hr, o1, e2, o2, l1, l2, hc, hd⟩ := parse_free_blocks hw hlen hdepth
  refine ⟨f, s, a, s.dry, h1, B, e, e1, rfl, rfl, rfl, hr, ?_, ?_, ?_⟩
  · have := o1.nodup
    rw [List.map_append] at this
    exact (List.nodup_append.mp this).1
  · intro x hx
    have hx' := List.mem_append_left g hx
    exact ⟨o1.mem x hx', (o1.key x hx').1⟩
  · intro hcf x hx
    obtain ⟨rfl, _⟩ := hc hcf
    rw [List.append_nil] at o1
    exact o1.rest x hx

/-- C58: the blocks lost are exactly as many as C03 counts. -/
theorem c58_lost (h : Heap) (hw : h.Wf) (buffer : List UInt8) (depth : Nat) (hlen : buffer.length ≤ 294912)
    (hdepth : buffer.length < 4 * depth) :
    ∃ f s s' a st h1 h2, ∃ lost : List Nat, fileParse depth buffer = .ok f s ∧ fileFree f s = .ok () s' ∧
      pFileParse depth buffer h = .ok a st h1 ∧ pFileFree a st h1 = .ok () st h2 ∧
      lost.Nodup ∧ lost.length = s'.live ∧ ∀ x, x ∈ lost ↔ h2.cells x ≠ h.cells x := by
  obtain ⟨f, s, a, h1, h2, B, g, g', e, e1, hr, o1, e2, o2, l1, l2, hc, hd⟩ := parse_free_blocks hw hlen hdepth
  obtain ⟨f', s1, e', _, hok, hfr, hex, _⟩ := fileParse_post hlen hdepth
  rw [e] at e'
  cases e'
  obtain ⟨_, s', e3, h'⟩ := post_iff.1 ((post_fileFree (Q := fun _ s' => s'.live = s.live - fileFreed f) hok).2 ⟨hfr, rfl⟩)
  refine ⟨f, s, s', a, s.dry, h1, h2, (g' ++ g).map Prod.fst, e, e3, e1, e2, o2.nodup, ?_, ?_⟩
  · rw [List.length_map, List.length_append]
    omega
  · intro x
    constructor
    · intro hx he
      obtain ⟨y, hy, rfl⟩ := List.mem_map.mp hx
      have h3 := o2.mem y hy
      rw [he, o2.base y.1 (o2.key y hy).1] at h3
      cases h3
    · intro hx
      refine Classical.byContradiction fun hn => hx (o2.rest x hn)

/-- C58: the exception is real: for a DZG telegram whose power value is an octet string one block stays behind. -/
theorem c58_lost_real : ∃ buffer a st h1 h2 x, pFileParse 100 buffer {} = .ok a st h1 ∧ pFileFree a st h1 = .ok () st h2 ∧
    ∀ y, h2.cells y ≠ none ↔ y = x := by
  have hz : holds (fileParse 100 dzgStrMsg) (fun f s => holds (fileFree f s) (fun _ s' => s'.live == 1)) = true := by
    decide +kernel
  obtain ⟨f, s, s', a, st, h1, h2, lost, e, e', e1, e2, _, hl, hm⟩ := c58_lost {} ⟨by decide, fun _ _ => rfl⟩ dzgStrMsg 100
    (by decide +kernel) (by decide +kernel)
  rw [e] at hz
  simp only [holds] at hz
  rw [e'] at hz
  have hl1 : lost.length = 1 := by
    rw [hl]
    simpa using hz
  obtain ⟨x, rfl⟩ := List.length_eq_one_iff.mp hl1
  exact ⟨dzgStrMsg, a, st, h1, h2, x, e1, e2, fun y => by rw [← List.mem_singleton]; exact (hm y).symm⟩

/-- C58: freeing the same file again is an access to a freed block. -/
theorem c58_double_free (h : Heap) (hw : h.Wf) (buffer : List UInt8) (depth : Nat) (hlen : buffer.length ≤ 294912)
    (hdepth : buffer.length < 4 * depth)
    (hz : ¬ ∃ i, (buffer.drop i).take 5 = [0x0a, 0x01, 0x44, 0x5a, 0x47]) :
    ∃ a st h1 h2, pFileParse depth buffer h = .ok a st h1 ∧ pFileFree a st h1 = .ok () st h2 ∧
      pFileFree a st h2 = .bad .dangling := by
  obtain ⟨f, s, a, h1, h2, B, g, g', e, e1, hr, o1, e2, o2, l1, l2, hc, hd⟩ := parse_free_blocks hw hlen hdepth
  refine ⟨a, s.dry, h1, h2, e1, e2, ?_⟩
  have hcf : s.confused = false := by
    cases hcf : s.confused with
    | false => rfl
    | true => exact absurd (hd hcf) hz
  obtain ⟨rfl, rfl⟩ := hc hcf
  obtain ⟨ps, B', _, rfl⟩ := hr
  have hk := (o1.key (a, .struct ps [f.messages.length]) (by simp)).1
  have hn : h2.cells a = none := by
    rw [o2.rest a (by simp)]
    exact hw.2 a hk
  have ha : a ≠ 0 := by
    have := hw.1
    simp only at hk
    omega
  rw [pFileFree, if_pos ha]
  simp only [readPtr, deref, bind, P.bind, if_neg ha, hn]

example : ¬ ∃ i, (telegram.drop i).take 5 = [0x0a, 0x01, 0x44, 0x5a, 0x47] := by
  rintro ⟨i, hi⟩
  have hl : i < telegram.length := by
    refine Nat.lt_of_not_le fun hc => ?_
    rw [List.drop_eq_nil_of_le hc] at hi
    cases hi
  have h : ∀ i, i < telegram.length → (telegram.drop i).take 5 ≠ [0x0a, 0x01, 0x44, 0x5a, 0x47] := by decide +kernel
  exact h i hl hi

end Sml
