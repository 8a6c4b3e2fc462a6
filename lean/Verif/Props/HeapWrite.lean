import Verif.Proofs.DryWrite
import Verif.Proofs.HeapWriteFile
import Verif.Props.Forward
import Verif.Props.Heap
import Verif.Props.Transport

/-!
# Writing through pointers: C59

A gateway parses a buffer, writes the file it got (any number of times) and frees it, all on the addressed heap. The state
`St` of a write is the target buffer; `St.dry` is the state without the count of blocks, which the heap replaces.
-/

namespace Sml

open Spec Samples

/-- A client that writes the file at `a` `k` times, each time from the start of the buffer; see `rewrites`. -/
def pRewrites : Nat → Addr → P Unit
  | 0, _ => pure ()
  | k + 1, a => do
    pFileWrite a
    lift (modSt fun st => { st with cursor := 0 })
    pRewrites k a

theorem sim_rewrites : ∀ (k : Nat) {f : File} {B : List Blk}, RFile bs f a B →
    Sim B (rewrites k f) (pRewrites k a) (fun f' _ B' => ∃ B1, RFile bs f' a B1 ∧ B'.Perm B1)
  | 0, f, B, hr => Sim.ret ⟨B, hr, List.Perm.refl _⟩
  | k + 1, f, B, hr => by
    refine (sim_fileWrite hr).bind ?_
    rintro f' _ B' ⟨B1, hr', hp⟩
    exact Sim.perm hp (dry_rewind.sim fun _ => sim_rewrites k hr')

theorem rewrites_live : ∀ (k : Nat) {f f' : File} {w w' : St}, rewrites k f w = .ok f' w' → (∀ m ∈ f.messages, m.crc.isSome) →
    w'.live = w.live + k * f.messages.length ∧ fileFreed f' = fileFreed f
  | 0, f, f', w, w', h, _ => by
    cases h
    exact ⟨by simp, rfl⟩
  | k + 1, f, f', w, w', h, hs => by
    obtain ⟨f1, w1, e1, h⟩ := M.bind_eq_ok h
    obtain ⟨_, w2, e2, h⟩ := M.bind_eq_ok h
    obtain ⟨l1, l2, l3, l4⟩ := fileWrite_live e1 hs
    obtain ⟨l5, l6⟩ := rewrites_live k h l3
    have l7 : w2.live = w1.live := by cases e2; rfl
    rw [l2] at l5
    exact ⟨by rw [Nat.add_mul, Nat.one_mul]; omega, by rw [l6, l4]⟩

theorem delivered_crc (hlen : buffer.length ≤ 2147483647)
    (e : fileParse depth buffer = .ok f s) : ∀ m ∈ f.messages, m.crc.isSome := by
  intro m hm
  obtain ⟨i, o, c, bs, hc, _⟩ := telegram_mem (run_telegram (fileParse_run e) rfl (by simp) hlen) m hm
  rw [hc]
  rfl

/-- Parsing, writing and freeing with all blocks: `g` and `g'` are lost. -/
theorem write_blocks {h : Heap} (hw : h.Wf) (hlen : buffer.length ≤ 2147483647) (hdepth : buffer.length < 4 * depth)
    (e : fileParse depth buffer = .ok f s) {m : M α} {pm : Addr → P β} {F : α → File} {R : α → β → Prop} {v : α}
    (hsim : ∀ a B, RFile buffer f a B → Sim B m (pm a) (fun v p B' => R v p ∧ ∃ B1, RFile buffer (F v) a B1 ∧ B'.Perm B1))
    (em : m w = .ok v w') :
    ∃ a h1 p h2 h3 B g g', pFileParse depth buffer h = .ok a s.dry h1 ∧ pm a w.dry h1 = .ok p w'.dry h2 ∧ R v p ∧
      pFileFree a w'.dry h2 = .ok () w'.dry h3 ∧ (∀ x, x < h.next → h1.cells x = h.cells x) ∧
      RFile buffer (F v) a B ∧ Own h.next h.cells h2 (B ++ g) ∧ Own h.next h.cells h3 (g' ++ g) ∧
      (s.confused = false → g'.length + g.length + fileFreed (F v) + w.live = w'.live + fileFreed f) := by
  obtain ⟨_, _, _, hex⟩ := fileParse_ok hlen hdepth e
  obtain ⟨a, k1, B, g, e1, hr, o1, l1⟩ := pFileParse_ok hw.1 hw.2 e
  obtain ⟨p, k2, B2, g2, e2, ⟨hR, B1, hr1, hp⟩, o2, l2⟩ := hsim a B hr w h.next h.cells k1 g o1 v w' em
  have o2' := o2.perm (hp.append_right g2)
  obtain ⟨k3, g3, e3, o3, l3⟩ := frees_file buffer (F v) a B1 hr1 w'.dry h.next h.cells k2 g2 o2'
  refine ⟨a, k1, p, k2, k3, B1, g2, g3, e1, e2, hR, e3, fun x hx => o1.old x hx, hr1, o2', o3, fun hc => ?_⟩
  have := hex hc
  have := hp.length_eq
  omega

/-- The blocks that differ are the ones that remain. -/
theorem Own.diff (o : Own n0 c0 h L) (x : Nat) : x ∈ L.map Prod.fst ↔ h.cells x ≠ c0 x := by
  constructor
  · intro hx he
    obtain ⟨y, hy, rfl⟩ := List.mem_map.mp hx
    have h3 := o.mem y hy
    rw [he, o.base y.1 (o.key y hy).1] at h3
    cases h3
  · intro hx
    exact Classical.byContradiction fun hn => hx (o.rest x hn)

/-- C59: a file that was parsed on any heap is written from there as the model on values writes it: the same bytes at the
same places, no access through NULL, to a freed block or to one of another kind. The caller's blocks do not change,
and the heap holds the file with its new checksums. Freeing it then makes no bad access either. -/
theorem c59_write (h : Heap) (hw : h.Wf) (buffer : List UInt8) (depth : Nat) (hlen : buffer.length ≤ 2147483647)
    (hdepth : buffer.length < 4 * depth) (f : File) (s : St) (e : fileParse depth buffer = .ok f s)
    (w : St) (f' : File) (w' : St) (ew : fileWrite f w = .ok f' w') :
    ∃ a h1 st h2 h3 B, pFileParse depth buffer h = .ok a s.dry h1 ∧ pFileWrite a w.dry h1 = .ok () st h2 ∧
      st.data = w'.data ∧ st.cursor = w'.cursor ∧ pFileFree a st h2 = .ok () st h3 ∧
      (∀ x, x < h.next → h1.cells x = h.cells x ∧ h2.cells x = h.cells x ∧ h3.cells x = h.cells x) ∧
      RFile buffer f' a B ∧ (∀ x ∈ B, h2.cells x.1 = some x.2 ∧ h.next ≤ x.1) ∧ (B.map Prod.fst).Nodup := by
  obtain ⟨a, h1, _, h2, h3, B, g, g', e1, e2, _, e3, o1, hr, o2, o3, _⟩ := write_blocks (R := fun _ _ => True) (F := id) hw hlen
    hdepth e (fun a B hr => (sim_fileWrite hr).weaken fun v p B h => ⟨trivial, h⟩) ew
  refine ⟨a, h1, w'.dry, h2, h3, B, e1, e2, rfl, rfl, e3, fun x hx => ⟨o1 x hx, o2.old x hx, o3.old x hx⟩, hr, ?_, ?_⟩
  · intro x hx
    have hx' := List.mem_append_left g hx
    exact ⟨o2.mem x hx', (o2.key x hx').1⟩
  · have := o2.nodup
    rw [List.map_append] at this
    exact (List.nodup_append.mp this).1

/-- C59: after `k` writes and `sml_file_free` exactly the `k` overwritten checksums of every message remain, as long as the
DZG workaround did not re-label a value. -/
theorem c59_lost (h : Heap) (hw : h.Wf) (buffer : List UInt8) (depth : Nat) (hlen : buffer.length ≤ 2147483647)
    (hdepth : buffer.length < 4 * depth) (f : File) (s : St) (e : fileParse depth buffer = .ok f s) (hz : s.confused = false)
    (k : Nat) (w : St) (f' : File) (w' : St) (ew : rewrites k f w = .ok f' w') :
    ∃ a h1 st h2 h3, ∃ lost : List Nat, pFileParse depth buffer h = .ok a s.dry h1 ∧ pRewrites k a w.dry h1 = .ok () st h2 ∧
      st.data = w'.data ∧ pFileFree a st h2 = .ok () st h3 ∧ (∀ x, x < h.next → h3.cells x = h.cells x) ∧
      lost.Nodup ∧ lost.length = k * f.messages.length ∧ ∀ x, x ∈ lost ↔ h3.cells x ≠ h.cells x := by
  obtain ⟨a, h1, _, h2, h3, B, g, g', e1, e2, _, e3, o1, hr, o2, o3, hl⟩ := write_blocks (R := fun _ _ => True) (F := id) hw hlen
    hdepth e (fun a B hr => (sim_rewrites k hr).weaken fun v p B h => ⟨trivial, h⟩) ew
  refine ⟨a, h1, w'.dry, h2, h3, (g' ++ g).map Prod.fst, e1, e2, rfl, e3, fun x hx => o3.old x hx, o3.nodup, ?_, o3.diff⟩
  obtain ⟨l1, l2⟩ := rewrites_live k ew (delivered_crc hlen e)
  have hl := hl hz
  simp only [id] at hl
  rw [List.length_map, List.length_append]
  omega

/-- C59: for every telegram within the limits of the encoder (C52) and a buffer that is long enough, this does happen:
writing succeeds on the heap, and the bytes written are parsed to the same messages. -/
theorem c59_forward (h : Heap) (hw : h.Wf) (buffer : List UInt8) (depth : Nat) (hlen : buffer.length ≤ 2147483647)
    (hdepth : buffer.length < 4 * depth) (f : File) (s : St) (e : fileParse depth buffer = .ok f s)
    (hf : ∀ m ∈ f.messages, MessageFits m) (w : St) (hst : w.cursor = 0)
    (hfit : (fileBytes f.messages).length ≤ w.data.length) (hi : w.data.length ≤ 2147483647)
    (hcov : Covered w.data (fileBytes f.messages)) :
    ∃ a h1 st h2 h3 s', pFileParse depth buffer h = .ok a s.dry h1 ∧ pFileWrite a w.dry h1 = .ok () st h2 ∧
      pFileFree a st h2 = .ok () st h3 ∧
      fileParse depth (st.data.take st.cursor) = .ok { messages := f.messages.map sealed } s' := by
  obtain ⟨w', s', ew, ep, _⟩ := c52_forward buffer depth hlen hdepth f s e hf w hst hfit hi hcov
  obtain ⟨a, h1, st, h2, h3, B, e1, e2, hd, hc, e3, _⟩ := c59_write h hw buffer depth hlen hdepth f s e w _ w' ew
  exact ⟨a, h1, st, h2, h3, s', e1, e2, e3, by rw [hd, hc]; exact ep⟩

/-- The telegram of a DZG meter (whose power is corrected on reading) can be forwarded; a zeroed buffer is `Covered`. -/
example : (∃ f s, fileParse 20 dzgNumMsg = .ok f s ∧ f.messages ≠ [] ∧ ∀ m ∈ f.messages, MessageFits m) ∧
    dzgNumMsg.length ≤ 294912 ∧ dzgNumMsg.length < 4 * 20 ∧ ∀ bs : List UInt8, Covered (List.replicate 512 0) bs :=
  ⟨dzgNum_fits, by decide +kernel, by decide +kernel, fun _ => zeros_covered _ _ fun _ h => List.eq_of_mem_replicate (List.mem_of_mem_take h)⟩

/-- C59: the same for sending: the frame handed to `write` is the one of C39. -/
theorem c59_transport (h : Heap) (hw : h.Wf) (buffer : List UInt8) (depth : Nat) (hlen : buffer.length ≤ 2147483647)
    (hdepth : buffer.length < 4 * depth) (f : File) (s : St) (e : fileParse depth buffer = .ok f s)
    (w : St) (f' : File) (frame : List UInt8) (w' : St) (ew : transportFrame f w = .ok (f', frame) w') :
    ∃ a h1 st h2 h3, pFileParse depth buffer h = .ok a s.dry h1 ∧ pTransportFrame a w.dry h1 = .ok frame st h2 ∧
      pFileFree a st h2 = .ok () st h3 ∧
      (∀ x, x < h.next → h1.cells x = h.cells x ∧ h2.cells x = h.cells x ∧ h3.cells x = h.cells x) := by
  obtain ⟨a, h1, _, h2, h3, B, g, g', e1, e2, rfl, e3, o1, hr, o2, o3, _⟩ := write_blocks (R := fun r p => r.2 = p) (F := Prod.fst)
    hw hlen hdepth e (fun a B hr => sim_transportFrame hr) ew
  exact ⟨a, h1, w'.dry, h2, h3, e1, e2, e3, fun x hx => ⟨o1 x hx, o2.old x hx, o3.old x hx⟩⟩

/-- The sample telegram of three messages can be written three times into a buffer of 512 bytes, and be sent. -/
example : holds (fileParse 35 telegram) (fun f s => f.messages.length == 3 && !s.confused &&
      holds (fileWrite f { data := List.replicate 512 0 }) (fun f' w' => f'.messages.length == 3 && w'.cursor == 145) &&
      holds (rewrites 3 f { data := List.replicate 512 0 }) (fun _ w' => w'.live == 9) &&
      holds (transportFrame f { data := List.replicate 512 0 }) (fun r _ => r.2.length == 164)) = true := by
  decide +kernel

end Sml
