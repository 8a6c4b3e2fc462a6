import Verif.Props.SourceStandard

/-!
# C90: how much memory the example program loses while it listens

`sml_server` frees each telegram when it has printed it, so one expects it to need no more memory after a year than after a minute. Here its
source is run for as long as one likes, and the blocks it has lost are counted: one for each measured value, in all telegrams
it has heard, that is a string under the label of a number (C88). A meter that sends one such value fills the memory.
-/

namespace Sml.C

open Spec Samples

set_option linter.unusedVariables false

theorem frame_loss {depth : Nat} (hdepth : 2024 ≤ depth) {fr : List UInt8} {ms : List Message} (hc : Carries depth fr ms) :
    stranded ms ≤ lossOf depth fr ∧ ∀ ds, (∃ body x y z, fr = frame body x y z ∧ Whole depth body ms ds) → lossOf depth fr = stranded ms + stranded ds := by
  obtain ⟨hlen, body, x, y, z, rfl, _, ht⟩ := hc
  have hbl := frame_length body x y z
  obtain ⟨f, s, e, hf⟩ := c51_telegram body depth (by omega) (by omega)
  have hms := (hf ms).1 ht
  have hms : ms = f.messages := hms
  subst hms
  obtain ⟨k1, k2⟩ := fileParse_cost (depth := depth) (by omega) (by omega) e
  rw [lossOf_frame e]
  refine ⟨by omega, fun ds hds => ?_⟩
  obtain ⟨body', x', y', z', hfr, hd⟩ := hds
  obtain rfl := frame_inj hfr
  rw [k2 ds hd]
  omega

theorem sum_loss {depth : Nat} (hdepth : 2024 ≤ depth) (drop : List UInt8 → List Message) : ∀ {items : List (List UInt8 × List Message)}, (∀ i ∈ items, Carries depth i.1 i.2) →
    (items.map fun i => stranded i.2).sum ≤ ((items.map Prod.fst).map (lossOf depth)).sum ∧
    ((∀ i ∈ items, ∃ body x y z, i.1 = frame body x y z ∧ Whole depth body i.2 (drop i.1)) → ((items.map Prod.fst).map (lossOf depth)).sum = (items.map fun i => stranded i.2 + stranded (drop i.1)).sum)
  | [], _ => ⟨Nat.le_refl _, fun _ => rfl⟩
  | i :: items, h => by
    obtain ⟨h1, h2⟩ := sum_loss hdepth drop (items := items) fun j hj => h j (List.mem_cons_of_mem _ hj)
    obtain ⟨k1, k2⟩ := frame_loss hdepth (h i List.mem_cons_self)
    simp only [List.map_cons, List.sum_cons]
    refine ⟨by omega, fun hw => ?_⟩
    rw [h2 fun j hj => hw j (List.mem_cons_of_mem _ hj), k2 _ (hw i List.mem_cons_self)]

/-- C90: `main`, from its source, with any command line for listening and whatever is read, if the telegrams can be handled (C80) and no list response ends the program (`-s`): at the end of the stream it returns 0, and the
blocks it has lost are at least as many as there are strings under the label of a number in the messages of its telegrams. If the telegrams are read to their ends they are exactly as many as such strings in
the messages kept and in those dropped. -/
theorem c90_main (m : Mem) (a : Nat) (name : List UInt8) (args : List (List UInt8)) (h : Started m a name args) (F : Fresh m) (hpow : GoodPow m.world.pow) (verbose single : Bool) (dev : List UInt8)
    (ha : ListensTo args verbose single dev) (d : Nat) (hd : d < 1024) (input : List UInt8) (turns : List Turn) (hs : Source m.world dev d input turns) (depth : Nat) (hdepth : 2024 ≤ depth) :
    ∃ items : List (List UInt8 × List Message), transportListen (input.length + 1) ⟨input, turns.map Turn.ev⟩ = .ok (items.map Prod.fst) ∧ Spec.Within (items.map Prod.fst) input ∧
      (∀ i ∈ items, Carries depth i.1 i.2) ∧
      ((∀ i ∈ items, Calm i.1) → (∀ ms ∈ heard single (items.map Prod.snd), Manageable verbose single ms) → ¬ (single = true ∧ ∃ i ∈ items, ∃ x ∈ i.2, responseOf x ≠ none) →
        ∃ (m' : Mem) (lost : List Nat), CallTo .main [.int .i32 (name :: args).length, ptrVal a] m (.int .i32 0) m' ∧
          lost.Nodup ∧ (∀ a, a ∈ lost ↔ m'.heap a ≠ m.heap a) ∧ (∀ a ∈ lost, m.heap a = none) ∧
          (items.map fun i => stranded i.2).sum ≤ lost.length ∧
          ∀ drop : List UInt8 → List Message, (∀ i ∈ items, ∃ body x y z, i.1 = frame body x y z ∧ Whole depth body i.2 (drop i.1)) →
            lost.length = (items.map fun i => stranded i.2 + stranded (drop i.1)).sum) := by
  obtain ⟨env, m1, h1, h3, H, e1, e2, e3, e4, e5, e6, e7, e8⟩ := main_source h F ha hd hs
  rw [← e5] at hpow
  obtain ⟨items, k1, k2, k3, _⟩ := c80_listen m1 verbose single H hpow d hd e1 e2 depth hdepth .i32
  have k4 := fun hc hm => listen_items m1 verbose single H hpow d hd e1 e2 depth hdepth .i32 k1 k3 hc hm
  rw [e3, e4] at k1
  rw [e3] at k2
  refine ⟨items, k1, k2, k3, fun hc hm q => ?_⟩
  obtain ⟨o, _, _, _, g3⟩ := k4 (fun i hi => calm_quiet (k3 i hi).1 (by have := (k3 i hi).1; omega) (hc i hi)) hm
  obtain ⟨m2, c, q1, _, _, _, ⟨lost, l1, l2, l3, l4⟩, _⟩ := g3 q
  rw [e7] at l2 l3
  refine ⟨_, lost, main_done h.few (by omega) h1 h3 c (q1.trans e8), l1, l2, l3, ?_, fun drop hw => ?_⟩
  · rw [l4]
    exact (sum_loss hdepth (fun _ => []) k3).1
  · rw [l4]
    exact (sum_loss hdepth drop k3).2 hw

/-- C90: the same on telegrams that are known: sequences of fields in frames, with harmless bytes before each of them, in any portions. While the program listens, without `-s`, it loses exactly one block for
each string under the label of a number in any of their messages, kept or dropped. -/
theorem c90_telegrams (m : Mem) (a : Nat) (name : List UInt8) (args : List (List UInt8)) (h : Started m a name args) (F : Fresh m) (hpow : GoodPow m.world.pow) (verbose : Bool) (dev : List UInt8)
    (ha : ListensTo args verbose false dev) (d : Nat) (hd : d < 1024) (input : List UInt8) (turns : List Turn) (hs : Source m.world dev d input turns)
    (telegrams : List (List UInt8 × List UInt8 × List Message × List Message)) (tail : List UInt8) (htail : ¬ Occurs frameStart tail)
    (hin : input = (telegrams.map fun i => i.1 ++ i.2.1).flatten ++ tail) (hnf : ∀ u ∈ turns, u.ev ≠ .fail)
    (hok : ∀ i ∈ telegrams, Harmless i.1 ∧ i.2.1.length < 8096 ∧ Calm i.2.1 ∧
      (∃ body x y z, i.2.1 = frame body x y z ∧ Plain body ∧ Whole 2024 body i.2.2.1 i.2.2.2) ∧ Manageable verbose false i.2.2.1) :
    ∃ (m' : Mem) (lost : List Nat), CallTo .main [.int .i32 (name :: args).length, ptrVal a] m (.int .i32 0) m' ∧
      lost.Nodup ∧ (∀ a, a ∈ lost ↔ m'.heap a ≠ m.heap a) ∧ (∀ a ∈ lost, m.heap a = none) ∧
      lost.length = (telegrams.map fun i => stranded i.2.2.1 + stranded i.2.2.2).sum := by
  obtain ⟨env, m1, h1, h3, H, e1, e2, e3, e4, e5, e6, e7, e8⟩ := main_source h F ha hd hs
  rw [← e5] at hpow
  have hcar : ∀ i ∈ telegrams, Carries 2024 i.2.1 i.2.2.1 := by
    intro i hi
    obtain ⟨_, h1, _, ⟨body, x, y, z, h2, h3, h4⟩, _⟩ := hok i hi
    exact ⟨h1, body, x, y, z, h2, h3, whole_telegram h4⟩
  have hl := c38_frames (telegrams.map fun i => (i.1, i.2.1)) tail ⟨m1.world.input, m1.world.turns.map Turn.ev⟩ (telegrams.length + 1) (by simp) (fun v hv => by
    obtain ⟨u, hu, rfl⟩ := List.mem_map.mp hv
    rw [e4] at hu
    exact hnf u hu) (fun j hj => by
      obtain ⟨i, hi, rfl⟩ := List.mem_map.mp hj
      obtain ⟨h1, body, x, y, z, h2, h3, _⟩ := hcar i hi
      exact ⟨(hok i hi).1, ⟨body, x, y, z, h2, h3⟩, h1⟩) htail (by rw [e3, hin, List.map_map]; rfl)
  have e9 : (telegrams.map fun i => (i.1, i.2.1)).map Prod.snd = (telegrams.map fun i => (i.2.1, i.2.2.1)).map Prod.fst := by
    rw [List.map_map, List.map_map]; rfl
  rw [e9] at hl
  obtain ⟨o, _, _, _, g3⟩ := listen_items m1 verbose false H hpow d hd e1 e2 2024 (Nat.le_refl _) .i32 hl
    (fun j hj => by
      obtain ⟨i, hi, rfl⟩ := List.mem_map.mp hj
      exact hcar i hi)
    (fun j hj => by
      obtain ⟨i, hi, rfl⟩ := List.mem_map.mp hj
      exact calm_quiet (hok i hi).2.1 (by have := (hok i hi).2.1; omega) (hok i hi).2.2.1)
    (fun ms hms => by
      obtain ⟨j, hj, rfl⟩ := List.mem_map.1 (mem_heard hms)
      obtain ⟨i, hi, rfl⟩ := List.mem_map.mp hj
      exact (hok i hi).2.2.2.2)
  obtain ⟨m2, c, q1, _, _, _, ⟨lost, l1, l2, l3, l4⟩, _⟩ := g3 (by simp)
  rw [e7] at l2 l3
  refine ⟨_, lost, main_done h.few (by omega) h1 h3 c (q1.trans e8), l1, l2, l3, ?_⟩
  rw [l4, List.map_map, List.map_map]
  refine congrArg List.sum (List.map_congr_left fun i hi => ?_)
  obtain ⟨_, _, _, ⟨body, x, y, z, h2, _, h4⟩, _⟩ := hok i hi
  exact (frame_loss (Nat.le_refl 2024) (hcar i hi)).2 _ ⟨body, x, y, z, h2, h4⟩

/-! ## A meter that fills the memory -/

def leakFrame : List UInt8 := frame (dzgStrMsg ++ List.replicate 3 0x00) 3 0 0

def leakMem (k : Nat) : Mem := { mainMem [[0x2D]] with world := { (mainMem [[0x2D]]).world with input := (List.replicate k leakFrame).flatten } }

/-- `sml_server -` on `k` telegrams of a DZG meter whose power is a string: `k` blocks are lost, for every `k`. -/
example (k : Nat) : ∃ (m' : Mem) (lost : List Nat), CallTo .main [.int .i32 (2 : Nat), ptrVal 1] (leakMem k) (.int .i32 0) m' ∧ lost.Nodup ∧ (∀ a, a ∈ lost ↔ m'.heap a ≠ (leakMem k).heap a) ∧ lost.length = k := by
  have hh : holds (fileParse 2024 (dzgStrMsg ++ List.replicate 3 0x00)) (fun f s => !s.error && f.messages.length == 1 && stranded f.messages == 1 && s.live == fileFreed f + 1) = true := by
    decide +kernel
  have hlen : (dzgStrMsg ++ List.replicate 3 0x00).length = 68 := rfl
  cases e : fileParse 2024 (dzgStrMsg ++ List.replicate 3 0x00) with
  | ub u => rw [e] at hh; cases hh
  | ok f s =>
    rw [e] at hh
    simp only [holds, Bool.and_eq_true, Bool.not_eq_true', beq_iff_eq] at hh
    obtain ⟨⟨⟨h1, h2⟩, h3⟩, h4⟩ := hh
    obtain ⟨ds, hd⟩ := fileParse_whole (by omega) (by omega) e h1
    have hc := (fileParse_cost (by omega) (by omega) e).2 ds hd
    have hz : stranded ds = 0 := by omega
    have hpl : Plain (dzgStrMsg ++ List.replicate 3 0x00) := by
      refine ⟨by decide, fun i hi => ?_⟩
      have : i < 17 := by omega
      exact (by decide +kernel : ∀ i < 17, ((dzgStrMsg ++ List.replicate 3 0x00).drop (4 * i)).take 4 ≠ escape) i this
    have hcar : Carries 2024 leakFrame f.messages := ⟨by decide, _, _, _, _, rfl, hpl, whole_telegram hd⟩
    have hman : Manageable false false f.messages := by
      refine Classical.byContradiction fun hn => ?_
      obtain ⟨u, hu⟩ := (receiverCall_run pow10 pow10_good 2024 ⟨false, false⟩ hcar (by decide)).2 hn
      have : (match receiverCall pow10 2024 ⟨false, false⟩ leakFrame with | .ok _ => true | .ub _ => false) = true := by decide +kernel
      rw [hu] at this
      cases this
    have hcalm : Calm leakFrame := calm_of (by decide +kernel)
    have hshort : leakFrame.length < 8096 := by decide
    have hst := mainMem_started (args := [[0x2D]]) (by decide) (by decide +kernel)
    have hfr := mainMem_fresh (args := [[0x2D]]) (by decide)
    obtain ⟨m', lost, c, l1, l2, _, l3⟩ := c90_telegrams (leakMem k) 1 "sml_server".toUTF8.toList [[0x2D]] ⟨hst.1, hst.2, hst.3, hst.4, hst.5, hst.6⟩ ⟨hfr.1, hfr.2, hfr.3, ⟨hfr.4.1, hfr.4.2⟩⟩ pow10_good false [0x2D]
      ((c55_options _ _ _ _).1 (by decide +kernel)) 0 (by decide) _ _ (.inl ⟨rfl, rfl, rfl, rfl, rfl⟩) (List.replicate k ([], leakFrame, f.messages, ds)) [] (not_occurs_short (by decide))
      (by rw [List.append_nil, List.map_replicate]; rfl) (by simp [leakMem, mainMem])
      (fun i hi => by
        rw [List.eq_of_mem_replicate hi]
        exact ⟨stdFrame_ok.2.2.1, hshort, hcalm, ⟨_, _, _, _, rfl, hpl, hd⟩, hman⟩)
    refine ⟨m', lost, c, l1, l2, ?_⟩
    rw [l3, List.map_replicate]
    simp [h3, hz]

end Sml.C
