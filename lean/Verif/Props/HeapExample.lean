import Verif.Proofs.HeapExample
import Verif.Props.Heap
import Verif.Props.Program

/-!
# The example program on the addressed heap: C60
-/

namespace Sml

open Spec Samples

/-- The bytes by which a DZG meter is recognised. -/
def DzgIn (bs : List UInt8) : Prop := ∃ i, (bs.drop i).take 5 = [0x0a, 0x01, 0x44, 0x5a, 0x47]

theorem Own.wf (o : Own n0 c0 h L) : h.Wf := by
  refine ⟨?_, o.fresh⟩
  have := o.pos
  have := o.le
  omega

/-- The receiver on the heap: the result and the state are those of `transportReceiver`, and nothing but lost blocks (`g`), or when it leaves early the
blocks of the file, remains. -/
theorem receiver_blocks {h : Heap} (hw : h.Wf) (body : List UInt8) (x y z : UInt8) (hlen : body.length ≤ 294912) (depth : Nat)
    (hdepth : body.length < 4 * depth) (verbose single : Bool) :
    (∀ r s', transportReceiver depth verbose single (frame body x y z) = .ok r s' →
      ∃ h' L, pTransportReceiver depth verbose single (frame body x y z) h = .ok r s'.dry h' ∧ Own h.next h.cells h' L ∧
        (L = [] ∨ r.2.2 = true ∨ DzgIn body)) ∧
    (∀ u, transportReceiver depth verbose single (frame body x y z) = .ub u →
      ∃ b, pTransportReceiver depth verbose single (frame body x y z) h = .bad b) := by
  obtain ⟨f, s, e, h1, hok, hfr, hex, _⟩ := fileParse_post hlen hdepth
  obtain ⟨a, k1, B, g, e1, hr, o1, l1⟩ := pFileParse_ok hw.1 hw.2 e
  have hg : ∀ m ∈ f.messages, GoodValues m := fun m hm => (fileParse_arrived (by omega) e m hm).good
  have hB : Within B (B ++ g) := ⟨g, List.Perm.refl _⟩
  have hfree : ∀ s1 : St, s1.live = s.live → ∃ s2, fileFree f s1 = .ok () s2 ∧ s2.dry = s1.dry := by
    intro s1 hs
    obtain ⟨_, s2, e2, h2⟩ := post_iff.1 ((post_fileFree (Q := fun _ s2 => s2 = { s1 with live := s1.live - fileFreed f }) hok (st := s1)).2
      ⟨by rw [hs]; exact hfr, rfl⟩)
    exact ⟨s2, e2, by rw [h2]; rfl⟩
  have hinfo : Alike (B ++ g) (if verbose then do let i ← filePrint f; pure (some i) else pure none : M (Option FileInfo))
      (if verbose then do let i ← pFilePrint a; pure (some i) else pure none : P (Option FileInfo)) :=
    Alike.ite (fun _ => (same_filePrint hr hB).bind fun _ => Alike.ret _) fun _ => Alike.ret _
  have hfl := frame_length body x y z
  unfold transportReceiver pTransportReceiver
  rw [if_neg (by omega), if_neg (by omega), frame_body, e, e1]
  simp only
  constructor
  · intro r s' hm
    obtain ⟨info, s1, m1, hm⟩ := M.bind_eq_ok hm
    obtain ⟨k2, p1, o2, l2⟩ := hinfo.1 s _ _ k1 o1 _ _ m1
    rw [P.bind_ok p1, ← P.assoc (f := fun n => pPrintMessages single a n 0)]
    obtain ⟨q, s2, m2, hm⟩ := M.bind_eq_ok hm
    obtain ⟨k3, p2, o3, l3⟩ := (same_printing single hr hB hg).1 s1 _ _ k2 o2 _ _ m2
    rw [P.bind_ok p2]
    obtain ⟨lines, ex⟩ := q
    cases ex with
    | true =>
      simp only [if_true] at hm ⊢
      obtain ⟨rfl, rfl⟩ := M.pure_eq_ok hm
      exact ⟨k3, _, rfl, o3, Or.inr (Or.inl rfl)⟩
    | false =>
      simp only [Bool.false_eq_true, if_false] at hm ⊢
      obtain ⟨_, s3, m3, hm⟩ := M.bind_eq_ok hm
      obtain ⟨rfl, rfl⟩ := M.pure_eq_ok hm
      obtain ⟨s4, m4, hd⟩ := hfree s2 (by omega)
      rw [m3] at m4
      injection m4 with _ m4
      subst m4
      obtain ⟨k4, g', p4, o4, l4⟩ := frees_file body f a B hr s2.dry h.next h.cells k3 g o3
      rw [P.bind_ok p4]
      refine ⟨k4, g' ++ g, by rw [hd]; rfl, o4, ?_⟩
      cases hcf : s.confused with
      | false =>
        have := hex hcf
        exact Or.inl (List.length_eq_zero_iff.mp (by rw [List.length_append]; omega))
      | true =>
        rcases h1.conf hcf with h | h
        · cases h
        · exact Or.inr (Or.inr h)
  · intro u hm
    rcases M.bind_eq_ub hm with hm | ⟨info, s1, m1, hm⟩
    · obtain ⟨b, hb⟩ := hinfo.2 s _ _ k1 o1 _ hm
      exact ⟨b, P.bind_bad hb⟩
    obtain ⟨k2, p1, o2, l2⟩ := hinfo.1 s _ _ k1 o1 _ _ m1
    rw [P.bind_ok p1, ← P.assoc (f := fun n => pPrintMessages single a n 0)]
    rcases M.bind_eq_ub hm with hm | ⟨q, s2, m2, hm⟩
    · obtain ⟨b, hb⟩ := (same_printing single hr hB hg).2 s1 _ _ k2 o2 _ hm
      exact ⟨b, P.bind_bad hb⟩
    obtain ⟨k3, p2, o3, l3⟩ := (same_printing single hr hB hg).1 s1 _ _ k2 o2 _ _ m2
    obtain ⟨lines, ex⟩ := q
    cases ex with
    | true => cases hm
    | false =>
      simp only [Bool.false_eq_true, if_false] at hm
      rcases M.bind_eq_ub hm with hm | ⟨_, s3, m3, hm⟩
      · obtain ⟨s4, m4, _⟩ := hfree s2 (by omega)
        rw [hm] at m4
        cases m4
      · cases hm

/-- C60: for every heap and every frame such as the transport layer delivers: the receiver is defined on the heap exactly if the telegram is
`Manageable`. Then it prints what C50 says, through pointers that are all valid; the blocks that were there are as before, and no other
block remains, unless it leaves because of `-s` or the DZG marker is in the telegram. -/
theorem c60_receiver (h : Heap) (hw : h.Wf) (fr : List UInt8) (hfr : IsFrame fr) (hlen : fr.length < 8096) (depth : Nat)
    (hdepth : fr.length < 4 * depth) (verbose single : Bool) :
    ∃ body x y z f s, fr = frame body x y z ∧ fileParse depth body = .ok f s ∧
      (Manageable verbose single f.messages → ∃ info ls ex st h', pTransportReceiver depth verbose single fr h = .ok (info, ls, ex) st h' ∧
        info = (if verbose then some ⟨f.messages.length, s.cursor, f.messages.map tagOf⟩ else none) ∧
        ShowsMessages (lookedAt single f.messages) ls ∧
        (ex = true ↔ single = true ∧ ∃ m ∈ f.messages, responseOf m ≠ none) ∧
        (∀ x, x < h.next → h'.cells x = h.cells x) ∧ h'.Wf ∧ h.next ≤ h'.next ∧
        ((∀ x, h'.cells x = h.cells x) ∨ ex = true ∨ DzgIn body)) ∧
      (¬ Manageable verbose single f.messages → ∃ b, pTransportReceiver depth verbose single fr h = .bad b) := by
  obtain ⟨body, x, y, z, f, s, rfl, e, hm, hn⟩ := c50_exact fr hfr hlen depth hdepth verbose single
  have hfl := frame_length body x y z
  obtain ⟨b1, b2⟩ := receiver_blocks hw body x y z (by omega) depth (by omega) verbose single
  refine ⟨body, x, y, z, f, s, rfl, e, fun h1 => ?_, fun h1 => ?_⟩
  · obtain ⟨info, ls, ex, s', r1, r2, r3, r4, _⟩ := hm h1
    obtain ⟨h', L, p, o, hL⟩ := b1 _ _ r1
    refine ⟨info, ls, ex, _, h', p, r2, r3, r4, o.old, o.wf, o.le, ?_⟩
    rcases hL with rfl | hL
    · exact Or.inl fun x => o.rest x (by simp)
    · exact Or.inr hL
  · obtain ⟨u, hu⟩ := hn h1
    exact b2 u hu

theorem listen_heap (pow : Int → Dbl) (depth : Nat) (hdepth : 2024 ≤ depth) (fl : Flags) (fuel : Nat) : ∀ (fd : Fd) (frames : List (List UInt8)) (h : Heap),
    h.Wf → transportListen fuel fd = .ok frames → (∀ fr ∈ frames, IsFrame fr ∧ fr.length < 8096) →
    (∀ out, listenWith (receiverCall pow depth fl) fuel fd = .ok out → ∃ h', pListen pow depth fl fuel fd h = .ok (out, h') ∧
      (∀ x, x < h.next → h'.cells x = h.cells x) ∧ h'.Wf ∧ h.next ≤ h'.next ∧
      ((∀ x, h'.cells x = h.cells x) ∨ fl.single = true ∨ ∃ fr ∈ frames, DzgIn fr)) ∧
    (∀ u, listenWith (receiverCall pow depth fl) fuel fd = .ub u → ∃ b, pListen pow depth fl fuel fd h = .error b) := by
  induction fuel with
  | zero =>
    intro fd frames h hw hl
    cases hl
  | succ fuel ih =>
    intro fd frames h hw hl hfr
    unfold transportListen at hl
    unfold listenWith pListen
    cases hr : transportRead fd 8096 with
    | ub r => rw [hr] at hl; cases hl
    | ok p =>
      obtain ⟨fr, fd'⟩ := p
      rw [hr] at hl
      simp only [TRes.bind] at hl ⊢
      by_cases hn : fr.length > 0
      · rw [if_pos hn] at hl
        rw [if_pos hn, if_pos hn]
        cases hn' : transportListen fuel fd' with
        | ub r => rw [hn'] at hl; cases hl
        | ok rest =>
          rw [hn'] at hl
          injection hl with hl
          subst hl
          obtain ⟨hf1, hf2⟩ := hfr fr List.mem_cons_self
          obtain ⟨body, x, y, z, hfe, _⟩ := id hf1
          obtain ⟨b0, x0, y0, z0, f0, s0, hfe0, hp0, hm, hbad⟩ := c50_exact fr hf1 hf2 depth (by omega) fl.verbose fl.single
          have hfl := frame_length body x y z
          rw [← hfe] at hfl
          obtain ⟨b1, b2⟩ := receiver_blocks hw body x y z (by omega) depth (by omega) fl.verbose fl.single
          rw [← hfe] at b1 b2
          cases ht : transportReceiver depth fl.verbose fl.single fr with
          | ub u =>
            obtain ⟨b, hb⟩ := b2 u ht
            have hc : receiverCall pow depth fl fr = .ub u := by unfold receiverCall; rw [ht]
            simp only [hb, hc]
            exact ⟨fun _ h => (by cases h), fun _ _ => ⟨b, rfl⟩⟩
          | ok r s' =>
            obtain ⟨h', L, p1, o, hL⟩ := b1 r s' ht
            have hc : receiverCall pow depth fl fr = .ok (receiverText pow r, r.2.2) := by unfold receiverCall; rw [ht]
            simp only [p1, hc]
            have hdz : DzgIn body → DzgIn fr := by
              rintro ⟨i, hi⟩
              refine ⟨8 + i, ?_⟩
              have hlen5 := congrArg List.length hi
              simp only [List.length_take, List.length_drop, List.length_cons, List.length_nil] at hlen5
              rw [hfe, frame, ← List.drop_drop]
              have h8 : (frameStart ++ body ++ escape ++ [0x1a, x, y, z]).drop 8 = body ++ (escape ++ [0x1a, x, y, z]) := by
                simp [frameStart, escape]
              rw [h8, List.drop_append_of_le_length (by omega), List.take_append_of_le_length (by rw [List.length_drop]; omega)]
              exact hi
            have hex : r.2.2 = true → fl.single = true := by
              intro hx
              by_cases hman : Manageable fl.verbose fl.single f0.messages
              · obtain ⟨info, ls, ex, s1, q1, _, _, q4, _⟩ := hm hman
                rw [ht] at q1
                injection q1 with q1 _
                subst q1
                exact (q4.1 hx).1
              · obtain ⟨u, hu⟩ := hbad hman
                rw [ht] at hu
                cases hu
            have hkeep : (∀ x, h'.cells x = h.cells x) ∨ r.2.2 = true ∨ DzgIn fr := by
              rcases hL with rfl | hL | hL
              · exact Or.inl fun x => o.rest x (by simp)
              · exact Or.inr (Or.inl hL)
              · exact Or.inr (Or.inr (hdz hL))
            cases hx : r.2.2 with
            | true =>
              simp only [if_true]
              refine ⟨fun out ho => ?_, fun u hu => by cases hu⟩
              injection ho with ho
              subst ho
              exact ⟨h', rfl, o.old, o.wf, o.le, Or.inr (Or.inl (hex hx))⟩
            | false =>
              rw [hx] at hkeep
              simp only [Bool.false_eq_true, if_false, false_or] at hkeep ⊢
              obtain ⟨i1, i2⟩ := ih fd' rest h' o.wf hn' fun fr' hf' => hfr fr' (List.mem_cons_of_mem _ hf')
              cases hlw : listenWith (receiverCall pow depth fl) fuel fd' with
              | ub u =>
                obtain ⟨b, hb⟩ := i2 u hlw
                rw [hb]
                exact ⟨fun _ h => (by cases h), fun _ _ => ⟨b, rfl⟩⟩
              | ok out' =>
                obtain ⟨h2, j1, j2, j3, j4, j5⟩ := i1 out' hlw
                rw [j1]
                refine ⟨fun out ho => ?_, fun u hu => by cases hu⟩
                injection ho with ho
                subst ho
                have hle := o.le
                refine ⟨h2, rfl, fun x hx => by rw [j2 x (by omega), o.old x hx], j3, by omega, ?_⟩
                rcases hkeep with hkeep | hkeep
                · rcases j5 with j5 | j5 | ⟨fr', hf', hd'⟩
                  · exact Or.inl fun x => by rw [j5, hkeep]
                  · exact Or.inr (Or.inl j5)
                  · exact Or.inr (Or.inr ⟨fr', List.mem_cons_of_mem _ hf', hd'⟩)
                · exact Or.inr (Or.inr ⟨fr, List.mem_cons_self, hkeep⟩)
      · rw [if_neg hn] at hl
        rw [if_neg hn, if_neg hn]
        injection hl with hl
        subst hl
        refine ⟨fun out ho => ?_, fun u hu => by cases hu⟩
        injection ho with ho
        subst ho
        exact ⟨h, rfl, fun _ _ => rfl, hw, Nat.le_refl _, Or.inl fun _ => rfl⟩

/-- C60: the whole program on the heap, whatever the command line, and whatever bytes come from the device: it is defined exactly if it is on values (C55 says
when), it prints the same and ends with the same status; the blocks that were there at the start are unchanged, and no block remains at the end,
however many telegrams came, unless `-s` is given or one of the telegrams has the DZG marker. -/
theorem c60_program (pow : Int → Dbl) (depth : Nat) (hdepth : 2024 ≤ depth) (stdin : Fd) (openDev : List UInt8 → Option Fd) (name : List UInt8)
    (args : List (List UInt8)) (h : Heap) (hw : h.Wf) :
    (∀ e, programMain pow depth stdin openDev name args = .ok e → ∃ h', pProgramMain pow depth stdin openDev name args h = .ok (e, h') ∧
      (∀ x, x < h.next → h'.cells x = h.cells x) ∧
      ((∀ x, h'.cells x = h.cells x) ∨ ∃ verbose single dev fd frames, ListensTo args verbose single dev ∧
        (if dev = [0x2D] then some stdin else openDev dev) = some fd ∧ transportListen (fd.pending.length + 1) fd = .ok frames ∧
        (single = true ∨ ∃ fr ∈ frames, DzgIn fr))) ∧
    (∀ u, programMain pow depth stdin openDev name args = .ub u → ∃ b, pProgramMain pow depth stdin openDev name args h = .error b) := by
  unfold programMain pProgramMain
  have triv : ∀ e0 : Exit, (∀ e, (TRes.ok e0 : TRes Exit) = .ok e → ∃ h', (Except.ok (e0, h) : Except Bad (Exit × Heap)) = .ok (e, h') ∧
      (∀ x, x < h.next → h'.cells x = h.cells x) ∧
      ((∀ x, h'.cells x = h.cells x) ∨ ∃ verbose single dev fd frames, ListensTo args verbose single dev ∧
        (if dev = [0x2D] then some stdin else openDev dev) = some fd ∧ transportListen (fd.pending.length + 1) fd = .ok frames ∧
        (single = true ∨ ∃ fr ∈ frames, DzgIn fr))) ∧
      (∀ u, (TRes.ok e0 : TRes Exit) = .ub u → ∃ b, (Except.ok (e0, h) : Except Bad (Exit × Heap)) = .error b) := by
    intro e0
    refine ⟨fun e he => ?_, fun u hu => by cases hu⟩
    injection he with he
    subst he
    exact ⟨h, rfl, fun _ _ => rfl, Or.inl fun _ => rfl⟩
  cases ho : optionLoop args {} with
  | help => exact triv _
  | unknown => exact triv _
  | rest fl rest =>
    match rest with
    | [] => exact triv _
    | _ :: _ :: _ => exact triv _
    | [dev] =>
      simp only
      cases hfd : (if dev = [0x2D] then some stdin else openDev dev) with
      | none => exact triv _
      | some fd =>
        simp only
        obtain ⟨frames, h1, h2, _⟩ := c38_any (fd.pending.length + 1) fd (by omega)
        obtain ⟨i1, i2⟩ := listen_heap pow depth hdepth fl (fd.pending.length + 1) fd frames h hw h1 h2
        cases hlw : listenWith (receiverCall pow depth fl) (fd.pending.length + 1) fd with
        | ub u =>
          obtain ⟨b, hb⟩ := i2 u hlw
          rw [hb]
          exact ⟨fun _ h => (by cases h), fun _ _ => ⟨b, rfl⟩⟩
        | ok out =>
          obtain ⟨h', j1, j2, j3, j4, j5⟩ := i1 out hlw
          rw [j1]
          refine ⟨fun e he => ?_, fun u hu => by cases hu⟩
          injection he with he
          subst he
          refine ⟨h', rfl, j2, ?_⟩
          rcases j5 with j5 | j5
          · exact Or.inl j5
          · exact Or.inr ⟨fl.verbose, fl.single, dev, fd, frames, (c55_options args _ _ dev).1 ho, hfd, h1, j5⟩

/-- C60, exactly: the program listening on a heap is defined if and only if all telegrams looked at are `Manageable`; then it prints what belongs to
them, and without `-s` and DZG meters the heap is the same at the end. -/
theorem c60_exact (pow : Int → Dbl) (hp : GoodPow pow) (depth : Nat) (hdepth : 2024 ≤ depth) (stdin : Fd) (openDev : List UInt8 → Option Fd) (name : List UInt8)
    (args : List (List UInt8)) (verbose single : Bool) (dev : List UInt8) (hargs : ListensTo args verbose single dev) (fd : Fd)
    (hfd : (if dev = [0x2D] then some stdin else openDev dev) = some fd) (h : Heap) (hw : h.Wf) :
    ∃ items : List (List UInt8 × List Message), transportListen (fd.pending.length + 1) fd = .ok (items.map Prod.fst) ∧
      (∀ i ∈ items, Carries depth i.1 i.2) ∧
      ((∀ ms ∈ heard single (items.map Prod.snd), Manageable verbose single ms) →
        ∃ t h', pProgramMain pow depth stdin openDev name args h = .ok (⟨0, t⟩, h') ∧
          ((∀ ms ∈ heard single (items.map Prod.snd), AllLegible (entriesOf (lookedAt single ms))) →
            PrintsTelegrams verbose single (heard single (items.map Prod.snd)) t) ∧
          (∀ x, x < h.next → h'.cells x = h.cells x) ∧
          (single = false → (∀ i ∈ items, ¬ DzgIn i.1) → ∀ x, h'.cells x = h.cells x)) ∧
      ((∃ ms ∈ heard single (items.map Prod.snd), ¬ Manageable verbose single ms) →
        ∃ b, pProgramMain pow depth stdin openDev name args h = .error b) := by
  obtain ⟨items, h1, _, h2, h3, h4⟩ := c55_program pow hp depth hdepth stdin openDev name args verbose single dev hargs fd hfd
  obtain ⟨g1, g2⟩ := c60_program pow depth hdepth stdin openDev name args h hw
  refine ⟨items, h1, h2, fun hm => ?_, fun hm => ?_⟩
  · obtain ⟨t, e, ht⟩ := h3 hm
    obtain ⟨h', e', k1, k2⟩ := g1 _ e
    refine ⟨t, h', e', ht, k1, fun hs hd => ?_⟩
    rcases k2 with k2 | ⟨v', s', dev', fd', frames, l1, l2, l3, l4⟩
    · exact k2
    · have e1 := (c55_options args v' s' dev').2 l1
      rw [(c55_options args verbose single dev).2 hargs] at e1
      simp only [Options.rest.injEq, Flags.mk.injEq, List.cons.injEq, and_true] at e1
      obtain ⟨⟨rfl, rfl⟩, rfl⟩ := e1
      rw [hfd] at l2
      cases l2
      rw [h1] at l3
      cases l3
      rcases l4 with l4 | ⟨fr, hfr, hdz⟩
      · rw [hs] at l4
        cases l4
      · obtain ⟨i, hi, rfl⟩ := List.mem_map.mp hfr
        exact absurd hdz (hd i hi)
  · obtain ⟨u, hu⟩ := h4 hm
    exact g2 u hu

/-- Two sample telegrams with noise: on a heap that already holds a block, three lines are printed for each and the heap is as before. -/
example : ∃ h', pProgramMain pow10 2024 ⟨sampleFrame ++ [0x42] ++ sampleFrame, [.give 2, .intr, .give 100]⟩ (fun _ => none) [] ["-".toUTF8.toList]
      { next := 2, cells := setCell (fun _ => none) 1 (some (.bytes [1, 2])) } =
    .ok (⟨0, "1-0:1.8.0*255#466.0#Wh\n1-0:16.7.0*255#-200#W\n1-0:96.1.0*255#0a 01 02 03 04 #\n1-0:1.8.0*255#466.0#Wh\n1-0:16.7.0*255#-200#W\n1-0:96.1.0*255#0a 01 02 03 04 #\n".toUTF8.toList⟩, h') ∧
    h'.cells 1 = some (.bytes [1, 2]) := by
  have hp : programMain pow10 2024 ⟨sampleFrame ++ [0x42] ++ sampleFrame, [.give 2, .intr, .give 100]⟩ (fun _ => none) [] ["-".toUTF8.toList] =
    .ok ⟨0, "1-0:1.8.0*255#466.0#Wh\n1-0:16.7.0*255#-200#W\n1-0:96.1.0*255#0a 01 02 03 04 #\n1-0:1.8.0*255#466.0#Wh\n1-0:16.7.0*255#-200#W\n1-0:96.1.0*255#0a 01 02 03 04 #\n".toUTF8.toList⟩ := by
    decide +kernel
  obtain ⟨h', e, hk, _⟩ := (c60_program pow10 2024 (by decide) ⟨sampleFrame ++ [0x42] ++ sampleFrame, [.give 2, .intr, .give 100]⟩ (fun _ => none) []
    ["-".toUTF8.toList] { next := 2, cells := setCell (fun _ => none) 1 (some (.bytes [1, 2])) }
    ⟨by decide, fun a ha => if_neg (by simp at ha; omega)⟩).1 _ hp
  exact ⟨h', e, by rw [hk 1 (by decide)]; rfl⟩

/-- A frame whose list response has an entry without a name is not `Manageable`: NULL is dereferenced. -/
theorem c60_null : ∃ b, pTransportReceiver 2024 false false (frame noNameMsg 0 0 0) {} = .bad b := by
  refine (receiver_blocks (h := {}) ⟨by decide, fun _ _ => rfl⟩ noNameMsg 0 0 0 (by decide +kernel) 2024 (by decide +kernel) false false).2 .nullDeref ?_
  decide +kernel

end Sml
