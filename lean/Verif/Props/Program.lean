import Verif.Model.Program
import Verif.Spec.Program
import Verif.Props.Print
import Verif.Props.Grammar

/-!
# C55: the example program as a whole
-/

namespace Sml
open Spec Samples

/-! ## The command line -/

theorem optionLetters_run (cs : List UInt8) (fl : Flags) (h : ∀ c ∈ cs, c = 0x73 ∨ c = 0x76) :
    ∃ fl', optionLetters cs fl = (none, fl') ∧ (fl'.single = true ↔ fl.single = true ∨ (0x73 : UInt8) ∈ cs) ∧
      (fl'.verbose = true ↔ fl.verbose = true ∨ (0x76 : UInt8) ∈ cs) := by
  induction cs generalizing fl with
  | nil => exact ⟨fl, rfl, by simp, by simp⟩
  | cons c cs ih =>
    have hcs : ∀ c ∈ cs, c = 0x73 ∨ c = 0x76 := fun x hx => h x (by simp [hx])
    rcases h c (by simp) with rfl | rfl
    · obtain ⟨fl', h1, h2, h3⟩ := ih { fl with single := true } hcs
      refine ⟨fl', ?_, ?_, ?_⟩
      · rw [optionLetters, if_neg (by decide), if_pos rfl, h1]
      · rw [h2]; simp
      · rw [h3]; simp
    · obtain ⟨fl', h1, h2, h3⟩ := ih { fl with verbose := true } hcs
      refine ⟨fl', ?_, ?_, ?_⟩
      · rw [optionLetters, if_neg (by decide), if_neg (by decide), if_pos rfl, h1]
      · rw [h2]; simp
      · rw [h3]; simp

theorem optionLetters_other (cs : List UInt8) (fl : Flags) (h : ¬ ∀ c ∈ cs, c = 0x73 ∨ c = 0x76) :
    ∃ o fl', optionLetters cs fl = (some o, fl') ∧ (o = .help ∨ o = .unknown) := by
  induction cs generalizing fl with
  | nil => simp at h
  | cons c cs ih =>
    unfold optionLetters
    by_cases h1 : c = 0x68
    · rw [if_pos h1]; exact ⟨_, _, rfl, Or.inl rfl⟩
    · rw [if_neg h1]
      by_cases h2 : c = 0x73
      · rw [if_pos h2]
        exact ih _ fun hh => h fun x hx => by
          rcases List.mem_cons.1 hx with rfl | hx
          · exact Or.inl h2
          · exact hh x hx
      · rw [if_neg h2]
        by_cases h3 : c = 0x76
        · rw [if_pos h3]
          exact ih _ fun hh => h fun x hx => by
            rcases List.mem_cons.1 hx with rfl | hx
            · exact Or.inr h3
            · exact hh x hx
        · rw [if_neg h3]; exact ⟨_, _, rfl, Or.inr rfl⟩

theorem optionLoop_bundles (bundles : List (List UInt8)) (tail : List (List UInt8)) (fl : Flags)
    (h : ∀ b ∈ bundles, b ≠ [] ∧ ∀ c ∈ b, c = 0x73 ∨ c = 0x76) :
    ∃ fl', optionLoop (bundles.map (0x2D :: ·) ++ tail) fl = optionLoop tail fl' ∧
      (fl'.single = true ↔ fl.single = true ∨ ∃ b ∈ bundles, (0x73 : UInt8) ∈ b) ∧
      (fl'.verbose = true ↔ fl.verbose = true ∨ ∃ b ∈ bundles, (0x76 : UInt8) ∈ b) := by
  induction bundles generalizing fl with
  | nil => exact ⟨fl, rfl, by simp, by simp⟩
  | cons b bs ih =>
    obtain ⟨hb1, hb2⟩ := h b (by simp)
    obtain ⟨fl1, g1, g2, g3⟩ := optionLetters_run b fl hb2
    obtain ⟨fl2, k1, k2, k3⟩ := ih fl1 fun b hb => h b (by simp [hb])
    refine ⟨fl2, ?_, ?_, ?_⟩
    · cases b with
      | nil => exact absurd rfl hb1
      | cons c cs =>
        have hc : ¬ (c = 0x2D ∧ cs = []) := by
          rintro ⟨rfl, _⟩
          rcases hb2 0x2D (by simp) with h | h <;> exact absurd h (by decide)
        rw [List.map_cons, List.cons_append, optionLoop]
        simp only [if_neg hc, g1]
        exact k1
    · rw [k2, g2]
      simp [or_assoc]
    · rw [k3, g3]
      simp [or_assoc]

/-- C55: the program listens exactly with the command lines described by `ListensTo`, with the flags and the device given there. -/
theorem c55_options (args : List (List UInt8)) (verbose single : Bool) (dev : List UInt8) :
    optionLoop args {} = .rest ⟨single, verbose⟩ [dev] ↔ ListensTo args verbose single dev := by
  constructor
  · suffices ∀ (args : List (List UInt8)) (fl : Flags), optionLoop args fl = .rest ⟨single, verbose⟩ [dev] →
        ∃ (bundles tail : List (List UInt8)), args = bundles.map (0x2D :: ·) ++ tail ∧ (∀ b ∈ bundles, b ≠ [] ∧ ∀ c ∈ b, c = 0x73 ∨ c = 0x76) ∧
          (tail = [[0x2D, 0x2D], dev] ∨ tail = [dev] ∧ (dev = [0x2D] ∨ dev.head? ≠ some 0x2D)) ∧
          (single = true ↔ fl.single = true ∨ ∃ b ∈ bundles, (0x73 : UInt8) ∈ b) ∧
          (verbose = true ↔ fl.verbose = true ∨ ∃ b ∈ bundles, (0x76 : UInt8) ∈ b) by
      intro h
      obtain ⟨b, t, h1, h2, h3, h4, h5⟩ := this args {} h
      exact ⟨b, t, h1, h2, h3, by simpa using h4, by simpa using h5⟩
    intro args
    induction args with
    | nil =>
      intro fl h
      simp [optionLoop] at h
    | cons arg args ih =>
      intro fl h
      have hplain : (arg = [0x2D] ∨ arg.head? ≠ some 0x2D) → Options.rest fl (arg :: args) = .rest ⟨single, verbose⟩ [dev] →
          ∃ (bundles tail : List (List UInt8)), arg :: args = bundles.map (0x2D :: ·) ++ tail ∧ (∀ b ∈ bundles, b ≠ [] ∧ ∀ c ∈ b, c = 0x73 ∨ c = 0x76) ∧
          (tail = [[0x2D, 0x2D], dev] ∨ tail = [dev] ∧ (dev = [0x2D] ∨ dev.head? ≠ some 0x2D)) ∧
          (single = true ↔ fl.single = true ∨ ∃ b ∈ bundles, (0x73 : UInt8) ∈ b) ∧
          (verbose = true ↔ fl.verbose = true ∨ ∃ b ∈ bundles, (0x76 : UInt8) ∈ b) := by
        intro hd h
        injection h with h1 h2
        injection h2 with h2 h3
        subst h1 h2 h3
        exact ⟨[], _, rfl, by simp, Or.inr ⟨rfl, hd⟩, by simp, by simp⟩
      unfold optionLoop at h
      split at h
      · next c cs =>
        split at h
        · next hc =>
          injection h with h1 h2
          obtain ⟨rfl, rfl⟩ := hc
          subst h1 h2
          exact ⟨[], _, rfl, by simp, Or.inl rfl, by simp, by simp⟩
        · next hc =>
          by_cases hl : ∀ x ∈ c :: cs, x = 0x73 ∨ x = 0x76
          · obtain ⟨fl', g1, g2, g3⟩ := optionLetters_run (c :: cs) fl hl
            rw [g1] at h
            obtain ⟨b, t, h1, h2, h3, h4, h5⟩ := ih fl' h
            refine ⟨(c :: cs) :: b, t, by rw [h1]; rfl, ?_, h3, ?_, ?_⟩
            · intro x hx
              rcases List.mem_cons.1 hx with rfl | hx
              · exact ⟨by simp, hl⟩
              · exact h2 x hx
            · rw [h4, g2]; simp [or_assoc]
            · rw [h5, g3]; simp [or_assoc]
          · obtain ⟨o, fl', g1, g2⟩ := optionLetters_other (c :: cs) fl hl
            rw [g1] at h
            rcases g2 with rfl | rfl <;> cases h
      · next hne =>
        refine hplain ?_ h
        match arg, hne with
        | [], _ => exact Or.inr (by simp)
        | [c], _ =>
          by_cases hc : c = 0x2D
          · exact Or.inl (by rw [hc])
          · exact Or.inr (by simpa using hc)
        | c :: d :: r, hne => exact Or.inr (by
            simp only [List.head?_cons, ne_eq, Option.some.injEq]
            rintro rfl
            exact hne d r rfl)
  · rintro ⟨b, t, rfl, h2, h3, h4, h5⟩
    obtain ⟨fl', g1, g2, g3⟩ := optionLoop_bundles b t {} h2
    have hfl : fl' = ⟨single, verbose⟩ := by
      obtain ⟨s', v'⟩ := fl'
      simp only [Bool.false_eq_true, false_or] at g2 g3
      rw [← h4] at g2
      rw [← h5] at g3
      have e1 : s' = single := by simpa using Bool.eq_iff_iff.2 g2
      have e2 : v' = verbose := by simpa using Bool.eq_iff_iff.2 g3
      rw [e1, e2]
    rw [g1, hfl]
    rcases h3 with rfl | ⟨rfl, h | h⟩
    · rfl
    · subst h; rfl
    · unfold optionLoop
      split
      · next c cs => simp at h
      · rfl

example : ListensTo ["-sv".toUTF8.toList, "/dev/ttyUSB0".toUTF8.toList] true true "/dev/ttyUSB0".toUTF8.toList :=
  (c55_options _ _ _ _).1 (by decide +kernel)

/-! ## Listening -/

/-- The callback applied to given frames, until it leaves. -/
def handleFrames (call : List UInt8 → TRes (List UInt8 × Bool)) : List (List UInt8) → TRes (List UInt8)
  | [] => .ok []
  | fr :: frs => (call fr).bind fun (out, ex) => if ex then .ok out else (handleFrames call frs).bind fun rest => .ok (out ++ rest)

theorem listenWith_eq (call : List UInt8 → TRes (List UInt8 × Bool)) (fuel : Nat) : ∀ (fd : Fd) (frames : List (List UInt8)),
    transportListen fuel fd = .ok frames → listenWith call fuel fd = handleFrames call frames := by
  induction fuel with
  | zero =>
    intro fd frames h
    cases h
  | succ fuel ih =>
    intro fd frames h
    unfold transportListen at h
    unfold listenWith
    cases hr : transportRead fd 8096 with
    | ub r => rw [hr] at h; cases h
    | ok p =>
      obtain ⟨fr, fd'⟩ := p
      rw [hr] at h
      simp only [TRes.bind] at h ⊢
      by_cases hl : fr.length > 0
      · rw [if_pos hl] at h ⊢
        cases hn : transportListen fuel fd' with
        | ub r => rw [hn] at h; cases h
        | ok rest =>
          rw [hn] at h
          injection h with h
          rw [← h, handleFrames, ih fd' rest hn]
          rfl
      · rw [if_neg hl] at h ⊢
        injection h with h
        rw [← h]
        rfl

/-- The callback on a frame whose messages are known. -/
theorem receiverCall_run (pow : Int → Dbl) (hp : GoodPow pow) (depth : Nat) (fl : Flags) {fr : List UInt8} {ms : List Message} (h : Carries depth fr ms)
    (hdepth : fr.length < 4 * depth) :
    (Manageable fl.verbose fl.single ms → ∃ t ex, receiverCall pow depth fl fr = .ok (t, ex) ∧
      (ex = true ↔ fl.single = true ∧ ∃ m ∈ ms, responseOf m ≠ none) ∧
      (AllLegible (entriesOf (lookedAt fl.single ms)) → PrintsTelegram fl.verbose fl.single ms t)) ∧
    (¬ Manageable fl.verbose fl.single ms → ∃ u, receiverCall pow depth fl fr = .ub u) := by
  obtain ⟨hlen, body, x, y, z, hfr, hpl, ht⟩ := h
  obtain ⟨b1, x1, y1, z1, f, s, g1, g2, g3, g4⟩ := c50_exact fr ⟨body, x, y, z, hfr, hpl⟩ hlen depth hdepth fl.verbose fl.single
  obtain ⟨b2, x2, y2, z2, f', s', k1, k2, k3⟩ := c53_text pow hp fr ⟨body, x, y, z, hfr, hpl⟩ hlen depth hdepth fl.verbose fl.single
  have e1 : b1 = body := frame_inj (g1.symm.trans hfr)
  have e2 : b2 = body := frame_inj (k1.symm.trans hfr)
  subst e1 e2
  rw [g2] at k2
  injection k2 with ef es
  subst ef es
  have hbl : b2.length ≤ 294912 ∧ b2.length < 4 * depth := by
    have := frame_length b2 x y z
    rw [← hfr] at this
    omega
  obtain ⟨f1, s1, t1, t2⟩ := c51_telegram b2 depth hbl.1 hbl.2
  rw [g2] at t1
  injection t1 with ef es
  subst ef
  obtain rfl := (t2 ms).1 ht
  constructor
  · intro hm
    obtain ⟨info, ls, ex, s2, r1, _, _, r2, _⟩ := g3 hm
    refine ⟨receiverText pow (info, ls, ex), ex, ?_, r2, ?_⟩
    · unfold receiverCall
      rw [r1]
    · intro hl
      obtain ⟨r, s3, th, tl, q1, q2, _, q4, q5, q6⟩ := k3 hm hl
      rw [r1] at q1
      injection q1 with q1 _
      subst q1
      exact ⟨th, tl, q2, q4, q5, fun hv => by
        obtain ⟨ti, a, b⟩ := q6 hv
        exact ⟨_, ti, a, b⟩⟩
  · intro hm
    obtain ⟨u, hu⟩ := g4 hm
    exact ⟨u, by unfold receiverCall; rw [hu]⟩

theorem any_response (ms : List Message) : (ms.any fun m => (responseOf m).isSome) = true ↔ ∃ m ∈ ms, responseOf m ≠ none := by
  rw [List.any_eq_true]
  simp only [Option.isSome_iff_ne_none]

theorem handleFrames_run (pow : Int → Dbl) (hp : GoodPow pow) (depth : Nat) (fl : Flags) (items : List (List UInt8 × List Message))
    (h : ∀ i ∈ items, Carries depth i.1 i.2 ∧ i.1.length < 4 * depth) :
    ((∀ ms ∈ heard fl.single (items.map Prod.snd), Manageable fl.verbose fl.single ms) →
      ∃ t, handleFrames (receiverCall pow depth fl) (items.map Prod.fst) = .ok t ∧
        ((∀ ms ∈ heard fl.single (items.map Prod.snd), AllLegible (entriesOf (lookedAt fl.single ms))) →
          PrintsTelegrams fl.verbose fl.single (heard fl.single (items.map Prod.snd)) t)) ∧
    ((∃ ms ∈ heard fl.single (items.map Prod.snd), ¬ Manageable fl.verbose fl.single ms) →
      ∃ u, handleFrames (receiverCall pow depth fl) (items.map Prod.fst) = .ub u) := by
  induction items with
  | nil => exact ⟨fun _ => ⟨[], rfl, fun _ => .nil⟩, by simp [heard]⟩
  | cons i items ih =>
    obtain ⟨i1, i2⟩ := ih fun j hj => h j (by simp [hj])
    obtain ⟨hc, hd⟩ := h i (by simp)
    obtain ⟨c1, c2⟩ := receiverCall_run pow hp depth fl hc hd
    simp only [List.map_cons, handleFrames, heard]
    by_cases hm : Manageable fl.verbose fl.single i.2
    · obtain ⟨t, ex, r1, r2, r3⟩ := c1 hm
      rw [r1]
      simp only [TRes.bind]
      by_cases hex : fl.single = true ∧ ∃ m ∈ i.2, responseOf m ≠ none
      · have e1 : ex = true := r2.2 hex
        have e2 : (fl.single && i.2.any fun m => (responseOf m).isSome) = true := by
          rw [Bool.and_eq_true]; exact ⟨hex.1, (any_response _).2 hex.2⟩
        rw [if_pos e1, if_pos e2]
        refine ⟨fun _ => ⟨t, rfl, fun hl => ?_⟩, ?_⟩
        · have := PrintsTelegrams.cons (r3 (hl _ (by simp))) .nil
          rwa [List.append_nil] at this
        · rintro ⟨ms, hms, hn⟩
          rw [List.mem_singleton] at hms
          exact absurd (hms ▸ hm) hn
      · have e1 : ¬ ex = true := fun h => hex (r2.1 h)
        have e2 : ¬ (fl.single && i.2.any fun m => (responseOf m).isSome) = true := by
          rw [Bool.and_eq_true]; exact fun h => hex ⟨h.1, (any_response _).1 h.2⟩
        rw [if_neg e1, if_neg e2]
        constructor
        · intro hall
          obtain ⟨ts, q1, q2⟩ := i1 fun ms hms => hall ms (by simp [hms])
          rw [q1]
          exact ⟨t ++ ts, rfl, fun hl => .cons (r3 (hl _ (by simp))) (q2 fun ms hms => hl ms (by simp [hms]))⟩
        · rintro ⟨ms, hms, hn⟩
          rcases List.mem_cons.1 hms with rfl | hms
          · exact absurd hm hn
          · obtain ⟨u, hu⟩ := i2 ⟨ms, hms, hn⟩
            rw [hu]
            exact ⟨u, rfl⟩
    · obtain ⟨u, hu⟩ := c2 hm
      refine ⟨fun hall => absurd (hall i.2 (by simp)) hm, fun _ => ?_⟩
      rw [hu]
      exact ⟨u, rfl⟩

/-- C55, exactly: whatever bytes come from the device, and however they arrive, there are frames with messages (those of the transport layer, C38, and of
the grammar, C51) such that the program, started with any command line that makes it listen, is defined if and only if all telegrams looked at are manageable; then it ends with
status 0, and if the readings are legible it has printed exactly what belongs to these telegrams. -/
theorem c55_program (pow : Int → Dbl) (hp : GoodPow pow) (depth : Nat) (hdepth : 2024 ≤ depth) (stdin : Fd) (openDev : List UInt8 → Option Fd) (name : List UInt8)
    (args : List (List UInt8)) (verbose single : Bool) (dev : List UInt8) (hargs : ListensTo args verbose single dev) (fd : Fd)
    (hfd : (if dev = [0x2D] then some stdin else openDev dev) = some fd) :
    ∃ items : List (List UInt8 × List Message), transportListen (fd.pending.length + 1) fd = .ok (items.map Prod.fst) ∧ Within (items.map Prod.fst) fd.pending ∧
      (∀ i ∈ items, Carries depth i.1 i.2) ∧
      ((∀ ms ∈ heard single (items.map Prod.snd), Manageable verbose single ms) →
        ∃ t, programMain pow depth stdin openDev name args = .ok ⟨0, t⟩ ∧
          ((∀ ms ∈ heard single (items.map Prod.snd), AllLegible (entriesOf (lookedAt single ms))) →
            PrintsTelegrams verbose single (heard single (items.map Prod.snd)) t)) ∧
      ((∃ ms ∈ heard single (items.map Prod.snd), ¬ Manageable verbose single ms) →
        ∃ u, programMain pow depth stdin openDev name args = .ub u) := by
  obtain ⟨frames, h1, h2, h3⟩ := c38_any (fd.pending.length + 1) fd (by omega)
  have hitems : ∀ frames : List (List UInt8), (∀ f ∈ frames, IsFrame f ∧ f.length < 8096) →
      ∃ items : List (List UInt8 × List Message), items.map Prod.fst = frames ∧ ∀ i ∈ items, Carries depth i.1 i.2 := by
    intro frames
    induction frames with
    | nil => intro _; exact ⟨[], rfl, by simp⟩
    | cons fr frs ih =>
      intro h
      obtain ⟨items, e1, e2⟩ := ih fun f hf => h f (by simp [hf])
      obtain ⟨⟨body, x, y, z, hfr, hpl⟩, hlen⟩ := h fr (by simp)
      have hbl := frame_length body x y z
      rw [← hfr] at hbl
      obtain ⟨f, s, _, ht⟩ := c51_telegram body depth (by omega) (by omega)
      refine ⟨(fr, f.messages) :: items, by rw [List.map_cons, e1], ?_⟩
      intro i hi
      rcases List.mem_cons.1 hi with rfl | hi
      · exact ⟨hlen, body, x, y, z, hfr, hpl, (ht _).2 rfl⟩
      · exact e2 i hi
  obtain ⟨items, e1, e2⟩ := hitems frames h2
  subst e1
  obtain ⟨r1, r2⟩ := handleFrames_run pow hp depth ⟨single, verbose⟩ items fun i hi => ⟨e2 i hi, by have := (e2 i hi).1; omega⟩
  refine ⟨items, h1, h3, e2, ?_, ?_⟩
  · intro hm
    obtain ⟨t, a, b⟩ := r1 hm
    refine ⟨t, ?_, b⟩
    unfold programMain
    rw [(c55_options args verbose single dev).2 hargs]
    simp only [hfd, listenWith_eq _ _ _ _ h1, a, TRes.bind]
  · intro hm
    obtain ⟨u, hu⟩ := r2 hm
    refine ⟨u, ?_⟩
    unfold programMain
    rw [(c55_options args verbose single dev).2 hargs]
    simp only [hfd, listenWith_eq _ _ _ _ h1, hu, TRes.bind]

/-! ## From the meter to the screen -/

theorem responseOf_sealed (m : Message) : responseOf (sealed m) = responseOf m := rfl

theorem lookedAt_sealed (single : Bool) (ms : List Message) : lookedAt single (ms.map sealed) = (lookedAt single ms).map sealed := by
  induction ms with
  | nil => rfl
  | cons m ms ih =>
    rw [List.map_cons, lookedAt, lookedAt, responseOf_sealed, List.map_cons, ih]
    split <;> rfl

theorem entriesOf_sealed (ms : List Message) : entriesOf (ms.map sealed) = entriesOf ms := by
  unfold entriesOf
  rw [List.flatMap_map]
  rfl

theorem manageable_sealed (verbose single : Bool) (ms : List Message) : Manageable verbose single (ms.map sealed) ↔ Manageable verbose single ms := by
  unfold Manageable
  rw [lookedAt_sealed]
  simp only [List.forall_mem_map]
  exact Iff.rfl

theorem heard_sealed (single : Bool) (mss : List (List Message)) : heard single (mss.map (·.map sealed)) = (heard single mss).map (·.map sealed) := by
  induction mss with
  | nil => rfl
  | cons ms mss ih =>
    rw [List.map_cons, heard, heard, List.map_cons, ih, List.any_map]
    have : ((fun m => (responseOf m).isSome) ∘ sealed) = fun m => (responseOf m).isSome := rfl
    rw [this]
    split <;> rfl

theorem printsTelegram_sealed {verbose single : Bool} {ms : List Message} {t : List UInt8} (h : PrintsTelegram verbose single (ms.map sealed) t) :
    PrintsTelegram verbose single ms t := by
  obtain ⟨th, tl, h1, h2, h3, h4⟩ := h
  rw [lookedAt_sealed, entriesOf_sealed] at h2
  refine ⟨th, tl, h1, h2, h3, fun hv => ?_⟩
  obtain ⟨n, ti, a, b⟩ := h4 hv
  rw [List.length_map, List.map_map] at b
  exact ⟨n, ti, a, b⟩

theorem printsTelegrams_sealed {verbose single : Bool} : ∀ {mss : List (List Message)} {t : List UInt8},
    PrintsTelegrams verbose single (mss.map (·.map sealed)) t → PrintsTelegrams verbose single mss t
  | [], _, h => by cases h; exact .nil
  | _ :: _, _, h => by
    rw [List.map_cons] at h
    cases h with
    | cons h1 h2 => exact .cons (printsTelegram_sealed h1) (printsTelegrams_sealed h2)

theorem sent_carries {depth : Nat} (hdepth : 2024 ≤ depth) {ms : List Message} (hok : ∀ m ∈ ms, MessageOk true m ∧ messageDepth m ≤ depth)
    (hesc : NoEscape (fileBytes ms)) (hlen : (sentFrame (fileBytes ms)).length < 8096) : Carries depth (sentFrame (fileBytes ms)) (ms.map sealed) := by
  have hsl := sentFrame_length (fileBytes ms)
  have hml := fileBytes_long ms
  obtain ⟨x, y, z, hf⟩ := sentFrame_frame (fileBytes ms)
  obtain ⟨s, c, _, _⟩ := parse_padded depth ms hok (by omega) (by omega) (padding (fileBytes ms).length) (by omega)
  have hbl := frame_length (fileBytes ms ++ List.replicate (padding (fileBytes ms).length) 0) x y z
  rw [← hf] at hbl
  obtain ⟨f, s', c', ht⟩ := c51_telegram (fileBytes ms ++ List.replicate (padding (fileBytes ms).length) 0) depth (by omega) (by omega)
  rw [c] at c'
  injection c' with c' _
  refine ⟨hlen, _, x, y, z, hf, (padded_plain _).2 hesc, (ht _).2 ?_⟩
  rw [← c']

/-- C55: the readings of a meter that sends telegrams made by this library reach the screen. Any number of telegrams, each in the frame the
transport layer makes for it, with harmless bytes before each of them, arriving in any portions: the program prints what belongs to the messages that were sent. -/
theorem c55_meter (pow : Int → Dbl) (hp : GoodPow pow) (depth : Nat) (hdepth : 2024 ≤ depth) (stdin : Fd) (openDev : List UInt8 → Option Fd) (name : List UInt8)
    (args : List (List UInt8)) (verbose single : Bool) (dev : List UInt8) (hargs : ListensTo args verbose single dev) (fd : Fd)
    (hfd : (if dev = [0x2D] then some stdin else openDev dev) = some fd) (hnf : ∀ e ∈ fd.sched, e ≠ .fail)
    (telegrams : List (List UInt8 × List Message)) (tail : List UInt8) (ht : ¬ Occurs frameStart tail)
    (hd : fd.pending = (telegrams.map fun i => i.1 ++ sentFrame (fileBytes i.2)).flatten ++ tail)
    (hok : ∀ i ∈ telegrams, Harmless i.1 ∧ (∀ m ∈ i.2, MessageOk true m ∧ messageDepth m ≤ depth) ∧ NoEscape (fileBytes i.2) ∧
      (sentFrame (fileBytes i.2)).length < 8096)
    (hsafe : ∀ ms ∈ heard single (telegrams.map Prod.snd), Manageable verbose single ms ∧ AllLegible (entriesOf (lookedAt single ms))) :
    ∃ t, programMain pow depth stdin openDev name args = .ok ⟨0, t⟩ ∧ PrintsTelegrams verbose single (heard single (telegrams.map Prod.snd)) t := by
  have hcar : ∀ i ∈ telegrams, Carries depth (sentFrame (fileBytes i.2)) (i.2.map sealed) := fun i hi =>
    sent_carries hdepth (hok i hi).2.1 (hok i hi).2.2.1 (hok i hi).2.2.2
  have hcount : telegrams.length ≤ fd.pending.length := by
    have : ∀ l : List (List UInt8 × List Message), l.length ≤ (l.map fun i => i.1 ++ sentFrame (fileBytes i.2)).flatten.length := by
      intro l
      induction l with
      | nil => simp
      | cons i l ih =>
        have := sentFrame_length (fileBytes i.2)
        simp only [List.map_cons, List.flatten_cons, List.length_append, List.length_cons]
        omega
    rw [hd, List.length_append]
    have := this telegrams
    omega
  have hl := c38_frames (telegrams.map fun i => (i.1, sentFrame (fileBytes i.2))) tail fd (fd.pending.length + 1) (by rw [List.length_map]; omega) hnf
    (by
      intro j hj
      obtain ⟨i, hi, rfl⟩ := List.mem_map.1 hj
      obtain ⟨h1, body, x, y, z, h2, h3, _⟩ := hcar i hi
      exact ⟨(hok i hi).1, ⟨body, x, y, z, h2, h3⟩, h1⟩) ht (by rw [hd, List.map_map]; rfl)
  rw [List.map_map] at hl
  have hr := (handleFrames_run pow hp depth ⟨single, verbose⟩ (telegrams.map fun i => (sentFrame (fileBytes i.2), i.2.map sealed))
    (by
      intro j hj
      obtain ⟨i, hi, rfl⟩ := List.mem_map.1 hj
      have := hcar i hi
      exact ⟨this, by have := this.1; simp only; omega⟩)).1
  have e1 : (telegrams.map fun i => (sentFrame (fileBytes i.2), i.2.map sealed)).map Prod.snd = (telegrams.map Prod.snd).map (·.map sealed) := by
    rw [List.map_map, List.map_map]; rfl
  have e2 : (telegrams.map fun i => (sentFrame (fileBytes i.2), i.2.map sealed)).map Prod.fst = telegrams.map (Prod.snd ∘ fun i => (i.1, sentFrame (fileBytes i.2))) := by
    rw [List.map_map]; rfl
  rw [e1, e2, heard_sealed] at hr
  simp only [List.forall_mem_map] at hr
  obtain ⟨t, a, b⟩ := hr fun ms hms => (manageable_sealed _ _ _).2 (hsafe ms hms).1
  refine ⟨t, ?_, printsTelegrams_sealed (b fun ms hms => ?_)⟩
  · unfold programMain
    rw [(c55_options args verbose single dev).2 hargs]
    simp only [hfd, listenWith_eq _ _ _ _ hl, a, TRes.bind]
  · rw [lookedAt_sealed, entriesOf_sealed]
    exact (hsafe ms hms).2

/-- The sample telegram twice, with noise, read from standard input in small portions. -/
example : programMain pow10 2024 ⟨sampleFrame ++ [0x42] ++ sampleFrame, [.give 2, .intr, .give 100]⟩ (fun _ => none) [] ["-s".toUTF8.toList, "-".toUTF8.toList] =
    .ok ⟨0, "1-0:1.8.0*255#466.0#Wh\n1-0:16.7.0*255#-200#W\n1-0:96.1.0*255#0a 01 02 03 04 #\n".toUTF8.toList⟩ := by decide +kernel

/-- The sample message meets the conditions of `c55_meter` on messages. -/
example : (∀ m ∈ [sampleMessage], MessageOk true m ∧ messageDepth m ≤ 2024) ∧ NoEscape (fileBytes [sampleMessage]) ∧ (sentFrame (fileBytes [sampleMessage])).length < 8096 ∧
    Manageable true true [sampleMessage] ∧ AllLegible (entriesOf (lookedAt true [sampleMessage])) := by
  refine ⟨?_, (noEscape_iff _).2 (by decide +kernel), by decide +kernel, ?_, ?_⟩
  · intro m hm
    rw [List.mem_singleton] at hm
    subst hm
    exact ⟨sampleMessage_ok true, by decide⟩
  · constructor
    · intro m hm
      have : m = sampleMessage := by simpa [lookedAt] using hm
      subst this
      refine ⟨by simp [sampleMessage], ?_⟩
      intro r hr e he
      have : r.valList = [sampleEntry, sampleEntry2] := by
        simp only [responseOf, sampleMessage, Option.some.injEq] at hr
        rw [← hr]
      rw [this] at he
      simp only [List.mem_cons, List.not_mem_nil, or_false] at he
      rcases he with rfl | rfl <;> intro v hv <;> injection hv with hv <;> subst hv
      · exact Or.inr ⟨⟨_, _, rfl, by decide, rfl⟩, by decide⟩
      · exact Or.inr ⟨⟨_, _, rfl, by decide, rfl⟩, by decide⟩
    · intro _ m hm
      rw [List.mem_singleton] at hm
      subst hm
      simp [sampleMessage]
  · intro e he v x hv hx
    have : e = sampleEntry ∨ e = sampleEntry2 := by simpa [entriesOf, lookedAt, responseOf, sampleMessage] using he
    rcases this with rfl | rfl
    · injection hv with hv
      cases hx with
      | signed h h' =>
        injection hv with hv1 hv2
        injection hv2 with hv2
        injection hv2 with hv2
        injection hv2 with hn hv2
        subst hn hv2
        unfold Legible
        decide
      | unsigned h h' =>
        injection hv with hv1 hv2
        omega
    · injection hv with hv
      have h1 : v.type = 0 := by rw [← hv]
      cases hx <;> simp only at h1 <;> omega

end Sml
