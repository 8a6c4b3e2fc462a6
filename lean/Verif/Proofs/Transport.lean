import Verif.Model.Transport
import Verif.Spec.Transport

/-!
# Receiving
-/

namespace Sml

open Spec

/-! ## Reading from a descriptor -/

theorem smlReadLoop_got (sched : List Ev) : ∀ pending need acc bs fd, smlReadLoop sched pending need acc = ⟨some bs, fd⟩ →
    ∃ l, bs = acc ++ l ∧ l.length = need ∧ pending = l ++ fd.pending := by
  induction sched with
  | nil =>
    intro pending need acc bs fd h
    unfold smlReadLoop at h
    split at h
    · cases h; exact ⟨[], by simp, by simp_all, by simp⟩
    · split at h
      · cases h; exact ⟨pending.take need, rfl, by simp; omega, by simp⟩
      · cases h
  | cons ev sched ih =>
    intro pending need acc bs fd h
    unfold smlReadLoop at h
    split at h
    · cases h; exact ⟨[], by simp, by simp_all, by simp⟩
    · cases ev with
      | intr => exact ih _ _ _ _ _ h
      | fail => cases h
      | give k =>
        simp only at h
        split at h
        · cases h
        · obtain ⟨l, h1, h2, h3⟩ := ih _ _ _ _ _ h
          refine ⟨pending.take (min (min (k + 1) need) pending.length) ++ l, by rw [h1, List.append_assoc], by simp; omega, ?_⟩
          rw [List.append_assoc, ← h3, List.take_append_drop]

theorem smlRead_got {fd fd' : Fd} {n : Nat} {bs : List UInt8} (h : smlRead fd n = ⟨some bs, fd'⟩) :
    bs.length = n ∧ fd.pending = bs ++ fd'.pending := by
  obtain ⟨l, h1, h2, h3⟩ := smlReadLoop_got _ _ _ _ _ _ h
  simp only [List.nil_append] at h1
  subst h1
  exact ⟨h2, h3⟩

/-- A descriptor on which no read fails. -/
def NoFail (fd : Fd) : Prop := ∀ e ∈ fd.sched, e ≠ .fail

theorem smlReadLoop_noFail (sched : List Ev) : ∀ pending need acc, (∀ e ∈ sched, e ≠ .fail) → ∃ sched', (∀ e ∈ sched', e ≠ .fail) ∧
    smlReadLoop sched pending need acc = if need ≤ pending.length then ⟨some (acc ++ pending.take need), ⟨pending.drop need, sched'⟩⟩ else ⟨none, ⟨[], sched'⟩⟩ := by
  induction sched with
  | nil =>
    intro pending need acc _
    refine ⟨[], by simp, ?_⟩
    unfold smlReadLoop
    by_cases h0 : need = 0
    · simp [h0]
    · rw [if_neg h0]
  | cons ev sched ih =>
    intro pending need acc hs
    have hs' : ∀ e ∈ sched, e ≠ .fail := fun e he => hs e (by simp [he])
    unfold smlReadLoop
    by_cases h0 : need = 0
    · exact ⟨ev :: sched, hs, by simp [h0]⟩
    · rw [if_neg h0]
      cases ev with
      | intr => exact ih _ _ _ hs'
      | fail => exact absurd rfl (hs .fail (by simp))
      | give k =>
        simp only
        by_cases hp : pending = []
        · refine ⟨sched, hs', ?_⟩
          rw [if_pos hp, if_neg (by rw [hp]; simp; omega)]
        · rw [if_neg hp]
          obtain ⟨sched', h1, h2⟩ := ih (pending.drop (min (min (k + 1) need) pending.length)) (need - min (min (k + 1) need) pending.length)
            (acc ++ pending.take (min (min (k + 1) need) pending.length)) hs'
          refine ⟨sched', h1, ?_⟩
          rw [h2]
          generalize hr : min (min (k + 1) need) pending.length = r
          by_cases hle : need ≤ pending.length
          · rw [if_pos (by simp; omega), if_pos hle, List.append_assoc, ← List.take_add, List.drop_drop, show r + (need - r) = need by omega]
          · rw [if_neg (by simp; omega), if_neg hle]

theorem smlRead_noFail {fd : Fd} (n : Nat) (h : NoFail fd) : ∃ sched', (∀ e ∈ sched', e ≠ .fail) ∧
    smlRead fd n = if n ≤ fd.pending.length then ⟨some (fd.pending.take n), ⟨fd.pending.drop n, sched'⟩⟩ else ⟨none, ⟨[], sched'⟩⟩ := by
  obtain ⟨sched', h1, h2⟩ := smlReadLoop_noFail fd.sched fd.pending n [] h
  exact ⟨sched', h1, by unfold smlRead; rw [h2]; simp⟩

/-! ## Memory -/

theorem storeAt_ok {buf bs : List UInt8} {off : Nat} (h : off + bs.length ≤ buf.length) :
    storeAt buf off bs = .ok (buf.take off ++ bs ++ buf.drop (off + bs.length)) := if_pos h

theorem stored_length {buf bs : List UInt8} {off : Nat} (h : off + bs.length ≤ buf.length) :
    (buf.take off ++ bs ++ buf.drop (off + bs.length)).length = buf.length := by simp; omega

theorem stored_take {buf bs : List UInt8} {off : Nat} (h : off + bs.length ≤ buf.length) :
    (buf.take off ++ bs ++ buf.drop (off + bs.length)).take (off + bs.length) = buf.take off ++ bs := by
  rw [List.take_append_of_le_length (by simp; omega), List.take_of_length_le (by simp; omega)]

theorem stored_load {buf bs : List UInt8} {off : Nat} (h : off + bs.length ≤ buf.length) :
    loadBytes (buf.take off ++ bs ++ buf.drop (off + bs.length)) off bs.length = .ok bs := by
  unfold loadBytes
  rw [if_pos (by rw [stored_length h]; exact h), List.append_assoc, List.drop_append_of_le_length (by simp; omega),
    List.drop_of_length_le (by simp; omega)]
  simp

theorem stored_get {buf bs : List UInt8} {b : UInt8} {off : Nat} (h : off + (b :: bs).length ≤ buf.length) :
    loadAt (buf.take off ++ (b :: bs) ++ buf.drop (off + (b :: bs).length)) off = .ok b := by
  unfold loadAt
  rw [List.append_assoc, List.getElem?_append_right (by simp; omega)]
  have : off - (buf.take off).length = 0 := by simp; simp at h; omega
  rw [this]
  simp

/-! ## The search for the start -/

theorem startNext_progress {n : Nat} (h : n < 8) (b : UInt8) : startNext n b = progress n b := by
  have : n = 0 ∨ n = 1 ∨ n = 2 ∨ n = 3 ∨ n = 4 ∨ n = 5 ∨ n = 6 ∨ n = 7 := by omega
  unfold startNext progress
  rcases this with rfl | rfl | rfl | rfl | rfl | rfl | rfl | rfl <;> simp [frameStart, escape, eq_comm]

theorem startNext_le {n : Nat} (h : n < 8) (b : UInt8) : startNext n b ≤ 8 := by
  unfold startNext; split <;> omega

/-- The matcher on a list: what is left after the start sequence. -/
def matchStart : Nat → List UInt8 → Option (List UInt8)
  | n, l => if 8 ≤ n then some l else
    match l with
    | [] => none
    | b :: l => matchStart (progress n b) l

theorem frameStart_length : frameStart.length = 8 := by simp [frameStart, escape]

theorem progress_fits {n : Nat} {b : UInt8} {pre : List UInt8} (h : pre = frameStart.take n) :
    progress n b = n + 1 ∧ pre ++ [b] = frameStart.take (n + 1) ∨ progress n b = 0 := by
  unfold progress
  split
  · next hb =>
    left
    refine ⟨rfl, ?_⟩
    rw [h, List.take_add_one, hb]
    rfl
  · exact Or.inr rfl

/-- `findStart`, provided no read fails: the buffer starts with the start sequence. -/
theorem findStart_run (fuel : Nat) : ∀ (fd : Fd) (buf : List UInt8) (n : Nat), n ≤ 8 → fd.pending.length < fuel → 8 ≤ buf.length →
    buf.take n = frameStart.take n →
    ∃ r, findStart fuel fd buf n = .ok r ∧ (∀ buf', r.1 = some buf' → buf'.take 8 = frameStart ∧ buf'.length = buf.length ∧
      matchStart n fd.pending = some r.2.pending) ∧ (NoFail fd → NoFail r.2 ∧ (r.1 = none → matchStart n fd.pending = none ∧ r.2.pending = [])) := by
  induction fuel with
  | zero => intro fd buf n _ h; omega
  | succ fuel ih =>
    intro fd buf n hn hf hb ht
    unfold findStart
    by_cases h8 : n < 8
    · rw [if_pos h8]
      cases hr : smlRead fd 1 with
      | mk got fd' =>
        cases got with
        | none =>
          simp only
          refine ⟨_, rfl, ?_, fun hnf => ?_⟩
          · rintro _ ⟨⟩
          obtain ⟨sched', hs, hrun⟩ := smlRead_noFail 1 hnf
          rw [hr] at hrun
          split at hrun
          · cases hrun
          · next hlen =>
            cases hrun
            refine ⟨hs, fun _ => ⟨?_, rfl⟩⟩
            have : fd.pending = [] := by
              cases hp : fd.pending with
              | nil => rfl
              | cons => rw [hp] at hlen; simp at hlen
            rw [this]
            unfold matchStart
            rw [if_neg (by omega)]
        | some bs =>
          obtain ⟨h1, h2⟩ := smlRead_got hr
          obtain ⟨b, rfl⟩ := List.length_eq_one_iff.1 h1
          have hfit : n + [b].length ≤ buf.length := by simp; omega
          simp only [storeAt_ok hfit, TRes.bind, stored_get hfit]
          have hlen := congrArg List.length h2
          simp only [List.length_append, List.length_singleton] at hlen
          have hnext : (buf.take n ++ [b] ++ buf.drop (n + [b].length)).take (startNext n b) = frameStart.take (startNext n b) := by
            rw [startNext_progress h8]
            rcases progress_fits (b := b) ht with ⟨hp, hpre⟩ | hp
            · rw [hp, ← hpre]
              exact stored_take hfit
            · rw [hp]; simp
          obtain ⟨r, hrun, hsome, hno⟩ := ih fd' (buf.take n ++ [b] ++ buf.drop (n + [b].length)) (startNext n b) (startNext_le h8 b) (by omega)
            (by rw [stored_length hfit]; exact hb) hnext
          refine ⟨r, hrun, ?_, ?_⟩
          · intro buf' hbuf
            obtain ⟨g1, g2, g3⟩ := hsome buf' hbuf
            refine ⟨g1, by rw [g2, stored_length hfit], ?_⟩
            rw [h2]
            unfold matchStart
            rw [if_neg (by omega)]
            simp only [List.singleton_append]
            rw [← startNext_progress h8]
            exact g3
          · intro hnf
            obtain ⟨sched', hs, hrd⟩ := smlRead_noFail 1 hnf
            have hnf' : NoFail fd' := by
              rw [hr] at hrd
              split at hrd
              · have he := congrArg ReadResult.fd hrd
                simp only at he
                rw [he]
                exact hs
              · cases hrd
            refine ⟨(hno hnf').1, fun hnone => ?_⟩
            obtain ⟨g1, g2⟩ := (hno hnf').2 hnone
            refine ⟨?_, g2⟩
            rw [h2]
            unfold matchStart
            rw [if_neg (by omega)]
            simp only [List.singleton_append]
            rw [← startNext_progress h8]
            exact g1
    · rw [if_neg h8]
      have h8' : n = 8 := by omega
      subst h8'
      refine ⟨_, rfl, ?_, fun hnf => ⟨hnf, fun h => by cases h⟩⟩
      rintro _ ⟨⟩
      refine ⟨by rw [ht, ← frameStart_length]; exact List.take_length, rfl, ?_⟩
      unfold matchStart
      rfl

/-! ## The blocks -/

theorem readBlocks_run (maxLen fuel : Nat) : ∀ (fd : Fd) (buf : List UInt8) (n : Nat), 0 < fuel → maxLen < 4 * fuel + n → buf.length = maxLen → 8 ≤ n →
    ∃ r, readBlocks maxLen fuel fd buf n = .ok r ∧
      (r.1 ≠ [] → ∃ body x y z, r.1 = buf.take n ++ body ++ escape ++ [0x1a, x, y, z] ∧ Plain body ∧ fd.pending = body ++ escape ++ [0x1a, x, y, z] ++ r.2.pending ∧
        n + body.length + 8 < maxLen) := by
  induction fuel with
  | zero => intro fd buf n h; omega
  | succ fuel ih =>
    intro fd buf n _ hf hb hn
    unfold readBlocks
    by_cases hlt : n + 8 < maxLen
    · rw [if_pos hlt]
      cases hr : smlRead fd 4 with
      | mk got fd' =>
        cases got with
        | none => exact ⟨_, rfl, fun h => absurd rfl h⟩
        | some bs =>
          obtain ⟨h1, h2⟩ := smlRead_got hr
          have hfit : n + bs.length ≤ buf.length := by omega
          have hload := stored_load hfit
          rw [h1] at hload
          have hst := stored_take hfit
          have hsl := stored_length hfit
          rw [h1] at hst hsl
          simp only [storeAt_ok hfit, TRes.bind, h1, hload]
          by_cases hesc : bs = escSeq
          · rw [if_pos hesc]
            cases hr2 : smlRead fd' 4 with
            | mk got2 fd2 =>
              cases got2 with
              | none => exact ⟨_, rfl, fun h => absurd rfl h⟩
              | some cs =>
                obtain ⟨g1, g2⟩ := smlRead_got hr2
                obtain ⟨c, x, y, z, rfl⟩ : ∃ c x y z, cs = [c, x, y, z] := by
                  match cs, g1 with
                  | [c, x, y, z], _ => exact ⟨c, x, y, z, rfl⟩
                have hfit2 : n + 4 + [c, x, y, z].length ≤ (buf.take n ++ bs ++ buf.drop (n + 4)).length := by rw [hsl]; simp; omega
                have hget := stored_get hfit2
                simp only [storeAt_ok hfit2, hget]
                by_cases hc : c = 0x1a
                · have hlb : loadBytes ((buf.take n ++ bs ++ buf.drop (n + 4)).take (n + 4) ++ [c, x, y, z] ++ (buf.take n ++ bs ++ buf.drop (n + 4)).drop (n + 4 + [c, x, y, z].length)) 0 (n + 4 + 4) =
                      .ok (buf.take n ++ bs ++ [c, x, y, z]) := by
                    unfold loadBytes
                    rw [if_pos (by rw [stored_length hfit2, hsl]; omega), List.drop_zero]
                    exact congrArg TRes.ok ((stored_take hfit2).trans (by rw [hst]))
                  rw [if_pos hc, hlb]
                  simp only
                  rw [if_pos (by omega)]
                  refine ⟨_, rfl, fun _ => ⟨[], x, y, z, ?_, ⟨rfl, by intro i hi; simp at hi⟩, ?_, by simpa using hlt⟩⟩
                  · simp [hesc, hc, escape, escSeq]
                  · rw [h2, g2, hesc, hc]; simp [escape, escSeq]
                · rw [if_neg hc]
                  exact ⟨_, rfl, fun h => absurd rfl h⟩
          · rw [if_neg hesc]
            obtain ⟨r, hrun, hr1⟩ := ih fd' (buf.take n ++ bs ++ buf.drop (n + 4)) (n + 4) (by omega) (by omega) (by rw [hsl]; exact hb) (by omega)
            refine ⟨r, hrun, fun h => ?_⟩
            obtain ⟨body, x, y, z, e1, e2, e3, e4⟩ := hr1 h
            refine ⟨bs ++ body, x, y, z, ?_, ⟨?_, ?_⟩, ?_, ?_⟩
            · rw [e1, hst]; simp
            · have := e2.1; simp; omega
            · intro i hi
              cases i with
              | zero =>
                simp only [Nat.mul_zero, List.drop_zero]
                rw [List.take_append_of_le_length (by omega), List.take_of_length_le (by omega)]
                exact hesc
              | succ i =>
                rw [show 4 * (i + 1) = bs.length + 4 * i by omega, ← List.drop_drop, List.drop_left]
                exact e2.2 i (by simp at hi; omega)
            · rw [h2, e3]; simp
            · simp; omega
    · rw [if_neg hlt]
      exact ⟨_, rfl, fun h => absurd rfl h⟩

/-! ## The way the bytes arrive -/

/-- Equal outcomes, with the same bytes left. -/
def SameRead (a b : TRes (α × Fd)) : Prop :=
  match a, b with
  | .ok (x, f), .ok (y, g) => x = y ∧ f.pending = g.pending ∧ NoFail f ∧ NoFail g
  | .ub r, .ub r' => r = r'
  | _, _ => False

theorem smlRead_same {f g : Fd} (h : f.pending = g.pending) (hf : NoFail f) (hg : NoFail g) (n : Nat) :
    (smlRead f n).got = (smlRead g n).got ∧ (smlRead f n).fd.pending = (smlRead g n).fd.pending ∧ NoFail (smlRead f n).fd ∧ NoFail (smlRead g n).fd := by
  obtain ⟨s1, h1, e1⟩ := smlRead_noFail n hf
  obtain ⟨s2, h2, e2⟩ := smlRead_noFail n hg
  rw [e1, e2, h]
  by_cases hle : n ≤ g.pending.length
  · rw [if_pos hle, if_pos hle]; exact ⟨rfl, rfl, h1, h2⟩
  · rw [if_neg hle, if_neg hle]; exact ⟨rfl, rfl, h1, h2⟩

theorem same_bind {a : TRes α} {j k : α → TRes (β × Fd)} (h : ∀ x, SameRead (j x) (k x)) : SameRead (a.bind j) (a.bind k) := by
  cases a with
  | ok x => exact h x
  | ub r => rfl

theorem findStart_same (fuel : Nat) : ∀ (f g : Fd) (buf : List UInt8) (n : Nat), f.pending = g.pending → NoFail f → NoFail g →
    SameRead (findStart fuel f buf n) (findStart fuel g buf n) := by
  induction fuel with
  | zero => intro f g buf n _ _ _; rfl
  | succ fuel ih =>
    intro f g buf n h hf hg
    unfold findStart
    by_cases h8 : n < 8
    · rw [if_pos h8, if_pos h8]
      obtain ⟨h1, h2, h3, h4⟩ := smlRead_same h hf hg 1
      simp only [h1]
      cases (smlRead g 1).got with
      | none => exact ⟨rfl, h2, h3, h4⟩
      | some bs => exact same_bind fun buf => same_bind fun b => ih _ _ _ _ h2 h3 h4
    · rw [if_neg h8, if_neg h8]
      exact ⟨rfl, h, hf, hg⟩

theorem readBlocks_same (maxLen fuel : Nat) : ∀ (f g : Fd) (buf : List UInt8) (n : Nat), f.pending = g.pending → NoFail f → NoFail g →
    SameRead (readBlocks maxLen fuel f buf n) (readBlocks maxLen fuel g buf n) := by
  induction fuel with
  | zero => intro f g buf n _ _ _; rfl
  | succ fuel ih =>
    intro f g buf n h hf hg
    unfold readBlocks
    by_cases h8 : n + 8 < maxLen
    · rw [if_pos h8, if_pos h8]
      obtain ⟨h1, h2, h3, h4⟩ := smlRead_same h hf hg 4
      simp only [h1]
      cases (smlRead g 4).got with
      | none => exact ⟨rfl, h2, h3, h4⟩
      | some bs =>
        refine same_bind fun buf => same_bind fun four => ?_
        split
        · obtain ⟨g1, g2, g3, g4⟩ := smlRead_same h2 h3 h4 4
          simp only [g1]
          cases (smlRead (smlRead g 4).fd 4).got with
          | none => exact ⟨rfl, g2, g3, g4⟩
          | some cs =>
            refine same_bind fun buf => same_bind fun b => ?_
            split
            · refine same_bind fun out => ?_
              split
              · exact ⟨rfl, g2, g3, g4⟩
              · rfl
            · exact ⟨rfl, g2, g3, g4⟩
        · exact ih _ _ _ _ h2 h3 h4
    · rw [if_neg h8, if_neg h8]
      exact ⟨rfl, h, hf, hg⟩

theorem transportRead_same {f g : Fd} (h : f.pending = g.pending) (hf : NoFail f) (hg : NoFail g) (maxLen : Nat) :
    SameRead (transportRead f maxLen) (transportRead g maxLen) := by
  unfold transportRead
  split
  · rfl
  · split
    · rfl
    · split
      · exact ⟨rfl, h, hf, hg⟩
      · rw [h]
        dsimp only
        have hs := findStart_same (g.pending.length + 9) f g (List.replicate maxLen 0) 0 h hf hg
        revert hs
        cases findStart (g.pending.length + 9) f (List.replicate maxLen 0) 0 with
        | ub r =>
          cases findStart (g.pending.length + 9) g (List.replicate maxLen 0) 0 with
          | ub r' => exact id
          | ok y => exact False.elim
        | ok x =>
          cases findStart (g.pending.length + 9) g (List.replicate maxLen 0) 0 with
          | ub r' => obtain ⟨x, f'⟩ := x; exact False.elim
          | ok y =>
            obtain ⟨x, f'⟩ := x
            obtain ⟨y, g'⟩ := y
            rintro ⟨rfl, h1, h2, h3⟩
            cases x with
            | none => exact ⟨rfl, h1, h2, h3⟩
            | some buf => exact readBlocks_same _ _ _ _ _ _ h1 h2 h3

/-! ## Frames are received -/

theorem plain_cons {bs body : List UInt8} (h : bs.length = 4) : Plain (bs ++ body) ↔ bs ≠ escape ∧ Plain body := by
  constructor
  · rintro ⟨h1, h2⟩
    refine ⟨?_, by simp at h1; omega, ?_⟩
    · have := h2 0 (by simp; omega)
      rw [Nat.mul_zero, List.drop_zero, List.take_append_of_le_length (by omega), List.take_of_length_le (by omega)] at this
      exact this
    · intro i hi
      have := h2 (i + 1) (by simp; omega)
      rw [show 4 * (i + 1) = bs.length + 4 * i by omega, ← List.drop_drop, List.drop_left] at this
      exact this
  · rintro ⟨h1, h2, h3⟩
    refine ⟨by simp; omega, ?_⟩
    intro i hi
    cases i with
    | zero =>
      rw [Nat.mul_zero, List.drop_zero, List.take_append_of_le_length (by omega), List.take_of_length_le (by omega)]
      exact h1
    | succ i =>
      rw [show 4 * (i + 1) = bs.length + 4 * i by omega, ← List.drop_drop, List.drop_left]
      exact h3 i (by simp at hi; omega)

theorem plain_nil : Plain [] := ⟨rfl, by intro i hi; simp at hi⟩

theorem smlRead_take {fd : Fd} {a l : List UInt8} (h : NoFail fd) (hp : fd.pending = a ++ l) :
    ∃ fd', NoFail fd' ∧ fd'.pending = l ∧ smlRead fd a.length = ⟨some a, fd'⟩ := by
  obtain ⟨s, h1, h2⟩ := smlRead_noFail a.length h
  rw [hp] at h2
  refine ⟨⟨l, s⟩, h1, rfl, ?_⟩
  rw [h2, if_pos (by simp)]
  simp

theorem split4 {l : List UInt8} (h : l.length % 4 = 0) (hne : l ≠ []) : ∃ bs l', l = bs ++ l' ∧ bs.length = 4 ∧ l'.length % 4 = 0 := by
  have : 4 ≤ l.length := by
    have : 0 < l.length := List.length_pos_iff.2 hne
    omega
  exact ⟨l.take 4, l.drop 4, by simp, by simp; omega, by simp; omega⟩

/-- Reading one block that is not the escape sequence. -/
theorem readBlocks_block {maxLen fuel n : Nat} {fd : Fd} {buf bs l : List UInt8} (hnf : NoFail fd) (hp : fd.pending = bs ++ l) (hbs : bs.length = 4)
    (hesc : bs ≠ escape) (hlt : n + 8 < maxLen) (hb : buf.length = maxLen) :
    ∃ fd' buf', NoFail fd' ∧ fd'.pending = l ∧ buf'.length = maxLen ∧ buf'.take (n + 4) = buf.take n ++ bs ∧
      readBlocks maxLen (fuel + 1) fd buf n = readBlocks maxLen fuel fd' buf' (n + 4) := by
  obtain ⟨fd', h1, h2, h3⟩ := smlRead_take hnf hp
  rw [hbs] at h3
  have hfit : n + bs.length ≤ buf.length := by omega
  refine ⟨fd', buf.take n ++ bs ++ buf.drop (n + bs.length), h1, h2, by rw [stored_length hfit, hb], by rw [← hbs]; exact stored_take hfit, ?_⟩
  have hload := stored_load hfit
  conv => lhs; unfold readBlocks
  rw [if_pos hlt, h3]
  simp only [storeAt_ok hfit, TRes.bind]
  rw [← hbs, hload]
  simp only
  rw [if_neg (show ¬ bs = escSeq from hesc)]

/-- A payload without escape sequences is stored. -/
theorem readBlocks_plain {maxLen : Nat} (k : Nat) : ∀ {fuel n : Nat} {fd : Fd} {buf body l : List UInt8}, body.length = 4 * k → k ≤ fuel →
    NoFail fd → fd.pending = body ++ l → Plain body → n + body.length + 4 < maxLen → buf.length = maxLen →
    ∃ fd' buf', NoFail fd' ∧ fd'.pending = l ∧ buf'.length = maxLen ∧ buf'.take (n + body.length) = buf.take n ++ body ∧
      readBlocks maxLen fuel fd buf n = readBlocks maxLen (fuel - k) fd' buf' (n + body.length) := by
  induction k with
  | zero =>
    intro fuel n fd buf body l hk _ hnf hp _ _ hb
    have : body = [] := List.length_eq_zero_iff.1 (by omega)
    subst this
    exact ⟨fd, buf, hnf, by simpa using hp, hb, by simp, by simp⟩
  | succ k ih =>
    intro fuel n fd buf body l hk hf hnf hp hpl hlt hb
    obtain ⟨fuel, rfl⟩ : ∃ m, fuel = m + 1 := ⟨fuel - 1, by omega⟩
    obtain ⟨bs, body', rfl, hbs, _⟩ := split4 (l := body) (by omega) (by rintro rfl; simp at hk)
    rw [plain_cons hbs] at hpl
    rw [List.append_assoc] at hp
    rw [List.length_append] at hk hlt
    obtain ⟨fd1, buf1, h1, h2, h3, h4, h5⟩ := readBlocks_block (fuel := fuel) (n := n) hnf hp hbs hpl.1 (by omega) hb
    obtain ⟨fd2, buf2, g1, g2, g3, g4, g5⟩ := ih (fuel := fuel) (n := n + 4) (fd := fd1) (buf := buf1) (body := body') (l := l) (by omega) (by omega) h1 h2 hpl.2 (by omega) h3
    refine ⟨fd2, buf2, g1, g2, g3, ?_, ?_⟩
    · rw [List.length_append, hbs, ← Nat.add_assoc, g4, h4, List.append_assoc]
    · rw [h5, g5, List.length_append, hbs]
      congr 1 <;> omega

/-- The end of a frame. -/
theorem readBlocks_end {maxLen fuel n : Nat} {fd : Fd} {buf l : List UInt8} {c x y z : UInt8} (hnf : NoFail fd) (hp : fd.pending = escape ++ [c, x, y, z] ++ l)
    (hlt : n + 8 < maxLen) (hb : buf.length = maxLen) :
    ∃ fd', NoFail fd' ∧ fd'.pending = l ∧ readBlocks maxLen (fuel + 1) fd buf n = .ok (if c = 0x1a then buf.take n ++ escape ++ [c, x, y, z] else [], fd') := by
  rw [List.append_assoc] at hp
  obtain ⟨fd1, h1, h2, h3⟩ := smlRead_take hnf hp
  obtain ⟨fd2, g1, g2, g3⟩ := smlRead_take h1 h2
  have hel : escape.length = 4 := by simp [escape]
  rw [hel] at h3
  have hfit : n + escape.length ≤ buf.length := by omega
  have hload := stored_load hfit
  have hst := stored_take hfit
  have hsl := stored_length hfit
  refine ⟨fd2, g1, g2, ?_⟩
  unfold readBlocks
  rw [if_pos hlt, h3]
  simp only [storeAt_ok hfit, TRes.bind]
  rw [← hel, hload]
  simp only
  rw [if_pos (show escape = escSeq from rfl)]
  have g3' : smlRead fd1 escape.length = ⟨some [c, x, y, z], fd2⟩ := by rw [hel]; exact g3
  rw [g3']
  have hfit2 : n + escape.length + [c, x, y, z].length ≤ (buf.take n ++ escape ++ buf.drop (n + escape.length)).length := by rw [hsl]; simp; omega
  simp only [storeAt_ok hfit2, stored_get hfit2]
  by_cases hc : c = 0x1a
  · rw [if_pos hc, if_pos hc]
    have hlb : loadBytes ((buf.take n ++ escape ++ buf.drop (n + escape.length)).take (n + escape.length) ++ [c, x, y, z] ++ (buf.take n ++ escape ++ buf.drop (n + escape.length)).drop (n + escape.length + [c, x, y, z].length)) 0 (n + escape.length + escape.length) =
        .ok (buf.take n ++ escape ++ [c, x, y, z]) := by
      unfold loadBytes
      rw [if_pos (by rw [stored_length hfit2, hsl]; omega), List.drop_zero]
      exact congrArg TRes.ok ((stored_take hfit2).trans (by rw [hst]))
    rw [hlb]
    simp only
    rw [if_pos (by omega)]
  · rw [if_neg hc, if_neg hc]

/-- A payload that is too long. -/
theorem readBlocks_long {maxLen : Nat} (fuel : Nat) : ∀ {n : Nat} {fd : Fd} {buf body l : List UInt8}, 0 < fuel → maxLen < 4 * fuel + n →
    NoFail fd → fd.pending = body ++ l → Plain body → maxLen ≤ n + body.length + 8 → buf.length = maxLen →
    ∃ fd', readBlocks maxLen fuel fd buf n = .ok ([], fd') := by
  induction fuel with
  | zero => intro n fd buf body l h; omega
  | succ fuel ih =>
    intro n fd buf body l _ hf hnf hp hpl hle hb
    by_cases hlt : n + 8 < maxLen
    · obtain ⟨bs, body', rfl, hbs, _⟩ := split4 (l := body) hpl.1 (by rintro rfl; simp at hle; omega)
      rw [plain_cons hbs] at hpl
      rw [List.append_assoc] at hp
      rw [List.length_append] at hle
      obtain ⟨fd1, buf1, h1, h2, h3, h4, h5⟩ := readBlocks_block (fuel := fuel) hnf hp hbs hpl.1 hlt hb
      rw [h5]
      exact ih (by omega) (by omega) h1 h2 hpl.2 (by omega) h3
    · unfold readBlocks
      rw [if_neg hlt]
      exact ⟨fd, rfl⟩

/-! ## The matcher -/

theorem matchStart_seen (n : Nat) : ∀ (noise l : List UInt8), n ≤ 8 →
    (∀ p, p <+: noise → (p.foldl progress n) < 8) → matchStart n (noise ++ l) = matchStart (noise.foldl progress n) l := by
  intro noise
  induction noise generalizing n with
  | nil => intro l _ _; rfl
  | cons b noise ih =>
    intro l hn h
    have h0 := h [] (by simp)
    simp only [List.foldl_nil] at h0
    conv => lhs; unfold matchStart
    rw [if_neg (by omega)]
    simp only [List.cons_append, List.foldl_cons]
    refine ih (progress n b) l ?_ ?_
    · unfold progress; split <;> omega
    · intro p hp
      have := h (b :: p) (by simpa using hp)
      simpa using this

theorem progress_le (n : Nat) (b : UInt8) : progress n b ≤ 8 := by
  unfold progress
  split
  · next h =>
    have := List.getElem?_eq_some_iff.1 h
    obtain ⟨h, _⟩ := this
    rw [frameStart_length] at h
    omega
  · omega

theorem seen_append (a : List UInt8) (b : UInt8) : seen (a ++ [b]) = progress (seen a) b := by
  simp [seen]

/-- Believing to have seen something means to have seen it. -/
theorem seen_suffix (n : Nat) : ∀ noise : List UInt8, noise.length = n → seen noise ≤ 8 ∧ ∃ a, noise = a ++ frameStart.take (seen noise) := by
  induction n with
  | zero =>
    intro noise h
    have : noise = [] := List.length_eq_zero_iff.1 h
    subst this
    exact ⟨by simp [seen], [], by simp [seen]⟩
  | succ n ih =>
    intro noise h
    have hne : noise ≠ [] := by rintro rfl; simp at h
    obtain ⟨l, b, rfl⟩ : ∃ l b, noise = l ++ [b] := ⟨noise.dropLast, noise.getLast hne, (List.dropLast_concat_getLast hne).symm⟩
    obtain ⟨_, a, ha⟩ := ih l (by simpa using h)
    rw [seen_append]
    refine ⟨progress_le _ _, ?_⟩
    unfold progress
    split
    · next hb =>
      refine ⟨a, ?_⟩
      rw [List.take_add_one, hb, ← List.append_assoc, ← ha]
      rfl
    · exact ⟨l ++ [b], by simp⟩

/-- Without the start sequence the search does not end. -/
theorem seen_lt {noise : List UInt8} (h : ¬ Occurs frameStart noise) : ∀ p, p <+: noise → seen p < 8 := by
  intro p hp
  obtain ⟨h1, a, ha⟩ := seen_suffix p.length p rfl
  refine Nat.lt_of_le_of_ne h1 fun h8 => h ?_
  obtain ⟨t, rfl⟩ := hp
  refine ⟨a, t, ?_⟩
  rw [h8, ← frameStart_length, List.take_length] at ha
  rw [ha]

theorem matchStart_noise {noise : List UInt8} (h : ¬ Occurs frameStart noise) (l : List UInt8) : matchStart 0 (noise ++ l) = matchStart (seen noise) l :=
  matchStart_seen 0 noise l (by decide) (seen_lt h)

/-- From the initial state the start sequence is found, from the others it is missed. -/
theorem matchStart_start (n : Nat) (h : n < 8) (l : List UInt8) : matchStart n (frameStart ++ l) = if n = 0 then some l else matchStart 0 l := by
  have : n = 0 ∨ n = 1 ∨ n = 2 ∨ n = 3 ∨ n = 4 ∨ n = 5 ∨ n = 6 ∨ n = 7 := by omega
  rcases this with rfl | rfl | rfl | rfl | rfl | rfl | rfl | rfl
  · simp [matchStart, progress, frameStart, escape, List.replicate]
    cases l <;> simp [matchStart]
  all_goals
    simp [matchStart, progress, frameStart, escape, List.replicate]

theorem matchStart_none {noise : List UInt8} (h : ¬ Occurs frameStart noise) : matchStart 0 noise = none := by
  have := matchStart_noise h []
  rw [List.append_nil] at this
  rw [this]
  unfold matchStart
  rw [if_neg (by have := seen_lt h noise (List.prefix_refl _); omega)]

theorem matchStart_shorter (n : Nat) : ∀ l r : List UInt8, matchStart n l = some r → r.length ≤ l.length := by
  intro l
  induction l generalizing n with
  | nil =>
    intro r h
    unfold matchStart at h
    split at h
    · cases h; simp
    · cases h
  | cons b l ih =>
    intro r h
    unfold matchStart at h
    split at h
    · cases h; simp
    · have := ih _ _ h
      simp; omega

/-! ## One frame -/

/-- The outcome of a read, in terms of the matcher and of the blocks. -/
theorem transportRead_run {fd : Fd} {maxLen : Nat} (h0 : 8 ≤ maxLen) (h1 : maxLen < 4294967288) :
    ∃ r, findStart (fd.pending.length + 9) fd (List.replicate maxLen 0) 0 = .ok r ∧
      (∀ buf, r.1 = some buf → buf.take 8 = frameStart ∧ buf.length = maxLen ∧ matchStart 0 fd.pending = some r.2.pending ∧
        transportRead fd maxLen = readBlocks maxLen maxLen r.2 buf 8) ∧
      (NoFail fd → NoFail r.2 ∧ (r.1 = none → matchStart 0 fd.pending = none ∧ r.2.pending = [])) ∧
      (r.1 = none → transportRead fd maxLen = .ok ([], r.2)) := by
  obtain ⟨r, hr, hs, hn⟩ := findStart_run (fd.pending.length + 9) fd (List.replicate maxLen 0) 0 (by omega) (by omega) (by simpa using h0) (by simp)
  refine ⟨r, hr, fun buf hb => ?_, hn, fun hnone => ?_⟩
  · obtain ⟨g1, g2, g3⟩ := hs buf hb
    refine ⟨g1, by simpa using g2, g3, ?_⟩
    obtain ⟨o, f⟩ := r
    simp only at hb
    subst hb
    unfold transportRead
    rw [if_neg (by omega), if_neg (by omega)]
    dsimp only
    rw [if_neg (by omega), hr]
    rfl
  · obtain ⟨o, f⟩ := r
    simp only at hnone
    subst hnone
    unfold transportRead
    rw [if_neg (by omega), if_neg (by omega)]
    dsimp only
    rw [if_neg (by omega), hr]
    rfl

/-- When the start sequence is found. -/
theorem transportRead_found {fd : Fd} {maxLen : Nat} (h0 : 8 ≤ maxLen) (h1 : maxLen < 4294967288) (hnf : NoFail fd) {l : List UInt8}
    (hm : matchStart 0 fd.pending = some l) : ∃ fd' buf, NoFail fd' ∧ fd'.pending = l ∧ buf.take 8 = frameStart ∧ buf.length = maxLen ∧
      transportRead fd maxLen = readBlocks maxLen maxLen fd' buf 8 := by
  obtain ⟨⟨o, fd'⟩, hr, hs, hn, _⟩ := transportRead_run (fd := fd) h0 h1
  cases o with
  | none =>
    have := ((hn hnf).2 rfl).1
    rw [hm] at this
    cases this
  | some buf =>
    obtain ⟨g1, g2, g3, g4⟩ := hs buf rfl
    rw [hm] at g3
    exact ⟨fd', buf, (hn hnf).1, (Option.some.inj g3).symm, g1, g2, g4⟩

/-- When it is not. -/
theorem transportRead_nothing {fd : Fd} {maxLen : Nat} (h0 : 8 ≤ maxLen) (h1 : maxLen < 4294967288) (hnf : NoFail fd) (hm : matchStart 0 fd.pending = none) :
    ∃ fd', NoFail fd' ∧ fd'.pending = [] ∧ transportRead fd maxLen = .ok ([], fd') := by
  obtain ⟨⟨o, fd'⟩, hr, hs, hn, hnone⟩ := transportRead_run (fd := fd) h0 h1
  cases o with
  | none => exact ⟨fd', (hn hnf).1, ((hn hnf).2 rfl).2, hnone rfl⟩
  | some buf =>
    obtain ⟨_, _, g3, _⟩ := hs buf rfl
    rw [hm] at g3
    cases g3

/-- A frame right after the start sequence. -/
theorem transportRead_frame {fd : Fd} {maxLen : Nat} (h1 : maxLen < 4294967288) (hnf : NoFail fd) {body l : List UInt8} {c x y z : UInt8}
    (hm : matchStart 0 fd.pending = some (body ++ escape ++ [c, x, y, z] ++ l)) (hpl : Plain body) (hlen : 8 + body.length + 8 < maxLen) :
    ∃ fd', NoFail fd' ∧ fd'.pending = l ∧ transportRead fd maxLen = .ok (if c = 0x1a then frameStart ++ body ++ escape ++ [c, x, y, z] else [], fd') := by
  obtain ⟨fd1, buf, a1, a2, a3, a4, a5⟩ := transportRead_found (by omega) h1 hnf hm
  have hk : body.length = 4 * (body.length / 4) := by have := hpl.1; omega
  obtain ⟨fd2, buf2, b1, b2, b3, b4, b5⟩ := readBlocks_plain (maxLen := maxLen) (body.length / 4) (fuel := maxLen) (n := 8) (body := body) (l := escape ++ [c, x, y, z] ++ l)
    hk (by omega) a1 (by rw [a2]; simp) hpl (by omega) a4
  obtain ⟨fuel, hfuel⟩ : ∃ m, maxLen - body.length / 4 = m + 1 := ⟨maxLen - body.length / 4 - 1, by omega⟩
  rw [hfuel] at b5
  obtain ⟨fd3, c1, c2, c3⟩ := readBlocks_end (fuel := fuel) (n := 8 + body.length) (x := x) (y := y) (z := z) (c := c) b1 b2 hlen b3
  refine ⟨fd3, c1, c2, ?_⟩
  rw [a5, b5, c3, b4, a3]

theorem frame_append (body : List UInt8) (x y z : UInt8) (l : List UInt8) : frame body x y z ++ l = frameStart ++ (body ++ escape ++ [0x1a, x, y, z] ++ l) := by
  simp [frame]

/-- A payload that is too long. -/
theorem transportRead_long {fd : Fd} {maxLen : Nat} (h0 : 8 ≤ maxLen) (h1 : maxLen < 4294967288) (hnf : NoFail fd) {body l : List UInt8}
    (hm : matchStart 0 fd.pending = some (body ++ l)) (hpl : Plain body) (hlen : maxLen ≤ 8 + body.length + 8) :
    ∃ fd', transportRead fd maxLen = .ok ([], fd') := by
  obtain ⟨fd1, buf, a1, a2, a3, a4, a5⟩ := transportRead_found h0 h1 hnf hm
  rw [a5]
  exact readBlocks_long maxLen (by omega) (by omega) a1 a2 hpl hlen a4

end Sml
