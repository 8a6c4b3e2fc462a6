import Verif.Model.Select
import Verif.Props.Ids
import Verif.Props.Transport

/-!
# Waiting with `select`: C64
-/

namespace Sml

open Spec

/-- What the model of the transport layer knows of a descriptor. -/
def SFd.plain (s : SFd) : Fd := ⟨s.pending, s.turns.map Turn.ev⟩

/-- The set that holds `d` alone. -/
def only (d : Nat) : List Bool := fdZero.set d true

theorem only_length (d : Nat) : (only d).length = 1024 := by rw [only, List.length_set, fdZero, List.length_replicate]

theorem only_get (d : Nat) (h : d < 1024) (i : Nat) (hi : i < 1024) : (only d)[i]? = some (decide (i = d)) := by
  have hz : fdZero[i]? = some false := by rw [fdZero, List.getElem?_replicate, if_pos hi]
  rw [only, List.getElem?_set]
  by_cases e : d = i
  · subst e
    rw [if_pos rfl, if_pos (by rw [fdZero, List.length_replicate]; exact h)]
    simp
  · rw [if_neg e, hz]
    simp [Ne.symm e]

theorem selected_only (d : Nat) (h : d < 1024) (r : Nat → Bool) : selected (d + 1) r (only d) = if r d then only d else fdZero := by
  apply List.ext_getElem?
  intro i
  rw [selected, List.getElem?_mapIdx]
  by_cases hi : i < 1024
  · rw [only_get d h i hi]
    by_cases hr : r d = true
    · rw [if_pos hr, only_get d h i hi]
      by_cases e : i = d
      · subst e; simp [hr]
      · simp [e]
    · rw [if_neg hr, fdZero, List.getElem?_replicate, if_pos hi]
      by_cases e : i = d
      · subst e; simp [hr]
      · simp [e]
  · rw [List.getElem?_eq_none (by rw [only_length]; omega)]
    split
    · rw [List.getElem?_eq_none (by rw [only_length]; omega)]; rfl
    · rw [List.getElem?_eq_none (by rw [fdZero, List.length_replicate]; omega)]; rfl

theorem only_any (d : Nat) (h : d < 1024) : ((only d).take (d + 1)).any id = true := by
  rw [List.any_eq_true]
  refine ⟨true, List.mem_iff_getElem?.2 ⟨d, ?_⟩, rfl⟩
  rw [List.getElem?_take, if_pos (by omega), only_get d h d h]
  simp

theorem fdZero_any (n : Nat) : (fdZero.take n).any id = false := by
  rw [List.any_eq_false]
  intro x hx
  have := List.mem_of_mem_take hx
  rw [fdZero, List.mem_replicate] at this
  rw [this.2]; simp

/-- Waiting for one descriptor ends with this descriptor in the set, whatever happens. -/
theorem select_only (d : Nat) (h : d < 1024) : ∀ ms : List Moment, select (d + 1) (only d) ms = some (only d)
  | [] => by rw [select, if_pos (only_any d h)]
  | .failed :: _ => rfl
  | .ready r :: ms => by
    rw [select, selected_only d h]
    by_cases hr : r d = true
    · simp only [if_pos hr, only_any d h, if_true]
    · simp only [if_neg hr, fdZero_any, Bool.false_eq_true, if_false]
      exact select_only d h ms

theorem fdIsSet_only (d : Nat) (h : d < 1024) : fdIsSet d (only d) = .ok true := by
  rw [fdIsSet, only_get d h d h]
  simp

/-- The outcome with the plain descriptor. -/
def TRes.map (f : α → β) : TRes α → TRes β
  | .ok a => .ok (f a)
  | .ub r => .ub r

theorem smlReadLoopS_run (d : Nat) (h : d < 1024) : ∀ (ts : List Turn) (pending : List UInt8) (need : Nat) (acc : List UInt8),
    ∃ s, smlReadLoopS d ts (only d) pending need acc = .ok ⟨(smlReadLoop (ts.map Turn.ev) pending need acc).got, s, only d⟩ ∧
      s.plain = (smlReadLoop (ts.map Turn.ev) pending need acc).fd
  | [], pending, need, acc => by
    rw [smlReadLoopS, select_only d h, List.map_nil, smlReadLoop]
    simp only [fdIsSet_only d h, TRes.bind, if_true]
    split
    · exact ⟨_, rfl, rfl⟩
    · split
      · exact ⟨_, rfl, rfl⟩
      · exact ⟨_, rfl, rfl⟩
  | t :: ts, pending, need, acc => by
    rw [smlReadLoopS, select_only d h, List.map_cons]
    unfold smlReadLoop
    simp only [fdIsSet_only d h, TRes.bind, if_true]
    split
    · exact ⟨_, rfl, rfl⟩
    · cases t.ev with
      | intr => exact smlReadLoopS_run d h ts pending need acc
      | fail => exact ⟨_, rfl, rfl⟩
      | give k =>
        simp only
        split
        · exact ⟨_, rfl, rfl⟩
        · exact smlReadLoopS_run d h ts _ _ _

theorem smlReadS_run (d : Nat) (h : d < 1024) (fd : SFd) (len : Nat) :
    ∃ s, smlReadS d (only d) fd len = .ok ⟨(smlRead fd.plain len).got, s, only d⟩ ∧ s.plain = (smlRead fd.plain len).fd :=
  smlReadLoopS_run d h fd.turns fd.pending len []

theorem TRes.map_bind (m : TRes α) (f : α → TRes β) (g : β → γ) : (m.bind f).map g = m.bind fun a => (f a).map g := by
  cases m <;> rfl

theorem TRes.bind_congr {m : TRes α} {f g : α → TRes β} (h : ∀ a, f a = g a) : m.bind f = m.bind g := by
  cases m with
  | ok a => exact h a
  | ub r => rfl

theorem findStartS_run (d : Nat) (h : d < 1024) : ∀ (fuel : Nat) (fd : SFd) (buf : List UInt8) (len : Nat),
    (∃ r, findStart fuel fd.plain buf len = .ub r ∧ findStartS d fuel (only d) fd buf len = .ub r) ∨
    ∃ o s, findStartS d fuel (only d) fd buf len = .ok (o, s, only d) ∧ findStart fuel fd.plain buf len = .ok (o, s.plain)
  | 0, _, _, _ => Or.inl ⟨_, rfl, rfl⟩
  | fuel + 1, fd, buf, len => by
    rw [findStart, findStartS]
    split
    · obtain ⟨s, e, hp⟩ := smlReadS_run d h fd 1
      simp only [e, TRes.bind]
      cases hg : (smlRead fd.plain 1).got with
      | none => exact Or.inr ⟨none, s, rfl, by rw [hp]⟩
      | some bs =>
        simp only [← hp]
        cases hs : storeAt buf len bs with
        | ub r => exact Or.inl ⟨r, rfl, rfl⟩
        | ok buf' =>
          simp only
          cases hl : loadAt buf' len with
          | ub r => exact Or.inl ⟨r, rfl, rfl⟩
          | ok b => exact findStartS_run d h fuel s buf' _
    · exact Or.inr ⟨some buf, fd, rfl, rfl⟩

theorem TRes.ok_bind (a : α) (f : α → TRes β) : (TRes.ok a).bind f = f a := rfl

theorem readBlocksS_run (d : Nat) (h : d < 1024) (maxLen : Nat) : ∀ (fuel : Nat) (fd : SFd) (buf : List UInt8) (len : Nat),
    (readBlocksS d maxLen fuel (only d) fd buf len).map (fun p => (p.1, p.2.plain)) = readBlocks maxLen fuel fd.plain buf len
  | 0, _, _, _ => rfl
  | fuel + 1, fd, buf, len => by
    rw [readBlocks, readBlocksS]
    split
    · obtain ⟨s, e, hp⟩ := smlReadS_run d h fd 4
      rw [e, TRes.ok_bind]
      simp only
      cases hg : (smlRead fd.plain 4).got with
      | none => simp only [TRes.map, hp]
      | some bs =>
        simp only [TRes.map_bind, ← hp]
        refine TRes.bind_congr fun buf' => ?_
        refine TRes.bind_congr fun four => ?_
        split
        · obtain ⟨s2, e2, hp2⟩ := smlReadS_run d h s 4
          rw [e2, TRes.ok_bind]
          simp only
          cases hg2 : (smlRead s.plain 4).got with
          | none => simp only [TRes.map, hp2]
          | some bs2 =>
            simp only [TRes.map_bind, ← hp2]
            refine TRes.bind_congr fun buf2 => ?_
            refine TRes.bind_congr fun b => ?_
            split
            · simp only [TRes.map_bind]
              refine TRes.bind_congr fun out => ?_
              split <;> rfl
            · rfl
        · exact readBlocksS_run d h maxLen fuel s buf' (len + 4)
    · rfl

theorem fdSet_zero (d : Int) : fdSet d fdZero = if 0 ≤ d ∧ d < 1024 then .ok (only d.toNat) else .ub .oobWrite := by
  rw [fdSet, fdZero, List.length_replicate]
  by_cases h : 0 ≤ d ∧ d < 1024
  · rw [if_pos h, if_pos (by omega)]; rfl
  · rw [if_neg h, if_neg (by omega)]

/-- C64: on a descriptor below 1024, waiting changes nothing: whatever signals arrive and however late a descriptor becomes ready, a frame is
read as by C35-C37. The loop around `select` neither hangs nor spins: the set never loses the descriptor. -/
theorem c64_waiting (d : Int) (h0 : 0 ≤ d) (h : d < 1024) (fd : SFd) (maxLen : Nat) :
    (transportReadS d fd maxLen).map (fun p => (p.1, p.2.plain)) = transportRead fd.plain maxLen := by
  have hd : d.toNat < 1024 := by omega
  rw [transportReadS, transportRead, fdSet_zero, if_pos ⟨h0, h⟩]
  simp only [TRes.bind]
  split
  · rfl
  · split
    · rfl
    · split
      · rfl
      · rcases findStartS_run d.toNat hd (fd.pending.length + 9) fd (List.replicate maxLen 0) 0 with ⟨r, e1, e2⟩ | ⟨o, s, e1, e2⟩
        · rw [e2]
          simp only [SFd.plain] at e1 ⊢
          rw [e1]
          rfl
        · rw [e1]
          have e2' : findStart (fd.plain.pending.length + 9) fd.plain (List.replicate maxLen 0) 0 = .ok (o, s.plain) := e2
          rw [e2']
          cases o with
          | none => rfl
          | some buf => exact readBlocksS_run d.toNat hd maxLen maxLen s buf 8

/-- C64: the frames delivered by listening are those of C38. -/
theorem c64_listen (d : Int) (h0 : 0 ≤ d) (h : d < 1024) : ∀ (fuel : Nat) (fd : SFd), transportListenS d fuel fd = transportListen fuel fd.plain
  | 0, _ => rfl
  | fuel + 1, fd => by
    have e := c64_waiting d h0 h fd 8096
    rw [transportListenS, transportListen, ← e]
    cases transportReadS d fd 8096 with
    | ub r => rfl
    | ok p =>
      obtain ⟨frame, s⟩ := p
      simp only [TRes.bind, TRes.map]
      split
      · rw [c64_listen d h0 h fuel s]
      · rfl

/-- C64 (false of the code for others): listening on any other descriptor writes outside the set. -/
theorem c64_limit (d : Int) (fd : SFd) (fuel : Nat) (hfuel : fd.pending.length < fuel) :
    (∃ frames, transportListenS d fuel fd = .ok frames) ↔ 0 ≤ d ∧ d < 1024 := by
  constructor
  · rintro ⟨frames, e⟩
    obtain ⟨fuel, rfl⟩ : ∃ k, fuel = k + 1 := ⟨fuel - 1, by omega⟩
    by_cases h : 0 ≤ d ∧ d < 1024
    · exact h
    · rw [transportListenS, transportReadS, fdSet_zero, if_neg h] at e
      cases e
  · rintro ⟨h0, h⟩
    rw [c64_listen d h0 h]
    obtain ⟨frames, e, _⟩ := c38_any fuel fd.plain hfuel
    exact ⟨frames, e⟩

/-- A process that has the first `k` descriptors open gets number `k` next. -/
theorem openFile_next (f : Files) (k : Nat) (hk : ∀ x, x ∈ f.used ↔ x < k) (hl : k < f.limit) :
    f.openFile true = (some k, { f with used := k :: f.used }) := by
  have e : (List.range f.limit).find? (fun n => !f.used.contains n) = some k := by
    rw [List.find?_range_eq_some]
    refine ⟨by simp [hk], List.mem_range.2 hl, fun j hj => by simp [hk, hj]⟩
  rw [Files.openFile]
  simp only [if_true, e]

theorem makeMessages_used {as : List Around} : ∀ {f : Files} {k : Nat} {st st' : St} {ms : List Message} {f' : Files},
    (∀ x, x ∈ f.used ↔ x < k) → k + as.length ≤ f.limit → makeMessages true as f st = .ok (ms, f') st' →
    (∀ x, x ∈ f'.used ↔ x < k + as.length) ∧ f'.limit = f.limit := by
  induction as with
  | nil =>
    intro f k st st' ms f' hk _ e
    cases e
    exact ⟨hk, rfl⟩
  | cons a as ih =>
    intro f k st st' ms f' hk hl e
    rw [List.length_cons] at hl ⊢
    obtain ⟨⟨m, f1⟩, s1, e1, e⟩ := M.bind_eq_ok e
    obtain ⟨⟨ms1, f2⟩, s2, e2, e⟩ := M.bind_eq_ok e
    cases e
    obtain ⟨_, s3, _, e1⟩ := M.bind_eq_ok e1
    obtain ⟨⟨str, f3⟩, s4, e3, e1⟩ := M.bind_eq_ok e1
    cases e1
    rw [generateUuidLinux, openFile_next f k hk (by omega)] at e3
    obtain ⟨_, s5, _, e3⟩ := M.bind_eq_ok e3
    cases e3
    obtain ⟨h1, h2⟩ := ih (k := k + 1) (fun x => by simp only [List.mem_cons, hk]; omega) (by simpa using (by omega : k + 1 + as.length ≤ f.limit)) e2
    exact ⟨fun x => by rw [h1]; omega, h2⟩

/-- C64: a process with a higher limit that made `n` messages (C63) before it opens its port with `k` descriptors in use can listen
exactly if `k + n` is below 1024. -/
theorem c64_leaked (f : Files) (k : Nat) (hk : ∀ x, x ∈ f.used ↔ x < k) (as : List Around) (hl : k + as.length < f.limit) (st st' : St)
    (ms : List Message) (f' : Files) (e : makeMessages true as f st = .ok (ms, f') st') (fd : SFd) (fuel : Nat) (hfuel : fd.pending.length < fuel) :
    ∃ (port : Nat) (f2 : Files), f'.openFile true = (some port, f2) ∧
      ((∃ frames, transportListenS port fuel fd = .ok frames) ↔ k + as.length < 1024) := by
  obtain ⟨h1, h2⟩ := makeMessages_used hk (by omega) e
  refine ⟨_, _, openFile_next f' (k + as.length) h1 (by rw [h2]; exact hl), ?_⟩
  rw [c64_limit _ _ _ hfuel]
  omega

/-- A signal, another descriptor, then the byte; the set is the same again. -/
example : select 4 (only 3) [.ready fun i => i == 0, .ready fun i => i == 3] = some (only 3) ∧ select 4 (only 3) [.failed] = some (only 3) ∧
    select 4 fdZero [.ready fun _ => true] = none := by
  refine ⟨select_only 3 (by decide) _, rfl, ?_⟩
  decide +kernel

/-- A frame that arrives in three portions with a signal in between. -/
example : (transportListenS 3 30 { pending := frameStart ++ [0x76, 0x05, 0x01, 0x02] ++ [0x1b, 0x1b, 0x1b, 0x1b, 0x1a, 0x00, 0x12, 0x34], turns :=
      [⟨[.ready fun i => i == 3], .give 4⟩, ⟨[.failed], .intr⟩, ⟨[.ready fun _ => false, .ready fun _ => true], .give 0⟩] }) =
    .ok [frameStart ++ [0x76, 0x05, 0x01, 0x02] ++ [0x1b, 0x1b, 0x1b, 0x1b, 0x1a, 0x00, 0x12, 0x34]] := by
  rw [c64_listen 3 (by decide) (by decide)]
  decide +kernel

example : (∀ x, x ∈ (⟨4096, [0, 1, 2]⟩ : Files).used ↔ x < 3) ∧ 3 + (List.replicate 1021 (⟨List.replicate 16 1, List.replicate 16 2⟩ : Around)).length < 4096 :=
  ⟨fun x => by simp; omega, by rw [List.length_replicate]; decide⟩

end Sml
