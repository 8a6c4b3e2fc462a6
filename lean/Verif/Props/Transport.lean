import Verif.Proofs.Frame
import Verif.Props.RoundTrip

/-!
# Transport layer: C35 to C41
-/

namespace Sml

open Spec

/-! ## C35 -/

theorem matchStart_split (n : Nat) : ∀ l r : List UInt8, n ≤ 8 → matchStart n l = some r → ∃ pre, frameStart.take n ++ l = pre ++ frameStart ++ r := by
  intro l
  induction l generalizing n with
  | nil =>
    intro r hn h
    unfold matchStart at h
    split at h
    · next h8 =>
      cases h
      have : n = 8 := by omega
      subst this
      exact ⟨[], by rw [← frameStart_length, List.take_length]; simp⟩
    · cases h
  | cons b l ih =>
    intro r hn h
    unfold matchStart at h
    split at h
    · next h8 =>
      cases h
      have : n = 8 := by omega
      subst this
      exact ⟨[], by rw [← frameStart_length, List.take_length]; simp⟩
    · obtain ⟨pre, hp⟩ := ih _ _ (progress_le _ _) h
      rcases progress_fits (n := n) (b := b) rfl with ⟨h1, h2⟩ | h1
      · rw [h1, ← h2] at hp
        exact ⟨pre, by rw [← hp]; simp⟩
      · rw [h1] at hp
        refine ⟨frameStart.take n ++ [b] ++ pre, ?_⟩
        simp only [List.take_zero, List.nil_append] at hp
        simp [hp]

/-- C35: whatever arrives, however it arrives and whatever goes wrong, `sml_transport_read` has a defined
outcome, and what it delivers is a frame that was sent. -/
theorem c35_frame (fd : Fd) (maxLen : Nat) (h : 1 ≤ maxLen) (h' : maxLen < 4294967288) :
    ∃ out fd', transportRead fd maxLen = .ok (out, fd') ∧
      (out ≠ [] → 16 ≤ out.length ∧ out.length < maxLen ∧ out.length % 4 = 0 ∧
        ∃ pre body x y z, out = frame body x y z ∧ Plain body ∧ fd.pending = pre ++ out ++ fd'.pending) := by
  by_cases h8 : maxLen < 8
  · refine ⟨[], fd, ?_, fun h => absurd rfl h⟩
    unfold transportRead
    rw [if_neg (by omega), if_neg (by omega)]
    dsimp only
    rw [if_pos h8]
  obtain ⟨⟨o, fd1⟩, hr, hs, _, hn⟩ := transportRead_run (fd := fd) (maxLen := maxLen) (by omega) h'
  cases o with
  | none => exact ⟨[], fd1, hn rfl, fun h => absurd rfl h⟩
  | some buf =>
    obtain ⟨g1, g2, g3, g4⟩ := hs buf rfl
    obtain ⟨⟨out, fd2⟩, b1, b2⟩ := readBlocks_run maxLen maxLen fd1 buf 8 (by omega) (by omega) g2 (by omega)
    refine ⟨out, fd2, by rw [g4, b1], fun hne => ?_⟩
    obtain ⟨body, x, y, z, c1, c2, c3, c4⟩ := b2 hne
    rw [g1] at c1
    simp only at c1 c3 c4 g3
    have hlen : out.length = 16 + body.length := by rw [c1]; simp [frameStart_length, escape]; omega
    obtain ⟨pre, hp⟩ := matchStart_split 0 _ _ (by decide) g3
    refine ⟨by omega, by omega, by have := c2.1; omega, pre, body, x, y, z, c1, c2, ?_⟩
    simp only [List.take_zero, List.nil_append] at hp
    rw [hp, c3, c1]
    simp

/-- The mark 0x1a inside the payload, a truncated block, an interrupted read. -/
example : transportRead { pending := [0x55] ++ frame [0x76, 0x1a, 0x00, 0x00] 2 0x11 0x22 ++ [0x33], sched := [.intr, .give 0, .give 2, .intr] } 512 =
    .ok (frame [0x76, 0x1a, 0x00, 0x00] 2 0x11 0x22, { pending := [0x33], sched := [] }) ∧
    transportRead { pending := frame [1, 2, 3] 0 0 0 } 512 = .ok ([], { pending := [] }) := by decide +kernel

/-! ## C36 -/

/-- C36: if no read fails, the outcome depends on the bytes only. -/
theorem c36_chunks (f g : Fd) (h : f.pending = g.pending) (hf : ∀ e ∈ f.sched, e ≠ .fail) (hg : ∀ e ∈ g.sched, e ≠ .fail) (maxLen : Nat)
    (h0 : 1 ≤ maxLen) (h1 : maxLen < 4294967288) :
    ∃ out f' g', transportRead f maxLen = .ok (out, f') ∧ transportRead g maxLen = .ok (out, g') ∧ f'.pending = g'.pending ∧
      (∀ e ∈ f'.sched, e ≠ .fail) ∧ ∀ e ∈ g'.sched, e ≠ .fail := by
  have hs := transportRead_same h hf hg maxLen
  obtain ⟨out, f', e1, _⟩ := c35_frame f maxLen h0 h1
  obtain ⟨out2, g', e2, _⟩ := c35_frame g maxLen h0 h1
  rw [e1, e2] at hs
  obtain ⟨a, b, c, d⟩ := hs
  exact ⟨out, f', g', e1, by rw [e2, a], b, c, d⟩

example : ∃ out, transportRead { pending := frame [1, 2, 3, 4] 0 0 0, sched := [.give 0, .intr, .give 5, .give 1] } 64 = .ok (out, { pending := [], sched := [] }) ∧ out.length = 20 :=
  ⟨frame [1, 2, 3, 4] 0 0 0, by decide +kernel⟩

/-! ## C37 -/

theorem frame_length (body : List UInt8) (x y z : UInt8) : (frame body x y z).length = 16 + body.length := by
  simp [frame, frameStart_length, escape]; omega

theorem read_frame {fd : Fd} (hnf : ∀ e ∈ fd.sched, e ≠ .fail) {noise body rest : List UInt8} {x y z : UInt8} {maxLen : Nat} (hn : Harmless noise) (hp : Plain body)
    (hlen : (frame body x y z).length < maxLen) (h1 : maxLen < 4294967288) (hd : fd.pending = noise ++ frame body x y z ++ rest) :
    ∃ fd', transportRead fd maxLen = .ok (frame body x y z, fd') ∧ fd'.pending = rest ∧ ∀ e ∈ fd'.sched, e ≠ .fail := by
  rw [frame_length] at hlen
  have hm : matchStart 0 fd.pending = some (body ++ escape ++ [0x1a, x, y, z] ++ rest) := by
    rw [hd, List.append_assoc, matchStart_noise hn.1, hn.2, frame_append, matchStart_start 0 (by decide), if_pos rfl]
  obtain ⟨fd', a1, a2, a3⟩ := transportRead_frame h1 hnf hm hp (by omega)
  rw [if_pos rfl] at a3
  exact ⟨fd', a3, a2, a1⟩

/-- C37: after bytes in which the start sequence does not occur, every frame that is sent is received, for
every continuation, exactly if these bytes leave the search where it started. -/
theorem c37_exact (noise : List UInt8) (h : ¬ Occurs frameStart noise) :
    (∀ (body rest : List UInt8) (x y z : UInt8) (maxLen : Nat) (fd : Fd), Plain body → (frame body x y z).length < maxLen → maxLen < 4294967288 →
      (∀ e ∈ fd.sched, e ≠ .fail) → fd.pending = noise ++ frame body x y z ++ rest →
      ∃ fd', transportRead fd maxLen = .ok (frame body x y z, fd') ∧ fd'.pending = rest) ↔ seen noise = 0 := by
  constructor
  · intro hall
    apply Classical.byContradiction
    intro hne
    obtain ⟨fd', e, _⟩ := hall [] [] 0 0 0 17 { pending := noise ++ frame [] 0 0 0 ++ [] } plain_nil (by decide) (by decide) (by simp) rfl
    have hm : matchStart 0 (noise ++ frame [] 0 0 0 ++ []) = none := by
      rw [List.append_assoc, matchStart_noise h, frame_append, matchStart_start _ (seen_lt h _ (List.prefix_refl _)), if_neg hne]
      decide
    obtain ⟨_, _, _, e2⟩ := transportRead_nothing (maxLen := 17) (by decide) (by decide) (fd := { pending := noise ++ frame [] 0 0 0 ++ [] }) (by intro e he; simp at he) hm
    rw [e] at e2
    injection e2 with e2
    have := congrArg (fun p => p.1.length) e2
    simp [frame_length] at this
  · intro h0 body rest x y z maxLen fd hp hl h1 hnf hd
    obtain ⟨fd', a, b, _⟩ := read_frame hnf ⟨h, h0⟩ hp hl h1 hd
    exact ⟨fd', a, b⟩

/-- C37: otherwise every frame is missed. If its payload is as harmless as the noise should have been, the
frame after it is received instead, and if there is none, nothing. -/
theorem c37_missed (noise : List UInt8) (h : ¬ Occurs frameStart noise) (hs : seen noise ≠ 0) (body rest : List UInt8) (x y z : UInt8) (maxLen : Nat) (fd : Fd)
    (hb : ¬ Occurs frameStart (body ++ escape ++ [0x1a, x, y, z])) (h0 : 8 ≤ maxLen) (h1 : maxLen < 4294967288) (hnf : ∀ e ∈ fd.sched, e ≠ .fail) :
    (fd.pending = noise ++ frame body x y z → ∃ fd', transportRead fd maxLen = .ok ([], fd') ∧ fd'.pending = []) ∧
    (seen (body ++ escape ++ [0x1a, x, y, z]) = 0 → ∀ body2 x2 y2 z2, Plain body2 → (frame body2 x2 y2 z2).length < maxLen →
      fd.pending = noise ++ frame body x y z ++ frame body2 x2 y2 z2 ++ rest → ∃ fd', transportRead fd maxLen = .ok (frame body2 x2 y2 z2, fd') ∧ fd'.pending = rest) := by
  have hm : ∀ l, matchStart 0 (noise ++ frame body x y z ++ l) = matchStart 0 (body ++ escape ++ [0x1a, x, y, z] ++ l) := by
    intro l
    rw [List.append_assoc, matchStart_noise h, frame_append, matchStart_start _ (seen_lt h _ (List.prefix_refl _)), if_neg hs]
  refine ⟨fun hd => ?_, fun hs2 body2 x2 y2 z2 hp2 hl2 hd => ?_⟩
  · have := hm []
    rw [List.append_nil, List.append_nil, matchStart_none hb] at this
    obtain ⟨fd', a, b, c⟩ := transportRead_nothing h0 h1 hnf (by rw [hd]; exact this)
    exact ⟨fd', c, b⟩
  · rw [frame_length] at hl2
    have hm2 : matchStart 0 fd.pending = some (body2 ++ escape ++ [0x1a, x2, y2, z2] ++ rest) := by
      rw [hd, List.append_assoc (noise ++ frame body x y z), hm, matchStart_noise hb, hs2, frame_append, matchStart_start 0 (by decide), if_pos rfl]
    obtain ⟨fd', a1, a2, a3⟩ := transportRead_frame h1 hnf hm2 hp2 (by omega)
    rw [if_pos rfl] at a3
    exact ⟨fd', a3, a2⟩

/-- C37: a last byte that is not one of the start sequence is harmless. -/
theorem c37_last_byte (noise : List UInt8) (b : UInt8) (h1 : b ≠ 0x1b) (h2 : b ≠ 0x01) : seen (noise ++ [b]) = 0 := by
  rw [seen_append]
  unfold progress
  rw [if_neg]
  intro h
  have hm := List.mem_of_getElem? h
  simp [frameStart, escape, h1, h2] at hm

/-- C37 is false: one stray byte 0x1b before a frame, and the frame is lost. -/
theorem c37_false : ¬ Occurs frameStart [0x1b] ∧ seen [0x1b] = 1 ∧ Plain [0x76, 0, 0, 0] ∧
    transportRead { pending := [0x1b] ++ frame [0x76, 0, 0, 0] 0 0x12 0x34 } 512 = .ok ([], { pending := [] }) ∧
    transportRead { pending := frame [0x76, 0, 0, 0] 0 0x12 0x34 } 512 = .ok (frame [0x76, 0, 0, 0] 0 0x12 0x34, { pending := [] }) := by
  refine ⟨?_, by decide, (plain_cons (bs := [0x76, 0, 0, 0]) rfl).2 ⟨by decide, plain_nil⟩, by decide +kernel, by decide +kernel⟩
  rintro ⟨a, b, h⟩
  have := congrArg List.length h
  simp [frameStart_length] at this
  omega

theorem not_occurs_short {l : List UInt8} (h : l.length < 8) : ¬ Occurs frameStart l := by
  rintro ⟨a, b, e⟩
  have := congrArg List.length e
  simp [frameStart_length] at this
  omega

example : Harmless [0x1b, 0x1b, 0x1b, 0x1b, 0x01, 0x55] ∧ Plain [0x1b, 0x1b, 0x1b, 0x00, 0x1b, 0x01, 0x01, 0x01] :=
  ⟨⟨not_occurs_short (by decide), by decide⟩, (plain_cons (bs := [0x1b, 0x1b, 0x1b, 0x00]) rfl).2 ⟨by decide, (plain_cons (bs := [0x1b, 0x01, 0x01, 0x01]) rfl).2 ⟨by decide, plain_nil⟩⟩⟩

example : seen [0x55, 0x1b, 0x1b] ≠ 0 ∧ ¬ Occurs frameStart [0x55, 0x1b, 0x1b] ∧ seen ([] ++ escape ++ [0x1a, 0, 0, 0]) = 0 ∧ ¬ Occurs frameStart ([] ++ escape ++ [0x1a, 0, 0, 0]) := by
  refine ⟨by decide, not_occurs_short (by decide), by decide, ?_⟩
  rintro ⟨a, b, e⟩
  have hl := congrArg List.length e
  simp [frameStart_length, escape] at hl
  have ha : a = [] := List.length_eq_zero_iff.1 (by omega)
  have hb : b = [] := List.length_eq_zero_iff.1 (by omega)
  subst ha hb
  revert e
  decide

/-! ## C38 -/

/-- C38: the frames of a stream are delivered, each once, in order and unchanged. The bytes between them are harmless; after
the last frame the stream goes on in a way that the next read delivers nothing. -/
theorem listen_frames (items : List (List UInt8 × List UInt8)) : ∀ (fuel : Nat) (fd : Fd) (tail : List UInt8), items.length < fuel → (∀ e ∈ fd.sched, e ≠ .fail) →
    (∀ i ∈ items, Harmless i.1 ∧ IsFrame i.2 ∧ i.2.length < 8096) →
    fd.pending = (items.map fun i => i.1 ++ i.2).flatten ++ tail →
    (∀ fd' : Fd, (∀ e ∈ fd'.sched, e ≠ .fail) → fd'.pending = tail → ∃ fd2, transportRead fd' 8096 = .ok ([], fd2)) →
    transportListen fuel fd = .ok (items.map Prod.snd) := by
  induction items with
  | nil =>
    intro fuel fd tail hf hnf _ hd ht
    obtain ⟨fuel, rfl⟩ : ∃ n, fuel = n + 1 := ⟨fuel - 1, by simp at hf; omega⟩
    obtain ⟨fd2, e⟩ := ht fd hnf (by simpa using hd)
    unfold transportListen
    rw [e]
    rfl
  | cons i items ih =>
    intro fuel fd tail hf hnf hok hd ht
    obtain ⟨fuel, rfl⟩ : ∃ n, fuel = n + 1 := ⟨fuel - 1, by simp at hf; omega⟩
    obtain ⟨h1, ⟨body, x, y, z, h2, h3⟩, h4⟩ := hok i (by simp)
    rw [h2] at h4
    obtain ⟨fd', e1, e2, e3⟩ := read_frame (rest := (items.map fun i => i.1 ++ i.2).flatten ++ tail) hnf h1 h3 h4 (by decide) (by rw [hd, List.map_cons, List.flatten_cons, h2]; simp)
    have := ih fuel fd' tail (by simp at hf; omega) e3 (fun j hj => hok j (by simp [hj])) e2 ht
    unfold transportListen
    rw [e1]
    simp only [TRes.bind, this]
    rw [if_pos (by rw [frame_length]; omega), List.map_cons, h2]

/-- C38: a stream of frames is received completely. -/
theorem c38_frames (items : List (List UInt8 × List UInt8)) (tail : List UInt8) (fd : Fd) (fuel : Nat) (hf : items.length < fuel) (hnf : ∀ e ∈ fd.sched, e ≠ .fail)
    (hok : ∀ i ∈ items, Harmless i.1 ∧ IsFrame i.2 ∧ i.2.length < 8096) (ht : ¬ Occurs frameStart tail)
    (hd : fd.pending = (items.map fun i => i.1 ++ i.2).flatten ++ tail) : transportListen fuel fd = .ok (items.map Prod.snd) := by
  refine listen_frames items fuel fd tail hf hnf hok hd fun fd' hnf' hd' => ?_
  obtain ⟨fd2, _, _, e⟩ := transportRead_nothing (fd := fd') (maxLen := 8096) (by decide) (by decide) hnf' (by rw [hd']; exact matchStart_none ht)
  exact ⟨fd2, e⟩

/-- C38: at a frame that is too long, or at an escape sequence with another mark than that of the end, listening
ends, whatever follows. -/
theorem c38_stops (items : List (List UInt8 × List UInt8)) (noise body rest : List UInt8) (fd : Fd) (fuel : Nat) (hf : items.length < fuel) (hnf : ∀ e ∈ fd.sched, e ≠ .fail)
    (hok : ∀ i ∈ items, Harmless i.1 ∧ IsFrame i.2 ∧ i.2.length < 8096) (hn : Harmless noise) (hp : Plain body)
    (hbad : 8096 ≤ 16 + body.length ∨ ∃ c x y z l, rest = escape ++ [c, x, y, z] ++ l ∧ c ≠ 0x1a)
    (hd : fd.pending = (items.map fun i => i.1 ++ i.2).flatten ++ (noise ++ frameStart ++ body ++ rest)) : transportListen fuel fd = .ok (items.map Prod.snd) := by
  refine listen_frames items fuel fd _ hf hnf hok hd fun fd' hnf' hd' => ?_
  have hm : matchStart 0 fd'.pending = some (body ++ rest) := by
    rw [hd', List.append_assoc, List.append_assoc, matchStart_noise hn.1, hn.2, matchStart_start 0 (by decide), if_pos rfl]
  by_cases hlen : 8096 ≤ 16 + body.length
  · exact transportRead_long (by decide) (by decide) hnf' hm hp (by omega)
  · obtain ⟨c, x, y, z, l, hr, hc⟩ := hbad.resolve_left hlen
    rw [hr] at hm
    obtain ⟨fd2, _, _, e⟩ := transportRead_frame (c := c) (x := x) (y := y) (z := z) (l := l) (by decide : 8096 < 4294967288) hnf' (by rw [hm]; simp) hp (by omega)
    rw [if_neg hc] at e
    exact ⟨fd2, e⟩

/-- A frame, then one whose escape sequence is not followed by 1a. -/
example : transportListen 4 { pending := frame [1, 2, 3, 4] 0 0 0 ++ (frameStart ++ [5, 6, 7, 8] ++ (escape ++ [0x02, 0, 0, 0] ++ frame [] 0 0 0)) } = .ok [frame [1, 2, 3, 4] 0 0 0] :=
  c38_stops [([], frame [1, 2, 3, 4] 0 0 0)] [] [5, 6, 7, 8] (escape ++ [0x02, 0, 0, 0] ++ frame [] 0 0 0) _ 4 (by decide) (fun _ h => nomatch h)
    (fun i hi => by
      have : i = ([], frame [1, 2, 3, 4] 0 0 0) := by simpa using hi
      subst this
      exact ⟨⟨not_occurs_short (by decide), by decide⟩, ⟨_, _, _, _, rfl, by decide, fun i h => by
        have : i = 0 := by simp at h; omega
        subst this; decide⟩, by decide +kernel⟩)
    ⟨not_occurs_short (by decide), by decide⟩ ⟨by decide, fun i h => by
      have : i = 0 := by simp at h; omega
      subst this; decide⟩ (.inr ⟨0x02, 0, 0, 0, frame [] 0 0 0, rfl, by decide⟩) (by decide +kernel)

/-- C38: whatever arrives, listening ends and what was delivered are frames of the stream, in order and disjoint. -/
theorem c38_any (n : Nat) : ∀ fd : Fd, fd.pending.length < n → ∃ frames, transportListen n fd = .ok frames ∧ (∀ f ∈ frames, IsFrame f ∧ f.length < 8096) ∧ Within frames fd.pending := by
  induction n with
  | zero => intro fd h; omega
  | succ n ih =>
    intro fd h
    obtain ⟨out, fd', e, hout⟩ := c35_frame fd 8096 (by decide) (by decide)
    unfold transportListen
    rw [e]
    simp only [TRes.bind]
    by_cases hne : out = []
    · subst hne
      exact ⟨[], rfl, by simp, .nil _⟩
    · obtain ⟨h1, h2, h3, pre, body, x, y, z, h4, h5, h6⟩ := hout hne
      have hl := congrArg List.length h6
      simp at hl
      obtain ⟨frames, g1, g2, g3⟩ := ih fd' (by omega)
      rw [if_pos (by omega), g1]
      refine ⟨out :: frames, rfl, ?_, ?_⟩
      · intro f hf
        rcases List.mem_cons.1 hf with rfl | hf
        · exact ⟨⟨body, x, y, z, h4, h5⟩, h2⟩
        · exact g2 f hf
      · rw [h6]
        exact .cons pre out g3

example : transportListen 4 { pending := frame [1, 2, 3, 4] 0 0 0 ++ [0x1b, 0x00] ++ frame [] 0 0 0 ++ [0x55], sched := [.intr, .give 6] } = .ok [frame [1, 2, 3, 4] 0 0 0, frame [] 0 0 0] ∧
    transportListen 4 { pending := frame [1, 2, 3, 4] 0 0 0 ++ (frameStart ++ [5, 6, 7, 8] ++ escape ++ [0x1b, 0x1b, 0x1b, 0x1b]) ++ frame [] 0 0 0 } = .ok [frame [1, 2, 3, 4] 0 0 0] := by
  decide +kernel

/-! ## C39 -/

/-- C39: what is sent for a file that fits: the start sequence, the file as `sml_file_write` writes it there,
padding, end sequence, number of padding bytes and checksum; exactly if this is more than the buffer has, it is overrun. -/
theorem c39_shape (s : Bool) (f : File) (hok : ∀ m ∈ f.messages, MessageOk s m) (st : St) (hi : st.data.length ≤ 2147483647) :
    (16 + (fileBytes f.messages).length + padding (fileBytes f.messages).length ≤ st.data.length →
      ∃ f' bs st1 st2, bs.length = (fileBytes f.messages).length ∧
        fileWrite f { st with data := frameStart ++ st.data.drop 8, cursor := 8 } = .ok f' st1 ∧ st1.data.take st1.cursor = frameStart ++ bs ∧
        transportFrame f st = .ok (f', sentFrame bs) st2 ∧ f'.messages.map withoutCrc = f.messages.map withoutCrc) ∧
    (st.data.length < 16 + (fileBytes f.messages).length + padding (fileBytes f.messages).length → transportFrame f st = .ub .oobWrite) := by
  obtain ⟨h1, h2⟩ := transportFrame_run s f hok st hi
  refine ⟨fun h => ?_, fun h => h2 (by omega)⟩
  obtain ⟨ms, bs, a, b, c, d⟩ := h1 h
  refine ⟨{ messages := ms }, bs, begun st (frameStart ++ bs) (st.live + f.messages.length), _, a, ?_, ?_, d, b⟩
  · rw [← c]
    rfl
  · show ((frameStart ++ bs) ++ _).take (frameStart ++ bs).length = _
    rw [List.take_left]

/-- C39: over zeroed memory, or any memory that has no bit more than the encoding, the file is its encoding. -/
theorem c39_encoding (s : Bool) (f : File) (hok : ∀ m ∈ f.messages, MessageOk s m) (st : St) (hi : st.data.length ≤ 2147483647)
    (hfit : (sentFrame (fileBytes f.messages)).length ≤ st.data.length) (hcov : Covered (st.data.drop 8) (fileBytes f.messages)) :
    ∃ st', transportFrame f st = .ok ({ messages := f.messages.map sealed }, sentFrame (fileBytes f.messages)) st' :=
  ⟨_, transportFrame_clean s f hok st hi hfit hcov⟩

/-- C39: the frame is as long as its parts: a multiple of four, with at most three zero bytes. -/
theorem c39_length (p : List UInt8) : (sentFrame p).length % 4 = 0 ∧ (sentFrame p).length = 16 + p.length + padding p.length ∧ padding p.length ≤ 3 := by
  have := sentFrame_length p
  unfold padding at *
  omega

/-- C39: success is reported exactly if all bytes were taken. -/
theorem c39_result (f f' : File) (bytes : List UInt8) (st st' : St) (h : transportFrame f st = .ok (f', bytes) st') (hne : bytes ≠ []) (wr : List UInt8 → Int) :
    ∃ r, transportWrite wr f st = .ok (f', r) st' ∧ (r = 0 ∨ r = bytes.length) ∧ (r ≠ 0 ↔ wr bytes = bytes.length) := by
  unfold transportWrite
  rw [run_bind, h, Res.andThen_ok]
  have : (bytes.length : Int) ≠ 0 := by
    intro h0
    exact hne (List.length_eq_zero_iff.1 (by omega))
  by_cases hw : wr bytes = bytes.length
  · exact ⟨bytes.length, by simp [hw, run_pure], Or.inr rfl, by simp [hw, hne]⟩
  · exact ⟨0, by simp [hw, run_pure], Or.inl rfl, by simp [hw]⟩

example : (∀ m ∈ [sampleMessage], MessageOk true m) ∧ (sentFrame (fileBytes [sampleMessage])).length = 96 ∧ Covered ((List.replicate 512 0).drop 8) (fileBytes [sampleMessage]) := by
  refine ⟨?_, ?_, zeros_covered _ _ ?_⟩
  · intro m hm
    simp only [List.mem_cons, List.not_mem_nil, or_false] at hm
    subst hm
    exact sampleMessage_ok true
  · rw [sentFrame_length]; decide +kernel
  · intro b hb
    have := List.mem_of_mem_take hb
    rw [List.drop_replicate] at this
    exact (List.mem_replicate.1 this).2

/-! ## C40 and C41 -/

theorem sentFrame_frame (p : List UInt8) : ∃ x y z, sentFrame p = frame (p ++ List.replicate (padding p.length) 0) x y z := by
  refine ⟨UInt8.ofNat (padding p.length), UInt8.ofNat ((swap16 (crcX25 (sentHead p))).toNat / 256 ^ 1 % 256), UInt8.ofNat ((swap16 (crcX25 (sentHead p))).toNat / 256 ^ 0 % 256), ?_⟩
  unfold sentFrame
  generalize (swap16 (crcX25 (sentHead p))).toNat = c
  simp [sentHead, frame, bigEndian, List.range_succ]

theorem padded_length (p : List UInt8) : (p ++ List.replicate (padding p.length) 0).length % 4 = 0 := by
  simp [padding]; omega

/-- Padding makes no escape sequence. -/
theorem padded_plain (p : List UInt8) : Plain (p ++ List.replicate (padding p.length) 0) ↔ NoEscape p := by
  have hesc : ∀ l : List UInt8, l.length < 4 → l ≠ escape := by
    intro l hl h
    rw [h] at hl
    simp [escape] at hl
  constructor
  · rintro ⟨_, h⟩ i
    by_cases hi : 4 * i + 4 ≤ p.length
    · have := h i (by simp; omega)
      rw [List.drop_append_of_le_length (by omega), List.take_append_of_le_length (by simp; omega)] at this
      exact this
    · exact hesc _ (by simp; omega)
  · intro h
    refine ⟨padded_length p, fun i hi => ?_⟩
    by_cases hi' : 4 * i + 4 ≤ p.length
    · rw [List.drop_append_of_le_length (by omega), List.take_append_of_le_length (by simp; omega)]
      exact h i
    · intro he
      have hpad : padding p.length ≤ 3 := by unfold padding; omega
      simp at hi
      have hlast : ((p ++ List.replicate (padding p.length) 0).drop (4 * i)).take 4 = p.drop (4 * i) ++ List.replicate (padding p.length) 0 := by
        rw [List.drop_append_of_le_length (by unfold padding at hi; omega), List.take_of_length_le]
        simp
        unfold padding at *
        omega
      rw [hlast] at he
      have hpos : 0 < padding p.length := by unfold padding at *; omega
      have hmem : (0 : UInt8) ∈ escape := by
        rw [← he]
        simp
        exact Or.inr (by omega)
      revert hmem
      decide

theorem frame_inj {b1 b2 : List UInt8} {x1 y1 z1 x2 y2 z2 : UInt8} (h : frame b1 x1 y1 z1 = frame b2 x2 y2 z2) : b1 = b2 := by
  unfold frame at h
  rw [List.append_assoc, List.append_assoc, List.append_assoc, List.append_assoc] at h
  have h' := List.append_cancel_left h
  have hl := congrArg List.length h'
  simp [escape] at hl
  exact (List.append_inj h' hl).1

theorem frame_payload (body : List UInt8) (x y z : UInt8) : ((frame body x y z).drop 8).take ((frame body x y z).length - 16) = body := by
  rw [frame_length]
  unfold frame
  rw [List.append_assoc, List.append_assoc, List.drop_append_of_le_length (by rw [frameStart_length]; omega), List.drop_of_length_le (by rw [frameStart_length]; omega)]
  simp

theorem fileBytes_long (l : List Message) : l.length ≤ (fileBytes l).length := by
  induction l with
  | nil => simp
  | cons m l ih => rw [fileBytes_cons, List.length_append, List.length_cons, messageBytes_length]; omega

/-- Padding is skipped. -/
theorem parse_padded (depth : Nat) (ms : List Message) (hok : ∀ m ∈ ms, MessageOk true m ∧ messageDepth m ≤ depth) (h0 : 0 < depth)
    (hcnt : ms.length ≤ 32767) (k : Nat) (hi : (fileBytes ms).length + k ≤ 2147483647) :
    ∃ s, fileParse depth (fileBytes ms ++ List.replicate k 0) = .ok { messages := ms.map sealed } s ∧ s.error = false ∧ s.live = ({ messages := ms.map sealed } : File).blocks := by
  have hp :=
    run_fileLoop (depth := depth) k (ms.map fun m => (checksum m, m)) ((fileBytes ms ++ List.replicate k 0).length + 1) { messages := [] } { data := fileBytes ms ++ List.replicate k 0, live := 3 }
      (by
        intro p hp
        obtain ⟨m, hm, rfl⟩ := List.mem_map.1 hp
        exact ⟨(hok m hm).1, (hok m hm).2, Or.inl (checksum_eq m)⟩) h0
      (by
        have := fileBytes_long ms
        simp
        omega)
      (by simpa using hcnt) (by simp [fileBytes, Function.comp_def]) (Nat.zero_le _) rfl (by simp only [List.length_append, List.length_replicate]; omega)
  refine ⟨{ ({ data := fileBytes ms ++ List.replicate k 0, live := 3 } : St) with cursor := (fileBytes ms ++ List.replicate k 0).length, live := ({ messages := ms.map sealed } : File).blocks }, ?_, rfl, rfl⟩
  unfold fileParse
  rw [hp]
  simp only [List.map_map, Function.comp_def, List.nil_append]
  congr 2
  unfold File.blocks sealed
  cases ms <;> simp [Function.comp_def]

/-- C40: a file that is sent from zeroed memory is received and read back, whatever harmless bytes come
before, whatever follows and however the bytes arrive. -/
theorem c40_end_to_end (depth : Nat) (ms : List Message) (hok : ∀ m ∈ ms, MessageOk true m ∧ messageDepth m ≤ depth) (h0 : 0 < depth) (hcnt : ms.length ≤ 32767)
    (st : St) (hi : st.data.length ≤ 2147483647) (hfit : (sentFrame (fileBytes ms)).length ≤ st.data.length) (hcov : Covered (st.data.drop 8) (fileBytes ms))
    (hesc : NoEscape (fileBytes ms)) :
    ∃ out st', transportFrame { messages := ms } st = .ok ({ messages := ms.map sealed }, out) st' ∧
      ∀ (fd : Fd) (noise rest : List UInt8) (maxLen : Nat), fd.pending = noise ++ out ++ rest → Harmless noise → (∀ e ∈ fd.sched, e ≠ .fail) → out.length < maxLen → maxLen < 4294967288 →
        ∃ fd' s, transportRead fd maxLen = .ok (out, fd') ∧ fd'.pending = rest ∧
          fileParse depth ((out.drop 8).take (out.length - 16)) = .ok { messages := ms.map sealed } s ∧ s.error = false := by
  refine ⟨_, _, transportFrame_clean true { messages := ms } (fun m hm => (hok m hm).1) st hi hfit hcov, ?_⟩
  intro fd noise rest maxLen hd hn hnf hl h1
  have hsl := sentFrame_length (fileBytes ms)
  obtain ⟨x, y, z, hf⟩ := sentFrame_frame (fileBytes ms)
  simp only [hf] at hd hl ⊢
  obtain ⟨fd', a, b, _⟩ := read_frame hnf hn ((padded_plain _).2 hesc) hl h1 hd
  obtain ⟨s, c, d, _⟩ := parse_padded depth ms hok h0 hcnt (padding (fileBytes ms).length) (by omega)
  exact ⟨fd', s, a, b, by rw [frame_payload]; exact c, d⟩

theorem noEscape_iff (p : List UInt8) : NoEscape p ↔ ∀ i ∈ List.range (p.length / 4), (p.drop (4 * i)).take 4 ≠ escape := by
  constructor
  · intro h i _; exact h i
  · intro h i
    by_cases hi : i < p.length / 4
    · exact h i (List.mem_range.2 hi)
    · intro he
      have := congrArg List.length he
      simp [escape] at this
      omega

example : NoEscape (fileBytes [sampleMessage, sampleMessage]) ∧ (sentFrame (fileBytes [sampleMessage, sampleMessage])).length = 176 :=
  ⟨(noEscape_iff _).2 (by decide +kernel), by rw [sentFrame_length]; decide +kernel⟩

/-- The first escape sequence of a payload. -/
theorem first_escape (n : Nat) : ∀ body : List UInt8, body.length = 4 * n → ¬ Plain body → ∃ b1 b2, body = b1 ++ escape ++ b2 ∧ Plain b1 ∧ b2.length % 4 = 0 := by
  induction n with
  | zero =>
    intro body h hp
    have : body = [] := List.length_eq_zero_iff.1 (by omega)
    subst this
    exact absurd plain_nil hp
  | succ n ih =>
    intro body h hp
    obtain ⟨bs, l, rfl, hbs, hl⟩ := split4 (l := body) (by omega) (by rintro rfl; simp at h)
    rw [plain_cons hbs] at hp
    by_cases he : bs = escape
    · exact ⟨[], l, by rw [he]; simp, plain_nil, hl⟩
    · obtain ⟨b1, b2, g1, g2, g3⟩ := ih l (by simp at h; omega) (fun h => hp ⟨he, h⟩)
      exact ⟨bs ++ b1, b2, by rw [g1]; simp, (plain_cons hbs).2 ⟨he, g2⟩, g3⟩

/-- C41: a payload with an escape sequence is never received: the frame is rejected, or what is delivered ends
after the escape sequence. This holds for every buffer, however the bytes arrive. -/
theorem c41_lost (body : List UInt8) (hl4 : body.length % 4 = 0) (hesc : ¬ Plain body) (x y z : UInt8) (fd : Fd) (noise rest : List UInt8) (maxLen : Nat)
    (hd : fd.pending = noise ++ frame body x y z ++ rest) (hn : Harmless noise) (hnf : ∀ e ∈ fd.sched, e ≠ .fail) (h0 : 8 ≤ maxLen) (h1 : maxLen < 4294967288) :
    ∃ out fd', transportRead fd maxLen = .ok (out, fd') ∧ (out = [] ∨ ∃ b1 x' y' z', out = frame b1 x' y' z' ∧ b1 ++ escape <+: body) := by
  obtain ⟨b1, b2, hb, hp, h2⟩ := first_escape (body.length / 4) body (by omega) hesc
  have hm : matchStart 0 fd.pending = some (b1 ++ (escape ++ (b2 ++ escape ++ [0x1a, x, y, z] ++ rest))) := by
    rw [hd, List.append_assoc, matchStart_noise hn.1, hn.2, frame_append, matchStart_start 0 (by decide), if_pos rfl, hb]
    simp
  by_cases hlen : maxLen ≤ 16 + b1.length
  · obtain ⟨fd', e⟩ := transportRead_long h0 h1 hnf hm hp (by omega)
    exact ⟨[], fd', e, Or.inl rfl⟩
  · obtain ⟨bs, l, hbs, h4, _⟩ := split4 (l := b2 ++ escape ++ [0x1a, x, y, z]) (by simp [escape]; omega) (by simp)
    obtain ⟨c, x', y', z', rfl⟩ : ∃ a b c d, bs = [a, b, c, d] := by
      match bs, h4 with
      | [a, b, c, d], _ => exact ⟨a, b, c, d, rfl⟩
    rw [hbs] at hm
    obtain ⟨fd', _, _, e⟩ := transportRead_frame (c := c) (x := x') (y := y') (z := z') (l := l ++ rest) h1 hnf (by rw [hm]; simp) hp (by omega)
    refine ⟨_, fd', e, ?_⟩
    split
    · next hc =>
      subst hc
      exact Or.inr ⟨b1, x', y', z', rfl, b2, hb.symm⟩
    · exact Or.inl rfl

/-- A payload that contains the escape sequence, from its fifth byte on. -/
example : ∃ out fd', transportRead { pending := [] ++ frame [1, 2, 3, 4, 0x1b, 0x1b, 0x1b, 0x1b, 5, 6, 7, 8] 0 0 0 ++ [] } 512 = .ok (out, fd') ∧
    (out = [] ∨ ∃ b1 x' y' z', out = frame b1 x' y' z' ∧ b1 ++ escape <+: [1, 2, 3, 4, 0x1b, 0x1b, 0x1b, 0x1b, 5, 6, 7, 8]) :=
  c41_lost [1, 2, 3, 4, 0x1b, 0x1b, 0x1b, 0x1b, 5, 6, 7, 8] (by decide) (fun h => h.2 1 (by decide) (by decide)) 0 0 0 _ [] [] 512 rfl
    ⟨not_occurs_short (by decide), by decide⟩ (fun _ h => nomatch h) (by decide) (by decide)

/-- C41: a file that is sent from zeroed memory is received, for all buffers that are large enough, exactly if
its encoding contains no aligned escape sequence. -/
theorem c41_exact (ms : List Message) (hok : ∀ m ∈ ms, MessageOk true m) (st : St) (hi : st.data.length ≤ 2147483647) (hfit : (sentFrame (fileBytes ms)).length ≤ st.data.length)
    (hcov : Covered (st.data.drop 8) (fileBytes ms)) (fd : Fd) (noise rest : List UInt8) (hn : Harmless noise) (hnf : ∀ e ∈ fd.sched, e ≠ .fail) (maxLen : Nat) (h1 : maxLen < 4294967288) :
    ∃ out st', transportFrame { messages := ms } st = .ok ({ messages := ms.map sealed }, out) st' ∧
      (fd.pending = noise ++ out ++ rest → out.length < maxLen → ((∃ fd', transportRead fd maxLen = .ok (out, fd')) ↔ NoEscape (fileBytes ms))) := by
  refine ⟨_, _, transportFrame_clean true { messages := ms } hok st hi hfit hcov, fun hd hl => ?_⟩
  obtain ⟨x, y, z, hf⟩ := sentFrame_frame (fileBytes ms)
  simp only [hf] at hd hl ⊢
  rw [← padded_plain]
  have hfl := frame_length (fileBytes ms ++ List.replicate (padding (fileBytes ms).length) 0) x y z
  constructor
  · rintro ⟨fd', e⟩
    apply Classical.byContradiction
    intro hesc
    obtain ⟨out, fd2, e2, h2⟩ := c41_lost _ (padded_length _) hesc x y z fd noise rest maxLen hd hn hnf (by omega) h1
    rw [e] at e2
    injection e2 with e2
    injection e2 with e3 _
    rw [← e3] at h2
    rcases h2 with h2 | ⟨b1, x', y', z', h2, h3⟩
    · have hz := congrArg List.length h2
      rw [hfl] at hz
      simp at hz
    · have hb := frame_inj h2
      have := h3.length_le
      rw [← hb] at this
      simp [escape] at this
      omega
  · intro hp
    obtain ⟨fd', a, _, _⟩ := read_frame hnf hn hp hl h1 hd
    exact ⟨fd', a⟩

/-- A close request whose signature contains the escape sequence. -/
def escapeMessage : Message :=
  { transactionId := some ⟨[0x01, 0x02]⟩, groupId := some ⟨1, 0⟩, abortOnError := some ⟨1, 0⟩,
    messageBody := some { tag := some ⟨4, 0x200⟩, data := .closeRequest (some { globalSignature := some ⟨[0x1b, 0x1b, 0x1b, 0x1b, 0x1b, 0x1b, 0x1b]⟩ }) },
    crc := none }

theorem escapeMessage_ok : MessageOk true escapeMessage :=
  ⟨opt_some (strOk_small (by simp) (by decide) true), opt_some (numOk_lit (by decide) true), opt_some (numOk_lit (by decide) true),
    _, rfl, _, rfl, numOk_lit (by decide) true, rfl, _, rfl, opt_some (strOk_small (by simp) (by decide) true)⟩

/-- C41 is false: this message is sent but not received. -/
theorem c41_false : MessageOk true escapeMessage ∧ ¬ NoEscape (fileBytes [escapeMessage]) ∧
    ∃ out st', transportFrame { messages := [escapeMessage] } fileInit.2 = .ok ({ messages := [sealed escapeMessage] }, out) st' ∧
      ∀ maxLen, out.length < maxLen → maxLen < 4294967288 → ∀ fd', transportRead { pending := out } maxLen ≠ .ok (out, fd') := by
  have hesc : ¬ NoEscape (fileBytes [escapeMessage]) := by
    rw [noEscape_iff]
    decide +kernel
  refine ⟨escapeMessage_ok, hesc, ?_⟩
  have hok : ∀ m ∈ [escapeMessage], MessageOk true m := by
    intro m hm
    simp only [List.mem_cons, List.not_mem_nil, or_false] at hm
    subst hm
    exact escapeMessage_ok
  have hl : fileInit.2.data.length = 512 := List.length_replicate
  have hfl : (fileBytes [escapeMessage]).length = 27 := by decide +kernel
  have hfit : (sentFrame (fileBytes [escapeMessage])).length ≤ fileInit.2.data.length := by
    rw [sentFrame_length, hl, hfl]; decide
  have hcov : Covered (fileInit.2.data.drop 8) (fileBytes [escapeMessage]) := by
    refine zeros_covered _ _ fun b hb => ?_
    have := List.mem_of_mem_take hb
    rw [show fileInit.2.data = List.replicate 512 0 from rfl, List.drop_replicate] at this
    exact (List.mem_replicate.1 this).2
  have := transportFrame_clean true { messages := [escapeMessage] } hok fileInit.2 (by rw [hl]; decide) hfit hcov
  refine ⟨_, _, this, fun maxLen hlt h1 fd' he => hesc ?_⟩
  obtain ⟨out, st', h2, h3⟩ := c41_exact [escapeMessage] hok fileInit.2 (by rw [hl]; decide) hfit hcov { pending := sentFrame (fileBytes [escapeMessage]) } [] [] ⟨not_occurs_short (by decide), rfl⟩
    (by simp) maxLen h1
  rw [this] at h2
  injection h2 with h2 _
  injection h2 with _ h2
  rw [← h2] at h3
  exact (h3 (by simp) hlt).1 ⟨fd', he⟩

end Sml
