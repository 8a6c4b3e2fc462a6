import Verif.Proofs.RoundFile
import Verif.Proofs.Transport

/-!
# Sending frames
-/

namespace Sml

open Spec

/-- The bytes `a` have been written at the start of the buffer. -/
def begun (st : St) (a : List UInt8) (n : Nat) : St :=
  { st with data := a ++ st.data.drop a.length, cursor := a.length, live := n }

theorem begun_length {st : St} {a : List UInt8} {n : Nat} (h : a.length ≤ st.data.length) : (begun st a n).data.length = st.data.length := by
  simp [begun]; omega

theorem begun_overwrite {st : St} {a : List UInt8} {n : Nat} (bs : List UInt8) :
    overwrite (begun st a n) bs = (a ++ bs) ++ st.data.drop (a ++ bs).length := by
  simp [overwrite, begun, List.drop_append]

theorem begun_put {st : St} {a bs : List UInt8} {n : Nat} (h : a.length ≤ st.data.length) :
    putBytes bs (begun st a n) = if (a ++ bs).length ≤ st.data.length then .ok () (begun st (a ++ bs) n) else .ub .oobWrite := by
  unfold putBytes
  rw [begun_length h]
  have : (begun st a n).cursor + bs.length = (a ++ bs).length := by simp [begun]
  rw [this]
  split
  · congr 1
    have := begun_overwrite (st := st) (a := a) (n := n) bs
    unfold overwrite at this
    have e : (begun st a n).cursor + bs.length = (a ++ bs).length := by simp [begun]
    rw [e] at this
    rw [this]
    rfl
  · rfl

theorem begun_put_ok {st : St} {a bs : List UInt8} {n : Nat} (h : (a ++ bs).length ≤ st.data.length) :
    putBytes bs (begun st a n) = .ok () (begun st (a ++ bs) n) := by
  rw [begun_put (by simp at h; omega), if_pos h]

theorem begun_put_no {st : St} {a bs : List UInt8} {n : Nat} (h : a.length ≤ st.data.length) (h' : st.data.length < (a ++ bs).length) :
    putBytes bs (begun st a n) = .ub .oobWrite := by
  rw [begun_put h, if_neg (by omega)]

theorem begun_slice {st : St} {a : List UInt8} {n : Nat} (h : a.length ≤ st.data.length) :
    bufferSlice 0 (begun st a n).cursor (begun st a n) = .ok a (begun st a n) := by
  rw [run_bufferSlice (by rw [begun_length h]; simp [begun]; omega)]
  simp [begun]

theorem two_bytes (c : Nat) : [UInt8.ofNat ((c &&& 0xFF00) >>> 8), UInt8.ofNat (c &&& 0x00FF)] = bigEndian 2 c := by
  have e1 : c &&& 0x00FF = c % 256 := Nat.and_two_pow_sub_one_eq_mod c 8
  have e2 : (c &&& 0xFF00) >>> 8 = c / 256 % 256 := by
    rw [Nat.shiftRight_and_distrib]
    show (c >>> 8) &&& (2 ^ 8 - 1) = _
    rw [Nat.and_two_pow_sub_one_eq_mod, Nat.shiftRight_eq_div_pow]
  rw [e1, e2]
  simp [bigEndian, List.range_succ]

theorem padding_eq (n : Nat) : (if (8 + n) % 4 ≠ 0 then 4 - (8 + n) % 4 else 0) = padding n := by
  unfold padding
  split <;> omega

theorem sentHead_length (p : List UInt8) : (sentHead p).length = 8 + p.length + padding p.length + 6 := by
  simp [sentHead, frameStart_length, escape]; omega

theorem sentFrame_length (p : List UInt8) : (sentFrame p).length = 16 + p.length + padding p.length := by
  simp [sentFrame, sentHead_length, bigEndian]; omega

/-- What follows the file. -/
def trailer (f : File) : M (File × List UInt8) := do
  let st ← getSt
  let padding := if st.cursor % 4 ≠ 0 then 4 - st.cursor % 4 else 0
  if padding ≠ 0 then putBytes (List.replicate padding 0) else pure ()
  putBytes endSeq
  putBytes [UInt8.ofNat padding]
  let st ← getSt
  let bytes ← bufferSlice 0 st.cursor
  let crc := (crc16 bytes).toNat
  putBytes [UInt8.ofNat ((crc &&& 0xFF00) >>> 8)]
  putBytes [UInt8.ofNat (crc &&& 0x00FF)]
  let st ← getSt
  let bytes ← bufferSlice 0 st.cursor
  pure (f, bytes)

theorem transportFrame_eq (f : File) : transportFrame f = (do
    modSt fun st => { st with cursor := 0 }
    putBytes startSeq
    let f ← fileWrite f
    trailer f) := rfl

theorem putZeros {st : St} {a : List UInt8} {n k : Nat} (c : M α) (h : a.length ≤ st.data.length) :
    (if k ≠ 0 then (do putBytes (List.replicate k 0); c) else c : M α) (begun st a n) =
      if (a ++ List.replicate k 0).length ≤ st.data.length then c (begun st (a ++ List.replicate k 0) n) else .ub .oobWrite := by
  by_cases hk : k = 0
  · subst hk
    simp [h]
  · rw [if_pos hk, run_bind, begun_put h]
    split <;> rfl

theorem trailer_run {st : St} {p : List UInt8} {n : Nat} (f : File) (h : (frameStart ++ p).length ≤ st.data.length) :
    trailer f (begun st (frameStart ++ p) n) = if (sentFrame p).length ≤ st.data.length then .ok (f, sentFrame p) (begun st (sentFrame p) n) else .ub .oobWrite := by
  have hcur : (begun st (frameStart ++ p) n).cursor = 8 + p.length := by simp [begun, frameStart_length]
  have hl := sentFrame_length p
  unfold trailer
  rw [run_bind, run_getSt, Res.andThen_ok]
  dsimp only
  rw [hcur, padding_eq, putZeros _ h]
  by_cases h1 : (frameStart ++ p ++ List.replicate (padding p.length) 0).length ≤ st.data.length
  case neg =>
    rw [if_neg h1, if_neg (by simp [frameStart_length] at h1; omega)]
  rw [if_pos h1, run_bind, begun_put h1]
  by_cases h2 : (frameStart ++ p ++ List.replicate (padding p.length) 0 ++ endSeq).length ≤ st.data.length
  case neg =>
    rw [if_neg h2, Res.andThen_ub, if_neg (by simp [frameStart_length, endSeq] at h2; omega)]
  rw [if_pos h2, Res.andThen_ok, run_bind, begun_put h2]
  have hsh : frameStart ++ p ++ List.replicate (padding p.length) 0 ++ endSeq ++ [UInt8.ofNat (padding p.length)] = sentHead p := by
    simp [sentHead, endSeq, escape]
  rw [hsh]
  have hshl := sentHead_length p
  by_cases h3 : (sentHead p).length ≤ st.data.length
  case neg =>
    rw [if_neg h3, Res.andThen_ub, if_neg (by omega)]
  rw [if_pos h3, Res.andThen_ok, run_bind, run_getSt, Res.andThen_ok, run_bind, begun_slice h3, Res.andThen_ok]
  rw [run_bind, begun_put h3]
  by_cases h4 : (sentHead p ++ [UInt8.ofNat (((crc16 (sentHead p)).toNat &&& 0xFF00) >>> 8)]).length ≤ st.data.length
  case neg =>
    rw [if_neg h4, Res.andThen_ub, if_neg (by simp at h4; omega)]
  rw [if_pos h4, Res.andThen_ok, run_bind, begun_put h4]
  have hsf : sentHead p ++ [UInt8.ofNat (((crc16 (sentHead p)).toNat &&& 0xFF00) >>> 8)] ++ [UInt8.ofNat ((crc16 (sentHead p)).toNat &&& 0x00FF)] = sentFrame p := by
    unfold sentFrame
    rw [← crc16_eq, ← two_bytes, List.append_assoc]
    rfl
  rw [hsf]
  by_cases h5 : (sentFrame p).length ≤ st.data.length
  case neg =>
    rw [if_neg h5, Res.andThen_ub, if_neg h5]
  rw [if_pos h5, Res.andThen_ok, run_bind, run_getSt, Res.andThen_ok, run_bind, begun_slice h5, Res.andThen_ok, if_pos h5]
  rfl

/-- The start sequence and the file, in general. -/
theorem transportFrame_run (s : Bool) (f : File) (hok : ∀ m ∈ f.messages, MessageOk s m) (st : St) (hi : st.data.length ≤ 2147483647) :
    (16 + (fileBytes f.messages).length + padding (fileBytes f.messages).length ≤ st.data.length →
      ∃ ms bs, bs.length = (fileBytes f.messages).length ∧ ms.map withoutCrc = f.messages.map withoutCrc ∧
        fileWrite f (begun st frameStart st.live) = .ok { messages := ms } (begun st (frameStart ++ bs) (st.live + f.messages.length)) ∧
        transportFrame f st = .ok ({ messages := ms }, sentFrame bs) (begun st (sentFrame bs) (st.live + f.messages.length))) ∧
    (¬ 16 + (fileBytes f.messages).length + padding (fileBytes f.messages).length ≤ st.data.length → transportFrame f st = .ub .oobWrite) := by
  have hput : putBytes startSeq { st with cursor := 0 } = if frameStart.length ≤ st.data.length then .ok () (begun st frameStart st.live) else .ub .oobWrite := by
    unfold putBytes
    simp [begun, startSeq, frameStart, escape, List.replicate]
  have hstart : transportFrame f st = (if frameStart.length ≤ st.data.length then (fileWrite f (begun st frameStart st.live)).andThen trailer else .ub .oobWrite) := by
    rw [transportFrame_eq, run_bind, run_modSt, Res.andThen_ok, run_bind, hput]
    split <;> rfl
  rw [frameStart_length] at hstart
  by_cases h8 : 8 ≤ st.data.length
  case neg =>
    refine ⟨fun h => by omega, fun _ => by rw [hstart, if_neg h8]⟩
  rw [if_pos h8] at hstart
  have hbl : (begun st frameStart st.live).data.length = st.data.length := begun_length (by rw [frameStart_length]; exact h8)
  have hbc : (begun st frameStart st.live).cursor = 8 := frameStart_length
  obtain ⟨h1, h2⟩ := run_fileWriteLoop s f.messages (begun st frameStart st.live) hok (by rw [hbl, hbc]; exact h8) (by rw [hbl]; exact hi)
  rw [hbl, hbc] at h1 h2
  have hfw : ∀ st', fileWrite f st' = (fileWriteLoop f.messages st').andThen fun ms => pure { messages := ms } := fun st' => by
    unfold fileWrite; rw [run_bind]
  by_cases hf : 8 + (fileBytes f.messages).length ≤ st.data.length
  case neg =>
    refine ⟨fun h => by omega, fun _ => ?_⟩
    rw [hstart, hfw, h2 hf]
    rfl
  obtain ⟨ms, bs, hb, ⟨hw, _⟩, he⟩ := h1 hf
  have hst : ({ begun st frameStart st.live with data := overwrite (begun st frameStart st.live) bs, cursor := 8 + (fileBytes f.messages).length, live := st.live + f.messages.length } : St)
      = begun st (frameStart ++ bs) (st.live + f.messages.length) := by
    rw [begun_overwrite]
    unfold begun
    simp [frameStart_length, hb]
  have hlive : (begun st frameStart st.live).live = st.live := rfl
  rw [hlive] at he
  rw [hst] at he
  have hfit' : (frameStart ++ bs).length ≤ st.data.length := by simp [frameStart_length, hb]; omega
  rw [hstart, hfw, he, Res.andThen_ok, run_pure, Res.andThen_ok, trailer_run _ hfit', sentFrame_length, hb]
  refine ⟨fun h => ⟨ms, bs, hb, hw, rfl, by rw [if_pos h]⟩, fun h => by rw [if_neg h]⟩

/-- Over old contents that do not show. -/
theorem transportFrame_clean (s : Bool) (f : File) (hok : ∀ m ∈ f.messages, MessageOk s m) (st : St) (hi : st.data.length ≤ 2147483647)
    (hfit : (sentFrame (fileBytes f.messages)).length ≤ st.data.length) (hcov : Covered (st.data.drop 8) (fileBytes f.messages)) :
    transportFrame f st = .ok ({ messages := f.messages.map sealed }, sentFrame (fileBytes f.messages))
      (begun st (sentFrame (fileBytes f.messages)) (st.live + f.messages.length)) := by
  have hl := sentFrame_length (fileBytes f.messages)
  obtain ⟨ms, bs, hb, _, hw, ht⟩ := (transportFrame_run s f hok st hi).1 (by omega)
  have hbl : (begun st frameStart st.live).data.length = st.data.length := begun_length (by rw [frameStart_length]; omega)
  have hbc : (begun st frameStart st.live).cursor = 8 := frameStart_length
  have hd : (begun st frameStart st.live).data.drop 8 = st.data.drop 8 := by
    show (frameStart ++ st.data.drop frameStart.length).drop 8 = _
    rw [List.drop_append_of_le_length (by rw [frameStart_length]; omega), List.drop_of_length_le (by rw [frameStart_length]; omega), frameStart_length]
    rfl
  have := run_fileWriteLoop_clean s f.messages (begun st frameStart st.live) hok (by rw [hbl, hbc]; omega) (by rw [hbl]; exact hi) (by rw [hbc, hd]; exact hcov)
  unfold fileWrite at hw
  rw [run_bind, this, Res.andThen_ok, run_pure] at hw
  injection hw with h1 h2
  have h3 := congrArg St.data h2
  rw [begun_overwrite] at h3
  have : bs = fileBytes f.messages := by
    have := (List.append_inj h3 (by simp [hb])).1
    exact (List.append_cancel_left this).symm
  rw [ht, ← h1, this]

end Sml
