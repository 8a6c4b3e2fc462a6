import Verif.Proofs.RoundFile
import Verif.Proofs.GrammarMessage
import Verif.Proofs.CrcDetect

/-!
# Messages whose bits were changed on the line
-/

namespace Sml

open Spec

theorem messageFail_same {m : Message} {st s : St} {r : Option Message} (h : messageFail m st = .ok r s) : s.data = st.data ∧ s.sovf = st.sovf ∧ s.confused = st.confused := by
  have hw : Wlp (messageFail m) st fun _ s => s.data = st.data ∧ s.sovf = st.sovf ∧ s.confused = st.confused := by
    unfold messageFail messageFree messageBodyFree
    simp only [wlp_bind, wlp_release, wlp_pure]
    intro _ _ _
    split
    · simp
    · split <;> simp
  exact hw _ _ h

/-- A message with a checksum that does not belong to it is skipped, up to its end mark. -/
theorem run_messageParse_wrong {depth : Nat} (m : Message) (h : MessageOk true m) (h0 : 0 < depth) (hdep : messageDepth m ≤ depth) (c : Nat) (hc16 : c < 256 ^ 2)
    (hc : c ≠ (crc16 (messageHead m)).toNat ∧ c ≠ (crc16kermit (messageHead m)).toNat) (st : St) (rest : List UInt8)
    (hd : st.data.drop st.cursor = messageBytes c m ++ rest) (he : st.error = false) (hi : st.data.length ≤ 2147483647) :
    ∀ r s, messageParse depth st = .ok r s → r = none ∧ s.error = false ∧ s.rest = 0x00 :: rest ∧ s.data = st.data ∧ s.sovf = st.sovf ∧ s.confused = st.confused := by
  obtain ⟨h1, h2, h3, b, hb, h4⟩ := h
  have hdep' : bodyDepth b.data ≤ depth := by simpa [messageDepth, hb] using hdep
  have hlen : st.data.length = st.cursor + (messageHead m).length + 4 + rest.length := by
    have := congrArg List.length hd
    simp [messageBytes_length] at this
    omega
  have hd0 : st.data.drop st.cursor = encHeader 7 6 ++ (enc (opt strTerm m.transactionId) ++ (enc (opt (uintTerm 1) m.groupId) ++
      (enc (opt (uintTerm 1) m.abortOnError) ++ (enc (messageBodyTerm b) ++ (enc (.uint (bigEndian 2 c)) ++ ([0x00] ++ rest)))))) := by
    rw [hd]
    simp [messageBytes, messageHead, messageFields, encAll, hb, opt]
  have hne : (enc (.uint (bigEndian 2 c)) ++ ([0x00] ++ rest)) ≠ [] := by simp
  unfold messageParse cursorAsInt
  run
  rw [if_neg (by omega)]
  run
  rw [reads_type (st := { st with live := st.live + 1 }) (encHeader_ne _ _) (encHeader_type (by decide)) hd0]
  run
  rw [if_neg (by simp), reads_length (st := { st with live := st.live + 1 }) (by decide) (small_len (by decide)) hd0]
  run
  rw [if_neg (by simp)]
  have hd1 := drop_add hd0
  have hd2 := drop_add hd1
  have hd3 := drop_add hd2
  have hd4 := drop_add hd3
  have hd5 := drop_add hd4
  rw [run_messageField (reads_octetString _ h1) (by exact hd1) (by simp) (by exact he)]
  rw [run_messageField (reads_uint (by decide) (by decide) _ h2) (by exact hd2) (by simp) (by exact he)]
  rw [run_messageField (reads_uint (by decide) (by decide) _ h3) (by exact hd3) (by simp) (by exact he)]
  rw [run_messageField (reads_messageBody b h4 h0 hdep') (by exact hd4) (by simp) (by exact he)]
  have hhead : st.cursor + (encHeader 7 6).length + (enc (opt strTerm m.transactionId)).length + (enc (opt (uintTerm 1) m.groupId)).length +
      (enc (opt (uintTerm 1) m.abortOnError)).length + (enc (messageBodyTerm b)).length = st.cursor + (messageHead m).length := by
    simp [messageHead, messageFields, encAll, hb, opt, Nat.add_assoc]
  rw [hhead] at hd5
  simp only [hhead]
  intro r s
  unfold messageParseTail
  run
  rw [if_neg (by omega), if_neg (by omega)]
  have hu : Reads u16Parse _ _ _ := reads_uint (size := 2) (by decide) (by decide) (some { size := 2, val := c }) (by
    intro a ha
    cases ha
    exact ⟨Nat.le_refl _, fun _ => ⟨rfl, hc16⟩⟩)
  generalize hn : st.live + 1 + own OctetString.blocks m.transactionId + own Num.blocks m.groupId + own Num.blocks m.abortOnError + b.blocks = n
  rw [hu { st with cursor := st.cursor + (messageHead m).length, live := n } _ hd5 (by simp) he]
  run
  have hslice : (st.data.drop st.cursor).take (messageHead m).length = messageHead m := by
    rw [hd]
    unfold messageBytes
    rw [List.append_assoc, List.append_assoc, List.take_left]
  rw [show st.cursor + (messageHead m).length - st.cursor = (messageHead m).length by omega]
  simp only [he]
  have hul : (enc (opt (uintTerm 2) (some { size := 2, val := c }))).length = 3 := by
    simp [opt, uintTerm, enc, bigEndian_length, encHeader_length]
    decide
  rw [run_bind, run_bufferSlice (by simp only; omega)]
  run
  rw [hslice, if_pos hc]
  intro hr
  obtain ⟨e1, e2, e3⟩ := messageFail_rest hr
  obtain ⟨e4, e5, e6⟩ := messageFail_same hr
  exact ⟨e1, e3, e2.trans (drop_add hd5), e4, e5, e6⟩

theorem getLsbD_ofNat16 (c i : Nat) (hi : i < 16) : (BitVec.ofNat 16 c).getLsbD i = c.testBit i := by
  rw [BitVec.getLsbD_ofNat, decide_eq_true hi, Bool.true_and]

/-- The bits of a number of two bytes. -/
theorem parity_two (c : Nat) (hc : c < 65536) : parity (bitsOf (bigEndian 2 c)) = par (BitVec.ofNat 16 c) := by
  have hb : bigEndian 2 c = [UInt8.ofNat (c / 256), UInt8.ofNat (c % 256)] := by
    simp only [bigEndian, show (List.range 2).reverse = [1, 0] from rfl, List.map_cons, List.map_nil, Nat.pow_one, Nat.pow_zero, Nat.div_one]
    rw [Nat.mod_eq_of_lt (by omega : c / 256 < 256)]
  rw [hb, par_halves, Bool.xor_comm]
  simp only [bitsOf, List.flatMap_cons, List.flatMap_nil, List.append_nil, parity_append]
  have hhi : byteBits (UInt8.ofNat (c / 256)) = [8, 9, 10, 11, 12, 13, 14, 15].map fun i => (BitVec.ofNat 16 c).getLsbD i := by
    simp only [byteBits, show List.range 8 = [0, 1, 2, 3, 4, 5, 6, 7] from rfl, List.map_cons, List.map_nil]
    rw [show (UInt8.ofNat (c / 256)).toNat = c / 2 ^ 8 by simp; omega]
    simp only [Nat.testBit_div_two_pow, Nat.reduceAdd]
    simp only [getLsbD_ofNat16 c _ (by decide : (8 : Nat) < 16), getLsbD_ofNat16 c _ (by decide : (9 : Nat) < 16), getLsbD_ofNat16 c _ (by decide : (10 : Nat) < 16), getLsbD_ofNat16 c _ (by decide : (11 : Nat) < 16),
      getLsbD_ofNat16 c _ (by decide : (12 : Nat) < 16), getLsbD_ofNat16 c _ (by decide : (13 : Nat) < 16), getLsbD_ofNat16 c _ (by decide : (14 : Nat) < 16), getLsbD_ofNat16 c _ (by decide : (15 : Nat) < 16)]
  have hlo : byteBits (UInt8.ofNat (c % 256)) = [0, 1, 2, 3, 4, 5, 6, 7].map fun i => (BitVec.ofNat 16 c).getLsbD i := by
    simp only [byteBits, show List.range 8 = [0, 1, 2, 3, 4, 5, 6, 7] from rfl, List.map_cons, List.map_nil]
    rw [show (UInt8.ofNat (c % 256)).toNat = c % 2 ^ 8 by simp]
    simp only [Nat.testBit_mod_two_pow]
    simp only [getLsbD_ofNat16 c _ (by decide : (0 : Nat) < 16), getLsbD_ofNat16 c _ (by decide : (1 : Nat) < 16), getLsbD_ofNat16 c _ (by decide : (2 : Nat) < 16), getLsbD_ofNat16 c _ (by decide : (3 : Nat) < 16),
      getLsbD_ofNat16 c _ (by decide : (4 : Nat) < 16), getLsbD_ofNat16 c _ (by decide : (5 : Nat) < 16), getLsbD_ofNat16 c _ (by decide : (6 : Nat) < 16), getLsbD_ofNat16 c _ (by decide : (7 : Nat) < 16)]
    simp
  rw [hhi, hlo]

theorem bitsOf_append (a b : List UInt8) : bitsOf (a ++ b) = bitsOf a ++ bitsOf b := List.flatMap_append

/-- The bits of a message and its checksum, of either kind, have even parity. -/
theorem parity_messageBytes (m : Message) (c : Nat) (hc : c = (crc16 (messageHead m)).toNat ∨ c = (crc16kermit (messageHead m)).toNat) :
    parity (bitsOf (messageBytes c m)) = false := by
  have h16 : c < 65536 := by rcases hc with rfl | rfl <;> exact (BitVec.isLt _)
  have hp : par (BitVec.ofNat 16 c) = parity (bitsOf (messageHead m)) := by
    rcases hc with rfl | rfl
    · rw [BitVec.ofNat_toNat, BitVec.setWidth_eq, par_crc16]
    · rw [BitVec.ofNat_toNat, BitVec.setWidth_eq, par_kermit]
  have he : enc (.uint (bigEndian 2 c)) = [0x63] ++ bigEndian 2 c := by
    have hl : (bigEndian 2 c).length = 2 := bigEndian_length ..
    simp only [enc, hl]
    congr 1
  rw [messageBytes, he]
  simp only [bitsOf_append, parity_append, parity_two c h16, hp]
  rw [show parity (bitsOf [0x63]) = false by decide, show parity (bitsOf [0x00]) = false by decide]
  simp

end Sml
