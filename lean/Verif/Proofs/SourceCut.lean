import Verif.Proofs.SourceOverBody
import Verif.Proofs.HeapWriteFile
import Verif.Props.Writing

/-!
# The write functions on a buffer and on a longer one

What is written into a longer buffer is written into a shorter one as well, or leaves it.
-/

namespace Sml.C

/-- The buffer with the bytes `e` behind it. -/
def wider (st : St) (e : List UInt8) : St := { st with data := st.data ++ e }

/-- Of the buffer functions. -/
def CutM (m : M Unit) : Prop := ∀ st e u st', m (wider st e) = .ok u st' → (∃ s1, m st = .ok u s1 ∧ st' = wider s1 e) ∨ m st = .ub .oobWrite

theorem M_bind_ub_of {p : M α} {k : α → M β} (h : p st = .ub r) : (p >>= k) st = .ub r := by
  show (match p st with | .ok a st' => k a st' | .ub b => .ub b) = _
  rw [h]

theorem CutM.bind {p q : M Unit} (hp : CutM p) (hq : CutM q) : CutM (p >>= fun _ => q) := by
  intro st e u st' hr
  replace hr := M_bind_eq_ok hr
  obtain ⟨v, s1, e1, hr⟩ := hr
  rcases hp _ _ _ _ e1 with ⟨s2, e2, rfl⟩ | e2
  · rw [M.bind_ok e2]
    exact hq _ _ _ _ hr
  · exact .inr (M_bind_ub_of e2)

theorem CutM.ite {p q : M Unit} (c : Prop) [Decidable c] (hp : CutM p) (hq : CutM q) : CutM (if c then p else q) := by
  split <;> assumption

theorem CutM.undef : CutM (undef r) := fun _ _ _ _ h => nomatch h

theorem CutM.pure : CutM (pure ()) := by
  intro st e u st' hr
  cases hr
  exact .inl ⟨_, rfl, rfl⟩

theorem CutM.advance : CutM advance := by
  intro st e u st' hr
  cases hr
  exact .inl ⟨_, rfl, rfl⟩

theorem CutM.note (b : Bool) : CutM (noteOvf b) := by
  intro st e u st' hr
  cases hr
  exact .inl ⟨_, rfl, rfl⟩

theorem CutM.setByte (b : UInt8) : CutM (setByte b) := by
  intro st e u st' hr
  by_cases hc : st.cursor < st.data.length
  · have h2 : (wider st e).cursor < (wider st e).data.length := by
      simp only [wider, List.length_append]
      omega
    rw [Sml.setByte, if_pos h2] at hr
    cases hr
    refine .inl ⟨_, if_pos hc, ?_⟩
    simp only [wider, List.set_append_left _ _ hc]
  · exact .inr (if_neg hc)

theorem CutM.orByte (b : UInt8) : CutM (orByte b) := by
  intro st e u st' hr
  by_cases hc : st.cursor < st.data.length
  · have h2 : (wider st e).data[(wider st e).cursor]? = some st.data[st.cursor] := by
      simp only [wider]
      rw [List.getElem?_append_left hc, List.getElem?_eq_getElem hc]
    rw [Sml.orByte, h2] at hr
    cases hr
    refine .inl ⟨{ st with data := st.data.set st.cursor (st.data[st.cursor] ||| b) }, ?_, ?_⟩
    · rw [Sml.orByte, List.getElem?_eq_getElem hc]
    · simp only [wider, List.set_append_left _ _ hc]
  · refine .inr ?_
    rw [Sml.orByte, List.getElem?_eq_none (by omega)]

theorem CutM.putBytes (bs : List UInt8) : CutM (putBytes bs) := by
  intro st e u st' hr
  by_cases hc : st.cursor + bs.length ≤ st.data.length
  · have h2 : (wider st e).cursor + bs.length ≤ (wider st e).data.length := by
      simp only [wider, List.length_append]
      omega
    rw [Sml.putBytes, if_pos h2] at hr
    cases hr
    refine .inl ⟨_, if_pos hc, ?_⟩
    simp only [wider]
    rw [List.take_append_of_le_length (by omega), List.drop_append_of_le_length hc, List.append_assoc (_ ++ _)]
  · exact .inr (if_neg hc)

theorem CutM.copyLoop : (fuel mask pos l : Nat) → CutM (copyLoop fuel mask pos l)
  | 0, _, _, _ => .undef
  | _ + 1, _, _, _ => .ite _ (.bind (.orByte _) (.bind (.orByte _) (.bind .advance (CutM.copyLoop _ _ _ _)))) .pure

theorem CutM.setTypeAndLength (type l : Nat) : CutM (setTypeAndLength type l) := by
  unfold Sml.setTypeAndLength
  refine .bind (.setByte _) ?_
  dsimp only
  exact .ite _ (.ite _ .undef (.bind (.note _) (.ite _ (.bind (.copyLoop _ _ _ _) (.bind (.orByte _) .advance)) (.bind (.copyLoop _ _ _ _) (.bind (.orByte _) .advance)))))
    (.bind (.orByte _) .advance)

theorem CutM.optional : CutM optionalWrite := .bind (.setByte _) .advance

/-- A part of a write function: run on a longer buffer and on its front. -/
def Cut (p : P α) : Prop :=
  ∀ st h e u st' h', st.cursor ≤ st.data.length → p (wider st e) h = .ok u st' h' →
    (∃ s1, p st h = .ok u s1 h' ∧ st' = wider s1 e ∧ s1.cursor ≤ s1.data.length ∧ s1.data.length = st.data.length ∧ st.cursor ≤ s1.cursor) ∨ p st h = .bad overrun

theorem Cut.bindFrom {p : P α} {k : α → P β} (hc : st.cursor ≤ st.data.length) (hp : Cut p) (hr : (p >>= k) (wider st e) h = .ok u st' h')
    (hk : ∀ a s1 h1, s1.cursor ≤ s1.data.length → s1.data.length = st.data.length → st.cursor ≤ s1.cursor → k a (wider s1 e) h1 = .ok u st' h' →
      (∃ s2, k a s1 h1 = .ok u s2 h' ∧ st' = wider s2 e ∧ s2.cursor ≤ s2.data.length ∧ s2.data.length = s1.data.length ∧ s1.cursor ≤ s2.cursor) ∨ k a s1 h1 = .bad overrun) :
    (∃ s1, (p >>= k) st h = .ok u s1 h' ∧ st' = wider s1 e ∧ s1.cursor ≤ s1.data.length ∧ s1.data.length = st.data.length ∧ st.cursor ≤ s1.cursor) ∨ (p >>= k) st h = .bad overrun := by
  replace hr := P_bind_eq_ok hr
  obtain ⟨a, s1, h1, e1, hr⟩ := hr
  rcases hp _ _ _ _ _ _ hc e1 with ⟨s2, e2, rfl, c1, c2, c3⟩ | e2
  · rw [P.bind_ok e2]
    rcases hk a s2 h1 c1 c2 c3 hr with ⟨s3, e3, rfl, d1, d2, d3⟩ | e3
    · exact .inl ⟨s3, e3, rfl, d1, by omega, by omega⟩
    · exact .inr e3
  · exact .inr (P_bind_bad_of e2)

theorem Cut.bind {p : P α} {k : α → P β} (hp : Cut p) (hk : ∀ a, Cut (k a)) : Cut (p >>= k) :=
  fun _ _ _ _ _ _ hc hr => Cut.bindFrom hc hp hr fun a _ _ c1 _ _ hr => hk a _ _ _ _ _ _ c1 hr

theorem Cut.ite {p q : P α} (c : Prop) [Decidable c] (hp : Cut p) (hq : Cut q) : Cut (if c then p else q) := by
  split <;> assumption

theorem Cut.pure : Cut (pure a : P α) := by
  intro st h e u st' h' hc hr
  cases hr
  exact .inl ⟨st, rfl, rfl, hc, rfl, Nat.le_refl _⟩

theorem Cut.fault : Cut (fault r : P α) := fun _ _ _ _ _ _ _ h => nomatch h

theorem Cut.deref : Cut (deref a) := by
  intro st h e u st' h' hc hr
  unfold Sml.deref at hr ⊢
  split at hr
  · cases hr
  · split at hr
    · next hz _ _ hq =>
      cases hr
      exact .inl ⟨st, by rw [if_neg hz], rfl, hc, rfl, Nat.le_refl _⟩
    · cases hr

theorem Cut.readPtr : Cut (readPtr a i) := by
  refine .bind .deref fun c => ?_
  cases c with
  | struct ps is =>
    dsimp only
    split
    · exact .pure
    · exact .fault
  | _ => exact .fault

theorem Cut.readInt : Cut (readInt a i) := by
  refine .bind .deref fun c => ?_
  cases c with
  | struct ps is =>
    dsimp only
    split
    · exact .pure
    · exact .fault
  | _ => exact .fault

theorem Cut.readNum : Cut (readNum a) := by
  refine .bind .deref fun c => ?_
  cases c with
  | num n => exact .pure
  | _ => exact .fault

theorem Cut.readRaw : Cut (readRaw a n) := by
  refine .bind .deref fun c => ?_
  cases c with
  | bytes bs => exact .ite _ .pure .fault
  | _ => exact .fault

theorem Cut.readTag : Cut (readTag w a) := .bind .readNum fun _ => .ite _ .pure .fault

theorem Cut.writePtr : Cut (writePtr a i v) := by
  refine .bind .deref fun c => ?_
  cases c with
  | struct ps is =>
    refine .ite _ (.bind .deref fun _ => ?_) .fault
    intro st h e u st' h' hc hr
    cases hr
    exact .inl ⟨st, rfl, rfl, hc, rfl, Nat.le_refl _⟩
  | _ => exact .fault

theorem Cut.act {m : M Unit} (hm : CutM m) (ha : Adv k m) : Cut (lift m) := by
  intro st h e u st' h' hc hr
  replace hr := lift_eq_ok hr
  obtain ⟨hr, rfl⟩ := hr
  rcases hm _ _ _ _ hr with ⟨s1, e1, rfl⟩ | e1
  · obtain ⟨a1, a2, a3⟩ := ha _ _ _ e1
    exact .inl ⟨s1, by rw [Sml.lift, e1], rfl, a3 hc, a1, by omega⟩
  · exact .inr (by rw [Sml.lift, e1])

/-- The buffer functions that the write functions call. -/
class Writes (m : M Unit) : Prop where
  cut : CutM m
  adv : ∃ k, Adv k m

instance : Writes optionalWrite := ⟨.optional, _, adv_optional⟩
instance : Writes (setTypeAndLength type l) := ⟨.setTypeAndLength _ _, _, adv_setTypeAndLength _ _⟩

theorem Cut.lift {m : M Unit} [h : Writes m] : Cut (Sml.lift m) := by
  obtain ⟨_, ha⟩ := h.adv
  exact .act h.cut ha

theorem adv_putBytes (bs : List UInt8) : Adv 0 (putBytes bs) := by
  intro st u st' hr
  unfold putBytes at hr
  split at hr
  · cases hr
    simp only [List.length_append, List.length_take, List.length_drop]
    omega
  · cases hr

instance : Writes (putBytes bs) := ⟨.putBytes _, _, adv_putBytes _⟩

theorem adv_byte (b : UInt8) : Adv 1 (setByte b >>= fun _ => advance) := by
  intro st u st' hr
  obtain ⟨_, s1, e1, e2⟩ := M_bind_eq_ok hr
  obtain ⟨hc, rfl⟩ := setByte_eq_ok e1
  cases e2
  exact ⟨List.length_set, Nat.le_refl _, fun _ => by simp only [List.length_set]; omega⟩

theorem Cut.byte {b : UInt8} : Cut (Sml.lift (setByte b) >>= fun _ => Sml.lift advance) := by
  have h : (Sml.lift (setByte b) >>= fun _ => Sml.lift advance) = Sml.lift (setByte b >>= fun _ => advance) := by
    funext st h
    cases hr : setByte b st with
    | ok u s1 =>
      rw [Sml.lift, M.bind_ok hr, P.bind_ok (a := ()) (st' := s1) (hp' := h) (by rw [Sml.lift, hr])]
      rfl
    | ub r =>
      rw [Sml.lift, M_bind_ub_of hr, P_bind_bad_of (b := .buf r) (by rw [Sml.lift, hr])]
  rw [h]
  exact .act (.bind (.setByte _) .advance) (adv_byte b)

theorem Cut.forEach {g : Addr → P Unit} (hg : ∀ a, Cut (g a)) (s : Addr) (i : Nat) : (n k : Nat) → Cut (pForEach g s i n k)
  | 0, _ => .pure
  | n + 1, k => .bind .readPtr fun _ => .bind .readPtr fun _ => .bind (hg _) fun _ => Cut.forEach hg s i n (k + 1)

theorem Cut.fields (a : Addr) : (i : Nat) → (ws : List (Addr → P Unit)) → (∀ w ∈ ws, ∀ b, Cut (w b)) → Cut (pWriteFields a i ws)
  | _, [], _ => .pure
  | i, w :: ws, h => .bind .readPtr fun v => .bind (h w (List.mem_cons_self ..) v) fun _ => Cut.fields a (i + 1) ws fun g' hg => h g' (List.mem_cons_of_mem _ hg)

theorem Cut.struct {n : Nat} (ws : List (Addr → P Unit)) (h : ∀ w ∈ ws, ∀ b, Cut (w b)) (a : Addr) : Cut (pWriteStruct n ws a) :=
  .bind .lift fun _ => .fields a 0 ws h

theorem Cut.nil : ∀ g ∈ ([] : List (Addr → P Unit)), ∀ b, Cut (g b) := fun _ h => nomatch h
theorem Cut.cons {f : Addr → P Unit} {gs : List (Addr → P Unit)} (hf : ∀ b, Cut (f b)) (hg : ∀ g ∈ gs, ∀ b, Cut (g b)) :
    ∀ g ∈ f :: gs, ∀ b, Cut (g b) := by
  intro g h
  rcases List.mem_cons.mp h with rfl | h
  · exact hf
  · exact hg g h

theorem cut_number {type size : Nat} (a : Addr) : Cut (pNumberWrite type size a) :=
  .ite _ .lift (.bind .lift fun _ => .ite _ .fault (.bind .readNum fun _ => .ite _ .lift .fault))
theorem cut_octet (a : Addr) : Cut (pOctetStringWrite a) :=
  .ite _ .lift (.bind .readInt fun _ => .bind .lift fun _ => .bind (.bind .readPtr fun _ => .bind .readInt fun _ => .ite _ .pure .readRaw) fun _ => .lift)
theorem cut_boolean (a : Addr) : Cut (pBooleanWrite a) :=
  .ite _ .lift (.bind .lift fun _ => .bind .readTag fun _ => .ite _ .byte .byte)
theorem cut_value (a : Addr) : Cut (pValueWrite a) :=
  .ite _ .lift (.bind .readInt fun _ => .bind .readPtr fun d => .ite _ (cut_octet d) (.ite _ (cut_boolean d) (.ite _ (cut_number d) .pure)))
theorem cut_status (a : Addr) : Cut (pStatusWrite a) := .ite _ .lift (.bind .readInt fun _ => .bind .readPtr fun _ => cut_number _)
theorem cut_seq {w : Addr → P Unit} (hw : ∀ a, Cut (w a)) (a : Addr) : Cut (pSequenceWrite w a) :=
  .ite _ .lift (.bind .readInt fun _ => .bind .lift fun _ => .bind .readInt fun _ => .forEach hw _ _ _ _)

macro "cut_struct" : tactic => `(tactic| (
  refine Cut.struct _ ?_ _
  repeat (first | exact Cut.nil | refine Cut.cons (by first | exact cut_octet | exact fun _ => cut_number _ | exact cut_value | exact cut_boolean | exact cut_status | assumption) ?_)))

theorem cut_time (a : Addr) : Cut (pTimeWrite a) := by
  refine .ite _ .lift ?_
  cut_struct
theorem cut_listEntry (a : Addr) : Cut (pListEntryWrite a) := by
  have := cut_time
  unfold pListEntryWrite
  cut_struct
theorem cut_period (a : Addr) : Cut (pPeriodEntryWrite a) := by
  refine .ite _ .lift ?_
  cut_struct
theorem cut_tupel (a : Addr) : Cut (pTupelEntryWrite a) := by
  have := cut_time
  refine .ite _ .lift ?_
  cut_struct
theorem cut_valueEntry (a : Addr) : Cut (pValueEntryWrite a) := by
  unfold pValueEntryWrite
  cut_struct
theorem cut_header (a : Addr) : Cut (pProfObjHeaderEntryWrite a) := by
  unfold pProfObjHeaderEntryWrite
  cut_struct
theorem cut_profPeriod (a : Addr) : Cut (pProfObjPeriodEntryWrite a) := by
  have := cut_time
  have := cut_seq cut_valueEntry
  unfold pProfObjPeriodEntryWrite
  cut_struct
theorem cut_path (a : Addr) : Cut (pTreePathWrite a) :=
  .ite _ .lift (.bind .readPtr fun _ => .bind .readInt fun _ => .ite _ (.bind .readInt fun _ => .bind .lift fun _ => .bind .readInt fun _ => .forEach cut_octet _ _ _ _) .pure)
theorem cut_ppv (a : Addr) : Cut (pProcParValueWrite a) :=
  .ite _ .lift (.bind .lift fun _ => .bind .readPtr fun _ => .bind (cut_number _) fun _ => .bind .readPtr fun _ => .bind .readTag fun _ => .bind .readPtr fun d =>
    .ite _ (cut_value d) (.ite _ (cut_period d) (.ite _ (cut_tupel d) (.ite _ (cut_time d) .pure))))
theorem cut_tree : (n : Nat) → (a : Addr) → Cut (pTreeWriteAux n a)
  | 0, _ => .fault
  | n + 1, _ => .ite _ .lift (.bind .lift fun _ => .bind .readPtr fun _ => .bind (cut_octet _) fun _ => .bind .readPtr fun _ => .bind (cut_ppv _) fun _ =>
      .bind .readPtr fun _ => .bind .readInt fun _ => .ite _ (.bind .readInt fun _ => .bind .lift fun _ => .bind .readInt fun _ => .forEach (cut_tree n) _ _ _ _) .lift)

theorem cut_treeWrite' (a : Addr) : Cut (pTreeWrite a) := fun st h _ _ _ _ hc hr => cut_tree (h.next + 1) a st h _ _ _ _ hc hr

theorem cut_listLen : (fuel : Nat) → (i : Addr) → (len : Nat) → Cut (pListLen fuel i len)
  | 0, _, _ => .fault
  | n + 1, _, _ => by
    unfold pListLen
    exact .ite _ (.bind .readPtr fun _ => cut_listLen n _ _) .pure

theorem cut_listLoop : (fuel : Nat) → (i : Addr) → Cut (pListWriteLoop fuel i)
  | 0, _ => .fault
  | n + 1, i => by
    unfold pListWriteLoop
    exact .ite _ (.bind (cut_listEntry i) fun _ => .bind .readPtr fun _ => cut_listLoop n _) .pure

theorem cut_list (a : Addr) : Cut (pListWrite a) := by
  intro st h e u st' h' hc hr
  exact (Cut.ite _ .lift (.bind (cut_listLen _ _ _) fun _ => .bind .lift fun _ => cut_listLoop _ _) : Cut _) _ _ _ _ _ _ hc hr

theorem cut_objectsLen : (fuel : Nat) → (i : Addr) → (len : Nat) → Cut (pObjectsLen fuel i len)
  | 0, _, _ => .fault
  | n + 1, _, _ => by
    unfold pObjectsLen
    exact .bind .readPtr fun _ => .ite _ (.bind .readPtr fun _ => cut_objectsLen n _ _) .pure

theorem cut_objectsLoop : (fuel : Nat) → (i : Addr) → Cut (pObjectsWriteLoop fuel i)
  | 0, _ => .fault
  | n + 1, i => by
    unfold pObjectsWriteLoop
    exact .bind .readPtr fun _ => .ite _ (.bind .readPtr fun _ => .bind (cut_octet _) fun _ => .bind .readPtr fun _ => cut_objectsLoop n _) .pure

theorem cut_objects (a : Addr) : Cut (pObjectsWrite a) := by
  intro st h e u st' h' hc hr
  exact (Cut.ite _ (.bind (cut_objectsLen _ _ _) fun _ => .bind .lift fun _ => cut_objectsLoop _ _) .lift : Cut _) _ _ _ _ _ _ hc hr

macro "cut_body" : tactic => `(tactic| (
  have := cut_time
  have := cut_path
  have := cut_treeWrite'
  have := cut_list
  have := cut_objects
  have := cut_seq cut_header
  have := cut_seq cut_profPeriod
  have := cut_seq cut_period
  cut_struct))

theorem cut_bodyData (t : Nat) (a : Addr) : Cut (pBodyDataWrite t a) := by
  unfold pBodyDataWrite
  refine .ite _ ?_ <| .ite _ ?_ <| .ite _ ?_ <| .ite _ ?_ <| .ite _ ?_ <| .ite _ ?_ <| .ite _ ?_ <| .ite _ ?_ <| .ite _ ?_ <| .ite _ ?_ <|
    .ite _ ?_ <| .ite _ ?_ <| .ite _ ?_ <| .ite _ ?_ .pure
  · unfold pOpenRequestWrite; cut_body
  · unfold pOpenResponseWrite; cut_body
  · unfold pCloseRequestWrite; cut_body
  · unfold pCloseResponseWrite; cut_body
  · unfold pGetProfilePackRequestWrite; cut_body
  · unfold pGetProfilePackResponseWrite; cut_body
  · unfold pGetProfilePackRequestWrite; cut_body
  · unfold pGetProfileListResponseWrite; cut_body
  · unfold pGetProcParameterRequestWrite; cut_body
  · unfold pGetProcParameterResponseWrite; cut_body
  · unfold pSetProcParameterRequestWrite; cut_body
  · unfold pGetListRequestWrite; cut_body
  · unfold pGetListResponseWrite; cut_body
  · unfold pAttentionResponseWrite; cut_body

theorem cut_messageBody (a : Addr) : Cut (pMessageBodyWrite a) :=
  .bind .lift fun _ => .bind .readPtr fun _ => .bind (cut_number _) fun _ => .bind .readPtr fun _ => .bind .readTag fun _ => .bind .readPtr fun _ => cut_bodyData _ _

/-! ## Messages -/

theorem cut_crcObject (hn : n ≤ st.cursor) (hc : st.cursor ≤ st.data.length) (hr : pCrcObject n (wider st e) h = .ok u st' h') : pCrcObject n st h = .ok u st h' ∧ st' = wider st e := by
  replace hr := P_bind_eq_ok hr
  obtain ⟨s, s1, g1, e1, hr⟩ := hr
  obtain ⟨rfl, rfl, rfl⟩ := getSt_eq_ok e1
  split at hr
  · cases hr
  next hz =>
  replace hr := P_bind_eq_ok hr
  obtain ⟨bs, s2, g2, e2, hr⟩ := hr
  obtain ⟨hle, rfl, rfl, rfl⟩ := bufferSlice_eq_ok e2
  cases hr
  have e3 : lift getSt st g2 = .ok st st g2 := rfl
  have e4 : lift (bufferSlice n (st.cursor - n)) st g2 = .ok ((st.data.drop n).take (st.cursor - n)) st g2 := by
    unfold lift bufferSlice
    rw [if_pos (by omega)]
  refine ⟨?_, rfl⟩
  unfold pCrcObject
  rw [P.bind_ok e3, if_neg (by exact hz), P.bind_ok e4]
  simp only [wider]
  rw [List.drop_append_of_le_length (by omega), List.take_append_of_le_length (by simp; omega)]
  rfl

theorem cut_messageWrite (a : Addr) : Cut (pMessageWrite a) := by
  intro st h e u st' h' hc hr
  rw [messageWrite_eq] at hr ⊢
  replace hr := P_bind_eq_ok hr
  obtain ⟨n, s1, h1, e1, hr⟩ := hr
  have e0 : lift cursorAsInt st h = .ok n st h ∧ n = st.cursor ∧ s1 = wider st e ∧ h1 = h := by
    unfold lift at e1 ⊢
    cases hq : cursorAsInt (wider st e) with
    | ub r => rw [hq] at e1; cases e1
    | ok v s =>
      rw [hq] at e1
      cases e1
      replace hq := M_bind_eq_ok hq
      obtain ⟨_, _, e2, hq⟩ := hq
      cases e2
      split at hq
      · cases hq
      · next hz =>
        cases hq
        refine ⟨?_, rfl, rfl, rfl⟩
        have : cursorAsInt st = .ok st.cursor st := by
          show (if _ then _ else _ : M Nat) st = _
          rw [if_neg (by exact hz)]
          rfl
        rw [this]
        rfl
  obtain ⟨e0, rfl, rfl, rfl⟩ := e0
  rw [P.bind_ok e0]
  have hf : Cut (lift (setTypeAndLength tyList 6) >>= fun _ => pWriteFields a 0 [pOctetStringWrite, pU8Write, pU8Write, pMessageBodyWrite]) :=
    .bind .lift fun _ => .fields a 0 _ (.cons cut_octet (.cons (fun _ => cut_number _) (.cons (fun _ => cut_number _) (.cons cut_messageBody .nil))))
  rw [← P_bind_assoc] at hr ⊢
  refine Cut.bindFrom hc hf hr fun _ s2 h2 c1 c2 c3 hr => ?_
  replace hr := P_bind_eq_ok hr
  obtain ⟨crc, s3, h3, e3, hr⟩ := hr
  obtain ⟨e4, rfl⟩ := cut_crcObject c3 c1 e3
  rw [P.bind_ok e4]
  exact (.bind .writePtr fun _ => .bind .readPtr fun _ => .bind (cut_number _) fun _ => .byte : Cut (writePtr a 4 crc >>= fun _ =>
    readPtr a 4 >>= fun v => pU16Write v >>= fun _ => lift (setByte 0x00) >>= fun _ => lift advance)) _ _ _ _ _ _ c1 hr

open Spec in
/-- Where the message does not fit, the model of the function on the heap leaves the buffer. -/
theorem messageWrite_over (s : Bool) (m : Message) (hm : MessageOk s m) (hr : RMessage m a B) (o : Own n0 c0 h (B ++ g)) (st : St)
    (hc : st.cursor ≤ st.data.length) (hn : st.data.length < st.cursor + (messageBytes (checksum m) m).length) (hl : st.cursor + (messageBytes (checksum m) m).length ≤ 2147483647) :
    pMessageWrite a st.dry h = .bad overrun := by
  have hw := ((c31_message s m hm (wider st (List.replicate (st.cursor + (messageBytes (checksum m) m).length - st.data.length) 0))
    (by simp only [wider, List.length_append]; omega) (by simp only [wider, List.length_append, List.length_replicate]; omega)).1
    (by simp only [wider, List.length_append, List.length_replicate]; omega))
  obtain ⟨m', s', hw, hcur, _⟩ := hw
  obtain ⟨_, h', B', g', e1, _⟩ := sim_messageWrite (B := B) (D := []) m a hr _ n0 c0 h g (by simpa using o) m' s' hw
  rcases cut_messageWrite a st.dry h _ _ _ _ hc e1 with ⟨s1, _, e2, c1, c2, _⟩ | e2
  · have : s'.dry.cursor = s1.cursor := by rw [e2]; rfl
    have h2 : s'.dry.cursor = s'.cursor := rfl
    have h3 : st.dry.data.length = st.data.length := rfl
    have h4 : (wider st (List.replicate (st.cursor + (messageBytes (checksum m) m).length - st.data.length) 0)).cursor = st.cursor := rfl
    omega
  · exact e2

end Sml.C
