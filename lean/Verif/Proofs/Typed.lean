import Verif.Spec.Client

/-! # What can be encoded and recovered fits into the types of C -/

namespace Sml

open Spec

theorem Spec.Opt.imp {P Q : α → Prop} {o : Option α} (h : Opt P o) (f : ∀ a, P a → Q a) : Opt Q o := fun a ha => f a (h a ha)

theorem someImp {P Q : α → Prop} {o : Option α} (h : Spec.Some P o) (f : ∀ a, P a → Q a) : Opt Q o := by
  obtain ⟨b, rfl, hb⟩ := h
  rintro _ ⟨⟩
  exact f b hb

theorem strOk_typed (x : OctetString) (h : StrOk true x) : StrTyped x := by
  obtain ⟨_, _, h⟩ := h
  rw [StrTyped]
  omega

theorem numOk_typed (k : Nat) (n : Num) (h : NumOk true k n) : NumTyped k n := h.2 rfl

theorem timeOk_typed (t : Time) (h : TimeOk true t) : TimeTyped t := ⟨h.1.imp (numOk_typed 1), h.2.1.imp (numOk_typed 4)⟩

theorem valOk_typed (v : Value) (h : ValOk true v) : ValueTyped v := by
  obtain ⟨ty, d⟩ := v
  cases d with
  | bytes p => exact ⟨h.1, h.2.1.imp strOk_typed⟩
  | boolean p => exact h.1
  | num p =>
    obtain ⟨k, hk, ht, hp, _⟩ := h
    exact ⟨k, hk, ht, hp.imp (numOk_typed k)⟩

theorem statusOk_typed (v : Status) (h : StatusOk true v) : StatusTyped v := by
  obtain ⟨k, hk, ht, hp, _⟩ := h
  exact ⟨k, hk, ht, hp.imp (numOk_typed k)⟩

theorem seqOk_typed {P : Option α → Prop} {Q : α → Prop} {q : Option (Sequence α)} (f : ∀ v, P v → Opt Q v) (h : SeqOk true P q) :
    Opt (SeqTyped Q) q :=
  h.1.imp fun _ hx => ⟨by omega, fun e he => f e (hx.2 e he)⟩

theorem pathOk_typed (p : TreePath) (h : PathOk true p) : PathTyped p :=
  ⟨by have := h.2.1; omega, fun e he => (h.2.2 e he).1.imp strOk_typed⟩

theorem listEntryOk_typed (e : ListEntry) (h : ListEntryOk true e) : EntryTyped e := by
  obtain ⟨h0, h1, h2, h3, h4, h5, h6⟩ := h
  exact ⟨h0.imp strOk_typed, h1.imp statusOk_typed, h2.imp timeOk_typed, h3.imp (numOk_typed 1), h4.imp (numOk_typed 1), h5.imp valOk_typed,
    h6.imp strOk_typed⟩

theorem periodEntryOk_typed (m : PeriodEntry) (h : PeriodEntryOk true m) : PeriodEntryTyped m := by
  obtain ⟨h0, h1, h2, h3, h4⟩ := h
  exact ⟨h0.imp strOk_typed, h1.imp (numOk_typed 1), h2.imp (numOk_typed 1), h3.imp valOk_typed, h4.imp strOk_typed⟩

theorem ppvOk_typed (v : ProcParValue) (h : PpvOk true v) : PpvTyped v := by
  obtain ⟨tag, d⟩ := v
  obtain ⟨t, rfl, ht, hd⟩ := h
  refine ⟨?_, ?_⟩
  · rintro _ ⟨⟩
    exact numOk_typed 1 t ht
  cases d with
  | null => exact hd.elim
  | tupelEntry p => exact hd.elim
  | value p => exact ⟨⟨t, rfl, hd.1⟩, hd.2.imp valOk_typed⟩
  | periodEntry p => exact ⟨⟨t, rfl, hd.1⟩, hd.2.imp periodEntryOk_typed⟩
  | time p => exact ⟨⟨t, rfl, hd.1⟩, hd.2.imp timeOk_typed⟩

theorem treeFits_typed (t : Tree) (h : TreeFits true t) : TreeTyped t := by
  induction h with
  | mk hn hv hl _ ih => exact .mk (hn.imp strOk_typed) (hv.imp ppvOk_typed) (by omega) ih

theorem openRequestOk_typed (m : OpenRequest) (h : OpenRequestOk true m) : OpenRequestTyped m := by
  obtain ⟨h0, h1, h2, h3, h4, h5, h6⟩ := h
  exact ⟨h0.imp strOk_typed, h1.imp strOk_typed, h2.imp strOk_typed, h3.imp strOk_typed, h4.imp strOk_typed, h5.imp strOk_typed, h6.imp (numOk_typed 1)⟩

theorem openResponseOk_typed (m : OpenResponse) (h : OpenResponseOk true m) : OpenResponseTyped m := by
  obtain ⟨h0, h1, h2, h3, h4, h5⟩ := h
  exact ⟨h0.imp strOk_typed, h1.imp strOk_typed, h2.imp strOk_typed, h3.imp strOk_typed, h4.imp timeOk_typed, h5.imp (numOk_typed 1)⟩

theorem closeRequestOk_typed (m : CloseRequest) (h : CloseRequestOk true m) : CloseRequestTyped m := by
  exact h.imp strOk_typed

theorem closeResponseOk_typed (m : CloseResponse) (h : CloseResponseOk true m) : CloseResponseTyped m := by
  exact h.imp strOk_typed

theorem valueEntryOk_typed (m : ValueEntry) (h : ValueEntryOk true m) : ValueEntryTyped m := by
  obtain ⟨h0, h1⟩ := h
  exact ⟨h0.imp valOk_typed, h1.imp strOk_typed⟩

theorem profObjHeaderEntryOk_typed (m : ProfObjHeaderEntry) (h : ProfObjHeaderEntryOk true m) : ProfObjHeaderEntryTyped m := by
  obtain ⟨h0, h1, h2⟩ := h
  exact ⟨h0.imp strOk_typed, h1.imp (numOk_typed 1), h2.imp (numOk_typed 1)⟩

theorem profObjPeriodEntryOk_typed (m : ProfObjPeriodEntry) (h : ProfObjPeriodEntryOk true m) : ProfObjPeriodEntryTyped m := by
  obtain ⟨h0, h1, h2, h3⟩ := h
  exact ⟨h0.imp timeOk_typed, h1.imp (numOk_typed 8), seqOk_typed (fun v hv => someImp hv valueEntryOk_typed) h2, h3.imp strOk_typed⟩

theorem getProfilePackResponseOk_typed (m : GetProfilePackResponse) (h : GetProfilePackResponseOk true m) : GetProfilePackResponseTyped m := by
  obtain ⟨h0, h1, h2, h3, h4, h5, h6, h7⟩ := h
  exact ⟨h0.imp strOk_typed, h1.imp timeOk_typed, h2.imp (numOk_typed 4), h3.imp pathOk_typed, seqOk_typed (fun v hv => someImp hv profObjHeaderEntryOk_typed) h4, seqOk_typed (fun v hv => someImp hv profObjPeriodEntryOk_typed) h5, h6.imp strOk_typed, h7.imp strOk_typed⟩

theorem getProfileListResponseOk_typed (m : GetProfileListResponse) (h : GetProfileListResponseOk true m) : GetProfileListResponseTyped m := by
  obtain ⟨h0, h1, h2, h3, h4, h5, h6, h7, h8⟩ := h
  exact ⟨h0.imp strOk_typed, h1.imp timeOk_typed, h2.imp (numOk_typed 4), h3.imp pathOk_typed, h4.imp timeOk_typed, h5.imp (numOk_typed 8), seqOk_typed (fun v hv => hv.imp periodEntryOk_typed) h6, h7.imp strOk_typed, h8.imp strOk_typed⟩

theorem getProcParameterRequestOk_typed (m : GetProcParameterRequest) (h : GetProcParameterRequestOk true m) : GetProcParameterRequestTyped m := by
  obtain ⟨h0, h1, h2, h3, h4⟩ := h
  exact ⟨h0.imp strOk_typed, h1.imp strOk_typed, h2.imp strOk_typed, h3.imp pathOk_typed, h4.imp strOk_typed⟩

theorem getProcParameterResponseOk_typed (m : GetProcParameterResponse) (h : GetProcParameterResponseOk true m) : GetProcParameterResponseTyped m := by
  obtain ⟨h0, h1, h2⟩ := h
  exact ⟨h0.imp strOk_typed, h1.imp pathOk_typed, h2.imp treeFits_typed⟩

theorem setProcParameterRequestOk_typed (m : SetProcParameterRequest) (h : SetProcParameterRequestOk true m) : SetProcParameterRequestTyped m := by
  obtain ⟨h0, h1, h2, h3, h4⟩ := h
  exact ⟨h0.imp strOk_typed, h1.imp strOk_typed, h2.imp strOk_typed, h3.imp pathOk_typed, h4.imp treeFits_typed⟩

theorem getListRequestOk_typed (m : GetListRequest) (h : GetListRequestOk true m) : GetListRequestTyped m := by
  obtain ⟨h0, h1, h2, h3, h4⟩ := h
  exact ⟨h0.imp strOk_typed, h1.imp strOk_typed, h2.imp strOk_typed, h3.imp strOk_typed, h4.imp strOk_typed⟩

theorem getListResponseOk_typed (m : GetListResponse) (h : GetListResponseOk true m) : GetListResponseTyped m := by
  obtain ⟨h0, h1, h2, h3, h4, h5, h6⟩ := h
  exact ⟨h0.imp strOk_typed, h1.imp strOk_typed, h2.imp strOk_typed, h3.imp timeOk_typed, fun e he => listEntryOk_typed e (h4.2.1 e he), h5.imp strOk_typed, h6.imp timeOk_typed⟩

theorem attentionResponseOk_typed (m : AttentionResponse) (h : AttentionResponseOk true m) : AttentionResponseTyped m := by
  obtain ⟨h0, h1, h2, h3⟩ := h
  exact ⟨h0.imp strOk_typed, h1.imp strOk_typed, h2.imp strOk_typed, h3.imp treeFits_typed⟩

theorem getProfilePackRequestOk_typed (m : GetProfilePackRequest) (h : GetProfilePackRequestOk true m) : GetProfilePackRequestTyped m := by
  obtain ⟨h0, h1, h2, -, h4, h5, h6, h7, h8⟩ := h
  exact ⟨h0.imp strOk_typed, h1.imp strOk_typed, h2.imp strOk_typed, h4.imp timeOk_typed, h5.imp timeOk_typed, h6.imp pathOk_typed, (by rw [h7]; simp), h8.imp treeFits_typed⟩

theorem bodyDataOk_typed (tag : Nat) (d : BodyData) (h : BodyDataOk true tag d) : BodyDataTyped tag d := by
  cases d with
  | null => exact h.elim
  | openRequest p => exact ⟨h.1, someImp h.2 openRequestOk_typed⟩
  | openResponse p => exact ⟨h.1, someImp h.2 openResponseOk_typed⟩
  | closeRequest p => exact ⟨h.1, someImp h.2 closeRequestOk_typed⟩
  | closeResponse p => exact ⟨h.1, someImp h.2 closeResponseOk_typed⟩
  | getProfilePackRequest p => exact ⟨h.1, someImp h.2 getProfilePackRequestOk_typed⟩
  | getProfilePackResponse p => exact ⟨h.1, someImp h.2 getProfilePackResponseOk_typed⟩
  | getProfileListRequest p => exact ⟨h.1, someImp h.2 getProfilePackRequestOk_typed⟩
  | getProfileListResponse p => exact ⟨h.1, someImp h.2 getProfileListResponseOk_typed⟩
  | getProcParameterRequest p => exact ⟨h.1, someImp h.2 getProcParameterRequestOk_typed⟩
  | getProcParameterResponse p => exact ⟨h.1, someImp h.2 getProcParameterResponseOk_typed⟩
  | setProcParameterRequest p => exact ⟨h.1, someImp h.2 setProcParameterRequestOk_typed⟩
  | getListRequest p => exact ⟨h.1, someImp h.2 getListRequestOk_typed⟩
  | getListResponse p => exact ⟨h.1, someImp h.2 getListResponseOk_typed⟩
  | attentionResponse p => exact ⟨h.1, someImp h.2 attentionResponseOk_typed⟩

/-- A message that can be sent and recovered (`MessageOk true`) can be built. -/
theorem messageOk_typed (m : Message) (h : MessageOk true m) (hc : m.crc = none) : MessageTyped m := by
  obtain ⟨h0, h1, h2, h3⟩ := h
  refine ⟨h0.imp strOk_typed, h1.imp (numOk_typed 1), h2.imp (numOk_typed 1), someImp h3 fun b hb => ?_, hc⟩
  obtain ⟨t, ht, hn, hd⟩ := hb
  exact ⟨t, ht, numOk_typed 4 t hn, bodyDataOk_typed _ _ hd⟩

end Sml
