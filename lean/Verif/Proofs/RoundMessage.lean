import Verif.Proofs.RoundBodies

/-!
# Encoding and decoding of messages
-/

namespace Sml

open Spec

theorem emits_bodyData (s : Bool) (tag : Nat) (d : BodyData) (h : BodyDataOk s tag d) :
    Emits (bodyDataWrite tag d) (cells (bodyDataTerm d)) := by
  cases d with
  | null => exact h.elim
  | openRequest p =>
    obtain ⟨rfl, hp⟩ := h
    exact emits_some (emits_openRequest s) hp
  | openResponse p =>
    obtain ⟨rfl, hp⟩ := h
    exact emits_some (emits_openResponse s) hp
  | closeRequest p =>
    obtain ⟨rfl, hp⟩ := h
    exact emits_some (emits_closeRequest s) hp
  | closeResponse p =>
    obtain ⟨rfl, hp⟩ := h
    exact emits_some (emits_closeResponse s) hp
  | getProfilePackRequest p =>
    obtain ⟨rfl, hp⟩ := h
    exact emits_some (emits_getProfilePackRequest s) hp
  | getProfilePackResponse p =>
    obtain ⟨rfl, hp⟩ := h
    exact emits_some (emits_getProfilePackResponse s) hp
  | getProfileListRequest p =>
    obtain ⟨rfl, hp⟩ := h
    exact emits_some (emits_getProfilePackRequest s) hp
  | getProfileListResponse p =>
    obtain ⟨rfl, hp⟩ := h
    exact emits_some (emits_getProfileListResponse s) hp
  | getProcParameterRequest p =>
    obtain ⟨rfl, hp⟩ := h
    exact emits_some (emits_getProcParameterRequest s) hp
  | getProcParameterResponse p =>
    obtain ⟨rfl, hp⟩ := h
    exact emits_some (emits_getProcParameterResponse s) hp
  | setProcParameterRequest p =>
    obtain ⟨rfl, hp⟩ := h
    exact emits_some (emits_setProcParameterRequest s) hp
  | getListRequest p =>
    obtain ⟨rfl, hp⟩ := h
    exact emits_some (emits_getListRequest s) hp
  | getListResponse p =>
    obtain ⟨rfl, hp⟩ := h
    exact emits_some (emits_getListResponse s) hp
  | attentionResponse p =>
    obtain ⟨rfl, hp⟩ := h
    exact emits_some (emits_attentionResponse s) hp

theorem reads_bodyData {depth : Nat} (tag : Nat) (d : BodyData) (h : BodyDataOk true tag d) (h0 : 0 < depth) (hd : bodyDepth d ≤ depth) :
    Reads (bodyDataParse depth tag) d (enc (bodyDataTerm d)) d.blocks := by
  rw [← List.append_nil (enc (bodyDataTerm d))]
  cases d with
  | null => exact h.elim
  | openRequest p =>
    obtain ⟨rfl, hp⟩ := h
    exact reads_map (f := BodyData.openRequest) (reads_some reads_openRequest hp)
  | openResponse p =>
    obtain ⟨rfl, hp⟩ := h
    exact reads_map (f := BodyData.openResponse) (reads_some reads_openResponse hp)
  | closeRequest p =>
    obtain ⟨rfl, hp⟩ := h
    exact reads_map (f := BodyData.closeRequest) (reads_some reads_closeRequest hp)
  | closeResponse p =>
    obtain ⟨rfl, hp⟩ := h
    exact reads_map (f := BodyData.closeResponse) (reads_some reads_closeResponse hp)
  | getProfilePackRequest p =>
    obtain ⟨rfl, m, rfl, hm⟩ := h
    exact reads_map (f := BodyData.getProfilePackRequest) (reads_getProfilePackRequest m hm h0 hd)
  | getProfilePackResponse p =>
    obtain ⟨rfl, hp⟩ := h
    exact reads_map (f := BodyData.getProfilePackResponse) (reads_some reads_getProfilePackResponse hp)
  | getProfileListRequest p =>
    obtain ⟨rfl, m, rfl, hm⟩ := h
    exact reads_map (f := BodyData.getProfileListRequest) (reads_getProfilePackRequest m hm h0 hd)
  | getProfileListResponse p =>
    obtain ⟨rfl, hp⟩ := h
    exact reads_map (f := BodyData.getProfileListResponse) (reads_some reads_getProfileListResponse hp)
  | getProcParameterRequest p =>
    obtain ⟨rfl, hp⟩ := h
    exact reads_map (f := BodyData.getProcParameterRequest) (reads_some reads_getProcParameterRequest hp)
  | getProcParameterResponse p =>
    obtain ⟨rfl, m, rfl, hm⟩ := h
    exact reads_map (f := BodyData.getProcParameterResponse) (reads_getProcParameterResponse m hm h0 hd)
  | setProcParameterRequest p =>
    obtain ⟨rfl, m, rfl, hm⟩ := h
    exact reads_map (f := BodyData.setProcParameterRequest) (reads_setProcParameterRequest m hm h0 hd)
  | getListRequest p =>
    obtain ⟨rfl, hp⟩ := h
    exact reads_map (f := BodyData.getListRequest) (reads_some reads_getListRequest hp)
  | getListResponse p =>
    obtain ⟨rfl, hp⟩ := h
    exact reads_map (f := BodyData.getListResponse) (reads_some reads_getListResponse hp)
  | attentionResponse p =>
    obtain ⟨rfl, m, rfl, hm⟩ := h
    exact reads_map (f := BodyData.attentionResponse) (reads_attentionResponse m hm h0 hd)

theorem emits_messageBody (s : Bool) (b : MessageBody) (h : MessageBodyOk s b) :
    Emits (messageBodyWrite (some b)) (cells (messageBodyTerm b)) := by
  obtain ⟨tag, d⟩ := b
  obtain ⟨t, ht, hn, hd⟩ := h
  simp only at ht hd
  subst ht
  refine emits_node rfl (by decide) ?_
  refine emits_cons (emits_uint s (by decide) (by decide) _ (fun a ha => by cases ha; exact hn)) ?_
  exact emits_one (emits_bodyData s _ _ hd)

theorem reads_messageBody {depth : Nat} (b : MessageBody) (h : MessageBodyOk true b) (h0 : 0 < depth) (hd : bodyDepth b.data ≤ depth) :
    Reads (messageBodyParse depth) (some b) (enc (messageBodyTerm b)) b.blocks := by
  obtain ⟨tag, d⟩ := b
  obtain ⟨t, ht, hn, hbd⟩ := h
  simp only at ht hbd hd
  subst ht
  unfold messageBodyParse MessageBody.blocks
  rw [Nat.add_assoc]
  refine reads_alloc ?_
  intro st rest hdr hr he
  have hl : st.cursor + 1 ≤ st.data.length := by
    have h1 : (st.data.drop st.cursor).length = _ := congrArg List.length hdr
    have : 0 < rest.length := List.length_pos_iff.2 hr
    simp at h1
    omega
  run
  rw [if_neg (by omega)]
  refine (?_ : Reads _ _ _ _) st rest hdr hr he
  refine reads_expectList (by decide) ?_
  refine reads_field (reads_uint (by decide) (by decide) _ (fun a ha => by cases ha; exact hn)) ?_
  refine reads_map (f := fun d => some ({ tag := some t, data := d } : MessageBody)) ?_
  exact reads_bodyData _ _ hbd h0 hd

end Sml
