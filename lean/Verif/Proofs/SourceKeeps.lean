import Verif.Proofs.SourceFile

/-!
# Freeing asks for no memory
-/

namespace Sml.C

/-- No address is given out. -/
def KeepsNext (p : P α) : Prop := ∀ st h u st' h', p st h = .ok u st' h' → h'.next = h.next

theorem KeepsNext.bind {p : P α} {k : α → P β} (hp : KeepsNext p) (hk : ∀ a, KeepsNext (k a)) : KeepsNext (p >>= k) := by
  intro st h u st' h' hr
  obtain ⟨b, s, h1, e1, e2⟩ := P_bind_eq_ok hr
  exact (hk b _ _ _ _ _ e2).trans (hp _ _ _ _ _ e1)

theorem KeepsNext.pure : KeepsNext (pure a : P α) := by
  intro st h u st' h' hr
  cases hr
  rfl

theorem KeepsNext.fault : KeepsNext (fault e : P α) := by
  intro st h u st' h' hr
  cases hr

theorem KeepsNext.ite {p q : P α} (c : Prop) [Decidable c] (hp : KeepsNext p) (hq : KeepsNext q) : KeepsNext (if c then p else q) := by
  split <;> assumption

theorem KeepsNext.readPtr : KeepsNext (readPtr a i) := by
  intro st h u st' h' hr
  obtain ⟨_, _, rfl, _⟩ := readPtr_eq_ok hr
  rfl

theorem KeepsNext.readInt : KeepsNext (readInt a i) := by
  intro st h u st' h' hr
  obtain ⟨_, _, rfl, _⟩ := readInt_eq_ok hr
  rfl

theorem KeepsNext.readTag : KeepsNext (readTag w a) := by
  intro st h u st' h' hr
  obtain ⟨_, _, rfl, _⟩ := readTag_eq_ok hr
  rfl

theorem KeepsNext.free : KeepsNext (Sml.free a) := by
  intro st h u st' h' hr
  unfold Sml.free at hr
  split at hr
  · cases hr
    rfl
  · split at hr
    · cases hr
      rfl
    · cases hr

theorem KeepsNext.fields (a : Addr) : (i : Nat) → (gs : List (Addr → P Unit)) → (∀ g ∈ gs, ∀ b, KeepsNext (g b)) → KeepsNext (pFreeFields a i gs)
  | _, [], _ => .free
  | i, g :: gs, h => .bind .readPtr fun v => .bind (h g (List.mem_cons_self ..) v) fun _ => KeepsNext.fields a (i + 1) gs fun g' hg => h g' (List.mem_cons_of_mem _ hg)

theorem KeepsNext.struct (gs : List (Addr → P Unit)) (h : ∀ g ∈ gs, ∀ b, KeepsNext (g b)) (a : Addr) : KeepsNext (pFreeStruct gs a) :=
  .ite _ .pure (.fields a 0 gs h)

theorem KeepsNext.forEach {g : Addr → P Unit} (hg : ∀ a, KeepsNext (g a)) (s : Addr) (i : Nat) : (n k : Nat) → KeepsNext (pForEach g s i n k)
  | 0, _ => .pure
  | n + 1, k => .bind .readPtr fun _ => .bind .readPtr fun _ => .bind (hg _) fun _ => KeepsNext.forEach hg s i n (k + 1)

theorem keepsNext_number (a : Addr) : KeepsNext (pNumberFree a) := .ite _ .free .pure

theorem keepsNext_octet (a : Addr) : KeepsNext (pOctetStringFree a) :=
  .ite _ (.bind .readPtr fun _ => .ite _ (.bind .readPtr fun _ => .bind .free fun _ => .free) .free) .pure

theorem keepsNext_value (a : Addr) : KeepsNext (pValueFree a) :=
  .ite _ (.bind .readInt fun _ => .bind .readPtr fun d => .ite _ (.bind (keepsNext_octet d) fun _ => .free) (.ite _ (.bind (keepsNext_number d) fun _ => .free) (.bind (keepsNext_number d) fun _ => .free))) .pure

theorem KeepsNext.nil : ∀ g ∈ ([] : List (Addr → P Unit)), ∀ b, KeepsNext (g b) := fun _ h => nomatch h

theorem KeepsNext.cons {f : Addr → P Unit} {gs : List (Addr → P Unit)} (hf : ∀ b, KeepsNext (f b)) (hg : ∀ g ∈ gs, ∀ b, KeepsNext (g b)) :
    ∀ g ∈ f :: gs, ∀ b, KeepsNext (g b) := by
  intro g h
  rcases List.mem_cons.mp h with rfl | h
  · exact hf
  · exact hg g h

macro "keepsNext_struct" : tactic => `(tactic| (
  refine KeepsNext.struct _ ?_ _
  repeat (first | exact KeepsNext.nil | refine KeepsNext.cons (by first | exact keepsNext_number | exact keepsNext_octet | exact keepsNext_value | assumption) ?_)))

theorem keepsNext_status (a : Addr) : KeepsNext (pStatusFree a) := by
  unfold pStatusFree
  keepsNext_struct

theorem keepsNext_time (a : Addr) : KeepsNext (pTimeFree a) := by
  unfold pTimeFree
  keepsNext_struct

theorem keepsNext_period (a : Addr) : KeepsNext (pPeriodEntryFree a) := by
  unfold pPeriodEntryFree
  keepsNext_struct

theorem keepsNext_tupel (a : Addr) : KeepsNext (pTupelEntryFree a) := by
  have := keepsNext_time
  unfold pTupelEntryFree
  keepsNext_struct

theorem keepsNext_ppv (a : Addr) : KeepsNext (pProcParValueFree a) :=
  .ite _ (.bind .readPtr fun _ => .bind .readPtr fun d => .ite _
    (.bind .readTag fun _ => .bind (.ite _ (keepsNext_value d) (.ite _ (keepsNext_period d) (.ite _ (keepsNext_tupel d) (.ite _ (keepsNext_time d) (keepsNext_number d)))))
      fun _ => .bind (keepsNext_number _) fun _ => .free)
    (.bind (keepsNext_number d) fun _ => .free)) .pure

theorem keepsNext_tree : (n : Nat) → (a : Addr) → KeepsNext (pTreeFreeAux n a)
  | 0, _ => .fault
  | n + 1, _ => .ite _ (.bind .readPtr fun _ => .bind (keepsNext_octet _) fun _ => .bind .readPtr fun _ => .bind (keepsNext_ppv _) fun _ =>
      .bind .readInt fun _ => .bind (.forEach (keepsNext_tree n) _ _ _ _) fun _ => .bind .readPtr fun _ => .bind .free fun _ => .free) .pure

theorem keepsNext_listEntry (a : Addr) : KeepsNext (pListEntryFree a) := by
  have := keepsNext_time
  have := keepsNext_status
  unfold pListEntryFree
  keepsNext_struct

theorem KeepsNext.seq {g : Addr → P Unit} (hg : ∀ a, KeepsNext (g a)) (a : Addr) : KeepsNext (pSequenceFree f g a) :=
  .ite _ (.bind .readInt fun _ => .ite _ .fault (.bind .readInt fun _ => .bind (.forEach hg _ _ _ _) fun _ => .bind .readPtr fun _ =>
    .ite _ (.bind .readPtr fun _ => .bind .free fun _ => .free) .free)) .pure

theorem keepsNext_listLoop : (fuel : Nat) → (f n : Addr) → KeepsNext (pListFreeLoop fuel f n)
  | 0, _, _ => .fault
  | fuel + 1, _, _ => .ite _ (.bind (keepsNext_listEntry _) fun _ => .ite _ (.bind .readPtr fun _ => keepsNext_listLoop fuel _ _) (keepsNext_listLoop fuel _ _)) .pure

theorem keepsNext_list (a : Addr) : KeepsNext (pListFree a) := by
  intro st h u st' h' hr
  exact (KeepsNext.ite _ (.bind .readPtr fun n => keepsNext_listLoop (h.next + 1) a n) .pure : KeepsNext (if a ≠ 0 then readPtr a 7 >>= fun n => pListFreeLoop (h.next + 1) a n else pure ()))
    st h u st' h' hr

theorem keepsNext_treeFree (a : Addr) : KeepsNext (pTreeFree a) := fun st h u st' h' hr => keepsNext_tree (h.next + 1) a st h u st' h' hr

theorem keepsNext_treePath (a : Addr) : KeepsNext (pTreePathFree a) :=
  .ite _ (.bind .readPtr fun _ => .bind .readInt fun _ => .ite _ (.bind .readInt fun _ => .bind (.forEach keepsNext_octet _ _ _ _) fun _ => .bind .readPtr fun _ => .bind .free fun _ => .free) .free) .pure

theorem keepsNext_objects : (fuel : Nat) → (d : Addr) → KeepsNext (pObjectListFree fuel d)
  | 0, _ => .fault
  | fuel + 1, _ => .ite _ (.bind .readPtr fun _ => .bind .readPtr fun _ => .bind (keepsNext_octet _) fun _ => .bind .free fun _ => keepsNext_objects fuel _) .pure

theorem keepsNext_objectsFree (a : Addr) : KeepsNext (pObjectsFree a) := fun st h u st' h' hr => keepsNext_objects (h.next + 1) a st h u st' h' hr

theorem keepsNext_valueEntry (a : Addr) : KeepsNext (pValueEntryFree a) :=
  KeepsNext.struct _ (.cons keepsNext_value (.cons keepsNext_octet (.nil))) a

theorem keepsNext_headerEntry (a : Addr) : KeepsNext (pProfObjHeaderEntryFree a) :=
  KeepsNext.struct _ (.cons keepsNext_octet (.cons keepsNext_number (.cons keepsNext_number (.nil)))) a

theorem keepsNext_profPeriodEntry (a : Addr) : KeepsNext (pProfObjPeriodEntryFree a) :=
  KeepsNext.struct _ (.cons keepsNext_time (.cons keepsNext_number (.cons (KeepsNext.seq keepsNext_valueEntry) (.cons keepsNext_octet (.nil))))) a

theorem keepsNext_openRequest (a : Addr) : KeepsNext (pOpenRequestFree a) :=
  KeepsNext.struct _ (.cons keepsNext_octet (.cons keepsNext_octet (.cons keepsNext_octet (.cons keepsNext_octet (.cons keepsNext_octet (.cons keepsNext_octet (.cons keepsNext_number (.nil)))))))) a

theorem keepsNext_openResponse (a : Addr) : KeepsNext (pOpenResponseFree a) :=
  KeepsNext.struct _ (.cons keepsNext_octet (.cons keepsNext_octet (.cons keepsNext_octet (.cons keepsNext_octet (.cons keepsNext_time (.cons keepsNext_number (.nil))))))) a

theorem keepsNext_closeRequest (a : Addr) : KeepsNext (pCloseRequestFree a) :=
  KeepsNext.struct _ (.cons keepsNext_octet (.nil)) a

theorem keepsNext_closeResponse (a : Addr) : KeepsNext (pCloseResponseFree a) :=
  KeepsNext.struct _ (.cons keepsNext_octet (.nil)) a

theorem keepsNext_packResponse (a : Addr) : KeepsNext (pGetProfilePackResponseFree a) :=
  KeepsNext.struct _ (.cons keepsNext_octet (.cons keepsNext_time (.cons keepsNext_number (.cons keepsNext_treePath (.cons (KeepsNext.seq keepsNext_headerEntry) (.cons (KeepsNext.seq keepsNext_profPeriodEntry) (.cons keepsNext_octet (.cons keepsNext_octet (.nil))))))))) a

theorem keepsNext_listResponseProfile (a : Addr) : KeepsNext (pGetProfileListResponseFree a) :=
  KeepsNext.struct _ (.cons keepsNext_octet (.cons keepsNext_time (.cons keepsNext_number (.cons keepsNext_treePath (.cons keepsNext_time (.cons keepsNext_number (.cons (KeepsNext.seq keepsNext_period) (.cons keepsNext_octet (.cons keepsNext_octet (.nil)))))))))) a

theorem keepsNext_procParameterRequest (a : Addr) : KeepsNext (pGetProcParameterRequestFree a) :=
  KeepsNext.struct _ (.cons keepsNext_octet (.cons keepsNext_octet (.cons keepsNext_octet (.cons keepsNext_treePath (.cons keepsNext_octet (.nil)))))) a

theorem keepsNext_procParameterResponse (a : Addr) : KeepsNext (pGetProcParameterResponseFree a) :=
  KeepsNext.struct _ (.cons keepsNext_octet (.cons keepsNext_treePath (.cons keepsNext_treeFree (.nil)))) a

theorem keepsNext_setProcParameterRequest (a : Addr) : KeepsNext (pSetProcParameterRequestFree a) :=
  KeepsNext.struct _ (.cons keepsNext_octet (.cons keepsNext_octet (.cons keepsNext_octet (.cons keepsNext_treePath (.cons keepsNext_treeFree (.nil)))))) a

theorem keepsNext_getListResponse (a : Addr) : KeepsNext (pGetListResponseFree a) :=
  KeepsNext.struct _ (.cons keepsNext_octet (.cons keepsNext_octet (.cons keepsNext_octet (.cons keepsNext_time (.cons keepsNext_list (.cons keepsNext_octet (.cons keepsNext_time (.nil)))))))) a

theorem keepsNext_attentionResponse (a : Addr) : KeepsNext (pAttentionResponseFree a) :=
  KeepsNext.struct _ (.cons keepsNext_octet (.cons keepsNext_octet (.cons keepsNext_octet (.cons keepsNext_treeFree (.nil))))) a

theorem keepsNext_getListRequest (a : Addr) : KeepsNext (pGetListRequestFree a) :=
  .ite _ .pure (.bind .readPtr fun _ => .bind (keepsNext_octet _) fun _ => .bind .readPtr fun _ => .bind (keepsNext_octet _) fun _ => .bind .readPtr fun _ => .bind (keepsNext_octet _) fun _ =>
    .bind .readPtr fun _ => .bind (keepsNext_octet _) fun _ => .bind .readPtr fun _ => .bind (keepsNext_octet _) fun _ => .free)

theorem keepsNext_packRequest (a : Addr) : KeepsNext (pGetProfilePackRequestFree a) :=
  KeepsNext.struct _ (.cons keepsNext_octet (.cons keepsNext_octet (.cons keepsNext_octet (.cons keepsNext_number (.cons keepsNext_time (.cons keepsNext_time (.cons keepsNext_treePath
    (.cons keepsNext_objectsFree (.cons keepsNext_treeFree .nil))))))))) a

theorem keepsNext_bodyData (t : Nat) (d : Addr) : KeepsNext (pBodyDataFree t d) :=
  .ite _ (keepsNext_openRequest d) (.ite _ (keepsNext_openResponse d) (.ite _ (keepsNext_closeRequest d) (.ite _ (keepsNext_closeResponse d) (.ite _ (keepsNext_packRequest d)
    (.ite _ (keepsNext_packResponse d) (.ite _ (keepsNext_packRequest d) (.ite _ (keepsNext_listResponseProfile d) (.ite _ (keepsNext_procParameterRequest d)
    (.ite _ (keepsNext_procParameterResponse d) (.ite _ (keepsNext_setProcParameterRequest d) (.ite _ (keepsNext_getListRequest d) (.ite _ (keepsNext_getListResponse d)
    (.ite _ (keepsNext_attentionResponse d) .pure)))))))))))))

theorem keepsNext_messageBody (a : Addr) : KeepsNext (pMessageBodyFree a) :=
  .ite _ (.bind .readPtr fun _ => .bind .readTag fun _ => .bind .readPtr fun _ => .bind (keepsNext_bodyData _ _) fun _ => .bind .readPtr fun _ => .bind (keepsNext_number _) fun _ => .free) .pure

theorem keepsNext_message (a : Addr) : KeepsNext (pMessageFree a) :=
  KeepsNext.struct _ (.cons keepsNext_octet (.cons keepsNext_number (.cons keepsNext_number (.cons keepsNext_messageBody (.cons keepsNext_number (.nil)))))) a

theorem keepsNext_file {g : Addr → P Unit} (hg : ∀ a, KeepsNext (g a)) (a : Addr) : KeepsNext (pFileFreeOf g a) := by
  have tail : KeepsNext (readPtr a 1 >>= fun q => if q ≠ 0 then (readPtr a 1 >>= fun b => g b >>= fun _ => Sml.free a) else Sml.free a) :=
    .bind .readPtr fun _ => .ite _ (.bind .readPtr fun _ => .bind (hg _) fun _ => .free) .free
  exact KeepsNext.ite _ (.bind .readPtr fun _ => .ite _ (.bind .readInt fun _ => .bind (.forEach keepsNext_message _ _ _ _) fun _ => .bind .readPtr fun _ => .bind .free fun _ => tail) tail) .pure

end Sml.C
