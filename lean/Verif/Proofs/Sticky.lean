import Verif.Proofs.FileRun

/-!
# Error flags stay set
-/

namespace Sml

/-- Started with the error flag set, the code ends with it set. -/
def Sticky (p : M α) : Prop := ∀ st, st.error = true → Wlp p st fun _ s => s.error = true

theorem sticky_release (n : Nat) : Sticky (release n) := by
  intro st h; simp only [wlp_release]; intro _; exact h

theorem sticky_bind {p : M α} {f : α → M β} (hp : Sticky p) (hf : ∀ a, Sticky (f a)) : Sticky (p >>= f) := by
  intro st h
  rw [wlp_bind]
  exact (hp st h).mono fun a s hs => hf a s hs

theorem sticky_pure (a : α) : Sticky (pure a : M α) := by
  intro st h; simpa using h

theorem sticky_messageBodyFree (b : Option MessageBody) : Sticky (messageBodyFree b) := by
  unfold messageBodyFree
  split
  · exact sticky_pure _
  · split
    · intro st _; simp
    · exact sticky_release _

theorem sticky_messageFail (m : Message) : Sticky (messageFail m) := by
  unfold messageFail messageFree
  refine sticky_bind ?_ fun _ => sticky_pure _
  refine sticky_bind (sticky_release _) fun _ => ?_
  refine sticky_bind (sticky_release _) fun _ => ?_
  refine sticky_bind (sticky_release _) fun _ => ?_
  refine sticky_bind (sticky_messageBodyFree _) fun _ => ?_
  exact sticky_bind (sticky_release _) fun _ => sticky_release _

theorem sticky_lenLoop (fuel : Nat) : ∀ l k, Sticky (lenLoop fuel l k) := by
  induction fuel with
  | zero => intro l k st _; unfold lenLoop; simp
  | succ n ih =>
    intro l k st h
    unfold lenLoop
    simp only [wlp_bind, wlp_getSt, wlp_ite, wlp_getCurrentByte, wlp_noteOvf, wlp_pure, wlp_updateBytesRead]
    refine ⟨fun _ _ => ⟨fun _ => h, fun _ => ih _ _ _ h⟩, fun _ => h⟩

theorem sticky_getNextLength : Sticky getNextLength := by
  intro st h
  unfold getNextLength
  simp only [wlp_bind, wlp_getSt, wlp_ite, wlp_getCurrentByte, wlp_noteOvf, wlp_pure, wlp_updateBytesRead, wlp_setError]
  refine ⟨fun _ => trivial, fun _ _ => (sticky_lenLoop _ _ _ st h).mono fun r s hs => ⟨fun _ => hs, fun _ => trivial⟩⟩

theorem sticky_getNextType : Sticky getNextType := by
  intro st h
  exact wlp_getNextType (fun _ => rfl) fun _ => h

theorem sticky_octetString : Sticky octetStringParse := by
  intro st h
  unfold octetStringParse octetStringInit
  simp only [wlp_bind, wlp_ite, wlp_pure]
  apply wlp_skipped
  · intro _; exact ⟨fun _ => rfl, fun hf => absurd rfl hf⟩
  · intro _ _; exact ⟨fun _ => h, fun hf => absurd rfl hf⟩
  · intro _ _
    refine ⟨fun hf => absurd hf (by simp), fun _ => ?_⟩
    refine (sticky_getNextType st h).mono fun t s hs => ⟨fun _ => ?_, fun _ => ?_⟩
    · simp
    · refine (sticky_getNextLength s hs).mono fun l s hs => ?_
      simp only [wlp_getSt, wlp_failWith, wlp_readBytes, wlp_alloc, wlp_updateBytesRead]
      exact ⟨fun _ _ => trivial, fun _ _ => ⟨fun _ => hs, fun _ => hs⟩⟩

theorem message_sticky {depth : Nat} {st s : St} {r : Option Message}
    (h : messageParse depth st = .ok r s) (he : st.error = true) : s.error = true := by
  have key : Sticky (messageParse depth) := by
    intro st he
    unfold messageParse cursorAsInt
    simp only [wlp_bind, wlp_alloc, wlp_getSt, wlp_ite, wlp_undef, wlp_pure, wlp_setError]
    refine ⟨fun _ => trivial, fun _ => ?_⟩
    refine (sticky_getNextType _ (by exact he)).mono fun t s hs => ⟨fun _ => ?_, fun _ => ?_⟩
    · exact sticky_messageFail _ _ rfl
    refine (sticky_getNextLength _ hs).mono fun l s hs => ⟨fun _ => ?_, fun _ => ?_⟩
    · exact sticky_messageFail _ _ rfl
    unfold messageField
    simp only [wlp_bind, wlp_hasErrors, wlp_ite]
    refine (sticky_octetString s hs).mono fun v s hs => ⟨fun _ => sticky_messageFail _ _ hs, fun hn => ?_⟩
    exact absurd hs hn
  exact key st he _ _ h

end Sml
