import Verif.Proofs.Block
import Verif.Spec.Content

/-!
# Tags and stored objects agree in whatever is parsed
-/

namespace Sml

open Spec

set_option linter.unusedSimpArgs false

theorem inv_bind {p : M α} {k : α → M β} {P : α → Prop} {Q : β → Prop} (hp : Inv p P)
    (hk : ∀ a, P a → Inv (k a) Q) : Inv (p >>= k) Q := by
  intro st
  simp only [wlp_bind]
  exact (hp st).mono fun a s ha => hk a ha s

theorem inv_ite {c : Prop} [Decidable c] {p q : M α} {P : α → Prop} (hp : c → Inv p P) (hq : ¬ c → Inv q P) :
    Inv (if c then p else q) P := by
  split
  · exact hp ‹_›
  · exact hq ‹_›

theorem inv_failWith {own : Nat} {P : Option α → Prop} (h : P none) : Inv (failWith own) P := by
  intro st
  simp only [wlp_failWith]
  exact fun _ => h

theorem inv_value : Inv valueParse ValueOk := fun st =>
  (value_result st).mono fun _ _ h x hx => (h x hx).1

theorem inv_periodEntry : Inv periodEntryParse fun e => ∀ x, e = some x → ValueOk x.value := by
  refine inv_optional (by simp) (inv_node (by simp) ?_)
  refine inv_field Inv.triv (by simp) fun _ _ => inv_field Inv.triv (by simp) fun _ _ => inv_field Inv.triv (by simp)
    fun _ _ => inv_field inv_value (by simp) fun v hv => inv_field Inv.triv (by simp) fun _ _ => inv_pure ?_
  rintro x hx; cases hx; exact hv

theorem inv_valueEntry : Inv valueEntryParse fun e => ∀ x, e = some x → ValueOk x.value := by
  refine inv_node (by simp) ?_
  refine inv_field inv_value (by simp) fun v hv => inv_field Inv.triv (by simp) fun _ _ => inv_pure ?_
  rintro x hx; cases hx; exact hv

theorem inv_sequence {p : M (Option α)} {freed : Option α → Nat} {P : α → Prop} (hp : Inv p fun e => ∀ x, e = some x → P x) :
    Inv (sequenceParse p freed) fun r => ∀ s, r = some s → ∀ x, some x ∈ s.elems → P x := by
  have loop : ∀ (i : Nat) (s : Sequence α), (∀ x, some x ∈ s.elems → P x) →
      Inv (sequenceLoop p freed i s) fun r => ∀ s, r = some s → ∀ x, some x ∈ s.elems → P x := by
    intro i
    induction i with
    | zero => intro s hs; exact inv_pure (by rintro s' h; cases h; exact hs)
    | succ i ih =>
      intro s hs
      unfold sequenceLoop
      refine inv_bind hp fun e he => inv_bind Inv.triv fun _ _ => inv_ite (fun _ => ?_) (fun _ => ?_)
      · exact inv_bind Inv.triv fun _ _ => inv_bind Inv.triv fun _ _ => inv_pure (by simp)
      · refine inv_bind (P := fun s' => ∀ x, some x ∈ s'.elems → P x) ?_ fun s' hs' => ih s' hs'
        have key : ∀ x, some x ∈ s.elems ++ [e] → P x := by
          intro x hx
          rw [List.mem_append] at hx
          rcases hx with hx | hx
          · exact hs x hx
          · simp at hx; exact he x hx.symm
        unfold sequenceAdd
        dsimp only
        exact inv_ite (fun _ => inv_bind Inv.triv fun _ _ => inv_pure key) (fun _ => inv_pure key)
  unfold sequenceParse
  refine inv_bind Inv.triv fun _ _ => inv_ite (fun _ => inv_failWith (by simp)) fun _ =>
    inv_bind Inv.triv fun _ _ => inv_bind Inv.triv fun _ _ => loop _ _ (by simp)

theorem inv_profObjPeriodEntry : Inv profObjPeriodEntryParse fun e => ∀ x, e = some x → ∀ s', x.valueList = some s' →
    ∀ y, some y ∈ s'.elems → ValueOk y.value := by
  refine inv_node (by simp) ?_
  refine inv_field Inv.triv (by simp) fun _ _ => inv_field Inv.triv (by simp) fun _ _ =>
    inv_field (inv_sequence inv_valueEntry) (by simp) fun v hv => inv_field Inv.triv (by simp) fun _ _ => inv_pure ?_
  rintro x hx; cases hx; exact hv

theorem inv_procParValue : Inv procParValueParse fun v => ∀ x, v = some x → ParamOk x := by
  refine inv_optional (by simp) (inv_node (by simp) ?_)
  refine inv_field Inv.triv (by simp) fun tag _ => ?_
  cases tag with
  | none => exact inv_bind Inv.triv fun _ _ => inv_pure (by simp)
  | some t =>
    dsimp only
    split
    next h =>
      refine inv_bind inv_value fun v hv => inv_pure ?_
      rintro x hx; cases hx; exact ⟨t, rfl, h, hv⟩
    next h =>
      refine inv_bind inv_periodEntry fun v hv => inv_pure ?_
      rintro x hx; cases hx; exact ⟨t, rfl, h, hv⟩
    next h =>
      refine inv_bind Inv.triv fun v hv => inv_pure ?_
      rintro x hx; cases hx; exact ⟨t, rfl, h⟩
    next h =>
      refine inv_bind Inv.triv fun v hv => inv_pure ?_
      rintro x hx; cases hx; exact ⟨t, rfl, h⟩
    next => exact inv_failWith (by simp)

theorem inv_treeLoop {p : M (Option Tree)} (hp : Inv p fun r => ∀ t, r = some t → TreeOk t) (i : Nat) :
    ∀ t, TreeOk t → Inv (treeLoop p i t) fun r => ∀ t, r = some t → TreeOk t := by
  induction i with
  | zero => intro t ht; exact inv_pure (by rintro t' h; cases h; exact ht)
  | succ i ih =>
    intro t ht
    unfold treeLoop
    refine inv_bind hp fun c hc => inv_bind Inv.triv fun _ _ => inv_ite (fun _ => ?_) (fun _ => ?_)
    · exact inv_bind Inv.triv fun _ _ => inv_bind Inv.triv fun _ _ => inv_pure (by simp)
    · cases c with
      | none => exact ih t ht
      | some c =>
        refine inv_bind (P := TreeOk) ?_ fun t' ht' => ih t' ht'
        obtain ⟨n, v, cs⟩ := t
        have key : TreeOk (.mk n v (cs ++ [c])) := by
          cases ht with
          | mk h1 h2 =>
            refine .mk h1 fun x hx => ?_
            rw [List.mem_append] at hx
            rcases hx with hx | hx
            · exact h2 x hx
            · simp at hx; subst hx; exact hc _ rfl
        unfold treeAddTree
        dsimp only
        exact inv_ite (fun _ => inv_bind Inv.triv fun _ _ => inv_pure key) (fun _ => inv_pure key)

theorem inv_tree (depth : Nat) : Inv (treeParse depth) fun r => ∀ t, r = some t → TreeOk t := by
  induction depth with
  | zero => intro st a s h; cases h
  | succ depth ih =>
    unfold treeParse
    refine inv_optional (by simp) (inv_node (by simp) ?_)
    refine inv_field Inv.triv (by simp) fun n _ => inv_field inv_procParValue (by simp) fun v hv => ?_
    have h0 : TreeOk (.mk n v []) := .mk hv (by simp)
    refine inv_bind Inv.triv fun _ _ => inv_ite (fun _ => inv_pure (by rintro t h; cases h; exact h0)) fun _ => ?_
    refine inv_bind Inv.triv fun _ _ => inv_ite (fun _ => inv_failWith (by simp)) fun _ => ?_
    exact inv_bind Inv.triv fun _ _ => inv_treeLoop ih _ _ h0

/-! ## Measurement lists -/

theorem dzgSerial_foldl (bs : List UInt8) : ∀ (v k : Nat), v < 256 ^ k → k + bs.length ≤ 8 →
    bs.foldl (fun s b => (s * 256 % 18446744073709551616) ||| b.toNat) v = bs.foldl (fun v b => 256 * v + b.toNat) v := by
  induction bs with
  | nil => intros; rfl
  | cons b bs ih =>
    intro v k hv hk
    simp only [List.foldl_cons, List.length_cons] at hk ⊢
    have hb := UInt8.toNat_lt b
    have hp : 256 ^ (k + 1) ≤ 256 ^ 8 := Nat.pow_le_pow_right (by decide) (by omega)
    have hv' : v * 256 + 255 < 256 ^ (k + 1) := by rw [Nat.pow_succ]; omega
    have h8 : (256 : Nat) ^ 8 = 18446744073709551616 := by decide
    have hm : v * 256 % 18446744073709551616 = v * 256 := Nat.mod_eq_of_lt (Nat.lt_of_lt_of_le (Nat.lt_of_le_of_lt (Nat.le_add_right _ _) hv') (h8 ▸ hp))
    have ho : v * 256 ||| b.toNat = 256 * v + b.toNat := by
      have := Nat.shiftLeft_add_eq_or_of_lt (i := 8) (b := b.toNat) (by omega) v
      rw [Nat.shiftLeft_eq] at this
      rw [← this]
      omega
    rw [hm, ho]
    exact ih _ (k + 1) (by omega) (by omega)

theorem dzgSerial_eq (bs : List UInt8) (h : bs.length ≤ 8) : dzgSerial bs = number bs :=
  dzgSerial_foldl bs 0 0 (by decide) (by omega)

theorem detect_dzg (l : ListEntry) (st : St) :
    Wlp (detectBuggyDzgDvs74 l) st fun b _ => b = true → IsDzgSerial l := by
  unfold detectBuggyDzgDvs74
  cases hn : l.objName with
  | none => simp
  | some name =>
    simp only [wlp_ite, wlp_pure]
    refine ⟨fun _ => by simp, fun hname => ?_⟩
    cases hval : l.value with
    | none => simp
    | some v =>
      simp only [wlp_ite, wlp_pure]
      refine ⟨fun _ => by simp, fun ht => ?_⟩
      split
      next s hdata =>
        simp only [wlp_ite, wlp_pure]
        refine ⟨fun _ => by simp, fun h10 => ⟨fun _ => by simp, fun h5 hr => ?_⟩⟩
        have h10 : s.str.length = 10 := by simpa using h10
        have h5 : s.str.take 5 = dzgSerialStart := by simpa using h5
        have hname : name.str = dzgSerialOid := by
          by_cases h : name.str = dzgSerialOid
          · exact h
          · exact absurd (Or.inr h) hname
        rw [dzgSerial_eq _ (by simp; omega)] at hr
        refine ⟨?_, v, s, hval, by simpa [tyOctet] using ht, hdata, h10, h5, ?_⟩
        · rw [hn]
          cases name
          exact congrArg some (congrArg _ hname)
        · simpa using hr
      next => simp
      next => simp

/-- The value and what its header byte says. -/
theorem value_size (st : St) : Wlp valueParse st fun a _ => ∀ v n, a = some v → v.data = .num (some n) →
    ∃ h : st.cursor < st.data.length, n.size = growMax 4 1 st.data[st.cursor] := by
  unfold valueParse
  simp only [wlp_bind, wlp_ite, wlp_pure, wlp_failWith, wlp_hasErrors, wlp_release]
  apply wlp_skipped
  · intro h; simp
  · intro h h1; simp
  · intro h h1
    refine ⟨by simp, fun _ => ?_⟩
    apply wlp_getNextType
    · intro h2; omega
    · intro h2
      simp only [wlp_getCurrentByte, wlp_alloc, wlp_setError]
      intro _
      refine ⟨fun ht => ?_, fun ht => ⟨fun ht2 => ?_, fun ht2 => ⟨fun ht3 => ?_, fun ht3 => ?_⟩⟩⟩
      · intro a s _
        exact ⟨fun _ _ => by simp, fun _ v n hv hd => by cases hv; cases hd⟩
      · intro a s _
        exact ⟨fun _ _ => by simp, fun _ v n hv hd => by cases hv; cases hd⟩
      · refine (number_result _ _ _).mono ?_
        rintro a s ⟨r1, r2⟩
        refine ⟨fun _ _ => by simp, fun he v n hv hd => ?_⟩
        cases hv
        simp only [VData.num.injEq] at hd
        exact ⟨h, (r1 n hd).1⟩
      · exact ⟨fun _ _ => by simp, by simp⟩

theorem growMax_small (b : UInt8) (h : b &&& 0x8F = 1 ∨ b &&& 0x8F = 2 ∨ b &&& 0x8F = 3) :
    growMax 4 1 b = 1 ∨ growMax 4 1 b = 2 := by
  have key : ∀ n : Fin 256, let b := UInt8.ofNat n
    (b &&& 0x8F = 1 ∨ b &&& 0x8F = 2 ∨ b &&& 0x8F = 3) → growMax 4 1 b = 1 ∨ growMax 4 1 b = 2 := by
    decide +kernel
  have := key ⟨b.toNat, UInt8.toNat_lt b⟩
  simp only [UInt8.ofNat_toNat] at this
  exact this h

/-- The new label of a value: right for numbers of one or two bytes. -/
theorem retag_ok {v : Value} (hw : WellTyped v) (hs : ∀ n, v.data = .num (some n) → n.size = 1 ∨ n.size = 2) :
    WellTyped (retag v) ∨ Mislabelled (retag v) := by
  unfold WellTyped at hw
  split at hw
  next s hd => exact Or.inr ⟨by simp only [retag, hw]; decide, Or.inl ⟨s, hd⟩⟩
  next b hd => exact Or.inr ⟨by simp only [retag, hw.1]; decide, Or.inr ⟨b, hd, hw.2⟩⟩
  next n hd =>
    left
    obtain ⟨h1, h2⟩ := hw
    have hr : (retag v).data = .num (some n) := hd
    unfold WellTyped
    rw [hr]
    refine ⟨h1, Or.inl ?_⟩
    rcases hs n hd with h | h <;> rw [h] at h2 ⊢ <;> refine ⟨by decide, Or.inr ?_⟩ <;>
      rcases h2 with ⟨_, h2 | h2⟩ | h2 <;> first | (simp only [retag, h2]; decide) | omega
  next => cases hw

/-- What one entry adds to a list. -/
def EntryRes (wa : Bool) (r : Option (ListEntry × Bool)) : Prop :=
  ∀ e wa', r = some (e, wa') →
    (∀ v, e.value = some v → WellTyped v ∨ (wa = true ∧ Mislabelled v ∧ IsPower e)) ∧
    (wa' = true → wa = true ∨ IsDzgSerial e)

theorem inv_listEntryFinish {l : ListEntry} {b : UInt8} {wa : Bool} (hv : ValueOk l.value)
    (hs : ∀ v n, l.value = some v → v.data = .num (some n) → n.size = growMax 4 1 b) :
    Inv (listEntryFinish l (b &&& 0x8F) wa) (EntryRes wa) := by
  have plain : ∀ w : Bool, (w = true → wa = true ∨ IsDzgSerial l) → EntryRes wa (some (l, w)) := by
    intro w hw e wa' h
    cases h
    exact ⟨fun v h => Or.inl (hv v h), hw⟩
  intro st
  unfold listEntryFinish
  simp only [wlp_bind, wlp_ite]
  refine (detect_dzg l st).mono fun d s hd => ⟨fun ht => ?_, fun hf => ?_⟩
  · simp only [wlp_pure]
    exact plain true fun _ => Or.inr (hd ht)
  · split
    next name v hn hval =>
      simp only [wlp_ite, wlp_bind, wlp_pure]
      refine ⟨fun hc => ?_, fun _ => plain true fun _ => Or.inl rfl⟩
      obtain ⟨_, hpow, hb⟩ := hc
      intro _ s' _ e wa' he
      cases he
      refine ⟨fun v' hv' => ?_, fun _ => Or.inl rfl⟩
      cases hv'
      have hpower : IsPower { l with value := some (retag v) } := by
        unfold IsPower
        simp only
        rw [hn]
        cases name
        exact congrArg some (congrArg _ hpow)
      rcases retag_ok (hv v hval) (fun n hd => by rw [hs v n hval hd]; exact growMax_small b hb) with h | h
      · exact Or.inl h
      · exact Or.inr ⟨rfl, h, hpower⟩
    next => simp only [wlp_pure]; exact plain _ fun h => Or.inl h

theorem inv_listEntry (wa : Bool) : Inv (listEntryParse wa) (EntryRes wa) := by
  have hnone : EntryRes wa none := by intro e w h; cases h
  unfold listEntryParse
  refine inv_expectList hnone (inv_bind Inv.triv fun _ _ => ?_)
  refine inv_field Inv.triv hnone fun n _ => inv_field Inv.triv hnone fun sta _ => inv_field Inv.triv hnone fun vt _ =>
    inv_field Inv.triv hnone fun un' _ => inv_field Inv.triv hnone fun sc _ => ?_
  intro st
  simp only [wlp_bind, wlp_getSt, wlp_ite, wlp_failWith, wlp_getCurrentByte]
  refine ⟨fun _ _ => hnone, fun hlt _ => ?_⟩
  have hlt : st.cursor < st.data.length := by omega
  intro a s h
  have hx := value_result st
  have hy := value_size st
  unfold field at h
  obtain ⟨v, s1, e1, h⟩ := bind_inv h
  obtain ⟨er, s2, e2, h⟩ := bind_inv h
  have hfin : Inv (field octetStringParse (fun v' =>
      ({ objName := n, status := sta, valTime := vt, unit := un', scaler := sc, value := v, valueSignature := v' } : ListEntry)) listEntryFreed fun l =>
        listEntryFinish l (st.data[st.cursor] &&& 0x8F) wa) (EntryRes wa) :=
    inv_field Inv.triv hnone
      (fun _ _ => inv_listEntryFinish (b := st.data[st.cursor]) (fun x hx' => (hx _ _ e1 x hx').1)
        (fun x n hx' hd => (hy _ _ e1 x n hx' hd).2))
  split at h
  · obtain ⟨_, s3, _, h⟩ := bind_inv h
    cases h; exact hnone
  · exact hfin _ _ _ h

theorem EntriesOk.snoc {es : List ListEntry} {e : ListEntry} (h : EntriesOk es)
    (he : ∀ v, e.value = some v → WellTyped v ∨
      ((∃ (j : Nat) (e' : ListEntry), es[j]? = some e' ∧ IsDzgSerial e') ∧ Mislabelled v ∧ IsPower e)) :
    EntriesOk (es ++ [e]) := by
  intro i x v hx hv
  by_cases hi : i < es.length
  · rw [List.getElem?_append_left hi] at hx
    rcases h i x v hx hv with h | ⟨h1, h2, j, e', h3, h4, h5⟩
    · exact Or.inl h
    · exact Or.inr ⟨h1, h2, j, e', h3, by rw [List.getElem?_append_left (by omega)]; exact h4, h5⟩
  · rw [List.getElem?_append_right (by omega)] at hx
    have h0 : i = es.length := by
      have := (List.getElem?_eq_some_iff.1 hx).1
      simp at this
      omega
    subst h0
    simp at hx
    subst hx
    rcases he v hv with h | ⟨⟨j, e', h4, h5⟩, h1, h2⟩
    · exact Or.inl h
    · have hj := (List.getElem?_eq_some_iff.1 h4).1
      exact Or.inr ⟨h1, h2, j, e', hj, by rw [List.getElem?_append_left hj]; exact h4, h5⟩

theorem inv_listLoop (i : Nat) : ∀ (wa : Bool) (acc : List ListEntry), EntriesOk acc →
    (wa = true → ∃ (j : Nat) (e' : ListEntry), acc[j]? = some e' ∧ IsDzgSerial e') →
    Inv (listLoop i wa acc) EntriesOk := by
  induction i with
  | zero => intro wa acc h _; exact inv_pure h
  | succ i ih =>
    intro wa acc h hwa
    unfold listLoop
    refine inv_bind (inv_listEntry wa) fun r hr => inv_bind Inv.triv fun _ _ => inv_ite (fun _ => ?_) (fun _ => ?_)
    · exact inv_bind Inv.triv fun _ _ => inv_bind Inv.triv fun _ _ => inv_pure (by intro i x v hx; simp at hx)
    · cases r with
      | none => intro st a s h; cases h
      | some x =>
        obtain ⟨e, wa'⟩ := x
        obtain ⟨h1, h2⟩ := hr e wa' rfl
        refine ih wa' _ (EntriesOk.snoc h fun v hv => ?_) fun hw => ?_
        · rcases h1 v hv with h | ⟨h3, h4⟩
          · exact Or.inl h
          · exact Or.inr ⟨hwa h3, h4⟩
        · rcases h2 hw with h3 | h3
          · obtain ⟨j, e', h4, h5⟩ := hwa h3
            exact ⟨j, e', by rw [List.getElem?_append_left (List.getElem?_eq_some_iff.1 h4).1]; exact h4, h5⟩
          · exact ⟨acc.length, e, by simp, h3⟩

theorem inv_list : Inv listParse EntriesOk := by
  have h0 : EntriesOk [] := by intro i x v hx; simp at hx
  unfold listParse
  refine inv_bind Inv.triv fun _ _ => inv_ite (fun _ => inv_pure h0) fun _ => inv_bind Inv.triv fun _ _ =>
    inv_ite (fun _ => inv_bind Inv.triv fun _ _ => inv_pure h0) fun _ => inv_bind Inv.triv fun _ _ => ?_
  exact inv_listLoop _ _ _ h0 (by simp)

/-! ## Bodies -/

theorem inv_packRequest (depth : Nat) : Inv (getProfilePackRequestParse depth) fun r =>
    ∀ m, r = some m → ∀ t, m.dasDetails = some t → TreeOk t := by
  unfold getProfilePackRequestParse
  refine inv_node (by simp) ?_
  refine inv_field Inv.triv (by simp) fun _ _ => inv_field Inv.triv (by simp) fun _ _ => inv_field Inv.triv (by simp)
    fun _ _ => inv_field Inv.triv (by simp) fun _ _ => inv_field Inv.triv (by simp) fun _ _ => inv_field Inv.triv
    (by simp) fun _ _ => inv_field Inv.triv (by simp) fun _ _ => inv_bind Inv.triv fun r _ => ?_
  cases r with
  | none => exact inv_pure (by simp)
  | some m =>
    refine inv_field (inv_tree depth) (by simp) fun t ht => inv_pure ?_
    rintro x hx; cases hx; exact ht

theorem inv_packResponse : Inv getProfilePackResponseParse fun r => ∀ m, r = some m →
    ∀ s, m.periodList = some s → ∀ x, some x ∈ s.elems → ∀ s', x.valueList = some s' →
      ∀ y, some y ∈ s'.elems → ValueOk y.value := by
  unfold getProfilePackResponseParse
  refine inv_node (by simp) ?_
  refine inv_field Inv.triv (by simp) fun _ _ => inv_field Inv.triv (by simp) fun _ _ => inv_field Inv.triv (by simp)
    fun _ _ => inv_field Inv.triv (by simp) fun _ _ => inv_field Inv.triv (by simp) fun _ _ =>
    inv_field (inv_sequence inv_profObjPeriodEntry) (by simp) fun _ h => inv_field Inv.triv (by simp) fun _ _ =>
    inv_field Inv.triv (by simp) fun _ _ => inv_pure ?_
  rintro x hx; cases hx; exact h

theorem inv_profileListResponse : Inv getProfileListResponseParse fun r => ∀ m, r = some m →
    ∀ s, m.periodList = some s → ∀ x, some x ∈ s.elems → ValueOk x.value := by
  unfold getProfileListResponseParse
  refine inv_node (by simp) ?_
  refine inv_field Inv.triv (by simp) fun _ _ => inv_field Inv.triv (by simp) fun _ _ => inv_field Inv.triv (by simp)
    fun _ _ => inv_field Inv.triv (by simp) fun _ _ => inv_field Inv.triv (by simp) fun _ _ => inv_field Inv.triv
    (by simp) fun _ _ =>
    inv_field (inv_sequence inv_periodEntry) (by simp) fun _ h => inv_field Inv.triv (by simp) fun _ _ =>
    inv_field Inv.triv (by simp) fun _ _ => inv_pure ?_
  rintro x hx; cases hx; exact h

theorem inv_procResponse (depth : Nat) : Inv (getProcParameterResponseParse depth) fun r =>
    ∀ m, r = some m → ∀ t, m.parameterTree = some t → TreeOk t := by
  unfold getProcParameterResponseParse
  refine inv_node (by simp) ?_
  refine inv_field Inv.triv (by simp) fun _ _ => inv_field Inv.triv (by simp) fun _ _ =>
    inv_field (inv_tree depth) (by simp) fun t ht => inv_pure ?_
  rintro x hx; cases hx; exact ht

theorem inv_setProc (depth : Nat) : Inv (setProcParameterRequestParse depth) fun r =>
    ∀ m, r = some m → ∀ t, m.parameterTree = some t → TreeOk t := by
  unfold setProcParameterRequestParse
  refine inv_node (by simp) ?_
  refine inv_field Inv.triv (by simp) fun _ _ => inv_field Inv.triv (by simp) fun _ _ => inv_field Inv.triv (by simp)
    fun _ _ => inv_field Inv.triv (by simp) fun _ _ =>
    inv_field (inv_tree depth) (by simp) fun t ht => inv_pure ?_
  rintro x hx; cases hx; exact ht

theorem inv_attention (depth : Nat) : Inv (attentionResponseParse depth) fun r =>
    ∀ m, r = some m → ∀ t, m.attentionDetails = some t → TreeOk t := by
  unfold attentionResponseParse
  refine inv_node (by simp) ?_
  refine inv_field Inv.triv (by simp) fun _ _ => inv_field Inv.triv (by simp) fun _ _ => inv_field Inv.triv (by simp)
    fun _ _ => inv_field (inv_tree depth) (by simp) fun t ht => inv_pure ?_
  rintro x hx; cases hx; exact ht

theorem inv_listResponse : Inv getListResponseParse fun r => ∀ m, r = some m → EntriesOk m.valList := by
  unfold getListResponseParse
  refine inv_node (by simp) ?_
  refine inv_field Inv.triv (by simp) fun _ _ => inv_field Inv.triv (by simp) fun _ _ => inv_field Inv.triv (by simp)
    fun _ _ => inv_field Inv.triv (by simp) fun _ _ => inv_field inv_list (by simp) fun _ h =>
    inv_field Inv.triv (by simp) fun _ _ => inv_field Inv.triv (by simp) fun _ _ => inv_pure ?_
  rintro x hx; cases hx; exact h

theorem ite_run {c : Prop} [Decidable c] {p q : M α} {st s : St} {a : α} (h : (if c then p else q) st = .ok a s) :
    (c ∧ p st = .ok a s) ∨ (¬ c ∧ q st = .ok a s) := by
  split at h
  · exact Or.inl ⟨‹_›, h⟩
  · exact Or.inr ⟨‹_›, h⟩

/-- What the switch over the tags delivers. -/
theorem bodyData_ok {depth tag : Nat} {st s : St} {d : BodyData} (h : bodyDataParse depth tag st = .ok d s)
    (he : s.error = false) : BodyOk tag d := by
  unfold bodyDataParse at h
  rcases ite_run h with ⟨c, h⟩ | ⟨n0, h⟩
  · obtain ⟨r, s1, h1, h2⟩ := bind_inv h
    cases h2
    obtain ⟨m, rfl⟩ := Option.ne_none_iff_exists'.1 (sure_openRequest _ _ _ h1 he)
    exact ⟨c, rfl⟩
  rcases ite_run h with ⟨c, h⟩ | ⟨n1, h⟩
  · obtain ⟨r, s1, h1, h2⟩ := bind_inv h
    cases h2
    obtain ⟨m, rfl⟩ := Option.ne_none_iff_exists'.1 (sure_openResponse _ _ _ h1 he)
    exact ⟨c, rfl⟩
  rcases ite_run h with ⟨c, h⟩ | ⟨n2, h⟩
  · obtain ⟨r, s1, h1, h2⟩ := bind_inv h
    cases h2
    obtain ⟨m, rfl⟩ := Option.ne_none_iff_exists'.1 (sure_closeRequest _ _ _ h1 he)
    exact ⟨c, rfl⟩
  rcases ite_run h with ⟨c, h⟩ | ⟨n3, h⟩
  · obtain ⟨r, s1, h1, h2⟩ := bind_inv h
    cases h2
    obtain ⟨m, rfl⟩ := Option.ne_none_iff_exists'.1 (sure_closeResponse _ _ _ h1 he)
    exact ⟨c, rfl⟩
  rcases ite_run h with ⟨c, h⟩ | ⟨n4, h⟩
  · obtain ⟨r, s1, h1, h2⟩ := bind_inv h
    cases h2
    obtain ⟨m, rfl⟩ := Option.ne_none_iff_exists'.1 (sure_getProfilePackRequest _ _ _ _ h1 he)
    exact ⟨c, m, rfl, inv_packRequest _ _ _ _ h1 m rfl⟩
  rcases ite_run h with ⟨c, h⟩ | ⟨n5, h⟩
  · obtain ⟨r, s1, h1, h2⟩ := bind_inv h
    cases h2
    obtain ⟨m, rfl⟩ := Option.ne_none_iff_exists'.1 (sure_getProfilePackResponse _ _ _ h1 he)
    exact ⟨c, m, rfl, inv_packResponse _ _ _ h1 m rfl⟩
  rcases ite_run h with ⟨c, h⟩ | ⟨n6, h⟩
  · obtain ⟨r, s1, h1, h2⟩ := bind_inv h
    cases h2
    obtain ⟨m, rfl⟩ := Option.ne_none_iff_exists'.1 (sure_getProfilePackRequest _ _ _ _ h1 he)
    exact ⟨c, m, rfl, inv_packRequest _ _ _ _ h1 m rfl⟩
  rcases ite_run h with ⟨c, h⟩ | ⟨n7, h⟩
  · obtain ⟨r, s1, h1, h2⟩ := bind_inv h
    cases h2
    obtain ⟨m, rfl⟩ := Option.ne_none_iff_exists'.1 (sure_getProfileListResponse _ _ _ h1 he)
    exact ⟨c, m, rfl, inv_profileListResponse _ _ _ h1 m rfl⟩
  rcases ite_run h with ⟨c, h⟩ | ⟨n8, h⟩
  · obtain ⟨r, s1, h1, h2⟩ := bind_inv h
    cases h2
    obtain ⟨m, rfl⟩ := Option.ne_none_iff_exists'.1 (sure_getProcParameterRequest _ _ _ h1 he)
    exact ⟨c, rfl⟩
  rcases ite_run h with ⟨c, h⟩ | ⟨n9, h⟩
  · obtain ⟨r, s1, h1, h2⟩ := bind_inv h
    cases h2
    obtain ⟨m, rfl⟩ := Option.ne_none_iff_exists'.1 (sure_getProcParameterResponse _ _ _ _ h1 he)
    exact ⟨c, m, rfl, inv_procResponse _ _ _ _ h1 m rfl⟩
  rcases ite_run h with ⟨c, h⟩ | ⟨n10, h⟩
  · obtain ⟨r, s1, h1, h2⟩ := bind_inv h
    cases h2
    obtain ⟨m, rfl⟩ := Option.ne_none_iff_exists'.1 (sure_setProcParameterRequest _ _ _ _ h1 he)
    exact ⟨c, m, rfl, inv_setProc _ _ _ _ h1 m rfl⟩
  rcases ite_run h with ⟨c, h⟩ | ⟨n11, h⟩
  · obtain ⟨r, s1, h1, h2⟩ := bind_inv h
    cases h2
    obtain ⟨m, rfl⟩ := Option.ne_none_iff_exists'.1 (sure_getListRequest _ _ _ h1 he)
    exact ⟨c, rfl⟩
  rcases ite_run h with ⟨c, h⟩ | ⟨n12, h⟩
  · obtain ⟨r, s1, h1, h2⟩ := bind_inv h
    cases h2
    obtain ⟨m, rfl⟩ := Option.ne_none_iff_exists'.1 (sure_getListResponse _ _ _ h1 he)
    exact ⟨c, m, rfl, inv_listResponse _ _ _ h1 m rfl⟩
  rcases ite_run h with ⟨c, h⟩ | ⟨n13, h⟩
  · obtain ⟨r, s1, h1, h2⟩ := bind_inv h
    cases h2
    obtain ⟨m, rfl⟩ := Option.ne_none_iff_exists'.1 (sure_attentionResponse _ _ _ _ h1 he)
    exact ⟨c, m, rfl, inv_attention _ _ _ _ h1 m rfl⟩
  cases h
  unfold BodyOk knownTags
  simp only [List.mem_cons, List.not_mem_nil, or_false, not_or]
  exact ⟨n0, n1, n2, n3, n4, n5, n6, n7, n8, n9, n10, n11, n12, n13⟩

/-- The body of a message that was read. -/
theorem body_ok {depth : Nat} {st s : St} {b : MessageBody} (h : messageBodyParse depth st = .ok (some b) s)
    (he : s.error = false) : ∃ t, b.tag = some t ∧ t.size = 4 ∧ t.val < 4294967296 ∧ BodyOk t.val b.data := by
  obtain ⟨_, s0, s1, t, _, _, ht, _, ⟨_, h, _⟩ | ⟨tt, d, rfl, hd, hb⟩⟩ := body_inv h he
  · cases h
  · cases hb
    obtain ⟨h1, h2⟩ := (number_result tyUnsigned 4 s0 _ _ ht).1 tt rfl
    exact ⟨tt, rfl, h1, h2, bodyData_ok hd he⟩

end Sml
