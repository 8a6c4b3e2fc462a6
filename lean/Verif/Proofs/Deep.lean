import Verif.Proofs.RoundFile
import Verif.Proofs.Content

/-!
# Parameter trees too deep for the stack
-/

namespace Sml

open Spec

/-- On input `bs` followed by at least one more byte, `p` runs out of stack. -/
def Deep (p : M α) (bs : List UInt8) : Prop :=
  ∀ st rest, st.data.drop st.cursor = bs ++ rest → rest ≠ [] → st.error = false → p st = .ub .stack

theorem deep_alloc {k : M β} {bs : List UInt8} {n : Nat} (h : Deep k bs) : Deep (do alloc n; k) bs := by
  intro st rest hd hr he
  rw [run_bind, run_alloc, Res.andThen_ok, h { st with live := st.live + n } rest hd hr he]

theorem deep_bind {p : M α} {k : α → M β} {v : α} {bs bs' : List UInt8} {n : Nat} (hp : Reads p v bs n) (hk : Deep (k v) bs') :
    Deep (p >>= k) (bs ++ bs') := by
  intro st rest hd hr he
  rw [List.append_assoc] at hd
  rw [run_bind, hp st _ hd (by simp [hr]) he, Res.andThen_ok, hk { st with cursor := st.cursor + bs.length, live := st.live + n } rest (drop_add hd) hr he]

theorem deep_now {p : M α} {k : α → M β} {bs : List UInt8} (hp : Deep p bs) : Deep (p >>= k) bs := by
  intro st rest hd hr he
  rw [run_bind, hp st rest hd hr he, Res.andThen_ub]

theorem deep_field {p : M α} {set : α → R} {freed : R → Nat} {k : R → M (Option β)} {v : α} {bs bs' : List UInt8} {n : Nat} (hp : Reads p v bs n)
    (hk : Deep (k (set v)) bs') : Deep (field p set freed k) (bs ++ bs') := by
  intro st rest hd hr he
  rw [List.append_assoc] at hd
  unfold field
  rw [run_bind, hp st _ hd (by simp [hr]) he]
  run
  have hf : ¬ st.error = true := by simp [he]
  rw [if_neg hf, hk { st with cursor := st.cursor + bs.length, live := st.live + n } rest (drop_add hd) hr he]

theorem deep_field_now {p : M α} {set : α → R} {freed : R → Nat} {k : R → M (Option β)} {bs : List UInt8} (hp : Deep p bs) :
    Deep (field p set freed k) (bs ++ []) := by
  rw [List.append_nil]
  exact deep_now hp

theorem deep_expectList {n own : Nat} {k : M (Option α)} {bs : List UInt8} (hn : n < 16) (hk : Deep k bs) :
    Deep (expectList n own k) (encHeader 7 n ++ bs) := by
  intro st rest hd hr he
  rw [List.append_assoc] at hd
  unfold expectList
  rw [run_bind, reads_type (encHeader_ne _ _) (encHeader_type (by decide)) hd]
  run
  rw [if_neg (by simp), reads_length (by decide) (small_len hn) hd]
  run
  rw [if_neg (by simp), hk { st with cursor := st.cursor + (encHeader 7 n).length } rest (drop_add hd) hr he]

theorem deep_node {n own : Nat} {k : M (Option α)} {ts : List Term} (hl : ts.length = n) (hn : n < 16)
    (hk : Deep k (encAll ts)) : Deep (do alloc 1; expectList n own k) (enc (.list ts)) := by
  subst hl
  exact deep_alloc (deep_expectList hn hk)

theorem deep_optional {p : M (Option α)} {b : UInt8} {bs : List UInt8} (hb : b ≠ 1) (h : Deep p (b :: bs)) : Deep (optional p) (b :: bs) := by
  intro st rest hd hr he
  unfold optional
  rw [run_bind, run_notSkipped hd hb]
  run
  exact h st rest hd hr he

theorem deep_treeLoop {p : M (Option Tree)} (cs : List Tree) (h : ∀ c ∈ cs, Reads p (some c) (enc (treeTerm c)) c.blocks ∨ Deep p (enc (treeTerm c)))
    (hx : ∃ c ∈ cs, Deep p (enc (treeTerm c))) (n : Option OctetString) (v : Option ProcParValue) : ∀ acc : List Tree,
    Deep (treeLoop p cs.length (.mk n v acc)) (encAll (treeTerms cs)) := by
  induction cs with
  | nil => obtain ⟨c, hc, _⟩ := hx; cases hc
  | cons c cs ih =>
    intro acc st rest hd hr he
    simp only [treeTerms, encAll, List.append_assoc] at hd
    simp only [List.length_cons]
    unfold treeLoop
    rw [run_bind]
    by_cases hdeep : Deep p (enc (treeTerm c))
    · rw [hdeep st _ hd (by simp [hr]) he, Res.andThen_ub]
    have hreads := (h c (by simp)).resolve_right hdeep
    have hih := ih (fun x hx => h x (by simp [hx])) (by
      obtain ⟨x, hx1, hx2⟩ := hx
      rcases List.mem_cons.1 hx1 with rfl | hx1
      · exact absurd hx2 hdeep
      · exact ⟨x, hx1, hx2⟩) (acc ++ [c])
    have he' : ¬ st.error = true := by simp [he]
    rw [hreads st _ hd (by simp [hr]) he]
    run
    rw [if_neg he']
    unfold treeAddTree
    simp only
    by_cases hacc : acc.isEmpty = true
    · rw [if_pos hacc]
      run
      rw [hih { st with cursor := st.cursor + (enc (treeTerm c)).length, live := st.live + c.blocks + 1 } rest (drop_add hd) hr he]
    · rw [if_neg hacc]
      run
      rw [hih { st with cursor := st.cursor + (enc (treeTerm c)).length, live := st.live + c.blocks } rest (drop_add hd) hr he]

theorem treesDepth_reach {cs : List Tree} {d : Nat} (h : d < treesDepth cs) : ∃ c ∈ cs, d < treeDepth c := by
  induction cs with
  | nil => simp [treesDepth] at h
  | cons c cs ih =>
    rw [treesDepth] at h
    by_cases hc : d < treeDepth c
    · exact ⟨c, by simp, hc⟩
    · obtain ⟨x, hx, hd⟩ := ih (by
        have : Nat.max (treeDepth c) (treesDepth cs) = treesDepth cs ∨ Nat.max (treeDepth c) (treesDepth cs) = treeDepth c := by
          show max _ _ = _ ∨ max _ _ = _
          omega
        omega)
      exact ⟨x, by simp [hx], hd⟩

theorem deep_tree1 (depth : Nat) : ∀ t : Tree, TreeFits true t → depth < treeDepth t → Deep (treeParse depth) (enc (treeTerm t)) := by
  induction depth with
  | zero => intro t _ _ st rest _ _ _; rfl
  | succ depth ih =>
    intro t ht hdep
    obtain ⟨n, v, cs⟩ := t
    have ht' : Opt (StrOk true) n ∧ Opt (PpvOk true) v ∧ cs.length < 16 ∧ ∀ c, c ∈ cs → TreeFits true c := by
      cases ht with
      | mk h1 h2 h3 h4 => exact ⟨h1, h2, h3, h4⟩
    obtain ⟨h1, h2, h3, h4⟩ := ht'
    simp only [treeDepth] at hdep
    obtain ⟨l, hb⟩ : ∃ l, enc (treeTerm (.mk n v cs)) = 0x73 :: l := by
      rw [treeTerm.eq_def]
      simp only
      rw [enc]
      have : ∀ l : List Term, l.length = 3 → encHeader 7 l.length = [0x73] := fun l hl => by rw [hl]; exact encHeader_list (n := 3) (by decide)
      rw [this _ rfl]
      exact ⟨_, rfl⟩
    unfold treeParse
    rw [hb]
    refine deep_optional (by decide) ?_
    rw [← hb, treeTerm.eq_def]
    refine deep_node rfl (by decide) ?_
    refine deep_field (reads_octetString _ h1) ?_
    refine deep_field (reads_ppv _ h2) ?_
    simp only [Tree.name]
    cases cs with
    | nil => simp [treesDepth] at hdep
    | cons c cs =>
      intro st rest hd hr he
      simp only [encAll, enc, List.append_assoc, List.nil_append, List.length_cons, treeTerms_length] at hd
      obtain ⟨b, bs, hbb, hb1⟩ := encHeader_first (ty := 7) (n := cs.length + 1) (by decide) (Or.inl (by decide))
      have hd' := hd
      rw [hbb] at hd'
      have h16 : cs.length + 1 < 16 := by simpa using h3
      rw [run_bind, run_notSkipped hd' hb1]
      run
      simp only [Bool.false_eq_true, if_false]
      rw [reads_type (encHeader_ne _ _) (encHeader_type (by decide)) hd]
      run
      rw [if_neg (by simp), reads_length (by decide) (small_len h16) hd]
      run
      rw [Int.toNat_natCast]
      have hl := deep_treeLoop (p := treeParse depth) (c :: cs) (fun x hx => by
        by_cases hx' : depth < treeDepth x
        · exact Or.inr (ih x (h4 x hx) hx')
        · exact Or.inl (reads_tree1 depth x (h4 x hx) (by omega))) (by
        obtain ⟨x, hx, hx'⟩ := treesDepth_reach (d := depth) (cs := c :: cs) (by omega)
        exact ⟨x, hx, ih x (h4 x hx) hx'⟩) n v []
      exact hl { st with cursor := st.cursor + (encHeader 7 (cs.length + 1)).length } rest
        (by simpa [treeTerms, encAll] using drop_add hd) hr he

theorem deep_tree {depth : Nat} (o : Option Tree) (h : Opt (TreeFits true) o) (hd : depth < (o.map treeDepth).getD 0) :
    Deep (treeParse depth) (enc (opt treeTerm o)) := by
  cases o with
  | some t => exact deep_tree1 depth t (h t rfl) (by simpa using hd)
  | none => simp at hd

theorem deep_getProcParameterResponse {depth : Nat} (m : GetProcParameterResponse) (h : GetProcParameterResponseOk true m)
    (hd : depth < (m.parameterTree.map treeDepth).getD 0) : Deep (getProcParameterResponseParse depth) (enc (getProcParameterResponseTerm m)) := by
  obtain ⟨h1, h2, h3⟩ := h
  refine deep_node rfl (by decide) ?_
  refine deep_field (reads_octetString _ h1) ?_
  refine deep_field (reads_path _ h2) ?_
  exact deep_field_now (deep_tree _ h3 hd)

theorem deep_setProcParameterRequest {depth : Nat} (m : SetProcParameterRequest) (h : SetProcParameterRequestOk true m)
    (hd : depth < (m.parameterTree.map treeDepth).getD 0) : Deep (setProcParameterRequestParse depth) (enc (setProcParameterRequestTerm m)) := by
  obtain ⟨h1, h2, h3, h4, h5⟩ := h
  refine deep_node rfl (by decide) ?_
  refine deep_field (reads_octetString _ h1) ?_
  refine deep_field (reads_octetString _ h2) ?_
  refine deep_field (reads_octetString _ h3) ?_
  refine deep_field (reads_path _ h4) ?_
  exact deep_field_now (deep_tree _ h5 hd)

theorem deep_attentionResponse {depth : Nat} (m : AttentionResponse) (h : AttentionResponseOk true m)
    (hd : depth < (m.attentionDetails.map treeDepth).getD 0) : Deep (attentionResponseParse depth) (enc (attentionResponseTerm m)) := by
  obtain ⟨h1, h2, h3, h4⟩ := h
  refine deep_node rfl (by decide) ?_
  refine deep_field (reads_octetString _ h1) ?_
  refine deep_field (reads_octetString _ h2) ?_
  refine deep_field (reads_octetString _ h3) ?_
  exact deep_field_now (deep_tree _ h4 hd)

theorem deep_getProfilePackRequest {depth : Nat} (m : GetProfilePackRequest) (h : GetProfilePackRequestOk true m)
    (hd : depth < (m.dasDetails.map treeDepth).getD 0) : Deep (getProfilePackRequestParse depth) (enc (getProfilePackRequestTerm m)) := by
  obtain ⟨h1, h2, h3, h4, h5, h6, h7, h8, h9⟩ := h
  obtain ⟨a, b, c, d, e, f, g, objs, k⟩ := m
  subst h8
  refine deep_node rfl (by decide) ?_
  refine deep_field (reads_octetString _ h1) ?_
  refine deep_field (reads_octetString _ h2) ?_
  refine deep_field (reads_octetString _ h3) ?_
  refine deep_field (reads_boolean _ h4) ?_
  refine deep_field (reads_time _ h5) ?_
  refine deep_field (reads_time _ h6) ?_
  refine deep_field (reads_path _ h7) ?_
  refine deep_bind (bs := enc .absent) (n := 0) (v := some { serverId := a, username := b, password := c, withRawdata := d, beginTime := e, endTime := f, parameterTreePath := g }) ?hp ?hk
  case hp => exact reads_objects_absent _
  case hk => exact deep_field_now (deep_tree _ h9 hd)

theorem deep_bodyData {depth : Nat} (tag : Nat) (d : BodyData) (h : BodyDataOk true tag d) (hd : depth < bodyDepth d) :
    Deep (bodyDataParse depth tag) (enc (bodyDataTerm d)) := by
  cases d with
  | getProfilePackRequest p =>
    obtain ⟨rfl, m, rfl, hm⟩ := h
    exact deep_now (deep_getProfilePackRequest m hm hd)
  | getProfileListRequest p =>
    obtain ⟨rfl, m, rfl, hm⟩ := h
    exact deep_now (deep_getProfilePackRequest m hm hd)
  | getProcParameterResponse p =>
    obtain ⟨rfl, m, rfl, hm⟩ := h
    exact deep_now (deep_getProcParameterResponse m hm hd)
  | setProcParameterRequest p =>
    obtain ⟨rfl, m, rfl, hm⟩ := h
    exact deep_now (deep_setProcParameterRequest m hm hd)
  | attentionResponse p =>
    obtain ⟨rfl, m, rfl, hm⟩ := h
    exact deep_now (deep_attentionResponse m hm hd)
  | _ => simp [bodyDepth] at hd

theorem deep_messageBody {depth : Nat} (b : MessageBody) (h : MessageBodyOk true b) (hd : depth < bodyDepth b.data) :
    Deep (messageBodyParse depth) (enc (messageBodyTerm b)) := by
  obtain ⟨tag, d⟩ := b
  obtain ⟨t, ht, hn, hbd⟩ := h
  simp only at ht hbd hd
  subst ht
  unfold messageBodyParse
  refine deep_alloc ?_
  intro st rest hdr hr he
  have hl : st.cursor + 1 ≤ st.data.length := by
    have h1 : (st.data.drop st.cursor).length = _ := congrArg List.length hdr
    have : 0 < rest.length := List.length_pos_iff.2 hr
    simp at h1
    omega
  run
  rw [if_neg (by omega)]
  refine (?_ : Deep _ _) st rest hdr hr he
  refine deep_expectList (by decide) ?_
  refine deep_field (reads_uint (by decide) (by decide) _ (fun a ha => by cases ha; exact hn)) ?_
  simp only [encAll, List.append_nil]
  exact deep_now (deep_bodyData _ _ hbd hd)

/-- A message on the wire whose parameter tree has more levels than the stack has room for. -/
theorem deep_messageParse {depth : Nat} (m : Message) (h : MessageOk true m) (hdep : depth < messageDepth m) (c : Nat) (st : St) (rest : List UInt8)
    (hd : st.data.drop st.cursor = messageBytes c m ++ rest) (he : st.error = false) (hi : st.data.length ≤ 2147483647) :
    messageParse depth st = .ub .stack := by
  obtain ⟨h1, h2, h3, b, hb, h4⟩ := h
  have hdep' : depth < bodyDepth b.data := by simpa [messageDepth, hb] using hdep
  have hlen : st.data.length = st.cursor + (messageBytes c m).length + rest.length ∨ st.data.length ≤ st.cursor := by
    have := congrArg List.length hd
    simp only [List.length_drop, List.length_append] at this
    omega
  have hd0 : st.data.drop st.cursor = encHeader 7 6 ++ (enc (opt strTerm m.transactionId) ++ (enc (opt (uintTerm 1) m.groupId) ++
      (enc (opt (uintTerm 1) m.abortOnError) ++ (enc (messageBodyTerm b) ++ (enc (.uint (bigEndian 2 c)) ++ ([0x00] ++ rest)))))) := by
    rw [hd]
    simp [messageBytes, messageHead, messageFields, encAll, hb, opt]
  have hcur : st.cursor < st.data.length := by
    obtain ⟨bs, hbs⟩ := messageBytes_first c m
    rw [hbs] at hd
    exact (drop_cons_get hd).1
  unfold messageParse cursorAsInt
  run
  rw [if_neg (by omega)]
  run
  rw [reads_type (st := { st with live := st.live + 1 }) (encHeader_ne _ _) (encHeader_type (by decide)) hd0]
  run
  rw [if_neg (by simp), reads_length (st := { st with live := st.live + 1 }) (by decide) (small_len (by decide)) hd0]
  run
  rw [if_neg (by simp)]
  have hd1 := drop_add hd0
  have hd2 := drop_add hd1
  have hd3 := drop_add hd2
  have hd4 := drop_add hd3
  rw [run_messageField (reads_octetString _ h1) (by exact hd1) (by simp) (by exact he)]
  rw [run_messageField (reads_uint (by decide) (by decide) _ h2) (by exact hd2) (by simp) (by exact he)]
  rw [run_messageField (reads_uint (by decide) (by decide) _ h3) (by exact hd3) (by simp) (by exact he)]
  unfold messageField
  rw [run_bind, deep_messageBody b h4 hdep' _ _ (by exact hd4) (by simp) (by exact he), Res.andThen_ub]

/-! ## Trees that were read are no deeper than the stack -/

theorem treesDepth_append (xs ys : List Tree) : treesDepth (xs ++ ys) = max (treesDepth xs) (treesDepth ys) := by
  induction xs with
  | nil => simp [treesDepth]
  | cons x xs ih => simp [treesDepth, ih, Nat.max_assoc]

theorem shallow_treeLoop {p : M (Option Tree)} {d : Nat} (hp : Inv p fun r => ∀ t, r = some t → treeDepth t ≤ d) (i : Nat) :
    ∀ t, treeDepth t ≤ d + 1 → Inv (treeLoop p i t) fun r => ∀ t, r = some t → treeDepth t ≤ d + 1 := by
  induction i with
  | zero => intro t ht; exact inv_pure (by rintro t' h; cases h; exact ht)
  | succ i ih =>
    intro t ht
    unfold treeLoop
    refine inv_bind hp fun c hc => inv_bind Inv.triv fun _ _ => inv_ite (fun _ => ?_) (fun _ => ?_)
    · exact inv_bind Inv.triv fun _ _ => inv_bind Inv.triv fun _ _ => inv_pure (by simp)
    · cases c with
      | none => exact ih t ht
      | some c =>
        refine inv_bind (P := fun t => treeDepth t ≤ d + 1) ?_ fun t' ht' => ih t' ht'
        obtain ⟨n, v, cs⟩ := t
        have key : treeDepth (.mk n v (cs ++ [c])) ≤ d + 1 := by
          have hc' := hc c rfl
          have e1 : treesDepth [c] = treeDepth c := by simp [treesDepth]
          simp only [treeDepth, treesDepth_append, e1] at ht ⊢
          omega
        unfold treeAddTree
        dsimp only
        exact inv_ite (fun _ => inv_bind Inv.triv fun _ _ => inv_pure key) (fun _ => inv_pure key)

theorem shallow_tree (depth : Nat) : Inv (treeParse depth) fun r => ∀ t, r = some t → treeDepth t ≤ depth := by
  induction depth with
  | zero => intro st a s h; cases h
  | succ depth ih =>
    unfold treeParse
    refine inv_optional (by simp) (inv_node (by simp) ?_)
    refine inv_field Inv.triv (by simp) fun n _ => inv_field Inv.triv (by simp) fun v hv => ?_
    have h0 : treeDepth (.mk n v []) ≤ depth + 1 := by simp [treeDepth, treesDepth]
    refine inv_bind Inv.triv fun _ _ => inv_ite (fun _ => inv_pure (by rintro t h; cases h; exact h0)) fun _ => ?_
    refine inv_bind Inv.triv fun _ _ => inv_ite (fun _ => inv_failWith (by simp)) fun _ => ?_
    exact inv_bind Inv.triv fun _ _ => shallow_treeLoop ih _ _ h0

theorem shallow_opt {d : Nat} {o : Option Tree} (h : ∀ t, o = some t → treeDepth t ≤ d) : (o.map treeDepth).getD 0 ≤ d := by
  cases o with
  | none => simp
  | some t => exact h t rfl

theorem shallow_packRequest (depth : Nat) : Inv (getProfilePackRequestParse depth) fun r =>
    ∀ m, r = some m → (m.dasDetails.map treeDepth).getD 0 ≤ depth := by
  unfold getProfilePackRequestParse
  refine inv_node (by simp) ?_
  refine inv_field Inv.triv (by simp) fun _ _ => inv_field Inv.triv (by simp) fun _ _ => inv_field Inv.triv (by simp)
    fun _ _ => inv_field Inv.triv (by simp) fun _ _ => inv_field Inv.triv (by simp) fun _ _ => inv_field Inv.triv
    (by simp) fun _ _ => inv_field Inv.triv (by simp) fun _ _ => inv_bind Inv.triv fun r _ => ?_
  cases r with
  | none => exact inv_pure (by simp)
  | some m =>
    refine inv_field (shallow_tree depth) (by simp) fun t ht => inv_pure ?_
    rintro x hx; cases hx; exact shallow_opt ht

theorem shallow_procResponse (depth : Nat) : Inv (getProcParameterResponseParse depth) fun r =>
    ∀ m, r = some m → (m.parameterTree.map treeDepth).getD 0 ≤ depth := by
  unfold getProcParameterResponseParse
  refine inv_node (by simp) ?_
  refine inv_field Inv.triv (by simp) fun _ _ => inv_field Inv.triv (by simp) fun _ _ =>
    inv_field (shallow_tree depth) (by simp) fun t ht => inv_pure ?_
  rintro x hx; cases hx; exact shallow_opt ht

theorem shallow_setProc (depth : Nat) : Inv (setProcParameterRequestParse depth) fun r =>
    ∀ m, r = some m → (m.parameterTree.map treeDepth).getD 0 ≤ depth := by
  unfold setProcParameterRequestParse
  refine inv_node (by simp) ?_
  refine inv_field Inv.triv (by simp) fun _ _ => inv_field Inv.triv (by simp) fun _ _ => inv_field Inv.triv (by simp)
    fun _ _ => inv_field Inv.triv (by simp) fun _ _ =>
    inv_field (shallow_tree depth) (by simp) fun t ht => inv_pure ?_
  rintro x hx; cases hx; exact shallow_opt ht

theorem shallow_attention (depth : Nat) : Inv (attentionResponseParse depth) fun r =>
    ∀ m, r = some m → (m.attentionDetails.map treeDepth).getD 0 ≤ depth := by
  unfold attentionResponseParse
  refine inv_node (by simp) ?_
  refine inv_field Inv.triv (by simp) fun _ _ => inv_field Inv.triv (by simp) fun _ _ => inv_field Inv.triv (by simp)
    fun _ _ => inv_field (shallow_tree depth) (by simp) fun t ht => inv_pure ?_
  rintro x hx; cases hx; exact shallow_opt ht

theorem shallow_bodyData (depth tag : Nat) : Inv (bodyDataParse depth tag) fun d => bodyDepth d ≤ depth := by
  unfold bodyDataParse
  refine inv_ite (fun _ => inv_bind Inv.triv fun r _ => inv_pure (by simp [bodyDepth])) fun _ => ?_
  refine inv_ite (fun _ => inv_bind Inv.triv fun r _ => inv_pure (by simp [bodyDepth])) fun _ => ?_
  refine inv_ite (fun _ => inv_bind Inv.triv fun r _ => inv_pure (by simp [bodyDepth])) fun _ => ?_
  refine inv_ite (fun _ => inv_bind Inv.triv fun r _ => inv_pure (by simp [bodyDepth])) fun _ => ?_
  refine inv_ite (fun _ => inv_bind (shallow_packRequest depth) fun r hr => inv_pure (by cases r with | none => simp [bodyDepth] | some m => exact hr m rfl)) fun _ => ?_
  refine inv_ite (fun _ => inv_bind Inv.triv fun r _ => inv_pure (by simp [bodyDepth])) fun _ => ?_
  refine inv_ite (fun _ => inv_bind (shallow_packRequest depth) fun r hr => inv_pure (by cases r with | none => simp [bodyDepth] | some m => exact hr m rfl)) fun _ => ?_
  refine inv_ite (fun _ => inv_bind Inv.triv fun r _ => inv_pure (by simp [bodyDepth])) fun _ => ?_
  refine inv_ite (fun _ => inv_bind Inv.triv fun r _ => inv_pure (by simp [bodyDepth])) fun _ => ?_
  refine inv_ite (fun _ => inv_bind (shallow_procResponse depth) fun r hr => inv_pure (by cases r with | none => simp [bodyDepth] | some m => exact hr m rfl)) fun _ => ?_
  refine inv_ite (fun _ => inv_bind (shallow_setProc depth) fun r hr => inv_pure (by cases r with | none => simp [bodyDepth] | some m => exact hr m rfl)) fun _ => ?_
  refine inv_ite (fun _ => inv_bind Inv.triv fun r _ => inv_pure (by simp [bodyDepth])) fun _ => ?_
  refine inv_ite (fun _ => inv_bind Inv.triv fun r _ => inv_pure (by simp [bodyDepth])) fun _ => ?_
  refine inv_ite (fun _ => inv_bind (shallow_attention depth) fun r hr => inv_pure (by cases r with | none => simp [bodyDepth] | some m => exact hr m rfl)) fun _ => ?_
  exact inv_pure (by simp [bodyDepth])

theorem shallow_body {depth : Nat} {st s : St} {o : Option MessageBody} (h : messageBodyParse depth st = .ok o s) (he : s.error = false) :
    (o.map fun b => bodyDepth b.data).getD 0 ≤ depth := by
  obtain ⟨_, s0, s1, t, _, _, ht, _, ⟨_, h, _⟩ | ⟨tt, d, rfl, hd, hb⟩⟩ := body_inv h he
  · subst h; simp
  · subst hb; exact shallow_bodyData _ _ _ _ _ hd

end Sml
