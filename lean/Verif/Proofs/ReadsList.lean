import Verif.Proofs.Reads

/-!
# Encodings of sequences, paths, measurement lists and trees are read back
-/

namespace Sml

open Spec

/-! ## Sequences -/

/-- Blocks added by `k` more elements after `i` elements. -/
theorem reads_sequenceLoop {p : M (Option α)} {freed : Option α → Nat} {f : Option α → Term} {blk : α → Nat}
    (es : List (Option α)) (h : ∀ e ∈ es, Reads p e (enc (f e)) (own blk e)) : ∀ acc : List (Option α),
    Reads (sequenceLoop p freed es.length { elems := acc }) (some { elems := acc ++ es }) (encAll (es.map f))
      ((if acc = [] ∧ es ≠ [] then 1 else 0) + (es.map (own blk)).sum) := by
  induction es with
  | nil =>
    intro acc
    simpa [sequenceLoop, encAll] using reads_pure (some ({ elems := acc } : Sequence α))
  | cons e es ih =>
    intro acc st rest hd hr he
    have hih := ih (fun x hx => h x (by simp [hx])) (acc ++ [e])
    simp only [List.map_cons, encAll, List.append_assoc] at hd
    have he' : ¬ st.error = true := by simp [he]
    simp only [List.length_cons]
    unfold sequenceLoop
    rw [run_bind, h e (by simp) st _ hd (by simp [hr]) he]
    run
    rw [if_neg he']
    unfold sequenceAdd
    have hne : ¬ (acc ++ [e] = [] ∧ es ≠ []) := by simp
    by_cases hacc : acc = []
    · rw [if_pos hacc]
      run
      rw [hih { st with cursor := st.cursor + (enc (f e)).length, live := st.live + own blk e + 1 } rest (drop_add hd) hr he, if_neg hne]
      simp [hacc, encAll]
      omega
    · rw [if_neg hacc]
      run
      rw [hih { st with cursor := st.cursor + (enc (f e)).length, live := st.live + own blk e } rest (drop_add hd) hr he, if_neg hne]
      simp [hacc, encAll]
      omega

theorem reads_sequence {p : M (Option α)} {freed : Option α → Nat} {f : Option α → Term} {blk : α → Nat} {P : Option α → Prop}
    (hp : ∀ e, P e → Reads p e (enc (f e)) (own blk e)) (o : Option (Sequence α)) (h : SeqOk true P o) :
    Reads (sequenceParse p freed) o (enc (opt (seqTerm f) o)) (own (Sequence.blocks blk) o) := by
  obtain ⟨q, rfl⟩ := Option.isSome_iff_exists.1 (h.2 rfl)
  obtain ⟨hlen, hel⟩ := h.1 q rfl
  obtain ⟨es⟩ := q
  simp only at hlen hel
  intro st rest hd hr he
  simp only [opt, seqTerm, enc, List.length_map, List.append_assoc] at hd ⊢
  unfold sequenceParse
  rw [run_bind, reads_type (encHeader_ne _ _) (encHeader_type (by decide)) hd]
  run
  rw [if_neg (by simp), reads_length (st := { st with live := st.live + 1 }) (by decide) (small_len hlen) hd]
  run
  rw [Int.toNat_natCast, reads_sequenceLoop es (fun e h => hp e (hel e h)) [] { st with cursor := st.cursor + (encHeader 7 es.length).length, live := st.live + 1 } rest (drop_add hd) hr he]
  cases es
  · simp [own, Sequence.blocks, Nat.add_assoc]
  · simp [own, Sequence.blocks, Nat.add_assoc]
    omega

/-! ## Paths -/

theorem reads_pathLoop (es : List (Option OctetString)) (h : ∀ e ∈ es, Opt (StrOk true) e ∧ e.isSome) : ∀ acc : List (Option OctetString),
    Reads (treePathLoop es.length { entries := acc }) (some { entries := acc ++ es }) (encAll (es.map (opt strTerm)))
      ((if acc = [] ∧ es ≠ [] then 1 else 0) + (es.map (own OctetString.blocks)).sum) := by
  induction es with
  | nil =>
    intro acc
    simpa [treePathLoop, encAll] using reads_pure (some ({ entries := acc } : TreePath))
  | cons e es ih =>
    intro acc st rest hd hr he
    have hih := ih (fun x hx => h x (by simp [hx])) (acc ++ [e])
    simp only [List.map_cons, encAll, List.append_assoc] at hd
    have he' : ¬ st.error = true := by simp [he]
    simp only [List.length_cons]
    obtain ⟨hs, hsome⟩ := h e (by simp)
    obtain ⟨x, rfl⟩ := Option.isSome_iff_exists.1 hsome
    unfold treePathLoop
    rw [run_bind, reads_octetString (some x) hs st _ hd (by simp [hr]) he]
    run
    rw [if_neg he']
    unfold treePathAdd
    have hne : ¬ (acc ++ [some x] = [] ∧ es ≠ []) := by simp
    simp only
    by_cases hacc : acc = []
    · rw [if_pos hacc]
      run
      rw [hih { st with cursor := st.cursor + (enc (opt strTerm (some x))).length, live := st.live + own OctetString.blocks (some x) + 1 } rest (drop_add hd) hr he, if_neg hne]
      simp [hacc, encAll]
      omega
    · rw [if_neg hacc]
      run
      rw [hih { st with cursor := st.cursor + (enc (opt strTerm (some x))).length, live := st.live + own OctetString.blocks (some x) } rest (drop_add hd) hr he, if_neg hne]
      simp [hacc, encAll]
      omega

theorem reads_path (o : Option TreePath) (h : Opt (PathOk true) o) :
    Reads treePathParse o (enc (opt pathTerm o)) (own TreePath.blocks o) := by
  unfold treePathParse
  refine reads_opt_list (P := PathOk true) (ts := fun p => p.entries.map (opt strTerm)) (fun a => rfl) ?_ o h
  rintro ⟨es⟩ ⟨hne, hlen, hel⟩
  simp only at hne hlen hel
  intro st rest hd hr he
  simp only [enc, List.length_map, List.append_assoc] at hd ⊢
  run
  rw [reads_type (st := { st with live := st.live + 1 }) (encHeader_ne _ _) (encHeader_type (by decide)) hd]
  run
  rw [if_neg (by simp), reads_length (st := { st with live := st.live + 1 }) (by decide) (small_len hlen) hd]
  run
  rw [Int.toNat_natCast, reads_pathLoop es (fun e h => ⟨(hel e h).1, (hel e h).2 trivial⟩) [] { st with cursor := st.cursor + (encHeader 7 es.length).length, live := st.live + 1 } rest (drop_add hd) hr he]
  simp [TreePath.blocks, Nat.add_assoc, hne]
  omega

/-! ## Period entries and parameter values -/

theorem reads_periodEntry (o : Option PeriodEntry) (h : Opt (PeriodEntryOk true) o) :
    Reads periodEntryParse o (enc (opt periodEntryTerm o)) (own PeriodEntry.blocks o) := by
  unfold periodEntryParse
  refine reads_opt_list (P := PeriodEntryOk true) (fun a => rfl) ?_ o h
  rintro m ⟨h1, h2, h3, h4, h5⟩
  unfold PeriodEntry.blocks
  simp only [Nat.add_assoc]
  refine reads_node rfl (by decide) ?_
  refine reads_field (reads_octetString _ h1) ?_
  refine reads_field (reads_uint (by decide) (by decide) _ h2) ?_
  refine reads_field (reads_int (by decide) (by decide) _ h3) ?_
  refine reads_field (reads_value _ h4) ?_
  exact reads_field_end (reads_octetString _ h5) rfl

theorem reads_map {p : M α} {f : α → β} {v : α} {bs : List UInt8} {n : Nat} (hp : Reads p v bs n) :
    Reads (do let x ← p; pure (f x)) (f v) (bs ++ []) n := reads_bind (n' := 0) hp (reads_pure _)

theorem reads_ppv (o : Option ProcParValue) (h : Opt (PpvOk true) o) :
    Reads procParValueParse o (enc (opt ppvTerm o)) (own ProcParValue.blocks o) := by
  unfold procParValueParse
  refine reads_opt_list (P := PpvOk true) (fun a => rfl) ?_ o h
  rintro ⟨tag, d⟩ ⟨t, rfl, ht, hd⟩
  unfold ProcParValue.blocks
  simp only [Nat.add_assoc]
  refine reads_node rfl (by decide) ?_
  refine reads_field (reads_uint (by decide) (by decide) _ (fun a ha => by cases ha; exact ht)) ?_
  simp only
  cases d with
  | null => exact hd.elim
  | tupelEntry p => exact hd.elim
  | value p =>
    simp only at hd
    obtain ⟨hv, hp⟩ := hd
    rw [hv]
    exact reads_map (reads_value p hp)
  | periodEntry p =>
    simp only at hd
    obtain ⟨hv, hp⟩ := hd
    rw [hv]
    exact reads_map (reads_periodEntry p hp)
  | time p =>
    simp only at hd
    obtain ⟨hv, hp⟩ := hd
    rw [hv]
    exact reads_map (reads_time p hp)

/-! ## Trees -/

theorem reads_treeLoop {p : M (Option Tree)} (cs : List Tree) (h : ∀ c ∈ cs, Reads p (some c) (enc (treeTerm c)) c.blocks)
    (n : Option OctetString) (v : Option ProcParValue) : ∀ acc : List Tree,
    Reads (treeLoop p cs.length (.mk n v acc)) (some (.mk n v (acc ++ cs))) (encAll (treeTerms cs))
      ((if acc.isEmpty = true ∧ cs ≠ [] then 1 else 0) + Tree.blocksList cs) := by
  induction cs with
  | nil =>
    intro acc
    simpa [treeLoop, encAll, treeTerms, Tree.blocksList] using reads_pure (some (Tree.mk n v acc))
  | cons c cs ih =>
    intro acc st rest hd hr he
    have hih := ih (fun x hx => h x (by simp [hx])) (acc ++ [c])
    simp only [treeTerms, encAll, List.append_assoc] at hd
    have he' : ¬ st.error = true := by simp [he]
    simp only [List.length_cons]
    unfold treeLoop
    rw [run_bind, h c (by simp) st _ hd (by simp [hr]) he]
    run
    rw [if_neg he']
    unfold treeAddTree
    have hne : ¬ ((acc ++ [c]).isEmpty = true ∧ cs ≠ []) := by simp
    simp only
    by_cases hacc : acc.isEmpty = true
    · rw [if_pos hacc]
      run
      rw [hih { st with cursor := st.cursor + (enc (treeTerm c)).length, live := st.live + c.blocks + 1 } rest (drop_add hd) hr he, if_neg hne]
      simp only [hacc, encAll, treeTerms, Tree.blocksList]
      simp
      omega
    · rw [if_neg hacc]
      run
      rw [hih { st with cursor := st.cursor + (enc (treeTerm c)).length, live := st.live + c.blocks } rest (drop_add hd) hr he, if_neg hne]
      simp only [hacc, encAll, treeTerms, Tree.blocksList]
      simp
      omega

theorem treesDepth_mem {cs : List Tree} {c : Tree} (h : c ∈ cs) : treeDepth c ≤ treesDepth cs := by
  induction cs with
  | nil => cases h
  | cons d cs ih =>
    rw [treesDepth]
    rcases List.mem_cons.1 h with rfl | h
    · exact Nat.le_max_left _ _
    · exact Nat.le_trans (ih h) (Nat.le_max_right _ _)

theorem reads_tree1 (depth : Nat) : ∀ t : Tree, TreeFits true t → treeDepth t ≤ depth →
    Reads (treeParse depth) (some t) (enc (treeTerm t)) t.blocks := by
  induction depth with
  | zero => intro t _ h; cases t; simp [treeDepth] at h
  | succ depth ih =>
    intro t ht hdep
    obtain ⟨n, v, cs⟩ := t
    have ht' : Opt (StrOk true) n ∧ Opt (PpvOk true) v ∧ cs.length < 16 ∧ ∀ c, c ∈ cs → TreeFits true c := by
      cases ht with
      | mk h1 h2 h3 h4 => exact ⟨h1, h2, h3, h4⟩
    obtain ⟨h1, h2, h3, h4⟩ := ht'
    simp only [treeDepth] at hdep
    obtain ⟨l, hb⟩ : ∃ l, enc (treeTerm (.mk n v cs)) = 0x73 :: l := by
      rw [treeTerm.eq_def]
      simp only
      rw [enc]
      have : ∀ l : List Term, l.length = 3 → encHeader 7 l.length = [0x73] := fun l hl => by rw [hl]; exact encHeader_list (n := 3) (by decide)
      rw [this _ rfl]
      exact ⟨_, rfl⟩
    unfold treeParse
    rw [hb]
    refine reads_optional_some (by decide) ?_
    rw [← hb, treeTerm.eq_def]
    unfold Tree.blocks
    simp only [Nat.add_assoc]
    refine reads_node rfl (by decide) ?_
    refine reads_field (reads_octetString _ h1) ?_
    refine reads_field (reads_ppv _ h2) ?_
    simp only [Tree.name]
    cases cs with
    | nil =>
      intro st rest hd hr he
      obtain ⟨g1, g2, _⟩ := drop_cons_get (show st.data.drop st.cursor = 1 :: rest by simpa [encAll, enc] using hd)
      rw [run_bind, run_optionalIsSkipped g1, g2]
      rfl
    | cons c cs =>
      intro st rest hd hr he
      simp only [encAll, enc, List.append_assoc, List.nil_append, List.length_cons, treeTerms_length] at hd
      obtain ⟨b, bs, hbb, hb1⟩ := encHeader_first (ty := 7) (n := cs.length + 1) (by decide) (Or.inl (by decide))
      have hd' := hd
      rw [hbb] at hd'
      have h16 : cs.length + 1 < 16 := by simpa using h3
      rw [run_bind, run_notSkipped hd' hb1]
      run
      simp only [Bool.false_eq_true, if_false]
      rw [reads_type (encHeader_ne _ _) (encHeader_type (by decide)) hd]
      run
      rw [if_neg (by simp), reads_length (by decide) (small_len h16) hd]
      run
      rw [Int.toNat_natCast]
      have hl := reads_treeLoop (p := treeParse depth) (c :: cs) (fun x hx => ih x (h4 x hx) (by
        have := treesDepth_mem hx
        omega)) n v []
      have := hl { st with cursor := st.cursor + (encHeader 7 (cs.length + 1)).length } rest
        (by simpa [treeTerms, encAll] using drop_add hd) hr he
      simp only [List.length_cons, List.nil_append] at this
      rw [this]
      simp [encAll, enc, treeTerms, treeTerms_length, Nat.add_assoc]

theorem reads_tree {depth : Nat} (o : Option Tree) (h : Opt (TreeFits true) o) (h0 : 0 < depth) (hd : (o.map treeDepth).getD 0 ≤ depth) :
    Reads (treeParse depth) o (enc (opt treeTerm o)) (own Tree.blocks o) := by
  cases o with
  | some t => exact reads_tree1 depth t (h t rfl) (by simpa using hd)
  | none =>
    cases depth with
    | zero => omega
    | succ depth =>
      unfold treeParse
      exact reads_optional_none

/-! ## Measurement lists -/

/-- The detection of the affected meter, as a yes or no. -/
theorem detect_run {e : ListEntry} (h : Opt (ValOk true) e.value) :
    ∃ b, detectBuggyDzgDvs74 e = pure b ∧ (b = true ↔ IsDzgSerial e) := by
  unfold detectBuggyDzgDvs74 IsDzgSerial
  cases hn : e.objName with
  | none => exact ⟨false, rfl, by simp⟩
  | some name =>
    simp only
    by_cases hname : name.str.length ≠ 6 ∨ name.str ≠ dzgSerialOid
    · rw [if_pos hname]
      refine ⟨false, rfl, by simp, fun ⟨h1, _⟩ => ?_⟩
      cases h1
      simp [dzgSerialOid] at hname
    · rw [if_neg hname]
      have hname' : name.str = [1, 0, 96, 1, 0, 255] := by simp [dzgSerialOid] at hname; exact hname.2
      cases hval : e.value with
      | none => exact ⟨false, rfl, by simp⟩
      | some v =>
        have hv := h v hval
        obtain ⟨ty, d⟩ := v
        simp only
        by_cases ht : ty ≠ tyOctet
        · rw [if_pos ht]
          refine ⟨false, rfl, by simp, fun ⟨_, v, s, h1, h2, _⟩ => ?_⟩
          cases h1
          exact (ht h2).elim
        · rw [if_neg ht]
          have ht0 : ty = 0 := by simpa [tyOctet] using ht
          subst ht0
          unfold ValOk at hv
          cases d with
          | boolean p => obtain ⟨h1, _⟩ := hv; simp at h1
          | num p => obtain ⟨k, _, h1, _⟩ := hv; simp at h1; omega
          | bytes p =>
            obtain ⟨s, rfl⟩ := Option.isSome_iff_exists.1 (hv.2.2 rfl)
            simp only
            by_cases h10 : s.str.length ≠ 10
            · rw [if_pos h10]
              refine ⟨false, rfl, by simp, fun ⟨_, v, s', h1, h2, h3, h4, _⟩ => ?_⟩
              cases h1
              cases h3
              exact (h10 h4).elim
            · rw [if_neg h10]
              have h10' : s.str.length = 10 := by simpa using h10
              by_cases h5 : s.str.take 5 ≠ dzgSerialStart
              · rw [if_pos h5]
                refine ⟨false, rfl, by simp, fun ⟨_, v, s', h1, h2, h3, h4, h6, _⟩ => ?_⟩
                cases h1
                cases h3
                exact (h5 h6).elim
              · rw [if_neg h5]
                have h5' : s.str.take 5 = [0x0A, 0x01, 0x44, 0x5A, 0x47] := by simpa [dzgSerialStart] using h5
                refine ⟨_, rfl, ?_⟩
                rw [dzgSerial_eq _ (by simp; omega)]
                constructor
                · intro hr
                  refine ⟨?_, ⟨0, .bytes (some s)⟩, s, rfl, rfl, rfl, h10', h5', by simpa using hr⟩
                  cases name
                  exact congrArg some (congrArg _ hname')
                · rintro ⟨_, v, s', h1, h2, h3, h4, h6, h7⟩
                  cases h1
                  cases h3
                  simpa using h7

/-- The TL byte of a value that occupies more than two bytes. -/
theorem long_value {v : Value} (h : ValOk true v) (hs : ¬ Short v) : ∃ b bs, enc (valueTerm v) = b :: bs ∧
    ¬ (b &&& 0x8F = 1 ∨ b &&& 0x8F = 2 ∨ b &&& 0x8F = 3) := by
  obtain ⟨ty, d⟩ := v
  unfold ValOk at h
  unfold Short at hs
  unfold valueTerm
  cases d with
  | boolean p => exact (hs trivial).elim
  | bytes p =>
    obtain ⟨_, hp, hsome⟩ := h
    obtain ⟨s, rfl⟩ := Option.isSome_iff_exists.1 (hsome rfl)
    simp only at hs
    have hlen : 2 < s.str.length := by omega
    simp only [opt, strTerm, enc]
    have hfirst : ∀ b bs, encHeader 0 s.str.length = b :: bs → ¬ (b &&& 0x8F = 1 ∨ b &&& 0x8F = 2 ∨ b &&& 0x8F = 3) := by
      intro b bs hb hc
      have hh : IsHeader (encHeader 0 s.str.length) := encHeader_isHeader (by decide)
      have hty := encHeader_type (ty := 0) (n := s.str.length) (by decide)
      have hl := encHeader_headerLength (ty := 0) (n := s.str.length) (by decide)
      have hall : ∀ x : Fin 256, (UInt8.ofNat x.val &&& 0x8F = 1 ∨ UInt8.ofNat x.val &&& 0x8F = 2 ∨ UInt8.ofNat x.val &&& 0x8F = 3) →
          x.val < 128 ∧ x.val % 16 ≤ 3 := by decide +kernel
      have hx := hall ⟨b.toNat, UInt8.toNat_lt b⟩ (by simpa using hc)
      simp only at hx
      have hbs : bs = [] := by
        rw [hb] at hh
        obtain ⟨more, last, he, hm, _⟩ := hh
        cases more with
        | nil => simp at he; exact he.2
        | cons x more =>
          simp at he
          have := hm x (by simp)
          rw [← he.1] at this
          omega
      subst hbs
      rw [hb] at hl hty
      simp [headerLength, hty, headerValue] at hl
      omega
    cases hb : encHeader 0 s.str.length with
    | nil => exact absurd hb (encHeader_ne _ _)
    | cons b bs => exact ⟨b, bs ++ s.str, rfl, hfirst b bs hb⟩
  | num p =>
    obtain ⟨k, hk, hty, hp, hsome⟩ := h
    obtain ⟨n, rfl⟩ := Option.isSome_iff_exists.1 (hsome rfl)
    simp only at hs hty
    obtain ⟨_, _, _, _, a5, a6, a7, a8, _⟩ := sizes_type hk
    have hk4 : k = 4 ∨ k = 8 := by
      simp only [sizes, List.mem_cons, List.not_mem_nil, or_false] at hk
      omega
    have hbyte : ∀ t, t = 5 ∨ t = 6 → ∃ b, encHeader t k = [b] ∧ ¬ (b &&& 0x8F = 1 ∨ b &&& 0x8F = 2 ∨ b &&& 0x8F = 3) := by
      intro t ht
      have h7 : t ≠ 7 := by omega
      refine ⟨_, encHeader_short (by simp [spelled, h7]; omega), ?_⟩
      simp only [spelled, h7, if_false]
      rcases hk4 with rfl | rfl <;> rcases ht with rfl | rfl <;> decide +kernel
    rcases hty with rfl | rfl
    · obtain ⟨b, hb, hb'⟩ := hbyte 5 (Or.inl rfl)
      exact ⟨b, bigEndian k n.val, by simp [opt, a5, a7, intTerm, enc, bigEndian_length, hb], hb'⟩
    · obtain ⟨b, hb, hb'⟩ := hbyte 6 (Or.inr rfl)
      exact ⟨b, bigEndian k n.val, by simp [opt, a6, a8, uintTerm, enc, bigEndian_length, hb], hb'⟩

theorem finish_eq {e : ListEntry} {d wa : Bool} {b : UInt8} (hd : detectBuggyDzgDvs74 e = pure d) :
    listEntryFinish e b wa = (if d then pure (some (e, true))
    else
      match wa, e.objName, e.value with
      | true, some name, some v =>
        if name.str.length = 6 ∧ name.str = dzgPowerName ∧ (b = 1 ∨ b = 2 ∨ b = 3) then do
          noteConfused v
          pure (some ({ e with value := some (retag v) }, wa))
        else pure (some (e, wa))
      | _, _, _ => pure (some (e, wa))) := by
  unfold listEntryFinish
  rw [hd]
  rfl

/-- A value that is unsigned already stays as it is. -/
theorem unsigned_stays {v : Value} (h : ValOk true v) (hu : v.type / 16 = 6) : retag v = v ∧ noteConfused v = pure () := by
  obtain ⟨ty, d⟩ := v
  unfold ValOk at h
  cases d with
  | bytes p => have := h.1; simp only at this hu; omega
  | boolean p => have := h.1; simp only at this hu; omega
  | num p =>
    obtain ⟨k, hk, hty, _⟩ := h
    refine ⟨?_, rfl⟩
    simp only [sizes, List.mem_cons, List.not_mem_nil, or_false] at hk
    simp only at hty hu
    have : ty = 0x61 ∨ ty = 0x62 ∨ ty = 0x64 ∨ ty = 0x68 := by omega
    rcases this with rfl | rfl | rfl | rfl <;> simp [retag, tyUnsigned]

/-- The workaround does nothing to an entry it does not hit. -/
theorem finish_run {e : ListEntry} (h : Opt (ValOk true) e.value) (wa : Bool) (b : UInt8)
    (hwa : wa = true → IsPower e → ∀ v, e.value = some v → v.type / 16 ≠ 6 → ¬ (b = 1 ∨ b = 2 ∨ b = 3)) :
    ∃ wa', listEntryFinish e b wa = pure (some (e, wa')) ∧ (wa' = true → wa = true ∨ IsDzgSerial e) := by
  obtain ⟨d, hd, hiff⟩ := detect_run h
  rw [finish_eq hd]
  cases d with
  | true => exact ⟨true, rfl, fun _ => Or.inr (hiff.1 rfl)⟩
  | false =>
    simp only [Bool.false_eq_true, if_false]
    cases wa with
    | false => exact ⟨false, rfl, Or.inl⟩
    | true =>
      refine ⟨true, ?_, fun _ => Or.inl rfl⟩
      cases hn : e.objName with
      | none => rfl
      | some name =>
        cases hval : e.value with
        | none => rfl
        | some v =>
          simp only
          by_cases hu : v.type / 16 = 6
          · obtain ⟨h1, h2⟩ := unsigned_stays (h v hval) hu
            rw [h1, h2, ← hn, ← hval]
            split <;> rfl
          rw [if_neg]
          intro hc
          refine hwa rfl ?_ v hval hu hc.2.2
          unfold IsPower
          rw [hn]
          cases name
          exact congrArg some (congrArg _ (by simpa [dzgPowerName] using hc.2.1))

theorem reads_listEntry (wa : Bool) (e : ListEntry) (h : ListEntryOk true e)
    (hwa : wa = true → IsPower e → ∀ v, e.value = some v → v.type / 16 ≠ 6 → ¬ Short v) :
    ∃ wa', Reads (listEntryParse wa) (some (e, wa')) (enc (listEntryTerm e)) e.blocks ∧ (wa' = true → wa = true ∨ IsDzgSerial e) := by
  obtain ⟨h1, h2, h3, h4, h5, h6, h7⟩ := h
  -- the byte at the value
  obtain ⟨b, bs, hb, hbl⟩ : ∃ b bs, enc (opt valueTerm e.value) = b :: bs ∧
      (wa = true → IsPower e → ∀ v, e.value = some v → v.type / 16 ≠ 6 →
        ¬ (b &&& 0x8F = 1 ∨ b &&& 0x8F = 2 ∨ b &&& 0x8F = 3)) := by
    cases hv : e.value with
    | none => exact ⟨1, [], by simp [opt, enc], fun _ _ v h => by cases h⟩
    | some v =>
      by_cases hs : Short v
      · have : enc (valueTerm v) ≠ [] := by
          have hv' := h6 v hv
          obtain ⟨ty, d⟩ := v
          unfold ValOk at hv'
          unfold valueTerm
          cases d with
          | bytes p => cases p <;> simp [opt, strTerm, enc, encHeader_ne]
          | boolean p => cases p <;> simp [opt, boolTerm, enc]
          | num p =>
            cases p with
            | none => simp [opt, enc]
            | some n =>
              simp only [opt]
              split <;> simp [intTerm, uintTerm, enc, encHeader_ne]
        cases he : enc (valueTerm v) with
        | nil => exact absurd he this
        | cons b bs => exact ⟨b, bs, by simpa [opt] using he, fun hw hp v' hv' hu => by cases hv'; exact (hwa hw hp v hv hu hs).elim⟩
      · obtain ⟨b, bs, hb, hb'⟩ := long_value (h6 v hv) hs
        exact ⟨b, bs, by simpa [opt] using hb, fun _ _ _ _ _ => hb'⟩
  obtain ⟨wa', hfinish, hfin⟩ := finish_run h6 wa (b &&& 0x8F) hbl
  refine ⟨wa', ?_, hfin⟩
  unfold listEntryParse ListEntry.blocks
  refine reads_expectList (n := 7) (by decide) ?_
  simp only [Nat.add_assoc]
  refine reads_alloc ?_
  refine reads_field (reads_octetString _ h1) ?_
  refine reads_field (reads_status _ h2) ?_
  refine reads_field (reads_time _ h3) ?_
  refine reads_field (reads_uint (by decide) (by decide) _ h4) ?_
  refine reads_field (reads_int (by decide) (by decide) _ h5) ?_
  intro st rest hd hr he
  have hd' : st.data.drop st.cursor = b :: (bs ++ (encAll [opt strTerm e.valueSignature] ++ rest)) := by
    rw [hd, encAll, hb]
    simp
  obtain ⟨hc, hg, _⟩ := drop_cons_get hd'
  run
  rw [if_neg (by omega), run_getCurrentByte hc, hg]
  run
  refine (?_ : Reads _ _ (enc (opt valueTerm e.value) ++ encAll [opt strTerm e.valueSignature]) _) st rest (by simpa [encAll] using hd) hr he
  refine reads_field (reads_value _ h6) ?_
  refine reads_field_end (reads_octetString _ h7) ?_
  exact hfinish

theorem reads_listLoop (es : List ListEntry) : ∀ (wa : Bool) (acc : List ListEntry), (∀ e ∈ es, ListEntryOk true e) →
    (es.Pairwise fun a b => ¬ DzgHits a b) → (wa = true → ∀ e ∈ es, IsPower e → ∀ v, e.value = some v → v.type / 16 ≠ 6 → ¬ Short v) →
    Reads (listLoop es.length wa acc) (acc ++ es) (encAll (es.map listEntryTerm)) (listBlocks es) := by
  induction es with
  | nil => intro wa acc _ _ _; simpa [listLoop, encAll, listBlocks] using reads_pure acc
  | cons e es ih =>
    intro wa acc hok hpw hwa st rest hd hr he
    obtain ⟨wa', hread, hwa'⟩ := reads_listEntry wa e (hok e (by simp)) (fun hw => hwa hw e (by simp))
    rw [List.pairwise_cons] at hpw
    have hih := ih wa' (acc ++ [e]) (fun x hx => hok x (by simp [hx])) hpw.2 (by
      intro hw x hx hp v hv hu hs
      rcases hwa' hw with h | h
      · exact hwa h x (by simp [hx]) hp v hv hu hs
      · exact hpw.1 x hx ⟨h, hp, v, hv, hs, hu⟩)
    simp only [List.map_cons, encAll, List.append_assoc] at hd
    have he' : ¬ st.error = true := by simp [he]
    simp only [List.length_cons]
    unfold listLoop
    rw [run_bind, hread st _ hd (by simp [hr]) he]
    run
    rw [if_neg he', hih { st with cursor := st.cursor + (enc (listEntryTerm e)).length, live := st.live + e.blocks } rest (drop_add hd) hr he]
    simp [encAll, listBlocks, Nat.add_assoc]

theorem reads_list (es : List ListEntry) (h : ListOk true es) :
    Reads listParse es (enc (listTerm es)) (listBlocks es) := by
  obtain ⟨hlen, hok, hpw⟩ := h
  cases es with
  | nil =>
    intro st rest hd _ _
    obtain ⟨h1, h2, _⟩ := drop_cons_get (show st.data.drop st.cursor = 1 :: rest by simpa [enc, listTerm] using hd)
    unfold listParse
    rw [run_bind, run_optionalIsSkipped h1, h2]
    rfl
  | cons e es =>
    intro st rest hd hr he
    simp only [listTerm, enc, List.length_map, List.append_assoc] at hd ⊢
    obtain ⟨b, bs, hb, hb1⟩ := encHeader_first (ty := 7) (n := (e :: es).length) (by decide) (Or.inl (by decide))
    have hd' := hd
    rw [hb] at hd'
    unfold listParse
    rw [run_bind, run_notSkipped hd' hb1]
    run
    simp only [Bool.false_eq_true, if_false]
    rw [reads_type (encHeader_ne _ _) (encHeader_type (by decide)) hd]
    run
    rw [if_neg (by simp), reads_length (by decide) (small_len hlen) hd]
    run
    rw [Int.toNat_natCast]
    have hl := reads_listLoop (e :: es) false [] hok (hpw rfl) (by simp)
    rw [hl { st with cursor := st.cursor + (encHeader 7 (e :: es).length).length } rest (drop_add hd) hr he]
    simp [Nat.add_assoc]

end Sml
