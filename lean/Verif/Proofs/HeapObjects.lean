import Verif.Proofs.Heap
import Verif.Proofs.ValueShape

/-! # Objects on the addressed heap: values, status words, times, sequences, lists -/

namespace Sml

theorem P.bind_pure {pm : P α} : (pm >>= pure) = pm := by
  funext st h
  show P.bind pm (fun a => pure a) st h = _
  unfold P.bind
  cases pm st h <;> rfl

theorem Sim.last {R : α → β → List Blk → Prop} {pm : P β} (h : Sim B0 m (pm >>= pure) R) : Sim B0 m pm R := by
  rwa [P.bind_pure] at h

theorem growMax_le (byte : UInt8) : ∀ fuel max, growMax fuel max byte ≤ max * 2 ^ fuel
  | 0, max => by simp [growMax]
  | fuel + 1, max => by
    rw [growMax]
    split
    · have := growMax_le byte fuel (max * 2)
      rw [Nat.pow_succ]
      rw [Nat.mul_assoc, Nat.mul_comm 2] at this
      exact this
    · exact Nat.le_mul_of_pos_right _ (Nat.two_pow_pos _)

/-- The type of a number with the size added to it is a byte. -/
theorem type_or_max (byte : UInt8) (h : ty = tyUnsigned ∨ ty = tyInteger) :
    (ty ||| growMax 4 1 byte) % 256 = ty ||| growMax 4 1 byte := by
  have h1 := growMax_le byte 4 1
  refine Nat.mod_eq_of_lt (Nat.or_lt_two_pow (n := 8) ?_ (by omega))
  obtain rfl | rfl := h <;> decide

theorem wrap32_le (x : Int) : wrap32 x ≤ 2147483647 := by
  have := Int.bmod_lt (x := x) (m := 4294967296) (by decide)
  rw [wrap32]
  omega

theorem getNextLength_le (s : St) (v : Int) (s' : St) (h : getNextLength s = .ok v s') : v.toNat ≤ 2147483647 := by
  suffices hs : Wlp getNextLength s fun v _ => v.toNat ≤ 2147483647 from hs _ _ h
  unfold getNextLength
  simp only [wlp_bind, wlp_ite, wlp_pure, wlp_getSt]
  refine ⟨fun _ => ?_, fun _ _ _ _ _ _ _ => ⟨fun _ _ _ _ _ _ _ => ?_, fun _ _ _ _ => ?_⟩⟩
  · intro a s1 e
    simp
  · have := wrap32_le
    grind
  · simp

theorem numberParse_sized (type max : Nat) (s : St) (v : Option Num) (s' : St) (h : numberParse type max s = .ok v s') :
    ∀ t, v = some t → Sized max t :=
  (number_result type max s v s' h).1

theorem sim_value : Sim [] valueParse pValueParse (repOpt RValue) := by
  have hz : repOpt RValue none 0 [] := ⟨rfl, rfl⟩
  rw [valueParse, pValueParse]
  refine dry_optionalIsSkipped.sim fun b => Sim.ite (fun _ => Sim.ret hz) fun _ => ?_
  refine dry_getNextType.sim fun ty => ?_
  refine dry_getCurrentByte.sim fun byte => ?_
  refine Sim.alloc fun a ha => ?_
  refine Sim.writeInt ha (by simp) ?_
  have h0 : Rec [nullRep] [ty] a [(a, .struct [0] [ty])] := ⟨[0], [], Fields.single ⟨rfl, rfl⟩, rfl⟩
  refine Sim.bind (R := fun v _ B => RValue v a B) ?_ fun v _ B hv =>
    Sim.finish (freed := valueFreed) (frees_value v) hv
  refine Sim.ite (fun ht => ?_) fun ht => ?_
  · refine Sim.call sim_octetString fun v p B hv => Sim.last ?_
    exact Rec.set h0 rfl hv fun B hB => Sim.ret ⟨fun _ => ⟨_, rfl⟩, hB⟩
  refine Sim.ite (fun ht' => ?_) fun ht' => ?_
  · refine Sim.call sim_boolean fun v p B hv => Sim.last ?_
    exact Rec.set h0 rfl hv fun B hB => Sim.ret ⟨fun h => absurd h ht, hB⟩
  refine Sim.ite (fun ht'' => ?_) fun ht'' => ?_
  · refine Sim.call (sim_number ty (growMax 4 1 byte)) fun v p B hv => ?_
    refine Rec.set h0 rfl hv fun B hB => ?_
    obtain ⟨ps, B', hF, rfl⟩ := hB
    refine Sim.readInt ha rfl (Sim.last (Sim.writeInt ha (by simp) (Sim.ret ⟨?_, ps, B', hF, ?_⟩)))
    · intro h
      exact absurd (Nat.or_eq_zero_iff.mp h).1 ht
    · rw [type_or_max byte ht'']
      rfl
  · refine Sim.last (dry_setError.sim fun _ => Sim.ret ⟨fun h => absurd h ht, h0⟩)

theorem sim_status : Sim [] statusParse pStatusParse (repOpt RStatus) := by
  have hz : repOpt RStatus none 0 [] := ⟨rfl, rfl⟩
  rw [statusParse, pStatusParse]
  refine dry_optionalIsSkipped.sim fun b => Sim.ite (fun _ => Sim.ret hz) fun _ => ?_
  refine dry_getNextType.sim fun ty => ?_
  refine dry_getCurrentByte.sim fun byte => ?_
  refine Sim.alloc fun a ha => ?_
  refine Sim.writeInt ha (by simp) ?_
  have h0 : Rec [nullRep] [ty] a [(a, .struct [0] [ty])] := ⟨[0], [], Fields.single ⟨rfl, rfl⟩, rfl⟩
  refine Sim.bind (R := fun v _ B => RStatus v a B) ?_ fun v _ B hv =>
    Sim.finish (freed := statusFreed) (frees_status v) hv
  refine Sim.ite (fun ht => ?_) fun ht => ?_
  · refine Sim.call (sim_number ty (growMax 4 1 byte)) fun v p B hv => ?_
    refine Rec.set h0 rfl hv fun B hB => ?_
    obtain ⟨ps, B', hF, rfl⟩ := hB
    refine Sim.readInt ha rfl (Sim.last (Sim.writeInt ha (by simp) (Sim.ret ⟨ps, B', hF, ?_⟩)))
    rw [type_or_max byte (.inl ht)]
    rfl
  · exact Sim.last (dry_setError.sim fun _ => Sim.ret h0)

/-- Two releases in one. -/
theorem release_add (m n : Nat) (k : M α) : (release (m + n) >>= fun _ => k) =
    (release m >>= fun _ => release n >>= fun _ => k) := by
  funext s
  show M.bind _ _ s = M.bind _ (fun _ => M.bind _ _) s
  simp only [M.bind, release]
  by_cases h1 : m + n ≤ s.live
  · have h2 : m ≤ s.live := by omega
    have h3 : n ≤ s.live - m := by omega
    simp only [h1, h2, h3, if_true, Nat.sub_sub]
  · by_cases h2 : m ≤ s.live
    · have h3 : ¬ n ≤ s.live - m := by omega
      simp only [h1, h2, h3, if_true, if_false]
    · simp only [h1, h2, if_false]

theorem sim_timeData (tag : Option Num) (hr : RTime { tag := tag, data := none } a B0) :
    Sim B0 (timeParseData tag) (pTimeParseData a) (repOpt RTime) := by
  have hz : repOpt RTime none 0 [] := ⟨rfl, rfl⟩
  rw [timeParseData, pTimeParseData]
  refine dry_getNextType.sim fun ty => Sim.ite (fun _ => ?_) fun _ => ?_
  · exact Sim.field (sim_number _ _) hr rfl rfl (fun _ => rfl) frees_time hz fun v B hB => Sim.ret hB
  refine Sim.ite (fun _ => ?_) fun _ => Sim.abort (frees_time _) hr hz
  refine dry_getNextLength.sim fun _ => ?_
  refine Sim.call (sim_number _ _) fun t1 p1 B1 h1 => dry_hasErrors.sim fun b => Sim.ite (fun _ => ?_) fun _ => ?_
  · rw [release_add]
    exact Sim.release (frees_numberOpt _) h1 (Sim.abort (frees_time _) hr hz)
  refine Sim.call (sim_number _ _) fun t2 p2 B2 h2 => dry_hasErrors.sim fun b => Sim.ite (fun _ => ?_) fun _ => ?_
  · rw [release_add, release_add]
    refine Sim.perm (B1 := B1 ++ (B2 ++ B0)) ?_ ?_
    · rw [← List.append_assoc, ← List.append_assoc]
      exact List.perm_append_comm.append_right _
    refine Sim.release (frees_numberOpt _) h1 ?_
    exact Sim.release (frees_numberOpt _) h2 (Sim.abort (frees_time _) hr hz)
  refine Sim.call (sim_number _ _) fun t3 p3 B3 h3 => dry_hasErrors.sim fun b => ?_
  refine Sim.perm (B1 := B1 ++ (B2 ++ (B3 ++ B0))) ?_ ?_
  · rw [← List.append_assoc, ← List.append_assoc, ← List.append_assoc, ← List.append_assoc]
    refine List.Perm.append_right _ ?_
    rw [List.append_assoc B1]
    refine (List.perm_append_comm (l₁ := B3 ++ B2)).trans ?_
    exact List.perm_append_comm.append_left _
  refine Sim.ite (fun _ => ?_) fun _ => ?_
  · rw [release_add, release_add, release_add]
    refine Sim.release (frees_numberOpt _) h1 ?_
    refine Sim.release (frees_numberOpt _) h2 ?_
    exact Sim.release (frees_numberOpt _) h3 (Sim.abort (frees_time _) hr hz)
  · show Sim _ (release (numberFreed t1 + numberFreed t2 + numberFreed t3) >>= fun _ => pure _) _ _
    rw [release_add, release_add]
    refine Sim.release (frees_numberOpt _) h1 ?_
    refine Sim.release (frees_numberOpt _) h2 ?_
    exact Sim.release (frees_numberOpt _) h3 (Sim.ret hr)

theorem sim_time : Sim [] timeParse pTimeParse (repOpt RTime) := by
  have hz : repOpt RTime none 0 [] := ⟨rfl, rfl⟩
  refine Sim.optional ?_
  refine Sim.alloc fun a ha => ?_
  have h0 : RTime ⟨none, none⟩ a [(a, .struct [0, 0] [])] :=
    ⟨[0, 0], [], ⟨0, _, [], [], rfl, ⟨rfl, rfl⟩, Fields.single ⟨rfl, rfl⟩, rfl⟩, rfl⟩
  refine dry_getCurrentByte.sim fun b => Sim.ite (fun _ => ?_) fun _ => ?_
  · refine Sim.alloc fun t ht => ?_
    exact Rec.set (Bp := [(t, _)]) h0 rfl (r := RNum _) rfl fun B hB => sim_timeData (some _) hB
  · refine Sim.expectList (frees_time _) h0 hz ?_
    exact Sim.field (sim_number _ _) h0 rfl rfl (fun _ => rfl) frees_time hz fun v B hB => sim_timeData v hB

/-! ## Arrays -/

/-- An array of elements, with the number of elements in the structure that holds it. -/
theorem RArr.ne {rs : List Rep} (h : rs ≠ []) : RArr rs a B ↔ Rec rs [] a B := by
  rw [RArr, if_neg h]

theorem Fields.getAppend : ∀ {rs ps B}, Fields (rs ++ rs') ps B →
    ∃ ps1 ps2 B1 B2, ps = ps1 ++ ps2 ∧ B = B1 ++ B2 ∧ Fields rs ps1 B1 ∧ Fields rs' ps2 B2
  | [], _, _, h => ⟨[], _, [], _, rfl, rfl, ⟨rfl, rfl⟩, h⟩
  | r :: rs, _, _, ⟨p, ps', B1, B2, hps, hr, hf, hB⟩ => by
    obtain ⟨q1, q2, C1, C2, rfl, rfl, h1, h2⟩ := hf.getAppend
    exact ⟨p :: q1, q2, B1 ++ C1, C2, hps, by rw [hB, List.append_assoc], ⟨p, q1, B1, C1, rfl, hr, h1, rfl⟩, h2⟩

/-- Elements of an array released one after the other. -/
theorem forEach_ok {f : Addr → P Unit} {r : α → Rep} {freed : α → Nat} (hf : ∀ v, Frees f (r v) (freed v)) :
    ∀ (vs : List α) {qs ps B s i arr sp is st n0 c0 h L}, s ≠ 0 → arr ≠ 0 → sp[i]? = some arr →
    Fields (vs.map r) ps B →
    Own n0 c0 h (B ++ ((s, .struct sp is) :: (arr, .struct (qs ++ ps) []) :: L)) →
    ∃ h' g, pForEach f s i vs.length qs.length st h = .ok () st h' ∧
      Own n0 c0 h' (g ++ ((s, .struct sp is) :: (arr, .struct (qs ++ ps) []) :: L)) ∧
      g.length + (vs.map freed).sum = B.length
  | [], qs, ps, B, s, i, arr, sp, is, st, n0, c0, h, L, hs, ha, hi, hF, o => by
    obtain ⟨rfl, rfl⟩ := hF
    exact ⟨h, [], rfl, o, rfl⟩
  | v :: vs, qs, ps, B, s, i, arr, sp, is, st, n0, c0, h, L, hs, ha, hi, hF, o => by
    obtain ⟨p, ps', B1, B2, rfl, hr, hF', rfl⟩ := hF
    rw [List.append_assoc] at o
    have cs : h.cells s = some (.struct sp is) := o.cell_of_mem (by simp)
    have ca : h.cells arr = some (.struct (qs ++ p :: ps') []) := o.cell_of_mem (by simp)
    obtain ⟨h1, g1, e1, o1, l1⟩ := hf v p B1 hr st n0 c0 h _ o
    have o2 : Own n0 c0 h1 (B2 ++ ((s, .struct sp is) :: (arr, .struct ((qs ++ [p]) ++ ps') []) :: (g1 ++ L))) :=
      o1.perm (by
        rw [List.append_assoc qs]
        refine List.perm_append_comm.trans ?_
        rw [List.append_assoc]
        refine List.Perm.append_left _ ?_
        refine (List.perm_append_comm).trans ?_
        refine List.perm_middle.trans (List.Perm.cons _ ?_)
        exact List.perm_middle.trans (List.Perm.cons _ (List.Perm.refl _)))
    obtain ⟨h2, g2, e2, o3, l2⟩ := forEach_ok hf vs (qs := qs ++ [p]) (st := st) hs ha hi hF' o2
    refine ⟨h2, g2 ++ g1, ?_, ?_, ?_⟩
    · rw [List.length_cons, pForEach, P.bind_ok (readPtr_ok hs cs hi), P.bind_ok (readPtr_ok (p := p) ha ca (by simp)),
        P.bind_ok e1]
      rw [List.length_append] at e2
      exact e2
    · refine o3.perm ?_
      rw [List.append_assoc qs, List.append_assoc g2]
      refine List.Perm.append_left _ ?_
      refine List.Perm.trans ?_ List.perm_middle.symm
      refine List.Perm.cons _ ?_
      refine List.Perm.trans ?_ List.perm_middle.symm
      exact List.Perm.refl _
    · simp only [List.map_cons, List.sum_cons, List.length_append]
      omega

/-- A member of a structure, and what happens to the structure when the member changes. -/
theorem Fields.split : ∀ {rs ps B} (i : Nat), Fields rs ps B → rs[i]? = some r →
    ∃ p B1 B2, ps[i]? = some p ∧ r p B1 ∧ B.Perm (B1 ++ B2) ∧
      ∀ (r' : Rep) p' B1', r' p' B1' → ∃ B', Fields (rs.set i r') (ps.set i p') B' ∧ B'.Perm (B1' ++ B2)
  | [], _, _, i, _, hi => by simp at hi
  | r0 :: rs, _, _, 0, ⟨p0, ps', B1, B2, hps, hr, hf, hB⟩, hi => by
    simp only [List.getElem?_cons_zero, Option.some.injEq] at hi
    subst hi hps hB
    refine ⟨p0, B1, B2, rfl, hr, List.Perm.refl _, fun r' p' B1' hr' => ?_⟩
    exact ⟨B1' ++ B2, ⟨p', ps', B1', B2, rfl, hr', hf, rfl⟩, List.Perm.refl _⟩
  | r0 :: rs, _, _, i + 1, ⟨p0, ps', B1, B2, hps, hr, hf, hB⟩, hi => by
    simp only [List.getElem?_cons_succ] at hi
    subst hps hB
    obtain ⟨p, C1, C2, hp, hr', hperm, hset⟩ := hf.split i hi
    have swap : ∀ D : List Blk, (B1 ++ (D ++ C2)).Perm (D ++ (B1 ++ C2)) := by
      intro D
      rw [← List.append_assoc, ← List.append_assoc]
      exact List.perm_append_comm.append_right C2
    refine ⟨p, C1, B1 ++ C2, hp, hr', (hperm.append_left B1).trans (swap C1), fun r' p' B1' hr'' => ?_⟩
    obtain ⟨B', hF, hP⟩ := hset r' p' B1' hr''
    exact ⟨B1 ++ B', ⟨p0, _, B1, B', rfl, hr, hF, rfl⟩, (hP.append_left B1).trans (swap B1')⟩

theorem realloc_ok (o : Own n0 c0 h ((p, .struct qs []) :: L)) (hn : n ≤ qs.length + 1) :
    ∃ h', reallocArray p n st h = .ok h.next st h' ∧ h.next ≠ 0 ∧
      Own n0 c0 h' ((h.next, .struct ((qs ++ List.replicate n 0).take n) []) :: L) := by
  have o1 := o.alloc (.struct ((qs ++ List.replicate n 0).take n) [])
  have o2 := o1.perm (List.Perm.swap _ _ _)
  refine ⟨_, ?_, o1.ne0, o2.drop⟩
  have hs : reallocSource p st h = .ok (.struct qs []) st h := by rw [reallocSource, o.cell]
  rw [reallocArray, if_neg o.ne0, P.bind_ok hs]
  simp only
  rw [if_neg (show ¬ qs.length + 1 < n by omega)]
  refine (P.bind_ok rfl).trans ?_
  exact (P.bind_ok (free_ok o.ne0 o2.cell)).trans rfl

theorem Sim.realloc {m : M γ} {pk : Addr → P δ} (hn : n ≤ qs.length + 1)
    (hk : ∀ b, b ≠ 0 → Sim ((b, .struct ((qs ++ List.replicate n 0).take n) []) :: B0) m (pk b) R) :
    Sim ((p, .struct qs []) :: B0) m (reallocArray p n >>= pk) R := by
  intro s n0 c0 h g0 o v s' hm
  obtain ⟨h', e, hne, o'⟩ := realloc_ok (n := n) (st := s.dry) o hn
  obtain ⟨p2, h2', B2, g2, ep2, hR2, o2, l2⟩ := hk h.next hne s n0 c0 h' g0 o' v s' hm
  exact ⟨p2, h2', B2, g2, by rw [P.bind_ok e, ep2], hR2, o2, l2⟩

/-- `pArrayAdd`: one more element in the array of a structure. -/
theorem sim_arrayAdd {rs : List Rep} {es : List Rep} {m : M γ} {pk : Unit → P δ} {r : Rep} [Decidable c]
    (hr : Rec rs (n :: is) s B0) (hs : s ≠ 0) (hi : rs[i]? = some (RArr es)) (hn : es.length = n) (hmax : n < 2147483647)
    (hc : c ↔ es = []) (he : r e Be)
    (hk : ∀ B, Rec (rs.set i (RArr (es ++ [r]))) ((n + 1) :: is) s B → Sim B m (pk ()) R) :
    Sim (Be ++ B0) ((if c then alloc 1 else pure ()) >>= fun _ => m) (pArrayAdd s i e >>= pk) R := by
  subst hn
  obtain ⟨ps, B', hF, rfl⟩ := hr
  obtain ⟨arr, B1, B2, hp, harr, hperm, hset⟩ := hF.split i hi
  have hlt : i < ps.length := by
    rw [hF.length]
    exact (List.getElem?_eq_some_iff.mp hi).1
  refine Sim.perm List.perm_middle ?_
  simp only [pArrayAdd, P.assoc]
  refine Sim.readInt hs rfl ?_
  rw [if_neg (show ¬ es.length ≥ 2147483647 by omega)]
  simp only [P.assoc]
  refine Sim.writeInt hs (by simp) (Sim.readPtr hs hp ?_)
  by_cases hes : es = []
  · subst hes
    rw [RArr, if_pos rfl] at harr
    obtain ⟨rfl, rfl⟩ := harr
    rw [if_pos (hc.mpr rfl), reallocArray, if_pos rfl, if_neg (show ¬ 1 < ([] : List Rep).length + 1 by simp)]
    refine Sim.alloc fun b hb => ?_
    refine Sim.perm (List.Perm.swap _ _ _) ?_
    refine Sim.writePtr hs hlt (Sim.readPtr hs (x := b) (by simp [hlt]) (Sim.readInt hs rfl ?_))
    rw [Nat.add_sub_cancel]
    refine Sim.perm (List.Perm.swap _ _ _) ?_
    refine Sim.writePtr hb (by simp) ?_
    obtain ⟨C, hC, hCp⟩ := hset (RArr ([] ++ [r])) b ((b, .struct [e] []) :: Be)
      ((RArr.ne (by simp)).mpr ⟨[e], Be, Fields.single he, rfl⟩)
    refine Sim.perm ?_ (hk _ ⟨_, C, hC, rfl⟩)
    refine (List.Perm.swap _ _ _).trans (List.Perm.cons _ ?_)
    refine List.Perm.trans ?_ hCp.symm
    exact List.Perm.cons _ (hperm.append_left Be)
  · rw [RArr.ne hes] at harr
    obtain ⟨qs, C1, hq, rfl⟩ := harr
    have hql : qs.length = es.length := by
      rw [hq.length]
    rw [if_neg (fun h => hes (hc.mp h))]
    show Sim _ m _ _
    refine Sim.perm (B1 := (arr, .struct qs []) :: (s, .struct ps ((es.length + 1) :: is)) :: (C1 ++ Be ++ B2)) ?_ ?_
    · refine List.Perm.trans (List.Perm.cons _ ?_) (List.Perm.swap _ _ _)
      refine (hperm.append_left Be).trans ?_
      refine List.perm_middle.trans (List.Perm.cons _ ?_)
      show (Be ++ (C1 ++ B2)).Perm _
      rw [← List.append_assoc]
      exact List.perm_append_comm.append_right _
    refine Sim.realloc (by omega) fun b hb => ?_
    refine Sim.perm (List.Perm.swap _ _ _) ?_
    refine Sim.writePtr hs hlt (Sim.readPtr hs (x := b) (by simp [hlt]) (Sim.readInt hs rfl ?_))
    rw [Nat.add_sub_cancel]
    refine Sim.perm (List.Perm.swap _ _ _) ?_
    have htake : (qs ++ List.replicate (es.length + 1) 0).take (es.length + 1) = qs ++ [0] := by
      rw [List.take_append, hql, List.take_of_length_le (by omega)]
      simp
    rw [htake]
    refine Sim.writePtr hb (by simp [hql]) ?_
    have hset' : (qs ++ [0]).set es.length e = qs ++ [e] := by
      rw [← hql]
      simp
    rw [hset']
    obtain ⟨C, hC, hCp⟩ := hset (RArr (es ++ [r])) b ((b, .struct (qs ++ [e]) []) :: (C1 ++ Be))
      ((RArr.ne (by simp)).mpr ⟨_, _, hq.append (Fields.single he), rfl⟩)
    refine Sim.perm ?_ (hk _ ⟨_, C, hC, rfl⟩)
    refine (List.Perm.swap _ _ _).trans (List.Perm.cons _ ?_)
    exact hCp.symm

/-! ## Sequences -/

theorem frees_sequence {r : Option α → Rep} {freed : Option α → Nat} (hf : ∀ v, Frees f (r v) (freed v))
    (s : Sequence α) : Frees (pSequenceFree c f) (RSequence c r s) (sequenceFreed freed (some s)) := by
  rintro a B ⟨ps, B', hF, rfl⟩ st n0 c0 h L o
  obtain ⟨arr, rfl, harr⟩ := hF.one
  have hne := o.ne0
  rw [pSequenceFree, if_pos hne, P.bind_ok (readInt_ok hne o.cell rfl), if_neg (fun h => h rfl),
    P.bind_ok (readInt_ok hne o.cell rfl)]
  by_cases hs : s.elems = []
  · rw [RArr, if_pos (by rw [hs]; rfl)] at harr
    obtain ⟨rfl, rfl⟩ := harr
    have e0 : pForEach f a 0 s.elems.length 0 st h = .ok () st h := by
      rw [hs]
      rfl
    rw [P.bind_ok e0, P.bind_ok (readPtr_ok hne o.cell rfl)]
    refine ⟨_, [], ?_, o.drop, ?_⟩
    · simp only [ne_eq, not_true_eq_false, if_false]
      exact free_ok hne o.cell
    · simp [sequenceFreed, hs]
  · rw [RArr.ne (by simpa using hs)] at harr
    obtain ⟨qs, C, hq, rfl⟩ := harr
    have o1 : Own n0 c0 h (C ++ ((a, .struct [arr] [s.elems.length, c.code]) :: (arr, .struct ([] ++ qs) []) :: L)) := o.perm (by
      refine List.Perm.trans (List.Perm.cons _ ?_) List.perm_middle.symm
      exact List.perm_middle.symm)
    have hna : arr ≠ 0 := (o1.perm List.perm_append_comm |>.perm (List.Perm.swap _ _ _)).ne0
    obtain ⟨h1, g, e1, o2, l1⟩ := forEach_ok hf s.elems (qs := []) (i := 0) (st := st) hne hna rfl hq o1
    have e1' : pForEach f a 0 s.elems.length 0 st h = .ok () st h1 := e1
    rw [P.bind_ok e1']
    have o3 := o2.perm List.perm_middle
    rw [P.bind_ok (readPtr_ok hne o3.cell rfl), if_pos hna, P.bind_ok (readPtr_ok hne o3.cell rfl)]
    have o4 := (o3.perm (List.Perm.cons _ List.perm_middle)).perm (List.Perm.swap _ _ _)
    rw [P.bind_ok (free_ok hna o4.cell)]
    have o5 := o4.drop
    refine ⟨_, g, free_ok hne o5.cell, o5.drop, ?_⟩
    simp only [sequenceFreed, hs, ne_eq, not_false_eq_true, if_true, List.length_cons]
    omega

theorem frees_sequenceOpt {r : Option α → Rep} {freed : Option α → Nat} (hf : ∀ v, Frees f (r v) (freed v)) :
    ∀ v : Option (Sequence α), Frees (pSequenceFree c f) (repOpt (RSequence c r) v) (sequenceFreed freed v)
  | none => Frees.null (fun _ _ => rfl)
  | some v => frees_sequence hf v

theorem RArr.nil : RArr [] 0 [] := by
  rw [RArr, if_pos rfl]
  exact ⟨rfl, rfl⟩

theorem sequenceAdd_bind (s : Sequence α) (e : Option α) (k : Sequence α → M β) :
    (sequenceAdd s e >>= k) = ((if s.elems = [] then alloc 1 else pure ()) >>= fun _ => k { elems := s.elems ++ [e] }) := by
  rw [sequenceAdd]
  by_cases h : s.elems = []
  · rw [if_pos h, if_pos h]
    rfl
  · rw [if_neg h, if_neg h]
    rfl

theorem sim_sequenceLoop {r : Option α → Rep} {freed : Option α → Nat} (hp : Sim [] p pp r)
    (hf : ∀ v, Frees f (r v) (freed v)) : ∀ i s a B, a ≠ 0 → RSequence c r s a B → s.elems.length + i ≤ 2147483647 →
    Sim B (sequenceLoop p freed i s) (pSequenceLoop pp c f a i) (repOpt (RSequence c r))
  | 0, s, a, B, _, hr, _ => Sim.ret hr
  | i + 1, s, a, B, ha, hr, hl => by
    rw [sequenceLoop, pSequenceLoop]
    refine Sim.call hp fun v e Be hv => dry_hasErrors.sim fun b => Sim.ite (fun _ => ?_) fun _ => ?_
    · refine Sim.perm List.perm_append_comm ?_
      refine Sim.release (frees_sequence hf s) hr ?_
      refine dry_setError.sim fun _ => ?_
      exact Sim.forget (B1 := []) (Sim.ret ⟨rfl, rfl⟩)
    · rw [sequenceAdd_bind]
      refine sim_arrayAdd (r := r v) hr ha rfl (by simp) (by omega) (by simp) hv fun B' hB' => ?_
      refine sim_sequenceLoop hp hf i { elems := s.elems ++ [v] } a B' ha ?_ (by simp; omega)
      have e : RSequence c r { elems := s.elems ++ [v] } =
          Rec [RArr (s.elems.map r ++ [r v])] [s.elems.length + 1, c.code] := by
        simp [RSequence]
      rw [e]
      exact hB'

theorem sim_sequence {r : Option α → Rep} {freed : Option α → Nat} (hp : Sim [] p pp r)
    (hf : ∀ v, Frees f (r v) (freed v)) :
    Sim [] (sequenceParse p freed) (pSequenceParse pp c f) (repOpt (RSequence c r)) := by
  have hz : repOpt (RSequence c r) none 0 [] := ⟨rfl, rfl⟩
  rw [sequenceParse, pSequenceParse]
  refine dry_getNextType.sim fun ty => Sim.ite (fun _ => Sim.fail0 hz) fun _ => ?_
  refine Sim.alloc fun a ha => ?_
  refine dry_getNextLength.simPost getNextLength_le fun len hlen => ?_
  exact sim_sequenceLoop hp hf _ _ _ _ ha ⟨[0], [], Fields.single RArr.nil, rfl⟩ (by simpa using hlen)

end Sml
