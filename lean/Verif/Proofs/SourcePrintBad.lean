import Verif.Proofs.SourceReceiver

/-!
# The example program, run from its source: what it cannot handle
-/

namespace Sml.C

open Spec (rendering WellTyped Mislabelled frame MessageSafe EntrySafe Named lookedAt responseOf Manageable)

/-! ## Undefined steps -/

/-- A NULL pointer is followed, or bytes behind the end of a block are read. -/
def Wild (b : Bad) : Prop := b = .null ∨ b = .buf .oobRead

theorem EvalsBad.head (h : EvalBad e env m b) : EvalsBad (e :: es) env m b := by
  obtain ⟨N, r⟩ := h
  exact ⟨N, fun n hn => by rw [evals]; exact X_bad (r n hn)⟩

theorem EvalsBad.tail (he : EvalTo e env m v env1 m1) (h : EvalsBad es env1 m1 b) : EvalsBad (e :: es) env m b := by
  obtain ⟨N, r⟩ := he
  obtain ⟨N2, r2⟩ := h
  exact ⟨max N N2, fun n hn => by rw [evals, X_bind_ok (r n (by omega))]; exact X_bad (r2 n (by omega))⟩

theorem ExecBad.printf (h : EvalsBad es env m b) : ExecBad (.printf fmt es) env m b := by
  obtain ⟨N, r⟩ := h
  exact ⟨N, fun n hn => by rw [exec]; exact X_bad (r n hn)⟩

theorem ExecBad.render (he : EvalsTo es env m vs env1 m1) (h : render fmt vs env1 m1 = .bad b) : ExecBad (.printf fmt es) env m b := by
  obtain ⟨N, r⟩ := he
  exact ⟨N, fun n hn => by rw [exec, X_bind_ok (r n hn)]; exact X_bad h⟩

theorem EvalBad.byte (h : EvalBad e env m b) : EvalBad (.byte t e i) env m b := by
  obtain ⟨N, r⟩ := h
  exact ⟨N, fun n hn => by rw [eval]; exact X_bad (r n hn)⟩

theorem EvalBad.ldPtr (h : EvalBad e env m b) : EvalBad (.ldPtr e i) env m b := by
  obtain ⟨N, r⟩ := h
  exact ⟨N, fun n hn => by rw [eval]; exact X_bad (r n hn)⟩

theorem EvalBad.byte_load (he : EvalTo e env m p env1 m1) (hk : EvalTo i env1 m1 (.int t k) env2 m2) (ho : offset p k env2 m2 = .ok q env2 m2) (hl : loadNum ty q env2 m2 = .bad b) :
    EvalBad (.byte ty e i) env m b := by
  obtain ⟨N, r⟩ := he
  obtain ⟨N2, r2⟩ := hk
  refine ⟨max N N2, fun n hn => ?_⟩
  rw [eval, X_bind_ok (r n (by omega)), X_bind_ok (r2 n (by omega)), X_bind_ok asInt_int]
  exact (X_bind_ok ho).trans hl

theorem loadByte_oob {bs : List (Option UInt8)} (hg : getBlock l env m = .ok (.raw bs) env m) (hi : bs.length ≤ i) : loadNum .u8 (.ptr l i) env m = .bad (.buf .oobRead) := by
  have h1 : loadBytes (.ptr l i) (ITy.size .u8) env m = .bad (.buf .oobRead) := by
    rw [loadBytes, asPtr, X_bind_ok (X_pure _ _ _)]
    simp only
    rw [if_neg (by decide), X_bind_ok hg]
    simp only
    rw [if_neg (show ¬ (i + ITy.size .u8 ≤ bs.length) from (by omega : ¬ (i + 1 ≤ bs.length)))]
    rfl
  rw [loadNum]
  exact X_bad h1

theorem LoopBad.again (hc : EvalTo c env m v env1 m1) (ht : truth v env1 m1 = .ok true env1 m1) (hb : ExecsTo b env1 m1 .cont env2 m2)
    (hs : ExecsTo s env2 m2 .next env3 m3) (h : LoopBad c b s env3 m3 x) : LoopBad c b s env m x := by
  obtain ⟨N, r⟩ := hc
  obtain ⟨N2, r2⟩ := hb
  obtain ⟨N3, r3⟩ := hs
  obtain ⟨N4, r4⟩ := h
  refine ⟨max (max N N2) (max N3 N4) + 1, fun n hn k hk => ?_⟩
  obtain ⟨k, rfl⟩ : ∃ j, k = j + 1 := ⟨k - 1, by omega⟩
  rw [whileLoop, X_bind_ok ((X_bind_ok (r n (by omega))).trans ht)]
  simp only [if_true]
  rw [X_bind_ok (r2 n (by omega))]
  simp only
  rw [X_bind_ok (r3 n (by omega))]
  exact r4 n (by omega) k (by omega)

/-! ## Names -/

/-- Without a name of six bytes. -/
theorem obis_bad {m : Mem} {env : Env} {e : ListEntry} (r : Ready S m) (h5 : env 5 = ptrVal p) (he : (p, .struct ps is) ∈ S) (h0 : ps[0]? = some nm) (hr : repOpt RStr e.objName nm B)
    (hB : Sml.Within B S) (ho : ¬ ∃ o, Named e o) : ∃ b, Wild b ∧ ∀ es, EvalsBad (obisArgs es) env m b := by
  have e0 := r.ptr he h0 (.ptr h5)
  cases hn : e.objName with
  | none =>
    rw [hn] at hr
    obtain ⟨rfl, rfl⟩ := hr
    exact ⟨.null, .inl rfl, fun es => .head (.byte (.ldPtr_null e0))⟩
  | some s =>
    rw [hn] at hr
    obtain ⟨ps', B', hF, rfl⟩ := id hr
    obtain ⟨q, rfl, hq⟩ := hF.one
    have e1 := r.ptr (i := 0) (p := q) hB.head rfl e0
    by_cases hs : s.str = []
    · rw [RData, if_pos hs] at hq
      obtain ⟨rfl, rfl⟩ := hq
      exact ⟨.null, .inl rfl, fun es => .head (.byte_load e1 .lit (k := 0) (q := nullPtr) (by rfl) (by rfl))⟩
    · have h6 : s.str.length < 6 := Nat.lt_of_not_le fun h => ho ⟨_, s, hn, h, rfl⟩
      rw [RData, if_neg hs] at hq
      subst hq
      have hqs := hB.tail.head
      refine ⟨.buf .oobRead, .inr rfl, fun es => ?_⟩
      have good : ∀ j : Nat, j < s.str.length → ∃ v, EvalTo (obisByte j) env m v env m := fun j hj =>
        ⟨_, obisByte_run r h5 he h0 hB.head hqs (List.getElem?_eq_getElem hj)⟩
      have short : ∀ j : Nat, s.str.length ≤ j → EvalBad (obisByte j) env m (.buf .oobRead) := fun j hj =>
        .byte_load e1 .lit ((offset_ok _ _ _).trans (by rw [Nat.zero_add])) (loadByte_oob (getBlock_heap (r.has _ _ hqs).1 (r.has _ _ hqs).2) (by rw [List.length_map]; exact hj))
      have step : ∀ (j : Nat) (es : List Expr), (s.str.length ≤ j ∨ EvalsBad es env m (.buf .oobRead)) → EvalsBad (obisByte j :: es) env m (.buf .oobRead) := by
        intro j es h
        by_cases hj : s.str.length ≤ j
        · exact .head (short j hj)
        · obtain ⟨v, hv⟩ := good j (by omega)
          exact .tail hv (h.resolve_left hj)
      exact step 0 _ (.inr (step 1 _ (.inr (step 2 _ (.inr (step 3 _ (.inr (step 4 _ (.inr (step 5 _ (.inl (by omega))))))))))))

/-! ## An entry -/

theorem render_obis_bad {a b c d e f : UInt8} {x : Bad} (h : render qs vs env m = .bad x) :
    render (obisFmt qs) (.int .u8 a.toNat :: .int .u8 b.toNat :: .int .u8 c.toNat :: .int .u8 d.toNat :: .int .u8 e.toNat :: .int .u8 f.toNat :: vs) env m = .bad x := by
  have dec : ∀ {qs vs} {b : UInt8}, render qs vs env m = .bad x → render (.dec :: qs) (.int .u8 b.toNat :: vs) env m = .bad x := by
    intro qs vs b h
    rw [render.eq_4 _ _ _ _ (by simp) (by simp), X_bind_ok (convert_dec b)]
    exact X_bad h
  have text : ∀ {qs vs} {s : String}, render qs vs env m = .bad x → render (.text s :: qs) vs env m = .bad x := by
    intro qs vs s h
    rw [render]
    exact X_bad h
  exact dec (text (dec (text (dec (text (dec (text (dec (text (dec (text h)))))))))))

theorem entry_bad {env : Env} (r : Ready S m) (h5 : env 5 = ptrVal a) (he : (a, .struct (ps ++ ts) is) ∈ S) (hF : Sml.Fields (entryReps e) ps B) (hB : Sml.Within B S)
    (hg : GoodEntry e) (hp : ¬ EntrySafe e) : ∃ b, Wild b ∧ ExecsBad entryBody env m b := by
  obtain ⟨nm, un, sc, v, Bn, Bu, Bs, Bv, hps, rn, ru, rs, rv, wn, wu, ws, wv⟩ := entry_ptrs hF hB
  obtain ⟨h0, h3, h4, hv⟩ := hps ts
  have ev := r.ptr he hv (.ptr h5)
  cases hev : e.value with
  | none => exact absurd (fun v h => by rw [hev] at h; cases h) hp
  | some x =>
    have hp : ¬ (x.type = 0x70 ∨ (∃ o, Named e o) ∧ x ≠ ⟨0x00, .bytes (some ⟨[]⟩)⟩) := fun h => hp fun y hy => by
      rw [hev] at hy
      cases hy
      exact h
    obtain ⟨ht70, hp⟩ := not_or.mp hp
    rw [hev] at rv
    have rv' : RValue x v Bv := rv
    obtain ⟨hx, qs, B', hF', rfl⟩ := id rv'
    obtain ⟨d, rfl, hd⟩ := hF'.one
    have hne := (r.has _ _ wv.head).1
    have hlt := type_lt (hg.value x hev)
    have s1 : ExecTo (.ite (.not (.ldPtr (.var 5) 5)) [.print [], .cont] []) env m .next env m := .ite (b := false) (.not ev (truth_ptr hne)) rfl .nil
    have ety : EvalTo (.ldInt .u8 (.ldPtr (.var 5) 5) 0) env m (.int .u8 x.type) env m := r.int wv.head rfl ev
    have eeq : ∀ k : Nat, k < 256 → EvalTo (.bin .eq (.ldInt .u8 (.ldPtr (.var 5) 5) 0) (.lit .i32 k)) env m (ofBool (decide (x.type = k))) env m := fun k hk => by
      have := bin_eq (env := env) (m := m) (ta := .u8) (tb := .i32) (a := (x.type : Int)) (b := (k : Int)) (conv_i32 (by omega) (by omega)) (conv_i32 (by omega) (by omega))
      rw [decide_eq_decide.mpr (show ((x.type : Int) = k) ↔ x.type = k by omega)] at this
      exact .bin ety .lit this
    by_cases ht : x.type = 0
    · -- a text
      let E : Env := upd env 7 (.ptr (.stack m.stack.length) 0)
      let m1 : Mem := { m with stack := m.stack ++ [.obj [.undef] []] }
      have r1 : Ready S m1 := ⟨r.pos, r.has, r.fresh⟩
      have hbad : ∃ b, Wild b ∧ ExecsBad textPart env m b := by
        by_cases ho : ∃ o, Named e o
        · have hxe : x = ⟨0x00, .bytes (some ⟨[]⟩)⟩ := Decidable.byContradiction fun h => hp ⟨ho, h⟩
          subst hxe
          obtain ⟨o, ho⟩ := ho
          have hob : obisOf e.objName { data := [] } = .ok o { data := [] } := (obisOf_run e _).1 o ho
          obtain ⟨q, B'', hq, rfl⟩ := hd
          obtain ⟨d2, rfl, hd2⟩ := hq.one
          rw [RData, if_pos rfl] at hd2
          obtain ⟨rfl, rfl⟩ := hd2
          have c : CallTo .sml_value_to_strhex [ptrVal v, .ptr (.stack m.stack.length) 0, boolVal true] m1 nullPtr m1 :=
            strhex_null (v := v) (d := d) (p := 0) (fun _ => (r1.has _ _ wv.head).2) (fun _ _ => (r1.has _ _ wv.tail.head).2) (.inr (.inr rfl))
          have ec : EvalTo (.call .sml_value_to_strhex [.ldPtr (.var 5) 5, .var 7, .lit .i32 1]) E m1 nullPtr E m1 :=
            .call (.cons (r1.ptr he hv (.ptr (by exact h5))) (.cons (.ptr (by rfl)) (.cons .lit .nil))) (.args (bs := [ptrVal v, .ptr (.stack m.stack.length) 0, boolVal true]) (fun _ _ => rfl) c)
          obtain ⟨a0, a1, a2, a3, a4, a5, rfl, hobis⟩ := obis_run (env' := E) (m' := m1) r1 (env := E) (by exact h5) he h0 rn wn hob
          exact ⟨.null, .inl rfl, .tail .ptrVar (.head (.render (hobis _ _ (.one ec)) (render_obis_bad (by rfl))))⟩
        · obtain ⟨b, hb, h⟩ := obis_bad (env := E) r1 (by exact h5) he h0 rn wn ho
          exact ⟨b, hb, .tail .ptrVar (.head (.printf (h _)))⟩
      obtain ⟨b, hb, h⟩ := hbad
      exact ⟨b, hb, .tail s1 (.head (.branch (p := true) (eeq 0 (by omega)) (truth_pos ht) h))⟩
    have ho : ¬ ∃ o, Named e o := fun ho => hp ⟨ho, fun h => ht (by rw [h])⟩
    have n1 : truth (ofBool (decide (x.type = 0))) env m = .ok false env m := by rw [decide_eq_false ht]; rfl
    by_cases ht2 : x.type = 64
    · obtain ⟨b, hb, h⟩ := obis_bad (env := env) r h5 he h0 rn wn ho
      exact ⟨b, hb, .tail s1 (.head (.branch (eeq 0 (by omega)) n1 (.head (.branch (p := true) (eeq 64 (by omega)) (truth_pos ht2) (.head (.printf (h _)))))))⟩
    have n2 : truth (ofBool (decide (x.type = 64))) env m = .ok false env m := by rw [decide_eq_false ht2]; rfl
    have eband : ∀ k : Nat, k < 256 → EvalTo (.bin .eq (.bin .band (.ldInt .u8 (.ldPtr (.var 5) 5) 0) (.lit .i32 112)) (.lit .i32 k)) env m (ofBool (decide (x.type &&& 0x70 = k))) env m := fun k hk => by
      have hb : x.type &&& 112 < 256 := Nat.lt_of_le_of_lt Nat.and_le_left hlt
      have := bin_eq (env := env) (m := m) (ta := .i32) (tb := .i32) (a := ((x.type &&& 112 : Nat) : Int)) (b := (k : Int)) (conv_i32 (by omega) (by omega)) (conv_i32 (by omega) (by omega))
      rw [decide_eq_decide.mpr (show (((x.type &&& 112 : Nat) : Int) = k) ↔ x.type &&& 0x70 = k by omega)] at this
      exact .bin (.bin ety .lit (band_i32 hlt 112 (by omega))) .lit this
    have eor := EvalTo.orB (eband 80 (by omega)) (eband 96 (by omega))
    have hnum : (x.type &&& 0x70 = tyInteger ∨ x.type &&& 0x70 = tyUnsigned) ∧ ∃ dv, valueToDouble x { data := [] } = .ok dv { data := [] } := by
      rcases hg.value x hev with hw | ⟨hm, _⟩
      · rcases wellTyped_cases hw with ⟨s, rfl⟩ | ⟨b, rfl⟩ | ⟨y, hy⟩ | h50 | h70
        · exact absurd rfl ht
        · exact absurd rfl ht2
        · obtain ⟨dv, h, _⟩ := c45_nearest x y hy { data := [] }
          exact ⟨(numberOf_type hy).1, dv, h⟩
        · exact ⟨by rw [h50]; decide, 0, valueToDouble_zero (.inl h50) _⟩
        · exact absurd h70 ht70
      · exact ⟨by rw [hm]; decide, 0, valueToDouble_zero (.inr hm) _⟩
    obtain ⟨ht3, dv, hdv⟩ := hnum
    have n3 : truth (ofBool (decide (x.type &&& 0x70 = 80) || decide (x.type &&& 0x70 = 96))) env m = .ok true env m := by
      rw [show (decide (x.type &&& 0x70 = 80) || decide (x.type &&& 0x70 = 96)) = true by
        rw [Bool.or_eq_true, decide_eq_true_eq, decide_eq_true_eq]
        exact ht3]
      rfl
    -- a number
    let E1 : Env := upd env 8 (.dbl dv 0)
    obtain ⟨b1, b2, t, es⟩ := scaler_run (env := E1) r ((upd_other (by decide)).trans h5) he h4 rs ws hg.scaler
    generalize scalerInt e.scaler = i at b1 b2 es
    let E2 : Env := upd E1 9 (.int .i32 i)
    let E3 : Env := upd E2 10 (.int .i32 (-i))
    generalize hpp : (if -i < 0 then 0 else -i) = p
    let E4 : Env := upd E2 10 (.int .i32 p)
    let E5 : Env := upd E4 8 (.dbl (mulDouble dv (m.world.pow i)) (0 + (m.world.pow i).e))
    have x1 : ExecTo (.setPtr 8 (.call .sml_value_to_double [.ldPtr (.var 5) 5])) env m .next E1 m := .setPtr (.call1 (r.ptr he hv (.ptr h5)) (double_run r rv' wv (hg.value x hev) hdv))
    have x2 : ExecTo (.set .i32 9 (.cond (.ldPtr (.var 5) 4) (.deref .i8 (.ldPtr (.var 5) 4)) (.lit .i32 0))) E1 m .next E2 m := .set es (conv_i32 (by omega) (by omega))
    have x3 : ExecTo (.set .i32 10 (.neg (.var 9))) E2 m .next E3 m := .set (.neg (.int upd_same) (by omega) (by omega)) (conv_i32 (by omega) (by omega))
    have x4 : ExecTo (.ite (.bin .lt (.var 10) (.lit .i32 0)) [.set .i32 10 (.lit .i32 0)] []) E3 m .next E4 m := by
      have hc : EvalTo (.bin .lt (.var 10) (.lit .i32 0)) E3 m (ofBool (decide (-i < 0))) E3 m := .bin (.int upd_same) .lit (bin_lt_i32 ⟨by omega, by omega⟩ ⟨by omega, by omega⟩)
      by_cases h : -i < 0
      · rw [if_pos h] at hpp
        have : E4 = upd E3 10 (.int .i32 0) := by
          funext y
          by_cases hy : y = 10
          · simp only [E4, E3, hy, upd_same, ← hpp]
          · simp only [E4, E3, upd_other hy]
        rw [this]
        exact .ite hc (truth_pos h) (.last (.set .lit rfl))
      · rw [if_neg h] at hpp
        have : E4 = E3 := by rw [show E4 = upd E2 10 (.int .i32 p) from rfl, ← hpp]
        rw [this]
        exact .ite hc (truth_neg h) .nil
    have x5 : ExecTo (.setPtr 8 (.mulDbl (.var 8) (.pow10 (.var 9)))) E4 m .next E5 m :=
      ExecTo.setPtr (x := 8) (EvalTo.mulDbl (.var (env := E4) (m := m) (x := 8) (v := .dbl dv 0) (by rfl) (by simp)) (.pow10 (.int (x := 9) (t := .i32) (n := i) (by rfl))))
    obtain ⟨b, hb, h⟩ := obis_bad (env := E5) r (by exact h5) he h0 rn wn ho
    exact ⟨b, hb, .tail s1 (.head (.branch (eeq 0 (by omega)) n1 (.head (.branch (eeq 64 (by omega)) n2 (.head (.branch (p := true) eor n3
      (.tail x1 (.tail x2 (.tail x3 (.tail x4 (.tail x5 (.head (.printf (h _))))))))))))))⟩

theorem entries_bad {k : Nat} (hk : 3 * k + 1 ≤ 2147483647) : ∀ (es : List ListEntry) {a : Nat} {B : List Blk} {m : Mem} {env : Env}, Ready S m → env 5 = ptrVal a → RList es a B → Sml.Within B S →
    (∀ e ∈ es, GoodEntry e) → (∀ e ∈ es, EntryFits k e) → (¬ ∀ e ∈ es, EntrySafe e) →
    ∃ b, Wild b ∧ LoopBad (.bin .ne (.var 5) .null) entryBody [.setPtr 5 (.ldPtr (.var 5) 7)] env m b
  | [], a, B, m, env, r, h5, hr, hB, hg, hf, hp => absurd (by simp) hp
  | e :: es, a, B, m, env, r, h5, hr, hB, hg, hf, hp => by
    obtain ⟨ps, n, B1, B2, hF, hl, hn, rfl⟩ := hr.cons
    have hne := (r.has _ _ hB.head).1
    have hc : EvalTo (.bin .ne (.var 5) .null) env m (ofBool (decide (a ≠ 0))) env m := .bin (.ptr h5) .null ptr_ne_null
    by_cases hs : EntrySafe e
    · obtain ⟨l, h1, _⟩ := (printEntry_run hk (hf e List.mem_cons_self) (hg e List.mem_cons_self).value { data := [] }).1 hs
      obtain ⟨o, env1, k', j, c1, ho, k1⟩ := entry_run r h5 hB.head hF hB.tail.left (hg e List.mem_cons_self) h1
      have r1 : Ready S (m.after (l.flatMap (lineText m.world.pow)) k' j) := r.after
      have s1 : ExecsTo [.setPtr 5 (.ldPtr (.var 5) 7)] env1 (m.after (l.flatMap (lineText m.world.pow)) k' j) .next (upd env1 5 (ptrVal n)) (m.after (l.flatMap (lineText m.world.pow)) k' j) :=
        .last (.setPtr (r1.ptr (p := n) hB.head (by rw [← hl]; simp) (.ptr ((k1 5 (by omega)).trans h5))))
      obtain ⟨b, hb, ih⟩ := entries_bad hk es r1 upd_same hn hB.tail.right (fun e' he' => hg e' (List.mem_cons_of_mem _ he')) (fun e' he' => hf e' (List.mem_cons_of_mem _ he'))
        fun h => hp fun e' he' => by
          rcases List.mem_cons.mp he' with rfl | he'
          · exact hs
          · exact h e' he'
      refine ⟨b, hb, ?_⟩
      rcases ho with rfl | rfl
      · exact .round hc (truth_pos hne) c1 s1 ih
      · exact .again hc (truth_pos hne) c1 s1 ih
    · obtain ⟨b, hb, h⟩ := entry_bad r h5 hB.head hF hB.tail.left (hg e List.mem_cons_self) hs
      exact ⟨b, hb, .body hc (truth_pos hne) h⟩

/-! ## Messages -/

theorem response_data {msg : Message} {body : MessageBody} (h : msg.messageBody = some body) (hy : responseOf msg = some y) : body.data = .getListResponse (some y) := by
  rw [responseOf, h] at hy
  obtain ⟨tg, dt⟩ := body
  cases dt <;> simp_all

theorem message_bad {env : Env} {msg : Message} {n : Nat} (hn : 3 * n + 1 ≤ 2147483647) (r : Ready S m) (he : EvalTo (.elem (.ldPtr (.var 3) 0) (.var 2)) env m (ptrVal a) env m)
    (hr : RMessage msg a B) (hB : Sml.Within B S) (hA : Arrived n msg) (hp : ¬ MessageSafe msg) : ∃ b, Wild b ∧ ExecsBad messageBody env m b := by
  obtain ⟨ps, b, Bb, ha, h3, hb, wb⟩ := message_body hr hB
  have s1 : ExecTo (.setPtr 4 (.elem (.ldPtr (.var 3) 0) (.var 2))) env m .next (upd env 4 (ptrVal a)) m := .setPtr he
  generalize hE : upd env 4 (ptrVal a) = E at s1
  have h4 : E 4 = ptrVal a := by rw [← hE, upd_same]
  have eb := r.ptr ha h3 (.ptr h4)
  cases hmb : msg.messageBody with
  | none =>
    rw [hmb] at hb
    obtain ⟨rfl, rfl⟩ := hb
    exact ⟨.null, .inl rfl, .tail s1 (.head (.ite (.binL (.deref (.ldPtr_null eb)))))⟩
  | some body =>
    have hres : ∃ y, responseOf msg = some y ∧ ¬ ∀ e ∈ y.valList, EntrySafe e := by
      apply Classical.byContradiction
      intro h
      exact hp ⟨by rw [hmb]; simp, fun y hy => Classical.byContradiction fun hc => h ⟨y, hy, hc⟩⟩
    obtain ⟨y, hy, hy2⟩ := hres
    have hfits := hA.fits y hy
    have hgood := hA.good
    obtain ⟨t0, ht0, hok⟩ := hA.kind body hmb
    rw [hmb] at hb
    obtain ⟨⟨t, ht, hsz, hwf⟩, qs, B', hF, rfl⟩ := hb
    obtain ⟨p, q, B1, B2, rfl, hpp, hq, rfl⟩ := hF.two
    rw [ht] at hpp ht0
    rw [← Option.some.inj ht0] at hok
    obtain rfl : B1 = [(p, .num t)] := hpp
    have hdat := response_data hmb hy
    rw [hdat] at hq hok
    have htag : t.val = 1793 := hok.1
    have et := r.num (ty := .u32) wb.tail.left.head hsz (r.ptr (i := 0) wb.head rfl eb)
    rw [conv_unsigned .u32 (by simp) hsz] at et
    have ec : EvalTo (.bin .eq (.deref .u32 (.ldPtr (.ldPtr (.var 4) 3) 0)) (.lit .i32 1793)) E m (ofBool (decide (t.val = 1793))) E m := by
      have := bin_eq (env := E) (m := m) (ta := .u32) (tb := .i32) (a := (t.val : Int)) (b := 1793) (conv_u32 (by omega) (by omega)) (conv_u32 (by omega) (by omega))
      rw [decide_eq_decide.mpr (show ((t.val : Int) = 1793) ↔ t.val = 1793 by omega)] at this
      exact .bin et .lit this
    obtain ⟨ps', B', ⟨p0, _, C0, _, rfl, _, ⟨p1, _, C1, _, rfl, _, ⟨p2, _, C2, _, rfl, _, ⟨p3, _, C3, _, rfl, _, ⟨p4, _, C4, _, rfl, r4, _, rfl⟩, rfl⟩, rfl⟩, rfl⟩, rfl⟩, rfl⟩ := hq
    have wq := wb.tail.right
    have w4 := wq.tail.right.right.right.right.left
    have s2 : ExecTo (.setPtr 6 (.ldPtr (.ldPtr (.var 4) 3) 1)) E m .next (upd E 6 (ptrVal q)) m := .setPtr (r.ptr wb.head rfl eb)
    have s3 : ExecTo (.setPtr 5 (.ldPtr (.var 6) 4)) (upd E 6 (ptrVal q)) m .next (upd (upd E 6 (ptrVal q)) 5 (ptrVal p4)) m := .setPtr (r.ptr wq.head rfl (.ptr upd_same))
    obtain ⟨x, hx, hbad⟩ := entries_bad hn y.valList (env := upd (upd E 6 (ptrVal q)) 5 (ptrVal p4)) r upd_same r4 w4 (hgood body y hmb hdat) hfits hy2
    exact ⟨x, hx, .tail s1 (.head (.branch (p := true) ec (truth_pos htag) (.tail s2 (.tail s3 (.head (.ofLoop hbad))))))⟩

theorem messages_bad (single : Bool) {n N : Nat} (hN : 3 * N + 1 ≤ 2147483647) (hn : n < 32768) (ha : (a, .struct sp [n]) ∈ S) (h0 : sp[0]? = some arr) :
    ∀ (ms : List Message) {qs ps : List Nat} {C : List Blk} {m : Mem} {env : Env},
    Ready S m → m.world.flags 0 = (if single then 1 else 0) → env 2 = .int .i32 qs.length → env 3 = ptrVal a → Sml.Fields (ms.map RMessage) ps C → Sml.Within C S →
    (ms ≠ [] → (arr, .struct (qs ++ ps) []) ∈ S) → qs.length + ms.length = n → (∀ x ∈ ms, Arrived N x) → (¬ ∀ x ∈ lookedAt single ms, MessageSafe x) →
    ∃ b, Wild b ∧ LoopBad (.bin .lt (.var 2) (.ldInt .i16 (.var 3) 0)) messageBody [.set .i32 2 (.bin .add (.var 2) (.lit .i32 1))] env m b
  | [], qs, ps, C, m, env, r, hf, h2, h3, hF, hC, harr, hl, hA, hp => absurd (by simp [lookedAt]) hp
  | x :: ms, qs, ps, C, m, env, r, hf, h2, h3, hF, hC, harr, hl, hA, hp => by
    obtain ⟨p, ps', B1, B2, rfl, hr, hF', rfl⟩ := hF
    have harr := harr (by simp)
    have harr' : (arr, HCell.struct ((qs ++ [p]) ++ ps') []) ∈ S := by simpa using harr
    simp only [List.length_cons] at hl
    have hc : EvalTo (.bin .lt (.var 2) (.ldInt .i16 (.var 3) 0)) env m (ofBool (decide ((qs.length : Int) < n))) env m :=
      .bin (.int h2) (r.int ha rfl (.ptr h3)) (bin_lt (ta := .i32) (tb := .i16) (conv_i32 (by omega) (by omega)) (conv_i32 (by omega) (by omega)))
    have hc1 : truth (ofBool (decide ((qs.length : Int) < n))) env m = .ok true env m := truth_pos (by omega)
    have he : EvalTo (.elem (.ldPtr (.var 3) 0) (.var 2)) env m (ptrVal p) env m :=
      .elem (r.ptr ha h0 (.ptr h3)) (.int h2) (loadPtr_put (r.has _ _ harr).1 (r.has _ _ harr).2 (by rw [List.getElem?_map]; simp))
    by_cases hs : MessageSafe x
    · have hrest : ¬ (single = true ∧ (responseOf x).isSome = true) ∧ ¬ ∀ y ∈ lookedAt single ms, MessageSafe y := by
        rw [lookedAt] at hp
        by_cases hq : single = true ∧ (responseOf x).isSome = true
        · rw [if_pos (by rw [hq.1, hq.2]; rfl)] at hp
          exact absurd (by simpa using hs) hp
        · refine ⟨hq, fun h => hp ?_⟩
          rw [if_neg (by rw [Bool.and_eq_true]; exact hq)]
          intro y hy
          rcases List.mem_cons.mp hy with rfl | hy
          · exact hs
          · exact h y hy
      obtain ⟨hq, hrest⟩ := hrest
      have step : ∀ {E : Env} {M : Mem}, E 2 = .int .i32 qs.length → ExecsTo [.set .i32 2 (.bin .add (.var 2) (.lit .i32 1))] E M .next (upd E 2 (.int .i32 ((qs ++ [p]).length : Nat))) M := by
        intro E M h
        refine .last (.set (.bin (.int h) .lit (bin_incr (.inl rfl) (by omega))) ?_)
        rw [List.length_append, List.length_singleton]
        exact conv_i32 (by omega) (by omega)
      obtain ⟨y, h1, hy⟩ : ∃ y, printMessage x { data := [] } = .ok y { data := [] } ∧ (y.isSome = true → (responseOf x).isSome = true) := by
        rcases (printMessage_run hN (hA x List.mem_cons_self) { data := [] }).1 hs with ⟨_, h⟩ | ⟨z, l, hz, _, h⟩
        · exact ⟨none, h, by simp⟩
        · exact ⟨some l, h, fun _ => by rw [hz]; rfl⟩
      rcases message_run r single hf he hr hC.left (hA x List.mem_cons_self).good h1 with ⟨env1, k, j, _, c1, k1⟩ | ⟨hy1, hs1, _⟩
      · have r1 : Ready S (m.after ((y.getD []).flatMap (lineText m.world.pow)) k j) := r.after
        obtain ⟨b, hb, ih⟩ := messages_bad single hN hn ha h0 ms (qs := qs ++ [p]) (env := upd env1 2 (.int .i32 ((qs ++ [p]).length : Nat))) r1 hf upd_same
          ((upd_other (by decide)).trans ((k1 3 (by omega)).trans h3)) hF' hC.right (fun _ => harr') (by rw [List.length_append, List.length_singleton]; omega)
          (fun x' hx' => hA x' (List.mem_cons_of_mem _ hx')) hrest
        exact ⟨b, hb, .round hc hc1 c1 (step ((k1 2 (by omega)).trans h2)) ih⟩
      · exact absurd ⟨hs1, hy hy1⟩ hq
    · obtain ⟨b, hb, h⟩ := message_bad hN r he hr hC.left (hA x List.mem_cons_self) hs
      exact ⟨b, hb, .body hc hc1 h⟩

/-! ## The receiver -/

/-- `transport_receiver` with messages it cannot handle. -/
theorem receiver_bad {m : Mem} {l : Loc} {blk : List (Option UInt8)} {body : List UInt8} {x y z : UInt8} {depth : Nat} {verbose single : Bool} {t : ITy} (h0 : 0 < m.next) (hw : ∀ a, m.next ≤ a → m.heap a = none) (hov : m.sovf = false)
    (hf0 : m.world.flags 0 = if single then 1 else 0) (hf1 : m.world.flags 1 = if verbose then 1 else 0)
    (hlen : (frame body x y z).length < 8096) (hdepth : body.length < 4 * depth) (hb : ∀ env, getBlock l env m = .ok (.raw blk) env m) (ht : blk.take (frame body x y z).length = (frame body x y z).map some)
    (hf : fileParse depth body = .ok f s) (hM : ¬ Manageable verbose single f.messages) :
    ∃ b, Wild b ∧ CallBad .transport_receiver [.ptr l 0, .int t (frame body x y z).length] m b := by
  have hl : (frame body x y z).length = 16 + body.length := frame_length body x y z
  have hblk : 16 + body.length ≤ blk.length := by
    have := congrArg List.length ht
    rw [List.length_take, List.length_map] at this
    omega
  have hbody : ((frame body x y z).drop 8).take body.length = body := by
    have := frame_body body x y z
    rwa [hl, Nat.add_sub_cancel_left] at this
  have hp : ∀ env, loadBytes (.ptr l 8) body.length env m = .ok body env m := fun env => by
    refine loadBytes_raw' (hb env) (by omega) ?_
    have : (blk.drop 8).take body.length = ((blk.take (frame body x y z).length).drop 8).take body.length := by
      rw [List.drop_take, List.take_take, Nat.min_eq_left (by omega)]
    rw [this, ht, ← List.map_drop, ← List.map_take, hbody]
  obtain ⟨f', s', h1, h2, L, g, g', e, c1, _, i1, hrep, o1, _, l1, _⟩ := source_run h0 hw hov (by omega) hdepth hp
  rw [hf] at e
  cases e
  obtain ⟨f', s1, e', hst, _, hfr, hex, _, hcount, _⟩ := fileParse_post (buffer := body) (by omega) hdepth
  rw [hf] at e'
  cases e'
  have hcur := i1.good.cur
  have hlo : s.data = body := hst.data
  have hn : f.messages.length < 32768 := by
    rw [hlo] at hcur
    omega
  have harr := fileParse_arrived (by omega) hf
  have rdy : Ready (L ++ g) (conc (fileCtx m) s h1) := ready_parsed i1 o1 (fun a ha => hw a (Nat.le_trans o1.le ha)) fun _ _ => rfl
  have hwin : Sml.Within L (L ++ g) := ⟨g, .refl _⟩
  have hbuf : (conc (fileCtx m) s h1).heap (m.next + 1) = some (.obj [.ptr (.heap (m.next + 2)) 0, nullPtr] [s.data.length, s.cursor, if s.error then 1 else 0]) := by
    show (if m.next + 1 = m.next + 1 then _ else _) = _
    rw [if_pos rfl]
    rfl
  let E : Env := upd (envOf [.ptr l 0, .int .u64 (frame body x y z).length]) 3 (ptrVal m.next)
  have st1 : ExecTo (.setPtr 3 (.call .sml_file_parse [.addr (.var 0) (.lit .i32 8), .bin .sub (.var 1) (.lit .i32 16)])) (envOf [.ptr l 0, .int .u64 (frame body x y z).length]) m .next
      E (conc (fileCtx m) s h1) := by
    refine .setPtr (.call (.cons (.addr (.var (v := .ptr l 0) rfl (by simp)) .lit (offset_ok l 0 8)) (.one (.bin (.int (t := .u64) (n := ((frame body x y z).length : Int)) rfl) .lit ?_))) c1)
    have h1 : ITy.conv (ITy.usual .u64 .i32) ((frame body x y z).length : Int) = (frame body x y z).length := natConv_u64 (by omega)
    rw [bin_sub (ta := .u64) (tb := .i32) h1 (show ITy.conv (ITy.usual .u64 .i32) 16 = 16 from rfl)]
    rw [show ((frame body x y z).length : Int) - 16 = (body.length : Nat) by omega]
    exact arith_u64 (by omega) (by omega)
  have hbind : ∀ env m', bindArgs (program .transport_receiver).params [.ptr l 0, .int t (frame body x y z).length] env m' = .ok [.ptr l 0, .int .u64 (frame body x y z).length] env m' := by
    intro env m'
    have h1 : ITy.conv .u64 ((frame body x y z).length : Int) = (frame body x y z).length := natConv_u64 (by omega)
    simp only [program, transport_receiver, bindArgs, convTo, asInt, X_bind, X_pure, h1]
  have hE : E 3 = ptrVal m.next := upd_same
  have hpr : ∀ M : Mem, M.world.flags = m.world.flags → truth (.int .i32 (M.world.flags 1)) E M = .ok verbose E M := fun M hM => by
    rw [hM, hf1]
    cases verbose <;> rfl
  by_cases hv : verbose = true ∧ ∃ x ∈ f.messages, x.messageBody = none
  · obtain ⟨rfl, hx⟩ := hv
    exact ⟨.null, .inl rfl, .of hbind (.tail st1 (.head (.branch .flag (hpr _ rfl) (.head (.expr (.call (.one (.ptr hE)) (filePrint_bad rdy hrep hwin hn (by omega) hbuf (cur := s.cursor) rfl hx)))))))⟩
  · have hbodies : verbose = true → ∀ x ∈ f.messages, x.messageBody ≠ none := fun h x hx hc => hv ⟨h, x, hx, hc⟩
    have hun : ¬ ∀ x ∈ lookedAt single f.messages, MessageSafe x := fun h => hM ⟨h, hbodies⟩
    have hstart : ∃ o, ExecsTo [.ite (.flag 1) [.expr (.call .sml_file_print [.var 3])] [], .ite (.flag 1) [.printf [.text "OBIS data\n"] []] []] E (conc (fileCtx m) s h1) .next E ((conc (fileCtx m) s h1).after o 0 []) := by
      cases hver : verbose with
      | false =>
        refine ⟨[], ?_⟩
        rw [Mem.after_nil]
        rw [hver] at hpr
        exact .cons (.ite (b := false) .flag (hpr _ rfl) .nil) (.last (.ite (b := false) .flag (hpr _ rfl) .nil))
      | true =>
        rw [hver] at hpr
        have c := filePrint_run rdy hrep hwin hn (by omega) hbuf (cur := s.cursor) rfl ((printTags_run f.messages harr s).1 (hbodies hver))
        have x2 := ExecTo.printf (fmt := [.text "OBIS data\n"]) (env := E) (m := (conc (fileCtx m) s h1).after (fileInfoText ⟨f.messages.length, s.cursor, f.messages.map Spec.tagOf⟩) 0 []) .nil render_text
        rw [Mem.said_eq, Mem.after_after] at x2
        exact ⟨_, .cons (.ite (b := true) .flag (hpr _ rfl) (.last (.expr (.call1 (.ptr hE) c)))) (.last (.ite (b := true) .flag (hpr _ rfl) (.last x2)))⟩
    obtain ⟨o, hstart⟩ := hstart
    have r1 : Ready (L ++ g) ((conc (fileCtx m) s h1).after o 0 []) := rdy.after
    have s3 : ExecTo (.set .i32 2 (.lit .i32 0)) E ((conc (fileCtx m) s h1).after o 0 []) .next (upd E 2 (.int .i32 0)) ((conc (fileCtx m) s h1).after o 0 []) := .set (t := .i32) (k := 0) .lit rfl
    have hne : f.messages ≠ [] := fun h => hun (by rw [h]; simp [lookedAt])
    obtain ⟨ps, B', hF, rfl⟩ := hrep
    obtain ⟨arr, buf, B1, B2, rfl, harr', ⟨rfl, rfl⟩, rfl⟩ := hF.two
    rw [RArr.ne (by simpa using hne)] at harr'
    obtain ⟨rs, D, hD, rfl⟩ := harr'
    obtain ⟨b, hb, bad⟩ := messages_bad single (N := body.length) (by omega) hn hwin.head rfl f.messages (qs := []) (env := upd E 2 (.int .i32 0)) r1 hf0 upd_same ((upd_other (by decide)).trans hE) hD hwin.tail.left.tail
      (fun _ => hwin.tail.left.head) (by simp) harr hun
    exact ⟨b, hb, .of hbind (.tail st1 (ExecsBad.after (A := [_, _]) hstart (.tail s3 (.head (.ofLoop bad)))))⟩

end Sml.C
