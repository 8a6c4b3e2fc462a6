import Verif.Proofs.SourceDzg

/-!
# The list functions from their source

`sml_list_entry_parse` changes a local object of its caller, so the memory behind a call belongs to another context.
-/

namespace Sml.C

/-- The rest of a function does what `p` does; the local objects of the callers are those of `K' b` afterwards. -/
def Sem2 (K : Ctx) (K' : β → Ctx) (body ss : List Stmt) (env : Env) (pre : St → Prop) (p : P β) (vl : β → Val) : Prop :=
  ∀ st h, Inv K st h → pre st → ∀ b st' h', p st h = .ok b st' h' → Inv K st' h' ∧ RunTo body ss env (conc K st h) (vl b) (conc (K' b) st' h')

section
variable {K' : β → Ctx} {vl : β → Val}

theorem Sem2.run (hk : Sem2 K K' body ss env pre p vl) (hi : Inv K st h) (hp : pre st) (hr : p st h = .ok b st' h') :
    Inv K st' h' ∧ RunTo body ss env (conc K st h) (vl b) (conc (K' b) st' h') := hk st h hi hp b st' h' hr

theorem Sem2.weaken (hk : Sem2 K K' body ss env pre' p vl) (hp : ∀ st, pre st → pre' st) : Sem2 K K' body ss env pre p vl :=
  fun st h hi hpre => hk st h hi (hp st hpre)

theorem Sem2.retPure (hx : ∀ Γ m, eval Γ e env m = .ok (vl a) env m) (hq : K' a = K) : Sem2 K K' body (.ret e :: ss) env pre (pure a : P β) vl := by
  intro st h hi hp b st' h' hr
  cases hr
  rw [hq]
  exact ⟨hi, .ret (.of fun Γ => hx Γ _)⟩

theorem Sem2.goto (hb : behind l body = some ss') (hk : Sem2 K K' body ss' env pre p vl) : Sem2 K K' body (.goto l :: ss) env pre p vl := by
  intro st h hi hp b st' h' hr
  obtain ⟨i, r⟩ := hk.run hi hp hr
  exact ⟨i, .jump .goto hb r⟩

theorem Sem2.vars (hx : ∀ m, ExecTo s env m .next env' m) (hk : Sem2 K K' body ss env' pre p vl) : Sem2 K K' body (s :: ss) env pre p vl := by
  intro st h hi hp b st' h' hr
  obtain ⟨i1, r1⟩ := hk.run hi hp hr
  exact ⟨i1, RunTo.cons (hx _) r1⟩

theorem Sem2.call (he : ESem K e env pre p vr post) (hk : ∀ a, Sem2 K K' body ss env (post a) (k a) vl) : Sem2 K K' body (.expr e :: ss) env pre (p >>= k) vl := by
  intro st h hi hp b st' h' hr
  replace hr := P_bind_eq_ok hr
  obtain ⟨a, s, h1, e1, hr⟩ := hr
  obtain ⟨i1, q1, r1⟩ := he.ev hi hp e1
  obtain ⟨i2, r2⟩ := (hk a).run i1 q1 hr
  exact ⟨i2, .cons (.expr r1) r2⟩

theorem Sem2.setErr {p : P β} (h0 : env 0 = K.buf) (hk : Sem2 K K' body ss env errSt p vl) :
    Sem2 K K' body (.stInt .i32 (.var 0) 2 (.lit .i32 1) :: ss) env pre (lift setError >>= fun _ => p) vl := by
  intro st h hi hp b st' h' hr
  replace hr := P_bind_eq_ok hr
  obtain ⟨u, s, h1, e, hr⟩ := hr
  obtain ⟨rfl, rfl⟩ := setError_eq_ok e
  obtain ⟨i1, r1⟩ := hk.run (hi.of_good (st' := { st with error := true }) ⟨hi.good.cur, hi.good.len⟩ (Nat.le_refl _)) rfl hr
  exact ⟨i1, RunTo.cons (ex_error K h0) r1⟩

theorem Sem2.setErr' {p : P β} (h0 : env 0 = K.buf) (hk : Sem2 K K' body ss env errSt p vl) :
    Sem2 K K' body (.stInt .i32 (.var 0) 2 (.lit .i32 1) :: ss) env errSt p vl := by
  intro st h hi hp b st' h' hr
  obtain ⟨i1, r1⟩ := hk.run hi hp hr
  have : ({ st with error := true } : St) = st := by
    cases st
    cases hp
    rfl
  refine ⟨i1, RunTo.cons (env1 := env) (m1 := conc K st h) ?_ r1⟩
  have e := ex_error K (st := st) (nx := h.next) (c := K.blocks h) h0
  rwa [this] at e

theorem Sem2.ite {vc : α → Val} {k : α → P β} (hx : ESem K c env pre p vc post) (hu : ∀ b, vc b ≠ .undef)
    (ht : ∀ b, (vc b).isTrue = true → Sem2 K K' body (A ++ ss) env (post b) (k b) vl)
    (hf : ∀ b, (vc b).isTrue = false → Sem2 K K' body (B ++ ss) env (post b) (k b) vl) :
    Sem2 K K' body (.ite c A B :: ss) env pre (p >>= k) vl := by
  intro st h hi hp b st' h' hr
  replace hr := P_bind_eq_ok hr
  obtain ⟨a, st1, h1, e1, e2⟩ := hr
  obtain ⟨i1, q1, r1⟩ := hx.ev hi hp e1
  cases hv : (vc a).isTrue with
  | true =>
    obtain ⟨i2, r2⟩ := (ht a hv).run i1 q1 e2
    exact ⟨i2, .ite (b := true) r1 ((truth_ok (hu a)).trans (by rw [hv])) r2⟩
  | false =>
    obtain ⟨i2, r2⟩ := (hf a hv).run i1 q1 e2
    exact ⟨i2, .ite (b := false) r1 ((truth_ok (hu a)).trans (by rw [hv])) r2⟩

theorem Sem2.iteVar {p : P β} (hv : env x = ptrVal a) (ht : a ≠ 0 → Sem2 K K' body (A ++ ss) env pre p vl)
    (hf : a = 0 → Sem2 K K' body (B ++ ss) env pre p vl) : Sem2 K K' body (.ite (.var x) A B :: ss) env pre p vl := by
  refine Sem2.ite (p := (Pure.pure a : P Nat)) (k := fun _ => p) (vc := fun _ => ptrVal a) (ESem.pure fun _ _ => eval_var hv) (fun _ h => by cases h) ?_ ?_
  · intro _ h
    exact ht (by rintro rfl; simp [Val.isTrue] at h)
  · intro _ h
    exact hf (by simpa [Val.isTrue] using h)

theorem Sem2.hasErr {k k' : P β} (h0 : env 0 = K.buf) (hF : Sem2 K K' body (A ++ ss) env errSt k vl) (hk : Sem2 K K' body ss env anySt k' vl) :
    Sem2 K K' body (.ite (.call .sml_buf_has_errors [.var 0]) A [] :: ss) env anySt (lift hasErrors >>= fun b => if b then k else k') vl := by
  refine Sem2.ite (ESem.callM h0 hasErrors_src) (fun b => by cases b <;> exact Val.noConfusion) ?_ ?_
  · intro b hb
    cases b with
    | false => cases hb
    | true => exact hF.weaken fun st h => h.symm
  · intro b hb
    cases b with
    | true => cases hb
    | false => exact hk.weaken fun st h => trivial

theorem Sem2.type {k k' : P β} (h0 : env 0 = K.buf) (n : Nat) (hn : n < 256) (ht : Sem2 K K' body (A ++ ss) env anySt k vl)
    (hf : Sem2 K K' body ss env anySt k' vl) :
    Sem2 K K' body (.ite (.bin .ne (.call .sml_buf_get_next_type [.var 0]) (.lit .i32 n)) A [] :: ss) env anySt
      (lift getNextType >>= fun t => if t ≠ n then k else k') vl := by
  refine Sem2.ite (vc := fun t => ofBool (decide (t ≠ n))) (ESem.binLit (ESem.callM h0 getNextType_src) ?_) (fun b => ofBool_ne) ?_ ?_
  · intro t st m ht
    rw [ne_lit (by omega) (by omega)]
    simp only [Int.ofNat_inj, ne_eq]
  · intro t hb
    rw [isTrue_ofBool, decide_eq_true_eq] at hb
    rw [if_pos hb]
    exact ht.weaken fun _ _ => trivial
  · intro t hb
    rw [isTrue_ofBool, decide_eq_false_iff_not] at hb
    rw [if_neg hb]
    exact hf.weaken fun _ _ => trivial

theorem Sem2.length {k k' : P β} (h0 : env 0 = K.buf) (n : Int) (hn : 0 ≤ n ∧ n < 256) (ht : Sem2 K K' body (A ++ ss) env anySt k vl)
    (hf : Sem2 K K' body ss env anySt k' vl) :
    Sem2 K K' body (.ite (.bin .ne (.call .sml_buf_get_next_length [.var 0]) (.lit .i32 n)) A [] :: ss) env anySt
      (lift getNextLength >>= fun t => if t ≠ n then k else k') vl := by
  refine Sem2.ite (vc := fun t => ofBool (decide (t ≠ n))) (ESem.binLit (ESem.callM h0 getNextLength_src) ?_) (fun b => ofBool_ne) ?_ ?_
  · intro t st m ht
    exact ne_lit ht (by omega)
  · intro t hb
    rw [isTrue_ofBool, decide_eq_true_eq] at hb
    rw [if_pos hb]
    exact ht.weaken fun _ _ => trivial
  · intro t hb
    rw [isTrue_ofBool, decide_eq_false_iff_not] at hb
    rw [if_neg hb]
    exact hf.weaken fun _ _ => trivial

theorem Sem2.expectList {err k : P β} (h0 : env 0 = K.buf) (n : Int) (hn : 0 ≤ n ∧ n < 256) (hF : ∀ ss, Sem2 K K' body (F ++ ss) env errSt err vl)
    (hk : Sem2 K K' body ss env anySt k vl) :
    Sem2 K K' body (.ite (.bin .ne (.call .sml_buf_get_next_type [.var 0]) (.lit .i32 112)) (.stInt .i32 (.var 0) 2 (.lit .i32 1) :: F) [] ::
      .ite (.bin .ne (.call .sml_buf_get_next_length [.var 0]) (.lit .i32 n)) (.stInt .i32 (.var 0) 2 (.lit .i32 1) :: F) [] :: ss) env anySt
      (pExpectList n err k) vl :=
  Sem2.type h0 112 (by omega) (Sem2.setErr h0 (hF _)) (Sem2.length h0 n hn (Sem2.setErr h0 (hF _)) hk)

theorem Sem2.field {err k : P β} (h0 : env 0 = K.buf) (ha : env x = ptrVal a) (hx : FieldSpec e p)
    (hF : ∀ ss, Sem2 K K' body (F ++ ss) env errSt err vl) (hk : Sem2 K K' body ss env anySt k vl) :
    Sem2 K K' body (.stPtr (.var x) i e :: .ite (.call .sml_buf_has_errors [.var 0]) F [] :: ss) env anySt (pField p a i err k) vl := by
  intro st h hi hp b st' h' hr
  replace hr := P_bind_eq_ok hr
  obtain ⟨c, st1, h1, e1, hr⟩ := hr
  replace hr := P_bind_eq_ok hr
  obtain ⟨u, st2, h2, e2, hr⟩ := hr
  obtain ⟨i1, q1, r1⟩ := (hx K env h0).ev hi trivial e1
  have hw := writePtr_eq_ok e2
  obtain ⟨_, rfl, _, _, hc, _, rfl⟩ := hw
  obtain ⟨i3, r3⟩ := (Sem2.hasErr h0 (hF _) hk).run (i1.setPs hc _) trivial hr
  exact ⟨i3, .cons (.stPtr r1 (.ptr ha) (storePtr_cell i1 e2)) r3⟩

theorem Sem2.init {k : Addr → P β} (hf : InitSpec f c) (hk : ∀ a, Sem2 K K' body ss (upd env x (ptrVal a)) anySt (k a) vl) :
    Sem2 K K' body (.setPtr x (.call f []) :: ss) env pre (malloc c >>= k) vl := by
  intro st h hi hp b st' h' hr
  replace hr := P_bind_eq_ok hr
  obtain ⟨a, s, h1, e1, hr⟩ := hr
  obtain ⟨i1, _, c1⟩ := hf.run hi trivial e1
  obtain ⟨i2, r2⟩ := (hk a).run i1 trivial hr
  exact ⟨i2, .cons (.setPtr (.call .nil c1)) r2⟩

theorem Sem2.atEnd {k k' : P β} (h0 : env 0 = K.buf) (ht : Sem2 K K' body (A ++ ss) env anySt k vl)
    (hf : Sem2 K K' body ss env (fun st => st.cursor < st.data.length) k' vl) :
    Sem2 K K' body (.ite (.bin .ge (.ldInt .u64 (.var 0) 1) (.ldInt .u64 (.var 0) 0)) A [] :: ss) env anySt
      (lift getSt >>= fun st => if st.cursor ≥ st.data.length then k else k') vl := by
  intro st h hi hp b st' h' hr
  replace hr := P_bind_eq_ok hr
  obtain ⟨s, s1, h1, e, hr⟩ := hr
  obtain ⟨rfl, rfl, rfl⟩ := getSt_eq_ok e
  by_cases hc : s1.cursor ≥ s1.data.length
  · rw [if_pos hc] at hr
    obtain ⟨i2, r2⟩ := ht.run hi trivial hr
    exact ⟨i2, RunTo.ite (ev_atEnd K h0 hi.good) (truth_pos hc) r2⟩
  · rw [if_neg hc] at hr
    obtain ⟨i2, r2⟩ := hf.run hi (by omega) hr
    exact ⟨i2, RunTo.ite (ev_atEnd K h0 hi.good) (truth_neg hc) r2⟩

/-- `x = sml_buf_get_current_byte(buf);` -/
theorem Sem2.byte {k : UInt8 → P β} (h0 : env 0 = K.buf)
    (hk : ∀ b : UInt8, Sem2 K K' body ss (upd env x (.int .u8 b.toNat)) anySt (k b) vl) :
    Sem2 K K' body (.set .u8 x (.call .sml_buf_get_current_byte [.var 0]) :: ss) env pre (lift getCurrentByte >>= k) vl := by
  intro st h hi hp r st' h' hr
  replace hr := P_bind_eq_ok hr
  obtain ⟨b, s2, h2, e2, hr⟩ := hr
  obtain ⟨i2, q2, c2⟩ := (ESem.callM (K := K) h0 getCurrentByte_src).ev hi trivial e2
  have hb := UInt8.toNat_lt b
  obtain ⟨i3, r3⟩ := (hk b).run i2 trivial hr
  exact ⟨i3, .cons (.set c2 (conv_u8 (by omega) (by omega))) r3⟩

end

/-! ## The object `workarounds` -/

/-- The member `old_dzg_dvs74`. -/
def waInt (w : Bool) : Int := if w then 1 else 0

/-- The context with another value of the flag at place `k`. -/
def withWa (K : Ctx) (k : Nat) (w : Bool) : Ctx := { K with σ := K.σ.set k (.obj [] [waInt w]) }

theorem withWa_same {K : Ctx} (hσ : K.σ[k]? = some (.obj [] [waInt w])) : withWa K k w = K := by
  have : K.σ.set k (.obj [] [waInt w]) = K.σ := by
    apply List.ext_getElem?
    intro i
    rw [List.getElem?_set]
    split
    · next h =>
      subst h
      rw [hσ]
      split
      · rfl
      · next hn => rw [List.getElem?_eq_none (by omega)] at hσ; cases hσ
    · rfl
  cases K
  simp only [withWa, Ctx.mk.injEq, true_and]
  exact ⟨this, trivial⟩

theorem load_wa {K : Ctx} (hσ : K.σ[k]? = some (.obj [] [waInt w])) :
    loadInt (.ptr (.stack k) 0) 0 env (conc K st h) = .ok (waInt w) env (conc K st h) := by
  have hg : getBlock (.stack k) env (conc K st h) = .ok (.obj [] [waInt w]) env (conc K st h) := by
    simp only [getBlock, conc, memOf, hσ]
  rw [loadInt, asPtr, X_bind_ok (X_pure _ _ _)]
  simp only
  rw [X_bind_ok hg]
  rfl

theorem store_wa {K : Ctx} (hσ : K.σ[k]? = some (.obj [] [waInt w])) :
    storeInt (.ptr (.stack k) 0) 0 1 env (conc K st h) = .ok () env (conc (withWa K k true) st h) := by
  have hg : getBlock (.stack k) env (conc K st h) = .ok (.obj [] [waInt w]) env (conc K st h) := by
    simp only [getBlock, conc, memOf, hσ]
  rw [storeInt, asPtr, X_bind_ok (X_pure _ _ _)]
  simp only
  rw [X_bind_ok hg]
  rfl

/-! ## `sml_list_entry_parse` -/

theorem listInit_src : InitSpec .sml_list_init (.struct [0, 0, 0, 0, 0, 0, 0, 0] []) :=
  InitSpec.of [0, 0, 0, 0, 0, 0, 0, 0] [] rfl rfl rfl (by simp) (fun _ _ _ => rfl) (fun _ _ _ => rfl)

theorem power_map : ([1, 0, 16, 7, 0, 255].take 6 : List Int).map (fun n => UInt8.ofNat n.toNat) = dzgPowerName := by decide

/-- The condition for another type of the value. -/
abbrev dzgCond : Expr :=
  .and (.and (.and (.and (.and (.ldInt .bit (.var 1) 0) (.ldPtr (.var 4) 0)) (.bin .eq (.ldInt .i32 (.ldPtr (.var 4) 0) 0) (.lit .u64 6))) (.bin .eq (.memcmpTab (.ldPtr (.ldPtr (.var 4) 0) 0) [1, 0, 16, 7, 0, 255] (.lit .u64 6)) (.lit .i32 0))) (.ldPtr (.var 4) 5)) (.or (.or (.bin .eq (.var 3) (.lit .i32 1)) (.bin .eq (.var 3) (.lit .i32 2))) (.bin .eq (.var 3) (.lit .i32 3)))

theorem ev_len3 {v : UInt8} (h3 : env 3 = .int .u8 v.toNat) :
    EvalTo (.or (.or (.bin .eq (.var 3) (.lit .i32 1)) (.bin .eq (.var 3) (.lit .i32 2))) (.bin .eq (.var 3) (.lit .i32 3))) env m
      (ofBool (decide (v = 1 ∨ v = 2 ∨ v = 3))) env m := by
  have hv := UInt8.toNat_lt v
  have e : ∀ z : UInt8, EvalTo (.bin .eq (.var 3) (.lit .i32 (z.toNat : Int))) env m (ofBool (decide (v = z))) env m := by
    intro z
    have hz := UInt8.toNat_lt z
    have := EvalTo.bin (m := m) (EvalTo.int h3) (EvalTo.lit (t := .i32) (n := (z.toNat : Int))) (eq_small (.inl rfl) (n := v.toNat) (z := z.toNat) (by omega) (by omega))
    rwa [show decide (v.toNat = z.toNat) = decide (v = z) from decide_eq_decide.mpr UInt8.toNat_inj] at this
  have e1 := e 1
  have e2 := e 2
  have e3 := e 3
  by_cases h1 : v = 1
  · rw [decide_eq_true h1] at e1
    rw [decide_eq_true (.inl h1)]
    exact .or_t (.or_t e1 rfl) rfl
  rw [decide_eq_false h1] at e1
  by_cases h2 : v = 2
  · rw [decide_eq_true h2] at e2
    rw [decide_eq_true (.inr (.inl h2))]
    exact .or_t (.or_f e1 rfl e2 rfl) rfl
  rw [decide_eq_false h2] at e2
  rw [show decide (v = 1 ∨ v = 2 ∨ v = 3) = decide (v = 3) from decide_eq_decide.mpr (by simp [h1, h2])]
  exact .or_f (.or_f e1 rfl e2 rfl) rfl e3 (truth_ofBool _)

theorem dzgCond_ev {K : Ctx} {env : Env} {v : UInt8} {wa : Bool} (hi : Inv K st h) (hσ : K.σ[k]? = some (.obj [] [waInt wa])) (h1 : env 1 = .ptr (.stack k) 0)
    (h3 : env 3 = .int .u8 v.toNat) (h4 : env 4 = ptrVal l) (hr : pDzgApplies l v wa st h = .ok b st' h') :
    st' = st ∧ h' = h ∧ EvalTo dzgCond env (conc K st h) (ofBool b) env (conc K st h) := by
  unfold pDzgApplies at hr
  have ewa : EvalTo (.ldInt .bit (.var 1) 0) env (conc K st h) (.int .bit (waInt wa)) env (conc K st h) := .ldInt (.ptr h1) (load_wa hσ)
  by_cases hw : wa = false
  · rw [if_pos hw] at hr
    cases hr
    refine ⟨rfl, rfl, .and_f (.and_f (.and_f (.and_f (.and_f ewa (by rw [hw]; rfl)) rfl) rfl) rfl) rfl⟩
  rw [if_neg hw] at hr
  have ewt : truth (.int .bit (waInt wa)) env (conc K st h) = .ok true env (conc K st h) := by
    rw [show wa = true by cases wa <;> simp_all]
    rfl
  replace hr := P_bind_eq_ok hr
  obtain ⟨name, s1, h1', e1, hr⟩ := hr
  have e1' := e1
  obtain ⟨_, rfl, rfl, _⟩ := readPtr_eq_ok e1'
  have vname := ev_ldPtr hi (.ptr h4) e1
  by_cases hn : name = 0
  · rw [if_pos hn] at hr
    cases hr
    refine ⟨rfl, rfl, .and_f (.and_f (.and_f (.and_f (.and_t ewa ewt vname (t := false) (by rw [hn]; rfl)) rfl) rfl) rfl) rfl⟩
  rw [if_neg hn] at hr
  have c1 := EvalTo.and_t ewa ewt vname (truth_ptr hn)
  replace hr := P_bind_eq_ok hr
  obtain ⟨len, s2, h2, e2, hr⟩ := hr
  have e2' := e2
  obtain ⟨_, rfl, rfl, _⟩ := readInt_eq_ok e2'
  have hlen := readInt_small hi e2
  have vlen := EvalTo.bin (ev_ldInt (t := .i32) hi vname e2) .lit (eq_i32_u64 (z := 6) hlen (by omega))
  have c2 := EvalTo.and_t c1 rfl vlen (truth_ofBool _)
  by_cases hl6 : len ≠ 6
  · rw [if_pos hl6] at hr
    cases hr
    rw [decide_eq_false hl6] at c2
    exact ⟨rfl, rfl, .and_f (.and_f (.and_f c2 rfl) rfl) rfl⟩
  rw [if_neg hl6] at hr
  rw [decide_eq_true (Decidable.not_not.mp hl6)] at c2
  replace hr := P_bind_eq_ok hr
  obtain ⟨str, s3, h3', e3, hr⟩ := hr
  have e3' := e3
  obtain ⟨_, rfl, rfl, _⟩ := readPtr_eq_ok e3'
  replace hr := P_bind_eq_ok hr
  obtain ⟨nm, s4, h4', e4, hr⟩ := hr
  obtain ⟨ha4, rfl, rfl, bs4, hc4, hl4, rfl⟩ := readRaw_eq_ok e4
  obtain ⟨z, ez, hz, hz1, hz2⟩ := ev_memcmp (t := .u64) (tb := [1, 0, 16, 7, 0, 255]) (k := 6) hi (ev_ldPtr hi vname e3) ha4 hc4 hl4 (by decide)
  rw [power_map] at hz
  have vz := EvalTo.bin ez (.lit (t := .i32) (n := 0)) (bin_eq (ta := .i32) (tb := .i32) (conv_i32 (by omega) (by omega)) (conv_i32 (by omega) (by omega)))
  have c3 := EvalTo.and_t c2 rfl vz (truth_ofBool _)
  by_cases hz0 : bs4.take 6 ≠ dzgPowerName
  · rw [if_pos hz0] at hr
    cases hr
    rw [decide_eq_false fun e => hz0 (hz.mp e)] at c3
    exact ⟨rfl, rfl, .and_f (.and_f c3 rfl) rfl⟩
  rw [if_neg hz0] at hr
  rw [decide_eq_true (hz.mpr (Decidable.not_not.mp hz0))] at c3
  replace hr := P_bind_eq_ok hr
  obtain ⟨value, s5, h5, e5, hr⟩ := hr
  have e5' := e5
  obtain ⟨_, rfl, rfl, _⟩ := readPtr_eq_ok e5'
  have vvalue := ev_ldPtr hi (.ptr h4) e5
  by_cases hv : value = 0
  · rw [if_pos hv] at hr
    cases hr
    exact ⟨rfl, rfl, .and_f (.and_t c3 rfl vvalue (t := false) (by rw [hv]; rfl)) rfl⟩
  rw [if_neg hv] at hr
  cases hr
  exact ⟨rfl, rfl, .and_t (.and_t c3 rfl vvalue (truth_ptr hv)) rfl (ev_len3 h3) (truth_ofBool _)⟩

/-! ### The new type -/

theorem toBits_i32_nat {n : Nat} (hn : n ≤ 2147483647) : ITy.toBits .i32 (n : Int) = n := by
  show ((n : Int) % (2 ^ 32)).toNat = n
  omega

theorem and_143 (n : Nat) : (n &&& 4294967183) % 256 = n &&& 143 := by
  apply Nat.eq_of_testBit_eq
  intro i
  rw [show (256 : Nat) = 2 ^ 8 from rfl, Nat.testBit_mod_two_pow, Nat.testBit_and, Nat.testBit_and]
  by_cases hi : i < 8
  · have : ∀ i, i < 8 → Nat.testBit 4294967183 i = Nat.testBit 143 i := by decide
    rw [this i hi]
    simp [hi]
  · have : Nat.testBit 143 i = false := Nat.testBit_lt_two_pow (Nat.lt_of_lt_of_le (show 143 < 2 ^ 8 by decide) (Nat.pow_le_pow_right (by omega) (by omega)))
    rw [this]
    simp [hi]

theorem band_type {n : Nat} (hn : n ≤ 2147483647) :
    ∃ z, binOp .band (.int .u8 n) (.int .i32 (-113)) env m = .ok (.int .i32 z) env m ∧ ITy.conv .u8 z = ((n &&& 143 : Nat) : Int) := by
  refine ⟨ITy.conv .i32 ((n &&& 4294967183 : Nat) : Int), ?_, ?_⟩
  · show (pure (bitop (· &&& ·) .i32 (ITy.conv .i32 n) (ITy.conv .i32 (-113))) : X Val) env m = _
    rw [conv_i32 (by omega) (by omega), X_pure, bitop, toBits_i32_nat hn]
    rfl
  · have hle : n &&& 4294967183 ≤ n := Nat.and_le_left
    rw [conv_i32 (by omega) (by omega), ← and_143]
    show ((n &&& 4294967183 : Nat) : Int) % (2 ^ 8) = _
    omega

theorem bor_type {n : Nat} (hn : n < 256) :
    binOp .bor (.int .u8 n) (.int .i32 96) env m = .ok (.int .i32 ((n ||| 96 : Nat) : Int)) env m := by
  have h3 : n ||| 96 < 2 ^ 8 := Nat.or_lt_two_pow (by omega) (by omega)
  show (pure (bitop (· ||| ·) .i32 (ITy.conv .i32 n) (ITy.conv .i32 96)) : X Val) env m = _
  rw [conv_i32 (by omega) (by omega), X_pure, bitop, toBits_i32_nat (by omega)]
  show XRes.ok (Val.int .i32 (ITy.conv .i32 ((n ||| 96 : Nat) : Int))) env m = _
  rw [conv_i32 (by omega) (by omega)]

/-- Both assignments are one write of the model. -/
theorem retype_run {K : Ctx} {env : Env} (hi : Inv K st h) (h4 : env 4 = ptrVal l) (e1 : readPtr l 5 st h = .ok value st h) (e2 : readInt value 0 st h = .ok type st h)
    (e3 : writeInt value 0 ((type &&& 0x8F) ||| tyUnsigned) st h = .ok u st' h') :
    ExecsTo [
        .stInt .u8 (.ldPtr (.var 4) 5) 0 (.bin .band (.ldInt .u8 (.ldPtr (.var 4) 5) 0) (.lit .i32 (-113))),
        .stInt .u8 (.ldPtr (.var 4) 5) 0 (.bin .bor (.ldInt .u8 (.ldPtr (.var 4) 5) 0) (.lit .i32 96))] env (conc K st h) .next env (conc K st' h') ∧ Inv K st' h' := by
  have hs := readInt_small hi e2
  obtain ⟨ha, rfl, ps, is, hc, hl, rfl⟩ := writeInt_eq_ok e3
  have hx : type &&& 143 < 256 := Nat.lt_of_le_of_lt Nat.and_le_right (by omega)
  have hor : (type &&& 143) ||| 96 < 2 ^ 8 := Nat.or_lt_two_pow (by omega) (by omega)
  obtain ⟨z, ez, hz⟩ := band_type (env := env) (m := conc K st' h) hs
  have w1 := writeInt_ok (st := st') (v := type &&& 143) ha hc hl
  have i1 : Inv K st' { h with cells := setCell h.cells value (some (.struct ps (is.set 0 (type &&& 143)))) } := hi.setIs hc 0 _ (by omega)
  have hc1 : ({ h with cells := setCell h.cells value (some (.struct ps (is.set 0 (type &&& 143)))) } : Heap).cells value = some (.struct ps (is.set 0 (type &&& 143))) := by
    simp only [setCell, if_true]
  have r1 : readPtr l 5 st' { h with cells := setCell h.cells value (some (.struct ps (is.set 0 (type &&& 143)))) } =
      .ok value st' { h with cells := setCell h.cells value (some (.struct ps (is.set 0 (type &&& 143)))) } := by
    obtain ⟨hl0, _, _, ps1, is1, hcl, hv⟩ := readPtr_eq_ok e1
    by_cases hlv : l = value
    · subst hlv
      rw [hc] at hcl
      cases hcl
      exact readPtr_ok hl0 hc1 hv
    · exact readPtr_ok hl0 ((if_neg hlv).trans hcl) hv
  have r2 := Sml.readInt_ok (st := st') (i := 0) (n := type &&& 143) ha hc1 (List.getElem?_set_self hl)
  have w2 := writeInt_ok (st := st') (i := 0) (v := (type &&& 143) ||| 96) ha hc1 (by rw [List.length_set]; exact hl)
  have hfin : ({ next := h.next, cells := setCell (setCell h.cells value (some (.struct ps (is.set 0 (type &&& 143))))) value (some (.struct ps ((is.set 0 (type &&& 143)).set 0 ((type &&& 143) ||| 96)))) } : Heap) =
      { h with cells := setCell h.cells value (some (.struct ps (is.set 0 ((type &&& 143) ||| 96)))) } := by
    congr 1
    funext b
    simp only [setCell, List.set_set]
    split <;> rfl
  refine ⟨?_, hi.setIs hc 0 _ (show (type &&& 143) ||| 96 ≤ 2147483647 by omega)⟩
  refine .cons (.stInt (.bin (ev_ldInt hi (ev_ldPtr hi (.ptr h4) e1) e2) .lit ez) (ev_ldPtr hi (.ptr h4) e1) hz (storeInt_cell hi w1)) ?_
  have x2 := ExecTo.stInt (ty := .u8) (.bin (ev_ldInt (t := .u8) i1 (ev_ldPtr i1 (.ptr h4) r1) r2) .lit (bor_type hx)) (ev_ldPtr i1 (.ptr h4) r1) (conv_u8 (by omega) (by omega))
    (storeInt_cell i1 w2)
  have hm : conc K st' { next := h.next, cells := setCell (setCell h.cells value (some (.struct ps (is.set 0 (type &&& 143))))) value (some (.struct ps ((is.set 0 (type &&& 143)).set 0 ((type &&& 143) ||| 96)))) } =
      conc K st' { h with cells := setCell h.cells value (some (.struct ps (is.set 0 ((type &&& 143) ||| 96)))) } := by rw [hfin]
  exact .cons (hm ▸ x2) .nil

/-- sml_list.c:249-261. -/
theorem listEntryFinish_sem {K : Ctx} {env : Env} {v : UInt8} {wa : Bool} (hσ : K.σ[k]? = some (.obj [] [waInt wa])) (h1 : env 1 = .ptr (.stack k) 0)
    (h3 : env 3 = .int .u8 v.toNat) (h4 : env 4 = ptrVal l) :
    Sem2 K (fun b => withWa K k b.2) body (.ite (.call .detect_buggy_dzg_dvs74 [.var 4]) [
      .stInt .bit (.var 1) 0 (.lit .i32 1)] [
      .ite dzgCond [
        .stInt .u8 (.ldPtr (.var 4) 5) 0 (.bin .band (.ldInt .u8 (.ldPtr (.var 4) 5) 0) (.lit .i32 (-113))),
        .stInt .u8 (.ldPtr (.var 4) 5) 0 (.bin .bor (.ldInt .u8 (.ldPtr (.var 4) 5) 0) (.lit .i32 96))] []] :: .ret (.var 4) :: ss) env anySt
      (pListEntryFinish l v wa) (fun b => ptrVal b.1) := by
  intro st h hi _ b st' h' hr
  unfold pListEntryFinish at hr
  replace hr := P_bind_eq_ok hr
  obtain ⟨d, s1, h1', e1, hr⟩ := hr
  obtain ⟨rfl, rfl, _⟩ := detectDzg_run hi e1
  obtain ⟨_, _, c1⟩ := (ESem.callVar (K := K) h4 (detectDzg_src l)).ev hi trivial e1
  cases d with
  | true =>
    cases hr
    refine ⟨hi, .ite (b := true) c1 rfl (.cons (.stInt .lit (.ptr h1) (k' := 1) (by decide) (store_wa hσ)) (.ret (.ptr h4)))⟩
  | false =>
    replace hr := P_bind_eq_ok hr
    obtain ⟨a, s2, h2, e2, hr⟩ := hr
    obtain ⟨rfl, rfl, c2⟩ := dzgCond_ev hi hσ h1 h3 h4 e2
    cases a with
    | true =>
      replace hr := P_bind_eq_ok hr
      obtain ⟨value, s3, h3', e3, hr⟩ := hr
      have e3' := e3
      obtain ⟨_, rfl, rfl, _⟩ := readPtr_eq_ok e3'
      replace hr := P_bind_eq_ok hr
      obtain ⟨type, s4, h4', e4, hr⟩ := hr
      have e4' := e4
      obtain ⟨_, rfl, rfl, _⟩ := readInt_eq_ok e4'
      replace hr := P_bind_eq_ok hr
      obtain ⟨u, s5, h5, e5, hr⟩ := hr
      cases hr
      obtain ⟨x, i5⟩ := retype_run hi h4 e3 e4 e5
      simp only [withWa_same hσ]
      exact ⟨i5, .ite (b := false) c1 rfl (.ite (b := true) c2 rfl (.append x (.ret (.ptr h4))))⟩
    | false =>
      cases hr
      simp only [withWa_same hσ]
      exact ⟨hi, .ite (b := false) c1 rfl (.ite (b := false) c2 rfl (.ret (.ptr h4)))⟩

theorem band_143 {t : UInt8} : binOp .band (.int .u8 t.toNat) (.int .i32 143) env m = .ok (.int .i32 ((t &&& 0x8F).toNat : Nat)) env m := by
  have ht := UInt8.toNat_lt t
  have h1 : t.toNat &&& 143 ≤ t.toNat := Nat.and_le_left
  show (pure (bitop (· &&& ·) .i32 (ITy.conv .i32 t.toNat) (ITy.conv .i32 143)) : X Val) env m = _
  rw [conv_i32 (by omega) (by omega), X_pure, bitop, toBits_i32_nat (by omega)]
  show XRes.ok (Val.int .i32 (ITy.conv .i32 ((t.toNat &&& 143 : Nat) : Int))) env m = _
  rw [conv_i32 (by omega) (by omega), UInt8.toNat_and]
  rfl

/-- Behind the label. -/
theorem Sem2.listFreeRet {K : Ctx} {K' : Addr × Bool → Ctx} {env : Env} (h4 : env 4 = ptrVal l) (hq : K' (0, wa) = K) :
    Sem2 K K' body [.ite (.var 4) [.expr (.call .sml_list_free [.var 4])] [], .ret .null] env errSt (pAbort pListFree l (0, wa)) (fun b => ptrVal b.1) := by
  refine Sem2.iteVar h4 (fun hl => ?_) (fun hl => ?_)
  · refine Sem2.weaken (pre' := anySt) ?_ fun _ _ => trivial
    exact Sem2.call (ESem.callVar h4 (listFree_src l)) fun _ => Sem2.retPure (fun _ _ => rfl) hq
  · subst hl
    exact Sem2.retPure (a := (0, wa)) (fun _ _ => rfl) hq

theorem Sem2.listAbort {K : Ctx} {K' : Addr × Bool → Ctx} {env : Env} (hb : behind 0 body = some [.stInt .i32 (.var 0) 2 (.lit .i32 1), .ite (.var 4) [.expr (.call .sml_list_free [.var 4])] [], .ret .null])
    (h0 : env 0 = K.buf) (h4 : env 4 = ptrVal l) (hq : K' (0, wa) = K) :
    ∀ ss, Sem2 K K' body ([.goto 0] ++ ss) env errSt (pAbort pListFree l (0, wa)) (fun b => ptrVal b.1) :=
  fun _ => Sem2.goto hb (Sem2.setErr' h0 (Sem2.listFreeRet h4 hq))

theorem listEntryParse_run {K : Ctx} {wa : Bool} (hσ : K.σ[k]? = some (.obj [] [waInt wa])) (hi : Inv K st h) (hr : pListEntryParse wa st h = .ok b st' h') :
    Inv K st' h' ∧ CallTo .sml_list_entry_parse [K.buf, .ptr (.stack k) 0] (conc K st h) (ptrVal b.1) (conc (withWa K k b.2) st' h') := by
  have hq : withWa K k wa = K := withWa_same hσ
  have key : Sem2 K (fun b => withWa K k b.2) (program .sml_list_entry_parse).body (program .sml_list_entry_parse).body (envOf [K.buf, .ptr (.stack k) 0]) anySt
      (pListEntryParse wa) (fun b => ptrVal b.1) := by
    unfold pListEntryParse
    refine Sem2.vars (fun m => .setPtr .null) ?_
    refine Sem2.expectList (by rfl) 7 (by omega) (fun ss => ?_) ?_
    · refine Sem2.goto rfl (Sem2.setErr' (by rfl) (Sem2.iteVar (a := 0) (by rfl) (fun h => absurd rfl h) fun _ => ?_))
      exact Sem2.retPure (a := (0, wa)) (fun _ _ => rfl) hq
    refine Sem2.init listInit_src fun l => ?_
    have ab := @Sem2.listAbort (program .sml_list_entry_parse).body l wa K (fun b => withWa K k b.2)
    refine Sem2.field (by rfl) (by rfl) (.call octetStringParse_src) (ab rfl (by rfl) (by rfl) hq) ?_
    refine Sem2.field (by rfl) (by rfl) (.call statusParse_src) (ab rfl (by rfl) (by rfl) hq) ?_
    refine Sem2.field (by rfl) (by rfl) (.call timeParse_src) (ab rfl (by rfl) (by rfl) hq) ?_
    refine Sem2.field (by rfl) (by rfl) (.num 96 1 (by omega) (by omega) (by omega)) (ab rfl (by rfl) (by rfl) hq) ?_
    refine Sem2.field (by rfl) (by rfl) (.num 80 1 (by omega) (by omega) (by omega)) (ab rfl (by rfl) (by rfl) hq) ?_
    refine Sem2.atEnd (by rfl) ?_ ?_
    · exact Sem2.goto rfl (Sem2.setErr (by rfl) (Sem2.listFreeRet (by rfl) hq))
    refine Sem2.byte (by rfl) fun t => ?_
    refine Sem2.vars (fun m => .set (.bin (.int (by rfl)) .lit band_143) (k' := ((t &&& 0x8F).toNat : Nat)) ?_) ?_
    · have := UInt8.toNat_lt (t &&& 0x8F)
      exact conv_u8 (by omega) (by omega)
    refine Sem2.field (by rfl) (by rfl) (.call valueParse_src) (ab rfl (by rfl) (by rfl) hq) ?_
    refine Sem2.field (by rfl) (by rfl) (.call octetStringParse_src) (ab rfl (by rfl) (by rfl) hq) ?_
    exact listEntryFinish_sem hσ (by rfl) (by rfl) (by rfl)
  obtain ⟨i1, r1⟩ := key.run hi trivial hr
  refine ⟨i1, CallTo.of (fun _ _ => rfl) r1 fun env => ?_⟩
  have : ({ conc (withWa K k b.2) st' h' with stack := (conc (withWa K k b.2) st' h').stack.take (conc K st h).stack.length } : Mem) = conc (withWa K k b.2) st' h' := by
    simp only [conc, memOf, withWa]
    rw [List.take_of_length_le (by rw [List.length_set]; omega)]
  rw [this]
  rfl

/-! ## `sml_list_parse` -/

/-- What holds of the results and the heap behind `p`. -/
def Res (U : β → Heap → Prop) (p : P β) : Prop := ∀ st h b st' h', p st h = .ok b st' h' → U b h'

theorem Res.bind {k : α → P β} (h : ∀ a, Res U (k a)) : Res U (p >>= k) := by
  intro st h0 b st' h' hr
  replace hr := P_bind_eq_ok hr
  obtain ⟨a, s, h1, _, hr⟩ := hr
  exact h a _ _ _ _ _ hr

theorem Res.ite {p q : P β} (c : Prop) [Decidable c] (hp : Res U p) (hq : Res U q) : Res U (if c then p else q) := by
  split <;> assumption

theorem Res.field {err k : P β} (he : Res U err) (hk : Res U k) : Res U (pField p a i err k) :=
  .bind fun _ => .bind fun _ => .bind fun _ => .ite _ he hk

/-- The heap stays as it is. -/
def Reads (p : P β) : Prop := ∀ st h b st' h', p st h = .ok b st' h' → h' = h

theorem Reads.bind {k : α → P β} (hp : Reads p) (hk : ∀ a, Reads (k a)) : Reads (p >>= k) := by
  intro st h b st' h' hr
  replace hr := P_bind_eq_ok hr
  obtain ⟨a, s, h1, e1, hr⟩ := hr
  rw [hk a _ _ _ _ _ hr, hp _ _ _ _ _ e1]

theorem Reads.ite {p q : P β} (c : Prop) [Decidable c] (hp : Reads p) (hq : Reads q) : Reads (if c then p else q) := by
  split <;> assumption

theorem Reads.pure {a : β} : Reads (pure a : P β) := by
  intro st h b st' h' hr
  cases hr
  rfl

theorem Reads.ptr : Reads (readPtr a i) := fun _ _ _ _ _ hr => (readPtr_eq_ok hr).2.2.1
theorem Reads.int : Reads (readInt a i) := fun _ _ _ _ _ hr => (readInt_eq_ok hr).2.2.1
theorem Reads.raw : Reads (readRaw a n) := fun _ _ _ _ _ hr => (readRaw_eq_ok hr).2.2.1

theorem reads_detect : Reads (pDetectBuggyDzgDvs74 l) :=
  .bind .ptr fun _ => .ite _ .pure (.bind .int fun _ => .ite _ .pure (.bind .ptr fun _ => .bind .raw fun _ => .ite _ .pure
    (.bind .ptr fun _ => .ite _ .pure (.bind .int fun _ => .ite _ .pure (.bind .ptr fun _ => .bind .int fun _ => .ite _ .pure (.bind .ptr fun _ => .bind .raw fun _ =>
      .ite _ .pure .pure)))))) 

theorem reads_applies : Reads (pDzgApplies l v wa) :=
  .ite _ .pure (.bind .ptr fun _ => .ite _ .pure (.bind .int fun _ => .ite _ .pure (.bind .ptr fun _ => .bind .raw fun _ => .ite _ .pure (.bind .ptr fun _ => .ite _ .pure .pure))))

theorem listEntry_live : Res (fun (b : Addr × Bool) h => b.1 ≠ 0 → ∃ c, h.cells b.1 = some c) (pListEntryParse wa) := by
  have hz : ∀ l, Res (fun (b : Addr × Bool) h => b.1 ≠ 0 → ∃ c, h.cells b.1 = some c) (pAbort pListFree l (0, wa)) := by
    intro l
    refine .bind fun _ => ?_
    intro st h b st' h' hr
    cases hr
    exact fun h => absurd rfl h
  have h0 : Res (fun (b : Addr × Bool) h => b.1 ≠ 0 → ∃ c, h.cells b.1 = some c) (pure (0, wa)) := by
    intro st h b st' h' hr
    cases hr
    exact fun h => absurd rfl h
  refine .bind fun _ => .ite _ (.bind fun _ => h0) (.bind fun _ => .ite _ (.bind fun _ => h0) (.bind fun l => ?_))
  refine .field (hz l) (.field (hz l) (.field (hz l) (.field (hz l) (.field (hz l) (.bind fun _ => .ite _ (.bind fun _ => hz l) (.bind fun t => .field (hz l) (.field (hz l) ?_)))))))
  intro st h b st' h' hr
  unfold pListEntryFinish at hr
  replace hr := P_bind_eq_ok hr
  obtain ⟨d, s1, h1', e1, hr⟩ := hr
  have hl : ∃ c, h1'.cells l = some c := by
    rw [reads_detect _ _ _ _ _ e1]
    unfold pDetectBuggyDzgDvs74 at e1
    replace e1 := P_bind_eq_ok e1
    obtain ⟨nm, s, h2, e2, _⟩ := e1
    obtain ⟨_, rfl, rfl, ps, is, hc, _⟩ := readPtr_eq_ok e2
    exact ⟨_, hc⟩
  cases d with
  | true =>
    cases hr
    exact fun _ => hl
  | false =>
    replace hr := P_bind_eq_ok hr
    obtain ⟨a, s2, h2, e2, hr⟩ := hr
    have := reads_applies _ _ _ _ _ e2
    subst this
    cases a with
    | true =>
      replace hr := P_bind_eq_ok hr
      obtain ⟨value, s3, h3', e3, hr⟩ := hr
      have := Reads.ptr _ _ _ _ _ e3
      subst this
      replace hr := P_bind_eq_ok hr
      obtain ⟨type, s4, h4', e4, hr⟩ := hr
      have := Reads.int _ _ _ _ _ e4
      subst this
      replace hr := P_bind_eq_ok hr
      obtain ⟨u, s5, h5, e5, hr⟩ := hr
      cases hr
      obtain ⟨_, _, ps, is, _, _, rfl⟩ := writeInt_eq_ok e5
      intro _
      simp only [setCell]
      split
      · exact ⟨_, rfl⟩
      · exact hl
    | false =>
      cases hr
      exact fun _ => hl

/-- The local objects of `sml_list_parse`. -/
def listFrame (K : Ctx) (wa : Bool) (ret : Addr) : Ctx := { K with σ := K.σ ++ [.obj [] [waInt wa], .obj [ptrVal ret] []] }

theorem Inv.frame (hi : Inv K st h) : Inv (listFrame K wa ret) st h := ⟨hi.good, hi.nB, hi.nA, hi.lB, hi.lA, hi.ints, hi.lo, hi.old⟩

theorem Inv.unframe (hi : Inv (listFrame K wa ret) st h) : Inv K st h := ⟨hi.good, hi.nB, hi.nA, hi.lB, hi.lA, hi.ints, hi.lo, hi.old⟩

theorem frame_wa (K : Ctx) : (listFrame K wa ret).σ[K.σ.length]? = some (.obj [] [waInt wa]) := by
  simp [listFrame]

theorem frame_ret (K : Ctx) : (listFrame K wa ret).σ[K.σ.length + 1]? = some (.obj [ptrVal ret] []) := by
  simp [listFrame]

theorem frame_setWa (K : Ctx) : withWa (listFrame K wa ret) K.σ.length wa' = listFrame K wa' ret := by
  simp [listFrame, withWa]

/-- The variable `pos`. -/
def posVal (K : Ctx) (pos : Addr) : Val := if pos = 0 then .ptr (.stack (K.σ.length + 1)) 0 else .ptr (.heap pos) 7

theorem load_ret (K : Ctx) : loadPtr (.ptr (.stack (K.σ.length + 1)) 0) 0 env (conc (listFrame K wa ret) st h) = .ok (ptrVal ret) env (conc (listFrame K wa ret) st h) := by
  have hg : getBlock (.stack (K.σ.length + 1)) env (conc (listFrame K wa ret) st h) = .ok (.obj [ptrVal ret] []) env (conc (listFrame K wa ret) st h) := by
    simp only [getBlock, conc, memOf, frame_ret]
  rw [loadPtr, asPtr, X_bind_ok (X_pure _ _ _)]
  simp only
  rw [X_bind_ok hg]
  rfl

theorem store_ret (K : Ctx) : storePtr (.ptr (.stack (K.σ.length + 1)) 0) 0 (ptrVal e) env (conc (listFrame K wa ret) st h) = .ok () env (conc (listFrame K wa e) st h) := by
  have hg : getBlock (.stack (K.σ.length + 1)) env (conc (listFrame K wa ret) st h) = .ok (.obj [ptrVal ret] []) env (conc (listFrame K wa ret) st h) := by
    simp only [getBlock, conc, memOf, frame_ret]
  rw [storePtr, asPtr, X_bind_ok (X_pure _ _ _)]
  simp only
  rw [X_bind_ok hg]
  simp [setBlock, conc, memOf, listFrame]
  rfl

theorem storePtr_at : storePtr (.ptr l i) 0 v env m = storePtr (.ptr l 0) i v env m := by
  simp only [storePtr, asPtr, Nat.zero_add, Nat.add_zero, X_bind, X_pure]

theorem loadPtr_at : loadPtr (.ptr l i) 0 env m = loadPtr (.ptr l 0) i env m := by
  simp only [loadPtr, asPtr, Nat.zero_add, Nat.add_zero, X_bind, X_pure]

/-- `*pos = e` -/
theorem store_pos (hi : Inv (listFrame K wa ret) st h) (hr : (if pos = 0 then pure e else do
      writePtr pos 7 e
      pure ret : P Addr) st h = .ok ret' st' h') :
    storePtr (posVal K pos) 0 (ptrVal e) env (conc (listFrame K wa ret) st h) = .ok () env (conc (listFrame K wa ret') st' h') ∧
    Inv (listFrame K wa ret') st' h' ∧ loadPtr (posVal K pos) 0 env (conc (listFrame K wa ret') st' h') = .ok (ptrVal e) env (conc (listFrame K wa ret') st' h') ∧
    ((∃ c, h.cells e = some c) → ∃ c, h'.cells e = some c) := by
  by_cases hp : pos = 0
  · rw [if_pos hp] at hr
    cases hr
    rw [posVal, if_pos hp]
    exact ⟨store_ret K, hi.unframe.frame, load_ret K, id⟩
  · rw [if_neg hp] at hr
    replace hr := P_bind_eq_ok hr
    obtain ⟨u, s, h1, e1, hr⟩ := hr
    cases hr
    rw [posVal, if_neg hp]
    have e1' := e1
    obtain ⟨_, rfl, ps, is, hc, _, rfl⟩ := writePtr_eq_ok e1'
    refine ⟨storePtr_at.trans (storePtr_cell hi e1), hi.setPs hc _, loadPtr_at.trans (loadPtr_cell (hi.setPs hc _) (read_written e1)), fun hl => ?_⟩
    simp only [setCell]
    split
    · exact ⟨_, rfl⟩
    · exact hl

abbrev listRound : List Stmt := [
  .stPtr (.var 3) 0 (.call .sml_list_entry_parse [.var 0, .var 1]),
  .ite (.call .sml_buf_has_errors [.var 0]) [
    .goto 0] [],
  .setPtr 3 (.addrPtr (.ldPtr (.var 3) 0) 7),
  .set .i32 4 (.bin .sub (.var 4) (.lit .i32 1))]

abbrev listTail : List Stmt := [
  .stInt .i32 (.var 0) 2 (.lit .i32 1),
  .expr (.call .sml_list_free [.ldPtr (.var 2) 0]),
  .ret .null]

/-- The loop of `sml_list_parse`. -/
theorem listLoop_run {K : Ctx} (hbeh : behind 0 body = some listTail) (n : Nat) :
    ∀ env (l : Int) wa ret pos st h b st' h', Inv K st h → env 0 = K.buf → env 1 = .ptr (.stack K.σ.length) 0 → env 2 = .ptr (.stack (K.σ.length + 1)) 0 →
      env 3 = posVal K pos → env 4 = .int .i32 l → l.toNat = n → -2147483648 ≤ l → l < 2147483648 → pListLoop n wa ret pos st h = .ok b st' h' →
      Inv K st' h' ∧ ∃ wa' ret', RunTo body (.loop (.bin .gt (.var 4) (.lit .i32 0)) listRound [] :: .ret (.ldPtr (.var 2) 0) :: ss) env (conc (listFrame K wa ret) st h) (ptrVal b)
        (conc (listFrame K wa' ret') st' h') := by
  induction n with
  | zero =>
    intro env l wa ret pos st h b st' h' hi h0 h1 h2 h3 h4 hl l1 l2 hr
    cases hr
    refine ⟨hi, wa, ret, RunTo.loop rfl rfl (RunTo.ite (b := false) (.bin (.int h4) .lit (bin_gt_i32 ⟨l1, l2⟩ (by omega))) (truth_neg (by omega)) ?_)⟩
    exact .ret (.ldPtr (.ptr h2) (load_ret K))
  | succ n ih =>
    intro env l wa ret pos st h b st' h' hi h0 h1 h2 h3 h4 hl l1 l2 hr
    rw [pListLoop] at hr
    replace hr := P_bind_eq_ok hr
    obtain ⟨⟨e, wa1⟩, s1, g1, e1, hr⟩ := hr
    have hlive := listEntry_live _ _ _ _ _ e1
    obtain ⟨i1, r1⟩ := listEntryParse_run (frame_wa (wa := wa) (ret := ret) K) hi.frame e1
    replace hr := P_bind_eq_ok hr
    obtain ⟨ret1, s2, g2, e2, hr⟩ := hr
    rw [frame_setWa] at r1
    obtain ⟨w2, i2, r2, hl2⟩ := store_pos (env := env) (i1.unframe.frame (wa := wa1) (ret := ret)) e2
    replace hr := P_bind_eq_ok hr
    obtain ⟨c, s3, g3, e3, hr⟩ := hr
    obtain ⟨i3, q3, r3⟩ := (ESem.callM (K := listFrame K wa1 ret1) (env := env) h0 hasErrors_src).ev i2 trivial e3
    have hst : ExecTo (.stPtr (.var 3) 0 (.call .sml_list_entry_parse [.var 0, .var 1])) env (conc (listFrame K wa ret) st h) .next env (conc (listFrame K wa1 ret1) s2 g2) :=
      .stPtr (.call (.cons (.ptr h0) (.one (.ptr h1))) r1) (.var h3 (by rw [posVal]; split <;> exact Val.noConfusion)) w2
    have hgo : ∀ R wa' ret', RunTo body ((if c then [.goto 0] else []) ++ (.setPtr 3 (.addrPtr (.ldPtr (.var 3) 0) 7) :: R)) env (conc (listFrame K wa1 ret1) s3 g3) (ptrVal b) (conc (listFrame K wa' ret') st' h') →
        R = .set .i32 4 (.bin .sub (.var 4) (.lit .i32 1)) :: .loop (.bin .gt (.var 4) (.lit .i32 0)) listRound [] :: .ret (.ldPtr (.var 2) 0) :: ss →
        RunTo body (.loop (.bin .gt (.var 4) (.lit .i32 0)) listRound [] :: .ret (.ldPtr (.var 2) 0) :: ss) env (conc (listFrame K wa ret) st h) (ptrVal b)
          (conc (listFrame K wa' ret') st' h') := by
      intro R wa' ret' hR hq
      subst hq
      refine RunTo.loop rfl rfl (RunTo.ite (b := true) (.bin (.int h4) .lit (bin_gt_i32 ⟨l1, l2⟩ (by omega))) (truth_pos (by omega)) ?_)
      exact RunTo.cons hst (RunTo.ite r3 (truth_ofBool _) hR)
    cases c with
    | true =>
      rw [if_pos rfl] at hr
      have hF : Sem (listFrame K wa1 ret1) body listTail env anySt (do
          lift setError
          pListFree ret1
          pure 0) ptrVal anyRes := by
        refine Sem.setErr h0 fun st h hi _ b st' h' hr => ?_
        replace hr := P_bind_eq_ok hr
        obtain ⟨_, s, g, e, hr⟩ := hr
        cases hr
        obtain ⟨i, _, r⟩ := (listFree_src ret1).run hi trivial e
        exact ⟨i, trivial, RunTo.cons (.expr (.call (.one (.ldPtr (.ptr h2) (load_ret K))) r)) (.ret .null)⟩
      obtain ⟨i4, _, r4⟩ := hF.run i3 trivial hr
      exact ⟨i4.unframe, wa1, ret1, hgo _ _ _ (RunTo.jump .goto hbeh r4) rfl⟩
    | false =>
      rw [if_neg (by decide)] at hr
      by_cases he : e = 0
      · rw [if_pos he] at hr
        cases hr
      · rw [if_neg he] at hr
        obtain ⟨rfl, rfl⟩ : s2 = s3 ∧ g2 = g3 := by
          unfold lift hasErrors at e3
          simp only [PRes.ok.injEq] at e3
          exact e3.2
        obtain ⟨c, hc⟩ := hl2 (hlive he)
        have hset : ExecTo (.setPtr 3 (.addrPtr (.ldPtr (.var 3) 0) 7)) env (conc (listFrame K wa1 ret1) s2 g2) .next (upd env 3 (.ptr (.heap e) 7)) (conc (listFrame K wa1 ret1) s2 g2) := by
          refine .setPtr (.addrPtr (.ldPtr (.var h3 (by rw [posVal]; split <;> exact Val.noConfusion)) r2) ?_)
          have hg := getBlock_cell (K := listFrame K wa1 ret1) (env := env) i2 he hc
          rw [memberAddr, ptrVal, asPtr, X_bind_ok (X_pure _ _ _)]
          simp only
          rw [X_bind_ok hg]
          rfl
        have hdec := exec_decr (x := 4) (env := upd env 3 (.ptr (.heap e) 7)) h4 (by omega) (by omega) (conc (listFrame K wa1 ret1) s2 g2)
        obtain ⟨i4, wa', ret', r4⟩ := ih (upd (upd env 3 (.ptr (.heap e) 7)) 4 (.int .i32 (l - 1))) (l - 1) wa1 ret1 e s2 g2 b st' h' i2.unframe h0 h1 h2 (by rw [posVal, if_neg he]; rfl) rfl (by omega) (by omega) (by omega) hr
        exact ⟨i4, wa', ret', hgo _ _ _ (RunTo.cons hset (RunTo.cons hdec r4)) rfl⟩

theorem listParse_src : ParseSpec .sml_list_parse pListParse := by
  intro K st h hi _ b st' h' hr
  have key : Inv K st' h' ∧ ∃ wa' ret', RunTo (program .sml_list_parse).body (program .sml_list_parse).body (envOf [K.buf]) (conc K st h) (ptrVal b) (conc (listFrame K wa' ret') st' h') := by
    have hobj : ∃ env, env 0 = K.buf ∧ env 1 = .ptr (.stack K.σ.length) 0 ∧ env 2 = .ptr (.stack (K.σ.length + 1)) 0 ∧ env 3 = .ptr (.stack (K.σ.length + 1)) 0 ∧
        ∀ R v m', RunTo (program .sml_list_parse).body R env (conc (listFrame K false 0) st h) v m' →
          RunTo (program .sml_list_parse).body (.obj 1 [] [0] :: .obj 2 [.null] [] :: .setPtr 3 (.var 2) :: R) (envOf [K.buf]) (conc K st h) v m' := by
      refine ⟨upd (upd (upd (envOf [K.buf]) 1 (.ptr (.stack K.σ.length) 0)) 2 (.ptr (.stack (K.σ.length + 1)) 0)) 3 (.ptr (.stack (K.σ.length + 1)) 0), rfl, rfl, rfl, rfl, fun R v m' hR => ?_⟩
      refine RunTo.cons (.obj .nil) (RunTo.cons (.obj (.one .null)) (RunTo.cons (.setPtr (v := .ptr (.stack (K.σ.length + 1)) 0) (.ptr ?_)) ?_))
      · simp [conc, memOf, upd]
      · simp only [List.length_append, List.append_assoc, conc, memOf]
        exact hR
    obtain ⟨env, h0, h1, h2, h3, hobj⟩ := hobj
    unfold pListParse at hr
    replace hr := P_bind_eq_ok hr
    obtain ⟨c, s1, g1, e1, hr⟩ := hr
    obtain ⟨rfl, t, et, rfl⟩ := opt_eq_ok e1
    have el : lift optCode st g1 = .ok t s1 g1 := by unfold lift; rw [et]
    obtain ⟨i1, _, r1⟩ := (ESem.callM (K := listFrame K false 0) (env := env) h0 optCode_src).ev hi.frame trivial el
    by_cases ht : t = 0
    · rw [if_neg (by simp [ht])] at hr
      replace hr := P_bind_eq_ok hr
      obtain ⟨ty, s2, g2, e2, hr⟩ := hr
      obtain ⟨i2, q2, r2⟩ := (ESem.callM (K := listFrame K false 0) (env := env) h0 getNextType_src).ev i1 trivial e2
      have hne := ne_lit (env := env) (m := conc (listFrame K false 0) s2 g2) (t := ty) (n := 112) (by omega) (by omega)
      by_cases hty : ty = tyList
      · rw [if_neg (by simp [hty])] at hr
        replace hr := P_bind_eq_ok hr
        obtain ⟨n, s3, g3, e3, hr⟩ := hr
        obtain ⟨i3, q3, r3⟩ := (ESem.callM (K := listFrame K false 0) (env := env) h0 getNextLength_src).ev i2 trivial e3
        obtain ⟨i4, wa', ret', r4⟩ := listLoop_run (body := (program .sml_list_parse).body) (ss := .label 0 :: listTail) rfl n.toNat (upd env 4 (.int .i32 n)) n false 0 0 s3 g3 b st' h' i3.unframe h0 h1 h2 h3 rfl rfl q3.1 q3.2 hr
        refine ⟨i4, wa', ret', hobj _ _ _ (RunTo.ite (b := false) r1 (truth_ne0.trans (by simp [ht])) (RunTo.ite (b := false) (.bin r2 .lit hne) ((truth_ofBool _).trans (by simp [hty, tyList])) (RunTo.cons (.set r3 (conv_i32 q3.1 q3.2)) r4)))⟩
      · rw [if_pos hty] at hr
        have hF : Sem (listFrame K false 0) (program .sml_list_parse).body (.stInt .i32 (.var 0) 2 (.lit .i32 1) :: .ret .null :: (program .sml_list_parse).body.drop 5) env anySt (do
            lift setError
            pure 0) ptrVal anyRes :=
          Sem.setErr h0 (Sem.retPure (fun _ _ => rfl) fun _ _ => trivial)
        obtain ⟨i4, _, r4⟩ := hF.run i2 trivial hr
        refine ⟨i4.unframe, false, 0, hobj _ _ _ (RunTo.ite (b := false) r1 (truth_ne0.trans (by simp [ht])) (RunTo.ite (b := true) (.bin r2 .lit hne) ((truth_ofBool _).trans (by rw [decide_eq_true]; simp only [tyList] at hty; omega)) r4))⟩
    · rw [if_pos (by simp [ht])] at hr
      cases hr
      exact ⟨i1.unframe, false, 0, hobj _ _ _ (RunTo.ite (b := true) r1 (truth_ne0.trans (by simp [ht])) (.ret .null))⟩
  obtain ⟨i1, wa', ret', r1⟩ := key
  refine ⟨i1, trivial, CallTo.of (fun _ _ => rfl) r1 fun env => ?_⟩
  simp [conc, memOf, listFrame]
  rfl

theorem getListResponseInit_src : InitSpec .sml_get_list_response_init (.struct [0, 0, 0, 0, 0, 0, 0] []) :=
  InitSpec.of [0, 0, 0, 0, 0, 0, 0] [] rfl rfl rfl (by simp) (fun _ _ _ => rfl) (fun _ _ _ => rfl)

theorem getListResponseParse_src : ParseSpec .sml_get_list_response_parse pGetListResponseParse := by
  refine ParseSpec.of rfl rfl fun K => ?_
  unfold pGetListResponseParse
  refine Sem.init getListResponseInit_src fun a => ?_
  exact Sem.struct (by rfl) (by rfl) (Sem.abort rfl (by rfl) getListResponseFree_src rfl) 7 (by omega)
    (.cons (.call octetStringParse_src) <|
      .cons (.call octetStringParse_src) <|
      .cons (.call octetStringParse_src) <|
      .cons (.call timeParse_src) <|
      .cons (.call listParse_src) <|
      .cons (.call octetStringParse_src) <|
      .cons (.call timeParse_src) <|
      .nil)


end Sml.C
