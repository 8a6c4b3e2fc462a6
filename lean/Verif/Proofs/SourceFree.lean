import Verif.Model.HeapMessage
import Verif.Proofs.SourceRules

/-!
# The free functions, run from their source
-/

namespace Sml.C

/-! ## Free functions only remove blocks -/

/-- Blocks are only removed. -/
def OnlyFrees (p : P α) : Prop := ∀ st h u st' h', p st h = .ok u st' h' → ∀ a, h'.cells a = none ∨ h'.cells a = h.cells a

theorem OnlyFrees.bind {p : P α} {k : α → P β} (hp : OnlyFrees p) (hk : ∀ a, OnlyFrees (k a)) : OnlyFrees (p >>= k) := by
  intro st h u st' h' hr a
  obtain ⟨b, s, h1, e1, e2⟩ := P_bind_eq_ok hr
  rcases hk b _ _ _ _ _ e2 a with h2 | h2
  · exact .inl h2
  · rw [h2]
    exact hp _ _ _ _ _ e1 a

theorem OnlyFrees.pure : OnlyFrees (pure a : P α) := by
  intro st h u st' h' hr b
  cases hr
  exact .inr rfl

theorem OnlyFrees.fault : OnlyFrees (fault e : P α) := by
  intro st h u st' h' hr
  cases hr

theorem OnlyFrees.ite {p q : P α} (c : Prop) [Decidable c] (hp : OnlyFrees p) (hq : OnlyFrees q) : OnlyFrees (if c then p else q) := by
  split <;> assumption

theorem OnlyFrees.readPtr : OnlyFrees (readPtr a i) := by
  intro st h u st' h' hr b
  obtain ⟨_, _, rfl, _⟩ := readPtr_eq_ok hr
  exact .inr rfl

theorem OnlyFrees.readInt : OnlyFrees (readInt a i) := by
  intro st h u st' h' hr b
  obtain ⟨_, _, rfl, _⟩ := readInt_eq_ok hr
  exact .inr rfl

theorem OnlyFrees.free : OnlyFrees (Sml.free a) := by
  intro st h u st' h' hr b
  unfold Sml.free at hr
  split at hr
  · cases hr
    exact .inr rfl
  · split at hr
    · cases hr
      by_cases hb : b = a
      · exact .inl (by simp [setCell, hb])
      · exact .inr (by simp [setCell, hb])
    · cases hr

theorem readTag_eq_ok (hr : readTag w a st h = .ok t st' h') :
    a ≠ 0 ∧ st' = st ∧ h' = h ∧ h.cells a = some (.num t) ∧ t.size = w ∧ t.val < 256 ^ w := by
  unfold readTag at hr
  obtain ⟨n, s, h1, e1, e2⟩ := P_bind_eq_ok hr
  unfold readNum at e1
  obtain ⟨c, s2, h2, e3, e4⟩ := P_bind_eq_ok e1
  obtain ⟨ha, hc, rfl, rfl⟩ := deref_ok e3
  cases c with
  | num n' =>
    cases e4
    split at e2
    · cases e2
      exact ⟨ha, rfl, rfl, hc, ‹_›⟩
    · cases e2
  | _ => cases e4

theorem OnlyFrees.readTag : OnlyFrees (readTag w a) := by
  intro st h u st' h' hr b
  obtain ⟨_, _, rfl, _⟩ := readTag_eq_ok hr
  exact .inr rfl

theorem OnlyFrees.fields (a : Addr) : (i : Nat) → (gs : List (Addr → P Unit)) → (∀ g ∈ gs, ∀ b, OnlyFrees (g b)) → OnlyFrees (pFreeFields a i gs)
  | _, [], _ => .free
  | i, g :: gs, h => .bind .readPtr fun v => .bind (h g (List.mem_cons_self ..) v) fun _ => OnlyFrees.fields a (i + 1) gs fun g' hg => h g' (List.mem_cons_of_mem _ hg)

theorem OnlyFrees.struct (gs : List (Addr → P Unit)) (h : ∀ g ∈ gs, ∀ b, OnlyFrees (g b)) (a : Addr) : OnlyFrees (pFreeStruct gs a) :=
  .ite _ .pure (.fields a 0 gs h)

theorem OnlyFrees.forEach {g : Addr → P Unit} (hg : ∀ a, OnlyFrees (g a)) (s : Addr) (i : Nat) : (n k : Nat) → OnlyFrees (pForEach g s i n k)
  | 0, _ => .pure
  | n + 1, k => .bind .readPtr fun _ => .bind .readPtr fun _ => .bind (hg _) fun _ => OnlyFrees.forEach hg s i n (k + 1)

theorem frees_number (a : Addr) : OnlyFrees (pNumberFree a) := .ite _ .free .pure
theorem frees_octet (a : Addr) : OnlyFrees (pOctetStringFree a) :=
  .ite _ (.bind .readPtr fun _ => .ite _ (.bind .readPtr fun _ => .bind .free fun _ => .free) .free) .pure
theorem frees_value (a : Addr) : OnlyFrees (pValueFree a) :=
  .ite _ (.bind .readInt fun _ => .bind .readPtr fun d => .ite _ (.bind (frees_octet d) fun _ => .free) (.ite _ (.bind (frees_number d) fun _ => .free) (.bind (frees_number d) fun _ => .free))) .pure

theorem OnlyFrees.nil : ∀ g ∈ ([] : List (Addr → P Unit)), ∀ b, OnlyFrees (g b) := fun _ h => nomatch h
theorem OnlyFrees.cons {f : Addr → P Unit} {gs : List (Addr → P Unit)} (hf : ∀ b, OnlyFrees (f b)) (hg : ∀ g ∈ gs, ∀ b, OnlyFrees (g b)) :
    ∀ g ∈ f :: gs, ∀ b, OnlyFrees (g b) := by
  intro g h
  rcases List.mem_cons.mp h with rfl | h
  · exact hf
  · exact hg g h

macro "frees_struct" : tactic => `(tactic| (
  refine OnlyFrees.struct _ ?_ _
  repeat (first | exact OnlyFrees.nil | refine OnlyFrees.cons (by first | exact frees_number | exact frees_octet | exact frees_value | assumption) ?_)))

theorem frees_status (a : Addr) : OnlyFrees (pStatusFree a) := by
  unfold pStatusFree
  frees_struct
theorem frees_time (a : Addr) : OnlyFrees (pTimeFree a) := by
  unfold pTimeFree
  frees_struct
theorem frees_period (a : Addr) : OnlyFrees (pPeriodEntryFree a) := by
  unfold pPeriodEntryFree
  frees_struct
theorem frees_tupel (a : Addr) : OnlyFrees (pTupelEntryFree a) := by
  have := frees_time
  unfold pTupelEntryFree
  frees_struct
theorem frees_ppv (a : Addr) : OnlyFrees (pProcParValueFree a) :=
  .ite _ (.bind .readPtr fun _ => .bind .readPtr fun d => .ite _
    (.bind .readTag fun _ => .bind (.ite _ (frees_value d) (.ite _ (frees_period d) (.ite _ (frees_tupel d) (.ite _ (frees_time d) (frees_number d)))))
      fun _ => .bind (frees_number _) fun _ => .free)
    (.bind (frees_number d) fun _ => .free)) .pure
theorem frees_tree : (n : Nat) → (a : Addr) → OnlyFrees (pTreeFreeAux n a)
  | 0, _ => .fault
  | n + 1, _ => .ite _ (.bind .readPtr fun _ => .bind (frees_octet _) fun _ => .bind .readPtr fun _ => .bind (frees_ppv _) fun _ =>
      .bind .readInt fun _ => .bind (.forEach (frees_tree n) _ _ _ _) fun _ => .bind .readPtr fun _ => .bind .free fun _ => .free) .pure

/-! ## Loops that free the elements of an array -/

/-- `pForEach`, where the number of elements is read again in each round, as the C source does; `c` is done in each round. -/
def pForEachR (c : P Unit) (g : Addr → P Unit) (s : Addr) (i : Nat) : (fuel : Nat) → (k : Nat) → P Unit
  | 0, _ => fault (.buf .fuel)
  | fuel + 1, k => readInt s 0 >>= fun n =>
    if k < n then (c >>= fun _ => readPtr s i >>= fun arr => readPtr arr k >>= g) >>= fun _ => pForEachR c g s i fuel (k + 1) else pure ()

theorem readInt_ok (hs : s ≠ 0) (hc : h.cells s = some (.struct ps is)) (hv : is[i]? = some v) : readInt s i st h = .ok v st h := by
  have e : deref s st h = .ok (.struct ps is) st h := by
    unfold deref
    rw [if_neg hs, hc]
  unfold readInt
  rw [P.bind_ok e]
  simp only [hv]
  rfl

theorem forEach_reread {g : Addr → P Unit} (hg : ∀ a, OnlyFrees (g a)) (hs : s ≠ 0)
    (hc : ∀ st h, h.cells s = some (.struct ps is) → c st h = .ok () st h) : (rounds k : Nat) → (st : St) → (h : Heap) →
    h.cells s = some (.struct ps is) → is[0]? = some (k + rounds) → pForEach g s i rounds k st h = .ok u st' h' → h'.cells s ≠ none →
    pForEachR c g s i (rounds + 1) k st h = .ok u st' h'
  | 0, k, st, h, h1, h2, hr, _ => by
    rw [pForEachR, P.bind_ok (readInt_ok hs h1 h2), if_neg (by omega)]
    exact hr
  | rounds + 1, k, st, h, h1, h2, hr, hn => by
    rw [pForEachR, P.bind_ok (readInt_ok hs h1 h2), if_pos (by omega)]
    rw [pForEach] at hr
    obtain ⟨arr, s1, h3, e1, hr⟩ := P_bind_eq_ok hr
    rename_i hr0
    obtain ⟨v, s2, h4, e2, hr⟩ := P_bind_eq_ok hr
    rename_i hr1
    obtain ⟨w, s3, h5, e3, hr⟩ := P_bind_eq_ok hr
    rename_i hr2
    have e1' := e1
    have e2' := e2
    obtain ⟨_, rfl, rfl, _⟩ := readPtr_eq_ok e1'
    obtain ⟨_, rfl, rfl, _⟩ := readPtr_eq_ok e2'
    have e : (c >>= fun _ => readPtr s i >>= fun arr => readPtr arr k >>= g) s2 h4 = .ok w s3 h5 := by
      rw [P.bind_ok (hc _ _ h1), P.bind_ok e1, P.bind_ok e2]
      exact e3
    rw [P.bind_ok e]
    rcases hg _ _ _ _ _ _ e3 s with h6 | h6
    · rcases OnlyFrees.forEach hg s i _ _ _ _ _ _ _ hr s with h7 | h7
      · exact absurd h7 hn
      · exact absurd (h7.trans h6) hn
    · exact forEach_reread hg hs hc rounds (k + 1) s3 h5 (h6.trans h1) (by rw [h2]; congr 1; omega) hr hn

/-- The model may be another that ends in the same way. -/
theorem Sem.of_run {p : P β} (hk : ∀ st h b st' h', Inv K st h → pre st → p st h = .ok b st' h' → ∃ p', p' st h = .ok b st' h' ∧ Sem K body ss env pre p' vl post) :
    Sem K body ss env pre p vl post := by
  intro st h hi hp b st' h' hr
  obtain ⟨p', e, hs⟩ := hk st h b st' h' hi hp hr
  exact hs st h hi hp b st' h' e

theorem upd_upd : upd (upd env x v) x w = upd env x w := by
  funext y
  unfold upd
  split <;> rfl

theorem Sem.forEachR {q : P β} {ce : Expr} {c : P Unit} {g : Addr → P Unit} {t : ITy} (ht : ITy.usual .i32 t = .i32) (h0 : env 0 = ptrVal s)
    (he : ∀ k, ESem K ce (upd env 1 (.int .i32 (k : Nat))) anySt (c >>= fun _ => readPtr s i >>= fun arr => readPtr arr k >>= g) (fun _ => .undef) anyRes)
    (hk : ∀ k, Sem K body ss (upd env 1 (.int .i32 (k : Nat))) anySt q vl post) : (fuel k : Nat) → k ≤ 2147483647 →
    Sem K body (.loop (.bin .lt (.var 1) (.ldInt t (.var 0) 0)) [.expr ce] [.set .i32 1 (.bin .add (.var 1) (.lit .i32 1))] :: ss)
      (upd env 1 (.int .i32 (k : Nat))) anySt (pForEachR c g s i fuel k >>= fun _ => q) vl post
  | 0, k, _ => by
    intro st h _ _ b st' h' hr
    obtain ⟨_, _, _, e, _⟩ := P_bind_eq_ok hr
    cases e
  | fuel + 1, k, hle => by
    refine Sem.loop rfl rfl ?_
    intro st h hi _ b st' h' hr
    rw [pForEachR, P_bind_assoc] at hr
    replace hr := P_bind_eq_ok hr
    obtain ⟨n, s1, h1, e1, hr⟩ := hr
    have e1' := e1
    obtain ⟨_, rfl, rfl, ps, is, hc, hv⟩ := readInt_eq_ok e1'
    have hn : n ≤ 2147483647 := hi.ints _ _ hc n (List.mem_of_getElem? hv)
    have ev : EvalTo (.bin .lt (.var 1) (.ldInt t (.var 0) 0)) (upd env 1 (.int .i32 (k : Nat))) (conc K s1 h1) (ofBool (decide ((k : Int) < n)))
        (upd env 1 (.int .i32 (k : Nat))) (conc K s1 h1) := by
      refine .bin (.int upd_same) (.ldInt (.ptr ((upd_other (by decide)).trans h0)) (loadInt_cell hi e1)) ?_
      exact bin_lt (ta := .i32) (tb := t) (by rw [ht]; exact conv_i32 (by omega) (by omega)) (by rw [ht]; exact conv_i32 (by omega) (by omega))
    by_cases hkn : k < n
    · rw [if_pos hkn, P_bind_assoc] at hr
      replace hr := P_bind_eq_ok hr
      obtain ⟨u, s2, h2, e2, hr⟩ := hr
      obtain ⟨i2, _, r2⟩ := (he k).ev hi trivial e2
      obtain ⟨i3, q3, r3⟩ := (Sem.forEachR (body := body) (ss := ss) ht h0 he hk fuel (k + 1) (by omega)).run i2 trivial hr
      refine ⟨i3, q3, RunTo.ite ev (truth_pos (by omega)) ?_⟩
      rw [if_pos rfl]
      refine RunTo.cons (.expr r2) (RunTo.cons (env1 := upd env 1 (.int .i32 (k + 1 : Nat))) ?_ r3)
      have eb : binOp .add (.int .i32 k) (.int .i32 1) (upd env 1 (.int .i32 (k : Nat))) (conc K s2 h2) =
          .ok (.int .i32 (k + 1 : Nat)) (upd env 1 (.int .i32 (k : Nat))) (conc K s2 h2) := by
        rw [bin_add (ta := .i32) (tb := .i32) (conv_i32 (by omega) (by omega)) (conv_i32 (by omega) (by omega))]
        exact arith_i32 (n := (k : Int) + 1) (by omega) (by omega)
      have := ExecTo.set (ty := .i32) (x := 1) (k' := (k + 1 : Nat)) (EvalTo.bin (a := .var 1) (b := .lit .i32 1) (.int upd_same) .lit eb)
        (conv_i32 (by omega) (by omega))
      rwa [upd_upd] at this
    · rw [if_neg hkn] at hr
      rw [P_pure_bind] at hr
      obtain ⟨i3, q3, r3⟩ := (hk k).run hi trivial hr
      refine ⟨i3, q3, RunTo.ite ev (truth_neg (by omega)) ?_⟩
      exact r3

/-! ## Tags -/

theorem leNat_leBytes : (w v : Nat) → v < 256 ^ w → leNat (leBytes w v) = v
  | 0, v, h => by
    have : v = 0 := by simp at h; exact h
    subst this
    rfl
  | w + 1, v, h => by
    rw [leBytes, leNat, leNat_leBytes w (v / 256) (by rw [Nat.pow_succ] at h; omega)]
    have : (UInt8.ofNat v).toNat = v % 256 := UInt8.toNat_ofNat'
    rw [this]
    omega

theorem leBytes_length : (w v : Nat) → (leBytes w v).length = w
  | 0, _ => rfl
  | w + 1, v => by rw [leBytes, List.length_cons, leBytes_length]

theorem load_tag {ty : ITy} (hi : Inv K st h) (ha : a ≠ 0) (hc : h.cells a = some (.num t)) (hs : t.size = ty.size) (hv : t.val < 256 ^ ty.size)
    (hc2 : ty.conv (t.val : Nat) = t.val) : loadNum ty (ptrVal a) env (conc K st h) = .ok (.int ty (t.val : Nat)) env (conc K st h) := by
  rw [loadNum, X_bind_ok (loadBytes_raw' (cs := leBytes ty.size t.val) (getBlock_cell hi ha hc) ?_ ?_), leNat_leBytes _ _ hv, hc2]
  · rfl
  · rw [List.length_map, hs, leBytes_length]
    omega
  · rw [List.drop_zero, hs, List.take_of_length_le]
    rw [List.length_map, leBytes_length]
    omega

theorem ESem.deref {ty : ITy} (hx : ESem K e env pre p ptrVal post) (hw : ty.size = w) (hc : ∀ v : Nat, v < 256 ^ w → ty.conv v = v) :
    ESem K (.deref ty e) env pre (p >>= fun a => readTag w a) (fun n => .int ty (n.val : Nat)) anyRes := by
  intro st h hi hp b st' h' hr
  obtain ⟨a, st1, h1, e1, e2⟩ := P_bind_eq_ok hr
  obtain ⟨i1, q1, r1⟩ := hx.ev hi hp e1
  obtain ⟨ha, rfl, rfl, hcell, hs, hv⟩ := readTag_eq_ok e2
  subst hw
  exact ⟨i1, trivial, EvalTo.deref r1 (load_tag i1 ha hcell hs hv (hc _ hv))⟩

theorem ESem.elem {p : P Addr} {k : Nat} (hx : ESem K e env pre p ptrVal post) (hk : env y = .int t k) :
    ESem K (.elem e (.var y)) env pre (p >>= fun a => readPtr a k) ptrVal anyRes := by
  intro st h hi hp b st' h' hr
  obtain ⟨a, st1, h1, e1, e2⟩ := P_bind_eq_ok hr
  obtain ⟨i1, q1, r1⟩ := hx.ev hi hp e1
  have e2' := e2
  obtain ⟨ha, rfl, rfl, _⟩ := readPtr_eq_ok e2'
  exact ⟨i1, trivial, EvalTo.elem r1 (.int hk) (loadPtr_cell i1 e2)⟩

/-- `if (x->m)`. -/
theorem Sem.iteLd {k : Addr → P β} (ha : env x = ptrVal a) (ht : ∀ v, v ≠ 0 → Sem K body (A ++ ss) env pre (k v) vl post)
    (hf : ∀ v, v = 0 → Sem K body (B ++ ss) env pre (k v) vl post) :
    Sem K body (.ite (.ldPtr (.var x) i) A B :: ss) env pre (readPtr a i >>= k) vl post := by
  refine Sem.ite (ESem.ldPtr ha) (fun _ => ptr_ne) ?_ ?_
  · intro v h
    exact ht v (by rintro rfl; simp [Val.isTrue] at h)
  · intro v h
    exact hf v (by simpa [Val.isTrue] using h)

/-- `free(x->m);` -/
theorem Sem.freeLd {k : P β} (ha : env x = ptrVal a) (hk : Sem K body ss env anySt k vl post) :
    Sem K body (.free (.ldPtr (.var x) i) :: ss) env pre (readPtr a i >>= fun v => Sml.free v >>= fun _ => k) vl post :=
  Sem.free (ESem.ldPtr ha) fun _ => hk

/-- `if (x->m) free(x->m);` -/
theorem Sem.iteFree {k : P β} (ha : env x = ptrVal a) (hk : Sem K body ss env anySt k vl post) :
    Sem K body (.ite (.ldPtr (.var x) i) [.free (.ldPtr (.var x) i)] [] :: ss) env anySt
      (readPtr a i >>= fun v => if v ≠ 0 then readPtr a i >>= fun v => Sml.free v >>= fun _ => k else k) vl post := by
  refine Sem.iteLd ha (fun v h => ?_) fun v h => ?_
  · rw [if_pos h]
    exact Sem.freeLd ha hk
  · rw [if_neg (by simp [h])]
    exact hk

theorem Sem.end_ {pre : St → Prop} : Sem K body [] env pre (pure () : P Unit) (fun _ => .undef) anyRes := Sem.done rfl fun _ _ => trivial

theorem Sem.freeEnd (ha : env x = ptrVal a) : Sem K body [.free (.var x)] env pre (Sml.free a) (fun _ => .undef) anyRes := by
  rw [← P_bind_unit (Sml.free a)]
  exact Sem.freeVar ha Sem.end_

theorem numberFree_src : FreeSpec .sml_number_free pNumberFree := by
  refine FreeSpec.of rfl rfl fun a K => ?_
  refine Sem.iteVar (a := a) rfl (fun h0 => ?_) (fun h0 => ?_)
  · unfold pNumberFree
    rw [if_pos h0]
    exact Sem.freeEnd (by rfl)
  · unfold pNumberFree
    rw [if_neg (by simp [h0])]
    exact Sem.end_

theorem booleanFree_src : FreeSpec .sml_boolean_free pNumberFree := by
  refine FreeSpec.of rfl rfl fun a K => ?_
  refine Sem.iteVar (a := a) rfl (fun h0 => ?_) (fun h0 => ?_)
  · unfold pNumberFree
    rw [if_pos h0]
    exact Sem.freeEnd (by rfl)
  · unfold pNumberFree
    rw [if_neg (by simp [h0])]
    exact Sem.end_

theorem FreeSpec.guard {A : List Stmt} {g q : Addr → P Unit} (hp : (program f).params = [none]) (hr : (program f).res = none)
    (hb : (program f).body = [.ite (.var 0) A []]) (hg : ∀ a, g a = if a ≠ 0 then q a else pure ())
    (h : ∀ (K : Ctx) a, a ≠ 0 → Sem K [.ite (.var 0) A []] A (envOf [ptrVal a]) anySt (q a) (fun _ => .undef) anyRes) : FreeSpec f g := by
  refine FreeSpec.of hp hr fun a K => ?_
  rw [hb, hg]
  refine Sem.iteVar (a := a) rfl (fun h0 => ?_) (fun h0 => ?_)
  · rw [if_pos h0, List.append_nil]
    exact h K a h0
  · rw [if_neg (by simp [h0])]
    exact Sem.end_

theorem octetStringFree_src : FreeSpec .sml_octet_string_free pOctetStringFree := by
  refine FreeSpec.guard rfl rfl rfl (fun _ => rfl) fun K a h0 => ?_
  exact Sem.iteFree (by rfl) (Sem.freeEnd (by rfl))

theorem pick_dflt (h : hasCase v cs = false) : pick v cs = pickFrom none cs := by
  rw [pick, h]
  rfl

theorem valueFree_src : FreeSpec .sml_value_free pValueFree := by
  refine FreeSpec.guard rfl rfl rfl (fun _ => rfl) fun K a h0 => ?_
  refine Sem.switch (ESem.ldInt (by rfl)) (fun _ => rfl) fun t => ?_
  by_cases h1 : t = 0
  · subst h1
    refine ⟨[.expr (.call .sml_octet_string_free [.ldPtr (.var 0) 0])], ⟨rfl, .inr ⟨_, rfl⟩⟩, ?_⟩
    exact Sem.freeField (a := a) (by rfl) octetStringFree_src (Sem.freeEnd (by rfl))
  by_cases h2 : t = 64
  · subst h2
    refine ⟨[.expr (.call .sml_boolean_free [.ldPtr (.var 0) 0])], ⟨rfl, .inr ⟨_, rfl⟩⟩, ?_⟩
    exact Sem.freeField (a := a) (by rfl) booleanFree_src (Sem.freeEnd (by rfl))
  refine ⟨[.expr (.call .sml_number_free [.ldPtr (.var 0) 0])], ⟨rfl, .inr ⟨_, pick_dflt ?_⟩⟩, ?_⟩
  · simp only [hasCase, Bool.or_eq_false_iff, decide_eq_false_iff_not, and_true]
    omega
  · simp only [tyOctet, tyBoolean, h1, h2, if_false]
    exact Sem.freeField (a := a) (by rfl) numberFree_src (Sem.freeEnd (by rfl))

theorem statusFree_src : FreeSpec .sml_status_free pStatusFree :=
  FreeSpec.struct (fs := [.sml_number_free]) rfl rfl rfl ⟨numberFree_src, trivial⟩

theorem timeFree_src : FreeSpec .sml_time_free pTimeFree :=
  FreeSpec.struct (fs := [.sml_number_free, .sml_number_free]) rfl rfl rfl ⟨numberFree_src, numberFree_src, trivial⟩

theorem periodEntryFree_src : FreeSpec .sml_period_entry_free pPeriodEntryFree :=
  FreeSpec.wrap (f := .sml_period_entry_free_tree) rfl rfl rfl <|
    FreeSpec.struct' (fs := [.sml_octet_string_free, .sml_number_free, .sml_number_free, .sml_value_free, .sml_octet_string_free]) rfl rfl rfl
      ⟨octetStringFree_src, numberFree_src, numberFree_src, valueFree_src, octetStringFree_src, trivial⟩

theorem tupelEntryFree_src : FreeSpec .sml_tupel_entry_free pTupelEntryFree :=
  FreeSpec.struct (fs := [.sml_octet_string_free, .sml_time_free, .sml_number_free, .sml_number_free, .sml_number_free, .sml_number_free, .sml_number_free,
      .sml_number_free, .sml_number_free, .sml_number_free, .sml_number_free, .sml_number_free, .sml_octet_string_free, .sml_number_free, .sml_number_free,
      .sml_number_free, .sml_number_free, .sml_number_free, .sml_number_free, .sml_number_free, .sml_number_free, .sml_number_free, .sml_octet_string_free]) rfl rfl rfl
    ⟨octetStringFree_src, timeFree_src, numberFree_src, numberFree_src, numberFree_src, numberFree_src, numberFree_src, numberFree_src, numberFree_src, numberFree_src,
      numberFree_src, numberFree_src, octetStringFree_src, numberFree_src, numberFree_src, numberFree_src, numberFree_src, numberFree_src, numberFree_src, numberFree_src,
      numberFree_src, numberFree_src, octetStringFree_src, trivial⟩

theorem listEntryFree_src : FreeSpec .sml_list_entry_free pListEntryFree :=
  FreeSpec.struct (fs := [.sml_octet_string_free, .sml_status_free, .sml_time_free, .sml_number_free, .sml_number_free, .sml_value_free, .sml_octet_string_free]) rfl rfl rfl
    ⟨octetStringFree_src, statusFree_src, timeFree_src, numberFree_src, numberFree_src, valueFree_src, octetStringFree_src, trivial⟩

theorem frees_listEntry (a : Addr) : OnlyFrees (pListEntryFree a) := by
  have := frees_time
  have := frees_status
  unfold pListEntryFree
  frees_struct

/-! ## Arrays -/

theorem free_present (h0 : a ≠ 0) (hr : Sml.free a st h = .ok b st' h') : h.cells a ≠ none := by
  intro hc
  unfold Sml.free at hr
  rw [if_neg h0, hc] at hr
  cases hr

theorem readPtr_present (hr : readPtr a i st h = .ok b st' h') : h.cells a ≠ none := by
  obtain ⟨_, _, _, ps, is, hc, _⟩ := readPtr_eq_ok hr
  intro hn
  rw [hc] at hn
  cases hn

theorem reread {q : P α} (hq : OnlyFrees q) (he : q st h = .ok u st1 h1) (hr : readPtr a i st h = .ok v st h) (hn : h1.cells a ≠ none) :
    readPtr a i st1 h1 = .ok v st1 h1 := by
  rcases hq _ _ _ _ _ he a with h2 | h2
  · exact absurd h2 hn
  obtain ⟨h0, _, _, ps, is, hc, hv⟩ := readPtr_eq_ok hr
  have e : deref a st1 h1 = .ok (.struct ps is) st1 h1 := by
    unfold Sml.deref
    rw [if_neg h0, h2, hc]
  unfold readPtr
  rw [P.bind_ok e]
  simp only [hv]
  rfl

theorem readInt_again {q : P α} (hq : OnlyFrees q) (he : q st h = .ok u st1 h1) (hr : readInt a i st h = .ok v st h) (hn : h1.cells a ≠ none) :
    readInt a i st1 h1 = .ok v st1 h1 := by
  rcases hq _ _ _ _ _ he a with h2 | h2
  · exact absurd h2 hn
  obtain ⟨h0, _, _, ps, is, hc, hv⟩ := readInt_eq_ok hr
  exact readInt_ok h0 (h2.trans hc) hv

/-- `for (i = 0; i < s->len; i++) f(s->arr[i]);` -/
theorem Sem.forEach {q : P β} {g : Addr → P Unit} {t : ITy} (ht : ITy.usual .i32 t = .i32) (h0 : env 0 = ptrVal s) (hf : FreeSpec f g) (hg : ∀ a, OnlyFrees (g a))
    (hq : ∀ st h b st' h', q st h = .ok b st' h' → h.cells s ≠ none)
    (hk : ∀ k, Sem K body ss (upd env 1 (.int .i32 (k : Nat))) anySt q vl post) :
    Sem K body (.set .i32 1 (.lit .i32 0) :: .loop (.bin .lt (.var 1) (.ldInt t (.var 0) 0)) [.expr (.call f [.elem (.ldPtr (.var 0) i) (.var 1)])]
      [.set .i32 1 (.bin .add (.var 1) (.lit .i32 1))] :: ss) env anySt (readInt s 0 >>= fun n => pForEach g s i n 0 >>= fun _ => q) vl post := by
  refine Sem.of_run fun st h b st' h' hi _ hr => ?_
  replace hr := P_bind_eq_ok hr
  obtain ⟨n, s1, h1, e1, hr⟩ := hr
  replace hr := P_bind_eq_ok hr
  obtain ⟨u, s2, h2, e2, hr⟩ := hr
  obtain ⟨hs, rfl, rfl, ps, is, hc, hv⟩ := readInt_eq_ok e1
  refine ⟨pForEachR (pure ()) g s i (n + 1) 0 >>= fun _ => q, ?_, ?_⟩
  · rw [P.bind_ok (forEach_reread hg hs (c := pure ()) (fun _ _ _ => rfl) n 0 _ _ hc (by rw [hv, Nat.zero_add]) e2 (hq _ _ _ _ _ hr))]
    exact hr
  · refine Sem.skip (env' := upd env 1 (.int .i32 (0 : Nat))) (fun _ _ _ _ _ => rfl) ?_
    refine Sem.forEachR ht h0 (fun k => ?_) hk _ _ (by omega)
    have : (pure () >>= fun _ => readPtr s i >>= fun arr => readPtr arr k >>= g : P Unit) = ((readPtr s i >>= fun arr => readPtr arr k) >>= g) := by
      rw [P_pure_bind, P_bind_assoc]
    rw [this]
    exact ESem.callArg (as := fun _ => []) (ESem.elem (ESem.ldPtr (K := K) (pre := anySt) ((upd_other (by decide)).trans h0)) upd_same) (fun _ _ => by rw [evals]; rfl) fun b => (hf b)

theorem truth_ptr (h : v ≠ 0) : truth (ptrVal v) env m = .ok true env m := by
  rw [truth_ok ptr_ne]
  congr 1
  simpa [Val.isTrue] using h

theorem treePathFree_src : FreeSpec .sml_tree_path_free pTreePathFree := by
  refine FreeSpec.guard rfl rfl rfl (fun _ => rfl) fun K a h0 => ?_
  intro st h hi _ b st' h' hr
  replace hr := P_bind_eq_ok hr
  obtain ⟨v, s1, h1, e1, hr⟩ := hr
  replace hr := P_bind_eq_ok hr
  obtain ⟨n, s2, h2, e2, hr⟩ := hr
  have e1' := e1
  obtain ⟨_, rfl, rfl, _⟩ := readPtr_eq_ok e1'
  have e2' := e2
  obtain ⟨_, rfl, rfl, ps, is, hc, hv⟩ := readInt_eq_ok e2'
  have hn : n ≤ 2147483647 := hi.ints _ _ hc n (List.mem_of_getElem? hv)
  have ev1 : EvalTo (.ldPtr (.var 0) 0) (envOf [ptrVal a]) (conc K s2 h2) (ptrVal v) (envOf [ptrVal a]) (conc K s2 h2) := .ldPtr (.ptr (by rfl)) (loadPtr_cell hi e1)
  have ev2 : EvalTo (.bin .gt (.ldInt .i32 (.var 0) 0) (.lit .i32 0)) (envOf [ptrVal a]) (conc K s2 h2) (ofBool (decide ((n : Int) > 0))) (envOf [ptrVal a]) (conc K s2 h2) :=
    .bin (.ldInt (.ptr (by rfl)) (loadInt_cell hi e2)) .lit (bin_gt (ta := .i32) (tb := .i32) (conv_i32 (by omega) (by omega)) (conv_i32 (by omega) (by omega)))
  by_cases hv0 : v = 0
  · rw [if_neg (by simp [hv0])] at hr
    obtain ⟨i3, q3, r3⟩ := (Sem.freeEnd (K := K) (body := _) (env := envOf [ptrVal a]) (x := 0) (pre := anySt) (by rfl)).run hi trivial hr
    refine ⟨i3, q3, RunTo.ite (.and_f ev1 (by subst hv0; rfl)) (truth_f rfl) r3⟩
  by_cases hn0 : n > 0
  · rw [if_pos ⟨hv0, hn0⟩] at hr
    have := (Sem.forEach (K := K) (i := 0) (s := a) (t := .i32) (ss := [.free (.ldPtr (.var 0) 0), .free (.var 0)]) (body := (program .sml_tree_path_free).body) (env := envOf [ptrVal a])
      (vl := fun _ => .undef) (post := anyRes) (q := readPtr a 0 >>= fun v => Sml.free v >>= fun _ => Sml.free a) rfl (by rfl) octetStringFree_src frees_octet (fun st h b st' h' hr => by
        obtain ⟨v, s, h1, e, _⟩ := P_bind_eq_ok hr
        exact readPtr_present e) (fun k => Sem.freeLd (by rfl) (Sem.freeEnd (by rfl))))
    obtain ⟨i3, q3, r3⟩ := this.run hi trivial hr
    exact ⟨i3, q3, RunTo.ite (.and_t ev1 (truth_ptr hv0) ev2 (truth_pos (by omega))) (truth_t rfl) r3⟩
  · rw [if_neg (by simp [hn0])] at hr
    obtain ⟨i3, q3, r3⟩ := (Sem.freeEnd (K := K) (body := _) (env := envOf [ptrVal a]) (x := 0) (pre := anySt) (by rfl)).run hi trivial hr
    refine ⟨i3, q3, RunTo.ite (.and_t ev1 (truth_ptr hv0) ev2 (truth_neg (by omega))) (truth_f rfl) r3⟩

end Sml.C
