import Verif.Proofs.SourceTime

/-!
# Growing arrays of pointers from their source
-/

namespace Sml.C

/-- The memory of the heap `h`, where the block `b` is something else. -/
def over (K : Ctx) (st : St) (h : Heap) (b : Addr) (blk : Block) : Mem :=
  { conc K st h with heap := setHeap (conc K st h).heap b (some blk) }

theorem conc_heap (hi : Inv K st h) (hc : h.cells s = some c) : (conc K st h).heap s = some (enc c) := by
  have h1 : s ≠ K.B := hi.ne hc |>.1
  have h2 : s ≠ K.A := hi.ne hc |>.2
  simp only [conc, memOf, Ctx.blocks, h1, h2, if_false, hc]

theorem over_get (hi : Inv K st h) (h0 : s ≠ 0) (hs : s ≠ b) (hc : h.cells s = some c) :
    getBlock (.heap s) env (over K st h b blk) = .ok (enc c) env (over K st h b blk) :=
  getBlock_heap h0 ((if_neg hs).trans (conc_heap hi hc))

theorem over_get_self (h0 : b ≠ 0) : getBlock (.heap b) env (over K st h b blk) = .ok blk env (over K st h b blk) :=
  getBlock_heap h0 (if_pos rfl)

/-- The block is made what it is in the heap. -/
theorem over_fill (h1 : b ≠ K.B) (h2 : b ≠ K.A) :
    setBlock (.heap b) (enc c) env (over K st h b blk) = .ok () env (conc K st { h with cells := setCell h.cells b (some c) }) := by
  rw [setBlock_heap, ← conc_set h1 h2]
  simp only [over]
  congr 2
  funext a
  simp only [setHeap]
  split <;> rfl

/-- Another block is changed. -/
theorem over_set (h1 : s ≠ K.B) (h2 : s ≠ K.A) (hs : s ≠ b) :
    setBlock (.heap s) (enc c) env (over K st h b blk) = .ok () env (over K st { h with cells := setCell h.cells s (some c) } b blk) := by
  rw [setBlock_heap]
  simp only [over, ← conc_set h1 h2]
  congr 2
  funext a
  simp only [setHeap]
  by_cases ha : a = s
  · subst ha
    simp [hs]
  · simp [ha]

/-! ## `realloc` -/

theorem reallocArray_eq_ok (hr : reallocArray a n st h = .ok b st' h') :
    st' = st ∧ b = h.next ∧ ∃ qs : List Addr, n ≤ qs.length + 1 ∧
      ((a = 0 ∧ qs = [] ∧ h' = grown h (.struct ((qs ++ List.replicate n 0).take n) [])) ∨
       (a ≠ 0 ∧ h.cells a = some (.struct qs []) ∧
        h' = { next := h.next + 1, cells := setCell (grown h (.struct ((qs ++ List.replicate n 0).take n) [])).cells a none })) := by
  unfold reallocArray at hr
  by_cases ha : a = 0
  · rw [if_pos ha] at hr
    by_cases hn : 1 < n
    · rw [if_pos hn] at hr
      cases hr
    · rw [if_neg hn] at hr
      cases hr
      refine ⟨rfl, rfl, [], by simp; omega, .inl ⟨ha, rfl, ?_⟩⟩
      simp only [List.nil_append, List.take_replicate, Nat.min_self]
      rfl
  · rw [if_neg ha] at hr
    replace hr := P_bind_eq_ok hr
    obtain ⟨c, s1, h1, e, hr⟩ := hr
    unfold reallocSource at e
    split at e
    · rename_i hc
      cases e
      split at hr
      · rename_i qs
        by_cases hn : qs.length + 1 < n
        · rw [if_pos hn] at hr
          cases hr
        · rw [if_neg hn] at hr
          replace hr := P_bind_eq_ok hr
          obtain ⟨b1, s2, h2, e, hr⟩ := hr
          cases e
          replace hr := P_bind_eq_ok hr
          obtain ⟨b1, s3, h3, e, hr⟩ := hr
          cases hr
          unfold free at e
          rw [if_neg ha] at e
          split at e
          · cases e
            exact ⟨rfl, rfl, qs, by omega, .inr ⟨ha, hc, rfl⟩⟩
          · cases e
      · cases hr
    · cases e

theorem realloc_src (hi : Inv K st h) (hr : reallocArray a n st h = .ok b st' h') (hne : a ≠ h.next) (hk : k = 8 * n) :
    ∃ qs : List Addr, n ≤ qs.length + 1 ∧ Inv K st h' ∧ (n ≠ 0 → h'.cells b = some (.struct ((qs ++ List.replicate n 0).take n) [])) ∧
      (∀ s, s ≠ b → s ≠ a → h'.cells s = h.cells s) ∧
      reallocBlock (ptrVal a) k env (conc K st h) =
        .ok (ptrVal b) env (over K st h' b (.obj ((qs.map ptrVal ++ List.replicate n Val.undef).take n) [])) := by
  obtain ⟨rfl, rfl, qs, hn, hcase⟩ := reallocArray_eq_ok hr
  have hk8 : k / 8 = n := by omega
  have ig : Inv K st' (grown h (.struct ((qs ++ List.replicate n 0).take n) [])) := hi.grown (fun m hm => by cases hm)
  refine ⟨qs, hn, ?_⟩
  rcases hcase with ⟨rfl, rfl, rfl⟩ | ⟨ha, hc, rfl⟩
  · refine ⟨ig, fun _ => grown_cell, fun s h1 _ => if_neg h1, ?_⟩
    rw [reallocBlock, asPtr, X_bind, X_pure]
    simp only [if_true, hk8]
    simp only [newHeap, over]
    rw [← conc_grown hi]
    simp only [List.map_nil, List.nil_append, List.take_replicate, Nat.min_self]
    congr 2
    funext x
    have hn2 : (conc K st' h).next = h.next := rfl
    simp only [setHeap, hn2]
    split <;> rfl
  · have hcg : (grown h (.struct ((qs ++ List.replicate n 0).take n) [])).cells a = some (.struct qs []) := (if_neg hne).trans hc
    refine ⟨ig.set hcg none (fun _ e => by cases e), fun _ => ?_, fun s h1 h2 => ?_, ?_⟩
    · exact (if_neg (Ne.symm hne)).trans grown_cell
    · exact (if_neg h2).trans (if_neg h1)
    · rw [reallocBlock, asPtr, X_bind, X_pure]
      simp only [if_neg ha, hk8]
      have hm : movedElems a 0 env (conc K st' h) = .ok (qs.map ptrVal) env (conc K st' h) := by
        rw [movedElems, conc_heap hi hc]
        simp only [enc, List.map_nil, if_true]
      rw [X_bind_ok hm]
      refine (X_bind_ok rfl).trans ?_
      refine (X_bind_ok (a := ()) (env' := env) (m' := over K st' { next := h.next + 1, cells := setCell (grown h (.struct ((qs ++ List.replicate n 0).take n) [])).cells a none } h.next
        (.obj ((qs.map ptrVal ++ List.replicate n Val.undef).take n) [])) ?_).trans rfl
      have hn2 : (conc K st' h).next = h.next := rfl
      rw [release]
      simp only [hn2, setHeap, if_neg hne, conc_heap hi hc, if_true, over]
      obtain ⟨x1, x2⟩ := hi.ne hc
      rw [← conc_unset (K := K) (st := st') (h := grown h (.struct (List.take n (qs ++ List.replicate n 0)) [])) x1 x2 (hi.own hc), ← conc_grown hi]
      simp only
      congr 2
      funext x
      simp only [setHeap]
      by_cases hx : x = h.next
      · subst hx
        simp [Ne.symm hne]
      · simp [hx]

theorem take_set {qs : List Addr} {n : Nat} (h : n + 1 ≤ qs.length + 1) (e : Addr) :
    (((qs.map ptrVal ++ List.replicate (n + 1) Val.undef).take (n + 1)).set n (ptrVal e)) =
      (((qs ++ List.replicate (n + 1) 0).take (n + 1)).set n e).map ptrVal := by
  rw [List.map_set]
  by_cases hn : n + 1 ≤ qs.length
  · rw [List.take_append_of_le_length (by simp; omega), List.take_append_of_le_length (by omega), List.map_take]
  · have hq : n = qs.length := by omega
    subst hq
    apply List.ext_getElem
    · simp
    · intro i h1 h2
      rw [List.getElem_set, List.getElem_set]
      split
      · rfl
      · rename_i hne
        simp at h1
        simp only [List.getElem_take, List.getElem_map]
        rw [List.getElem_append_left (by simp; omega), List.getElem_append_left (by omega), List.getElem_map]

/-! ## The functions that add an element -/

/-- The body of the adding functions. -/
def adder (t : ITy) (i : Nat) : List Stmt :=
  [.stInt t (.var 0) 0 (.bin .add (.ldInt t (.var 0) 0) (.lit .i32 1)),
   .stPtr (.var 0) i (.realloc (.ldPtr (.var 0) i) (.bin .mul (.lit .u64 8) (.ldInt t (.var 0) 0))),
   .stElem (.ldPtr (.var 0) i) (.bin .sub (.ldInt t (.var 0) 0) (.lit .i32 1)) (.var 1)]

theorem adder_arith {t : ITy} (ht : t = .i32 ∨ t = .i16) {n : Nat} (hn : n < 2147483648) :
    ITy.usual t .i32 = .i32 ∧ ITy.usual .u64 t = .u64 ∧ ITy.conv .i32 (n : Int) = n := by
  rcases ht with rfl | rfl <;> exact ⟨rfl, rfl, conv_i32 (by omega) (by omega)⟩

theorem bin_incr {t : ITy} (ht : t = .i32 ∨ t = .i16) {n : Nat} (hn : n < 2147483647) :
    binOp .add (.int t (n : Int)) (.int .i32 1) env m = .ok (.int .i32 ((n + 1 : Nat) : Int)) env m := by
  obtain ⟨u1, _, c1⟩ := adder_arith ht (n := n) (by omega)
  rw [binOp]
  simp only [intOp, u1, c1]
  rw [conv_i32 (n := 1) (by omega) (by omega)]
  rw [arith_i32 (by omega) (by omega)]
  simp

theorem bin_decr {t : ITy} (ht : t = .i32 ∨ t = .i16) {n : Nat} (hn : n + 1 < 2147483648) :
    binOp .sub (.int t ((n + 1 : Nat) : Int)) (.int .i32 1) env m = .ok (.int .i32 (n : Int)) env m := by
  obtain ⟨u1, _, c1⟩ := adder_arith ht (n := n + 1) (by omega)
  rw [binOp]
  simp only [intOp, u1, c1]
  rw [conv_i32 (n := 1) (by omega) (by omega)]
  rw [arith_i32 (by omega) (by omega), show ((n + 1 : Nat) : Int) - 1 = n by omega]

theorem bin_times8 {t : ITy} (ht : t = .i32 ∨ t = .i16) {n : Nat} (hn : n < 2147483648) :
    binOp .mul (.int .u64 8) (.int t (n : Int)) env m = .ok (.int .u64 ((8 * n : Nat) : Int)) env m := by
  obtain ⟨_, u1, _⟩ := adder_arith ht (n := n) (by omega)
  rw [binOp]
  simp only [intOp, u1]
  rw [conv_u64 (n := (n : Int)) (by omega) (by omega), conv_u64 (n := 8) (by omega) (by omega)]
  rw [arith]
  simp only [ITy.signed, Bool.false_and]
  refine (X_bind_ok (note_false env m)).trans ?_
  rw [conv_u64 (by omega) (by omega)]
  simp [X_pure]

/-- The last two statements, when the counter is increased already. -/
theorem adder_tail {t : ITy} (ht : t = .i32 ∨ t = .i16) (hi : Inv K st h) (hc : h.cells s = some (.struct ps is)) (hlen : is[0]? = some (len + 1)) (hl : len + 1 < 2147483648)
    (hr : (readPtr s i >>= fun a => reallocArray a (len + 1) >>= fun b => writePtr s i b >>= fun _ => readPtr s i >>= fun q => readInt s 0 >>= fun n => writePtr q (n - 1) e) st h = .ok u st' h')
    (h0 : env 0 = ptrVal s) (h1 : env 1 = ptrVal e) :
    Inv K st' h' ∧ st' = st ∧
    ExecsTo [.stPtr (.var 0) i (.realloc (.ldPtr (.var 0) i) (.bin .mul (.lit .u64 8) (.ldInt t (.var 0) 0))),
      .stElem (.ldPtr (.var 0) i) (.bin .sub (.ldInt t (.var 0) 0) (.lit .i32 1)) (.var 1)] env (conc K st h) .next env (conc K st' h') := by
  replace hr := P_bind_eq_ok hr
  obtain ⟨arr, s1, g1, e1, hr⟩ := hr
  have l1 := loadPtr_cell (env := env) hi e1
  obtain ⟨hs0, rfl, rfl, ps1, is1, hc1, harr⟩ := readPtr_eq_ok e1
  obtain ⟨rfl, rfl⟩ : ps1 = ps ∧ is1 = is := by
    have := hc1.symm.trans hc
    cases this
    exact ⟨rfl, rfl⟩
  replace hr := P_bind_eq_ok hr
  obtain ⟨b, s2, g2, e2, hr⟩ := hr
  replace hr := P_bind_eq_ok hr
  obtain ⟨_, s3, g3, e3, hr⟩ := hr
  replace hr := P_bind_eq_ok hr
  obtain ⟨q, s4, g4, e4, hr⟩ := hr
  replace hr := P_bind_eq_ok hr
  obtain ⟨n, s5, g5, e5, hr⟩ := hr
  obtain ⟨rfl, hb, qs0, hq0, hcase⟩ := reallocArray_eq_ok e2
  obtain ⟨_, rfl, ps3, is3, hc3, hv3, rfl⟩ := writePtr_eq_ok e3
  obtain ⟨_, rfl, rfl, ps4, is4, hc4, hq⟩ := readPtr_eq_ok e4
  obtain ⟨_, rfl, rfl, ps5, is5, hc5, hn⟩ := readInt_eq_ok e5
  obtain ⟨hq0', rfl, ps6, is6, hc6, hv6, rfl⟩ := writePtr_eq_ok hr
  have eq4 : ps4 = ps3.set i b ∧ is4 = is3 := by
    have := hc4.symm.trans (if_pos rfl)
    cases this
    exact ⟨rfl, rfl⟩
  obtain ⟨rfl, rfl⟩ := eq4
  have hqb : q = b := by
    rw [List.getElem?_set_self hv3] at hq
    cases hq
    rfl
  subst hqb
  have hia : 0 < is4.length := by
    have : is5 = is4 := by
      have := hc5.symm.trans (if_pos rfl)
      cases this
      rfl
    rw [← this]
    exact (List.getElem?_eq_some_iff.mp hn).1
  have hna : arr ≠ q := by
    intro ha
    rcases hcase with ⟨rfl, _, _⟩ | ⟨_, _, rfl⟩
    · exact hq0' ha.symm
    · subst ha
      by_cases hsq : s = arr
      · subst hsq
        have := (if_pos rfl).symm.trans hc3
        cases this
      · have := ((if_neg (Ne.symm hsq)).trans (if_pos rfl)).symm.trans hc6
        cases this
  have hsa : s ≠ arr := by
    intro ha
    rcases hcase with ⟨rfl, _, _⟩ | ⟨_, _, rfl⟩
    · exact hs0 ha
    · subst ha
      have := (if_pos rfl).symm.trans hc3
      cases this
  obtain ⟨qs, hqs, i2, hcb, hfr, hre⟩ := realloc_src (env := env) (k := 8 * (len + 1)) hi e2 (hb ▸ hna) rfl
  replace hcb := hcb (by omega)
  have hsq : s ≠ q := by
    intro hs
    subst hs
    have := hcb.symm.trans hc3
    cases this
    cases hia
  have heq : ps3 = ps1 ∧ is4 = is1 := by
    have := (hfr s hsq hsa).symm.trans hc3
    have := this.symm.trans hc1
    cases this
    exact ⟨rfl, rfl⟩
  obtain ⟨rfl, rfl⟩ := heq
  have heq : n = len + 1 := by
    have h5 : ps5 = ps3.set i q ∧ is5 = is4 := by
      have := hc5.symm.trans (if_pos rfl)
      cases this
      exact ⟨rfl, rfl⟩
    rw [h5.2, hlen] at hn
    cases hn
    rfl
  subst heq
  have heq : ps6 = (qs ++ List.replicate (len + 1) 0).take (len + 1) ∧ is6 = [] := by
    have := hc6.symm.trans ((if_neg (Ne.symm hsq)).trans hcb)
    cases this
    exact ⟨rfl, rfl⟩
  obtain ⟨rfl, rfl⟩ := heq
  obtain ⟨b1, b2⟩ := i2.ne hcb
  obtain ⟨c1, c2⟩ := i2.ne hc3
  have i3 := i2.setPs hc3 (ps3.set i q)
  refine ⟨i3.set hc6 _ (fun _ e => by cases e; intro k hk; cases hk), rfl, ?_⟩
  have ld : ∀ {blk}, loadInt (ptrVal s) 0 env (over K st' { g2 with cells := setCell g2.cells s (some (.struct (ps3.set i q) is4)) } q blk) =
      .ok ((len + 1 : Nat) : Int) env (over K st' { g2 with cells := setCell g2.cells s (some (.struct (ps3.set i q) is4)) } q blk) := by
    intro blk
    rw [loadInt, asPtr, X_bind, X_pure]
    simp only
    rw [X_bind_ok (over_get i3 hs0 hsq (if_pos rfl))]
    simp only [enc, List.getElem?_map, hlen, Option.map_some, X_pure, if_true]
    rfl
  have lp : ∀ {blk}, loadPtr (ptrVal s) i env (over K st' { g2 with cells := setCell g2.cells s (some (.struct (ps3.set i q) is4)) } q blk) =
      .ok (ptrVal q) env (over K st' { g2 with cells := setCell g2.cells s (some (.struct (ps3.set i q) is4)) } q blk) := by
    intro blk
    rw [loadPtr, asPtr, X_bind, X_pure]
    simp only
    rw [X_bind_ok (over_get i3 hs0 hsq (if_pos rfl))]
    simp only [enc, Nat.zero_add, List.getElem?_map, hq, Option.map_some, X_pure]
  have li : loadInt (ptrVal s) 0 env (conc K st' g1) = .ok ((len + 1 : Nat) : Int) env (conc K st' g1) := by
    rw [loadInt, asPtr, X_bind, X_pure]
    simp only
    rw [X_bind_ok (getBlock_cell hi hs0 hc1)]
    simp only [enc, List.getElem?_map, hlen, Option.map_some, X_pure, if_true]
    rfl
  refine .cons (env1 := env) (.stPtr (.realloc (.ldPtr (.ptr h0) l1) (.bin .lit (.ldInt (.ptr h0) li) (bin_times8 ht hl)) hre) (.ptr h0)
    (m' := over K st' { g2 with cells := setCell g2.cells s (some (.struct (ps3.set i q) is4)) } q
      (.obj ((qs.map ptrVal ++ List.replicate (len + 1) Val.undef).take (len + 1)) [])) ?_) (.last ?_)
  · rw [storePtr, asPtr, X_bind, X_pure]
    simp only
    rw [X_bind_ok (over_get i2 hs0 hsq hc3)]
    simp only [enc, Nat.zero_add, List.length_map, hv3, if_true]
    rw [← over_set c1 c2 hsq]
    simp only [enc, List.map_set]
  · refine .stElem (k := len) (.ptr h1) (.ldPtr (.ptr h0) lp) (.bin (.ldInt (.ptr h0) ld) .lit (bin_decr ht hl)) ?_
    rw [storePtr, asPtr, X_bind, X_pure]
    simp only
    rw [X_bind_ok (over_get_self hq0')]
    have hlen2 : len < ((qs.map ptrVal ++ List.replicate (len + 1) Val.undef).take (len + 1)).length := by simp
    simp only [Nat.zero_add, hlen2, if_true]
    rw [take_set hqs]
    exact over_fill (c := .struct (((qs ++ List.replicate (len + 1) 0).take (len + 1)).set len e) []) b1 b2

theorem adder_run {t : ITy} (ht : t = .i32 ∨ t = .i16) (hi : Inv K st h) (hr : pArrayAdd s i e st h = .ok u st' h')
    (hmax : ∀ len s1 h1, readInt s 0 st h = .ok len s1 h1 → t.conv ((len + 1 : Nat) : Int) = ((len + 1 : Nat) : Int))
    (h0 : env 0 = ptrVal s) (h1 : env 1 = ptrVal e) :
    Inv K st' h' ∧ st' = st ∧ ExecsTo (adder t i) env (conc K st h) .next env (conc K st' h') := by
  unfold pArrayAdd at hr
  replace hr := P_bind_eq_ok hr
  obtain ⟨len, s1, g1, e1, hr⟩ := hr
  have hconv := hmax _ _ _ e1
  have l1 := loadInt_cell (env := env) hi e1
  obtain ⟨hs0, rfl, rfl, ps, is, hc, hlen⟩ := readInt_eq_ok e1
  by_cases hm : len ≥ 2147483647
  · rw [if_pos hm] at hr
    cases hr
  rw [if_neg hm] at hr
  replace hr := P_bind_eq_ok hr
  obtain ⟨_, s2, g2, e2, hr⟩ := hr
  have t1 := storeInt_cell (env := env) hi e2
  obtain ⟨_, rfl, ps', is', hc', _, rfl⟩ := writeInt_eq_ok e2
  obtain ⟨rfl, rfl⟩ : ps' = ps ∧ is' = is := by
    have := hc'.symm.trans hc
    cases this
    exact ⟨rfl, rfl⟩
  have i2 := Inv.setIs hi hc 0 (len + 1) (by omega)
  have hlt0 : 0 < is'.length := (List.getElem?_eq_some_iff.mp hlen).1
  obtain ⟨i3, rfl, r3⟩ := adder_tail ht i2 (if_pos rfl) (List.getElem?_set_self hlt0) (by omega) hr h0 h1
  refine ⟨i3, rfl, .cons ?_ r3⟩
  exact .stInt (.bin (.ldInt (.ptr h0) l1) .lit (bin_incr ht (by omega))) (.ptr h0) hconv t1

/-- A function that adds an element. -/
abbrev AddSpec (f : Fn) (p : Addr → Addr → P Unit) : Prop := ∀ s e, FSpec f (fun _ => [ptrVal s, ptrVal e]) anySt (p s e) (fun _ => .undef) anyRes

theorem AddSpec.of {t : ITy} (ht : t = .i32 ∨ t = .i16) {p : Addr → Addr → P Unit} (hp : (program f).params = [none, none]) (hr : (program f).res = none)
    (hb : (program f).body = adder t i)
    (hm : ∀ {s e st h u st' h'}, p s e st h = .ok u st' h' → pArrayAdd s i e st h = .ok u st' h' ∧
      ∀ len s1 h1, readInt s 0 st h = .ok len s1 h1 → t.conv ((len + 1 : Nat) : Int) = ((len + 1 : Nat) : Int)) : AddSpec f p := by
  intro s e
  refine FSpec.of_body (vs := fun _ => [ptrVal s, ptrVal e]) (vb := fun _ => .undef) (fun K env m => by rw [hp]; rfl) (fun K => ?_) (fun b st env m _ => by rw [hr]; rfl)
  intro st h hi _ b st' h' hr
  obtain ⟨hr', hmax⟩ := hm hr
  obtain ⟨i1, rfl, r1⟩ := adder_run (env := envOf [ptrVal s, ptrVal e]) ht hi hr' hmax (by rfl) (by rfl)
  refine ⟨i1, trivial, ?_⟩
  have r2 := RunTo.append (body := (program f).body) r1 RunTo.nil
  rw [List.append_nil, ← hb] at r2
  exact r2

theorem arrayAdd_max (hr : pArrayAdd s i e st h = .ok u st' h') :
    ∀ len s1 h1, readInt s 0 st h = .ok len s1 h1 → ITy.conv .i32 ((len + 1 : Nat) : Int) = ((len + 1 : Nat) : Int) := by
  intro len s1 h1 e1
  unfold pArrayAdd at hr
  replace hr := P_bind_eq_ok hr
  obtain ⟨len', s2, h2, e2, hr⟩ := hr
  cases e2.symm.trans e1
  by_cases hm : len ≥ 2147483647
  · rw [if_pos hm] at hr
    cases hr
  · exact conv_i32 (by omega) (by omega)

theorem sequenceAdd_src : AddSpec .sml_sequence_add (fun s e => pArrayAdd s 0 e) :=
  AddSpec.of (t := .i32) (.inl rfl) rfl rfl rfl fun hr => ⟨hr, arrayAdd_max hr⟩

theorem treePathAdd_src : AddSpec .sml_tree_path_add_path_entry (fun s e => pArrayAdd s 0 e) :=
  AddSpec.of (t := .i32) (.inl rfl) rfl rfl rfl fun hr => ⟨hr, arrayAdd_max hr⟩

theorem treeAdd_src : AddSpec .sml_tree_add_tree (fun s e => pArrayAdd s 2 e) :=
  AddSpec.of (t := .i32) (.inl rfl) rfl rfl rfl fun hr => ⟨hr, arrayAdd_max hr⟩

theorem fileAdd_src : AddSpec .sml_file_add_message pFileAddMessage := by
  refine AddSpec.of (t := .i16) (.inr rfl) rfl rfl rfl fun {s e st h u st' h'} hr => ?_
  unfold pFileAddMessage at hr
  replace hr := P_bind_eq_ok hr
  obtain ⟨len, s1, h1, e1, hr⟩ := hr
  by_cases hm : len ≥ 32767
  · rw [if_pos hm] at hr
    cases hr
  · rw [if_neg hm] at hr
    obtain ⟨_, rfl, rfl, _⟩ := readInt_eq_ok e1
    refine ⟨hr, fun len' s2 h2 e2 => ?_⟩
    cases e1.symm.trans e2
    exact conv_i16 (by omega) (by omega)

/-! ## Calls with several arguments -/

theorem evals_ptr {x : Nat} {es : List Expr} (hx : env x = ptrVal a) (he : ∀ (Γ : Calls) m, evals Γ es env m = .ok vs env m) (Γ : Calls) (m : Mem) :
    evals Γ (.var x :: es) env m = .ok (ptrVal a :: vs) env m := by
  rw [evals, eval, X_bind_ok (getVar_ok hx ptr_ne), X_bind_ok (he Γ m)]
  rfl

/-- `add(s, e);` -/
theorem Sem.add {k : P β} {p : Addr → Addr → P Unit} (hf : AddSpec f p) (hx : env x = ptrVal s) (hy : env y = ptrVal e) (hk : Sem K body ss env anySt k vl post) :
    Sem K body (.expr (.call f [.var x, .var y]) :: ss) env pre (p s e >>= fun _ => k) vl post :=
  (Sem.step (SSem.expr (ESem.call (as := fun _ => [ptrVal s, ptrVal e]) (evals_ptr hx fun _ _ => evals_var hy ptr_ne) (hf s e))) fun _ => hk).weaken fun _ _ => trivial

/-! ## Loops over a counter -/

/-- A condition that does not touch the memory. -/
theorem Sem.iteM {c : Expr} {b : Bool} (hc : ∀ m, EvalTo c env m v env m) (ht : ∀ m, truth v env m = .ok b env m)
    (hk : Sem K body ((if b then A else B) ++ ss) env pre p vl post) : Sem K body (.ite c A B :: ss) env pre p vl post := by
  intro st h hi hp r st' h' hr
  obtain ⟨i1, q1, r1⟩ := hk.run hi hp hr
  exact ⟨i1, q1, RunTo.ite (hc _) (ht _) r1⟩

/-- `x--` -/
theorem exec_decr {x : Nat} {l : Int} (hx : env x = .int .i32 l) (h1 : -2147483648 < l) (h2 : l < 2147483648) (m : Mem) :
    ExecTo (.set .i32 x (.bin .sub (.var x) (.lit .i32 1))) env m .next (upd env x (.int .i32 (l - 1))) m := by
  refine .set (.bin (.int hx) .lit (bin_sub (ta := .i32) (tb := .i32) (conv_i32 (by omega) (by omega)) rfl |>.trans (arith_i32 (by omega) (by omega)))) ?_
  rw [conv_i32 (by omega) (by omega)]

/-- `x++` -/
theorem exec_incr {x : Nat} {l : Int} (hx : env x = .int .i32 l) (h1 : -2147483648 ≤ l) (h2 : l < 2147483647) (m : Mem) :
    ExecTo (.set .i32 x (.bin .add (.var x) (.lit .i32 1))) env m .next (upd env x (.int .i32 (l + 1))) m := by
  refine .set (.bin (.int hx) .lit (bin_add (ta := .i32) (tb := .i32) (conv_i32 (by omega) (by omega)) rfl |>.trans (arith_i32 (by omega) (by omega)))) ?_
  rw [conv_i32 (by omega) (by omega)]

/-- `for (...; x > 0; x--) B` where `B` keeps `U`. -/
theorem Sem.down {q : Nat → P β} {U : Env → Prop} {x : Nat} (hb : noBrks B = true) (hU : ∀ env v, U env → U (upd env x v))
    (hd : ∀ env, U env → Sem K body ss env anySt (q 0) vl post)
    (hs : ∀ n env R, U env → (∀ env', U env' → env' x = env x → Sem K body R env' anySt (q n) vl post) → Sem K body (B ++ R) env anySt (q (n + 1)) vl post) :
    (n : Nat) → ∀ env (l : Int), U env → env x = .int .i32 l → l.toNat = n → -2147483648 ≤ l → l < 2147483648 →
      Sem K body (.loop (.bin .gt (.var x) (.lit .i32 0)) B [.set .i32 x (.bin .sub (.var x) (.lit .i32 1))] :: ss) env anySt (q n) vl post := by
  intro n
  induction n with
  | zero =>
    intro env l u hx hl l1 l2
    refine Sem.loop hb rfl (Sem.iteM (b := false) (fun m => .bin (.int hx) .lit (bin_gt_i32 ⟨l1, l2⟩ (by omega))) (fun m => truth_neg (by omega)) ?_)
    exact hd env u
  | succ n ih =>
    intro env l u hx hl l1 l2
    refine Sem.loop hb rfl (Sem.iteM (b := true) (fun m => .bin (.int hx) .lit (bin_gt_i32 ⟨l1, l2⟩ (by omega))) (fun m => truth_pos (by omega)) ?_)
    simp only [if_true, List.append_assoc]
    refine hs n env _ u fun env' u' hx' => ?_
    refine Sem.vars (exec_decr (hx'.trans hx) (by omega) (by omega)) ?_
    exact ih _ (l - 1) (hU _ _ u') upd_same (by omega) (by omega) (by omega)

/-- `for (x = 0; x < y; x++) B` where `B` keeps `U`. -/
theorem Sem.up {q : Nat → P β} {U : Env → Prop} {x y : Nat} {l : Int} (hb : noBrks B = true) (hU : ∀ env v, U env → U (upd env x v)) (hy : ∀ env, U env → env y = .int .i32 l)
    (hl : l < 2147483648) (hl0 : -2147483648 ≤ l)
    (hd : ∀ env, U env → Sem K body ss env anySt (q 0) vl post)
    (hs : ∀ n env R, U env → (∀ env', U env' → env' x = env x → Sem K body R env' anySt (q n) vl post) → Sem K body (B ++ R) env anySt (q (n + 1)) vl post) :
    (n : Nat) → ∀ env (k : Int), U env → env x = .int .i32 k → (l - k).toNat = n → 0 ≤ k → k < 2147483648 →
      Sem K body (.loop (.bin .lt (.var x) (.var y)) B [.set .i32 x (.bin .add (.var x) (.lit .i32 1))] :: ss) env anySt (q n) vl post := by
  intro n
  induction n with
  | zero =>
    intro env k u hx hk l1 l2
    refine Sem.loop hb rfl (Sem.iteM (b := false) (fun m => .bin (.int hx) (.int (hy env u)) (bin_lt_i32 (by omega) (by omega))) (fun m => truth_neg (by omega)) ?_)
    exact hd env u
  | succ n ih =>
    intro env k u hx hk l1 l2
    refine Sem.loop hb rfl (Sem.iteM (b := true) (fun m => .bin (.int hx) (.int (hy env u)) (bin_lt_i32 (by omega) (by omega))) (fun m => truth_pos (by omega)) ?_)
    simp only [if_true, List.append_assoc]
    refine hs n env _ u fun env' u' hx' => ?_
    refine Sem.vars (exec_incr (hx'.trans hx) (by omega) (by omega)) ?_
    exact ih _ (k + 1) (hU _ _ u') upd_same (by omega) (by omega) (by omega)

end Sml.C
