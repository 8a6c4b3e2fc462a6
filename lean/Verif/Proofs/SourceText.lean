import Verif.Proofs.SourceInit
import Verif.Proofs.SourceBad
import Verif.Model.Util

/-!
# Hexadecimal texts and comparison, run from their source
-/

namespace Sml.C

/-! ## `ctoi` and `c2ptoi` -/

theorem in_range {m : Mem} {env : Env} {c lo hi : Nat} (h0 : env 0 = .int .u8 c) (hc : c < 256) (hlo : lo < 256) (hhi : hi < 256) :
    EvalTo (.and (.bin .ge (.var 0) (.lit .i32 lo)) (.bin .le (.var 0) (.lit .i32 hi))) env m (ofBool (decide (lo ≤ c ∧ c ≤ hi))) env m := by
  have h1 : EvalTo (.bin .ge (.var 0) (.lit .i32 lo)) env m (ofBool (decide ((c : Int) ≥ lo))) env m :=
    .bin (.int h0) .lit (bin_ge (ta := .u8) (tb := .i32) (conv_i32 (by omega) (by omega)) (conv_i32 (by omega) (by omega)))
  have h2 : EvalTo (.bin .le (.var 0) (.lit .i32 hi)) env m (ofBool (decide ((c : Int) ≤ hi))) env m :=
    .bin (.int h0) .lit (bin_le (ta := .u8) (tb := .i32) (conv_i32 (by omega) (by omega)) (conv_i32 (by omega) (by omega)))
  by_cases h : lo ≤ c
  · have := EvalTo.and_t h1 (truth_pos (by omega)) h2 (truth_ofBool _)
    rwa [show decide ((c : Int) ≤ hi) = decide (lo ≤ c ∧ c ≤ hi) from decide_eq_decide.mpr (by omega)] at this
  · have := EvalTo.and_f (b := .bin .le (.var 0) (.lit .i32 hi)) h1 (truth_neg (by omega))
    rwa [show false = decide (lo ≤ c ∧ c ≤ hi) from (decide_eq_false (by omega)).symm] at this

theorem ctoi_nat (c : UInt8) : (Sml.ctoi c).toNat =
    if 48 ≤ c.toNat ∧ c.toNat ≤ 57 then c.toNat - 48 else if 97 ≤ c.toNat ∧ c.toNat ≤ 102 then c.toNat - 97 + 10
    else if 65 ≤ c.toNat ∧ c.toNat ≤ 70 then c.toNat - 65 + 10 else 0 := by
  have key : ∀ i : Fin 256, (Sml.ctoi (UInt8.ofNat i.val)).toNat =
      if 48 ≤ i.val ∧ i.val ≤ 57 then i.val - 48 else if 97 ≤ i.val ∧ i.val ≤ 102 then i.val - 97 + 10
      else if 65 ≤ i.val ∧ i.val ≤ 70 then i.val - 65 + 10 else 0 := by decide +kernel
  have := key ⟨c.toNat, c.toNat_lt⟩
  rwa [UInt8.ofNat_toNat] at this

theorem ctoi_run (m : Mem) (c : UInt8) (t : ITy) : CallTo .ctoi [.int t c.toNat] m (.int .u8 (Sml.ctoi c).toNat) m := by
  have hc := c.toNat_lt
  have hv : ITy.conv .u8 (c.toNat : Int) = c.toNat := conv_u8 (by omega) (by omega)
  let E : Env := upd (envOf [.int .u8 c.toNat]) 1 (.int .u8 0)
  have sub : ∀ k : Nat, k ≤ c.toNat → EvalTo (.bin .sub (.var 0) (.lit .i32 k)) E m (.int .i32 (c.toNat - k : Nat)) E m := fun k hk => by
    refine .bin (.int (t := .u8) (n := c.toNat) (by rfl)) .lit ?_
    rw [bin_sub (ta := .u8) (tb := .i32) (conv_i32 (by omega) (by omega)) (conv_i32 (by omega) (by omega)), show (c.toNat : Int) - k = (c.toNat - k : Nat) by omega]
    exact arith_i32 (by omega) (by omega)
  have add : ∀ k : Nat, k ≤ c.toNat → EvalTo (.bin .add (.bin .sub (.var 0) (.lit .i32 k)) (.lit .i32 10)) E m (.int .i32 (c.toNat - k + 10 : Nat)) E m := fun k hk => by
    refine .bin (sub k hk) .lit ?_
    rw [bin_add (ta := .i32) (tb := .i32) (conv_i32 (by omega) (by omega)) rfl]
    exact arith_i32 (by omega) (by omega)
  have body : ∃ v : Nat, v = (Sml.ctoi c).toNat ∧ ExecTo (.ite (.and (.bin .ge (.var 0) (.lit .i32 48)) (.bin .le (.var 0) (.lit .i32 57))) [
      .set .u8 1 (.bin .sub (.var 0) (.lit .i32 48))] [
      .ite (.and (.bin .ge (.var 0) (.lit .i32 97)) (.bin .le (.var 0) (.lit .i32 102))) [
        .set .u8 1 (.bin .add (.bin .sub (.var 0) (.lit .i32 97)) (.lit .i32 10))] [
        .ite (.and (.bin .ge (.var 0) (.lit .i32 65)) (.bin .le (.var 0) (.lit .i32 70))) [
          .set .u8 1 (.bin .add (.bin .sub (.var 0) (.lit .i32 65)) (.lit .i32 10))] []]]) E m .next (upd E 1 (.int .u8 v)) m := by
    rw [ctoi_nat]
    have r1 := in_range (m := m) (env := E) (lo := 48) (hi := 57) (by rfl) hc (by omega) (by omega)
    have r2 := in_range (m := m) (env := E) (lo := 97) (hi := 102) (by rfl) hc (by omega) (by omega)
    have r3 := in_range (m := m) (env := E) (lo := 65) (hi := 70) (by rfl) hc (by omega) (by omega)
    by_cases h1 : 48 ≤ c.toNat ∧ c.toNat ≤ 57
    · rw [if_pos h1]
      exact ⟨_, rfl, .ite r1 (truth_pos h1) (.last (.set (sub 48 h1.1) (conv_u8 (by omega) (by omega))))⟩
    · rw [if_neg h1]
      by_cases h2 : 97 ≤ c.toNat ∧ c.toNat ≤ 102
      · rw [if_pos h2]
        exact ⟨_, rfl, .ite r1 (truth_neg h1) (.last (.ite r2 (truth_pos h2) (.last (.set (add 97 h2.1) (conv_u8 (by omega) (by omega))))))⟩
      · rw [if_neg h2]
        by_cases h3 : 65 ≤ c.toNat ∧ c.toNat ≤ 70
        · rw [if_pos h3]
          exact ⟨_, rfl, .ite r1 (truth_neg h1) (.last (.ite r2 (truth_neg h2) (.last (.ite r3 (truth_pos h3) (.last (.set (add 65 h3.1) (conv_u8 (by omega) (by omega))))))))⟩
        · rw [if_neg h3]
          have : upd E 1 (.int .u8 ((0 : Nat) : Int)) = E := by
            funext x
            simp only [E, upd]
            split <;> rfl
          refine ⟨0, rfl, ?_⟩
          rw [this]
          exact .ite r1 (truth_neg h1) (.last (.ite r2 (truth_neg h2) (.last (.ite r3 (truth_neg h3) .nil))))
  obtain ⟨v, rfl, hb⟩ := body
  have hr := (Sml.ctoi c).toNat_lt
  refine .of (vs := [.int .u8 c.toNat]) (fun env m => ?_) (.cons (.set .lit rfl) (.cons hb (.ret (.int upd_same)))) fun env => ?_
  · simp only [program, ctoi, bindArgs, convTo, asInt, X_bind, X_pure]
    rw [hv]
  · rw [List.take_length]
    show XRes.ok (Val.int .u8 (ITy.conv .u8 _)) _ _ = _
    rw [conv_u8 (by omega) (by omega)]

theorem conv_char (b : UInt8) : ITy.conv .u8 (ITy.conv .i8 (leNat [b] : Nat)) = b.toNat := by
  have key : ∀ i : Fin 256, ITy.conv .u8 (ITy.conv .i8 (i.val : Int)) = i.val := by decide +kernel
  have := key ⟨b.toNat, b.toNat_lt⟩
  rw [leNat, leNat]
  simpa using this

theorem load_char {bs : List (Option UInt8)} (hg : getBlock l env m = .ok (.raw bs) env m) (hb : bs[i]? = some (some b)) :
    loadNum .i8 (.ptr l i) env m = .ok (.int .i8 (ITy.conv .i8 (leNat [b] : Nat))) env m := by
  obtain ⟨hi, he⟩ := List.getElem?_eq_some_iff.mp hb
  have hd : (bs.drop i).take (ITy.size .i8) = [b].map some := by
    rw [List.drop_eq_getElem_cons hi, he]
    rfl
  rw [loadNum, X_bind_ok (loadBytes_raw' hg (show i + ITy.size .i8 ≤ _ from (by omega : i + 1 ≤ _)) hd)]
  rfl

theorem shl4_u8 {a : Nat} (ha : a < 256) : binOp .shl (.int .u8 a) (.int .i32 4) env m = .ok (.int .i32 (a * 16 : Nat)) env m := by
  have h1 : (a : Int) * 2 ^ (4 : Int).toNat = (a * 16 : Nat) := by
    rw [show (2 : Int) ^ (4 : Int).toNat = 16 from rfl]
    omega
  have h2 : binOp .shl (.int .u8 a) (.int .i32 4) = (do
      note (ITy.signed .i32 && (decide ((a : Int) < 0) || !ITy.fits .i32 ((a : Int) * 2 ^ (4 : Int).toNat)))
      pure (.int .i32 (ITy.conv .i32 ((a : Int) * 2 ^ (4 : Int).toNat))) : X Val) := rfl
  rw [h2, h1, fits_i32 (by omega) (by omega), decide_eq_false (by omega), conv_i32 (by omega) (by omega)]
  exact X_bind_ok (note_false env m)

theorem c2toi_nat (a b : UInt8) : (Sml.c2toi a b).toNat = (Sml.ctoi a).toNat * 16 ||| (Sml.ctoi b).toNat ∧ (Sml.ctoi a).toNat < 16 ∧ (Sml.ctoi b).toNat < 16 := by
  have key : ∀ i : Fin 256, (Sml.ctoi (UInt8.ofNat i.val)).toNat < 16 := by decide +kernel
  have ha := key ⟨a.toNat, a.toNat_lt⟩
  have hb := key ⟨b.toNat, b.toNat_lt⟩
  rw [UInt8.ofNat_toNat] at ha hb
  refine ⟨?_, ha, hb⟩
  have key2 : ∀ i j : Fin 16, (UInt8.ofNat i.val <<< 4 ||| UInt8.ofNat j.val).toNat = i.val * 16 ||| j.val := by decide +kernel
  have := key2 ⟨_, ha⟩ ⟨_, hb⟩
  rw [UInt8.ofNat_toNat, UInt8.ofNat_toNat] at this
  exact this

/-- Two characters of a text. -/
theorem c2ptoi_run {m : Mem} {l : Loc} {blk : List (Option UInt8)} (hg : ∀ env, getBlock l env m = .ok (.raw blk) env m) (h1 : blk[i]? = some (some a))
    (h2 : blk[i + 1]? = some (some b)) : CallTo .c2ptoi [.ptr l i] m (.int .u8 (Sml.c2toi a b).toNat) m := by
  obtain ⟨e, la, lb⟩ := c2toi_nat a b
  have ch : ∀ (k : Nat) (x : UInt8), blk[i + k]? = some (some x) →
      EvalTo (.call .ctoi [.cast .u8 (.byte .i8 (.var 0) (.lit .i32 k))]) (envOf [.ptr l i]) m (.int .u8 (Sml.ctoi x).toNat) (envOf [.ptr l i]) m := fun k x hx => by
    have := EvalTo.cast (ty := .u8) (EvalTo.byte (e := .var 0) (i := .lit .i32 k) (env := envOf [.ptr l i]) (m := m) (.ptr (by rfl)) .lit (offset_ok _ _ _) (load_char (hg _) hx))
    rw [conv_char] at this
    exact .call1 this (ctoi_run m x .u8)
  have hr := (Sml.c2toi a b).toNat_lt
  refine .of (vs := [.ptr l i]) (fun env m => rfl) (.ret (.bin (.bin (ch 0 a h1) .lit (shl4_u8 (by omega))) (ch 1 b h2) (bor_i32 .i32 .u8 rfl (by omega) (by omega)))) fun env => ?_
  rw [List.take_length]
  show XRes.ok (Val.int .u8 (ITy.conv .u8 _)) _ _ = _
  rw [← e, conv_u8 (by omega) (by omega)]

/-! ## `sml_octet_string_init_from_hex` -/

theorem bin_div2 {a : Nat} (ha : a < 2147483648) : binOp .div (.int .i32 a) (.int .i32 2) env m = .ok (.int .i32 (a / 2 : Nat)) env m := by
  have h : binOp .div (.int .i32 a) (.int .i32 2) env m = arith .i32 ((ITy.conv .i32 (a : Int)).tdiv 2) env m := rfl
  rw [h, conv_i32 (by omega) (by omega), show ((a : Int).tdiv 2) = ((a / 2 : Nat) : Int) from rfl]
  exact arith_i32 (by omega) (by omega)

theorem bin_mod2 {a : Nat} (ha : a < 2147483648) : binOp .mod (.int .i32 a) (.int .i32 2) env m = .ok (.int .i32 (a % 2 : Nat)) env m := by
  have h : binOp .mod (.int .i32 a) (.int .i32 2) env m = arith .i32 ((ITy.conv .i32 (a : Int)).tmod 2) env m := rfl
  rw [h, conv_i32 (by omega) (by omega), show ((a : Int).tmod 2) = ((a % 2 : Nat) : Int) from rfl]
  exact arith_i32 (by omega) (by omega)

theorem bin_mul2 {a : Nat} (ha : a * 2 < 2147483648) : binOp .mul (.int .i32 a) (.int .i32 2) env m = .ok (.int .i32 (a * 2 : Nat)) env m := by
  have h : binOp .mul (.int .i32 a) (.int .i32 2) env m = arith .i32 (ITy.conv .i32 (a : Int) * 2) env m := rfl
  rw [h, conv_i32 (by omega) (by omega), show (a : Int) * 2 = ((a * 2 : Nat) : Int) from rfl]
  exact arith_i32 (by omega) (by omega)

theorem EvalTo.strlen (he : EvalTo e env m p env1 m1) (hl : lengthOf p env1 m1 = .ok v env' m') : EvalTo (.strlen e) env m v env' m' := by
  obtain ⟨N, r⟩ := he
  exact ⟨N, fun n hn => by rw [eval, X_bind_ok (r n hn)]; exact hl⟩

theorem zeroAt_text {rest : List (Option UInt8)} : ∀ text : List UInt8, 0 ∉ text → zeroAt (text.map some ++ some 0 :: rest) = some text.length
  | [], _ => rfl
  | c :: text, h => by
    rw [List.map_cons, List.cons_append, zeroAt, if_neg (fun e => h (by rw [e]; exact List.mem_cons_self)), zeroAt_text text fun e => h (List.mem_cons_of_mem _ e)]
    rfl

/-- An array of no elements. -/
theorem ExecBad.vla (he : EvalTo e env m (.int t (0 : Nat)) env' m') : ExecBad (.bytes x e) env m (.buf .vla) := by
  obtain ⟨N, r⟩ := he
  exact ⟨N, fun n hn => by rw [exec, X_bind_ok (r n hn), X_bind_ok asNat_int, newArray, if_pos rfl]; rfl⟩

/-- A text with its end at address `a`. -/
def TextAt (m : Mem) (a : Nat) (text : List UInt8) : Prop := a ≠ 0 ∧ 0 ∉ text ∧ ∃ rest, m.heap a = some (.raw (text.map some ++ some 0 :: rest))

theorem TextAt.length {m : Mem} (h : TextAt m a text) : lengthOf (ptrVal a) env m = .ok (.int .u64 text.length) env m := by
  obtain ⟨ha, hz, rest, hm⟩ := h
  rw [lengthOf, ptrVal, asPtr, X_bind_ok (X_pure _ _ _)]
  simp only
  rw [X_bind_ok (getBlock_heap ha hm)]
  simp only [List.drop_zero, zeroAt_text text hz, X_pure]

/-- The bytes that pairs of characters stand for. -/
def pairBytes : List UInt8 → List UInt8
  | a :: b :: t => Sml.c2toi a b :: pairBytes t
  | _ => []

theorem pairBytes_length : ∀ t : List UInt8, (pairBytes t).length = t.length / 2
  | [] => rfl
  | [_] => by simp [pairBytes]
  | a :: b :: t => by
    rw [pairBytes, List.length_cons, pairBytes_length t]
    simp only [List.length_cons]
    omega

theorem pairBytes_get : ∀ (t : List UInt8) (i : Nat), i < t.length / 2 →
    ∃ a b, t[i * 2]? = some a ∧ t[i * 2 + 1]? = some b ∧ (pairBytes t)[i]? = some (Sml.c2toi a b)
  | [], i, h => absurd h (by simp)
  | [_], i, h => absurd h (by simp)
  | a :: b :: t, 0, h => ⟨a, b, rfl, rfl, rfl⟩
  | a :: b :: t, i + 1, h => by
    have h' : i + 1 < (t.length + 1 + 1) / 2 := h
    obtain ⟨x, y, e1, e2, e3⟩ := pairBytes_get t i (by omega)
    refine ⟨x, y, ?_, ?_, ?_⟩
    · rw [show (i + 1) * 2 = i * 2 + 1 + 1 by omega]
      exact e1
    · rw [show (i + 1) * 2 + 1 = i * 2 + 1 + 1 + 1 by omega]
      exact e2
    · exact e3

/-- Part of an array assigned. -/
def partBytes (bs : List UInt8) (i : Nat) : List (Option UInt8) := (bs.take i).map some ++ List.replicate (bs.length - i) none

theorem partBytes_zero : partBytes bs 0 = List.replicate bs.length none := by simp [partBytes]
theorem partBytes_all : partBytes bs bs.length = bs.map some := by simp [partBytes]
theorem partBytes_length (h : i ≤ bs.length) : (partBytes bs i).length = bs.length := by simp [partBytes]; omega
theorem partBytes_set (h : bs[i]? = some b) : (partBytes bs i).set i (some b) = partBytes bs (i + 1) := by
  obtain ⟨hi, rfl⟩ := List.getElem?_eq_some_iff.mp h
  apply List.ext_getElem
  · rw [List.length_set, partBytes_length (by omega), partBytes_length (by omega)]
  · intro k h1 h2
    simp only [partBytes, List.getElem_set, List.getElem_append, List.getElem_map, List.getElem_take, List.getElem_replicate, List.length_map, List.length_take]
    grind

abbrev hexCond : Expr := .bin .lt (.var 1) (.bin .div (.var 2) (.lit .i32 2))

abbrev hexBody : List Stmt := [.stByte .u8 (.var 3) (.var 1) (.call .c2ptoi [.addr (.var 0) (.bin .mul (.var 1) (.lit .i32 2))])]

abbrev hexStep : List Stmt := [.set .i32 1 (.bin .add (.var 1) (.lit .i32 1))]

section
variable {m : Mem} {a : Nat} {text : List UInt8} (ht : TextAt m a text) (hn : text.length ≤ 2147483647)
include ht hn

theorem hexLoop_src (ev : text.length % 2 = 0) : ∀ (k i : Nat) (env : Env), i + k = (pairBytes text).length → env 0 = ptrVal a → env 1 = .int .i32 i →
    env 2 = .int .i32 text.length → env 3 = .ptr (.stack m.stack.length) 0 →
    ∃ env', LoopTo hexCond hexBody hexStep env { m with stack := m.stack ++ [.raw (partBytes (pairBytes text) i)] } .next env'
      { m with stack := m.stack ++ [.raw ((pairBytes text).map some)] } ∧ env' 2 = .int .i32 text.length ∧ env' 3 = .ptr (.stack m.stack.length) 0 := by
  have hl := pairBytes_length text
  intro k
  induction k with
  | zero =>
    intro i env hi h0 h1 h2 h3
    obtain rfl : i = (pairBytes text).length := by omega
    rw [partBytes_all]
    refine ⟨env, .done (.bin (.int h1) (.bin (.int h2) .lit (bin_div2 (by omega))) (bin_lt (ta := .i32) (tb := .i32) (conv_i32 (by omega) (by omega)) (conv_i32 (by omega) (by omega))))
      (truth_neg (by omega)), h2, h3⟩
  | succ k ih =>
    intro i env hi h0 h1 h2 h3
    obtain ⟨ha, hz, rest, hm⟩ := ht
    obtain ⟨x, y, e1, e2, e3⟩ := pairBytes_get text i (by omega)
    have inT : ∀ j c, text[j]? = some c → (text.map some ++ some 0 :: rest)[j]? = some (some c) := fun j c h => by
      rw [List.getElem?_append_left (by rw [List.length_map]; exact (List.getElem?_eq_some_iff.mp h).1), List.getElem?_map, h]
      rfl
    let mi : Mem := { m with stack := m.stack ++ [.raw (partBytes (pairBytes text) i)] }
    have hc : CallTo .c2ptoi [.ptr (.heap a) (i * 2)] mi (.int .u8 (Sml.c2toi x y).toNat) mi :=
      c2ptoi_run (l := .heap a) (blk := text.map some ++ some 0 :: rest) (fun env => getBlock_heap (m := mi) ha hm) (inT _ _ e1) (inT _ _ e2)
    obtain ⟨env', lp, r2, r3⟩ := ih (i + 1) (upd env 1 (.int .i32 (i + 1 : Nat))) (by omega) h0 upd_same h2 h3
    refine ⟨env', .round (.bin (.int h1) (.bin (.int h2) .lit (bin_div2 (by omega))) (bin_lt (ta := .i32) (tb := .i32) (conv_i32 (by omega) (by omega)) (conv_i32 (by omega) (by omega))))
      (truth_pos (by omega)) (env2 := env) (m2 := { m with stack := m.stack ++ [.raw (partBytes (pairBytes text) (i + 1))] }) (.last (.stByte (.call1 (.addr (.ptr h0) (.bin (.int h1) .lit (bin_mul2 (by omega))) ((offset_ok _ _ _).trans (by rw [Nat.zero_add]))) hc) (.ptr h3) (.int h1)
        ((offset_ok _ _ _).trans (by rw [Nat.zero_add])) (storeByte_raw (bs := partBytes (pairBytes text) i) (getBlock_stack (m := mi) (by simp [mi])) (by rw [partBytes_length (by omega)]; omega) ?_)))
      (.last (.set (t := .i32) (k := ((i + 1 : Nat) : Int)) (.bin (.int h1) .lit ?_) (conv_i32 (by omega) (by omega)))) lp, r2, r3⟩
    · rw [setBlock_stack, partBytes_set e3]
      simp [mi]
    · rw [bin_add (ta := .i32) (tb := .i32) (conv_i32 (by omega) (by omega)) rfl]
      exact arith_i32 (by omega) (by omega)

omit hn in
theorem fromHex_len : EvalTo (.strlen (.var 0)) (envOf [ptrVal a]) m (.int .u64 text.length) (envOf [ptrVal a]) m := .strlen (.ptr (by rfl)) ht.length

omit ht in
theorem fromHex_odd : EvalTo (.bin .ne (.bin .mod (.var 2) (.lit .i32 2)) (.lit .i32 0)) (upd (envOf [ptrVal a]) 2 (.int .i32 text.length)) m
    (ofBool (decide (text.length % 2 ≠ 0))) (upd (envOf [ptrVal a]) 2 (.int .i32 text.length)) m := by
  have := EvalTo.bin (.bin (.int (t := .i32) (n := text.length) (x := 2) (env := upd (envOf [ptrVal a]) 2 (.int .i32 text.length)) (m := m) (by rfl)) .lit (bin_mod2 (by omega))) .lit
    (bin_ne (ta := .i32) (tb := .i32) (a := (text.length % 2 : Nat)) (b := 0) (conv_i32 (by omega) (by omega)) rfl (env := upd (envOf [ptrVal a]) 2 (.int .i32 text.length)) (m := m))
  rwa [show decide (((text.length % 2 : Nat) : Int) ≠ 0) = decide (text.length % 2 ≠ 0) from decide_eq_decide.mpr (by omega)] at this

/-- A text of odd length. -/
theorem fromHex_none (h : text.length % 2 = 1) : CallTo .sml_octet_string_init_from_hex [ptrVal a] m nullPtr m := by
  refine .of (vs := [ptrVal a]) (fun env m => rfl) (.cons (.set (fromHex_len ht) (conv_i32 (by omega) (by omega))) (.ite (fromHex_odd (a := a) hn) (truth_pos (by omega)) (.ret .null))) fun env => ?_
  rw [List.take_length]
  rfl

theorem fromHex_run (h0 : m.next ≠ 0) (h : text.length % 2 = 0) (hne : text ≠ []) :
    CallTo .sml_octet_string_init_from_hex [ptrVal a] m (ptrVal m.next) (withStr m (pairBytes text)) := by
  have hl := pairBytes_length text
  have hpos : 0 < text.length := List.length_pos_iff.2 hne
  let E : Env := upd (upd (upd (envOf [ptrVal a]) 2 (.int .i32 text.length)) 3 (.ptr (.stack m.stack.length) 0)) 1 (.int .i32 (0 : Nat))
  obtain ⟨env', lp, r2, r3⟩ := hexLoop_src ht hn h (pairBytes text).length 0 E (by omega) (by rfl) (by rfl) (by rfl) (by rfl)
  rw [partBytes_zero] at lp
  have hd : ∀ (env : Env) (m : Mem), env 2 = .int .i32 text.length → EvalTo (.bin .div (.var 2) (.lit .i32 2)) env m (.int .i32 (pairBytes text).length) env m := fun env m h => by
    rw [hl]
    exact .bin (.int h) .lit (bin_div2 (by omega))
  have hi := octetInit_run { m with stack := m.stack ++ [.raw ((pairBytes text).map some)] } h0 (k := m.stack.length) (b := (pairBytes text).map some) (bs := pairBytes text) (by simp)
    (by rw [← List.length_map (as := pairBytes text) some, List.take_length]) (by omega) .i32
  refine .of (vs := [ptrVal a]) (fun env m => rfl) (.cons (.set (fromHex_len ht) (conv_i32 (by omega) (by omega))) (.ite (fromHex_odd (a := a) hn) (truth_neg (by omega))
    (.cons (.bytes (hd _ _ rfl) (by omega)) (.cons (.set .lit rfl) (.cons (.loop lp) (.ret (.call (.cons (.ptr r3) (.one (hd _ _ r2))) hi))))))) fun env => ?_
  show XRes.ok _ _ _ = XRes.ok _ _ _
  have hb : pairBytes text ≠ [] := fun e => by rw [e] at hl; simp at hl; omega
  simp [withStr, hb]

/-- The empty text. -/
theorem fromHex_empty (h : text = []) : CallBad .sml_octet_string_init_from_hex [ptrVal a] m (.buf .vla) := by
  subst h
  refine .of (vs := [ptrVal a]) (fun env m => rfl) (.tail (.set (fromHex_len ht) (conv_i32 (by simp) (by simp))) (.tail (.ite (fromHex_odd (a := a) hn) (truth_neg (by simp)) .nil) (.head ?_)))
  exact .vla (.bin (.int (t := .i32) (n := (0 : Nat)) (by rfl)) .lit (bin_div2 (a := 0) (by omega)))

end

/-! ## `sml_octet_string_cmp` -/

theorem EvalTo.memcmp {k : Nat} (ha : EvalTo a env m p env1 m1) (hb : EvalTo b env1 m1 q env2 m2) (hk : EvalTo i env2 m2 (.int t k) env3 m3)
    (hx : loadBytes p k env3 m3 = .ok x env3 m3) (hy : loadBytes q k env3 m3 = .ok y env3 m3) : EvalTo (.memcmp a b i) env m (.int .i32 (cmpBytes x y)) env3 m3 := by
  obtain ⟨N, r⟩ := ha
  obtain ⟨N2, r2⟩ := hb
  obtain ⟨N3, r3⟩ := hk
  refine ⟨max N (max N2 N3), fun n hn => ?_⟩
  rw [eval, X_bind_ok (r n (by omega)), X_bind_ok (r2 n (by omega)), X_bind_ok (r3 n (by omega)), X_bind_ok asNat_int, X_bind_ok hx, X_bind_ok hy]
  rfl

/-- The sign is that of the model. -/
theorem cmpBytes_sign : ∀ x y : List UInt8, (cmpBytes x y < 0 ↔ Sml.memcmp x y < 0) ∧ (cmpBytes x y = 0 ↔ Sml.memcmp x y = 0)
  | [], _ => by simp [cmpBytes, Sml.memcmp]
  | _ :: _, [] => by simp [cmpBytes, Sml.memcmp]
  | a :: x, b :: y => by
    rw [cmpBytes, Sml.memcmp]
    by_cases h : a = b
    · rw [if_pos h, if_pos h]
      exact cmpBytes_sign x y
    · rw [if_neg h, if_neg h]
      have hne : a.toNat ≠ b.toNat := fun e => h (UInt8.toNat_inj.1 e)
      by_cases hl : a < b
      · rw [if_pos hl]
        rw [UInt8.lt_iff_toNat_lt] at hl
        omega
      · rw [if_neg hl]
        rw [UInt8.lt_iff_toNat_lt] at hl
        omega

/-- An octet string at address `a`. -/
structure StrAt (m : Mem) (a : Nat) (bs : List UInt8) : Prop where
  ne : a ≠ 0
  len : bs.length ≤ 2147483647
  str : ∃ p, m.heap a = some (.obj [ptrVal p] [bs.length]) ∧ (bs ≠ [] → p ≠ 0 ∧ m.heap p = some (.raw (bs.map some)))

theorem StrAt.loads {m : Mem} (h : StrAt m a bs) : ∃ p, (∀ env, loadPtr (ptrVal a) 0 env m = .ok (ptrVal p) env m) ∧ (∀ env, loadInt (ptrVal a) 0 env m = .ok (bs.length : Int) env m) ∧
    ∀ env, loadBytes (ptrVal p) bs.length env m = .ok bs env m := by
  obtain ⟨ha, _, p, hm, hp⟩ := h
  refine ⟨p, fun env => loadPtr_put ha hm rfl, fun env => loadInt_put ha hm rfl, fun env => ?_⟩
  by_cases hb : bs = []
  · subst hb
    rfl
  · obtain ⟨hp0, hp⟩ := hp hb
    exact loadBytes_raw' (getBlock_heap hp0 hp) (by simp) (by rw [List.drop_zero, ← List.length_map (as := bs) some, List.take_length])

theorem StrAt.mono {m m' : Mem} (h : StrAt m a bs) (hs : ∀ c b, m.heap c = some b → m'.heap c = some b) : StrAt m' a bs := by
  obtain ⟨ha, hl, p, hm, hp⟩ := h
  exact ⟨ha, hl, p, hs _ _ hm, fun hb => ⟨(hp hb).1, hs _ _ (hp hb).2⟩⟩

/-- What `sml_octet_string_cmp` returns. -/
def cmpVal (x y : List UInt8) : Int := if x.length ≠ y.length then -1 else cmpBytes x y

theorem cmpVal_range (x y : List UInt8) : -256 < cmpVal x y ∧ cmpVal x y < 256 := by
  rw [cmpVal]
  split
  · omega
  · have := cmpBytes_range x y
    omega

theorem cmpVal_sign (x y : List UInt8) : (cmpVal x y < 0 ↔ octetStringCmp ⟨x⟩ ⟨y⟩ < 0) ∧ (cmpVal x y = 0 ↔ octetStringCmp ⟨x⟩ ⟨y⟩ = 0) := by
  rw [cmpVal, octetStringCmp]
  split
  · simp
  · exact cmpBytes_sign x y

theorem ev_lens {m : Mem} {x y : List UInt8} {i j : Nat} (hs : StrAt m a x) (ht : StrAt m b y) {env : Env} (h0 : env i = ptrVal a) (h1 : env j = ptrVal b) :
    EvalTo (.bin .ne (.ldInt .i32 (.var i) 0) (.ldInt .i32 (.var j) 0)) env m (ofBool (decide (x.length ≠ y.length))) env m := by
  obtain ⟨p, _, l1, _⟩ := hs.loads
  obtain ⟨q, _, l2, _⟩ := ht.loads
  have h1' := hs.len
  have h2' := ht.len
  have := EvalTo.bin (.ldInt (t := .i32) (.ptr h0) (l1 env)) (.ldInt (t := .i32) (.ptr h1) (l2 env))
    (bin_ne (ta := .i32) (tb := .i32) (a := (x.length : Int)) (b := (y.length : Int)) (conv_i32 (by omega) (by omega)) (conv_i32 (by omega) (by omega)) (env := env) (m := m))
  rwa [show decide ((x.length : Int) ≠ y.length) = decide (x.length ≠ y.length) from decide_eq_decide.mpr (by omega)] at this

theorem ev_strcmp {m : Mem} {x y : List UInt8} {i j : Nat} (hs : StrAt m a x) (ht : StrAt m b y) {env : Env} (h0 : env i = ptrVal a) (h1 : env j = ptrVal b) (he : x.length = y.length) :
    EvalTo (.memcmp (.ldPtr (.var i) 0) (.ldPtr (.var j) 0) (.ldInt .i32 (.var i) 0)) env m (.int .i32 (cmpBytes x y)) env m := by
  obtain ⟨p, p1, l1, b1⟩ := hs.loads
  obtain ⟨q, p2, l2, b2⟩ := ht.loads
  exact .memcmp (.ldPtr (.ptr h0) (p1 env)) (.ldPtr (.ptr h1) (p2 env)) (.ldInt (.ptr h0) (l1 env)) (b1 env) (by rw [he]; exact b2 env)

theorem cmp_run {m : Mem} {x y : List UInt8} (hs : StrAt m a x) (ht : StrAt m b y) : CallTo .sml_octet_string_cmp [ptrVal a, ptrVal b] m (.int .i32 (cmpVal x y)) m := by
  have hr := cmpVal_range x y
  have run : RunTo (program .sml_octet_string_cmp).body (program .sml_octet_string_cmp).body (envOf [ptrVal a, ptrVal b]) m (.int .i32 (cmpVal x y)) m := by
    refine .ite (ev_lens hs ht (by rfl) (by rfl)) (truth_ofBool _) ?_
    by_cases h : x.length ≠ y.length
    · rw [decide_eq_true h, cmpVal, if_pos h]
      exact .ret .lit
    · rw [decide_eq_false h, cmpVal, if_neg h]
      exact .ret (ev_strcmp hs ht (by rfl) (by rfl) (by omega))
  refine .of (vs := [ptrVal a, ptrVal b]) (fun env m => rfl) run fun env => ?_
  rw [List.take_length]
  show XRes.ok (Val.int .i32 (ITy.conv .i32 _)) _ _ = _
  rw [conv_i32 (by omega) (by omega)]

/-! ## `sml_octet_string_cmp_with_hex` -/

/-- Freeing the octet string last made. -/
theorem octetFree_run (m : Mem) (h0 : m.next ≠ 0) (hw : ∀ a, m.next ≤ a → m.heap a = none) (hb : bs ≠ []) :
    CallTo .sml_octet_string_free [ptrVal m.next] (withStr m bs) .undef { m with next := m.next + 2 } := by
  have e1 : (withStr m bs).heap m.next = some (.obj [ptrVal (m.next + 1)] [bs.length]) := by
    rw [withStr, if_neg hb]
    exact (setHeap_other (by omega)).trans setHeap_same
  have e2 : (withStr m bs).heap (m.next + 1) = some (.raw (bs.map some)) := by
    rw [withStr, if_neg hb]
    exact setHeap_same
  have ev : EvalTo (.ldPtr (.var 0) 0) (envOf [ptrVal m.next]) (withStr m bs) (ptrVal (m.next + 1)) (envOf [ptrVal m.next]) (withStr m bs) := .ldPtr (.ptr (by rfl)) (loadPtr_put h0 e1 rfl)
  refine .of (vs := [ptrVal m.next]) (fun env m => rfl) (.cons (.ite (b := true) (.ptr (by rfl)) (truth_ptr h0)
    (.cons (.ite (b := true) ev (truth_ptr (by omega)) (.last (.free ev (release_put (by omega) e2)))) (.last (.free (.ptr (by rfl)) (release_put (b := .obj [ptrVal (m.next + 1)] [bs.length]) h0 ?_))))) .nil) fun env => ?_
  · exact (setHeap_other (by omega)).trans e1
  · have hh : setHeap (setHeap (withStr m bs).heap (m.next + 1) none) m.next none = m.heap := by
      rw [withStr, if_neg hb]
      funext c
      simp only [setHeap]
      have h1 := hw m.next (by omega)
      have h2 := hw (m.next + 1) (by omega)
      split
      · rename_i h; rw [h, h1]
      · split
        · rename_i h; rw [h, h2]
        · rfl
    show XRes.ok _ _ _ = XRes.ok _ _ _
    simp only [hh]
    rw [withStr, if_neg hb]
    simp

theorem withStr_old {m : Mem} (hw : ∀ a, m.next ≤ a → m.heap a = none) (h : m.heap c = some b) : (withStr m bs).heap c = some b := by
  have : c < m.next := Nat.lt_of_not_le fun hle => by rw [hw c hle] at h; cases h
  rw [withStr]
  split
  · exact (setHeap_other (by omega)).trans h
  · exact (setHeap_other (by omega)).trans ((setHeap_other (by omega)).trans h)

theorem withStr_at {m : Mem} (h0 : m.next ≠ 0) (hb : bs ≠ []) (hl : bs.length ≤ 2147483647) : StrAt (withStr m bs) m.next bs where
  ne := h0
  len := hl
  str := by
    rw [withStr, if_neg hb]
    exact ⟨m.next + 1, (setHeap_other (by omega)).trans setHeap_same, fun _ => ⟨by omega, setHeap_same⟩⟩

theorem cmpHex_run {m : Mem} {text x : List UInt8} (hs : StrAt m s x) (ht : TextAt m a text) (hn : text.length ≤ 2147483647) (h0 : m.next ≠ 0)
    (hw : ∀ a, m.next ≤ a → m.heap a = none) (h : text.length % 2 = 0) (hne : text ≠ []) :
    CallTo .sml_octet_string_cmp_with_hex [ptrVal s, ptrVal a] m (.int .i32 (cmpVal x (pairBytes text))) { m with next := m.next + 2 } := by
  have hpos : 0 < text.length := List.length_pos_iff.2 hne
  have hl := pairBytes_length text
  have hb : pairBytes text ≠ [] := fun e => by rw [e] at hl; simp at hl; omega
  have hr := cmpVal_range x (pairBytes text)
  have hs' : StrAt (withStr m (pairBytes text)) s x := hs.mono fun _ _ => withStr_old hw
  have ht' := withStr_at h0 hb (by omega)
  have hf := octetFree_run m h0 hw hb
  let E : Env := upd (envOf [ptrVal s, ptrVal a]) 2 (ptrVal m.next)
  have run : RunTo (program .sml_octet_string_cmp_with_hex).body (program .sml_octet_string_cmp_with_hex).body (envOf [ptrVal s, ptrVal a]) m
      (.int .i32 (cmpVal x (pairBytes text))) { m with next := m.next + 2 } := by
    refine .cons (env1 := E) (.setPtr (.call1 (.ptr (by rfl)) (fromHex_run ht hn h0 h hne))) (.ite (ev_lens hs' ht' (by rfl) (by rfl)) (truth_ofBool _) ?_)
    by_cases h : x.length ≠ (pairBytes text).length
    · rw [decide_eq_true h, cmpVal, if_pos h]
      exact .cons (.expr (.call1 (.ptr (by rfl)) hf)) (.ret .lit)
    · have hr' := cmpBytes_range x (pairBytes text)
      rw [decide_eq_false h, cmpVal, if_neg h]
      exact .cons (.set (ev_strcmp hs' ht' (by rfl) (by rfl) (by omega)) (conv_i32 (by omega) (by omega))) (.cons (.expr (.call1 (.ptr (by rfl)) hf)) (.ret (.int (by rfl))))
  refine .of (vs := [ptrVal s, ptrVal a]) (fun env m => rfl) run fun env => ?_
  rw [List.take_length]
  show XRes.ok (Val.int .i32 (ITy.conv .i32 _)) _ _ = _
  rw [conv_i32 (by omega) (by omega)]

theorem EvalBad.binR (ha : EvalTo a env m x env1 m1) (h : EvalBad c env1 m1 b) : EvalBad (.bin o a c) env m b := by
  obtain ⟨N, r⟩ := ha
  obtain ⟨N2, r2⟩ := h
  exact ⟨max N N2, fun n hn => by rw [eval, X_bind_ok (r n (by omega))]; exact X_bad (r2 n (by omega))⟩

theorem EvalBad.ldInt_null (he : EvalTo e env m nullPtr env1 m1) : EvalBad (.ldInt t e i) env m .null := by
  obtain ⟨N, r⟩ := he
  exact ⟨N, fun n hn => by rw [eval, X_bind_ok (r n hn)]; rfl⟩

theorem ExecBad.ite (h : EvalBad c env m b) : ExecBad (.ite c A B) env m b := by
  obtain ⟨N, r⟩ := h
  exact ⟨N, fun n hn => by rw [exec]; exact X_bad (r n hn)⟩

theorem cmpHex_odd {m : Mem} {text x : List UInt8} (hs : StrAt m s x) (ht : TextAt m a text) (hn : text.length ≤ 2147483647) (h : text.length % 2 = 1) :
    CallBad .sml_octet_string_cmp_with_hex [ptrVal s, ptrVal a] m .null := by
  obtain ⟨p, _, l, _⟩ := hs.loads
  exact .of (vs := [ptrVal s, ptrVal a]) (fun env m => rfl) (.tail (.setPtr (.call1 (.ptr (by rfl)) (fromHex_none ht hn h)))
    (.head (.ite (.binR (.ldInt (.ptr (by rfl)) (l _)) (.ldInt_null (.ptr (by rfl)))))))

theorem cmpHex_empty {m : Mem} (ht : TextAt m a []) :
    CallBad .sml_octet_string_cmp_with_hex [ptrVal s, ptrVal a] m (.buf .vla) :=
  .of (vs := [ptrVal s, ptrVal a]) (fun env m => rfl) (.head (.setPtr (.call (.one (.ptr (by rfl))) (fromHex_empty ht (by simp) rfl))))

end Sml.C
