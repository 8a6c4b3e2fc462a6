import Verif.Proofs.SourceText
import Verif.Props.Util

/-!
# `sml_value_to_strhex`, run from its source
-/

namespace Sml.C

open Spec (rendering triple digit Printable)

abbrev hexTab : List Int := [48, 49, 50, 51, 52, 53, 54, 55, 56, 57, 97, 98, 99, 100, 101, 102, 0]

theorem hexTab_get {n : Nat} (h : n < 16) : tabAt .i8 hexTab n env m = .ok (.int .i8 (digit n).toNat) env m := by
  have key : ∀ i : Fin 16, hexTab[i.val]? = some ((digit i.val).toNat : Int) := by decide +kernel
  have e := key ⟨n, h⟩
  simp only at e
  rw [tabAt, e]
  rfl

theorem leBytes_char (b : UInt8) : leBytes (ITy.size .i8) (ITy.toBits .i8 (b.toNat : Int)) = [b] := leBytes_byte b

theorem leBytes_cast (b : UInt8) : leBytes (ITy.size .i8) (ITy.toBits .i8 (ITy.conv .i8 (b.toNat : Int))) = [b] := by
  have key : ∀ i : Fin 256, ITy.toBits .i8 (ITy.conv .i8 (i.val : Int)) = i.val := by decide +kernel
  have := key ⟨b.toNat, b.toNat_lt⟩
  simp only at this
  rw [this]
  show [UInt8.ofNat b.toNat] = [b]
  rw [UInt8.ofNat_toNat]

theorem shr4_u8 {a : Nat} : binOp .shr (.int .u8 a) (.int .i32 4) env m = .ok (.int .i32 (a / 16 : Nat)) env m := rfl

/-- An array of `cap` bytes the first of which have been assigned. -/
def textSoFar (cap : Nat) (out : List UInt8) : List (Option UInt8) := out.map some ++ List.replicate (cap - out.length) none

theorem textSoFar_nil : textSoFar cap [] = List.replicate cap none := by simp [textSoFar]
theorem textSoFar_length (h : out.length ≤ cap) : (textSoFar cap out).length = cap := by simp [textSoFar]; omega

theorem textSoFar_put :
    (textSoFar cap out).take out.length ++ [b].map some ++ (textSoFar cap out).drop (out.length + 1) = textSoFar cap (out ++ [b]) := by
  have h1 : (textSoFar cap out).take out.length = out.map some := by simp [textSoFar]
  have h2 : (textSoFar cap out).drop (out.length + 1) = List.replicate (cap - (out ++ [b]).length) none := by
    rw [textSoFar, List.drop_append, List.drop_of_length_le (by simp)]
    simp
    omega
  rw [h1, h2, textSoFar, List.map_append]

/-- The memory while the text is written: the array is new and `*result` points to it. -/
def strMem (m : Mem) (k cap : Nat) (out : List UInt8) : Mem :=
  { m with next := m.next + 1, heap := setHeap m.heap m.next (some (.raw (textSoFar cap out))), stack := m.stack.set k (.obj [ptrVal m.next] []) }

abbrev strCond : Expr := .bin .lt (.var 6) (.var 3)

abbrev strByte : Expr := .byte .u8 (.var 4) (.var 6)

abbrev strBody : List Stmt := [
  .ite (.and (.var 2) (.and (.bin .gt strByte (.lit .i32 32)) (.bin .lt strByte (.lit .i32 123)))) [
    .stDeref .i8 (.incPtr 5) (.cast .i8 strByte)] [
    .set .bool 2 (.lit .i32 0),
    .stDeref .i8 (.incPtr 5) (.tab .i8 hexTab (.bin .band (.bin .shr strByte (.lit .i32 4)) (.lit .i32 15))),
    .stDeref .i8 (.incPtr 5) (.tab .i8 hexTab (.bin .band strByte (.lit .i32 15))),
    .stDeref .i8 (.incPtr 5) (.lit .i32 32)]]

abbrev strStep : List Stmt := [.set .i32 6 (.bin .add (.var 6) (.lit .i32 1))]

abbrev boolVal (b : Bool) : Val := .int .bool (if b then 1 else 0)

/-- The variables of the loop. -/
structure StrVars (env : Env) (m : Mem) (k s n i pos : Nat) (mixed : Bool) : Prop where
  res : env 1 = .ptr (.stack k) 0
  mix : env 2 = boolVal mixed
  len : env 3 = .int .i32 n
  str : env 4 = ptrVal s
  out : env 5 = .ptr (.heap m.next) pos
  idx : env 6 = .int .i32 i

theorem StrVars.step (h : StrVars env m k s n i pos mixed) : StrVars (upd env 6 (.int .i32 ((i + 1 : Nat) : Int))) m k s n (i + 1) pos mixed :=
  ⟨h.res, h.mix, h.len, h.str, h.out, upd_same⟩

theorem StrVars.moved (h : StrVars env m k s n i pos mixed) : StrVars (upd env 5 (.ptr (.heap m.next) (pos + 1))) m k s n i (pos + 1) mixed :=
  ⟨h.res, h.mix, h.len, h.str, upd_same, h.idx⟩

theorem StrVars.put {out : List UInt8} (h : StrVars env m k s n i out.length mixed) : StrVars (upd env 5 (.ptr (.heap m.next) (out.length + 1))) m k s n i (out ++ [b]).length mixed := by
  rw [List.length_append]
  exact h.moved

theorem StrVars.plain (h : StrVars env m k s n i pos mixed) : StrVars (upd env 2 (.int .bool 0)) m k s n i pos false :=
  ⟨h.res, upd_same, h.len, h.str, h.out, h.idx⟩

section
variable {m : Mem} {k s cap : Nat} {bs : List UInt8} (h0 : m.next ≠ 0) (hs0 : s ≠ 0) (hs : m.heap s = some (.raw (bs.map some))) (hne : s ≠ m.next)

section
include h0

/-- `*res_ptr++ = e;` -/
theorem putc {out : List UInt8} {env : Env} (hv : StrVars env m k s n i out.length mixed) (he : EvalTo e env (strMem m k cap out) (.int t w) env (strMem m k cap out))
    (hb : leBytes (ITy.size .i8) (ITy.toBits .i8 w) = [b]) (hc : out.length < cap) :
    ExecTo (.stDeref .i8 (.incPtr 5) e) env (strMem m k cap out) .next (upd env 5 (.ptr (.heap m.next) (out.length + 1))) (strMem m k cap (out ++ [b])) := by
  refine .stDeref he (.incPtr hv.out) ?_
  rw [storeNum, hb]
  refine storeBytes_raw (bs := textSoFar cap out) (getBlock_heap h0 setHeap_same) (by simp) (by rw [textSoFar_length (by omega)]; exact hc) ?_
  rw [setBlock_heap, show ([b] : List UInt8).length = 1 from rfl, textSoFar_put]
  simp only [strMem, setHeap_twice]

end

section
include hs0 hs hne

theorem ev_strByte {out : List UInt8} {env : Env} (hv : StrVars env m k s n i pos mixed) (hi : bs[i]? = some b) :
    EvalTo strByte env (strMem m k cap out) (.int .u8 b.toNat) env (strMem m k cap out) := by
  refine .byte (.ptr hv.str) (.int hv.idx) ((offset_ok _ _ _).trans (by rw [Nat.zero_add])) (loadByte_raw (bs := bs.map some) (getBlock_heap hs0 ((setHeap_other hne).trans hs)) ?_)
  rw [List.getElem?_map, hi]
  rfl

theorem ev_strTest {out : List UInt8} {env : Env} (hv : StrVars env m k s n i pos mixed) (hi : bs[i]? = some b) :
    EvalTo (.and (.var 2) (.and (.bin .gt strByte (.lit .i32 32)) (.bin .lt strByte (.lit .i32 123)))) env (strMem m k cap out) (ofBool (mixed && Printable b)) env (strMem m k cap out) := by
  have hb := b.toNat_lt
  have eb := ev_strByte (k := k) (cap := cap) (out := out) hs0 hs hne hv hi
  have g1 : EvalTo (.bin .gt strByte (.lit .i32 32)) env (strMem m k cap out) (ofBool (decide ((b.toNat : Int) > 32))) env (strMem m k cap out) :=
    .bin eb .lit (bin_gt (ta := .u8) (tb := .i32) (conv_i32 (by omega) (by omega)) rfl)
  have g2 : EvalTo (.bin .lt strByte (.lit .i32 123)) env (strMem m k cap out) (ofBool (decide ((b.toNat : Int) < 123))) env (strMem m k cap out) :=
    .bin eb .lit (bin_lt (ta := .u8) (tb := .i32) (conv_i32 (by omega) (by omega)) rfl)
  have g : EvalTo (.and (.bin .gt strByte (.lit .i32 32)) (.bin .lt strByte (.lit .i32 123))) env (strMem m k cap out) (ofBool (Printable b)) env (strMem m k cap out) := by
    by_cases h : 32 < b.toNat
    · have := EvalTo.and_t g1 (truth_pos (by omega)) g2 (truth_ofBool _)
      rwa [show decide ((b.toNat : Int) < 123) = Printable b by
        rw [Printable, decide_eq_true (show 0x21 ≤ b.toNat by omega), Bool.true_and]
        exact decide_eq_decide.mpr (by omega)] at this
    · have := EvalTo.and_f (b := .bin .lt strByte (.lit .i32 123)) g1 (truth_neg (by omega))
      rwa [show false = Printable b by rw [Printable, decide_eq_false (show ¬ 0x21 ≤ b.toNat by omega), Bool.false_and]] at this
  cases mixed with
  | true => exact .and_t (.int hv.mix) rfl g (truth_ofBool _)
  | false => exact .and_f (.int hv.mix) rfl

include h0

theorem strBody_run {out : List UInt8} {env : Env} (hv : StrVars env m k s n i out.length mixed) (hi : bs[i]? = some b) (hc : out.length + 3 < cap) :
    ∃ env' out' mixed', ExecsTo strBody env (strMem m k cap out) .next env' (strMem m k cap out') ∧ StrVars env' m k s n i out'.length mixed' ∧ out'.length ≤ out.length + 3 ∧
      ∀ rest, out ++ rendering mixed (b :: rest) = out' ++ rendering mixed' rest := by
  have hbl := b.toNat_lt
  have test := ev_strTest (k := k) (cap := cap) (out := out) hs0 hs hne hv hi
  by_cases h : (mixed && Printable b) = true
  · rw [h] at test
    rw [Bool.and_eq_true] at h
    obtain ⟨rfl, hp⟩ := h
    refine ⟨_, out ++ [b], true, .last (.ite test rfl (.last (putc h0 hv (.cast (ev_strByte hs0 hs hne hv hi)) (leBytes_cast b) (by omega)))), ?_, by simp, fun rest => ?_⟩
    · exact hv.put
    · rw [rendering_printable hp]
      simp
  · rw [Bool.not_eq_true] at h
    rw [h] at test
    have hv1 := hv.plain
    have c1 : EvalTo (.tab .i8 hexTab (.bin .band (.bin .shr strByte (.lit .i32 4)) (.lit .i32 15))) (upd env 2 (.int .bool 0)) (strMem m k cap out) (.int .i8 (digit (b.toNat / 16)).toNat)
        (upd env 2 (.int .bool 0)) (strMem m k cap out) := by
      refine .tab (t := .i32) (k := b.toNat / 16) ?_ (hexTab_get (by omega))
      have := EvalTo.bin (.bin (ev_strByte (k := k) (cap := cap) (out := out) hs0 hs hne hv1 hi) .lit shr4_u8) .lit
        (band32 (a := b.toNat / 16) (b := 15) .i32 .i32 rfl (by omega) (by omega) (env := upd env 2 (.int .bool 0)) (m := strMem m k cap out))
      rwa [show b.toNat / 16 &&& 15 = b.toNat / 16 by rw [show (15 : Nat) = 2 ^ 4 - 1 from rfl, Nat.and_two_pow_sub_one_eq_mod]; omega] at this
    have p1 := putc (cap := cap) h0 hv1 c1 (leBytes_char _) (by omega)
    have hv2 : StrVars (upd (upd env 2 (.int .bool 0)) 5 (.ptr (.heap m.next) (out.length + 1))) m k s n i (out ++ [digit (b.toNat / 16)]).length false := by
      exact hv1.put
    have c2 : EvalTo (.tab .i8 hexTab (.bin .band strByte (.lit .i32 15))) (upd (upd env 2 (.int .bool 0)) 5 (.ptr (.heap m.next) (out.length + 1)))
        (strMem m k cap (out ++ [digit (b.toNat / 16)])) (.int .i8 (digit (b.toNat % 16)).toNat) (upd (upd env 2 (.int .bool 0)) 5 (.ptr (.heap m.next) (out.length + 1)))
        (strMem m k cap (out ++ [digit (b.toNat / 16)])) := by
      refine .tab (t := .i32) (k := b.toNat % 16) ?_ (hexTab_get (by omega))
      have := EvalTo.bin (ev_strByte (k := k) (cap := cap) (out := out ++ [digit (b.toNat / 16)]) hs0 hs hne hv2 hi) .lit
        (band32 (a := b.toNat) (b := 15) .u8 .i32 rfl (by omega) (by omega) (env := upd (upd env 2 (.int .bool 0)) 5 (.ptr (.heap m.next) (out.length + 1)))
          (m := strMem m k cap (out ++ [digit (b.toNat / 16)])))
      rwa [show b.toNat &&& 15 = b.toNat % 16 by rw [show (15 : Nat) = 2 ^ 4 - 1 from rfl, Nat.and_two_pow_sub_one_eq_mod]] at this
    have p2 := putc (cap := cap) h0 hv2 c2 (leBytes_char _) (by simp; omega)
    have hv3 : StrVars (upd (upd (upd env 2 (.int .bool 0)) 5 (.ptr (.heap m.next) (out.length + 1))) 5 (.ptr (.heap m.next) ((out ++ [digit (b.toNat / 16)]).length + 1))) m k s n i
        (out ++ [digit (b.toNat / 16)] ++ [digit (b.toNat % 16)]).length false := by
      exact hv2.put
    have p3 := putc (cap := cap) (b := 0x20) h0 hv3 (t := .i32) (w := 32) .lit rfl (by simp; omega)
    refine ⟨_, _, false, .last (.ite test rfl (.cons (.set .lit rfl) (.cons p1 (.cons p2 (.last p3))))), ?_, by simp, fun rest => ?_⟩
    · exact hv3.put
    · have : rendering mixed (b :: rest) = triple b ++ rendering false rest := by
        cases mixed with
        | false => exact rendering_hex b rest
        | true => exact rendering_other (by simpa using h) rest
      rw [this, triple]
      simp

theorem strLoop_run (hn : bs.length ≤ 2147483647) : ∀ (j i : Nat) (out : List UInt8) (mixed : Bool) (env : Env), i + j = bs.length → StrVars env m k s bs.length i out.length mixed →
    out.length + 3 * j < cap →
    ∃ env' mixed', LoopTo strCond strBody strStep env (strMem m k cap out) .next env' (strMem m k cap (out ++ rendering mixed (bs.drop i))) ∧
      StrVars env' m k s bs.length bs.length (out ++ rendering mixed (bs.drop i)).length mixed' := by
  intro j
  induction j with
  | zero =>
    intro i out mixed env hi hv hc
    obtain rfl : i = bs.length := by omega
    rw [List.drop_length, show rendering mixed [] = [] by cases mixed <;> rfl, List.append_nil]
    exact ⟨env, mixed, .done (.bin (.int hv.idx) (.int hv.len) (bin_lt (ta := .i32) (tb := .i32) (conv_i32 (by omega) (by omega)) (conv_i32 (by omega) (by omega)))) (truth_neg (by omega)), hv⟩
  | succ j ih =>
    intro i out mixed env hi hv hc
    have hb : bs[i]? = some (bs[i]'(by omega)) := List.getElem?_eq_getElem (by omega)
    obtain ⟨env1, out1, mixed1, hx, hv1, hl, hr⟩ := strBody_run (k := k) (cap := cap) h0 hs0 hs hne hv hb (by omega)
    obtain ⟨env', mixed', lp, hv'⟩ := ih (i + 1) out1 mixed1 _ (by omega) hv1.step (by omega)
    have e : out ++ rendering mixed (bs.drop i) = out1 ++ rendering mixed1 (bs.drop (i + 1)) := by
      rw [List.drop_eq_getElem_cons (by omega)]
      exact hr _
    rw [e]
    refine ⟨env', mixed', .round (.bin (.int hv.idx) (.int hv.len) (bin_lt (ta := .i32) (tb := .i32) (conv_i32 (by omega) (by omega)) (conv_i32 (by omega) (by omega)))) (truth_pos (by omega)) hx
      (.last (.set (t := .i32) (k := ((i + 1 : Nat) : Int)) (.bin (.int hv1.idx) .lit ?_) (conv_i32 (by omega) (by omega)))) lp, hv'⟩
    rw [bin_add (ta := .i32) (tb := .i32) (conv_i32 (by omega) (by omega)) rfl]
    exact arith_i32 (by omega) (by omega)

end

/-- `value == NULL || value->data.bytes == NULL || value->data.bytes->str == NULL` -/
theorem ev_strNull {env : Env} {v d p : Nat} (hv : env 0 = ptrVal v) (h1 : v ≠ 0 → m.heap v = some (.obj [ptrVal d] is)) (h2 : v ≠ 0 → d ≠ 0 → m.heap d = some (.obj [ptrVal p] js)) :
    EvalTo (.or (.or (.bin .eq (.var 0) .null) (.bin .eq (.ldPtr (.var 0) 0) .null)) (.bin .eq (.ldPtr (.ldPtr (.var 0) 0) 0) .null)) env m
      (ofBool (decide (v = 0 ∨ d = 0 ∨ p = 0))) env m := by
  have cmp : ∀ {e : Expr} {x : Nat}, EvalTo e env m (ptrVal x) env m → EvalTo (.bin .eq e .null) env m (ofBool (decide (x = 0))) env m := fun {e x} he => by
    refine .bin he .null ?_
    show XRes.ok (ofBool (decide (Loc.heap x = Loc.heap 0 ∧ (0 : Nat) = 0))) _ _ = _
    rw [show decide (Loc.heap x = Loc.heap 0 ∧ (0 : Nat) = 0) = decide (x = 0) from decide_eq_decide.mpr (by simp)]
  have g1 : EvalTo (.bin .eq (.var 0) .null) env m (ofBool (decide (v = 0))) env m := cmp (.ptr hv)
  by_cases c1 : v = 0
  · rw [decide_eq_true (Or.inl c1)]
    exact .or_t (.or_t g1 (truth_pos c1)) rfl
  · have e2 : EvalTo (.ldPtr (.var 0) 0) env m (ptrVal d) env m := .ldPtr (.ptr hv) (loadPtr_put c1 (h1 c1) rfl)
    have g2 := EvalTo.or_f g1 (truth_neg c1) (cmp e2) (truth_ofBool _)
    by_cases c2 : d = 0
    · rw [decide_eq_true (Or.inr (Or.inl c2))]
      exact .or_t g2 (truth_pos c2)
    · have e3 : EvalTo (.ldPtr (.ldPtr (.var 0) 0) 0) env m (ptrVal p) env m := .ldPtr e2 (loadPtr_put c2 (h2 c1 c2) rfl)
      have := EvalTo.or_f g2 (truth_neg c2) (cmp e3) (truth_ofBool _)
      rwa [show decide (p = 0) = decide (v = 0 ∨ d = 0 ∨ p = 0) from decide_eq_decide.mpr (by simp [c1, c2])] at this

theorem conv_bool (b : Bool) : ITy.conv .bool (if b then 1 else 0) = if b then 1 else 0 := by cases b <;> rfl

theorem strhex_bind {env : Env} {v : Nat} {q : Val} : bindArgs (program .sml_value_to_strhex).params [ptrVal v, q, boolVal mixed] env m = .ok [ptrVal v, q, boolVal mixed] env m := by
  simp only [program, sml_value_to_strhex, bindArgs, convTo, asInt, boolVal, X_bind, X_pure]
  rw [conv_bool]

/-- Nothing to render: NULL is returned and nothing is changed. -/
theorem strhex_null {v d p : Nat} {q : Val} (h1 : v ≠ 0 → m.heap v = some (.obj [ptrVal d] is)) (h2 : v ≠ 0 → d ≠ 0 → m.heap d = some (.obj [ptrVal p] js)) (h : v = 0 ∨ d = 0 ∨ p = 0) :
    CallTo .sml_value_to_strhex [ptrVal v, q, boolVal mixed] m nullPtr m := by
  refine .of (vs := [ptrVal v, q, boolVal mixed]) (fun env m => strhex_bind) (.ite (ev_strNull (by rfl) h1 h2) (truth_pos h) (.ret .null)) fun env => ?_
  rw [List.take_length]
  rfl

theorem bin_mul3 {a : Nat} (ha : a * 3 < 2147483648) : binOp .mul (.int .i32 a) (.int .i32 3) env m = .ok (.int .i32 (a * 3 : Nat)) env m := by
  have h : binOp .mul (.int .i32 a) (.int .i32 3) env m = arith .i32 (ITy.conv .i32 (a : Int) * 3) env m := rfl
  rw [h, conv_i32 (by omega) (by omega), show (a : Int) * 3 = ((a * 3 : Nat) : Int) from rfl]
  exact arith_i32 (by omega) (by omega)

include h0 hs0 hs

theorem strhex_run {v d : Nat} (hv0 : v ≠ 0) (hd0 : d ≠ 0) (hw : ∀ a, m.next ≤ a → m.heap a = none) (h1 : m.heap v = some (.obj [ptrVal d] is)) (h2 : m.heap d = some (.obj [ptrVal s] [bs.length]))
    (hk : m.stack[k]? = some (.obj [w] [])) (hn : bs.length * 3 + 1 ≤ 2147483647) :
    CallTo .sml_value_to_strhex [ptrVal v, .ptr (.stack k) 0, boolVal mixed] m (ptrVal m.next) (strMem m k (bs.length * 3 + 1) (rendering mixed bs ++ [0])) := by
  have hlt : ∀ {a b}, m.heap a = some b → a < m.next := fun {a b} h => Nat.lt_of_not_le fun hle => by rw [hw a hle] at h; cases h
  have hne : s ≠ m.next := by have := hlt hs; omega
  have hks : k < m.stack.length := (List.getElem?_eq_some_iff.mp hk).1
  let cap := bs.length * 3 + 1
  let E0 : Env := envOf [ptrVal v, .ptr (.stack k) 0, boolVal mixed]
  let E4 : Env := upd (upd E0 3 (.int .i32 bs.length)) 4 (ptrVal s)
  have ed : ∀ env : Env, env 0 = ptrVal v → EvalTo (.ldPtr (.var 0) 0) env m (ptrVal d) env m := fun env h => .ldPtr (.ptr h) (loadPtr_put hv0 h1 rfl)
  have x1 : ExecTo (.set .i32 3 (.ldInt .i32 (.ldPtr (.var 0) 0) 0)) E0 m .next (upd E0 3 (.int .i32 bs.length)) m :=
    .set (t := .i32) (.ldInt (ed _ (by rfl)) (loadInt_put hd0 h2 rfl)) (conv_i32 (by omega) (by omega))
  have x2 : ExecTo (.setPtr 4 (.ldPtr (.ldPtr (.var 0) 0) 0)) (upd E0 3 (.int .i32 bs.length)) m .next E4 m := .setPtr (.ldPtr (ed _ (by rfl)) (loadPtr_put hd0 h2 rfl))
  let m1 : Mem := { m with next := m.next + 1, heap := setHeap m.heap m.next (some (.raw (List.replicate cap none))) }
  have esz : EvalTo (.bin .add (.bin .mul (.var 3) (.lit .i32 3)) (.lit .i32 1)) E4 m (.int .i32 (cap : Nat)) E4 m := by
    refine .bin (.bin (.int (t := .i32) (n := bs.length) (by rfl)) .lit (bin_mul3 (by omega))) .lit ?_
    rw [bin_add (ta := .i32) (tb := .i32) (conv_i32 (by omega) (by omega)) rfl]
    exact arith_i32 (by omega) (by omega)
  have x3 : ExecTo (.stPtr (.var 1) 0 (.mallocBytes (.bin .add (.bin .mul (.var 3) (.lit .i32 3)) (.lit .i32 1)))) E4 m .next E4 (strMem m k cap []) := by
    refine .stPtr (m1 := m1) (.mallocBytes esz) (.ptr (l := .stack k) (i := 0) (by rfl)) ?_
    rw [storePtr, asPtr, X_bind, X_pure]
    simp only
    rw [X_bind_ok (getBlock_stack (m := m1) hk)]
    simp only
    rw [if_pos (by simp), setBlock_stack, strMem, textSoFar_nil]
    rfl
  have er : ∀ (env : Env) out, env 1 = .ptr (.stack k) 0 → EvalTo (.ldPtr (.var 1) 0) env (strMem m k cap out) (ptrVal m.next) env (strMem m k cap out) := fun env out h => by
    refine .ldPtr (.ptr h) ?_
    rw [loadPtr, asPtr, X_bind, X_pure]
    simp only
    rw [X_bind_ok (getBlock_stack (m := strMem m k cap out) (b := .obj [ptrVal m.next] []) (by simp [strMem, hks]))]
    rfl
  have enull : EvalTo (.bin .eq (.ldPtr (.var 1) 0) .null) E4 (strMem m k cap []) (ofBool false) E4 (strMem m k cap []) := by
    refine .bin (er _ _ (by rfl)) .null ?_
    show XRes.ok (ofBool (decide (Loc.heap m.next = Loc.heap 0 ∧ (0 : Nat) = 0))) _ _ = _
    rw [decide_eq_false (by simp [h0])]
  let E6 : Env := upd (upd E4 5 (ptrVal m.next)) 6 (.int .i32 (0 : Nat))
  obtain ⟨env', mixed', lp, hv'⟩ := strLoop_run (k := k) (cap := cap) h0 hs0 hs hne (by omega) bs.length 0 [] mixed E6 (by omega)
    ⟨by rfl, by rfl, by rfl, by rfl, by rfl, by rfl⟩ (by simp [cap]; omega)
  rw [List.drop_zero, List.nil_append] at lp hv'
  have hrl := rendering_length mixed bs
  have x9 : ExecTo (.stDeref .i8 (.var 5) (.lit .i32 0)) env' (strMem m k cap (rendering mixed bs)) .next env' (strMem m k cap (rendering mixed bs ++ [0])) := by
    refine .stDeref .lit (.ptr hv'.out) ?_
    rw [storeNum]
    refine storeBytes_raw (cs := [0]) (bs := textSoFar cap (rendering mixed bs)) (getBlock_heap h0 setHeap_same) (by simp)
      (by rw [textSoFar_length (by simp only [cap]; omega)]; simp only [cap, List.length_cons, List.length_nil]; omega) ?_
    rw [setBlock_heap, show ([0] : List UInt8).length = 1 from rfl, textSoFar_put]
    simp only [strMem, setHeap_twice]
  refine .of (vs := [ptrVal v, .ptr (.stack k) 0, boolVal mixed]) (m1 := strMem m k cap (rendering mixed bs ++ [0])) (fun env m => strhex_bind)
    (.ite (ev_strNull (by rfl) (fun _ => h1) (fun _ _ => h2)) (truth_neg (by simp [hv0, hd0, hs0])) (.cons x1 (.cons x2 (.cons x3 (.ite enull rfl (.cons (.setPtr (er _ _ (by rfl)))
      (.cons (env1 := E6) (.set .lit rfl) (.cons (.loop lp) (.cons x9 (.ret (er _ _ hv'.res))))))))))) fun env => ?_
  rw [show m.stack.length = (strMem m k cap (rendering mixed bs ++ [0])).stack.length by simp [strMem], List.take_length]
  rfl

end

end Sml.C
