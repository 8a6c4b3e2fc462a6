import Verif.Proofs.SourceLen
import Verif.Proofs.ValueShape

/-!
# Bytes in memory: `sml_number_endian` and `sml_number_byte_swap`, run from their source
-/

namespace Sml.C

theorem getBlock_heap {m : Mem} (ha : a ≠ 0) (hm : m.heap a = some b) : getBlock (.heap a) env m = .ok b env m := by
  simp only [getBlock, if_neg ha, hm]

theorem getBlock_stack {m : Mem} (hm : m.stack[k]? = some b) : getBlock (.stack k) env m = .ok b env m := by
  simp only [getBlock, hm]

theorem storeBytes_raw (hg : getBlock l env m = .ok (.raw bs) env m) (h0 : cs ≠ []) (hle : i + cs.length ≤ bs.length)
    (hs : setBlock l (.raw (bs.take i ++ cs.map some ++ bs.drop (i + cs.length))) env m = .ok () env m') :
    storeBytes (.ptr l i) cs env m = .ok () env m' := by
  rw [storeBytes, asPtr, X_bind, X_pure]
  simp only
  rw [if_neg h0, X_bind_ok hg]
  simp only
  rw [if_pos hle, hs]

theorem storeBytes_nil : storeBytes (.ptr l i) [] env m = .ok () env m := by
  rw [storeBytes, asPtr, X_bind, X_pure]
  simp only
  rw [if_pos trivial]
  rfl

theorem loadBytes_raw' {bs : List (Option UInt8)} (hg : getBlock l env m = .ok (.raw bs) env m) (hle : i + n ≤ bs.length)
    (hb : (bs.drop i).take n = cs.map some) : loadBytes (.ptr l i) n env m = .ok cs env m := by
  rw [loadBytes, asPtr, X_bind, X_pure]
  simp only
  by_cases h0 : n = 0
  · subst h0
    rw [List.take_zero] at hb
    cases cs with
    | nil => rw [if_pos rfl, X_pure]
    | cons => cases hb
  · rw [if_neg h0, X_bind_ok hg]
    simp only [hle, if_true, hb, allInit_some, X_pure]

theorem conv_u8_byte (b : UInt8) : ITy.conv .u8 (leNat [b] : Nat) = b.toNat := by
  have hb := UInt8.toNat_lt b
  rw [leNat, leNat, conv_u8 (by omega) (by omega)]
  rfl

/-- One byte. -/
theorem loadByte_raw {bs : List (Option UInt8)} (hg : getBlock l env m = .ok (.raw bs) env m) (hb : bs[i]? = some (some b)) :
    loadNum .u8 (.ptr l i) env m = .ok (.int .u8 b.toNat) env m := by
  obtain ⟨hi, he⟩ := List.getElem?_eq_some_iff.mp hb
  have hd : (bs.drop i).take (ITy.size .u8) = [b].map some := by
    rw [List.drop_eq_getElem_cons hi, he]
    rfl
  rw [loadNum, X_bind_ok (loadBytes_raw' hg (show i + ITy.size .u8 ≤ _ from (by omega : i + 1 ≤ _)) hd), conv_u8_byte]
  rfl

theorem toBits_u8 {n : Nat} (h : n < 256) : ITy.toBits .u8 (n : Int) = n := by
  have : (n : Int).emod (2 ^ 8) = n := Int.emod_eq_of_lt (by omega) (show (n : Int) < 256 by omega)
  simp only [ITy.toBits, ITy.bits]
  rw [this]
  rfl

theorem leBytes_byte (b : UInt8) : leBytes (ITy.size .u8) (ITy.toBits .u8 (b.toNat : Int)) = [b] := by
  rw [toBits_u8 (UInt8.toNat_lt b)]
  show [UInt8.ofNat b.toNat] = [b]
  rw [UInt8.ofNat_toNat]

theorem storeByte_raw {bs : List (Option UInt8)} {b : UInt8} (hg : getBlock l env m = .ok (.raw bs) env m) (hi : i < bs.length)
    (hs : setBlock l (.raw (bs.set i (some b))) env m = .ok () env m') : storeNum .u8 (.ptr l i) b.toNat env m = .ok () env m' := by
  rw [storeNum, leBytes_byte]
  refine storeBytes_raw hg (by simp) (show i + 1 ≤ _ by omega) ?_
  rw [← hs, List.set_eq_take_append_cons_drop, if_pos hi]
  simp

theorem setBlock_heap : setBlock (.heap a) b env m = .ok () env { m with heap := setHeap m.heap a (some b) } := rfl

theorem setBlock_stack : setBlock (.stack k) b env m = .ok () env { m with stack := m.stack.set k b } := rfl

/-! ## `sml_number_endian` -/

theorem call_endian (m : Mem) : CallTo .sml_number_endian [] m (.int .i32 0) m := by
  let m1 : Mem := { m with stack := m.stack ++ [.raw (List.replicate 4 none)] }
  let m2 : Mem := { m with stack := m.stack ++ [.raw ([1, 0, 0, 0].map some)] }
  let env1 := upd (envOf []) 0 (.ptr (.stack m.stack.length) 0)
  let env2 := upd env1 1 (.ptr (.stack m.stack.length) 0)
  have g1 : ∀ env, getBlock (.stack m.stack.length) env m1 = .ok (.raw (List.replicate 4 none)) env m1 := fun env => getBlock_stack (by simp [m1])
  have g2 : ∀ env, getBlock (.stack m.stack.length) env m2 = .ok (.raw ([1, 0, 0, 0].map some)) env m2 := fun env => getBlock_stack (by simp [m2])
  have x1 : ExecTo (.bytes 0 (.lit .u64 4)) (envOf []) m .next env1 m1 := .bytes (k := 4) .lit (by omega)
  have x2 : ExecTo (.stDeref .i32 (.var 0) (.lit .i32 1)) env1 m1 .next env1 m2 := by
    refine .stDeref .lit (.ptr rfl) ?_
    refine storeBytes_raw (cs := [1, 0, 0, 0]) (g1 _) (by decide) (by simp) ?_
    rw [setBlock_stack]
    simp [m1, m2]
  have x3 : ExecTo (.setPtr 1 (.var 0)) env1 m2 .next env2 m2 := .setPtr (.ptr rfl)
  have c4 : EvalTo (.bin .eq (.byte .i8 (.var 1) (.lit .i32 0)) (.lit .i32 1)) env2 m2 (ofBool true) env2 m2 := by
    refine .bin (x := .int .i8 1) (.byte (q := .ptr (.stack m.stack.length) 0) (.ptr (l := .stack m.stack.length) (i := 0) (by rfl)) .lit (offset_ok _ 0 0) ?_) .lit rfl
    rw [loadNum, X_bind_ok (loadBytes_raw' (cs := [1]) (g2 _) (by decide) rfl)]
    have : ITy.conv .i8 (leNat [1] : Nat) = 1 := by decide
    rw [this]
    rfl
  refine .of (m1 := m2) (v := .int .i32 0) (fun _ _ => rfl) (.cons x1 (.cons x2 (.cons x3 (.ite c4 (truth_t rfl) (.ret .lit))))) (fun env => ?_)
  have : ({ m2 with stack := m2.stack.take m.stack.length } : Mem) = m := by simp [m2]
  rw [this]
  rfl

/-! ## `sml_number_byte_swap` -/

/-- Part of the bytes reversed. -/
def halfSwapped (bs : List UInt8) (i : Nat) : List UInt8 := bs.reverse.take i ++ bs.drop i

theorem halfSwapped_zero : halfSwapped bs 0 = bs := by simp [halfSwapped]
theorem halfSwapped_all : halfSwapped bs bs.length = bs.reverse := by
  rw [halfSwapped, List.drop_length, List.append_nil, List.take_of_length_le (by simp)]
theorem halfSwapped_length (h : i ≤ bs.length) : (halfSwapped bs i).length = bs.length := by simp [halfSwapped]; omega

theorem halfSwapped_set (h : i < bs.length) : (halfSwapped bs i).set i (bs[bs.length - 1 - i]) = halfSwapped bs (i + 1) := by
  apply List.ext_getElem
  · rw [List.length_set, halfSwapped_length (by omega), halfSwapped_length (by omega)]
  · intro k h1 h2
    simp only [halfSwapped, List.getElem_set, List.getElem_append, List.getElem_take, List.getElem_drop, List.getElem_reverse, List.length_take, List.length_reverse]
    grind

theorem call_byteSwap {m : Mem} {bs : List UInt8} {pre post : List (Option UInt8)} (t : ITy) (ha : a ≠ 0)
    (hm : m.heap a = some (.raw (pre ++ bs.map some ++ post))) (h0 : bs ≠ []) (hl : bs.length < 2147483648) :
    CallTo .sml_number_byte_swap [.ptr (.heap a) pre.length, .int t bs.length] m .undef
      { m with heap := setHeap m.heap a (some (.raw (pre ++ bs.reverse.map some ++ post))) } := by
  let M : Nat → Mem := fun i =>
    { m with
      heap := setHeap m.heap a (some (.raw (pre ++ (halfSwapped bs i).map some ++ post)))
      stack := m.stack ++ [.raw (bs.map some)] }
  let m1 : Mem := { m with stack := m.stack ++ [.raw (List.replicate bs.length none)] }
  let env0 := envOf [.ptr (.heap a) pre.length, .int .i32 bs.length]
  let env1 := upd env0 3 (.ptr (.stack m.stack.length) 0)
  let E : Nat → Env := fun i => upd env1 2 (.int .i32 i)
  have hE : ∀ i, E (i + 1) = upd (E i) 2 (.int .i32 (i + 1 : Nat)) := by
    intro i
    funext x
    simp only [E, upd]
    split <;> rfl
  have hlen : bs.length ≠ 0 := fun h => h0 (List.length_eq_zero_iff.mp h)
  have hM0 : M 0 = { m with stack := m.stack ++ [.raw (bs.map some)] } := by
    have : setHeap m.heap a (some (.raw (pre ++ (halfSwapped bs 0).map some ++ post))) = m.heap := by
      rw [halfSwapped_zero, ← hm]
      funext x
      simp only [setHeap]
      split
      · rename_i h; rw [h]
      · rfl
    simp only [M, this]
  have x1 : ExecTo (.bytes 3 (.var 1)) env0 m .next env1 m1 := .bytes (.int rfl) hlen
  have x2 : ExecTo (.memcpy (.var 3) (.var 0) (.var 1)) env1 m1 .next env1 (M 0) := by
    rw [hM0]
    refine .memcpy (k := bs.length) (.ptr (l := .stack m.stack.length) (i := 0) (by rfl)) (.ptr (by rfl)) (.int (by rfl))
      (loadBytes_raw' (cs := bs) (getBlock_heap ha hm) (by simp) (by simp)) ?_
    refine storeBytes_raw (bs := List.replicate bs.length none) (getBlock_stack (by simp [m1])) h0 (by simp) ?_
    rw [setBlock_stack]
    simp [m1]
  have x3 : ExecTo (.set .i32 2 (.lit .i32 0)) env1 (M 0) .next (E 0) (M 0) := .set .lit rfl
  have hE0 : ∀ i, E i 0 = .ptr (.heap a) pre.length := fun _ => rfl
  have hE1 : ∀ i, E i 1 = .int .i32 bs.length := fun _ => rfl
  have hE2 : ∀ i, E i 2 = .int .i32 i := fun _ => rfl
  have hE3 : ∀ i, E i 3 = .ptr (.stack m.stack.length) 0 := fun _ => rfl
  have gS : ∀ i env, getBlock (.stack m.stack.length) env (M i) = .ok (.raw (bs.map some)) env (M i) := fun i env => getBlock_stack (by simp [M])
  have loop : ∀ k i, i + k = bs.length → LoopTo (.bin .lt (.var 2) (.var 1)) [
      .stByte .u8 (.var 0) (.var 2) (.byte .u8 (.var 3) (.bin .sub (.var 1) (.bin .add (.var 2) (.lit .i32 1))))] [
      .set .i32 2 (.bin .add (.var 2) (.lit .i32 1))] (E i) (M i) .next (E bs.length) (M bs.length) := by
    intro k
    induction k with
    | zero =>
      intro i hi
      have : i = bs.length := by omega
      subst this
      refine .done (.bin (.int (hE2 _)) (.int (hE1 _)) (bin_lt (ta := .i32) (tb := .i32) (conv_i32 (by omega) (by omega)) (conv_i32 (by omega) (by omega)))) (truth_neg (by omega))
    | succ k ih =>
      intro i hi
      have hi' : i < bs.length := by omega
      have y1 : EvalTo (.bin .add (.var 2) (.lit .i32 1)) (E i) (M i) (.int .i32 (i + 1 : Nat)) (E i) (M i) := by
        refine .bin (.int (hE2 i)) .lit ?_
        rw [bin_add (ta := .i32) (tb := .i32) (conv_i32 (by omega) (by omega)) rfl]
        exact arith_i32 (by omega) (by omega)
      have y1' : EvalTo (.bin .add (.var 2) (.lit .i32 1)) (E i) (M (i + 1)) (.int .i32 (i + 1 : Nat)) (E i) (M (i + 1)) := by
        refine .bin (.int (hE2 i)) .lit ?_
        rw [bin_add (ta := .i32) (tb := .i32) (conv_i32 (by omega) (by omega)) rfl]
        exact arith_i32 (by omega) (by omega)
      have y2 : EvalTo (.bin .sub (.var 1) (.bin .add (.var 2) (.lit .i32 1))) (E i) (M i) (.int .i32 (bs.length - 1 - i : Nat)) (E i) (M i) := by
        refine .bin (.int (hE1 i)) y1 ?_
        rw [bin_sub (ta := .i32) (tb := .i32) (conv_i32 (by omega) (by omega)) (conv_i32 (by omega) (by omega)),
          show (bs.length : Int) - (i + 1 : Nat) = (bs.length - 1 - i : Nat) by omega]
        exact arith_i32 (by omega) (by omega)
      have y3 : EvalTo (.byte .u8 (.var 3) (.bin .sub (.var 1) (.bin .add (.var 2) (.lit .i32 1)))) (E i) (M i) (.int .u8 (bs[bs.length - 1 - i]).toNat) (E i) (M i) := by
        refine .byte (.ptr (hE3 i)) y2 (offset_ok _ _ _) (loadByte_raw (gS i _) ?_)
        simp
      have y4 : ExecTo (.stByte .u8 (.var 0) (.var 2) (.byte .u8 (.var 3) (.bin .sub (.var 1) (.bin .add (.var 2) (.lit .i32 1))))) (E i) (M i) .next (E i) (M (i + 1)) := by
        refine .stByte y3 (.ptr (hE0 i)) (.int (hE2 i)) (offset_ok _ _ _) ?_
        refine storeByte_raw (getBlock_heap (b := .raw (pre ++ (halfSwapped bs i).map some ++ post)) ha (by simp [M, setHeap])) (by simp [halfSwapped_length (Nat.le_of_lt hi')]; omega) ?_
        rw [setBlock_heap]
        have h1 : (pre ++ (halfSwapped bs i).map some ++ post).set (pre.length + i) (some bs[bs.length - 1 - i]) =
            pre ++ (halfSwapped bs (i + 1)).map some ++ post := by
          rw [← halfSwapped_set hi', List.map_set, List.append_assoc, List.append_assoc, List.set_append_right _ _ (by omega),
            List.set_append_left _ _ (by simp [halfSwapped_length (Nat.le_of_lt hi')]; omega)]
          simp
        rw [h1]
        simp only [M]
        congr 2
        funext x
        simp only [setHeap]
        split <;> rfl
      have y5 : ExecTo (.set .i32 2 (.bin .add (.var 2) (.lit .i32 1))) (E i) (M (i + 1)) .next (E (i + 1)) (M (i + 1)) := by
        rw [hE]
        exact .set y1' (conv_i32 (by omega) (by omega))
      exact .round (.bin (.int (hE2 _)) (.int (hE1 _)) (bin_lt (ta := .i32) (tb := .i32) (conv_i32 (by omega) (by omega)) (conv_i32 (by omega) (by omega))))
        (truth_pos (by omega)) (.last y4) (.last y5) (ih (i + 1) (by omega))
  refine .of (m1 := M bs.length) (v := .undef) (vs := [.ptr (.heap a) pre.length, .int .i32 bs.length]) (fun env m => ?_)
    (.cons x1 (.cons x2 (.cons x3 (.cons (.loop (loop bs.length 0 (by omega))) .nil)))) (fun env => ?_)
  · simp only [program, sml_number_byte_swap, bindArgs, convTo, asInt, X_bind, X_pure]
    rw [conv_i32 (by omega) (by omega)]
  · rw [resultOf, X_pure]
    simp only [M, halfSwapped_all, List.take_left']

end Sml.C
