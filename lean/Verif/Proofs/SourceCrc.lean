import Verif.Proofs.SourceBody

/-!
# The checksums from their source
-/

namespace Sml.C

theorem crctab_eq : crctab = Sml.crctab.map fun b => (b.toNat : Int) := by decide +kernel

theorem band32 {a b : Nat} (ta tb : ITy) (hu : ITy.usual ta tb = .i32) (ha : a < 2147483648) (hb : b < 2147483648) :
    binOp .band (.int ta a) (.int tb b) env m = .ok (.int .i32 (a &&& b : Nat)) env m := by
  simp only [binOp, intOp, hu, bitop, ITy.toBits, ITy.bits]
  rw [conv_i32 (n := (a : Int)) (by omega) (by omega), conv_i32 (n := (b : Int)) (by omega) (by omega)]
  rw [bits32 (a := a) (by omega), bits32 (a := b) (by omega)]
  have : a &&& b ≤ a := Nat.and_le_left
  rw [conv_i32 (by omega) (by omega), X_pure]

theorem bxor32 {a b : Nat} (ta tb : ITy) (hu : ITy.usual ta tb = .i32) (ha : a < 2147483648) (hb : b < 2147483648) :
    binOp .bxor (.int ta a) (.int tb b) env m = .ok (.int .i32 (a ^^^ b : Nat)) env m := by
  simp only [binOp, intOp, hu, bitop, ITy.toBits, ITy.bits]
  rw [conv_i32 (n := (a : Int)) (by omega) (by omega), conv_i32 (n := (b : Int)) (by omega) (by omega)]
  rw [bits32 (a := a) (by omega), bits32 (a := b) (by omega)]
  have : a ^^^ b < 2 ^ 31 := Nat.xor_lt_two_pow ha hb
  rw [conv_i32 (by omega) (by omega), X_pure]

theorem shr8 {a : Nat} (ta : ITy) (hu : ITy.promote ta = .i32) : binOp .shr (.int ta a) (.int .i32 8) env m = .ok (.int .i32 (a / 256 : Nat)) env m := by
  simp only [binOp, intOp, hu]
  rfl

theorem shl8_i32 {a : Nat} (ha : a < 256) : binOp .shl (.int .i32 a) (.int .i32 8) env m = .ok (.int .i32 (a * 256 : Nat)) env m := by
  have h1 : ((a : Int) * 2 ^ 8) = ((a * 256 : Nat) : Int) := by omega
  have h2 : binOp .shl (.int .i32 a) (.int .i32 8) = (do
      note (ITy.signed .i32 && (decide ((a : Int) < 0) || !ITy.fits .i32 ((a : Int) * 2 ^ 8)))
      pure (.int .i32 (ITy.conv .i32 ((a : Int) * 2 ^ 8))) : X Val) := rfl
  rw [h2, h1, fits_i32 (by omega) (by omega), decide_eq_false (by omega)]
  refine (X_bind_ok (note_false env m)).trans ?_
  rw [conv_i32 (by omega) (by omega)]
  rfl

/-- `p++` -/
theorem EvalTo.incPtr {x : Nat} (h : env x = .ptr l i) : EvalTo (.incPtr x) env m (.ptr l i) (upd env x (.ptr l (i + 1))) m := .of fun Γ => by
  rw [eval, X_bind_ok (getVar_ok h ptr_ne), X_bind_ok (show offset (.ptr l i) 1 env m = _ from offset_ok l i 1)]
  rfl

/-- `x--` -/
theorem EvalTo.decVar {x : Nat} {n : Int} (h : env x = .int .i32 n) (h1 : -2147483648 < n) (h2 : n < 2147483648) :
    EvalTo (.incVar .i32 x (-1)) env m (.int .i32 n) (upd env x (.int .i32 (n - 1))) m := .of fun Γ => by
  have ha : binOp .add (.int .i32 n) (.int .i32 (-1)) env m = .ok (.int .i32 (n - 1)) env m :=
    (bin_add (ta := .i32) (tb := .i32) (conv_i32 (by omega) (by omega)) rfl).trans (arith_i32 (by omega) (by omega))
  rw [eval, X_bind_ok (getVar_ok h (by intro h; cases h)), X_bind_ok ha, convTo, asInt]
  simp only [X_bind, X_pure]
  rw [conv_i32 (by omega) (by omega)]
  rfl

theorem crcStep_nat (fcs : BitVec 16) (b : UInt8) :
    (crcStep fcs b).toNat = (fcs.toNat / 256) ^^^ (Sml.crctab.getD ((fcs.toNat ^^^ b.toNat) &&& 255) 0).toNat := by
  rw [crcStep, BitVec.toNat_xor, BitVec.toNat_ushiftRight, Nat.shiftRight_eq_div_pow]

abbrev crcRound : List Stmt := [
  .set .u16 2 (.bin .bxor (.bin .shr (.var 2) (.lit .i32 8)) (.tab .u16 crctab (.bin .band (.bin .bxor (.var 2) (.deref .u8 (.incPtr 0))) (.lit .i32 255))))]

/-- One byte. -/
theorem crcRound_run {K : Ctx} {fcs : BitVec 16} (h0 : env 0 = .ptr (.heap K.A) i) (h2 : env 2 = .int .u16 fcs.toNat) (hb : st.data[i]? = some b) :
    ExecsTo crcRound env (memOf K st nx c) .next (upd (upd env 0 (.ptr (.heap K.A) (i + 1))) 2 (.int .u16 (crcStep fcs b).toNat)) (memOf K st nx c) := by
  have hx := UInt8.toNat_lt b
  have hf := fcs.isLt
  have hidx : (fcs.toNat ^^^ b.toNat) &&& 255 ≤ 255 := Nat.and_le_right
  have hxor : fcs.toNat ^^^ b.toNat < 2 ^ 16 := Nat.xor_lt_two_pow hf (by omega)
  have ht : tabAt .u16 crctab ((fcs.toNat ^^^ b.toNat) &&& 255) (upd env 0 (.ptr (.heap K.A) (i + 1))) (memOf K st nx c) =
      .ok (.int .u16 (Sml.crctab.getD ((fcs.toNat ^^^ b.toNat) &&& 255) 0).toNat) (upd env 0 (.ptr (.heap K.A) (i + 1))) (memOf K st nx c) := by
    have hl : Sml.crctab.length = 256 := by decide +kernel
    have : (fcs.toNat ^^^ b.toNat) &&& 255 < Sml.crctab.length := by omega
    rw [tabAt, crctab_eq, List.getElem?_map, List.getElem?_eq_getElem this, List.getD_eq_getElem?_getD, List.getElem?_eq_getElem this]
    rfl
  refine .last (.set (t := .i32) (k := ((crcStep fcs b).toNat : Int)) (.bin (.bin (.int h2) .lit (shr8 .u16 rfl)) (.tab (t := .i32) (k := (fcs.toNat ^^^ b.toNat) &&& 255) (.bin (.bin (.int h2) (.deref (.incPtr h0) (load_byte K hb)) (bxor32 .u16 .u8 rfl (by omega) (by omega)))
    .lit (band32 (b := 255) .i32 .i32 rfl (by omega) (by omega))) ht) ?_) ?_)
  · rw [crcStep_nat]
    exact bxor32 .i32 .u16 rfl (by omega) (by have := (Sml.crctab.getD ((fcs.toNat ^^^ b.toNat) &&& 255) 0).isLt; omega)
  · have := (crcStep fcs b).isLt
    exact conv_u16 (by omega) (by omega)

/-- The loop of both functions. -/
theorem crcLoop_run {K : Ctx} : (n : Nat) → ∀ env i (fcs : BitVec 16), env 0 = .ptr (.heap K.A) i → env 1 = .int .i32 n → env 2 = .int .u16 fcs.toNat → i + n ≤ st.data.length → n ≤ 2147483647 →
    ∃ env', env' 2 = .int .u16 (((st.data.drop i).take n).foldl crcStep fcs).toNat ∧
      LoopTo (.incVar .i32 1 (-1)) crcRound [] env (memOf K st nx c) .next env' (memOf K st nx c)
  | 0, env, i, fcs, h0, h1, h2, hi, hn => by
    refine ⟨upd env 1 (.int .i32 (0 - 1)), ?_, .done (.decVar h1 (by omega) (by omega)) rfl⟩
    rw [List.take_zero, List.foldl_nil]
    exact (upd_other (by decide)).trans h2
  | n + 1, env, i, fcs, h0, h1, h2, hi, hn => by
    have hl : i < st.data.length := by omega
    have hb : st.data[i]? = some st.data[i] := List.getElem?_eq_getElem hl
    have r1 := crcRound_run (K := K) (nx := nx) (c := c) (env := upd env 1 (.int .i32 (((n + 1 : Nat) : Int) - 1))) (fcs := fcs) (i := i) ((upd_other (by decide)).trans h0) ((upd_other (by decide)).trans h2) hb
    obtain ⟨env', w, r2⟩ := crcLoop_run (st := st) (nx := nx) (c := c) (K := K) n (upd (upd (upd env 1 (.int .i32 (((n + 1 : Nat) : Int) - 1))) 0 (.ptr (.heap K.A) (i + 1))) 2 (.int .u16 (crcStep fcs st.data[i]).toNat)) (i + 1) (crcStep fcs st.data[i]) rfl
      (by show Val.int .i32 (((n + 1 : Nat) : Int) - 1) = .int .i32 (n : Int); congr 1; omega) rfl (by omega) (by omega)
    refine ⟨env', ?_, .round (.decVar h1 (by omega) (by omega)) ?_ r1 .nil r2⟩
    · rw [w, List.drop_eq_getElem_cons hl, List.take_succ_cons, List.foldl_cons]
    · show XRes.ok (decide (((n + 1 : Nat) : Int) ≠ 0)) _ _ = _
      rw [decide_eq_true (by omega)]

theorem crc16_nat (f : BitVec 16) : (((f ^^^ 0xffff) &&& 0xff) <<< 8 ||| ((f ^^^ 0xffff) &&& 0xff00) >>> 8).toNat =
    (((f.toNat ^^^ 65535) &&& 255) * 256) ||| (((f.toNat ^^^ 65535) &&& 65280) / 256) := by
  rw [BitVec.toNat_or, BitVec.toNat_shiftLeft, BitVec.toNat_ushiftRight, BitVec.toNat_and, BitVec.toNat_and, BitVec.toNat_xor, Nat.shiftRight_eq_div_pow, Nat.shiftLeft_eq]
  have : (f.toNat ^^^ 65535) &&& 255 ≤ 255 := Nat.and_le_right
  show (((f.toNat ^^^ 65535) &&& 255) * 256 % 65536) ||| _ = _
  rw [Nat.mod_eq_of_lt (by omega)]
  rfl

theorem bind_crc {n : Nat} {t : ITy} (hn : n ≤ 2147483647) : bindArgs [none, some .i32] [p, .int t n] env m = .ok [p, .int .i32 n] env m := by
  have hc : ITy.conv .i32 (n : Int) = n := conv_i32 (by omega) (by omega)
  simp only [bindArgs, convTo, asInt, X_bind, X_pure]
  rw [hc]

/-- `sml_crc16_calculate(buf->buffer + i, n)` -/
theorem crc16_run {K : Ctx} {n : Nat} {t : ITy} (hi : i + n ≤ st.data.length) (hn : n ≤ 2147483647) :
    CallTo .sml_crc16_calculate [.ptr (.heap K.A) i, .int t n] (memOf K st nx c) (.int .u16 (crc16 ((st.data.drop i).take n)).toNat) (memOf K st nx c) := by
  obtain ⟨env', w, r⟩ := crcLoop_run (K := K) (st := st) (nx := nx) (c := c) n (upd (envOf [.ptr (.heap K.A) i, .int .i32 n]) 2 (.int .u16 65535)) i 0xffff (by rfl) (by rfl) (by rfl) hi hn
  have hc : (crc16 ((st.data.drop i).take n)).toNat = _ := crc16_nat (((st.data.drop i).take n).foldl crcStep (0xffff : BitVec 16))
  have hf := (crc16 ((st.data.drop i).take n)).isLt
  revert w hc hf
  generalize (crc16 ((st.data.drop i).take n)).toNat = q
  generalize (((st.data.drop i).take n).foldl crcStep (0xffff : BitVec 16)) = f
  intro w hc hf
  have hx : f.toNat ^^^ 65535 < 2 ^ 16 := Nat.xor_lt_two_pow f.isLt (by omega)
  have h1 : (f.toNat ^^^ 65535) &&& 255 ≤ 255 := Nat.and_le_right
  have h2 : (f.toNat ^^^ 65535) &&& 65280 ≤ 65280 := Nat.and_le_right
  have hq : ITy.conv .u16 (q : Int) = q := conv_u16 (by omega) (by omega)
  refine .of (vs := [.ptr (.heap K.A) i, .int .i32 n]) (fun env m => ?_) (.cons (.set .lit rfl) (.cons (.loop r)
    (.cons (.set (k' := ((f.toNat ^^^ 65535 : Nat) : Int)) (.bin (.int w) .lit (bxor32 (b := 65535) .u16 .i32 rfl (by omega) (by omega))) (conv_u16 (by omega) (by omega)))
    (.cons (.set (k' := (q : Int)) (.bin (.bin (.bin (.int (by rfl)) .lit (band32 (b := 255) .u16 .i32 rfl (by omega) (by omega))) .lit (shl8_i32 (by omega)))
      (.bin (.bin (.int (by rfl)) .lit (band32 (b := 65280) .u16 .i32 rfl (by omega) (by omega))) .lit (shr8 .i32 rfl)) (bor_i32 .i32 .i32 rfl (by omega) (by omega))) (by rw [← hc]; exact hq)) (.ret (.int (by rfl))))))) ?_
  · exact bind_crc hn
  · exact res_int K hq

/-- `sml_crc16kermit_calculate(buf->buffer + i, n)` -/
theorem crc16kermit_run {K : Ctx} {n : Nat} (hi : i + n ≤ st.data.length) (hn : n ≤ 2147483647) :
    CallTo .sml_crc16kermit_calculate [.ptr (.heap K.A) i, .int .i32 n] (memOf K st nx c) (.int .u16 (crc16kermit ((st.data.drop i).take n)).toNat) (memOf K st nx c) := by
  obtain ⟨env', w, r⟩ := crcLoop_run (K := K) (st := st) (nx := nx) (c := c) n (upd (envOf [.ptr (.heap K.A) i, .int .i32 n]) 2 (.int .u16 0)) i 0 (by rfl) (by rfl) (by rfl) hi hn
  have hf := (((st.data.drop i).take n).foldl crcStep (0 : BitVec 16)).isLt
  exact .of (vs := [.ptr (.heap K.A) i, .int .i32 n]) (fun env m => bind_crc hn) (.cons (.set .lit rfl) (.cons (.loop r) (.ret (.int w)))) (res_int K (conv_u16 (by omega) (by omega)))

end Sml.C
