import Verif.Proofs.SourceSend
import Verif.Proofs.SourceListen

/-!
# `sml_hexdump`, run from its source
-/

namespace Sml.C

theorem bin_mod8 {a : Nat} (ha : a < 18446744073709551616) : binOp .mod (.int .u64 a) (.int .i32 8) env m = .ok (.int .u64 (a % 8 : Nat)) env m := by
  have h : binOp .mod (.int .u64 a) (.int .i32 8) env m = arith .u64 ((ITy.conv .u64 (a : Int)).tmod 8) env m := rfl
  rw [h, natConv_u64 ha, show ((a : Int).tmod 8) = ((a % 8 : Nat) : Int) from rfl]
  exact arith_u64 (by omega) (by omega)

theorem Mem.said_nil (m : Mem) : m.said [] = m := by
  rw [Mem.said, List.append_nil]

theorem Mem.said_said (m : Mem) (a b : List UInt8) : (m.said a).said b = m.said (a ++ b) := by
  simp only [Mem.said, List.append_assoc]

theorem getBlock_said {l : Loc} (h : ∀ env, getBlock l env m = .ok b env m) (x : List UInt8) (env : Env) : getBlock l env (m.said x) = .ok b env (m.said x) := by
  have := h env
  cases l with
  | heap a =>
    simp only [getBlock, Mem.said] at this ⊢
    split at this
    · cases this
    · rename_i h0
      rw [if_neg h0]
      split at this
      · rename_i hh
        cases this
        simp only
      · cases this
  | stack a =>
    simp only [getBlock, Mem.said] at this ⊢
    split at this
    · rename_i hh
      cases this
      simp only
    · cases this

/-- Text without conversions. -/
theorem render_text {s : String} : render [.text s] vs env m = .ok s.toUTF8.toList env m := by
  rw [render, X_bind_ok (show render [] vs env m = .ok [] env m from rfl), X_pure, List.append_nil]

theorem render_text_cons {s : String} (h : render qs vs env m = .ok bs env m) : render (.text s :: qs) vs env m = .ok (s.toUTF8.toList ++ bs) env m := by
  rw [render, X_bind_ok h, X_pure]

/-- A conversion other than `%.*f`. -/
theorem render_conv {q : Piece} (hq : ∀ s, q ≠ .text s) (hf : q ≠ .fixed) (h1 : convert q v env m = .ok t env m) (h2 : render qs vs env m = .ok r env m) :
    render (q :: qs) (v :: vs) env m = .ok (t ++ r) env m := by
  cases q with
  | text s => exact absurd rfl (hq s)
  | fixed => exact absurd rfl hf
  | _ => rw [render, X_bind_ok h1, X_bind_ok h2, X_pure] <;> (intros; simp only [reduceCtorEq] at *)

theorem hex2_eq : ∀ b : UInt8, List.replicate (2 - (hexGo (b.toNat + 1) b.toNat).length) 0x30 ++ hexGo (b.toNat + 1) b.toNat = [hexUpper (b.toNat / 16), hexUpper (b.toNat % 16)] := by
  have key : ∀ i : Fin 256, List.replicate (2 - (hexGo (i.val + 1) i.val).length) 0x30 ++ hexGo (i.val + 1) i.val = [hexUpper (i.val / 16), hexUpper (i.val % 16)] := by decide +kernel
  exact fun b => key ⟨b.toNat, b.toNat_lt⟩

theorem utf8_space : " ".toUTF8.toList = [0x20] := by decide +kernel

theorem utf8_newline : "\n".toUTF8.toList = [0x0A] := by decide +kernel

theorem convert_hex2 (b : UInt8) : convert .hex2 (.int .u8 b.toNat) env m = .ok [hexUpper (b.toNat / 16), hexUpper (b.toNat % 16)] env m := by
  have h : convert .hex2 (.int .u8 b.toNat) env m =
    (if (ITy.promote .u8 = .i32 ∨ ITy.promote .u8 = .u32) ∧ 0 ≤ (b.toNat : Int) then
      pure (List.replicate (2 - (hexGo ((b.toNat : Int).natAbs + 1) (b.toNat : Int).natAbs).length) 0x30 ++ hexGo ((b.toNat : Int).natAbs + 1) (b.toNat : Int).natAbs)
    else bad .kind : X (List UInt8)) env m := rfl
  rw [h, if_pos ⟨.inl rfl, by omega⟩, Int.natAbs_natCast, hex2_eq]
  rfl

abbrev dumpCond : Expr := .bin .lt (.var 2) (.var 1)

abbrev dumpBody : List Stmt := [
  .printf [.hex2, .text " "] [.cast .u8 (.byte .u8 (.var 0) (.var 2))],
  .ite (.bin .eq (.bin .mod (.bin .add (.var 2) (.lit .i32 1)) (.lit .i32 8)) (.lit .i32 0)) [.printf [.text "\n"] []] []]

abbrev dumpStep : List Stmt := [.set .u64 2 (.bin .add (.var 2) (.lit .i32 1))]

section
variable {m : Mem} {l : Loc} {blk : List (Option UInt8)} {bs : List UInt8} (hb : ∀ env, getBlock l env m = .ok (.raw blk) env m) (ht : blk.take bs.length = bs.map some)
  (hn : bs.length < 18446744073709551616)
include hb ht hn

theorem dumpLoop_run : ∀ (k i : Nat) (env : Env) (out : List UInt8), i + k = bs.length → env 0 = .ptr l 0 → env 1 = .int .u64 bs.length → env 2 = .int .u64 i →
    ∃ env', LoopTo dumpCond dumpBody dumpStep env (m.said out) .next env' (m.said (out ++ hexdumpLoop i (bs.drop i))) := by
  intro k
  induction k with
  | zero =>
    intro i env out hi h0 h1 h2
    have hc : EvalTo dumpCond env (m.said out) (ofBool (decide (i < bs.length))) env (m.said out) := .bin (.int h2) (.int h1) (cmp_u64 (by omega) hn).1
    rw [decide_eq_false (by omega)] at hc
    rw [List.drop_eq_nil_of_le (by omega), hexdumpLoop, List.append_nil]
    exact ⟨env, .done hc rfl⟩
  | succ k ih =>
    intro i env out hi h0 h1 h2
    have hc : EvalTo dumpCond env (m.said out) (ofBool (decide (i < bs.length))) env (m.said out) := .bin (.int h2) (.int h1) (cmp_u64 (by omega) hn).1
    rw [decide_eq_true (by omega)] at hc
    have hbyte : blk[i]? = some (some (bs[i]'(by omega))) := by
      have := congrArg (·[i]?) ht
      simp only [List.getElem?_take, List.getElem?_map] at this
      rw [if_pos (by omega)] at this
      rw [this, List.getElem?_eq_getElem (by omega)]
      rfl
    generalize hbi : bs[i]'(by omega) = b at hbyte
    have hd : bs.drop i = b :: bs.drop (i + 1) := by rw [List.drop_eq_getElem_cons (by omega), hbi]
    have hcast : EvalTo (.cast .u8 (.byte .u8 (.var 0) (.var 2))) env (m.said out) (.int .u8 b.toNat) env (m.said out) := by
      have := EvalTo.cast (ty := .u8) (.byte (.ptr h0) (.int h2) ((offset_ok _ _ _).trans (by rw [Nat.zero_add])) (loadByte_raw (getBlock_said hb out _) hbyte))
      rwa [show ITy.conv .u8 (b.toNat : Int) = b.toNat from conv_u8 (by omega) (by have := b.toNat_lt; omega)] at this
    have x1 : ExecTo (.printf [.hex2, .text " "] [.cast .u8 (.byte .u8 (.var 0) (.var 2))]) env (m.said out) .next env
        (m.said (out ++ [hexUpper (b.toNat / 16), hexUpper (b.toNat % 16), 0x20])) := by
      have := ExecTo.printf (fmt := [.hex2, .text " "]) (.one hcast) (bs := [hexUpper (b.toNat / 16), hexUpper (b.toNat % 16), 0x20]) (by
        have := render_conv (q := .hex2) (by simp) (by simp) (convert_hex2 (env := env) (m := m.said out) b) (render_text (s := " ") (vs := []))
        rwa [utf8_space] at this)
      rwa [Mem.said_said] at this
    have hadd : ∀ mm, EvalTo (.bin .add (.var 2) (.lit .i32 1)) env mm (.int .u64 (i + 1 : Nat)) env mm := fun mm => .bin (.int h2) .lit (add_u64 (b := 1) (by omega) .i32 (.inr rfl))
    have x2 : ∀ o, ExecTo (.ite (.bin .eq (.bin .mod (.bin .add (.var 2) (.lit .i32 1)) (.lit .i32 8)) (.lit .i32 0)) [.printf [.text "\n"] []] []) env (m.said o) .next env
        (m.said (o ++ if (i + 1) % 8 = 0 then [0x0A] else [])) := fun o => by
      refine .ite (.bin (.bin (hadd _) .lit (bin_mod8 (by omega))) .lit (bin_eq (ta := .u64) (tb := .i32) (natConv_u64 (by omega)) rfl)) (truth_ofBool _) ?_
      by_cases h8 : (i + 1) % 8 = 0
      · rw [decide_eq_true (by omega), if_pos rfl, if_pos h8]
        have := ExecTo.printf (fmt := [.text "\n"]) (env := env) (m := m.said o) .nil render_text
        rw [Mem.said_said, utf8_newline] at this
        exact .last this
      · rw [decide_eq_false (by omega), if_neg (by simp), if_neg h8, List.append_nil]
        exact .nil
    obtain ⟨env', lp⟩ := ih (i + 1) (upd env 2 (.int .u64 (i + 1 : Nat))) (out ++ [hexUpper (b.toNat / 16), hexUpper (b.toNat % 16), 0x20] ++ if (i + 1) % 8 = 0 then [0x0A] else [])
      (by omega) h0 h1 upd_same
    rw [hd, hexdumpLoop]
    simp only [List.append_assoc] at lp ⊢
    refine ⟨env', .round hc rfl (.cons x1 (.last (x2 _))) (.last (.set (t := .u64) (k := ((i + 1 : Nat) : Int)) (hadd _) (natConv_u64 (by omega)))) ?_⟩
    simp only [List.append_assoc] at lp ⊢
    exact lp

/-- `sml_hexdump` reads the bytes and prints them. -/
theorem hexdump_run {t : ITy} : CallTo .sml_hexdump [.ptr l 0, .int t bs.length] m .undef (m.said (hexdumpText bs)) := by
  obtain ⟨env', lp⟩ := dumpLoop_run hb ht hn bs.length 0 (upd (envOf [.ptr l 0, .int .u64 bs.length]) 2 (.int .u64 0)) [] (by omega) rfl rfl upd_same
  rw [Mem.said_nil, List.nil_append, List.drop_zero] at lp
  have x3 := ExecTo.printf (fmt := [.text "\n"]) (env := env') (m := m.said (hexdumpLoop 0 bs)) .nil render_text
  rw [Mem.said_said, utf8_newline] at x3
  refine .of (vs := [.ptr l 0, .int .u64 bs.length]) ?_ (.cons (.set (t := .i32) (k := 0) .lit rfl) (.cons (.loop lp) (.cons x3 .nil))) fun env => ?_
  · intro env m
    have h1 : ITy.conv .u64 (bs.length : Int) = bs.length := natConv_u64 hn
    simp only [program, sml_hexdump, bindArgs, convTo, asInt, X_bind, X_pure, h1]
  · show XRes.ok _ _ _ = _
    rw [show (m.said (hexdumpLoop 0 bs ++ [0x0A])).stack = m.stack from rfl, List.take_length]
    rfl

end

/-- `sml_hexdump` can be handed to `sml_transport_listen`: what it prints are the frames. -/
theorem hexdump_receiver (m0 : Mem) (hn : m0.world.num = (d : Nat)) (hE : Errs m0.world) :
    Receiver .sml_hexdump m0.stack.length d (fun fr => fr.length < 8096) fun m fs => ∃ fd ev e, m = { m0.said (fs.flatMap hexdumpText) with world := (m0.said (fs.flatMap hexdumpText)).world.at fd ev e } where
  depth := fun ⟨_, _, _, h⟩ => by rw [h]; rfl
  num := fun ⟨_, _, _, h⟩ => by rw [h]; exact hn
  errs := fun ⟨_, _, _, h⟩ => by rw [h]; exact ⟨hE.intr, hE.fail⟩
  world := fun ⟨_, _, _, h⟩ fd ev e => ⟨fd, ev, e, by rw [h]⟩
  step := fun {m fs frame} h hf bs hl ht => by
    obtain ⟨fd, ev, e, rfl⟩ := h
    refine ⟨.undef, { m0.said ((fs ++ [frame]).flatMap hexdumpText) with world := (m0.said ((fs ++ [frame]).flatMap hexdumpText)).world.at fd ev e }, bs, ?_, hl, ⟨fd, ev, e, rfl⟩, rfl, rfl⟩
    have := hexdump_run (t := .u64) (m := { m0.said (fs.flatMap hexdumpText) with world := (m0.said (fs.flatMap hexdumpText)).world.at fd ev e, stack := m0.stack ++ [.raw bs] })
      (l := .stack m0.stack.length) (blk := bs) (bs := frame) (fun env => getBlock_stack (by simp)) ht (by omega)
    have e1 : (fs ++ [frame]).flatMap hexdumpText = fs.flatMap hexdumpText ++ hexdumpText frame := by
      simp only [List.flatMap_append, List.flatMap_cons, List.flatMap_nil, List.append_nil]
    rw [e1, ← Mem.said_said]
    exact this

end Sml.C
