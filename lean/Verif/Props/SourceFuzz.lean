import Verif.Props.SourceLong

/-!
# C86: the fuzz target

`LLVMFuzzerTestOneInput` of test/src/fuzzer.c hands its input, without the first eight bytes if there are more, to `sml_file_parse` and
frees the result. Run from its source, these are all the findings a fuzzer can make with it.
-/

namespace Sml.C

open Spec

/-- The part of the input that is parsed. -/
def fuzzed (data : List UInt8) : List UInt8 := if 8 < data.length then data.drop 8 else data

section
variable {m : Mem} {l : Loc} {data : List UInt8} (hd : ∀ env, getBlock l env m = .ok (.raw (data.map some)) env m) (hlen : data.length ≤ 2147483655)
include hd hlen

/-- The arguments of the call in test/src/fuzzer.c:23-24. -/
theorem fuzz_args : ∃ p, (∀ env, loadBytes p (fuzzed data).length env m = .ok (fuzzed data) env m) ∧
    EvalsTo [.cond (.bin .gt (.var 1) (.lit .i32 8)) (.addr (.var 0) (.lit .i32 8)) (.var 0), .cond (.bin .gt (.var 1) (.lit .i32 8)) (.bin .sub (.var 1) (.lit .i32 8)) (.var 1)]
      (envOf [.ptr l 0, .int .u64 data.length]) m [p, .int .u64 (fuzzed data).length] (envOf [.ptr l 0, .int .u64 data.length]) m := by
  have c1 : ITy.conv .u64 (data.length : Int) = data.length := conv_u64 (by omega) (by omega)
  have hc : EvalTo (.bin .gt (.var 1) (.lit .i32 8)) (envOf [.ptr l 0, .int .u64 data.length]) m (ofBool (decide (8 < data.length))) (envOf [.ptr l 0, .int .u64 data.length]) m := by
    refine .bin (.int (by rfl)) .lit ?_
    show XRes.ok (ofBool (decide (ITy.conv .u64 (data.length : Int) > ITy.conv .u64 8))) _ m = _
    rw [c1, show ITy.conv .u64 8 = 8 from rfl]
    congr 3
    apply propext
    omega
  by_cases h8 : 8 < data.length
  · have hf : fuzzed data = data.drop 8 := if_pos h8
    rw [decide_eq_true h8] at hc
    refine ⟨.ptr l 8, fun env => ?_, .cons (.cond (t := true) hc (truth_ofBool _) (.addr (.ptr (by rfl)) .lit ?_)) (.one (.cond (t := true) hc (truth_ofBool _) (.bin (.int (by rfl)) .lit ?_)))⟩
    · rw [hf]
      have := loadBytes_raw (i := 8) (n := (data.drop 8).length) (hd env) (by rw [List.length_drop]; omega)
      rwa [List.take_length] at this
    · rfl
    · show arith .u64 (ITy.conv .u64 (data.length : Int) - ITy.conv .u64 8) _ m = _
      rw [c1, show ITy.conv .u64 8 = 8 from rfl, arith_u64 (by omega) (by omega), hf, List.length_drop]
      congr 2
      omega
  · have hf : fuzzed data = data := if_neg h8
    rw [decide_eq_false h8] at hc
    refine ⟨.ptr l 0, fun env => ?_, .cons (.cond (t := false) hc (truth_ofBool _) (.ptr (by rfl))) (.one (.cond (t := false) hc (truth_ofBool _) (.int (by rw [hf]; rfl))))⟩
    rw [hf]
    have := loadBytes_raw (i := 0) (n := data.length) (hd env) (by omega)
    rwa [List.drop_zero, List.take_length] at this

omit hd in
theorem fuzzed_length : (fuzzed data).length ≤ 2147483647 := by
  unfold fuzzed
  split
  · rw [List.length_drop]
    omega
  · omega

/-- C86: on an input whose part has at most 32767 messages the fuzz target returns 0 without an undefined step. All it leaves on the heap is a
block lost by the DZG workaround, and a signed computation overflows only if seven consecutive bytes have their top bit set. -/
theorem c86_fuzz (h0 : 0 < m.next) (hw : ∀ a, m.next ≤ a → m.heap a = none) (hov : m.sovf = false) (ms : List Message)
    (ht : Grammar.Telegram ((fuzzed data).length + 1) (fuzzed data) ms) (hc : ms.length ≤ 32767) :
    ∃ m2, CallTo .LLVMFuzzerTestOneInput [.ptr l 0, .int .u64 data.length] m (.int .i32 0) m2 ∧ m2.stack = m.stack ∧
      (∀ a b, m.heap a = some b → m2.heap a = some b) ∧
      (m2.heap = m.heap ∨ ∃ i, (data.drop i).take 5 = [0x0a, 0x01, 0x44, 0x5a, 0x47]) ∧
      (m2.sovf = true → ∃ i, ∀ j, j < 7 → ∃ b, data[i + j]? = some b ∧ 128 ≤ b.toNat) := by
  obtain ⟨p, hp, ha⟩ := fuzz_args hd hlen
  obtain ⟨file, buf, m1, m2, L, c1, c2, _, _, _, hst, hold, hleak, hsv⟩ := c85_parse m h0 hw hov _ (fuzzed_length hlen) p hp ms ht hc
  have hsub : ∃ k, fuzzed data = data.drop k := by
    unfold fuzzed
    split
    · exact ⟨8, rfl⟩
    · exact ⟨0, rfl⟩
  obtain ⟨k, hk⟩ := hsub
  refine ⟨m2, ?_, hst, fun a b hb => (hold a b hb).2, ?_, ?_⟩
  · refine .of (vs := [.ptr l 0, .int .u64 data.length]) (fun env m => ?_) (.cons (.setPtr (.call ha c1)) <| .cons (.expr (.call1 (.ptr (by rfl)) c2)) <| .ret .lit) fun env => ?_
    · simp only [program, LLVMFuzzerTestOneInput, bindArgs, convTo, asInt, X_bind, X_pure]
      rw [conv_u64 (by omega) (by omega)]
    · exact congrArg (XRes.ok _ env) (mem_stack m2 hst)
  · rcases hleak with h | ⟨i, hi⟩
    · exact .inl h
    · rw [hk, List.drop_drop] at hi
      exact .inr ⟨_, hi⟩
  · intro h
    obtain ⟨i, hi⟩ := hsv h
    refine ⟨k + i, fun j hj => ?_⟩
    obtain ⟨b, hb, hb2⟩ := hi j hj
    rw [hk, List.getElem?_drop] at hb
    exact ⟨b, by rw [Nat.add_assoc]; exact hb, hb2⟩

/-- C86: on every other input it gets to an undefined step: the store of the 32768th message in front of the array. -/
theorem c86_crash (h0 : 0 < m.next) (hw : ∀ a, m.next ≤ a → m.heap a = none) (hov : m.sovf = false) (ms : List Message)
    (ht : Grammar.Telegram ((fuzzed data).length + 1) (fuzzed data) ms) (hc : 32768 ≤ ms.length) :
    CallBad .LLVMFuzzerTestOneInput [.ptr l 0, .int .u64 data.length] m (.buf .oobRead) := by
  obtain ⟨p, hp, ha⟩ := fuzz_args hd hlen
  have hl := fuzzed_length hlen
  rcases c85_model _ hl ms ht with ⟨h, _⟩ | ⟨_, h⟩
  · omega
  have hb := fileParse_full (depth := (fuzzed data).length + 1) (by omega) hw hov hl (by omega) hp h
  refine .of (vs := [.ptr l 0, .int .u64 data.length]) (fun env m => ?_) (.head (.setPtr (.call ha hb)))
  simp only [program, LLVMFuzzerTestOneInput, bindArgs, convTo, asInt, X_bind, X_pure]
  rw [conv_u64 (by omega) (by omega)]

/-- C86: it returns 0 on every input of at most 294920 bytes. -/
theorem c86_short (h0 : 0 < m.next) (hw : ∀ a, m.next ≤ a → m.heap a = none) (hov : m.sovf = false) (hs : data.length ≤ 294920) :
    ∃ m2, CallTo .LLVMFuzzerTestOneInput [.ptr l 0, .int .u64 data.length] m (.int .i32 0) m2 := by
  have hl := fuzzed_length hlen
  obtain ⟨ms, ht, _⟩ := c85_reading _ hl
  have hc : ms.length ≤ 32767 := by
    rcases c85_model _ hl ms ht with ⟨h, _⟩ | ⟨_, h⟩
    · exact h
    · rcases c02_terminates (fuzzed data) ((fuzzed data).length + 1) hl (by omega) with ⟨f, s, h', _⟩ | ⟨_, h2⟩
      · rw [h] at h'
        cases h'
      · exfalso
        unfold fuzzed at h2
        split at h2
        · rw [List.length_drop] at h2
          omega
        · omega
  obtain ⟨m2, h, _⟩ := c86_fuzz hd hlen h0 hw hov ms ht hc
  exact ⟨m2, h⟩

end

/-- C86: the eight bytes in front do not matter, whatever they are. -/
theorem c86_shift (m m' : Mem) (h0 : 0 < m.next) (hw : ∀ a, m.next ≤ a → m.heap a = none) (hov : m.sovf = false)
    (h0' : 0 < m'.next) (hw' : ∀ a, m'.next ≤ a → m'.heap a = none) (hov' : m'.sovf = false) (l l' : Loc) (x y data : List UInt8) (hx : x.length = 8) (hy : y.length = 8)
    (hne : data ≠ []) (hlen : data.length ≤ 2147483647)
    (hd : ∀ env, getBlock l env m = .ok (.raw ((x ++ data).map some)) env m) (hd' : ∀ env, getBlock l' env m' = .ok (.raw ((y ++ data).map some)) env m') :
    (∃ v m2, CallTo .LLVMFuzzerTestOneInput [.ptr l 0, .int .u64 (x ++ data).length] m v m2) ↔
      ∃ v m2, CallTo .LLVMFuzzerTestOneInput [.ptr l' 0, .int .u64 (y ++ data).length] m' v m2 := by
  have hpos : 0 < data.length := List.length_pos_iff.mpr hne
  have f : ∀ z : List UInt8, z.length = 8 → fuzzed (z ++ data) = data := by
    intro z hz
    unfold fuzzed
    rw [if_pos (by rw [List.length_append]; omega), ← hz, List.drop_left]
  have key : ∀ (M : Mem) (L : Loc) (z : List UInt8), 0 < M.next → (∀ a, M.next ≤ a → M.heap a = none) → M.sovf = false → z.length = 8 →
      (∀ env, getBlock L env M = .ok (.raw ((z ++ data).map some)) env M) →
      ((∃ v m2, CallTo .LLVMFuzzerTestOneInput [.ptr L 0, .int .u64 (z ++ data).length] M v m2) ↔ ∃ ms, Grammar.Telegram (data.length + 1) data ms ∧ ms.length ≤ 32767) := by
    intro M L z g0 gw gov hz gd
    have hl : (z ++ data).length ≤ 2147483655 := by rw [List.length_append]; omega
    constructor
    · rintro ⟨v, m2, h⟩
      obtain ⟨ms, ht, _⟩ := c85_reading data hlen
      refine ⟨ms, ht, Nat.le_of_not_lt fun hc => ?_⟩
      exact (c86_crash gd hl g0 gw gov ms (by rw [f z hz]; exact ht) hc).no ⟨v, m2, h⟩
    · rintro ⟨ms, ht, hc⟩
      obtain ⟨m2, h, _⟩ := c86_fuzz gd hl g0 gw gov ms (by rw [f z hz]; exact ht) hc
      exact ⟨_, m2, h⟩
  exact (key m l x h0 hw hov hx hd).trans (key m' l' y h0' hw' hov' hy hd').symm

/-! ## Inputs of both kinds -/

theorem bytesMem_block (bs : List UInt8) (env : Env) : getBlock (.heap 1) env (bytesMem bs) = .ok (.raw (bs.map some)) env (bytesMem bs) := rfl

theorem bytesMem_above (bs : List UInt8) : ∀ a, (bytesMem bs).next ≤ a → (bytesMem bs).heap a = none :=
  fun a ha => if_neg (by simp only [bytesMem] at ha; omega)

/-- The sample telegram behind an escape sequence and a start sequence. -/
example : ∃ m2, CallTo .LLVMFuzzerTestOneInput [.ptr (.heap 1) 0, .int .u64 ([0x1b, 0x1b, 0x1b, 0x1b, 0x01, 0x01, 0x01, 0x01] ++ Samples.telegram).length]
    (bytesMem ([0x1b, 0x1b, 0x1b, 0x1b, 0x01, 0x01, 0x01, 0x01] ++ Samples.telegram)) (.int .i32 0) m2 := by
  have hl : ([0x1b, 0x1b, 0x1b, 0x1b, 0x01, 0x01, 0x01, 0x01] ++ Samples.telegram).length ≤ 294920 := by decide +kernel
  exact c86_short (bytesMem_block _) (by omega) Nat.zero_lt_two (bytesMem_above _) rfl hl

/-- An input on which it crashes: eight bytes and 32768 conforming messages. -/
example : ∃ data, CallBad .LLVMFuzzerTestOneInput [.ptr (.heap 1) 0, .int .u64 data.length] (bytesMem data) (.buf .oobRead) := by
  have hl : stdMsg.length ≤ 1000 := by decide +kernel
  have l2 := stdMany_length 32768
  have s2 := stdMany 32768
  generalize stdMsg.length = k at hl l2
  generalize (List.replicate 32768 stdMsg).flatten ++ [(0x00 : UInt8)] = bs at l2 s2
  have f : fuzzed (List.replicate 8 0x00 ++ bs) = bs := by
    unfold fuzzed
    rw [if_pos (by rw [List.length_append, List.length_replicate]; omega)]
    rfl
  refine ⟨List.replicate 8 0x00 ++ bs, c86_crash (bytesMem_block _) (by rw [List.length_append, List.length_replicate]; omega) Nat.zero_lt_two (bytesMem_above _) rfl
    (List.replicate 32768 stdMessage) ?_ (by rw [List.length_replicate]; omega)⟩
  rw [f]
  exact Std.und_telegram s2 ⟨by omega, by omega⟩

end Sml.C
