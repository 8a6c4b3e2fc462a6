import Verif.Proofs.SourcePoor
import Verif.Props.Source
import Verif.Props.SourceLong

/-!
# The C source when memory runs out

Everywhere else `malloc` and `realloc` give out memory whenever they are asked. Here they do so as a table `av` says: requests are
numbered, and request `i` is met if `av i = true`. `ScarceTo av f args m v m'` and `ScarceBad av f args m b` are `CallTo` and its
opposite for such runs: the call returns, or comes to the undefined step `b`.
-/

namespace Sml.C

/-- The functions in which, directly or through another function, the answer to a request is looked at, or matters later or not at all. -/
def careful : List Fn :=
  [.sml_number_init, .sml_value_to_strhex, .sml_message_body_init, .sml_transport_listen, .sml_message_write, .sml_message_body_write, .sml_file_write,
   .sml_sequence_write, .sml_get_profile_list_response_write, .sml_get_profile_pack_response_write, .sml_prof_obj_period_entry_write, .sml_prof_obj_period_entry_write_,
   .sml_transport_write, .transport_receiver, .main]

/-- All other functions. -/
def heedless (f : Fn) : Bool := !careful.contains f

theorem heedless_calm : CalmProg program heedless := by
  have h : ∀ f ∈ Fn.all, (heedless f → calms heedless (program f).body) ∧ (f.byPtr → (program f).params.length = 1 → heedless f) := by decide +kernel
  have all : ∀ f, f ∈ Fn.all := by intro f; cases f <;> decide +kernel
  exact ⟨fun f => (h f (all f)).1, fun f => (h f (all f)).2⟩

/-- There are 187 functions, 172 of them heedless. -/
example : Fn.all.length = 187 ∧ (Fn.all.filter heedless).length = 172 := by decide +kernel

/-- C82: refusals outside the requests that a call makes do not matter: if the requests it makes when all are met are met, it returns the
same and leaves the same memory. -/
theorem c82_met (h : CallTo f args m v m') (av : Nat → Bool) (ha : ∀ i, m.next ≤ i → i < m'.next → av i = true) : ScarceTo av f args m v m' :=
  .of_met h ha

/-- C82: in a heedless function one refused request among those it makes when all are met is enough: the function writes through `NULL`. -/
theorem c82_unmet (hf : heedless f = true) (h0 : 0 < m.next) (hw : ∀ a, m.next ≤ a → m.heap a = none) (h : CallTo f args m v m') (av : Nat → Bool)
    (i : Nat) (hi : m.next ≤ i) (hi' : i < m'.next) (ha : av i = false) : ScarceBad av f args m .null := by
  obtain ⟨N, h⟩ := h
  refine ⟨N, fun n hn env => (calm_call heedless_calm hf ⟨h0, hw⟩ (h n hn env) av).2.2.2 fun hall => ?_⟩
  rw [hall i hi hi'] at ha
  cases ha

/-- C82: so a call of a heedless function that succeeds with enough memory succeeds with a given table exactly if all its requests are met. -/
theorem c82_exact (hf : heedless f = true) (h0 : 0 < m.next) (hw : ∀ a, m.next ≤ a → m.heap a = none) (h : CallTo f args m v m') (av : Nat → Bool) :
    (ScarceTo av f args m v m' ↔ ∀ i, m.next ≤ i → i < m'.next → av i = true) ∧
      (ScarceBad av f args m .null ↔ ∃ i, m.next ≤ i ∧ i < m'.next ∧ av i = false) := by
  have clash : ∀ {b}, ScarceTo av f args m v m' → ScarceBad av f args m b → False := by
    rintro b ⟨N, h1⟩ ⟨N', h2⟩
    have := (h1 (max N N') (by omega) (fun _ => .undef)).symm.trans (h2 (max N N') (by omega) (fun _ => .undef))
    cases this
  refine ⟨⟨fun hs i hi hi' => ?_, fun ha => c82_met h av ha⟩, ⟨fun hb => ?_, fun ⟨i, hi, hi', ha⟩ => c82_unmet hf h0 hw h av i hi hi' ha⟩⟩
  · cases ha : av i with
    | true => rfl
    | false => exact (clash hs (c82_unmet hf h0 hw h av i hi hi' ha)).elim
  · apply Classical.byContradiction
    intro hn
    refine clash (c82_met h av fun i hi hi' => ?_) hb
    cases ha : av i with
    | true => rfl
    | false => exact (hn ⟨i, hi, hi', ha⟩).elim

/-! ## Parsing and freeing a file -/

theorem length_le_of_keys {lo : Nat} : (k : Nat) → {l : List Nat} → l.Nodup → (∀ x ∈ l, lo ≤ x ∧ x < lo + k) → l.length ≤ k
  | 0, l, _, h => by
    cases l with
    | nil => exact Nat.le_refl _
    | cons x l => have := h x (List.mem_cons_self ..); omega
  | k + 1, l, hl, h => by
    have hr := length_le_of_keys (lo := lo) k (l := l.erase (lo + k)) (hl.erase _) fun x hx => by
      have h1 := h x (List.mem_of_mem_erase hx)
      have h2 : x ≠ lo + k := ((List.Nodup.mem_erase_iff hl).mp hx).1
      omega
    have := List.length_erase (a := lo + k) (l := l)
    split at this <;> omega

/-- What C82 says of parsing and freeing, for a telegram that the model of `sml_file_parse` reads. -/
theorem c82_parse_ok (m : Mem) (h0 : 0 < m.next) (hw : ∀ a, m.next ≤ a → m.heap a = none) (hov : m.sovf = false) (buffer : List UInt8)
    (hlen : buffer.length ≤ 2147483647) (p : Val) (hp : ∀ env, loadBytes p buffer.length env m = .ok buffer env m) (f : File) (s : St)
    (e : fileParse (buffer.length + 1) buffer = .ok f s) :
    ∃ file k m1 m2, 3 ≤ fileFreed f ∧ fileFreed f ≤ k ∧ ∀ av : Nat → Bool,
      ((∀ i, i < k → av (m.next + i) = true) →
        ScarceTo av .sml_file_parse [p, .int .u64 buffer.length] m (.ptr (.heap file) 0) m1 ∧ ScarceTo av .sml_file_free [.ptr (.heap file) 0] m1 .undef m2) ∧
      ((∃ i, i < k ∧ av (m.next + i) = false) → ScarceBad av .sml_file_parse [p, .int .u64 buffer.length] m .null) := by
  obtain ⟨h1, h2, L, g, g', c1, c2, i1, hr, o1, o2, l1, l2, hn⟩ := source_run_ok h0 hw hov hlen hp e
  obtain ⟨_, _, hfr, _⟩ := fileParse_ok hlen (by omega) e
  have hk : s.live ≤ h1.next - m.next := by
    have ne : ∀ a, h1.cells a = none → a ∉ (L ++ g).map Prod.fst := by
      intro a ha hm
      obtain ⟨x, hx, rfl⟩ := List.mem_map.mp hm
      rw [o1.mem x hx] at ha
      cases ha
    have lB : m.next + 1 < h1.next := i1.lB
    have lA : m.next + 2 < h1.next := i1.lA
    have := length_le_of_keys (lo := m.next) (h1.next - m.next) (l := (m.next + 1) :: (m.next + 2) :: (L ++ g).map Prod.fst)
      (List.nodup_cons.mpr ⟨fun hx => (List.mem_cons.mp hx).elim (by omega) (ne _ i1.nB), List.nodup_cons.mpr ⟨ne _ i1.nA, o1.nodup⟩⟩) (by
        intro x hx
        rcases List.mem_cons.mp hx with rfl | hx
        · omega
        rcases List.mem_cons.mp hx with rfl | hx
        · omega
        obtain ⟨y, hy, rfl⟩ := List.mem_map.mp hx
        have := o1.key y hy
        omega)
    simp only [List.length_cons, List.length_map, List.length_append] at this
    omega
  refine ⟨m.next, h1.next - m.next, _, _, by rw [fileFreed]; omega, by omega, fun av => ⟨fun ha => ⟨c82_met c1 av fun i hi hi' => ?_, .lift c2 hn⟩, fun ⟨i, hi, ha⟩ => ?_⟩⟩
  · have hi'' : i < h1.next := hi'
    have := ha (i - m.next) (by omega)
    rwa [show m.next + (i - m.next) = i by omega] at this
  · refine c82_unmet (by decide +kernel) h0 hw c1 av (m.next + i) (by omega) ?_ ha
    show m.next + i < h1.next
    omega

/-- C82: whatever the at most 294912 bytes at `p` are, there is a number `k` of requests, at least one for each block that the result has, such that
`sml_file_parse` returns a file if those are met, and writes through `NULL` if one of them is not. `sml_file_free` then needs no memory. -/
theorem c82_parse (m : Mem) (h0 : 0 < m.next) (hw : ∀ a, m.next ≤ a → m.heap a = none) (hov : m.sovf = false) (buffer : List UInt8)
    (hlen : buffer.length ≤ 294912) (p : Val) (hp : ∀ env, loadBytes p buffer.length env m = .ok buffer env m) :
    ∃ file k m1 m2 f s, fileParse (buffer.length + 1) buffer = .ok f s ∧ 3 ≤ fileFreed f ∧ fileFreed f ≤ k ∧ ∀ av : Nat → Bool,
      ((∀ i, i < k → av (m.next + i) = true) →
        ScarceTo av .sml_file_parse [p, .int .u64 buffer.length] m (.ptr (.heap file) 0) m1 ∧ ScarceTo av .sml_file_free [.ptr (.heap file) 0] m1 .undef m2) ∧
      ((∃ i, i < k ∧ av (m.next + i) = false) → ScarceBad av .sml_file_parse [p, .int .u64 buffer.length] m .null) := by
  obtain ⟨f, s, e, _⟩ := fileParse_post (buffer := buffer) (depth := buffer.length + 1) hlen (by omega)
  obtain ⟨file, k, m1, m2, h⟩ := c82_parse_ok m h0 hw hov buffer (by omega) p hp f s e
  exact ⟨file, k, m1, m2, f, s, e, h⟩

/-- C82: the same for every telegram that fits in an `int`, if it has at most 32767 messages; with more of them `sml_file_parse` is undefined however
much memory there is (C85). -/
theorem c82_parse_long (m : Mem) (h0 : 0 < m.next) (hw : ∀ a, m.next ≤ a → m.heap a = none) (hov : m.sovf = false) (buffer : List UInt8)
    (hlen : buffer.length ≤ 2147483647) (p : Val) (hp : ∀ env, loadBytes p buffer.length env m = .ok buffer env m) (ms : List Message)
    (ht : Sml.Spec.Grammar.Telegram (buffer.length + 1) buffer ms) (hc : ms.length ≤ 32767) :
    ∃ file k m1 m2, 3 ≤ fileFreed { messages := ms } ∧ fileFreed { messages := ms } ≤ k ∧ ∀ av : Nat → Bool,
      ((∀ i, i < k → av (m.next + i) = true) →
        ScarceTo av .sml_file_parse [p, .int .u64 buffer.length] m (.ptr (.heap file) 0) m1 ∧ ScarceTo av .sml_file_free [.ptr (.heap file) 0] m1 .undef m2) ∧
      ((∃ i, i < k ∧ av (m.next + i) = false) → ScarceBad av .sml_file_parse [p, .int .u64 buffer.length] m .null) := by
  rcases c85_model buffer hlen ms ht with ⟨_, s, e⟩ | ⟨h, _⟩
  · exact c82_parse_ok m h0 hw hov buffer hlen p hp _ s e
  · omega

/-- C82: with its first request refused `sml_file_parse` does not report an error: it writes through `NULL`, whatever it is given and whatever is in
memory. -/
theorem c82_nothing (m : Mem) (av : Nat → Bool) (ha : av m.next = false) (p : Val) (t : ITy) (len : Int) :
    ScarceBad av .sml_file_parse [p, .int t len] m .null := by
  refine ⟨2, fun n hn env => ?_⟩
  obtain ⟨n, rfl⟩ : ∃ k, n = k + 2 := ⟨n - 2, by omega⟩
  have hr : ∀ env, room (scarce program av (n + 1)) env m = .ok false env { m with next := m.next + 1 } := by
    intro env
    rw [room, show (scarce program av (n + 1)).avail = av from rfl, ha]
    rfl
  have hb : ∀ env m, bindArgs sml_file_parse.params [p, .int t len] env m = .ok [p, .int .u64 (ITy.conv .u64 len)] env m := fun _ _ => rfl
  have h1 : exec (scarce program av (n + 1)) (n + 1) (.setPtr 2 (.mallocRec 2 1)) (envOf [p, .int .u64 (ITy.conv .u64 len)]) m =
      .ok .next (upd (envOf [p, .int .u64 (ITy.conv .u64 len)]) 2 nullPtr) { m with next := m.next + 1 } := by
    rw [exec, eval, X_bind, X_bind_ok (hr _)]
    rfl
  have h2 : ∀ m env, exec (scarce program av (n + 1)) (n + 1) (.stRec (.var 2) [.null, .null] [(.i16, .lit .i32 0)]) (upd env 2 nullPtr) m = .bad .null := by
    intro m env
    rfl
  have h3 : ∀ ss, execs (scarce program av (n + 1)) (n + 1) (.setPtr 2 (.mallocRec 2 1) :: .stRec (.var 2) [.null, .null] [(.i16, .lit .i32 0)] :: ss)
      (envOf [p, .int .u64 (ITy.conv .u64 len)]) m = .bad .null := by
    intro ss
    rw [execs, X_bind_ok h1]
    simp only [execs]
    rw [X_bind, h2]
  change runFun (scarce program av (n + 1)) (n + 1) sml_file_parse _ env m = _
  rw [runFun, X_bind_ok (hb env m), X_bind, inFrame, runFrom, X_bind]
  unfold sml_file_parse
  simp only [h3]

/-- With no memory at all, for a length of zero and a pointer that is not valid. -/
example : ScarceBad (fun _ => false) .sml_file_parse [.ptr (.heap 77) 0, .int .u64 0] telegramMem .null :=
  c82_nothing telegramMem _ rfl _ _ _

/-- The telegram with three messages: with memory for the first `k` requests it is parsed and freed, if `k` is large enough; if the third request is
refused (the first two being for the file and the buffer), `sml_file_parse` writes through `NULL`. -/
example : (∃ k file m1 m2, ScarceTo (fun i => decide (i < 2 + k)) .sml_file_parse [.ptr (.heap 1) 0, .int .u64 Samples.telegram.length] telegramMem (.ptr (.heap file) 0) m1 ∧
      ScarceTo (fun i => decide (i < 2 + k)) .sml_file_free [.ptr (.heap file) 0] m1 .undef m2) ∧
    ScarceBad (fun i => i != 4) .sml_file_parse [.ptr (.heap 1) 0, .int .u64 Samples.telegram.length] telegramMem .null := by
  have hw : ∀ a, telegramMem.next ≤ a → telegramMem.heap a = none := fun a ha => if_neg (by simp only [telegramMem] at ha; omega)
  obtain ⟨file, k, m1, m2, f, s, _, h1, h2, h⟩ := c82_parse telegramMem (by decide) hw rfl Samples.telegram (by decide +kernel) _ telegramMem_load
  refine ⟨⟨k, file, m1, m2, (h _).1 fun i hi => decide_eq_true ?_⟩, (h _).2 ⟨2, by omega, rfl⟩⟩
  show 2 + i < 2 + k
  omega

/-- The same for a telegram of 32767 messages of a conforming sender, longer than 294912 bytes. -/
example : ∃ bs : List UInt8, 294912 < bs.length ∧ Sml.Spec.Standard.Telegram (List.replicate 32767 stdMessage) bs ∧
    (∃ k file m1 m2, ScarceTo (fun i => decide (i < 2 + k)) .sml_file_parse [.ptr (.heap 1) 0, .int .u64 bs.length] (bytesMem bs) (.ptr (.heap file) 0) m1 ∧
      ScarceTo (fun i => decide (i < 2 + k)) .sml_file_free [.ptr (.heap file) 0] m1 .undef m2) ∧
    ScarceBad (fun i => i != 4) .sml_file_parse [.ptr (.heap 1) 0, .int .u64 bs.length] (bytesMem bs) .null := by
  have hl : 10 ≤ stdMsg.length ∧ stdMsg.length ≤ 1000 := by decide +kernel
  have hw : ∀ bs a, (bytesMem bs).next ≤ a → (bytesMem bs).heap a = none := fun bs a ha => if_neg (by simp only [bytesMem] at ha; omega)
  have l1 := stdMany_length 32767
  have s1 := stdMany 32767
  generalize stdMsg.length = k at hl l1
  generalize (List.replicate 32767 stdMsg).flatten ++ [(0x00 : UInt8)] = bs at l1 s1
  obtain ⟨file, k, m1, m2, h1, h2, h⟩ := c82_parse_long (bytesMem bs) Nat.zero_lt_two (hw bs) rfl bs (by omega) _ (bytesMem_load bs) _
    (Sml.Std.und_telegram s1 ⟨by omega, by omega⟩) (by rw [List.length_replicate]; omega)
  refine ⟨bs, by omega, s1, ⟨k, file, m1, m2, (h _).1 fun i hi => decide_eq_true ?_⟩, (h _).2 ⟨2, by omega, rfl⟩⟩
  show 2 + i < 2 + k
  omega

/-! ## A function that looks -/

/-- C82: `sml_number_init` returns `NULL` if it gets no memory, and changes nothing. -/
theorem c82_number_init (m : Mem) (av : Nat → Bool) (ha : av m.next = false) (v size ty : Nat) (hv : v < 2 ^ 64) (hs : size ≤ 8) :
    ScarceTo av .sml_number_init [.int .u64 v, .int .u8 ty, .int .i32 size] m (.ptr (.heap 0) 0) { m with next := m.next + 1 } :=
  numberInit_poor m ha (conv_u64 (by omega) (by omega)) hv hs

/-- A number of four bytes in a memory without any room. -/
example : ScarceTo (fun _ => false) .sml_number_init [.int .u64 258, .int .u8 0x60, .int .i32 4] telegramMem (.ptr (.heap 0) 0) { telegramMem with next := 3 } :=
  c82_number_init telegramMem _ rfl 258 4 0x60 (by decide) (by decide)

end Sml.C
