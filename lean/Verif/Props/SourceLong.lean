import Verif.Proofs.SourceCount
import Verif.Proofs.FileLong
import Verif.Props.Source
import Verif.Props.Blocks

/-!
# C85: the source of the parser on telegrams of any length

C68 runs `sml_file_parse` from its source on telegrams of up to 294912 bytes. Here the telegram has any length up to `INT_MAX`. The
number of its messages, by the grammar of `Spec.Grammar`, decides: up to 32767 of them are read, kept and freed; with one more the
counter of messages, a `short`, becomes negative and `sml_file_add_message` stores in front of its array.
-/

namespace Sml.C

open Spec

/-- Every telegram has exactly one reading. -/
theorem c85_reading (buffer : List UInt8) (hlen : buffer.length ≤ 2147483647) :
    ∃ ms, Grammar.Telegram (buffer.length + 1) buffer ms ∧ ∀ ms', Grammar.Telegram (buffer.length + 1) buffer ms' → ms' = ms := by
  obtain ⟨ms, s, h⟩ := run_total (depth := buffer.length + 1) buffer.length { data := buffer, live := 3 } hlen ⟨by simp, rfl, by simp; omega⟩ (by simp)
  exact ⟨ms, run_telegram h rfl (by simp) hlen, telegram_unique h rfl (by simp) hlen⟩

/-- The model overflows its counter exactly on telegrams of more than 32767 messages. -/
theorem c85_model (buffer : List UInt8) (hlen : buffer.length ≤ 2147483647) (ms : List Message) (ht : Grammar.Telegram (buffer.length + 1) buffer ms) :
    (ms.length ≤ 32767 ∧ ∃ s, fileParse (buffer.length + 1) buffer = .ok { messages := ms } s) ∨
      (32768 ≤ ms.length ∧ fileParse (buffer.length + 1) buffer = .ub .counter) := by
  have hpre : Pre (4 * (buffer.length + 1)) ({ data := buffer, live := 3 } : St) := ⟨by simp, rfl, by simp; omega⟩
  have hone : ∀ {ms' s}, Run (messageParse (buffer.length + 1)) { data := buffer, live := 3 } ms' s → ms = ms' := fun h => telegram_unique h rfl (by simp) hlen ms ht
  rcases fileLoop_ends (depth := buffer.length + 1) (buffer.length + 1) { messages := [] } { data := buffer, live := 3 } hlen hpre (by simp) with ⟨f, s, h, _⟩ | ⟨h, _⟩
  · have := hone (Sml.fileParse_run (depth := buffer.length + 1) h)
    subst this
    exact .inl ⟨fileLoop_count _ _ _ _ _ h (by simp), s, h⟩
  · obtain ⟨ms', s, hr, hc⟩ := fileLoop_over _ _ _ hlen hpre (by simp) h
    rw [hone hr]
    exact .inr ⟨by simpa using hc, h⟩

/-- C85: a telegram of up to `INT_MAX` bytes with at most 32767 messages is read by the source of `sml_file_parse` without an undefined step:
memory then holds exactly these messages, the source of `sml_file_free` frees them, the blocks and local objects of the caller stay as they are, and every other
block is gone again, unless the bytes hold the start of a DZG serial number. A signed computation overflows only if seven consecutive
bytes have their top bit set. -/
theorem c85_parse (m : Mem) (h0 : 0 < m.next) (hw : ∀ a, m.next ≤ a → m.heap a = none) (hov : m.sovf = false) (buffer : List UInt8)
    (hlen : buffer.length ≤ 2147483647) (p : Val) (hp : ∀ env, loadBytes p buffer.length env m = .ok buffer env m) (ms : List Message)
    (ht : Grammar.Telegram (buffer.length + 1) buffer ms) (hc : ms.length ≤ 32767) :
    ∃ file buf m1 m2 L, CallTo .sml_file_parse [p, .int .u64 buffer.length] m (.ptr (.heap file) 0) m1 ∧
      CallTo .sml_file_free [.ptr (.heap file) 0] m1 .undef m2 ∧ HoldsFile m1 file buf ms L ∧
      file ≠ 0 ∧ m1.stack = m.stack ∧ m2.stack = m.stack ∧
      (∀ a b, m.heap a = some b → m1.heap a = some b ∧ m2.heap a = some b) ∧
      (m2.heap = m.heap ∨ ∃ i, (buffer.drop i).take 5 = [0x0a, 0x01, 0x44, 0x5a, 0x47]) ∧
      (m2.sovf = true → ∃ i, ∀ j, j < 7 → ∃ b, buffer[i + j]? = some b ∧ 128 ≤ b.toNat) := by
  obtain ⟨s, e⟩ : ∃ s, fileParse (buffer.length + 1) buffer = .ok { messages := ms } s := by
    rcases c85_model buffer hlen ms ht with ⟨_, h⟩ | ⟨h, _⟩
    · exact h
    · omega
  obtain ⟨hst, _, _, hex⟩ := fileParse_ok hlen (by omega) e
  obtain ⟨h1, h2, L, g, g', c1, c2, i1, hr, o1, o2, l1, l2, _⟩ := source_run_ok h0 hw hov hlen hp e
  have old : ∀ a b, m.heap a = some b → a < m.next := by
    intro a b hb
    apply Decidable.byContradiction
    intro hn
    rw [hw a (by omega)] at hb
    cases hb
  refine ⟨m.next, m.next + 1, _, _, L, c1, c2, ⟨hr, ?_, ?_⟩, by omega, rfl, rfl, ?_, ?_, ?_⟩
  · have := o1.nodup
    rw [List.map_append] at this
    exact (List.nodup_append.mp this).1
  · intro x hx
    exact conc_cell i1 (o1.mem x (List.mem_append_left g hx))
  · intro a b hb
    have ha := old a b hb
    constructor
    · show (if a = m.next + 1 then _ else if a = m.next + 2 then _ else (fileCtx m).blocks h1 a) = _
      rw [if_neg (by omega), if_neg (by omega)]
      simp only [Ctx.blocks, o1.old a ha]
      exact hb
    · show (fileCtx m).blocks h2 a = _
      simp only [Ctx.blocks, o2.old a ha]
      exact hb
  · cases hcf : s.confused with
    | false =>
      have := hex hcf
      obtain ⟨rfl, rfl⟩ : g' = [] ∧ g = [] := ⟨List.length_eq_zero_iff.mp (by omega), List.length_eq_zero_iff.mp (by omega)⟩
      refine .inl (funext fun a => ?_)
      show (fileCtx m).blocks h2 a = _
      simp only [Ctx.blocks, o2.rest a (by simp)]
      rfl
    | true =>
      rcases hst.conf hcf with h | h
      · cases h
      · exact .inr h
  · intro ho
    rcases hst.sovf ho with h | h
    · cases h
    · exact h

/-- C85: with more messages the source of `sml_file_parse` gets to an undefined step, whatever the fuel: the store in front of the array of messages. -/
theorem c85_overflow (m : Mem) (h0 : 0 < m.next) (hw : ∀ a, m.next ≤ a → m.heap a = none) (hov : m.sovf = false) (buffer : List UInt8)
    (hlen : buffer.length ≤ 2147483647) (p : Val) (hp : ∀ env, loadBytes p buffer.length env m = .ok buffer env m) (ms : List Message)
    (ht : Grammar.Telegram (buffer.length + 1) buffer ms) (hc : 32768 ≤ ms.length) (n : Nat) (env : Env) :
    call program n .sml_file_parse [p, .int .u64 buffer.length] env m = .bad (.buf .fuel) ∨
      call program n .sml_file_parse [p, .int .u64 buffer.length] env m = .bad (.buf .oobRead) := by
  rcases c85_model buffer hlen ms ht with ⟨h, _⟩ | ⟨_, h⟩
  · omega
  · exact (fileParse_full (depth := buffer.length + 1) (by omega) hw hov hlen (by omega) hp h).all n env

/-- C85: the source of `sml_file_parse` returns exactly on the telegrams with at most 32767 messages. -/
theorem c85_returns_iff (m : Mem) (h0 : 0 < m.next) (hw : ∀ a, m.next ≤ a → m.heap a = none) (hov : m.sovf = false) (buffer : List UInt8)
    (hlen : buffer.length ≤ 2147483647) (p : Val) (hp : ∀ env, loadBytes p buffer.length env m = .ok buffer env m) :
    (∃ v m1, CallTo .sml_file_parse [p, .int .u64 buffer.length] m v m1) ↔ ∃ ms, Grammar.Telegram (buffer.length + 1) buffer ms ∧ ms.length ≤ 32767 := by
  constructor
  · rintro ⟨v, m1, h⟩
    obtain ⟨ms, ht, _⟩ := c85_reading buffer hlen
    refine ⟨ms, ht, ?_⟩
    rcases c85_model buffer hlen ms ht with ⟨hc, _⟩ | ⟨_, hu⟩
    · exact hc
    · exact absurd ⟨v, m1, h⟩ (fileParse_full (depth := buffer.length + 1) (by omega) hw hov hlen (by omega) hp hu).no
  · rintro ⟨ms, ht, hc⟩
    obtain ⟨file, buf, m1, m2, L, c1, _⟩ := c85_parse m h0 hw hov buffer hlen p hp ms ht hc
    exact ⟨_, m1, c1⟩

/-- C85: what a conforming sender says is understood if it takes at most 32767 messages, and is memory corruption otherwise. -/
theorem c85_standard (m : Mem) (h0 : 0 < m.next) (hw : ∀ a, m.next ≤ a → m.heap a = none) (hov : m.sovf = false) (ms : List Message) (bs : List UInt8)
    (hs : Standard.Telegram ms bs) (hlen : bs.length ≤ 2147483647) (p : Val) (hp : ∀ env, loadBytes p bs.length env m = .ok bs env m) :
    (ms.length ≤ 32767 → ∃ file buf m1 m2 L, CallTo .sml_file_parse [p, .int .u64 bs.length] m (.ptr (.heap file) 0) m1 ∧ HoldsFile m1 file buf ms L ∧
      CallTo .sml_file_free [.ptr (.heap file) 0] m1 .undef m2) ∧
    (32768 ≤ ms.length → ∀ n env, call program n .sml_file_parse [p, .int .u64 bs.length] env m = .bad (.buf .fuel) ∨
      call program n .sml_file_parse [p, .int .u64 bs.length] env m = .bad (.buf .oobRead)) := by
  have ht : Grammar.Telegram (bs.length + 1) bs ms := Std.und_telegram hs ⟨by omega, by omega⟩
  refine ⟨fun hc => ?_, fun hc n env => c85_overflow m h0 hw hov bs hlen p hp ms ht hc n env⟩
  obtain ⟨file, buf, m1, m2, L, c1, c2, hf, _⟩ := c85_parse m h0 hw hov bs hlen p hp ms ht hc
  exact ⟨file, buf, m1, m2, L, c1, hf, c2⟩

/-- C85: where the file is: C69 for every telegram with at most 32767 messages. -/
theorem c85_result (m : Mem) (h0 : 0 < m.next) (hw : ∀ a, m.next ≤ a → m.heap a = none) (hov : m.sovf = false) (buffer : List UInt8)
    (hlen : buffer.length ≤ 2147483647) (p : Val) (hp : ∀ env, loadBytes p buffer.length env m = .ok buffer env m) (ms : List Message)
    (ht : Grammar.Telegram (buffer.length + 1) buffer ms) (hc : ms.length ≤ 32767) :
    ∃ file buf bytes m1 L cursor, ∃ err : Bool, CallTo .sml_file_parse [p, .int .u64 buffer.length] m (.ptr (.heap file) 0) m1 ∧
      HoldsFile m1 file buf ms L ∧ (∀ x ∈ L, m.next ≤ x.1 ∧ x.1 ≠ buf ∧ x.1 ≠ bytes) ∧ m.next ≤ buf ∧ m.next ≤ bytes ∧ buf ≠ bytes ∧
      m1.heap buf = some (.obj [.ptr (.heap bytes) 0, nullPtr] [buffer.length, cursor, if err then 1 else 0]) ∧ (err = false → cursor = (buffer.length : Int)) ∧
      m1.heap bytes = some (.raw (buffer.map some)) := by
  obtain ⟨s, e⟩ : ∃ s, fileParse (buffer.length + 1) buffer = .ok { messages := ms } s := by
    rcases c85_model buffer hlen ms ht with ⟨_, h⟩ | ⟨h, _⟩
    · exact h
    · omega
  obtain ⟨file, buf, bytes, m1, L, c, hf, k1, k2, k3, k4, k5, k6, _⟩ := c69_result_ok m h0 hw hov buffer hlen p hp (buffer.length + 1) (by omega) _ s e
  refine ⟨file, buf, bytes, m1, L, s.cursor, s.error, c, hf, k1, k2, k3, k4, k5, fun he => ?_, k6⟩
  rcases c02_terminates buffer (buffer.length + 1) hlen (by omega) with ⟨f, s', e', h⟩ | ⟨e', _⟩
  · rw [e] at e'
    cases e'
    rcases h with h | h
    · rw [he] at h
      cases h
    · rw [h]
  · rw [e] at e'
    cases e'

/-- C85: a second `sml_file_free` uses a freed block, whatever the fuel, unless the bytes hold the start of a DZG serial number. -/
theorem c85_double_free (m : Mem) (h0 : 0 < m.next) (hw : ∀ a, m.next ≤ a → m.heap a = none) (hov : m.sovf = false) (buffer : List UInt8)
    (hlen : buffer.length ≤ 2147483647) (p : Val) (hp : ∀ env, loadBytes p buffer.length env m = .ok buffer env m) (ms : List Message)
    (ht : Grammar.Telegram (buffer.length + 1) buffer ms) (hc : ms.length ≤ 32767) (hz : ¬ ∃ i, (buffer.drop i).take 5 = [0x0a, 0x01, 0x44, 0x5a, 0x47]) :
    ∃ file m1 m2, CallTo .sml_file_parse [p, .int .u64 buffer.length] m (.ptr (.heap file) 0) m1 ∧ CallTo .sml_file_free [.ptr (.heap file) 0] m1 .undef m2 ∧
      ∀ n env, call program n .sml_file_free [.ptr (.heap file) 0] env m2 = .bad (.buf .fuel) ∨
        call program n .sml_file_free [.ptr (.heap file) 0] env m2 = .bad .dangling := by
  rcases c85_model buffer hlen ms ht with ⟨_, s, e⟩ | ⟨h, _⟩
  · exact c68_double_free_ok m h0 hw hov buffer hlen p hp hz _ s e
  · omega

/-! ## Telegrams of both kinds -/

/-- A memory with the bytes `bs` in block 1. -/
def bytesMem (bs : List UInt8) : Mem := { next := 2, heap := fun a => if a = 1 then some (.raw (bs.map some)) else none, stack := [], sovf := false }

theorem bytesMem_load (bs : List UInt8) (env : Env) : loadBytes (.ptr (.heap 1) 0) bs.length env (bytesMem bs) = .ok bs env (bytesMem bs) := by
  have := loadBytes_raw (l := .heap 1) (i := 0) (n := bs.length) (env := env) (m := bytesMem bs) (bs := bs) rfl (by omega)
  rwa [List.drop_zero, List.take_length] at this

/-- A conforming telegram of 32767 messages, longer than 294912 bytes, is understood; one more message, and memory is corrupted. -/
example : ∃ bs bs' : List UInt8, 294912 < bs.length ∧ Standard.Telegram (List.replicate 32767 stdMessage) bs ∧ Standard.Telegram (List.replicate 32768 stdMessage) bs' ∧
    (∃ file buf m1 m2 L, CallTo .sml_file_parse [.ptr (.heap 1) 0, .int .u64 bs.length] (bytesMem bs) (.ptr (.heap file) 0) m1 ∧
      HoldsFile m1 file buf (List.replicate 32767 stdMessage) L ∧ CallTo .sml_file_free [.ptr (.heap file) 0] m1 .undef m2) ∧
    ∀ n env, call program n .sml_file_parse [.ptr (.heap 1) 0, .int .u64 bs'.length] env (bytesMem bs') = .bad (.buf .fuel) ∨
      call program n .sml_file_parse [.ptr (.heap 1) 0, .int .u64 bs'.length] env (bytesMem bs') = .bad (.buf .oobRead) := by
  have hl : 10 ≤ stdMsg.length ∧ stdMsg.length ≤ 1000 := by decide +kernel
  have hw : ∀ bs a, (bytesMem bs).next ≤ a → (bytesMem bs).heap a = none := fun bs a ha => if_neg (by simp only [bytesMem] at ha; omega)
  have l1 := stdMany_length 32767
  have l2 := stdMany_length 32768
  have s1 := stdMany 32767
  have s2 := stdMany 32768
  generalize stdMsg.length = k at hl l1 l2
  generalize (List.replicate 32767 stdMsg).flatten ++ [(0x00 : UInt8)] = bs at l1 s1
  generalize (List.replicate 32768 stdMsg).flatten ++ [(0x00 : UInt8)] = bs' at l2 s2
  refine ⟨bs, bs', by omega, s1, s2, ?_, ?_⟩
  · exact (c85_standard (bytesMem bs) (Nat.zero_lt_two) (hw bs) rfl _ bs s1 (by omega) _ (bytesMem_load bs)).1 (by rw [List.length_replicate]; omega)
  · exact (c85_standard (bytesMem bs') (Nat.zero_lt_two) (hw bs') rfl _ bs' s2 (by omega) _ (bytesMem_load bs')).2 (by rw [List.length_replicate]; omega)

end Sml.C
