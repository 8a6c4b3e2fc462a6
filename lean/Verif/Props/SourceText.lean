import Verif.Proofs.SourceStrhex
import Verif.Spec.Util

/-!
# Strings and texts, run from the source: C78
-/

namespace Sml.C

open Spec

/-- The bytes a hexadecimal text denotes are those its pairs of characters are converted to. -/
theorem pairBytes_denotes {text bs : List UInt8} (h : Denotes text bs) : pairBytes text = bs := by
  induction h with
  | nil => rfl
  | @cons c1 c2 b hi lo t bs h1 h2 h3 h4 ih =>
    obtain ⟨a1, a2⟩ := ctoi_digit c1 hi h1
    obtain ⟨b1, b2⟩ := ctoi_digit c2 lo h2
    have hb : Sml.c2toi c1 c2 = b := by
      apply UInt8.toNat_inj.1
      unfold Sml.c2toi
      rw [nibble_pair _ _ (by omega) (by omega), a1, b1, h3]
    rw [pairBytes, ih, hb]

/-- A hexadecimal text contains no 0. -/
theorem denotes_text {text bs : List UInt8} (h : Denotes text bs) : 0 ∉ text := by
  have z : digitValue 0 = none := by decide +kernel
  induction h with
  | nil => simp
  | @cons c1 c2 b hi lo t bs h1 h2 h3 h4 ih =>
    intro hm
    rcases List.mem_cons.1 hm with rfl | hm
    · rw [z] at h1; cases h1
    · rcases List.mem_cons.1 hm with rfl | hm
      · rw [z] at h2; cases h2
      · exact ih hm

theorem denotes_even {text bs : List UInt8} (h : Denotes text bs) : text.length % 2 = 0 := by rw [denotes_length h]; omega

/-- C78: from a text that denotes the bytes `bs`, in digits of either case, `sml_octet_string_init_from_hex` makes a new string with these bytes:
two new blocks, everything else as it was. -/
theorem c78_fromHex {m : Mem} {text bs : List UInt8} (ht : TextAt m a text) (hd : Denotes text bs) (hn : text.length ≤ 2147483647) (hne : text ≠ []) (h0 : m.next ≠ 0)
    (hw : ∀ a, m.next ≤ a → m.heap a = none) :
    ∃ m', CallTo .sml_octet_string_init_from_hex [ptrVal a] m (ptrVal m.next) m' ∧ StrAt m' m.next bs ∧ m'.next = m.next + 2 ∧ m'.stack = m.stack ∧ m'.world = m.world ∧
      m'.sovf = m.sovf ∧ ∀ c b, m.heap c = some b → m'.heap c = some b := by
  have hp := pairBytes_denotes hd
  have hl := denotes_length hd
  have hb : bs ≠ [] := fun e => hne (List.length_eq_zero_iff.1 (by rw [hl, e]; rfl))
  have r := fromHex_run ht hn h0 (denotes_even hd) hne
  rw [hp] at r
  exact ⟨_, r, withStr_at h0 hb (by omega), by simp [withStr, hb], by simp [withStr, hb], by simp [withStr, hb], by simp [withStr, hb], fun _ _ => withStr_old hw⟩

/-- C78: a text of odd length gives NULL and changes nothing; the empty text makes an array without elements, which is undefined. -/
theorem c78_fromHex_bad {m : Mem} {text : List UInt8} (ht : TextAt m a text) (hn : text.length ≤ 2147483647) :
    (text.length % 2 = 1 → CallTo .sml_octet_string_init_from_hex [ptrVal a] m nullPtr m) ∧
    (text = [] → CallBad .sml_octet_string_init_from_hex [ptrVal a] m (.buf .vla)) :=
  ⟨fromHex_none ht hn, fromHex_empty ht hn⟩

/-- C78: `sml_octet_string_cmp` returns 0 exactly for equal strings and a negative number exactly if the lengths differ or the first is before the second in
the lexicographic order, and changes nothing. -/
theorem c78_cmp {m : Mem} {x y : List UInt8} (hs : StrAt m a x) (ht : StrAt m b y) :
    ∃ r : Int, CallTo .sml_octet_string_cmp [ptrVal a, ptrVal b] m (.int .i32 r) m ∧ (r = 0 ↔ x = y) ∧ (r < 0 ↔ x.length ≠ y.length ∨ x < y) := by
  obtain ⟨s1, s2⟩ := cmpVal_sign x y
  refine ⟨_, cmp_run hs ht, ?_, ?_⟩
  · rw [s2, c42_equal, OctetString.mk.injEq]
  · rw [s1]
    obtain ⟨c1, c2⟩ := c42_sign ⟨x⟩ ⟨y⟩
    by_cases he : x.length = y.length
    · rw [c1 he]
      exact ⟨.inr, fun h => h.resolve_left fun h => h he⟩
    · exact ⟨fun _ => .inl he, fun _ => by rw [(c2 he).1]; decide⟩

/-- C78: comparing with a text is 0 exactly if the text denotes the string; the string made for it is freed. -/
theorem c78_cmpHex {m : Mem} {text x bs : List UInt8} (hs : StrAt m s x) (ht : TextAt m a text) (hd : Denotes text bs) (hn : text.length ≤ 2147483647) (hne : text ≠ [])
    (h0 : m.next ≠ 0) (hw : ∀ a, m.next ≤ a → m.heap a = none) :
    ∃ r : Int, CallTo .sml_octet_string_cmp_with_hex [ptrVal s, ptrVal a] m (.int .i32 r) { m with next := m.next + 2 } ∧ (r = 0 ↔ x = bs) ∧
      (r < 0 ↔ x.length ≠ bs.length ∨ x < bs) := by
  have r := cmpHex_run hs ht hn h0 hw (denotes_even hd) hne
  rw [pairBytes_denotes hd] at r
  obtain ⟨s1, s2⟩ := cmpVal_sign x bs
  refine ⟨_, r, ?_, ?_⟩
  · rw [s2, c42_equal, OctetString.mk.injEq]
  · rw [s1]
    obtain ⟨c1, c2⟩ := c42_sign ⟨x⟩ ⟨bs⟩
    by_cases he : x.length = bs.length
    · rw [c1 he]
      exact ⟨.inr, fun h => h.resolve_left fun h => h he⟩
    · exact ⟨fun _ => .inl he, fun _ => by rw [(c2 he).1]; decide⟩

/-- C78: comparing with a text of odd length uses NULL, and comparing with the empty text makes an array without elements. -/
theorem c78_cmpHex_bad {m : Mem} {text x : List UInt8} (hs : StrAt m s x) (ht : TextAt m a text) (hn : text.length ≤ 2147483647) :
    (text.length % 2 = 1 → CallBad .sml_octet_string_cmp_with_hex [ptrVal s, ptrVal a] m .null) ∧
    (text = [] → CallBad .sml_octet_string_cmp_with_hex [ptrVal s, ptrVal a] m (.buf .vla)) :=
  ⟨cmpHex_odd hs ht hn, fun h => cmpHex_empty (h ▸ ht)⟩

/-- C78: `sml_value_to_strhex` returns NULL for a value without a string and changes nothing. -/
theorem c78_strhex_null {m : Mem} {v d p : Nat} {q : Val} (h1 : v ≠ 0 → m.heap v = some (.obj [ptrVal d] is))
    (h2 : v ≠ 0 → d ≠ 0 → m.heap d = some (.obj [ptrVal p] js)) (h : v = 0 ∨ d = 0 ∨ p = 0) : CallTo .sml_value_to_strhex [ptrVal v, q, boolVal mixed] m nullPtr m :=
  strhex_null h1 h2 h

/-- C78: for a value with a string it returns a new array of three characters for every byte and one more, writes the rendering of the string and a 0 into it and nothing
outside of it, and stores the address in `*result` too. -/
theorem c78_strhex {m : Mem} {v d k : Nat} {bs : List UInt8} {w : Val} (hv0 : v ≠ 0) (h1 : m.heap v = some (.obj [ptrVal d] is)) (hd : StrAt m d bs) (hne : bs ≠ [])
    (hk : m.stack[k]? = some (.obj [w] [])) (hn : bs.length * 3 + 1 ≤ 2147483647) (h0 : m.next ≠ 0) (hw : ∀ a, m.next ≤ a → m.heap a = none) :
    ∃ rest, (rendering mixed bs).length + 1 + rest.length = bs.length * 3 + 1 ∧
      CallTo .sml_value_to_strhex [ptrVal v, .ptr (.stack k) 0, boolVal mixed] m (ptrVal m.next)
        { m with next := m.next + 1, heap := setHeap m.heap m.next (some (.raw ((rendering mixed bs).map some ++ some 0 :: rest))), stack := m.stack.set k (.obj [ptrVal m.next] []) } := by
  obtain ⟨hd0, _, p, e1, e2⟩ := hd
  obtain ⟨hp0, e2⟩ := e2 hne
  have r := strhex_run (mixed := mixed) h0 hp0 e2 hv0 hd0 hw h1 e1 hk hn
  have hl := rendering_length mixed bs
  refine ⟨List.replicate (bs.length * 3 - (rendering mixed bs).length) none, by simp; omega, ?_⟩
  have e : textSoFar (bs.length * 3 + 1) (rendering mixed bs ++ [0]) = (rendering mixed bs).map some ++ some 0 :: List.replicate (bs.length * 3 - (rendering mixed bs).length) none := by
    rw [textSoFar, List.map_append, List.append_assoc, List.length_append]
    simp
  rwa [strMem, e] at r

/-- C78: `sml_get_profile_list_request_noop` does nothing. -/
theorem c78_noop (m : Mem) : CallTo .sml_get_profile_list_request_noop [] m .undef m :=
  .of (vs := []) (fun env m => rfl) .nil fun env => by rw [List.take_length]; rfl

/-! ## An example -/

/-- A memory with the string `0a ff` at 1 and its bytes at 2, the text "0AfF" at 3, a value with the string at 4, and a pointer on the stack. -/
def textMem : Mem where
  next := 5
  heap := fun a => if a = 1 then some (.obj [ptrVal 2] [2]) else if a = 2 then some (.raw [some 0x0A, some 0xFF])
    else if a = 3 then some (.raw [some 0x30, some 0x41, some 0x66, some 0x46, some 0]) else if a = 4 then some (.obj [ptrVal 1] [4]) else none
  stack := [.obj [.undef] []]

theorem textMem_str : StrAt textMem 1 [0x0A, 0xFF] := ⟨by decide, by decide, 2, rfl, fun _ => ⟨by decide, rfl⟩⟩
theorem textMem_text : TextAt textMem 3 [0x30, 0x41, 0x66, 0x46] := ⟨by decide, by decide, [], rfl⟩
theorem textMem_new : ∀ a, textMem.next ≤ a → textMem.heap a = none := by
  intro a ha
  have : 5 ≤ a := ha
  simp only [textMem]
  rw [if_neg (by omega), if_neg (by omega), if_neg (by omega), if_neg (by omega)]
theorem textMem_denotes : Denotes [0x30, 0x41, 0x66, 0x46] [0x0A, 0xFF] :=
  .cons (h := 0) (l := 10) (by decide +kernel) (by decide +kernel) rfl (.cons (h := 15) (l := 15) (by decide +kernel) (by decide +kernel) rfl .nil)

/-- The text "0AfF" denotes the string, and the comparison says so. -/
example : CallTo .sml_octet_string_cmp_with_hex [ptrVal 1, ptrVal 3] textMem (.int .i32 0) { textMem with next := 7 } := by
  obtain ⟨r, h, h1, _⟩ := c78_cmpHex textMem_str textMem_text textMem_denotes (by decide) (by decide) (by decide) textMem_new
  rwa [h1.2 rfl] at h

example : ∃ m', CallTo .sml_octet_string_init_from_hex [ptrVal 3] textMem (ptrVal 5) m' ∧ StrAt m' 5 [0x0A, 0xFF] := by
  obtain ⟨m', h, h1, _⟩ := c78_fromHex textMem_text textMem_denotes (by decide) (by decide) (by decide) textMem_new
  exact ⟨m', h, h1⟩

example : CallTo .sml_octet_string_cmp [ptrVal 1, ptrVal 1] textMem (.int .i32 0) textMem := by
  obtain ⟨r, h, h1, _⟩ := c78_cmp textMem_str textMem_str
  rwa [h1.2 rfl] at h

/-- "0a ff " -/
example : CallTo .sml_value_to_strhex [ptrVal 4, .ptr (.stack 0) 0, boolVal true] textMem (ptrVal 5)
    { textMem with next := 6, heap := setHeap textMem.heap 5 (some (.raw [some 0x30, some 0x61, some 0x20, some 0x66, some 0x66, some 0x20, some 0])), stack := [.obj [ptrVal 5] []] } := by
  have h := c78_strhex (m := textMem) (mixed := true) (v := 4) (k := 0) (by decide) rfl textMem_str (by decide) rfl (by decide) (by decide) textMem_new
  have e : rendering true [0x0A, 0xFF] = [0x30, 0x61, 0x20, 0x66, 0x66, 0x20] := by decide +kernel
  rw [e] at h
  obtain ⟨rest, hl, h⟩ := h
  obtain rfl : rest = [] := by simpa using hl
  exact h

/-- A text of one digit. -/
example : ∀ m : Mem, m.heap 1 = some (.obj [nullPtr] [0]) → m.heap 3 = some (.raw [some 0x30, some 0]) →
    CallBad .sml_octet_string_cmp_with_hex [ptrVal 1, ptrVal 3] m .null := fun m h1 h3 =>
  (c78_cmpHex_bad (m := m) (text := [0x30]) ⟨by decide, by decide, 0, h1, fun h => absurd rfl h⟩ ⟨by decide, by decide, [], h3⟩ (by decide)).1 rfl

end Sml.C
