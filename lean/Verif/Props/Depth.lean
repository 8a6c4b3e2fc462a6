import Verif.Proofs.Deep
import Verif.Props.RoundTrip
import Verif.Props.Safety
import Verif.Props.Content

/-!
# Stack depth of tree parsing: C05
-/

namespace Sml

open Spec

/-- C05, upper bound: a stack with room for `bytes / 4 + 1` nested calls of `sml_tree_parse` is never exhausted. -/
theorem c05_bound (buffer : List UInt8) (hlen : buffer.length ≤ 2147483647) :
    fileParse (buffer.length / 4 + 1) buffer ≠ .ub .stack := by
  rcases c02_terminates buffer (buffer.length / 4 + 1) hlen (by omega) with ⟨f, s, h, _⟩ | ⟨h, _⟩
  · rw [h]; simp
  · rw [h]; simp

example : ([0x76] : List UInt8).length ≤ 2147483647 := by decide

/-- C05: the trees in what is delivered have at most a quarter as many levels as the telegram has bytes, plus one; `sml_tree_free`
and `sml_tree_write`, which call themselves once per level, nest no deeper. -/
theorem c05_result (buffer : List UInt8) (hlen : buffer.length ≤ 2147483647) (f : File) (s : St)
    (h : fileParse (buffer.length / 4 + 1) buffer = .ok f s) (m : Message) (hm : m ∈ f.messages) :
    messageDepth m ≤ buffer.length / 4 + 1 := by
  obtain ⟨s3, s4, _, h1, h2⟩ := delivered_body hlen h hm
  exact shallow_body h1 h2

/-- C05, exactly: with a stack for `depth` nested calls, a telegram holding one message is read if its parameter trees have at
most `depth` levels; if they have more the stack is exhausted. -/
theorem c05_exact (m : Message) (h : MessageOk true m) (hlen : (fileBytes [m]).length ≤ 2147483647) (depth : Nat) (hd : 0 < depth) :
    (messageDepth m ≤ depth → ∃ s, fileParse depth (fileBytes [m]) = .ok { messages := [sealed m] } s ∧ s.error = false) ∧
    (depth < messageDepth m → fileParse depth (fileBytes [m]) = .ub .stack) := by
  refine ⟨fun hm => ?_, fun hm => ?_⟩
  · have hrun := run_fileLoop (depth := depth) 0 [(checksum m, m)] ((fileBytes [m]).length + 1) { messages := [] } { data := fileBytes [m], live := 3 }
      (by
        intro p hp
        simp only [List.mem_singleton] at hp
        subst hp
        exact ⟨h, hm, Or.inl (checksum_eq m)⟩) hd
      (by
        have := messageBytes_length (checksum m) m
        simp [fileBytes]
        omega)
      (by simp) (by simp [fileBytes]) (by simp) rfl hlen
    exact ⟨_, by
      unfold fileParse
      rw [hrun]
      rfl, rfl⟩
  · unfold fileParse fileLoop
    obtain ⟨bs, hb⟩ := messageBytes_first (checksum m) m
    have e : fileBytes [m] = messageBytes (checksum m) m := by simp [fileBytes]
    have hpos : 0 < (fileBytes [m]).length := by rw [e, hb]; simp
    run
    rw [if_pos hpos, run_getCurrentByte (by exact hpos)]
    run
    have h0 : (fileBytes [m])[0] = 0x76 := by
      simp only [e, hb, List.getElem_cons_zero]
    rw [h0, if_neg (by decide), deep_messageParse m h hm (checksum m) { data := fileBytes [m], live := 3 } [] (by simp [e]) rfl hlen, Res.andThen_ub]

/-- `n` nested lists around an empty node: `73 01 01 71`, again and again. -/
def deepTree : Nat → Tree
  | 0 => .mk none none []
  | n + 1 => .mk none none [deepTree n]

def deepMessage (n : Nat) : Message :=
  { transactionId := some ⟨[0x01]⟩, groupId := some ⟨1, 0⟩, abortOnError := some ⟨1, 0⟩,
    messageBody := some { tag := some ⟨4, 0x501⟩, data := .getProcParameterResponse (some { parameterTree := some (deepTree n) }) },
    crc := none }

theorem deepTree_ok (n : Nat) : TreeFits true (deepTree n) := by
  induction n with
  | zero => exact .mk opt_none opt_none (by decide) (by simp)
  | succ n ih => exact .mk opt_none opt_none (by simp) (by simpa using ih)

theorem deepTree_depth (n : Nat) : treeDepth (deepTree n) = n + 1 := by
  induction n with
  | zero => simp [deepTree, treeDepth, treesDepth]
  | succ n ih => simp [deepTree, treeDepth, treesDepth, ih]; omega

theorem deepTree_length (n : Nat) : (enc (treeTerm (deepTree n))).length = 4 * n + 4 := by
  induction n with
  | zero => decide
  | succ n ih =>
    have e : treeTerm (deepTree (n + 1)) = .list [.absent, .absent, .list [treeTerm (deepTree n)]] := by
      rw [deepTree, treeTerm.eq_def]
      simp [opt, treeTerms]
    simp only [e, enc, encAll, List.length_cons, List.length_nil, List.length_append]
    rw [encHeader_list (n := 0 + 1 + 1 + 1) (by decide), encHeader_list (n := 0 + 1) (by decide)]
    simp [ih]
    omega

theorem messageDepth_deep (n : Nat) : messageDepth (deepMessage n) = n + 1 := deepTree_depth n

theorem deepMessage_ok (n : Nat) : MessageOk true (deepMessage n) :=
  ⟨opt_some (strOk_small (by simp) (by decide) true), opt_some (numOk_lit (by decide) true), opt_some (numOk_lit (by decide) true),
    _, rfl, _, rfl, numOk_lit (by decide) true, rfl, _, rfl, opt_none, opt_none, opt_some (deepTree_ok n)⟩

theorem deepMessage_length (n : Nat) : (fileBytes [deepMessage n]).length = 4 * n + 24 := by
  simp only [fileBytes, List.map_cons, List.map_nil, List.flatten_cons, List.flatten_nil, List.append_nil, messageBytes_length]
  simp [messageHead, messageFields, deepMessage, messageBodyTerm, bodyDataTerm, getProcParameterResponseTerm, enc, encAll, opt, deepTree_length]
  have h : (encHeader 7 6).length = 1 ∧ (enc (strTerm { str := [1] })).length = 2 ∧ (enc (uintTerm 1 { size := 1, val := 0 })).length = 2 ∧
      (encHeader 7 2).length = 1 ∧ (enc (uintTerm 4 { size := 4, val := 1281 })).length = 5 ∧ (encHeader 7 3).length = 1 := by decide +kernel
  obtain ⟨h1, h2, h3, h4, h5, h6⟩ := h
  rw [h1, h2, h3, h4, h5, h6]
  omega

/-- C05, no other bound: for every depth `n` a telegram of `4 n + 26` bytes exhausts a stack with room for `n` nested calls
and is read with room for one more. -/
theorem c05_unbounded (n : Nat) (h0 : 0 < n) (hn : 4 * n + 24 ≤ 2147483647) : ∃ buffer : List UInt8, buffer.length = 4 * n + 24 ∧
    fileParse n buffer = .ub .stack ∧ ∃ f s, fileParse (n + 1) buffer = .ok f s ∧ s.error = false ∧ f.messages ≠ [] := by
  have hm : messageDepth (deepMessage n) = n + 1 := deepTree_depth n
  have hl := deepMessage_length n
  obtain ⟨s, h, he⟩ := (c05_exact _ (deepMessage_ok n) (by omega) (n + 1) (by omega)).1 (by omega)
  exact ⟨_, hl, (c05_exact _ (deepMessage_ok n) (by omega) n h0).2 (by omega), _, s, h, he, by simp⟩

example : (0 : Nat) < 1000 ∧ 4 * 1000 + 24 ≤ 2147483647 := by decide

example : MessageOk true (deepMessage 7) ∧ messageDepth (deepMessage 7) = 8 ∧ (fileBytes [deepMessage 7]).length ≤ 2147483647 :=
  ⟨deepMessage_ok 7, messageDepth_deep 7, by rw [deepMessage_length]; decide⟩

example : ∃ f s m, fileParse ((fileBytes [deepMessage 7]).length / 4 + 1) (fileBytes [deepMessage 7]) = .ok f s ∧ m ∈ f.messages ∧ messageDepth m = 8 := by
  obtain ⟨s, h, _⟩ := (c05_exact _ (deepMessage_ok 7) (by rw [deepMessage_length]; decide) ((fileBytes [deepMessage 7]).length / 4 + 1) (by omega)).1
    (by rw [deepMessage_length, messageDepth_deep]; decide)
  exact ⟨_, s, _, h, List.mem_singleton.2 rfl, messageDepth_deep 7⟩

end Sml
