import Verif.Proofs.Example
import Verif.Props.Transport

/-!
# The receiver of the example program: C50
-/

namespace Sml

open Spec Samples

theorem frame_body (body : List UInt8) (x y z : UInt8) :
    ((frame body x y z).drop 8).take ((frame body x y z).length - 16) = body := by
  rw [frame_length]
  have : (frame body x y z).drop 8 = body ++ (escape ++ [0x1a, x, y, z]) := by
    simp [frame, frameStart, escape]
  rw [this, Nat.add_sub_cancel_left, List.take_left]

theorem fileParse_arrived {depth : Nat} {buffer : List UInt8} (hlen : buffer.length ≤ 2147483647) {f : File} {s : St} (h : fileParse depth buffer = .ok f s) :
    ∀ m ∈ f.messages, Arrived buffer.length m := by
  intro m hm
  refine ⟨fun b hb => ?_, fun r hr => delivered_fits hlen h hm hr⟩
  obtain ⟨t, h1, _, _, h2⟩ := c14_body_kind depth buffer hlen f s h m hm b hb
  exact ⟨t, h1, h2⟩

/-- C50, exactly: let `fr` be any frame such as the transport layer delivers (shorter than its buffer of 8096 bytes, see C38). Its content is
parsed to a file `f`, and the receiver is defined if and only if `f` is `Manageable`; then it prints what `Shows` says, leaves
the program exactly if `-s` is given and a list response is there, and
at the end all memory is released, unless it leaves early because of `-s` or the DZG workaround has lost a block (see C03). -/
theorem c50_exact (fr : List UInt8) (hfr : IsFrame fr) (hlen : fr.length < 8096) (depth : Nat) (hdepth : fr.length < 4 * depth) (verbose single : Bool) :
    ∃ body x y z f s, fr = frame body x y z ∧ fileParse depth body = .ok f s ∧
      (Manageable verbose single f.messages → ∃ info ls ex s', transportReceiver depth verbose single fr = .ok (info, ls, ex) s' ∧
        info = (if verbose then some ⟨f.messages.length, s.cursor, f.messages.map tagOf⟩ else none) ∧
        ShowsMessages (lookedAt single f.messages) ls ∧
        (ex = true ↔ single = true ∧ ∃ m ∈ f.messages, responseOf m ≠ none) ∧
        (s'.live = 0 ∨ single = true ∧ (∃ m ∈ f.messages, responseOf m ≠ none) ∨ ∃ i, (body.drop i).take 5 = [0x0a, 0x01, 0x44, 0x5a, 0x47])) ∧
      (¬ Manageable verbose single f.messages → ∃ u, transportReceiver depth verbose single fr = .ub u) := by
  obtain ⟨body, x, y, z, rfl, _⟩ := hfr
  have hb : (frame body x y z).length = 16 + body.length := frame_length body x y z
  obtain ⟨f, s, s', hp, hfree, hlive⟩ := c03_no_leak body depth (by omega) (by omega)
  have harr := fileParse_arrived (by omega) hp
  refine ⟨body, x, y, z, f, s, rfl, hp, ?_⟩
  obtain ⟨p1, p2⟩ := printMessages_run (n := body.length) (by omega) single f.messages harr s
  obtain ⟨t1, t2⟩ := printTags_run f.messages harr s
  unfold transportReceiver
  rw [if_neg (by omega), frame_body, hp]
  dsimp only
  have hinfo : (verbose = true → ∀ m ∈ f.messages, m.messageBody ≠ none) →
      (if verbose then (do let i ← filePrint f; pure (some i)) else pure none : M (Option FileInfo)) s =
        .ok (if verbose then some ⟨f.messages.length, s.cursor, f.messages.map tagOf⟩ else none) s := by
    intro hv
    cases verbose with
    | false => rfl
    | true =>
      simp only [if_true]
      unfold filePrint
      run
      rw [t1 (hv rfl)]
      rfl
  have hinfo2 : (¬ (verbose = true → ∀ m ∈ f.messages, m.messageBody ≠ none)) → ∃ u,
      (if verbose then (do let i ← filePrint f; pure (some i)) else pure none : M (Option FileInfo)) s = .ub u := by
    intro hv
    cases verbose with
    | false => simp at hv
    | true =>
      simp only [if_true]
      unfold filePrint
      run
      obtain ⟨u, hu⟩ := t2 fun h => hv fun _ => h
      exact ⟨u, by rw [hu]; rfl⟩
  rw [run_bind]
  refine ⟨fun ⟨h1, h2⟩ => ?_, fun h => ?_⟩
  · obtain ⟨l, ex, a, b, c⟩ := p1 h1
    rw [hinfo h2, Res.andThen_ok, run_bind, a]
    simp only [Res.andThen_ok]
    cases ex with
    | true =>
      exact ⟨_, l, true, s, rfl, rfl, b, c, Or.inr (Or.inl (c.1 rfl))⟩
    | false =>
      refine ⟨_, l, false, s', ?_, rfl, b, c, ?_⟩
      · simp only [Bool.false_eq_true, if_false]
        rw [run_bind, hfree]
        rfl
      · rcases hlive with h | ⟨_, h⟩
        · exact Or.inl h
        · exact Or.inr (Or.inr h)
  · by_cases hv : verbose = true → ∀ m ∈ f.messages, m.messageBody ≠ none
    · obtain ⟨u, hu⟩ := p2 fun h1 => h ⟨h1, hv⟩
      exact ⟨u, by rw [hinfo hv, Res.andThen_ok, run_bind, hu, Res.andThen_ub]⟩
    · obtain ⟨u, hu⟩ := hinfo2 hv
      exact ⟨u, by rw [hu, Res.andThen_ub]⟩

/-- C50: all frames the transport layer delivers are such frames, whatever the stream. -/
theorem c50_delivered (fd : Fd) (n : Nat) (hn : fd.pending.length < n) :
    ∃ frames, transportListen n fd = .ok frames ∧ ∀ fr ∈ frames, IsFrame fr ∧ fr.length < 8096 ∧ fr.length < 4 * 2024 := by
  obtain ⟨frames, h1, h2, _⟩ := c38_any n fd hn
  exact ⟨frames, h1, fun fr hfr => ⟨(h2 fr hfr).1, (h2 fr hfr).2, by have := (h2 fr hfr).2; omega⟩⟩

/-- A list response whose entry has no name. -/
def noNameMsg : List UInt8 := [
  0x76, 0x02, 0x01, 0x62, 0x00, 0x62, 0x00, 0x72, 0x63, 0x07, 0x01, 0x77, 0x01, 0x01, 0x01, 0x01,
  0x71, 0x77, 0x01, 0x01, 0x01, 0x01, 0x01, 0x62, 0x05, 0x01, 0x01, 0x01, 0x63, 0xbc, 0x49, 0x00]

/-- A list response whose entry has a name of two bytes. -/
def shortNameMsg : List UInt8 := [
  0x76, 0x02, 0x01, 0x62, 0x00, 0x62, 0x00, 0x72, 0x63, 0x07, 0x01, 0x77, 0x01, 0x01, 0x01, 0x01,
  0x71, 0x77, 0x03, 0x01, 0x02, 0x01, 0x01, 0x01, 0x01, 0x62, 0x05, 0x01, 0x01, 0x01, 0x63, 0x1b,
  0xef, 0x00, 0x00, 0x00]

/-- A list response whose entry has the empty string as value (`80 02`). -/
def emptyTextMsg : List UInt8 := [
  0x76, 0x02, 0x01, 0x62, 0x00, 0x62, 0x00, 0x72, 0x63, 0x07, 0x01, 0x77, 0x01, 0x01, 0x01, 0x01,
  0x71, 0x77, 0x07, 0x01, 0x00, 0x01, 0x08, 0x00, 0xff, 0x01, 0x01, 0x01, 0x01, 0x80, 0x02, 0x01,
  0x01, 0x01, 0x63, 0x6a, 0x84, 0x00, 0x00, 0x00]

/-- A list response whose entry has the value false (`42 00`). -/
def falseMsg : List UInt8 := [
  0x76, 0x02, 0x01, 0x62, 0x00, 0x62, 0x00, 0x72, 0x63, 0x07, 0x01, 0x77, 0x01, 0x01, 0x01, 0x01,
  0x71, 0x77, 0x07, 0x01, 0x00, 0x01, 0x08, 0x00, 0xff, 0x01, 0x01, 0x01, 0x01, 0x42, 0x00, 0x01,
  0x01, 0x01, 0x63, 0xe3, 0xe0, 0x00, 0x00, 0x00]

/-- C50 is false: each of these bodies, put in a frame, is delivered and crashes the receiver: no name, a short name,
an empty string, no body. -/
theorem c50_false : ∀ p ∈ [(noNameMsg, Ub.nullDeref), (shortNameMsg, .oobRead), (emptyTextMsg, .uninit), (skipTagMsg ++ [0, 0, 0], .nullDeref)],
    transportListen 100 { pending := frame p.1 0 0 0 } = .ok [frame p.1 0 0 0] ∧
    transportReceiver 35 false false (frame p.1 0 0 0) = .ub p.2 := by decide +kernel

/-- C50: false is printed as true. -/
theorem c50_boolean : holds (transportReceiver 35 false false (frame falseMsg 0 0 0)) (fun p s =>
    p.2.1 == [.bool [1, 0, 1, 8, 0, 0xff] true] && s.live == 0) = true := by decide +kernel

/-- The three messages of the sample telegram, framed: energy, power and server id are printed. -/
def sampleFrame : List UInt8 := frame (telegram ++ [0]) 1 0 0

example : sampleFrame.length < 8096 ∧ sampleFrame.length < 4 * 2024 ∧ holds (transportReceiver 2024 true false sampleFrame) (fun p s =>
    p.1 == some ⟨3, 140, [0x101, 0x701, 0x201]⟩ && s.live == 0 && p.2.1.length == 3 && p.2.2 == false) = true := by decide +kernel

example : transportListen 200 { pending := sampleFrame } = .ok [sampleFrame] := by decide +kernel

end Sml
