import Verif.Spec.Print
import Verif.Spec.Grammar
import Verif.Spec.Transport

/-!
# What the example program does
-/

namespace Sml.Spec

/-- The frame `fr` carries the messages `ms`, as the grammar of C51 has it. -/
def Carries (depth : Nat) (fr : List UInt8) (ms : List Message) : Prop :=
  fr.length < 8096 ∧ ∃ body x y z, fr = frame body x y z ∧ Plain body ∧ Grammar.Telegram depth body ms

/-- The telegrams looked at: with `-s` those up to the first list response. -/
def heard (single : Bool) : List (List Message) → List (List Message)
  | [] => []
  | ms :: rest => ms :: if single && ms.any fun m => (responseOf m).isSome then [] else heard single rest

/-- `t` is printed for a telegram with the messages `ms`. -/
def PrintsTelegram (verbose single : Bool) (ms : List Message) (t : List UInt8) : Prop :=
  ∃ th tl, t = th ++ tl ∧ PrintsAll (entriesOf (lookedAt single ms)) tl ∧ (verbose = false → th = []) ∧
    (verbose = true → ∃ n ti, th = ti ++ "OBIS data\n".toUTF8.toList ∧ SpellsInfo ms.length n (ms.map tagOf) ti)

inductive PrintsTelegrams (verbose single : Bool) : List (List Message) → List UInt8 → Prop where
  | nil : PrintsTelegrams verbose single [] []
  | cons {ms : List Message} {mss : List (List Message)} {t ts : List UInt8} : PrintsTelegram verbose single ms t →
      PrintsTelegrams verbose single mss ts → PrintsTelegrams verbose single (ms :: mss) (t ++ ts)

/-- A command line that makes the program listen: bundles of the letters `s` and `v`, each behind `-`, then optionally `--`, then the device. Without
`--` the device must not look like an option. -/
def ListensTo (args : List (List UInt8)) (verbose single : Bool) (dev : List UInt8) : Prop :=
  ∃ (bundles tail : List (List UInt8)), args = bundles.map (0x2D :: ·) ++ tail ∧ (∀ b ∈ bundles, b ≠ [] ∧ ∀ c ∈ b, c = 0x73 ∨ c = 0x76) ∧
    (tail = [[0x2D, 0x2D], dev] ∨ tail = [dev] ∧ (dev = [0x2D] ∨ dev.head? ≠ some 0x2D)) ∧
    (single = true ↔ ∃ b ∈ bundles, (0x73 : UInt8) ∈ b) ∧ (verbose = true ↔ ∃ b ∈ bundles, (0x76 : UInt8) ∈ b)

/-- The letters `s` and `v`, at least one. -/
def IsBundle (b : List UInt8) : Prop := b ≠ [] ∧ ∀ c ∈ b, c = 0x73 ∨ c = 0x76

/-- A command line that asks for help: before the first `h` there are only the letters `s` and `v`, in this argument and in those before. -/
def AsksHelp (args : List (List UInt8)) : Prop :=
  ∃ (bundles : List (List UInt8)) (ls rest : List UInt8) (more : List (List UInt8)), args = bundles.map (0x2D :: ·) ++ (0x2D :: (ls ++ 0x68 :: rest)) :: more ∧
    (∀ b ∈ bundles, IsBundle b) ∧ ∀ c ∈ ls, c = 0x73 ∨ c = 0x76

/-- A command line with a letter that is not known, behind the letters `s` and `v` only. -/
def HasWrongLetter (args : List (List UInt8)) : Prop :=
  ∃ (bundles : List (List UInt8)) (ls : List UInt8) (c : UInt8) (rest : List UInt8) (more : List (List UInt8)), args = bundles.map (0x2D :: ·) ++ (0x2D :: (ls ++ c :: rest)) :: more ∧
    (∀ b ∈ bundles, IsBundle b) ∧ (∀ c ∈ ls, c = 0x73 ∨ c = 0x76) ∧ c ≠ 0x68 ∧ c ≠ 0x73 ∧ c ≠ 0x76 ∧ ls ++ c :: rest ≠ [0x2D]

/-- A command line with the letters `s` and `v` only, and the operands `ops`. -/
def HasOperands (args : List (List UInt8)) (verbose single : Bool) (ops : List (List UInt8)) : Prop :=
  ∃ (bundles tail : List (List UInt8)), args = bundles.map (0x2D :: ·) ++ tail ∧ (∀ b ∈ bundles, IsBundle b) ∧
    (tail = [0x2D, 0x2D] :: ops ∨ tail = ops ∧ ∀ o, ops.head? = some o → o = [0x2D] ∨ o.head? ≠ some 0x2D) ∧
    (single = true ↔ ∃ b ∈ bundles, (0x73 : UInt8) ∈ b) ∧ (verbose = true ↔ ∃ b ∈ bundles, (0x76 : UInt8) ∈ b)

end Sml.Spec
