import Verif.Spec.Grammar

/-!
# The block that `sml_value_free` does not reach

`sml_value_free` (sml_value.c:92-107) releases the bytes of a string only if the label of the value
says that it is a string. The bytes of a string with another label stay allocated.
-/

namespace Sml.Spec

/-- One for a string of at least one byte whose label is not the label of a string. -/
def strandedValue (v : Value) : Nat :=
  match v.data with
  | .bytes (some s) => if v.type ≠ 0x00 ∧ s.str ≠ [] then 1 else 0
  | _ => 0

/-- The same for the value of a list entry. -/
def strandedEntry (e : ListEntry) : Nat :=
  match e.value with
  | some v => strandedValue v
  | none => 0

/-- Entries with such a value in a list. -/
def strandedList (es : List ListEntry) : Nat := (es.map strandedEntry).sum

/-- Such entries in the measurement list of a message. -/
def strandedMessage (m : Message) : Nat :=
  match m.messageBody with
  | some ⟨_, .getListResponse (some r)⟩ => strandedList r.valList
  | _ => 0

/-- Such entries in the messages of a file. -/
def stranded (ms : List Message) : Nat := (ms.map strandedMessage).sum

open Grammar in
/-- A telegram that is read to its end: padding, messages that are kept (`ms`), and messages that are dropped for a wrong
checksum (`ds`). -/
inductive Whole (depth : Nat) : List UInt8 → List Message → List Message → Prop where
  | done : Whole depth [] [] []
  | padding {i : List UInt8} {ms ds : List Message} : Whole depth i ms ds → Whole depth (0x00 :: i) ms ds
  | keep {i o : List UInt8} {m : Message} {ms ds : List Message} :
      message depth (some m) i o → Whole depth o ms ds → Whole depth i (m :: ms) ds
  | drop {i o bs : List UInt8} {m : Message} {c : Num} {ms ds : List Message} :
      ¬ Matches bs c → checked depth m c bs i o → Whole depth o ms ds → Whole depth i ms (m :: ds)

end Sml.Spec
