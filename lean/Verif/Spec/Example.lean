import Verif.Model.Example
import Verif.Spec.Util

/-!
# What the example program prints
-/

namespace Sml.Spec

/-- `o` are the first six bytes of the object name. -/
def Named (e : ListEntry) (o : List UInt8) : Prop := ∃ s, e.objName = some s ∧ 6 ≤ s.str.length ∧ o = s.str.take 6

/-- The power of ten: a signed byte, 0 if absent. -/
def powerOfTen (e : ListEntry) : Int :=
  match e.scaler with
  | none => 0
  | some n => if n.val < 128 then (n.val : Int) else (n.val : Int) - 256

/-- `u` is the unit the table has for the code of the entry. -/
def UnitIs (e : ListEntry) (u : Option String) : Prop :=
  ∀ s, u = some s ↔ ∃ n, e.unit = some n ∧ (n.val, s) ∈ dlmsUnits.dropLast

/-- What is printed for an entry. Nothing without a value and nothing for an unsigned number sent with more than eight
bytes (it has the type 0x70). Every boolean is printed as true. A signed number sent with more than eight bytes, and what the DZG
workaround has mislabelled, is printed as 0. -/
inductive Shows : ListEntry → List Line → Prop where
  | absent {e : ListEntry} : e.value = none → Shows e []
  | wide {e : ListEntry} {v : Value} : e.value = some v → v.type = 0x70 → Shows e []
  | text {e : ListEntry} {s : OctetString} {o : List UInt8} : e.value = some ⟨0x00, .bytes (some s)⟩ → s.str ≠ [] → Named e o →
      Shows e [.text o (rendering true s.str)]
  | bool {e : ListEntry} {b : UInt8} {o : List UInt8} : e.value = some ⟨0x40, .boolean (some b)⟩ → Named e o → Shows e [.bool o true]
  | number {e : ListEntry} {v : Value} {x r : Int} {o : List UInt8} {u : Option String} : e.value = some v → NumberOf v x → NearestDouble x r →
      (x.natAbs ≤ 2 ^ 53 → r = x) → Named e o → UnitIs e u → Shows e [.number o r (powerOfTen e) (max 0 (-powerOfTen e)) u]
  | zero {e : ListEntry} {v : Value} {o : List UInt8} {u : Option String} : e.value = some v → v.type = 0x50 ∨ v.type = 0x60 → Named e o →
      UnitIs e u → Shows e [.number o 0 (powerOfTen e) (max 0 (-powerOfTen e)) u]

inductive ShowsAll : List ListEntry → List Line → Prop where
  | nil : ShowsAll [] []
  | cons {e : ListEntry} {es : List ListEntry} {l ls : List Line} : Shows e l → ShowsAll es ls → ShowsAll (e :: es) (l ++ ls)

/-- The list response in a message. -/
def responseOf (m : Message) : Option GetListResponse :=
  match m.messageBody with
  | some ⟨_, .getListResponse r⟩ => r
  | _ => none

/-- The messages looked at: with `-s` those up to the first list response. -/
def lookedAt (single : Bool) : List Message → List Message
  | [] => []
  | m :: ms => m :: if single && (responseOf m).isSome then [] else lookedAt single ms

/-- The lines for some messages: those for the entries of the list responses. -/
def ShowsMessages (ms : List Message) (ls : List Line) : Prop := ShowsAll (ms.flatMap fun m => ((responseOf m).map (·.valList)).getD []) ls

/-- The tag of the body, 0 if there is none. -/
def tagOf (m : Message) : Nat := ((m.messageBody.bind (·.tag)).map (·.val)).getD 0

/-- An entry the program can print: without value, or with a name of at least six bytes and a value that is not the empty
string, or with an unsigned number of more than eight bytes, which is left out. -/
def EntrySafe (e : ListEntry) : Prop :=
  ∀ v, e.value = some v → v.type = 0x70 ∨ (∃ o, Named e o) ∧ v ≠ ⟨0x00, .bytes (some ⟨[]⟩)⟩

/-- A message the program can print: it has a body, and if that is a list response all entries can be printed. -/
def MessageSafe (m : Message) : Prop := m.messageBody ≠ none ∧ ∀ r, responseOf m = some r → ∀ e ∈ r.valList, EntrySafe e

/-- The program can handle these messages with these flags. -/
def Manageable (verbose single : Bool) (ms : List Message) : Prop :=
  (∀ m ∈ lookedAt single ms, MessageSafe m) ∧ (verbose = true → ∀ m ∈ ms, m.messageBody ≠ none)

end Sml.Spec
