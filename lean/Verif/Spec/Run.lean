import Verif.Model.Message

/-!
# How a telegram is read

The course of `sml_file_parse` as a relation: a telegram is read from left to right; zero bytes
are skipped; a message is accepted, dropped, or ends the reading. `parse` is the message parser.
-/

namespace Sml.Spec

/-- `Run parse st ms s`: starting in `st`, the messages `ms` are delivered and `s` is the end. The
heap counter may change between rounds (the array of messages is allocated). -/
inductive Run (parse : M (Option Message)) : St → List Message → St → Prop where
  /-- all bytes are used up -/
  | done {st : St} : st.data.length ≤ st.cursor → Run parse st [] st
  /-- a padding byte -/
  | zero {st s : St} {ms : List Message} : st.data[st.cursor]? = some 0 →
      Run parse { st with cursor := st.cursor + 1 } ms s → Run parse st ms s
  /-- a message that cannot be read ends the reading; nothing of it is delivered -/
  | stop {st s : St} {r : Option Message} {b : UInt8} : st.data[st.cursor]? = some b → b ≠ 0 →
      parse st = .ok r s → s.error = true → Run parse st [] s
  /-- a message that is delivered -/
  | accept {st s1 s : St} {m : Message} {ms : List Message} {b : UInt8} (l : Nat) :
      st.data[st.cursor]? = some b → b ≠ 0 →
      parse st = .ok (some m) s1 → s1.error = false →
      Run parse { s1 with live := l } ms s → Run parse st (m :: ms) s
  /-- a message that is dropped -/
  | drop {st s1 s : St} {ms : List Message} {b : UInt8} :
      st.data[st.cursor]? = some b → b ≠ 0 →
      parse st = .ok none s1 → s1.error = false →
      Run parse s1 ms s → Run parse st ms s

end Sml.Spec
