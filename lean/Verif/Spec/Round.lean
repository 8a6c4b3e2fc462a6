import Verif.Spec.Syntax

/-!
# Writing and reading back
-/

namespace Sml.Spec

/-- The old bytes have no bit that the new ones do not have: zeroed memory, for example, or memory that
holds the new bytes already. -/
def Covered (old new : List UInt8) : Prop := ∀ p ∈ old.zip new, p.1 ||| p.2 = p.2

/-- The writer `w` turns the memory at the cursor into `bs` and touches nothing else; the reader `p`,
started where `w` started, delivers `v`, reports no error and stops where `w` stopped. Reading allocates
`n` blocks, writing none. One byte beyond `bs` has to belong to the buffer. -/
def RoundTrips (w : M Unit) (p : M α) (v : α) (bs : List UInt8) (n : Nat) : Prop :=
  ∀ st : St, st.error = false → st.cursor + bs.length < st.data.length → Covered (st.data.drop st.cursor) bs →
    ∃ st', w st = .ok () st' ∧ st' = { st with data := st.data.take st.cursor ++ bs ++ st.data.drop (st.cursor + bs.length), cursor := st.cursor + bs.length } ∧
      p { st' with cursor := st.cursor } = .ok v { st' with live := st.live + n }

/-- At the byte 0x01, `p` delivers `v`, consuming this byte and nothing else, without error. -/
def ReadsAbsent (p : M α) (v : α) : Prop :=
  ∀ st : St, st.data[st.cursor]? = some 0x01 → p st = .ok v { st with cursor := st.cursor + 1 }

/-- `w` writes the byte 0x01 and nothing else. -/
def WritesAbsent (w : M Unit) : Prop :=
  ∀ st : St, st.cursor < st.data.length → w st = .ok () { st with data := st.data.set st.cursor 0x01, cursor := st.cursor + 1 }

mutual
/-- All headers are single bytes: strings of at most 14 bytes. (Lists have at most 15 elements and numbers
at most 8 bytes in all messages that can be represented.) -/
def OneByteHeaders : Term → Prop
  | .octets bs => bs.length ≤ 14
  | .int bs => bs.length ≤ 14
  | .uint bs => bs.length ≤ 14
  | .list ts => ts.length ≤ 15 ∧ AllOneByteHeaders ts
  | _ => True
def AllOneByteHeaders : List Term → Prop
  | [] => True
  | t :: ts => OneByteHeaders t ∧ AllOneByteHeaders ts
end

/-- A message but for its checksum. -/
def withoutCrc (m : Message) : Message := { m with crc := none }

/-- A client that writes a file `k` times, each time from the start of the buffer. -/
def rewrites : Nat → File → M File
  | 0, f => pure f
  | k + 1, f => do
    let f ← fileWrite f
    modSt fun st => { st with cursor := 0 }
    rewrites k f

end Sml.Spec
