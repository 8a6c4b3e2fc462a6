import Verif.Proofs.Forge
import Verif.Props.SourceDisturbed

/-!
# C95: what the second kind of checksum costs

`sml_message_parse` accepts the checksum of a message if it is the X-25 checksum or, for one make of meters, the KERMIT checksum.
-/

namespace Sml.C

open Spec

/-- C95: two neighbouring bytes of a message may be anything without a change to its structure, and the message is sent with its checksum. Then there is exactly one pair of bytes besides the right one with which
the source of `sml_file_parse` delivers the message, as if nothing had happened; it is the pair that makes the KERMIT checksum of the message equal to the X-25 checksum of the message sent. With every other pair the message is dropped. -/
theorem c95_window (p q : List UInt8) (y : UInt8 → UInt8 → Message) (hy : ∀ a b, MessageOk true (y a b) ∧ messageHead (y a b) = p ++ ([a, b] ++ q)) (hlen : p.length + q.length + 6 ≤ 2147483647) (a b : UInt8) :
    ∃ a' b' : UInt8, (∀ a'' b'' : UInt8, checksum (y a b) = (crcKermit (messageHead (y a'' b''))).toNat ↔ a'' = a' ∧ b'' = b') ∧
      ∀ a'' b'' : UInt8, ReadAs (messageBytes (checksum (y a b)) (y a'' b''))
        (if (a'' = a ∧ b'' = b) ∨ (a'' = a' ∧ b'' = b') then [{ y a'' b'' with crc := some { size := 2, val := checksum (y a b) } }] else []) false := by
  obtain ⟨a', b', h⟩ := kermit_two p q (swap16 (crcX25 (messageHead (y a b))))
  have hk : ∀ a'' b'', checksum (y a b) = (crcKermit (messageHead (y a'' b''))).toNat ↔ a'' = a' ∧ b'' = b' := fun a'' b'' => by
    rw [← h a'' b'', (hy a'' b'').2]
    exact ⟨fun k => (BitVec.eq_of_toNat_eq k).symm, fun k => (congrArg BitVec.toNat k).symm⟩
  have hx : ∀ a'' b'', checksum (y a b) = (swap16 (crcX25 (messageHead (y a'' b'')))).toNat ↔ a'' = a ∧ b'' = b := fun a'' b'' => by
    rw [← x25_two p q a b a'' b'', ← (hy a'' b'').2, ← (hy a b).2]
    exact ⟨fun k => (BitVec.eq_of_toNat_eq k).symm, fun k => (congrArg BitVec.toNat k).symm⟩
  refine ⟨a', b', hk, fun a'' b'' => ?_⟩
  · have hl : (messageBytes (checksum (y a b)) (y a'' b'')).length ≤ 2147483647 := by
      rw [messageBytes_length, (hy a'' b'').2]
      simp only [List.length_append, List.length_cons, List.length_nil]
      omega
    have hr := c93_exact (y a'' b'') (hy a'' b'').1 (checksum (y a b)) (BitVec.isLt _) hl
    unfold outcome at hr
    simp only [hx a'' b'', hk a'' b''] at hr
    exact hr

theorem bigEndian_two (u : Nat) (a b : UInt8) : bigEndian 8 (65536 * u + 256 * a.toNat + b.toNat) = bigEndian 6 u ++ [a, b] := by
  have ha := a.toNat_lt
  have hb := b.toNat_lt
  have h2 : (65536 * u + 256 * a.toNat + b.toNat) / 65536 = u := by omega
  have hi : ∀ i, (65536 * u + 256 * a.toNat + b.toNat) / 256 ^ (2 + i) = u / 256 ^ i := fun i => by
    rw [Nat.pow_add, ← Nat.div_div_eq_div_mul, show 256 ^ 2 = 65536 from rfl, h2]
  have e0 : UInt8.ofNat ((65536 * u + 256 * a.toNat + b.toNat) / 256 ^ 0 % 256) = b := by
    apply UInt8.toNat_inj.1
    rw [UInt8.toNat_ofNat']
    simp only [Nat.pow_zero, Nat.div_one]
    omega
  have e1 : UInt8.ofNat ((65536 * u + 256 * a.toNat + b.toNat) / 256 ^ 1 % 256) = a := by
    apply UInt8.toNat_inj.1
    rw [UInt8.toNat_ofNat']
    simp only [Nat.pow_one]
    omega
  unfold bigEndian
  rw [show (List.range 8).reverse = [2 + 5, 2 + 4, 2 + 3, 2 + 2, 2 + 1, 2 + 0, 1, 0] by decide, show (List.range 6).reverse = [5, 4, 3, 2, 1, 0] by decide]
  simp only [List.map_cons, List.map_nil, hi, e0, e1]
  rfl

/-- The bytes of a reading before and behind the last two bytes of the counter. -/
def readingBefore (u : Nat) : List UInt8 := (messageHead (readingMessage 0)).take 48 ++ bigEndian 6 u
def readingBehind : List UInt8 := (messageHead (readingMessage 0)).drop 56

set_option maxRecDepth 20000 in
theorem reading_split (v : Nat) : messageHead (readingMessage v) = (messageHead (readingMessage 0)).take 48 ++ (bigEndian 8 v ++ (messageHead (readingMessage 0)).drop 56) := by
  with_unfolding_all rfl

theorem reading_head (u : Nat) (a b : UInt8) : messageHead (readingMessage (65536 * u + 256 * a.toNat + b.toNat)) = readingBefore u ++ ([a, b] ++ readingBehind) := by
  rw [reading_split, bigEndian_two]
  simp only [readingBefore, readingBehind, List.append_assoc]

/-- C95: this is so for every counter. Whatever its upper 48 bits, its lower 16 bits have exactly one wrong value that gets through, unless the two kinds of checksum agree. -/
theorem c95_counter (u : Nat) (hu : u < 256 ^ 6) (a b : UInt8) :
    ∃ a' b' : UInt8, ((a' = a ∧ b' = b) ↔ checksum (readingMessage (65536 * u + 256 * a.toNat + b.toNat)) = (crcKermit (messageHead (readingMessage (65536 * u + 256 * a.toNat + b.toNat)))).toNat) ∧
      ∀ a'' b'' : UInt8, Delivers (messageBytes (checksum (readingMessage (65536 * u + 256 * a.toNat + b.toNat))) (readingMessage (65536 * u + 256 * a''.toNat + b''.toNat)))
        (if (a'' = a ∧ b'' = b) ∨ (a'' = a' ∧ b'' = b') then
          [{ readingMessage (65536 * u + 256 * a''.toNat + b''.toNat) with crc := some { size := 2, val := checksum (readingMessage (65536 * u + 256 * a.toNat + b.toNat)) } }] else []) false := by
  obtain ⟨a', b', h1, h2⟩ := c95_window (readingBefore u) readingBehind (fun a b => readingMessage (65536 * u + 256 * a.toNat + b.toNat))
    (fun a b => ⟨readingMessage_ok _ (by have := a.toNat_lt; have := b.toNat_lt; omega), reading_head u a b⟩) (by
      simp only [readingBefore, readingBehind, List.length_append, bigEndian_length]
      decide +kernel) a b
  refine ⟨a', b', ⟨fun k => (h1 a b).2 ⟨k.1.symm, k.2.symm⟩, fun k => ((h1 a b).1 k).imp Eq.symm Eq.symm⟩, fun a'' b'' => (h2 a'' b'').1 ?_⟩
  split <;> simp

/-- C95: 1234.5 Wh is sent. The only wrong value below 6553.6 Wh that is delivered for it is 1439.2 Wh. -/
theorem c95_reading (v : Nat) (hv : v < 65536) :
    Delivers (messageBytes (checksum (readingMessage 12345)) (readingMessage v))
      (if v = 12345 ∨ v = 14392 then [{ readingMessage v with crc := some { size := 2, val := checksum (readingMessage 12345) } }] else []) false := by
  obtain ⟨a', b', h1, h2⟩ := c95_window (readingBefore 0) readingBehind (fun a b => readingMessage (65536 * 0 + 256 * a.toNat + b.toNat))
    (fun a b => ⟨readingMessage_ok _ (by have := a.toNat_lt; have := b.toNat_lt; omega), reading_head 0 a b⟩) (by decide +kernel) 0x30 0x39
  have hk : checksum (readingMessage 12345) = (crcKermit (messageHead (readingMessage 14392))).toNat := by
    rw [readingMessage_checksum, ← crc16kermit_eq]
    decide +kernel
  obtain ⟨rfl, rfl⟩ := (h1 0x38 0x38).1 hk
  have e : 65536 * 0 + 256 * (UInt8.ofNat (v / 256)).toNat + (UInt8.ofNat (v % 256)).toNat = v := by
    rw [UInt8.toNat_ofNat', UInt8.toNat_ofNat']
    omega
  have hi : ∀ a b : UInt8, (UInt8.ofNat (v / 256) = a ∧ UInt8.ofNat (v % 256) = b) ↔ v = 256 * a.toNat + b.toNat := fun a b => by
    have ha := a.toNat_lt
    have hb := b.toNat_lt
    rw [← UInt8.toNat_inj, ← UInt8.toNat_inj, UInt8.toNat_ofNat', UInt8.toNat_ofNat']
    omega
  have h := h2 (UInt8.ofNat (v / 256)) (UInt8.ofNat (v % 256))
  simp only [e, hi] at h
  refine h.1 ?_
  split <;> simp

/-- The conditions of `c95_window` are met by the readings (`c95_counter`, `c95_reading`). With 1234.5 Wh both values are delivered, and 1234.6 Wh is not. -/
example : Delivers (messageBytes (checksum (readingMessage 12345)) (readingMessage 14392)) [{ readingMessage 14392 with crc := some { size := 2, val := 58182 } }] false ∧
    Delivers (messageBytes (checksum (readingMessage 12345)) (readingMessage 12346)) [] false := by
  have h1 := c95_reading 14392 (by decide)
  have h2 := c95_reading 12346 (by decide)
  rw [readingMessage_checksum] at h1 h2 ⊢
  exact ⟨h1, h2⟩

end Sml.C
