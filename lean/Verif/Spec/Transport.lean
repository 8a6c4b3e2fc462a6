import Verif.Spec.Syntax

/-!
# Frames of the transport layer
-/

namespace Sml.Spec

/-- The escape sequence. -/
def escape : List UInt8 := List.replicate 4 0x1b

/-- The start of a frame. -/
def frameStart : List UInt8 := escape ++ List.replicate 4 0x01

/-- A payload that needs no escaping: whole blocks of four bytes, none of which is the escape sequence. -/
def Plain (body : List UInt8) : Prop :=
  body.length % 4 = 0 ∧ ∀ i, 4 * i + 4 ≤ body.length → (body.drop (4 * i)).take 4 ≠ escape

/-- A frame: start, payload, end mark with three more bytes (the number of padding bytes and a checksum). -/
def frame (body : List UInt8) (x y z : UInt8) : List UInt8 := frameStart ++ body ++ escape ++ [0x1a, x, y, z]

/-- `s` occurs in `l`. -/
def Occurs (s l : List UInt8) : Prop := ∃ a b, l = a ++ s ++ b

/-- Searching the start sequence byte by byte, starting over at any byte that does not fit. -/
def progress (n : Nat) (b : UInt8) : Nat := if frameStart[n]? = some b then n + 1 else 0

/-- How much of the start sequence is believed to have been seen after `noise`. -/
def seen (noise : List UInt8) : Nat := noise.foldl progress 0

/-- Bytes between frames: the start sequence does not occur, and nothing of it is pending at the end. -/
def Harmless (noise : List UInt8) : Prop := ¬ Occurs frameStart noise ∧ seen noise = 0

/-- The zero bytes needed after `n` bytes up to a multiple of four. -/
def padding (n : Nat) : Nat := (4 - n % 4) % 4

/-- What is sent before the checksum. -/
def sentHead (payload : List UInt8) : List UInt8 :=
  frameStart ++ payload ++ List.replicate (padding payload.length) 0 ++ escape ++ [0x1a, UInt8.ofNat (padding payload.length)]

/-- What is sent for a payload: CRC-16/X-25 in transmission order at the end. -/
def sentFrame (payload : List UInt8) : List UInt8 := sentHead payload ++ bigEndian 2 (swap16 (crcX25 (sentHead payload))).toNat

/-- No block of four bytes is the escape sequence. -/
def NoEscape (payload : List UInt8) : Prop := ∀ i, (payload.drop (4 * i)).take 4 ≠ escape

/-- A frame of the receivable kind. -/
def IsFrame (f : List UInt8) : Prop := ∃ body x y z, f = frame body x y z ∧ Plain body

/-- `frames` are disjoint parts of `stream`, in order. -/
inductive Within : List (List UInt8) → List UInt8 → Prop where
  | nil (stream : List UInt8) : Within [] stream
  | cons (noise f : List UInt8) {frames stream} (h : Within frames stream) : Within (f :: frames) (noise ++ f ++ stream)

end Sml.Spec
