import Verif.Model.Message

/-!
# Sample telegrams

Concrete inputs used to show that theorems are not vacuous, and as witnesses.
-/

namespace Sml.Samples

/-- `P` holds of the result of a defined run. -/
def holds (r : Res α) (P : α → St → Bool) : Bool :=
  match r with
  | .ok a s => P a s
  | .ub _ => false

/-- An open response with its checksum and end mark. -/
def openMsg : List UInt8 := [
  0x76, 0x03, 0x01, 0x02, 0x62, 0x00, 0x62, 0x00, 0x72, 0x63, 0x01, 0x01, 0x76, 0x01, 0x01, 0x03,
  0xaa, 0xbb, 0x04, 0x0a, 0x0b, 0x0c, 0x72, 0x62, 0x01, 0x65, 0x00, 0x00, 0x00, 0x2a, 0x62, 0x01,
  0x63, 0x2d, 0x0d, 0x00]

/-- A list response with three entries: energy, power (-200), server id. -/
def listMsg : List UInt8 := [
  0x76, 0x03, 0x01, 0x03, 0x62, 0x00, 0x62, 0x00, 0x72, 0x63, 0x07, 0x01, 0x77, 0x01, 0x04, 0x0a,
  0x0b, 0x0c, 0x01, 0x01, 0x73, 0x77, 0x07, 0x01, 0x00, 0x01, 0x08, 0x00, 0xff, 0x62, 0x01, 0x01,
  0x62, 0x1e, 0x52, 0xff, 0x55, 0x00, 0x00, 0x12, 0x34, 0x01, 0x77, 0x07, 0x01, 0x00, 0x10, 0x07,
  0x00, 0xff, 0x01, 0x01, 0x62, 0x1b, 0x52, 0x00, 0x53, 0xff, 0x38, 0x01, 0x77, 0x07, 0x01, 0x00,
  0x60, 0x01, 0x00, 0xff, 0x01, 0x01, 0x01, 0x01, 0x06, 0x0a, 0x01, 0x02, 0x03, 0x04, 0x01, 0x01,
  0x01, 0x63, 0x92, 0x0b, 0x00]

/-- `listMsg` with a wrong checksum. -/
def badMsg : List UInt8 := [
  0x76, 0x03, 0x01, 0x03, 0x62, 0x00, 0x62, 0x00, 0x72, 0x63, 0x07, 0x01, 0x77, 0x01, 0x04, 0x0a,
  0x0b, 0x0c, 0x01, 0x01, 0x73, 0x77, 0x07, 0x01, 0x00, 0x01, 0x08, 0x00, 0xff, 0x62, 0x01, 0x01,
  0x62, 0x1e, 0x52, 0xff, 0x55, 0x00, 0x00, 0x12, 0x34, 0x01, 0x77, 0x07, 0x01, 0x00, 0x10, 0x07,
  0x00, 0xff, 0x01, 0x01, 0x62, 0x1b, 0x52, 0x00, 0x53, 0xff, 0x38, 0x01, 0x77, 0x07, 0x01, 0x00,
  0x60, 0x01, 0x00, 0xff, 0x01, 0x01, 0x01, 0x01, 0x06, 0x0a, 0x01, 0x02, 0x03, 0x04, 0x01, 0x01,
  0x01, 0x63, 0x92, 0x0a, 0x00]

/-- A close response. -/
def closeMsg : List UInt8 := [
  0x76, 0x03, 0x01, 0x04, 0x62, 0x00, 0x62, 0x00, 0x72, 0x63, 0x02, 0x01, 0x71, 0x01, 0x63, 0x0e,
  0xd5, 0x00]

/-- A list response of a DZG DVS74 meter (serial number 42000001): power sent as `53 80 25`. -/
def dzgNumMsg : List UInt8 := [
  0x76, 0x03, 0x01, 0x05, 0x62, 0x00, 0x62, 0x00, 0x72, 0x63, 0x07, 0x01, 0x77, 0x01, 0x01, 0x01,
  0x01, 0x72, 0x77, 0x07, 0x01, 0x00, 0x60, 0x01, 0x00, 0xff, 0x01, 0x01, 0x01, 0x01, 0x0b, 0x0a,
  0x01, 0x44, 0x5a, 0x47, 0x00, 0x02, 0x80, 0xde, 0x81, 0x01, 0x77, 0x07, 0x01, 0x00, 0x10, 0x07,
  0x00, 0xff, 0x01, 0x01, 0x62, 0x1b, 0x52, 0x00, 0x53, 0x80, 0x25, 0x01, 0x01, 0x01, 0x63, 0x38,
  0x82, 0x00]

/-- The same with the power sent as an octet string of one byte. -/
def dzgStrMsg : List UInt8 := [
  0x76, 0x03, 0x01, 0x05, 0x62, 0x00, 0x62, 0x00, 0x72, 0x63, 0x07, 0x01, 0x77, 0x01, 0x01, 0x01,
  0x01, 0x72, 0x77, 0x07, 0x01, 0x00, 0x60, 0x01, 0x00, 0xff, 0x01, 0x01, 0x01, 0x01, 0x0b, 0x0a,
  0x01, 0x44, 0x5a, 0x47, 0x00, 0x02, 0x80, 0xde, 0x81, 0x01, 0x77, 0x07, 0x01, 0x00, 0x10, 0x07,
  0x00, 0xff, 0x01, 0x01, 0x62, 0x1b, 0x52, 0x00, 0x02, 0x4a, 0x01, 0x01, 0x01, 0x63, 0x6b, 0x36,
  0x00]

/-- A message of nine bytes without end mark: all fields absent, body tag skipped. -/
def skipTagMsg : List UInt8 := [
  0x76, 0x01, 0x01, 0x01, 0x72, 0x01, 0x63, 0xaa, 0xb5]

/-- A telegram of three messages. -/
def telegram : List UInt8 := openMsg ++ listMsg ++ closeMsg

end Sml.Samples
