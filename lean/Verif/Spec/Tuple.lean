import Verif.Spec.Syntax

/-!
# Trees that contain tuple entries
-/

namespace Sml.Spec

/-- The 23 fields of a tuple entry can be represented. -/
def TupelOk (s : Bool) (t : TupelEntry) : Prop :=
  Opt (StrOk s) t.serverId ∧ Opt (TimeOk s) t.secIndex ∧ Opt (NumOk s 8) t.status ∧ Opt (NumOk s 1) t.unit_pA ∧ Opt (NumOk s 1) t.scaler_pA ∧ Opt (NumOk s 8) t.value_pA ∧ Opt (NumOk s 1) t.unit_R1 ∧ Opt (NumOk s 1) t.scaler_R1 ∧ Opt (NumOk s 8) t.value_R1 ∧ Opt (NumOk s 1) t.unit_R4 ∧ Opt (NumOk s 1) t.scaler_R4 ∧ Opt (NumOk s 8) t.value_R4 ∧ Opt (StrOk s) t.signature_pA_R1_R4 ∧ Opt (NumOk s 1) t.unit_mA ∧ Opt (NumOk s 1) t.scaler_mA ∧ Opt (NumOk s 8) t.value_mA ∧ Opt (NumOk s 1) t.unit_R2 ∧ Opt (NumOk s 1) t.scaler_R2 ∧ Opt (NumOk s 8) t.value_R2 ∧ Opt (NumOk s 1) t.unit_R3 ∧ Opt (NumOk s 1) t.scaler_R3 ∧ Opt (NumOk s 8) t.value_R3 ∧ Opt (StrOk s) t.signature_mA_R2_R3

/-- A value of a tree: one of the kinds of `PpvOk`, or a tuple entry. -/
def PpvOrTupel (s : Bool) (v : ProcParValue) : Prop :=
  PpvOk s v ∨ ∃ tag p, v = { tag := some tag, data := .tupelEntry (some p) } ∧ NumOk s 1 tag ∧ tag.val = 3 ∧ TupelOk s p

/-- Trees as `TreeFits`, but with tuple entries. -/
inductive TreeFitsTupel (s : Bool) : Tree → Prop where
  | mk {n : Option OctetString} {v : Option ProcParValue} {cs : List Tree} : Opt (StrOk s) n → Opt (PpvOrTupel s) v →
      cs.length < 16 → (∀ c, c ∈ cs → TreeFitsTupel s c) → TreeFitsTupel s (.mk n v cs)

/-- Some node has a tuple entry. -/
inductive HasTupel : Tree → Prop where
  | here {n : Option OctetString} {tag : Option Num} {p : TupelEntry} {cs : List Tree} :
      HasTupel (.mk n (some { tag := tag, data := .tupelEntry (some p) }) cs)
  | child {n : Option OctetString} {v : Option ProcParValue} {cs : List Tree} {c : Tree} : c ∈ cs → HasTupel c → HasTupel (.mk n v cs)

end Sml.Spec
