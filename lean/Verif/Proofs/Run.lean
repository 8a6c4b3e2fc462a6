import Verif.Model.Message

/-!
# Running the model

Equations that evaluate a program on a state.
-/

namespace Sml

/-- Continue with the result of a run. -/
def Res.andThen (r : Res α) (f : α → M β) : Res β :=
  match r with
  | .ok a st => f a st
  | .ub r => .ub r

@[simp] theorem Res.andThen_ok {a : α} {st : St} {f : α → M β} : (Res.ok a st).andThen f = f a st := rfl
@[simp] theorem Res.andThen_ub {r : Ub} {f : α → M β} : (Res.ub r : Res α).andThen f = .ub r := rfl

theorem run_bind {m : M α} {f : α → M β} {st : St} : (m >>= f) st = (m st).andThen f := rfl
theorem run_pure {a : α} {st : St} : (pure a : M α) st = .ok a st := rfl
theorem run_ite {c : Prop} [Decidable c] {a b : M α} {st : St} :
    (if c then a else b) st = if c then a st else b st := by split <;> rfl
theorem run_undef {r : Ub} {st : St} : (undef r : M α) st = .ub r := rfl
theorem run_getSt {st : St} : getSt st = .ok st st := rfl
theorem run_modSt {f : St → St} {st : St} : modSt f st = .ok () (f st) := rfl
theorem run_alloc {n : Nat} {st : St} : alloc n st = .ok () { st with live := st.live + n } := rfl
theorem run_noteOvf {b : Bool} {st : St} : noteOvf b st = .ok () { st with sovf := st.sovf || b } := rfl
theorem run_setError {st : St} : setError st = .ok () { st with error := true } := rfl
theorem run_hasErrors {st : St} : hasErrors st = .ok st.error st := rfl
theorem run_updateBytesRead {n : Nat} {st : St} :
    updateBytesRead n st = .ok () { st with cursor := st.cursor + n } := rfl
theorem run_advance {st : St} : advance st = .ok () { st with cursor := st.cursor + 1 } := rfl

theorem run_release {n : Nat} {st : St} (h : n ≤ st.live) :
    release n st = .ok () { st with live := st.live - n } := by simp [release, h]

theorem run_getCurrentByte {st : St} (h : st.cursor < st.data.length) :
    getCurrentByte st = .ok st.data[st.cursor] st := by simp [getCurrentByte, h]

theorem run_readBytes {n : Nat} {st : St} (h : st.cursor + n ≤ st.data.length) :
    readBytes n st = .ok ((st.data.drop st.cursor).take n) st := by simp [readBytes, h]

theorem run_bufferSlice {start len : Nat} {st : St} (h : start + len ≤ st.data.length) :
    bufferSlice start len st = .ok ((st.data.drop start).take len) st := by simp [bufferSlice, h]

theorem run_getNextType {st : St} (h : st.cursor < st.data.length) :
    getNextType st = .ok (st.data[st.cursor].toNat &&& 0x70) st := by
  have : ¬ st.cursor ≥ st.data.length := by omega
  simp [getNextType, h, this]

theorem run_optionalIsSkipped {st : St} (h : st.cursor < st.data.length) :
    optionalIsSkipped st = if st.data[st.cursor] = 1 then .ok true { st with cursor := st.cursor + 1 }
      else .ok false st := by
  have h1 : ¬ st.cursor ≥ st.data.length := by omega
  have h2 : ¬ st.cursor + 1 > st.data.length := by omega
  simp [optionalIsSkipped, h, h1, h2]

theorem run_setByte {b : UInt8} {st : St} (h : st.cursor < st.data.length) :
    setByte b st = .ok () { st with data := st.data.set st.cursor b } := by simp [setByte, h]

theorem run_orByte {b : UInt8} {st : St} (h : st.cursor < st.data.length) :
    orByte b st = .ok () { st with data := st.data.set st.cursor (st.data[st.cursor] ||| b) } := by
  simp [orByte, h]

/-- Evaluate the monad structure. -/
macro "run" : tactic => `(tactic| simp only [run_bind, run_pure, run_ite, run_undef, run_getSt, run_modSt,
  run_alloc, run_noteOvf, run_setError, run_hasErrors, run_updateBytesRead, run_advance, Res.andThen_ok, Res.andThen_ub])

end Sml
