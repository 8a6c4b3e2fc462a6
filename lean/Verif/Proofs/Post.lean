import Verif.Model.Message

/-!
# Weakest preconditions

`Post m st Q`: running `m` from `st` is defined and ends in a result and state with `Q`.
-/

namespace Sml

def Post (m : M α) (st : St) (Q : α → St → Prop) : Prop :=
  match m st with
  | .ok a st' => Q a st'
  | .ub _ => False

theorem Post.mono {m : M α} {st : St} {Q R : α → St → Prop}
    (h : Post m st Q) (hqr : ∀ a s, Q a s → R a s) : Post m st R := by
  unfold Post at *
  split <;> simp_all

theorem Post.and {m : M α} {st : St} {Q R : α → St → Prop}
    (h : Post m st Q) (h' : Post m st R) : Post m st (fun a s => Q a s ∧ R a s) := by
  unfold Post at *
  split <;> simp_all

theorem post_iff {m : M α} {st : St} {Q : α → St → Prop} :
    Post m st Q ↔ ∃ a s, m st = .ok a s ∧ Q a s := by
  unfold Post
  cases m st with
  | ok a s => exact ⟨fun h => ⟨a, s, rfl, h⟩, fun ⟨_, _, e, h⟩ => by cases e; exact h⟩
  | ub r => simp

@[simp] theorem post_pure {a : α} {st : St} {Q : α → St → Prop} :
    Post (pure a) st Q ↔ Q a st := Iff.rfl

@[simp] theorem post_bind {m : M α} {f : α → M β} {st : St} {Q : β → St → Prop} :
    Post (m >>= f) st Q ↔ Post m st (fun a s => Post (f a) s Q) := by
  show Post (M.bind m f) st Q ↔ _
  unfold Post M.bind
  cases m st <;> simp

@[simp] theorem post_ite {c : Prop} [Decidable c] {a b : M α} {st : St} {Q : α → St → Prop} :
    Post (if c then a else b) st Q ↔ (c → Post a st Q) ∧ (¬c → Post b st Q) := by
  split <;> simp_all

@[simp] theorem post_undef {r : Ub} {st : St} {Q : α → St → Prop} :
    Post (undef r) st Q ↔ False := Iff.rfl

@[simp] theorem post_getSt {st : St} {Q : St → St → Prop} : Post getSt st Q ↔ Q st st := Iff.rfl

@[simp] theorem post_modSt {f : St → St} {st : St} {Q : Unit → St → Prop} :
    Post (modSt f) st Q ↔ Q () (f st) := Iff.rfl

@[simp] theorem post_alloc {n : Nat} {st : St} {Q : Unit → St → Prop} :
    Post (alloc n) st Q ↔ Q () { st with live := st.live + n } := Iff.rfl

@[simp] theorem post_release {n : Nat} {st : St} {Q : Unit → St → Prop} :
    Post (release n) st Q ↔ n ≤ st.live ∧ Q () { st with live := st.live - n } := by
  unfold Post release
  by_cases h : n ≤ st.live <;> simp [h]

@[simp] theorem post_noteOvf {b : Bool} {st : St} {Q : Unit → St → Prop} :
    Post (noteOvf b) st Q ↔ Q () { st with sovf := st.sovf || b } := Iff.rfl

@[simp] theorem post_setError {st : St} {Q : Unit → St → Prop} :
    Post setError st Q ↔ Q () { st with error := true } := Iff.rfl

@[simp] theorem post_hasErrors {st : St} {Q : Bool → St → Prop} :
    Post hasErrors st Q ↔ Q st.error st := Iff.rfl

@[simp] theorem post_updateBytesRead {n : Nat} {st : St} {Q : Unit → St → Prop} :
    Post (updateBytesRead n) st Q ↔ Q () { st with cursor := st.cursor + n } := Iff.rfl

@[simp] theorem post_getCurrentByte {st : St} {Q : UInt8 → St → Prop} :
    Post getCurrentByte st Q ↔ ∃ h : st.cursor < st.data.length, Q st.data[st.cursor] st := by
  unfold Post getCurrentByte
  by_cases h : st.cursor < st.data.length <;> simp [h]

@[simp] theorem post_readBytes {n : Nat} {st : St} {Q : List UInt8 → St → Prop} :
    Post (readBytes n) st Q ↔
      st.cursor + n ≤ st.data.length ∧ Q ((st.data.drop st.cursor).take n) st := by
  unfold Post readBytes
  by_cases h : st.cursor + n ≤ st.data.length <;> simp [h]

@[simp] theorem post_getNextType {st : St} {Q : Nat → St → Prop} :
    Post getNextType st Q ↔
      (st.data.length ≤ st.cursor → Q 0x100 { st with error := true }) ∧
      (∀ h : st.cursor < st.data.length, Q (st.data[st.cursor].toNat &&& 0x70) st) := by
  unfold Post getNextType
  by_cases h : st.cursor < st.data.length
  · have h' : ¬ st.data.length ≤ st.cursor := by omega
    simp [h, h']
  · have h' : st.data.length ≤ st.cursor := by omega
    simp [h, h']

@[simp] theorem post_optionalIsSkipped {st : St} {Q : Bool → St → Prop} :
    Post optionalIsSkipped st Q ↔
      (st.data.length ≤ st.cursor → Q true { st with error := true }) ∧
      (∀ h : st.cursor < st.data.length,
        (st.data[st.cursor] = 1 → Q true { st with cursor := st.cursor + 1 }) ∧
        (st.data[st.cursor] ≠ 1 → Q false st)) := by
  unfold Post optionalIsSkipped
  by_cases h : st.cursor < st.data.length
  · have h' : ¬ st.data.length ≤ st.cursor := by omega
    have h'' : ¬ st.cursor + 1 > st.data.length := by omega
    by_cases hb : st.data[st.cursor] = 1 <;> simp [h, h', h'', hb]
  · have h' : st.data.length ≤ st.cursor := by omega
    simp [h, h']

@[simp] theorem post_bufferSlice {start len : Nat} {st : St} {Q : List UInt8 → St → Prop} :
    Post (bufferSlice start len) st Q ↔
      start + len ≤ st.data.length ∧ Q ((st.data.drop start).take len) st := by
  unfold Post bufferSlice
  by_cases h : start + len ≤ st.data.length <;> simp [h]

@[simp] theorem post_failWith {own : Nat} {st : St} {Q : Option α → St → Prop} :
    Post (failWith own) st Q ↔
      own ≤ st.live ∧ Q none { st with error := true, live := st.live - own } := by
  simp [failWith]

end Sml
