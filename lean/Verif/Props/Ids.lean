import Verif.Model.Ids
import Verif.Spec.Client
import Verif.Proofs.HeapBuildObjects
import Verif.Props.Util

/-!
# Where transaction ids come from: C63
-/

namespace Sml

open Spec

/-- A process: its descriptors are different and below the limit. -/
def Files.Wf (f : Files) : Prop := f.used.Nodup ∧ ∀ n ∈ f.used, n < f.limit

/-- How many more files can be opened. -/
def Files.free (f : Files) : Nat := f.limit - f.used.length

theorem Files.le {f : Files} (h : f.Wf) : f.used.length ≤ f.limit := by
  have := h.1.length_le_of_subset (l₂ := List.range f.limit) fun n hn => List.mem_range.2 (h.2 n hn)
  rwa [List.length_range] at this

/-- A file can be opened exactly if a descriptor is free, and then there is one less. -/
theorem openFile_spec {f : Files} (h : f.Wf) :
    (f.openFile true).2.Wf ∧ (f.openFile true).2.limit = f.limit ∧
      (0 < f.free → (f.openFile true).1.isSome ∧ (f.openFile true).2.used.length = f.used.length + 1) ∧
      (f.free = 0 → f.openFile true = (none, f)) := by
  unfold Files.openFile
  simp only [if_true]
  split
  · rename_i n hn
    have h1 := List.find?_some hn
    have h2 := List.mem_range.1 (List.mem_of_find?_eq_some hn)
    simp only [Bool.not_eq_true', List.contains_eq_mem, decide_eq_false_iff_not] at h1
    have hw : ({ f with used := n :: f.used } : Files).Wf :=
      ⟨List.nodup_cons.2 ⟨h1, h.1⟩, fun x hx => by
        rcases List.mem_cons.1 hx with rfl | hx
        · exact h2
        · exact h.2 x hx⟩
    have := Files.le hw
    refine ⟨hw, rfl, fun _ => ⟨rfl, rfl⟩, fun h0 => ?_⟩
    simp only [List.length_cons, Files.free] at this h0
    omega
  · rename_i hn
    refine ⟨h, rfl, fun h0 => ?_, fun _ => rfl⟩
    have hs : List.range f.limit ⊆ f.used := by
      intro x hx
      have := List.find?_eq_none.1 hn x hx
      simpa using this
    have := List.nodup_range.length_le_of_subset hs
    simp only [List.length_range, Files.free] at this h0
    omega

theorem generateUuid_run (rnd : List UInt8) (h : rnd.length = 16) (st : St) :
    generateUuid rnd st = .ok (uuidOf rnd) { st with live := st.live + 2 } := by
  have e : generateUuid rnd = octetStringInit (uuidOf rnd).str := by
    rw [generateUuid, uuidOf]
    simp only [(uuid_bits _).1, (uuid_bits _).2]
    congr 3
    simp [List.getD_eq_getElem?_getD]
  rw [e]
  unfold octetStringInit
  run
  rw [if_pos (by simp [uuidOf]; omega)]

/-- The ids a sender gets that can open `k` more files: random ones for the first `k` messages, and whatever lies on the stack for the others. -/
def expectedIds (k : Nat) : List Around → List OctetString
  | [] => []
  | a :: as => uuidOf (if 0 < k then a.rnd else a.stack) :: expectedIds (k - 1) as

theorem expectedIds_get (k : Nat) (as : List Around) (i : Nat) :
    (expectedIds k as)[i]? = as[i]?.map fun a => uuidOf (if i < k then a.rnd else a.stack) := by
  induction as generalizing k i with
  | nil => simp [expectedIds]
  | cons a as ih =>
    cases i with
    | zero => simp [expectedIds]
    | succ i =>
      simp only [expectedIds, List.getElem?_cons_succ, ih]
      congr 1
      funext a
      have : (i < k - 1) = (i + 1 < k) := by rw [eq_iff_iff]; omega
      simp only [this]

theorem makeMessages_run {as : List Around} (ha : ∀ a ∈ as, a.rnd.length = 16 ∧ a.stack.length = 16) : ∀ {f : Files}, f.Wf → ∀ st : St,
    ∃ f', makeMessages true as f st = .ok ((expectedIds f.free as).map fun s => { transactionId := some s }, f') { st with live := st.live + 3 * as.length } ∧
      f'.Wf ∧ f'.limit = f.limit ∧ f'.used.length = f.used.length + min as.length f.free := by
  induction as with
  | nil => exact fun {f} hf st => ⟨f, rfl, hf, rfl, by simp⟩
  | cons a as ih =>
    intro f hf st
    obtain ⟨w, hl, h1, h2⟩ := openFile_spec hf
    have hlen : (readRandom (f.openFile true).1 a).length = 16 := by
      unfold readRandom
      split
      · exact (ha a (by simp)).1
      · exact (ha a (by simp)).2
    have hid : readRandom (f.openFile true).1 a = if 0 < f.free then a.rnd else a.stack := by
      split
      · rename_i h0
        obtain ⟨n, hn⟩ := Option.isSome_iff_exists.1 (h1 h0).1
        rw [hn]; rfl
      · rename_i h0
        rw [h2 (by omega)]; rfl
    have hfree : (f.openFile true).2.free = f.free - 1 := by
      rcases Nat.eq_zero_or_pos f.free with h0 | h0
      · rw [h2 h0]; simp only; omega
      · simp only [Files.free, hl, (h1 h0).2] at h0 ⊢; omega
    obtain ⟨f', e, w', l', n'⟩ := ih (fun x hx => ha x (by simp [hx])) w { st with live := st.live + 3 }
    have le := Files.le hf
    refine ⟨f', ?_, w', by rw [l', hl], ?_⟩
    · rw [hfree] at e
      have e1 : messageInitLinux true a f st = .ok ({ transactionId := some (uuidOf (if 0 < f.free then a.rnd else a.stack)) }, (f.openFile true).2)
          { st with live := st.live + 3 } := by
        have e2 := generateUuid_run _ hlen { st with live := st.live + 1 }
        rw [hid] at e2
        have e3 : generateUuidLinux true a f { st with live := st.live + 1 } = .ok (uuidOf (if 0 < f.free then a.rnd else a.stack), (f.openFile true).2)
            { st with live := st.live + 3 } := by
          unfold generateUuidLinux
          rw [← hid] at e2 ⊢
          exact (M.bind_ok e2).trans rfl
        exact (M.bind_ok (f := fun _ => _) (show alloc 1 st = .ok () _ from rfl)).trans ((M.bind_ok e3).trans rfl)
      unfold makeMessages
      refine (M.bind_ok e1).trans ((M.bind_ok e).trans ?_)
      simp only [expectedIds, List.map_cons, List.length_cons]
      have : st.live + 3 + 3 * as.length = st.live + 3 * (as.length + 1) := by omega
      rw [← this]
      rfl
    · rw [n', hfree, List.length_cons]
      rcases Nat.eq_zero_or_pos f.free with h0 | h0
      · rw [h2 h0]; simp only; omega
      · rw [(h1 h0).2]; omega

/-- C63 (false of the code): making transaction ids uses up the descriptors of the process, one per message; from then on the ids
consist of old bytes of the stack. Message number `i` gets a random id exactly if `i` files could still be opened at the start. -/
theorem c63_descriptors (f : Files) (hf : f.Wf) (as : List Around) (ha : ∀ a ∈ as, a.rnd.length = 16 ∧ a.stack.length = 16) (st : St) :
    ∃ ms f' st', makeMessages true as f st = .ok (ms, f') st' ∧ ms.length = as.length ∧
      (∀ (i : Nat) (a : Around), as[i]? = some a →
        ms[i]? = some { transactionId := some (uuidOf (if i < f.limit - f.used.length then a.rnd else a.stack)) }) ∧
      f'.limit = f.limit ∧ f'.used.length = f.used.length + min as.length (f.limit - f.used.length) := by
  obtain ⟨f', e, w, l, n⟩ := makeMessages_run ha hf st
  have hi : ∀ i, ((expectedIds f.free as).map fun s => ({ transactionId := some s } : Message))[i]? =
      as[i]?.map fun a => ({ transactionId := some (uuidOf (if i < f.free then a.rnd else a.stack)) } : Message) := by
    intro i
    rw [List.getElem?_map, expectedIds_get, Option.map_map]
    rfl
  refine ⟨_, f', _, e, ?_, fun i a hia => by rw [hi, hia]; rfl, l, n⟩
  rw [List.length_map]
  have : ∀ (k : Nat) (as : List Around), (expectedIds k as).length = as.length := by
    intro k as
    induction as generalizing k with
    | nil => rfl
    | cons a as ih => simp [expectedIds, ih]
  exact this _ _

/-- C63: after as many messages as files could be opened, the process can open no file at all: not the serial port again, no log, nothing. -/
theorem c63_exhausted (f : Files) (hf : f.Wf) (as : List Around) (ha : ∀ a ∈ as, a.rnd.length = 16 ∧ a.stack.length = 16) (st : St)
    (ms : List Message) (f' : Files) (st' : St) (e : makeMessages true as f st = .ok (ms, f') st') :
    (f'.openFile true).1 = none ↔ f.limit - f.used.length ≤ as.length := by
  obtain ⟨f1, e1, w, l, n⟩ := makeMessages_run ha hf st
  rw [e1] at e
  cases e
  have le := Files.le hf
  obtain ⟨_, _, h1, h2⟩ := openFile_spec w
  constructor
  · intro h
    rcases Nat.eq_zero_or_pos f'.free with h0 | h0
    · simp only [Files.free] at h0 n; omega
    · have := (h1 h0).1
      rw [h] at this
      cases this
  · intro h
    rw [h2 (by simp only [Files.free] at n ⊢; omega)]

/-- C63: two ids made when no descriptor is left are equal if the stack holds the same bytes, even if the random source differs: the ids
need not tell messages apart any more. Nor do they ever if /dev/urandom is not there. -/
theorem c63_same (f : Files) (a b : Around) (present : Bool) (h : (f.openFile present).1 = none) (hs : a.stack = b.stack) :
    generateUuidLinux present a f = generateUuidLinux present b f := by
  unfold generateUuidLinux
  simp only [h, readRandom, hs]

/-- C63: on other systems the generated ids are exactly the UUIDs of version 4 without a byte 0xFF, whatever `rand` is (its values reach at
least 32767). -/
theorem c63_rand (randMax : Nat) (hr : 32767 ≤ randMax) (u : List UInt8) (st : St) :
    (∃ rs : List Nat, rs.length = 16 ∧ (∀ r ∈ rs, r ≤ randMax) ∧ ∃ st', generateUuidRand rs st = .ok ⟨u⟩ st') ↔
      u.length = 16 ∧ (∃ a, u[6]? = some a ∧ a.toNat / 16 = 4) ∧ (∃ a, u[8]? = some a ∧ a.toNat / 64 = 2) ∧ 0xFF ∉ u := by
  have hne : ∀ r : Nat, UInt8.ofNat (r % 0xFF) ≠ 0xFF := by
    intro r h
    have := congrArg UInt8.toNat h
    simp only [UInt8.toNat_ofNat'] at this
    have : (0xFF : UInt8).toNat = 255 := rfl
    omega
  constructor
  · rintro ⟨rs, hl, hm, st', e⟩
    obtain ⟨v, e', h1, ⟨a, _, h2, _, h3, _⟩, ⟨b, _, h4, _, h5, _⟩, h6⟩ := c47_uuid (randBytes rs) (by simpa [randBytes] using hl) st
    have hv : v = u := by
      have h := e'.symm.trans e
      cases h
      rfl
    subst hv
    refine ⟨h1, ⟨a, h2, h3⟩, ⟨b, h4, h5⟩, fun hff => ?_⟩
    obtain ⟨i, hi⟩ := List.mem_iff_getElem?.1 hff
    by_cases h6' : i = 6
    · subst h6'
      rw [h2] at hi
      cases hi
      exact absurd h3 (by decide)
    by_cases h8' : i = 8
    · subst h8'
      rw [h4] at hi
      cases hi
      exact absurd h5 (by decide)
    rw [h6 i h6' h8', randBytes, List.getElem?_map] at hi
    obtain ⟨r, _, hr⟩ := Option.map_eq_some_iff.1 hi
    exact hne r hr
  · rintro ⟨hl, ⟨a, h6, ha⟩, ⟨b, h8, hb⟩, hff⟩
    have hb : randBytes (u.map UInt8.toNat) = u := by
      rw [randBytes, List.map_map]
      conv => rhs; rw [← List.map_id u]
      refine List.map_congr_left fun x hx => ?_
      have hx' : x.toNat ≠ 255 := fun h => hff (by
        have : x = 0xFF := UInt8.toNat_inj.1 h
        rwa [← this])
      have := x.toNat_lt
      simp only [Function.comp, id]
      rw [Nat.mod_eq_of_lt (by omega)]
      simp
    refine ⟨u.map UInt8.toNat, by simpa using hl, fun r hr => ?_, { st with live := st.live + 2 }, ?_⟩
    · obtain ⟨x, _, rfl⟩ := List.mem_map.1 hr
      have := x.toNat_lt
      omega
    · rw [generateUuidRand, hb, generateUuid_run u hl]
      have e : uuidOf u = ⟨u⟩ := by
        rw [uuidOf]
        congr 1
        have g6 : u.getD 6 0 = a := by rw [List.getD_eq_getElem?_getD, h6]; rfl
        have g8 : u.getD 8 0 = b := by rw [List.getD_eq_getElem?_getD, h8]; rfl
        have k6 : a % 16 + 0x40 = a := by
          apply UInt8.toNat_inj.1
          have := a.toNat_lt
          simp [UInt8.toNat_add, UInt8.toNat_mod]
          omega
        have k8 : b % 64 + 0x80 = b := by
          apply UInt8.toNat_inj.1
          have := b.toNat_lt
          simp [UInt8.toNat_add, UInt8.toNat_mod]
          omega
        rw [g6, g8, k6, k8]
        apply List.ext_getElem?
        intro i
        rw [List.getElem?_set, List.getElem?_set]
        split
        · rename_i h; subst h; rw [h8]; split <;> simp_all
        · split
          · rename_i h; subst h; rw [h6]; split <;> simp_all
          · rfl
      rw [e]

/-- A process with the usual three descriptors and a limit of 5: the third message gets bytes of the stack. -/
example : (⟨5, [0, 1, 2]⟩ : Files).Wf ∧
    ((match makeMessages true (List.replicate 3 ⟨List.replicate 16 0x12, List.replicate 16 0⟩) ⟨5, [0, 1, 2]⟩ { data := [] } with
      | .ok (ms, f) _ => some (ms.map fun m => m.transactionId, f.used)
      | .ub _ => none) = some ([some (uuidOf (List.replicate 16 0x12)), some (uuidOf (List.replicate 16 0x12)), some (uuidOf (List.replicate 16 0))], [4, 3, 0, 1, 2])) :=
  ⟨⟨by decide, by decide⟩, by decide +kernel⟩

end Sml
