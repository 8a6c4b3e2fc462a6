import Verif.Proofs.SourceWriteFile

/-!
# The constructors from their source
-/

namespace Sml.C

section
variable {m : Mem}

theorem ExecsTo.done (h : m = m') : ExecsTo [] env m .next env m' := h ▸ .nil

/-! ## `sml_octet_string_init` -/

/-- Memory with another octet string. -/
def withStr (m : Mem) (bs : List UInt8) : Mem :=
  if bs = [] then { m with next := m.next + 1, heap := setHeap m.heap m.next (some (.obj [nullPtr] [0])) }
  else { m with
    next := m.next + 2
    heap := setHeap (setHeap m.heap m.next (some (.obj [ptrVal (m.next + 1)] [bs.length]))) (m.next + 1) (some (.raw (bs.map some))) }

theorem withStr_stack : (withStr m bs).stack = m.stack := by
  rw [withStr]
  split <;> rfl

/-- From a local array that begins with these bytes. -/
theorem octetInit_run (m : Mem) (h0 : m.next ≠ 0) {k : Nat} {b : List (Option UInt8)} {bs : List UInt8} (hg : m.stack[k]? = some (.raw b)) (hb : b.take bs.length = bs.map some)
    (hl : bs.length ≤ 2147483647) (t : ITy) :
    CallTo .sml_octet_string_init [.ptr (.stack k) 0, .int t bs.length] m (ptrVal m.next) (withStr m bs) := by
  have hc : ITy.conv .i32 (bs.length : Int) = bs.length := conv_i32 (by omega) (by omega)
  have hle : bs.length ≤ b.length := by
    have := congrArg List.length hb
    rw [List.length_take, List.length_map] at this
    omega
  let E := upd (envOf [.ptr (.stack k) 0, .int .i32 bs.length]) 2 (ptrVal m.next)
  have hs : ∀ env (m' : Mem), m'.stack = m.stack → loadBytes (.ptr (.stack k) 0) bs.length env m' = .ok bs env m' := fun env m' h =>
    loadBytes_raw' (getBlock_stack (by rw [h]; exact hg)) (by omega) (by rw [List.drop_zero]; exact hb)
  have hx : ∀ m, EvalTo (.bin .gt (.var 1) (.lit .i32 0)) E m (ofBool (decide (bs.length > 0))) E m := fun m =>
    .bin (.int (t := .i32) (n := bs.length) (by rfl)) (.lit (n := (0 : Nat))) (gt_i32 (by omega) (by omega))
  refine .of (vs := [.ptr (.stack k) 0, .int .i32 bs.length]) (m1 := withStr m bs) (fun env m => ?_) (.cons (.setPtr .mallocRec) <| .cons (.stRec (.ptr (by rfl)) (.one .null) ⟨0, fun _ _ => rfl⟩ (storeRec_put h0 setHeap_same)) <|
    .cons (.ite (b := decide (bs.length > 0)) (hx _) (truth_ofBool _) (env' := E) ?_) (.ret (.ptr (l := .heap m.next) (i := 0) (by rfl)))) fun env => ?_
  · simp only [program, sml_octet_string_init, bindArgs, convTo, asInt, X_bind, X_pure]
    rw [hc]
  · by_cases hn : bs = []
    · subst hn
      rw [withStr, if_pos rfl]
      rw [if_neg (by simp)]
      refine .done ?_
      simp only [setHeap_twice]
      rfl
    · have hpos : 0 < bs.length := List.length_pos_iff.mpr hn
      rw [withStr, if_neg hn, if_pos (by simp [hpos])]
      have e1 : m.next + 1 ≠ m.next := by omega
      refine .cons (.stPtr (.mallocBytes (.int (by rfl))) (.ptr (by rfl)) (storePtr_put h0 ((setHeap_other (by simp)).trans setHeap_same) (by simp))) <|
        .cons (.memcpy (.ldPtr (.ptr (by rfl)) (loadPtr_put h0 setHeap_same rfl)) (.ptr (by rfl)) (.int (by rfl)) (hs _ _ rfl)
          (storeBytes_all (a := m.next + 1) (bs := List.replicate bs.length none) (by simp) ?_ (by simp))) <|
        .cons (.stInt (.int (by rfl)) (.ptr (by rfl)) hc (storeInt_put (ps := [ptrVal (m.next + 1)]) (is := [0]) h0 ?_ (by simp))) ?_
      · simp only
        rw [setHeap_other e1, setHeap_same]
      · simp only
        rw [setHeap_other (by omega), setHeap_same]
        rfl
      · refine .done ?_
        simp only [Mem.mk.injEq, and_true, true_and]
        funext a
        simp only [setHeap]
        by_cases ha : a = m.next
        · simp [ha]
        · by_cases ha1 : a = m.next + 1
          · simp [ha1]
          · simp [ha, ha1]
  · rw [mem_stack (withStr m bs) withStr_stack]
    rfl

/-! ## `sml_octet_string_generate_uuid` -/

theorem ExecTo.uuid (he : EvalTo e env m p env1 m1) (hs : uuidInto p env1 m1 = .ok () env' m') : ExecTo (.uuid e) env m .next env' m' := by
  obtain ⟨N, r⟩ := he
  exact ⟨N, fun n hn => by rw [exec, X_bind_ok (r n hn), X_bind_ok hs]; rfl⟩

theorem generateUuid_run (m : Mem) (h0 : m.next ≠ 0) {bs rest : List UInt8} (hr : m.world.random = bs ++ rest) (hl : bs.length = 16) :
    CallTo .sml_octet_string_generate_uuid [] m (ptrVal m.next) (withStr { m with world := { m.world with random := rest } } bs) := by
  let m1 : Mem := { m with stack := m.stack ++ [.raw (List.replicate 16 none)] }
  let m2 : Mem := { m with stack := m.stack ++ [.raw (bs.map some)], world := { m.world with random := rest } }
  have x2 : ExecTo (.uuid (.var 0)) (upd (envOf []) 0 (.ptr (.stack m.stack.length) 0)) m1 .next (upd (envOf []) 0 (.ptr (.stack m.stack.length) 0)) m2 := by
    refine .uuid (.ptr (l := .stack m.stack.length) (i := 0) (by rfl)) ?_
    have e1 : ∀ env, takeUuid env m1 = .ok bs env { m1 with world := { m.world with random := rest } } := fun env => by
      rw [takeUuid, if_pos (by show 16 ≤ m.world.random.length; rw [hr, List.length_append]; omega)]
      show XRes.ok (m.world.random.take 16) env { m1 with world := { m.world with random := m.world.random.drop 16 } } = _
      rw [hr, ← hl, List.take_left, List.drop_left]
    rw [uuidInto, X_bind_ok (e1 _)]
    refine storeBytes_raw (bs := List.replicate 16 none) (getBlock_stack (by simp [m1])) (fun h => by rw [h] at hl; cases hl) (by rw [List.length_replicate]; omega) ?_
    rw [setBlock_stack, hl]
    simp [m1, m2]
  have hc := octetInit_run m2 h0 (k := m.stack.length) (b := bs.map some) (bs := bs) (by simp [m2]) (by rw [← List.length_map (as := bs) some, List.take_length]) (by omega) .i32
  rw [hl] at hc
  refine .of (vs := []) (m1 := withStr m2 bs) (fun env m => rfl) (.cons (.bytes (k := 16) .lit (by omega)) <| .cons x2 <| .ret (.call (.cons (.ptr (by rfl)) (.one .lit)) hc)) fun env => ?_
  show XRes.ok _ _ _ = XRes.ok _ _ _
  have hne : bs ≠ [] := fun h => by rw [h] at hl; cases hl
  simp [withStr, hne, m2]

/-! ## `sml_message_init` -/

theorem setHeap_comm (h : a ≠ b) : setHeap (setHeap f a x) b y = setHeap (setHeap f b y) a x := by
  funext c
  simp only [setHeap]
  split <;> split <;> first | rfl | (exfalso; omega)

theorem messageInit_run (m : Mem) (h0 : m.next ≠ 0) {bs rest : List UInt8} (hr : m.world.random = bs ++ rest) (hl : bs.length = 16) :
    CallTo .sml_message_init [] m (ptrVal m.next)
      { m with
        next := m.next + 3
        heap := setHeap (setHeap (setHeap m.heap m.next (some (.obj [ptrVal (m.next + 1), nullPtr, nullPtr, nullPtr, nullPtr] []))) (m.next + 1)
          (some (.obj [ptrVal (m.next + 2)] [16]))) (m.next + 2) (some (.raw (bs.map some)))
        world := { m.world with random := rest } } := by
  have hne : bs ≠ [] := fun h => by rw [h] at hl; cases hl
  let m1 : Mem := { m with next := m.next + 1, heap := setHeap m.heap m.next (some (.obj [nullPtr, nullPtr, nullPtr, nullPtr, nullPtr] [])) }
  have hu := generateUuid_run m1 (by simp [m1]) (bs := bs) (rest := rest) hr hl
  rw [withStr, if_neg hne, hl] at hu
  refine .of (vs := []) (m1 := { m with next := m.next + 3, heap := _, world := { m.world with random := rest } }) (fun env m => rfl)
    (.cons (.setPtr .mallocRec) <| .cons (env1 := upd (envOf []) 0 (ptrVal m.next)) (m1 := m1) (.stRec (.ptr (by rfl)) (.cons .null <| .cons .null <| .cons .null <| .cons .null <| .one .null) ⟨0, fun _ _ => rfl⟩ ?_) <|
    .cons (.stPtr (.call .nil hu) (.ptr (by rfl)) (storePtr_put (ps := [nullPtr, nullPtr, nullPtr, nullPtr, nullPtr]) (is := []) h0 ?_ (by simp))) <| .ret (.ptr (by rfl))) fun env => ?_
  · rw [storeRec_put h0 setHeap_same]
    simp only [setHeap_twice]
    rfl
  · simp only [m1]
    rw [setHeap_other (by omega), setHeap_other (by omega), setHeap_same]
  · show XRes.ok _ _ _ = XRes.ok _ _ _
    simp only [m1, List.take_length]
    congr 2
    funext a
    simp only [setHeap]
    by_cases ha : a = m.next
    · simp [ha]
    · simp [ha]

/-! ## `sml_message_body_init` -/

theorem bodyInit_run (m : Mem) (h0 : m.next ≠ 0) {v d : Nat} (hv : v < 4294967296) (t : ITy) :
    CallTo .sml_message_body_init [.int t v, ptrVal d] m (ptrVal m.next)
      { m with
        next := m.next + 2
        heap := setHeap (setHeap m.heap m.next (some (.obj [ptrVal (m.next + 1), ptrVal d] []))) (m.next + 1) (some (.raw ((leBytes 4 v).map some))) } := by
  have hc : ITy.conv .u32 (v : Int) = v := conv_u32 (by omega) (by omega)
  let m1 : Mem := { m with next := m.next + 1, heap := setHeap m.heap m.next (some .fresh) }
  have hn := numberInit_run (ty := 96) (t1 := .u32) (t2 := .i32) (t3 := .u64) (size := 4) m1 (by simp [m1]) (k := v) (natConv_u64 (by omega)) (by omega) (by omega)
  refine .of (vs := [.int .u32 v, ptrVal d]) (m1 := { m with next := m.next + 2, heap := _ }) (fun env m => ?_)
    (.cons (.setPtr .mallocRec) <| .cons (.stRec (.ptr (by rfl)) (.cons (.call (.cons (.int (by rfl)) (.cons .lit (.one .lit))) hn) (.one (.ptr (by rfl)))) ⟨0, fun _ _ => rfl⟩
      (storeRec_put h0 ?_)) <| .ret (.ptr (by rfl))) fun env => ?_
  · simp only [program, sml_message_body_init, bindArgs, convTo, asInt, X_bind, X_pure]
    rw [hc]
  · simp only [m1]
    rw [setHeap_other (by omega), setHeap_same]
  · show XRes.ok _ _ _ = XRes.ok _ _ _
    simp only [m1, List.take_length]
    congr 2
    funext a
    simp only [setHeap]
    by_cases ha : a = m.next
    · simp [ha]
    · simp [ha]

/-! ## `sml_file_init` -/

theorem fileInit_run (m : Mem) (h0 : m.next ≠ 0) :
    CallTo .sml_file_init [] m (ptrVal m.next)
      { m with
        next := m.next + 3
        heap := setHeap (setHeap (setHeap m.heap m.next (some (.obj [nullPtr, ptrVal (m.next + 1)] [0]))) (m.next + 1) (some (.obj [ptrVal (m.next + 2), nullPtr] [512, 0, 0])))
          (m.next + 2) (some (.raw ((List.replicate 512 (0 : UInt8)).map some))) } := by
  let m1 : Mem := { m with next := m.next + 1, heap := setHeap m.heap m.next (some (.obj [nullPtr, nullPtr] [0])) }
  have hb := bufferInit_run m1 (t := .i32) (n := 512) (by simp [m1]) (by omega)
  rw [withBuf, List.length_replicate] at hb
  refine .of (vs := []) (m1 := { m with next := m.next + 3, heap := _ }) (fun env m => rfl)
    (.cons (.setPtr .mallocRec) <| .cons (env1 := upd (envOf []) 0 (ptrVal m.next)) (m1 := m1) (.stRec (.ptr (by rfl)) (.cons .null (.one .null)) ⟨0, fun _ _ => rfl⟩ ?_) <|
    .cons (.setPtr (.call (.one .lit) hb)) <|
    .cons (.stPtr (.ptr (by rfl)) (.ptr (by rfl)) (storePtr_put (ps := [nullPtr, nullPtr]) (is := [0]) h0 ?_ (by simp))) <| .ret (.ptr (by rfl))) fun env => ?_
  · rw [storeRec_put h0 setHeap_same]
    simp only [setHeap_twice]
    rfl
  · simp only [m1]
    rw [setHeap_other (by omega), setHeap_other (by omega), setHeap_same]
  · show XRes.ok _ _ _ = XRes.ok _ _ _
    simp only [m1, List.take_length]
    generalize (List.replicate 512 (0 : UInt8)).map some = L
    congr 2
    funext a
    simp only [setHeap]
    by_cases ha : a = m.next
    · simp [ha]
    · simp [ha]

end

/-! ## `sml_list_add` -/

theorem listAdd_src : AddSpec .sml_list_add (fun l e => writePtr l 7 e) := by
  intro l e K st h hi _ u st' h' hr
  have hw := writePtr_eq_ok hr
  obtain ⟨ha, rfl, ps, is, hc, hv, rfl⟩ := hw
  refine ⟨hi.setPs hc _, trivial, CallTo.of (vs := [ptrVal l, ptrVal e]) (fun env m => rfl) (.cons (.stPtr (.ptr (by rfl)) (.ptr (by rfl)) (storePtr_cell hi hr)) .nil) (res_void K)⟩

theorem getListRequestInit_src : InitSpec .sml_get_list_request_init (.struct [0, 0, 0, 0, 0] []) :=
  InitSpec.of [0, 0, 0, 0, 0] [] rfl rfl rfl (by simp) (fun _ _ _ => rfl) (fun _ _ _ => rfl)

end Sml.C
