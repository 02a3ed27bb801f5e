import Verif.Lemmas.CDevice

/-! # `asdf_hook.c` and `asdf_modifiers.c`; operations on bits -/

namespace Asdf.C

variable {x : Extra} {s : State}

/-! ## Bits -/

theorem ofBits_nat (n : Nat) (h : n < 32768) : ofBits .i16 (BitVec.ofNat 16 n) = n := by
  simp only [ofBits]
  rw [BitVec.toInt_eq_toNat_of_lt] <;> simp [BitVec.toNat_ofNat] <;> omega

theorem bits_and (a b : UInt8) : ofBits .i16 (BitVec.ofInt 16 a.toNat &&& BitVec.ofInt 16 b.toNat) =
    (a &&& b).toNat := by
  have h := (a &&& b).toNat_lt
  refine Eq.trans (congrArg (ofBits .i16) ?_) (ofBits_nat (a &&& b).toNat (by omega))
  apply BitVec.eq_of_toNat_eq
  have h1 := a.toNat_lt
  have h2 := b.toNat_lt
  simp only [BitVec.toNat_and, BitVec.ofInt_natCast, BitVec.toNat_ofNat, UInt8.toNat_and] at h ⊢
  rw [Nat.mod_eq_of_lt (by omega), Nat.mod_eq_of_lt (by omega), Nat.mod_eq_of_lt (by omega)]

theorem bits_or (a b : UInt8) : ofBits .i16 (BitVec.ofInt 16 a.toNat ||| BitVec.ofInt 16 b.toNat) =
    (a ||| b).toNat := by
  have h := (a ||| b).toNat_lt
  refine Eq.trans (congrArg (ofBits .i16) ?_) (ofBits_nat (a ||| b).toNat (by omega))
  apply BitVec.eq_of_toNat_eq
  have h1 := a.toNat_lt
  have h2 := b.toNat_lt
  simp only [BitVec.toNat_or, BitVec.ofInt_natCast, BitVec.toNat_ofNat, UInt8.toNat_or] at h ⊢
  rw [Nat.mod_eq_of_lt (by omega), Nat.mod_eq_of_lt (by omega), Nat.mod_eq_of_lt (by omega)]

theorem bits_xor (a b : UInt8) : ofBits .i16 (BitVec.ofInt 16 a.toNat ^^^ BitVec.ofInt 16 b.toNat) =
    (a ^^^ b).toNat := by
  have h := (a ^^^ b).toNat_lt
  refine Eq.trans (congrArg (ofBits .i16) ?_) (ofBits_nat (a ^^^ b).toNat (by omega))
  apply BitVec.eq_of_toNat_eq
  have h1 := a.toNat_lt
  have h2 := b.toNat_lt
  simp only [BitVec.toNat_xor, BitVec.ofInt_natCast, BitVec.toNat_ofNat, UInt8.toNat_xor] at h ⊢
  rw [Nat.mod_eq_of_lt (by omega), Nat.mod_eq_of_lt (by omega), Nat.mod_eq_of_lt (by omega)]

/-- Types whose values keep their value when they take part in an operation with a `uint8_t`. -/
theorem binop_and (t : Ity) (h : common .u8 t = .i16) (a b : UInt8) :
    binop .band (.int .u8 a.toNat) (.int t b.toNat) = .ok (.int .i16 (a &&& b).toNat) := by
  simp only [binop, h, conv_i16_u8]
  exact congrArg (fun n => Except.ok (Val.int .i16 n)) (bits_and a b)

theorem binop_or (t : Ity) (h : common .u8 t = .i16) (a b : UInt8) :
    binop .bor (.int .u8 a.toNat) (.int t b.toNat) = .ok (.int .i16 (a ||| b).toNat) := by
  simp only [binop, h, conv_i16_u8]
  exact congrArg (fun n => Except.ok (Val.int .i16 n)) (bits_or a b)

theorem binop_xor (t : Ity) (h : common .u8 t = .i16) (a b : UInt8) :
    binop .bxor (.int .u8 a.toNat) (.int t b.toNat) = .ok (.int .i16 (a ^^^ b).toNat) := by
  simp only [binop, h, conv_i16_u8]
  exact congrArg (fun n => Except.ok (Val.int .i16 n)) (bits_xor a b)

/-! ## Hooks -/

theorem hookValid_iff {i : Nat} : hookValid i = true ↔ 0 < i ∧ i < 16 := by
  unfold hookValid; rw [Bool.and_eq_true, decide_eq_true_iff, decide_eq_true_iff]; rfl

theorem c_hook_valid_id {p : Nat} (hp : p < 256) (t : Ity) (env ps keys) (w n : Nat) :
    run prog w (n + 1) .asdf_hook_valid_id [.int t p] (K x s env ps keys) =
      .ok (.int .u8 (if hookValid p then 1 else 0)) (K x s env ps keys) := by
  have hv := hookValid_iff (i := p)
  cfn fn_asdf_hook_valid_id
  by_cases h0 : (0 : Int) < p
  · by_cases h1 : (p : Int) < 16
    · have : hookValid p = true := hv.2 (by omega)
      cgo [h0, h1, this]
    · have : hookValid p = false := Bool.eq_false_iff.2 (mt hv.1 (by omega))
      cgo [h0, h1, this]
  · have : hookValid p = false := Bool.eq_false_iff.2 (mt hv.1 (by omega))
    cgo [h0, this]

theorem hookIs_ptr {h : HookFn} {v : Val} (k : HookIs h v) : toPtr v = .ok v ∧ ∀ t n, v ≠ .int t n := by
  cases h with
  | print t => obtain ⟨f, rfl, -⟩ := k; exact ⟨rfl, fun _ _ h => by cases h⟩
  | _ => cases k; exact ⟨rfl, fun _ _ h => by cases h⟩

section
variable (F : Fits x s)
include F

theorem hook_at {i : Nat} (hi : i < 16) : ∃ h v, s.hooks[i]? = some h ∧ x.hk[i]? = some v ∧ HookIs h v := by
  have h1 := List.getElem?_eq_getElem (l := s.hooks) (i := i) (by rw [F.nhooks]; exact hi)
  have h2 := List.getElem?_eq_getElem (l := x.hk) (i := i) (by rw [F.hk]; exact hi)
  exact ⟨_, _, h1, h2, F.hooks _ _ _ h1 h2⟩

theorem c_hook_get {i : Nat} (hi : i < 256) {h : HookFn} (hh : hookGet s.hooks i = .ok h) (t : Ity) :
    ∃ v, HookIs h v ∧ ∀ env ps keys w n,
      run prog w (n + 2) .asdf_hook_get [.int t i] (K x s env ps keys) = .ok v (K x s env ps keys) := by
  have c := c_hook_valid_id (x := x) (s := s) hi
  cases hv : hookValid i
  · simp only [hookGet, hv, Bool.false_eq_true, ↓reduceIte] at hh
    cases hh
    refine ⟨_, rfl, fun env ps keys w n => ?_⟩
    cfn fn_asdf_hook_get
    cgo [c, hv]
  · simp only [hookGet, hv, ↓reduceIte, rd_eq_ok] at hh
    obtain ⟨h', v, h1, h2, h3⟩ := hook_at F (hookValid_iff.1 hv).2
    cases h1.symm.trans hh
    have hp := (hookIs_ptr h3).1
    refine ⟨v, h3, fun env ps keys w n => ?_⟩
    cfn fn_asdf_hook_get
    cgo [c, hv, Int.toNat_natCast, h2, hp]

theorem fits_setHook {i : Nat} {h : HookFn} {v : Val} (hv : HookIs h v) :
    Fits { x with hk := x.hk.set i v } { s with hooks := s.hooks.set i h } :=
  { F with
    nhooks := by simpa using F.nhooks
    hk := by simpa using F.hk
    hooks := fun j h' v' h1 h2 => by
      by_cases hij : i = j
      · subst hij
        simp only [List.getElem?_set_self'] at h1 h2
        cases h3 : s.hooks[i]? <;> simp [h3] at h1
        cases h4 : x.hk[i]? <;> simp [h4] at h2
        subst h1 h2
        exact hv
      · simp only [List.getElem?_set, hij, ↓reduceIte] at h1 h2
        exact F.hooks j h' v' h1 h2 }

omit F in
/-- The hooks of the model are not part of the state of the program: the function pointers are. -/
theorem K_hooks (hs : List HookFn) (env ps keys) :
    K x { s with hooks := hs } env ps keys = K x s env ps keys := rfl

theorem c_hook_assign {i : Nat} (hi : i < 256) {h : HookFn} {hs : List HookFn}
    (hh : hookAssign s.hooks i h = .ok hs) (t : Ity) (f : C.F) (hf : HookIs h (.fn f)) :
    ∃ x' : Extra, x'.bp = x.bp ∧ Fits x' { s with hooks := hs } ∧ ∀ env ps keys w n,
      run prog w (n + 2) .asdf_hook_assign [.int t i, .fn f] (K x s env ps keys) =
        .ok .unit (K x' { s with hooks := hs } env ps keys) := by
  have c := c_hook_valid_id (x := x) (s := s) hi
  cases hv : hookValid i
  · simp only [hookAssign, hv, Bool.false_eq_true, ↓reduceIte] at hh
    cases hh
    refine ⟨x, rfl, F, fun env ps keys w n => ?_⟩
    cfn fn_asdf_hook_assign
    cgo [c, hv]
  · simp only [hookAssign, hv, ↓reduceIte, wr_eq_ok] at hh
    obtain ⟨-, rfl⟩ := hh
    obtain ⟨h', v, h1, h2, h3⟩ := hook_at F (hookValid_iff.1 hv).2
    have hst := fun env ps keys => store_hook x s env ps keys i (Int.natCast_nonneg i) v
      (by simpa using h2) (hookIs_ptr h3).2 f
    refine ⟨{ x with hk := x.hk.set i (.fn f) }, rfl, fits_setHook F hf, fun env ps keys w n => ?_⟩
    cfn fn_asdf_hook_assign
    cgo [c, hv, hst, Int.toNat_natCast, K_hooks]

omit F in
/-- The loop of `asdf_hook_init`. -/
theorem loop_hook_init (c st b) (hl : fn_asdf_hook_init.body.loops[0]? = some (c, st, b)) (call w ps keys) :
    ∀ (k i m : Nat) (i0 : Int) (x : Extra), x.hk.length = 16 → (∀ v ∈ x.hk, ∀ t n, v ≠ .int t n) →
      i + k = 16 → k < m → i0 = i →
      turns (evalE call c) (exec call w b) (evalE call st) m (K x s [(.i, .int .u8 i0)] ps keys) =
        .ok .next (K { x with hk := x.hk.mapIdx fun j v => if i ≤ j then .fn .asdf_hook_null_func else v } s
          [(.i, .int .u8 16)] ps keys) := by
  cases hl
  intro k
  induction k with
  | zero =>
    rintro i m _ x h1 hn h2 hm rfl
    obtain ⟨m, rfl⟩ : ∃ k, m = k + 1 := ⟨m - 1, by omega⟩
    have : (x.hk.mapIdx fun j v => if i ≤ j then .fn .asdf_hook_null_func else v) = x.hk := by
      apply List.ext_getElem (by simp)
      intro j h h'
      simp only [List.getElem_mapIdx]
      exact if_neg (by omega)
    rw [this, turns_succ]
    have hi : (i : Int) = 16 := by omega
    cgo [hi]
  | succ k ih =>
    rintro i m _ x h1 hn h2 hm rfl
    obtain ⟨m, rfl⟩ : ∃ k, m = k + 1 := ⟨m - 1, by omega⟩
    obtain ⟨v, hv⟩ : ∃ v, x.hk[i]? = some v := ⟨_, List.getElem?_eq_getElem (by omega)⟩
    have hi : (i : Int) < 16 := by omega
    have hst := fun env ps keys => store_hook x s env ps keys i (Int.natCast_nonneg i) v
      (by simpa using hv) (hn _ (List.mem_of_getElem? hv)) .asdf_hook_null_func
    have e := ih (i + 1) m ((i : Int) + 1) { x with hk := x.hk.set i (.fn .asdf_hook_null_func) }
      (by simpa using h1) (fun v hv => by
        rcases List.mem_or_eq_of_mem_set hv with hv | rfl
        · exact hn v hv
        · simp) (by omega) (by omega) (by omega)
    rw [turns_succ]
    cgo [Int.toNat_natCast, hst, hi]
    refine e.trans ?_
    congr 2
    refine congrArg (fun l => ({ x with hk := l } : Extra)) (List.ext_getElem (by simp) fun j h h' => ?_)
    simp only [List.getElem_mapIdx, List.getElem_set]
    by_cases hij : i = j
    · subst hij
      simp
    · simp only [hij, ↓reduceIte]
      by_cases hle : i ≤ j
      · rw [if_pos (by omega), if_pos hle]
      · rw [if_neg (by omega), if_neg hle]

theorem c_hook_init : ∃ x' : Extra, x'.bp = x.bp ∧ Fits x' { s with hooks := hookInit s.hooks } ∧
    ∀ env ps keys w n, 300 ≤ w → run prog w (n + 1) .asdf_hook_init [] (K x s env ps keys) =
        .ok .unit (K x' { s with hooks := hookInit s.hooks } env ps keys) := by
  have hni : ∀ v ∈ x.hk, ∀ t n, v ≠ .int t n := fun v hv => by
    obtain ⟨i, hi⟩ := List.mem_iff_getElem?.1 hv
    obtain ⟨h, v', -, h2, h3⟩ := hook_at F (i := i) (F.hk ▸ (List.getElem?_eq_some_iff.1 hi).1)
    cases h2.symm.trans hi
    exact (hookIs_ptr h3).2
  have hr : (x.hk.mapIdx fun j v => if 0 ≤ j then Val.fn .asdf_hook_null_func else v) =
      List.replicate 16 (.fn .asdf_hook_null_func) := by
    apply List.ext_getElem (by rw [List.length_mapIdx, List.length_replicate, F.hk])
    intro j h h'
    rw [List.getElem_replicate, List.getElem_mapIdx]
    rfl
  have F0 : Fits { x with hk := List.replicate 16 (.fn .asdf_hook_null_func) }
      { s with hooks := List.replicate 16 .null } :=
    { F with
      nhooks := by simp
      hk := by simp
      hooks := fun i h v h1 h2 => by
        rw [List.eq_of_mem_replicate (List.mem_of_getElem? h1),
          List.eq_of_mem_replicate (List.mem_of_getElem? h2)]
        rfl }
  have F1 := fits_setHook F0 (i := 2) (h := .archReadRow) (v := .fn .asdf_arch_read_row) rfl
  have F2 := fits_setHook F1 (i := 3) (h := .archSendCode) (v := .fn .asdf_arch_send_code) rfl
  have F3 := fits_setHook F2 (i := 1) (h := .keyscan) (v := .fn .asdf_keyscan) rfl
  refine ⟨_, ?_, F3, fun env ps keys w n hw => ?_⟩
  · rfl
  have e := loop_hook_init (s := s) _ _ _ rfl (run prog w n) w ps keys 16 0 w 0 x F.hk hni rfl (by omega) rfl
  rw [hr] at e
  have s1 := fun env ps keys => store_hook ⟨x.bp, List.replicate 16 (Val.fn .asdf_hook_null_func)⟩ s env ps
    keys 2 (by decide) _ rfl (by simp) .asdf_arch_read_row
  have s2 := fun env ps keys => store_hook ⟨x.bp, (List.replicate 16 (Val.fn .asdf_hook_null_func)).set 2
    (.fn .asdf_arch_read_row)⟩ s env ps keys 3 (by decide) _ rfl (by simp) .asdf_arch_send_code
  have s3 := fun env ps keys => store_hook ⟨x.bp, ((List.replicate 16 (Val.fn .asdf_hook_null_func)).set 2
    (.fn .asdf_arch_read_row)).set 3 (.fn .asdf_arch_send_code)⟩ s env ps keys 1 (by decide) _ rfl (by simp)
      .asdf_keyscan
  cfn fn_asdf_hook_init
  cgo [e, s1, s2, s3]
  rfl

/-! ## Modifiers -/

theorem c_set_shift {c : UInt8} {s' : State} (h : setShiftState s c = .ok s') (t : Ity) (env ps keys) {w : Nat}
    (hw : 300 ≤ w) (n : Nat) :
    Fits x s' ∧ run prog w (n + 6) .asdf_modifier_set_shift_state [.int t c.toNat] (K x s env ps keys) =
      .ok .unit (K x s' env ps keys) := by
  simp only [setShiftState, bind_eq_ok] at h
  obtain ⟨d, h, hd⟩ := h
  cases hd
  have F1 : Fits x { s with mods := { s.mods with shift := c } } := { F with }
  have k := c_virtual_action F1 h .i16 .i16
  have hb : binop .band (.int .u8 c.toNat) (.int .i16 2) = .ok (.int .i16 (c &&& 2).toNat) :=
    binop_and .i16 rfl c 2
  have hu : ((c &&& 2).toNat : Int) = 0 ↔ c &&& 2 = 0 := u8_eq _ 0
  refine ⟨F1.setDev (k [] ps keys hw 0).1, ?_⟩
  have k := fun env => (k env ps keys hw n).2
  cfn fn_asdf_modifier_set_shift_state
  by_cases h2 : c &&& 2 = 0
  · rw [if_neg (by simpa [SHIFT_LOCKED_ST] using h2)] at k
    have k : ∀ env, run prog w (n + 5) .asdf_virtual_action [.int .i16 11, .int .i16 2]
      (K x { s with mods := ⟨c, s.mods.caps, s.mods.ctrl⟩ } env ps keys) = _ := k
    cgo [hb, hu, h2, k]
  · rw [if_pos (by simpa [SHIFT_LOCKED_ST] using h2)] at k
    have k : ∀ env, run prog w (n + 5) .asdf_virtual_action [.int .i16 11, .int .i16 1]
      (K x { s with mods := ⟨c, s.mods.caps, s.mods.ctrl⟩ } env ps keys) = _ := k
    cgo [hb, hu, h2, k]

theorem c_set_caps {c : UInt8} {s' : State} (h : setCapsState s c = .ok s') (t : Ity) (env ps keys) {w : Nat}
    (hw : 300 ≤ w) (n : Nat) :
    Fits x s' ∧ run prog w (n + 6) .asdf_modifier_set_caps_state [.int t c.toNat] (K x s env ps keys) =
      .ok .unit (K x s' env ps keys) := by
  simp only [setCapsState, bind_eq_ok] at h
  obtain ⟨d, h, hd⟩ := h
  cases hd
  have F1 : Fits x { s with mods := { s.mods with caps := c } } := { F with }
  have k := c_virtual_action F1 h .i16 .i16
  have hu : (c.toNat : Int) = 0 ↔ c = 0 := u8_eq _ 0
  refine ⟨F1.setDev (k [] ps keys hw 0).1, ?_⟩
  have k := fun env => (k env ps keys hw n).2
  cfn fn_asdf_modifier_set_caps_state
  by_cases h2 : c = 0
  · rw [if_neg (by simpa using h2)] at k
    have k : ∀ env, run prog w (n + 5) .asdf_virtual_action [.int .i16 10, .int .i16 2]
      (K x { s with mods := ⟨s.mods.shift, c, s.mods.ctrl⟩ } env ps keys) = _ := k
    have h2' : ((c.toNat : Int) = 0) = True := eq_true (hu.2 h2)
    cgo [h2', k]
  · rw [if_pos (by simpa using h2)] at k
    have k : ∀ env, run prog w (n + 5) .asdf_virtual_action [.int .i16 10, .int .i16 1]
      (K x { s with mods := ⟨s.mods.shift, c, s.mods.ctrl⟩ } env ps keys) = _ := k
    cgo [hu, h2, k]

theorem c_shift_activate {s' : State} (h : shiftActivate s = .ok s') (env ps keys) {w : Nat}
    (hw : 300 ≤ w) (n : Nat) :
    Fits x s' ∧ run prog w (n + 7) .asdf_modifier_shift_activate [] (K x s env ps keys) =
      .ok .unit (K x s' env ps keys) := by
  have k := fun env => c_set_shift F h .i16 env ps keys hw n
  refine ⟨(k []).1, ?_⟩
  have k : ∀ env, run prog w (n + 6) .asdf_modifier_set_shift_state [.int .i16 1] (K x s env ps keys) = _ :=
    fun env => (k env).2
  cfn fn_asdf_modifier_shift_activate
  cgo [k]

theorem c_shift_deactivate {s' : State} (h : shiftDeactivate s = .ok s') (env ps keys) {w : Nat}
    (hw : 300 ≤ w) (n : Nat) :
    Fits x s' ∧ run prog w (n + 7) .asdf_modifier_shift_deactivate [] (K x s env ps keys) =
      .ok .unit (K x s' env ps keys) := by
  have k := fun env => c_set_shift F h .i16 env ps keys hw n
  refine ⟨(k []).1, ?_⟩
  have k : ∀ env, run prog w (n + 6) .asdf_modifier_set_shift_state [.int .i16 0] (K x s env ps keys) = _ :=
    fun env => (k env).2
  cfn fn_asdf_modifier_shift_deactivate
  cgo [k]

theorem c_shiftlock_on {s' : State} (h : shiftlockOn s = .ok s') (env ps keys) {w : Nat}
    (hw : 300 ≤ w) (n : Nat) :
    Fits x s' ∧ run prog w (n + 7) .asdf_modifier_shiftlock_on_activate [] (K x s env ps keys) =
      .ok .unit (K x s' env ps keys) := by
  have k := fun env => c_set_shift F h .i16 env ps keys hw n
  refine ⟨(k []).1, ?_⟩
  have k := fun env => (k env).2
  have hb : binop .bor (.int .u8 s.mods.shift.toNat) (.int .i16 2) = .ok (.int .i16 (s.mods.shift ||| 2).toNat) :=
    binop_or .i16 rfl _ 2
  cfn fn_asdf_modifier_shiftlock_on_activate
  cgo [hb]
  exact congrArg (Out.bind · _) (congrArg (Out.bind · _) (k _))

theorem c_shiftlock_toggle {s' : State} (h : shiftlockToggle s = .ok s') (env ps keys) {w : Nat}
    (hw : 300 ≤ w) (n : Nat) :
    Fits x s' ∧ run prog w (n + 7) .asdf_modifier_shiftlock_toggle_activate [] (K x s env ps keys) =
      .ok .unit (K x s' env ps keys) := by
  have k := fun env => c_set_shift F h .i16 env ps keys hw n
  refine ⟨(k []).1, ?_⟩
  have k := fun env => (k env).2
  have hb : binop .bxor (.int .u8 s.mods.shift.toNat) (.int .i16 2) = .ok (.int .i16 (s.mods.shift ^^^ 2).toNat) :=
    binop_xor .i16 rfl _ 2
  cfn fn_asdf_modifier_shiftlock_toggle_activate
  cgo [hb]
  exact congrArg (Out.bind · _) (congrArg (Out.bind · _) (k _))

theorem c_capslock_activate {s' : State} (h : capslockActivate s = .ok s') (env ps keys) {w : Nat}
    (hw : 300 ≤ w) (n : Nat) :
    Fits x s' ∧ run prog w (n + 7) .asdf_modifier_capslock_activate [] (K x s env ps keys) =
      .ok .unit (K x s' env ps keys) := by
  have F1 : Fits x { s with mods := { s.mods with caps := s.mods.caps ^^^ 1 } } := { F with }
  have k := fun env => c_set_caps F1 (c := s.mods.caps ^^^ 1) (s' := s') h .u8 env ps keys hw n
  refine ⟨(k []).1, ?_⟩
  have k := fun env => (k env).2
  have hb : binop .bxor (.int .u8 s.mods.caps.toNat) (.int .i16 1) = .ok (.int .i16 (s.mods.caps ^^^ 1).toNat) :=
    binop_xor .i16 rfl _ 1
  cfn fn_asdf_modifier_capslock_activate
  cgo [hb, k]

omit F in
theorem c_ctrl_activate (env ps keys) (w n : Nat) :
    run prog w (n + 1) .asdf_modifier_ctrl_activate [] (K x s env ps keys) =
      .ok .unit (K x (ctrlActivate s) env ps keys) := by
  cfn fn_asdf_modifier_ctrl_activate
  cgo []
  rfl

omit F in
theorem c_ctrl_deactivate (env ps keys) (w n : Nat) :
    run prog w (n + 1) .asdf_modifier_ctrl_deactivate [] (K x s env ps keys) =
      .ok .unit (K x (ctrlDeactivate s) env ps keys) := by
  cfn fn_asdf_modifier_ctrl_deactivate
  cgo []
  rfl

theorem fits_ctrl (c : UInt8) : Fits x { s with mods := { s.mods with ctrl := c } } := { F with }

theorem c_modifiers_init {s' : State} (h : modifiersInit s = .ok s') (env ps keys) {w : Nat}
    (hw : 300 ≤ w) (n : Nat) :
    Fits x s' ∧ run prog w (n + 7) .asdf_modifiers_init [] (K x s env ps keys) =
      .ok .unit (K x s' env ps keys) := by
  simp only [modifiersInit, bind_eq_ok] at h
  obtain ⟨s1, h1, s2, h2, h⟩ := h
  cases h
  have k1 := fun env => c_set_shift F h1 .i16 env ps keys hw n
  have k2 := fun env => c_set_caps (k1 []).1 h2 .i16 env ps keys hw n
  refine ⟨fits_ctrl (k2 []).1 0, ?_⟩
  have k1 : ∀ env, run prog w (n + 6) .asdf_modifier_set_shift_state [.int .i16 0] (K x s env ps keys) = _ :=
    fun env => (k1 env).2
  have k2 : ∀ env, run prog w (n + 6) .asdf_modifier_set_caps_state [.int .i16 0] (K x s1 env ps keys) = _ :=
    fun env => (k2 env).2
  cfn fn_asdf_modifiers_init
  cgo [k1, k2]
  rfl

section
variable (env : List (L × Val)) (ps : List (Option Input)) (keys : Option Input)
omit F
@[crun] theorem load_mapping_0 : loadLoc (.obj .modifier_mapping [.ix 0]) (K x s env ps keys) =
    .ok (.int .u8 0) := rfl
@[crun] theorem load_mapping_1 : loadLoc (.obj .modifier_mapping [.ix 1]) (K x s env ps keys) =
    .ok (.int .u8 1) := rfl
@[crun] theorem load_mapping_2 : loadLoc (.obj .modifier_mapping [.ix 2]) (K x s env ps keys) =
    .ok (.int .u8 2) := rfl
@[crun] theorem load_mapping_3 : loadLoc (.obj .modifier_mapping [.ix 3]) (K x s env ps keys) =
    .ok (.int .u8 1) := rfl
@[crun] theorem load_mapping_4 : loadLoc (.obj .modifier_mapping [.ix 4]) (K x s env ps keys) =
    .ok (.int .u8 3) := rfl
@[crun] theorem load_mapping_5 : loadLoc (.obj .modifier_mapping [.ix 5]) (K x s env ps keys) =
    .ok (.int .u8 3) := rfl
@[crun] theorem load_mapping_6 : loadLoc (.obj .modifier_mapping [.ix 6]) (K x s env ps keys) =
    .ok (.int .u8 3) := rfl
@[crun] theorem load_mapping_7 : loadLoc (.obj .modifier_mapping [.ix 7]) (K x s env ps keys) =
    .ok (.int .u8 3) := rfl
end

omit F in
@[crun] theorem bor_0_1 : binop .bor (.int .u8 0) (.int .i16 1) = .ok (.int .i16 1) := rfl
omit F in
@[crun] theorem bor_0_2 : binop .bor (.int .u8 0) (.int .i16 2) = .ok (.int .i16 2) := rfl
omit F in
@[crun] theorem bor_1_2 : binop .bor (.int .u8 1) (.int .i16 2) = .ok (.int .i16 3) := rfl
omit F in
@[crun] theorem bor_0_4 : binop .bor (.int .u8 0) (.int .i16 4) = .ok (.int .i16 4) := rfl
omit F in
@[crun] theorem bor_1_4 : binop .bor (.int .u8 1) (.int .i16 4) = .ok (.int .i16 5) := rfl
omit F in
@[crun] theorem bor_2_4 : binop .bor (.int .u8 2) (.int .i16 4) = .ok (.int .i16 6) := rfl
omit F in
@[crun] theorem bor_3_4 : binop .bor (.int .u8 3) (.int .i16 4) = .ok (.int .i16 7) := rfl

omit F in
theorem c_modifier_index (s : State) : ∃ i : Nat, i < 4 ∧ modifierIndex s.mods = .ok i ∧ ∀ env ps keys w n,
    run prog w (n + 1) .asdf_modifier_index [] (K x s env ps keys) = .ok (.int .u8 i) (K x s env ps keys) := by
  have h1 : (s.mods.shift.toNat : Int) = 0 ↔ s.mods.shift = 0 := u8_eq _ 0
  have h2 : (s.mods.caps.toNat : Int) = 0 ↔ s.mods.caps = 0 := u8_eq _ 0
  have h3 : (s.mods.ctrl.toNat : Int) = 0 ↔ s.mods.ctrl = 0 := u8_eq _ 0
  by_cases k1 : s.mods.shift = 0 <;> by_cases k2 : s.mods.caps = 0 <;> by_cases k3 : s.mods.ctrl = 0 <;>
    refine ⟨_, ?_, (by simp only [modifierIndex, activeModifiers, k1, k2, k3, ne_eq, not_true_eq_false,
      not_false_eq_true, ↓reduceIte]; rfl), fun env ps keys w n => ?_⟩ <;>
    first
    | decide
    | (cfn fn_asdf_modifier_index; cgo [h1, h2, h3, k1, k2, k3]; rfl)

end
end Asdf.C
