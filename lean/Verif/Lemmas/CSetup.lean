import Verif.Lemmas.CKeymaps
import Verif.Model.Shipped

/-! # The setup functions of the keymaps, and switching keymaps -/

namespace Asdf.C

variable {x : Extra} {s : State}

/-- The statement does what the setup commands do. -/
def Sets (w n : Nat) (st : Stmt) (cs : List SetupCmd) : Prop :=
  ∀ (x : Extra) (s s' : State), Fits x s → cs.foldlM runCmd s = .ok s' →
    ∃ x', Fits x' s' ∧ ∀ env ps keys,
      exec (run prog w n) w st (K x s env ps keys) = .ok .next (K x' s' env ps keys)

theorem Sets.seq {w n : Nat} {a b : Stmt} {c : SetupCmd} {cs : List SetupCmd} (h1 : Sets w n a [c])
    (h2 : Sets w n b cs) : Sets w n (.seq a b) (c :: cs) := by
  intro x s s' F h
  simp only [List.foldlM_cons, bind_eq_ok] at h
  obtain ⟨s1, h, h'⟩ := h
  obtain ⟨x1, F1, e1⟩ := h1 x s s1 F (by simp only [List.foldlM_cons, h]; rfl)
  obtain ⟨x2, F2, e2⟩ := h2 x1 s1 s' F1 h'
  refine ⟨x2, F2, fun env ps keys => ?_⟩
  cgo [e1, e2]

theorem sets_one {w n : Nat} {e : Expr} {c : SetupCmd}
    (h : ∀ (x : Extra) (s s' : State), Fits x s → runCmd s c = .ok s' → ∃ x', Fits x' s' ∧ ∀ env ps keys,
      evalE (run prog w n) e (K x s env ps keys) = .ok .unit (K x' s' env ps keys)) :
    Sets w n (.expr e) [c] := by
  intro x s s' F hc
  simp only [List.foldlM_cons, bind_eq_ok] at hc
  obtain ⟨s1, hc, h1⟩ := hc
  cases h1
  obtain ⟨x', F', e⟩ := h x s _ F hc
  refine ⟨x', F', fun env ps keys => ?_⟩
  cgo [e]

theorem sets_delay (w n : Nat) (c : UInt8) (k : Int) (h : k = c.toNat) :
    Sets w (n + 1) (.expr (.call .asdf_set_print_delay (.cons (.num k) .nil))) [.printDelay c] := by
  apply sets_one
  intro x s s' F hc
  cases hc
  refine ⟨x, { F with }, fun env ps keys => ?_⟩
  have h1 : UInt16.ofInt (c.toNat : Int) = c.toUInt16 := by
    apply UInt16.toNat_inj.1
    have := c.toNat_lt
    simp only [UInt16.ofInt, UInt16.toNat_ofNat', UInt8.toNat_toUInt16]
    omega
  subst h
  cgo []
  cfn fn_asdf_set_print_delay
  cgo [h1]

theorem sets_caps (w n : Nat) (hw : 300 ≤ w) :
    Sets w (n + 7) (.expr (.call .asdf_modifier_capslock_activate .nil)) [.capsActivate] := by
  apply sets_one
  intro x s s' F hc
  have k := fun env ps keys => c_capslock_activate F hc env ps keys hw n
  refine ⟨x, (k [] [] none).1, fun env ps keys => ?_⟩
  have k := fun env => (k env ps keys).2
  cgo [k]

theorem run_neg (S : St Io) (w n : Nat) :
    run prog w (n + 1) .asdf_arch_set_neg_strobe [] S = .ok .unit (S.emit .negStrobe) := by
  rw [run_ext rfl]; rfl

theorem run_pos (S : St Io) (w n : Nat) :
    run prog w (n + 1) .asdf_arch_set_pos_strobe [] S = .ok .unit (S.emit .posStrobe) := by
  rw [run_ext rfl]; rfl

theorem run_arch_init (S : St Io) (w n : Nat) :
    run prog w (n + 1) .asdf_arch_init [] S = .ok .unit (S.emit .archInit) := by
  rw [run_ext rfl]; rfl

theorem fits_emit (F : Fits x s) (e : Event) : Fits x (s.emit e) := { F with }

theorem sets_neg (w n : Nat) : Sets w (n + 1) (.expr (.call .asdf_arch_set_neg_strobe .nil)) [.negStrobe] := by
  apply sets_one
  intro x s s' F hc
  cases hc
  refine ⟨x, fits_emit F _, fun env ps keys => ?_⟩
  cgo [run_neg]

theorem sets_hook (w n : Nat) (i : Nat) (hi : i < 256) (k : Int) (hk : k = i) (h : HookFn) (f : F)
    (hf : HookIs h (.fn f)) :
    Sets w (n + 2) (.expr (.call .asdf_hook_assign (.cons (.num k) (.cons (.fn f) .nil)))) [.hook i h] := by
  apply sets_one
  intro x s s' F hc
  simp only [runCmd, bind_eq_ok] at hc
  obtain ⟨hs, hc, h1⟩ := hc
  cases h1
  obtain ⟨x', -, F', e⟩ := c_hook_assign F hi hc .i16 f hf
  refine ⟨x', F', fun env ps keys => ?_⟩
  subst hk
  cgo [e]

theorem sets_virt (w n : Nat) (hw : 300 ≤ w) (v p : Nat) (fn : VFun) (i : UInt8) (hv : v < 256) (hp : p < 256)
    (kv kp kf : Int) (ki : Expr) (h1 : kv = v) (h2 : kp = p) (h3 : kf = funNo fn)
    (h4 : ∀ (call : Call Io) S, evalE call ki S = .ok (.int .i16 i.toNat) S) :
    Sets w (n + 3) (.expr (.call .asdf_virtual_assign (.cons (.num kv) (.cons (.num kp) (.cons (.num kf)
      (.cons ki .nil)))))) [.vassign v p fn i] := by
  apply sets_one
  intro x s s' F hc
  simp only [runCmd, bind_eq_ok] at hc
  obtain ⟨d, hc, hd⟩ := hc
  cases hd
  have k := fun env ps keys => c_virtual_assign F hv hp hc .i16 .i16 .i16 .i16 env ps keys hw n
  refine ⟨x, F.setDev (k [] [] none).1, fun env ps keys => ?_⟩
  have k := fun env => (k env ps keys).2
  subst h1 h2 h3
  cgo [k, h4]

/-! ## `*_add_map` -/

theorem load_classic (i : Nat) (t : List Code) (h : init_classic_maps.get [.ix i] = .ok (.leaf (.rom t 0)))
    (env ps keys) : loadLoc (.obj .classic_maps [.ix i]) (K x s env ps keys) = .ok (.rom t 0) := by
  simp only [load_obj, encMem, h]

theorem load_apple (i : Nat) (t : List Code) (h : init_apple_maps.get [.ix i] = .ok (.leaf (.rom t 0)))
    (env ps keys) : loadLoc (.obj .apple_maps [.ix i]) (K x s env ps keys) = .ok (.rom t 0) := by
  simp only [load_obj, encMem, h]

theorem load_ace1000 (i : Nat) (t : List Code) (h : init_ace1000_maps.get [.ix i] = .ok (.leaf (.rom t 0)))
    (env ps keys) : loadLoc (.obj .ace1000_maps [.ix i]) (K x s env ps keys) = .ok (.rom t 0) := by
  simp only [load_obj, encMem, h]

theorem sets_classic (w n : Nat) (i m : Nat) (hi : i < 256) (hm : m < 256) (ki km : Int) (h1 : ki = i) (h2 : km = m)
    (t : List Code) (ht : init_classic_maps.get [.ix i] = .ok (.leaf (.rom t 0))) :
    Sets w (n + 2) (.expr (.call .classic_add_map (.cons (.num ki) (.cons (.num km) .nil))))
      [.addMap t m classicRows classicCols] := by
  apply sets_one
  intro x s s' F hc
  refine ⟨x, fits_addMap F hc, fun env ps keys => ?_⟩
  have c := fun env => c_add_map F hm hc .u8 .u8 .u8 env ps keys w n
  have c : ∀ env, run prog w (n + 1) .asdf_keymaps_add_map [.rom t 0, .int .u8 m, .int .u8 9, .int .u8 8]
    (K x s env ps keys) = _ := c
  have hl := fun env => load_classic (x := x) (s := s) i t ht env ps keys
  have h0 : (0 : Int) ≤ t.length := by omega
  subst h1 h2
  cgo []
  cfn fn_classic_add_map
  cgo [hl, h0, c]

theorem sets_apple (w n : Nat) (i m : Nat) (hi : i < 256) (hm : m < 256) (ki km : Int) (h1 : ki = i) (h2 : km = m)
    (t : List Code) (ht : init_apple_maps.get [.ix i] = .ok (.leaf (.rom t 0))) :
    Sets w (n + 2) (.expr (.call .apple_add_map (.cons (.num ki) (.cons (.num km) .nil))))
      [.addMap t m appleRows appleCols] := by
  apply sets_one
  intro x s s' F hc
  refine ⟨x, fits_addMap F hc, fun env ps keys => ?_⟩
  have c := fun env => c_add_map F hm hc .u8 .u8 .u8 env ps keys w n
  have c : ∀ env, run prog w (n + 1) .asdf_keymaps_add_map [.rom t 0, .int .u8 m, .int .u8 9, .int .u8 8]
    (K x s env ps keys) = _ := c
  have hl := fun env => load_apple (x := x) (s := s) i t ht env ps keys
  have h0 : (0 : Int) ≤ t.length := by omega
  subst h1 h2
  cgo []
  cfn fn_apple_add_map
  cgo [hl, h0, c]

theorem sets_ace1000 (w n : Nat) (i m : Nat) (hi : i < 256) (hm : m < 256) (ki km : Int) (h1 : ki = i) (h2 : km = m)
    (t : List Code) (ht : init_ace1000_maps.get [.ix i] = .ok (.leaf (.rom t 0))) :
    Sets w (n + 2) (.expr (.call .ace1000_add_map (.cons (.num ki) (.cons (.num km) .nil))))
      [.addMap t m ace1000Rows ace1000Cols] := by
  apply sets_one
  intro x s s' F hc
  refine ⟨x, fits_addMap F hc, fun env ps keys => ?_⟩
  have c := fun env => c_add_map F hm hc .u8 .u8 .u8 env ps keys w n
  have c : ∀ env, run prog w (n + 1) .asdf_keymaps_add_map [.rom t 0, .int .u8 m, .int .u8 10, .int .u8 8]
    (K x s env ps keys) = _ := c
  have hl := fun env => load_ace1000 (x := x) (s := s) i t ht env ps keys
  have h0 : (0 : Int) ≤ t.length := by omega
  subst h1 h2
  cgo []
  cfn fn_ace1000_add_map
  cgo [hl, h0, c]

theorem sets_sol (w n : Nat) (m : Nat) (hm : m < 256) (km kc : Int) (h2 : km = m) (t : List Code) :
    Sets w (n + 2) (.expr (.call .sol_add_map (.cons (.tab t kc) (.cons (.num km) .nil))))
      [.addMap t m solRows solCols] := by
  apply sets_one
  intro x s s' F hc
  refine ⟨x, fits_addMap F hc, fun env ps keys => ?_⟩
  have c := fun env => c_add_map F hm hc .u8 .u8 .u8 env ps keys w n
  have c : ∀ env, run prog w (n + 1) .asdf_keymaps_add_map [.rom t 0, .int .u8 m, .int .u8 13, .int .u8 8]
    (K x s env ps keys) = _ := c
  have h0 : (0 : Int) ≤ t.length := by omega
  subst h2
  cgo []
  cfn fn_sol_add_map
  cgo [h0, c]

/-! ## Setup functions -/

/-- The function, called without arguments, does what the setup commands do. -/
def SetsUp (w n : Nat) (f : F) (cs : List SetupCmd) : Prop :=
  ∀ (x : Extra) (s s' : State), Fits x s → cs.foldlM runCmd s = .ok s' →
    ∃ x', Fits x' s' ∧ ∀ env ps keys,
      run prog w n f [] (K x s env ps keys) = .ok .unit (K x' s' env ps keys)

theorem setsUp {w n : Nat} {f : F} {b : Stmt} {cs : List SetupCmd} (hb : body f = some ⟨[], none, b⟩)
    (h : Sets w n b cs) : SetsUp w (n + 1) f cs := by
  intro x s s' F hc
  obtain ⟨x', F', e⟩ := h x s s' F hc
  refine ⟨x', F', fun env ps keys => ?_⟩
  rw [run_fn hb]
  cgo [e]

/-- Match the statements of a setup function with setup commands. -/
macro "setup" hw:ident : tactic => `(tactic| (
  refine setsUp rfl ?_
  repeat' first
    | exact sets_delay _ _ _ _ rfl
    | exact sets_classic _ _ _ _ (by decide) (by decide) _ _ rfl rfl _ rfl
    | exact sets_apple _ _ _ _ (by decide) (by decide) _ _ rfl rfl _ rfl
    | exact sets_ace1000 _ _ _ _ (by decide) (by decide) _ _ rfl rfl _ rfl
    | exact sets_sol _ _ _ (by decide) _ _ rfl _
    | exact sets_hook _ _ _ (by decide) _ rfl _ _ ⟨_, rfl, rfl, by decide⟩
    | exact sets_virt _ _ $hw _ _ _ _ (by decide) (by decide) _ _ _ _ rfl rfl rfl (fun _ _ => rfl)
    | exact sets_caps _ _ $hw
    | exact sets_neg _ _
    | refine Sets.seq ?_ ?_))

theorem c_setup_classic (w n : Nat) (hw : 300 ≤ w) : SetsUp w (n + 8) .setup_classic_keymap classicSetup := by
  setup hw

theorem c_setup_classic_caps (w n : Nat) (hw : 300 ≤ w) :
    SetsUp w (n + 8) .setup_classic_caps_keymap classicCapsSetup := by
  setup hw

theorem c_setup_apple2 (w n : Nat) (hw : 300 ≤ w) : SetsUp w (n + 8) .setup_apple2_keymap apple2Setup := by
  setup hw

theorem c_setup_apple2_caps (w n : Nat) (hw : 300 ≤ w) :
    SetsUp w (n + 8) .setup_apple2_caps_keymap apple2CapsSetup := by
  setup hw

theorem c_setup_sol (w n : Nat) (hw : 300 ≤ w) : SetsUp w (n + 8) .setup_sol_keymap solSetup := by
  setup hw

theorem c_setup_ace1000 (w n : Nat) (hw : 300 ≤ w) : SetsUp w (n + 8) .setup_ace1000_keymap ace1000Setup := by
  setup hw

/-! ## Choice of the keymap -/

theorem key_cases (c : UInt8) : c = 0 ∨ c = 1 ∨ c = 2 ∨ c = 3 ∨ c = 4 ∨ c = 5 ∨ 5 < c.toNat := by
  simp only [← UInt8.toNat_inj, UInt8.reduceToNat]
  omega

theorem big_key {c : UInt8} (h : 5 < c.toNat) (k : Int) (hk : k ≤ 5) : ((c.toNat : Int) == k) = false := by
  simp; omega

theorem c_keymap_valid (c : UInt8) (t : Ity) (env ps keys) (w n : Nat) :
    run prog w (n + 1) .asdf_keymap_valid [.int t c.toNat] (K x s env ps keys) =
      .ok (.int .u8 (if shippedValid c then 1 else 0)) (K x s env ps keys) := by
  cfn fn_asdf_keymap_valid
  obtain rfl | rfl | rfl | rfl | rfl | rfl | h := key_cases c
  case inr.inr.inr.inr.inr.inr =>
    have hv : shippedValid c = false := by
      unfold shippedValid
      split <;> first | rfl | omega
    have hb := big_key h
    cgo [hv, hb 0, hb 1, hb 2, hb 3, hb 4, hb 5]
  all_goals
    cgo [show shippedValid 0 = true from rfl, show shippedValid 1 = true from rfl,
      show shippedValid 2 = true from rfl, show shippedValid 3 = true from rfl,
      show shippedValid 4 = true from rfl, show shippedValid 5 = true from rfl]

theorem c_keymap_setup (c : UInt8) (t : Ity) {w : Nat} (hw : 300 ≤ w) (n : Nat) {s' : State} (F : Fits x s)
    (h : keymapSetup shipped s c = .ok s') :
    ∃ x', Fits x' s' ∧ ∀ env ps keys, run prog w (n + 9) .asdf_keymap_setup [.int t c.toNat] (K x s env ps keys) =
      .ok .unit (K x' s' env ps keys) := by
  obtain rfl | rfl | rfl | rfl | rfl | rfl | h5 := key_cases c
  case inr.inr.inr.inr.inr.inr =>
    have hs : shippedSetup c = classicSetup := by
      unfold shippedSetup
      split <;> first | rfl | omega
    simp only [keymapSetup, shipped, hs] at h
    obtain ⟨x', F', e⟩ := c_setup_classic w n hw x s s' F h
    refine ⟨x', F', fun env ps keys => ?_⟩
    have hb := big_key h5
    cfn fn_asdf_keymap_setup
    cgo [hb 0, hb 1, hb 2, hb 3, hb 4, hb 5, e]
  · obtain ⟨x', F', e⟩ := c_setup_classic w n hw x s s' F h
    refine ⟨x', F', fun env ps keys => ?_⟩
    cfn fn_asdf_keymap_setup
    cgo [e]
  · obtain ⟨x', F', e⟩ := c_setup_classic_caps w n hw x s s' F h
    refine ⟨x', F', fun env ps keys => ?_⟩
    cfn fn_asdf_keymap_setup
    cgo [e]
  · obtain ⟨x', F', e⟩ := c_setup_apple2 w n hw x s s' F h
    refine ⟨x', F', fun env ps keys => ?_⟩
    cfn fn_asdf_keymap_setup
    cgo [e]
  · obtain ⟨x', F', e⟩ := c_setup_apple2_caps w n hw x s s' F h
    refine ⟨x', F', fun env ps keys => ?_⟩
    cfn fn_asdf_keymap_setup
    cgo [e]
  · obtain ⟨x', F', e⟩ := c_setup_sol w n hw x s s' F h
    refine ⟨x', F', fun env ps keys => ?_⟩
    cfn fn_asdf_keymap_setup
    cgo [e]
  · obtain ⟨x', F', e⟩ := c_setup_ace1000 w n hw x s s' F h
    refine ⟨x', F', fun env ps keys => ?_⟩
    cfn fn_asdf_keymap_setup
    cgo [e]

theorem c_keymaps_switch (c : UInt8) (t : Ity) {w : Nat} (hw : 300 ≤ w) (n : Nat) {s' : State} (F : Fits x s)
    (h : keymapsSwitch shipped s c = .ok s') :
    ∃ x', Fits x' s' ∧ ∀ env ps keys, run prog w (n + 10) .asdf_keymaps_switch [.int t c.toNat] (K x s env ps keys) =
      .ok .unit (K x' s' env ps keys) := by
  have cv := c_keymap_valid (x := x) (s := s) c .u8
  unfold keymapsSwitch at h
  have hc : shipped.valid c = shippedValid c := rfl
  rw [hc] at h
  cases hv : shippedValid c
  · rw [if_neg (by simp [hv])] at h
    cases h
    refine ⟨x, F, fun env ps keys => ?_⟩
    cfn fn_asdf_keymaps_switch
    cgo [cv, hv]
  · rw [if_pos hv] at h
    simp only [bind_eq_ok] at h
    obtain ⟨s1, h1, h⟩ := h
    have F1 : Fits x (State.emit { s with curIdx := c } .archInit) := { F with }
    obtain ⟨x2, F2, e2⟩ := c_keymaps_reset F1 h1 hw (n + 6)
    obtain ⟨x3, F3, e3⟩ := c_keymap_setup c .u8 hw n F2 h
    refine ⟨x3, F3, fun env ps keys => ?_⟩
    cfn fn_asdf_keymaps_switch
    cgo [cv, hv, run_arch_init, e2, e3]

theorem c_keymaps_select (c : UInt8) (t : Ity) {w : Nat} (hw : 300 ≤ w) (n : Nat) {s' : State} (F : Fits x s)
    (h : keymapsSelect shipped s c = .ok s') :
    ∃ x', Fits x' s' ∧ ∀ env ps keys, run prog w (n + 11) .asdf_keymaps_select [.int t c.toNat] (K x s env ps keys) =
      .ok .unit (K x' s' env ps keys) := by
  have hu := u8_eq c s.curIdx
  unfold keymapsSelect at h
  by_cases hc : c = s.curIdx
  · rw [if_neg (by simpa using hc)] at h
    cases h
    refine ⟨x, F, fun env ps keys => ?_⟩
    have hu : ((c.toNat : Int) = s.curIdx.toNat) = True := eq_true (hu.2 hc)
    cfn fn_asdf_keymaps_select
    cgo [hu]
  · rw [if_pos hc] at h
    obtain ⟨x2, F2, e2⟩ := c_keymaps_switch c .u8 hw n F h
    refine ⟨x2, F2, fun env ps keys => ?_⟩
    cfn fn_asdf_keymaps_select
    cgo [hu, hc, e2]

theorem c_keymaps_init {w : Nat} (hw : 300 ≤ w) (n : Nat) {s' : State} (F : Fits x s)
    (h : keymapsInit shipped s = .ok s') :
    ∃ x', Fits x' s' ∧ ∀ env ps keys, run prog w (n + 11) .asdf_keymaps_init [] (K x s env ps keys) =
      .ok .unit (K x' s' env ps keys) := by
  obtain ⟨x2, F2, e2⟩ := c_keymaps_switch 0 .i16 hw n F h
  refine ⟨x2, F2, fun env ps keys => ?_⟩
  have e2 : ∀ env, run prog w (n + 10) .asdf_keymaps_switch [.int .i16 0] (K x s env ps keys) = _ :=
    fun env => e2 env ps keys
  cfn fn_asdf_keymaps_init
  cgo [e2]

/-- The function that sets a bit of the keymap number. -/
def setF : UInt8 → F
  | 1 => .asdf_keymaps_map_select_0_set
  | 2 => .asdf_keymaps_map_select_1_set
  | 4 => .asdf_keymaps_map_select_2_set
  | _ => .asdf_keymaps_map_select_3_set

/-- The function that clears a bit of the keymap number. -/
def clearF : UInt8 → F
  | 1 => .asdf_keymaps_map_select_0_clear
  | 2 => .asdf_keymaps_map_select_1_clear
  | 4 => .asdf_keymaps_map_select_2_clear
  | _ => .asdf_keymaps_map_select_3_clear

theorem c_map_select_set {bit : UInt8} (hb : bit = 1 ∨ bit = 2 ∨ bit = 4 ∨ bit = 8) {w : Nat} (hw : 300 ≤ w) (n : Nat)
    {s' : State} (F : Fits x s) (h : mapSelectSet shipped s bit = .ok s') :
    ∃ x', Fits x' s' ∧ ∀ env ps keys, run prog w (n + 12) (setF bit) [] (K x s env ps keys) =
      .ok .unit (K x' s' env ps keys) := by
  obtain ⟨x2, F2, e2⟩ := c_keymaps_select _ .i16 hw n F h
  refine ⟨x2, F2, fun env ps keys => ?_⟩
  have hor := binop_or .i16 rfl s.curIdx bit
  have e : run prog w (n + 12) (setF bit) [] (K x s env ps keys) = apply (run prog w (n + 11)) w
      ⟨[], none, .expr (.call .asdf_keymaps_select (.cons (.bin .bor (.load (.obj .current_keyboard_index))
        (.num bit.toNat)) .nil))⟩ [] (K x s env ps keys) := by
    obtain rfl | rfl | rfl | rfl := hb <;> exact run_fn rfl
  rw [e]
  cgo [hor, e2]

theorem c_map_select_clear {bit : UInt8} (hb : bit = 1 ∨ bit = 2 ∨ bit = 4 ∨ bit = 8) {w : Nat} (hw : 300 ≤ w) (n : Nat)
    {s' : State} (F : Fits x s) (h : mapSelectClear shipped s bit = .ok s') :
    ∃ x', Fits x' s' ∧ ∀ env ps keys, run prog w (n + 12) (clearF bit) [] (K x s env ps keys) =
      .ok .unit (K x' s' env ps keys) := by
  obtain ⟨x2, F2, e2⟩ := c_keymaps_select _ .i16 hw n F h
  refine ⟨x2, F2, fun env ps keys => ?_⟩
  have hor := binop_andNot s.curIdx bit
  have e : run prog w (n + 12) (clearF bit) [] (K x s env ps keys) = apply (run prog w (n + 11)) w
      ⟨[], none, .expr (.call .asdf_keymaps_select (.cons (.bin .band (.load (.obj .current_keyboard_index))
        (.un .bnot (.num bit.toNat))) .nil))⟩ [] (K x s env ps keys) := by
    obtain rfl | rfl | rfl | rfl := hb <;> exact run_fn rfl
  rw [e]
  cgo [hor, e2]

end Asdf.C
