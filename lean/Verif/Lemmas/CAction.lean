import Verif.Lemmas.CCore

/-! # `asdf.c`: the two `switch` statements over action codes -/

namespace Asdf.C

variable {x : Extra} {s : State}

/-- The call that `asdf_activate_action` makes for an action. -/
def actCall : Action → Option (F × List Val)
  | .shift => some (.asdf_modifier_shift_activate, [])
  | .shiftlockOn => some (.asdf_modifier_shiftlock_on_activate, [])
  | .shiftlockToggle => some (.asdf_modifier_shiftlock_toggle_activate, [])
  | .caps => some (.asdf_modifier_capslock_activate, [])
  | .ctrl => some (.asdf_modifier_ctrl_activate, [])
  | .repeat => some (.asdf_repeat_activate, [])
  | .mapsel bit => some (setF bit, [])
  | .strobeSelect => some (.asdf_arch_set_pos_strobe, [])
  | .autorepeatSelect => some (.asdf_repeat_auto_on, [])
  | .virt v => some (.asdf_virtual_activate, [.int .i16 (v : Nat)])
  | .nothing | .hereIs => some (.asdf_hook_execute, [.int .i16 5])
  | .fn n => if 1 ≤ n ∧ n ≤ 10 then some (.asdf_hook_execute, [.int .i16 ((5 + (n - 1) : Nat) : Int)]) else none
  | .other => none

/-- The call that `asdf_deactivate_action` makes for an action. -/
def deactCall : Action → Option (F × List Val)
  | .shift => some (.asdf_modifier_shift_deactivate, [])
  | .ctrl => some (.asdf_modifier_ctrl_deactivate, [])
  | .repeat => some (.asdf_repeat_deactivate, [])
  | .mapsel bit => some (clearF bit, [])
  | .strobeSelect => some (.asdf_arch_set_neg_strobe, [])
  | .autorepeatSelect => some (.asdf_repeat_auto_off, [])
  | _ => none

/-- Make the call, if there is one. -/
def doCall (call : Call Io) (o : Option (F × List Val)) (S : St Io) : Out Io Ctl :=
  match o with
  | some (f, args) => (call f args S).bind fun _ S => .ok .next S
  | none => .ok .next S

theorem act_cases (c : UInt8) : (c.toNat < 160 ∨ 193 < c.toNat) ∨ c = 160 ∨ c = 161 ∨ c = 162 ∨ c = 163 ∨ c = 164 ∨ c = 165 ∨ c = 166 ∨ c = 167 ∨ c = 168 ∨ c = 169 ∨ c = 170 ∨ c = 171 ∨ c = 172 ∨ c = 173 ∨ c = 174 ∨ c = 175 ∨ c = 176 ∨ c = 177 ∨ c = 178 ∨ c = 179 ∨ c = 180 ∨ c = 181 ∨ c = 182 ∨ c = 183 ∨ c = 184 ∨ c = 185 ∨ c = 186 ∨ c = 187 ∨ c = 188 ∨ c = 189 ∨ c = 190 ∨ c = 191 ∨ c = 192 ∨ c = 193 := by
  by_cases h : c.toNat < 160 ∨ 193 < c.toNat
  · exact .inl h
  · right
    simp only [← UInt8.toNat_inj, UInt8.reduceToNat]
    omega

theorem decode_other {c : UInt8} (h : c.toNat < 160 ∨ 193 < c.toNat) : decodeAction c = .other := by
  unfold decodeAction
  split <;> first | rfl | omega

theorem other_key {c : UInt8} (h : c.toNat < 160 ∨ 193 < c.toNat) (k : Int) (hk : 160 ≤ k ∧ k ≤ 193) :
    ((c.toNat : Int) == k) = false := by
  rw [beq_eq_false_iff_ne]; omega

theorem bind_bind {α β γ : Type} (y : Out Io α) (f : α → St Io → Out Io β) (g : β → St Io → Out Io γ) :
    (y.bind f).bind g = y.bind fun a s => (f a s).bind g := by cases y <;> rfl

theorem act_switch (call : Call Io) (w : Nat) (c : UInt8) (ps keys) :
    exec call w fn_asdf_activate_action.body (K x s [(.keycode, .int .u8 c.toNat)] ps keys) =
      doCall call (actCall (decodeAction c)) (K x s [(.keycode, .int .u8 c.toNat)] ps keys) := by
  rcases act_cases c with h | rfl | rfl | rfl | rfl | rfl | rfl | rfl | rfl | rfl | rfl | rfl | rfl | rfl | rfl | rfl | rfl | rfl | rfl | rfl | rfl | rfl | rfl | rfl | rfl | rfl | rfl | rfl | rfl | rfl | rfl | rfl | rfl | rfl | rfl
  case inl =>
    have hb := other_key h
    rw [decode_other h]
    unfold fn_asdf_activate_action
    cgo [hb, actCall, doCall, List.contains_cons, List.contains_nil]
  all_goals
    unfold fn_asdf_activate_action
    cgo [List.contains_cons, List.contains_nil, bind_bind, Bool.or_false, Bool.or_true, Bool.true_or, Bool.false_or]
    rfl

theorem deact_switch (call : Call Io) (w : Nat) (c : UInt8) (ps keys) :
    exec call w fn_asdf_deactivate_action.body (K x s [(.keycode, .int .u8 c.toNat)] ps keys) =
      doCall call (deactCall (decodeAction c)) (K x s [(.keycode, .int .u8 c.toNat)] ps keys) := by
  rcases act_cases c with h | rfl | rfl | rfl | rfl | rfl | rfl | rfl | rfl | rfl | rfl | rfl | rfl | rfl | rfl | rfl | rfl | rfl | rfl | rfl | rfl | rfl | rfl | rfl | rfl | rfl | rfl | rfl | rfl | rfl | rfl | rfl | rfl | rfl | rfl
  case inl =>
    have hb := other_key h
    rw [decode_other h]
    unfold fn_asdf_deactivate_action
    cgo [hb, deactCall, doCall, List.contains_cons, List.contains_nil]
  all_goals
    unfold fn_asdf_deactivate_action
    cgo [List.contains_cons, List.contains_nil, bind_bind, Bool.or_false, Bool.or_true, Bool.true_or, Bool.false_or]
    rfl

theorem decode_mapsel {c : UInt8} {bit : UInt8} (h : decodeAction c = .mapsel bit) :
    bit = 1 ∨ bit = 2 ∨ bit = 4 ∨ bit = 8 := by
  unfold decodeAction at h
  split at h <;> cases h <;> decide

theorem c_act (c : UInt8) {w : Nat} (hw : 300 ≤ w) (n : Nat) {s' : State} (F : Fits x s)
    (h : activateAction shipped s (decodeAction c) = .ok s') : ∃ x', Fits x' s' ∧ ∀ env ps keys,
      doCall (run prog w (n + 12)) (actCall (decodeAction c)) (K x s env ps keys) = .ok .next (K x' s' env ps keys) := by
  have one : ∀ {f args x'}, (Fits x' s' ∧ ∀ env ps keys,
      run prog w (n + 12) f args (K x s env ps keys) = .ok .unit (K x' s' env ps keys)) →
      ∃ x', Fits x' s' ∧ ∀ env ps keys,
        doCall (run prog w (n + 12)) (some (f, args)) (K x s env ps keys) = .ok .next (K x' s' env ps keys) := by
    intro f args x' h
    exact ⟨x', h.1, fun env ps keys => by simp only [doCall, h.2, Out.bind]⟩
  have both : ∀ {f args}, (∀ env ps keys, Fits x s' ∧
      run prog w (n + 12) f args (K x s env ps keys) = .ok .unit (K x s' env ps keys)) →
      ∃ x', Fits x' s' ∧ ∀ env ps keys,
        doCall (run prog w (n + 12)) (some (f, args)) (K x s env ps keys) = .ok .next (K x' s' env ps keys) :=
    fun h => one ⟨(h [] [] none).1, fun env ps keys => (h env ps keys).2⟩
  have hook : ∀ {i : Nat}, i < 256 → hookExecute s i = .ok s' → ∃ x', Fits x' s' ∧ ∀ env ps keys,
        doCall (run prog w (n + 12)) (some (.asdf_hook_execute, [.int .i16 i])) (K x s env ps keys) =
          .ok .next (K x' s' env ps keys) :=
    fun hi h => both fun env ps keys => c_hook_execute F hi h .i16 env ps keys w (n + 5)
  cases hd : decodeAction c <;> rw [hd] at h
  case nothing => exact hook (i := 5) (by decide) h
  case hereIs => exact hook (i := 5) (by decide) h
  case shift => exact both fun env ps keys => c_shift_activate F h env ps keys hw (n + 5)
  case shiftlockOn => exact both fun env ps keys => c_shiftlock_on F h env ps keys hw (n + 5)
  case shiftlockToggle => exact both fun env ps keys => c_shiftlock_toggle F h env ps keys hw (n + 5)
  case caps => exact both fun env ps keys => c_capslock_activate F h env ps keys hw (n + 5)
  case ctrl => cases h; exact both fun env ps keys => ⟨fits_ctrl F _, c_ctrl_activate env ps keys w (n + 11)⟩
  case «repeat» => cases h; exact both fun env ps keys => ⟨{ F with }, c_repeat_activate x s env ps keys w (n + 11)⟩
  case autorepeatSelect => cases h; exact both fun env ps keys => ⟨{ F with }, c_repeat_auto_on x s env ps keys w (n + 11)⟩
  case strobeSelect => cases h; exact both fun env ps keys => ⟨fits_emit F _, run_pos _ w (n + 11)⟩
  case mapsel bit =>
    obtain ⟨x', k⟩ := c_map_select_set (decode_mapsel hd) hw n F h
    exact one k
  case virt v =>
    simp only [activateAction, bind_eq_ok] at h
    obtain ⟨d, h1, h⟩ := h
    cases h
    refine both fun env ps keys => ?_
    have k := c_virtual_activate F h1 .i16 env ps keys hw (n + 6)
    exact ⟨F.setDev k.1, k.2⟩
  case fn m =>
    simp only [activateAction, actCall] at h ⊢
    split at h
    · rename_i hm
      rw [if_pos hm]
      exact hook (by omega) h
    · rename_i hm
      rw [if_neg hm]
      cases h
      exact ⟨x, F, fun env ps keys => rfl⟩
  case other => cases h; exact ⟨x, F, fun env ps keys => rfl⟩

theorem c_deact (c : UInt8) {w : Nat} (hw : 300 ≤ w) (n : Nat) {s' : State} (F : Fits x s)
    (h : deactivateAction shipped s (decodeAction c) = .ok s') : ∃ x', Fits x' s' ∧ ∀ env ps keys,
      doCall (run prog w (n + 12)) (deactCall (decodeAction c)) (K x s env ps keys) = .ok .next (K x' s' env ps keys) := by
  have one : ∀ {f args x'}, (Fits x' s' ∧ ∀ env ps keys,
      run prog w (n + 12) f args (K x s env ps keys) = .ok .unit (K x' s' env ps keys)) →
      ∃ x', Fits x' s' ∧ ∀ env ps keys,
        doCall (run prog w (n + 12)) (some (f, args)) (K x s env ps keys) = .ok .next (K x' s' env ps keys) := by
    intro f args x' h
    exact ⟨x', h.1, fun env ps keys => by simp only [doCall, h.2, Out.bind]⟩
  have both : ∀ {f args}, (∀ env ps keys, Fits x s' ∧
      run prog w (n + 12) f args (K x s env ps keys) = .ok .unit (K x s' env ps keys)) →
      ∃ x', Fits x' s' ∧ ∀ env ps keys,
        doCall (run prog w (n + 12)) (some (f, args)) (K x s env ps keys) = .ok .next (K x' s' env ps keys) :=
    fun h => one ⟨(h [] [] none).1, fun env ps keys => (h env ps keys).2⟩
  cases hd : decodeAction c <;> rw [hd] at h
  case shift => exact both fun env ps keys => c_shift_deactivate F h env ps keys hw (n + 5)
  case ctrl => cases h; exact both fun env ps keys => ⟨fits_ctrl F _, c_ctrl_deactivate env ps keys w (n + 11)⟩
  case «repeat» => cases h; exact both fun env ps keys => ⟨{ F with }, c_repeat_deactivate x s env ps keys w (n + 11)⟩
  case autorepeatSelect => cases h; exact both fun env ps keys => ⟨{ F with }, c_repeat_auto_off x s env ps keys w (n + 11)⟩
  case strobeSelect => cases h; exact both fun env ps keys => ⟨fits_emit F _, run_neg _ w (n + 11)⟩
  case mapsel bit =>
    obtain ⟨x', k⟩ := c_map_select_clear (decode_mapsel hd) hw n F h
    exact one k
  all_goals cases h; exact ⟨x, F, fun env ps keys => rfl⟩

theorem c_activate_action (c : UInt8) (t : Ity) {w : Nat} (hw : 300 ≤ w) (n : Nat) {s' : State} (F : Fits x s)
    (h : activateAction shipped s (decodeAction c) = .ok s') : ∃ x', Fits x' s' ∧ ∀ env ps keys,
      run prog w (n + 13) .asdf_activate_action [.int t c.toNat] (K x s env ps keys) =
        .ok .unit (K x' s' env ps keys) := by
  obtain ⟨x', F', k⟩ := c_act c hw n F h
  refine ⟨x', F', fun env ps keys => ?_⟩
  have e : fn_asdf_activate_action = ⟨[(.keycode, .int .u8)], none, fn_asdf_activate_action.body⟩ := rfl
  rw [run_fn (b := fn_asdf_activate_action) rfl, e]
  cgo [act_switch, k]

theorem c_deactivate_action (c : UInt8) (t : Ity) {w : Nat} (hw : 300 ≤ w) (n : Nat) {s' : State} (F : Fits x s)
    (h : deactivateAction shipped s (decodeAction c) = .ok s') : ∃ x', Fits x' s' ∧ ∀ env ps keys,
      run prog w (n + 13) .asdf_deactivate_action [.int t c.toNat] (K x s env ps keys) =
        .ok .unit (K x' s' env ps keys) := by
  obtain ⟨x', F', k⟩ := c_deact c hw n F h
  refine ⟨x', F', fun env ps keys => ?_⟩
  have e : fn_asdf_deactivate_action = ⟨[(.keycode, .int .u8)], none, fn_asdf_deactivate_action.body⟩ := rfl
  rw [run_fn (b := fn_asdf_deactivate_action) rfl, e]
  cgo [deact_switch, k]

theorem key_le (c : UInt8) : (160 : Int) < c.toNat ↔ c > INVALID_CODE := by
  rw [gt_iff_lt, UInt8.lt_iff_toNat_lt]
  have : INVALID_CODE.toNat = 160 := rfl
  omega

theorem c_activate_key (c : UInt8) (t : Ity) {w : Nat} (hw : 300 ≤ w) (n : Nat) {s' : State} (F : Fits x s)
    (h : activateKey shipped s c = .ok s') : ∃ x', Fits x' s' ∧ ∀ env ps keys,
      run prog w (n + 14) .asdf_activate_key [.int t c.toNat] (K x s env ps keys) =
        .ok .unit (K x' s' env ps keys) := by
  have hk := key_le c
  unfold activateKey at h
  by_cases hc : c > INVALID_CODE
  · rw [if_pos hc] at h
    obtain ⟨x', F', k⟩ := c_activate_action c .u8 hw n F h
    refine ⟨x', F', fun env ps keys => ?_⟩
    have k := fun env => k env ps keys
    cfn fn_asdf_activate_key
    cgo [hk, hc, k]
  · rw [if_neg hc] at h
    simp only [bind_eq_ok] at h
    obtain ⟨s1, h1, h⟩ := h
    have k1 := fun env ps keys => c_put_code F h1 .u8 env ps keys w (n + 10)
    have F1 := (k1 [] [] none).1
    have hl : (s1.lastKey.toNat : Int) = c.toNat ↔ s1.lastKey = c := u8_eq _ _
    by_cases hl' : s1.lastKey = c
    · have hl : ((s1.lastKey.toNat : Int) = c.toNat) = True := eq_true (hl.2 hl')
      simp only [hl', ne_eq, not_true_eq_false, ↓reduceIte] at h
      cases h
      refine ⟨x, F1, fun env ps keys => ?_⟩
      have k1 := fun env => (k1 env ps keys).2
      cfn fn_asdf_activate_key
      cgo [hk, hc, k1, hl]
    · simp only [hl', ne_eq, not_false_eq_true, ↓reduceIte] at h
      cases h
      refine ⟨x, { F1 with }, fun env ps keys => ?_⟩
      have k1 := fun env => (k1 env ps keys).2
      have k2 := fun env => c_repeat_reset_count x { s1 with lastKey := c } env ps keys w (n + 12)
      cfn fn_asdf_activate_key
      cgo [hk, hc, k1, hl, hl', k2]

theorem c_deactivate_key (c : UInt8) (t : Ity) {w : Nat} (hw : 300 ≤ w) (n : Nat) {s' : State} (F : Fits x s)
    (h : deactivateKey shipped s c = .ok s') : ∃ x', Fits x' s' ∧ ∀ env ps keys,
      run prog w (n + 14) .asdf_deactivate_key [.int t c.toNat] (K x s env ps keys) =
        .ok .unit (K x' s' env ps keys) := by
  have hk := key_le c
  unfold deactivateKey at h
  by_cases hc : c > INVALID_CODE
  · rw [if_pos hc] at h
    obtain ⟨x', F', k⟩ := c_deactivate_action c .u8 hw n F h
    refine ⟨x', F', fun env ps keys => ?_⟩
    have k := fun env => k env ps keys
    cfn fn_asdf_deactivate_key
    cgo [hk, hc, k]
  · rw [if_neg hc] at h
    have hl : (s.lastKey.toNat : Int) = c.toNat ↔ s.lastKey = c := u8_eq _ _
    by_cases hl' : s.lastKey = c
    · rw [if_pos hl'] at h
      cases h
      refine ⟨x, { F with }, fun env ps keys => ?_⟩
      have hl : ((s.lastKey.toNat : Int) = c.toNat) = True := eq_true (hl.2 hl')
      cfn fn_asdf_deactivate_key
      cgo [hk, hc, hl]
      rfl
    · rw [if_neg hl'] at h
      cases h
      refine ⟨x, F, fun env ps keys => ?_⟩
      cfn fn_asdf_deactivate_key
      cgo [hk, hc, hl, hl']

end Asdf.C
