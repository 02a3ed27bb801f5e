import Verif.Lemmas.CSetup
import Verif.Lemmas.CRepeat

/-! # `asdf.c`: codes, messages, actions and keys -/

namespace Asdf.C

variable {x : Extra} {s : State}

attribute [crun] Mac.ASDF_ACTION Mac.ASDF_DEBOUNCE_TIME_MS Mac.ASDF_HOOK_EACH_SCAN
  Mac.ASDF_KEYCODE_BUFFER_SIZE Mac.ASDF_MESSAGE_BUFFER_SIZE

theorem handle_i8 {h : Int} (k : -1 ≤ h ∧ h ≤ 3) : -128 ≤ h ∧ h ≤ 127 := by omega

section
variable (F : Fits x s)
include F

/-! ## Buffers -/

theorem c_put_code {c : Code} {s' : State} (h : putCode s c = .ok s') (t : Ity) (env ps keys) (w n : Nat) :
    Fits x s' ∧ run prog w (n + 3) .asdf_put_code [.int t c.toNat] (K x s env ps keys) =
      .ok .unit (K x s' env ps keys) := by
  simp only [putCode, bind_eq_ok] at h
  obtain ⟨b, hb, h⟩ := h
  cases h
  refine ⟨fits_bufPut F hb, ?_⟩
  have k := fun env => c_buffer_put F (handle_i8 F.kc) c .i8 .u8 hb env ps keys w n
  cfn fn_asdf_put_code
  cgo [k]

omit F in
theorem char_facts (c : Code) : (-128 ≤ conv .i8 c.toNat ∧ conv .i8 c.toNat ≤ 127) ∧
    ((10 : Int) = conv .i8 c.toNat ↔ c = 10) ∧ conv .u8 (conv .i8 c.toNat) = c.toNat := by
  have h := c.toNat_lt
  have e : c = 10 ↔ c.toNat = 10 := by rw [← UInt8.toNat_inj]; rfl
  simp only [conv, Int.bmod, e]
  refine ⟨⟨?_, ?_⟩, ⟨fun h => ?_, fun h => ?_⟩, ?_⟩ <;> (try split at *) <;> omega

/-- `asdf_putc` of a character other than a line feed. -/
theorem c_putc_plain {c : Code} (hc : c ≠ 10) {s' : State} (h : putMsg s c = .ok s') (t : Ity) (env ps keys)
    (w n : Nat) :
    Fits x s' ∧ run prog w (n + 3) .asdf_putc [.int t (conv .i8 c.toNat), .null] (K x s env ps keys) =
      .ok (.int .i16 (conv .i8 c.toNat)) (K x s' env ps keys) := by
  simp only [putMsg, bind_eq_ok] at h
  obtain ⟨b, hb, h⟩ := h
  cases h
  refine ⟨fits_bufPut F hb, ?_⟩
  have k := fun env => c_buffer_put F (handle_i8 F.msg) c .i8 .u8 hb env ps keys w n
  obtain ⟨h1, h2, h3⟩ := char_facts c
  generalize conv .i8 c.toNat = v at h1 h2 h3 ⊢
  cfn fn_asdf_putc
  cgo [h2, hc, h3, k]

theorem c_putc {c : Code} {s' : State} (h : putc s c = .ok s') (env ps keys) (w n : Nat) :
    Fits x s' ∧ run prog w (n + 4) .asdf_putc [.int .i8 (conv .i8 c.toNat), .null] (K x s env ps keys) =
      .ok (.int .i16 (conv .i8 c.toNat)) (K x s' env ps keys) := by
  unfold putc at h
  by_cases hc : c = 10
  · subst hc
    have h : (putMsg s 13 >>= fun s => putMsg s 10) = .ok s' := h
    obtain ⟨s1, h1, h⟩ := bind_eq_ok.1 h
    have k1 := fun env => c_putc_plain F (by decide) h1 .i16 env ps keys w n
    have F1 := (k1 []).1
    have k1 := fun env => (k1 env).2
    have e13 : conv .i8 (((13 : Code).toNat : Nat) : Int) = 13 := by decide
    have e10 : conv .i8 (((10 : Code).toNat : Nat) : Int) = 10 := by decide
    have f10 : (((10 : Code).toNat : Nat) : Int) = 10 := by decide
    simp only [e13] at k1
    simp only [putMsg, bind_eq_ok] at h
    obtain ⟨b, hb, h⟩ := h
    cases h
    refine ⟨fits_bufPut F1 hb, ?_⟩
    have k := fun env => c_buffer_put F1 (handle_i8 F1.msg) 10 .i8 .u8 hb env ps keys w (n + 1)
    simp only [f10] at k
    rw [e10]
    cfn fn_asdf_putc
    cgo [k1, k]
  · have h : putMsg s c = .ok s' := by
      simpa [hc] using h
    exact c_putc_plain F hc h .i8 env ps keys w (n + 1)

omit F in
theorem c_printAll (w n : Nat) (ps keys) : ∀ (text : List Code) (s s' : State), Fits x s → print s text = .ok s' →
    Fits x s' ∧ ∀ env, printAll (run prog w (n + 4)) text (K x s env ps keys) = .ok .unit (K x s' env ps keys) := by
  intro text
  induction text with
  | nil =>
    intro s s' F h
    cases h
    exact ⟨F, fun env => rfl⟩
  | cons c cs ih =>
    intro s s' F h
    simp only [print, List.foldlM_cons, bind_eq_ok] at h
    obtain ⟨s1, h1, h⟩ := h
    have k := fun env => c_putc F h1 env ps keys w n
    obtain ⟨F', e⟩ := ih s1 s' (k []).1 h
    refine ⟨F', fun env => ?_⟩
    simp only [printAll, (k env).2, Out.bind, e]

omit F in
theorem printed_body {f : C.F} {t : List Code} (h : printed f = some t) :
    body f = some ⟨[], none, .expr (.call .asdf_print (.cons (.str t) .nil))⟩ := by
  unfold printed at h
  split at h
  · cases h; assumption
  · cases h

omit F in
theorem run_print (t : List Code) (ht : t.contains 37 = false) (S : St Io) (w n : Nat) :
    run prog w (n + 1) .asdf_print [.str t] S = printAll (run prog w n) t S := by
  rw [run_ext rfl]
  simp only [ext, ht]
  rfl

theorem c_hook_execute {i : Nat} (hi : i < 256) {s' : State} (h : hookExecute s i = .ok s') (t : Ity)
    (env ps keys) (w n : Nat) :
    Fits x s' ∧ run prog w (n + 7) .asdf_hook_execute [.int t i] (K x s env ps keys) =
      .ok .unit (K x s' env ps keys) := by
  have c := c_hook_valid_id (x := x) (s := s) hi
  unfold hookExecute at h
  cases hv : hookValid i
  · rw [if_neg (by simp [hv])] at h
    cases h
    refine ⟨F, ?_⟩
    cfn fn_asdf_hook_execute
    cgo [c, hv]
  · rw [if_pos hv] at h
    simp only [bind_eq_ok, rd_eq_ok] at h
    obtain ⟨f, hf, h⟩ := h
    obtain ⟨g, v, h1, h2, h3⟩ := hook_at F (hookValid_iff.1 hv).2
    cases h1.symm.trans hf
    match f, h3, h with
    | .null, h3, h =>
      cases h
      cases h3
      refine ⟨F, ?_⟩
      have e : ∀ env, run prog w (n + 6) .asdf_hook_null_func [] (K x s env ps keys) =
          .ok .unit (K x s env ps keys) := fun env => by
        cfn fn_asdf_hook_null_func
        cgo []
      cfn fn_asdf_hook_execute
      cgo [c, hv, Int.toNat_natCast, h2, e]
    | .print text, h3, h =>
      obtain ⟨f, rfl, hp, ht⟩ := h3
      obtain ⟨F', e⟩ := c_printAll w n ps keys text s s' F h
      refine ⟨F', ?_⟩
      have e : ∀ env, run prog w (n + 6) f [] (K x s env ps keys) =
          .ok .unit (K x s' env ps keys) := fun env => by
        rw [run_fn (printed_body hp)]
        cgo [run_print text ht, e]
      cfn fn_asdf_hook_execute
      cgo [c, hv, Int.toNat_natCast, h2, e]

omit F in
theorem run_delay_ms (t : Ity) (v : Int) (S : St Io) (w n : Nat) :
    run prog w (n + 1) .asdf_arch_delay_ms [.int t v] S = .ok .unit (S.emit (.delayMs (UInt16.ofInt v))) := by
  rw [run_ext rfl]; rfl

theorem c_next_code {c : Code} {s' : State} (h : nextCode s = .ok (c, s')) (env ps keys) (w n : Nat) :
    Fits x s' ∧ run prog w (n + 3) .asdf_next_code [] (K x s env ps keys) =
      .ok (.int .u8 c.toNat) (K x s' env ps keys) := by
  simp only [nextCode, bind_eq_ok] at h
  obtain ⟨⟨c1, b1⟩, h1, h⟩ := h
  have F1 := fits_bufGet F h1
  have k1 := fun env => c_buffer_get F (handle_i8 F.msg) .i8 h1 env ps keys w n
  have hu : (160 : Int) = c1.toNat ↔ INVALID_CODE = c1 := u8_eq 160 c1
  by_cases hc : INVALID_CODE = c1
  · simp only [hc, ↓reduceIte, bind_eq_ok] at h
    obtain ⟨⟨c2, b2⟩, h2, h⟩ := h
    cases h
    have k2 := fun env => c_buffer_get F1 (handle_i8 F.kc) .i8 h2 env ps keys w n
    refine ⟨fits_bufGet F1 h2, ?_⟩
    have hu : ((160 : Int) = c1.toNat) = True := eq_true (hu.2 hc)
    cfn fn_asdf_next_code
    cgo [k1, k2, hu]
  · simp only [hc, ↓reduceIte] at h
    cases h
    refine ⟨fits_emit F1 _, ?_⟩
    cfn fn_asdf_next_code
    cgo [k1, hu, hc, run_delay_ms]

/-! ## Keys -/

omit F in
theorem c_lookup {row col : Nat} (hr : row < 256) (hc : col < 256) {c : Code}
    (h : lookupKeycode s row col = .ok c) (t t' : Ity) (env ps keys) (w n : Nat) :
    run prog w (n + 3) .asdf_lookup_keycode [.int t row, .int t' col] (K x s env ps keys) =
      .ok (.int .u8 c.toNat) (K x s env ps keys) := by
  obtain ⟨i, hi, hm, ci⟩ := c_modifier_index (x := x) s
  simp only [lookupKeycode, hm, ok_bind] at h
  have k := c_get_code (x := x) hr hc (by omega : i < 256) h
  cfn fn_asdf_lookup_keycode
  cgo [ci, k]

end
end Asdf.C
