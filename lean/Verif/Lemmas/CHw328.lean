import Verif.Lemmas.CHw

/-! # `Arch/asdf_arch_atmega328p.c`: what its text does -/

namespace Asdf.C.A328

open Avr

set_option linter.unusedSimpArgs false

variable (W : Outside) (m : G → Tree) (env : List (L × Val)) (h : Hw) (w n : Nat)

local notation "P" => hwProg board328 W

/-- A function that sets an output. -/
macro "hset" f:ident g:ident v:ident : tactic =>
  `(tactic| (hfn $f; unfold $g; by_cases hv : $v = 0
             · subst hv; cgo []
             · cgo [u8_ne hv, hv]))

section
variable (t : Ity) (v : UInt8)

theorem led1Set : run P w (n + 4) .asdf_arch_led1_set [.int t v.toNat] (KH m env h) =
    .ok .unit (KH m env (h.accs board328 W (M328.led1Set v))) := by
  hset fn_asdf_arch_led1_set M328.led1Set v
theorem led2Set : run P w (n + 4) .asdf_arch_led2_set [.int t v.toNat] (KH m env h) =
    .ok .unit (KH m env (h.accs board328 W (M328.led2Set v))) := by
  hset fn_asdf_arch_led2_set M328.led2Set v
theorem led3Set : run P w (n + 4) .asdf_arch_led3_set [.int t v.toNat] (KH m env h) =
    .ok .unit (KH m env (h.accs board328 W (M328.led3Set v))) := by
  hset fn_asdf_arch_led3_set M328.led3Set v
theorem out1Set : run P w (n + 4) .asdf_arch_out1_set [.int t v.toNat] (KH m env h) =
    .ok .unit (KH m env (h.accs board328 W (M328.out1Set v))) := by
  hset fn_asdf_arch_out1_set M328.out1Set v
theorem out1OpenHi : run P w (n + 4) .asdf_arch_out1_open_hi_set [.int t v.toNat] (KH m env h) =
    .ok .unit (KH m env (h.accs board328 W (M328.out1OpenHi v))) := by
  hset fn_asdf_arch_out1_open_hi_set M328.out1OpenHi v
theorem out1OpenLo : run P w (n + 4) .asdf_arch_out1_open_lo_set [.int t v.toNat] (KH m env h) =
    .ok .unit (KH m env (h.accs board328 W (M328.out1OpenLo v))) := by
  hset fn_asdf_arch_out1_open_lo_set M328.out1OpenLo v
theorem out2Set : run P w (n + 4) .asdf_arch_out2_set [.int t v.toNat] (KH m env h) =
    .ok .unit (KH m env (h.accs board328 W (M328.out2Set v))) := by
  hset fn_asdf_arch_out2_set M328.out2Set v
theorem out3Set : run P w (n + 4) .asdf_arch_out3_set [.int t v.toNat] (KH m env h) =
    .ok .unit (KH m env (h.accs board328 W (M328.out3Set v))) := by
  hset fn_asdf_arch_out3_set M328.out3Set v
theorem out3OpenHi : run P w (n + 4) .asdf_arch_out3_open_hi_set [.int t v.toNat] (KH m env h) =
    .ok .unit (KH m env (h.accs board328 W (M328.out3OpenHi v))) := by
  hset fn_asdf_arch_out3_open_hi_set M328.out3OpenHi v
theorem out3OpenLo : run P w (n + 4) .asdf_arch_out3_open_lo_set [.int t v.toNat] (KH m env h) =
    .ok .unit (KH m env (h.accs board328 W (M328.out3OpenLo v))) := by
  hset fn_asdf_arch_out3_open_lo_set M328.out3OpenLo v
theorem out2OpenHi : run P w (n + 2) .asdf_arch_out2_open_hi_set [.int t v.toNat] (KH m env h) =
    .ok .unit (KH m env (h.accs board328 W (M328.out2OpenHi v))) := by
  hfn fn_asdf_arch_out2_open_hi_set
  cgo [C.nullOutput]
  rfl
theorem out2OpenLo : run P w (n + 2) .asdf_arch_out2_open_lo_set [.int t v.toNat] (KH m env h) =
    .ok .unit (KH m env (h.accs board328 W (M328.out2OpenLo v))) := by
  hfn fn_asdf_arch_out2_open_lo_set
  cgo [C.nullOutput]
  rfl

end

theorem posStrobe : run P w (n + 4) .asdf_arch_set_pos_strobe [] (KH m env h) =
    .ok .unit (KH m env (h.accs board328 W M328.posStrobe)) := by
  hfn fn_asdf_arch_set_pos_strobe
  unfold M328.posStrobe
  cgo []
theorem negStrobe : run P w (n + 4) .asdf_arch_set_neg_strobe [] (KH m env h) =
    .ok .unit (KH m env (h.accs board328 W M328.negStrobe)) := by
  hfn fn_asdf_arch_set_neg_strobe
  unfold M328.negStrobe
  cgo []
theorem initColumnControl : run P w (n + 4) .asdf_arch_init_column_control [] (KH m env h) =
    .ok .unit (KH m env (h.accs board328 W M328.initColumnControl)) := by
  hfn fn_asdf_arch_init_column_control
  unfold M328.initColumnControl
  cgo []
theorem initLeds : run P w (n + 4) .asdf_arch_init_leds [] (KH m env h) =
    .ok .unit (KH m env (h.accs board328 W M328.initLeds)) := by
  hfn fn_asdf_arch_init_leds
  unfold M328.initLeds
  cgo []
theorem initAscii : run P w (n + 4) .asdf_arch_init_ascii_output [] (KH m env h) =
    .ok .unit (KH m env ((h.quiet W).accs board328 W [.wrPort .D h.polarity, .wrDdr .D 0xff])) := by
  hfn fn_asdf_arch_init_ascii_output
  cgo []
  rfl

theorem andn15 (a : UInt8) : binop .band (.int .u8 a.toNat) (.int .i16 (ofBits .i16 (~~~ BitVec.ofInt 16 15))) =
    .ok (.int .i16 (a &&& ~~~ 0x0f).toNat) := binop_andNot a 15
theorem and15 (a : UInt8) : binop .band (.int .u8 a.toNat) (.int .i16 15) = .ok (.int .i16 (a &&& 0x0f).toNat) :=
  binop_and .i16 rfl a 15
theorem or15 (a : UInt8) : binop .bor (.int .u8 a.toNat) (.int .i16 15) = .ok (.int .i16 (a ||| 0x0f).toNat) :=
  binop_or .i16 rfl a 15
theorem or16 (a b : UInt8) : binop .bor (.int .i16 a.toNat) (.int .i16 b.toNat) = .ok (.int .i16 (a ||| b).toNat) := by
  simp only [binop, common_i16_i16, conv_i16_u8]
  exact congrArg (fun n => Except.ok (Val.int .i16 n)) (bits_or a b)
theorem shl0 (c : UInt8) : binop .shl (.int .i16 c.toNat) (.int .i16 0) = .ok (.int .i16 c.toNat) := by
  have := c.toNat_lt
  have h1 : ¬ ((c.toNat : Int) < 0) := by omega
  simp only [binop, shift, promote, width]
  simp only [Int.reduceLE, true_and, Int.cast_ofNat_Int, Int.reduceLT, ↓reduceIte, h1, and_false, Int.toNat_zero,
    Int.pow_zero, Int.mul_one]
  rw [fit_i16 _ (by omega)]
  rfl

/-- What `asdf_arch_init_row_outputs` does. -/
def rowInit (h : Hw) : Hw :=
  let k := (h.quiet W).accs board328 W [.wrPort .C (h.regs.port .C &&& ~~~ 0x0f)]
  (k.quiet W).accs board328 W [.wrDdr .C (k.regs.ddr .C ||| 0x0f)]

theorem initRowOutputs : run P w (n + 4) .asdf_arch_init_row_outputs [] (KH m env h) =
    .ok .unit (KH m env (rowInit W h)) := by
  hfn fn_asdf_arch_init_row_outputs
  cgo [andn15, or15]
  rfl

theorem adv_rowInit : Adv M328.initRowOutputs h (rowInit W h) := by
  have a : Adv [.mixPort .C (~~~ 0x0f) 0] h
      ((h.quiet W).accs board328 W [.wrPort .C (h.regs.port .C &&& ~~~ 0x0f)]) :=
    ((Adv.refl h).quiet.accs (ops := [_])).one (by simp only [access, UInt8.or_zero]) rfl
  have b := fun k : Hw => ((Adv.quiet (W := W) (Adv.refl k)).accs (ops := [.wrDdr .C (k.regs.ddr .C ||| 0x0f)]) (B := board328) (W := W)).one
    (op' := .orDdr .C 0x0f) (by rfl) rfl
  exact a.trans (b _)

theorem tickTimerInit : run P w (n + 5) .asdf_arch_tick_timer_init [] (KH m env h) =
    .ok .unit (KH m env ((h.setTick W 0).accs board328 W (tickTimerInitOps M328.TICK_COUNT))) := by
  hfn fn_asdf_arch_tick_timer_init
  have e0 : binop .bor (.int .i32 2) (.int .i32 768) = .ok (.int .i32 770) := rfl
  have e1 : binop .bor (.int .i32 770) (.int .i32 131072) = .ok (.int .i32 131842) := rfl
  cgo [timer0Config, e0, e1]
  rfl

theorem sendCode (t : Ity) (c : UInt8) : run P w (n + 4) .asdf_arch_send_code [.int t c.toNat] (KH m env h) =
    .ok .unit (KH m env ((h.quiet W).accs board328 W
      [.wrPort .D (c ^^^ h.polarity), .setPin .B 6, .delayUs 10, .setPin .B 6])) := by
  hfn fn_asdf_arch_send_code
  cgo [binop_xor .u8 rfl]

theorem init (hp : h.polarity = 0) : ∃ h', run P w (n + 6) .asdf_arch_init [] (KH m env h) =
    .ok .unit (KH m env h') ∧ Adv M328.init h h' := by
  hfn fn_asdf_arch_init
  cgo [show UInt8.ofInt 0 = 0 from rfl, C.initClock, tickTimerInit, initAscii, posStrobe, initLeds, initRowOutputs, initColumnControl]
  refine ⟨_, rfl, ?_⟩
  refine Adv.cast (Adv.accs (Adv.trans (Adv.accs (Adv.setPol (Adv.accs (Adv.quiet (Adv.accs (Adv.setTick (Adv.accs
    (Adv.setTick (adv_accs _ h) (exec_off rfl _))) (exec_off rfl _))))) hp)) (adv_rowInit W _))) ?_
  rw [show (Hw.polarity _) = 0 from (Adv.accs (Adv.setTick (Adv.accs (Adv.setTick (adv_accs _ h) (exec_off rfl _))) (exec_off rfl _))).polarity.trans hp]
  rfl

theorem send (hp : h.polarity = 0) (t : Ity) (c : UInt8) :
    ∃ h', run P w (n + 4) .asdf_arch_send_code [.int t c.toNat] (KH m env h) =
    .ok .unit (KH m env h') ∧ Adv (M328.sendCode c) h h' := by
  refine ⟨_, sendCode W m env h w n t c, ?_⟩
  rw [hp]
  exact (Adv.refl h).quiet.accs

/-! ## The row reader -/

/-- One turn of its loop. -/
def hwBit (st : UInt8 × Hw) (i : Nat) : UInt8 × Hw :=
  (st.1 ||| ((((~~~ ((st.2.irq W).read board328 W (.pin .B))) >>> 0) &&& 1) <<< UInt8.ofNat i),
   (st.2.quiet W).accs board328 W [.setPort .B 2, .clrPort .B 2])

theorem bnot_u8 (v : UInt8) : unop .bnot (.int .u8 v.toNat) = .ok (.int .i16 (ofBits .i16 (~~~ BitVec.ofInt 16 v.toNat))) := rfl
theorem shr0 (a : Int) : binop .shr (.int .i16 a) (.int .i16 0) = .ok (.int .i16 a) := by
  simp only [binop, shift, promote, width]
  simp
theorem and1_all : ∀ v : Fin 256, ofBits .i16 (BitVec.ofInt 16 (conv .i16 (ofBits .i16 (~~~ BitVec.ofInt 16 v.val))) &&& BitVec.ofInt 16 1) =
    ((((~~~ UInt8.ofFin v) >>> 0) &&& 1).toNat : Int) := by decide +kernel
theorem and1 (v : UInt8) : binop .band (.int .i16 (ofBits .i16 (~~~ BitVec.ofInt 16 v.toNat))) (.int .i16 1) =
    .ok (.int .i16 (((~~~ v) >>> 0) &&& 1).toNat) := by
  exact congrArg (fun n => Except.ok (Val.int .i16 n)) (and1_all v.toFin)
theorem toOption_some {y : Except Err Val} {a : Val} (hy : y.toOption = some a) : y = .ok a := by
  cases y <;> simp_all [Except.toOption]
theorem shl_all : ∀ v : Fin 256, ∀ i : Fin 8,
    (shift .i16 (((((~~~ UInt8.ofFin v) >>> 0) &&& 1).toNat : Int)) i.val true).toOption = some (Val.int .i16 ((((((~~~ UInt8.ofFin v) >>> 0) &&& 1) <<< UInt8.ofNat i.val)).toNat : Int)) := by
  decide +kernel
theorem shl_bit (v : UInt8) (i : Nat) (hi : i < 8) : binop .shl (.int .i16 (((~~~ v) >>> 0) &&& 1).toNat) (.int .u8 i) =
    .ok (.int .i16 ((((~~~ v) >>> 0) &&& 1) <<< UInt8.ofNat i).toNat) := by
  exact toOption_some (shl_all v.toFin ⟨i, hi⟩)

theorem loop_bits (rv : Val) (c : Expr × Expr × Stmt) (hc : c ∈ fn_asdf_arch_read_row.body.loops) (k : Nat) :
    ∀ (i : Nat) (b : UInt8) (h : Hw) (f : Nat), i + k = 8 → k < f →
    turns (evalE (run P w (n + 3)) c.1) (exec (run P w (n + 3)) w c.2.2) (evalE (run P w (n + 3)) c.2.1) f
      (KH m [(.i, .int .u8 i), (.cols, .int .u8 b.toNat), (.row, rv)] h) =
    .ok .next (KH m [(.i, .int .u8 8), (.cols, .int .u8 ((List.range' i k).foldl (hwBit W) (b, h)).1.toNat), (.row, rv)]
      ((List.range' i k).foldl (hwBit W) (b, h)).2) := by
  obtain rfl := List.mem_singleton.1 hc
  induction k with
  | zero =>
    intro i b h f hi hf
    obtain ⟨f, rfl⟩ := Nat.exists_eq_succ_of_ne_zero (by omega : f ≠ 0)
    obtain rfl : i = 8 := by omega
    rw [turns_succ]
    cgo []
    rfl
  | succ k ih =>
    intro i b h f hi hf
    obtain ⟨f, rfl⟩ := Nat.exists_eq_succ_of_ne_zero (by omega : f ≠ 0)
    rw [turns_succ]
    have e := ih (i + 1) (hwBit W (b, h) i).1 (hwBit W (b, h) i).2 f (by omega) (by omega)
    have e1 : (((i : Int) < 8) = True) := by simp; omega
    have e2 : (i : Int) + 1 = ((i + 1 : Nat) : Int) := by omega
    simp only [hwBit] at e
    cgo [e1, e2, bnot_u8, shr0, and1, shl_bit _ i (by omega), binop_or .i16 rfl, e]
    rfl

/-- The state after line 788. -/
def loaded (row : UInt8) (h : Hw) : Hw :=
  (h.quiet W).accs board328 W
    [.wrPort .C ((h.regs.port .C &&& ~~~ 0x0f) ||| (row &&& 0x0f)), .clrPort .B 1, .setPort .B 2, .clrPort .B 2, .setPort .B 1]

theorem read_row (t : Ity) (row : UInt8) (hw : 9 ≤ w) :
    run P w (n + 4) .asdf_arch_read_row [.int t row.toNat] (KH m env h) =
      .ok (.int .u8 ((List.range' 0 8).foldl (hwBit W) (0, loaded W row h)).1.toNat)
        (KH m env ((List.range' 0 8).foldl (hwBit W) (0, loaded W row h)).2) := by
  hfn fn_asdf_arch_read_row
  have e := loop_bits W m w n (.int .u8 row.toNat) _ (List.mem_singleton.2 rfl) 8 0 0 (loaded W row h) w (by omega) (by omega)
  simp only [Int.cast_ofNat_Int, UInt8.toNat_zero, loaded] at e
  unfold loaded
  cgo [andn15, and15, shl0, or16, e]

end Asdf.C.A328
