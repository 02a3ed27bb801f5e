import Verif.Lemmas.CHw

/-! # `Arch/asdf_arch_atmega2560.c`: what its text does -/

namespace Asdf.C.A2560

open Avr

set_option linter.unusedSimpArgs false

attribute [crun] Mac.TMR0A_POS Mac.TMR0IMSK_POS Mac.TMR0B_POS Mac.TICK_COUNT Mac.TIMER0_WFM_CTC Mac.TIMER0_DIV64
  Mac.TIMER0_INT_ON_COMA Mac.CLKPCE Mac.SYSCLK_DIV1 Mac.ASDF_LED1_BIT Mac.ASDF_LED2_BIT Mac.ASDF_LED3_BIT Mac.ASDF_OUT1_BIT
  Mac.ASDF_OUT2_BIT Mac.ASDF_OUT3_BIT Mac.ASDF_STROBE_BIT Mac.ALL_OUTPUTS Mac.ALL_INPUTS Mac.ALL_PULLUPS
  Mac.ASDF_PULSE_DELAY_SHORT_US Mac.ASDF_PULSE_DELAY_LONG_MS Mac.ASDF_DEFAULT_DATA_POLARITY
  Mac.ASDF_DEFAULT_STROBE_POLARITY Mac.ASDF_POSITIVE_POLARITY Mac.ASDF_KEYBOARD_ROW_SETTLING_TIME_US
  Mac.ASDF_OSI_KBE_BIT Mac.ASDF_OSI_RW_BIT Mac.ASDF_STROBE_LENGTH_US

variable (cols : (Nat → UInt8) → Regs → UInt8) (W : Outside) (m : G → Tree) (env : List (L × Val)) (h : Hw) (w n : Nat)

local notation "P" => hwProg (board2560 cols) W

/-- A function that sets an output. -/
macro "hset" f:ident g:ident v:ident : tactic =>
  `(tactic| (hfn $f; unfold $g; by_cases hv : $v = 0
             · subst hv; cgo []
             · cgo [u8_ne hv, hv]))

section
variable (t : Ity) (v : UInt8)

theorem led1Set : run P w (n + 4) .asdf_arch_led1_set [.int t v.toNat] (KH m env h) =
    .ok .unit (KH m env (h.accs (board2560 cols) W (M2560.led1Set v))) := by
  hset fn_asdf_arch_led1_set M2560.led1Set v
theorem led2Set : run P w (n + 4) .asdf_arch_led2_set [.int t v.toNat] (KH m env h) =
    .ok .unit (KH m env (h.accs (board2560 cols) W (M2560.led2Set v))) := by
  hset fn_asdf_arch_led2_set M2560.led2Set v
theorem led3Set : run P w (n + 4) .asdf_arch_led3_set [.int t v.toNat] (KH m env h) =
    .ok .unit (KH m env (h.accs (board2560 cols) W (M2560.led3Set v))) := by
  hset fn_asdf_arch_led3_set M2560.led3Set v
theorem out1Set : run P w (n + 4) .asdf_arch_out1_set [.int t v.toNat] (KH m env h) =
    .ok .unit (KH m env (h.accs (board2560 cols) W (M2560.out1Set v))) := by
  hset fn_asdf_arch_out1_set M2560.out1Set v
theorem out1OpenHi : run P w (n + 4) .asdf_arch_out1_open_hi_set [.int t v.toNat] (KH m env h) =
    .ok .unit (KH m env (h.accs (board2560 cols) W (M2560.out1OpenHi v))) := by
  hset fn_asdf_arch_out1_open_hi_set M2560.out1OpenHi v
theorem out1OpenLo : run P w (n + 4) .asdf_arch_out1_open_lo_set [.int t v.toNat] (KH m env h) =
    .ok .unit (KH m env (h.accs (board2560 cols) W (M2560.out1OpenLo v))) := by
  hset fn_asdf_arch_out1_open_lo_set M2560.out1OpenLo v
theorem out2Set : run P w (n + 4) .asdf_arch_out2_set [.int t v.toNat] (KH m env h) =
    .ok .unit (KH m env (h.accs (board2560 cols) W (M2560.out2Set v))) := by
  hset fn_asdf_arch_out2_set M2560.out2Set v
theorem out3Set : run P w (n + 4) .asdf_arch_out3_set [.int t v.toNat] (KH m env h) =
    .ok .unit (KH m env (h.accs (board2560 cols) W (M2560.out3Set v))) := by
  hset fn_asdf_arch_out3_set M2560.out3Set v
theorem out3OpenHi : run P w (n + 4) .asdf_arch_out3_open_hi_set [.int t v.toNat] (KH m env h) =
    .ok .unit (KH m env (h.accs (board2560 cols) W (M2560.out3OpenHi v))) := by
  hset fn_asdf_arch_out3_open_hi_set M2560.out3OpenHi v
theorem out3OpenLo : run P w (n + 4) .asdf_arch_out3_open_lo_set [.int t v.toNat] (KH m env h) =
    .ok .unit (KH m env (h.accs (board2560 cols) W (M2560.out3OpenLo v))) := by
  hset fn_asdf_arch_out3_open_lo_set M2560.out3OpenLo v
theorem out2OpenHi : run P w (n + 4) .asdf_arch_out2_open_hi_set [.int t v.toNat] (KH m env h) =
    .ok .unit (KH m env (h.accs (board2560 cols) W (M2560.out2OpenHi v))) := by
  hset fn_asdf_arch_out2_open_hi_set M2560.out2OpenHi v
theorem out2OpenLo : run P w (n + 4) .asdf_arch_out2_open_lo_set [.int t v.toNat] (KH m env h) =
    .ok .unit (KH m env (h.accs (board2560 cols) W (M2560.out2OpenLo v))) := by
  hset fn_asdf_arch_out2_open_lo_set M2560.out2OpenLo v


end

theorem posStrobe : run P w (n + 4) .asdf_arch_set_pos_strobe [] (KH m env h) =
    .ok .unit (KH m env (h.accs (board2560 cols) W M2560.posStrobe)) := by
  hfn fn_asdf_arch_set_pos_strobe
  unfold M2560.posStrobe
  cgo []
theorem negStrobe : run P w (n + 4) .asdf_arch_set_neg_strobe [] (KH m env h) =
    .ok .unit (KH m env (h.accs (board2560 cols) W M2560.negStrobe)) := by
  hfn fn_asdf_arch_set_neg_strobe
  unfold M2560.negStrobe
  cgo []
theorem initColumns : run P w (n + 4) .asdf_arch_init_columns [] (KH m env h) =
    .ok .unit (KH m env (h.accs (board2560 cols) W M2560.initColumns)) := by
  hfn fn_asdf_arch_init_columns
  unfold M2560.initColumns
  cgo []
  rfl
theorem initRowOutputs : run P w (n + 4) .asdf_arch_init_row_outputs [] (KH m env h) =
    .ok .unit (KH m env (h.accs (board2560 cols) W M2560.initRowOutputs)) := by
  hfn fn_asdf_arch_init_row_outputs
  unfold M2560.initRowOutputs
  cgo []
  rfl
theorem initLeds : run P w (n + 4) .asdf_arch_init_leds [] (KH m env h) =
    .ok .unit (KH m env (h.accs (board2560 cols) W M2560.initLeds)) := by
  hfn fn_asdf_arch_init_leds
  unfold M2560.initLeds
  cgo []
theorem initAscii : run P w (n + 4) .asdf_arch_init_ascii_output [] (KH m env h) =
    .ok .unit (KH m env ((h.quiet W).accs (board2560 cols) W [.wrPort .H h.polarity, .wrDdr .H 0xff])) := by
  hfn fn_asdf_arch_init_ascii_output
  cgo []
  rfl


theorem tickTimerInit : run P w (n + 5) .asdf_arch_tick_timer_init [] (KH m env h) =
    .ok .unit (KH m env ((h.setTick W 0).accs (board2560 cols) W (tickTimerInitOps M2560.TICK_COUNT))) := by
  hfn fn_asdf_arch_tick_timer_init
  have e0 : binop .bor (.int .i32 2) (.int .i32 768) = .ok (.int .i32 770) := rfl
  have e1 : binop .bor (.int .i32 770) (.int .i32 131072) = .ok (.int .i32 131842) := rfl
  cgo [timer0Config, e0, e1]
  rfl

theorem sendCode (t : Ity) (c : UInt8) : run P w (n + 4) .asdf_arch_send_code [.int t c.toNat] (KH m env h) =
    .ok .unit (KH m env ((h.quiet W).accs (board2560 cols) W
      [.wrPort .H (c ^^^ h.polarity), .setPin .B 4, .delayUs 10, .setPin .B 4])) := by
  hfn fn_asdf_arch_send_code
  cgo [binop_xor .u8 rfl]

theorem init (hp : h.polarity = 0) : ∃ h', run P w (n + 6) .asdf_arch_init [] (KH m env h) =
    .ok .unit (KH m env h') ∧ Adv M2560.init h h' := by
  hfn fn_asdf_arch_init
  cgo [show UInt8.ofInt 0 = 0 from rfl, C.initClock, tickTimerInit, initAscii, posStrobe, initLeds, initRowOutputs, initColumns]
  refine ⟨_, rfl, ?_⟩
  refine Adv.cast (Adv.accs (Adv.setPol (Adv.accs (Adv.quiet (Adv.accs (Adv.setTick (Adv.accs
    (Adv.setTick (adv_accs _ h) (exec_off rfl _))) (exec_off rfl _))))) hp)) ?_
  rw [show (Hw.polarity _) = 0 from (Adv.accs (Adv.setTick (Adv.accs (Adv.setTick (adv_accs _ h) (exec_off rfl _))) (exec_off rfl _))).polarity.trans hp]
  rfl

theorem send (hp : h.polarity = 0) (t : Ity) (c : UInt8) :
    ∃ h', run P w (n + 4) .asdf_arch_send_code [.int t c.toNat] (KH m env h) =
    .ok .unit (KH m env h') ∧ Adv (M2560.sendCode c) h h' := by
  refine ⟨_, sendCode cols W m env h w n t c, ?_⟩
  rw [hp]
  exact (Adv.refl h).quiet.accs

/-! ## The row readers -/

/-- `1L << row`, `~(1L << row)`, `rows` and `rows >> 8`. -/
def bitL (i : Nat) : Int := 2 ^ i
def notL (i : Nat) : Int := - 2 ^ i - 1
def rowsL (i : Nat) : Int := (~~~ ((1 : UInt32) <<< UInt32.ofNat i)).toNat
def highL (i : Nat) : Int := ((~~~ ((1 : UInt32) <<< UInt32.ofNat i)) >>> 8).toNat
def loL (i : Nat) : UInt8 := UInt8.ofNat ((~~~ ((1 : UInt32) <<< UInt32.ofNat i)) &&& 0xff).toNat
def hiL (i : Nat) : UInt8 := UInt8.ofNat (((~~~ ((1 : UInt32) <<< UInt32.ofNat i)) >>> 8) &&& 0xff).toNat

theorem shlL_all : ∀ i : Fin 31, (binop .shl (.int .i32 1) (.int .u8 i.val)).toOption = some (.int .i32 (bitL i.val)) := by
  decide +kernel
theorem notL_all : ∀ i : Fin 31, (unop .bnot (.int .i32 (bitL i.val))).toOption = some (.int .i32 (notL i.val)) := by
  decide +kernel
theorem rowsL_all : ∀ i : Fin 31, conv .u32 (notL i.val) = rowsL i.val := by decide +kernel
theorem loL_all : ∀ i : Fin 31, (binop .band (.int .u32 (rowsL i.val)) (.int .i16 255)).toOption =
    some (.int .u32 (loL i.val).toNat) := by decide +kernel
theorem shrL_all : ∀ i : Fin 31, (binop .shr (.int .u32 (rowsL i.val)) (.int .i16 8)).toOption =
    some (.int .u32 (highL i.val)) := by decide +kernel
theorem hiL_all : ∀ i : Fin 31, (binop .band (.int .u32 (highL i.val)) (.int .i16 255)).toOption =
    some (.int .u32 (hiL i.val).toNat) := by decide +kernel
theorem overL_all : ∀ i : Fin 256, 31 ≤ i.val → binop .shl (.int .i32 1) (.int .u8 i.val) = .error .overflow := by
  decide +kernel
theorem not8_all : ∀ i : Fin 256, conv .u8 (ofBits .i16 (~~~ BitVec.ofInt 16 i.val)) = (~~~ (UInt8.ofFin i)).toNat := by
  decide +kernel

theorem toOption_some {y : Except Err Val} {a : Val} (hy : y.toOption = some a) : y = .ok a := by
  cases y <;> simp_all [Except.toOption]

theorem rowBytes_lt {row : UInt8} (hr : row.toNat < 31) : M2560.rowBytes row = some (loL row.toNat, hiL row.toNat) := by
  simp [M2560.rowBytes, hr, loL, hiL]

theorem read_row (t : Ity) (row : UInt8) (hr : row.toNat < 31) :
    run P w (n + 4) .asdf_arch_read_row [.int t row.toNat] (KH m env h) =
      .ok (.int .u8 (~~~ (((h.accs (board2560 cols) W (M2560.rowOps (loL row.toNat) (hiL row.toNat))).irq W).read
        (board2560 cols) W (.pin .C))).toNat)
        (KH m env ((h.accs (board2560 cols) W (M2560.rowOps (loL row.toNat) (hiL row.toNat))).quiet W)) := by
  have e1 := toOption_some (shlL_all ⟨row.toNat, hr⟩)
  have e2 := toOption_some (notL_all ⟨row.toNat, hr⟩)
  have e3 := rowsL_all ⟨row.toNat, hr⟩
  have e4 := toOption_some (loL_all ⟨row.toNat, hr⟩)
  have e5 := toOption_some (shrL_all ⟨row.toNat, hr⟩)
  have e6 := toOption_some (hiL_all ⟨row.toNat, hr⟩)
  have e7 : ∀ v : UInt8, conv .u8 (ofBits .i16 (~~~ BitVec.ofInt 16 v.toNat)) = (~~~ v).toNat := fun v => not8_all v.toFin
  have e8 : ∀ v : UInt8, unop .bnot (.int .u8 v.toNat) = .ok (.int .i16 (ofBits .i16 (~~~ BitVec.ofInt 16 v.toNat))) :=
    fun _ => rfl
  hfn fn_asdf_arch_read_row
  cgo [e1, e2, e3, e4, e5, e6, e8, e7]
  rfl

theorem read_row_over (t : Ity) (row : UInt8) (hr : 31 ≤ row.toNat) :
    run P w (n + 4) .asdf_arch_read_row [.int t row.toNat] (KH m env h) = .err .overflow := by
  have e1 := overL_all ⟨row.toNat, row.toNat_lt⟩ hr
  hfn fn_asdf_arch_read_row
  cgo [e1]

theorem readC : (h.irq W).read (board2560 cols) W (.pin .C) = pinValue h.regs .C (cols (W.keys (h.irq W).time) h.regs) := by
  simp only [Hw.read, irq_regs]
  rfl

/-- `asdf_arch_read_row` reads the row the way the model does, with the keys as they are at some
moment between start and end. -/
theorem read_row_is (t : Ity) (row : UInt8) (hr : row.toNat < 31) : ∃ v h' k,
    run P w (n + 4) .asdf_arch_read_row [.int t row.toNat] (KH m env h) = .ok (.int .u8 v.toNat) (KH m env h') ∧
    Adv (M2560.rowOps (loL row.toNat) (hiL row.toNat)) h h' ∧ h.time ≤ k ∧ k < h'.time ∧
    M2560.readRow (cols (W.keys k)) row h.regs =
      .ok (v, states .sbi (fun _ => 0) h.regs (M2560.rowOps (loL row.toNat) (hiL row.toNat))) := by
  have a := adv_accs (B := board2560 cols) (W := W) (M2560.rowOps (loL row.toNat) (hiL row.toNat)) h
  refine ⟨_, _, ((h.accs (board2560 cols) W (M2560.rowOps (loL row.toNat) (hiL row.toNat))).irq W).time,
    read_row cols W m env h w n t row hr, a.quiet, Nat.le_trans a.time (irq_time W _), Nat.lt_succ_self _, ?_⟩
  unfold M2560.readRow
  rw [rowBytes_lt hr, readC, a.regs]

theorem shl1_all : ∀ i : Fin 8, (binop .shl (.int .i16 1) (.int .u8 i.val)).toOption =
    some (.int .i16 ((1 : UInt8) <<< UInt8.ofNat i.val).toNat) := by decide +kernel

theorem osi_low (t : Ity) (row : UInt8) (hr : row.toNat < 8) :
    run P w (n + 4) .asdf_arch_osi_read_row [.int t row.toNat] (KH m env h) =
      .ok (.int .u8 (((h.accs (board2560 cols) W (M2560.osiOps row)).irq W).read (board2560 cols) W (.pin .C)).toNat)
        (KH m env ((h.accs (board2560 cols) W (M2560.osiOps row)).quiet W)) := by
  have e1 := toOption_some (shl1_all ⟨row.toNat, hr⟩)
  have e2 : ¬ (7 : Int) < row.toNat := by omega
  have e3 : (1 : UInt8) <<< UInt8.ofNat row.toNat = 1 <<< row := by rw [UInt8.ofNat_toNat]
  simp only [e3] at e1
  hfn fn_asdf_arch_osi_read_row
  cgo [e1, e2]
  rfl

theorem osi_high (t : Ity) (row : UInt8) (hr : 8 ≤ row.toNat) (v : UInt8) (h' : Hw)
    (k : ∀ env, run P w (n + 4) .asdf_arch_read_row [.int .u8 row.toNat] (KH m env h) = .ok (.int .u8 v.toNat) (KH m env h')) :
    run P w (n + 5) .asdf_arch_osi_read_row [.int t row.toNat] (KH m env h) = .ok (.int .u8 v.toNat) (KH m env h') := by
  have e2 : (7 : Int) < row.toNat := by omega
  hfn fn_asdf_arch_osi_read_row
  cgo [e2, k, show store (.undef .u8) (.int .u8 v.toNat) = .ok (.int .u8 v.toNat) by rw [store]; simp [toInt, conv_u8_u8]]

theorem osi_over (t : Ity) (row : UInt8) (hr : 31 ≤ row.toNat) :
    run P w (n + 5) .asdf_arch_osi_read_row [.int t row.toNat] (KH m env h) = .err .overflow := by
  have e2 : (7 : Int) < row.toNat := by omega
  have k := fun env => read_row_over cols W m env h w n .u8 row hr
  hfn fn_asdf_arch_osi_read_row
  cgo [e2, k]

/-- `asdf_arch_osi_read_row`, likewise. -/
theorem osi_read_row_is (t : Ity) (row : UInt8) (hr : row.toNat < 31) : ∃ v h' k ops,
    run P w (n + 5) .asdf_arch_osi_read_row [.int t row.toNat] (KH m env h) = .ok (.int .u8 v.toNat) (KH m env h') ∧
    Adv ops h h' ∧ h.time ≤ k ∧ k < h'.time ∧
    M2560.osiReadRow (cols (W.keys k)) row h.regs = .ok (v, states .sbi (fun _ => 0) h.regs ops) := by
  by_cases h8 : row.toNat < 8
  · have a := adv_accs (B := board2560 cols) (W := W) (M2560.osiOps row) h
    refine ⟨_, _, ((h.accs (board2560 cols) W (M2560.osiOps row)).irq W).time, _,
      osi_low cols W m env h w (n + 1) t row h8, a.quiet, Nat.le_trans a.time (irq_time W _), Nat.lt_succ_self _, ?_⟩
    have : ¬ 7 < row := by rw [UInt8.lt_iff_toNat_lt]; show ¬ 7 < row.toNat; omega
    unfold M2560.osiReadRow
    rw [if_neg this, readC, a.regs]
  · have a := adv_accs (B := board2560 cols) (W := W) (M2560.rowOps (loL row.toNat) (hiL row.toNat)) h
    refine ⟨_, _, ((h.accs (board2560 cols) W (M2560.rowOps (loL row.toNat) (hiL row.toNat))).irq W).time, _,
      osi_high cols W m env h w n t row (by omega) _ _ (fun env => read_row cols W m env h w n .u8 row hr), a.quiet,
      Nat.le_trans a.time (irq_time W _), Nat.lt_succ_self _, ?_⟩
    have : 7 < row := by rw [UInt8.lt_iff_toNat_lt]; show 7 < row.toNat; omega
    unfold M2560.osiReadRow M2560.readRow
    rw [if_pos this, rowBytes_lt hr, readC, a.regs]

end Asdf.C.A2560
