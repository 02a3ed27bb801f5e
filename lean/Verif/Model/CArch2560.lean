import Verif.Model.CLang

/-! # The C source of the hardware layer, atmega2560

Generated by `tools/c2lean.py` from the C sources; do not edit.

`io_read` and `io_write` are the accesses to registers and to the static variables
of the file. -/

namespace Asdf.C.A2560

/-! ## Macros and enumerators -/

/-- `TMR0A_POS` (Arch/asdf_arch_atmega2560.h:56). -/
abbrev Mac.TMR0A_POS : Int := 0

/-- `TMR0IMSK_POS` (Arch/asdf_arch_atmega2560.h:58). -/
abbrev Mac.TMR0IMSK_POS : Int := 16

/-- `TMR0B_POS` (Arch/asdf_arch_atmega2560.h:57). -/
abbrev Mac.TMR0B_POS : Int := 8

/-- `TICK_COUNT` (Arch/asdf_arch_atmega2560.h:349). -/
abbrev Mac.TICK_COUNT : Int := 249

/-- `TIMER0_WFM_CTC` (Arch/asdf_arch_atmega2560.h:65). -/
abbrev Mac.TIMER0_WFM_CTC : Int := 2

/-- `TIMER0_DIV64` (Arch/asdf_arch_atmega2560.h:66). -/
abbrev Mac.TIMER0_DIV64 : Int := 768

/-- `TIMER0_INT_ON_COMA` (Arch/asdf_arch_atmega2560.h:67). -/
abbrev Mac.TIMER0_INT_ON_COMA : Int := 131072

/-- `CLKPCE` (avr/io.h). -/
abbrev Mac.CLKPCE : Int := 7

/-- `SYSCLK_DIV1` (Arch/asdf_arch_atmega2560.h:43). -/
abbrev Mac.SYSCLK_DIV1 : Int := 0

/-- `ASDF_LED1_BIT` (Arch/asdf_arch_atmega2560.h:296). -/
abbrev Mac.ASDF_LED1_BIT : Int := 5

/-- `ASDF_LED2_BIT` (Arch/asdf_arch_atmega2560.h:300). -/
abbrev Mac.ASDF_LED2_BIT : Int := 6

/-- `ASDF_LED3_BIT` (Arch/asdf_arch_atmega2560.h:304). -/
abbrev Mac.ASDF_LED3_BIT : Int := 7

/-- `ASDF_OUT1_BIT` (Arch/asdf_arch_atmega2560.h:309). -/
abbrev Mac.ASDF_OUT1_BIT : Int := 5

/-- `ASDF_OUT2_BIT` (Arch/asdf_arch_atmega2560.h:314). -/
abbrev Mac.ASDF_OUT2_BIT : Int := 6

/-- `ASDF_OUT3_BIT` (Arch/asdf_arch_atmega2560.h:319). -/
abbrev Mac.ASDF_OUT3_BIT : Int := 7

/-- `ASDF_STROBE_BIT` (Arch/asdf_arch_atmega2560.h:324). -/
abbrev Mac.ASDF_STROBE_BIT : Int := 4

/-- `ALL_OUTPUTS` (Arch/asdf_arch_atmega2560.h:276). -/
abbrev Mac.ALL_OUTPUTS : Int := 255

/-- `ALL_INPUTS` (Arch/asdf_arch_atmega2560.h:275). -/
abbrev Mac.ALL_INPUTS : Int := 0

/-- `ALL_PULLUPS` (Arch/asdf_arch_atmega2560.h:277). -/
abbrev Mac.ALL_PULLUPS : Int := 255

/-- `ASDF_PULSE_DELAY_SHORT_US` (asdf_config.h:78). -/
abbrev Mac.ASDF_PULSE_DELAY_SHORT_US : Int := 10

/-- `ASDF_PULSE_DELAY_LONG_MS` (asdf_config.h:81). -/
abbrev Mac.ASDF_PULSE_DELAY_LONG_MS : Int := 50

/-- `ASDF_DEFAULT_DATA_POLARITY` (asdf_config.h:38). -/
abbrev Mac.ASDF_DEFAULT_DATA_POLARITY : Int := 0

/-- `ASDF_DEFAULT_STROBE_POLARITY` (asdf_config.h:41). -/
abbrev Mac.ASDF_DEFAULT_STROBE_POLARITY : Int := 0

/-- `ASDF_POSITIVE_POLARITY` (asdf_config.h:34). -/
abbrev Mac.ASDF_POSITIVE_POLARITY : Int := 0

/-- `ASDF_KEYBOARD_ROW_SETTLING_TIME_US` (Arch/asdf_arch_atmega2560.h:39). -/
abbrev Mac.ASDF_KEYBOARD_ROW_SETTLING_TIME_US : Int := 4

/-- `ASDF_OSI_KBE_BIT` (Arch/asdf_arch_atmega2560.h:328). -/
abbrev Mac.ASDF_OSI_KBE_BIT : Int := 1

/-- `ASDF_OSI_RW_BIT` (Arch/asdf_arch_atmega2560.h:332). -/
abbrev Mac.ASDF_OSI_RW_BIT : Int := 2

/-- `ASDF_STROBE_LENGTH_US` (Arch/asdf_arch_atmega2560.h:38). -/
abbrev Mac.ASDF_STROBE_LENGTH_US : Int := 10

/-! ## Functions -/

/-- `TIMER0_COMPA_vect` (Arch/asdf_arch_atmega2560.c:65-68). -/
def fn_TIMER0_COMPA_vect : Fun where
  params := []
  result := none
  body :=
    (.expr (.call .io_write (.cons (.reg .tick) (.cons (.num 1) .nil))))

/-- `set_bit` (Arch/asdf_arch_atmega2560.c:86-89). -/
def fn_set_bit : Fun where
  params := [(.port, .ptr), (.bit, (.int .u8))]
  result := none
  body :=
    (.expr (.call .io_write (.cons (.load (.var .port)) (.cons (.bin .bor (.call .io_read (.cons (.load (.var .port)) .nil)) (.bin .shl (.num 1) (.load (.var .bit)))) .nil))))

/-- `clear_bit` (Arch/asdf_arch_atmega2560.c:107-110). -/
def fn_clear_bit : Fun where
  params := [(.port, .ptr), (.bit, (.int .u8))]
  result := none
  body :=
    (.expr (.call .io_write (.cons (.load (.var .port)) (.cons (.bin .band (.call .io_read (.cons (.load (.var .port)) .nil)) (.un .bnot (.bin .shl (.num 1) (.load (.var .bit))))) .nil))))

/-- `arch_timer0_config` (Arch/asdf_arch_atmega2560.c:133-139). -/
def fn_arch_timer0_config : Fun where
  params := [(.bits, (.int .u32))]
  result := none
  body :=
    (.seq (.expr (.call .io_write (.cons (.reg .TCCR0B) (.cons (.num 0) .nil))))
    (.seq (.expr (.call .io_write (.cons (.reg .TCCR0A) (.cons (.bin .band (.bin .shr (.load (.var .bits)) (.num Mac.TMR0A_POS)) (.num 255)) .nil))))
    (.seq (.expr (.call .io_write (.cons (.reg .TIMSK0) (.cons (.bin .band (.bin .shr (.load (.var .bits)) (.num Mac.TMR0IMSK_POS)) (.num 255)) .nil))))
    (.expr (.call .io_write (.cons (.reg .TCCR0B) (.cons (.bin .band (.bin .shr (.load (.var .bits)) (.num Mac.TMR0B_POS)) (.num 255)) .nil)))))))

/-- `asdf_arch_tick_timer_init` (Arch/asdf_arch_atmega2560.c:155-166). -/
def fn_asdf_arch_tick_timer_init : Fun where
  params := []
  result := none
  body :=
    (.seq (.expr (.call .io_write (.cons (.reg .tick) (.cons (.num 0) .nil))))
    (.seq (.expr (.call .io_write (.cons (.reg .OCR0A) (.cons (.num Mac.TICK_COUNT) .nil))))
    (.expr (.call .arch_timer0_config (.cons (.bin .bor (.bin .bor (.lit .i32 Mac.TIMER0_WFM_CTC) (.lit .i32 Mac.TIMER0_DIV64)) (.lit .i32 Mac.TIMER0_INT_ON_COMA)) .nil)))))

/-- `asdf_arch_tick` (Arch/asdf_arch_atmega2560.c:182-187). -/
def fn_asdf_arch_tick : Fun where
  params := []
  result := some (.int .u8)
  body :=
    (.seq (.decl (.int .u8) .retval (.call .io_read (.cons (.reg .tick) .nil)))
    (.seq (.expr (.call .io_write (.cons (.reg .tick) (.cons (.num 0) .nil))))
    (.ret (.load (.var .retval)))))

/-- `asdf_arch_init_clock` (Arch/asdf_arch_atmega2560.c:201-204). -/
def fn_asdf_arch_init_clock : Fun where
  params := []
  result := none
  body :=
    (.expr (.call .io_write (.cons (.reg .CLKPR) (.cons (.bin .bor (.num Mac.CLKPCE) (.num Mac.SYSCLK_DIV1)) .nil))))

/-- `asdf_arch_init_leds` (Arch/asdf_arch_atmega2560.c:219-224). -/
def fn_asdf_arch_init_leds : Fun where
  params := []
  result := none
  body :=
    (.seq (.expr (.call .set_bit (.cons (.reg .DDRD) (.cons (.num Mac.ASDF_LED1_BIT) .nil))))
    (.seq (.expr (.call .set_bit (.cons (.reg .DDRD) (.cons (.num Mac.ASDF_LED2_BIT) .nil))))
    (.expr (.call .set_bit (.cons (.reg .DDRD) (.cons (.num Mac.ASDF_LED3_BIT) .nil))))))

/-- `asdf_arch_led1_set` (Arch/asdf_arch_atmega2560.c:242-250). -/
def fn_asdf_arch_led1_set : Fun where
  params := [(.value, (.int .u8))]
  result := none
  body :=
    (.ite (.load (.var .value))
    (.expr (.call .clear_bit (.cons (.reg .PORTD) (.cons (.num Mac.ASDF_LED1_BIT) .nil))))
    (.expr (.call .set_bit (.cons (.reg .PORTD) (.cons (.num Mac.ASDF_LED1_BIT) .nil)))))

/-- `asdf_arch_led2_set` (Arch/asdf_arch_atmega2560.c:267-275). -/
def fn_asdf_arch_led2_set : Fun where
  params := [(.value, (.int .u8))]
  result := none
  body :=
    (.ite (.load (.var .value))
    (.expr (.call .clear_bit (.cons (.reg .PORTD) (.cons (.num Mac.ASDF_LED2_BIT) .nil))))
    (.expr (.call .set_bit (.cons (.reg .PORTD) (.cons (.num Mac.ASDF_LED2_BIT) .nil)))))

/-- `asdf_arch_led3_set` (Arch/asdf_arch_atmega2560.c:292-300). -/
def fn_asdf_arch_led3_set : Fun where
  params := [(.value, (.int .u8))]
  result := none
  body :=
    (.ite (.load (.var .value))
    (.expr (.call .clear_bit (.cons (.reg .PORTD) (.cons (.num Mac.ASDF_LED3_BIT) .nil))))
    (.expr (.call .set_bit (.cons (.reg .PORTD) (.cons (.num Mac.ASDF_LED3_BIT) .nil)))))

/-- `asdf_arch_null_output` (Arch/asdf_arch_atmega2560.c:316-319). -/
def fn_asdf_arch_null_output : Fun where
  params := [(.value, (.int .u8))]
  result := none
  body :=
    (.expr (.load (.var .value)))

/-- `asdf_arch_out1_set` (Arch/asdf_arch_atmega2560.c:335-344). -/
def fn_asdf_arch_out1_set : Fun where
  params := [(.value, (.int .u8))]
  result := none
  body :=
    (.seq (.ite (.load (.var .value))
      (.expr (.call .set_bit (.cons (.reg .PORTB) (.cons (.num Mac.ASDF_OUT1_BIT) .nil))))
      (.expr (.call .clear_bit (.cons (.reg .PORTB) (.cons (.num Mac.ASDF_OUT1_BIT) .nil)))))
    (.expr (.call .set_bit (.cons (.reg .DDRB) (.cons (.num Mac.ASDF_OUT1_BIT) .nil)))))

/-- `asdf_arch_out1_open_hi_set` (Arch/asdf_arch_atmega2560.c:360-370). -/
def fn_asdf_arch_out1_open_hi_set : Fun where
  params := [(.value, (.int .u8))]
  result := none
  body :=
    (.ite (.load (.var .value))
    (.seq (.expr (.call .clear_bit (.cons (.reg .DDRB) (.cons (.num Mac.ASDF_OUT1_BIT) .nil))))
      (.expr (.call .set_bit (.cons (.reg .PORTB) (.cons (.num Mac.ASDF_OUT1_BIT) .nil)))))
    (.seq (.expr (.call .clear_bit (.cons (.reg .PORTB) (.cons (.num Mac.ASDF_OUT1_BIT) .nil))))
      (.expr (.call .set_bit (.cons (.reg .DDRB) (.cons (.num Mac.ASDF_OUT1_BIT) .nil))))))

/-- `asdf_arch_out1_open_lo_set` (Arch/asdf_arch_atmega2560.c:386-396). -/
def fn_asdf_arch_out1_open_lo_set : Fun where
  params := [(.value, (.int .u8))]
  result := none
  body :=
    (.ite (.load (.var .value))
    (.seq (.expr (.call .set_bit (.cons (.reg .PORTB) (.cons (.num Mac.ASDF_OUT1_BIT) .nil))))
      (.expr (.call .set_bit (.cons (.reg .DDRB) (.cons (.num Mac.ASDF_OUT1_BIT) .nil)))))
    (.seq (.expr (.call .clear_bit (.cons (.reg .DDRB) (.cons (.num Mac.ASDF_OUT1_BIT) .nil))))
      (.expr (.call .clear_bit (.cons (.reg .PORTB) (.cons (.num Mac.ASDF_OUT1_BIT) .nil))))))

/-- `asdf_arch_out2_set` (Arch/asdf_arch_atmega2560.c:412-421). -/
def fn_asdf_arch_out2_set : Fun where
  params := [(.value, (.int .u8))]
  result := none
  body :=
    (.seq (.ite (.load (.var .value))
      (.expr (.call .set_bit (.cons (.reg .PORTB) (.cons (.num Mac.ASDF_OUT2_BIT) .nil))))
      (.expr (.call .clear_bit (.cons (.reg .PORTB) (.cons (.num Mac.ASDF_OUT2_BIT) .nil)))))
    (.expr (.call .set_bit (.cons (.reg .DDRB) (.cons (.num Mac.ASDF_OUT2_BIT) .nil)))))

/-- `asdf_arch_out2_open_hi_set` (Arch/asdf_arch_atmega2560.c:437-447). -/
def fn_asdf_arch_out2_open_hi_set : Fun where
  params := [(.value, (.int .u8))]
  result := none
  body :=
    (.ite (.load (.var .value))
    (.seq (.expr (.call .clear_bit (.cons (.reg .DDRB) (.cons (.num Mac.ASDF_OUT2_BIT) .nil))))
      (.expr (.call .set_bit (.cons (.reg .PORTB) (.cons (.num Mac.ASDF_OUT2_BIT) .nil)))))
    (.seq (.expr (.call .clear_bit (.cons (.reg .PORTB) (.cons (.num Mac.ASDF_OUT2_BIT) .nil))))
      (.expr (.call .set_bit (.cons (.reg .DDRB) (.cons (.num Mac.ASDF_OUT2_BIT) .nil))))))

/-- `asdf_arch_out2_open_lo_set` (Arch/asdf_arch_atmega2560.c:463-473). -/
def fn_asdf_arch_out2_open_lo_set : Fun where
  params := [(.value, (.int .u8))]
  result := none
  body :=
    (.ite (.load (.var .value))
    (.seq (.expr (.call .set_bit (.cons (.reg .PORTB) (.cons (.num Mac.ASDF_OUT2_BIT) .nil))))
      (.expr (.call .set_bit (.cons (.reg .DDRB) (.cons (.num Mac.ASDF_OUT2_BIT) .nil)))))
    (.seq (.expr (.call .clear_bit (.cons (.reg .DDRB) (.cons (.num Mac.ASDF_OUT2_BIT) .nil))))
      (.expr (.call .clear_bit (.cons (.reg .PORTB) (.cons (.num Mac.ASDF_OUT2_BIT) .nil))))))

/-- `asdf_arch_out3_set` (Arch/asdf_arch_atmega2560.c:489-498). -/
def fn_asdf_arch_out3_set : Fun where
  params := [(.value, (.int .u8))]
  result := none
  body :=
    (.seq (.ite (.load (.var .value))
      (.expr (.call .set_bit (.cons (.reg .PORTB) (.cons (.num Mac.ASDF_OUT3_BIT) .nil))))
      (.expr (.call .clear_bit (.cons (.reg .PORTB) (.cons (.num Mac.ASDF_OUT3_BIT) .nil)))))
    (.expr (.call .set_bit (.cons (.reg .DDRB) (.cons (.num Mac.ASDF_OUT3_BIT) .nil)))))

/-- `asdf_arch_out3_open_hi_set` (Arch/asdf_arch_atmega2560.c:514-524). -/
def fn_asdf_arch_out3_open_hi_set : Fun where
  params := [(.value, (.int .u8))]
  result := none
  body :=
    (.ite (.load (.var .value))
    (.seq (.expr (.call .clear_bit (.cons (.reg .DDRB) (.cons (.num Mac.ASDF_OUT3_BIT) .nil))))
      (.expr (.call .set_bit (.cons (.reg .PORTB) (.cons (.num Mac.ASDF_OUT3_BIT) .nil)))))
    (.seq (.expr (.call .clear_bit (.cons (.reg .PORTB) (.cons (.num Mac.ASDF_OUT3_BIT) .nil))))
      (.expr (.call .set_bit (.cons (.reg .DDRB) (.cons (.num Mac.ASDF_OUT3_BIT) .nil))))))

/-- `asdf_arch_out3_open_lo_set` (Arch/asdf_arch_atmega2560.c:540-550). -/
def fn_asdf_arch_out3_open_lo_set : Fun where
  params := [(.value, (.int .u8))]
  result := none
  body :=
    (.ite (.load (.var .value))
    (.seq (.expr (.call .set_bit (.cons (.reg .PORTB) (.cons (.num Mac.ASDF_OUT3_BIT) .nil))))
      (.expr (.call .set_bit (.cons (.reg .DDRB) (.cons (.num Mac.ASDF_OUT3_BIT) .nil)))))
    (.seq (.expr (.call .clear_bit (.cons (.reg .DDRB) (.cons (.num Mac.ASDF_OUT3_BIT) .nil))))
      (.expr (.call .clear_bit (.cons (.reg .PORTB) (.cons (.num Mac.ASDF_OUT3_BIT) .nil))))))

/-- `asdf_arch_set_pos_strobe` (Arch/asdf_arch_atmega2560.c:565-569). -/
def fn_asdf_arch_set_pos_strobe : Fun where
  params := []
  result := none
  body :=
    (.seq (.expr (.call .clear_bit (.cons (.reg .PORTB) (.cons (.num Mac.ASDF_STROBE_BIT) .nil))))
    (.expr (.call .set_bit (.cons (.reg .DDRB) (.cons (.num Mac.ASDF_STROBE_BIT) .nil)))))

/-- `asdf_arch_set_neg_strobe` (Arch/asdf_arch_atmega2560.c:583-587). -/
def fn_asdf_arch_set_neg_strobe : Fun where
  params := []
  result := none
  body :=
    (.seq (.expr (.call .set_bit (.cons (.reg .PORTB) (.cons (.num Mac.ASDF_STROBE_BIT) .nil))))
    (.expr (.call .set_bit (.cons (.reg .DDRB) (.cons (.num Mac.ASDF_STROBE_BIT) .nil)))))

/-- `asdf_arch_init_ascii_output` (Arch/asdf_arch_atmega2560.c:601-606). -/
def fn_asdf_arch_init_ascii_output : Fun where
  params := []
  result := none
  body :=
    (.seq (.expr (.call .io_write (.cons (.reg .PORTH) (.cons (.call .io_read (.cons (.reg .data_polarity) .nil)) .nil))))
    (.expr (.call .io_write (.cons (.reg .DDRH) (.cons (.num Mac.ALL_OUTPUTS) .nil)))))

/-- `asdf_arch_init_columns` (Arch/asdf_arch_atmega2560.c:620-624). -/
def fn_asdf_arch_init_columns : Fun where
  params := []
  result := none
  body :=
    (.seq (.expr (.call .io_write (.cons (.reg .DDRC) (.cons (.num Mac.ALL_INPUTS) .nil))))
    (.expr (.call .io_write (.cons (.reg .PORTC) (.cons (.num Mac.ALL_PULLUPS) .nil)))))

/-- `asdf_arch_init_row_outputs` (Arch/asdf_arch_atmega2560.c:638-642). -/
def fn_asdf_arch_init_row_outputs : Fun where
  params := []
  result := none
  body :=
    (.seq (.expr (.call .io_write (.cons (.reg .DDRA) (.cons (.num Mac.ALL_OUTPUTS) .nil))))
    (.expr (.call .io_write (.cons (.reg .DDRJ) (.cons (.num Mac.ALL_OUTPUTS) .nil)))))

/-- `asdf_arch_pulse_delay_short` (Arch/asdf_arch_atmega2560.c:659-662). -/
def fn_asdf_arch_pulse_delay_short : Fun where
  params := []
  result := none
  body :=
    (.expr (.call .delay_us (.cons (.num Mac.ASDF_PULSE_DELAY_SHORT_US) .nil)))

/-- `asdf_arch_pulse_delay_long` (Arch/asdf_arch_atmega2560.c:679-682). -/
def fn_asdf_arch_pulse_delay_long : Fun where
  params := []
  result := none
  body :=
    (.expr (.call .delay_ms (.cons (.num Mac.ASDF_PULSE_DELAY_LONG_MS) .nil)))

/-- `asdf_arch_delay_ms` (Arch/asdf_arch_atmega2560.c:696-701). -/
def fn_asdf_arch_delay_ms : Fun where
  params := [(.delay_ms, (.int .u16))]
  result := none
  body :=
    (.block (.seq (.decl (.int .u16) .i (.num 0))
    (.loop (.bin .lt (.load (.var .i)) (.load (.var .delay_ms))) (.post .add (.var .i))
    (.expr (.call .delay_ms (.cons (.num 1) .nil))))))

/-- `asdf_arch_init` (Arch/asdf_arch_atmega2560.c:715-747). -/
def fn_asdf_arch_init : Fun where
  params := []
  result := none
  body :=
    (.seq (.expr (.call .cli .nil))
    (.seq (.expr (.call .io_write (.cons (.reg .tick) (.cons (.num 0) .nil))))
    (.seq (.expr (.call .asdf_arch_init_clock .nil))
    (.seq (.expr (.call .asdf_arch_tick_timer_init .nil))
    (.seq (.expr (.call .asdf_arch_init_ascii_output .nil))
    (.seq (.expr (.call .io_write (.cons (.reg .data_polarity) (.cons (.num Mac.ASDF_DEFAULT_DATA_POLARITY) .nil))))
    (.seq (.ite (.bin .eq (.num Mac.ASDF_DEFAULT_STROBE_POLARITY) (.num Mac.ASDF_POSITIVE_POLARITY))
      (.expr (.call .asdf_arch_set_pos_strobe .nil))
      (.expr (.call .asdf_arch_set_neg_strobe .nil)))
    (.seq (.expr (.call .asdf_arch_init_leds .nil))
    (.seq (.expr (.call .asdf_arch_init_row_outputs .nil))
    (.seq (.expr (.call .asdf_arch_init_columns .nil))
    (.expr (.call .sei .nil))))))))))))

/-- `asdf_arch_read_row` (Arch/asdf_arch_atmega2560.c:773-783). -/
def fn_asdf_arch_read_row : Fun where
  params := [(.row, (.int .u8))]
  result := some (.int .u8)
  body :=
    (.seq (.decl (.int .u32) .rows (.un .bnot (.bin .shl (.lit .i32 1) (.load (.var .row)))))
    (.seq (.expr (.call .io_write (.cons (.reg .PORTJ) (.cons (.cast .u8 (.bin .band (.load (.var .rows)) (.num 255))) .nil))))
    (.seq (.expr (.call .delay_us (.cons (.num Mac.ASDF_KEYBOARD_ROW_SETTLING_TIME_US) .nil)))
    (.seq (.expr (.call .io_write (.cons (.reg .PORTA) (.cons (.cast .u8 (.bin .band (.bin .shr (.load (.var .rows)) (.num 8)) (.num 255))) .nil))))
    (.seq (.expr (.call .delay_us (.cons (.num Mac.ASDF_KEYBOARD_ROW_SETTLING_TIME_US) .nil)))
    (.ret (.un .bnot (.cast .u8 (.call .io_read (.cons (.reg .PINC) .nil))))))))))

/-- `asdf_arch_osi_read_row` (Arch/asdf_arch_atmega2560.c:805-832). -/
def fn_asdf_arch_osi_read_row : Fun where
  params := [(.row, (.int .u8))]
  result := some (.int .u8)
  body :=
    (.seq (.declU .u8 .cols)
    (.seq (.ite (.bin .gt (.load (.var .row)) (.num 7))
      (.expr (.assign (.var .cols) (.call .asdf_arch_read_row (.cons (.load (.var .row)) .nil))))
      (.seq (.expr (.call .clear_bit (.cons (.reg .PORTA) (.cons (.num Mac.ASDF_OSI_KBE_BIT) .nil))))
        (.seq (.expr (.call .io_write (.cons (.reg .DDRC) (.cons (.num Mac.ALL_OUTPUTS) .nil))))
        (.seq (.expr (.call .io_write (.cons (.reg .PORTC) (.cons (.bin .shl (.num 1) (.load (.var .row))) .nil))))
        (.seq (.expr (.call .clear_bit (.cons (.reg .PORTA) (.cons (.num Mac.ASDF_OSI_RW_BIT) .nil))))
        (.seq (.expr (.call .set_bit (.cons (.reg .PORTA) (.cons (.num Mac.ASDF_OSI_RW_BIT) .nil))))
        (.seq (.expr (.call .io_write (.cons (.reg .DDRC) (.cons (.num Mac.ALL_INPUTS) .nil))))
        (.seq (.ret (.call .io_read (.cons (.reg .PINC) .nil)))
        (.seq (.expr (.call .io_write (.cons (.reg .PORTJ) (.cons (.bin .band (.load (.var .row)) (.num 255)) .nil))))
        (.expr (.assign (.var .cols) (.cast .u8 (.call .io_read (.cons (.reg .PORTC) .nil))))))))))))))
    (.ret (.load (.var .cols)))))

/-- `asdf_arch_send_code` (Arch/asdf_arch_atmega2560.c:854-865). -/
def fn_asdf_arch_send_code : Fun where
  params := [(.code, (.int .u8))]
  result := none
  body :=
    (.seq (.expr (.call .io_write (.cons (.reg .PORTH) (.cons (.bin .bxor (.load (.var .code)) (.call .io_read (.cons (.reg .data_polarity) .nil))) .nil))))
    (.seq (.expr (.call .set_bit (.cons (.reg .PINB) (.cons (.num Mac.ASDF_STROBE_BIT) .nil))))
    (.seq (.expr (.call .delay_us (.cons (.num Mac.ASDF_STROBE_LENGTH_US) .nil)))
    (.expr (.call .set_bit (.cons (.reg .PINB) (.cons (.num Mac.ASDF_STROBE_BIT) .nil)))))))

/-! ## Static variables at reset -/

/-- `tick` (Arch/asdf_arch_atmega2560.c:46). -/
def init_tick : UInt8 := 0

/-- `data_polarity` (Arch/asdf_arch_atmega2560.c:49). -/
def init_data_polarity : UInt8 := 0

/-- The functions with a body. -/
def body : F → Option Fun
  | .TIMER0_COMPA_vect => some fn_TIMER0_COMPA_vect
  | .set_bit => some fn_set_bit
  | .clear_bit => some fn_clear_bit
  | .arch_timer0_config => some fn_arch_timer0_config
  | .asdf_arch_tick_timer_init => some fn_asdf_arch_tick_timer_init
  | .asdf_arch_tick => some fn_asdf_arch_tick
  | .asdf_arch_init_clock => some fn_asdf_arch_init_clock
  | .asdf_arch_init_leds => some fn_asdf_arch_init_leds
  | .asdf_arch_led1_set => some fn_asdf_arch_led1_set
  | .asdf_arch_led2_set => some fn_asdf_arch_led2_set
  | .asdf_arch_led3_set => some fn_asdf_arch_led3_set
  | .asdf_arch_null_output => some fn_asdf_arch_null_output
  | .asdf_arch_out1_set => some fn_asdf_arch_out1_set
  | .asdf_arch_out1_open_hi_set => some fn_asdf_arch_out1_open_hi_set
  | .asdf_arch_out1_open_lo_set => some fn_asdf_arch_out1_open_lo_set
  | .asdf_arch_out2_set => some fn_asdf_arch_out2_set
  | .asdf_arch_out2_open_hi_set => some fn_asdf_arch_out2_open_hi_set
  | .asdf_arch_out2_open_lo_set => some fn_asdf_arch_out2_open_lo_set
  | .asdf_arch_out3_set => some fn_asdf_arch_out3_set
  | .asdf_arch_out3_open_hi_set => some fn_asdf_arch_out3_open_hi_set
  | .asdf_arch_out3_open_lo_set => some fn_asdf_arch_out3_open_lo_set
  | .asdf_arch_set_pos_strobe => some fn_asdf_arch_set_pos_strobe
  | .asdf_arch_set_neg_strobe => some fn_asdf_arch_set_neg_strobe
  | .asdf_arch_init_ascii_output => some fn_asdf_arch_init_ascii_output
  | .asdf_arch_init_columns => some fn_asdf_arch_init_columns
  | .asdf_arch_init_row_outputs => some fn_asdf_arch_init_row_outputs
  | .asdf_arch_pulse_delay_short => some fn_asdf_arch_pulse_delay_short
  | .asdf_arch_pulse_delay_long => some fn_asdf_arch_pulse_delay_long
  | .asdf_arch_delay_ms => some fn_asdf_arch_delay_ms
  | .asdf_arch_init => some fn_asdf_arch_init
  | .asdf_arch_read_row => some fn_asdf_arch_read_row
  | .asdf_arch_osi_read_row => some fn_asdf_arch_osi_read_row
  | .asdf_arch_send_code => some fn_asdf_arch_send_code
  | _ => none

end Asdf.C.A2560
