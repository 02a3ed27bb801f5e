import Verif.Model.CLang

/-! # The C source of the hardware layer, atmega328p

Generated by `tools/c2lean.py` from the C sources; do not edit.

`io_read` and `io_write` are the accesses to registers and to the static variables
of the file. -/

namespace Asdf.C.A328

/-! ## Macros and enumerators -/

/-- `TMR0A_POS` (Arch/asdf_arch_atmega328p.h:54). -/
abbrev Mac.TMR0A_POS : Int := 0

/-- `TMR0IMSK_POS` (Arch/asdf_arch_atmega328p.h:56). -/
abbrev Mac.TMR0IMSK_POS : Int := 16

/-- `TMR0B_POS` (Arch/asdf_arch_atmega328p.h:55). -/
abbrev Mac.TMR0B_POS : Int := 8

/-- `TICK_COUNT` (Arch/asdf_arch_atmega328p.h:253). -/
abbrev Mac.TICK_COUNT : Int := 124

/-- `TIMER0_WFM_CTC` (Arch/asdf_arch_atmega328p.h:63). -/
abbrev Mac.TIMER0_WFM_CTC : Int := 2

/-- `TIMER0_DIV64` (Arch/asdf_arch_atmega328p.h:64). -/
abbrev Mac.TIMER0_DIV64 : Int := 768

/-- `TIMER0_INT_ON_COMA` (Arch/asdf_arch_atmega328p.h:65). -/
abbrev Mac.TIMER0_INT_ON_COMA : Int := 131072

/-- `CLKPCE` (avr/io.h). -/
abbrev Mac.CLKPCE : Int := 7

/-- `SYSCLK_DIV1` (Arch/asdf_arch_atmega328p.h:42). -/
abbrev Mac.SYSCLK_DIV1 : Int := 0

/-- `ASDF_LED1_BIT` (Arch/asdf_arch_atmega328p.h:208). -/
abbrev Mac.ASDF_LED1_BIT : Int := 4

/-- `ASDF_LED2_BIT` (Arch/asdf_arch_atmega328p.h:212). -/
abbrev Mac.ASDF_LED2_BIT : Int := 5

/-- `ASDF_LED3_BIT` (Arch/asdf_arch_atmega328p.h:216). -/
abbrev Mac.ASDF_LED3_BIT : Int := 4

/-- `ASDF_OUT1_BIT` (Arch/asdf_arch_atmega328p.h:221). -/
abbrev Mac.ASDF_OUT1_BIT : Int := 5

/-- `ASDF_OUT2_BIT` (Arch/asdf_arch_atmega328p.h:226). -/
abbrev Mac.ASDF_OUT2_BIT : Int := 3

/-- `ASDF_OUT3_BIT` (Arch/asdf_arch_atmega328p.h:231). -/
abbrev Mac.ASDF_OUT3_BIT : Int := 7

/-- `ASDF_STROBE_BIT` (Arch/asdf_arch_atmega328p.h:236). -/
abbrev Mac.ASDF_STROBE_BIT : Int := 6

/-- `ALL_OUTPUTS` (Arch/asdf_arch_atmega328p.h:180). -/
abbrev Mac.ALL_OUTPUTS : Int := 255

/-- `ASDF_COLCLK_BIT` (Arch/asdf_arch_atmega328p.h:196). -/
abbrev Mac.ASDF_COLCLK_BIT : Int := 2

/-- `ASDF_COLMODE_BIT` (Arch/asdf_arch_atmega328p.h:201). -/
abbrev Mac.ASDF_COLMODE_BIT : Int := 1

/-- `ASDF_COL_BIT` (Arch/asdf_arch_atmega328p.h:190). -/
abbrev Mac.ASDF_COL_BIT : Int := 0

/-- `ASDF_ROW_MASK` (Arch/asdf_arch_atmega328p.h:184). -/
abbrev Mac.ASDF_ROW_MASK : Int := 15

/-- `ASDF_PULSE_DELAY_SHORT_US` (asdf_config.h:78). -/
abbrev Mac.ASDF_PULSE_DELAY_SHORT_US : Int := 10

/-- `ASDF_PULSE_DELAY_LONG_MS` (asdf_config.h:81). -/
abbrev Mac.ASDF_PULSE_DELAY_LONG_MS : Int := 50

/-- `ASDF_DEFAULT_DATA_POLARITY` (asdf_config.h:38). -/
abbrev Mac.ASDF_DEFAULT_DATA_POLARITY : Int := 0

/-- `ASDF_DEFAULT_STROBE_POLARITY` (asdf_config.h:41). -/
abbrev Mac.ASDF_DEFAULT_STROBE_POLARITY : Int := 0

/-- `ASDF_POSITIVE_POLARITY` (asdf_config.h:34). -/
abbrev Mac.ASDF_POSITIVE_POLARITY : Int := 0

/-- `ASDF_ROW_OFFSET` (Arch/asdf_arch_atmega328p.h:185). -/
abbrev Mac.ASDF_ROW_OFFSET : Int := 0

/-- `ASDF_MAX_COLS` (asdf.h:39). -/
abbrev Mac.ASDF_MAX_COLS : Int := 8

/-- `ASDF_STROBE_LENGTH_US` (Arch/asdf_arch_atmega328p.h:38). -/
abbrev Mac.ASDF_STROBE_LENGTH_US : Int := 10

/-! ## Functions -/

/-- `TIMER0_COMPA_vect` (Arch/asdf_arch_atmega328p.c:64-67). -/
def fn_TIMER0_COMPA_vect : Fun where
  params := []
  result := none
  body :=
    (.expr (.call .io_write (.cons (.reg .tick) (.cons (.num 1) .nil))))

/-- `set_bit` (Arch/asdf_arch_atmega328p.c:85-88). -/
def fn_set_bit : Fun where
  params := [(.port, .ptr), (.bit, (.int .u8))]
  result := none
  body :=
    (.expr (.call .io_write (.cons (.load (.var .port)) (.cons (.bin .bor (.call .io_read (.cons (.load (.var .port)) .nil)) (.bin .shl (.num 1) (.load (.var .bit)))) .nil))))

/-- `clear_bit` (Arch/asdf_arch_atmega328p.c:106-109). -/
def fn_clear_bit : Fun where
  params := [(.port, .ptr), (.bit, (.int .u8))]
  result := none
  body :=
    (.expr (.call .io_write (.cons (.load (.var .port)) (.cons (.bin .band (.call .io_read (.cons (.load (.var .port)) .nil)) (.un .bnot (.bin .shl (.num 1) (.load (.var .bit))))) .nil))))

/-- `arch_timer0_config` (Arch/asdf_arch_atmega328p.c:132-138). -/
def fn_arch_timer0_config : Fun where
  params := [(.bits, (.int .u32))]
  result := none
  body :=
    (.seq (.expr (.call .io_write (.cons (.reg .TCCR0B) (.cons (.num 0) .nil))))
    (.seq (.expr (.call .io_write (.cons (.reg .TCCR0A) (.cons (.bin .band (.bin .shr (.load (.var .bits)) (.num Mac.TMR0A_POS)) (.num 255)) .nil))))
    (.seq (.expr (.call .io_write (.cons (.reg .TIMSK0) (.cons (.bin .band (.bin .shr (.load (.var .bits)) (.num Mac.TMR0IMSK_POS)) (.num 255)) .nil))))
    (.expr (.call .io_write (.cons (.reg .TCCR0B) (.cons (.bin .band (.bin .shr (.load (.var .bits)) (.num Mac.TMR0B_POS)) (.num 255)) .nil)))))))

/-- `asdf_arch_tick_timer_init` (Arch/asdf_arch_atmega328p.c:154-165). -/
def fn_asdf_arch_tick_timer_init : Fun where
  params := []
  result := none
  body :=
    (.seq (.expr (.call .io_write (.cons (.reg .tick) (.cons (.num 0) .nil))))
    (.seq (.expr (.call .io_write (.cons (.reg .OCR0A) (.cons (.num Mac.TICK_COUNT) .nil))))
    (.expr (.call .arch_timer0_config (.cons (.bin .bor (.bin .bor (.lit .i32 Mac.TIMER0_WFM_CTC) (.lit .i32 Mac.TIMER0_DIV64)) (.lit .i32 Mac.TIMER0_INT_ON_COMA)) .nil)))))

/-- `asdf_arch_tick` (Arch/asdf_arch_atmega328p.c:181-186). -/
def fn_asdf_arch_tick : Fun where
  params := []
  result := some (.int .u8)
  body :=
    (.seq (.decl (.int .u8) .retval (.call .io_read (.cons (.reg .tick) .nil)))
    (.seq (.expr (.call .io_write (.cons (.reg .tick) (.cons (.num 0) .nil))))
    (.ret (.load (.var .retval)))))

/-- `asdf_arch_init_clock` (Arch/asdf_arch_atmega328p.c:200-203). -/
def fn_asdf_arch_init_clock : Fun where
  params := []
  result := none
  body :=
    (.expr (.call .io_write (.cons (.reg .CLKPR) (.cons (.bin .bor (.num Mac.CLKPCE) (.num Mac.SYSCLK_DIV1)) .nil))))

/-- `asdf_arch_init_leds` (Arch/asdf_arch_atmega328p.c:218-223). -/
def fn_asdf_arch_init_leds : Fun where
  params := []
  result := none
  body :=
    (.seq (.expr (.call .set_bit (.cons (.reg .DDRC) (.cons (.num Mac.ASDF_LED1_BIT) .nil))))
    (.seq (.expr (.call .set_bit (.cons (.reg .DDRB) (.cons (.num Mac.ASDF_LED2_BIT) .nil))))
    (.expr (.call .set_bit (.cons (.reg .DDRB) (.cons (.num Mac.ASDF_LED3_BIT) .nil))))))

/-- `asdf_arch_led1_set` (Arch/asdf_arch_atmega328p.c:241-249). -/
def fn_asdf_arch_led1_set : Fun where
  params := [(.value, (.int .u8))]
  result := none
  body :=
    (.ite (.load (.var .value))
    (.expr (.call .clear_bit (.cons (.reg .PORTC) (.cons (.num Mac.ASDF_LED1_BIT) .nil))))
    (.expr (.call .set_bit (.cons (.reg .PORTC) (.cons (.num Mac.ASDF_LED1_BIT) .nil)))))

/-- `asdf_arch_led2_set` (Arch/asdf_arch_atmega328p.c:266-274). -/
def fn_asdf_arch_led2_set : Fun where
  params := [(.value, (.int .u8))]
  result := none
  body :=
    (.ite (.load (.var .value))
    (.expr (.call .set_bit (.cons (.reg .PORTB) (.cons (.num Mac.ASDF_LED2_BIT) .nil))))
    (.expr (.call .clear_bit (.cons (.reg .PORTB) (.cons (.num Mac.ASDF_LED2_BIT) .nil)))))

/-- `asdf_arch_led3_set` (Arch/asdf_arch_atmega328p.c:291-299). -/
def fn_asdf_arch_led3_set : Fun where
  params := [(.value, (.int .u8))]
  result := none
  body :=
    (.ite (.load (.var .value))
    (.expr (.call .set_bit (.cons (.reg .PORTB) (.cons (.num Mac.ASDF_LED3_BIT) .nil))))
    (.expr (.call .clear_bit (.cons (.reg .PORTB) (.cons (.num Mac.ASDF_LED3_BIT) .nil)))))

/-- `asdf_arch_out1_set` (Arch/asdf_arch_atmega328p.c:315-324). -/
def fn_asdf_arch_out1_set : Fun where
  params := [(.value, (.int .u8))]
  result := none
  body :=
    (.seq (.ite (.load (.var .value))
      (.expr (.call .set_bit (.cons (.reg .PORTC) (.cons (.num Mac.ASDF_OUT1_BIT) .nil))))
      (.expr (.call .clear_bit (.cons (.reg .PORTC) (.cons (.num Mac.ASDF_OUT1_BIT) .nil)))))
    (.expr (.call .set_bit (.cons (.reg .DDRC) (.cons (.num Mac.ASDF_OUT1_BIT) .nil)))))

/-- `asdf_arch_out1_open_hi_set` (Arch/asdf_arch_atmega328p.c:340-350). -/
def fn_asdf_arch_out1_open_hi_set : Fun where
  params := [(.value, (.int .u8))]
  result := none
  body :=
    (.ite (.load (.var .value))
    (.seq (.expr (.call .clear_bit (.cons (.reg .DDRC) (.cons (.num Mac.ASDF_OUT1_BIT) .nil))))
      (.expr (.call .set_bit (.cons (.reg .PORTC) (.cons (.num Mac.ASDF_OUT1_BIT) .nil)))))
    (.seq (.expr (.call .clear_bit (.cons (.reg .PORTC) (.cons (.num Mac.ASDF_OUT1_BIT) .nil))))
      (.expr (.call .set_bit (.cons (.reg .DDRC) (.cons (.num Mac.ASDF_OUT1_BIT) .nil))))))

/-- `asdf_arch_out1_open_lo_set` (Arch/asdf_arch_atmega328p.c:366-376). -/
def fn_asdf_arch_out1_open_lo_set : Fun where
  params := [(.value, (.int .u8))]
  result := none
  body :=
    (.ite (.load (.var .value))
    (.seq (.expr (.call .set_bit (.cons (.reg .PORTC) (.cons (.num Mac.ASDF_OUT1_BIT) .nil))))
      (.expr (.call .set_bit (.cons (.reg .DDRC) (.cons (.num Mac.ASDF_OUT1_BIT) .nil)))))
    (.seq (.expr (.call .clear_bit (.cons (.reg .DDRC) (.cons (.num Mac.ASDF_OUT1_BIT) .nil))))
      (.expr (.call .clear_bit (.cons (.reg .PORTC) (.cons (.num Mac.ASDF_OUT1_BIT) .nil))))))

/-- `asdf_arch_out2_set` (Arch/asdf_arch_atmega328p.c:393-402). -/
def fn_asdf_arch_out2_set : Fun where
  params := [(.value, (.int .u8))]
  result := none
  body :=
    (.seq (.ite (.load (.var .value))
      (.expr (.call .clear_bit (.cons (.reg .PORTB) (.cons (.num Mac.ASDF_OUT2_BIT) .nil))))
      (.expr (.call .set_bit (.cons (.reg .PORTB) (.cons (.num Mac.ASDF_OUT2_BIT) .nil)))))
    (.expr (.call .set_bit (.cons (.reg .DDRB) (.cons (.num Mac.ASDF_OUT2_BIT) .nil)))))

/-- `asdf_arch_null_output` (Arch/asdf_arch_atmega328p.c:418-421). -/
def fn_asdf_arch_null_output : Fun where
  params := [(.value, (.int .u8))]
  result := none
  body :=
    (.expr (.load (.var .value)))

/-- `asdf_arch_out2_open_hi_set` (Arch/asdf_arch_atmega328p.c:437-440). -/
def fn_asdf_arch_out2_open_hi_set : Fun where
  params := [(.value, (.int .u8))]
  result := none
  body :=
    (.expr (.call .asdf_arch_null_output (.cons (.load (.var .value)) .nil)))

/-- `asdf_arch_out2_open_lo_set` (Arch/asdf_arch_atmega328p.c:456-459). -/
def fn_asdf_arch_out2_open_lo_set : Fun where
  params := [(.value, (.int .u8))]
  result := none
  body :=
    (.expr (.call .asdf_arch_null_output (.cons (.load (.var .value)) .nil)))

/-- `asdf_arch_out3_set` (Arch/asdf_arch_atmega328p.c:475-484). -/
def fn_asdf_arch_out3_set : Fun where
  params := [(.value, (.int .u8))]
  result := none
  body :=
    (.seq (.ite (.load (.var .value))
      (.expr (.call .set_bit (.cons (.reg .PORTB) (.cons (.num Mac.ASDF_OUT3_BIT) .nil))))
      (.expr (.call .clear_bit (.cons (.reg .PORTB) (.cons (.num Mac.ASDF_OUT3_BIT) .nil)))))
    (.expr (.call .set_bit (.cons (.reg .DDRB) (.cons (.num Mac.ASDF_OUT3_BIT) .nil)))))

/-- `asdf_arch_out3_open_hi_set` (Arch/asdf_arch_atmega328p.c:500-510). -/
def fn_asdf_arch_out3_open_hi_set : Fun where
  params := [(.value, (.int .u8))]
  result := none
  body :=
    (.ite (.load (.var .value))
    (.seq (.expr (.call .clear_bit (.cons (.reg .DDRB) (.cons (.num Mac.ASDF_OUT3_BIT) .nil))))
      (.expr (.call .set_bit (.cons (.reg .PORTB) (.cons (.num Mac.ASDF_OUT3_BIT) .nil)))))
    (.seq (.expr (.call .clear_bit (.cons (.reg .PORTB) (.cons (.num Mac.ASDF_OUT3_BIT) .nil))))
      (.expr (.call .set_bit (.cons (.reg .DDRB) (.cons (.num Mac.ASDF_OUT3_BIT) .nil))))))

/-- `asdf_arch_out3_open_lo_set` (Arch/asdf_arch_atmega328p.c:526-536). -/
def fn_asdf_arch_out3_open_lo_set : Fun where
  params := [(.value, (.int .u8))]
  result := none
  body :=
    (.ite (.load (.var .value))
    (.seq (.expr (.call .set_bit (.cons (.reg .PORTB) (.cons (.num Mac.ASDF_OUT3_BIT) .nil))))
      (.expr (.call .set_bit (.cons (.reg .DDRB) (.cons (.num Mac.ASDF_OUT3_BIT) .nil)))))
    (.seq (.expr (.call .clear_bit (.cons (.reg .DDRB) (.cons (.num Mac.ASDF_OUT3_BIT) .nil))))
      (.expr (.call .clear_bit (.cons (.reg .PORTB) (.cons (.num Mac.ASDF_OUT3_BIT) .nil))))))

/-- `asdf_arch_set_pos_strobe` (Arch/asdf_arch_atmega328p.c:551-555). -/
def fn_asdf_arch_set_pos_strobe : Fun where
  params := []
  result := none
  body :=
    (.seq (.expr (.call .clear_bit (.cons (.reg .PORTB) (.cons (.num Mac.ASDF_STROBE_BIT) .nil))))
    (.expr (.call .set_bit (.cons (.reg .DDRB) (.cons (.num Mac.ASDF_STROBE_BIT) .nil)))))

/-- `asdf_arch_set_neg_strobe` (Arch/asdf_arch_atmega328p.c:569-573). -/
def fn_asdf_arch_set_neg_strobe : Fun where
  params := []
  result := none
  body :=
    (.seq (.expr (.call .set_bit (.cons (.reg .PORTB) (.cons (.num Mac.ASDF_STROBE_BIT) .nil))))
    (.expr (.call .set_bit (.cons (.reg .DDRB) (.cons (.num Mac.ASDF_STROBE_BIT) .nil)))))

/-- `asdf_arch_init_ascii_output` (Arch/asdf_arch_atmega328p.c:587-593). -/
def fn_asdf_arch_init_ascii_output : Fun where
  params := []
  result := none
  body :=
    (.seq (.expr (.call .io_write (.cons (.reg .PORTD) (.cons (.call .io_read (.cons (.reg .data_polarity) .nil)) .nil))))
    (.expr (.call .io_write (.cons (.reg .DDRD) (.cons (.num Mac.ALL_OUTPUTS) .nil)))))

/-- `asdf_arch_init_column_control` (Arch/asdf_arch_atmega328p.c:608-622). -/
def fn_asdf_arch_init_column_control : Fun where
  params := []
  result := none
  body :=
    (.seq (.expr (.call .clear_bit (.cons (.reg .PORTB) (.cons (.num Mac.ASDF_COLCLK_BIT) .nil))))
    (.seq (.expr (.call .set_bit (.cons (.reg .DDRB) (.cons (.num Mac.ASDF_COLCLK_BIT) .nil))))
    (.seq (.expr (.call .set_bit (.cons (.reg .PORTB) (.cons (.num Mac.ASDF_COLMODE_BIT) .nil))))
    (.seq (.expr (.call .set_bit (.cons (.reg .DDRB) (.cons (.num Mac.ASDF_COLMODE_BIT) .nil))))
    (.seq (.expr (.call .clear_bit (.cons (.reg .DDRB) (.cons (.num Mac.ASDF_COL_BIT) .nil))))
    (.expr (.call .clear_bit (.cons (.reg .PORTB) (.cons (.num Mac.ASDF_COL_BIT) .nil)))))))))

/-- `asdf_arch_init_row_outputs` (Arch/asdf_arch_atmega328p.c:636-640). -/
def fn_asdf_arch_init_row_outputs : Fun where
  params := []
  result := none
  body :=
    (.seq (.expr (.call .io_write (.cons (.reg .PORTC) (.cons (.bin .band (.call .io_read (.cons (.reg .PORTC) .nil)) (.un .bnot (.num Mac.ASDF_ROW_MASK))) .nil))))
    (.expr (.call .io_write (.cons (.reg .DDRC) (.cons (.bin .bor (.call .io_read (.cons (.reg .DDRC) .nil)) (.num Mac.ASDF_ROW_MASK)) .nil)))))

/-- `asdf_arch_pulse_delay_short` (Arch/asdf_arch_atmega328p.c:656-659). -/
def fn_asdf_arch_pulse_delay_short : Fun where
  params := []
  result := none
  body :=
    (.expr (.call .delay_us (.cons (.num Mac.ASDF_PULSE_DELAY_SHORT_US) .nil)))

/-- `asdf_arch_pulse_delay_long` (Arch/asdf_arch_atmega328p.c:675-678). -/
def fn_asdf_arch_pulse_delay_long : Fun where
  params := []
  result := none
  body :=
    (.expr (.call .delay_ms (.cons (.num Mac.ASDF_PULSE_DELAY_LONG_MS) .nil)))

/-- `asdf_arch_delay_ms` (Arch/asdf_arch_atmega328p.c:692-697). -/
def fn_asdf_arch_delay_ms : Fun where
  params := [(.delay_ms, (.int .u16))]
  result := none
  body :=
    (.block (.seq (.decl (.int .u16) .i (.num 0))
    (.loop (.bin .lt (.load (.var .i)) (.load (.var .delay_ms))) (.post .add (.var .i))
    (.expr (.call .delay_ms (.cons (.num 1) .nil))))))

/-- `asdf_arch_init` (Arch/asdf_arch_atmega328p.c:711-747). -/
def fn_asdf_arch_init : Fun where
  params := []
  result := none
  body :=
    (.seq (.expr (.call .cli .nil))
    (.seq (.expr (.call .io_write (.cons (.reg .tick) (.cons (.num 0) .nil))))
    (.seq (.expr (.call .asdf_arch_init_clock .nil))
    (.seq (.expr (.call .asdf_arch_tick_timer_init .nil))
    (.seq (.expr (.call .asdf_arch_init_ascii_output .nil))
    (.seq (.expr (.call .io_write (.cons (.reg .data_polarity) (.cons (.num Mac.ASDF_DEFAULT_DATA_POLARITY) .nil))))
    (.seq (.ite (.bin .eq (.num Mac.ASDF_DEFAULT_STROBE_POLARITY) (.num Mac.ASDF_POSITIVE_POLARITY))
      (.expr (.call .asdf_arch_set_pos_strobe .nil))
      (.expr (.call .asdf_arch_set_neg_strobe .nil)))
    (.seq (.expr (.call .asdf_arch_init_leds .nil))
    (.seq (.expr (.call .asdf_arch_init_leds .nil))
    (.seq (.expr (.call .asdf_arch_init_row_outputs .nil))
    (.seq (.expr (.call .asdf_arch_init_column_control .nil))
    (.expr (.call .sei .nil)))))))))))))

/-- `asdf_arch_read_row` (Arch/asdf_arch_atmega328p.c:770-801). -/
def fn_asdf_arch_read_row : Fun where
  params := [(.row, (.int .u8))]
  result := some (.int .u8)
  body :=
    (.seq (.decl (.int .u8) .cols (.num 0))
    (.seq (.expr (.call .io_write (.cons (.reg .PORTC) (.cons (.bin .bor (.bin .band (.call .io_read (.cons (.reg .PORTC) .nil)) (.un .bnot (.num Mac.ASDF_ROW_MASK))) (.bin .shl (.bin .band (.load (.var .row)) (.num Mac.ASDF_ROW_MASK)) (.num Mac.ASDF_ROW_OFFSET))) .nil))))
    (.seq (.expr (.call .clear_bit (.cons (.reg .PORTB) (.cons (.num Mac.ASDF_COLMODE_BIT) .nil))))
    (.seq (.expr (.call .set_bit (.cons (.reg .PORTB) (.cons (.num Mac.ASDF_COLCLK_BIT) .nil))))
    (.seq (.expr (.call .clear_bit (.cons (.reg .PORTB) (.cons (.num Mac.ASDF_COLCLK_BIT) .nil))))
    (.seq (.expr (.call .set_bit (.cons (.reg .PORTB) (.cons (.num Mac.ASDF_COLMODE_BIT) .nil))))
    (.seq (.block (.seq (.decl (.int .u8) .i (.num 0))
      (.loop (.bin .lt (.load (.var .i)) (.num Mac.ASDF_MAX_COLS)) (.post .add (.var .i))
      (.seq (.expr (.update .bor (.var .cols) (.bin .shl (.bin .band (.bin .shr (.un .bnot (.call .io_read (.cons (.reg .PINB) .nil))) (.num Mac.ASDF_COL_BIT)) (.num 1)) (.load (.var .i)))))
        (.seq (.expr (.call .set_bit (.cons (.reg .PORTB) (.cons (.num Mac.ASDF_COLCLK_BIT) .nil))))
        (.expr (.call .clear_bit (.cons (.reg .PORTB) (.cons (.num Mac.ASDF_COLCLK_BIT) .nil)))))))))
    (.ret (.load (.var .cols))))))))))

/-- `asdf_arch_send_code` (Arch/asdf_arch_atmega328p.c:823-834). -/
def fn_asdf_arch_send_code : Fun where
  params := [(.code, (.int .u8))]
  result := none
  body :=
    (.seq (.expr (.call .io_write (.cons (.reg .PORTD) (.cons (.bin .bxor (.load (.var .code)) (.call .io_read (.cons (.reg .data_polarity) .nil))) .nil))))
    (.seq (.expr (.call .set_bit (.cons (.reg .PINB) (.cons (.num Mac.ASDF_STROBE_BIT) .nil))))
    (.seq (.expr (.call .delay_us (.cons (.num Mac.ASDF_STROBE_LENGTH_US) .nil)))
    (.expr (.call .set_bit (.cons (.reg .PINB) (.cons (.num Mac.ASDF_STROBE_BIT) .nil)))))))

/-! ## Static variables at reset -/

/-- `tick` (Arch/asdf_arch_atmega328p.c:45). -/
def init_tick : UInt8 := 0

/-- `data_polarity` (Arch/asdf_arch_atmega328p.c:47). -/
def init_data_polarity : UInt8 := 0

/-- The functions with a body. -/
def body : F → Option Fun
  | .TIMER0_COMPA_vect => some fn_TIMER0_COMPA_vect
  | .set_bit => some fn_set_bit
  | .clear_bit => some fn_clear_bit
  | .arch_timer0_config => some fn_arch_timer0_config
  | .asdf_arch_tick_timer_init => some fn_asdf_arch_tick_timer_init
  | .asdf_arch_tick => some fn_asdf_arch_tick
  | .asdf_arch_init_clock => some fn_asdf_arch_init_clock
  | .asdf_arch_init_leds => some fn_asdf_arch_init_leds
  | .asdf_arch_led1_set => some fn_asdf_arch_led1_set
  | .asdf_arch_led2_set => some fn_asdf_arch_led2_set
  | .asdf_arch_led3_set => some fn_asdf_arch_led3_set
  | .asdf_arch_out1_set => some fn_asdf_arch_out1_set
  | .asdf_arch_out1_open_hi_set => some fn_asdf_arch_out1_open_hi_set
  | .asdf_arch_out1_open_lo_set => some fn_asdf_arch_out1_open_lo_set
  | .asdf_arch_out2_set => some fn_asdf_arch_out2_set
  | .asdf_arch_null_output => some fn_asdf_arch_null_output
  | .asdf_arch_out2_open_hi_set => some fn_asdf_arch_out2_open_hi_set
  | .asdf_arch_out2_open_lo_set => some fn_asdf_arch_out2_open_lo_set
  | .asdf_arch_out3_set => some fn_asdf_arch_out3_set
  | .asdf_arch_out3_open_hi_set => some fn_asdf_arch_out3_open_hi_set
  | .asdf_arch_out3_open_lo_set => some fn_asdf_arch_out3_open_lo_set
  | .asdf_arch_set_pos_strobe => some fn_asdf_arch_set_pos_strobe
  | .asdf_arch_set_neg_strobe => some fn_asdf_arch_set_neg_strobe
  | .asdf_arch_init_ascii_output => some fn_asdf_arch_init_ascii_output
  | .asdf_arch_init_column_control => some fn_asdf_arch_init_column_control
  | .asdf_arch_init_row_outputs => some fn_asdf_arch_init_row_outputs
  | .asdf_arch_pulse_delay_short => some fn_asdf_arch_pulse_delay_short
  | .asdf_arch_pulse_delay_long => some fn_asdf_arch_pulse_delay_long
  | .asdf_arch_delay_ms => some fn_asdf_arch_delay_ms
  | .asdf_arch_init => some fn_asdf_arch_init
  | .asdf_arch_read_row => some fn_asdf_arch_read_row
  | .asdf_arch_send_code => some fn_asdf_arch_send_code
  | _ => none

end Asdf.C.A328
