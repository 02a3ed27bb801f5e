import Verif.Lemmas.Boards
import Verif.Spec.Examples

/-! # Properties C43 and C49: sending a code, pin by pin -/

namespace Asdf.Props

open Avr Spec

/-! ## C43 -/

/-- **C43, pulse.**  On both boards, whatever the registers were before: while a code
is sent, the register accesses take the strobe through idle, active, active (the
delay), idle, and the data port holds exactly the code from before the first
change of the strobe to the end. -/
theorem C43_one_pulse (B : Board) (hB : B ∈ boards) (r : Regs) (code : Code) :
    (boardStates B r [.send code]).map (fun x => (level x B.strobe, x.port B.data)) =
      [(level r B.strobe, code), (!level r B.strobe, code), (!level r B.strobe, code),
        (level r B.strobe, code)] := by
  rw [boardStates_one]
  exact send_states hB _ r code

/-- **C43, other pins.**  No other pin changes level or direction at any moment. -/
theorem C43_other_pins (B : Board) (hB : B ∈ boards) (r : Regs) (code : Code) (r' : Regs)
    (hr : r' ∈ boardStates B r [.send code]) : onlyPins (B.strobe :: pinsOf B.data) r r' := by
  have key : ∀ n, n < 256 → ∀ B ∈ boards,
      touchesOnly (B.strobe :: pinsOf B.data) (B.opsOf (.send (UInt8.ofNat n))) = true := by
    decide +kernel
  have h := key code.toNat code.toNat_lt B hB
  rw [UInt8.ofNat_toNat] at h
  rw [boardStates_one] at hr
  exact onlyPins_of h hr

/-- **C43, directions.**  Sending changes no direction at all. -/
theorem C43_directions (B : Board) (hB : B ∈ boards) (r : Regs) (code : Code) (r' : Regs)
    (hr : r' ∈ boardStates B r [.send code]) : r'.ddr = r.ddr := by
  rw [boardStates_one] at hr
  rcases List.mem_cons.mp hB with rfl | hB
  · have : ∀ x ∈ states .sbi (fun _ => 0) r (m328.opsOf (.send code)), x.ddr = r.ddr := by
      intro x hx
      simp only [m328, M328.opsOf, M328.sendCode, states, List.mem_cons, List.not_mem_nil,
        or_false] at hx
      rcases hx with rfl | rfl | rfl | rfl <;> rfl
    exact this r' hr
  · rcases List.mem_cons.mp hB with rfl | hB
    · have : ∀ x ∈ states .sbi (fun _ => 0) r (m2560.opsOf (.send code)), x.ddr = r.ddr := by
        intro x hx
        simp only [m2560, M2560.opsOf, M2560.sendCode, states, List.mem_cons, List.not_mem_nil,
          or_false] at hx
        rcases hx with rfl | rfl | rfl | rfl <;> rfl
      exact this r' hr
    · cases hB

/-- **C43, idle level.**  After any sequence of hardware events, from any register
contents, the strobe is an output at the idle level selected last. -/
theorem C43_idle_level (B : Board) (hB : B ∈ boards) (r : Regs) (t : List Event) (l : Bool)
    (hl : idleLevel t = some l) :
    level (boardAfter B r t) B.strobe = l ∧ isOutput (boardAfter B r t) B.strobe = true := by
  have := strobe_after hB t r none (fun _ h => by cases h) l hl
  exact ⟨congrArg Prod.fst this, congrArg Prod.snd this⟩

/-- **C43 for the firmware.**  At every pass of the main loop of every run, for every
keymap list, the strobe is an output and at the idle level selected last. -/
theorem C43_firmware (cfg : Config) (h0 : cfg.valid 0 = true) (s0 s : State) (inps : List Input)
    (hb : boot cfg = .ok s0) (hr : run cfg s0 inps = .ok s) (B : Board) (hB : B ∈ boards)
    (r : Regs) : ∃ l, idleLevel s.dev.trace = some l ∧
      level (boardAfter B r s.dev.trace) B.strobe = l ∧
      isOutput (boardAfter B r s.dev.trace) B.strobe = true := by
  have h := (idle_stable cfg).run hr (boot_idle h0 hb)
  cases hl : idleLevel s.dev.trace with
  | none => exact absurd hl h
  | some l => exact ⟨l, rfl, C43_idle_level B hB r _ l hl⟩

/-- **C43 as the host sees it.**  A host that latches the data port at the leading
edge of the strobe receives exactly the codes sent, in order, none lost, doubled or
garbled, whatever else the firmware does between polarity selections. -/
theorem C43_host_receives (B : Board) (hB : B ∈ boards) (r : Regs) (active : Bool)
    (hidle : level r B.strobe = !active) (hout : isOutput r B.strobe = true) (t : List Event)
    (ht : ∀ e ∈ t, keepsPolarity e = true) :
    latched B active r (boardStates B r t) = sends t :=
  latched_events hB active t ht r (Prod.ext hidle hout)

/-- Non-vacuity: two codes with other activity between, negative polarity. -/
example : latched m328 false (boardAfter m328 allZero [.archInit, .negStrobe])
    (boardStates m328 (boardAfter m328 allZero [.archInit, .negStrobe])
      [.send 0x41, .out PHYSICAL_OUT3 1, .delayShort, .send 0x42]) = [0x41, 0x42] := by
  decide +kernel

/-- Non-vacuity: the shipped firmware in a run that types an `a`. -/
example : idleLevel (after typedA).dev.trace = some false := by decide +kernel

/-- A polarity selection itself moves the strobe: a host that latches rising edges
sees a spurious code when negative polarity is selected. -/
theorem C43_polarity_selection_is_seen :
    latched m328 true (boardAfter m328 allZero [.archInit])
      (boardStates m328 (boardAfter m328 allZero [.archInit]) [.send 0x41, .negStrobe]) =
      [0x41, 0x41] := by decide +kernel

/-! ## C49 -/

/-- The claim of C49: also in a build without optimisation, sending a code changes
only the strobe and the data port. -/
def C49Statement : Prop :=
  ∀ B ∈ boards, ∀ (ext : Port → UInt8) (r : Regs) (code : Code), isOutput r B.strobe = true →
    ∀ r' ∈ states .literal ext r (B.opsOf (.send code)),
      onlyPins (B.strobe :: pinsOf B.data) r r'

/-- **C49 is false**: the literal `PINB |= 1 << 6` toggles every pin of port B that
reads high; on the initialised ATmega328P board the shift register's mode pin, and
LED3 if it is lit, go low. -/
theorem C49_false : ¬ C49Statement := by
  intro h
  have := h m328 List.mem_cons_self (fun _ => 0) (boardAfter m328 allZero [.archInit, .out PHYSICAL_LED3 1])
    0x41 (by decide +kernel)
    (exec .literal (fun _ => 0) (boardAfter m328 allZero [.archInit, .out PHYSICAL_LED3 1])
      (m328.opsOf (.send 0x41)))
    (List.mem_of_getLast? (by rfl)) m328.led3 (by decide) (by decide)
  exact absurd this.1 (by decide +kernel)

/-- The consequence: a lit LED is off after a code was sent, and stays so. -/
theorem C49_led_goes_out :
    let r := boardAfter m328 allZero [.archInit, .out PHYSICAL_LED3 1]
    drive r m328.led3 = .high ∧
    drive (exec .literal (fun _ => 0) r (m328.opsOf (.send 0x41))) m328.led3 = .low := by
  decide +kernel

/-- **C49** (partial: the strobe and the data port, not the other pins).  Without
optimisation the strobe and the data port still behave as in `C43_one_pulse`. -/
theorem C49_one_pulse_partial (B : Board) (hB : B ∈ boards) (ext : Port → UInt8) (r : Regs)
    (code : Code) :
    (states .literal ext r (B.opsOf (.send code))).map (fun x => (level x B.strobe, x.port B.data)) =
      [(level r B.strobe, code), (!level r B.strobe, code), (!level r B.strobe, code),
        (level r B.strobe, code)] := by
  have hx : code ^^^ DATA_POLARITY = code := UInt8.xor_zero
  have ht : ∀ (x y : UInt8) (b : Nat), bitOf (oneBit b) b = true →
      bitOf (x ^^^ (y ||| oneBit b)) b = !bitOf x b := by
    intro x y b hb
    rw [bitOf_xor, bitOf_or, hb]
    simp
  have h6 : bitOf (oneBit 6) 6 = true := by decide
  have h4 : bitOf (oneBit 4) 4 = true := by decide
  have e1 : ∀ f : Port → UInt8, ∀ v, upd f .D v .B = f .B := fun f v => rfl
  have e2 : ∀ f : Port → UInt8, ∀ v, upd f .B v .D = f .D := fun f v => rfl
  have e3 : ∀ f : Port → UInt8, ∀ v, upd f .H v .B = f .B := fun f v => rfl
  have e4 : ∀ f : Port → UInt8, ∀ v, upd f .B v .H = f .H := fun f v => rfl
  rcases List.mem_cons.mp hB with rfl | hB
  · simp only [m328, M328.opsOf, M328.sendCode, states, access, togglePort, level, hx, e1, e2,
      upd_same, List.map_cons, List.map_nil, ht _ _ _ h6, Bool.not_not]
  · rcases List.mem_cons.mp hB with rfl | hB
    · simp only [m2560, M2560.opsOf, M2560.sendCode, states, access, togglePort, level, hx, e3, e4,
        upd_same, List.map_cons, List.map_nil, ht _ _ _ h4, Bool.not_not]
    · cases hB

end Asdf.Props
