import Verif.Lemmas.Clock

/-! # Property C51: one tick per millisecond -/

namespace Asdf.Props

open Avr Spec

/-- The claim of C51: whatever the registers contain when the hardware is initialised,
from then on the tick interrupt fires once per millisecond. -/
def C51Statement : Prop :=
  (∀ r0 r, Since328 r0 r → millisecondTick M328.F_CPU r) ∧
  (∀ r0 r, Since2560 r0 r → millisecondTick M2560.F_CPU r)

/-- The registers at reset when the fuse `CKDIV8` is programmed (as the ATmega328P is
delivered): the system clock is divided by 8. -/
def dividedReset : Regs := { allZero with io := fun x => if x = .clkpr then 3 else 0 }

/-- **C51 is false**: if the system clock is divided at reset, initialising the hardware
does not change that (`CLKPR` is written with the number of its enable bit), and the
ticks come every 8 milliseconds. -/
theorem C51_false : ¬ C51Statement := by
  intro h
  obtain ⟨div, top, e, hn⟩ := h.1 dividedReset _ .init
  have e' : tickTimer (boardAfter m328 dividedReset [.archInit]) = some (512, 124) := by
    decide +kernel
  rw [e'] at e
  cases e
  have h1 := hn ⟨0, 0⟩ 1 (by decide) (by decide)
  rw [timer_fires (by decide) (by decide) _ _ (by decide) (by decide)] at h1
  exact absurd h1 (by decide)

/-- The same witness, quantitatively: 8 milliseconds per tick on both boards. -/
theorem C51_divided_slow :
    tickTimer (boardAfter m328 dividedReset [.archInit]) = some (512, 124) ∧
    512 * (124 + 1) = 8 * (M328.F_CPU / 1000) ∧
    tickTimer (boardAfter m2560 dividedReset [.archInit]) = some (512, 249) ∧
    512 * (249 + 1) = 8 * (M2560.F_CPU / 1000) := by decide +kernel

/-- **C51** (partial: the system clock must be undivided at reset, and its change window
shut), ATmega328P: whatever else the registers contain, and after any hardware events
(including further initialisations) and row reads, the tick interrupt fires once per
millisecond of the 8 MHz clock. -/
theorem C51_m328_partial (r0 r : Regs) (hc : r0.io .clkpr = 0) (ho : r0.clkOpen = false)
    (h : Since328 r0 r) : millisecondTick M328.F_CPU r :=
  ((clock_328 ho h).millisecond_iff (by decide)).mpr (by rw [hc]; rfl)

/-- **C51** (partial, as before), ATmega2560 with its 16 MHz clock. -/
theorem C51_m2560_partial (r0 r : Regs) (hc : r0.io .clkpr = 0) (ho : r0.clkOpen = false)
    (h : Since2560 r0 r) : millisecondTick M2560.F_CPU r :=
  ((clock_2560 ho h).millisecond_iff (by decide)).mpr (by rw [hc]; rfl)

/-- Non-vacuity: initialised, a row read, a LED switched, a code sent; and the timer
does fire: one tick in the first 8000 cycles, none in the first 7999. -/
example : ∃ r, Since328 allZero r ∧ allZero.io .clkpr = 0 ∧ allZero.clkOpen = false ∧
    level r m328.led2 = true ∧ r.port .D = 0x41 :=
  ⟨_, .event (.event (.read .init (fun _ => 1) 0 3 0) (.out PHYSICAL_LED2 1)) (.send 0x41),
    by decide, by decide, by decide +kernel, by decide +kernel⟩

example : Timer.fires 64 124 8000 ⟨0, 0⟩ = 1 ∧ Timer.fires 64 124 7999 ⟨0, 0⟩ = 0 := by
  rw [timer_fires (by decide) (by decide) _ _ (by decide) (by decide),
    timer_fires (by decide) (by decide) _ _ (by decide) (by decide)]
  decide

example : ∃ r, Since2560 allZero r ∧ r.port .J = 0xf7 :=
  ⟨_, .read .init (fun _ => 0xff) 3 _ _ rfl rfl, by decide +kernel⟩

/-! ## Exactly how often the interrupt comes -/

/-- **C108** (ATmega328P).  Whatever the registers contain at reset (the window in which the clock can be changed
is shut then), and after any hardware events and row reads: with the clock divided by `2 ^ p` at reset the
interrupt comes exactly every `2 ^ p` milliseconds; with a reserved value it is not known when; so it comes once in
every millisecond exactly if the clock is not divided at reset. -/
theorem C108_m328 (r0 r : Regs) (ho : r0.clkOpen = false) (h : Since328 r0 r) :
    ((r0.io .clkpr &&& 0x0f).toNat ≤ 8 → tickEvery M328.F_CPU (2 ^ (r0.io .clkpr &&& 0x0f).toNat) r) ∧
    (8 < (r0.io .clkpr &&& 0x0f).toNat → tickTimer r = none) ∧
    (millisecondTick M328.F_CPU r ↔ (r0.io .clkpr &&& 0x0f).toNat = 0) :=
  ⟨fun hp => (clock_328 ho h).every hp (by decide),
    fun hp => by rw [(clock_328 ho h).timer, if_neg (Nat.not_le.mpr hp)],
    (clock_328 ho h).millisecond_iff (by decide)⟩

/-- **C108** (ATmega2560). -/
theorem C108_m2560 (r0 r : Regs) (ho : r0.clkOpen = false) (h : Since2560 r0 r) :
    ((r0.io .clkpr &&& 0x0f).toNat ≤ 8 → tickEvery M2560.F_CPU (2 ^ (r0.io .clkpr &&& 0x0f).toNat) r) ∧
    (8 < (r0.io .clkpr &&& 0x0f).toNat → tickTimer r = none) ∧
    (millisecondTick M2560.F_CPU r ↔ (r0.io .clkpr &&& 0x0f).toNat = 0) :=
  ⟨fun hp => (clock_2560 ho h).every hp (by decide),
    fun hp => by rw [(clock_2560 ho h).timer, if_neg (Nat.not_le.mpr hp)],
    (clock_2560 ho h).millisecond_iff (by decide)⟩

/-- The controller as it is delivered: a tick every 8 milliseconds. -/
example : dividedReset.clkOpen = false ∧ 2 ^ (dividedReset.io .clkpr &&& 0x0f).toNat = 8 ∧
    ∃ r, Since328 dividedReset r ∧ r.port .D = 0x41 :=
  ⟨rfl, by decide, _, .event (.read .init (fun _ => 1) 0 3 0) (.send 0x41), by decide +kernel⟩

end Asdf.Props
