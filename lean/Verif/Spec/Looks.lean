import Verif.Spec.CBoard

/-! # Looking at the timer flag

The main loop looks at the flag that the timer interrupt sets, again and again.  `textRun` gives
the hardware at each look (`tick` is the flag, `found` says how often it was found set, `ints` counts the interrupts, `log`
has the register states). -/

namespace Asdf.Spec

/-- The timer interrupt is asked for at this time. -/
def asked (W : C.Outside) (t : Nat) : Nat := if W.fires t then 1 else 0

/-- From one look to the next, `h` and `h'` being the hardware at the two looks.

* If the flag is set, there is one scan; if not, nothing happens but interrupts.
* The flag is set at the next look exactly if an interrupt came after it was cleared.  An interrupt
  between looking and clearing is lost.  (Unless the hardware was initialised in between, with
  interrupts disabled.) -/
structure NextLook (W : C.Outside) (h h' : C.Hw) : Prop where
  found : h'.found = h.found + if h.tick = 0 then 0 else 1
  time : h.time + 2 ≤ h'.time
  idle : h.tick = 0 → h'.log = h.log ∧
    h'.time = h.time + 2 + asked W (h.time + 1) + asked W (h.time + 2 + asked W (h.time + 1)) ∧
    h'.ints = h.ints + asked W (h.time + 1) + asked W (h.time + 2 + asked W (h.time + 1)) ∧
    (h'.tick ≠ 0 ↔ W.fires (h.time + 2 + asked W (h.time + 1)) = true)
  scan : ∃ new, h'.log = h.log ++ new ∧ ((∀ x ∈ new, x.1.irq = true) →
    (h'.tick ≠ 0 ↔ h.ints + asked W (h.time + 1) < h'.ints))

/-- The timer does not stop: again and again it asks for an interrupt, and goes on asking for three
accesses to registers if it is not heard. -/
def Ticking (fires : Nat → Bool) : Prop :=
  ∀ t, ∃ u, t ≤ u ∧ fires u = true ∧ fires (u + 1) = true ∧ fires (u + 2) = true

/-- At the look `p` the hardware is `h`, whatever the bounds on the run are if they are large
enough. -/
def AtLook (X : C.Board) (W : C.Outside) (r0 : Avr.Regs) (sr : UInt8) (p : Nat) (h : C.Hw) : Prop :=
  ∀ w n, 65536 ≤ w → p < w → 23 ≤ n → textRun X W w n r0 sr p = some h

end Asdf.Spec
