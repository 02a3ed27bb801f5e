import Verif.Lemmas.Interrupts
import Verif.Props.Whole
import Verif.Props.Safety

/-! # Properties C74 and C75: the whole machine

C74: the program on its board, with the timer interrupt coming at any time.  C75: the
shipped firmware on its boards, with no other condition on the readings than the one of
C72. -/

namespace Asdf.Props

open Avr Spec

/-- The machine under an interleaving is the board after the passes made, if these do not
fail. -/
theorem machine_board {T : Whole.Target} {cfg : Config} {r0 : Regs}
    {P : List (Nat → Whole.Contacts) → Prop} (hP : ∀ a b, P (a ++ b) → P a) (h0 : P [])
    (hok : ∀ mxs, P mxs → ∃ w, Whole.life T cfg r0 mxs = .ok w) (flag : Bool)
    (l : List Machine.Step) (hp : P (seen T cfg r0 flag l)) :
    ∃ m, Machine.life T cfg r0 flag l = .ok m ∧
      Whole.life T cfg r0 (seen T cfg r0 flag l) = .ok m.board ∧
      (seen T cfg r0 flag l).length + (if m.pc = .body then 1 else 0) = m.hist.count .scan := by
  obtain ⟨w, hw⟩ := hok [] h0
  have hw' := hw
  rw [life_nil] at hw'
  have hs : seen T cfg r0 flag l =
      seenFrom T cfg ⟨flag, .poll, w, if flag then [.tick] else []⟩ l := by
    unfold seen; rw [hw']
  rw [hs] at hp ⊢
  obtain ⟨m, i1, i2, i3⟩ := machine_aux hP hok l ⟨flag, .poll, w, if flag then [.tick] else []⟩ []
    hw (by rw [List.nil_append]; exact hp)
  refine ⟨m, ?_, by simpa using i2, ?_⟩
  · unfold Machine.life; rw [hw', ok_bind]; exact i1
  · have : (if flag then [Obs.tick] else []).count Obs.scan = 0 := by cases flag <;> rfl
    simpa [this] using i3

/-! ## C74 -/

/-- **C74.** On both boards, from any register contents at power-up, for every behaviour
of the key contacts and under every interleaving of the timer interrupt with the main
loop, the machine does not fail; it has carried out exactly the actions of the abstract
keyboard that is given the keys closed at each row read, one reading of the matrix per
scan started; and a host that reads the data port at every rising edge of the strobe has
received exactly the codes sent, unless negative polarity was selected. -/
theorem C74_machine (B : Board) (T : Whole.Target) (hB : Built B T) (cfg : Config) (L : Layout)
    (hc : cfgOk cfg L = true) (r0 : Regs) (flag : Bool) (l : List Machine.Step)
    (hin : ∀ mx ∈ seen T cfg r0 flag l, Allowed L (contactsRead mx)) :
    ∃ m, Machine.life T cfg r0 flag l = .ok m ∧
      (seen T cfg r0 flag l).length + (if m.pc = .body then 1 else 0) = m.hist.count .scan ∧
      m.board.fw.dev.trace = (Kb.after cfg L ((seen T cfg r0 flag l).map contactsRead)).trace ∧
      keystrokes m.board.fw = (Kb.after cfg L ((seen T cfg r0 flag l).map contactsRead)).keys ∧
      messages m.board.fw = (Kb.after cfg L ((seen T cfg r0 flag l).map contactsRead)).msgs ∧
      (Event.negStrobe ∉ m.board.fw.dev.trace →
        latched B true r0 m.board.log = sends m.board.fw.dev.trace) := by
  obtain ⟨m, h1, h2, h3⟩ := machine_board (T := T) (cfg := cfg) (r0 := r0)
    (P := fun mxs => ∀ mx ∈ mxs, Allowed L (contactsRead mx))
    (fun a b h mx hm => h mx (List.mem_append_left _ hm)) (fun _ h => by cases h)
    (fun mxs h => by
      obtain ⟨w, e, _⟩ := C59_whole_board B T hB cfg L hc r0 mxs h
      exact ⟨w, e⟩) flag l hin
  obtain ⟨w, e1, e2, e3, e4⟩ := C59_whole_board B T hB cfg L hc r0 _ hin
  rw [h2] at e1
  have hs := Except.ok.inj e1
  subst hs
  exact ⟨m, h1, h3, e2, e3, e4, fun hn => C59_host B T hB cfg L hc r0 _ hin _ h2 hn⟩

/-- Non-vacuity: a tick, and a full round of the main loop, with the key A closed, ten
times over, then another with no key; eleven scans on either board, and A was received. -/
def machineRound (mx : Nat → Whole.Contacts) : List Machine.Step :=
  .isr :: List.replicate 5 (.main mx)

example : ∀ x ∈ [(m328, Whole.target328), (m2560, Whole.target2560 exampleColumns)],
    (match Machine.life x.2 shipped ⟨fun _ => 0xff, fun _ => 0xff, fun _ => 0xff, true, true⟩ false
      ((List.replicate 10 (machineRound contactsA)).flatten ++ machineRound contactsNone) with
    | .ok m => (latched x.1 true ⟨fun _ => 0xff, fun _ => 0xff, fun _ => 0xff, true, true⟩ m.board.log,
        m.hist.count .scan)
    | .error _ => ([], 0)) = ([0x61], 11) := by decide +kernel

/-! ## C75 -/

/-- **C75, safe use.** The shipped firmware on either board: as long as the closing of
DIP switch 2 is not accepted while switch 1 is open, it does not fail, is in exactly the
state of the repaired firmware down to every register, has carried out the actions of the
abstract keyboard, and the host has received exactly the codes sent, unless negative
polarity was selected. -/
theorem C75_board_safe (B : Board) (T : Whole.Target) (hB : Built B T) (r0 : Regs)
    (mxs : List (Nat → Whole.Contacts)) (h : NeverTrips (mxs.map contactsRead)) :
    ∃ w, Whole.life T shipped r0 mxs = .ok w ∧ Whole.life T fourMaps r0 mxs = .ok w ∧
      w.fw.dev.trace = (Kb.after fourMaps openLayout (mxs.map contactsRead)).trace ∧
      keystrokes w.fw = (Kb.after fourMaps openLayout (mxs.map contactsRead)).keys ∧
      messages w.fw = (Kb.after fourMaps openLayout (mxs.map contactsRead)).msgs ∧
      (Event.negStrobe ∉ w.fw.dev.trace → latched B true r0 w.log = sends w.fw.dev.trace) := by
  obtain ⟨ready, hf⟩ := hB.onBoard
  obtain ⟨w, e1, e2, e3, e4⟩ := C59_whole_board B T hB fourMaps openLayout fourMaps_ok r0 mxs
    (fun mx _ => openLayout_allowed _)
  exact ⟨w, (life_same hf r0 mxs h).trans e1, e1, e2, e3, e4, fun hn =>
    C59_host B T hB fourMaps openLayout fourMaps_ok r0 mxs (fun mx _ => openLayout_allowed _) w e1 hn⟩

/-- **C75, unsafe use.** Once the closing of DIP switch 2 is accepted while switch 1 is
open, the firmware on either board reads outside of a table within ten more scans. -/
theorem C75_board_unsafe (B : Board) (T : Whole.Target) (hB : Built B T) (r0 : Regs)
    (pre : List (Nat → Whole.Contacts)) (mx : Nat → Whole.Contacts)
    (post : List (Nat → Whole.Contacts)) (h : Trips (pre.map contactsRead) (contactsRead mx))
    (hp : 10 ≤ post.length) : Whole.life T shipped r0 (pre ++ mx :: post) = .error .oob := by
  obtain ⟨ready, hf⟩ := hB.onBoard
  rcases first_trip ((pre ++ mx :: post).map contactsRead) with hn | ⟨pre', inp', post', e, h1, h2⟩
  · refine absurd h (hn _ _ (post.map contactsRead) ?_)
    simp
  · obtain ⟨qre, rest, e1, e2, e3⟩ := List.map_eq_append_iff.mp e
    obtain ⟨qx, qost, e4, e5, e6⟩ := List.map_eq_cons_iff.mp e3
    subst e2 e4 e5 e6
    rw [e1]
    apply life_trips hf r0 qre qx qost h1 h2
    by_cases hlt : qre.length ≤ pre.length
    · have := congrArg List.length e1
      simp at this
      omega
    · exfalso
      have hp' : pre ++ [mx] <+: qre := by
        have a1 : pre ++ [mx] <+: qre ++ qx :: qost := ⟨post, by rw [← e1]; simp⟩
        exact List.prefix_of_prefix_length_le a1 (List.prefix_append _ _) (by simp; omega)
      obtain ⟨t, rfl⟩ := hp'
      exact h2 (pre.map contactsRead) (contactsRead mx) (t.map contactsRead) (by simp) h

/-- **C75, with interrupts.** The shipped firmware on either board under every
interleaving of the timer interrupt: as long as the readings taken do not meet the
condition of C72, the machine does not fail and does what the abstract keyboard
prescribes. -/
theorem C75_machine (B : Board) (T : Whole.Target) (hB : Built B T) (r0 : Regs) (flag : Bool)
    (l : List Machine.Step) (h : NeverTrips ((seen T shipped r0 flag l).map contactsRead)) :
    ∃ m, Machine.life T shipped r0 flag l = .ok m ∧
      (seen T shipped r0 flag l).length + (if m.pc = .body then 1 else 0) = m.hist.count .scan ∧
      m.board.fw.dev.trace =
        (Kb.after fourMaps openLayout ((seen T shipped r0 flag l).map contactsRead)).trace ∧
      (Event.negStrobe ∉ m.board.fw.dev.trace →
        latched B true r0 m.board.log = sends m.board.fw.dev.trace) := by
  obtain ⟨m, h1, h2, h3⟩ := machine_board (T := T) (cfg := shipped) (r0 := r0)
    (P := fun mxs => NeverTrips (mxs.map contactsRead))
    (fun a b hh pre inp post e => hh pre inp (post ++ b.map contactsRead) (by
      rw [List.map_append, e]; simp)) .nil
    (fun mxs h => by
      obtain ⟨w, e, _⟩ := C75_board_safe B T hB r0 mxs h
      exact ⟨w, e⟩) flag l h
  obtain ⟨w, e1, _, e2, _, _, e5⟩ := C75_board_safe B T hB r0 _ h
  rw [h2] at e1
  have hs := Except.ok.inj e1
  subst hs
  exact ⟨m, h1, h3, e2, e5⟩

/-- Non-vacuity: contacts with DIP switches 1 and 2 closed, and with switch 2 alone. -/
example : NeverTrips ((List.replicate 12 (fun _ => (⟨closing 8 1, 0, 0⟩ : Whole.Contacts)) ++
      List.replicate 20 (fun _ => (⟨fun r => if r = 8 then 6 else 0, 0, 0⟩ : Whole.Contacts))).map contactsRead) ∧
    Trips ((List.replicate 9 (fun _ => (⟨closing 8 2, 0, 0⟩ : Whole.Contacts))).map contactsRead)
      (contactsRead fun _ => ⟨closing 8 2, 0, 0⟩) :=
  ⟨neverTrips_of (by decide +kernel), by decide +kernel⟩

end Asdf.Props
