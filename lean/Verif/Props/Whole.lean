import Verif.Lemmas.Whole
import Verif.Lemmas.Kb
import Verif.Props.Rows
import Verif.Props.Typed
import Verif.Props.Switches

/-! # Properties C59 and C61: from the key contacts to the wires -/

namespace Asdf.Props

open Avr Spec

/-- **C59, the board and the abstract keyboard.**  On both boards, from any register
contents at power-up and for every behaviour of the key contacts (which may change at
every row read), the firmware running on the board's own row reader does not fail, and
does to the hardware exactly what the abstract keyboard does that is given the keys
closed at each row read. -/
theorem C59_whole_board (B : Board) (T : Whole.Target) (hB : Built B T) (cfg : Config) (L : Layout)
    (hc : cfgOk cfg L = true) (r0 : Regs) (mxs : List (Nat → Whole.Contacts))
    (hin : ∀ mx ∈ mxs, Allowed L (contactsRead mx)) :
    ∃ w, Whole.life T cfg r0 mxs = .ok w ∧
      w.fw.dev.trace = (Kb.after cfg L (mxs.map contactsRead)).trace ∧
      keystrokes w.fw = (Kb.after cfg L (mxs.map contactsRead)).keys ∧
      messages w.fw = (Kb.after cfg L (mxs.map contactsRead)).msgs := by
  obtain ⟨ready, hf⟩ := hB.onBoard
  obtain ⟨w, e1, e2, _, _⟩ := whole_life hf (cfgFacts hc) r0 mxs hin
  obtain ⟨s, g1, g2, g3, g4, _⟩ := C55_whole_keyboard cfg L hc (mxs.map contactsRead) (by
    intro inp hi
    obtain ⟨mx, h1, rfl⟩ := List.mem_map.mp hi
    exact hin mx h1)
  rw [e2] at g1
  have hs := Except.ok.inj g1
  subst hs
  exact ⟨w, e1, g2, g3, g4⟩

/-- **C59, the pins.**  Reading rows disturbs nothing else: every pin that is not used
for reading rows is at every pass as if only the actions in the trace had been carried
out. -/
theorem C59_pins (B : Board) (T : Whole.Target) (hB : Built B T) (cfg : Config) (L : Layout)
    (hc : cfgOk cfg L = true) (r0 : Regs) (mxs : List (Nat → Whole.Contacts))
    (hin : ∀ mx ∈ mxs, Allowed L (contactsRead mx)) (w : Whole.Whole)
    (hw : Whole.life T cfg r0 mxs = .ok w) (x : Pin) (hx : x.bit < 8) (hr : x ∉ rowPins B) :
    level w.regs x = level (boardAfter B r0 w.fw.dev.trace) x ∧
      isOutput w.regs x = isOutput (boardAfter B r0 w.fw.dev.trace) x := by
  obtain ⟨ready, hf⟩ := hB.onBoard
  obtain ⟨w', e1, _, _, hg⟩ := whole_life hf (cfgFacts hc) r0 mxs hin
  rw [e1] at hw
  have hs := Except.ok.inj hw
  subst hs
  have := hg.path.pins (evs := w'.fw.dev.trace) rfl hx hr
  exact ⟨congrArg Prod.fst this, congrArg Prod.snd this⟩

/-- **C59, the host.**  A host that reads the data port at every rising edge of the
strobe receives from power-up exactly the codes the keyboard sent, in order, unless
negative polarity is selected: row reading, lamps, outputs and keymap switches give no
additional edge, and power-up itself none, from any register contents. -/
theorem C59_host (B : Board) (T : Whole.Target) (hB : Built B T) (cfg : Config) (L : Layout)
    (hc : cfgOk cfg L = true) (r0 : Regs) (mxs : List (Nat → Whole.Contacts))
    (hin : ∀ mx ∈ mxs, Allowed L (contactsRead mx)) (w : Whole.Whole)
    (hw : Whole.life T cfg r0 mxs = .ok w) (hneg : Event.negStrobe ∉ w.fw.dev.trace) :
    latched B true r0 w.log = sends w.fw.dev.trace := by
  obtain ⟨ready, hf⟩ := hB.onBoard
  have hcf := cfgFacts hc
  obtain ⟨w0, a1, a2, a3, a4⟩ := whole_powerUp hf hcf r0
  have hg0 : Good B ready (physOf w0) w0 := ⟨a4.ready, .refl _⟩
  obtain ⟨w', b1, _, _, b4⟩ := whole_run hf hcf mxs hin a3 hg0
  have e1 : Whole.life T cfg r0 mxs = .ok w' := by
    unfold Whole.life
    rw [a1, ok_bind, b1]
  rw [e1] at hw
  have hs := Except.ok.inj hw
  subst hs
  -- what power-up did
  have hp0 : w0 = ⟨w0.fw, boardAfter B r0 w0.fw.dev.trace, boardStates B r0 w0.fw.dev.trace⟩ := by
    have h := goOn_eq hf ⟨State.zero, r0, []⟩ (s := w0.fw) (evs := w0.fw.dev.trace) rfl
    have h2 : Whole.powerUp T cfg r0 = .ok (Whole.Whole.goOn T ⟨State.zero, r0, []⟩ w0.fw) := by
      unfold Whole.powerUp
      rw [a2, ok_bind]
    rw [a1] at h2
    exact (Except.ok.inj h2).trans h
  have hlog0 : w0.log = boardStates B r0 w0.fw.dev.trace := congrArg Whole.Whole.log hp0
  have hreg0 : w0.regs = boardAfter B r0 w0.fw.dev.trace := congrArg Whole.Whole.regs hp0
  obtain ⟨evs0, t0, ns0⟩ := boot_trace (hcf.parts hcf.zero).2.1 a2
  have hs0 : sends w0.fw.dev.trace = [] := by rw [t0]; exact ns0
  -- what follows
  obtain ⟨evs, l, h1, h2⟩ := b4.path.trace
  have h1 : w'.fw.dev.trace = w0.fw.dev.trace ++ evs := h1
  have h2 : w'.log = w0.log ++ l := h2
  have hn0 : Event.negStrobe ∉ w0.fw.dev.trace := fun h => hneg (h1 ▸ List.mem_append_left _ h)
  have hn1 : ∀ e ∈ evs, idleStep (some false) e = some false := by
    intro e he
    cases e with
    | negStrobe => exact absurd (h1 ▸ List.mem_append_right _ he) hneg
    | _ => rfl
  have hidle : idleLevel w0.fw.dev.trace = some false := by
    have : ∀ t : List Event, Event.negStrobe ∉ t → t.foldl idleStep (some false) = some false := by
      intro t
      induction t with
      | nil => intro _; rfl
      | cons e t ih =>
        intro hn
        rw [List.foldl_cons]
        have : idleStep (some false) e = some false := by
          cases e with
          | negStrobe => exact absurd List.mem_cons_self hn
          | _ => rfl
        rw [this]
        exact ih fun h => hn (List.mem_cons_of_mem _ h)
    rw [t0]
    rw [t0] at hn0
    exact this evs0 fun h => hn0 (List.mem_cons_of_mem _ h)
  have hpin : pinSt (physOf w0).regs B.strobe = (false, true) := by
    show pinSt w0.regs B.strobe = _
    rw [hreg0]
    exact strobe_after hf.mem _ r0 none (fun _ h => by cases h) false hidle
  obtain ⟨h3, _⟩ := b4.path.host hf.mem hpin h1 h2 hn1
  have hlast : (boardStates B r0 w0.fw.dev.trace).getLast?.getD r0 = w0.regs := by
    rw [hreg0]
    exact states_getLast _ _ _
  rw [h2, hlog0, latched_app, latched_start hf.mem _ _ hs0 hn0, hlast, List.nil_append, h1]
  have : sends (w0.fw.dev.trace ++ evs) = sends w0.fw.dev.trace ++ sends evs := by
    unfold sends
    rw [List.filterMap_append]
  rw [this, hs0, List.nil_append]
  exact h3

/-- **C59, the host, from any moment and in both polarities.**  From any pass on, while
the polarity selected then stays selected, a host that reads the data port at the
leading edges of that polarity receives exactly the codes sent. -/
theorem C59_host_since (B : Board) (T : Whole.Target) (hB : Built B T) (cfg : Config) (L : Layout)
    (hc : cfgOk cfg L = true) (r0 : Regs) (mxs mxs' : List (Nat → Whole.Contacts))
    (hin : ∀ mx ∈ mxs, Allowed L (contactsRead mx)) (hin' : ∀ mx ∈ mxs', Allowed L (contactsRead mx))
    (w w' : Whole.Whole) (hw : Whole.life T cfg r0 mxs = .ok w)
    (hw' : Whole.life T cfg r0 (mxs ++ mxs') = .ok w') (v : Bool)
    (hv : idleLevel w.fw.dev.trace = some v)
    (hkeep : ∀ e ∈ w'.fw.dev.trace.drop w.fw.dev.trace.length, idleStep (some v) e = some v) :
    latched B (!v) w.regs (w'.log.drop w.log.length) =
      sends (w'.fw.dev.trace.drop w.fw.dev.trace.length) := by
  obtain ⟨ready, hf⟩ := hB.onBoard
  have hcf := cfgFacts hc
  obtain ⟨x, e1, _, e3, hg⟩ := whole_life hf hcf r0 mxs hin
  rw [e1] at hw
  have hs := Except.ok.inj hw
  subst hs
  obtain ⟨x', b1, _, _, b4⟩ := whole_run hf hcf mxs' hin' e3 (p := physOf x) ⟨hg.ready, .refl _⟩
  have e2 : Whole.life T cfg r0 (mxs ++ mxs') = .ok x' := by
    unfold Whole.life at e1 ⊢
    obtain ⟨w0, a1, a2⟩ := bind_eq_ok.mp e1
    rw [a1, ok_bind, List.foldlM_append, a2, ok_bind, b1]
  rw [e2] at hw'
  have hs := Except.ok.inj hw'
  subst hs
  obtain ⟨evs, l, h1, h2⟩ := b4.path.trace
  have h1 : x'.fw.dev.trace = x.fw.dev.trace ++ evs := h1
  have h2 : x'.log = x.log ++ l := h2
  rw [h1, List.drop_left] at hkeep
  have hpin : pinSt (physOf x).regs B.strobe = (v, true) := by
    have := hg.path.pins (evs := x.fw.dev.trace) rfl (strobe_bit hf.mem) (strobe_not_row hf.mem)
    show pinSt x.regs B.strobe = _
    have h : pinSt x.regs B.strobe = pinSt (boardAfter B r0 x.fw.dev.trace) B.strobe := this
    rw [h]
    exact strobe_after hf.mem _ r0 none (fun _ h => by cases h) v hv
  rw [h1, h2, List.drop_left, List.drop_left]
  exact (b4.path.host hf.mem hpin h1 h2 hkeep).1

theorem sends_keys : ∀ t : List Event, msgSends t = [] → sends t = keySends t
  | [], _ => rfl
  | .delayMs _ :: .send _ :: _, h => by cases h
  | .send c :: t, h => by
    have h : msgSends t = [] := h
    show c :: sends t = c :: keySends t
    rw [sends_keys t h]
  | .out _ _ :: t, h => sends_keys t h
  | .delayShort :: t, h => sends_keys t h
  | .delayLong :: t, h => sends_keys t h
  | .posStrobe :: t, h => sends_keys t h
  | .negStrobe :: t, h => sends_keys t h
  | .archInit :: t, h => sends_keys t h
  | .delayMs _ :: [], _ => rfl
  | .delayMs _ :: .out a b :: t, h => sends_keys (.out a b :: t) h
  | .delayMs _ :: .delayShort :: t, h => sends_keys (.delayShort :: t) h
  | .delayMs _ :: .delayLong :: t, h => sends_keys (.delayLong :: t) h
  | .delayMs _ :: .posStrobe :: t, h => sends_keys (.posStrobe :: t) h
  | .delayMs _ :: .negStrobe :: t, h => sends_keys (.negStrobe :: t) h
  | .delayMs _ :: .archInit :: t, h => sends_keys (.archInit :: t) h
  | .delayMs _ :: .delayMs m :: t, h => sends_keys (.delayMs m :: t) h

/-- **C61** (partial).  The shipped firmware on either board, the strobe switch not
moved, no function key used and no two codes typed in the same millisecond: the host
receives from power-up exactly what was typed, except for at most one code that is
about to be sent.  What is missing: two codes in the same millisecond (then up to 16
wait, and more are lost, `C58_false`), messages, and negative polarity. -/
theorem C61_typed_partial (B : Board) (T : Whole.Target) (hB : Built B T) (r0 : Regs)
    (mxs : List (Nat → Whole.Contacts)) (hin : ∀ mx ∈ mxs, Allowed shippedLayout (contactsRead mx))
    (sw : Bool) (hsw : ∀ mx ∈ mxs, sample (contactsRead mx) 8 6 = sw)
    (h1 : ∀ t ∈ typed shipped shippedLayout (mxs.map contactsRead), t.length ≤ 1)
    (h2 : ∀ m ∈ said shipped shippedLayout (mxs.map contactsRead), m = []) :
    ∃ w, Whole.life T shipped r0 mxs = .ok w ∧
      latched B true r0 w.log ++ sendable (keystrokes w.fw) =
        sendable (typed shipped shippedLayout (mxs.map contactsRead)).flatten ∧
      (keystrokes w.fw).length ≤ 1 := by
  have hall : ∀ inp ∈ mxs.map contactsRead, Allowed shippedLayout inp := by
    intro inp hi
    obtain ⟨mx, h1, rfl⟩ := List.mem_map.mp hi
    exact hin mx h1
  obtain ⟨w, e1, e2, e3, _⟩ := C59_whole_board B T hB shipped shippedLayout shipped_ok r0 mxs hin
  obtain ⟨s, g1, g2, g3⟩ := C58_one_at_a_time_partial shipped shippedLayout shipped_ok _ hall h1 h2
  obtain ⟨s', f1, _, f3⟩ := C58_subsequence shipped shippedLayout shipped_ok _ hall
  obtain ⟨s'', c1, c2, c3, _⟩ := C55_whole_keyboard shipped shippedLayout shipped_ok _ hall
  rw [g1] at f1 c1
  have hs := Except.ok.inj f1
  subst hs
  have hs := Except.ok.inj c1
  subst hs
  have hn := after_positive (cfgFacts shipped_ok) shipped_strobe.1 shipped_strobe.2 _ hall (b := sw) (by
    intro inp hi
    obtain ⟨mx, hm, rfl⟩ := List.mem_map.mp hi
    exact hsw mx hm)
  have hh := C59_host B T hB shipped shippedLayout shipped_ok r0 mxs hin w e1 (by rw [e2]; exact hn)
  have hm : msgSends s.dev.trace = [] := by
    have hf : (said shipped shippedLayout (mxs.map contactsRead)).flatten = [] := by
      rw [List.flatten_eq_nil_iff]
      exact h2
    rw [hf] at f3
    exact (List.append_eq_nil_iff.mp (List.eq_nil_of_sublist_nil f3)).1
  refine ⟨w, e1, ?_, ?_⟩
  · rw [hh, e2, e3, ← c2, ← c3, sends_keys _ hm]
    exact g2
  · rw [e3, ← c3]
    exact g3

/-- Contacts for the examples: the key at row 1, column 6 (A in the first keymap) is
closed, the other inputs and the shift register hold arbitrary values. -/
def contactsA : Nat → Whole.Contacts := fun r => ⟨closing 1 6, UInt8.ofNat (3 * r), UInt8.ofNat (7 * r)⟩

/-- The same with no key closed. -/
def contactsNone : Nat → Whole.Contacts := fun _ => ⟨noKeys, 0, 0⟩

/-- Non-vacuity: A is typed on both boards; the hypotheses hold and the host receives
the code of A. -/
example : Built m328 Whole.target328 ∧ Built m2560 (Whole.target2560 exampleColumns) ∧
    (∀ mx ∈ List.replicate 10 contactsA ++ [contactsNone], Allowed shippedLayout (contactsRead mx)) ∧
    (∀ mx ∈ List.replicate 10 contactsA ++ [contactsNone], sample (contactsRead mx) 8 6 = false) ∧
    (typed shipped shippedLayout ((List.replicate 10 contactsA ++ [contactsNone]).map contactsRead)).flatten
      = [0x61] := by
  refine ⟨.inl ⟨rfl, rfl⟩, .inr ⟨rfl, _, C42_matrix_exists, rfl⟩, ?_, ?_, by decide +kernel⟩
  · intro mx hm
    rcases List.mem_append.mp hm with hm | hm
    · rw [(List.mem_replicate.mp hm).2]; exact allowed_of_row8 rfl
    · rw [List.mem_singleton.mp hm]; exact allowed_of_row8 rfl
  · decide +kernel

/-- The host's side of the same run, from registers full of ones. -/
example : ∀ x ∈ [(m328, Whole.target328), (m2560, Whole.target2560 exampleColumns)],
    (match Whole.life x.2 shipped ⟨fun _ => 0xff, fun _ => 0xff, fun _ => 0xff, true, true⟩
      (List.replicate 10 contactsA ++ [contactsNone]) with
    | .ok w => latched x.1 true ⟨fun _ => 0xff, fun _ => 0xff, fun _ => 0xff, true, true⟩ w.log
    | .error _ => []) = [0x61] := by decide +kernel

/-- The claim of C61: with the shipped firmware on either board and the strobe switch
not moved, the codes the host has received followed by the codes waiting are the codes
typed. -/
def C61Statement : Prop :=
  ∀ B T, Built B T → ∀ (r0 : Regs) (mxs : List (Nat → Whole.Contacts)),
    (∀ mx ∈ mxs, Allowed shippedLayout (contactsRead mx)) →
    (∀ mx ∈ mxs, sample (contactsRead mx) 8 6 = false) →
    (∀ m ∈ said shipped shippedLayout (mxs.map contactsRead), m = []) →
    ∀ w, Whole.life T shipped r0 mxs = .ok w →
      latched B true r0 w.log ++ sendable (keystrokes w.fw) =
        sendable (typed shipped shippedLayout (mxs.map contactsRead)).flatten

/-- Seventeen keys are closed. -/
def contacts17 : Nat → Whole.Contacts := fun _ => ⟨seventeenKeys, 0, 0⟩

/-- **C61 is false**: of seventeen codes typed in the same millisecond the host never
receives the last. -/
theorem C61_false : ¬ C61Statement := by
  intro h
  have ha : ∀ mx ∈ List.replicate 10 contacts17, Allowed shippedLayout (contactsRead mx) := by
    intro mx hm
    rw [(List.mem_replicate.mp hm).2]
    exact allowed_of_row8 rfl
  obtain ⟨w, e1, _, e3, _⟩ := C59_whole_board m328 Whole.target328 (.inl ⟨rfl, rfl⟩) shipped
    shippedLayout shipped_ok allZero _ ha
  have h1 := h m328 Whole.target328 (.inl ⟨rfl, rfl⟩) allZero _ ha (by decide +kernel)
    (by decide +kernel) w e1
  have hl : (latched m328 true allZero w.log).length = 0 := by
    have : (match Whole.life Whole.target328 shipped allZero (List.replicate 10 contacts17) with
      | .ok w => (latched m328 true allZero w.log).length
      | .error _ => 1) = 0 := by decide +kernel
    rw [e1] at this
    exact this
  have hk : (keystrokes w.fw).length = 16 := by
    rw [e3]
    decide +kernel
  have h2 := congrArg List.length h1
  rw [List.length_append, hl, Nat.zero_add] at h2
  have h3 : (sendable (typed shipped shippedLayout
      ((List.replicate 10 contacts17).map contactsRead)).flatten).length = 17 := by decide +kernel
  rw [h3] at h2
  have h4 : (sendable (keystrokes w.fw)).length ≤ (keystrokes w.fw).length :=
    List.length_filter_le _ _
  omega

end Asdf.Props
