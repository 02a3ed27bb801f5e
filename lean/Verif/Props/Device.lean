import Verif.Lemmas.Device

/-! # Properties C28-C31: outputs

The specification is `Verif/Spec/Device.lean`. -/

namespace Asdf.Props

open Spec

/-- Refinement behind C28-C31: every history of output calls with arbitrary
arguments runs without undefined behaviour and produces exactly the hardware
effects of the specification, in which every virtual output owns a list. -/
theorem C30_history_refines_spec (d0 : Dev) (ops : List DevOp) :
    ∃ d, runDev d0 ops = .ok d ∧ d.trace = d0.trace ++ (Outputs.initial.run ops).2 ∧
      ∀ v, v < 12 → outputsOf d v = some ((Outputs.initial.run ops).1.lists v) := by
  obtain ⟨d, f, h1, h2, h3⟩ := foldDev_refines ops (DevRel.init d0)
  exact ⟨d, h1, h2, fun v hv => h3.outputsOf hv⟩

/-- **C28.** After every history of assignments (arbitrary numbers, interleaved
with any output activity): the walk along the outputs of each virtual output
ends, yields each physical output at most once and only outputs 1..12; no
physical output belongs to two virtual outputs; and an output that belongs to
none can still be assigned to any virtual output, in front of its list. -/
theorem C28_outputs_partitioned (d0 : Dev) (ops : List DevOp) :
    ∃ d, runDev d0 ops = .ok d ∧ ∃ L : Nat → List Nat,
      (∀ v, v < 12 → outputsOf d v = some (L v)) ∧
      (∀ v, v < 12 → (L v).Nodup) ∧
      (∀ v, v < 12 → ∀ p ∈ L v, 1 ≤ p ∧ p ≤ 12) ∧
      (∀ v w p, v < 12 → w < 12 → p ∈ L v → p ∈ L w → v = w) ∧
      (∀ p, 1 ≤ p → p ≤ 12 → (∀ v, v < 12 → p ∉ L v) → ∀ v fn i, 1 ≤ v → v ≤ 11 →
        ∃ d', virtAssign d v p fn i = .ok d' ∧ outputsOf d' v = some (p :: L v) ∧
          ∀ w, w < 12 → w ≠ v → outputsOf d' w = some (L w)) := by
  obtain ⟨d, f, h1, _, h⟩ := foldDev_refines ops (DevRel.init d0)
  refine ⟨d, h1, _, fun v hv => h.outputsOf hv, fun v _ => h.nodup v, ?_,
    fun v w p _ _ hp hp' => h.disjoint v w p hp hp', ?_⟩
  · intro v _ p hp
    have := h.range v p hp
    simp only [NUM_PHYS] at this
    omega
  · intro p hp1 hp2 hu v fn i hv1 hv2
    have hun : (Outputs.initial.run ops).1.Unused p := by
      intro w hw
      have hwr := h.vrange w (by intro hc; rw [hc] at hw; simp at hw)
      exact hu w hwr.2 hw
    obtain ⟨d', h2, _, h3⟩ := h.assign (fn := fn) (i := i) ⟨⟨hv1, hv2⟩, ⟨hp1, hp2⟩, hun⟩
    refine ⟨d', h2, ?_, ?_⟩
    · rw [h3.outputsOf (by simp only [NUM_VIRT]; omega)]
      simp [Outputs.assign]
    · intro w hw hwv
      rw [h3.outputsOf hw]
      simp [Outputs.assign, hwv]

/-- Non-vacuity of C28: LIFO order, an invalid request, a double request. -/
example : ∃ d, runDev Dev.zero [.assign ⟨3, 1, .toggle, 1⟩, .assign ⟨3, 11, .toggle, 0⟩,
      .assign ⟨4, 11, .toggle, 0⟩, .assign ⟨77, 5, .nofunc, 0⟩, .activate 3] = .ok d ∧
    outputsOf d 3 = some [11, 1] ∧ outputsOf d 4 = some [] ∧
    d.trace = [.out 11 1, .out 1 0] := ⟨_, rfl, by decide, by decide, by decide⟩

/-- **C29.** After every history, a request with an invalid virtual output, an
invalid physical output, or a physical output in use leaves the device tables
(and the hardware) exactly as they were. -/
theorem C29_impossible_assignment_is_noop (d0 : Dev) (ops : List DevOp) (v p : Nat) (fn : VFun)
    (i : UInt8) :
    ∃ d, runDev d0 ops = .ok d ∧
      ((v = 0 ∨ 12 ≤ v ∨ p = 0 ∨ 13 ≤ p ∨
        (∃ w l, w < 12 ∧ outputsOf d w = some l ∧ p ∈ l)) → virtAssign d v p fn i = .ok d) := by
  obtain ⟨d, f, h1, _, h⟩ := foldDev_refines ops (DevRel.init d0)
  refine ⟨d, h1, ?_⟩
  intro hc
  apply h.assign_no
  intro hca
  obtain ⟨⟨hv1, hv2⟩, ⟨hp1, hp2⟩, hu⟩ := hca
  rcases hc with hc | hc | hc | hc | ⟨w, l, hw, hl, hp⟩
  · omega
  · omega
  · omega
  · omega
  · rw [h.outputsOf hw] at hl
    cases hl
    exact hu w hp

/-- Non-vacuity of C29: output 11 is in use. -/
example : ∃ d, runDev Dev.zero [.assign ⟨3, 11, .toggle, 0⟩] = .ok d ∧
    outputsOf d 3 = some [11] ∧ virtAssign d 4 11 .setHi 0 = .ok d := ⟨_, rfl, by decide, rfl⟩

/-- The level stored for physical output `p` (last driven or initial value). -/
def levelOf (d : Dev) (p : Nat) : UInt8 := (d.phys[p]?.map PhysEntry.shadow).getD 0

/-- The logic level (0 or 1) of a value. -/
def logic (x : UInt8) : UInt8 := if x = 0 then 0 else 1

private theorem level_eq {d a free} (h : DevRel d a free) {v p : Nat} (hp : p ∈ a.lists v) :
    a.level p = levelOf d p := by
  have hr := h.range v p hp
  have hl := h.physLen
  have he : d.phys[p]? = some d.phys[p] := List.getElem?_eq_getElem (by omega)
  rw [← h.level p _ he]
  simp [levelOf, he]

private theorem map_level {d a free} (h : DevRel d a free) (v : Nat) (g : UInt8 → UInt8) :
    ((a.lists v).map fun p => Event.out p (g (a.level p))) =
      (a.lists v).map fun p => Event.out p (g (levelOf d p)) := by
  apply List.map_congr_left
  intro p hp
  rw [level_eq h hp]

/-- **C30.** After every history, applying a function to a virtual output drives
exactly the physical outputs assigned to it, most recently assigned first, each
with the value the function requires, and nothing else. -/
theorem C30_action_drives_exactly_own_outputs (d0 : Dev) (ops : List DevOp) (v : Nat)
    (hv : v < 12) :
    ∃ d L, runDev d0 ops = .ok d ∧ outputsOf d v = some L ∧
      (∃ d', virtAction d v .setHi = .ok d' ∧ d'.trace = d.trace ++ L.map (Event.out · 1)) ∧
      (∃ d', virtAction d v .setLo = .ok d' ∧ d'.trace = d.trace ++ L.map (Event.out · 0)) ∧
      (∃ d', virtAction d v .toggle = .ok d' ∧
        d'.trace = d.trace ++ L.map (fun p => Event.out p (inv (levelOf d p)))) ∧
      virtAction d v .nofunc = .ok d := by
  obtain ⟨d, f, h1, _, h⟩ := foldDev_refines ops (DevRel.init d0)
  refine ⟨d, _, h1, h.outputsOf hv, ?_, ?_, ?_, ?_⟩
  · obtain ⟨d', h2, h3, _⟩ := h.act hv .setHi
    exact ⟨d', h2, h3⟩
  · obtain ⟨d', h2, h3, _⟩ := h.act hv .setLo
    exact ⟨d', h2, h3⟩
  · obtain ⟨d', h2, h3, _⟩ := h.act hv .toggle
    refine ⟨d', h2, ?_⟩
    rw [h3]
    simp only [Outputs.act, Outputs.drive]
    rw [map_level h]
  · have hl := h.virtLen
    unfold virtAction
    rw [rd_ok (by rw [hl]; exact hv)]
    rfl

/-- **C30.** The levels recorded afterwards: outputs of `v` have the value they
were driven with, all other outputs keep theirs. -/
theorem C30_action_changes_no_other_level (d0 : Dev) (ops : List DevOp) (v : Nat) (hv : v < 12)
    (fn : VFun) :
    ∃ d L d', runDev d0 ops = .ok d ∧ outputsOf d v = some L ∧ virtAction d v fn = .ok d' ∧
      ∀ p, p < 13 → levelOf d' p =
        if p ∈ L then (match fn with
          | .setHi => 1 | .setLo => 0 | .toggle => inv (levelOf d p)
          | .pulseShort | .pulseLong => logic (levelOf d p) | .nofunc => levelOf d p)
        else levelOf d p := by
  obtain ⟨d, f, h1, _, h⟩ := foldDev_refines ops (DevRel.init d0)
  obtain ⟨d', h2, _, h3⟩ := h.act hv fn
  refine ⟨d, _, d', h1, h.outputsOf hv, h2, ?_⟩
  intro p hp
  have e1 := List.getElem?_eq_getElem (l := d.phys) (i := p) (by rw [h.physLen]; exact hp)
  have e2 := List.getElem?_eq_getElem (l := d'.phys) (i := p) (by rw [h3.physLen]; exact hp)
  have l1 := h.level p _ e1
  have l2 := h3.level p _ e2
  have m1 : levelOf d p = (Outputs.initial.run ops).1.level p := by simp [levelOf, e1, l1]
  have m2 : levelOf d' p = ((Outputs.initial.run ops).1.act v fn).1.level p := by
    simp [levelOf, e2, l2]
  rw [m2, m1]
  cases fn <;> simp only [Outputs.act, Outputs.drive, Outputs.pulse]
  all_goals split <;> simp_all [inv, logic]
  all_goals split <;> simp_all

/-- **C30.** Activating a virtual output applies the function given in the most
recent successful assignment to it. -/
theorem C30_activate_applies_configured_function (d0 : Dev) (ops : List DevOp) (v p : Nat)
    (fn : VFun) (i : UInt8) :
    ∃ d, runDev d0 ops = .ok d ∧ ∀ d', virtAssign d v p fn i = .ok d' → d' ≠ d →
      virtActivate d' v = virtAction d' v fn := by
  obtain ⟨d, f, h1, _, h⟩ := foldDev_refines ops (DevRel.init d0)
  refine ⟨d, h1, ?_⟩
  intro d' hd' hne
  by_cases hc : (Outputs.initial.run ops).1.CanAssign v p
  · obtain ⟨d'', h2, _, h3⟩ := h.assign (fn := fn) (i := i) hc
    rw [h2] at hd'
    cases hd'
    have hvl := h3.virtLen
    have hv := hc.1
    obtain ⟨ev, hev⟩ : ∃ e, d'.virt[v]? = some e :=
      ⟨_, List.getElem?_eq_getElem (by simp only [NUM_VIRT] at hvl; omega)⟩
    have hs := (h3.start v ev hev).2
    simp only [Outputs.assign, if_true] at hs
    unfold virtActivate
    rw [rd_some hev]
    simp only [ok_bind, hs]
  · rw [h.assign_no hc] at hd'
    cases hd'
    exact absurd rfl hne

/-- Non-vacuity of C30: a toggle on two outputs. -/
example : ∃ d d', runDev Dev.zero [.assign ⟨3, 1, .toggle, 1⟩, .assign ⟨3, 11, .toggle, 0⟩] = .ok d ∧
    virtActivate d 3 = .ok d' ∧ d' ≠ d ∧ d'.trace = [.out 11 1, .out 1 0] :=
  ⟨_, _, rfl, rfl, by decide, by decide⟩

/-- **C31.** A pulse drives each assigned output once with the inverse of its
level, waits once (short or long), and drives each output back to its logic
level. -/
theorem C31_pulse_inverts_waits_restores (d0 : Dev) (ops : List DevOp) (v : Nat) (hv : v < 12) :
    ∃ d L, runDev d0 ops = .ok d ∧ outputsOf d v = some L ∧
      (∃ d', virtAction d v .pulseShort = .ok d' ∧
        d'.trace = d.trace ++ (L.map (fun p => Event.out p (inv (levelOf d p))) ++
          [.delayShort] ++ L.map (fun p => Event.out p (logic (levelOf d p))))) ∧
      (∃ d', virtAction d v .pulseLong = .ok d' ∧
        d'.trace = d.trace ++ (L.map (fun p => Event.out p (inv (levelOf d p))) ++
          [.delayLong] ++ L.map (fun p => Event.out p (logic (levelOf d p))))) := by
  obtain ⟨d, f, h1, _, h⟩ := foldDev_refines ops (DevRel.init d0)
  have key : ∀ delay : Event, ((Outputs.initial.run ops).1.pulse v delay).2 =
      ((Outputs.initial.run ops).1.lists v).map (fun p => Event.out p (inv (levelOf d p))) ++
        [delay] ++ ((Outputs.initial.run ops).1.lists v).map
          (fun p => Event.out p (logic (levelOf d p))) := by
    intro delay
    simp only [Outputs.pulse, Outputs.drive]
    rw [map_level h]
    congr 1
    apply List.map_congr_left
    intro p hp
    rw [if_pos hp, level_eq h hp]
    unfold inv logic
    by_cases h0 : levelOf d p = 0 <;> simp [h0]
  refine ⟨d, _, h1, h.outputsOf hv, ?_, ?_⟩
  · obtain ⟨d', h2, h3, _⟩ := h.act hv .pulseShort
    exact ⟨d', h2, by rw [h3]; exact congrArg _ (key _)⟩
  · obtain ⟨d', h2, h3, _⟩ := h.act hv .pulseLong
    exact ⟨d', h2, by rw [h3]; exact congrArg _ (key _)⟩

/-- Non-vacuity of C31: a pulse on an output at level 1 and one at level 0. -/
example : ∃ d d', runDev Dev.zero [.assign ⟨2, 4, .pulseLong, 1⟩, .assign ⟨2, 5, .pulseLong, 0⟩] =
      .ok d ∧ virtActivate d 2 = .ok d' ∧
    d'.trace = [.out 5 1, .out 4 0, .delayLong, .out 5 0, .out 4 1] :=
  ⟨_, _, rfl, rfl, by decide⟩

end Asdf.Props
