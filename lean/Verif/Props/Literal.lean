import Verif.Lemmas.Literal

/-! # Property C109: what sending a code does to the other pins in a build without optimisation -/

namespace Asdf.Props

open Avr Spec

/-- **C109, pin by pin.**  A build without optimisation sends a code: on both boards, whatever the registers were
and whatever levels the outside world puts on the pins, a pin that is neither the strobe nor a data line goes through
exactly this: on the strobe's port an output goes low with the strobe and stays low, and an input has its
pull-up inverted during the pulse if it reads high; on the other ports nothing changes. -/
theorem C109_pins (B : Board) (hB : B ∈ boards) (ext : Port → UInt8) (r : Regs) (code : Code) (p : Pin)
    (hb : p.bit < 8) (hp : p ∉ B.strobe :: pinsOf B.data) :
    (states .literal ext r (B.opsOf (.send code))).map (fun x => (level x p, isOutput x p)) =
      literalPin (decide (p.port = B.strobe.port)) (level r p) (isOutput r p) (bitOf (ext p.port) p.bit) := by
  have h1 : p ≠ B.strobe := fun e => hp (e ▸ List.mem_cons_self)
  have h2 : p.port ≠ B.data := fun e => hp (List.mem_cons_of_mem _ ((mem_pinsOf hb).mpr e))
  rcases List.mem_cons.mp hB with rfl | hB
  · exact literal_states (dp := .D) (sp := .B) (by decide) (by decide) _ _ ext r p hb h2 h1
  · cases List.mem_singleton.mp hB
    exact literal_states (dp := .H) (sp := .B) (by decide) (by decide) _ _ ext r p hb h2 h1

/-- **C109, exactly when C49 holds.**  The other pins keep their levels in a build without optimisation exactly if
all the other outputs of the strobe's port are low already and all its inputs read low. -/
theorem C109_when (B : Board) (hB : B ∈ boards) (ext : Port → UInt8) (r : Regs) (code : Code) :
    (∀ r' ∈ states .literal ext r (B.opsOf (.send code)), onlyPins (B.strobe :: pinsOf B.data) r r') ↔
    ∀ p : Pin, p.bit < 8 → p.port = B.strobe.port → p ≠ B.strobe →
      (if isOutput r p then level r p else bitOf (ext p.port) p.bit) = false := by
  have key : ∀ here l o e : Bool, (∀ x ∈ literalPin here l o e, x = (l, o)) ↔
      (here = true → (if o then l else e) = false) := by decide +kernel
  constructor
  · intro h p hb hpp hps
    have hp : p ∉ B.strobe :: pinsOf B.data := by
      intro e
      rcases List.mem_cons.mp e with e | e
      · exact hps e
      · exact strobe_not_data hB (((mem_pinsOf hb).mp e).symm.trans hpp)
    refine (key (decide (p.port = B.strobe.port)) _ _ _).mp ?_ (decide_eq_true hpp)
    rw [← C109_pins B hB ext r code p hb hp]
    intro x hx
    obtain ⟨r', hr', rfl⟩ := List.mem_map.mp hx
    exact Prod.ext (h r' hr' p hb hp).1 (h r' hr' p hb hp).2
  · intro h r' hr' p hb hp
    have := (key (decide (p.port = B.strobe.port)) (level r p) (isOutput r p) (bitOf (ext p.port) p.bit)).mpr
      (fun e => h p hb (of_decide_eq_true e) fun e => hp (e ▸ List.mem_cons_self))
      (level r' p, isOutput r' p) (by
        rw [← C109_pins B hB ext r code p hb hp]
        exact List.mem_map_of_mem hr')
    exact ⟨congrArg Prod.fst this, congrArg Prod.snd this⟩

/-- **C109, what is left afterwards.**  After any code, all outputs of the strobe's port but the strobe are low; so
the next code changes an output only if the firmware set it in between. -/
theorem C109_after (B : Board) (hB : B ∈ boards) (ext : Port → UInt8) (r : Regs) (code : Code) (p : Pin)
    (hb : p.bit < 8) (hpp : p.port = B.strobe.port) (hps : p ≠ B.strobe) :
    level (exec .literal ext r (B.opsOf (.send code))) p = (if isOutput r p then false else level r p) := by
  have hp : p ∉ B.strobe :: pinsOf B.data := by
    intro e
    rcases List.mem_cons.mp e with e | e
    · exact hps e
    · exact strobe_not_data hB (((mem_pinsOf hb).mp e).symm.trans hpp)
  have h := congrArg List.getLast? (C109_pins B hB ext r code p hb hp)
  rw [List.getLast?_map] at h
  have hl : (states .literal ext r (B.opsOf (.send code))).getLast? =
      some (exec .literal ext r (B.opsOf (.send code))) := by
    rcases List.mem_cons.mp hB with rfl | hB
    · rfl
    · cases List.mem_singleton.mp hB
      rfl
  rw [hl, decide_eq_true hpp] at h
  cases ho : isOutput r p
  · rw [ho] at h
    exact congrArg (fun o => (o.map Prod.fst).getD false) h
  · rw [ho] at h
    exact congrArg (fun o => (o.map Prod.fst).getD false) h

/-- With the lamp LED3 of the ATmega328P board lit, the condition fails; on a board whose port is low it holds. -/
example : level (boardAfter m328 allZero [.archInit, .out PHYSICAL_LED3 1]) m328.led3 = true ∧
    m328.led3.port = m328.strobe.port ∧ m328.led3 ≠ m328.strobe ∧
    isOutput (boardAfter m328 allZero [.archInit, .out PHYSICAL_LED3 1]) m328.led3 = true := by decide +kernel

example : ∀ b < 8, (if isOutput allZero ⟨.B, b⟩ then level allZero ⟨.B, b⟩ else bitOf 0 b) = false := by decide +kernel

end Asdf.Props
