import Verif.Model.Tick

/-! # Specification vocabulary: interleavings of the timer interrupt and the main loop -/

namespace Asdf.Spec

/-- How many times something was observed. -/
def howOften (o : Obs) (s : Sys) : Nat := s.hist.count o

/-- The number of main loop steps in an interleaving. -/
def mainSteps (l : List Step) : Nat := l.countP fun
  | .isr => false
  | .main _ => true

/-- A program state some interleaving leads to. -/
def Running (cfg : Config) (s : Sys) : Prop :=
  ∃ s0 flag l, boot cfg = .ok s0 ∧ (Sys.start s0 flag).exec cfg l = .ok s

/-- No pass through the body from this state initialises the hardware (no keymap
switch in this pass). -/
def noSwitch (cfg : Config) (fw : State) : Prop :=
  ∀ inp fw', tick cfg fw inp = .ok fw' → reinits fw fw' = false

/-- The two moments in which a tick gets lost: between reading the flag as 0 and
clearing it, and in a pass that is about to initialise the hardware. -/
def lossWindow (cfg : Config) (s : Sys) : Prop :=
  s.pc = .clear false ∨ (s.pc = .body ∧ ¬ noSwitch cfg s.fw)

/-- A tick is waiting to be answered. -/
def tickPending (s : Sys) : Bool := s.flag || decide (s.pc = .clear true) || decide (s.pc = .test true)

/-- An interleaving in which every tick comes outside the loss windows and when no
earlier tick is waiting. -/
def timely (cfg : Config) : Sys → List Step → Prop
  | _, [] => True
  | s, x :: l =>
    (x = .isr → tickPending s = false ∧ ¬ lossWindow cfg s) ∧
      ∀ s', s.step cfg x = .ok s' → timely cfg s' l

/-- What the keys show in this step, if it is a pass through the body. -/
def readNow (s : Sys) : Step → List Input
  | .isr => []
  | .main inp => match s.pc with
    | .body => [inp]
    | _ => []

/-- The readings of the matrix in an interleaving: what the keys show in the main loop
steps that pass through the body. -/
def scanned (cfg : Config) : Sys → List Step → List Input
  | _, [] => []
  | s, x :: l =>
    readNow s x ++ match s.step cfg x with
      | .ok s' => scanned cfg s' l
      | .error _ => []

end Asdf.Spec
