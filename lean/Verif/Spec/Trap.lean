import Verif.Spec.Shipped
import Verif.Spec.Machine

/-! # The switch that selects keymaps 4 and 5 -/

namespace Asdf.Spec

/-- The shipped firmware without keymaps 4 and 5. -/
def fourMaps : Config := { valid := fun i => decide (i.toNat < 4), setup := shipped.setup }

/-- The layout of keymaps 0 to 3 with every key and switch in use. -/
def openLayout : Layout :=
  { rows := 9, cols := 8, maps := [0, 1, 2, 3], blocked := fun _ _ => false }

/-- DIP switch `n` after debouncing, after the readings `inps`. -/
def dip (inps : List Input) (n : Nat) : Bool := debounced (samplesOf inps 8 n)

/-- With the reading `inp`, after the readings `pre`, the closing of DIP switch 2 is
accepted while switch 1 is open. -/
def Trips (pre : List Input) (inp : Input) : Prop :=
  dip pre 2 = false ∧ dip (pre ++ [inp]) 2 = true ∧ dip (pre ++ [inp]) 1 = false

instance (pre : List Input) (inp : Input) : Decidable (Trips pre inp) :=
  inferInstanceAs (Decidable (_ ∧ _ ∧ _))

/-- This never happens in the run. -/
def NeverTrips (inps : List Input) : Prop :=
  ∀ pre inp post, inps = pre ++ inp :: post → ¬ Trips pre inp

/-- A run of the firmware from power-up. -/
def powerUp (cfg : Config) (inps : List Input) : Res State := boot cfg >>= fun s0 => run cfg s0 inps

/-- The first `n` readings of an endless sequence. -/
def firstReadings (f : Nat → Input) (n : Nat) : List Input := (List.range n).map f

end Asdf.Spec
