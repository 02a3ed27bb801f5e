import Verif.Spec.Machine

/-! # What was typed, and what the host received

The abstract keyboard's log of typed codes and printed texts, independent of the
queues, and the two streams of codes in a trace. -/

namespace Asdf.Spec

/-- The codes that go to the host as keystrokes: those not announced by the pause that
precedes each message character. -/
def keySends : List Event → List Code
  | [] => []
  | .delayMs _ :: .send _ :: es => keySends es
  | .send c :: es => c :: keySends es
  | _ :: es => keySends es

/-- The codes that go to the host as message characters. -/
def msgSends : List Event → List Code
  | [] => []
  | .delayMs _ :: .send c :: es => c :: msgSends es
  | _ :: es => msgSends es

/-- The codes below 0xA0: those the host can receive. -/
def sendable (l : List Code) : List Code := l.filter fun c => decide (c.toNat < 0xA0)

/-- What one sample types: the code of a key whose press is accepted, or the repeated
code. -/
def Kb.typedBy (cfg : Config) (L : Layout) (p : Bool) (k : Kb) (r c : Nat) : List Code :=
  if p ≠ (k.deb r c).on then
    if p = true ∧ (k.deb r c).left ≤ 1 ∧ (k.code cfg L r c).toNat ≤ 0xA0 then [k.code cfg L r c]
    else []
  else if p = true ∧ k.code cfg L r c = k.last ∧ k.rpt.left = 1 then [k.last]
  else []

/-- The text of function `n`. -/
def Kb.text (cfg : Config) (k : Kb) (n : Nat) : List Code :=
  match (hooksOf (cfg.setup k.map))[4 + n]? with
  | some (.print text) => withCR text
  | _ => []

/-- What one sample prints: the text of a function key whose press is accepted. -/
def Kb.saidBy (cfg : Config) (L : Layout) (p : Bool) (k : Kb) (r c : Nat) : List Code :=
  if p = true ∧ (k.deb r c).on = false ∧ (k.deb r c).left ≤ 1 then
    let x := (k.code cfg L r c).toNat
    if x = 0xA7 then k.text cfg 1
    else if 0xB7 ≤ x ∧ x ≤ 0xC0 then k.text cfg (x - 0xB6)
    else []
  else []

/-- What the samples of some keys type, in order (`f` is `Kb.typedBy` or `Kb.saidBy`). -/
def Kb.logKeys (cfg : Config) (L : Layout)
    (f : Config → Layout → Bool → Kb → Nat → Nat → List Code) (inp : Input) :
    List (Nat × Nat) → Kb → List Code
  | [], _ => []
  | x :: xs, k =>
    f cfg L (sample inp x.1 x.2) k x.1 x.2 ++
      Kb.logKeys cfg L f inp xs (k.key cfg L (sample inp x.1 x.2) x.1 x.2)

/-- What is typed (or printed) in one pass. -/
def Kb.logPass (cfg : Config) (L : Layout)
    (f : Config → Layout → Bool → Kb → Nat → Nat → List Code) (inp : Input) (k : Kb) : List Code :=
  Kb.logKeys cfg L f inp (keysOf L) k.output

/-- What is typed (or printed) in a run, pass by pass. -/
def Kb.log (cfg : Config) (L : Layout)
    (f : Config → Layout → Bool → Kb → Nat → Nat → List Code) : List Input → Kb → List (List Code)
  | [], _ => []
  | inp :: inps, k => k.logPass cfg L f inp :: Kb.log cfg L f inps (k.pass cfg L inp)

/-- All codes typed since power-up, oldest first, pass by pass. -/
def typed (cfg : Config) (L : Layout) (inps : List Input) : List (List Code) :=
  Kb.log cfg L Kb.typedBy inps (Kb.start cfg)

/-- All message characters printed since power-up, pass by pass. -/
def said (cfg : Config) (L : Layout) (inps : List Input) : List (List Code) :=
  Kb.log cfg L Kb.saidBy inps (Kb.start cfg)

end Asdf.Spec
