import Verif.Spec.Typed
import Verif.Spec.Letters

/-! # Typing text

What a typist expects: each key press gives the character of the key under the modifiers in
force at that moment; nothing else gives a character.  No debouncing counters, queues,
repeat timers or hardware here.  `Neat` says what the typist has to observe. -/

namespace Asdf.Spec

/-- Which keys are down. -/
abbrev Down := Nat → Nat → Bool

/-- The keys that are down, as debounced, after the readings `inps` since power-up. -/
def downAfter (inps : List Input) : Down := fun r c => debounced (samplesOf inps r c)

/-- The modifiers: SHIFT held, shift lock, caps lock, CTRL. -/
structure ModKeys where
  held : Bool
  locked : Bool
  caps : Bool
  ctrl : Bool
  deriving DecidableEq, Repr

/-- No modifier. -/
def ModKeys.none : ModKeys := ⟨false, false, false, false⟩

/-- The modifiers of the abstract keyboard. -/
def Kb.mods (k : Kb) : ModKeys := ⟨k.held, k.locked, k.caps, k.ctrl⟩

/-- What a key of keymap `i` means under these modifiers. -/
def ModKeys.code (cfg : Config) (L : Layout) (i : UInt8) (m : ModKeys) (r c : Nat) : Code :=
  codeUnder cfg i L.cols r c (m.held || m.locked) m.caps m.ctrl

/-- The meanings SHIFT, shift lock on, shift lock toggle, CAPS, CTRL. -/
def isModCode (x : Code) : Bool := 0xA1 ≤ x.toNat && x.toNat ≤ 0xA5

/-- A modifier key is pressed or released. -/
def ModKeys.event (m : ModKeys) (x : Code) (press : Bool) : ModKeys :=
  if x = 0xA1 then { m with held := press, locked := false }
  else if x = 0xA2 then { m with locked := press || m.locked }
  else if x = 0xA3 then { m with locked := m.locked ^^ press }
  else if x = 0xA4 then { m with caps := m.caps ^^ press }
  else if x = 0xA5 then { m with ctrl := press }
  else m

/-- One scan: the keys down before and after it.  The text typed, and the modifiers then. -/
def typeKeys (cfg : Config) (L : Layout) (i : UInt8) (before after : Down) :
    List (Nat × Nat) → ModKeys → List Code × ModKeys
  | [], m => ([], m)
  | x :: xs, m =>
    let code := m.code cfg L i x.1 x.2
    if before x.1 x.2 = after x.1 x.2 then typeKeys cfg L i before after xs m
    else if isModCode code then typeKeys cfg L i before after xs (m.event code (after x.1 x.2))
    else
      let s := typeKeys cfg L i before after xs m
      (if after x.1 x.2 then code :: s.1 else s.1, s.2)

/-- The text typed with the readings `more` after the readings `pre`, scan by scan, on keymap
`i`, with the modifiers `m` at the beginning. -/
def typist (cfg : Config) (L : Layout) (i : UInt8) : ModKeys → List Input → List Input → List (List Code)
  | _, _, [] => []
  | m, pre, inp :: more =>
    let s := typeKeys cfg L i (downAfter pre) (downAfter (pre ++ [inp])) (keysOf L) m
    s.1 :: typist cfg L i s.2 (pre ++ [inp]) more

/-- A key that has a function whatever the modifiers are: it gives no character. -/
def Functional (cfg : Config) (L : Layout) (i : UInt8) (r c : Nat) : Prop :=
  ∀ m : ModKeys, 0xA0 < (m.code cfg L i r c).toNat

/-- A modifier key: it has the same meaning whatever the modifiers are. -/
def IsModKey (cfg : Config) (L : Layout) (i : UInt8) (r c : Nat) : Prop :=
  ∃ x, isModCode x = true ∧ ∀ m : ModKeys, m.code cfg L i r c = x

/-- What a typist has to observe in one scan. -/
structure NeatScan (cfg : Config) (L : Layout) (i : UInt8) (m : ModKeys) (before after : Down) : Prop where
  /-- only modifier keys and keys with a character are pressed and released -/
  known : ∀ r c, r < L.rows → c < L.cols → before r c ≠ after r c →
    IsModKey cfg L i r c ∨ (m.code cfg L i r c).toNat < 0xA0
  /-- modifiers change only while no key with a character is down -/
  apart : ∀ r c, r < L.rows → c < L.cols → before r c ≠ after r c → IsModKey cfg L i r c →
    ∀ r' c', r' < L.rows → c' < L.cols → (before r' c' || after r' c') = true →
      Functional cfg L i r' c'
  /-- no two keys with the same character are down -/
  distinct : ∀ r c r' c', r < L.rows → c < L.cols → r' < L.rows → c' < L.cols →
    (before r c || after r c) = true → (before r' c' || after r' c') = true →
    (m.code cfg L i r c).toNat < 0xA0 → m.code cfg L i r c = m.code cfg L i r' c' → r = r' ∧ c = c'

/-- Every scan is neat. -/
def Neat (cfg : Config) (L : Layout) (i : UInt8) : ModKeys → List Input → List Input → Prop
  | _, _, [] => True
  | m, pre, inp :: more =>
    NeatScan cfg L i m (downAfter pre) (downAfter (pre ++ [inp])) ∧
      Neat cfg L i (typeKeys cfg L i (downAfter pre) (downAfter (pre ++ [inp])) (keysOf L) m).2
        (pre ++ [inp]) more

/-- No key with a character is down for more than `d` scans in a row (`d = 0`: no limit). -/
def Brief (cfg : Config) (L : Layout) (i : UInt8) (d : Nat) (pre more : List Input) : Prop :=
  ∀ r c, r < L.rows → c < L.cols → ¬ Functional cfg L i r c → d ≠ 0 →
    ∀ u v w, more = u ++ v ++ w → v.length = d →
      ∃ v1 v2, v = v1 ++ v2 ∧ downAfter (pre ++ u ++ v1) r c = false

end Asdf.Spec
