import Verif.Model.CUnits
import Verif.Spec.CBoard

/-! # Specification vocabulary: what the text of the source files defines

`Model/CText.lean` has the source files, byte by byte; `Model/CLex.lean`, `Model/CParse.lean` and
`Model/CUnits.lean` say what C text means: its tokens, preprocessing, and the grammar. -/

namespace Asdf.C

/-- What `#include` finds, on this controller: the tokens of the text of the header. -/
def includes (b : Chip) (x : Name) : Option (List Tok) := (assoc x (headerText b)).map fun l => lex (bytes l)

/-- The definitions in a text (its bytes), translated for this controller; `none` if the text is
not understood.  `hw`: the text is part of the hardware layer. -/
def translate (hw : Bool) (b : Chip) (text : List Nat) : Option (List Item) := compile hw (includes b) (lex text)

/-- The texts of the portable source files (src/CMakeLists.txt:56-90), except asdf_print.c. -/
def portableTexts : List (List Nat) :=
  [bytes Text.asdf_buffer_c, bytes Text.asdf_repeat_c, bytes Text.asdf_physical_c, bytes Text.asdf_virtual_c,
   bytes Text.asdf_hook_c, bytes Text.asdf_modifiers_c, bytes Text.asdf_keymaps_c, bytes Text.asdf_c,
   bytes Text.main_c, setupText,
   bytes Text.asdf_keymap_classic_add_map_c, bytes Text.asdf_keymap_classic_c, bytes Text.asdf_keymap_classic_caps_c,
   bytes Text.asdf_keymap_apple2_add_map_c, bytes Text.asdf_keymap_apple2_c, bytes Text.asdf_keymap_apple2_caps_c,
   bytes Text.asdf_keymap_sol_c, bytes Text.asdf_keymap_ace1000_add_map_c, bytes Text.asdf_keymap_ace1000_c]

/-- The text of the hardware layer. -/
def archText : Chip → List Nat
  | .m328 => bytes Text.asdf_arch_atmega328p_c
  | .m2560 => bytes Text.asdf_arch_atmega2560_c

/-- The definitions in several files. -/
def translateAll (b : Chip) : List (List Nat) → Option (List Item)
  | [] => some []
  | t :: ts => (translate false b t).bind fun p => (translateAll b ts).map fun q => p ++ q

/-- The definitions of a function. -/
def defsOf (f : F) : List Item → List Fun
  | [] => []
  | .fn g b :: p => if g = f then b :: defsOf f p else defsOf f p
  | _ :: p => defsOf f p

/-- The definitions of a static variable: its initial values. -/
def objsOf (g : G) : List Item → List Tree
  | [] => []
  | .obj h t :: p => if h = g then t :: objsOf g p else objsOf g p
  | _ :: p => objsOf g p

/-- The static variables of a hardware layer, with their initial values. -/
def varsOf : List Item → List (R × Int)
  | [] => []
  | .var r n :: p => (r, n) :: varsOf p
  | _ :: p => varsOf p

/-- The only entry of a list. -/
def only {α : Type} : List α → Option α
  | [a] => some a
  | _ => none

/-- The functions of a program that consists of the portable definitions `p` and the hardware layer
`a`; no function may have two definitions.  `set_bit` and `clear_bit` are single instructions
(see `wholeBody`). -/
def linked (p a : List Item) (f : F) : Option Fun :=
  match f with
  | .set_bit => none
  | .clear_bit => none
  | f => only (defsOf f (p ++ a))

/-- The static variables at reset. -/
def linkedMem (p : List Item) (g : G) : Tree :=
  match only (objsOf g p) with
  | some t => t
  | none => .leaf .unit

/-- A static variable of the hardware layer at reset. -/
def firstValue (r : R) : List (R × Int) → UInt8
  | [] => 0
  | (q, n) :: l => if q = r then UInt8.ofInt n else firstValue r l

/-- The hardware layer of a board. -/
def layerOf : Chip → F → Option Fun
  | .m328 => A328.body
  | .m2560 => A2560.body

/-- The source files are translated, linked and run from reset on a board `X` (of which only the
circuit matters here), with the register contents `r0` and `sr` in the shift register, until the
program looks at the timer flag for the `polls + 1`st time: the hardware then, with the records of
what happened to it.  `none` if a file is not understood or the run has no meaning in C. -/
def sourceRun (b : Chip) (X : Board) (W : Outside) (w n : Nat) (r0 : Avr.Regs) (sr : UInt8) (polls : Nat) :
    Option Hw :=
  match translateAll b portableTexts, translate true b (archText b) with
  | some p, some a =>
    match run ⟨linked p a, hwExt X W⟩ w n .main []
      ⟨linkedMem p, [], ⟨r0, firstValue .tick (varsOf a), firstValue .data_polarity (varsOf a), sr, [], 0, 0, polls, 0⟩⟩ with
    | .stop S => some S.io
    | _ => none
  | _, _ => none

/-- What `main` of a small program returns; used in examples. -/
def says (s : String) : Option Val :=
  (translate false .m328 (s.toList.map Char.toNat)).bind fun p =>
    match run ⟨linked p [], ext⟩ 100 10 .main [] ⟨linkedMem p, [], ⟨[], [], none⟩⟩ with
    | .ok v _ => some v
    | _ => none

end Asdf.C
