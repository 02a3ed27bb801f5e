import Verif.Model.Shipped

/-! # Firmware builds: any keymap list -/

namespace Asdf

/-- `asdf_keymap_valid` and `asdf_keymap_setup` as CMake generates them from a keymap
list of numbers and setup functions (src/CMakeLists.txt:3-17, 33-38;
asdf_keymap_setup.c.in:52-56, 74-87): the `default` label of the setup switch stands
before the first case.  (A number that occurs twice is a compile error in C; here the
first entry counts.) -/
def buildOf (l : List (UInt8 × List SetupCmd)) : Config where
  valid i := l.any fun e => e.1 == i
  setup i :=
    match l.find? fun e => e.1 == i with
    | some e => e.2
    | none =>
      match l with
      | [] => []
      | e :: _ => e.2

/-- keymap_list.cmake:1-8. -/
def shippedList : List (UInt8 × List SetupCmd) :=
  [(0, classicSetup), (1, classicCapsSetup), (2, apple2Setup), (3, apple2CapsSetup), (4, solSetup),
    (5, ace1000Setup)]

end Asdf
