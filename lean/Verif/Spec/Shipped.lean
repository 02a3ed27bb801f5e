import Verif.Model.Shipped
import Verif.Spec.Scan

/-! # The layout of the shipped keymaps 0-3 -/

namespace Asdf.Spec

/-- Keymaps 0-3 (classic, classic caps, apple2, apple2 caps): nine rows, eight
columns, DIP switch 2 (row 8, column 2, which selects keymaps 4 and up) open. -/
def shippedLayout : Layout :=
  { rows := 9, cols := 8, maps := [0, 1, 2, 3], blocked := fun r c => r == 8 && c == 2 }

end Asdf.Spec
