import Verif.Spec.Circuit

/-! # The matrix positions of the keys and DIP switches

Written by `tools/gen_roles.py`; property C80 proves that these are the positions at
which the switches of the boards act. -/

namespace Asdf.Spec

open Pcb

/-- The switches of the classic keyboard: label on the board, row and column. -/
def classicPlaces : List Place := [
  ⟨.dip 1, "DIP 1", 8, 0⟩, ⟨.dip 2, "DIP 2", 8, 1⟩, ⟨.dip 3, "DIP 3", 8, 2⟩,
  ⟨.dip 4, "DIP 4", 8, 3⟩, ⟨.dip 5, "DIP 5", 8, 4⟩, ⟨.dip 6, "DIP 6", 8, 5⟩,
  ⟨.dip 7, "DIP 7", 8, 6⟩, ⟨.dip 8, "DIP 8", 8, 7⟩, ⟨.key 1, "RT Arrow", 4, 0⟩,
  ⟨.key 2, "LT Arrow", 5, 0⟩, ⟨.key 3, "Tilde", 6, 0⟩, ⟨.key 4, "I", 4, 1⟩,
  ⟨.key 5, "Repeat", 5, 1⟩, ⟨.key 6, "Bracket_Close", 6, 1⟩, ⟨.key 7, "7", 7, 1⟩,
  ⟨.key 8, "U", 4, 2⟩, ⟨.key 9, "Caps_Lock", 5, 2⟩, ⟨.key 10, "Bracket_Open", 6, 2⟩,
  ⟨.key 11, "6", 7, 2⟩, ⟨.key 12, "Y", 4, 3⟩, ⟨.key 13, "Return", 5, 3⟩, ⟨.key 14, "Dash", 6, 3⟩,
  ⟨.key 15, "5", 7, 3⟩, ⟨.key 16, "T", 4, 4⟩, ⟨.key 17, "Line_Feed", 5, 4⟩,
  ⟨.key 18, "Colon", 6, 4⟩, ⟨.key 19, "4", 7, 4⟩, ⟨.key 20, "R", 4, 5⟩, ⟨.key 21, "O", 5, 5⟩,
  ⟨.key 22, "0", 6, 5⟩, ⟨.key 23, "3", 7, 5⟩, ⟨.key 24, "E", 4, 6⟩, ⟨.key 25, "L", 5, 6⟩,
  ⟨.key 26, "9", 6, 6⟩, ⟨.key 27, "2", 7, 6⟩, ⟨.key 28, "W", 4, 7⟩, ⟨.key 29, "Period", 5, 7⟩,
  ⟨.key 30, "8", 6, 7⟩, ⟨.key 31, "1", 7, 7⟩, ⟨.key 32, "@(OSI SL)", 7, 0⟩,
  ⟨.key 33, "Break", 2, 0⟩, ⟨.key 34, "Rubout (OSI Break)", 1, 0⟩, ⟨.key 35, "R_Shift", 0, 1⟩,
  ⟨.key 36, "P", 1, 1⟩, ⟨.key 37, "Comma", 2, 1⟩, ⟨.key 38, "K", 3, 1⟩,
  ⟨.key 39, "L_Shift", 0, 2⟩, ⟨.key 40, "Semicolon", 1, 2⟩, ⟨.key 41, "M", 2, 2⟩,
  ⟨.key 42, "J", 3, 2⟩, ⟨.key 43, "Fwd_Slash", 1, 3⟩, ⟨.key 44, "N", 2, 3⟩, ⟨.key 45, "H", 3, 3⟩,
  ⟨.key 46, "SPACE", 1, 4⟩, ⟨.key 47, "B", 2, 4⟩, ⟨.key 48, "G", 3, 4⟩, ⟨.key 49, "TAB", 0, 5⟩,
  ⟨.key 50, "Z", 1, 5⟩, ⟨.key 51, "V", 2, 5⟩, ⟨.key 52, "F", 3, 5⟩, ⟨.key 53, "CTRL", 0, 6⟩,
  ⟨.key 54, "A", 1, 6⟩, ⟨.key 55, "C", 2, 6⟩, ⟨.key 56, "D", 3, 6⟩, ⟨.key 57, "Backslash", 0, 7⟩,
  ⟨.key 58, "Q", 1, 7⟩, ⟨.key 59, "X", 2, 7⟩, ⟨.key 60, "S", 3, 7⟩,
  ⟨.key 61, "Power Light", 0, 0⟩, ⟨.key 62, "ESC", 0, 4⟩, ⟨.key 63, "Spare", 3, 0⟩]

/-- The switches of the Sol-20 keyboard: label on the board, row and column. -/
def solPlaces : List Place := [
  ⟨.dip 1, "DIP 1", 8, 0⟩, ⟨.dip 2, "DIP 2", 8, 1⟩, ⟨.dip 3, "DIP 3", 8, 2⟩,
  ⟨.dip 4, "DIP 4", 8, 3⟩, ⟨.dip 5, "DIP 5", 8, 4⟩, ⟨.dip 6, "DIP 6", 8, 5⟩,
  ⟨.dip 7, "DIP 7", 8, 6⟩, ⟨.dip 8, "DIP 8", 8, 7⟩, ⟨.key 4, "ESC: 1.75x", 4, 0⟩,
  ⟨.key 5, "8", 5, 0⟩, ⟨.key 6, "BREAK", 6, 0⟩, ⟨.key 7, "U", 7, 0⟩, ⟨.key 8, "1", 4, 1⟩,
  ⟨.key 9, "9", 5, 1⟩, ⟨.key 10, "TAB: 1.25x", 6, 1⟩, ⟨.key 11, "I", 7, 1⟩, ⟨.key 12, "2", 4, 2⟩,
  ⟨.key 13, "Zero", 5, 2⟩, ⟨.key 14, "Q", 6, 2⟩, ⟨.key 15, "O", 7, 2⟩, ⟨.key 16, "3", 4, 3⟩,
  ⟨.key 17, "Dash", 5, 3⟩, ⟨.key 18, "W", 6, 3⟩, ⟨.key 19, "P", 7, 3⟩, ⟨.key 20, "4", 4, 4⟩,
  ⟨.key 21, "Caret", 5, 4⟩, ⟨.key 22, "E", 6, 4⟩, ⟨.key 23, "AT", 7, 4⟩, ⟨.key 24, "5", 4, 5⟩,
  ⟨.key 25, "LT Bracket", 5, 5⟩, ⟨.key 26, "R", 6, 5⟩, ⟨.key 27, "Return: 1.5x", 7, 5⟩,
  ⟨.key 28, "6", 4, 6⟩, ⟨.key 29, "Backslash", 5, 6⟩, ⟨.key 30, "T", 6, 6⟩,
  ⟨.key 31, "Line Feed", 7, 6⟩, ⟨.key 32, "7", 4, 7⟩, ⟨.key 33, "RT Bracket", 5, 7⟩,
  ⟨.key 34, "Y", 6, 7⟩, ⟨.key 35, "Load", 7, 7⟩, ⟨.key 36, "LT Ctrl", 0, 0⟩,
  ⟨.key 37, "J", 1, 0⟩, ⟨.key 38, "Upper Case: 1.5x", 2, 0⟩, ⟨.key 39, "M", 3, 0⟩,
  ⟨.key 40, "Shift Lock: 1.5x", 0, 1⟩, ⟨.key 41, "K", 1, 1⟩, ⟨.key 42, "LT Shift: 1.5x", 2, 1⟩,
  ⟨.key 43, "Comma", 3, 1⟩, ⟨.key 44, "A", 0, 2⟩, ⟨.key 45, "L", 1, 2⟩, ⟨.key 46, "Z", 2, 2⟩,
  ⟨.key 47, "Period", 3, 2⟩, ⟨.key 48, "S", 0, 3⟩, ⟨.key 49, "Semicolon", 1, 3⟩,
  ⟨.key 50, "X", 2, 3⟩, ⟨.key 51, "Slash", 3, 3⟩, ⟨.key 52, "D", 0, 4⟩, ⟨.key 53, "Colon", 1, 4⟩,
  ⟨.key 54, "C", 2, 4⟩, ⟨.key 55, "RT Shift: 2x", 3, 4⟩, ⟨.key 56, "F", 0, 5⟩,
  ⟨.key 57, "DEL", 1, 5⟩, ⟨.key 58, "V", 2, 5⟩, ⟨.key 59, "Mode Select: 1.75x", 3, 5⟩,
  ⟨.key 60, "G", 0, 6⟩, ⟨.key 61, "Repeat: 1.25x", 1, 6⟩, ⟨.key 62, "B", 2, 6⟩,
  ⟨.key 63, "H", 0, 7⟩, ⟨.key 64, "RT Ctrl", 1, 7⟩, ⟨.key 65, "N", 2, 7⟩,
  ⟨.key 66, "Local", 9, 0⟩, ⟨.key 67, "NP Dash", 10, 0⟩, ⟨.key 68, "NP 4", 11, 0⟩,
  ⟨.key 69, "NP Zero", 12, 0⟩, ⟨.key 70, "Up Arrow", 9, 1⟩, ⟨.key 71, "NP 7", 10, 1⟩,
  ⟨.key 72, "NP 1", 11, 1⟩, ⟨.key 73, "NP period", 12, 1⟩, ⟨.key 74, "LT Arrow", 9, 2⟩,
  ⟨.key 75, "NP asterisk", 10, 2⟩, ⟨.key 76, "NP 5", 11, 2⟩, ⟨.key 77, "NP plus", 12, 2⟩,
  ⟨.key 78, "Spacebar", 9, 3⟩, ⟨.key 79, "NP 8", 10, 3⟩, ⟨.key 80, "NP 2", 11, 3⟩,
  ⟨.key 81, "RT Arrow", 9, 4⟩, ⟨.key 82, "NP divide", 10, 4⟩, ⟨.key 83, "NP 6", 11, 4⟩,
  ⟨.key 84, "Down Arrow", 9, 5⟩, ⟨.key 85, "NP 9", 10, 5⟩, ⟨.key 86, "NP 3", 11, 5⟩,
  ⟨.key 87, "Home", 9, 6⟩, ⟨.key 88, "Clear", 9, 7⟩]

/-- The switches of the classic keyboard that act on the matrix of the OSI interface, and
the analog switch of the shift lock (chip U11 of the interface, here DIP switch 1). -/
def osiPlaces : List Place := [
  ⟨.dip 1, "Shift Lock", 0, 0⟩, ⟨.key 1, "RT Arrow", 4, 0⟩, ⟨.key 2, "LT Arrow", 5, 0⟩,
  ⟨.key 3, "Tilde", 6, 0⟩, ⟨.key 4, "I", 4, 1⟩, ⟨.key 5, "Repeat", 5, 1⟩,
  ⟨.key 6, "Bracket_Close", 6, 1⟩, ⟨.key 7, "7", 7, 1⟩, ⟨.key 8, "U", 4, 2⟩,
  ⟨.key 9, "Caps_Lock", 5, 2⟩, ⟨.key 10, "Bracket_Open", 6, 2⟩, ⟨.key 11, "6", 7, 2⟩,
  ⟨.key 12, "Y", 4, 3⟩, ⟨.key 13, "Return", 5, 3⟩, ⟨.key 14, "Dash", 6, 3⟩, ⟨.key 15, "5", 7, 3⟩,
  ⟨.key 16, "T", 4, 4⟩, ⟨.key 17, "Line_Feed", 5, 4⟩, ⟨.key 18, "Colon", 6, 4⟩,
  ⟨.key 19, "4", 7, 4⟩, ⟨.key 20, "R", 4, 5⟩, ⟨.key 21, "O", 5, 5⟩, ⟨.key 22, "0", 6, 5⟩,
  ⟨.key 23, "3", 7, 5⟩, ⟨.key 24, "E", 4, 6⟩, ⟨.key 25, "L", 5, 6⟩, ⟨.key 26, "9", 6, 6⟩,
  ⟨.key 27, "2", 7, 6⟩, ⟨.key 28, "W", 4, 7⟩, ⟨.key 29, "Period", 5, 7⟩, ⟨.key 30, "8", 6, 7⟩,
  ⟨.key 31, "1", 7, 7⟩, ⟨.key 33, "Break", 2, 0⟩, ⟨.key 35, "R_Shift", 0, 1⟩,
  ⟨.key 36, "P", 1, 1⟩, ⟨.key 37, "Comma", 2, 1⟩, ⟨.key 38, "K", 3, 1⟩,
  ⟨.key 39, "L_Shift", 0, 2⟩, ⟨.key 40, "Semicolon", 1, 2⟩, ⟨.key 41, "M", 2, 2⟩,
  ⟨.key 42, "J", 3, 2⟩, ⟨.key 43, "Fwd_Slash", 1, 3⟩, ⟨.key 44, "N", 2, 3⟩, ⟨.key 45, "H", 3, 3⟩,
  ⟨.key 46, "SPACE", 1, 4⟩, ⟨.key 47, "B", 2, 4⟩, ⟨.key 48, "G", 3, 4⟩, ⟨.key 49, "TAB", 0, 5⟩,
  ⟨.key 50, "Z", 1, 5⟩, ⟨.key 51, "V", 2, 5⟩, ⟨.key 52, "F", 3, 5⟩, ⟨.key 53, "CTRL", 0, 6⟩,
  ⟨.key 54, "A", 1, 6⟩, ⟨.key 55, "C", 2, 6⟩, ⟨.key 56, "D", 3, 6⟩, ⟨.key 57, "Backslash", 0, 7⟩,
  ⟨.key 58, "Q", 1, 7⟩, ⟨.key 59, "X", 2, 7⟩, ⟨.key 60, "S", 3, 7⟩, ⟨.key 62, "ESC", 0, 4⟩,
  ⟨.key 63, "Spare", 3, 0⟩]

end Asdf.Spec
