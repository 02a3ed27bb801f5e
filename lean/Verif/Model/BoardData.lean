import Verif.Model.Pcb

/-! # The printed circuit boards

Generated by `tools/gen_boards.py` from the `.kicad_pcb` files: every part with its
reference, value and the net of every pad. -/

namespace Asdf.Pcb.Data

open Kind

/-- The classic keyboard (hardware/keyboard-classic/kbd-classic.kicad_pcb). -/
def classic : List Part := [
  ⟨diode, 1, "1N4148", [(1, 2), (2, 4)]⟩,
  ⟨diode, 2, "1N4148", [(1, 31), (2, 5)]⟩,
  ⟨diode, 3, "1N4148", [(1, 32), (2, 6)]⟩,
  ⟨diode, 4, "1N4148", [(1, 62), (2, 7)]⟩,
  ⟨diode, 5, "1N4148", [(1, 31), (2, 8)]⟩,
  ⟨diode, 6, "1N4148", [(1, 32), (2, 9)]⟩,
  ⟨diode, 7, "1N4148", [(1, 62), (2, 10)]⟩,
  ⟨diode, 8, "1N4148", [(1, 33), (2, 11)]⟩,
  ⟨diode, 9, "1N4148", [(1, 31), (2, 12)]⟩,
  ⟨diode, 10, "1N4148", [(1, 32), (2, 13)]⟩,
  ⟨diode, 11, "1N4148", [(1, 62), (2, 14)]⟩,
  ⟨diode, 12, "1N4148", [(1, 33), (2, 15)]⟩,
  ⟨diode, 13, "1N4148", [(1, 31), (2, 16)]⟩,
  ⟨diode, 14, "1N4148", [(1, 32), (2, 17)]⟩,
  ⟨diode, 15, "1N4148", [(1, 62), (2, 18)]⟩,
  ⟨diode, 16, "1N4148", [(1, 33), (2, 19)]⟩,
  ⟨diode, 17, "1N4148", [(1, 31), (2, 20)]⟩,
  ⟨diode, 18, "1N4148", [(1, 32), (2, 21)]⟩,
  ⟨diode, 19, "1N4148", [(1, 62), (2, 22)]⟩,
  ⟨diode, 20, "1N4148", [(1, 33), (2, 23)]⟩,
  ⟨diode, 21, "1N4148", [(1, 31), (2, 24)]⟩,
  ⟨diode, 22, "1N4148", [(1, 32), (2, 25)]⟩,
  ⟨diode, 23, "1N4148", [(1, 62), (2, 26)]⟩,
  ⟨diode, 24, "1N4148", [(1, 33), (2, 27)]⟩,
  ⟨diode, 25, "1N4148", [(1, 31), (2, 28)]⟩,
  ⟨diode, 26, "1N4148", [(1, 32), (2, 29)]⟩,
  ⟨diode, 27, "1N4148", [(1, 62), (2, 30)]⟩,
  ⟨diode, 28, "1N4148", [(1, 33), (2, 34)]⟩,
  ⟨diode, 29, "1N4148", [(1, 31), (2, 35)]⟩,
  ⟨diode, 30, "1N4148", [(1, 32), (2, 36)]⟩,
  ⟨diode, 31, "1N4148", [(1, 62), (2, 37)]⟩,
  ⟨diode, 32, "1N4148", [(1, 33), (2, 38)]⟩,
  ⟨diode, 34, "1N4148", [(1, 63), (2, 39)]⟩,
  ⟨diode, 35, "1N4148", [(1, 1), (2, 40)]⟩,
  ⟨diode, 36, "1N4148", [(1, 2), (2, 41)]⟩,
  ⟨diode, 37, "1N4148", [(1, 3), (2, 42)]⟩,
  ⟨diode, 38, "1N4148", [(1, 63), (2, 43)]⟩,
  ⟨diode, 39, "1N4148", [(1, 1), (2, 44)]⟩,
  ⟨diode, 40, "1N4148", [(1, 2), (2, 45)]⟩,
  ⟨diode, 41, "1N4148", [(1, 3), (2, 46)]⟩,
  ⟨diode, 42, "1N4148", [(1, 63), (2, 47)]⟩,
  ⟨diode, 43, "1N4148", [(1, 1), (2, 48)]⟩,
  ⟨diode, 44, "1N4148", [(1, 3), (2, 49)]⟩,
  ⟨diode, 45, "1N4148", [(1, 63), (2, 50)]⟩,
  ⟨diode, 46, "1N4148", [(1, 1), (2, 51)]⟩,
  ⟨diode, 47, "1N4148", [(1, 3), (2, 52)]⟩,
  ⟨diode, 48, "1N4148", [(1, 63), (2, 53)]⟩,
  ⟨diode, 49, "1N4148", [(1, 1), (2, 64)]⟩,
  ⟨diode, 50, "1N4148", [(1, 2), (2, 65)]⟩,
  ⟨diode, 51, "1N4148", [(1, 3), (2, 66)]⟩,
  ⟨diode, 52, "1N4148", [(1, 63), (2, 67)]⟩,
  ⟨diode, 53, "1N4148", [(1, 1), (2, 68)]⟩,
  ⟨diode, 54, "1N4148", [(1, 2), (2, 69)]⟩,
  ⟨diode, 55, "1N4148", [(1, 3), (2, 70)]⟩,
  ⟨diode, 56, "1N4148", [(1, 63), (2, 71)]⟩,
  ⟨diode, 57, "1N4148", [(1, 1), (2, 72)]⟩,
  ⟨diode, 58, "1N4148", [(1, 2), (2, 73)]⟩,
  ⟨diode, 59, "1N4148", [(1, 3), (2, 74)]⟩,
  ⟨diode, 60, "1N4148", [(1, 63), (2, 75)]⟩,
  ⟨diode, 61, "1N4148", [(1, 1), (2, 76)]⟩,
  ⟨connector, 1, "Controller", [(1, 61), (2, 100), (3, 60), (4, 99), (5, 59), (6, 98), (7, 58),
    (8, 97), (9, 57), (10, 96), (11, 56), (12, 95), (13, 55), (14, 94), (15, 54), (16, 93),
    (17, 33), (18, 92), (19, 62), (20, 91), (21, 32), (22, 90), (23, 31), (24, 89), (25, 1),
    (26, 88), (27, 63), (28, 87), (29, 3), (30, 86), (31, 2), (32, 85), (33, 84), (34, 83),
    (35, 82), (36, 81), (37, 80), (38, 79), (39, 78), (40, 77)]⟩,
  ⟨led, 1, "LED", [(1, 97), (2, 101)]⟩,
  ⟨led, 2, "LED", [(1, 89), (2, 102)]⟩,
  ⟨led, 3, "LED", [(1, 93), (2, 103)]⟩,
  ⟨led, 4, "LED", [(1, 93), (2, 103)]⟩,
  ⟨led, 5, "LED", [(1, 89), (2, 102)]⟩,
  ⟨resistor, 1, "470", [(1, 101), (2, 98)]⟩,
  ⟨resistor, 2, "470", [(1, 103), (2, 94)]⟩,
  ⟨resistor, 3, "470", [(1, 90), (2, 102)]⟩,
  ⟨resistor, 4, "470", [(1, 101), (2, 98)]⟩,
  ⟨resistor, 5, "470", [(1, 103), (2, 94)]⟩,
  ⟨resistor, 6, "470", [(1, 90), (2, 102)]⟩,
  ⟨key, 1, "RT Arrow", [(1, 54), (2, 5)]⟩,
  ⟨key, 2, "LT Arrow", [(1, 54), (2, 6)]⟩,
  ⟨key, 3, "Tilde", [(1, 54), (2, 7)]⟩,
  ⟨key, 4, "I", [(1, 55), (2, 8)]⟩,
  ⟨key, 5, "Repeat", [(1, 55), (2, 9)]⟩,
  ⟨key, 6, "Bracket_Close", [(1, 55), (2, 10)]⟩,
  ⟨key, 7, "7", [(1, 55), (2, 11)]⟩,
  ⟨key, 8, "U", [(1, 56), (2, 12)]⟩,
  ⟨key, 9, "Caps_Lock", [(1, 56), (2, 13), (3, 102), (4, 89)]⟩,
  ⟨key, 10, "Bracket_Open", [(1, 56), (2, 14)]⟩,
  ⟨key, 11, "6", [(1, 56), (2, 15)]⟩,
  ⟨key, 12, "Y", [(1, 57), (2, 16)]⟩,
  ⟨key, 13, "Return", [(1, 57), (2, 17)]⟩,
  ⟨key, 14, "Dash", [(1, 57), (2, 18)]⟩,
  ⟨key, 15, "5", [(1, 57), (2, 19)]⟩,
  ⟨key, 16, "T", [(1, 58), (2, 20)]⟩,
  ⟨key, 17, "Line_Feed", [(1, 58), (2, 21), (3, 102), (4, 89)]⟩,
  ⟨key, 18, "Colon", [(1, 58), (2, 22)]⟩,
  ⟨key, 19, "4", [(1, 58), (2, 23)]⟩,
  ⟨key, 20, "R", [(1, 59), (2, 24)]⟩,
  ⟨key, 21, "O", [(1, 59), (2, 25)]⟩,
  ⟨key, 22, "0", [(1, 59), (2, 26)]⟩,
  ⟨key, 23, "3", [(1, 59), (2, 27)]⟩,
  ⟨key, 24, "E", [(1, 60), (2, 28)]⟩,
  ⟨key, 25, "L", [(1, 60), (2, 29)]⟩,
  ⟨key, 26, "9", [(1, 60), (2, 30)]⟩,
  ⟨key, 27, "2", [(1, 60), (2, 34)]⟩,
  ⟨key, 28, "W", [(1, 61), (2, 35)]⟩,
  ⟨key, 29, "Period", [(1, 61), (2, 36)]⟩,
  ⟨key, 30, "8", [(1, 61), (2, 37)]⟩,
  ⟨key, 31, "1", [(1, 61), (2, 38)]⟩,
  ⟨key, 32, "@(OSI SL)", [(1, 96), (2, 95), (3, 103), (4, 93)]⟩,
  ⟨key, 33, "Break", [(1, 54), (2, 39)]⟩,
  ⟨key, 34, "Rubout (OSI Break)", [(1, 92), (2, 91)]⟩,
  ⟨key, 35, "R_Shift", [(1, 55), (2, 41)]⟩,
  ⟨key, 36, "P", [(1, 55), (2, 42)]⟩,
  ⟨key, 37, "Comma", [(1, 55), (2, 43)]⟩,
  ⟨key, 38, "K", [(1, 55), (2, 44)]⟩,
  ⟨key, 39, "L_Shift", [(1, 56), (2, 45)]⟩,
  ⟨key, 40, "Semicolon", [(1, 56), (2, 46)]⟩,
  ⟨key, 41, "M", [(1, 56), (2, 47)]⟩,
  ⟨key, 42, "J", [(1, 56), (2, 48)]⟩,
  ⟨key, 43, "Fwd_Slash", [(1, 57), (2, 49)]⟩,
  ⟨key, 44, "N", [(1, 57), (2, 50)]⟩,
  ⟨key, 45, "H", [(1, 57), (2, 51)]⟩,
  ⟨key, 46, "SPACE", [(1, 58), (2, 52)]⟩,
  ⟨key, 47, "B", [(1, 58), (2, 53)]⟩,
  ⟨key, 48, "G", [(1, 58), (2, 64)]⟩,
  ⟨key, 49, "TAB", [(1, 59), (2, 65)]⟩,
  ⟨key, 50, "Z", [(1, 59), (2, 66)]⟩,
  ⟨key, 51, "V", [(1, 59), (2, 67)]⟩,
  ⟨key, 52, "F", [(1, 59), (2, 68)]⟩,
  ⟨key, 53, "CTRL", [(1, 60), (2, 69)]⟩,
  ⟨key, 54, "A", [(1, 60), (2, 70)]⟩,
  ⟨key, 55, "C", [(1, 60), (2, 71)]⟩,
  ⟨key, 56, "D", [(1, 60), (2, 72)]⟩,
  ⟨key, 57, "Backslash", [(1, 61), (2, 73)]⟩,
  ⟨key, 58, "Q", [(1, 61), (2, 74)]⟩,
  ⟨key, 59, "X", [(1, 61), (2, 75)]⟩,
  ⟨key, 60, "S", [(1, 61), (2, 76)]⟩,
  ⟨key, 61, "Power Light", [(1, 100), (2, 99), (3, 101), (4, 97)]⟩,
  ⟨key, 62, "ESC", [(1, 58), (2, 4)]⟩,
  ⟨key, 63, "Spare", [(1, 54), (2, 40)]⟩]

/-- The names of the nets of the classic keyboard. -/
def classicNames : List (Nat × String) := [
  (1, "/Row3"), (2, "/Row0"), (3, "/Row1"), (4, "Net-(D1-A)"), (5, "Net-(D2-A)"),
  (6, "Net-(D3-A)"), (7, "Net-(D4-A)"), (8, "Net-(D5-A)"), (9, "Net-(D6-A)"), (10, "Net-(D7-A)"),
  (11, "Net-(D8-A)"), (12, "Net-(D9-A)"), (13, "Net-(D10-A)"), (14, "Net-(D11-A)"),
  (15, "Net-(D12-A)"), (16, "Net-(D13-A)"), (17, "Net-(D14-A)"), (18, "Net-(D15-A)"),
  (19, "Net-(D16-A)"), (20, "Net-(D17-A)"), (21, "Net-(D18-A)"), (22, "Net-(D19-A)"),
  (23, "Net-(D20-A)"), (24, "Net-(D21-A)"), (25, "Net-(D22-A)"), (26, "Net-(D23-A)"),
  (27, "Net-(D24-A)"), (28, "Net-(D25-A)"), (29, "Net-(D26-A)"), (30, "Net-(D27-A)"),
  (31, "/Row4"), (32, "/Row5"), (33, "/Row7"), (34, "Net-(D28-A)"), (35, "Net-(D29-A)"),
  (36, "Net-(D30-A)"), (37, "Net-(D31-A)"), (38, "Net-(D32-A)"), (39, "Net-(D34-A)"),
  (40, "Net-(D35-A)"), (41, "Net-(D36-A)"), (42, "Net-(D37-A)"), (43, "Net-(D38-A)"),
  (44, "Net-(D39-A)"), (45, "Net-(D40-A)"), (46, "Net-(D41-A)"), (47, "Net-(D42-A)"),
  (48, "Net-(D43-A)"), (49, "Net-(D44-A)"), (50, "Net-(D45-A)"), (51, "Net-(D46-A)"),
  (52, "Net-(D47-A)"), (53, "Net-(D48-A)"), (54, "/Col0"), (55, "/Col1"), (56, "/Col2"),
  (57, "/Col3"), (58, "/Col4"), (59, "/Col5"), (60, "/Col6"), (61, "/Col7"), (62, "/Row6"),
  (63, "/Row2"), (64, "Net-(D49-A)"), (65, "Net-(D50-A)"), (66, "Net-(D51-A)"),
  (67, "Net-(D52-A)"), (68, "Net-(D53-A)"), (69, "Net-(D54-A)"), (70, "Net-(D55-A)"),
  (71, "Net-(D56-A)"), (72, "Net-(D57-A)"), (73, "Net-(D58-A)"), (74, "Net-(D59-A)"),
  (75, "Net-(D60-A)"), (76, "Net-(D61-A)"), (77, "unconnected-(J1-Pin_40-Pad40)"),
  (78, "unconnected-(J1-Pin_39-Pad39)"), (79, "unconnected-(J1-Pin_38-Pad38)"),
  (80, "unconnected-(J1-Pin_37-Pad37)"), (81, "unconnected-(J1-Pin_36-Pad36)"),
  (82, "unconnected-(J1-Pin_35-Pad35)"), (83, "unconnected-(J1-Pin_34-Pad34)"),
  (84, "unconnected-(J1-Pin_33-Pad33)"), (85, "unconnected-(J1-Pin_32-Pad32)"),
  (86, "unconnected-(J1-Pin_30-Pad30)"), (87, "unconnected-(J1-Pin_28-Pad28)"),
  (88, "unconnected-(J1-Pin_26-Pad26)"), (89, "Net-(J1-Pin_24)"), (90, "Net-(J1-Pin_22)"),
  (91, "Net-(J1-Pin_20)"), (92, "Net-(J1-Pin_18)"), (93, "Net-(J1-Pin_16)"),
  (94, "Net-(J1-Pin_14)"), (95, "Net-(J1-Pin_12)"), (96, "Net-(J1-Pin_10)"),
  (97, "Net-(J1-Pin_8)"), (98, "Net-(J1-Pin_6)"), (99, "Net-(J1-Pin_4)"),
  (100, "Net-(J1-Pin_2)"), (101, "Net-(LED1-A)"), (102, "Net-(LED2-A)"), (103, "Net-(LED3-A)")]

/-- The Sol-20 keyboard (hardware/keyboard-sol/kbd-sol.kicad_pcb). -/
def sol : List Part := [
  ⟨diode, 1, "1N4148", [(1, 31), (2, 85)]⟩,
  ⟨diode, 2, "1N4148", [(1, 32), (2, 64)]⟩,
  ⟨diode, 3, "1N4148", [(1, 62), (2, 65)]⟩,
  ⟨diode, 4, "1N4148", [(1, 33), (2, 66)]⟩,
  ⟨diode, 5, "1N4148", [(1, 31), (2, 4)]⟩,
  ⟨diode, 6, "1N4148", [(1, 32), (2, 67)]⟩,
  ⟨diode, 7, "1N4148", [(1, 62), (2, 5)]⟩,
  ⟨diode, 8, "1N4148", [(1, 33), (2, 6)]⟩,
  ⟨diode, 9, "1N4148", [(1, 31), (2, 7)]⟩,
  ⟨diode, 10, "1N4148", [(1, 32), (2, 8)]⟩,
  ⟨diode, 11, "1N4148", [(1, 62), (2, 9)]⟩,
  ⟨diode, 12, "1N4148", [(1, 33), (2, 10)]⟩,
  ⟨diode, 13, "1N4148", [(1, 31), (2, 11)]⟩,
  ⟨diode, 14, "1N4148", [(1, 32), (2, 12)]⟩,
  ⟨diode, 15, "1N4148", [(1, 62), (2, 13)]⟩,
  ⟨diode, 16, "1N4148", [(1, 33), (2, 14)]⟩,
  ⟨diode, 17, "1N4148", [(1, 31), (2, 68)]⟩,
  ⟨diode, 18, "1N4148", [(1, 32), (2, 15)]⟩,
  ⟨diode, 19, "1N4148", [(1, 62), (2, 16)]⟩,
  ⟨diode, 20, "1N4148", [(1, 33), (2, 17)]⟩,
  ⟨diode, 21, "1N4148", [(1, 31), (2, 69)]⟩,
  ⟨diode, 22, "1N4148", [(1, 32), (2, 18)]⟩,
  ⟨diode, 23, "1N4148", [(1, 62), (2, 19)]⟩,
  ⟨diode, 24, "1N4148", [(1, 33), (2, 20)]⟩,
  ⟨diode, 25, "1N4148", [(1, 31), (2, 21)]⟩,
  ⟨diode, 26, "1N4148", [(1, 32), (2, 22)]⟩,
  ⟨diode, 27, "1N4148", [(1, 62), (2, 23)]⟩,
  ⟨diode, 28, "1N4148", [(1, 33), (2, 24)]⟩,
  ⟨diode, 29, "1N4148", [(1, 31), (2, 25)]⟩,
  ⟨diode, 30, "1N4148", [(1, 32), (2, 26)]⟩,
  ⟨diode, 31, "1N4148", [(1, 62), (2, 27)]⟩,
  ⟨diode, 32, "1N4148", [(1, 33), (2, 28)]⟩,
  ⟨diode, 33, "1N4148", [(1, 2), (2, 86)]⟩,
  ⟨diode, 34, "1N4148", [(1, 3), (2, 29)]⟩,
  ⟨diode, 35, "1N4148", [(1, 63), (2, 87)]⟩,
  ⟨diode, 36, "1N4148", [(1, 1), (2, 30)]⟩,
  ⟨diode, 37, "1N4148", [(1, 2), (2, 70)]⟩,
  ⟨diode, 38, "1N4148", [(1, 3), (2, 71)]⟩,
  ⟨diode, 39, "1N4148", [(1, 63), (2, 72)]⟩,
  ⟨diode, 40, "1N4148", [(1, 1), (2, 73)]⟩,
  ⟨diode, 41, "1N4148", [(1, 2), (2, 34)]⟩,
  ⟨diode, 42, "1N4148", [(1, 3), (2, 35)]⟩,
  ⟨diode, 43, "1N4148", [(1, 63), (2, 36)]⟩,
  ⟨diode, 44, "1N4148", [(1, 1), (2, 74)]⟩,
  ⟨diode, 45, "1N4148", [(1, 2), (2, 37)]⟩,
  ⟨diode, 46, "1N4148", [(1, 3), (2, 38)]⟩,
  ⟨diode, 47, "1N4148", [(1, 63), (2, 39)]⟩,
  ⟨diode, 48, "1N4148", [(1, 1), (2, 40)]⟩,
  ⟨diode, 49, "1N4148", [(1, 2), (2, 41)]⟩,
  ⟨diode, 50, "1N4148", [(1, 3), (2, 42)]⟩,
  ⟨diode, 51, "1N4148", [(1, 63), (2, 43)]⟩,
  ⟨diode, 52, "1N4148", [(1, 1), (2, 44)]⟩,
  ⟨diode, 53, "1N4148", [(1, 2), (2, 45)]⟩,
  ⟨diode, 54, "1N4148", [(1, 3), (2, 46)]⟩,
  ⟨diode, 55, "1N4148", [(1, 63), (2, 47)]⟩,
  ⟨diode, 56, "1N4148", [(1, 1), (2, 48)]⟩,
  ⟨diode, 57, "1N4148", [(1, 2), (2, 49)]⟩,
  ⟨diode, 58, "1N4148", [(1, 3), (2, 50)]⟩,
  ⟨diode, 59, "1N4148", [(1, 63), (2, 51)]⟩,
  ⟨diode, 60, "1N4148", [(1, 2), (2, 52)]⟩,
  ⟨diode, 61, "1N4148", [(1, 3), (2, 53)]⟩,
  ⟨diode, 62, "1N4148", [(1, 63), (2, 88)]⟩,
  ⟨diode, 63, "1N4148", [(1, 115), (2, 89)]⟩,
  ⟨diode, 64, "1N4148", [(1, 114), (2, 90)]⟩,
  ⟨diode, 65, "1N4148", [(1, 112), (2, 91)]⟩,
  ⟨diode, 66, "1N4148", [(1, 113), (2, 92)]⟩,
  ⟨diode, 67, "1N4148", [(1, 115), (2, 93)]⟩,
  ⟨diode, 68, "1N4148", [(1, 114), (2, 94)]⟩,
  ⟨diode, 69, "1N4148", [(1, 112), (2, 95)]⟩,
  ⟨diode, 70, "1N4148", [(1, 113), (2, 96)]⟩,
  ⟨diode, 71, "1N4148", [(1, 115), (2, 97)]⟩,
  ⟨diode, 72, "1N4148", [(1, 114), (2, 98)]⟩,
  ⟨diode, 73, "1N4148", [(1, 112), (2, 99)]⟩,
  ⟨diode, 74, "1N4148", [(1, 113), (2, 100)]⟩,
  ⟨diode, 75, "1N4148", [(1, 115), (2, 101)]⟩,
  ⟨diode, 76, "1N4148", [(1, 114), (2, 102)]⟩,
  ⟨diode, 77, "1N4148", [(1, 112), (2, 103)]⟩,
  ⟨diode, 78, "1N4148", [(1, 115), (2, 104)]⟩,
  ⟨diode, 79, "1N4148", [(1, 114), (2, 105)]⟩,
  ⟨diode, 80, "1N4148", [(1, 112), (2, 106)]⟩,
  ⟨diode, 81, "1N4148", [(1, 115), (2, 107)]⟩,
  ⟨diode, 82, "1N4148", [(1, 114), (2, 108)]⟩,
  ⟨diode, 83, "1N4148", [(1, 112), (2, 109)]⟩,
  ⟨diode, 84, "1N4148", [(1, 115), (2, 110)]⟩,
  ⟨diode, 85, "1N4148", [(1, 115), (2, 111)]⟩,
  ⟨connector, 1, "Controller", [(1, 61), (2, 83), (3, 60), (4, 84), (5, 59), (6, 119), (7, 58),
    (8, 116), (9, 57), (10, 75), (11, 56), (12, 76), (13, 55), (14, 120), (15, 54), (16, 117),
    (17, 33), (18, 77), (19, 62), (20, 78), (21, 32), (22, 121), (23, 31), (24, 118), (25, 1),
    (26, 79), (27, 63), (28, 80), (29, 3), (30, 81), (31, 2), (32, 82), (33, 125), (34, 126),
    (35, 127), (36, 115), (37, 128), (38, 114), (39, 113), (40, 112)]⟩,
  ⟨led, 1, "LED", [(1, 122), (2, 119)]⟩,
  ⟨led, 2, "LED", [(1, 123), (2, 120)]⟩,
  ⟨led, 3, "LED", [(1, 124), (2, 121)]⟩,
  ⟨resistor, 1, "470", [(1, 116), (2, 122)]⟩,
  ⟨resistor, 2, "470", [(1, 117), (2, 123)]⟩,
  ⟨resistor, 3, "470", [(1, 118), (2, 124)]⟩,
  ⟨resistor, 4, "470", [(1, 116), (2, 122)]⟩,
  ⟨resistor, 5, "470", [(1, 117), (2, 123)]⟩,
  ⟨resistor, 6, "470", [(1, 118), (2, 124)]⟩,
  ⟨key, 4, "ESC: 1.75x", [(1, 54), (2, 85)]⟩,
  ⟨key, 5, "8", [(1, 54), (2, 64)]⟩,
  ⟨key, 6, "BREAK", [(1, 54), (2, 65)]⟩,
  ⟨key, 7, "U", [(1, 54), (2, 66)]⟩,
  ⟨key, 8, "1", [(1, 55), (2, 4)]⟩,
  ⟨key, 9, "9", [(1, 55), (2, 67)]⟩,
  ⟨key, 10, "TAB: 1.25x", [(1, 55), (2, 5)]⟩,
  ⟨key, 11, "I", [(1, 55), (2, 6)]⟩,
  ⟨key, 12, "2", [(1, 56), (2, 7)]⟩,
  ⟨key, 13, "Zero", [(1, 56), (2, 8)]⟩,
  ⟨key, 14, "Q", [(1, 56), (2, 9)]⟩,
  ⟨key, 15, "O", [(1, 56), (2, 10)]⟩,
  ⟨key, 16, "3", [(1, 57), (2, 11)]⟩,
  ⟨key, 17, "Dash", [(1, 57), (2, 12)]⟩,
  ⟨key, 18, "W", [(1, 57), (2, 13)]⟩,
  ⟨key, 19, "P", [(1, 57), (2, 14)]⟩,
  ⟨key, 20, "4", [(1, 58), (2, 68)]⟩,
  ⟨key, 21, "Caret", [(1, 58), (2, 15)]⟩,
  ⟨key, 22, "E", [(1, 58), (2, 16)]⟩,
  ⟨key, 23, "AT", [(1, 58), (2, 17)]⟩,
  ⟨key, 24, "5", [(1, 59), (2, 69)]⟩,
  ⟨key, 25, "LT Bracket", [(1, 59), (2, 18)]⟩,
  ⟨key, 26, "R", [(1, 59), (2, 19)]⟩,
  ⟨key, 27, "Return: 1.5x", [(1, 59), (2, 20)]⟩,
  ⟨key, 28, "6", [(1, 60), (2, 21)]⟩,
  ⟨key, 29, "Backslash", [(1, 60), (2, 22)]⟩,
  ⟨key, 30, "T", [(1, 60), (2, 23)]⟩,
  ⟨key, 31, "Line Feed", [(1, 60), (2, 24)]⟩,
  ⟨key, 32, "7", [(1, 61), (2, 25)]⟩,
  ⟨key, 33, "RT Bracket", [(1, 61), (2, 26)]⟩,
  ⟨key, 34, "Y", [(1, 61), (2, 27)]⟩,
  ⟨key, 35, "Load", [(1, 61), (2, 28)]⟩,
  ⟨key, 36, "LT Ctrl", [(1, 54), (2, 86)]⟩,
  ⟨key, 37, "J", [(1, 54), (2, 29)]⟩,
  ⟨key, 38, "Upper Case: 1.5x", [(1, 54), (2, 87)]⟩,
  ⟨key, 39, "M", [(1, 54), (2, 30)]⟩,
  ⟨key, 40, "Shift Lock: 1.5x", [(1, 55), (2, 70)]⟩,
  ⟨key, 41, "K", [(1, 55), (2, 71)]⟩,
  ⟨key, 42, "LT Shift: 1.5x", [(1, 55), (2, 72)]⟩,
  ⟨key, 43, "Comma", [(1, 55), (2, 73)]⟩,
  ⟨key, 44, "A", [(1, 56), (2, 34)]⟩,
  ⟨key, 45, "L", [(1, 56), (2, 35)]⟩,
  ⟨key, 46, "Z", [(1, 56), (2, 36)]⟩,
  ⟨key, 47, "Period", [(1, 56), (2, 74)]⟩,
  ⟨key, 48, "S", [(1, 57), (2, 37)]⟩,
  ⟨key, 49, "Semicolon", [(1, 57), (2, 38)]⟩,
  ⟨key, 50, "X", [(1, 57), (2, 39)]⟩,
  ⟨key, 51, "Slash", [(1, 57), (2, 40)]⟩,
  ⟨key, 52, "D", [(1, 58), (2, 41)]⟩,
  ⟨key, 53, "Colon", [(1, 58), (2, 42)]⟩,
  ⟨key, 54, "C", [(1, 58), (2, 43)]⟩,
  ⟨key, 55, "RT Shift: 2x", [(1, 58), (2, 44)]⟩,
  ⟨key, 56, "F", [(1, 59), (2, 45)]⟩,
  ⟨key, 57, "DEL", [(1, 59), (2, 46)]⟩,
  ⟨key, 58, "V", [(1, 59), (2, 47)]⟩,
  ⟨key, 59, "Mode Select: 1.75x", [(1, 59), (2, 48)]⟩,
  ⟨key, 60, "G", [(1, 60), (2, 49)]⟩,
  ⟨key, 61, "Repeat: 1.25x", [(1, 60), (2, 50)]⟩,
  ⟨key, 62, "B", [(1, 60), (2, 51)]⟩,
  ⟨key, 63, "H", [(1, 61), (2, 52)]⟩,
  ⟨key, 64, "RT Ctrl", [(1, 61), (2, 53)]⟩,
  ⟨key, 65, "N", [(1, 61), (2, 88)]⟩,
  ⟨key, 66, "Local", [(1, 54), (2, 89)]⟩,
  ⟨key, 67, "NP Dash", [(1, 54), (2, 90)]⟩,
  ⟨key, 68, "NP 4", [(1, 54), (2, 91)]⟩,
  ⟨key, 69, "NP Zero", [(1, 54), (2, 92)]⟩,
  ⟨key, 70, "Up Arrow", [(1, 55), (2, 93)]⟩,
  ⟨key, 71, "NP 7", [(1, 55), (2, 94)]⟩,
  ⟨key, 72, "NP 1", [(1, 55), (2, 95)]⟩,
  ⟨key, 73, "NP period", [(1, 55), (2, 96)]⟩,
  ⟨key, 74, "LT Arrow", [(1, 56), (2, 97)]⟩,
  ⟨key, 75, "NP asterisk", [(1, 56), (2, 98)]⟩,
  ⟨key, 76, "NP 5", [(1, 56), (2, 99)]⟩,
  ⟨key, 77, "NP plus", [(1, 56), (2, 100)]⟩,
  ⟨key, 78, "Spacebar", [(1, 57), (2, 101)]⟩,
  ⟨key, 79, "NP 8", [(1, 57), (2, 102)]⟩,
  ⟨key, 80, "NP 2", [(1, 57), (2, 103)]⟩,
  ⟨key, 81, "RT Arrow", [(1, 58), (2, 104)]⟩,
  ⟨key, 82, "NP divide", [(1, 58), (2, 105)]⟩,
  ⟨key, 83, "NP 6", [(1, 58), (2, 106)]⟩,
  ⟨key, 84, "Down Arrow", [(1, 59), (2, 107)]⟩,
  ⟨key, 85, "NP 9", [(1, 59), (2, 108)]⟩,
  ⟨key, 86, "NP 3", [(1, 59), (2, 109)]⟩,
  ⟨key, 87, "Home", [(1, 60), (2, 110)]⟩,
  ⟨key, 88, "Clear", [(1, 61), (2, 111)]⟩]

/-- The names of the nets of the Sol-20 keyboard. -/
def solNames : List (Nat × String) := [
  (1, "/Row3"), (2, "/Row0"), (3, "/Row1"), (4, "Net-(D5-Pad2)"), (5, "Net-(D7-Pad2)"),
  (6, "Net-(D8-Pad2)"), (7, "Net-(D9-Pad2)"), (8, "Net-(D10-Pad2)"), (9, "Net-(D11-Pad2)"),
  (10, "Net-(D12-Pad2)"), (11, "Net-(D13-Pad2)"), (12, "Net-(D14-Pad2)"), (13, "Net-(D15-Pad2)"),
  (14, "Net-(D16-Pad2)"), (15, "Net-(D18-Pad2)"), (16, "Net-(D19-Pad2)"), (17, "Net-(D20-Pad2)"),
  (18, "Net-(D22-Pad2)"), (19, "Net-(D23-Pad2)"), (20, "Net-(D24-Pad2)"), (21, "Net-(D25-Pad2)"),
  (22, "Net-(D26-Pad2)"), (23, "Net-(D27-Pad2)"), (24, "Net-(D28-Pad2)"), (25, "Net-(D29-Pad2)"),
  (26, "Net-(D30-Pad2)"), (27, "Net-(D31-Pad2)"), (28, "Net-(D32-Pad2)"), (29, "Net-(D34-Pad2)"),
  (30, "Net-(D36-Pad2)"), (31, "/Row4"), (32, "/Row5"), (33, "/Row7"), (34, "Net-(D41-Pad2)"),
  (35, "Net-(D42-Pad2)"), (36, "Net-(D43-Pad2)"), (37, "Net-(D45-Pad2)"), (38, "Net-(D46-Pad2)"),
  (39, "Net-(D47-Pad2)"), (40, "Net-(D48-Pad2)"), (41, "Net-(D49-Pad2)"), (42, "Net-(D50-Pad2)"),
  (43, "Net-(D51-Pad2)"), (44, "Net-(D52-Pad2)"), (45, "Net-(D53-Pad2)"), (46, "Net-(D54-Pad2)"),
  (47, "Net-(D55-Pad2)"), (48, "Net-(D56-Pad2)"), (49, "Net-(D57-Pad2)"), (50, "Net-(D58-Pad2)"),
  (51, "Net-(D59-Pad2)"), (52, "Net-(D60-Pad2)"), (53, "Net-(D61-Pad2)"), (54, "/Col0"),
  (55, "/Col1"), (56, "/Col2"), (57, "/Col3"), (58, "/Col4"), (59, "/Col5"), (60, "/Col6"),
  (61, "/Col7"), (62, "/Row6"), (63, "/Row2"), (64, "Net-(D2-Pad2)"), (65, "Net-(D3-Pad2)"),
  (66, "Net-(D4-Pad2)"), (67, "Net-(D6-Pad2)"), (68, "Net-(D17-Pad2)"), (69, "Net-(D21-Pad2)"),
  (70, "Net-(D37-Pad2)"), (71, "Net-(D38-Pad2)"), (72, "Net-(D39-Pad2)"), (73, "Net-(D40-Pad2)"),
  (74, "Net-(D44-Pad2)"), (75, "Net-(J1-Pad10)"), (76, "Net-(J1-Pad12)"), (77, "Net-(J1-Pad18)"),
  (78, "Net-(J1-Pad20)"), (79, "Net-(J1-Pad26)"), (80, "Net-(J1-Pad28)"), (81, "Net-(J1-Pad30)"),
  (82, "Net-(J1-Pad32)"), (83, "Net-(J1-Pad2)"), (84, "Net-(J1-Pad4)"), (85, "Net-(D1-Pad2)"),
  (86, "Net-(D33-Pad2)"), (87, "Net-(D35-Pad2)"), (88, "Net-(D62-Pad2)"), (89, "Net-(D63-Pad2)"),
  (90, "Net-(D64-Pad2)"), (91, "Net-(D65-Pad2)"), (92, "Net-(D66-Pad2)"), (93, "Net-(D67-Pad2)"),
  (94, "Net-(D68-Pad2)"), (95, "Net-(D69-Pad2)"), (96, "Net-(D70-Pad2)"), (97, "Net-(D71-Pad2)"),
  (98, "Net-(D72-Pad2)"), (99, "Net-(D73-Pad2)"), (100, "Net-(D74-Pad2)"),
  (101, "Net-(D75-Pad2)"), (102, "Net-(D76-Pad2)"), (103, "Net-(D77-Pad2)"),
  (104, "Net-(D78-Pad2)"), (105, "Net-(D79-Pad2)"), (106, "Net-(D80-Pad2)"),
  (107, "Net-(D81-Pad2)"), (108, "Net-(D82-Pad2)"), (109, "Net-(D83-Pad2)"),
  (110, "Net-(D84-Pad2)"), (111, "Net-(D85-Pad2)"), (112, "/Row11"), (113, "/Row12"),
  (114, "/Row10"), (115, "/Row9"), (116, "Net-(J1-Pad8)"), (117, "Net-(J1-Pad16)"),
  (118, "Net-(J1-Pad24)"), (119, "Net-(J1-Pad6)"), (120, "Net-(J1-Pad14)"),
  (121, "Net-(J1-Pad22)"), (122, "Net-(LED1-Pad1)"), (123, "Net-(LED2-Pad1)"),
  (124, "Net-(LED3-Pad1)"), (125, "Net-(J1-Pad33)"), (126, "Net-(J1-Pad34)"),
  (127, "Net-(J1-Pad35)"), (128, "Net-(J1-Pad37)")]

/-- The Franklin ACE 1000 keyboard (hardware/keyboard-franklin-ace-1000/franklin-ace-1000-keyboard.kicad_pcb). -/
def ace : List Part := [
  ⟨diode, 1, "diode-combined", [(1, 1), (2, 115)]⟩,
  ⟨diode, 2, "diode-combined", [(1, 2), (2, 115)]⟩,
  ⟨diode, 3, "diode-combined", [(1, 3), (2, 115)]⟩,
  ⟨diode, 4, "diode-combined", [(1, 4), (2, 115)]⟩,
  ⟨diode, 5, "diode-combined", [(1, 5), (2, 115)]⟩,
  ⟨diode, 6, "diode-combined", [(1, 6), (2, 115)]⟩,
  ⟨diode, 7, "diode-combined", [(1, 7), (2, 115)]⟩,
  ⟨diode, 8, "diode-combined", [(1, 8), (2, 116)]⟩,
  ⟨diode, 9, "diode-combined", [(1, 9), (2, 116)]⟩,
  ⟨diode, 10, "diode-combined", [(1, 12), (2, 116)]⟩,
  ⟨diode, 11, "diode-combined", [(1, 14), (2, 116)]⟩,
  ⟨diode, 12, "diode-combined", [(1, 43), (2, 116)]⟩,
  ⟨diode, 13, "diode-combined", [(1, 44), (2, 116)]⟩,
  ⟨diode, 14, "diode-combined", [(1, 45), (2, 116)]⟩,
  ⟨diode, 15, "diode-combined", [(1, 46), (2, 116)]⟩,
  ⟨diode, 16, "diode-combined", [(1, 47), (2, 117)]⟩,
  ⟨diode, 17, "diode-combined", [(1, 48), (2, 117)]⟩,
  ⟨diode, 18, "diode-combined", [(1, 49), (2, 117)]⟩,
  ⟨diode, 19, "diode-combined", [(1, 50), (2, 117)]⟩,
  ⟨diode, 20, "diode-combined", [(1, 51), (2, 117)]⟩,
  ⟨diode, 21, "diode-combined", [(1, 52), (2, 117)]⟩,
  ⟨diode, 22, "diode-combined", [(1, 53), (2, 117)]⟩,
  ⟨diode, 23, "diode-combined", [(1, 54), (2, 117)]⟩,
  ⟨diode, 24, "diode-combined", [(1, 55), (2, 118)]⟩,
  ⟨diode, 25, "diode-combined", [(1, 56), (2, 118)]⟩,
  ⟨diode, 26, "diode-combined", [(1, 57), (2, 118)]⟩,
  ⟨diode, 27, "diode-combined", [(1, 58), (2, 118)]⟩,
  ⟨diode, 28, "diode-combined", [(1, 59), (2, 118)]⟩,
  ⟨diode, 29, "diode-combined", [(1, 60), (2, 118)]⟩,
  ⟨diode, 30, "diode-combined", [(1, 61), (2, 118)]⟩,
  ⟨diode, 31, "diode-combined", [(1, 62), (2, 118)]⟩,
  ⟨diode, 32, "diode-combined", [(1, 63), (2, 115)]⟩,
  ⟨diode, 33, "diode-combined", [(1, 64), (2, 119)]⟩,
  ⟨diode, 34, "diode-combined", [(1, 65), (2, 119)]⟩,
  ⟨diode, 35, "diode-combined", [(1, 66), (2, 119)]⟩,
  ⟨diode, 36, "diode-combined", [(1, 67), (2, 119)]⟩,
  ⟨diode, 37, "diode-combined", [(1, 68), (2, 119)]⟩,
  ⟨diode, 38, "diode-combined", [(1, 69), (2, 119)]⟩,
  ⟨diode, 39, "diode-combined", [(1, 70), (2, 119)]⟩,
  ⟨diode, 40, "diode-combined", [(1, 71), (2, 119)]⟩,
  ⟨diode, 41, "diode-combined", [(1, 72), (2, 120)]⟩,
  ⟨diode, 42, "diode-combined", [(1, 73), (2, 120)]⟩,
  ⟨diode, 43, "diode-combined", [(1, 74), (2, 120)]⟩,
  ⟨diode, 44, "diode-combined", [(1, 75), (2, 120)]⟩,
  ⟨diode, 45, "diode-combined", [(1, 76), (2, 120)]⟩,
  ⟨diode, 46, "diode-combined", [(1, 77), (2, 120)]⟩,
  ⟨diode, 47, "diode-combined", [(1, 78), (2, 120)]⟩,
  ⟨diode, 48, "diode-combined", [(1, 79), (2, 120)]⟩,
  ⟨diode, 49, "diode-combined", [(1, 80), (2, 121)]⟩,
  ⟨diode, 50, "diode-combined", [(1, 81), (2, 121)]⟩,
  ⟨diode, 51, "diode-combined", [(1, 82), (2, 121)]⟩,
  ⟨diode, 52, "diode-combined", [(1, 83), (2, 121)]⟩,
  ⟨diode, 53, "diode-combined", [(1, 84), (2, 121)]⟩,
  ⟨diode, 54, "diode-combined", [(1, 85), (2, 121)]⟩,
  ⟨diode, 55, "diode-combined", [(1, 86), (2, 121)]⟩,
  ⟨diode, 56, "diode-combined", [(1, 87), (2, 121)]⟩,
  ⟨diode, 57, "diode-combined", [(1, 88), (2, 122)]⟩,
  ⟨diode, 58, "diode-combined", [(1, 89), (2, 122)]⟩,
  ⟨diode, 59, "diode-combined", [(1, 90), (2, 122)]⟩,
  ⟨diode, 60, "diode-combined", [(1, 91), (2, 122)]⟩,
  ⟨diode, 61, "diode-combined", [(1, 92), (2, 122)]⟩,
  ⟨diode, 62, "diode-combined", [(1, 93), (2, 122)]⟩,
  ⟨diode, 63, "diode-combined", [(1, 94), (2, 122)]⟩,
  ⟨diode, 64, "diode-combined", [(1, 95), (2, 122)]⟩,
  ⟨diode, 65, "diode-combined", [(1, 96), (2, 10)]⟩,
  ⟨diode, 66, "diode-combined", [(1, 97), (2, 10)]⟩,
  ⟨diode, 67, "diode-combined", [(1, 98), (2, 10)]⟩,
  ⟨diode, 68, "diode-combined", [(1, 99), (2, 10)]⟩,
  ⟨diode, 69, "diode-combined", [(1, 100), (2, 10)]⟩,
  ⟨diode, 70, "diode-combined", [(1, 101), (2, 10)]⟩,
  ⟨diode, 71, "diode-combined", [(1, 102), (2, 10)]⟩,
  ⟨diode, 72, "diode-combined", [(1, 103), (2, 10)]⟩,
  ⟨diode, 73, "diode-combined", [(1, 105), (2, 124)]⟩,
  ⟨diode, 74, "diode-combined", [(1, 106), (2, 124)]⟩,
  ⟨diode, 75, "1N4148", [(1, 107), (2, 122)]⟩,
  ⟨diode, 76, "1N4148", [(1, 108), (2, 121)]⟩,
  ⟨diode, 77, "1N4148", [(1, 109), (2, 120)]⟩,
  ⟨diode, 78, "1N4148", [(1, 110), (2, 119)]⟩,
  ⟨diode, 79, "1N4148", [(1, 111), (2, 118)]⟩,
  ⟨diode, 80, "1N4148", [(1, 112), (2, 117)]⟩,
  ⟨diode, 81, "1N4148", [(1, 113), (2, 116)]⟩,
  ⟨diode, 82, "1N4148", [(1, 114), (2, 115)]⟩,
  ⟨led, 83, "LED", [(1, 123), (2, 104)]⟩,
  ⟨diode, 84, "1N4148", [(1, 125), (2, 10)]⟩,
  ⟨connector, 1, "Conn_02x20_Odd_Even", [(1, 11), (2, 16), (3, 13), (4, 18), (5, 15), (6, 20),
    (7, 17), (8, 22), (9, 19), (10, 24), (11, 21), (12, 26), (13, 23), (14, 27), (15, 25),
    (16, 28), (17, 107), (18, 29), (19, 108), (20, 30), (21, 109), (22, 31), (23, 110),
    (24, 123), (25, 111), (26, 32), (27, 112), (28, 33), (29, 113), (30, 34), (31, 114),
    (32, 35), (33, 36), (34, 37), (35, 38), (36, 125), (37, 39), (38, 40), (39, 41), (40, 42)]⟩,
  ⟨key, 1, "ESC", [(1, 25), (2, 1)]⟩,
  ⟨key, 2, "BREAK", [(1, 23), (2, 2)]⟩,
  ⟨key, 3, "PAUSE", [(1, 21), (2, 3)]⟩,
  ⟨key, 4, "CTRL", [(1, 19), (2, 4)]⟩,
  ⟨key, 5, "TAB", [(1, 17), (2, 5)]⟩,
  ⟨key, 6, "LOCK", [(1, 15), (2, 6)]⟩,
  ⟨key, 7, "L SHIFT", [(1, 13), (2, 7)]⟩,
  ⟨key, 8, "1 !", [(1, 25), (2, 8)]⟩,
  ⟨key, 9, "Q", [(1, 23), (2, 9)]⟩,
  ⟨key, 10, "A", [(1, 21), (2, 12)]⟩,
  ⟨key, 11, "Z", [(1, 19), (2, 14)]⟩,
  ⟨key, 12, "2 @", [(1, 17), (2, 43)]⟩,
  ⟨key, 13, "W", [(1, 15), (2, 44)]⟩,
  ⟨key, 14, "S", [(1, 13), (2, 45)]⟩,
  ⟨key, 15, "X", [(1, 11), (2, 46)]⟩,
  ⟨key, 16, "3 #", [(1, 25), (2, 47)]⟩,
  ⟨key, 17, "E", [(1, 23), (2, 48)]⟩,
  ⟨key, 18, "D", [(1, 21), (2, 49)]⟩,
  ⟨key, 19, "C", [(1, 19), (2, 50)]⟩,
  ⟨key, 20, "4 $", [(1, 17), (2, 51)]⟩,
  ⟨key, 21, "R", [(1, 15), (2, 52)]⟩,
  ⟨key, 22, "F", [(1, 13), (2, 53)]⟩,
  ⟨key, 23, "V", [(1, 11), (2, 54)]⟩,
  ⟨key, 24, "5 &", [(1, 25), (2, 55)]⟩,
  ⟨key, 25, "T", [(1, 23), (2, 56)]⟩,
  ⟨key, 26, "G", [(1, 21), (2, 57)]⟩,
  ⟨key, 27, "B", [(1, 19), (2, 58)]⟩,
  ⟨key, 28, "6 ^", [(1, 17), (2, 59)]⟩,
  ⟨key, 29, "Y", [(1, 15), (2, 60)]⟩,
  ⟨key, 30, "H", [(1, 13), (2, 61)]⟩,
  ⟨key, 31, "N", [(1, 11), (2, 62)]⟩,
  ⟨key, 32, "SPACE_8U", [(1, 11), (2, 63)]⟩,
  ⟨key, 33, "7 &", [(1, 25), (2, 64)]⟩,
  ⟨key, 34, "U", [(1, 23), (2, 65)]⟩,
  ⟨key, 35, "J", [(1, 21), (2, 66)]⟩,
  ⟨key, 36, "M", [(1, 19), (2, 67)]⟩,
  ⟨key, 37, "8 *", [(1, 17), (2, 68)]⟩,
  ⟨key, 38, "I", [(1, 15), (2, 69)]⟩,
  ⟨key, 39, "K", [(1, 13), (2, 70)]⟩,
  ⟨key, 40, ", <", [(1, 11), (2, 71)]⟩,
  ⟨key, 41, "9 (", [(1, 25), (2, 72)]⟩,
  ⟨key, 42, "O", [(1, 23), (2, 73)]⟩,
  ⟨key, 43, "L", [(1, 21), (2, 74)]⟩,
  ⟨key, 44, ". >", [(1, 19), (2, 75)]⟩,
  ⟨key, 45, "RIGHT", [(1, 17), (2, 76)]⟩,
  ⟨key, 46, "-", [(1, 15), (2, 77)]⟩,
  ⟨key, 47, "+", [(1, 13), (2, 78)]⟩,
  ⟨key, 48, "*", [(1, 11), (2, 79)]⟩,
  ⟨key, 49, "0 )", [(1, 25), (2, 80)]⟩,
  ⟨key, 50, "P", [(1, 23), (2, 81)]⟩,
  ⟨key, 51, "; :", [(1, 21), (2, 82)]⟩,
  ⟨key, 52, "/ ?", [(1, 19), (2, 83)]⟩,
  ⟨key, 53, "7", [(1, 17), (2, 84)]⟩,
  ⟨key, 54, "4", [(1, 15), (2, 85)]⟩,
  ⟨key, 55, "1", [(1, 13), (2, 86)]⟩,
  ⟨key, 56, ">", [(1, 11), (2, 87)]⟩,
  ⟨key, 57, "- / _", [(1, 25), (2, 88)]⟩,
  ⟨key, 58, "{ }", [(1, 23), (2, 89)]⟩,
  ⟨key, 59, "; \\\"", [(1, 21), (2, 90)]⟩,
  ⟨key, 60, "R SHIFT", [(1, 19), (2, 91)]⟩,
  ⟨key, 61, "8", [(1, 17), (2, 92)]⟩,
  ⟨key, 62, "5", [(1, 15), (2, 93)]⟩,
  ⟨key, 63, "2", [(1, 13), (2, 94)]⟩,
  ⟨key, 64, "0", [(1, 11), (2, 95)]⟩,
  ⟨key, 65, "+ / =", [(1, 25), (2, 96)]⟩,
  ⟨key, 66, "[ ]", [(1, 23), (2, 97)]⟩,
  ⟨key, 67, "RETURN", [(1, 21), (2, 98)]⟩,
  ⟨key, 68, "LEFT", [(1, 19), (2, 99)]⟩,
  ⟨key, 69, "9", [(1, 17), (2, 100)]⟩,
  ⟨key, 70, "6", [(1, 15), (2, 101)]⟩,
  ⟨key, 71, "3", [(1, 13), (2, 102)]⟩,
  ⟨key, 72, ".", [(1, 11), (2, 103)]⟩,
  ⟨key, 73, "SPACE_1U", [(1, 25), (2, 105)]⟩,
  ⟨key, 74, "TAB2", [(1, 23), (2, 106)]⟩,
  ⟨resistor, 1, "330 ohms", [(1, 104), (2, 31)]⟩,
  ⟨resistor, 2, "RES 330 ohm 1% MLCC 0805 Yageo", [(1, 104), (2, 31)]⟩]

/-- The names of the nets of the Franklin ACE 1000 keyboard. -/
def aceNames : List (Nat × String) := [
  (1, "Net-(D1-K)"), (2, "Net-(D2-K)"), (3, "Net-(D3-K)"), (4, "Net-(D4-K)"), (5, "Net-(D5-K)"),
  (6, "Net-(D6-K)"), (7, "Net-(D7-K)"), (8, "Net-(D8-K)"), (9, "Net-(D9-K)"), (10, "Row9"),
  (11, "Col7"), (12, "Net-(D10-K)"), (13, "Col6"), (14, "Net-(D11-K)"), (15, "Col5"),
  (16, "unconnected-(J1-Pin_2-Pad2)"), (17, "Col4"), (18, "unconnected-(J1-Pin_4-Pad4)"),
  (19, "Col3"), (20, "unconnected-(J1-Pin_6-Pad6)"), (21, "Col2"),
  (22, "unconnected-(J1-Pin_8-Pad8)"), (23, "Col1"), (24, "unconnected-(J1-Pin_10-Pad10)"),
  (25, "Col0"), (26, "unconnected-(J1-Pin_12-Pad12)"), (27, "unconnected-(J1-Pin_14-Pad14)"),
  (28, "unconnected-(J1-Pin_16-Pad16)"), (29, "unconnected-(J1-Pin_18-Pad18)"),
  (30, "unconnected-(J1-Pin_20-Pad20)"), (31, "Net-(J1-Pin_22)"),
  (32, "unconnected-(J1-Pin_26-Pad26)"), (33, "unconnected-(J1-Pin_28-Pad28)"),
  (34, "unconnected-(J1-Pin_30-Pad30)"), (35, "unconnected-(J1-Pin_32-Pad32)"),
  (36, "unconnected-(J1-Pin_33-Pad33)"), (37, "unconnected-(J1-Pin_34-Pad34)"),
  (38, "unconnected-(J1-Pin_35-Pad35)"), (39, "unconnected-(J1-Pin_37-Pad37)"),
  (40, "unconnected-(J1-Pin_38-Pad38)"), (41, "unconnected-(J1-Pin_39-Pad39)"),
  (42, "unconnected-(J1-Pin_40-Pad40)"), (43, "Net-(D12-K)"), (44, "Net-(D13-K)"),
  (45, "Net-(D14-K)"), (46, "Net-(D15-K)"), (47, "Net-(D16-K)"), (48, "Net-(D17-K)"),
  (49, "Net-(D18-K)"), (50, "Net-(D19-K)"), (51, "Net-(D20-K)"), (52, "Net-(D21-K)"),
  (53, "Net-(D22-K)"), (54, "Net-(D23-K)"), (55, "Net-(D24-K)"), (56, "Net-(D25-K)"),
  (57, "Net-(D26-K)"), (58, "Net-(D27-K)"), (59, "Net-(D28-K)"), (60, "Net-(D29-K)"),
  (61, "Net-(D30-K)"), (62, "Net-(D31-K)"), (63, "Net-(D32-K)"), (64, "Net-(D33-K)"),
  (65, "Net-(D34-K)"), (66, "Net-(D35-K)"), (67, "Net-(D36-K)"), (68, "Net-(D37-K)"),
  (69, "Net-(D38-K)"), (70, "Net-(D39-K)"), (71, "Net-(D40-K)"), (72, "Net-(D41-K)"),
  (73, "Net-(D42-K)"), (74, "Net-(D43-K)"), (75, "Net-(D44-K)"), (76, "Net-(D45-K)"),
  (77, "Net-(D46-K)"), (78, "Net-(D47-K)"), (79, "Net-(D48-K)"), (80, "Net-(D49-K)"),
  (81, "Net-(D50-K)"), (82, "Net-(D51-K)"), (83, "Net-(D52-K)"), (84, "Net-(D53-K)"),
  (85, "Net-(D54-K)"), (86, "Net-(D55-K)"), (87, "Net-(D56-K)"), (88, "Net-(D57-K)"),
  (89, "Net-(D58-K)"), (90, "Net-(D59-K)"), (91, "Net-(D60-K)"), (92, "Net-(D61-K)"),
  (93, "Net-(D62-K)"), (94, "Net-(D63-K)"), (95, "Net-(D64-K)"), (96, "Net-(D65-K)"),
  (97, "Net-(D66-K)"), (98, "Net-(D67-K)"), (99, "Net-(D68-K)"), (100, "Net-(D69-K)"),
  (101, "Net-(D70-K)"), (102, "Net-(D71-K)"), (103, "Net-(D72-K)"), (104, "Net-(D83-A)"),
  (105, "Net-(D73-K)"), (106, "Net-(D74-K)"), (107, "Net-(D75-K)"), (108, "Net-(D76-K)"),
  (109, "Net-(D77-K)"), (110, "Net-(D78-K)"), (111, "Net-(D79-K)"), (112, "Net-(D80-K)"),
  (113, "Net-(D81-K)"), (114, "Net-(D82-K)"), (115, "Row0"), (116, "Row1"), (117, "Row2"),
  (118, "Row3"), (119, "Row4"), (120, "Row5"), (121, "Row6"), (122, "Row7"),
  (123, "Net-(D83-K)"), (124, "Row10"), (125, "Net-(D84-K)")]

/-- The ATmega328P interface (hardware/interface-ascii/interface-ascii.kicad_pcb). -/
def io328 : List Part := [
  ⟨bypassed, 1, "1N4148", [(1, 64), (2, 24)]⟩,
  ⟨bypassed, 2, "1N4148", [(1, 65), (2, 7)]⟩,
  ⟨bypassed, 3, "1N4148", [(1, 56), (2, 3)]⟩,
  ⟨bypassed, 4, "1N4148", [(1, 57), (2, 8)]⟩,
  ⟨bypassed, 5, "1N4148", [(1, 58), (2, 36)]⟩,
  ⟨bypassed, 6, "1N4148", [(1, 59), (2, 42)]⟩,
  ⟨bypassed, 7, "1N4148", [(1, 60), (2, 40)]⟩,
  ⟨bypassed, 8, "1N4148", [(1, 61), (2, 38)]⟩,
  ⟨bypassed, 9, "1N4148", [(1, 45), (2, 4)]⟩,
  ⟨bypassed, 10, "1N4148", [(1, 62), (2, 25)]⟩,
  ⟨bypassed, 11, "1N4148", [(1, 63), (2, 6)]⟩,
  ⟨bypassed, 12, "1N4148", [(1, 46), (2, 5)]⟩,
  ⟨bypassed, 13, "1N4148", [(1, 47), (2, 37)]⟩,
  ⟨bypassed, 14, "1N4148", [(1, 48), (2, 35)]⟩,
  ⟨bypassed, 15, "1N4148", [(1, 49), (2, 41)]⟩,
  ⟨bypassed, 16, "1N4148", [(1, 50), (2, 39)]⟩,
  ⟨diode, 17, "1N4148", [(1, 51), (2, 16)]⟩,
  ⟨diode, 18, "1N4148", [(1, 52), (2, 18)]⟩,
  ⟨diode, 19, "1N4148", [(1, 53), (2, 20)]⟩,
  ⟨diode, 20, "1N4148", [(1, 54), (2, 22)]⟩,
  ⟨diode, 21, "1N4148", [(1, 91), (2, 17)]⟩,
  ⟨diode, 22, "1N4148", [(1, 92), (2, 19)]⟩,
  ⟨diode, 23, "1N4148", [(1, 93), (2, 21)]⟩,
  ⟨diode, 24, "1N4148", [(1, 55), (2, 23)]⟩,
  ⟨diode, 25, "1N4148", [(1, 4), (2, 94)]⟩,
  ⟨diode, 26, "1N4148", [(1, 8), (2, 95)]⟩,
  ⟨diode, 27, "1N4148", [(1, 5), (2, 96)]⟩,
  ⟨connector, 1, "Apple 2", [(1, 2), (2, 30), (3, 87), (4, 66), (5, 14), (6, 13), (7, 15),
    (8, 1), (9, 67), (10, 11), (11, 12), (12, 26), (13, 10), (14, 68), (15, 69), (16, 70)]⟩,
  ⟨connector, 2, "Apple 1", [(1, 87), (2, 12), (3, 11), (4, 10), (5, 26), (6, 13), (7, 14),
    (8, 15), (9, 1), (10, 71), (11, 72), (12, 85), (13, 73), (14, 30), (15, 2), (16, 2)]⟩,
  ⟨connector, 3, "UART", [(1, 2), (2, 78), (3, 44), (4, 1)]⟩,
  ⟨connector, 4, "Outputs", [(1, 1), (2, 87), (3, 86), (4, 85), (5, 2)]⟩,
  ⟨connector, 5, "ISP header", [(1, 90), (2, 2), (3, 89), (4, 88), (5, 43), (6, 1)]⟩,
  ⟨connector, 6, "Keyboard", [(1, 23), (2, 16), (3, 22), (4, 94), (5, 21), (6, 2), (7, 20),
    (8, 81), (9, 19), (10, 16), (11, 18), (12, 95), (13, 17), (14, 2), (15, 16), (16, 79),
    (17, 8), (18, 16), (19, 24), (20, 96), (21, 7), (22, 2), (23, 6), (24, 80), (25, 3),
    (26, 74), (27, 25), (28, 75), (29, 5), (30, 76), (31, 4), (32, 77), (33, 38), (34, 37),
    (35, 39), (36, 36), (37, 40), (38, 35), (39, 41), (40, 42)]⟩,
  ⟨connector, 7, "SOL-20", [(1, 1), (2, 2), (3, 30), (4, 86), (5, 26), (6, 10), (7, 11), (8, 12),
    (9, 2), (10, 1), (11, 1), (12, 2), (13, 87), (14, 85), (15, 13), (16, 14), (17, 15), (18, 9),
    (19, 2), (20, 1)]⟩,
  ⟨resistor, 1, "470", [(1, 10), (2, 78)]⟩,
  ⟨resistor, 3, "470", [(1, 26), (2, 44)]⟩,
  ⟨pullups, 1, "4.7k", [(1, 2), (2, 16), (3, 17), (4, 18), (5, 19), (6, 20), (7, 21), (8, 22),
    (9, 23)]⟩,
  ⟨dip, 1, "Options", [(1, 37), (2, 37), (3, 37), (4, 37), (5, 37), (6, 37), (7, 37), (8, 37),
    (9, 55), (10, 54), (11, 93), (12, 53), (13, 92), (14, 52), (15, 91), (16, 51)]⟩,
  ⟨chip, 1, "ATmega328P", [(1, 43), (2, 26), (3, 10), (4, 11), (5, 12), (6, 13), (7, 2), (8, 1),
    (9, 30), (10, 87), (11, 14), (12, 15), (13, 9), (14, 31), (15, 34), (16, 33), (17, 88),
    (18, 90), (19, 89), (20, 2), (21, 2), (22, 1), (23, 29), (24, 28), (25, 27), (26, 32),
    (27, 81), (28, 85)]⟩,
  ⟨chip, 2, "74LS166", [(1, 2), (2, 23), (3, 22), (4, 21), (5, 20), (6, 1), (7, 33), (8, 1),
    (9, 2), (10, 19), (11, 18), (12, 17), (13, 31), (14, 16), (15, 34), (16, 2)]⟩,
  ⟨chip, 3, "74LS138", [(1, 29), (2, 28), (3, 27), (4, 1), (5, 32), (6, 2), (7, 57), (8, 1),
    (9, 64), (10, 65), (11, 63), (12, 56), (13, 62), (14, 46), (15, 45), (16, 2)]⟩,
  ⟨chip, 4, "74LS138", [(1, 29), (2, 28), (3, 27), (4, 1), (5, 1), (6, 32), (7, 61), (8, 1),
    (9, 50), (10, 60), (11, 49), (12, 59), (13, 48), (14, 58), (15, 47), (16, 2)]⟩,
  ⟨chip, 5, "74LS04", [(1, 90), (2, 80), (3, 89), (4, 79), (5, 1), (6, 82), (7, 1), (8, 83),
    (9, 1), (10, 84), (11, 1), (12, 86), (13, 88), (14, 2)]⟩]

/-- The names of the nets of the ATmega328P interface. -/
def io328Names : List (Nat × String) := [
  (1, "GND"), (2, "+5V"), (3, "/Row3"), (4, "/Row0"), (5, "/Row1"), (6, "/Row4"), (7, "/Row5"),
  (8, "/Row7"), (9, "/D7"), (10, "/D1"), (11, "/D2"), (12, "/D3"), (13, "/D4"), (14, "/D5"),
  (15, "/D6"), (16, "/Col0"), (17, "/Col1"), (18, "/Col2"), (19, "/Col3"), (20, "/Col4"),
  (21, "/Col5"), (22, "/Col6"), (23, "/Col7"), (24, "/Row6"), (25, "/Row2"), (26, "/D0"),
  (27, "Net-(U1-Pad25)"), (28, "Net-(U1-Pad24)"), (29, "Net-(U1-Pad23)"), (30, "/~{STROBE}"),
  (31, "Net-(U1-Pad14)"), (32, "Net-(U1-Pad26)"), (33, "Net-(U1-Pad16)"), (34, "Net-(U1-Pad15)"),
  (35, "/Row10"), (36, "/Row9"), (37, "/Row8"), (38, "/Row15"), (39, "/Row14"), (40, "/Row13"),
  (41, "/Row12"), (42, "/Row11"), (43, "/~{RESET}"), (44, "/Rx"), (45, "Net-(D9-Pad1)"),
  (46, "Net-(D12-Pad1)"), (47, "Net-(D13-Pad1)"), (48, "Net-(D14-Pad1)"), (49, "Net-(D15-Pad1)"),
  (50, "Net-(D16-Pad1)"), (51, "Net-(D17-Pad1)"), (52, "Net-(D18-Pad1)"), (53, "Net-(D19-Pad1)"),
  (54, "Net-(D20-Pad1)"), (55, "Net-(D24-Pad1)"), (56, "Net-(D3-Pad1)"), (57, "Net-(D4-Pad1)"),
  (58, "Net-(D5-Pad1)"), (59, "Net-(D6-Pad1)"), (60, "Net-(D7-Pad1)"), (61, "Net-(D8-Pad1)"),
  (62, "Net-(D10-Pad1)"), (63, "Net-(D11-Pad1)"), (64, "Net-(D1-Pad1)"), (65, "Net-(D2-Pad1)"),
  (66, "unconnected-(J1-Pad4)"), (67, "unconnected-(J1-Pad9)"), (68, "unconnected-(J1-Pad14)"),
  (69, "unconnected-(J1-Pad15)"), (70, "unconnected-(J1-Pad16)"), (71, "unconnected-(J2-Pad10)"),
  (72, "unconnected-(J2-Pad11)"), (73, "unconnected-(J2-Pad13)"), (74, "unconnected-(J6-Pad26)"),
  (75, "unconnected-(J6-Pad28)"), (76, "unconnected-(J6-Pad30)"), (77, "unconnected-(J6-Pad32)"),
  (78, "/Tx"), (79, "Net-(J6-Pad16)"), (80, "Net-(J6-Pad24)"), (81, "/LED1"),
  (82, "unconnected-(U5-Pad6)"), (83, "unconnected-(U5-Pad8)"), (84, "unconnected-(U5-Pad10)"),
  (85, "/OUT1"), (86, "/OUT2"), (87, "/OUT3"), (88, "/MOSI-OUT2"), (89, "/SCK-LED2"),
  (90, "/MISO-LED3"), (91, "Net-(D21-Pad1)"), (92, "Net-(D22-Pad1)"), (93, "Net-(D23-Pad1)"),
  (94, "Net-(D25-Pad2)"), (95, "Net-(D26-Pad2)"), (96, "Net-(D27-Pad2)")]

/-- The ATmega2560 interface (hardware/interface-ascii-atmega2560/interface-ascii-2560.kicad_pcb). -/
def io2560 : List Part := [
  ⟨bypassed, 1, "1N4148", [(1, 137), (2, 4)]⟩,
  ⟨bypassed, 2, "1N4148", [(1, 138), (2, 2)]⟩,
  ⟨bypassed, 3, "1N4148", [(1, 139), (2, 6)]⟩,
  ⟨bypassed, 4, "1N4148", [(1, 47), (2, 7)]⟩,
  ⟨bypassed, 5, "1N4148", [(1, 48), (2, 28)]⟩,
  ⟨bypassed, 6, "1N4148", [(1, 49), (2, 34)]⟩,
  ⟨bypassed, 7, "1N4148", [(1, 50), (2, 32)]⟩,
  ⟨bypassed, 8, "1N4148", [(1, 51), (2, 30)]⟩,
  ⟨bypassed, 9, "1N4148", [(1, 52), (2, 3)]⟩,
  ⟨bypassed, 10, "1N4148", [(1, 53), (2, 24)]⟩,
  ⟨bypassed, 11, "1N4148", [(1, 37), (2, 5)]⟩,
  ⟨bypassed, 12, "1N4148", [(1, 38), (2, 23)]⟩,
  ⟨bypassed, 13, "1N4148", [(1, 39), (2, 29)]⟩,
  ⟨bypassed, 14, "1N4148", [(1, 40), (2, 27)]⟩,
  ⟨bypassed, 15, "1N4148", [(1, 41), (2, 33)]⟩,
  ⟨bypassed, 16, "1N4148", [(1, 42), (2, 31)]⟩,
  ⟨diode, 17, "1N4148", [(1, 3), (2, 140)]⟩,
  ⟨diode, 18, "1N4148", [(1, 7), (2, 141)]⟩,
  ⟨diode, 19, "1N4148", [(1, 4), (2, 142)]⟩,
  ⟨diode, 20, "1N4148", [(1, 43), (2, 15)]⟩,
  ⟨diode, 21, "1N4148", [(1, 63), (2, 17)]⟩,
  ⟨diode, 22, "1N4148", [(1, 64), (2, 19)]⟩,
  ⟨diode, 23, "1N4148", [(1, 65), (2, 21)]⟩,
  ⟨diode, 24, "1N4148", [(1, 44), (2, 16)]⟩,
  ⟨diode, 25, "1N4148", [(1, 45), (2, 18)]⟩,
  ⟨diode, 26, "1N4148", [(1, 46), (2, 20)]⟩,
  ⟨diode, 27, "1N4148", [(1, 54), (2, 22)]⟩,
  ⟨connector, 1, "Apple 2", [(1, 113), (2, 26), (3, 58), (4, 67), (5, 13), (6, 12), (7, 14),
    (8, 1), (9, 66), (10, 10), (11, 11), (12, 25), (13, 9), (14, 68), (15, 69), (16, 70)]⟩,
  ⟨connector, 2, "Apple 1", [(1, 58), (2, 11), (3, 10), (4, 9), (5, 25), (6, 12), (7, 13),
    (8, 14), (9, 1), (10, 71), (11, 72), (12, 56), (13, 73), (14, 26), (15, 113), (16, 113)]⟩,
  ⟨connector, 3, "UART", [(1, 113), (2, 35), (3, 36), (4, 1)]⟩,
  ⟨connector, 4, "Conn_01x05", [(1, 1), (2, 58), (3, 57), (4, 56), (5, 113)]⟩,
  ⟨connector, 5, "SOL-20", [(1, 1), (2, 113), (3, 26), (4, 57), (5, 25), (6, 9), (7, 10),
    (8, 11), (9, 113), (10, 1), (11, 1), (12, 113), (13, 58), (14, 56), (15, 12), (16, 13),
    (17, 14), (18, 8), (19, 113), (20, 1)]⟩,
  ⟨connector, 6, "Conn_01x16", [(1, 136), (2, 1), (3, 135), (4, 113), (5, 134), (6, 133),
    (7, 132), (8, 131), (9, 130), (10, 1), (11, 174), (12, 113), (13, 173), (14, 172), (15, 133),
    (16, 1)]⟩,
  ⟨connector, 7, "Custom Connector 1 / Proto", [(1, 143), (2, 145), (3, 147), (4, 149), (5, 151),
    (6, 153), (7, 155), (8, 157), (9, 144), (10, 146), (11, 148), (12, 150), (13, 152),
    (14, 154), (15, 156), (16, 158)]⟩,
  ⟨connector, 8, "Custom Connector 2", [(1, 114), (2, 116), (3, 118), (4, 120), (5, 122),
    (6, 124), (7, 126), (8, 128), (9, 115), (10, 117), (11, 119), (12, 121), (13, 123),
    (14, 125), (15, 127), (16, 129), (17, 171), (18, 170), (19, 169), (20, 168), (21, 167),
    (22, 166), (23, 165), (24, 164), (25, 163)]⟩,
  ⟨connector, 10, "Keyboard", [(1, 22), (2, 15), (3, 21), (4, 140), (5, 20), (6, 113), (7, 19),
    (8, 55), (9, 18), (10, 15), (11, 17), (12, 141), (13, 16), (14, 113), (15, 15), (16, 60),
    (17, 7), (18, 15), (19, 23), (20, 142), (21, 6), (22, 113), (23, 5), (24, 59), (25, 2),
    (26, 162), (27, 24), (28, 161), (29, 4), (30, 160), (31, 3), (32, 159), (33, 30), (34, 29),
    (35, 31), (36, 28), (37, 32), (38, 27), (39, 33), (40, 34)]⟩,
  ⟨resistor, 1, "10k", [(1, 113), (2, 133)]⟩,
  ⟨pullups, 1, "4.7k", [(1, 113), (2, 15), (3, 16), (4, 17), (5, 18), (6, 19), (7, 20), (8, 21),
    (9, 22)]⟩,
  ⟨dip, 1, "Options", [(1, 29), (2, 29), (3, 29), (4, 29), (5, 29), (6, 29), (7, 29), (8, 29),
    (9, 54), (10, 65), (11, 46), (12, 64), (13, 45), (14, 63), (15, 44), (16, 43)]⟩,
  ⟨chip, 1, "ATmega2560-16AU", [(1, 112), (2, 36), (3, 35), (4, 111), (5, 110), (6, 109),
    (7, 108), (8, 107), (9, 106), (10, 113), (11, 1), (12, 25), (13, 9), (14, 10), (15, 11),
    (16, 12), (17, 13), (18, 14), (19, 105), (20, 173), (21, 172), (22, 174), (23, 26), (24, 56),
    (25, 57), (26, 58), (27, 8), (28, 104), (29, 103), (30, 133), (31, 113), (32, 1), (33, 62),
    (34, 61), (35, 102), (36, 101), (37, 100), (38, 99), (39, 98), (40, 97), (41, 96), (42, 95),
    (43, 94), (44, 93), (45, 92), (46, 91), (47, 90), (48, 55), (49, 60), (50, 59), (51, 89),
    (52, 88), (53, 15), (54, 16), (55, 17), (56, 18), (57, 19), (58, 20), (59, 21), (60, 22),
    (61, 113), (62, 1), (63, 52), (64, 137), (65, 53), (66, 138), (67, 37), (68, 139), (69, 38),
    (70, 87), (71, 51), (72, 42), (73, 50), (74, 41), (75, 49), (76, 40), (77, 48), (78, 39),
    (79, 47), (80, 113), (81, 1), (82, 86), (83, 85), (84, 84), (85, 83), (86, 82), (87, 81),
    (88, 80), (89, 79), (90, 130), (91, 135), (92, 134), (93, 136), (94, 78), (95, 77), (96, 76),
    (97, 75), (98, 74), (99, 1), (100, 113)]⟩]

/-- The names of the nets of the ATmega2560 interface. -/
def io2560Names : List (Nat × String) := [
  (1, "GND"), (2, "/Row3"), (3, "/Row0"), (4, "/Row1"), (5, "/Row4"), (6, "/Row5"), (7, "/Row7"),
  (8, "/D7"), (9, "/D1"), (10, "/D2"), (11, "/D3"), (12, "/D4"), (13, "/D5"), (14, "/D6"),
  (15, "/Col0"), (16, "/Col1"), (17, "/Col2"), (18, "/Col3"), (19, "/Col4"), (20, "/Col5"),
  (21, "/Col6"), (22, "/Col7"), (23, "/Row6"), (24, "/Row2"), (25, "/D0"), (26, "/~STROBE"),
  (27, "/Row10"), (28, "/Row9"), (29, "/Row8"), (30, "/Row15"), (31, "/Row14"), (32, "/Row13"),
  (33, "/Row12"), (34, "/Row11"), (35, "/Tx"), (36, "/Rx"), (37, "Net-(D11-Pad1)"),
  (38, "Net-(D12-Pad1)"), (39, "Net-(D13-Pad1)"), (40, "Net-(D14-Pad1)"), (41, "Net-(D15-Pad1)"),
  (42, "Net-(D16-Pad1)"), (43, "Net-(D20-Pad1)"), (44, "Net-(D24-Pad1)"), (45, "Net-(D25-Pad1)"),
  (46, "Net-(D26-Pad1)"), (47, "Net-(D4-Pad1)"), (48, "Net-(D5-Pad1)"), (49, "Net-(D6-Pad1)"),
  (50, "Net-(D7-Pad1)"), (51, "Net-(D8-Pad1)"), (52, "Net-(D9-Pad1)"), (53, "Net-(D10-Pad1)"),
  (54, "Net-(D27-Pad1)"), (55, "/LED1"), (56, "/OUT1"), (57, "/OUT2"), (58, "/OUT3"),
  (59, "/LED3"), (60, "/LED2"), (61, "Net-(C1-Pad1)"), (62, "Net-(C2-Pad1)"),
  (63, "Net-(D21-Pad1)"), (64, "Net-(D22-Pad1)"), (65, "Net-(D23-Pad1)"), (66, "Net-(J1-Pad9)"),
  (67, "Net-(J1-Pad4)"), (68, "Net-(J1-Pad14)"), (69, "Net-(J1-Pad15)"), (70, "Net-(J1-Pad16)"),
  (71, "Net-(J2-Pad10)"), (72, "Net-(J2-Pad11)"), (73, "Net-(J2-Pad13)"), (74, "Net-(U1-Pad98)"),
  (75, "Net-(U1-Pad97)"), (76, "Net-(U1-Pad96)"), (77, "Net-(U1-Pad95)"), (78, "Net-(U1-Pad94)"),
  (79, "Net-(U1-Pad89)"), (80, "Net-(U1-Pad88)"), (81, "Net-(U1-Pad87)"), (82, "Net-(U1-Pad86)"),
  (83, "Net-(U1-Pad85)"), (84, "Net-(U1-Pad84)"), (85, "Net-(U1-Pad83)"), (86, "Net-(U1-Pad82)"),
  (87, "Net-(U1-Pad70)"), (88, "Net-(U1-Pad52)"), (89, "Net-(U1-Pad51)"), (90, "Net-(U1-Pad47)"),
  (91, "Net-(U1-Pad46)"), (92, "Net-(U1-Pad45)"), (93, "Net-(U1-Pad44)"), (94, "Net-(U1-Pad43)"),
  (95, "Net-(U1-Pad42)"), (96, "Net-(U1-Pad41)"), (97, "Net-(U1-Pad40)"), (98, "Net-(U1-Pad39)"),
  (99, "Net-(U1-Pad38)"), (100, "Net-(U1-Pad37)"), (101, "Net-(U1-Pad36)"),
  (102, "Net-(U1-Pad35)"), (103, "Net-(U1-Pad29)"), (104, "Net-(U1-Pad28)"),
  (105, "Net-(U1-Pad19)"), (106, "Net-(U1-Pad9)"), (107, "Net-(U1-Pad8)"),
  (108, "Net-(U1-Pad7)"), (109, "Net-(U1-Pad6)"), (110, "Net-(U1-Pad5)"), (111, "Net-(U1-Pad4)"),
  (112, "Net-(U1-Pad1)"), (113, "VCC"), (114, "Net-(J8-Pad1)"), (115, "Net-(J8-Pad9)"),
  (116, "Net-(J8-Pad2)"), (117, "Net-(J8-Pad10)"), (118, "Net-(J8-Pad3)"),
  (119, "Net-(J8-Pad11)"), (120, "Net-(J8-Pad4)"), (121, "Net-(J8-Pad12)"),
  (122, "Net-(J8-Pad5)"), (123, "Net-(J8-Pad13)"), (124, "Net-(J8-Pad6)"),
  (125, "Net-(J8-Pad14)"), (126, "Net-(J8-Pad7)"), (127, "Net-(J8-Pad15)"),
  (128, "Net-(J8-Pad8)"), (129, "Net-(J8-Pad16)"), (130, "/TDI"), (131, "Net-(J6-Pad8)"),
  (132, "Net-(J6-Pad7)"), (133, "/~RESET"), (134, "/TMS"), (135, "/TDO"), (136, "/TCK"),
  (137, "Net-(D1-Pad1)"), (138, "Net-(D2-Pad1)"), (139, "Net-(D3-Pad1)"),
  (140, "Net-(D17-Pad2)"), (141, "Net-(D18-Pad2)"), (142, "Net-(D19-Pad2)"),
  (143, "Net-(J7-Pad1)"), (144, "Net-(J7-Pad9)"), (145, "Net-(J7-Pad2)"),
  (146, "Net-(J7-Pad10)"), (147, "Net-(J7-Pad3)"), (148, "Net-(J7-Pad11)"),
  (149, "Net-(J7-Pad4)"), (150, "Net-(J7-Pad12)"), (151, "Net-(J7-Pad5)"),
  (152, "Net-(J7-Pad13)"), (153, "Net-(J7-Pad6)"), (154, "Net-(J7-Pad14)"),
  (155, "Net-(J7-Pad7)"), (156, "Net-(J7-Pad15)"), (157, "Net-(J7-Pad8)"),
  (158, "Net-(J7-Pad16)"), (159, "Net-(J10-Pad32)"), (160, "Net-(J10-Pad30)"),
  (161, "Net-(J10-Pad28)"), (162, "Net-(J10-Pad26)"), (163, "Net-(J8-Pad25)"),
  (164, "Net-(J8-Pad24)"), (165, "Net-(J8-Pad23)"), (166, "Net-(J8-Pad22)"),
  (167, "Net-(J8-Pad21)"), (168, "Net-(J8-Pad20)"), (169, "Net-(J8-Pad19)"),
  (170, "Net-(J8-Pad18)"), (171, "Net-(J8-Pad17)"), (172, "/MOSI"), (173, "/SCK"),
  (174, "/MISO")]

/-- The Sol-20 keyboard with the controller on the board (hardware/keyboard-sol-integrated/kbd-sol.kicad_pcb). -/
def solIntegrated : List Part := [
  ⟨diode, 1, "1N4148", [(1, 31), (2, 75)]⟩,
  ⟨diode, 2, "1N4148", [(1, 32), (2, 64)]⟩,
  ⟨diode, 3, "1N4148", [(1, 62), (2, 65)]⟩,
  ⟨diode, 4, "1N4148", [(1, 33), (2, 66)]⟩,
  ⟨diode, 5, "1N4148", [(1, 31), (2, 4)]⟩,
  ⟨diode, 6, "1N4148", [(1, 32), (2, 67)]⟩,
  ⟨diode, 7, "1N4148", [(1, 62), (2, 5)]⟩,
  ⟨diode, 8, "1N4148", [(1, 33), (2, 6)]⟩,
  ⟨diode, 9, "1N4148", [(1, 31), (2, 7)]⟩,
  ⟨diode, 10, "1N4148", [(1, 32), (2, 8)]⟩,
  ⟨diode, 11, "1N4148", [(1, 62), (2, 9)]⟩,
  ⟨diode, 12, "1N4148", [(1, 33), (2, 10)]⟩,
  ⟨diode, 13, "1N4148", [(1, 31), (2, 11)]⟩,
  ⟨diode, 14, "1N4148", [(1, 32), (2, 12)]⟩,
  ⟨diode, 15, "1N4148", [(1, 62), (2, 13)]⟩,
  ⟨diode, 16, "1N4148", [(1, 33), (2, 14)]⟩,
  ⟨diode, 17, "1N4148", [(1, 31), (2, 68)]⟩,
  ⟨diode, 18, "1N4148", [(1, 32), (2, 15)]⟩,
  ⟨diode, 19, "1N4148", [(1, 62), (2, 16)]⟩,
  ⟨diode, 20, "1N4148", [(1, 33), (2, 17)]⟩,
  ⟨diode, 21, "1N4148", [(1, 31), (2, 69)]⟩,
  ⟨diode, 22, "1N4148", [(1, 32), (2, 18)]⟩,
  ⟨diode, 23, "1N4148", [(1, 62), (2, 19)]⟩,
  ⟨diode, 24, "1N4148", [(1, 33), (2, 20)]⟩,
  ⟨diode, 25, "1N4148", [(1, 31), (2, 21)]⟩,
  ⟨diode, 26, "1N4148", [(1, 32), (2, 22)]⟩,
  ⟨diode, 27, "1N4148", [(1, 62), (2, 23)]⟩,
  ⟨diode, 28, "1N4148", [(1, 33), (2, 24)]⟩,
  ⟨diode, 29, "1N4148", [(1, 31), (2, 25)]⟩,
  ⟨diode, 30, "1N4148", [(1, 32), (2, 26)]⟩,
  ⟨diode, 31, "1N4148", [(1, 62), (2, 27)]⟩,
  ⟨diode, 32, "1N4148", [(1, 33), (2, 28)]⟩,
  ⟨diode, 33, "1N4148", [(1, 2), (2, 76)]⟩,
  ⟨diode, 34, "1N4148", [(1, 3), (2, 29)]⟩,
  ⟨diode, 35, "1N4148", [(1, 63), (2, 77)]⟩,
  ⟨diode, 36, "1N4148", [(1, 1), (2, 30)]⟩,
  ⟨diode, 37, "1N4148", [(1, 2), (2, 70)]⟩,
  ⟨diode, 38, "1N4148", [(1, 3), (2, 71)]⟩,
  ⟨diode, 39, "1N4148", [(1, 63), (2, 72)]⟩,
  ⟨diode, 40, "1N4148", [(1, 1), (2, 73)]⟩,
  ⟨diode, 41, "1N4148", [(1, 2), (2, 34)]⟩,
  ⟨diode, 42, "1N4148", [(1, 3), (2, 35)]⟩,
  ⟨diode, 43, "1N4148", [(1, 63), (2, 36)]⟩,
  ⟨diode, 44, "1N4148", [(1, 1), (2, 74)]⟩,
  ⟨diode, 45, "1N4148", [(1, 2), (2, 37)]⟩,
  ⟨diode, 46, "1N4148", [(1, 3), (2, 38)]⟩,
  ⟨diode, 47, "1N4148", [(1, 63), (2, 39)]⟩,
  ⟨diode, 48, "1N4148", [(1, 1), (2, 40)]⟩,
  ⟨diode, 49, "1N4148", [(1, 2), (2, 41)]⟩,
  ⟨diode, 50, "1N4148", [(1, 3), (2, 42)]⟩,
  ⟨diode, 51, "1N4148", [(1, 63), (2, 43)]⟩,
  ⟨diode, 52, "1N4148", [(1, 1), (2, 44)]⟩,
  ⟨diode, 53, "1N4148", [(1, 2), (2, 45)]⟩,
  ⟨diode, 54, "1N4148", [(1, 3), (2, 46)]⟩,
  ⟨diode, 55, "1N4148", [(1, 63), (2, 47)]⟩,
  ⟨diode, 56, "1N4148", [(1, 1), (2, 48)]⟩,
  ⟨diode, 57, "1N4148", [(1, 2), (2, 49)]⟩,
  ⟨diode, 58, "1N4148", [(1, 3), (2, 50)]⟩,
  ⟨diode, 59, "1N4148", [(1, 63), (2, 51)]⟩,
  ⟨diode, 60, "1N4148", [(1, 2), (2, 52)]⟩,
  ⟨diode, 61, "1N4148", [(1, 3), (2, 53)]⟩,
  ⟨diode, 62, "1N4148", [(1, 63), (2, 78)]⟩,
  ⟨diode, 63, "1N4148", [(1, 105), (2, 79)]⟩,
  ⟨diode, 64, "1N4148", [(1, 104), (2, 80)]⟩,
  ⟨diode, 65, "1N4148", [(1, 102), (2, 81)]⟩,
  ⟨diode, 66, "1N4148", [(1, 103), (2, 82)]⟩,
  ⟨diode, 67, "1N4148", [(1, 105), (2, 83)]⟩,
  ⟨diode, 68, "1N4148", [(1, 104), (2, 84)]⟩,
  ⟨diode, 69, "1N4148", [(1, 102), (2, 85)]⟩,
  ⟨diode, 70, "1N4148", [(1, 103), (2, 86)]⟩,
  ⟨diode, 71, "1N4148", [(1, 105), (2, 87)]⟩,
  ⟨diode, 72, "1N4148", [(1, 104), (2, 88)]⟩,
  ⟨diode, 73, "1N4148", [(1, 102), (2, 89)]⟩,
  ⟨diode, 74, "1N4148", [(1, 103), (2, 90)]⟩,
  ⟨diode, 75, "1N4148", [(1, 105), (2, 91)]⟩,
  ⟨diode, 76, "1N4148", [(1, 104), (2, 92)]⟩,
  ⟨diode, 77, "1N4148", [(1, 102), (2, 93)]⟩,
  ⟨diode, 78, "1N4148", [(1, 105), (2, 94)]⟩,
  ⟨diode, 79, "1N4148", [(1, 104), (2, 95)]⟩,
  ⟨diode, 80, "1N4148", [(1, 102), (2, 96)]⟩,
  ⟨diode, 81, "1N4148", [(1, 105), (2, 97)]⟩,
  ⟨diode, 82, "1N4148", [(1, 104), (2, 98)]⟩,
  ⟨diode, 83, "1N4148", [(1, 102), (2, 99)]⟩,
  ⟨diode, 84, "1N4148", [(1, 105), (2, 100)]⟩,
  ⟨diode, 85, "1N4148", [(1, 105), (2, 101)]⟩,
  ⟨diode, 86, "1N4148", [(1, 113), (2, 57)]⟩,
  ⟨diode, 87, "1N4148", [(1, 114), (2, 59)]⟩,
  ⟨diode, 88, "1N4148", [(1, 115), (2, 61)]⟩,
  ⟨diode, 89, "1N4148", [(1, 116), (2, 55)]⟩,
  ⟨diode, 90, "1N4148", [(1, 117), (2, 54)]⟩,
  ⟨diode, 91, "1N4148", [(1, 118), (2, 56)]⟩,
  ⟨diode, 92, "1N4148", [(1, 119), (2, 58)]⟩,
  ⟨diode, 93, "1N4148", [(1, 120), (2, 60)]⟩,
  ⟨connector, 1, "Outputs", [(1, 109), (2, 166), (3, 165), (4, 164), (5, 112)]⟩,
  ⟨connector, 2, "SOL-20", [(1, 109), (2, 112), (3, 175), (4, 165), (5, 174), (6, 172), (7, 170),
    (8, 168), (9, 112), (10, 109), (11, 109), (12, 112), (13, 166), (14, 164), (15, 173),
    (16, 171), (17, 169), (18, 167), (19, 112), (20, 109)]⟩,
  ⟨connector, 3, "Programming", [(1, 183), (2, 109), (3, 182), (4, 112), (5, 181), (6, 176),
    (7, 122), (8, 121), (9, 180), (10, 109), (11, 179), (12, 112), (13, 178), (14, 177),
    (15, 176), (16, 109)]⟩,
  ⟨led, 1, "LED", [(1, 106), (2, 112)]⟩,
  ⟨led, 2, "LED", [(1, 107), (2, 112)]⟩,
  ⟨led, 3, "LED", [(1, 108), (2, 112)]⟩,
  ⟨resistor, 1, "330", [(1, 184), (2, 106)]⟩,
  ⟨resistor, 2, "330", [(1, 185), (2, 107)]⟩,
  ⟨resistor, 3, "330", [(1, 186), (2, 108)]⟩,
  ⟨resistor, 4, "330", [(1, 184), (2, 106)]⟩,
  ⟨resistor, 5, "330", [(1, 185), (2, 107)]⟩,
  ⟨resistor, 6, "330", [(1, 186), (2, 108)]⟩,
  ⟨resistor, 7, "10k", [(1, 112), (2, 176)]⟩,
  ⟨dip, 1, "Options", [(1, 187), (2, 187), (3, 187), (4, 187), (5, 187), (6, 187), (7, 187),
    (8, 187), (9, 115), (10, 120), (11, 114), (12, 119), (13, 113), (14, 118), (15, 116),
    (16, 117)]⟩,
  ⟨key, 4, "ESC: 1.75x", [(1, 54), (2, 75)]⟩,
  ⟨key, 5, "8", [(1, 54), (2, 64)]⟩,
  ⟨key, 6, "BREAK", [(1, 54), (2, 65)]⟩,
  ⟨key, 7, "U", [(1, 54), (2, 66)]⟩,
  ⟨key, 8, "1", [(1, 55), (2, 4)]⟩,
  ⟨key, 9, "9", [(1, 55), (2, 67)]⟩,
  ⟨key, 10, "TAB: 1.25x", [(1, 55), (2, 5)]⟩,
  ⟨key, 11, "I", [(1, 55), (2, 6)]⟩,
  ⟨key, 12, "2", [(1, 56), (2, 7)]⟩,
  ⟨key, 13, "Zero", [(1, 56), (2, 8)]⟩,
  ⟨key, 14, "Q", [(1, 56), (2, 9)]⟩,
  ⟨key, 15, "O", [(1, 56), (2, 10)]⟩,
  ⟨key, 16, "3", [(1, 57), (2, 11)]⟩,
  ⟨key, 17, "Dash", [(1, 57), (2, 12)]⟩,
  ⟨key, 18, "W", [(1, 57), (2, 13)]⟩,
  ⟨key, 19, "P", [(1, 57), (2, 14)]⟩,
  ⟨key, 20, "4", [(1, 58), (2, 68)]⟩,
  ⟨key, 21, "Caret", [(1, 58), (2, 15)]⟩,
  ⟨key, 22, "E", [(1, 58), (2, 16)]⟩,
  ⟨key, 23, "AT", [(1, 58), (2, 17)]⟩,
  ⟨key, 24, "5", [(1, 59), (2, 69)]⟩,
  ⟨key, 25, "LT Bracket", [(1, 59), (2, 18)]⟩,
  ⟨key, 26, "R", [(1, 59), (2, 19)]⟩,
  ⟨key, 27, "Return: 1.5x", [(1, 59), (2, 20)]⟩,
  ⟨key, 28, "6", [(1, 60), (2, 21)]⟩,
  ⟨key, 29, "Backslash", [(1, 60), (2, 22)]⟩,
  ⟨key, 30, "T", [(1, 60), (2, 23)]⟩,
  ⟨key, 31, "Line Feed", [(1, 60), (2, 24)]⟩,
  ⟨key, 32, "7", [(1, 61), (2, 25)]⟩,
  ⟨key, 33, "RT Bracket", [(1, 61), (2, 26)]⟩,
  ⟨key, 34, "Y", [(1, 61), (2, 27)]⟩,
  ⟨key, 35, "Load", [(1, 61), (2, 28)]⟩,
  ⟨key, 36, "LT Ctrl", [(1, 54), (2, 76)]⟩,
  ⟨key, 37, "J", [(1, 54), (2, 29)]⟩,
  ⟨key, 38, "Upper Case: 1.5x", [(1, 54), (2, 77)]⟩,
  ⟨key, 39, "M", [(1, 54), (2, 30)]⟩,
  ⟨key, 40, "Shift Lock: 1.5x", [(1, 55), (2, 70)]⟩,
  ⟨key, 41, "K", [(1, 55), (2, 71)]⟩,
  ⟨key, 42, "LT Shift: 1.5x", [(1, 55), (2, 72)]⟩,
  ⟨key, 43, "Comma", [(1, 55), (2, 73)]⟩,
  ⟨key, 44, "A", [(1, 56), (2, 34)]⟩,
  ⟨key, 45, "L", [(1, 56), (2, 35)]⟩,
  ⟨key, 46, "Z", [(1, 56), (2, 36)]⟩,
  ⟨key, 47, "Period", [(1, 56), (2, 74)]⟩,
  ⟨key, 48, "S", [(1, 57), (2, 37)]⟩,
  ⟨key, 49, "Semicolon", [(1, 57), (2, 38)]⟩,
  ⟨key, 50, "X", [(1, 57), (2, 39)]⟩,
  ⟨key, 51, "Slash", [(1, 57), (2, 40)]⟩,
  ⟨key, 52, "D", [(1, 58), (2, 41)]⟩,
  ⟨key, 53, "Colon", [(1, 58), (2, 42)]⟩,
  ⟨key, 54, "C", [(1, 58), (2, 43)]⟩,
  ⟨key, 55, "RT Shift: 2x", [(1, 58), (2, 44)]⟩,
  ⟨key, 56, "F", [(1, 59), (2, 45)]⟩,
  ⟨key, 57, "DEL", [(1, 59), (2, 46)]⟩,
  ⟨key, 58, "V", [(1, 59), (2, 47)]⟩,
  ⟨key, 59, "Mode Select: 1.75x", [(1, 59), (2, 48)]⟩,
  ⟨key, 60, "G", [(1, 60), (2, 49)]⟩,
  ⟨key, 61, "Repeat: 1.25x", [(1, 60), (2, 50)]⟩,
  ⟨key, 62, "B", [(1, 60), (2, 51)]⟩,
  ⟨key, 63, "H", [(1, 61), (2, 52)]⟩,
  ⟨key, 64, "RT Ctrl", [(1, 61), (2, 53)]⟩,
  ⟨key, 65, "N", [(1, 61), (2, 78)]⟩,
  ⟨key, 66, "Local", [(1, 54), (2, 79)]⟩,
  ⟨key, 67, "NP Dash", [(1, 54), (2, 80)]⟩,
  ⟨key, 68, "NP 4", [(1, 54), (2, 81)]⟩,
  ⟨key, 69, "NP Zero", [(1, 54), (2, 82)]⟩,
  ⟨key, 70, "Up Arrow", [(1, 55), (2, 83)]⟩,
  ⟨key, 71, "NP 7", [(1, 55), (2, 84)]⟩,
  ⟨key, 72, "NP 1", [(1, 55), (2, 85)]⟩,
  ⟨key, 73, "NP period", [(1, 55), (2, 86)]⟩,
  ⟨key, 74, "LT Arrow", [(1, 56), (2, 87)]⟩,
  ⟨key, 75, "NP asterisk", [(1, 56), (2, 88)]⟩,
  ⟨key, 76, "NP 5", [(1, 56), (2, 89)]⟩,
  ⟨key, 77, "NP plus", [(1, 56), (2, 90)]⟩,
  ⟨key, 78, "Spacebar", [(1, 57), (2, 91)]⟩,
  ⟨key, 79, "NP 8", [(1, 57), (2, 92)]⟩,
  ⟨key, 80, "NP 2", [(1, 57), (2, 93)]⟩,
  ⟨key, 81, "RT Arrow", [(1, 58), (2, 94)]⟩,
  ⟨key, 82, "NP divide", [(1, 58), (2, 95)]⟩,
  ⟨key, 83, "NP 6", [(1, 58), (2, 96)]⟩,
  ⟨key, 84, "Down Arrow", [(1, 59), (2, 97)]⟩,
  ⟨key, 85, "NP 9", [(1, 59), (2, 98)]⟩,
  ⟨key, 86, "NP 3", [(1, 59), (2, 99)]⟩,
  ⟨key, 87, "Home", [(1, 60), (2, 100)]⟩,
  ⟨key, 88, "Clear", [(1, 61), (2, 101)]⟩,
  ⟨chip, 1, "ATmega2560-16AU", [(1, 163), (2, 162), (3, 161), (4, 160), (5, 159), (6, 158),
    (7, 157), (8, 156), (9, 155), (10, 112), (11, 109), (12, 174), (13, 172), (14, 170),
    (15, 168), (16, 173), (17, 171), (18, 169), (19, 154), (20, 178), (21, 177), (22, 179),
    (23, 175), (24, 164), (25, 165), (26, 166), (27, 167), (28, 153), (29, 152), (30, 176),
    (31, 112), (32, 109), (33, 111), (34, 110), (35, 151), (36, 150), (37, 149), (38, 148),
    (39, 147), (40, 146), (41, 145), (42, 144), (43, 143), (44, 142), (45, 141), (46, 140),
    (47, 139), (48, 184), (49, 185), (50, 186), (51, 138), (52, 137), (53, 54), (54, 55),
    (55, 56), (56, 57), (57, 58), (58, 59), (59, 60), (60, 61), (61, 112), (62, 109), (63, 2),
    (64, 3), (65, 63), (66, 1), (67, 31), (68, 32), (69, 62), (70, 136), (71, 190), (72, 189),
    (73, 188), (74, 103), (75, 102), (76, 104), (77, 105), (78, 187), (79, 33), (80, 112),
    (81, 109), (82, 135), (83, 134), (84, 133), (85, 132), (86, 131), (87, 130), (88, 129),
    (89, 128), (90, 180), (91, 182), (92, 181), (93, 183), (94, 127), (95, 126), (96, 125),
    (97, 124), (98, 123), (99, 109), (100, 112)]⟩]

/-- The names of the nets of the Sol-20 keyboard with the controller on the board. -/
def solIntegratedNames : List (Nat × String) := [
  (1, "/Row3"), (2, "/Row0"), (3, "/Row1"), (4, "Net-(D5-Pad2)"), (5, "Net-(D7-Pad2)"),
  (6, "Net-(D8-Pad2)"), (7, "Net-(D9-Pad2)"), (8, "Net-(D10-Pad2)"), (9, "Net-(D11-Pad2)"),
  (10, "Net-(D12-Pad2)"), (11, "Net-(D13-Pad2)"), (12, "Net-(D14-Pad2)"), (13, "Net-(D15-Pad2)"),
  (14, "Net-(D16-Pad2)"), (15, "Net-(D18-Pad2)"), (16, "Net-(D19-Pad2)"), (17, "Net-(D20-Pad2)"),
  (18, "Net-(D22-Pad2)"), (19, "Net-(D23-Pad2)"), (20, "Net-(D24-Pad2)"), (21, "Net-(D25-Pad2)"),
  (22, "Net-(D26-Pad2)"), (23, "Net-(D27-Pad2)"), (24, "Net-(D28-Pad2)"), (25, "Net-(D29-Pad2)"),
  (26, "Net-(D30-Pad2)"), (27, "Net-(D31-Pad2)"), (28, "Net-(D32-Pad2)"), (29, "Net-(D34-Pad2)"),
  (30, "Net-(D36-Pad2)"), (31, "/Row4"), (32, "/Row5"), (33, "/Row7"), (34, "Net-(D41-Pad2)"),
  (35, "Net-(D42-Pad2)"), (36, "Net-(D43-Pad2)"), (37, "Net-(D45-Pad2)"), (38, "Net-(D46-Pad2)"),
  (39, "Net-(D47-Pad2)"), (40, "Net-(D48-Pad2)"), (41, "Net-(D49-Pad2)"), (42, "Net-(D50-Pad2)"),
  (43, "Net-(D51-Pad2)"), (44, "Net-(D52-Pad2)"), (45, "Net-(D53-Pad2)"), (46, "Net-(D54-Pad2)"),
  (47, "Net-(D55-Pad2)"), (48, "Net-(D56-Pad2)"), (49, "Net-(D57-Pad2)"), (50, "Net-(D58-Pad2)"),
  (51, "Net-(D59-Pad2)"), (52, "Net-(D60-Pad2)"), (53, "Net-(D61-Pad2)"), (54, "/Col0"),
  (55, "/Col1"), (56, "/Col2"), (57, "/Col3"), (58, "/Col4"), (59, "/Col5"), (60, "/Col6"),
  (61, "/Col7"), (62, "/Row6"), (63, "/Row2"), (64, "Net-(D2-Pad2)"), (65, "Net-(D3-Pad2)"),
  (66, "Net-(D4-Pad2)"), (67, "Net-(D6-Pad2)"), (68, "Net-(D17-Pad2)"), (69, "Net-(D21-Pad2)"),
  (70, "Net-(D37-Pad2)"), (71, "Net-(D38-Pad2)"), (72, "Net-(D39-Pad2)"), (73, "Net-(D40-Pad2)"),
  (74, "Net-(D44-Pad2)"), (75, "Net-(D1-Pad2)"), (76, "Net-(D33-Pad2)"), (77, "Net-(D35-Pad2)"),
  (78, "Net-(D62-Pad2)"), (79, "Net-(D63-Pad2)"), (80, "Net-(D64-Pad2)"), (81, "Net-(D65-Pad2)"),
  (82, "Net-(D66-Pad2)"), (83, "Net-(D67-Pad2)"), (84, "Net-(D68-Pad2)"), (85, "Net-(D69-Pad2)"),
  (86, "Net-(D70-Pad2)"), (87, "Net-(D71-Pad2)"), (88, "Net-(D72-Pad2)"), (89, "Net-(D73-Pad2)"),
  (90, "Net-(D74-Pad2)"), (91, "Net-(D75-Pad2)"), (92, "Net-(D76-Pad2)"), (93, "Net-(D77-Pad2)"),
  (94, "Net-(D78-Pad2)"), (95, "Net-(D79-Pad2)"), (96, "Net-(D80-Pad2)"), (97, "Net-(D81-Pad2)"),
  (98, "Net-(D82-Pad2)"), (99, "Net-(D83-Pad2)"), (100, "Net-(D84-Pad2)"),
  (101, "Net-(D85-Pad2)"), (102, "/Row11"), (103, "/Row12"), (104, "/Row10"), (105, "/Row9"),
  (106, "Net-(LED1-Pad1)"), (107, "Net-(LED2-Pad1)"), (108, "Net-(LED3-Pad1)"), (109, "GND"),
  (110, "Net-(C1-Pad1)"), (111, "Net-(C2-Pad1)"), (112, "VCC"), (113, "Net-(D86-Pad1)"),
  (114, "Net-(D87-Pad1)"), (115, "Net-(D88-Pad1)"), (116, "Net-(D89-Pad1)"),
  (117, "Net-(D90-Pad1)"), (118, "Net-(D91-Pad1)"), (119, "Net-(D92-Pad1)"),
  (120, "Net-(D93-Pad1)"), (121, "Net-(J3-Pad8)"), (122, "Net-(J3-Pad7)"),
  (123, "Net-(U1-Pad98)"), (124, "Net-(U1-Pad97)"), (125, "Net-(U1-Pad96)"),
  (126, "Net-(U1-Pad95)"), (127, "Net-(U1-Pad94)"), (128, "Net-(U1-Pad89)"),
  (129, "Net-(U1-Pad88)"), (130, "Net-(U1-Pad87)"), (131, "Net-(U1-Pad86)"),
  (132, "Net-(U1-Pad85)"), (133, "Net-(U1-Pad84)"), (134, "Net-(U1-Pad83)"),
  (135, "Net-(U1-Pad82)"), (136, "Net-(U1-Pad70)"), (137, "Net-(U1-Pad52)"),
  (138, "Net-(U1-Pad51)"), (139, "Net-(U1-Pad47)"), (140, "Net-(U1-Pad46)"),
  (141, "Net-(U1-Pad45)"), (142, "Net-(U1-Pad44)"), (143, "Net-(U1-Pad43)"),
  (144, "Net-(U1-Pad42)"), (145, "Net-(U1-Pad41)"), (146, "Net-(U1-Pad40)"),
  (147, "Net-(U1-Pad39)"), (148, "Net-(U1-Pad38)"), (149, "Net-(U1-Pad37)"),
  (150, "Net-(U1-Pad36)"), (151, "Net-(U1-Pad35)"), (152, "Net-(U1-Pad29)"),
  (153, "Net-(U1-Pad28)"), (154, "Net-(U1-Pad19)"), (155, "Net-(U1-Pad9)"),
  (156, "Net-(U1-Pad8)"), (157, "Net-(U1-Pad7)"), (158, "Net-(U1-Pad6)"), (159, "Net-(U1-Pad5)"),
  (160, "Net-(U1-Pad4)"), (161, "Net-(U1-Pad3)"), (162, "Net-(U1-Pad2)"), (163, "Net-(U1-Pad1)"),
  (164, "/encoder/OUT1"), (165, "/encoder/OUT2"), (166, "/encoder/OUT3"), (167, "/encoder/D7"),
  (168, "/encoder/D3"), (169, "/encoder/D6"), (170, "/encoder/D2"), (171, "/encoder/D5"),
  (172, "/encoder/D1"), (173, "/encoder/D4"), (174, "/encoder/D0"), (175, "/encoder/~STROBE"),
  (176, "/encoder/~RESET"), (177, "/encoder/MOSI"), (178, "/encoder/SCK"),
  (179, "/encoder/MISO"), (180, "/encoder/TDI"), (181, "/encoder/TMS"), (182, "/encoder/TDO"),
  (183, "/encoder/TCK"), (184, "/encoder/LED1"), (185, "/encoder/LED2"), (186, "/encoder/LED3"),
  (187, "/encoder/Row8"), (188, "/encoder/Row13"), (189, "/encoder/Row14"),
  (190, "/encoder/Row15")]

/-- The Apple encoder (hardware/apple2-encoder/apple-encoder.kicad_pcb). -/
def encoder : List Part := [
  ⟨bypassed, 1, "1N4148", [(1, 122), (2, 4)]⟩,
  ⟨bypassed, 2, "1N4148", [(1, 123), (2, 2)]⟩,
  ⟨bypassed, 3, "1N4148", [(1, 124), (2, 6)]⟩,
  ⟨bypassed, 4, "1N4148", [(1, 47), (2, 7)]⟩,
  ⟨bypassed, 5, "1N4148", [(1, 48), (2, 28)]⟩,
  ⟨bypassed, 6, "1N4148", [(1, 49), (2, 34)]⟩,
  ⟨bypassed, 7, "1N4148", [(1, 50), (2, 32)]⟩,
  ⟨bypassed, 8, "1N4148", [(1, 51), (2, 30)]⟩,
  ⟨bypassed, 9, "1N4148", [(1, 52), (2, 3)]⟩,
  ⟨bypassed, 10, "1N4148", [(1, 53), (2, 24)]⟩,
  ⟨bypassed, 11, "1N4148", [(1, 37), (2, 5)]⟩,
  ⟨bypassed, 12, "1N4148", [(1, 38), (2, 23)]⟩,
  ⟨bypassed, 13, "1N4148", [(1, 39), (2, 29)]⟩,
  ⟨bypassed, 14, "1N4148", [(1, 40), (2, 27)]⟩,
  ⟨bypassed, 15, "1N4148", [(1, 41), (2, 33)]⟩,
  ⟨bypassed, 16, "1N4148", [(1, 42), (2, 31)]⟩,
  ⟨diode, 17, "1N4148", [(1, 3), (2, 125)]⟩,
  ⟨diode, 18, "1N4148", [(1, 7), (2, 126)]⟩,
  ⟨diode, 19, "1N4148", [(1, 4), (2, 127)]⟩,
  ⟨diode, 20, "1N4148", [(1, 43), (2, 15)]⟩,
  ⟨diode, 21, "1N4148", [(1, 63), (2, 17)]⟩,
  ⟨diode, 22, "1N4148", [(1, 64), (2, 19)]⟩,
  ⟨diode, 23, "1N4148", [(1, 65), (2, 21)]⟩,
  ⟨diode, 24, "1N4148", [(1, 44), (2, 16)]⟩,
  ⟨diode, 25, "1N4148", [(1, 45), (2, 18)]⟩,
  ⟨diode, 26, "1N4148", [(1, 46), (2, 20)]⟩,
  ⟨diode, 27, "1N4148", [(1, 54), (2, 22)]⟩,
  ⟨connector, 1, "Apple 2", [(1, 113), (2, 26), (3, 58), (4, 67), (5, 13), (6, 12), (7, 14),
    (8, 1), (9, 66), (10, 10), (11, 11), (12, 25), (13, 9), (14, 68), (15, 69), (16, 70)]⟩,
  ⟨connector, 2, "Apple 1", [(1, 58), (2, 11), (3, 10), (4, 9), (5, 25), (6, 12), (7, 13),
    (8, 14), (9, 1), (10, 71), (11, 72), (12, 56), (13, 73), (14, 26), (15, 113), (16, 113)]⟩,
  ⟨connector, 3, "UART", [(1, 113), (2, 35), (3, 36), (4, 1)]⟩,
  ⟨connector, 4, "Outputs", [(1, 1), (2, 58), (3, 57), (4, 56), (5, 113)]⟩,
  ⟨connector, 5, "SOL-20", [(1, 1), (2, 113), (3, 26), (4, 57), (5, 25), (6, 9), (7, 10),
    (8, 11), (9, 113), (10, 1), (11, 1), (12, 113), (13, 58), (14, 56), (15, 12), (16, 13),
    (17, 14), (18, 8), (19, 113), (20, 1)]⟩,
  ⟨connector, 6, "Programming", [(1, 121), (2, 1), (3, 120), (4, 113), (5, 119), (6, 118),
    (7, 117), (8, 116), (9, 115), (10, 1), (11, 151), (12, 113), (13, 150), (14, 149), (15, 118),
    (16, 1)]⟩,
  ⟨connector, 7, "Custom Connector 1 / Proto", [(1, 128), (2, 130), (3, 132), (4, 134), (5, 136),
    (6, 138), (7, 140), (8, 142), (9, 129), (10, 131), (11, 133), (12, 135), (13, 137),
    (14, 139), (15, 141), (16, 143)]⟩,
  ⟨connector, 8, "Apple II Matrix", [(1, 114), (2, 19), (3, 15), (4, 55), (5, 3), (6, 4),
    (7, 24), (8, 2), (9, 5), (10, 6), (11, 18), (12, 23), (13, 17), (14, 16), (15, 7), (16, 28),
    (17, 15), (18, 27), (19, 18), (20, 34), (21, 17), (22, 34), (23, 34), (24, 16), (25, 148)]⟩,
  ⟨connector, 10, "Keyboard", [(1, 22), (2, 15), (3, 21), (4, 125), (5, 20), (6, 113), (7, 19),
    (8, 55), (9, 18), (10, 15), (11, 17), (12, 126), (13, 16), (14, 113), (15, 15), (16, 60),
    (17, 7), (18, 15), (19, 23), (20, 127), (21, 6), (22, 113), (23, 5), (24, 59), (25, 2),
    (26, 147), (27, 24), (28, 146), (29, 4), (30, 145), (31, 3), (32, 144), (33, 30), (34, 29),
    (35, 31), (36, 28), (37, 32), (38, 27), (39, 33), (40, 34)]⟩,
  ⟨resistor, 1, "10k", [(1, 113), (2, 118)]⟩,
  ⟨dip, 1, "Options", [(1, 29), (2, 29), (3, 29), (4, 29), (5, 29), (6, 29), (7, 29), (8, 29),
    (9, 54), (10, 65), (11, 46), (12, 64), (13, 45), (14, 63), (15, 44), (16, 43)]⟩,
  ⟨chip, 1, "ATmega2560-16AU", [(1, 112), (2, 36), (3, 35), (4, 111), (5, 110), (6, 109),
    (7, 108), (8, 107), (9, 106), (10, 113), (11, 1), (12, 25), (13, 9), (14, 10), (15, 11),
    (16, 12), (17, 13), (18, 14), (19, 105), (20, 150), (21, 149), (22, 151), (23, 26), (24, 56),
    (25, 57), (26, 58), (27, 8), (28, 104), (29, 103), (30, 118), (31, 113), (32, 1), (33, 62),
    (34, 61), (35, 102), (36, 101), (37, 100), (38, 99), (39, 98), (40, 97), (41, 96), (42, 95),
    (43, 94), (44, 93), (45, 92), (46, 91), (47, 90), (48, 55), (49, 60), (50, 59), (51, 89),
    (52, 88), (53, 15), (54, 16), (55, 17), (56, 18), (57, 19), (58, 20), (59, 21), (60, 22),
    (61, 113), (62, 1), (63, 52), (64, 122), (65, 53), (66, 123), (67, 37), (68, 124), (69, 38),
    (70, 87), (71, 51), (72, 42), (73, 50), (74, 41), (75, 49), (76, 40), (77, 48), (78, 39),
    (79, 47), (80, 113), (81, 1), (82, 86), (83, 85), (84, 84), (85, 83), (86, 82), (87, 81),
    (88, 80), (89, 79), (90, 115), (91, 120), (92, 119), (93, 121), (94, 78), (95, 77), (96, 76),
    (97, 75), (98, 74), (99, 1), (100, 113)]⟩]

/-- The names of the nets of the Apple encoder. -/
def encoderNames : List (Nat × String) := [
  (1, "GND"), (2, "/Row3"), (3, "/Row0"), (4, "/Row1"), (5, "/Row4"), (6, "/Row5"), (7, "/Row7"),
  (8, "/D7"), (9, "/D1"), (10, "/D2"), (11, "/D3"), (12, "/D4"), (13, "/D5"), (14, "/D6"),
  (15, "/Col0"), (16, "/Col1"), (17, "/Col2"), (18, "/Col3"), (19, "/Col4"), (20, "/Col5"),
  (21, "/Col6"), (22, "/Col7"), (23, "/Row6"), (24, "/Row2"), (25, "/D0"), (26, "/~STROBE"),
  (27, "/Row10"), (28, "/Row9"), (29, "/Row8"), (30, "/Row15"), (31, "/Row14"), (32, "/Row13"),
  (33, "/Row12"), (34, "/Row11"), (35, "/Tx"), (36, "/Rx"), (37, "Net-(D11-Pad1)"),
  (38, "Net-(D12-Pad1)"), (39, "Net-(D13-Pad1)"), (40, "Net-(D14-Pad1)"), (41, "Net-(D15-Pad1)"),
  (42, "Net-(D16-Pad1)"), (43, "Net-(D20-Pad1)"), (44, "Net-(D24-Pad1)"), (45, "Net-(D25-Pad1)"),
  (46, "Net-(D26-Pad1)"), (47, "Net-(D4-Pad1)"), (48, "Net-(D5-Pad1)"), (49, "Net-(D6-Pad1)"),
  (50, "Net-(D7-Pad1)"), (51, "Net-(D8-Pad1)"), (52, "Net-(D9-Pad1)"), (53, "Net-(D10-Pad1)"),
  (54, "Net-(D27-Pad1)"), (55, "/LED1"), (56, "/OUT1"), (57, "/OUT2"), (58, "/OUT3"),
  (59, "/LED3"), (60, "/LED2"), (61, "Net-(C1-Pad1)"), (62, "Net-(C2-Pad1)"),
  (63, "Net-(D21-Pad1)"), (64, "Net-(D22-Pad1)"), (65, "Net-(D23-Pad1)"), (66, "Net-(J1-Pad9)"),
  (67, "Net-(J1-Pad4)"), (68, "Net-(J1-Pad14)"), (69, "Net-(J1-Pad15)"), (70, "Net-(J1-Pad16)"),
  (71, "Net-(J2-Pad10)"), (72, "Net-(J2-Pad11)"), (73, "Net-(J2-Pad13)"), (74, "Net-(U1-Pad98)"),
  (75, "Net-(U1-Pad97)"), (76, "Net-(U1-Pad96)"), (77, "Net-(U1-Pad95)"), (78, "Net-(U1-Pad94)"),
  (79, "Net-(U1-Pad89)"), (80, "Net-(U1-Pad88)"), (81, "Net-(U1-Pad87)"), (82, "Net-(U1-Pad86)"),
  (83, "Net-(U1-Pad85)"), (84, "Net-(U1-Pad84)"), (85, "Net-(U1-Pad83)"), (86, "Net-(U1-Pad82)"),
  (87, "Net-(U1-Pad70)"), (88, "Net-(U1-Pad52)"), (89, "Net-(U1-Pad51)"), (90, "Net-(U1-Pad47)"),
  (91, "Net-(U1-Pad46)"), (92, "Net-(U1-Pad45)"), (93, "Net-(U1-Pad44)"), (94, "Net-(U1-Pad43)"),
  (95, "Net-(U1-Pad42)"), (96, "Net-(U1-Pad41)"), (97, "Net-(U1-Pad40)"), (98, "Net-(U1-Pad39)"),
  (99, "Net-(U1-Pad38)"), (100, "Net-(U1-Pad37)"), (101, "Net-(U1-Pad36)"),
  (102, "Net-(U1-Pad35)"), (103, "Net-(U1-Pad29)"), (104, "Net-(U1-Pad28)"),
  (105, "Net-(U1-Pad19)"), (106, "Net-(U1-Pad9)"), (107, "Net-(U1-Pad8)"),
  (108, "Net-(U1-Pad7)"), (109, "Net-(U1-Pad6)"), (110, "Net-(U1-Pad5)"), (111, "Net-(U1-Pad4)"),
  (112, "Net-(U1-Pad1)"), (113, "VCC"), (114, "Net-(J8-Pad1)"), (115, "/TDI"),
  (116, "Net-(J6-Pad8)"), (117, "Net-(J6-Pad7)"), (118, "/~RESET"), (119, "/TMS"), (120, "/TDO"),
  (121, "/TCK"), (122, "Net-(D1-Pad1)"), (123, "Net-(D2-Pad1)"), (124, "Net-(D3-Pad1)"),
  (125, "Net-(D17-Pad2)"), (126, "Net-(D18-Pad2)"), (127, "Net-(D19-Pad2)"),
  (128, "Net-(J7-Pad1)"), (129, "Net-(J7-Pad9)"), (130, "Net-(J7-Pad2)"),
  (131, "Net-(J7-Pad10)"), (132, "Net-(J7-Pad3)"), (133, "Net-(J7-Pad11)"),
  (134, "Net-(J7-Pad4)"), (135, "Net-(J7-Pad12)"), (136, "Net-(J7-Pad5)"),
  (137, "Net-(J7-Pad13)"), (138, "Net-(J7-Pad6)"), (139, "Net-(J7-Pad14)"),
  (140, "Net-(J7-Pad7)"), (141, "Net-(J7-Pad15)"), (142, "Net-(J7-Pad8)"),
  (143, "Net-(J7-Pad16)"), (144, "Net-(J10-Pad32)"), (145, "Net-(J10-Pad30)"),
  (146, "Net-(J10-Pad28)"), (147, "Net-(J10-Pad26)"), (148, "Net-(J8-Pad25)"), (149, "/MOSI"),
  (150, "/SCK"), (151, "/MISO")]

/-- The adapter for several keyboards (hardware/multi-kbd-adapter/multi-adapter.kicad_pcb). -/
def adapter : List Part := [
  ⟨connector, 1, "Apple 2", [(1, 19), (2, 10), (3, 20), (4, 12), (5, 7), (6, 6), (7, 8), (8, 1),
    (9, 11), (10, 4), (11, 5), (12, 9), (13, 3), (14, 13), (15, 14), (16, 15)]⟩,
  ⟨connector, 2, "Apple 1", [(1, 20), (2, 5), (3, 4), (4, 3), (5, 9), (6, 6), (7, 7), (8, 8),
    (9, 1), (10, 16), (11, 17), (12, 21), (13, 18), (14, 10), (15, 19), (16, 19)]⟩,
  ⟨connector, 4, "Outputs", [(1, 1), (2, 20), (3, 22), (4, 21), (5, 19)]⟩,
  ⟨connector, 5, "SOL-20", [(1, 1), (2, 19), (3, 10), (4, 22), (5, 9), (6, 3), (7, 4), (8, 5),
    (9, 19), (10, 1), (11, 1), (12, 19), (13, 20), (14, 21), (15, 6), (16, 7), (17, 8), (18, 2),
    (19, 19), (20, 1)]⟩]

/-- The names of the nets of the adapter for several keyboards. -/
def adapterNames : List (Nat × String) := [
  (1, "GND"), (2, "/D7"), (3, "/D1"), (4, "/D2"), (5, "/D3"), (6, "/D4"), (7, "/D5"), (8, "/D6"),
  (9, "/D0"), (10, "/~STROBE"), (11, "Net-(J1-Pad9)"), (12, "Net-(J1-Pad4)"),
  (13, "Net-(J1-Pad14)"), (14, "Net-(J1-Pad15)"), (15, "Net-(J1-Pad16)"), (16, "Net-(J2-Pad10)"),
  (17, "Net-(J2-Pad11)"), (18, "Net-(J2-Pad13)"), (19, "VCC"), (20, "/~RESET"),
  (21, "/CLR-LOCAL"), (22, "/BREAK")]

/-- The OSI interface (hardware/interface-osi/interface-osi.kicad_pcb). -/
def osi : List Part := [
  ⟨bypassed, 1, "1N4148", [(1, 30), (2, 17)]⟩,
  ⟨bypassed, 2, "1N4148", [(1, 31), (2, 5)]⟩,
  ⟨bypassed, 3, "1N4148", [(1, 32), (2, 16)]⟩,
  ⟨bypassed, 4, "1N4148", [(1, 33), (2, 3)]⟩,
  ⟨bypassed, 5, "1N4148", [(1, 35), (2, 2)]⟩,
  ⟨bypassed, 6, "1N4148", [(1, 48), (2, 6)]⟩,
  ⟨bypassed, 7, "1N4148", [(1, 49), (2, 7)]⟩,
  ⟨bypassed, 8, "1N4148", [(1, 50), (2, 4)]⟩,
  ⟨diode, 9, "1N4148", [(1, 51), (2, 26)]⟩,
  ⟨diode, 10, "1N4148", [(1, 52), (2, 26)]⟩,
  ⟨diode, 11, "1N4148", [(1, 53), (2, 26)]⟩,
  ⟨diode, 12, "1N4148", [(1, 54), (2, 26)]⟩,
  ⟨diode, 13, "1N4148", [(1, 55), (2, 26)]⟩,
  ⟨diode, 14, "1N4148", [(1, 56), (2, 26)]⟩,
  ⟨diode, 15, "1N4148", [(1, 57), (2, 26)]⟩,
  ⟨diode, 16, "1N4148", [(1, 58), (2, 26)]⟩,
  ⟨diode, 17, "1N4148", [(1, 27), (2, 34)]⟩,
  ⟨diode, 18, "1N4148", [(1, 3), (2, 59)]⟩,
  ⟨diode, 19, "1N4148", [(1, 60), (2, 29)]⟩,
  ⟨diode, 20, "1N4148", [(1, 63), (2, 96)]⟩,
  ⟨diode, 21, "1N4148", [(1, 28), (2, 1)]⟩,
  ⟨connector, 1, "KBD port", [(1, 47), (2, 45), (3, 43), (4, 41), (5, 39), (6, 37), (7, 36),
    (8, 18), (9, 46), (10, 44), (11, 42), (12, 40), (13, 38), (14, 19), (15, 122), (16, 1)]⟩,
  ⟨connector, 2, "Key Matrix", [(1, 15), (2, 64), (3, 14), (4, 65), (5, 13), (6, 66), (7, 12),
    (8, 67), (9, 11), (10, 62), (11, 10), (12, 18), (13, 9), (14, 1), (15, 8), (16, 61), (17, 7),
    (18, 34), (19, 16), (20, 18), (21, 6), (22, 68), (23, 5), (24, 77), (25, 2), (26, 89),
    (27, 17), (28, 90), (29, 4), (30, 91), (31, 3), (32, 92), (33, 93), (34, 94), (35, 97),
    (36, 98), (37, 99), (38, 100), (39, 101), (40, 102)]⟩,
  ⟨connector, 3, "Expansion", [(1, 3), (2, 4), (3, 17), (4, 2), (5, 5), (6, 6), (7, 16), (8, 7),
    (9, 8), (10, 9), (11, 10), (12, 11), (13, 12), (14, 13), (15, 14), (16, 15)]⟩,
  ⟨connector, 4, "Sound", [(1, 4), (2, 7), (3, 9), (4, 10), (5, 11), (6, 12), (7, 13), (8, 14),
    (9, 15), (10, 22), (11, 18), (12, 20)]⟩,
  ⟨connector, 5, "~RESET~", [(1, 96), (2, 18)]⟩,
  ⟨jumper, 1, "Jumper_3_Open", [(1, 122), (2, 70), (3, 103)]⟩,
  ⟨jumper, 2, "Shiftlock_Select", [(1, 104), (2, 105), (3, 104), (4, 106), (5, 104), (6, 107)]⟩,
  ⟨resistor, 1, "68K", [(1, 51), (2, 69)]⟩,
  ⟨resistor, 2, "33K", [(1, 52), (2, 70)]⟩,
  ⟨resistor, 3, "16K", [(1, 53), (2, 71)]⟩,
  ⟨resistor, 4, "8.2K", [(1, 54), (2, 72)]⟩,
  ⟨resistor, 5, "3.9K", [(1, 55), (2, 73)]⟩,
  ⟨resistor, 6, "2K", [(1, 56), (2, 74)]⟩,
  ⟨resistor, 7, "1K", [(1, 57), (2, 75)]⟩,
  ⟨resistor, 8, "510K", [(1, 58), (2, 76)]⟩,
  ⟨resistor, 9, "4.7k", [(1, 21), (2, 108)]⟩,
  ⟨resistor, 10, "1k", [(1, 21), (2, 18)]⟩,
  ⟨resistor, 11, "1k", [(1, 1), (2, 62)]⟩,
  ⟨resistor, 12, "100k", [(1, 62), (2, 23)]⟩,
  ⟨resistor, 13, "1k", [(1, 1), (2, 34)]⟩,
  ⟨resistor, 14, "1M", [(1, 34), (2, 27)]⟩,
  ⟨resistor, 15, "22k", [(1, 78), (2, 107)]⟩,
  ⟨resistor, 16, "220k", [(1, 24), (2, 106)]⟩,
  ⟨resistor, 17, "1k", [(1, 25), (2, 79)]⟩,
  ⟨resistor, 18, "1K", [(1, 18), (2, 60)]⟩,
  ⟨pullups, 1, "4.7k", [(1, 1), (2, 8), (3, 9), (4, 10), (5, 11), (6, 12), (7, 13), (8, 14),
    (9, 15)]⟩,
  ⟨chip, 1, "74LS138", [(1, 42), (2, 40), (3, 44), (4, 38), (5, 18), (6, 1), (7, 109), (8, 18),
    (9, 110), (10, 111), (11, 112), (12, 113), (13, 114), (14, 115), (15, 116), (16, 1)]⟩,
  ⟨chip, 2, "74LS04", [(1, 114), (2, 80), (3, 113), (4, 117), (5, 118), (6, 119), (7, 18),
    (8, 103), (9, 122), (10, 120), (11, 121), (12, 123), (13, 124), (14, 1)]⟩,
  ⟨chip, 3, "74HC240", [(1, 109), (2, 8), (3, 84), (4, 9), (5, 83), (6, 10), (7, 82), (8, 11),
    (9, 81), (10, 18), (11, 41), (12, 41), (13, 43), (14, 43), (15, 45), (16, 45), (17, 47),
    (18, 47), (19, 18), (20, 1)]⟩,
  ⟨chip, 4, "74LS240", [(1, 109), (2, 12), (3, 88), (4, 13), (5, 87), (6, 14), (7, 86), (8, 15),
    (9, 85), (10, 18), (11, 46), (12, 46), (13, 36), (14, 36), (15, 37), (16, 37), (17, 39),
    (18, 39), (19, 18), (20, 1)]⟩,
  ⟨chip, 5, "74LS373", [(1, 18), (2, 33), (3, 84), (4, 83), (5, 50), (6, 30), (7, 82), (8, 81),
    (9, 35), (10, 18), (11, 117), (12, 31), (13, 88), (14, 87), (15, 48), (16, 32), (17, 86),
    (18, 85), (19, 49), (20, 1)]⟩,
  ⟨chip, 6, "74LS373", [(1, 18), (2, 69), (3, 84), (4, 83), (5, 70), (6, 71), (7, 82), (8, 81),
    (9, 72), (10, 18), (11, 80), (12, 73), (13, 88), (14, 87), (15, 74), (16, 75), (17, 86),
    (18, 85), (19, 76), (20, 1)]⟩,
  ⟨chip, 7, "74LS193", [(1, 70), (2, 125), (3, 126), (4, 127), (5, 1), (6, 128), (7, 129),
    (8, 18), (9, 72), (10, 71), (11, 130), (12, 131), (13, 132), (14, 18), (15, 69), (16, 1)]⟩,
  ⟨chip, 8, "74LS193", [(1, 74), (2, 133), (3, 134), (4, 132), (5, 131), (6, 135), (7, 136),
    (8, 18), (9, 76), (10, 75), (11, 130), (12, 137), (13, 130), (14, 18), (15, 73), (16, 1)]⟩,
  ⟨chip, 9, "74LS390", [(1, 138), (2, 18), (3, 127), (4, 70), (5, 139), (6, 140), (7, 138),
    (8, 18), (9, 141), (10, 142), (11, 143), (12, 18), (13, 108), (14, 19), (15, 130), (16, 1)]⟩,
  ⟨chip, 10, "74HC14", [(1, 78), (2, 106), (3, 106), (4, 107), (5, 23), (6, 105), (7, 18),
    (8, 95), (9, 27), (10, 79), (11, 95), (12, 63), (13, 60), (14, 1)]⟩,
  ⟨chip, 11, "4066", [(1, 59), (2, 8), (3, 78), (4, 24), (5, 105), (6, 104), (7, 18), (8, 18),
    (9, 61), (10, 25), (11, 60), (12, 95), (13, 104), (14, 1)]⟩]

/-- The names of the nets of the OSI interface. -/
def osiNames : List (Nat × String) := [
  (1, "+5V"), (2, "/Row3"), (3, "/Row0"), (4, "/Row1"), (5, "/Row4"), (6, "/Row5"), (7, "/Row7"),
  (8, "/Col0"), (9, "/Col1"), (10, "/Col2"), (11, "/Col3"), (12, "/Col4"), (13, "/Col5"),
  (14, "/Col6"), (15, "/Col7"), (16, "/Row6"), (17, "/Row2"), (18, "GND"), (19, "/NI"),
  (20, "/Sound/Noise1"), (21, "Net-(C15-Pad1)"), (22, "/Sound/Noise2"), (23, "Net-(C17-Pad2)"),
  (24, "Net-(C19-Pad2)"), (25, "Net-(C20-Pad1)"), (26, "Net-(D10-A)"), (27, "Net-(D17-K)"),
  (28, "Net-(D21-K)"), (29, "Net-(D19-A)"), (30, "Net-(D1-K)"), (31, "Net-(D2-K)"),
  (32, "Net-(D3-K)"), (33, "Net-(D4-K)"), (34, "/special_keys/Break_1"), (35, "Net-(D5-K)"),
  (36, "/D6"), (37, "/D5"), (38, "/~{KBE}"), (39, "/D4"), (40, "/~{A1}"), (41, "/D3"),
  (42, "/~{A0}"), (43, "/D2"), (44, "/R-~{W}"), (45, "/D1"), (46, "/D7"), (47, "/D0"),
  (48, "Net-(D6-K)"), (49, "Net-(D7-K)"), (50, "Net-(D8-K)"), (51, "Net-(D9-K)"),
  (52, "Net-(D10-K)"), (53, "Net-(D11-K)"), (54, "Net-(D12-K)"), (55, "Net-(D13-K)"),
  (56, "Net-(D14-K)"), (57, "Net-(D15-K)"), (58, "Net-(D16-K)"), (59, "Net-(D18-A)"),
  (60, "Net-(D19-K)"), (61, "/special_keys/ShiftLock_LED-"), (62, "/special_keys/ShiftLock_1"),
  (63, "Net-(D20-K)"), (64, "unconnected-(J2-Pin_2-Pad2)"), (65, "unconnected-(J2-Pin_4-Pad4)"),
  (66, "unconnected-(J2-Pin_6-Pad6)"), (67, "unconnected-(J2-Pin_8-Pad8)"),
  (68, "unconnected-(J2-Pin_22-Pad22)"), (69, "/Sound/S0"), (70, "/Sound/S1"), (71, "/Sound/S2"),
  (72, "/Sound/S3"), (73, "/Sound/S4"), (74, "/Sound/S5"), (75, "/Sound/S6"), (76, "/Sound/S7"),
  (77, "unconnected-(J2-Pin_24-Pad24)"), (78, "Net-(R15-Pad1)"), (79, "Net-(R17-Pad2)"),
  (80, "/Sound/SOUND_EN"), (81, "/Sound/KD3"), (82, "/Sound/KD2"), (83, "/Sound/KD1"),
  (84, "/Sound/KD0"), (85, "/Sound/KD7"), (86, "/Sound/KD6"), (87, "/Sound/KD5"),
  (88, "/Sound/KD4"), (89, "unconnected-(J2-Pin_26-Pad26)"),
  (90, "unconnected-(J2-Pin_28-Pad28)"), (91, "unconnected-(J2-Pin_30-Pad30)"),
  (92, "unconnected-(J2-Pin_32-Pad32)"), (93, "unconnected-(J2-Pin_33-Pad33)"),
  (94, "unconnected-(J2-Pin_34-Pad34)"), (95, "Net-(U10-Pad11)"), (96, "/special_keys/~{RESET}"),
  (97, "unconnected-(J2-Pin_35-Pad35)"), (98, "unconnected-(J2-Pin_36-Pad36)"),
  (99, "unconnected-(J2-Pin_37-Pad37)"), (100, "unconnected-(J2-Pin_38-Pad38)"),
  (101, "unconnected-(J2-Pin_39-Pad39)"), (102, "unconnected-(J2-Pin_40-Pad40)"),
  (103, "Net-(JP1-B)"), (104, "Net-(JP2-Pin_1)"), (105, "Net-(JP2-Pin_2)"),
  (106, "Net-(JP2-Pin_4)"), (107, "Net-(JP2-Pin_6)"), (108, "Net-(U9B-Q0)"),
  (109, "Net-(U1-O7)"), (110, "unconnected-(U1-O6-Pad9)"), (111, "unconnected-(U1-O5-Pad10)"),
  (112, "unconnected-(U1-O4-Pad11)"), (113, "Net-(U1-O3)"), (114, "Net-(U1-O2)"),
  (115, "unconnected-(U1-O1-Pad14)"), (116, "unconnected-(U1-O0-Pad15)"), (117, "Net-(U5-LE)"),
  (118, "unconnected-(U2-Pad5)"), (119, "unconnected-(U2-Pad6)"),
  (120, "unconnected-(U2-Pad10)"), (121, "unconnected-(U2-Pad11)"), (122, "/~{S1}"),
  (123, "unconnected-(U2-Pad12)"), (124, "unconnected-(U2-Pad13)"),
  (125, "unconnected-(U7-QB-Pad2)"), (126, "unconnected-(U7-QA-Pad3)"), (127, "Net-(U7-DOWN)"),
  (128, "unconnected-(U7-QC-Pad6)"), (129, "unconnected-(U7-QD-Pad7)"),
  (130, "Net-(U7-~{LOAD})"), (131, "Net-(U7-~{CO})"), (132, "Net-(U7-~{BO})"),
  (133, "unconnected-(U8-QB-Pad2)"), (134, "unconnected-(U8-QA-Pad3)"),
  (135, "unconnected-(U8-QC-Pad6)"), (136, "unconnected-(U8-QD-Pad7)"),
  (137, "unconnected-(U8-~{CO}-Pad12)"), (138, "Net-(U9A-Q3)"),
  (139, "unconnected-(U9A-Q1-Pad5)"), (140, "unconnected-(U9A-Q2-Pad6)"),
  (141, "unconnected-(U9B-Q3-Pad9)"), (142, "unconnected-(U9B-Q2-Pad10)"),
  (143, "unconnected-(U9B-Q1-Pad11)")]

end Asdf.Pcb.Data
