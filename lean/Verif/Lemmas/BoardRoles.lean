import Verif.Lemmas.Circuit

/-! # What the nets of the boards are for (written by `tools/gen_roles.py`) -/

namespace Asdf.Pcb.Roles

open Asdf.Spec Role

def classic328_kb : List (Nat × Role) := [
  (1, row 3), (2, row 0), (3, row 1), (4, mid 0 4 (.key 62)), (5, mid 4 0 (.key 1)),
  (6, mid 5 0 (.key 2)), (7, mid 6 0 (.key 3)), (8, mid 4 1 (.key 4)), (9, mid 5 1 (.key 5)),
  (10, mid 6 1 (.key 6)), (11, mid 7 1 (.key 7)), (12, mid 4 2 (.key 8)), (13, mid 5 2 (.key 9)),
  (14, mid 6 2 (.key 10)), (15, mid 7 2 (.key 11)), (16, mid 4 3 (.key 12)),
  (17, mid 5 3 (.key 13)), (18, mid 6 3 (.key 14)), (19, mid 7 3 (.key 15)),
  (20, mid 4 4 (.key 16)), (21, mid 5 4 (.key 17)), (22, mid 6 4 (.key 18)),
  (23, mid 7 4 (.key 19)), (24, mid 4 5 (.key 20)), (25, mid 5 5 (.key 21)),
  (26, mid 6 5 (.key 22)), (27, mid 7 5 (.key 23)), (28, mid 4 6 (.key 24)),
  (29, mid 5 6 (.key 25)), (30, mid 6 6 (.key 26)), (31, row 4), (32, row 5), (33, row 7),
  (34, mid 7 6 (.key 27)), (35, mid 4 7 (.key 28)), (36, mid 5 7 (.key 29)),
  (37, mid 6 7 (.key 30)), (38, mid 7 7 (.key 31)), (39, mid 2 0 (.key 33)),
  (40, mid 3 0 (.key 63)), (41, mid 0 1 (.key 35)), (42, mid 1 1 (.key 36)),
  (43, mid 2 1 (.key 37)), (44, mid 3 1 (.key 38)), (45, mid 0 2 (.key 39)),
  (46, mid 1 2 (.key 40)), (47, mid 2 2 (.key 41)), (48, mid 3 2 (.key 42)),
  (49, mid 1 3 (.key 43)), (50, mid 2 3 (.key 44)), (51, mid 3 3 (.key 45)),
  (52, mid 1 4 (.key 46)), (53, mid 2 4 (.key 47)), (54, col 0), (55, col 1), (56, col 2),
  (57, col 3), (58, col 4), (59, col 5), (60, col 6), (61, col 7), (62, row 6), (63, row 2),
  (64, mid 3 4 (.key 48)), (65, mid 0 5 (.key 49)), (66, mid 1 5 (.key 50)),
  (67, mid 2 5 (.key 51)), (68, mid 3 5 (.key 52)), (69, mid 0 6 (.key 53)),
  (70, mid 1 6 (.key 54)), (71, mid 2 6 (.key 55)), (72, mid 3 6 (.key 56)),
  (73, mid 0 7 (.key 57)), (74, mid 1 7 (.key 58)), (75, mid 2 7 (.key 59)),
  (76, mid 3 7 (.key 60)), (77, row 11), (78, row 12), (79, row 10), (80, row 13), (81, row 9),
  (82, row 14), (83, row 8), (84, row 15), (91, mid 1 0 (.key 34)), (92, col 0),
  (95, mid 7 0 (.key 32)), (96, col 0), (99, mid 0 0 (.key 61)), (100, col 0)]

def classic328_io : List (Nat × Role) := [
  (3, row 3), (4, row 0), (5, row 1), (6, row 4), (7, row 5), (8, row 7), (16, col 0),
  (17, col 1), (18, col 2), (19, col 3), (20, col 4), (21, col 5), (22, col 6), (23, col 7),
  (24, row 6), (25, row 2), (35, row 10), (36, row 9), (37, row 8), (38, row 15), (39, row 14),
  (40, row 13), (41, row 12), (42, row 11), (45, row 0), (46, row 1), (47, row 8), (48, row 10),
  (49, row 12), (50, row 14), (51, dmid 8 0 (.dip 1)), (52, dmid 8 2 (.dip 3)),
  (53, dmid 8 4 (.dip 5)), (54, dmid 8 6 (.dip 7)), (55, dmid 8 7 (.dip 8)), (56, row 3),
  (57, row 7), (58, row 9), (59, row 11), (60, row 13), (61, row 15), (62, row 2), (63, row 4),
  (64, row 6), (65, row 5), (91, dmid 8 1 (.dip 2)), (92, dmid 8 3 (.dip 4)),
  (93, dmid 8 5 (.dip 6)), (94, mid 0 0 (.key 61)), (95, mid 7 0 (.key 32)),
  (96, mid 1 0 (.key 34))]

def classic328_ways : List (List Net) := [
  [.io 16, .io 51, .io 37, .io 47], [.io 17, .io 91, .io 37, .io 47],
  [.io 18, .io 52, .io 37, .io 47], [.io 19, .io 92, .io 37, .io 47],
  [.io 20, .io 53, .io 37, .io 47], [.io 21, .io 93, .io 37, .io 47],
  [.io 22, .io 54, .io 37, .io 47], [.io 23, .io 55, .io 37, .io 47],
  [.io 16, .kb 54, .kb 5, .kb 31, .io 6, .io 63], [.io 16, .kb 54, .kb 6, .kb 32, .io 7, .io 65],
  [.io 16, .kb 54, .kb 7, .kb 62, .io 24, .io 64],
  [.io 17, .kb 55, .kb 8, .kb 31, .io 6, .io 63], [.io 17, .kb 55, .kb 9, .kb 32, .io 7, .io 65],
  [.io 17, .kb 55, .kb 10, .kb 62, .io 24, .io 64],
  [.io 17, .kb 55, .kb 11, .kb 33, .io 8, .io 57],
  [.io 18, .kb 56, .kb 12, .kb 31, .io 6, .io 63],
  [.io 18, .kb 56, .kb 13, .kb 32, .io 7, .io 65],
  [.io 18, .kb 56, .kb 14, .kb 62, .io 24, .io 64],
  [.io 18, .kb 56, .kb 15, .kb 33, .io 8, .io 57],
  [.io 19, .kb 57, .kb 16, .kb 31, .io 6, .io 63],
  [.io 19, .kb 57, .kb 17, .kb 32, .io 7, .io 65],
  [.io 19, .kb 57, .kb 18, .kb 62, .io 24, .io 64],
  [.io 19, .kb 57, .kb 19, .kb 33, .io 8, .io 57],
  [.io 20, .kb 58, .kb 20, .kb 31, .io 6, .io 63],
  [.io 20, .kb 58, .kb 21, .kb 32, .io 7, .io 65],
  [.io 20, .kb 58, .kb 22, .kb 62, .io 24, .io 64],
  [.io 20, .kb 58, .kb 23, .kb 33, .io 8, .io 57],
  [.io 21, .kb 59, .kb 24, .kb 31, .io 6, .io 63],
  [.io 21, .kb 59, .kb 25, .kb 32, .io 7, .io 65],
  [.io 21, .kb 59, .kb 26, .kb 62, .io 24, .io 64],
  [.io 21, .kb 59, .kb 27, .kb 33, .io 8, .io 57],
  [.io 22, .kb 60, .kb 28, .kb 31, .io 6, .io 63],
  [.io 22, .kb 60, .kb 29, .kb 32, .io 7, .io 65],
  [.io 22, .kb 60, .kb 30, .kb 62, .io 24, .io 64],
  [.io 22, .kb 60, .kb 34, .kb 33, .io 8, .io 57],
  [.io 23, .kb 61, .kb 35, .kb 31, .io 6, .io 63],
  [.io 23, .kb 61, .kb 36, .kb 32, .io 7, .io 65],
  [.io 23, .kb 61, .kb 37, .kb 62, .io 24, .io 64],
  [.io 23, .kb 61, .kb 38, .kb 33, .io 8, .io 57],
  [.io 16, .kb 96, .kb 95, .io 95, .io 8, .io 57],
  [.io 16, .kb 54, .kb 39, .kb 63, .io 25, .io 62],
  [.io 16, .kb 92, .kb 91, .io 96, .io 5, .io 46],
  [.io 17, .kb 55, .kb 41, .kb 2, .io 4, .io 45], [.io 17, .kb 55, .kb 42, .kb 3, .io 5, .io 46],
  [.io 17, .kb 55, .kb 43, .kb 63, .io 25, .io 62],
  [.io 17, .kb 55, .kb 44, .kb 1, .io 3, .io 56], [.io 18, .kb 56, .kb 45, .kb 2, .io 4, .io 45],
  [.io 18, .kb 56, .kb 46, .kb 3, .io 5, .io 46],
  [.io 18, .kb 56, .kb 47, .kb 63, .io 25, .io 62],
  [.io 18, .kb 56, .kb 48, .kb 1, .io 3, .io 56], [.io 19, .kb 57, .kb 49, .kb 3, .io 5, .io 46],
  [.io 19, .kb 57, .kb 50, .kb 63, .io 25, .io 62],
  [.io 19, .kb 57, .kb 51, .kb 1, .io 3, .io 56], [.io 20, .kb 58, .kb 52, .kb 3, .io 5, .io 46],
  [.io 20, .kb 58, .kb 53, .kb 63, .io 25, .io 62],
  [.io 20, .kb 58, .kb 64, .kb 1, .io 3, .io 56], [.io 21, .kb 59, .kb 65, .kb 2, .io 4, .io 45],
  [.io 21, .kb 59, .kb 66, .kb 3, .io 5, .io 46],
  [.io 21, .kb 59, .kb 67, .kb 63, .io 25, .io 62],
  [.io 21, .kb 59, .kb 68, .kb 1, .io 3, .io 56], [.io 22, .kb 60, .kb 69, .kb 2, .io 4, .io 45],
  [.io 22, .kb 60, .kb 70, .kb 3, .io 5, .io 46],
  [.io 22, .kb 60, .kb 71, .kb 63, .io 25, .io 62],
  [.io 22, .kb 60, .kb 72, .kb 1, .io 3, .io 56], [.io 23, .kb 61, .kb 73, .kb 2, .io 4, .io 45],
  [.io 23, .kb 61, .kb 74, .kb 3, .io 5, .io 46],
  [.io 23, .kb 61, .kb 75, .kb 63, .io 25, .io 62],
  [.io 23, .kb 61, .kb 76, .kb 1, .io 3, .io 56],
  [.io 16, .kb 100, .kb 99, .io 94, .io 4, .io 45],
  [.io 20, .kb 58, .kb 4, .kb 2, .io 4, .io 45], [.io 16, .kb 54, .kb 40, .kb 1, .io 3, .io 56]]

def classic2560_kb : List (Nat × Role) := [
  (1, row 3), (2, row 0), (3, row 1), (4, mid 0 4 (.key 62)), (5, mid 4 0 (.key 1)),
  (6, mid 5 0 (.key 2)), (7, mid 6 0 (.key 3)), (8, mid 4 1 (.key 4)), (9, mid 5 1 (.key 5)),
  (10, mid 6 1 (.key 6)), (11, mid 7 1 (.key 7)), (12, mid 4 2 (.key 8)), (13, mid 5 2 (.key 9)),
  (14, mid 6 2 (.key 10)), (15, mid 7 2 (.key 11)), (16, mid 4 3 (.key 12)),
  (17, mid 5 3 (.key 13)), (18, mid 6 3 (.key 14)), (19, mid 7 3 (.key 15)),
  (20, mid 4 4 (.key 16)), (21, mid 5 4 (.key 17)), (22, mid 6 4 (.key 18)),
  (23, mid 7 4 (.key 19)), (24, mid 4 5 (.key 20)), (25, mid 5 5 (.key 21)),
  (26, mid 6 5 (.key 22)), (27, mid 7 5 (.key 23)), (28, mid 4 6 (.key 24)),
  (29, mid 5 6 (.key 25)), (30, mid 6 6 (.key 26)), (31, row 4), (32, row 5), (33, row 7),
  (34, mid 7 6 (.key 27)), (35, mid 4 7 (.key 28)), (36, mid 5 7 (.key 29)),
  (37, mid 6 7 (.key 30)), (38, mid 7 7 (.key 31)), (39, mid 2 0 (.key 33)),
  (40, mid 3 0 (.key 63)), (41, mid 0 1 (.key 35)), (42, mid 1 1 (.key 36)),
  (43, mid 2 1 (.key 37)), (44, mid 3 1 (.key 38)), (45, mid 0 2 (.key 39)),
  (46, mid 1 2 (.key 40)), (47, mid 2 2 (.key 41)), (48, mid 3 2 (.key 42)),
  (49, mid 1 3 (.key 43)), (50, mid 2 3 (.key 44)), (51, mid 3 3 (.key 45)),
  (52, mid 1 4 (.key 46)), (53, mid 2 4 (.key 47)), (54, col 0), (55, col 1), (56, col 2),
  (57, col 3), (58, col 4), (59, col 5), (60, col 6), (61, col 7), (62, row 6), (63, row 2),
  (64, mid 3 4 (.key 48)), (65, mid 0 5 (.key 49)), (66, mid 1 5 (.key 50)),
  (67, mid 2 5 (.key 51)), (68, mid 3 5 (.key 52)), (69, mid 0 6 (.key 53)),
  (70, mid 1 6 (.key 54)), (71, mid 2 6 (.key 55)), (72, mid 3 6 (.key 56)),
  (73, mid 0 7 (.key 57)), (74, mid 1 7 (.key 58)), (75, mid 2 7 (.key 59)),
  (76, mid 3 7 (.key 60)), (77, row 11), (78, row 12), (79, row 10), (80, row 13), (81, row 9),
  (82, row 14), (83, row 8), (84, row 15), (91, mid 1 0 (.key 34)), (92, col 0),
  (95, mid 7 0 (.key 32)), (96, col 0), (99, mid 0 0 (.key 61)), (100, col 0)]

def classic2560_io : List (Nat × Role) := [
  (2, row 3), (3, row 0), (4, row 1), (5, row 4), (6, row 5), (7, row 7), (15, col 0),
  (16, col 1), (17, col 2), (18, col 3), (19, col 4), (20, col 5), (21, col 6), (22, col 7),
  (23, row 6), (24, row 2), (27, row 10), (28, row 9), (29, row 8), (30, row 15), (31, row 14),
  (32, row 13), (33, row 12), (34, row 11), (37, row 4), (38, row 6), (39, row 8), (40, row 10),
  (41, row 12), (42, row 14), (43, dmid 8 0 (.dip 1)), (44, dmid 8 1 (.dip 2)),
  (45, dmid 8 3 (.dip 4)), (46, dmid 8 5 (.dip 6)), (47, row 7), (48, row 9), (49, row 11),
  (50, row 13), (51, row 15), (52, row 0), (53, row 2), (54, dmid 8 7 (.dip 8)),
  (63, dmid 8 2 (.dip 3)), (64, dmid 8 4 (.dip 5)), (65, dmid 8 6 (.dip 7)), (137, row 1),
  (138, row 3), (139, row 5), (140, mid 0 0 (.key 61)), (141, mid 7 0 (.key 32)),
  (142, mid 1 0 (.key 34))]

def classic2560_ways : List (List Net) := [
  [.io 15, .io 43, .io 29, .io 39], [.io 16, .io 44, .io 29, .io 39],
  [.io 17, .io 63, .io 29, .io 39], [.io 18, .io 45, .io 29, .io 39],
  [.io 19, .io 64, .io 29, .io 39], [.io 20, .io 46, .io 29, .io 39],
  [.io 21, .io 65, .io 29, .io 39], [.io 22, .io 54, .io 29, .io 39],
  [.io 15, .kb 54, .kb 5, .kb 31, .io 5, .io 37],
  [.io 15, .kb 54, .kb 6, .kb 32, .io 6, .io 139],
  [.io 15, .kb 54, .kb 7, .kb 62, .io 23, .io 38],
  [.io 16, .kb 55, .kb 8, .kb 31, .io 5, .io 37],
  [.io 16, .kb 55, .kb 9, .kb 32, .io 6, .io 139],
  [.io 16, .kb 55, .kb 10, .kb 62, .io 23, .io 38],
  [.io 16, .kb 55, .kb 11, .kb 33, .io 7, .io 47],
  [.io 17, .kb 56, .kb 12, .kb 31, .io 5, .io 37],
  [.io 17, .kb 56, .kb 13, .kb 32, .io 6, .io 139],
  [.io 17, .kb 56, .kb 14, .kb 62, .io 23, .io 38],
  [.io 17, .kb 56, .kb 15, .kb 33, .io 7, .io 47],
  [.io 18, .kb 57, .kb 16, .kb 31, .io 5, .io 37],
  [.io 18, .kb 57, .kb 17, .kb 32, .io 6, .io 139],
  [.io 18, .kb 57, .kb 18, .kb 62, .io 23, .io 38],
  [.io 18, .kb 57, .kb 19, .kb 33, .io 7, .io 47],
  [.io 19, .kb 58, .kb 20, .kb 31, .io 5, .io 37],
  [.io 19, .kb 58, .kb 21, .kb 32, .io 6, .io 139],
  [.io 19, .kb 58, .kb 22, .kb 62, .io 23, .io 38],
  [.io 19, .kb 58, .kb 23, .kb 33, .io 7, .io 47],
  [.io 20, .kb 59, .kb 24, .kb 31, .io 5, .io 37],
  [.io 20, .kb 59, .kb 25, .kb 32, .io 6, .io 139],
  [.io 20, .kb 59, .kb 26, .kb 62, .io 23, .io 38],
  [.io 20, .kb 59, .kb 27, .kb 33, .io 7, .io 47],
  [.io 21, .kb 60, .kb 28, .kb 31, .io 5, .io 37],
  [.io 21, .kb 60, .kb 29, .kb 32, .io 6, .io 139],
  [.io 21, .kb 60, .kb 30, .kb 62, .io 23, .io 38],
  [.io 21, .kb 60, .kb 34, .kb 33, .io 7, .io 47],
  [.io 22, .kb 61, .kb 35, .kb 31, .io 5, .io 37],
  [.io 22, .kb 61, .kb 36, .kb 32, .io 6, .io 139],
  [.io 22, .kb 61, .kb 37, .kb 62, .io 23, .io 38],
  [.io 22, .kb 61, .kb 38, .kb 33, .io 7, .io 47],
  [.io 15, .kb 96, .kb 95, .io 141, .io 7, .io 47],
  [.io 15, .kb 54, .kb 39, .kb 63, .io 24, .io 53],
  [.io 15, .kb 92, .kb 91, .io 142, .io 4, .io 137],
  [.io 16, .kb 55, .kb 41, .kb 2, .io 3, .io 52],
  [.io 16, .kb 55, .kb 42, .kb 3, .io 4, .io 137],
  [.io 16, .kb 55, .kb 43, .kb 63, .io 24, .io 53],
  [.io 16, .kb 55, .kb 44, .kb 1, .io 2, .io 138],
  [.io 17, .kb 56, .kb 45, .kb 2, .io 3, .io 52],
  [.io 17, .kb 56, .kb 46, .kb 3, .io 4, .io 137],
  [.io 17, .kb 56, .kb 47, .kb 63, .io 24, .io 53],
  [.io 17, .kb 56, .kb 48, .kb 1, .io 2, .io 138],
  [.io 18, .kb 57, .kb 49, .kb 3, .io 4, .io 137],
  [.io 18, .kb 57, .kb 50, .kb 63, .io 24, .io 53],
  [.io 18, .kb 57, .kb 51, .kb 1, .io 2, .io 138],
  [.io 19, .kb 58, .kb 52, .kb 3, .io 4, .io 137],
  [.io 19, .kb 58, .kb 53, .kb 63, .io 24, .io 53],
  [.io 19, .kb 58, .kb 64, .kb 1, .io 2, .io 138],
  [.io 20, .kb 59, .kb 65, .kb 2, .io 3, .io 52],
  [.io 20, .kb 59, .kb 66, .kb 3, .io 4, .io 137],
  [.io 20, .kb 59, .kb 67, .kb 63, .io 24, .io 53],
  [.io 20, .kb 59, .kb 68, .kb 1, .io 2, .io 138],
  [.io 21, .kb 60, .kb 69, .kb 2, .io 3, .io 52],
  [.io 21, .kb 60, .kb 70, .kb 3, .io 4, .io 137],
  [.io 21, .kb 60, .kb 71, .kb 63, .io 24, .io 53],
  [.io 21, .kb 60, .kb 72, .kb 1, .io 2, .io 138],
  [.io 22, .kb 61, .kb 73, .kb 2, .io 3, .io 52],
  [.io 22, .kb 61, .kb 74, .kb 3, .io 4, .io 137],
  [.io 22, .kb 61, .kb 75, .kb 63, .io 24, .io 53],
  [.io 22, .kb 61, .kb 76, .kb 1, .io 2, .io 138],
  [.io 15, .kb 100, .kb 99, .io 140, .io 3, .io 52],
  [.io 19, .kb 58, .kb 4, .kb 2, .io 3, .io 52], [.io 15, .kb 54, .kb 40, .kb 1, .io 2, .io 138]]

def sol328_kb : List (Nat × Role) := [
  (1, row 3), (2, row 0), (3, row 1), (4, mid 4 1 (.key 8)), (5, mid 6 1 (.key 10)),
  (6, mid 7 1 (.key 11)), (7, mid 4 2 (.key 12)), (8, mid 5 2 (.key 13)), (9, mid 6 2 (.key 14)),
  (10, mid 7 2 (.key 15)), (11, mid 4 3 (.key 16)), (12, mid 5 3 (.key 17)),
  (13, mid 6 3 (.key 18)), (14, mid 7 3 (.key 19)), (15, mid 5 4 (.key 21)),
  (16, mid 6 4 (.key 22)), (17, mid 7 4 (.key 23)), (18, mid 5 5 (.key 25)),
  (19, mid 6 5 (.key 26)), (20, mid 7 5 (.key 27)), (21, mid 4 6 (.key 28)),
  (22, mid 5 6 (.key 29)), (23, mid 6 6 (.key 30)), (24, mid 7 6 (.key 31)),
  (25, mid 4 7 (.key 32)), (26, mid 5 7 (.key 33)), (27, mid 6 7 (.key 34)),
  (28, mid 7 7 (.key 35)), (29, mid 1 0 (.key 37)), (30, mid 3 0 (.key 39)), (31, row 4),
  (32, row 5), (33, row 7), (34, mid 0 2 (.key 44)), (35, mid 1 2 (.key 45)),
  (36, mid 2 2 (.key 46)), (37, mid 0 3 (.key 48)), (38, mid 1 3 (.key 49)),
  (39, mid 2 3 (.key 50)), (40, mid 3 3 (.key 51)), (41, mid 0 4 (.key 52)),
  (42, mid 1 4 (.key 53)), (43, mid 2 4 (.key 54)), (44, mid 3 4 (.key 55)),
  (45, mid 0 5 (.key 56)), (46, mid 1 5 (.key 57)), (47, mid 2 5 (.key 58)),
  (48, mid 3 5 (.key 59)), (49, mid 0 6 (.key 60)), (50, mid 1 6 (.key 61)),
  (51, mid 2 6 (.key 62)), (52, mid 0 7 (.key 63)), (53, mid 1 7 (.key 64)), (54, col 0),
  (55, col 1), (56, col 2), (57, col 3), (58, col 4), (59, col 5), (60, col 6), (61, col 7),
  (62, row 6), (63, row 2), (64, mid 5 0 (.key 5)), (65, mid 6 0 (.key 6)),
  (66, mid 7 0 (.key 7)), (67, mid 5 1 (.key 9)), (68, mid 4 4 (.key 20)),
  (69, mid 4 5 (.key 24)), (70, mid 0 1 (.key 40)), (71, mid 1 1 (.key 41)),
  (72, mid 2 1 (.key 42)), (73, mid 3 1 (.key 43)), (74, mid 3 2 (.key 47)), (75, col 0),
  (76, stub 7), (77, col 0), (78, stub 1), (83, col 0), (84, stub 0), (85, mid 4 0 (.key 4)),
  (86, mid 0 0 (.key 36)), (87, mid 2 0 (.key 38)), (88, mid 2 7 (.key 65)),
  (89, mid 9 0 (.key 66)), (90, mid 10 0 (.key 67)), (91, mid 11 0 (.key 68)),
  (92, mid 12 0 (.key 69)), (93, mid 9 1 (.key 70)), (94, mid 10 1 (.key 71)),
  (95, mid 11 1 (.key 72)), (96, mid 12 1 (.key 73)), (97, mid 9 2 (.key 74)),
  (98, mid 10 2 (.key 75)), (99, mid 11 2 (.key 76)), (100, mid 12 2 (.key 77)),
  (101, mid 9 3 (.key 78)), (102, mid 10 3 (.key 79)), (103, mid 11 3 (.key 80)),
  (104, mid 9 4 (.key 81)), (105, mid 10 4 (.key 82)), (106, mid 11 4 (.key 83)),
  (107, mid 9 5 (.key 84)), (108, mid 10 5 (.key 85)), (109, mid 11 5 (.key 86)),
  (110, mid 9 6 (.key 87)), (111, mid 9 7 (.key 88)), (112, row 11), (113, row 12),
  (114, row 10), (115, row 9), (125, row 15), (126, row 8), (127, row 14), (128, row 13)]

def sol328_io : List (Nat × Role) := [
  (3, row 3), (4, row 0), (5, row 1), (6, row 4), (7, row 5), (8, row 7), (16, col 0),
  (17, col 1), (18, col 2), (19, col 3), (20, col 4), (21, col 5), (22, col 6), (23, col 7),
  (24, row 6), (25, row 2), (35, row 10), (36, row 9), (37, row 8), (38, row 15), (39, row 14),
  (40, row 13), (41, row 12), (42, row 11), (45, row 0), (46, row 1), (47, row 8), (48, row 10),
  (49, row 12), (50, row 14), (51, dmid 8 0 (.dip 1)), (52, dmid 8 2 (.dip 3)),
  (53, dmid 8 4 (.dip 5)), (54, dmid 8 6 (.dip 7)), (55, dmid 8 7 (.dip 8)), (56, row 3),
  (57, row 7), (58, row 9), (59, row 11), (60, row 13), (61, row 15), (62, row 2), (63, row 4),
  (64, row 6), (65, row 5), (91, dmid 8 1 (.dip 2)), (92, dmid 8 3 (.dip 4)),
  (93, dmid 8 5 (.dip 6)), (94, stub 0), (95, stub 7), (96, stub 1)]

def sol328_ways : List (List Net) := [
  [.io 16, .io 51, .io 37, .io 47], [.io 17, .io 91, .io 37, .io 47],
  [.io 18, .io 52, .io 37, .io 47], [.io 19, .io 92, .io 37, .io 47],
  [.io 20, .io 53, .io 37, .io 47], [.io 21, .io 93, .io 37, .io 47],
  [.io 22, .io 54, .io 37, .io 47], [.io 23, .io 55, .io 37, .io 47],
  [.io 16, .kb 54, .kb 85, .kb 31, .io 6, .io 63],
  [.io 16, .kb 54, .kb 64, .kb 32, .io 7, .io 65],
  [.io 16, .kb 54, .kb 65, .kb 62, .io 24, .io 64],
  [.io 16, .kb 54, .kb 66, .kb 33, .io 8, .io 57],
  [.io 17, .kb 55, .kb 4, .kb 31, .io 6, .io 63],
  [.io 17, .kb 55, .kb 67, .kb 32, .io 7, .io 65],
  [.io 17, .kb 55, .kb 5, .kb 62, .io 24, .io 64],
  [.io 17, .kb 55, .kb 6, .kb 33, .io 8, .io 57], [.io 18, .kb 56, .kb 7, .kb 31, .io 6, .io 63],
  [.io 18, .kb 56, .kb 8, .kb 32, .io 7, .io 65],
  [.io 18, .kb 56, .kb 9, .kb 62, .io 24, .io 64],
  [.io 18, .kb 56, .kb 10, .kb 33, .io 8, .io 57],
  [.io 19, .kb 57, .kb 11, .kb 31, .io 6, .io 63],
  [.io 19, .kb 57, .kb 12, .kb 32, .io 7, .io 65],
  [.io 19, .kb 57, .kb 13, .kb 62, .io 24, .io 64],
  [.io 19, .kb 57, .kb 14, .kb 33, .io 8, .io 57],
  [.io 20, .kb 58, .kb 68, .kb 31, .io 6, .io 63],
  [.io 20, .kb 58, .kb 15, .kb 32, .io 7, .io 65],
  [.io 20, .kb 58, .kb 16, .kb 62, .io 24, .io 64],
  [.io 20, .kb 58, .kb 17, .kb 33, .io 8, .io 57],
  [.io 21, .kb 59, .kb 69, .kb 31, .io 6, .io 63],
  [.io 21, .kb 59, .kb 18, .kb 32, .io 7, .io 65],
  [.io 21, .kb 59, .kb 19, .kb 62, .io 24, .io 64],
  [.io 21, .kb 59, .kb 20, .kb 33, .io 8, .io 57],
  [.io 22, .kb 60, .kb 21, .kb 31, .io 6, .io 63],
  [.io 22, .kb 60, .kb 22, .kb 32, .io 7, .io 65],
  [.io 22, .kb 60, .kb 23, .kb 62, .io 24, .io 64],
  [.io 22, .kb 60, .kb 24, .kb 33, .io 8, .io 57],
  [.io 23, .kb 61, .kb 25, .kb 31, .io 6, .io 63],
  [.io 23, .kb 61, .kb 26, .kb 32, .io 7, .io 65],
  [.io 23, .kb 61, .kb 27, .kb 62, .io 24, .io 64],
  [.io 23, .kb 61, .kb 28, .kb 33, .io 8, .io 57],
  [.io 16, .kb 54, .kb 86, .kb 2, .io 4, .io 45], [.io 16, .kb 54, .kb 29, .kb 3, .io 5, .io 46],
  [.io 16, .kb 54, .kb 87, .kb 63, .io 25, .io 62],
  [.io 16, .kb 54, .kb 30, .kb 1, .io 3, .io 56], [.io 17, .kb 55, .kb 70, .kb 2, .io 4, .io 45],
  [.io 17, .kb 55, .kb 71, .kb 3, .io 5, .io 46],
  [.io 17, .kb 55, .kb 72, .kb 63, .io 25, .io 62],
  [.io 17, .kb 55, .kb 73, .kb 1, .io 3, .io 56], [.io 18, .kb 56, .kb 34, .kb 2, .io 4, .io 45],
  [.io 18, .kb 56, .kb 35, .kb 3, .io 5, .io 46],
  [.io 18, .kb 56, .kb 36, .kb 63, .io 25, .io 62],
  [.io 18, .kb 56, .kb 74, .kb 1, .io 3, .io 56], [.io 19, .kb 57, .kb 37, .kb 2, .io 4, .io 45],
  [.io 19, .kb 57, .kb 38, .kb 3, .io 5, .io 46],
  [.io 19, .kb 57, .kb 39, .kb 63, .io 25, .io 62],
  [.io 19, .kb 57, .kb 40, .kb 1, .io 3, .io 56], [.io 20, .kb 58, .kb 41, .kb 2, .io 4, .io 45],
  [.io 20, .kb 58, .kb 42, .kb 3, .io 5, .io 46],
  [.io 20, .kb 58, .kb 43, .kb 63, .io 25, .io 62],
  [.io 20, .kb 58, .kb 44, .kb 1, .io 3, .io 56], [.io 21, .kb 59, .kb 45, .kb 2, .io 4, .io 45],
  [.io 21, .kb 59, .kb 46, .kb 3, .io 5, .io 46],
  [.io 21, .kb 59, .kb 47, .kb 63, .io 25, .io 62],
  [.io 21, .kb 59, .kb 48, .kb 1, .io 3, .io 56], [.io 22, .kb 60, .kb 49, .kb 2, .io 4, .io 45],
  [.io 22, .kb 60, .kb 50, .kb 3, .io 5, .io 46],
  [.io 22, .kb 60, .kb 51, .kb 63, .io 25, .io 62],
  [.io 23, .kb 61, .kb 52, .kb 2, .io 4, .io 45], [.io 23, .kb 61, .kb 53, .kb 3, .io 5, .io 46],
  [.io 23, .kb 61, .kb 88, .kb 63, .io 25, .io 62],
  [.io 16, .kb 54, .kb 89, .kb 115, .io 36, .io 58],
  [.io 16, .kb 54, .kb 90, .kb 114, .io 35, .io 48],
  [.io 16, .kb 54, .kb 91, .kb 112, .io 42, .io 59],
  [.io 16, .kb 54, .kb 92, .kb 113, .io 41, .io 49],
  [.io 17, .kb 55, .kb 93, .kb 115, .io 36, .io 58],
  [.io 17, .kb 55, .kb 94, .kb 114, .io 35, .io 48],
  [.io 17, .kb 55, .kb 95, .kb 112, .io 42, .io 59],
  [.io 17, .kb 55, .kb 96, .kb 113, .io 41, .io 49],
  [.io 18, .kb 56, .kb 97, .kb 115, .io 36, .io 58],
  [.io 18, .kb 56, .kb 98, .kb 114, .io 35, .io 48],
  [.io 18, .kb 56, .kb 99, .kb 112, .io 42, .io 59],
  [.io 18, .kb 56, .kb 100, .kb 113, .io 41, .io 49],
  [.io 19, .kb 57, .kb 101, .kb 115, .io 36, .io 58],
  [.io 19, .kb 57, .kb 102, .kb 114, .io 35, .io 48],
  [.io 19, .kb 57, .kb 103, .kb 112, .io 42, .io 59],
  [.io 20, .kb 58, .kb 104, .kb 115, .io 36, .io 58],
  [.io 20, .kb 58, .kb 105, .kb 114, .io 35, .io 48],
  [.io 20, .kb 58, .kb 106, .kb 112, .io 42, .io 59],
  [.io 21, .kb 59, .kb 107, .kb 115, .io 36, .io 58],
  [.io 21, .kb 59, .kb 108, .kb 114, .io 35, .io 48],
  [.io 21, .kb 59, .kb 109, .kb 112, .io 42, .io 59],
  [.io 22, .kb 60, .kb 110, .kb 115, .io 36, .io 58],
  [.io 23, .kb 61, .kb 111, .kb 115, .io 36, .io 58]]

def sol2560_kb : List (Nat × Role) := [
  (1, row 3), (2, row 0), (3, row 1), (4, mid 4 1 (.key 8)), (5, mid 6 1 (.key 10)),
  (6, mid 7 1 (.key 11)), (7, mid 4 2 (.key 12)), (8, mid 5 2 (.key 13)), (9, mid 6 2 (.key 14)),
  (10, mid 7 2 (.key 15)), (11, mid 4 3 (.key 16)), (12, mid 5 3 (.key 17)),
  (13, mid 6 3 (.key 18)), (14, mid 7 3 (.key 19)), (15, mid 5 4 (.key 21)),
  (16, mid 6 4 (.key 22)), (17, mid 7 4 (.key 23)), (18, mid 5 5 (.key 25)),
  (19, mid 6 5 (.key 26)), (20, mid 7 5 (.key 27)), (21, mid 4 6 (.key 28)),
  (22, mid 5 6 (.key 29)), (23, mid 6 6 (.key 30)), (24, mid 7 6 (.key 31)),
  (25, mid 4 7 (.key 32)), (26, mid 5 7 (.key 33)), (27, mid 6 7 (.key 34)),
  (28, mid 7 7 (.key 35)), (29, mid 1 0 (.key 37)), (30, mid 3 0 (.key 39)), (31, row 4),
  (32, row 5), (33, row 7), (34, mid 0 2 (.key 44)), (35, mid 1 2 (.key 45)),
  (36, mid 2 2 (.key 46)), (37, mid 0 3 (.key 48)), (38, mid 1 3 (.key 49)),
  (39, mid 2 3 (.key 50)), (40, mid 3 3 (.key 51)), (41, mid 0 4 (.key 52)),
  (42, mid 1 4 (.key 53)), (43, mid 2 4 (.key 54)), (44, mid 3 4 (.key 55)),
  (45, mid 0 5 (.key 56)), (46, mid 1 5 (.key 57)), (47, mid 2 5 (.key 58)),
  (48, mid 3 5 (.key 59)), (49, mid 0 6 (.key 60)), (50, mid 1 6 (.key 61)),
  (51, mid 2 6 (.key 62)), (52, mid 0 7 (.key 63)), (53, mid 1 7 (.key 64)), (54, col 0),
  (55, col 1), (56, col 2), (57, col 3), (58, col 4), (59, col 5), (60, col 6), (61, col 7),
  (62, row 6), (63, row 2), (64, mid 5 0 (.key 5)), (65, mid 6 0 (.key 6)),
  (66, mid 7 0 (.key 7)), (67, mid 5 1 (.key 9)), (68, mid 4 4 (.key 20)),
  (69, mid 4 5 (.key 24)), (70, mid 0 1 (.key 40)), (71, mid 1 1 (.key 41)),
  (72, mid 2 1 (.key 42)), (73, mid 3 1 (.key 43)), (74, mid 3 2 (.key 47)), (75, col 0),
  (76, stub 7), (77, col 0), (78, stub 1), (83, col 0), (84, stub 0), (85, mid 4 0 (.key 4)),
  (86, mid 0 0 (.key 36)), (87, mid 2 0 (.key 38)), (88, mid 2 7 (.key 65)),
  (89, mid 9 0 (.key 66)), (90, mid 10 0 (.key 67)), (91, mid 11 0 (.key 68)),
  (92, mid 12 0 (.key 69)), (93, mid 9 1 (.key 70)), (94, mid 10 1 (.key 71)),
  (95, mid 11 1 (.key 72)), (96, mid 12 1 (.key 73)), (97, mid 9 2 (.key 74)),
  (98, mid 10 2 (.key 75)), (99, mid 11 2 (.key 76)), (100, mid 12 2 (.key 77)),
  (101, mid 9 3 (.key 78)), (102, mid 10 3 (.key 79)), (103, mid 11 3 (.key 80)),
  (104, mid 9 4 (.key 81)), (105, mid 10 4 (.key 82)), (106, mid 11 4 (.key 83)),
  (107, mid 9 5 (.key 84)), (108, mid 10 5 (.key 85)), (109, mid 11 5 (.key 86)),
  (110, mid 9 6 (.key 87)), (111, mid 9 7 (.key 88)), (112, row 11), (113, row 12),
  (114, row 10), (115, row 9), (125, row 15), (126, row 8), (127, row 14), (128, row 13)]

def sol2560_io : List (Nat × Role) := [
  (2, row 3), (3, row 0), (4, row 1), (5, row 4), (6, row 5), (7, row 7), (15, col 0),
  (16, col 1), (17, col 2), (18, col 3), (19, col 4), (20, col 5), (21, col 6), (22, col 7),
  (23, row 6), (24, row 2), (27, row 10), (28, row 9), (29, row 8), (30, row 15), (31, row 14),
  (32, row 13), (33, row 12), (34, row 11), (37, row 4), (38, row 6), (39, row 8), (40, row 10),
  (41, row 12), (42, row 14), (43, dmid 8 0 (.dip 1)), (44, dmid 8 1 (.dip 2)),
  (45, dmid 8 3 (.dip 4)), (46, dmid 8 5 (.dip 6)), (47, row 7), (48, row 9), (49, row 11),
  (50, row 13), (51, row 15), (52, row 0), (53, row 2), (54, dmid 8 7 (.dip 8)),
  (63, dmid 8 2 (.dip 3)), (64, dmid 8 4 (.dip 5)), (65, dmid 8 6 (.dip 7)), (137, row 1),
  (138, row 3), (139, row 5), (140, stub 0), (141, stub 7), (142, stub 1)]

def sol2560_ways : List (List Net) := [
  [.io 15, .io 43, .io 29, .io 39], [.io 16, .io 44, .io 29, .io 39],
  [.io 17, .io 63, .io 29, .io 39], [.io 18, .io 45, .io 29, .io 39],
  [.io 19, .io 64, .io 29, .io 39], [.io 20, .io 46, .io 29, .io 39],
  [.io 21, .io 65, .io 29, .io 39], [.io 22, .io 54, .io 29, .io 39],
  [.io 15, .kb 54, .kb 85, .kb 31, .io 5, .io 37],
  [.io 15, .kb 54, .kb 64, .kb 32, .io 6, .io 139],
  [.io 15, .kb 54, .kb 65, .kb 62, .io 23, .io 38],
  [.io 15, .kb 54, .kb 66, .kb 33, .io 7, .io 47],
  [.io 16, .kb 55, .kb 4, .kb 31, .io 5, .io 37],
  [.io 16, .kb 55, .kb 67, .kb 32, .io 6, .io 139],
  [.io 16, .kb 55, .kb 5, .kb 62, .io 23, .io 38],
  [.io 16, .kb 55, .kb 6, .kb 33, .io 7, .io 47], [.io 17, .kb 56, .kb 7, .kb 31, .io 5, .io 37],
  [.io 17, .kb 56, .kb 8, .kb 32, .io 6, .io 139],
  [.io 17, .kb 56, .kb 9, .kb 62, .io 23, .io 38],
  [.io 17, .kb 56, .kb 10, .kb 33, .io 7, .io 47],
  [.io 18, .kb 57, .kb 11, .kb 31, .io 5, .io 37],
  [.io 18, .kb 57, .kb 12, .kb 32, .io 6, .io 139],
  [.io 18, .kb 57, .kb 13, .kb 62, .io 23, .io 38],
  [.io 18, .kb 57, .kb 14, .kb 33, .io 7, .io 47],
  [.io 19, .kb 58, .kb 68, .kb 31, .io 5, .io 37],
  [.io 19, .kb 58, .kb 15, .kb 32, .io 6, .io 139],
  [.io 19, .kb 58, .kb 16, .kb 62, .io 23, .io 38],
  [.io 19, .kb 58, .kb 17, .kb 33, .io 7, .io 47],
  [.io 20, .kb 59, .kb 69, .kb 31, .io 5, .io 37],
  [.io 20, .kb 59, .kb 18, .kb 32, .io 6, .io 139],
  [.io 20, .kb 59, .kb 19, .kb 62, .io 23, .io 38],
  [.io 20, .kb 59, .kb 20, .kb 33, .io 7, .io 47],
  [.io 21, .kb 60, .kb 21, .kb 31, .io 5, .io 37],
  [.io 21, .kb 60, .kb 22, .kb 32, .io 6, .io 139],
  [.io 21, .kb 60, .kb 23, .kb 62, .io 23, .io 38],
  [.io 21, .kb 60, .kb 24, .kb 33, .io 7, .io 47],
  [.io 22, .kb 61, .kb 25, .kb 31, .io 5, .io 37],
  [.io 22, .kb 61, .kb 26, .kb 32, .io 6, .io 139],
  [.io 22, .kb 61, .kb 27, .kb 62, .io 23, .io 38],
  [.io 22, .kb 61, .kb 28, .kb 33, .io 7, .io 47],
  [.io 15, .kb 54, .kb 86, .kb 2, .io 3, .io 52],
  [.io 15, .kb 54, .kb 29, .kb 3, .io 4, .io 137],
  [.io 15, .kb 54, .kb 87, .kb 63, .io 24, .io 53],
  [.io 15, .kb 54, .kb 30, .kb 1, .io 2, .io 138],
  [.io 16, .kb 55, .kb 70, .kb 2, .io 3, .io 52],
  [.io 16, .kb 55, .kb 71, .kb 3, .io 4, .io 137],
  [.io 16, .kb 55, .kb 72, .kb 63, .io 24, .io 53],
  [.io 16, .kb 55, .kb 73, .kb 1, .io 2, .io 138],
  [.io 17, .kb 56, .kb 34, .kb 2, .io 3, .io 52],
  [.io 17, .kb 56, .kb 35, .kb 3, .io 4, .io 137],
  [.io 17, .kb 56, .kb 36, .kb 63, .io 24, .io 53],
  [.io 17, .kb 56, .kb 74, .kb 1, .io 2, .io 138],
  [.io 18, .kb 57, .kb 37, .kb 2, .io 3, .io 52],
  [.io 18, .kb 57, .kb 38, .kb 3, .io 4, .io 137],
  [.io 18, .kb 57, .kb 39, .kb 63, .io 24, .io 53],
  [.io 18, .kb 57, .kb 40, .kb 1, .io 2, .io 138],
  [.io 19, .kb 58, .kb 41, .kb 2, .io 3, .io 52],
  [.io 19, .kb 58, .kb 42, .kb 3, .io 4, .io 137],
  [.io 19, .kb 58, .kb 43, .kb 63, .io 24, .io 53],
  [.io 19, .kb 58, .kb 44, .kb 1, .io 2, .io 138],
  [.io 20, .kb 59, .kb 45, .kb 2, .io 3, .io 52],
  [.io 20, .kb 59, .kb 46, .kb 3, .io 4, .io 137],
  [.io 20, .kb 59, .kb 47, .kb 63, .io 24, .io 53],
  [.io 20, .kb 59, .kb 48, .kb 1, .io 2, .io 138],
  [.io 21, .kb 60, .kb 49, .kb 2, .io 3, .io 52],
  [.io 21, .kb 60, .kb 50, .kb 3, .io 4, .io 137],
  [.io 21, .kb 60, .kb 51, .kb 63, .io 24, .io 53],
  [.io 22, .kb 61, .kb 52, .kb 2, .io 3, .io 52],
  [.io 22, .kb 61, .kb 53, .kb 3, .io 4, .io 137],
  [.io 22, .kb 61, .kb 88, .kb 63, .io 24, .io 53],
  [.io 15, .kb 54, .kb 89, .kb 115, .io 28, .io 48],
  [.io 15, .kb 54, .kb 90, .kb 114, .io 27, .io 40],
  [.io 15, .kb 54, .kb 91, .kb 112, .io 34, .io 49],
  [.io 15, .kb 54, .kb 92, .kb 113, .io 33, .io 41],
  [.io 16, .kb 55, .kb 93, .kb 115, .io 28, .io 48],
  [.io 16, .kb 55, .kb 94, .kb 114, .io 27, .io 40],
  [.io 16, .kb 55, .kb 95, .kb 112, .io 34, .io 49],
  [.io 16, .kb 55, .kb 96, .kb 113, .io 33, .io 41],
  [.io 17, .kb 56, .kb 97, .kb 115, .io 28, .io 48],
  [.io 17, .kb 56, .kb 98, .kb 114, .io 27, .io 40],
  [.io 17, .kb 56, .kb 99, .kb 112, .io 34, .io 49],
  [.io 17, .kb 56, .kb 100, .kb 113, .io 33, .io 41],
  [.io 18, .kb 57, .kb 101, .kb 115, .io 28, .io 48],
  [.io 18, .kb 57, .kb 102, .kb 114, .io 27, .io 40],
  [.io 18, .kb 57, .kb 103, .kb 112, .io 34, .io 49],
  [.io 19, .kb 58, .kb 104, .kb 115, .io 28, .io 48],
  [.io 19, .kb 58, .kb 105, .kb 114, .io 27, .io 40],
  [.io 19, .kb 58, .kb 106, .kb 112, .io 34, .io 49],
  [.io 20, .kb 59, .kb 107, .kb 115, .io 28, .io 48],
  [.io 20, .kb 59, .kb 108, .kb 114, .io 27, .io 40],
  [.io 20, .kb 59, .kb 109, .kb 112, .io 34, .io 49],
  [.io 21, .kb 60, .kb 110, .kb 115, .io 28, .io 48],
  [.io 22, .kb 61, .kb 111, .kb 115, .io 28, .io 48]]

def sol1_kb : List (Nat × Role) := [
  ]

def sol1_io : List (Nat × Role) := [
  (1, row 3), (2, row 0), (3, row 1), (4, mid 4 1 (.key 8)), (5, mid 6 1 (.key 10)),
  (6, mid 7 1 (.key 11)), (7, mid 4 2 (.key 12)), (8, mid 5 2 (.key 13)), (9, mid 6 2 (.key 14)),
  (10, mid 7 2 (.key 15)), (11, mid 4 3 (.key 16)), (12, mid 5 3 (.key 17)),
  (13, mid 6 3 (.key 18)), (14, mid 7 3 (.key 19)), (15, mid 5 4 (.key 21)),
  (16, mid 6 4 (.key 22)), (17, mid 7 4 (.key 23)), (18, mid 5 5 (.key 25)),
  (19, mid 6 5 (.key 26)), (20, mid 7 5 (.key 27)), (21, mid 4 6 (.key 28)),
  (22, mid 5 6 (.key 29)), (23, mid 6 6 (.key 30)), (24, mid 7 6 (.key 31)),
  (25, mid 4 7 (.key 32)), (26, mid 5 7 (.key 33)), (27, mid 6 7 (.key 34)),
  (28, mid 7 7 (.key 35)), (29, mid 1 0 (.key 37)), (30, mid 3 0 (.key 39)), (31, row 4),
  (32, row 5), (33, row 7), (34, mid 0 2 (.key 44)), (35, mid 1 2 (.key 45)),
  (36, mid 2 2 (.key 46)), (37, mid 0 3 (.key 48)), (38, mid 1 3 (.key 49)),
  (39, mid 2 3 (.key 50)), (40, mid 3 3 (.key 51)), (41, mid 0 4 (.key 52)),
  (42, mid 1 4 (.key 53)), (43, mid 2 4 (.key 54)), (44, mid 3 4 (.key 55)),
  (45, mid 0 5 (.key 56)), (46, mid 1 5 (.key 57)), (47, mid 2 5 (.key 58)),
  (48, mid 3 5 (.key 59)), (49, mid 0 6 (.key 60)), (50, mid 1 6 (.key 61)),
  (51, mid 2 6 (.key 62)), (52, mid 0 7 (.key 63)), (53, mid 1 7 (.key 64)), (54, col 0),
  (55, col 1), (56, col 2), (57, col 3), (58, col 4), (59, col 5), (60, col 6), (61, col 7),
  (62, row 6), (63, row 2), (64, mid 5 0 (.key 5)), (65, mid 6 0 (.key 6)),
  (66, mid 7 0 (.key 7)), (67, mid 5 1 (.key 9)), (68, mid 4 4 (.key 20)),
  (69, mid 4 5 (.key 24)), (70, mid 0 1 (.key 40)), (71, mid 1 1 (.key 41)),
  (72, mid 2 1 (.key 42)), (73, mid 3 1 (.key 43)), (74, mid 3 2 (.key 47)),
  (75, mid 4 0 (.key 4)), (76, mid 0 0 (.key 36)), (77, mid 2 0 (.key 38)),
  (78, mid 2 7 (.key 65)), (79, mid 9 0 (.key 66)), (80, mid 10 0 (.key 67)),
  (81, mid 11 0 (.key 68)), (82, mid 12 0 (.key 69)), (83, mid 9 1 (.key 70)),
  (84, mid 10 1 (.key 71)), (85, mid 11 1 (.key 72)), (86, mid 12 1 (.key 73)),
  (87, mid 9 2 (.key 74)), (88, mid 10 2 (.key 75)), (89, mid 11 2 (.key 76)),
  (90, mid 12 2 (.key 77)), (91, mid 9 3 (.key 78)), (92, mid 10 3 (.key 79)),
  (93, mid 11 3 (.key 80)), (94, mid 9 4 (.key 81)), (95, mid 10 4 (.key 82)),
  (96, mid 11 4 (.key 83)), (97, mid 9 5 (.key 84)), (98, mid 10 5 (.key 85)),
  (99, mid 11 5 (.key 86)), (100, mid 9 6 (.key 87)), (101, mid 9 7 (.key 88)), (102, row 11),
  (103, row 12), (104, row 10), (105, row 9), (113, dmid 8 3 (.dip 4)), (114, dmid 8 5 (.dip 6)),
  (115, dmid 8 7 (.dip 8)), (116, dmid 8 1 (.dip 2)), (117, dmid 8 0 (.dip 1)),
  (118, dmid 8 2 (.dip 3)), (119, dmid 8 4 (.dip 5)), (120, dmid 8 6 (.dip 7)), (187, row 8),
  (188, row 13), (189, row 14), (190, row 15)]

def sol1_ways : List (List Net) := [
  [.io 54, .io 117, .io 187], [.io 55, .io 116, .io 187], [.io 56, .io 118, .io 187],
  [.io 57, .io 113, .io 187], [.io 58, .io 119, .io 187], [.io 59, .io 114, .io 187],
  [.io 60, .io 120, .io 187], [.io 61, .io 115, .io 187], [.io 54, .io 75, .io 31],
  [.io 54, .io 64, .io 32], [.io 54, .io 65, .io 62], [.io 54, .io 66, .io 33],
  [.io 55, .io 4, .io 31], [.io 55, .io 67, .io 32], [.io 55, .io 5, .io 62],
  [.io 55, .io 6, .io 33], [.io 56, .io 7, .io 31], [.io 56, .io 8, .io 32],
  [.io 56, .io 9, .io 62], [.io 56, .io 10, .io 33], [.io 57, .io 11, .io 31],
  [.io 57, .io 12, .io 32], [.io 57, .io 13, .io 62], [.io 57, .io 14, .io 33],
  [.io 58, .io 68, .io 31], [.io 58, .io 15, .io 32], [.io 58, .io 16, .io 62],
  [.io 58, .io 17, .io 33], [.io 59, .io 69, .io 31], [.io 59, .io 18, .io 32],
  [.io 59, .io 19, .io 62], [.io 59, .io 20, .io 33], [.io 60, .io 21, .io 31],
  [.io 60, .io 22, .io 32], [.io 60, .io 23, .io 62], [.io 60, .io 24, .io 33],
  [.io 61, .io 25, .io 31], [.io 61, .io 26, .io 32], [.io 61, .io 27, .io 62],
  [.io 61, .io 28, .io 33], [.io 54, .io 76, .io 2], [.io 54, .io 29, .io 3],
  [.io 54, .io 77, .io 63], [.io 54, .io 30, .io 1], [.io 55, .io 70, .io 2],
  [.io 55, .io 71, .io 3], [.io 55, .io 72, .io 63], [.io 55, .io 73, .io 1],
  [.io 56, .io 34, .io 2], [.io 56, .io 35, .io 3], [.io 56, .io 36, .io 63],
  [.io 56, .io 74, .io 1], [.io 57, .io 37, .io 2], [.io 57, .io 38, .io 3],
  [.io 57, .io 39, .io 63], [.io 57, .io 40, .io 1], [.io 58, .io 41, .io 2],
  [.io 58, .io 42, .io 3], [.io 58, .io 43, .io 63], [.io 58, .io 44, .io 1],
  [.io 59, .io 45, .io 2], [.io 59, .io 46, .io 3], [.io 59, .io 47, .io 63],
  [.io 59, .io 48, .io 1], [.io 60, .io 49, .io 2], [.io 60, .io 50, .io 3],
  [.io 60, .io 51, .io 63], [.io 61, .io 52, .io 2], [.io 61, .io 53, .io 3],
  [.io 61, .io 78, .io 63], [.io 54, .io 79, .io 105], [.io 54, .io 80, .io 104],
  [.io 54, .io 81, .io 102], [.io 54, .io 82, .io 103], [.io 55, .io 83, .io 105],
  [.io 55, .io 84, .io 104], [.io 55, .io 85, .io 102], [.io 55, .io 86, .io 103],
  [.io 56, .io 87, .io 105], [.io 56, .io 88, .io 104], [.io 56, .io 89, .io 102],
  [.io 56, .io 90, .io 103], [.io 57, .io 91, .io 105], [.io 57, .io 92, .io 104],
  [.io 57, .io 93, .io 102], [.io 58, .io 94, .io 105], [.io 58, .io 95, .io 104],
  [.io 58, .io 96, .io 102], [.io 59, .io 97, .io 105], [.io 59, .io 98, .io 104],
  [.io 59, .io 99, .io 102], [.io 60, .io 100, .io 105], [.io 61, .io 101, .io 105]]

def classicEnc_kb : List (Nat × Role) := [
  (1, row 3), (2, row 0), (3, row 1), (4, mid 0 4 (.key 62)), (5, mid 4 0 (.key 1)),
  (6, mid 5 0 (.key 2)), (7, mid 6 0 (.key 3)), (8, mid 4 1 (.key 4)), (9, mid 5 1 (.key 5)),
  (10, mid 6 1 (.key 6)), (11, mid 7 1 (.key 7)), (12, mid 4 2 (.key 8)), (13, mid 5 2 (.key 9)),
  (14, mid 6 2 (.key 10)), (15, mid 7 2 (.key 11)), (16, mid 4 3 (.key 12)),
  (17, mid 5 3 (.key 13)), (18, mid 6 3 (.key 14)), (19, mid 7 3 (.key 15)),
  (20, mid 4 4 (.key 16)), (21, mid 5 4 (.key 17)), (22, mid 6 4 (.key 18)),
  (23, mid 7 4 (.key 19)), (24, mid 4 5 (.key 20)), (25, mid 5 5 (.key 21)),
  (26, mid 6 5 (.key 22)), (27, mid 7 5 (.key 23)), (28, mid 4 6 (.key 24)),
  (29, mid 5 6 (.key 25)), (30, mid 6 6 (.key 26)), (31, row 4), (32, row 5), (33, row 7),
  (34, mid 7 6 (.key 27)), (35, mid 4 7 (.key 28)), (36, mid 5 7 (.key 29)),
  (37, mid 6 7 (.key 30)), (38, mid 7 7 (.key 31)), (39, mid 2 0 (.key 33)),
  (40, mid 3 0 (.key 63)), (41, mid 0 1 (.key 35)), (42, mid 1 1 (.key 36)),
  (43, mid 2 1 (.key 37)), (44, mid 3 1 (.key 38)), (45, mid 0 2 (.key 39)),
  (46, mid 1 2 (.key 40)), (47, mid 2 2 (.key 41)), (48, mid 3 2 (.key 42)),
  (49, mid 1 3 (.key 43)), (50, mid 2 3 (.key 44)), (51, mid 3 3 (.key 45)),
  (52, mid 1 4 (.key 46)), (53, mid 2 4 (.key 47)), (54, col 0), (55, col 1), (56, col 2),
  (57, col 3), (58, col 4), (59, col 5), (60, col 6), (61, col 7), (62, row 6), (63, row 2),
  (64, mid 3 4 (.key 48)), (65, mid 0 5 (.key 49)), (66, mid 1 5 (.key 50)),
  (67, mid 2 5 (.key 51)), (68, mid 3 5 (.key 52)), (69, mid 0 6 (.key 53)),
  (70, mid 1 6 (.key 54)), (71, mid 2 6 (.key 55)), (72, mid 3 6 (.key 56)),
  (73, mid 0 7 (.key 57)), (74, mid 1 7 (.key 58)), (75, mid 2 7 (.key 59)),
  (76, mid 3 7 (.key 60)), (77, row 11), (78, row 12), (79, row 10), (80, row 13), (81, row 9),
  (82, row 14), (83, row 8), (84, row 15), (91, mid 1 0 (.key 34)), (92, col 0),
  (95, mid 7 0 (.key 32)), (96, col 0), (99, mid 0 0 (.key 61)), (100, col 0)]

def classicEnc_io : List (Nat × Role) := [
  (2, row 3), (3, row 0), (4, row 1), (5, row 4), (6, row 5), (7, row 7), (15, col 0),
  (16, col 1), (17, col 2), (18, col 3), (19, col 4), (20, col 5), (21, col 6), (22, col 7),
  (23, row 6), (24, row 2), (27, row 10), (28, row 9), (29, row 8), (30, row 15), (31, row 14),
  (32, row 13), (33, row 12), (34, row 11), (37, row 4), (38, row 6), (39, row 8), (40, row 10),
  (41, row 12), (42, row 14), (43, dmid 8 0 (.dip 1)), (44, dmid 8 1 (.dip 2)),
  (45, dmid 8 3 (.dip 4)), (46, dmid 8 5 (.dip 6)), (47, row 7), (48, row 9), (49, row 11),
  (50, row 13), (51, row 15), (52, row 0), (53, row 2), (54, dmid 8 7 (.dip 8)),
  (63, dmid 8 2 (.dip 3)), (64, dmid 8 4 (.dip 5)), (65, dmid 8 6 (.dip 7)), (122, row 1),
  (123, row 3), (124, row 5), (125, mid 0 0 (.key 61)), (126, mid 7 0 (.key 32)),
  (127, mid 1 0 (.key 34))]

def classicEnc_ways : List (List Net) := [
  [.io 15, .io 43, .io 29, .io 39], [.io 16, .io 44, .io 29, .io 39],
  [.io 17, .io 63, .io 29, .io 39], [.io 18, .io 45, .io 29, .io 39],
  [.io 19, .io 64, .io 29, .io 39], [.io 20, .io 46, .io 29, .io 39],
  [.io 21, .io 65, .io 29, .io 39], [.io 22, .io 54, .io 29, .io 39],
  [.io 15, .kb 54, .kb 5, .kb 31, .io 5, .io 37],
  [.io 15, .kb 54, .kb 6, .kb 32, .io 6, .io 124],
  [.io 15, .kb 54, .kb 7, .kb 62, .io 23, .io 38],
  [.io 16, .kb 55, .kb 8, .kb 31, .io 5, .io 37],
  [.io 16, .kb 55, .kb 9, .kb 32, .io 6, .io 124],
  [.io 16, .kb 55, .kb 10, .kb 62, .io 23, .io 38],
  [.io 16, .kb 55, .kb 11, .kb 33, .io 7, .io 47],
  [.io 17, .kb 56, .kb 12, .kb 31, .io 5, .io 37],
  [.io 17, .kb 56, .kb 13, .kb 32, .io 6, .io 124],
  [.io 17, .kb 56, .kb 14, .kb 62, .io 23, .io 38],
  [.io 17, .kb 56, .kb 15, .kb 33, .io 7, .io 47],
  [.io 18, .kb 57, .kb 16, .kb 31, .io 5, .io 37],
  [.io 18, .kb 57, .kb 17, .kb 32, .io 6, .io 124],
  [.io 18, .kb 57, .kb 18, .kb 62, .io 23, .io 38],
  [.io 18, .kb 57, .kb 19, .kb 33, .io 7, .io 47],
  [.io 19, .kb 58, .kb 20, .kb 31, .io 5, .io 37],
  [.io 19, .kb 58, .kb 21, .kb 32, .io 6, .io 124],
  [.io 19, .kb 58, .kb 22, .kb 62, .io 23, .io 38],
  [.io 19, .kb 58, .kb 23, .kb 33, .io 7, .io 47],
  [.io 20, .kb 59, .kb 24, .kb 31, .io 5, .io 37],
  [.io 20, .kb 59, .kb 25, .kb 32, .io 6, .io 124],
  [.io 20, .kb 59, .kb 26, .kb 62, .io 23, .io 38],
  [.io 20, .kb 59, .kb 27, .kb 33, .io 7, .io 47],
  [.io 21, .kb 60, .kb 28, .kb 31, .io 5, .io 37],
  [.io 21, .kb 60, .kb 29, .kb 32, .io 6, .io 124],
  [.io 21, .kb 60, .kb 30, .kb 62, .io 23, .io 38],
  [.io 21, .kb 60, .kb 34, .kb 33, .io 7, .io 47],
  [.io 22, .kb 61, .kb 35, .kb 31, .io 5, .io 37],
  [.io 22, .kb 61, .kb 36, .kb 32, .io 6, .io 124],
  [.io 22, .kb 61, .kb 37, .kb 62, .io 23, .io 38],
  [.io 22, .kb 61, .kb 38, .kb 33, .io 7, .io 47],
  [.io 15, .kb 96, .kb 95, .io 126, .io 7, .io 47],
  [.io 15, .kb 54, .kb 39, .kb 63, .io 24, .io 53],
  [.io 15, .kb 92, .kb 91, .io 127, .io 4, .io 122],
  [.io 16, .kb 55, .kb 41, .kb 2, .io 3, .io 52],
  [.io 16, .kb 55, .kb 42, .kb 3, .io 4, .io 122],
  [.io 16, .kb 55, .kb 43, .kb 63, .io 24, .io 53],
  [.io 16, .kb 55, .kb 44, .kb 1, .io 2, .io 123],
  [.io 17, .kb 56, .kb 45, .kb 2, .io 3, .io 52],
  [.io 17, .kb 56, .kb 46, .kb 3, .io 4, .io 122],
  [.io 17, .kb 56, .kb 47, .kb 63, .io 24, .io 53],
  [.io 17, .kb 56, .kb 48, .kb 1, .io 2, .io 123],
  [.io 18, .kb 57, .kb 49, .kb 3, .io 4, .io 122],
  [.io 18, .kb 57, .kb 50, .kb 63, .io 24, .io 53],
  [.io 18, .kb 57, .kb 51, .kb 1, .io 2, .io 123],
  [.io 19, .kb 58, .kb 52, .kb 3, .io 4, .io 122],
  [.io 19, .kb 58, .kb 53, .kb 63, .io 24, .io 53],
  [.io 19, .kb 58, .kb 64, .kb 1, .io 2, .io 123],
  [.io 20, .kb 59, .kb 65, .kb 2, .io 3, .io 52],
  [.io 20, .kb 59, .kb 66, .kb 3, .io 4, .io 122],
  [.io 20, .kb 59, .kb 67, .kb 63, .io 24, .io 53],
  [.io 20, .kb 59, .kb 68, .kb 1, .io 2, .io 123],
  [.io 21, .kb 60, .kb 69, .kb 2, .io 3, .io 52],
  [.io 21, .kb 60, .kb 70, .kb 3, .io 4, .io 122],
  [.io 21, .kb 60, .kb 71, .kb 63, .io 24, .io 53],
  [.io 21, .kb 60, .kb 72, .kb 1, .io 2, .io 123],
  [.io 22, .kb 61, .kb 73, .kb 2, .io 3, .io 52],
  [.io 22, .kb 61, .kb 74, .kb 3, .io 4, .io 122],
  [.io 22, .kb 61, .kb 75, .kb 63, .io 24, .io 53],
  [.io 22, .kb 61, .kb 76, .kb 1, .io 2, .io 123],
  [.io 15, .kb 100, .kb 99, .io 125, .io 3, .io 52],
  [.io 19, .kb 58, .kb 4, .kb 2, .io 3, .io 52], [.io 15, .kb 54, .kb 40, .kb 1, .io 2, .io 123]]

def solEnc_kb : List (Nat × Role) := [
  (1, row 3), (2, row 0), (3, row 1), (4, mid 4 1 (.key 8)), (5, mid 6 1 (.key 10)),
  (6, mid 7 1 (.key 11)), (7, mid 4 2 (.key 12)), (8, mid 5 2 (.key 13)), (9, mid 6 2 (.key 14)),
  (10, mid 7 2 (.key 15)), (11, mid 4 3 (.key 16)), (12, mid 5 3 (.key 17)),
  (13, mid 6 3 (.key 18)), (14, mid 7 3 (.key 19)), (15, mid 5 4 (.key 21)),
  (16, mid 6 4 (.key 22)), (17, mid 7 4 (.key 23)), (18, mid 5 5 (.key 25)),
  (19, mid 6 5 (.key 26)), (20, mid 7 5 (.key 27)), (21, mid 4 6 (.key 28)),
  (22, mid 5 6 (.key 29)), (23, mid 6 6 (.key 30)), (24, mid 7 6 (.key 31)),
  (25, mid 4 7 (.key 32)), (26, mid 5 7 (.key 33)), (27, mid 6 7 (.key 34)),
  (28, mid 7 7 (.key 35)), (29, mid 1 0 (.key 37)), (30, mid 3 0 (.key 39)), (31, row 4),
  (32, row 5), (33, row 7), (34, mid 0 2 (.key 44)), (35, mid 1 2 (.key 45)),
  (36, mid 2 2 (.key 46)), (37, mid 0 3 (.key 48)), (38, mid 1 3 (.key 49)),
  (39, mid 2 3 (.key 50)), (40, mid 3 3 (.key 51)), (41, mid 0 4 (.key 52)),
  (42, mid 1 4 (.key 53)), (43, mid 2 4 (.key 54)), (44, mid 3 4 (.key 55)),
  (45, mid 0 5 (.key 56)), (46, mid 1 5 (.key 57)), (47, mid 2 5 (.key 58)),
  (48, mid 3 5 (.key 59)), (49, mid 0 6 (.key 60)), (50, mid 1 6 (.key 61)),
  (51, mid 2 6 (.key 62)), (52, mid 0 7 (.key 63)), (53, mid 1 7 (.key 64)), (54, col 0),
  (55, col 1), (56, col 2), (57, col 3), (58, col 4), (59, col 5), (60, col 6), (61, col 7),
  (62, row 6), (63, row 2), (64, mid 5 0 (.key 5)), (65, mid 6 0 (.key 6)),
  (66, mid 7 0 (.key 7)), (67, mid 5 1 (.key 9)), (68, mid 4 4 (.key 20)),
  (69, mid 4 5 (.key 24)), (70, mid 0 1 (.key 40)), (71, mid 1 1 (.key 41)),
  (72, mid 2 1 (.key 42)), (73, mid 3 1 (.key 43)), (74, mid 3 2 (.key 47)), (75, col 0),
  (76, stub 7), (77, col 0), (78, stub 1), (83, col 0), (84, stub 0), (85, mid 4 0 (.key 4)),
  (86, mid 0 0 (.key 36)), (87, mid 2 0 (.key 38)), (88, mid 2 7 (.key 65)),
  (89, mid 9 0 (.key 66)), (90, mid 10 0 (.key 67)), (91, mid 11 0 (.key 68)),
  (92, mid 12 0 (.key 69)), (93, mid 9 1 (.key 70)), (94, mid 10 1 (.key 71)),
  (95, mid 11 1 (.key 72)), (96, mid 12 1 (.key 73)), (97, mid 9 2 (.key 74)),
  (98, mid 10 2 (.key 75)), (99, mid 11 2 (.key 76)), (100, mid 12 2 (.key 77)),
  (101, mid 9 3 (.key 78)), (102, mid 10 3 (.key 79)), (103, mid 11 3 (.key 80)),
  (104, mid 9 4 (.key 81)), (105, mid 10 4 (.key 82)), (106, mid 11 4 (.key 83)),
  (107, mid 9 5 (.key 84)), (108, mid 10 5 (.key 85)), (109, mid 11 5 (.key 86)),
  (110, mid 9 6 (.key 87)), (111, mid 9 7 (.key 88)), (112, row 11), (113, row 12),
  (114, row 10), (115, row 9), (125, row 15), (126, row 8), (127, row 14), (128, row 13)]

def solEnc_io : List (Nat × Role) := [
  (2, row 3), (3, row 0), (4, row 1), (5, row 4), (6, row 5), (7, row 7), (15, col 0),
  (16, col 1), (17, col 2), (18, col 3), (19, col 4), (20, col 5), (21, col 6), (22, col 7),
  (23, row 6), (24, row 2), (27, row 10), (28, row 9), (29, row 8), (30, row 15), (31, row 14),
  (32, row 13), (33, row 12), (34, row 11), (37, row 4), (38, row 6), (39, row 8), (40, row 10),
  (41, row 12), (42, row 14), (43, dmid 8 0 (.dip 1)), (44, dmid 8 1 (.dip 2)),
  (45, dmid 8 3 (.dip 4)), (46, dmid 8 5 (.dip 6)), (47, row 7), (48, row 9), (49, row 11),
  (50, row 13), (51, row 15), (52, row 0), (53, row 2), (54, dmid 8 7 (.dip 8)),
  (63, dmid 8 2 (.dip 3)), (64, dmid 8 4 (.dip 5)), (65, dmid 8 6 (.dip 7)), (122, row 1),
  (123, row 3), (124, row 5), (125, stub 0), (126, stub 7), (127, stub 1)]

def solEnc_ways : List (List Net) := [
  [.io 15, .io 43, .io 29, .io 39], [.io 16, .io 44, .io 29, .io 39],
  [.io 17, .io 63, .io 29, .io 39], [.io 18, .io 45, .io 29, .io 39],
  [.io 19, .io 64, .io 29, .io 39], [.io 20, .io 46, .io 29, .io 39],
  [.io 21, .io 65, .io 29, .io 39], [.io 22, .io 54, .io 29, .io 39],
  [.io 15, .kb 54, .kb 85, .kb 31, .io 5, .io 37],
  [.io 15, .kb 54, .kb 64, .kb 32, .io 6, .io 124],
  [.io 15, .kb 54, .kb 65, .kb 62, .io 23, .io 38],
  [.io 15, .kb 54, .kb 66, .kb 33, .io 7, .io 47],
  [.io 16, .kb 55, .kb 4, .kb 31, .io 5, .io 37],
  [.io 16, .kb 55, .kb 67, .kb 32, .io 6, .io 124],
  [.io 16, .kb 55, .kb 5, .kb 62, .io 23, .io 38],
  [.io 16, .kb 55, .kb 6, .kb 33, .io 7, .io 47], [.io 17, .kb 56, .kb 7, .kb 31, .io 5, .io 37],
  [.io 17, .kb 56, .kb 8, .kb 32, .io 6, .io 124],
  [.io 17, .kb 56, .kb 9, .kb 62, .io 23, .io 38],
  [.io 17, .kb 56, .kb 10, .kb 33, .io 7, .io 47],
  [.io 18, .kb 57, .kb 11, .kb 31, .io 5, .io 37],
  [.io 18, .kb 57, .kb 12, .kb 32, .io 6, .io 124],
  [.io 18, .kb 57, .kb 13, .kb 62, .io 23, .io 38],
  [.io 18, .kb 57, .kb 14, .kb 33, .io 7, .io 47],
  [.io 19, .kb 58, .kb 68, .kb 31, .io 5, .io 37],
  [.io 19, .kb 58, .kb 15, .kb 32, .io 6, .io 124],
  [.io 19, .kb 58, .kb 16, .kb 62, .io 23, .io 38],
  [.io 19, .kb 58, .kb 17, .kb 33, .io 7, .io 47],
  [.io 20, .kb 59, .kb 69, .kb 31, .io 5, .io 37],
  [.io 20, .kb 59, .kb 18, .kb 32, .io 6, .io 124],
  [.io 20, .kb 59, .kb 19, .kb 62, .io 23, .io 38],
  [.io 20, .kb 59, .kb 20, .kb 33, .io 7, .io 47],
  [.io 21, .kb 60, .kb 21, .kb 31, .io 5, .io 37],
  [.io 21, .kb 60, .kb 22, .kb 32, .io 6, .io 124],
  [.io 21, .kb 60, .kb 23, .kb 62, .io 23, .io 38],
  [.io 21, .kb 60, .kb 24, .kb 33, .io 7, .io 47],
  [.io 22, .kb 61, .kb 25, .kb 31, .io 5, .io 37],
  [.io 22, .kb 61, .kb 26, .kb 32, .io 6, .io 124],
  [.io 22, .kb 61, .kb 27, .kb 62, .io 23, .io 38],
  [.io 22, .kb 61, .kb 28, .kb 33, .io 7, .io 47],
  [.io 15, .kb 54, .kb 86, .kb 2, .io 3, .io 52],
  [.io 15, .kb 54, .kb 29, .kb 3, .io 4, .io 122],
  [.io 15, .kb 54, .kb 87, .kb 63, .io 24, .io 53],
  [.io 15, .kb 54, .kb 30, .kb 1, .io 2, .io 123],
  [.io 16, .kb 55, .kb 70, .kb 2, .io 3, .io 52],
  [.io 16, .kb 55, .kb 71, .kb 3, .io 4, .io 122],
  [.io 16, .kb 55, .kb 72, .kb 63, .io 24, .io 53],
  [.io 16, .kb 55, .kb 73, .kb 1, .io 2, .io 123],
  [.io 17, .kb 56, .kb 34, .kb 2, .io 3, .io 52],
  [.io 17, .kb 56, .kb 35, .kb 3, .io 4, .io 122],
  [.io 17, .kb 56, .kb 36, .kb 63, .io 24, .io 53],
  [.io 17, .kb 56, .kb 74, .kb 1, .io 2, .io 123],
  [.io 18, .kb 57, .kb 37, .kb 2, .io 3, .io 52],
  [.io 18, .kb 57, .kb 38, .kb 3, .io 4, .io 122],
  [.io 18, .kb 57, .kb 39, .kb 63, .io 24, .io 53],
  [.io 18, .kb 57, .kb 40, .kb 1, .io 2, .io 123],
  [.io 19, .kb 58, .kb 41, .kb 2, .io 3, .io 52],
  [.io 19, .kb 58, .kb 42, .kb 3, .io 4, .io 122],
  [.io 19, .kb 58, .kb 43, .kb 63, .io 24, .io 53],
  [.io 19, .kb 58, .kb 44, .kb 1, .io 2, .io 123],
  [.io 20, .kb 59, .kb 45, .kb 2, .io 3, .io 52],
  [.io 20, .kb 59, .kb 46, .kb 3, .io 4, .io 122],
  [.io 20, .kb 59, .kb 47, .kb 63, .io 24, .io 53],
  [.io 20, .kb 59, .kb 48, .kb 1, .io 2, .io 123],
  [.io 21, .kb 60, .kb 49, .kb 2, .io 3, .io 52],
  [.io 21, .kb 60, .kb 50, .kb 3, .io 4, .io 122],
  [.io 21, .kb 60, .kb 51, .kb 63, .io 24, .io 53],
  [.io 22, .kb 61, .kb 52, .kb 2, .io 3, .io 52],
  [.io 22, .kb 61, .kb 53, .kb 3, .io 4, .io 122],
  [.io 22, .kb 61, .kb 88, .kb 63, .io 24, .io 53],
  [.io 15, .kb 54, .kb 89, .kb 115, .io 28, .io 48],
  [.io 15, .kb 54, .kb 90, .kb 114, .io 27, .io 40],
  [.io 15, .kb 54, .kb 91, .kb 112, .io 34, .io 49],
  [.io 15, .kb 54, .kb 92, .kb 113, .io 33, .io 41],
  [.io 16, .kb 55, .kb 93, .kb 115, .io 28, .io 48],
  [.io 16, .kb 55, .kb 94, .kb 114, .io 27, .io 40],
  [.io 16, .kb 55, .kb 95, .kb 112, .io 34, .io 49],
  [.io 16, .kb 55, .kb 96, .kb 113, .io 33, .io 41],
  [.io 17, .kb 56, .kb 97, .kb 115, .io 28, .io 48],
  [.io 17, .kb 56, .kb 98, .kb 114, .io 27, .io 40],
  [.io 17, .kb 56, .kb 99, .kb 112, .io 34, .io 49],
  [.io 17, .kb 56, .kb 100, .kb 113, .io 33, .io 41],
  [.io 18, .kb 57, .kb 101, .kb 115, .io 28, .io 48],
  [.io 18, .kb 57, .kb 102, .kb 114, .io 27, .io 40],
  [.io 18, .kb 57, .kb 103, .kb 112, .io 34, .io 49],
  [.io 19, .kb 58, .kb 104, .kb 115, .io 28, .io 48],
  [.io 19, .kb 58, .kb 105, .kb 114, .io 27, .io 40],
  [.io 19, .kb 58, .kb 106, .kb 112, .io 34, .io 49],
  [.io 20, .kb 59, .kb 107, .kb 115, .io 28, .io 48],
  [.io 20, .kb 59, .kb 108, .kb 114, .io 27, .io 40],
  [.io 20, .kb 59, .kb 109, .kb 112, .io 34, .io 49],
  [.io 21, .kb 60, .kb 110, .kb 115, .io 28, .io 48],
  [.io 22, .kb 61, .kb 111, .kb 115, .io 28, .io 48]]

def classicOsi_kb : List (Nat × Role) := [
  (1, row 3), (2, row 0), (3, row 1), (4, mid 0 4 (.key 62)), (5, mid 4 0 (.key 1)),
  (6, mid 5 0 (.key 2)), (7, mid 6 0 (.key 3)), (8, mid 4 1 (.key 4)), (9, mid 5 1 (.key 5)),
  (10, mid 6 1 (.key 6)), (11, mid 7 1 (.key 7)), (12, mid 4 2 (.key 8)), (13, mid 5 2 (.key 9)),
  (14, mid 6 2 (.key 10)), (15, mid 7 2 (.key 11)), (16, mid 4 3 (.key 12)),
  (17, mid 5 3 (.key 13)), (18, mid 6 3 (.key 14)), (19, mid 7 3 (.key 15)),
  (20, mid 4 4 (.key 16)), (21, mid 5 4 (.key 17)), (22, mid 6 4 (.key 18)),
  (23, mid 7 4 (.key 19)), (24, mid 4 5 (.key 20)), (25, mid 5 5 (.key 21)),
  (26, mid 6 5 (.key 22)), (27, mid 7 5 (.key 23)), (28, mid 4 6 (.key 24)),
  (29, mid 5 6 (.key 25)), (30, mid 6 6 (.key 26)), (31, row 4), (32, row 5), (33, row 7),
  (34, mid 7 6 (.key 27)), (35, mid 4 7 (.key 28)), (36, mid 5 7 (.key 29)),
  (37, mid 6 7 (.key 30)), (38, mid 7 7 (.key 31)), (39, mid 2 0 (.key 33)),
  (40, mid 3 0 (.key 63)), (41, mid 0 1 (.key 35)), (42, mid 1 1 (.key 36)),
  (43, mid 2 1 (.key 37)), (44, mid 3 1 (.key 38)), (45, mid 0 2 (.key 39)),
  (46, mid 1 2 (.key 40)), (47, mid 2 2 (.key 41)), (48, mid 3 2 (.key 42)),
  (49, mid 1 3 (.key 43)), (50, mid 2 3 (.key 44)), (51, mid 3 3 (.key 45)),
  (52, mid 1 4 (.key 46)), (53, mid 2 4 (.key 47)), (54, col 0), (55, col 1), (56, col 2),
  (57, col 3), (58, col 4), (59, col 5), (60, col 6), (61, col 7), (62, row 6), (63, row 2),
  (64, mid 3 4 (.key 48)), (65, mid 0 5 (.key 49)), (66, mid 1 5 (.key 50)),
  (67, mid 2 5 (.key 51)), (68, mid 3 5 (.key 52)), (69, mid 0 6 (.key 53)),
  (70, mid 1 6 (.key 54)), (71, mid 2 6 (.key 55)), (72, mid 3 6 (.key 56)),
  (73, mid 0 7 (.key 57)), (74, mid 1 7 (.key 58)), (75, mid 2 7 (.key 59)),
  (76, mid 3 7 (.key 60))]

def classicOsi_io : List (Nat × Role) := [
  (2, row 3), (3, row 0), (4, row 1), (5, row 4), (6, row 5), (7, row 7), (8, col 0), (9, col 1),
  (10, col 2), (11, col 3), (12, col 4), (13, col 5), (14, col 6), (15, col 7), (16, row 6),
  (17, row 2), (30, row 2), (31, row 4), (32, row 6), (33, row 0), (35, row 3), (48, row 5),
  (49, row 7), (50, row 1), (59, mid 0 0 (.dip 1))]

def classicOsi_ways : List (List Net) := [
  [.io 8, .io 59, .io 3, .io 33], [.io 8, .kb 54, .kb 5, .kb 31, .io 5, .io 31],
  [.io 8, .kb 54, .kb 6, .kb 32, .io 6, .io 48], [.io 8, .kb 54, .kb 7, .kb 62, .io 16, .io 32],
  [.io 9, .kb 55, .kb 8, .kb 31, .io 5, .io 31], [.io 9, .kb 55, .kb 9, .kb 32, .io 6, .io 48],
  [.io 9, .kb 55, .kb 10, .kb 62, .io 16, .io 32],
  [.io 9, .kb 55, .kb 11, .kb 33, .io 7, .io 49],
  [.io 10, .kb 56, .kb 12, .kb 31, .io 5, .io 31],
  [.io 10, .kb 56, .kb 13, .kb 32, .io 6, .io 48],
  [.io 10, .kb 56, .kb 14, .kb 62, .io 16, .io 32],
  [.io 10, .kb 56, .kb 15, .kb 33, .io 7, .io 49],
  [.io 11, .kb 57, .kb 16, .kb 31, .io 5, .io 31],
  [.io 11, .kb 57, .kb 17, .kb 32, .io 6, .io 48],
  [.io 11, .kb 57, .kb 18, .kb 62, .io 16, .io 32],
  [.io 11, .kb 57, .kb 19, .kb 33, .io 7, .io 49],
  [.io 12, .kb 58, .kb 20, .kb 31, .io 5, .io 31],
  [.io 12, .kb 58, .kb 21, .kb 32, .io 6, .io 48],
  [.io 12, .kb 58, .kb 22, .kb 62, .io 16, .io 32],
  [.io 12, .kb 58, .kb 23, .kb 33, .io 7, .io 49],
  [.io 13, .kb 59, .kb 24, .kb 31, .io 5, .io 31],
  [.io 13, .kb 59, .kb 25, .kb 32, .io 6, .io 48],
  [.io 13, .kb 59, .kb 26, .kb 62, .io 16, .io 32],
  [.io 13, .kb 59, .kb 27, .kb 33, .io 7, .io 49],
  [.io 14, .kb 60, .kb 28, .kb 31, .io 5, .io 31],
  [.io 14, .kb 60, .kb 29, .kb 32, .io 6, .io 48],
  [.io 14, .kb 60, .kb 30, .kb 62, .io 16, .io 32],
  [.io 14, .kb 60, .kb 34, .kb 33, .io 7, .io 49],
  [.io 15, .kb 61, .kb 35, .kb 31, .io 5, .io 31],
  [.io 15, .kb 61, .kb 36, .kb 32, .io 6, .io 48],
  [.io 15, .kb 61, .kb 37, .kb 62, .io 16, .io 32],
  [.io 15, .kb 61, .kb 38, .kb 33, .io 7, .io 49],
  [.io 8, .kb 54, .kb 39, .kb 63, .io 17, .io 30], [.io 9, .kb 55, .kb 41, .kb 2, .io 3, .io 33],
  [.io 9, .kb 55, .kb 42, .kb 3, .io 4, .io 50], [.io 9, .kb 55, .kb 43, .kb 63, .io 17, .io 30],
  [.io 9, .kb 55, .kb 44, .kb 1, .io 2, .io 35], [.io 10, .kb 56, .kb 45, .kb 2, .io 3, .io 33],
  [.io 10, .kb 56, .kb 46, .kb 3, .io 4, .io 50],
  [.io 10, .kb 56, .kb 47, .kb 63, .io 17, .io 30],
  [.io 10, .kb 56, .kb 48, .kb 1, .io 2, .io 35], [.io 11, .kb 57, .kb 49, .kb 3, .io 4, .io 50],
  [.io 11, .kb 57, .kb 50, .kb 63, .io 17, .io 30],
  [.io 11, .kb 57, .kb 51, .kb 1, .io 2, .io 35], [.io 12, .kb 58, .kb 52, .kb 3, .io 4, .io 50],
  [.io 12, .kb 58, .kb 53, .kb 63, .io 17, .io 30],
  [.io 12, .kb 58, .kb 64, .kb 1, .io 2, .io 35], [.io 13, .kb 59, .kb 65, .kb 2, .io 3, .io 33],
  [.io 13, .kb 59, .kb 66, .kb 3, .io 4, .io 50],
  [.io 13, .kb 59, .kb 67, .kb 63, .io 17, .io 30],
  [.io 13, .kb 59, .kb 68, .kb 1, .io 2, .io 35], [.io 14, .kb 60, .kb 69, .kb 2, .io 3, .io 33],
  [.io 14, .kb 60, .kb 70, .kb 3, .io 4, .io 50],
  [.io 14, .kb 60, .kb 71, .kb 63, .io 17, .io 30],
  [.io 14, .kb 60, .kb 72, .kb 1, .io 2, .io 35], [.io 15, .kb 61, .kb 73, .kb 2, .io 3, .io 33],
  [.io 15, .kb 61, .kb 74, .kb 3, .io 4, .io 50],
  [.io 15, .kb 61, .kb 75, .kb 63, .io 17, .io 30],
  [.io 15, .kb 61, .kb 76, .kb 1, .io 2, .io 35], [.io 12, .kb 58, .kb 4, .kb 2, .io 3, .io 33],
  [.io 8, .kb 54, .kb 40, .kb 1, .io 2, .io 35]]

end Asdf.Pcb.Roles
