#!/usr/bin/env python3
"""Extract the key tables of the unit tests from test/test_asdf_keymap_defs.h.

Reads /repo/firmware/asdf as text and writes
/verif/lean/Verif/Tests/TestMaps.lean.  No C code is built or run.
"""
import re
SRC = "/repo/firmware/asdf/"
OUT = "/verif/lean/Verif/Tests/TestMaps.lean"
vals = {}
a = open(SRC + "src/asdf_ascii.h").read()
for m in re.finditer(r"(ASCII_\w+) = (0x[0-9a-fA-F]+)", a): vals[m.group(1)] = int(m.group(2), 16)
for m in re.finditer(r"#define (ASCII_\w+) (ASCII_\w+)", a): vals[m.group(1)] = vals[m.group(2)]
e = re.search(r"typedef enum \{(.*?)\} action_t;", open(SRC + "src/asdf.h").read(), re.S).group(1)
for i, n in enumerate(re.findall(r"(\w+)\s*(?:= ASDF_ACTION)?,", e)): vals[n] = 0xA0 + i
h = open(SRC + "test/test_asdf_keymap_defs.h").read()
for m in re.finditer(r"#define (\w+_MATRIX_\d) (RESERVED_\d)", h): vals[m.group(1)] = vals[m.group(2)]
def value(t):
    t = t.strip()
    if t in vals: return vals[t]
    if re.match(r"^'.'$", t): return ord(t[1])
    return int(t, 0)
dips = re.search(r"ASDF_TEST_MAP_DIP_SWITCHES.*?\{(.*?)\}", h, re.S).group(1)
out = ["import Verif.Model.Basic", "", "/-! # Key tables of the unit tests", "",
 "Generated by `tools/gen_testmaps.py` from `test/test_asdf_keymap_defs.h`; do not edit. -/", "",
 "namespace Asdf.Tests", ""]
for m in re.finditer(r"#define (ASDF_TEST2?_(PLAIN|CAPS|SHIFT|CTRL)_MAP)\s*\\\n(.*?)\n\s*\n", h, re.S):
    name, body = m.group(1), m.group(3).replace("\\\n", "\n")
    body = re.sub(r"/\*\*/", "", body).replace("\\", "")
    l0 = h[:m.start()].count("\n") + 1
    l1 = l0 + m.group(0).rstrip().count("\n")
    body = body.strip()[1:-1]
    rows = [[value(x) for x in r.split(",") if x.strip()] for r in re.findall(r"\{(.*?)\}", body, re.S)]
    assert "ASDF_TEST_MAP_DIP_SWITCHES" in body and len(rows) == 8, (name, len(rows))
    rows.append([value(x) for x in dips.split(",")])
    rows = [r + [0] * (8 - len(r)) for r in rows]
    assert all(len(r) == 8 for r in rows)
    n = re.sub(r"ASDF_(TEST2?)_(\w+)_MAP", lambda k: k.group(1).lower() + k.group(2).capitalize(), name)
    out += ["/-- `%s` (test/test_asdf_keymap_defs.h:%d-%d), row-major. -/" % (name, l0, l1),
      "def %s : List Code := [" % n,
      ",\n".join("  " + ", ".join("0x%02X" % x for x in r) for r in rows) + "]", ""]
out += ["end Asdf.Tests", ""]
open(OUT, "w").write("\n".join(out))
