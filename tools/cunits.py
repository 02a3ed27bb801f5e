#!/usr/bin/env python3
"""Write the lemmas that compare the text of the firmware with the programs in CSource.lean,
CArch328.lean and CArch2560.lean: lean/Verif/Lemmas/CUnitList.lean, CTextLex*.lean and
CTextUnits*.lean.  Nothing here has to be trusted: the results are checked by Lean.
Run after ctext.py and c2lean.py.
"""
import os, re

LEAN = os.path.join(os.path.dirname(os.path.abspath(__file__)), "..", "lean", "Verif")
GEN = "Generated by `tools/cunits.py`."

def read(f): return open(os.path.join(LEAN, f)).read()
def write(f, t): open(os.path.join(LEAN, f), "w").write(t)

def items(path):
    out = {}
    for m in re.finditer(r"/-- `(\w+)` \((?:Keymaps/|Arch/)?([\w.]+):(\d+)(?:-\d+)?\)\. -/\ndef (fn|init)_(\w+) :", read(path)):
        out.setdefault(m.group(2), []).append((int(m.group(3)), m.group(4), m.group(5)))
    return {k: sorted(v) for k, v in out.items()}

def wrap(items, width=100):
    lines, cur = [], " "
    for n, w in enumerate(items):
        w += "," if n + 1 < len(items) else "]"
        if len(cur) + len(w) + 1 > width:
            lines.append(cur); cur = " "
        cur += " " + w
    return "\n".join(lines + [cur])

def name(f): return re.sub(r"\W", "_", f)

src = items("Model/CSource.lean")
hw = {b: items("Model/CArch%s.lean" % b) for b in ("328", "2560")}

out = []
for f, v in src.items():
    ws = [(".fn .%s fn_%s" if k == "fn" else ".obj .%s init_%s") % (n, n) for _, k, n in v]
    out.append("/-- The definitions in %s. -/\ndef unit_%s : List Item := [\n%s\n" % (f, name(f), wrap(ws)))
for b in hw:
    for f, v in hw[b].items():
        ws = [".fn .%s A%s.fn_%s" % (n, b, n) if k == "fn" else ".var .%s A%s.init_%s.toNat" % (n, b, n) for _, k, n in v]
        out.append("/-- The definitions in %s. -/\ndef unit_%s : List Item := [\n%s\n" % (f, name(f), wrap(ws)))
write("Lemmas/CUnitList.lean", "import Verif.Lemmas.CTree\nimport Verif.Model.CSource\nimport Verif.Model.CArch328\nimport Verif.Model.CArch2560\n\n"
      "/-! # The definitions in each file, in the order of the text\n\n%s -/\n\nnamespace Asdf.C\n\n%s\nend Asdf.C\n" % (GEN, "\n".join(out)))

text = read("Model/CText.lean")
sizes = {m.group(1): len(m.group(2)) for m in re.finditer(r"^def (\w+) : List Nat := \[\n(.*?)(?=\n\n|\Z)", text, re.S | re.M)}
PARTS = 3
parts = [[] for _ in range(PARTS)]
load = [0] * PARTS
for f in sorted(sizes, key=lambda f: -sizes[f]):
    if f in ("asdf_keymap_setup_c_in", "keymap_list_cmake"): continue
    i = load.index(min(load)); parts[i].append(f); load[i] += sizes[f]
for i, p in enumerate(parts):
    p.sort(key=list(sizes).index)
    write("Lemmas/CTextLex%d.lean" % (i + 1), "import Verif.Model.CUnits\n\n/-! # The tokens of the files, part %d\n\n%s -/\n\nnamespace Asdf.C\n\n%s\nend Asdf.C\n" % (
        i + 1, GEN, "\n".join("theorem lex_%s : lex (bytes Text.%s) = Tokens.%s := by decide +kernel\n" % (f, f, f) for f in p)))

for b in hw:
    ts = []
    for f in src:
        if f == "asdf_keymap_setup.c": t = "lex setupText"
        else: t = "Tokens." + name(f)
        ts.append("theorem m%s_%s : compile false (headersOf .m%s) (%s) =\n    some unit_%s := by decide +kernel\n" % (b, name(f), b, t, name(f)))
    for f in hw[b]:
        ts.append("theorem m%s_%s : compile true (headersOf .m%s) Tokens.%s =\n    some unit_%s := by decide +kernel\n" % (b, name(f), b, name(f), name(f)))
    write("Lemmas/CTextUnits%s.lean" % b, "import Verif.Lemmas.CUnitList\n\n/-! # The translation of each file, with the headers for the ATmega%s\n\n%s -/\n\nnamespace Asdf.C\n\n%s\nend Asdf.C\n" % (
        b + ("P" if b == "328" else ""), GEN, "\n".join(ts)))
