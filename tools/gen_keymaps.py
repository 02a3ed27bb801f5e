#!/usr/bin/env python3
"""Extract the key tables of the shipped keymaps from the C sources.

Reads /repo/firmware/asdf/src as text and writes
/verif/lean/Verif/Model/KeymapData.lean.  No C code is built or run: object-like
macros, enums, character and integer constants and designated initialisers are
resolved here.
"""
import re, sys

SRC = "/repo/firmware/asdf/src/"
OUT = "/verif/lean/Verif/Model/KeymapData.lean"

def strip_comments(t):
    t = re.sub(r"/\*.*?\*/", lambda m: re.sub(r"[^\n]", " ", m.group(0)), t, flags=re.S)
    return re.sub(r"//[^\n]*", "", t)

def read(f):
    return strip_comments(open(SRC + f).read())

class Ev:
    def __init__(self, files):
        self.macros, self.fun, self.enums = {}, {}, {}
        for f in files:
            m, fn, e = load_one(f)
            self.macros.update(m); self.fun.update(fn); self.enums.update(e)

    def text(self, tok):
        """expand object-like macros and the token pasting macros of sol.h"""
        tok = tok.strip()
        m = re.match(r"^(\w+)\((\w+)\)$", tok)
        if m and m.group(1) in self.fun:
            par, body = self.fun[m.group(1)]
            arg = m.group(2)
            if "##" in body:
                return self.text(re.sub(r"\s*##\s*", "", body.replace(par, arg)))
            arg = self.text(arg) if arg in self.macros else arg
            return self.text(body.replace(par, arg))
        if tok in self.macros and tok not in self.enums:
            return self.text(self.macros[tok])
        if tok in self.macros and tok in self.enums:
            return tok
        return tok

    def value(self, tok):
        tok = self.text(tok)
        if tok in self.enums:
            return self.enums[tok]
        if re.match(r"^0[xX][0-9a-fA-F]+$", tok):
            return int(tok, 16)
        if re.match(r"^[0-9]+$", tok):
            return int(tok)
        m = re.match(r"^'(.)'$", tok)
        if m:
            return ord(m.group(1))
        raise ValueError("cannot evaluate %r" % tok)

def load_one(f):
    text = read(f)
    macros, fun, enums = {}, {}, {}
    joined = re.sub(r"\\\s*\n", " ", text)
    for line in joined.split("\n"):
        m = re.match(r"\s*#define\s+(\w+)\((\w+)\)\s+(.*)$", line)
        if m:
            fun[m.group(1)] = (m.group(2), m.group(3).strip()); continue
        m = re.match(r"\s*#define\s+(\w+)[ \t]+(.+)$", line)
        if m:
            macros[m.group(1)] = m.group(2).strip()
    for body in re.findall(r"typedef\s+enum\s*\{(.*?)\}", text, flags=re.S):
        last = -1
        for item in body.split(","):
            item = item.strip()
            if not item:
                continue
            if "=" in item:
                name, e = [x.strip() for x in item.split("=", 1)]
                e = macros.get(e, e)
                last = int(e, 0)
            else:
                name, last = item, last + 1
            enums[name] = last
    return macros, fun, enums

def split_top(s):
    """split at commas outside braces, parentheses and character constants"""
    out, cur, depth, i = [], "", 0, 0
    while i < len(s):
        if s[i] == "'" and i + 2 < len(s) and s[i + 2] == "'":
            cur += s[i:i + 3]; i += 3; continue
        c = s[i]
        if c in "{(": depth += 1
        if c in "})": depth -= 1
        if c == "," and depth == 0:
            out.append(cur); cur = ""
        else:
            cur += c
        i += 1
    if cur.strip():
        out.append(cur)
    return [x.strip() for x in out if x.strip()]

def match_brace(t, i):
    depth = 0
    j = i
    while True:
        if t[j] == "'" and t[j + 2] == "'":
            j += 3; continue
        if t[j] == "{": depth += 1
        if t[j] == "}":
            depth -= 1
            if depth == 0:
                return j
        j += 1

def table(ev, f, name, rows, cols):
    text = read(f)
    m = re.search(r"\b%s\b(\[\w+\]\[\w+\])?\s*=\s*\{" % name, text)
    start = m.end() - 1
    end = match_brace(text, start)
    lines = (text[:m.start()].count("\n") + 1, text[:end].count("\n") + 1)
    mat = [[0] * cols for _ in range(rows)]          # C zero-fills
    src = [["0"] * cols for _ in range(rows)]
    nxt = 0
    for item in split_top(text[start + 1:end]):
        item = ev.text(item)
        m = re.match(r"^\[(\w+)\]\s*=\s*\{(.*)\}$", item, flags=re.S)
        assert m, item
        r = ev.value(m.group(1))
        c = 0
        for e in split_top(m.group(2)):
            d = re.match(r"^\[(\w+)\]\s*=\s*(.*)$", e)
            if d:
                c, e = int(d.group(1)), d.group(2).strip()
            assert r < rows and c < cols, (name, r, c)
            mat[r][c] = ev.value(e)
            src[r][c] = e
            c += 1
    return mat, src, lines

def cstring(f, fun):
    text = open(SRC + f).read()
    m = re.search(r"\b%s\(void\)\s*\{\s*asdf_print\(\"((?:[^\"\\]|\\.)*)\"\)" % fun, text)
    line = text[:m.start(1)].count("\n") + 1
    s = m.group(1)
    assert "%" not in s
    s = s.replace("\\n", "\n").replace("\\r", "\r").replace('\\"', '"')
    assert "\\" not in s
    return [ord(c) for c in s], line

COMMON = ["asdf_config.h", "asdf.h", "asdf_ascii.h", "asdf_physical.h", "asdf_virtual.h",
          "asdf_modifiers.h", "asdf_hook.h", "asdf_keymaps.h",
          "Arch/asdf_arch_atmega328p.h", "Keymaps/asdf_keymap_defs_dipswitch.h"]

TABLES = [
  ("Keymaps/asdf_keymap_classic_add_map.c",
   ["Keymaps/asdf_keymap_classic.h", "Keymaps/asdf_keymap_classic_add_map.c"],
   "CLASSIC_NUM_ROWS", "CLASSIC_NUM_COLS",
   ["classic_plain_matrix", "classic_shift_matrix", "classic_caps_matrix", "classic_ctrl_matrix"]),
  ("Keymaps/asdf_keymap_apple2_add_map.c",
   ["Keymaps/asdf_keymap_apple2_add_map.h", "Keymaps/asdf_keymap_apple2_add_map.c"],
   "ASDF_APPLE2_NUM_ROWS", "ASDF_APPLE2_NUM_COLS",
   ["apple_plain_matrix", "apple_shift_matrix", "apple_caps_shift_matrix", "apple_caps_matrix",
    "apple_ctrl_matrix"]),
  ("Keymaps/asdf_keymap_sol.c", ["Keymaps/asdf_keymap_sol.h", "Keymaps/asdf_keymap_sol.c"],
   "ASDF_SOL_NUM_ROWS", "ASDF_SOL_NUM_COLS",
   ["sol_plain_map", "sol_caps_map", "sol_shift_map", "sol_ctrl_map"]),
  ("Keymaps/asdf_keymap_ace1000_add_map.c",
   ["Keymaps/asdf_keymap_ace1000.h", "Keymaps/asdf_keymap_ace1000_add_map.h",
    "Keymaps/asdf_keymap_ace1000_add_map.c"],
   "ACE1000_NUM_ROWS", "ACE1000_NUM_COLS",
   ["ace1000_plain_matrix", "ace1000_shift_matrix", "ace1000_caps_matrix", "ace1000_ctrl_matrix"]),
]

MESSAGES = [
  ("Keymaps/asdf_keymap_classic.c", "classic_id_message"),
  ("Keymaps/asdf_keymap_classic_caps.c", "classic_caps_id_message"),
  ("Keymaps/asdf_keymap_apple2.c", "apple2_id_message"),
  ("Keymaps/asdf_keymap_apple2_caps.c", "apple2_caps_id_message"),
  ("Keymaps/asdf_keymap_sol.c", "sol_id_message"),
  ("Keymaps/asdf_keymap_ace1000.c", "ace1000_id_message"),
  ("Keymaps/asdf_keymap_apple2_add_map.c", "applesoft_keyboard_test"),
  ("Keymaps/asdf_keymap_ace1000_add_map.c", "ace1000_keyboard_test"),
]

def camel(n):
    p = n.split("_")
    return p[0] + "".join(x.capitalize() for x in p[1:])

def main():
    o = ["import Verif.Model.Basic", "",
         "/-! # Key tables and messages of the shipped keymaps",
         "",
         "Generated by `tools/gen_keymaps.py` from the C sources; do not edit.",
         "Entries not mentioned in a C initialiser are zero, as in C. -/", "",
         "namespace Asdf", ""]
    for f, extra, nr, nc, names in TABLES:
        ev = Ev(COMMON + extra)
        rows, cols = ev.value(nr), ev.value(nc)
        base = names[0].split("_")[0]
        o += ["/-- `%s` (%s or its header). -/" % (nr, f),
              "def %sRows : UInt8 := %d" % (base, rows), "",
              "/-- `%s`. -/" % nc, "def %sCols : UInt8 := %d" % (base, cols), ""]
        for n in names:
            mat, src, (a, b) = table(ev, f, n, rows, cols)
            o += ["/-- `%s` (%s:%d-%d), row-major. -/" % (n, f, a, b), "def %s : List Code := [" % camel(n)]
            for r in range(rows):
                vals = ", ".join("0x%02X" % v for v in mat[r])
                o.append("  %s%s  -- [%d] %s" % (vals, "," if r < rows - 1 else " ]", r, " ".join(src[r])))
            o.append("")
    for f, fun in MESSAGES:
        s, line = cstring(f, fun)
        shown = "".join(map(chr, s)).replace("\n", "\\n").replace("\r", "\\r")
        o += ["/-- Text printed by `%s` (%s:%d): `%s` -/" % (fun, f, line, shown),
              "def %sText : List Code := [" % camel(fun)]
        for i in range(0, len(s), 16):
            o.append("  " + ", ".join("0x%02X" % v for v in s[i:i + 16]) +
                     ("," if i + 16 < len(s) else " ]"))
        o.append("")
    o += ["end Asdf", ""]
    open(OUT, "w").write("\n".join(o))

main()
