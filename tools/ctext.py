#!/usr/bin/env python3
"""Copy the C sources into Lean, as text and as tokens.

Writes lean/Verif/Model/CText.lean: the files of /repo/firmware/asdf that the translation
units of the firmware consist of, line by line, unchanged; CTokens.lean: their tokens; and
CNameTable.lean: the names in CNames.lean as numbers.  Nothing here has to be trusted except
that the text is copied correctly: that the tokens are those of the text is a theorem
(Props/CText.lean).
"""
import os, re, sys

ROOT = os.environ.get("ASDF_ROOT", "/repo/firmware/asdf/")
OUT = os.environ.get("ASDF_OUT", os.path.join(os.path.dirname(os.path.abspath(__file__)), "..", "lean", "Verif", "Model"))

FILES = ["keymap_list.cmake"] + ["src/" + f for f in """
asdf.h asdf_ascii.h asdf_buffer.h asdf_config.h asdf_hook.h asdf_keymap_setup.h.in asdf_keymaps.h asdf_modifiers.h
asdf_physical.h asdf_print.h asdf_repeat.h asdf_virtual.h
asdf_buffer.c asdf_repeat.c asdf_physical.c asdf_virtual.c asdf_hook.c asdf_modifiers.c asdf_keymaps.c asdf.c main.c
asdf_keymap_setup.c.in
Keymaps/asdf_keymap_defs_dipswitch.h
Keymaps/asdf_keymap_classic.h Keymaps/asdf_keymap_classic_add_map.h
Keymaps/asdf_keymap_apple2.h Keymaps/asdf_keymap_apple2_caps.h Keymaps/asdf_keymap_apple2_add_map.h
Keymaps/asdf_keymap_sol.h Keymaps/asdf_keymap_ace1000.h Keymaps/asdf_keymap_ace1000_add_map.h
Keymaps/asdf_keymap_classic_add_map.c Keymaps/asdf_keymap_classic.c Keymaps/asdf_keymap_classic_caps.c
Keymaps/asdf_keymap_apple2_add_map.c Keymaps/asdf_keymap_apple2.c Keymaps/asdf_keymap_apple2_caps.c
Keymaps/asdf_keymap_sol.c Keymaps/asdf_keymap_ace1000_add_map.c Keymaps/asdf_keymap_ace1000.c
Arch/asdf_arch_atmega328p.h Arch/asdf_arch_atmega2560.h Arch/asdf_arch_atmega328p.c Arch/asdf_arch_atmega2560.c
""".split()]

def lean_name(f):
    return re.sub(r"\W", "_", os.path.basename(f))

def num(s):
    n = 0
    for c in s.encode():
        n = n * 256 + c
    return n

TOK = re.compile(r'(?P<sp>[ \t\r]+)|(?P<nl>\n)|(?P<com>//(?:[^\n\\]|\\\n|\\(?!\n))*|/\*.*?\*/)|(?P<splice>\\[ \t\r]*\n)|'
                 r'(?P<num>(?:0[xX][0-9a-fA-F]+|[1-9][0-9]*|0)L?(?!\w))|(?P<id>[A-Za-z_]\w*)|'
                 r"'(?P<chr>\\.|[^'\\])'|\"(?P<str>(?:\\.|[^\"\\\n])*)\"|"
                 r'(?P<op>##|\.\.\.|<<=|>>=|\+\+|--|->|<<|>>|<=|>=|==|!=|&&|\|\||\+=|-=|\*=|/=|%=|&=|\|=|\^=|[^\w\s])', re.S | re.A)

ESC = {"n": 10, "r": 13, "t": 9, "0": 0, "\\": 92, "'": 39, '"': 34}

def unescape(s):
    return [ESC[m.group(1)] if m.group(1) else ord(m.group(0)) for m in re.finditer(r"\\(.)|.", s, re.S)]

def tokens(t):
    out, i, word = [], 0, False
    while i < len(t):
        m = TOK.match(t, i)
        if not m: sys.exit("cannot lex %r" % t[i:i + 40])
        k, v = m.lastgroup, m.group(m.lastgroup)
        i = m.end()
        if k == "nl" and out[-1:] != [".nl"]: out.append(".nl")
        elif k == "num": out.append(".num %d %s" % (int(v.rstrip("L"), 0), "true" if v[-1] == "L" else "false"))
        elif k == "id": out.append(".id 0x%X" % num(v))
        elif k == "chr": out.append(".chr %d" % unescape(v)[0])
        elif k == "str": out.append(".str [%s]" % ", ".join(map(str, unescape(v))))
        elif k == "op": out.append(".paren" if v == "(" and word else ".op 0x%X" % num(v))
        word = k == "id"
    return out

def wrap(items, width=110):
    lines, cur = [], " "
    for n, w in enumerate(items):
        w += "," if n + 1 < len(items) else "]"
        if len(cur) + len(w) + 1 > width:
            lines.append(cur); cur = " "
        cur += " " + w
    return "\n".join(lines + [cur])

def main():
    texts = {f: open(ROOT + f, newline="").read() for f in FILES}
    for f, t in texts.items():
        if not t.endswith("\n"): sys.exit("no end of line in " + f)
        if "\0" in t or max(len(l.encode()) for l in t.split("\n")) > 300: sys.exit("long line in " + f)
    with open(os.path.join(OUT, "CText.lean"), "w") as o:
        o.write("/-! # The text of the firmware\n\nGenerated by `tools/ctext.py`: the C files of the firmware and the list of key maps, line by\nline, unchanged; do not edit.  A line is the number whose digits, base 256, are its bytes;\nthe comment shows it. -/\n\nnamespace Asdf.C.Text\n")
        for f, t in texts.items():
            lines = t[:-1].split("\n")
            o.write("\n/-- /repo/firmware/asdf/%s, lines 1-%d. -/\ndef %s : List Nat := [\n" % (f, len(lines), lean_name(f)))
            o.write("".join("%s0x%X -- %s\n" % (", " if n else "  ", num(l), l) for n, l in enumerate(lines)) + "  ]\n")
        o.write("\nend Asdf.C.Text\n")
    with open(os.path.join(OUT, "CTokens.lean"), "w") as o:
        o.write("import Verif.Model.CLex\n\n/-! # The tokens of the firmware\n\nGenerated by `tools/ctext.py`; `Props/CText.lean` proves that these are the tokens of the\ntext in `Model/CText.lean`. -/\n\nnamespace Asdf.C.Tokens\n")
        for f, t in texts.items():
            if f.endswith(".c.in"): continue
            o.write("\n/-- The tokens of /repo/firmware/asdf/%s. -/\ndef %s : List Tok := [\n%s\n" % (f, lean_name(f), wrap(tokens(t))))
        o.write("\nend Asdf.C.Tokens\n")
    src = open(os.path.join(OUT, "CNames.lean")).read()
    with open(os.path.join(OUT, "CNameTable.lean"), "w") as o:
        o.write("import Verif.Model.CLex\n\n/-! # The names in the C sources, as numbers\n\nGenerated by `tools/ctext.py` from `Model/CNames.lean`. -/\n\nnamespace Asdf.C\n")
        for ty, body in re.findall(r"inductive (\w+) where\n(.*?)\n  deriving", src, re.S):
            names = re.findall(r"\w+", body)
            spell = {"delay_us": "_delay_us", "delay_ms": "_delay_ms"} if ty == "F" else {}
            o.write("\n/-- The names of type `%s`. -/\ndef names%s : List (Name × %s) := [\n%s\n"
                    % (ty, ty, ty, wrap(["(0x%X, .%s)" % (num(spell.get(n, n)), n) for n in names])))
        o.write("\nend Asdf.C\n")

if __name__ == "__main__":
    main()
