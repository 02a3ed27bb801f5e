#!/usr/bin/env python3
"""Translate the firmware from C to the syntax of Model/CLang.lean.

Reads /repo/firmware/asdf/src as text and writes lean/Verif/Model/CNames.lean,
CSource.lean (the portable part), CArch328.lean and CArch2560.lean (the hardware layer of
the two boards).  In the hardware layer every access to a register, to a static variable of
that file or through a pointer becomes a call of io_read or io_write.  Nothing is built or run: this is a parser for the part of
C the firmware is written in; anything else is an error.  Object-like macros and
enumerators with an integer value keep their names (they become Lean constants).

After parsing, every function is printed back as C and compared token by token with its
source (after macro expansion), so that the trees are what the text says.
"""
import os, re, sys

SRC = os.environ.get("ASDF_SRC", "/repo/firmware/asdf/src/")
LIST = os.environ.get("ASDF_LIST", "/repo/firmware/asdf/keymap_list.cmake")
OUT = os.environ.get("ASDF_OUT", os.path.join(os.path.dirname(os.path.abspath(__file__)), "..", "lean", "Verif", "Model"))

UNITS = ["asdf_buffer.c", "asdf_repeat.c", "asdf_physical.c", "asdf_virtual.c", "asdf_hook.c",
         "asdf_modifiers.c", "asdf_keymaps.c", "asdf.c", "main.c",
         "asdf_keymap_setup.c",
         "Keymaps/asdf_keymap_classic_add_map.c", "Keymaps/asdf_keymap_classic.c",
         "Keymaps/asdf_keymap_classic_caps.c", "Keymaps/asdf_keymap_apple2_add_map.c",
         "Keymaps/asdf_keymap_apple2.c", "Keymaps/asdf_keymap_apple2_caps.c",
         "Keymaps/asdf_keymap_sol.c", "Keymaps/asdf_keymap_ace1000_add_map.c",
         "Keymaps/asdf_keymap_ace1000.c"]

# functions of the architecture, of the C library, and asdf_print.c
EXTERN = ["asdf_arch_init", "asdf_arch_tick", "asdf_arch_read_row", "asdf_arch_send_code",
          "asdf_arch_set_pos_strobe", "asdf_arch_set_neg_strobe", "asdf_arch_pulse_delay_short",
          "asdf_arch_pulse_delay_long", "asdf_arch_delay_ms", "asdf_arch_null_output",
          "asdf_arch_out1_set", "asdf_arch_out1_open_hi_set", "asdf_arch_out1_open_lo_set",
          "asdf_arch_out2_set", "asdf_arch_out2_open_hi_set", "asdf_arch_out2_open_lo_set",
          "asdf_arch_out3_set", "asdf_arch_out3_open_hi_set", "asdf_arch_out3_open_lo_set",
          "asdf_arch_led1_set", "asdf_arch_led2_set", "asdf_arch_led3_set",
          "asdf_print", "pgm_read_byte"]

# the hardware layer, its headers, and what avr/io.h, avr/interrupt.h and util/delay.h supply
BOARDS = {"328": "atmega328p", "2560": "atmega2560"}
PRIMS = {"io_read": "io_read", "io_write": "io_write", "cli": "cli", "sei": "sei",
         "_delay_us": "delay_us", "_delay_ms": "delay_ms"}
BITS = {"CLKPCE": "7", "WGM01": "1", "CS00": "0", "CS01": "1", "OCIE0A": "1"}
REGS = [p + l for p in ("PORT", "DDR", "PIN") for l in "ABCDHJ"] + \
       ["CLKPR", "OCR0A", "TCCR0A", "TCCR0B", "TIMSK0"]

BASE = {"uint8_t": "u8", "int8_t": "i8", "uint16_t": "u16", "int16_t": "i16", "char": "i8", "int": "i16",
        "uint32_t": "u32", "int32_t": "i32"}

def die(msg):
    sys.exit("c2lean: " + msg)

def strip_comments(t):
    blank = lambda m: re.sub(r"[^\n]", " ", m.group(0))
    return re.sub(r'"(?:\\.|[^"\\])*"|/\*.*?\*/|//[^\n]*',
                  lambda m: m.group(0) if m.group(0)[0] == '"' else blank(m), t, flags=re.S)

def generated_setup():
    """asdf_keymap_setup.c as CMake makes it (src/CMakeLists.txt, keymap_list.cmake)."""
    t = open(SRC + "asdf_keymap_setup.c.in").read()
    maps = re.findall(r'"<(.+):(.+)>"', strip_comments(open(LIST).read()))
    rep = {"keymap_declarations": [f"\n void setup_{n}_keymap(void)" for n, _ in maps],
           "keymap_table": [f"\n    case {i}: setup_{n}_keymap();break" for n, i in maps],
           "keymap_valid": [f"\n    case {i}:" for n, i in maps]}
    for k, v in rep.items():
        t = t.replace("@" + k + "@", ";".join(v) + ";")
    return t

def load(f):
    if f == "asdf_keymap_setup.c":
        return strip_comments(generated_setup())
    return strip_comments(open(SRC + f).read())

TOK = re.compile(r'\s*(?:(?P<num>0[xX][0-9a-fA-F]+[uUlL]*|[0-9]+[uUlL]*)|(?P<id>[A-Za-z_]\w*)|(?P<chr>\'(?:\\.|[^\'\\])\')|'
                 r'(?P<str>"(?:\\.|[^"\\])*")|(?P<op>##|\.\.\.|<<=|>>=|\+\+|--|->|<<|>>|<=|>=|==|!=|&&|\|\||\+=|-=|\*=|/=|%=|&=|\|=|\^=|[-+*/%&|^~!<>=?:;,.(){}\[\]#]))')

def lex(t, line0=1):
    out, i, line = [], 0, line0
    while True:
        m = re.compile(r"\s*").match(t, i)
        line += t.count("\n", i, m.end())
        i = m.end()
        if i >= len(t):
            return out
        m = TOK.match(t, i)
        if not m:
            die("cannot lex %r" % t[i:i + 40])
        out.append((m.lastgroup, m.group(m.lastgroup), line))
        i = m.end()

ESC = {"n": 10, "r": 13, "t": 9, "0": 0, "\\": 92, "'": 39, '"': 34, "a": 7, "b": 8, "e": 27, "f": 12, "v": 11}

def unescape(s):
    out, i = [], 0
    while i < len(s):
        if s[i] == "\\":
            out.append(ESC[s[i + 1]]); i += 2
        else:
            out.append(ord(s[i])); i += 1
    return out

class Unit:
    """Preprocessing: macros and includes of one translation unit."""
    def __init__(self, f, board="328"):
        self.f, self.macros, self.funmacros, self.seen = f, {}, {}, set()
        self.board = board
        if f.startswith("Arch/"):
            self.macros.update(BITS)
            self.funmacros["ISR"] = (["vector"], lex("void vector(void)"))
        self.code = []
        self.read(f, True)

    def find(self, name):
        if name == "asdf_arch.h":
            return "Arch/asdf_arch_%s.h" % BOARDS[self.board]
        for d in ("", "Keymaps/"):
            if os.path.exists(SRC + d + name):
                return d + name
        if name == "asdf_keymap_setup.h":
            return None
        die("no header " + name)

    def read(self, f, top):
        if f in self.seen:
            return
        self.seen.add(f)
        text = load(f)
        lines, n = text.split("\n"), 0
        while n < len(lines):
            l, start = lines[n], n + 1
            n += 1
            if l.lstrip().startswith("#"):
                while l.rstrip().endswith("\\"):
                    l = l.rstrip()[:-1] + " " + lines[n]; n += 1
                m = re.match(r'\s*#include\s+"([^"]+)"', l)
                if m:
                    h = self.find(m.group(1))
                    if h:
                        self.read(h, False)
                    continue
                m = re.match(r"\s*#define\s+(\w+)\(([^)]*)\)\s*(.*)$", l)
                if m:
                    self.funmacros[m.group(1)] = ([p.strip() for p in m.group(2).split(",")], lex_loose(m.group(3)))
                    continue
                m = re.match(r"\s*#define\s+(\w+)(?:\s+(.*))?$", l)
                if m:
                    self.macros[m.group(1)] = (m.group(2) or "").strip()
            else:
                self.code.append((l, start, f))

    def tokens(self):
        out, i = [], 0
        for l, n, f in self.code:
            i += 1
        text = "\n".join(l for l, _, _ in self.code)
        for k, v, line in lex(text):
            _, n, f = self.code[line - 1]
            out.append((k, v, n, f))
        return out

def lex_loose(t):
    try:
        return lex(t)
    except SystemExit:
        return []

def const(e):
    """value of a constant expression"""
    k = e[0]
    if k == "paren": return const(e[1])
    if k == "num": return e[1]
    if k in ("const", "chr"): return e[2]
    if k == "un":
        a = const(e[2])
        return {"-": -a, "~": ~a, "!": int(not a)}[e[1]]
    if k == "bin":
        a, b = const(e[2]), const(e[3])
        return {"+": lambda: a + b, "-": lambda: a - b, "*": lambda: a * b, "/": lambda: a // b,
                "<<": lambda: a << b, "|": lambda: a | b, "&": lambda: a & b}[e[1]]()
    raise ValueError("not constant: %r" % (e,))

def is_long(e):
    """has a constant expression type long?"""
    k = e[0]
    if k == "paren": return is_long(e[1])
    if k == "num": return e[2]
    if k == "const": return e[3]
    if k == "un": return is_long(e[2])
    if k == "bin": return is_long(e[2]) or (e[1] not in ("<<", ">>") and is_long(e[3]))
    return False

class Parser:
    def __init__(self, g, unit):
        self.g, self.u = g, unit
        self.t = self.expand(unit.tokens())
        self.i = 0

    # macro expansion; integer macros stay as constants
    def expand(self, toks):
        out, i = [], 0
        while i < len(toks):
            k, v, n, f = toks[i]
            if k == "id" and v in self.u.funmacros and i + 1 < len(toks) and toks[i + 1][1] == "(":
                params, body = self.u.funmacros[v]
                depth, j, args, cur = 0, i + 1, [], []
                while True:
                    w = toks[j][1]
                    if w == "(":
                        depth += 1
                        if depth > 1: cur.append(toks[j])
                    elif w == ")":
                        depth -= 1
                        if depth == 0: break
                        cur.append(toks[j])
                    elif w == "," and depth == 1:
                        args.append(cur); cur = []
                    else:
                        cur.append(toks[j])
                    j += 1
                args.append(cur)
                args = [self.expand(a) for a in args]
                new, b = [], 0
                while b < len(body):
                    bk, bv, _ = body[b]
                    if bv == "##":           # only `name ## parameter`
                        new[-1] = ("id", new[-1][1] + self.spelling(args[params.index(body[b + 1][1])]), n, f)
                        b += 1
                    elif bk == "id" and bv in params:
                        new += args[params.index(bv)]
                    else:
                        new.append((bk, bv, n, f))
                    b += 1
                out += self.expand(new)
                i = j + 1
                continue
            if k == "id" and v in self.u.macros and v not in self.g.enums:
                val = self.macro_value(v)
                if val is not None:
                    out.append(("const", (v,) + val, n, f))
                else:
                    body = lex(self.u.macros[v])
                    out += self.expand([(bk, bv, n, f) for bk, bv, _ in body])
                i += 1
                continue
            out.append(toks[i])
            i += 1
        return out

    def spelling(self, toks):
        """the name an argument, already expanded, stands for"""
        (k, v, _, _), = toks
        v = v[0] if k == "const" else v
        while v in self.u.macros:
            v = self.u.macros[v]
        return v

    def macro_value(self, v):
        try:
            return self.const_text(self.u.macros[v])
        except (ValueError, SystemExit, KeyError, IndexError, AttributeError):
            return None

    def const_text(self, text):
        toks = [(k, v, 0, "") for k, v, _ in lex(text)]
        if not toks:
            raise ValueError
        p = Sub(self, toks)
        e = p.expr()
        if p.i != len(p.t):
            raise ValueError
        return self.const(e), is_long(e)

    def const(self, e):
        return const(e)

    def peek(self, k=0):
        return self.t[self.i + k] if self.i + k < len(self.t) else (None, None, 0, "")

    def at(self, v):
        return self.peek()[1] == v and self.peek()[0] != "str"

    def eat(self, v):
        if not self.at(v):
            self.fail("expected %r" % v)
        self.i += 1

    def opt(self, v):
        if self.at(v):
            self.i += 1
            return True
        return False

    def ident(self):
        k, v, _, _ = self.peek()
        if k != "id":
            self.fail("expected identifier")
        self.i += 1
        return v

    def fail(self, msg):
        k, v, n, f = self.peek()
        raise ValueError("%s:%s: %s at %r" % (f, n, msg, v))

    # ---- types
    def is_type(self, k=0):
        kk, v, _, _ = self.peek(k)
        return kk == "id" and (v in BASE or v in self.g.types or v in ("const", "void", "struct", "static", "enum", "FILE", "va_list",
                                 "volatile", "inline"))

    def base_type(self):
        while self.peek()[1] in ("const", "static", "PROGMEM", "volatile", "inline"):
            self.i += 1
        v = self.ident()
        if v in BASE: t = ("int", BASE[v])
        elif v == "void": t = ("void",)
        elif v == "FILE": t = ("file",)
        elif v == "struct":
            t = self.struct()
        elif v == "enum":
            t = self.enum()
        elif v in self.g.types: t = self.g.types[v]
        else: self.fail("unknown type " + v)
        while self.peek()[1] in ("const",):
            self.i += 1
        return t

    def enum(self):
        self.eat("{")
        last, hi = -1, 0
        while not self.at("}"):
            k, v, n, f = self.peek()
            name = self.ident() if k == "id" else v[0]
            if k != "id": self.i += 1
            if self.opt("="):
                last = self.const(self.cond())
            else:
                last += 1
            hi = max(hi, last)
            self.g.enums[name] = last
            if not self.opt(","): break
        self.eat("}")
        return ("int", "u8" if hi <= 255 else "u16")

    def struct(self):
        self.eat("{")
        fs = []
        while not self.at("}"):
            t = self.base_type()
            name, t = self.declarator(t)
            self.eat(";")
            fs.append((name, t))
        self.eat("}")
        return ("struct", fs)

    def declarator(self, t):
        """name and type; function pointers and pointers to rows included"""
        while self.opt("*"):
            t = ("ptr", t)
            while self.peek()[1] == "const": self.i += 1
        if self.at("(") and self.peek(1)[1] == "*":
            self.eat("("); self.eat("*")
            name = self.ident() if self.peek()[0] == "id" else None
            self.eat(")")
            if self.at("("):
                self.params()
                return name, ("ptr", ("fun",))
            self.eat("[")
            n = self.cond()
            self.eat("]")
            return name, ("mat", n)
        name = self.ident() if self.peek()[0] == "id" else None
        dims = []
        while self.at("["):
            self.eat("[")
            dims.append(None if self.at("]") else self.cond())
            self.eat("]")
        for d in reversed(dims):
            t = ("arr", t, d)
        return name, t

    def params(self):
        self.eat("(")
        ps = []
        if self.at("void") and self.peek(1)[1] == ")":
            self.i += 1
        elif not self.at(")"):
            while True:
                if self.opt("..."):
                    ps.append((None, ("va",)))
                    break
                t = self.base_type()
                ps.append(self.declarator(t))
                if not self.opt(","): break
        self.eat(")")
        return ps

    # ---- expressions
    def expr(self):
        return self.assignment()

    def assignment(self):
        e = self.cond()
        v = self.peek()[1]
        if self.peek()[0] == "op" and v in ("=", "+=", "-=", "*=", "/=", "%=", "&=", "|=", "^=", "<<=", ">>="):
            self.i += 1
            r = self.assignment()
            return ("assign", e, r) if v == "=" else ("update", v[:-1], e, r)
        return e

    def cond(self):
        e = self.binary(0)
        if self.opt("?"):
            a = self.expr()
            self.eat(":")
            return ("cond", e, a, self.cond())
        return e

    LEVELS = [["||"], ["&&"], ["|"], ["^"], ["&"], ["==", "!="], ["<", ">", "<=", ">="], ["<<", ">>"], ["+", "-"], ["*", "/", "%"]]

    def binary(self, l):
        if l == len(self.LEVELS):
            return self.unary()
        e = self.binary(l + 1)
        while self.peek()[0] == "op" and self.peek()[1] in self.LEVELS[l]:
            op = self.peek()[1]
            self.i += 1
            e = ("bin", op, e, self.binary(l + 1))
        return e

    def unary(self):
        k, v, _, _ = self.peek()
        if k == "op" and v in ("!", "~", "-"):
            self.i += 1
            return ("un", v, self.unary())
        if k == "op" and v in ("++", "--"):
            self.i += 1
            return ("pre", v, self.unary())
        if k == "op" and v == "*":
            self.i += 1
            return ("deref", self.unary())
        if k == "op" and v == "&":
            self.i += 1
            return ("addr", self.unary())
        if k == "op" and v == "(" and self.is_type(1):
            self.i += 1
            t = self.base_type()
            if t != ("void",) or self.peek()[1] != ")":
                _, t = self.declarator(t)
            self.eat(")")
            return ("cast", t, self.unary())
        return self.postfix()

    def postfix(self):
        e = self.primary()
        while True:
            if self.opt("["):
                i = self.expr()
                self.eat("]")
                e = ("index", e, i)
            elif self.opt("."):
                e = ("member", e, self.ident())
            elif self.opt("("):
                args = []
                if not self.at(")"):
                    args.append(self.expr())
                    while self.opt(","):
                        args.append(self.expr())
                self.eat(")")
                e = ("call", e, args)
            elif self.peek()[1] in ("++", "--"):
                e = ("post", self.peek()[1], e)
                self.i += 1
            else:
                return e

    def primary(self):
        k, v, _, _ = self.peek()
        if k == "const":
            self.i += 1
            return ("const", v[0], v[1], v[2])
        if k == "num":
            self.i += 1
            if "u" in v.lower(): self.fail("unsigned constant")
            return ("num", int(v.rstrip("lL"), 0), "l" in v.lower())
        if k == "chr":
            self.i += 1
            return ("chr", v, unescape(v[1:-1])[0])
        if k == "str":
            self.i += 1
            return ("str", v)
        if k == "op" and v == "(":
            self.i += 1
            e = self.expr()
            self.eat(")")
            return ("paren", e)
        if k == "id":
            self.i += 1
            if v == "NULL":
                return ("null",)
            if v in self.g.enums:
                return ("const", v, self.g.enums[v], False)
            return ("id", v)
        self.fail("expression")

    # ---- statements
    def stmt(self):
        k, v, _, _ = self.peek()
        if v == "{" and k == "op": return self.block()
        if v == ";" and k == "op":
            self.i += 1
            return ("skip",)
        if k == "id":
            if v == "if":
                self.i += 1
                self.eat("("); c = self.expr(); self.eat(")")
                a = self.stmt()
                b = self.stmt() if self.opt("else") else None
                return ("if", c, a, b)
            if v == "while":
                self.i += 1
                self.eat("("); c = self.expr(); self.eat(")")
                return ("while", c, self.stmt())
            if v == "for":
                self.i += 1
                self.eat("(")
                init = self.decl_stmt()
                c = self.expr(); self.eat(";")
                step = self.expr(); self.eat(")")
                return ("for", init, c, step, self.stmt())
            if v == "switch":
                self.i += 1
                self.eat("("); c = self.expr(); self.eat(")")
                return ("switch", c, self.cases())
            if v == "break":
                self.i += 1; self.eat(";")
                return ("break",)
            if v == "return":
                self.i += 1
                e = None if self.at(";") else self.expr()
                self.eat(";")
                return ("return", e)
            if self.is_type():
                return self.decl_stmt()
        e = self.expr()
        self.eat(";")
        return ("expr", e)

    def decl_stmt(self):
        t = self.base_type()
        name, t = self.declarator(t)
        if self.opt(";"):
            return ("declu", t, name)
        self.eat("=")
        e = self.expr()
        self.eat(";")
        return ("decl", t, name, e)

    def block(self):
        self.eat("{")
        out = []
        while not self.at("}"):
            out.append(self.stmt())
        self.eat("}")
        return ("block", out)

    def cases(self):
        self.eat("{")
        groups = []
        while not self.at("}"):
            labels = []
            while self.at("case") or self.at("default"):
                if self.opt("default"):
                    labels.append(None)
                else:
                    self.i += 1
                    labels.append(self.cond())
                self.eat(":")
                while self.opt(";"):      # empty statement after a label
                    if self.at("case") or self.at("default"): pass
            if not labels: self.fail("label")
            body = []
            while not (self.at("case") or self.at("default") or self.at("}")):
                body.append(self.stmt())
            groups.append((labels, body))
        self.eat("}")
        return groups

    # ---- top level
    def unit(self):
        while self.i < len(self.t):
            start = self.i
            line, file = self.peek()[2], self.peek()[3]
            if self.opt(";"): continue
            if self.opt("typedef"):
                if self.at("enum"):
                    self.i += 1
                    t = self.enum()
                    self.g.types[self.ident()] = t
                elif self.at("struct"):
                    self.i += 1
                    t = self.struct()
                    self.g.types[self.ident()] = t
                else:
                    t = self.base_type()
                    name, t = self.declarator(t)
                    self.g.types[name] = t
                self.eat(";")
                continue
            t = self.base_type()
            name, t = self.declarator(t)
            if self.at("("):
                ps = self.params()
                if self.opt(";"):
                    self.g.protos[name] = (t, ps)
                    continue
                body = self.block()
                self.g.funs[name] = dict(ret=t, params=ps, body=body, file=file, line=line,
                                         end=self.t[self.i - 1][2], toks=self.t[start:self.i], unit=self)
                continue
            init = None
            if self.opt("="):
                init = self.initialiser()
            self.eat(";")
            self.g.globs[name] = dict(type=t, init=init, file=file, line=line)

    def initialiser(self):
        if not self.at("{"):
            return ("e", self.expr())
        self.eat("{")
        items = []
        while not self.at("}"):
            des = None
            if self.opt("["):
                des = ("ix", self.const(self.cond()))
                self.eat("]"); self.eat("=")
            elif self.opt("."):
                des = ("fld", self.ident())
                self.eat("=")
            items.append((des, self.initialiser()))
            if not self.opt(","): break
        self.eat("}")
        return ("l", items)

class Sub(Parser):
    def __init__(self, parent, toks):
        self.g, self.u = parent.g, parent.u
        self.t = self.expand(toks)
        self.i = 0

class Globals:
    def __init__(self):
        self.types, self.enums, self.protos, self.funs, self.globs = {}, {}, {}, {}, {}

# ---------------------------------------------------------------- printing back

def show(e):
    k = e[0]
    if k == "const": return [("const", e[1])]
    if k == "num": return [("num", e[1])]
    if k == "chr": return [("chr", e[1])]
    if k == "str": return [e[1]]
    if k == "null": return ["NULL"]
    if k == "id": return [e[1]]
    if k == "paren": return ["("] + show(e[1]) + [")"]
    if k == "un": return [e[1]] + show(e[2])
    if k == "pre": return [e[1]] + show(e[2])
    if k == "post": return show(e[2]) + [e[1]]
    if k == "deref": return ["*"] + show(e[1])
    if k == "addr": return ["&"] + show(e[1])
    if k == "bin": return show(e[2]) + [e[1]] + show(e[3])
    if k == "cond": return show(e[1]) + ["?"] + show(e[2]) + [":"] + show(e[3])
    if k == "assign": return show(e[1]) + ["="] + show(e[2])
    if k == "update": return show(e[2]) + [e[1] + "="] + show(e[3])
    if k == "index": return show(e[1]) + ["["] + show(e[2]) + ["]"]
    if k == "member": return show(e[1]) + [".", e[2]]
    if k == "cast": return ["(", ("type",), ")"] + show(e[2])
    if k == "call":
        out = show(e[1]) + ["("]
        for n, a in enumerate(e[2]):
            out += ([","] if n else []) + show(a)
        return out + [")"]
    die("show " + k)

def show_s(s):
    k = s[0]
    if k == "skip": return [";"]
    if k == "block": return ["{"] + sum((show_s(x) for x in s[1]), []) + ["}"]
    if k == "expr": return show(s[1]) + [";"]
    if k == "declu": return [("type",), ";"]
    if k == "decl": return [("type",), "="] + show(s[3]) + [";"]
    if k == "if":
        return ["if", "("] + show(s[1]) + [")"] + show_s(s[2]) + (["else"] + show_s(s[3]) if s[3] else [])
    if k == "while": return ["while", "("] + show(s[1]) + [")"] + show_s(s[2])
    if k == "for":
        return ["for", "("] + show_s(s[1]) + show(s[2]) + [";"] + show(s[3]) + [")"] + show_s(s[4])
    if k == "switch":
        out = ["switch", "("] + show(s[1]) + [")", "{"]
        for labels, body in s[2]:
            for l in labels:
                out += ["default", ":"] if l is None else ["case"] + show(l) + [":"]
            out += sum((show_s(x) for x in body), [])
        return out + ["}"]
    if k == "break": return ["break", ";"]
    if k == "return": return ["return"] + (show(s[1]) if s[1] else []) + [";"]
    die("show_s " + k)

def roundtrip(g, name):
    """the printed tree and the tokens of the source agree"""
    fn = g.funs[name]
    toks = fn["toks"]
    b = next(i for i, t in enumerate(toks) if t[1] == "{")
    src = toks[b:]
    pr = show_s(fn["body"])
    i = 0
    for p in pr:
        if p == ("type",):
            # a type: skip to the token that follows it in the printed text
            depth = 0
            while True:
                v = src[i][1]
                if depth == 0 and v in ("=", ")", ";") and src[i][0] == "op": break
                if v == "(": depth += 1
                if v == ")": depth -= 1
                i += 1
            continue
        k, v = src[i][0], src[i][1]
        while v == ";" and p in ("case", "default"):
            i += 1                   # empty statement after a label
            k, v = src[i][0], src[i][1]
        ok = (p == v) if isinstance(p, str) else \
            (p[0] == "const" and ((k == "const" and v[0] == p[1]) or v == p[1])) or \
            (p[0] == "num" and k == "num" and int(v.rstrip("uUlL"), 0) == p[1]) or \
            (p[0] == "chr" and k == "chr" and v == p[1])
        if not ok and v == ";":
            i += 1
            k, v = src[i][0], src[i][1]
            ok = p == v or (isinstance(p, tuple) and p[1] == v)
        if not ok:
            die("round trip of %s: printed %r, source %r (line %d)" % (name, p, v, src[i][2]))
        i += 1
    if i != len(src):
        die("round trip of %s: source is longer" % name)

# ---------------------------------------------------------------- Lean output

BIN = {"+": "add", "-": "sub", "*": "mul", "/": "div", "%": "mod", "&": "band", "|": "bor", "^": "bxor",
       "<<": "shl", ">>": "shr", "<": "lt", ">": "gt", "<=": "le", ">=": "ge", "==": "eq", "!=": "ne"}
UN = {"-": "neg", "~": "bnot", "!": "not"}

def num(n):
    return str(n) if n >= 0 else "(%d)" % n

class Emit:
    def __init__(self, g, old=None):
        """`old`: the portable part, when this is the hardware layer"""
        self.g, self.hw = g, old is not None
        self.locals_, self.flds, self.consts = (old.locals_ if old else []), [], {}
        self.tables = {n for n, d in g.globs.items() if self.is_table(d["type"])}

    def is_table(self, t):
        return t[0] == "arr" and t[1][0] == "arr" and t[1][1] == ("int", "u8") and t[1][2] is not None and \
            t[1][2][0] == "const" and t[1][2][1].endswith("NUM_COLS")

    def const(self, e):
        return const(e)

    def cname(self, name, val):
        n = name
        while self.consts.setdefault(n, val) != val:     # redefined in another file
            n += "'"
        return "Mac." + n

    def loc(self, x):
        if x not in self.locals_: self.locals_.append(x)
        return x

    def fld(self, f):
        if f not in self.flds: self.flds.append(f)
        return f

    # type of an expression, as far as needed
    def typ(self, e):
        k = e[0]
        if k == "paren": return self.typ(e[1])
        if k == "id":
            if e[1] in self.env: return self.env[e[1]]
            if e[1] in self.g.globs: return self.g.globs[e[1]]["type"]
            return ("fun",)
        if k == "index":
            t = self.typ(e[1])
            if t[0] == "arr": return t[1]
            if t[0] == "mat": return ("row",)
            if t[0] == "row": return ("int", "u8")
            if t[0] == "ptr": return t[1]
            die("index of %r" % (t,))
        if k == "member":
            t = self.typ(e[1])
            return dict(t[1])[e[2]]
        if k == "deref":
            t = self.typ(e[1])
            return t[1] if t[0] == "ptr" else t
        if k == "cast": return e[1]
        return ("int", "?")

    def io(self, e):
        """the address, when `e` is a register, a static variable or `*p` in the hardware layer"""
        if not self.hw: return None
        while e[0] == "paren": e = e[1]
        if e[0] == "id" and e[1] not in self.env and (e[1] in REGS or e[1] in self.g.globs):
            return "(.reg .%s)" % e[1]
        if e[0] == "deref":
            if e[1][0] != "id": die("address is not a variable")
            return self.ex(e[1])
        return None

    def io_read(self, a):
        return "(.call .io_read (.cons %s .nil))" % a

    def io_write(self, a, e):
        return "(.call .io_write (.cons %s (.cons %s .nil)))" % (a, e)

    def lv(self, e):
        k = e[0]
        if k == "paren": return self.lv(e[1])
        if k == "id":
            if e[1] in self.env: return "(.var .%s)" % self.loc(e[1])
            if e[1] in self.g.globs: return "(.obj .%s)" % e[1]
            die("unknown variable " + e[1])
        if k == "index":
            t = self.typ(e[1])
            if t[0] == "arr": return "(.idx %s %s)" % (self.lv(e[1]), self.ex(e[2]))
            if t[0] in ("ptr", "row"): return "(.pidx %s %s)" % (self.ex(e[1]), self.ex(e[2]))
            die("index of %r" % (t,))
        if k == "member": return "(.fld %s .%s)" % (self.lv(e[1]), self.fld(e[2]))
        if k == "deref": return "(.deref %s)" % self.ex(e[1])
        die("lvalue %r" % (e,))

    def ex(self, e):
        k = e[0]
        if k == "paren": return self.ex(e[1])
        if k in ("const", "num"):
            n = self.cname(e[1], e[2]) if k == "const" else num(e[1])
            if is_long(e): return "(.lit .i32 %s)" % n
            if not -32768 <= const(e) <= 32767: die("constant too large: %r" % (e,))
            return "(.num %s)" % n
        a = self.io(e)
        if a: return self.io_read(a)
        if k in ("assign", "addr") and self.io(e[1]):
            return self.io_write(self.io(e[1]), self.ex(e[2])) if k == "assign" else self.io(e[1])
        if k == "update" and self.io(e[2]):
            a = self.io(e[2])
            return self.io_write(a, "(.bin .%s %s %s)" % (BIN[e[1]], self.io_read(a), self.ex(e[3])))
        if k == "chr": return "(.num %d)" % e[2]
        if k == "str": return "(.str [%s])" % ", ".join("0x%02X" % c for c in unescape(e[1][1:-1]))
        if k == "null": return ".null"
        if k == "id":
            if e[1] in self.env: return "(.load (.var .%s))" % self.loc(e[1])
            if e[1] in self.tables:
                t = self.g.globs[e[1]]["type"]
                return "(.tab tab_%s %s)" % (e[1], self.cname(t[1][2][1], t[1][2][2]))
            if e[1] in self.g.globs: return "(.load (.obj .%s))" % e[1]
            if e[1] in self.g.funs or e[1] in EXTERN: return "(.fn .%s)" % e[1]
            die("unknown identifier " + e[1])
        if k == "index":
            if self.typ(e[1])[0] == "mat":
                return "(.row %s %s)" % (self.ex(e[1]), self.ex(e[2]))
            return "(.load %s)" % self.lv(e)
        if k in ("member",):
            return "(.load %s)" % self.lv(e)
        if k == "deref":
            t = self.typ(e[1])
            if t == ("fun",) or t == ("ptr", ("fun",)): return self.ex(e[1])
            return "(.load %s)" % self.lv(e)
        if k == "addr":
            if e[1][0] == "id" and e[1][1] not in self.env and (e[1][1] in self.g.funs or e[1][1] in EXTERN):
                return "(.fn .%s)" % e[1][1]
            return "(.addr %s)" % self.lv(e[1])
        if k == "un": return "(.un .%s %s)" % (UN[e[1]], self.ex(e[2]))
        if k == "bin":
            if e[1] == "&&": return "(.and %s %s)" % (self.ex(e[2]), self.ex(e[3]))
            if e[1] == "||": return "(.or %s %s)" % (self.ex(e[2]), self.ex(e[3]))
            return "(.bin .%s %s %s)" % (BIN[e[1]], self.ex(e[2]), self.ex(e[3]))
        if k == "cond": return "(.cond %s %s %s)" % tuple(self.ex(x) for x in e[1:])
        if k == "assign": return "(.assign %s %s)" % (self.lv(e[1]), self.ex(e[2]))
        if k == "update": return "(.update .%s %s %s)" % (BIN[e[1]], self.lv(e[2]), self.ex(e[3]))
        if k == "pre": return "(.update .%s %s (.num 1))" % (BIN[e[1][0]], self.lv(e[2]))
        if k == "post": return "(.post .%s %s)" % (BIN[e[1][0]], self.lv(e[2]))
        if k == "cast":
            if e[1][0] == "int": return "(.cast .%s %s)" % (e[1][1], self.ex(e[2]))
            return self.ex(e[2])
        if k == "call":
            args = ".nil"
            for a in reversed(e[2]):
                args = "(.cons %s %s)" % (self.ex(a), args)
            f = e[1]
            while f[0] == "paren": f = f[1]
            if f[0] == "id" and f[1] not in self.env:
                if self.hw and f[1] in PRIMS: return "(.call .%s %s)" % (PRIMS[f[1]], args)
                if f[1] not in self.g.funs and f[1] not in EXTERN: die("unknown function " + f[1])
                return "(.call .%s %s)" % (f[1], args)
            return "(.callp %s %s)" % (self.ex(f), args)
        die("expression %r" % (e,))

    def ty(self, t):
        if t[0] == "int": return "(.int .%s)" % t[1]
        if t[0] == "ptr": return ".ptr"
        if t[0] == "mat": return "(.mat %s)" % self.ex(t[1])
        die("type %r" % (t,))

    def seq(self, ss, ind):
        if not ss: return ".skip"
        if len(ss) == 1: return self.st(ss[0], ind)
        pad = "\n" + "  " * (ind + 1)
        return "(.seq %s%s%s)" % (self.st(ss[0], ind + 1), pad, self.seq(ss[1:], ind))

    def st(self, s, ind):
        k = s[0]
        pad = "\n" + "  " * (ind + 1)
        if k == "skip": return ".skip"
        if k == "block":
            saved = dict(self.env)
            if len(s[1]) == 1 and s[1][0][0] not in ("decl", "declu"):
                r = self.st(s[1][0], ind)
            elif not s[1]:
                r = ".skip"
            elif any(x[0] in ("decl", "declu") for x in s[1]):
                r = "(.block %s)" % self.seq(s[1], ind)
            else:
                r = self.seq(s[1], ind)
            self.env = saved
            return r
        if k == "expr": return "(.expr %s)" % self.ex(s[1])
        if k == "declu":
            if s[1][0] != "int": die("variable without initialiser")
            self.env[s[2]] = s[1]
            return "(.declU .%s .%s)" % (s[1][1], self.loc(s[2]))
        if k == "decl":
            e = self.ex(s[3])
            t = self.ty(s[1])
            self.env[s[2]] = s[1]
            return "(.decl %s .%s %s)" % (t, self.loc(s[2]), e)
        if k == "if":
            return "(.ite %s%s%s%s%s)" % (self.ex(s[1]), pad, self.st(s[2], ind + 1), pad,
                                        self.st(s[3], ind + 1) if s[3] else ".skip")
        if k == "while":
            return "(.loop %s (.num 0)%s%s)" % (self.ex(s[1]), pad, self.st(s[2], ind + 1))
        if k == "for":
            saved = dict(self.env)
            d = self.st(s[1], ind)
            r = "(.block (.seq %s%s(.loop %s %s%s%s)))" % (d, pad, self.ex(s[2]), self.ex(s[3]), pad, self.st(s[4], ind + 1))
            self.env = saved
            return r
        if k == "switch":
            out, n = "", 0
            for labels, body in s[2]:
                ls = ", ".join(self.lab(l) for l in labels if l is not None)
                out += "%s(.cons [%s] %s %s" % (pad, ls, "true" if None in labels else "false", self.seq(body, ind + 1))
                n += 1
            return "(.switch %s%s%s.nil%s)" % (self.ex(s[1]), out, pad, ")" * n)
        if k == "break": return ".brk"
        if k == "return": return "(.ret %s)" % self.ex(s[1]) if s[1] else ".ret0"
        die("statement " + k)

    def lab(self, l):
        if l[0] == "const": return self.cname(l[1], l[2])
        return num(self.const(l))

    def function(self, name):
        f = self.g.funs[name]
        self.env = {}
        ps = []
        for x, t in f["params"]:
            if t[0] == "ptr" and t[1][0] == "file": t = ("ptr", ("void",))
            self.env[x] = t
            ps.append("(.%s, %s)" % (self.loc(x), self.ty(t)))
        r = "none" if f["ret"][0] == "void" else "some %s" % self.ty(f["ret"])
        body = self.seq(f["body"][1], 1)
        return ps, r, body

    # ---- static objects
    def zero(self, t):
        if t[0] == "int": return "(.leaf (.int .%s 0))" % t[1]
        if t[0] == "ptr": return "(.leaf .null)"
        if t[0] == "struct": return "(.struct [%s])" % ", ".join("(.%s, %s)" % (self.fld(f), self.zero(x)) for f, x in t[1])
        if t[0] == "arr": return "(.arr (List.replicate %s %s))" % (self.dim(t[2]), self.zero(t[1]))
        die("zero %r" % (t,))

    def dim(self, d):
        if d[0] == "const":
            self.cname(d[1], d[2])
        return str(self.const(d))

    def value(self, t, e):
        while e[0] == "paren": e = e[1]
        if t[0] == "int": return "(.leaf (.int .%s %s))" % (t[1], num(self.const(e)))
        if e[0] == "addr" and e[1][0] == "id":
            n = e[1][1]
            if n in self.tables: return "(.leaf (.rom tab_%s 0))" % n
            return "(.leaf (.fn .%s))" % n
        die("initialiser %r" % (e,))

    def table(self, t, i):
        """the entries of a two-dimensional table"""
        def items(i):
            out, pos = {}, 0
            for des, x in i[1]:
                if des: pos = des[1]
                out[pos] = x
                pos += 1
            return out
        rows = items(i)
        cols = const(t[1][2])
        res = []
        for r in range(const(t[2])):
            row = items(rows[r]) if r in rows else {}
            res.append([const(row[c][1]) if c in row else 0 for c in range(cols)])
            if any(r >= const(t[2]) for r in rows) or any(c >= cols for c in row): die("too many initialisers")
        return res

    def init(self, t, i):
        if i is None or (i[0] == "l" and not i[1]): return self.zero(t)
        if i[0] == "e": return self.value(t, i[1])
        if t[0] == "arr":
            items, pos = {}, 0
            for des, x in i[1]:
                if des: pos = des[1]
                items[pos] = self.init(t[1], x)
                pos += 1
            n = self.const(t[2]) if t[2] is not None else max(items) + 1
            return "(.arr [%s])" % ",\n    ".join(items.get(j, self.zero(t[1])) for j in range(n))
        if t[0] == "struct":
            got = {des[1]: self.init(dict(t[1])[des[1]], x) for des, x in i[1]}
            return "(.struct [%s])" % ", ".join("(.%s, %s)" % (self.fld(f), got.get(f) or self.zero(x)) for f, x in t[1])
        die("init %r" % (t,))

def wrap(words, first, width=96):
    lines, cur = [], first
    for w in words:
        if len(cur) + len(w) + 3 > width:
            lines.append(cur)
            cur = " "
        cur += " | " + w
    return "\n".join(lines + [cur])

HEAD = "/-! # %s\n\nGenerated by `tools/c2lean.py` from the C sources; do not edit.%s -/\n\nnamespace Asdf.C\n"

def parse(units, board):
    g = Globals()
    for f in units:
        p = Parser(g, Unit(f, board))
        try:
            p.unit()
        except ValueError as e:
            die("%s: %s" % (f, e))
    for n in g.funs:
        roundtrip(g, n)
    return g

def place(n, board):
    """Where a macro or an enumerator is defined."""
    name, primes = n.rstrip("'"), n.count("'")  # a second macro of that name has a prime
    arch = "Arch/asdf_arch_%s." % BOARDS[board]
    files = [arch + "h", arch + "c"] + UNITS
    files += sorted(d + f for d in ("", "Keymaps/") for f in os.listdir(SRC + d) if f.endswith(".h"))
    for pat in (r"\s*#\s*define\s+%s\b", r"(?:.*enum\b.*\b|\s*)%s\s*(?:=.*|,.*|\}.*)?$"):
        for f in files:
            for i, l in enumerate(load(f).split("\n")):
                if re.match(pat % name, l):
                    if not primes:
                        return "%s:%d" % (f, i + 1)
                    primes -= 1
    if n in BITS:
        return "avr/io.h"
    die("no definition of " + n)

def write_consts(o, em, board):
    o.write("\n/-! ## Macros and enumerators -/\n")
    for n in em.consts:
        o.write("\n/-- `%s` (%s). -/\nabbrev Mac.%s : Int := %s\n" % (n.rstrip("'"), place(n, board), n, num(em.consts[n])))

def write_funs(o, g, order, bodies):
    o.write("\n/-! ## Functions -/\n")
    for n in order:
        f = g.funs[n]
        ps, r, body = bodies[n]
        o.write("\n/-- `%s` (%s:%d-%d). -/\ndef %s : Fun where\n  params := [%s]\n  result := %s\n  body :=\n    %s\n"
                % (n, f["file"], f["line"], f["end"], "fn_" + n, ", ".join(ps), r, body))

def write_body(o, order):
    o.write("\n/-- The functions with a body. -/\ndef body : F → Option Fun\n")
    for n in order:
        o.write("  | .%s => some fn_%s\n" % (n, n))
    o.write("  | _ => none\n")

def main():
    g = parse(UNITS, "328")
    em = Emit(g)
    order = list(g.funs)
    bodies = {n: em.function(n) for n in order}
    # the portable part is the same for both boards
    g2 = parse(UNITS, "2560")
    em2 = Emit(g2)
    if {n: em2.function(n) for n in g2.funs} != bodies or \
            {n: v for n, v in em2.consts.items()} != em.consts: die("the portable part depends on the board")
    globs = [n for n in g.globs if n not in em.tables]
    inits = {n: em.init(g.globs[n]["type"], g.globs[n]["init"]) for n in globs}
    hw = {}
    for b in BOARDS:
        gb = parse(["Arch/asdf_arch_%s.c" % BOARDS[b]], b)
        eb = Emit(gb, em)
        hw[b] = (gb, eb, {n: eb.function(n) for n in gb.funs})
    own = []
    for b in BOARDS:
        own += [n for n in hw[b][0].funs if n not in EXTERN + own]
    variables = list(hw["328"][0].globs)
    if variables != list(hw["2560"][0].globs): die("different static variables")
    with open(os.path.join(OUT, "CNames.lean"), "w") as o:
        o.write(HEAD % ("The names in the C sources", ""))
        o.write("\n/-- Objects with static storage duration. -/\ninductive G where\n")
        o.write(wrap(globs, " ") + "\n  deriving DecidableEq, Repr\n")
        o.write("\n/-- Functions.  The first %d have a body in the portable sources; the next %d are the hardware\nlayer and library functions they call; then come the other functions of the hardware layer;\nthe last %d are the accesses to registers and what avr-libc supplies. -/\ninductive F where\n"
                % (len(order), len(EXTERN), len(PRIMS)))
        o.write(wrap(order + EXTERN + own + list(PRIMS.values()), " ") + "\n  deriving DecidableEq, Repr\n")
        o.write("\n/-- Registers, and the static variables of the hardware layer. -/\ninductive R where\n")
        o.write(wrap(REGS + variables, " ") + "\n  deriving DecidableEq, Repr\n")
        o.write("\n/-- Local variables and parameters. -/\ninductive L where\n")
        o.write(wrap(em.locals_, " ") + "\n  deriving DecidableEq, Repr\n")
        o.write("\n/-- Members of structures. -/\ninductive Fld where\n")
        o.write(wrap(em.flds, " ") + "\n  deriving DecidableEq, Repr\n\nend Asdf.C\n")
    with open(os.path.join(OUT, "CSource.lean"), "w") as o:
        o.write("import Verif.Model.CLang\n\n")
        o.write(HEAD % ("The C sources of the portable firmware", "\n\nOne definition for each function, in the order of the files; the comment says where it\nis.  Macros and enumerators with an integer value are the constants at the beginning."))
        write_consts(o, em, "328")
        o.write("\n/-! ## Constant tables, row by row -/\n")
        for n in sorted(em.tables, key=lambda n: list(g.globs).index(n)):
            d = g.globs[n]
            rows = em.table(d["type"], d["init"])
            o.write("\n/-- `%s` (%s:%d). -/\ndef tab_%s : List Code := [\n" % (n, d["file"], d["line"], n))
            o.write(",\n".join("  " + ", ".join("0x%02X" % (c % 256) for c in r) for r in rows) + "]\n")
        write_funs(o, g, order, bodies)
        o.write("\n/-! ## Static objects -/\n")
        for n in globs:
            d = g.globs[n]
            o.write("\n/-- `%s` (%s:%d). -/\ndef init_%s : Tree :=\n  %s\n" % (n, d["file"], d["line"], n, inits[n]))
        o.write("\n/-- The static objects at reset. -/\ndef mem0 : G → Tree\n")
        for n in globs:
            o.write("  | .%s => init_%s\n" % (n, n))
        write_body(o, order)
        o.write("\nend Asdf.C\n")
    for b in BOARDS:
        gb, eb, bs = hw[b]
        with open(os.path.join(OUT, "CArch%s.lean" % b), "w") as o:
            o.write("import Verif.Model.CLang\n\n")
            o.write((HEAD % ("The C source of the hardware layer, %s" % BOARDS[b], "\n\n`io_read` and `io_write` are the accesses to registers and to the static variables\nof the file.")).replace("Asdf.C", "Asdf.C.A" + b))
            write_consts(o, eb, b)
            write_funs(o, gb, list(gb.funs), bs)
            o.write("\n/-! ## Static variables at reset -/\n")
            for n in variables:
                d = gb.globs[n]
                o.write("\n/-- `%s` (%s:%d). -/\ndef init_%s : UInt8 := %s\n" % (n, d["file"], d["line"], n, num(const(d["init"][1]))))
            write_body(o, list(gb.funs))
            o.write("\nend Asdf.C.A%s\n" % b)

if __name__ == "__main__":
    main()
