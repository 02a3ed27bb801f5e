#!/usr/bin/env python3
"""Generate lean/Verif/Model/BoardData.lean from the KiCad board files in /repo/hardware.

For every part with more than one connected pad the reference, the value, the kind and
the net of every pad are copied.  Capacitors, crystals and mounting holes are left out.
Net numbers are those of the board file."""
import re, os

REPO = '/repo/hardware/'
BOARDS = [
    ('classic', 'keyboard-classic/kbd-classic.kicad_pcb', 'the classic keyboard'),
    ('sol', 'keyboard-sol/kbd-sol.kicad_pcb', 'the Sol-20 keyboard'),
    ('ace', 'keyboard-franklin-ace-1000/franklin-ace-1000-keyboard.kicad_pcb',
     'the Franklin ACE 1000 keyboard'),
    ('io328', 'interface-ascii/interface-ascii.kicad_pcb', 'the ATmega328P interface'),
    ('io2560', 'interface-ascii-atmega2560/interface-ascii-2560.kicad_pcb',
     'the ATmega2560 interface'),
    ('solIntegrated', 'keyboard-sol-integrated/kbd-sol.kicad_pcb',
     'the Sol-20 keyboard with the controller on the board'),
    ('encoder', 'apple2-encoder/apple-encoder.kicad_pcb', 'the Apple encoder'),
    ('adapter', 'multi-kbd-adapter/multi-adapter.kicad_pcb', 'the adapter for several keyboards'),
    ('osi', 'interface-osi/interface-osi.kicad_pcb', 'the OSI interface'),
]


def parse(s):
    st = [[]]
    for t in re.findall(r'"(?:[^"\\]|\\.)*"|[()]|[^\s()]+', s):
        if t == '(':
            st.append([])
        elif t == ')':
            x = st.pop()
            st[-1].append(x)
        else:
            st[-1].append(t[1:-1] if t.startswith('"') else t)
    return st[0][0]


def load(path):
    nets, parts = {}, []
    for m in parse(open(REPO + path).read()):
        if not isinstance(m, list) or not m:
            continue
        if m[0] == 'net':
            nets[int(m[1])] = m[2]
        if m[0] in ('module', 'footprint'):
            ref = val = None
            pads = {}
            for e in m:
                if isinstance(e, list) and e[0] == 'fp_text':
                    if e[1] == 'reference':
                        ref = e[2]
                    if e[1] == 'value':
                        val = e[2]
                if isinstance(e, list) and e[0] == 'pad':
                    for x in e:
                        if isinstance(x, list) and x[0] == 'net':
                            n = int(x[1])
                            assert pads.get(e[1], n) == n
                            pads[e[1]] = n
            parts.append((ref, val, m[1], {int(k): v for k, v in pads.items()}))
    return nets, parts


def kind(ref, val, fp):
    if ref.startswith(('C', 'Y', 'MH', 'REF')) or ref.strip() == '':
        return None
    if ref.startswith('RN'):
        return 'pullups'
    if ref.startswith('R'):
        return 'resistor'
    if ref.startswith('LED') or val == 'LED':
        return 'led'
    if ref.startswith('D'):
        if 'bypassed' in fp:
            return 'bypassed'
        return 'diode'
    if ref.startswith('SW') and 'DIP' in fp:
        return 'dip'
    if ref.startswith('SW') or re.match(r'K\d', ref):
        return 'key'
    if ref.startswith('JP'):
        return 'jumper'
    if ref.startswith('J'):
        return 'connector'
    if ref.startswith('U'):
        return 'chip'
    raise SystemExit('unknown part ' + ref)


def esc(s):
    return s.replace('\\', '\\\\').replace('"', '\\"')


def natkey(p):
    return [int(t) if t.isdigit() else t for t in re.split(r'(\d+)', p[0])]


def main():
    out = ['import Verif.Model.Pcb', '',
           '/-! # The printed circuit boards',
           '',
           'Generated by `tools/gen_boards.py` from the `.kicad_pcb` files: every part with its',
           'reference, value and the net of every pad. -/', '',
           'namespace Asdf.Pcb.Data', '', 'open Kind', '']
    for name, path, what in BOARDS:
        nets, parts = load(path)
        out.append(f'/-- {what[0].upper() + what[1:]} (hardware/{path}). -/')
        out.append(f'def {name} : List Part := [')
        rows = []
        for ref, val, fp, pads in sorted(parts, key=natkey):
            k = kind(ref, val, fp)
            if k is None or len(pads) < 2:
                continue
            num = int(re.search(r'(\d+)$', ref).group(1))
            line, row = f'  ⟨{k}, {num}, "{esc(val)}", [', ''
            for i, a in enumerate(sorted(pads)):
                item = f'({a}, {pads[a]})' + (', ' if i + 1 < len(pads) else ']⟩')
                if len(line) + len(item) > 98:
                    row += line.rstrip() + '\n'
                    line = '    '
                line += item
            rows.append(row + line)
        out.append(',\n'.join(rows) + ']')
        out.append('')
        out.append(f'/-- The names of the nets of {what}. -/')
        out.append(f'def {name}Names : List (Nat × String) := [')
        used = sorted({n for r, v, f, p in parts if kind(r, v, f) for n in p.values()})
        line, lines = '  ', []
        for n in used:
            item = f'({n}, "{esc(nets[n])}"), '
            if len(line) + len(item) > 98:
                lines.append(line.rstrip())
                line = '  '
            line += item
        lines.append(line.rstrip().rstrip(','))
        out.append('\n'.join(lines) + ']')
        out.append('')
    out.append('end Asdf.Pcb.Data')
    text = '\n'.join(out) + '\n'
    here = os.path.dirname(os.path.abspath(__file__))
    open(os.path.join(here, '../lean/Verif/Model/BoardData.lean'), 'w').write(text)


if __name__ == "__main__":
    main()
