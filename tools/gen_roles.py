#!/usr/bin/env python3
"""Find the matrix position of every switch of the assembled keyboards, from the board
files.  Writes lean/Verif/Spec/KeyPlaces.lean (the positions) and
lean/Verif/Lemmas/BoardRoles.lean (what every net is for, and for every switch the way
of the current).  Both are checked by the proofs."""
import os, sys
sys.path.insert(0, os.path.dirname(os.path.abspath(__file__)))
import gen_boards as G

PIN2560 = {('J', i): 63 + i for i in range(7)}
PIN2560[('J', 7)] = 79
for i in range(8):
    PIN2560[('A', i)] = 78 - i
OUT138 = [15, 14, 13, 12, 11, 10, 9, 7]
IN166 = [14, 12, 11, 10, 5, 4, 3, 2]


def board(path, side):
    res = []
    for ref, val, fp, pads in sorted(G.load(path)[1], key=G.natkey):
        k = G.kind(ref, val, fp)
        if k is None or len(pads) < 2:
            continue
        num = int(''.join(ch for ch in ref if ch.isdigit()))
        res.append((k, num, val, {a: (side, n) for a, n in pads.items()}))
    return res


PATH = {n: p for n, p, _ in G.BOARDS}


def assembly(kb, io, ioplug):
    K = board(PATH[kb], 'kb') if kb else []
    I = board(PATH[io], 'io')
    links = []
    for k, num, val, p in K + I:
        if k == 'key':
            links.append(('s', ('key', num), p[1], p[2]))
            if 3 in p:
                links.append(('d', None, p[3], p[4]))
        elif k in ('diode', 'led'):
            links.append(('d', None, p[2], p[1]))
        elif k == 'bypassed':
            links.append(('b', None, p[2], p[1]))
        elif k == 'dip':
            for i in range(1, 9):
                links.append(('s', ('dip', i), p[i], p[17 - i]))
    if io == 'osi':
        u11 = [p for k, n, v, p in I if k == 'chip' and n == 11][0]
        links.append(('s', ('dip', 1), u11[1], u11[2]))
    if kb:
        pk = [p for k, n, v, p in K if k == 'connector' and n == 1][0]
        pi = [p for k, n, v, p in I if k == 'connector' and n == ioplug][0]
        for i in range(1, 41):
            if i in pk and i in pi:
                links.append(('w', None, pk[i], pi[i]))
    chip = {n: p for k, n, v, p in I if k == 'chip'}
    if io == 'osi':
        drv = {k: chip[5][p] for k, p in enumerate([2, 5, 6, 9, 12, 15, 16, 19])}
        col = {c: chip[3 + c // 4][2 + 2 * (c % 4)] for c in range(8)}
    elif 2 in chip:
        drv = {k: chip[3][OUT138[k]] for k in range(8)}
        drv.update({k + 8: chip[4][OUT138[k]] for k in range(8)})
        col = {c: chip[2][IN166[c]] for c in range(8)}
    else:
        drv = {k: chip[1][PIN2560[('J', k) if k < 8 else ('A', k - 8)]] for k in range(16)}
        col = {c: chip[1][53 + c] for c in range(8)}
    # what every net is for
    role = {}
    for r, n in drv.items():
        role[n] = ('row', r)
    for c, n in col.items():
        role[n] = ('col', c)
    same = [(a, b) for t, i, a, b in links if t in 'wb']
    def spread():
        ch = True
        while ch:
            ch = False
            for a, b in same:
                for x, y in ((a, b), (b, a)):
                    if x in role and y not in role:
                        role[y] = role[x]
                        ch = True
                    assert x not in role or role[x] == role[y]
    spread()
    pos = {}
    diodes = [(a, b) for t, i, a, b in links if t == 'd']
    comp = {}
    def cls(n):
        s, todo = {n}, [n]
        while todo:
            x = todo.pop()
            for a, b in same:
                for u, v in ((a, b), (b, a)):
                    if u == x and v not in s:
                        s.add(v)
                        todo.append(v)
        return s
    for t, i, a, b in links:
        if t != 's':
            continue
        for x, y in ((a, b), (b, a)):
            rx = role.get(x)
            if rx and rx[0] == 'col' and (y not in role or role[y][0] != 'row'):
                ys = cls(y)
                to = {role[k] for an, k in diodes if an in ys and k in role and role[k][0] == 'row'}
                if to:
                    assert len(to) == 1
                    pos[i] = (to.pop()[1], rx[1])
                    for z in ys:
                        assert z not in role
                        role[z] = ('mid', *pos[i], i)
            if rx and rx[0] == 'row' and y not in role:
                ys = cls(y)
                frm = {role[an] for an, k in diodes if k in ys and an in role and role[an][0] == 'col'}
                if frm:
                    assert len(frm) == 1
                    pos[i] = (rx[1], frm.pop()[1])
                    for z in ys:
                        role[z] = ('dmid', *pos[i], i)
    for a, k in diodes:
        if a not in role and k in role and role[k][0] == 'row':
            for z in cls(a):
                role[z] = ('stub', role[k][1])
    # the way from the column to the driver
    ways = {}
    for i, (r, c) in pos.items():
        start, goal = col[c], drv[r]
        prev, todo = {start: None}, [start]
        while todo and goal not in prev:
            x = todo.pop(0)
            for t, j, a, b in links:
                nxt = []
                if t == 's' and j == i or t == 'w':
                    nxt = [b] if a == x else [a] if b == x else []
                if t in 'db' and a == x:
                    nxt = [b]
                for y in nxt:
                    if y not in prev:
                        prev[y] = x
                        todo.append(y)
        w, x = [], goal
        while x is not None:
            w.append(x)
            x = prev[x]
        ways[i] = w[::-1]
    names = {('key', n): v for k, n, v, p in K + I if k == 'key'}
    for i in range(1, 9):
        names[('dip', i)] = f'DIP {i}'
    return role, pos, ways, names, links


def sw(i):
    return f'.{i[0]} {i[1]}'


def net(n):
    return f'.{n[0]} {n[1]}'


ASM = [('classic328', 'classic', 'io328', 6), ('classic2560', 'classic', 'io2560', 10),
       ('sol328', 'sol', 'io328', 6), ('sol2560', 'sol', 'io2560', 10),
       ('sol1', None, 'solIntegrated', 0), ('classicEnc', 'classic', 'encoder', 10),
       ('solEnc', 'sol', 'encoder', 10), ('classicOsi', 'classic', 'osi', 2)]


def wrap(items, ind='  '):
    lines, line = [], ind
    for k, it in enumerate(items):
        it = it + (', ' if k + 1 < len(items) else ']')
        if len(line) + len(it) > 98:
            lines.append(line.rstrip())
            line = ind
        line += it
    return '\n'.join(lines + [line])


def main():
    here = os.path.dirname(os.path.abspath(__file__))
    res = {a[0]: assembly(*a[1:]) for a in ASM}
    order = lambda i: (i[0], i[1])
    out = ['import Verif.Spec.Circuit', '',
           '/-! # The matrix positions of the keys and DIP switches', '',
           'Written by `tools/gen_roles.py`; property C80 proves that these are the positions at',
           'which the switches of the boards act. -/', '',
           'namespace Asdf.Spec', '', 'open Pcb', '']
    for nm, a, b, what in [('classicPlaces', 'classic328', 'classic2560', 'the classic keyboard'),
                           ('solPlaces', 'sol328', 'sol2560', 'the Sol-20 keyboard')]:
        p = res[a][1]
        assert p == res[b][1]
        assert p == res[b.replace('2560', 'Enc')][1]
        if nm == 'solPlaces':
            assert p == res['sol1'][1], (set(p.items()) ^ set(res['sol1'][1].items()))
            assert res[a][3] == res['sol1'][3]
        out.append(f'/-- The switches of {what}: label on the board, row and column. -/')
        out.append(f'def {nm} : List Place := [')
        out.append(wrap([f'⟨{sw(i)}, "{G.esc(res[a][3][i])}", {p[i][0]}, {p[i][1]}⟩'
                         for i in sorted(p, key=order)]))
        out.append('')
    p = res['classicOsi'][1]
    names = dict(res['classicOsi'][3])
    names[('dip', 1)] = 'Shift Lock'
    out.append('/-- The switches of the classic keyboard that act on the matrix of the OSI interface, and')
    out.append('the analog switch of the shift lock (chip U11 of the interface, here DIP switch 1). -/')
    out.append('def osiPlaces : List Place := [')
    out.append(wrap([f'⟨{sw(i)}, "{G.esc(names[i])}", {p[i][0]}, {p[i][1]}⟩' for i in sorted(p, key=order)]))
    out.append('')
    out.append('end Asdf.Spec')
    open(os.path.join(here, '../lean/Verif/Spec/KeyPlaces.lean'), 'w').write('\n'.join(out) + '\n')
    out = ['import Verif.Lemmas.Circuit', '',
           '/-! # What the nets of the boards are for (written by `tools/gen_roles.py`) -/', '',
           'namespace Asdf.Pcb.Roles', '', 'open Asdf.Spec Role', '']
    for nm, *_ in ASM:
        role, pos, ways, names, links = res[nm]
        for side in ('kb', 'io'):
            its = []
            for n in sorted(role):
                if n[0] != side:
                    continue
                r = role[n]
                if r[0] in ('mid', 'dmid'):
                    t = f'{r[0]} {r[1]} {r[2]} ({sw(r[3])})'
                else:
                    t = f'{r[0]} {r[1]}'
                its.append(f'({n[1]}, {t})')
            out.append(f'def {nm}_{side} : List (Nat × Role) := [')
            out.append(wrap(its) if its else '  ]')
            out.append('')
        out.append(f'def {nm}_ways : List (List Net) := [')
        out.append(wrap(['[' + ', '.join(net(n) for n in ways[i]) + ']' for i in sorted(pos, key=order)]))
        out.append('')
    out.append('end Asdf.Pcb.Roles')
    open(os.path.join(here, '../lean/Verif/Lemmas/BoardRoles.lean'), 'w').write('\n'.join(out) + '\n')
    for nm in res:
        role, pos, ways, names, links = res[nm]
        miss = [i for t, i, a, b in links if t == 's' and i not in pos]
        print(nm, len(pos), 'switches placed; not placed:', miss)


if __name__ == '__main__':
    main()
