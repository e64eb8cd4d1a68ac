#!/usr/bin/env python3
"""Transcribe the rows of `smeftsim_card_fill` (wilson/wcxf/converters/smeftsim.py) into
lean/Verif/Gen/SmeftSimA.lean and SmeftSimB.lean (reads the source text only).

A row `[i, ..., format(EXPR, '.6e'), '# LABEL']` of block BLOCK becomes
  r block [i, ...] kind key [flavour indices] stem part [label indices]
with `block` and `stem` positions in the tables of block names and label stems; flavour
indices count from 0."""
import ast, os, re
src = open('/repo/wilson/wcxf/converters/smeftsim.py').read()
T = ast.parse(src)
F = {f.name: f for f in T.body if isinstance(f, ast.FunctionDef)}
fill = F['smeftsim_card_fill']
ifs = [s for s in fill.body if isinstance(s, ast.If)]
assert len(ifs) == 1 and ast.unparse(ifs[0].test) == "model_set == 'A'"
orelse = ifs[0].orelse
assert len(orelse) == 1 and ast.unparse(orelse[0].test) == "model_set == 'B'" and not orelse[0].orelse
ini = F['initialize_smeftsim_card'].body[0]
def initial(body):
    out = []
    for s in body[1:]:
        assert ast.unparse(s.value) == 'OrderedDict()'
        out.append(re.match(r"card\['Block'\]\['(\w+)'\]$", ast.unparse(s.targets[0])).group(1))
    return out
INI = {'A': initial(ini.body), 'B': initial(ini.orelse[0].body)}
KIND = {'abs(scaled_wc(K)) * lambda_smeft_value ** 2': 'abs',
        'abs(scaled_wc(K) * lambda_smeft_value ** 2)': 'absAll',
        'scaled_wc(K) * lambda_smeft_value ** 2': 'plain',
        'angle(scaled_wc(K))': 'angle'}
def rows(body):
    out, extra = [], []
    for s in body:
        if isinstance(s, ast.If):
            extra.append(ast.unparse(s)); continue
        blk = re.match(r"card\['Block'\]\['(\w+)'\]$", ast.unparse(s.targets[0])).group(1)
        assert [k.value for k in s.value.keys] == ['values']
        for e in s.value.values[0].elts:
            *idx, call, com = e.elts
            idx = [x.value for x in idx]; com = com.value
            assert call.func.id == 'format' and call.args[1].value == '.6e' and com[:2] == '# '
            v = ast.unparse(call.args[0])
            m = re.search(r"scaled_wc\('(\w+)'\)", v)
            if not m:
                assert v == 'lambda_smeft_value'
                out.append((blk, idx, 'cutoff', None, [], com[2:], '', [], e.lineno)); continue
            key = m.group(1)
            kind = KIND[v.replace("'%s'" % key, 'K')]
            op, _, fl = key.partition('_')
            com = com[2:]
            if fl:
                stem, part, dig = re.match(r'(.*?)(Abs|Ph)([\dx]+)$', com).groups()
                dig = dig.replace('x', '')
                assert len(dig) == len(fl)
            else:
                stem, part, dig = com, '', ''
            out.append((blk, idx, kind, op, [int(c) - 1 for c in fl], stem, part, [int(c) - 1 for c in dig], e.lineno))
    return out, extra
def L(l): return '[' + ','.join(map(str, l)) + ']'
for M, body in (('A', ifs[0].body), ('B', orelse[0].body)):
    R, extra = rows(body)
    if M == 'A':
        assert extra == ["if input_scheme_value == 'mw':\n    card['Block']['FRBlock']['values'].insert(1474, [1475, format(80.387, '.6e'), '# MW0'])"]
    else:
        assert not extra
    blocks = []
    for r in R:
        if r[0] not in blocks: blocks.append(r[0])
    stems = []
    for r in R:
        if r[5] not in stems and r[2] != 'cutoff': stems.append(r[5])
    out = ['import Verif.Model.SmeftSimRow', '',
           '/-! Generated by `tools/gen_smeftsim.py` from `/repo/wilson/wcxf/converters/smeftsim.py`; do not',
           'edit. -/', '', 'set_option autoImplicit false', '', 'namespace Verif.Gen', 'open Verif.SmeftSim', '']
    i0 = ini.body if M == 'A' else ini.orelse[0].body
    out.append(f'/-- blocks created by `initialize_smeftsim_card`, `smeftsim.py:{i0[0].lineno}-{i0[-1].end_lineno}` -/')
    out.append(f'def initBlocks{M} : List String := [' + ', '.join(f'"{b}"' for b in INI[M]) + ']')
    out.append('')
    out.append('/-- blocks filled by `smeftsim_card_fill`, in the order of the source -/')
    out.append(f'def blocks{M} : List String := [' + ', '.join(f'"{b}"' for b in blocks) + ']')
    out.append('')
    out.append('/-- the label stems, in the order of first use -/')
    out.append(f'def stems{M} : List String := [' + ', '.join(f'"{b}"' for b in stems) + ']')
    out.append('')
    n = 0
    for c in range(0, len(R), 125):
        ch = R[c:c+125]
        out.append(f'/-- `smeftsim.py:{ch[0][8]}-{ch[-1][8]}` -/')
        out.append(f'def rows{M}{n} : List Row := [')
        ls = []
        for b, idx, kind, op, fl, stem, part, dig, ln in ch:
            if kind == 'cutoff':
                ls.append(f'  .cutoff {blocks.index(b)} {L(idx)}')
            else:
                p = {'': '.none', 'Abs': '.abs', 'Ph': '.ph'}[part]
                ls.append(f'  .coef {blocks.index(b)} {L(idx)} .{kind} .{op} {L(fl)} {stems.index(stem)} {p} {L(dig)}')
        out.append(',\n'.join(ls) + ']'); out.append('')
        n += 1
    out.append(f'/-- all rows of model set {M} -/')
    out.append(f'def rows{M} : List Row := [' + ', '.join(f'rows{M}{i}' for i in range(n)) + '].flatten')
    out += ['', 'end Verif.Gen', '']
    open(os.path.join(os.path.dirname(os.path.abspath(__file__)), f'../lean/Verif/Gen/SmeftSim{M}.lean'), 'w').write('\n'.join(out))
