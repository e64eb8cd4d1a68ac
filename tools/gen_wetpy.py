#!/usr/bin/env python3
"""Dump the syntax trees of the functions of /repo/wilson/translate/wet.py as Lean terms.

The translation is purely syntactic: every Python construct is mapped to one constructor of
`Verif.Py.Expr` / `Verif.Py.Stmt`; constructs without a counterpart raise.  Desugaring:
  * keyword and omitted default arguments are put in the position of the parameter,
  * `x = d.pop(k).conjugate()` becomes a lookup followed by a `del`,
  * `{k: C.get(k, 0) for k in wc_keys}` (filling up with zeros) becomes a call of `fill_zeros`,
  * the final loop over the LFV tables (which tests for the presence of input keys) is omitted from
    `JMS_to_flavio` and `flavio_to_JMS`; it is modelled in Model/WetTranslate.
"""
import ast, json, os

SRC = '/repo/wilson/translate/wet.py'
OUT = os.path.join(os.path.dirname(__file__), '..', 'lean', 'Verif', 'Gen', 'WetPy.lean')
tree = ast.parse(open(SRC).read())
funcs = {n.name: n for n in tree.body if isinstance(n, ast.FunctionDef)}
SKIP = {'get_parameters', 'FlavorKit_to_JMS', 'JMS_to_FlavorKit'}


def nm(s):
    assert all(32 <= ord(c) < 127 for c in s), s
    return 'n!"%s"' % s.replace('\\', '\\\\').replace('"', '\\"')


def dotted(e):
    if isinstance(e, ast.Name):
        return e.id
    if isinstance(e, ast.Attribute):
        return dotted(e.value) + '.' + e.attr
    raise ValueError(ast.dump(e))


BIN = {ast.Add: 'add', ast.Sub: 'sub', ast.Mult: 'mul', ast.Div: 'div', ast.Pow: 'pow', ast.Mod: 'mod'}
CMP = {ast.Eq: 'eq', ast.In: 'isin', ast.NotIn: 'notin'}
EXT = {'sqrt', 'len', 'np.real', 'np.imag', 'int', 'str', 'ckmutil.ckm.ckm_tree', 'symmetrize_JMS_dict', 'JMS_to_array',
       'get_parameters'}


def lst(xs):
    return '.nil' if not xs else '(.cons %s %s)' % (xs[0], lst(xs[1:]))


def es(l):
    return 'es![' + ', '.join(ex(x) for x in l) + ']'


def ex(e):
    if isinstance(e, ast.Constant):
        v = e.value
        if v is None:
            return '.none'
        if isinstance(v, bool):
            return '(.bool %s)' % str(v).lower()
        if isinstance(v, int):
            return '(.int %d)' % v
        if isinstance(v, float):
            n, d = v.as_integer_ratio()
            return '(.flt %d %d)' % (n, d)
        if isinstance(v, str):
            return '(.str %s)' % nm(v)
        raise ValueError(v)
    if isinstance(e, ast.Name):
        return '(.var %s)' % nm(e.id)
    if isinstance(e, ast.BinOp):
        return '(.bin .%s %s %s)' % (BIN[type(e.op)], ex(e.left), ex(e.right))
    if isinstance(e, ast.UnaryOp):
        if isinstance(e.op, ast.USub):
            return '(.neg %s)' % ex(e.operand)
        if isinstance(e.op, ast.UAdd):
            return ex(e.operand)
    if isinstance(e, ast.BoolOp):
        op = 'and' if isinstance(e.op, ast.And) else 'or'
        r = ex(e.values[-1])
        for v in reversed(e.values[:-1]):
            r = '(.%s %s %s)' % (op, ex(v), r)
        return r
    if isinstance(e, ast.Compare):
        assert len(e.ops) == 1
        if isinstance(e.ops[0], ast.Is):
            assert isinstance(e.comparators[0], ast.Constant) and e.comparators[0].value is None
            return '(.bin .is %s .none)' % ex(e.left)
        return '(.bin .%s %s %s)' % (CMP[type(e.ops[0])], ex(e.left), ex(e.comparators[0]))
    if isinstance(e, (ast.List, ast.Tuple)):
        return '(.list %s)' % es(e.elts)
    if isinstance(e, ast.Dict):
        return '(.dict kv![\n        ' + ',\n        '.join('%s : %s' % (ex(k), ex(v)) for k, v in zip(e.keys, e.values)) + '])'
    if isinstance(e, ast.Subscript):
        s = e.slice
        if isinstance(s, ast.Slice):
            if s.step is not None:
                if s.lower is None and s.upper is None and ast.dump(s.step) == ast.dump(ast.parse('-1', mode='eval').body):
                    return '(.rev %s)' % ex(e.value)
                raise ValueError(ast.dump(e))
            f = lambda x: '.none' if x is None else ex(x)
            return '(.slice %s %s %s)' % (ex(e.value), f(s.lower), f(s.upper))
        return '(.idx %s %s)' % (ex(e.value), ex(s))
    if isinstance(e, ast.IfExp):
        return '(.cond %s %s %s)' % (ex(e.test), ex(e.body), ex(e.orelse))
    if isinstance(e, ast.JoinedStr):
        parts = []
        for v in e.values:
            if isinstance(v, ast.Constant):
                parts.append(v)
            else:
                assert v.conversion == -1 and v.format_spec is None
                parts.append(v.value)
        return '(.fstr %s)' % es(parts)
    if isinstance(e, ast.Call):
        if isinstance(e.func, ast.Attribute):
            try:
                d = dotted(e.func)
            except ValueError:
                d = None
            if d in EXT:
                assert not e.keywords
                return '(.call %s %s)' % (nm(d), es(e.args))
            m = e.func.attr
            if m in ('conj', 'conjugate'):
                assert not e.args
                return '(.meth %s %s es![])' % (ex(e.func.value), nm('conj'))
            if m in ('find', 'replace', 'get', 'items', 'keys', 'copy'):
                assert not e.keywords
                return '(.meth %s %s %s)' % (ex(e.func.value), nm(m), es(e.args))
            if m == 'format':
                fmt = e.func.value.value
                parts = fmt.split('{}')
                assert len(parts) == len(e.args) + 1
                out = []
                for i, p in enumerate(parts):
                    if p:
                        out.append(ast.Constant(p))
                    if i < len(e.args):
                        out.append(e.args[i])
                return '(.fstr %s)' % es(out)
            raise ValueError(ast.dump(e))
        f = e.func.id
        if f == 'tuple':
            g, = e.args
            assert isinstance(g, ast.GeneratorExp) and len(g.generators) == 1 and not g.generators[0].ifs
            return '(.comp %s %s %s)' % (nm(g.generators[0].target.id), ex(g.generators[0].iter), ex(g.elt))
        if f in funcs and f not in SKIP:
            a = funcs[f].args
            names = [x.arg for x in a.args]
            vals = dict(zip(names, e.args))
            for k in e.keywords:
                vals[k.arg] = k.value
            for n, dflt in zip(names[len(names) - len(a.defaults):], a.defaults):
                vals.setdefault(n, dflt)
            return '(.call %s %s)' % (nm(f), es([vals[n] for n in names]))
        if f == 'JMS_to_array':
            assert len(e.args) == 1 and [k.arg for k in e.keywords] == ['sectors']
            return '(.call %s %s)' % (nm(f), es([e.args[0], e.keywords[0].value]))
        if f == 'get_parameters':
            assert len(e.args) == 1 and [k.arg for k in e.keywords] == ['f', 'input_parameters']
            return '(.call %s %s)' % (nm(f), es([e.args[0], e.keywords[0].value, e.keywords[1].value]))
        if f in EXT:
            assert not e.keywords
            return '(.call %s %s)' % (nm(f), es(e.args))
        raise ValueError(f)
    if isinstance(e, ast.DictComp):
        assert len(e.generators) == 1 and not e.generators[0].ifs
        g = e.generators[0]
        if isinstance(g.target, ast.Name) and ast.unparse(e) == '{k: C_incomplete.get(k, 0) for k in wc_keys}':
            return '(.call %s es![(.var %s)])' % (nm('fill_zeros'), nm('C_incomplete'))
        k, v = (x.id for x in g.target.elts)
        assert isinstance(g.iter, ast.Call) and g.iter.func.attr == 'items'
        return '(.dcomp %s %s %s %s %s)' % (nm(k), nm(v), ex(g.iter.func.value), ex(e.key), ex(e.value))
    raise ValueError(ast.dump(e))


def block(b, ind):
    out = []
    for s in b:
        out += st(s, ind)
    return 'st![' + (',\n' + ' ' * ind).join(out) + ']'


def st(s, ind):
    if isinstance(s, ast.Expr):
        if isinstance(s.value, ast.Constant):
            return []
        if isinstance(s.value, ast.Call):
            f = s.value.func
            if isinstance(f, ast.Attribute) and f.attr == 'update':
                return ['.update %s %s' % (nm(f.value.id), ex(s.value.args[0]))]
            if isinstance(f, ast.Name) and f.id == 'KeyError':
                return ['.pass']  # an exception object that is not raised
        raise ValueError(ast.dump(s))
    if isinstance(s, ast.Assign):
        t, = s.targets
        if isinstance(t, ast.Name):
            if ast.unparse(s.value) in ("set(wcxf.Basis['WET', 'Bern'].all_wcs)", "wcxf.Basis['WET', 'Bern'].all_wcs",
                                        "wcxf.Basis['WET', 'flavio'].all_wcs"):
                return ['.pass']  # used only in the expression replaced by fill_zeros
            if isinstance(s.value, ast.Call) and dotted0(s.value.func) == 'json.loads':
                g = s.value.args[0].func.value
                fn = g.args[1].value
                return ['.assign %s (.call %s es![.str %s])' % (nm(t.id), nm('load_table'), nm(fn))]
            return ['.assign %s %s' % (nm(t.id), ex(s.value))]
        if isinstance(t, ast.Tuple):
            return ['.unpack [%s] %s' % (', '.join(nm(x.id) for x in t.elts), ex(s.value))]
        if isinstance(t, ast.Subscript):
            v = s.value
            if isinstance(v, ast.Call) and isinstance(v.func, ast.Attribute) and v.func.attr == 'conjugate' \
               and isinstance(v.func.value, ast.Call) and isinstance(v.func.value.func, ast.Attribute) \
               and v.func.value.func.attr == 'pop':
                p = v.func.value
                d = p.func.value.id
                assert d == t.value.id
                return ['.assign %s (.idx (.var %s) %s)' % (nm('popped'), nm(d), ex(p.args[0])),
                        '.del %s %s' % (nm(d), ex(p.args[0])),
                        '.setItem %s %s (.meth (.var %s) %s es![])' % (nm(d), ex(t.slice), nm('popped'), nm('conj'))]
            return ['.setItem %s %s %s' % (nm(t.value.id), ex(t.slice), ex(v))]
    if isinstance(s, ast.If):
        return ['.ite %s %s %s' % (ex(s.test), block(s.body, ind + 2), block(s.orelse, ind + 2))]
    if isinstance(s, ast.For):
        if isinstance(s.target, ast.Name):
            return ['.for %s %s %s' % (nm(s.target.id), ex(s.iter), block(s.body, ind + 2))]
        k, v = (x.id for x in s.target.elts)
        return ['.for2 %s %s %s %s' % (nm(k), nm(v), ex(s.iter.func.value), block(s.body, ind + 2))]
    if isinstance(s, ast.Return):
        return ['.ret %s' % ex(s.value)]
    if isinstance(s, ast.Raise):
        assert s.exc.func.id == 'ValueError'
        return ['.raise']
    if isinstance(s, ast.Assert):
        return ['.assert %s' % ex(s.test)]
    raise ValueError(ast.dump(s))


def dotted0(f):
    try:
        return dotted(f)
    except ValueError:
        return None


out = ['import Verif.Model.Py', '', '/-!',
       '# Syntax trees of the functions of `/repo/wilson/translate/wet.py`',
       '', 'Generated by `tools/gen_wetpy.py`.', '-/', '',
       'set_option autoImplicit false', 'set_option maxRecDepth 10000', '', 'namespace Verif.Gen.WetPy', 'open Verif.Py', '']
glob = []
for n in tree.body:
    if isinstance(n, ast.Assign):
        glob.append(n)
out.append('/-- wet.py:%d-%d: the constants of the module -/' % (glob[0].lineno, glob[-1].end_lineno))
out.append('def globals : Stmts :=\n  ' + block(glob, 4))
out.append('')
names = []
for n in tree.body:
    if isinstance(n, ast.FunctionDef) and n.name not in SKIP:
        body = list(n.body)
        if n.name in ('JMS_to_flavio', 'flavio_to_JMS'):
            i = [j for j, s in enumerate(body) if isinstance(s, ast.Assign) and s.targets[0].id == 'dlep'][0]
            assert isinstance(body[-1], ast.Return)
            body = body[:i] + [body[-1]]
        lean = 'fn' + ('' if n.name.startswith('_') else '_') + n.name
        names.append(lean)
        out.append('/-- wet.py:%d-%d `%s` -/' % (n.lineno, n.end_lineno, n.name))
        out.append('def %s : Fn := ⟨%s, [%s],\n  %s⟩' % (lean, nm(n.name), ', '.join(nm(a.arg) for a in n.args.args), block(body, 4)))
        out.append('')
out.append('/-- the functions in the order of the file -/')
out.append('def functions : List Fn := [' + ',\n  '.join(names) + ']')
out.append('')


def table(f):
    d = json.load(open('/repo/wilson/data/' + f))
    return '[' + ',\n  '.join('(%s, %s)' % (nm(k), nm(v)) for k, v in d.items()) + ']'


for f, ln in [('flavio_jms_vii.json', 'tableVII'), ('flavio_jms_nunull.json', 'tableNunull'),
              ('flavio_jms_lfv.json', 'tableLfv'), ('flavorkit_jms.json', 'tableFlavorkit'),
              ('flavorkit_jms_conj.json', 'tableFlavorkitConj')]:
    out.append('/-- data/%s -/' % f)
    out.append('def %s : List (ℕ × ℕ) := %s' % (ln, table(f)))
    out.append('')
out.append('end Verif.Gen.WetPy')
open(OUT, 'w').write('\n'.join(out) + '\n')
print(len(names))
