"""Translate numpy tensor expressions (Python AST) to the Lean type `Verif.Tens.E`.

Used by gen_beta.py.  Purely syntactic: every operator of the source becomes one
constructor; nothing is simplified or reordered.
"""
import ast


class Unsupported(Exception):
    pass


def labels(s):
    return '[' + ','.join('.' + c for c in s) + ']'


class Tr:
    """var(node) -> (leanName, rank) or None for names and subscripts"""

    def __init__(self, var, eye=('I3', 'kd')):
        self.var = var
        self.eye = eye
        self.count = 0

    def e(self, n):
        self.count += 1
        v = self.var(n)
        if v is not None:
            if isinstance(v, str):
                return v
            name, rank = v
            return '(.s .%s)' % name if rank == 0 else '(.t .%s)' % name
        if isinstance(n, ast.Constant):
            if isinstance(n.value, bool):
                raise Unsupported(ast.dump(n))
            if isinstance(n.value, int):
                return '(.num %d)' % n.value
            if isinstance(n.value, float) and n.value == int(n.value):
                return '(.num %d)' % int(n.value)
            if isinstance(n.value, complex) and n.value.real == 0 and \
                    n.value.imag == int(n.value.imag):
                k = int(n.value.imag)
                return '.i' if k == 1 else '(.mul (.num %d) .i)' % k
            raise Unsupported(ast.dump(n))
        if isinstance(n, ast.Name) and n.id in self.eye:
            return '.eye'
        if isinstance(n, ast.UnaryOp) and isinstance(n.op, ast.USub):
            return '(.neg %s)' % self.e(n.operand)
        if isinstance(n, ast.BinOp):
            op = type(n.op)
            if op is ast.Pow:
                assert isinstance(n.right, ast.Constant) and isinstance(n.right.value, int)
                return '(.pow %s %d)' % (self.e(n.left), n.right.value)
            c = {ast.Add: 'add', ast.Sub: 'sub', ast.Mult: 'mul', ast.Div: 'div',
                 ast.MatMult: 'mat'}[op]
            return '(.%s %s %s)' % (c, self.e(n.left), self.e(n.right))
        if isinstance(n, ast.Attribute) and n.attr == 'T':
            return '(.tr %s)' % self.e(n.value)
        if isinstance(n, ast.Call):
            f = n.func
            if isinstance(f, ast.Attribute) and f.attr in ('conj', 'conjugate'):
                if n.args:
                    assert ast.unparse(f.value) == 'np' and len(n.args) == 1
                    return '(.conj %s)' % self.e(n.args[0])
                return '(.conj %s)' % self.e(f.value)
            if isinstance(f, ast.Attribute) and f.attr == 'trace':
                assert ast.unparse(f.value) == 'np' and len(n.args) == 1
                return '(.trace %s)' % self.e(n.args[0])
            if isinstance(f, ast.Name) and f.id in ('my_einsum', 'einsum'):
                subs = n.args[0].value.split(',')
                args = n.args[1:]
                assert len(subs) == len(args) <= 3 and '->' not in n.args[0].value
                out = ''
                for i in range(3):
                    if i < len(subs):
                        out += ' %s %s' % (labels(subs[i]), self.e(args[i]))
                    else:
                        out += ' [] (.num 1)'
                return '(.ein%s)' % out
        raise Unsupported(ast.dump(n)[:300])


def wrap(s, width=96, indent='  '):
    """break a Lean term at spaces"""
    lines, cur = [], indent
    for w in s.split(' '):
        if len(cur) + len(w) + 1 > width and cur.strip():
            lines.append(cur.rstrip())
            cur = indent + '  '
        cur += w + ' '
    lines.append(cur.rstrip())
    return '\n'.join(lines)
