#!/usr/bin/env python3
"""Translate the older interface into the syntax trees of Verif/Old/Lang.lean.

usage: embed_v0.py <path of cvi/compat/v0.py> > lean/Verif/Old/Text.lean

Every statement of every function becomes one term, in the order of the source.  Docstrings, annotations and the text of error
messages are dropped.  `iCVI`, which only compares strings, and `Clusters.from_list` are left out.  Anything else that is not foreseen
stops the program.
"""
import ast
import sys

BIN = {ast.Add: "add", ast.Sub: "sub", ast.Mult: "mul", ast.Div: "div", ast.Pow: "pow"}
CMP = {ast.Eq: "eq", ast.NotEq: "ne", ast.Gt: "gt", ast.GtE: "ge", ast.LtE: "le", ast.Is: "is_", ast.IsNot: "isNot"}
PLAIN = ("len", "range", "min", "max", "sum", "abs")
OWN = ("norm22", "CP_update", "cluster_center_update", "Clusters")
SKIP = ("iCVI", "Clusters")
VARS, ATTRS, FNS = [], [], []


class Bad(Exception):
    pass


def bad(n):
    raise Bad(f"line {getattr(n, 'lineno', '?')}: {ast.dump(n)[:300]}")


def note(table, x):
    if x not in table:
        table.append(x)
    return "." + x


def is_self(n):
    return isinstance(n, ast.Name) and n.id == "self"


def path(n):
    if isinstance(n, ast.Name):
        return n.id
    if isinstance(n, ast.Attribute):
        p = path(n.value)
        return None if p is None else p + "." + n.attr
    return None


def args(l):
    out = ".nil"
    for a in reversed(l):
        out = f"(.cons {a} {out})"
    return out


def kwargs(l):
    out = ".nil"
    for k in reversed(l):
        out = f"(.cons {note(VARS, k.arg)} {expr(k.value)} {out})"
    return out


def index(n):
    return args([expr(i) for i in (n.elts if isinstance(n, ast.Tuple) else [n])])


def comp(n):
    g = n.generators[0]
    if len(n.generators) != 1 or g.is_async or not isinstance(g.target, ast.Name) or len(g.ifs) > 1:
        bad(n)
    if g.ifs:
        return f"(.compIf {expr(n.elt)} {note(VARS, g.target.id)} {expr(g.iter)} {expr(g.ifs[0])})"
    return f"(.comp {expr(n.elt)} {note(VARS, g.target.id)} {expr(g.iter)})"


def expr(n):
    if isinstance(n, ast.Name):
        return f"(.name {note(VARS, n.id)})"
    if isinstance(n, ast.Constant):
        v = n.value
        if v is None:
            return ".none"
        if isinstance(v, bool):
            return f"(.bool {str(v).lower()})"
        if isinstance(v, int):
            return f"(.int {v})"
        if isinstance(v, float):
            a, b = v.as_integer_ratio()
            return f"(.float {a} {b})"
        if v == "constant":
            return ".constant"
        bad(n)
    if isinstance(n, ast.Attribute):
        if is_self(n.value):
            return f"(.self {note(ATTRS, n.attr)})"
        if path(n) == "np.inf":
            return ".inf"
        return f"(.attr {expr(n.value)} {note(ATTRS, n.attr)})"
    if isinstance(n, ast.UnaryOp) and isinstance(n.op, ast.USub):
        return f"(.neg {expr(n.operand)})"
    if isinstance(n, ast.UnaryOp) and isinstance(n.op, ast.Not):
        return f"(.not {expr(n.operand)})"
    if isinstance(n, ast.BinOp):
        return f"(.bin .{BIN[type(n.op)]} {expr(n.left)} {expr(n.right)})"
    if isinstance(n, ast.BoolOp) and len(n.values) == 2:
        return f"(.{'and' if isinstance(n.op, ast.And) else 'or'} {expr(n.values[0])} {expr(n.values[1])})"
    if isinstance(n, ast.Compare) and len(n.ops) == 1:
        return f"(.cmp .{CMP[type(n.ops[0])]} {expr(n.left)} {expr(n.comparators[0])})"
    if isinstance(n, ast.Subscript):
        return f"(.item {expr(n.value)} {index(n.slice)})"
    if isinstance(n, (ast.List, ast.Tuple)):
        return f"(.seq {args([expr(e) for e in n.elts])})"
    if isinstance(n, (ast.ListComp, ast.GeneratorExp)):
        return comp(n)
    if isinstance(n, ast.Call):
        p = path(n.func)
        al = [expr(a) for a in n.args]
        if p == "np.sum" and len(n.args) == 1 and isinstance(n.args[0], ast.GeneratorExp):
            # numpy hands a generator to the builtin sum
            return f"(.call {note(FNS, 'np_sum_generator')} {args(al)} .nil)"
        if p is not None and p.startswith("np."):
            f = "_".join([p.replace(".", "_")] + [k.arg for k in n.keywords])
            return f"(.call {note(FNS, f)} {args(al + [expr(k.value) for k in n.keywords])} .nil)"
        if p in PLAIN:
            return f"(.call {note(FNS, 'py_' + p)} {args(al)} {kwargs(n.keywords)})"
        if p in OWN:
            return f"(.call {note(FNS, p)} {args(al)} {kwargs(n.keywords)})"
        if isinstance(n.func, ast.Attribute) and is_self(n.func.value):
            return f"(.call {note(FNS, 'self_' + n.func.attr)} {args(al)} {kwargs(n.keywords)})"
        if p == "super().__init__" or isinstance(n.func, ast.Attribute) and isinstance(n.func.value, ast.Call) and path(n.func.value.func) == "super":
            return f"(.call {note(FNS, 'super_init')} {args(al)} {kwargs(n.keywords)})"
    bad(n)


def target(t):
    if isinstance(t, ast.Name):
        return f"(.var {note(VARS, t.id)})"
    if isinstance(t, ast.Attribute) and is_self(t.value):
        return f"(.self {note(ATTRS, t.attr)})"
    if isinstance(t, ast.Subscript) and isinstance(t.value, ast.Attribute) and is_self(t.value.value):
        return f"(.item {note(ATTRS, t.value.attr)} {index(t.slice)})"
    bad(t)


def stmt(n):
    if isinstance(n, ast.Assign) and len(n.targets) == 1:
        t = n.targets[0]
        if isinstance(t, ast.Tuple):
            return f".unpack [{', '.join(target(e) for e in t.elts)}] {expr(n.value)}"
        return f".assign {target(t)} {expr(n.value)}"
    if isinstance(n, ast.AugAssign):
        return f".aug .{BIN[type(n.op)]} {target(n.target)} {expr(n.value)}"
    if isinstance(n, ast.Expr) and isinstance(n.value, ast.Call):
        f = n.value.func
        if isinstance(f, ast.Attribute) and f.attr == "append" and isinstance(f.value, ast.Attribute) and is_self(f.value.value):
            return f".append {note(ATTRS, f.value.attr)} {expr(n.value.args[0])}"
        return f".eval {expr(n.value)}"
    if isinstance(n, ast.Assert):
        return f".assert {expr(n.test)}"
    if isinstance(n, ast.If):
        return f".ite {expr(n.test)}\n{block(n.body)}\n{block(n.orelse)}"
    if isinstance(n, ast.For) and isinstance(n.target, ast.Name) and not n.orelse:
        return f".loop {note(VARS, n.target.id)} {expr(n.iter)}\n{block(n.body)}"
    if isinstance(n, ast.Return):
        return f".ret {expr(n.value)}"
    if isinstance(n, ast.Raise) and path(n.exc.func) == "ValueError":
        return ".raise .valueError"
    bad(n)


def block(body):
    return "[old| " + ";\n".join(stmt(s) for s in body) + " ]" if body else ".nil"


def strip(body):
    if body and isinstance(body[0], ast.Expr) and isinstance(body[0].value, ast.Constant) and isinstance(body[0].value.value, str):
        body = body[1:]
    return body


def nest(text):
    out, depth = [], 1
    for line in text.split("\n"):
        out.append("  " * depth + line.strip())
        depth += line.count("[old|") - line.count(" ]")
    return "\n".join(out)


def func(m, method):
    a = m.args
    if a.vararg or a.kwarg or a.kwonlyargs or a.posonlyargs:
        bad(m)
    ps = [p.arg for p in a.args]
    ds = [None] * (len(ps) - len(a.defaults)) + list(a.defaults)
    if method:
        if ps[0] != "self":
            bad(m)
        ps, ds = ps[1:], ds[1:]
    params = ", ".join(f"({note(VARS, p)}, {'Option.none' if d is None else 'some ' + expr(d)})" for p, d in zip(ps, ds))
    name = "init" if m.name == "__init__" else m.name
    return f"def {name} : Func where\n  params := [{params}]\n  body :=\n{nest('  ' + block(strip(m.body)))}\n"


def main():
    out = []
    for c in ast.parse(open(sys.argv[1]).read()).body:
        if isinstance(c, (ast.Import, ast.ImportFrom, ast.Assign)) or getattr(c, "name", None) in SKIP:
            continue
        if isinstance(c, ast.Expr) and isinstance(c.value, ast.Constant):
            continue
        if isinstance(c, ast.FunctionDef):
            out.append(f"/-- `{c.name}`, v0.py:{c.lineno}-{c.end_lineno}. -/")
            out.append(func(c, False))
        elif isinstance(c, ast.ClassDef):
            out.append(f"namespace {c.name}\n")
            for m in strip(c.body):
                out.append(f"/-- `{c.name}.{m.name}`, v0.py:{m.lineno}-{m.end_lineno}. -/")
                out.append(func(m, True))
            out.append(f"end {c.name}\n")
        else:
            bad(c)
    print("import Verif.Old.Lang\n\n/-!\n# The text of the older interface\n\nWritten by `tools/embed_v0.py` from src/cvi/compat/v0.py.\n-/\n")
    print("namespace Verif.Old\n")
    print("\n".join(out))
    print("end Verif.Old")
    for t, l in (("Var", VARS), ("Attr", ATTRS), ("Fn", FNS)):
        print(f"{t}: {' | '.join(l)}", file=sys.stderr)


main()
