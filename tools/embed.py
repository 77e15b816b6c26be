#!/usr/bin/env python3
"""Translate the modules of the package into the syntax trees of Verif/Source/Lang.lean.

usage: embed.py <directory with the .py files of cvi/modules> > lean/Verif/Source/Text.lean

Every statement of every method becomes one term, in the order of the source.  Docstrings, annotations, decorators and the text
of error messages are dropped.  Anything else that is not foreseen stops the program.
"""
import ast
import sys

SRC = sys.argv[1]
FILES = ["_base", "CH", "WB", "XB", "DB", "GD43", "GD53", "PS", "rCIP", "cSIL"]
ERR = {"ValueError": "valueError", "NotImplementedError": "notImplementedError"}
BIN = {ast.Add: "add", ast.Sub: "sub", ast.Mult: "mul", ast.Div: "div", ast.Pow: "pow", ast.MatMult: "matmul"}
CMP = {ast.Eq: "eq", ast.Gt: "gt", ast.In: "isIn"}
VARS, ATTRS, FNS, METHS = [], [], [], []


def note(table, x):
    if x not in table:
        table.append(x)
    return "." + x


class Bad(Exception):
    pass


def bad(n):
    raise Bad(f"line {getattr(n, 'lineno', '?')}: {ast.dump(n)[:200]}")


def var(x):
    return note(VARS, "underscore" if x == "_" else x)


def is_self(n):
    return isinstance(n, ast.Name) and n.id == "self"


def path(n):
    if isinstance(n, ast.Name):
        return n.id
    if isinstance(n, ast.Attribute):
        p = path(n.value)
        return None if p is None else p + "." + n.attr
    return None


def args(l):
    out = ".nil"
    for a in reversed(l):
        out = f"(.cons {a} {out})"
    return out


def index(n):
    items = n.elts if isinstance(n, ast.Tuple) else [n]
    return args([expr(i) for i in items])


def expr(n):
    if isinstance(n, ast.Name):
        if n.id in ("int", "bool"):
            return f"(.typ .{n.id}_)"
        return f"(.name {var(n.id)})"
    if isinstance(n, ast.Constant):
        v = n.value
        if v is None:
            return ".none"
        if isinstance(v, int) and not isinstance(v, bool):
            return f"(.int {v})"
        if isinstance(v, float):
            a, b = v.as_integer_ratio()
            return f"(.float {a} {b})"
        if isinstance(v, bool):
            return f"(.bool {str(v).lower()})"
        bad(n)
    if isinstance(n, ast.Attribute):
        if is_self(n.value):
            return f"(.self {note(ATTRS, n.attr)})"
        if path(n) == "np.pi":
            return ".pi"
        return f"(.attr {expr(n.value)} {note(FNS, 'a_' + n.attr)})"
    if isinstance(n, ast.UnaryOp) and isinstance(n.op, ast.USub):
        return f"(.neg {expr(n.operand)})"
    if isinstance(n, ast.UnaryOp) and isinstance(n.op, ast.Not):
        return f"(.not {expr(n.operand)})"
    if isinstance(n, ast.BinOp):
        return f"(.bin .{BIN[type(n.op)]} {expr(n.left)} {expr(n.right)})"
    if isinstance(n, ast.BoolOp) and isinstance(n.op, ast.And) and len(n.values) == 2:
        return f"(.and {expr(n.values[0])} {expr(n.values[1])})"
    if isinstance(n, ast.Compare) and len(n.ops) == 1:
        return f"(.cmp .{CMP[type(n.ops[0])]} {expr(n.left)} {expr(n.comparators[0])})"
    if isinstance(n, ast.Subscript):
        return f"(.item {expr(n.value)} {index(n.slice)})"
    if isinstance(n, ast.Slice):
        if n.lower is None and n.upper is None and n.step is None:
            return ".colon"
        if n.lower is not None and n.upper is not None and n.step is None:
            return f"(.slice {expr(n.lower)} {expr(n.upper)})"
        bad(n)
    if isinstance(n, (ast.List, ast.Tuple)):
        return f"(.seq {args([expr(e) for e in n.elts])})"
    if isinstance(n, ast.ListComp) and len(n.generators) == 1:
        g = n.generators[0]
        if g.is_async or not isinstance(g.target, ast.Name) or len(g.ifs) > 1:
            bad(n)
        if g.ifs:
            return f"(.compIf {expr(n.elt)} {var(g.target.id)} {expr(g.iter)} {expr(g.ifs[0])})"
        return f"(.comp {expr(n.elt)} {var(g.target.id)} {expr(g.iter)})"
    if isinstance(n, ast.Call):
        p = path(n.func)
        kws = [k.arg for k in n.keywords]
        al = [expr(a) for a in n.args] + [expr(k.value) for k in n.keywords]
        if p is not None and (p.startswith("np.") or p in ("len", "sum", "range", "max")):
            f = p.replace("np.", "np_").replace(".", "_")
            if f in ("sum", "range", "max", "len"):
                f = "py_" + f
            return f"(.call {note(FNS, '_'.join([f] + kws))} {args(al)})"
        if isinstance(n.func, ast.Attribute) and not kws:
            # a method of a value: self._S.any(), self.map.items()
            return f"(.call {note(FNS, 'm_' + n.func.attr)} {args([expr(n.func.value)] + al)})"
    bad(n)


def meth(n):
    """The method called by the expression statement or right-hand side n, or None."""
    if not isinstance(n, ast.Call) or n.keywords or not isinstance(n.func, ast.Attribute):
        return None
    f = n.func
    if is_self(f.value):
        return note(METHS, "self" + f.attr)
    if isinstance(f.value, ast.Call) and path(f.value.func) == "super" and not f.value.args:
        return note(METHS, "super" + f.attr)
    if path(f) == "self._label_map.get_internal_label":
        return note(METHS, "get_internal_label")
    return None


def stmt(n):
    if isinstance(n, ast.Assign) and len(n.targets) == 1:
        t = n.targets[0]
        m = meth(n.value)
        if isinstance(t, ast.Name):
            if m:
                return f".bindCall {var(t.id)} {m} {args([expr(a) for a in n.value.args])}"
            return f".assign {var(t.id)} {expr(n.value)}"
        if m:
            bad(n)
        if isinstance(t, ast.Attribute) and is_self(t.value):
            v = n.value
            if path(getattr(v, "func", None)) == "LabelMap":
                return f".newMap {note(ATTRS, t.attr)}"
            if isinstance(v, ast.Call) and path(v.func) == "dict" and not v.args and not v.keywords:
                return f".newDict {note(ATTRS, t.attr)}"
            return f".setSelf {note(ATTRS, t.attr)} {expr(v)}"
        if isinstance(t, ast.Subscript) and isinstance(t.value, ast.Name):
            return f".setItem {var(t.value.id)} {index(t.slice)} {expr(n.value)}"
        if isinstance(t, ast.Subscript) and isinstance(t.value, ast.Attribute) and is_self(t.value.value):
            return f".setSelfItem {note(ATTRS, t.value.attr)} {index(t.slice)} {expr(n.value)}"
        if isinstance(t, ast.Tuple) and len(t.elts) == 2 and all(isinstance(e, ast.Attribute) and is_self(e.value) for e in t.elts):
            return f".unpackSelf {note(ATTRS, t.elts[0].attr)} {note(ATTRS, t.elts[1].attr)} {expr(n.value)}"
    if isinstance(n, ast.AugAssign) and isinstance(n.target, ast.Attribute) and is_self(n.target.value):
        return f".augSelf .{BIN[type(n.op)]} {note(ATTRS, n.target.attr)} {expr(n.value)}"
    if isinstance(n, ast.Expr) and isinstance(n.value, ast.Call):
        f = n.value.func
        if isinstance(f, ast.Attribute) and f.attr == "append" and isinstance(f.value, ast.Attribute) and is_self(f.value.value):
            return f".append {note(ATTRS, f.value.attr)} {expr(n.value.args[0])}"
        m = meth(n.value)
        if m:
            return f".doCall {m} {args([expr(a) for a in n.value.args])}"
    if isinstance(n, ast.If):
        return f".ite {expr(n.test)}\n{block(n.body)}\n{block(n.orelse)}"
    if isinstance(n, ast.For) and isinstance(n.target, ast.Name) and not n.orelse:
        return f".loop {var(n.target.id)} {expr(n.iter)}\n{block(n.body)}"
    if isinstance(n, ast.Continue):
        return ".cont"
    if isinstance(n, ast.Return):
        return f".ret {expr(n.value)}"
    if isinstance(n, ast.Raise):
        e = n.exc.func if isinstance(n.exc, ast.Call) else n.exc
        return f".raise .{ERR[e.id]}"
    if isinstance(n, ast.Delete) and len(n.targets) == 1 and isinstance(n.targets[0], ast.Attribute) and is_self(n.targets[0].value):
        return f".del {note(ATTRS, n.targets[0].attr)}"
    bad(n)


def block(body):
    return "[py| " + ";\n".join(stmt(s) for s in body) + " ]" if body else ".nil"


def strip(body):
    if body and isinstance(body[0], ast.Expr) and isinstance(body[0].value, ast.Constant) and isinstance(body[0].value.value, str):
        body = body[1:]
    return body


def nest(text):
    """Indent by nesting of [py| ... ]."""
    out, depth = [], 1
    for line in text.split("\n"):
        out.append("  " * depth + line.strip())
        depth += line.count("[py|") - line.count(" ]")
    return "\n".join(out)


def main():
    out = []
    for f in FILES:
        tree = ast.parse(open(f"{SRC}/{f}.py").read())
        for c in tree.body:
            if isinstance(c, (ast.Import, ast.ImportFrom, ast.Assign)):
                continue
            if isinstance(c, ast.Expr) and isinstance(c.value, ast.Constant):
                continue
            if isinstance(c, ast.FunctionDef) and c.name == "_add_docs":
                continue
            if not isinstance(c, ast.ClassDef):
                bad(c)
            out.append(f"namespace {c.name}\n")
            for m in strip(c.body):
                if not isinstance(m, ast.FunctionDef):
                    bad(m)
                params = [a.arg for a in m.args.args]
                if params[0] != "self" or m.args.defaults or m.args.vararg or m.args.kwarg or m.args.kwonlyargs:
                    bad(m)
                name = "init" if m.name == "__init__" else m.name
                ps = ", ".join(var(p) for p in params[1:])
                out.append(f"/-- `{c.name}.{m.name}`, {f}.py:{m.lineno}-{m.end_lineno}. -/")
                out.append(f"def {name} : Method where\n  params := [{ps}]\n  body :=\n{nest('  ' + block(strip(m.body)))}\n")
            out.append(f"end {c.name}\n")
    print("import Verif.Source.Lang\n\n/-!\n# The text of the package\n\nWritten by `tools/embed.py` from the files of src/cvi/modules.\n-/\n")
    print("namespace Verif.Source\n")
    print("\n".join(out))
    print("end Verif.Source")
    for t, l in (("Var", VARS), ("Attr", ATTRS), ("Fn", FNS), ("Meth", METHS)):
        print(f"{t}: {' '.join(l)}", file=sys.stderr)


main()
