"""Transcribe the numerical tables of /repo/modepy/quadrature into Lean (lean/Verif/Model/Table*.lean).

The data files are parsed as text; every decimal literal is written as an integer multiple of
10^-digits, so nothing is rounded (`m n` is `-n`).
"""
import ast
from decimal import Decimal
from fractions import Fraction as F

SRC = "/repo/modepy/quadrature/"
OUT = "/verif/lean/Verif/Model/"


def tree(fn):
    src = open(SRC + fn, encoding="utf8").read()
    return ast.parse(src), src.split("\n")


def number(node, lines):
    if isinstance(node, ast.UnaryOp):
        return -number(node.operand, lines)
    txt = lines[node.lineno-1].encode()[node.col_offset:node.end_col_offset].decode()
    return F(Decimal(txt))


def value(node, lines):
    if isinstance(node, ast.Call):
        return value(node.args[0], lines)
    if isinstance(node, (ast.List, ast.Tuple)):
        return [value(x, lines) for x in node.elts]
    return number(node, lines)


def table(fn, name):
    t, lines = tree(fn)
    for st in t.body:
        if isinstance(st, ast.Assign) and getattr(st.targets[0], "id", None) == name:
            d = st.value.args[0] if isinstance(st.value, ast.Call) else st.value
            for k, v in zip(d.keys, d.values):
                fields = {(f.id if isinstance(f, ast.Name) else f.value): value(x, lines)
                          for f, x in zip(v.keys, v.values)}
                yield k.value, fields, k.lineno, v.end_lineno


def ints(row, digits):
    out = []
    for x in row:
        y = x * 10**digits
        assert y.denominator == 1
        out.append(str(y.numerator) if y >= 0 else f"m {-y.numerator}")
    return out


def wrap(items, indent):
    lines, cur = [], ""
    for it in items:
        if len(cur) + len(it) + 2 > 118 - indent:
            lines.append(cur)
            cur = ""
        cur += it + ", "
    lines.append(cur.rstrip(", "))
    return ("\n" + " " * indent).join(s.rstrip() for s in lines)


def emit(fn, name, lean, digits, degree):
    res, keys = [], []
    for k, f, l0, l1 in table(fn, name):
        rows = "[\n    " + ",\n    ".join(
            "[" + wrap(ints(r, digits), 5) + "]" for r in f["points"]) + "]"
        wts = "[" + wrap(ints(f["weights"], digits), 4) + "]"
        typ = "TableRule" if degree else "XgTableRule"
        deg = f"{f['quad_degree']},\n   " if degree else ""
        res.append(f"/-- `{name}[{k}]` ({fn} {l0}-{l1}). -/\ndef {lean}_{k} : {typ} :=\n  ⟨{deg}{rows},\n   {wts}⟩\n")
        keys.append(k)
    entries = wrap([f"({k}, {lean}_{k})" for k in keys], 3)
    res.append(f"/-- `{name}` in {fn}. -/\ndef {lean} : List (Int × {typ}) :=\n  [{entries}]\n")
    return "\n".join(res)


def write(mod, title, parts):
    with open(OUT + mod + ".lean", "w", encoding="utf8") as f:
        f.write(f"import Verif.Model.TableRules\n\n/-!\n# {title}\n\nGenerated by tools/gen_tables.py.\n-/\n\n"
                "namespace Modepy.Table\nnoncomputable section\n\n" + "\n".join(parts) + "\nend\nend Modepy.Table\n")


write("TableWv", "`witherden_vincent_quad_data.py`, in units of `10^-19`", [
    emit("witherden_vincent_quad_data.py", "quad_data", "wvQuad", 19, True),
    emit("witherden_vincent_quad_data.py", "hex_data", "wvHex", 19, True)])
write("TableJs", "`jaskowiec_sukumar_tet_data.py`, in units of `10^-25`", [
    emit("jaskowiec_sukumar_tet_data.py", "tet_data", "jsTet", 25, True)])
write("TableVr", "`vr_quad_data_tri.py` and `vr_quad_data_tet.py`, in units of `10^-35`", [
    emit("vr_quad_data_tri.py", "triangle_data", "vrTri", 35, True),
    emit("vr_quad_data_tet.py", "tetrahedron_data", "vrTet", 35, True)])
write("TableXg", "`xg_quad_data.py`, in units of `10^-35`", [
    emit("xg_quad_data.py", "triangle_table_orig", "xgTri", 35, False),
    emit("xg_quad_data.py", "tetrahedron_table_orig", "xgTet", 35, False)])
