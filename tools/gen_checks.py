"""Generate lean/Verif/Proofs/TableCheck*.lean: one kernel evaluation per entry of a table."""
OUT = "/verif/lean/Verif/Proofs/"


def block(tab, keys, ok):
    s = ""
    for k in keys:
        s += f"theorem {tab}_{k}_ok : {ok(k)} {tab}_{k} = true := by decide +kernel\n"
    return s


def write(mod, imp, body):
    with open(OUT + mod + ".lean", "w") as f:
        f.write(f"import Verif.Proofs.TableScaling\nimport Verif.Model.{imp}\n\n/-!\n# Evaluation of the checks for "
                f"`Model/{imp}`\n\nGenerated by tools/gen_checks.py.\n-/\n\nset_option maxRecDepth 100000\nset_option Elab.async false\n\n"
                "namespace Modepy.Table\n\n" + body + "\nend Modepy.Table\n")


write("TableCheckWv", "TableWv", block("wvQuad", range(1, 22, 2), lambda k: "wvOk 2")
      + block("wvHex", range(1, 12, 2), lambda k: "wvOk 3"))
write("TableCheckJs1", "TableJs", block("jsTet", range(17), lambda k: "jsOk"))
write("TableCheckJs2", "TableJs", block("jsTet", range(17, 20), lambda k: "jsOk"))
write("TableCheckVr", "TableVr", block("vrTri", range(21), lambda k: "vrTriOk")
      + block("vrTet", range(11), lambda k: "vrTetOk"))
write("TableCheckXg1", "TableXg", block("xgTri", range(1, 37), lambda k: f"xgTriOk {k}"))
write("TableCheckXg2", "TableXg", block("xgTri", range(37, 46), lambda k: f"xgTriOk {k}"))
write("TableCheckXg3", "TableXg", block("xgTri", range(46, 51), lambda k: f"xgTriOk {k}"))
write("TableCheckXg4", "TableXg", block("xgTet", range(1, 16), lambda k: f"xgTetOk {k}"))
