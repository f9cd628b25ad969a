#!/usr/bin/env python3
"""Writes ../properties.jsonl (one JSON object per line)."""
import json, os
LB = "src/thermophysicalModels/chemistryModel/loadBalancing/"
CM = "src/thermophysicalModels/chemistryModel/chemistryModel/"
LBCM = CM + "loadBalancedChemistryModel/loadBalancedChemistryModel.C"
RM = "src/thermophysicalModels/chemistryModel/refMapping/"
PJ = CM + "loadBalanced_pyJacChemistryModel/loadBalanced_pyJacChemistryModel.C"
OP = "src/thermophysicalModels/chemistryModel/chemistrySolver/ode_pyJac/ode_pyJac.C"
OD = "src/ODE_DLB/ODESolvers/ODESolver/ODESolver.C"
SX = "src/ODE_DLB/ODESolvers/seulex_LAPACK/seulex_LAPACK.C"
ME = "utilities/mechanisms/"
P = []
def p(title, statement, quantifier, why, *anchors):
    P.append(dict(id="C%02d" % (len(P) + 1), title=title, statement=statement,
                  quantifier=quantifier, why_tests_cant=why, anchors=[a.replace("*", m) for a in anchors
                                                               for m in (["drm19", "gri30", "yao"] if "*" in a else [""])]))
exec(open(os.path.join(os.path.dirname(os.path.abspath(__file__)), "properties_body.py")).read())
out = os.path.join(os.path.dirname(os.path.abspath(__file__)), "..", "properties.jsonl")
with open(out, "w") as f:
    for q in P:
        f.write(json.dumps(q, ensure_ascii=False) + "\n")
print(len(P))
