"""Data of lean/Verif/Lemmas/StabilityData.lean: integer weights of the extrapolation for every order, and step sizes of a
subdivision of [1/206, 204] on which the amplification is enclosed.  Nothing here is trusted: Lean checks the data."""
from fractions import Fraction as Fr
from math import lcm

OUT = "lean/Verif/Lemmas/StabilityData.lean"
Q = 2 ** 19
M = 10 ** 12
NS = [2, 3]
while len(NS) < 13:
    NS.append(2 * NS[-2])


def weights(k):
    ws = []
    for l in range(k + 1):
        w = Fr(1)
        for j in range(k + 1):
            if j != l:
                w *= Fr(NS[l], NS[l] - NS[j])
        ws.append(w)
    d = 1
    for w in ws:
        d = lcm(d, w.denominator)
    return d, [int(max(w, 0) * d) for w in ws], [int(max(-w, 0) * d) for w in ws]


def g(n, p):
    return M * (n * Q) ** n // (n * Q + p) ** n


def ok(d, A, B, a, b):
    s = sum(x * (g(NS[l], a) + 1) for l, x in enumerate(A) if x)
    t = sum(x * g(NS[l], b) for l, x in enumerate(B) if x)
    return s * (2 * Q + b) <= t * (2 * Q + b) + 2 * Q * d * M


def maxstep(d, A, B, p):
    assert ok(d, A, B, p, p + 1)
    s = 1
    while s < 2 ** 34 and ok(d, A, B, p, p + 2 * s):
        s *= 2
    hi = 2 * s
    while hi - s > max(1, s // 32):
        m = (s + hi) // 2
        if ok(d, A, B, p, p + m):
            s = m
        else:
            hi = m
    return s


def grid(d, A, B):
    blocks, p = [], Q // 206
    while p < 204 * Q:
        s, j = maxstep(d, A, B, p), 0
        while p < 204 * Q and ok(d, A, B, p, p + s):
            p += s
            j += 1
            if maxstep(d, A, B, p) * 4 > s * 5:
                break
        blocks.append((s, j))
    return blocks


def pairs(xs):
    return "[" + ", ".join("(%d, %d)" % x for x in xs) + "]"


def main():
    out = ["""/-
Generated by tools/gen_stability.py: data for the bound on the amplification of a mode by the extrapolation (C127).  The
data are checked in Lemmas/Stability; the generator is not trusted.
-/
set_option autoImplicit false

namespace DLB.Stability

/-- For one order: a common denominator of the weights, the positive and the negative weights times it with the numbers of
sub-steps, and step sizes and numbers of steps of subdivisions for the upper and the lower bound. -/
structure Order where
  D : Nat
  pos : List (Nat × Nat)
  neg : List (Nat × Nat)
  upper : List (Nat × Nat)
  lower : List (Nat × Nat)
"""]
    for k in range(1, 13):
        d, A, B = weights(k)
        out.append("def order%d : Order where\n  D := %d\n  pos := %s\n  neg := %s\n  upper := %s\n  lower := %s\n" % (
            k, d, pairs(zip(NS, A)), pairs(zip(NS, B)), pairs(grid(d, A, B)), pairs(grid(d, B, A))))
    out.append("def order (k : Nat) : Order :=\n  match k with\n" +
               "".join("  | %d => order%d\n" % (k, k) for k in range(2, 13)) + "  | _ => order1\n")
    out.append("end DLB.Stability\n")
    open(OUT, "w").write("\n".join(out))


if __name__ == "__main__":
    main()
