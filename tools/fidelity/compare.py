"""Compares the meshes of the hangar vehicles according to the Lean model (via model.py) with the reference STL files of
/repo/tests/data.  Usage: python3 tools/fidelity/compare.py
For each file: number of triangles in both, the share of equal coordinates after rounding to float32, and the largest
difference.
"""
import math
import os
import struct
import sys

sys.path.insert(0, os.path.dirname(os.path.abspath(__file__)))
from model import *  # noqa

CART3D = [("rotate", 180, "z"), ("rotate", 90, "x")]


# Model/Hangar.lean

def wedge():
    w, c, t = 1, 1, 0.1

    def section(z):
        NW, NE, SE, SW = V(0, 0.5 * t, 0), V(-0.5 * c, 0, 0), V(0, -0.5 * t, 0), V(0.5 * c, 0, 0)
        a = V(0, 0, z)
        return [Line(NW + a, NE + a), Line(NE + a, SE + a), Line(SE + a, SW + a), Line(SW + a, NW + a)]
    return [(Swept([section(0.5 * i * w) for i in (-1, 1)], 10), {})], []


def falcon9():
    D, L_b, h, r_n, r_o, f_L = 3.75, 60, 5 / 2, 0.75, 7, 6
    x_o = -math.sqrt((r_o - r_n) ** 2 - (r_o - h) ** 2)
    y_t = r_n * (r_o - h) / (r_o - r_n)
    x_t = x_o - math.sqrt(r_n ** 2 - y_t ** 2)
    x_a = x_o - r_n
    a_o, b_o, c_o = V(-x_t, y_t, 0), V(0, h, 0), V(0, -r_o + h, 0)
    a_n, c_n = V(-x_a, 0, 0), V(-x_o, 0, 0)
    f1 = b_o - V(f_L, 0, 0)
    r_b = D / 2
    fb1, fb2 = V(f1.x - 0.1 * f_L, r_b, 0), V(f1.x - 0.3 * f_L, 0, 0)
    fb = Polyline([Line(f1, fb1), Line(fb1, fb2)])
    fairing = Polyline([Arc(a_n, a_o, c_n), Arc(a_o, b_o, c_o), Line(b_o, f1), fb])
    b0 = V(f1.x, r_b, 0)
    b1 = b0 - V(L_b, 0, 0)
    body = Polyline([Line(V(f1.x, 0, 0), b0), Line(b0, b1), Line(b1, V(b1.x, 0, 0))])
    return [(RevolvedComponent(fairing, 100), {}), (RevolvedComponent(body, 50), {})], []


def finner():
    dia, tot, nl, fh, fl, mt = 1, 10, 2.84, 1, 1, 0.08
    nb, rb = V(0, 0, 0) + V(nl, dia / 2, 0), V(0, 0, 0) + V(tot, dia / 2, 0)
    fus = Composite([RevolvedComponent(Line(V(0, 0, 0), nb)), RevolvedComponent(Line(nb, rb)),
                     RevolvedComponent(Line(rb, rb - V(0, rb.y, 0)))], 8, "fuselage")
    a, b, c, d = V(0, fl, 0), V(0, 0, 0), V(-0.5 * mt, 0, 0), V(0.5 * mt, 0, 0)
    cs = [(a, d), (d, b), (b, c), (c, a)]
    secs = [[Line(*l) for l in cs], [Line_add(*l, V(0, 0, fh)) for l in cs]]
    return [(fus, {})] + [(Swept(secs, 4), {"name": f"fin_{i + 1}", "transformations": [
        ("rotate", 90, "z"), ("translate", V(tot, 0, dia / 2)), ("rotate", i * 90, "x")]}) for i in range(4)], []


# Model/Hangar2.lean

def x43():
    L, bw, ba, ws, wl, wb, fl, eh, fh, fln, rl, fa, ra = 3.7, 1, 0, 0.4, 1, 0.25, 0.3, 0.1, 0.3, 1, 0.2, 0, 0
    L_nom = 3.7
    beta = deg2rad(ba)
    LE, TE, ft, fint = 0.05 * L / L_nom, 0.2 * L / L_nom, 0.03 * L / L_nom, 0.02 * L / L_nom
    A1, TT, B0 = V(1.8 * L / L_nom, 0, 0), V(L, 0, 0), V(0, bw / 2, 0)
    B1, B2 = V(A1.x, B0.y, 0), V(TT.x, 0.4 * B0.y, 0)
    bez = Bezier([V(0, 0, 0.025), V(0, 0.9 * B0.y, 0.025), V(0, B0.y, 0)])

    def localY(x):
        if x < B1.x:
            return B0.y
        return (x - B2.x) * (B2.y - B1.y) / (B2.x - B1.x) + B2.y

    def top(x, y, z):
        z_u = -L * tan(beta) - 0.5 * TE
        bu = -math.atan((z_u + 0.5 * LE) / L)
        z1 = (x - L) * tan(bu) - LE / 2
        return V(0, 0, z1 + -(L - x) * bez(y / localY(x)).z)

    def bot(x, y, z):
        z_l = -L * tan(beta) + 0.5 * TE
        bl = -math.atan((z_l - 0.5 * LE) / L)
        return V(0, 0, (x - L) * tan(bl) + LE / 2)
    lew = bezierY([V(0, 0.02, 0), V(0.75, 0.05, 0), V(1, 0.05, 0)])
    body = Wing(4, A1=A1, TT=TT, B0=B0, line=Polyline([Line(B0, B1), Line(B1, B2), Line(B2, TT)]), top_tf=top, bot_tf=bot,
                LE_wf=lew)

    def w2(s):
        return lambda x, y, z: V(0, 0, s * (ft / 2) - (-(x - L) * tan(beta)))
    fA0, fA1, fTT = V(B0.x + fl, B0.y, 0), V(0 + 0.5 * wl, localY(0 + 0.5 * wl), 0), V(0 + wl, localY(0 + wl), 0)
    fB0, fB1 = V(0 - wb + fl, B0.y + ws, 0), V(0 + 0.4 * wl, B0.y + 0.75 * ws, 0)

    def wing():
        return Wing(2, A0=fA0, A1=fA1, TT=fTT, B0=fB0, line=Polyline([Line(fB0, fB1), Line(fB1, fTT)]), top_tf=w2(-1),
                    bot_tf=w2(1), LE_wf=lew, fl=fl, fa=fa, close_wing=True)
    iTT = V(0.5 * (TT.x + B1.x), 0, 0)

    def itop(x, y, z):
        return V(0, 0, bot(x, y, z).z - 0.05)

    def height(x):
        st, ex = 0.8 * B1.x, 0.3 * (B1.x - B0.x)
        if x < ex:
            return eh / (ex - 0) * x
        if st < x:
            return -eh / (iTT.x - st) * (x - iTT.x)
        return eh

    def ibot(x, y, z):
        v, zv, yl = bot(x, y, z), height(x), localY(x)
        tp = (5 * y / yl - 4) * zv if 0.8 * yl < y else 0
        return V(0, 0, zv + v.z - tp + 0.00001)
    q = (iTT.x - B2.x) * (B2.y - B1.y) / (B2.x - B1.x)
    iB0, iB1, iB2 = V(B0.x, B0.y, 0), V(B1.x, B1.y, 0), V(iTT.x, q + B2.y, 0)
    inlet = Wing(4, A1=A1, TT=iTT, B0=iB0, line=Polyline([Line(iB0, iB1), Line(iB1, iB2), Line(iB2, iTT)]), top_tf=itop,
                 bot_tf=ibot, LE_wf=bezierY([V(0, 0.001, 0), V(0.5, 0.001, 0), V(1, 0.001, 0)]))

    def fin(s):
        o = -(fln - L) * tan(beta)
        return Fin(2, p0=V(rl, o, 0), p1=V(rl, o + fh, 0), p2=V(0.5 * fln, o + fh, 0), p3=V(fln, o, 0), th=fint,
                   angle=deg2rad(-90), top_tf=uniformThickness(fint, "top"), bot_tf=uniformThickness(fint, "bot"), LE_wf=lew,
                   rudder_type="sharp", rl=rl, ra=deg2rad(ra), off=V(0, s * B0.y, 0))
    y = {"reflection_axis": "y"}
    return [(body, {**y, "name": "body"}), (wing(), {"name": "wing1"}), (wing(), {**y, "name": "wing2"}),
            (inlet, {**y, "name": "inlet"}), (fin(1), {"name": "fin1"}), (fin(-1), {"name": "fin2"})], []


def htv():
    L, bw, h, t_LE, fa, L_nom, bw_nom = 1, 0.5, 0.1, 0.01, 15, 1, 0.8
    A1, TT, B0 = V(0.15 * L, 0, 0), V(L, 0, 0), V(0, bw / 2, 0)
    B1 = V(A1.x, B0.y, 0)
    line = Polyline([Line(B0, B1), Line(B1, TT)])

    def top(x, y, z):
        lw = 2 * line(bis(lambda t: line(t).x - x)).y
        if y < 0.5 * (lw - 2 * t_LE):
            zv = 0.5 * (h - t_LE) * math.cos(2 * pi * y / (lw - 2 * t_LE)) + 0.5 * (h + t_LE)
        else:
            zv = t_LE
        return V(0, 0, -(zv * ((L - x) + 0.05)))
    body = Wing(5, A1=A1, TT=TT, B0=B0, line=line, top_tf=top, bot_tf=lambda x, y, z: V(0, 0, 0.2 * t_LE), LE_wf=lambda r: 0.01)
    fl, gap, off = 0.2 * (L / L_nom), 0.01 * (bw / bw_nom), 0.1 * t_LE
    A0f, A1f, TTf = V(fl, 0 + 0.5 * gap, 0), V(fl + 0.05 * L, 0 + 0.5 * gap, 0), V(fl + 0.1 * L, 0 + 0.5 * gap, 0)
    B0f = V(fl, 0.8 * bw / 2 + 0.5 * gap, 0)
    B1f = V(A1f.x, 0.5 * B0f.y, 0)

    def flap():
        return Wing(5, A0=A0f, A1=A1f, TT=TTf, B0=B0f, line=Polyline([Line(B0f, B1f), Line(B1f, TTf)]),
                    top_tf=lambda x, y, z: V(0, 0, -t_LE - off), bot_tf=lambda x, y, z: V(0, 0, 0.2 * t_LE - off), fl=fl,
                    fa=deg2rad(fa))
    return [(body, {"reflection_axis": "y"}), (flap(), {}), (flap(), {"reflection_axis": "y"})], []


# Model/Hangar3.lean

def hifire8():
    L, Rb, Rn, nz = 1.2, 0.175, 0.1, 0.1
    lew = bezierY([V(0, 0.01, 0), V(0.5, 0.1, 0), V(1, 0.01, 0)])
    s = math.atan((Rb - Rn) / L)

    def radius(x):
        return Rb - x * tan(s)
    X1, X2, X3 = 1 * L, 0, -nz
    R1, R2 = Rb - X1 * tan(s), Rb - X2 * tan(s)
    R3 = R2
    fl = Polyline([Line(V(X1, R1, 0), V(X2, R2, 0)), Line(V(X2, R2, 0), V(X3, R3, 0)), Line(V(X3, R3, 0), V(X3, 0, 0))])
    fus = Composite([RevolvedComponent(fl), RevolvedComponent(Line(V(X1, 0, 0), V(X1, R1, 0)))], 8)
    f = 0.4
    fh, ft = 0.4 * f, 0.02 * f

    def fin(k, a):
        return Fin(3, p0=V(0, radius(0), 0), p1=V(0.2 * f, radius(0.2 * f) + fh, 0) * k,
                   p2=V(0.7 * f, radius(0.7 * f) + fh, 0) * k, p3=V(f, radius(f), 0), th=ft, angle=a,
                   top_tf=uniformThickness(ft, "top"), bot_tf=uniformThickness(ft, "bot"), LE_wf=lew)
    wL, wt, ww, wo = 1.3, 0.04, 0.4, 0.2
    A0 = V(wo, 0, 0)
    A1, TT, B0 = V(A0.x + 0.5 * wL, 0, 0), V(A0.x + wL, 0, 0), V(A0.x, ww, 0)
    B1, B2, B3 = V(A0.x + 0.1 * wL, B0.y, 0), V(A1.x, 0.5 * ww, 0), V(TT.x, 0.13 * ww, 0)
    wing = Wing(4, A0=A0, A1=A1, TT=TT, B0=B0, line=Polyline([Line(B0, B1), Line(B1, B2), Line(B2, B3), Line(B3, TT)]),
                top_tf=uniformThickness(wt, "top"), bot_tf=uniformThickness(wt, "bot"), LE_wf=lew, fl=0.2)
    L_n, t_n, w_n = 0.5, 0.005, 0.15
    r_b = radius(L)

    def tf(sgn):
        def g(x, y, z):
            cw = 1 - (1 / L_n) * (x - L)
            return V(0, 0, sgn * (cw * math.sqrt(r_b ** 2 - y ** 2) + (1 - cw) * t_n))
        return g
    st = math.atan((r_b - 0.5 * w_n) / L_n)
    A0n, A1n, TTn = V(L, 0, 0), V(L + 0.5 * L_n, 0, 0), V(L + L_n, 0, 0)
    B0n, B1n, B2n = V(A0n.x, r_b, 0), V(A1n.x, r_b - (A1n.x - L) * tan(st), 0), V(TTn.x, 0.5 * w_n, 0)
    nose = Wing(4, A0=A0n, A1=A1n, TT=TTn, B0=B0n, line=Polyline([Line(B0n, B1n), Line(B1n, B2n), Line(B2n, TTn)]),
                top_tf=tf(-1), bot_tf=tf(1), LE_wf=lew, LE_type="FLAT")
    fa = deg2rad(90 - 45)
    y = {"reflection_axis": "y"}
    return [(fus, {"name": "fuselage"}), (wing, {**y, "name": "wing"}), (nose, {**y, "name": "nose"}), (fin(1, fa), {"name": "fin1"}),
            (fin(1, fa + deg2rad(90)), {"name": "fin2"}), (fin(0.5, deg2rad(-90)), {"name": "fin3"})], []


# Model/Hangar4.lean

def hifire4():
    xm, ym, R, L_n, L_b = 0.3, 0.5, 0.2, 2, 4
    L_t = L_n + L_b
    rho = (R ** 2 + L_n ** 2) / (2 * R)
    b_o = V(-L_n, round6(math.sqrt(rho ** 2 - (L_n - L_n) ** 2) + R - rho), 0)
    c_o = V(b_o.x, b_o.y - rho, 0)
    b1 = b_o - V(L_b, 0, 0)
    line = Polyline([Arc(V(0, 0, 0), b_o, c_o), Line(b_o, b1), Line(b1, b1 - V(0, R, 0))])

    def cx(x, y):
        return xm * 0.05 * x ** 2
    curv = [("x", cx, lambda x, y: xm * 0.05 * 2 * x), ("y", lambda x, y: ym * 0.1 * y ** 2, lambda x, y: ym * 0.1 * 2 * y)]
    wL, wt, ws, fl = 0.8 * L_t, 0.25 * R, 3.5 * R, 0.1 * L_t
    A0 = V(0 - wL, 0, 0)
    A1, TT, B0 = V(A0.x + 0.5 * wL, 0, 0), V(A0.x + wL - 0.3, 0, 0), V(A0.x, ws, 0)
    B1, B2 = V(A1.x, 0.95 * B0.y, 0), V(TT.x, 0.15 * ws, 0)
    wing = Wing(3, A0=A0, A1=A1, TT=TT, B0=B0, line=Polyline([Line(B0, B1), Line(B1, B2), Line(B2, TT)]),
                top_tf=uniformThickness(wt, "top"), bot_tf=uniformThickness(wt, "bot"), fl=fl, fa=deg2rad(0))
    fin_l = 0.2 * wL
    q0 = A0 - V(fl, 0, 0)
    q1 = q0 + V(0, R, 0)
    q2 = q1 + V(0.5 * fin_l, -0.5 * R, 0)
    q3 = q0 + V(fin_l, 0, 0)

    def sh(v):
        return v + V(0, -cx(v.x, v.y), 0)

    def fin(off):
        return Fin(3, p0=sh(q0), p1=sh(q1), p2=sh(q2), p3=sh(q3), th=wt, angle=deg2rad(-90), top_tf=uniformThickness(wt, "top"),
                   bot_tf=uniformThickness(wt, "bot"), rudder_type="sharp", rl=wt, off=off)
    return [(RevolvedComponent(line, 20), {"curvatures": curv}), (wing, {"reflection_axis": "y", "curvatures": curv}),
            (fin(V(0, ws, 0)), {}), (fin(V(0, -ws, 0)), {}), (fin(V(0, 0, -0.95 * R)), {})], []


# Model/Hangar5.lean

def waverider(nf=30, nw=5, nt=4):
    zo, cz, length, width, le_width, LE_t, aoa = 1, 5, 1, 0.35, 0.003, 0.003, 3
    f1x, f1y, f2y, p2x, p2y, p3x, p3y = 0.25 * 1, 0.075, 0.075, 1 * 1 / 3, 2 * 0.35 / 2 / 3, 2.75 * 1 / 3, 1.5 * 0.35 / 2 / 3
    u1y, u2x, u3x, u3y, fa, fh, a0_t, tt_t = 0.1, 0.35 / 2 / 3, 2 * 0.35 / 2 / 3, 0.1 / 10, 0, 0.1, 0.065, 0.35
    w1x, w1y, w2x, w2y, xm, ym = 0.1, 0 + 1, 0.1, 0 + 1, 0.001 + 5, 0.001 + 5
    fuse = Bezier([V(0, 0, 0), V(f1x, f1y, 0), V(length / 2, f2y, 0), V(length - f1x, f1y, 0), V(length, 0, 0)])

    def cxd(x, y):
        return 5 * (xm - cz) * 0.05 * 2 * x
    curv = [("x", lambda x, y: 5 * (xm - cz) * 0.05 * x ** 2, cxd),
            ("y", lambda x, y: 5 * (ym - cz) * 0.1 * y ** 2, lambda x, y: 5 * (ym - cz) * 0.1 * 2 * y)]

    def localY(line, x):
        return line(bis(lambda t: line(t).x - x)).y
    A1, TT, B0 = V(0.5 * length, 0, 0), V(length, 0, 0), V(0, width / 2, 0)
    line = Bezier([B0, V(p2x, max(p2y, localY(fuse, p2x)), 0), V(p3x, max(p3y, localY(fuse, p2x)), 0), TT])
    cont = Bezier([V(0, u1y, 0), V(u2x, u1y, 0), V(u3x, u3y, 0), V(width / 2, 0, 0)])

    def top(x, y, z):
        lw = localY(line, x)
        s = 0 if lw == 0 else y / lw
        return V(0, 0, -(cont(s).y * (abs(localY(fuse, x)) / u1y)) - LE_t / 2)

    def bot(x, y, z):
        localY(line, x)
        return V(0, 0, -0 + LE_t / 2)
    wings = Wing(nw, A1=A1, TT=TT, B0=B0, line=line, top_tf=top, bot_tf=bot, LE_wf=lambda r: le_width)
    fA0, fA1, fTT = line(a0_t), line(a0_t + (tt_t - a0_t) / 2), line(tt_t)
    fB0 = fA0 + V(0, fh, 0)
    cp1, cp2 = fB0 + V(w1x, w1y - zo, 0), fTT - V(w2x, w2y - zo, 0)

    def flap():
        return Wing(nw, A0=fA0, A1=fA1, TT=fTT, B0=fB0, line=Bezier([fB0, cp1, cp2, fTT]), top_tf=uniformThickness(LE_t, "top"),
                    bot_tf=uniformThickness(LE_t, "bot"), fl=fA0.x, fa=fa, LE_wf=lambda r: le_width, close_wing=True)
    fin = Fin(nt, p0=V(0, 0, 0), p1=V(0.1 * 0.3, 0.7 * 0.1, 0), p2=V(0.6 * 0.3, 0.1, 0), p3=V(0.3, 0, 0), th=0.005,
              angle=deg2rad(-90), top_tf=uniformThickness(0.005, "top"), bot_tf=uniformThickness(0.005, "bot"), LE_wf=lambda r: 0.01,
              pivot_point=V(0, 0, 0))
    c = {"curvatures": curv}
    return [(RevolvedComponent(fuse, nf), {**c, "name": "fuselage", "clustering": (lambda q: clusteredRoberts(q, True, True, 1.025), None),
                                           "modifier": lambda x, y, z: V(-0, -0, -z) if 0 < z else V(0, 0, 0)}),
            (wings, {**c, "name": "wings", "reflection_axis": "y"}), (flap(), {**c, "name": "right_flap"}),
            (flap(), {**c, "name": "left_flap", "reflection_axis": "y", "append_reflection": False}), (fin, {**c, "name": "fin"})], \
        CART3D + [("rotate", -(aoa + rad2deg(cxd(length, 0))), "z")]


# Model/Hangar6.lean

def refex():
    h, r_n, r_o, L_o, L_b, ft, wl, ws, th, tt, ca = 0.225, 0.075, 1.5, 0.05, 2.5, 0.02, 0.9, 0.35, 0.35, 0.02, 0
    shift = V(0.15, 0, 0)
    lew = bezierY([V(0, 0.01, 0), V(0.5, 0.05, 0), V(1, 0.01, 0)])
    f1 = V(0, h, 0) - V(L_o, 0, 0)
    bb0 = V(0, f1.y, 0) - V(L_b, 0, 0)
    body = Polyline([Line(V(0, 0, 0), V(0, f1.y, 0)), Line(V(0, f1.y, 0), bb0), Line(bb0, V(bb0.x, 0, 0))])
    fh = 1.3 * h
    fl = 1.3 * fh

    def si(height):
        return V(0, -0.02 * height, 0)
    p0 = f1 - V(fl, 0, 0) + si(fh) + shift
    p1 = p0 + V(0, fh, 0) + si(fh)
    p2 = p1 + V(0.3 * fl, 0, 0) + si(fh)
    p3 = f1 + si(fh) + shift
    piv = V(0.5 * (p0.x + p3.x), p0.y, 0)

    def canard(i):
        return Fin(3, p0=p0, p1=p1, p2=p2, p3=p3, th=ft, angle=deg2rad((i / 2) * 360), top_tf=uniformThickness(ft, "top"),
                   bot_tf=uniformThickness(ft, "bot"), LE_wf=lew, pivot_angle=deg2rad((-1) ** i * ca), pivot_point=piv,
                   rudder_type="sharp", rl=ft)
    wt, flap = 3 * ft, 0.1 * wl
    A0 = V(bb0.x + flap, 0, 0)
    TT = A0 + V(wl, 0, 0)
    A1 = V(0.5 * (A0.x + TT.x), 0, 0)
    B0 = A0 + V(0, ws + h, 0)
    B1 = B0 + V(0.5 * wl - flap, 0, 0)
    wing = Wing(3, A0=A0, A1=A1, TT=TT, B0=B0, line=Polyline([Line(B0, B1), Line(B1, TT)]), top_tf=lambda x, y, z: V(0, 0, h - wt),
                bot_tf=lambda x, y, z: V(0, 0, h), LE_wf=lew, fl=flap)

    def box(x):
        return [Line(V(x, h, 0), V(x, h, h)), ReversedPath(Line(V(x, -h, h), V(x, h, h))), ReversedPath(Line(V(x, -h, 0), V(x, -h, h))),
                Line(V(x, -h, 0), V(x, h, 0))]

    def rnd(x):
        c = V(x, 0, 0)
        l = V(x, -h * math.cos(deg2rad(60)), h * math.sin(deg2rad(60)))
        r = V(x, h * math.cos(deg2rad(60)), h * math.sin(deg2rad(60)))
        return [Arc(V(x, h, 0), r, c), ReversedPath(Arc(l, r, c)), ReversedPath(Arc(V(x, -h, 0), l, c)), Line(V(x, -h, 0), V(x, h, 0))]
    x = bb0.x
    trans = Swept([box(x), box(x + 0.9 * wl), rnd(x + 1.3 * wl)], 20)
    tl = 1.2 * th
    t0 = bb0 + si(th) + V(2 * tt, 0, 0)
    t1 = t0 + V(0, th, 0) + si(th)
    t2 = t1 + V(0.4 * tl, 0, 0) + si(th)
    t3 = t0 + V(tl, 0, 0) + si(th)
    tail = Fin(3, p0=t0, p1=t1, p2=t2, p3=t3, th=tt, angle=deg2rad(-90), top_tf=uniformThickness(tt, "top"),
               bot_tf=uniformThickness(tt, "bot"), LE_wf=lew, rudder_type="sharp", rl=tt)
    return [(Ogive(h, r_n, r_o, L_o, 50), {}), (RevolvedComponent(body, 50), {}), (canard(0), {}), (canard(1), {}),
            (wing, {"reflection_axis": "y"}), (trans, {}), (tail, {})], CART3D


# Model/Hangar7.lean

def d21(nw=3, nt=3):
    R_b, L_b, L_w, W_w, fa = 1, 20, 16, 5, 0
    b0 = V(0, R_b, 0)
    b1 = b0 - V(L_b, 0, 0)
    b2 = b1 - V(0, R_b, 0)
    fuse = Polyline([Line(V(0, 0, 0), b0), Line(b0, b1), Line(b1, b2)])
    sh = V(-0.1, 0, 0)
    tip, top, mid = V(0.15 * L_b, 0, 0) + sh, V(0, 1 * R_b, 0) + sh, V(0, 0.3 * R_b, 0) + sh
    nose = Polyline([Bezier([tip, mid, top]), Line(top, V(-0.5, 0, 0) + sh)])
    wt, fl = 0.15 * R_b, 0.1 * L_w
    A0 = V(0, 0, 0) - V(L_w, 0, 0)
    A1, TT, B0 = V(A0.x + 0.6 * L_w, 0, 0), V(A0.x + L_w, 0, 0) - V(0.3, 0, 0), V(A0.x, W_w, 0)
    B1, B2 = V(A1.x, 0.5 * B0.y, 0), V(TT.x, 0.15 * W_w, 0)
    edge = Polyline([Line(B0, B1), Bezier([B1, V(0.5 * (B1.x + B2.x), B1.y, 0), B2]), Line(B2, TT)])

    def wtop(x, y, z):
        lws = edge(bis(lambda t: edge(t).x - x)).y
        return V(0, 0, -wt / 2 - 0.5 * (1 - y / (1e-3 if lws == 0 else lws)))
    wing = Wing(nw, A0=A0, A1=A1, TT=TT, B0=B0, line=edge, top_tf=wtop, bot_tf=lambda x, y, z: V(0, 0, wt / 2), fl=fl, fa=deg2rad(fa))

    def fin(fh, fln, k, a, off=None):
        return Fin(nt, p0=b2, p1=b2 + V(0, fh, 0), p2=b2 + V(0, fh, 0) + V(k * fln, 0, 0), p3=b2 + V(fln, 0, 0), th=wt, angle=deg2rad(a),
                   top_tf=lambda x, y, z: V(0, 0, -wt / 2), bot_tf=lambda x, y, z: V(0, 0, wt / 2), off=off)
    g = L_b - L_w
    return [(RevolvedComponent(fuse, 20), {}), (RevolvedComponent(nose, 20), {}), (wing, {"reflection_axis": "y"}),
            (fin(0.15 * W_w, g, 0.4, -90, V(0, 0, -0.95 * R_b)), {}), (fin(0.45 * W_w, 1.3 * g, 1, 0), {}),
            (fin(0.45 * W_w, 1.3 * g, 1, 180), {})], []


def sweep():
    """The swept patch of tests/test_sweep.py"""
    c1 = CoonsCorners(V(0, 0, 0), V(1, 0, 0), V(1, 1, 0), V(0, 1, 0))
    c2 = CoonsCorners(V(0, 0, 1), V(0.5, 0, 1), V(0.5, 0.5, 1), V(0, 0.5, 1))
    return surfceToStl(SweptPatch([c1, c2]), 20, 20) + surfceToStl(c1, 20, 20) + surfceToStl(c2, 20, 20)


def load(p):
    b = open(p, "rb").read()
    if len(b) == 84 + 50 * struct.unpack("<I", b[80:84])[0]:
        out = []
        for i in range(struct.unpack("<I", b[80:84])[0]):
            v = struct.unpack("<12f", b[84 + 50 * i:84 + 50 * i + 48])
            out.append((v[3:6], v[6:9], v[9:12]))
        return out
    vs = [tuple(float(q) for q in l.split()[1:]) for l in b.decode().splitlines() if l.strip().startswith("vertex")]
    return [tuple(vs[3 * i:3 * i + 3]) for i in range(len(vs) // 3)]


def f32(x):
    return struct.unpack("<f", struct.pack("<f", x))[0]


def compare(name, mesh, ref):
    R = load(ref)
    if len(mesh) != len(R):
        print(f"{name:28s} DIFFERENT NUMBER OF TRIANGLES {len(mesh)} {len(R)}")
        return False
    eq = tot = 0
    worst = 0.0
    for t, u in zip(mesh, R):
        for p, q in zip(t, u):
            for a, b in zip(p, q):
                tot += 1
                eq += f32(a) == b
                worst = max(worst, abs(a - b))
    print(f"{name:28s} {len(R):7d} triangles  equal {100 * eq / tot:6.2f}%  largest difference {worst:.2e}")
    return worst < 1e-5


def main(data="/repo/tests/data/hangar"):
    ok = compare("swept.stl", sweep(), os.path.join(data, "..", "swept.stl"))
    seen = set()
    for veh in (wedge, falcon9, finner, x43, htv, hifire8, hifire4, waverider, refex, d21):
        parts, vt = veh()
        no = {}
        for c, o in parts:
            c.o = o
            k = no.get(c.ty, 0)
            no[c.ty] = k + 1
            nm = o.get("name") or c.name
            f = f"{veh.__name__}-{nm}.stl" if nm else f"{veh.__name__}-{c.ty}-{k}.stl"
            path = os.path.join(data, veh.__name__, f)
            if not os.path.exists(path):
                print(f"{f:28s} no reference file")
                continue
            seen.add(f)
            ok &= compare(f, meshOf(c, vt), path)
    for d in sorted(os.listdir(data)):
        for f in sorted(os.listdir(os.path.join(data, d))):
            if f not in seen:
                print("not compared:", f)
    print("all within 1e-5" if ok else "DIFFERENCES FOUND")


main()
