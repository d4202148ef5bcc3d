"""A transliteration of the Lean model (lean/Verif/Model/*.lean) to floating point Python.

It is used only by compare.py, to compare what the model says about the hangar vehicles with the reference STL files
shipped with the repository's tests.  It is written from the Lean definitions (whose names it keeps), not from the
repository's code, and it is not part of any proof.
"""
import math

pi = math.pi
tan = math.tan


class PyErr(Exception):
    pass


class V(tuple):
    """Model/Vec.lean"""
    __slots__ = ()

    def __new__(cls, x, y, z):
        return tuple.__new__(cls, (x, y, z))
    x = property(lambda s: s[0])
    y = property(lambda s: s[1])
    z = property(lambda s: s[2])

    def __add__(u, v):
        return V(u[0] + v[0], u[1] + v[1], u[2] + v[2])

    def __sub__(u, v):
        return V(u[0] - v[0], u[1] - v[1], u[2] - v[2])

    def __mul__(u, a):
        return V(u[0] * a, u[1] * a, u[2] * a)

    def abs(v):
        return math.sqrt(v[0] ** 2 + v[1] ** 2 + v[2] ** 2)

    def dot(u, v):
        return u[0] * v[0] + u[1] * v[1] + u[2] * v[2]

    def normalize(v):
        m = v.abs()
        if m == 0:
            raise PyErr("nan")
        return V(v[0] / m, v[1] / m, v[2] / m)


def cross(a, b):
    return V(a[1] * b[2] - b[1] * a[2], b[0] * a[2] - a[0] * b[2], a[0] * b[1] - b[0] * a[1])


def toGlobal(s, n, t1, t2, c):
    x = s.x * n.x + s.y * t1.x + s.z * t2.x
    y = s.x * n.y + s.y * t1.y + s.y * t2.y
    z = s.x * n.z + s.y * t1.z + s.z * t2.z
    return V(x + c.x, y + c.y, z + c.z)


def isclose(a, b, rtol=1 / 100, atol=1 / 100000):
    return abs(a - b) <= atol + rtol * abs(b)


def approxEq(u, v):
    return all(isclose(u[i], v[i]) for i in range(3))


class Path:
    """Model/Path.lean: PathObj"""

    def __init__(self, call, length=None):
        self.call = call
        self.length = length or (lambda: Path_length(call))

    def __call__(self, t):
        return self.call(t)


def Path_length(call, n=20):
    p0 = call(0)
    dt = 1 / n
    L = 0
    for i in range(n):
        p1 = call((i + 1) * dt)
        L, p0 = L + (p1 - p0).abs(), p1
    return L


def Line(p0, p1):
    return Path(lambda t: p0 * (1 - t) + p1 * t, lambda: (p1 - p0).abs())


def Line_add(p0, p1, o):
    return Line(p0 + o, p1 + o)


def Bezier(B):
    def call(t):
        if len(B) == 1:
            return B[0]
        Q = list(B)
        n = len(B) - 1
        for k in range(n):
            for i in range(n - k):
                Q[i] = Q[i] * (1 - t) + Q[i + 1] * t
        return Q[0]
    return Path(call)


def Polyline(segs):
    cum = [0]
    for s in segs:
        cum.append(cum[-1] + s.length())
    total = cum[-1]
    if total == 0:
        raise PyErr("zeroDiv")
    tv = [c / total for c in cum]
    n = len(segs)

    def isokay(i, tl):
        if i == 0:
            return tl <= 1
        if i == n - 1:
            return tl > 0
        return tl > 0 and tl <= 1

    def call(t):
        if n == 1:
            return segs[0](t)
        f = segs[0](t) * 0
        for i, seg in enumerate(segs):
            tl = (t - tv[i]) / (tv[i + 1] - tv[i])
            f = f + seg(tl) * (1 if isokay(i, tl) else 0)
        return f
    return Path(call, lambda: sum(s.length() for s in segs))


def Arc(a, b, c):
    def ev(t):
        ca, cb = a - c, b - c
        ma, mb = ca.abs(), cb.abs()
        if abs(ma - mb) > 1e-5:
            raise PyErr("arc radii")
        t1 = ca.normalize()
        n0 = cross(ca, cb)
        if not n0.abs() > 0:
            raise PyErr("arc normal")
        n = n0.normalize()
        t2 = cross(n, t1)
        l = V(cb.dot(t1), cb.dot(t2), cb.dot(n))
        if abs(l.z) > 1e-6:
            raise PyErr("arc plane")
        theta = math.atan2(l.y, l.x)
        L = theta * mb
        th = theta * t
        loc = V(math.cos(th) * mb, math.sin(th) * mb, 0 * th)
        return toGlobal(loc, t1, t2, n, c), L
    return Path(lambda t: ev(t)[0], lambda: ev(1)[1])


def interp(x, tbl, left, right):
    if x < tbl[0][0]:
        return left
    lo, hi = 0, len(tbl) - 1
    if x >= tbl[hi][0]:
        return right if x > tbl[hi][0] else tbl[hi][1]
    # the first j with x < tbl[j+1][0]
    while lo < hi:
        m = (lo + hi) // 2
        if x < tbl[m + 1][0]:
            hi = m
        else:
            lo = m + 1
    a, b = tbl[lo], tbl[lo + 1]
    return a[1] + (b[1] - a[1]) / (b[0] - a[0]) * (x - a[0])


def ArcLengthParameterizedPath(p, n=1000):
    dt = 1 / n
    p0 = p(0)
    tbl = [(0, 0)]
    L = 0
    for i in range(1, n + 1):
        p1 = p(dt * i)
        L = L + (p1 - p0).abs()
        tbl.append((L, dt * i))
        p0 = p1
    return Path(lambda t: p(interp(t * tbl[-1][0], tbl, 0, 1)), p.length)


def roberts(eta, alpha, beta):
    lm = ((beta + 1) / (beta - 1)) ** ((eta - alpha) / (1 - alpha))
    eb = (beta + 2 * alpha) * lm - beta + 2 * alpha
    return eb / ((2 * alpha + 1) * (1 + lm))


def clusteredRoberts(eta, end1, end2, beta):
    cluster = not ((not end1 and not end2) or beta < 1)
    reverse = end1 and not end2
    alpha = 0.5 if end1 and end2 else 0 if end1 and not end2 else 0 if not end1 and end2 else 0.5
    if not cluster:
        return eta
    e = roberts(1 - eta if reverse else eta, alpha, beta)
    return 1 - e if reverse else e


# Model/Surface.lean

def CoonsPatch(north, east, south, west):
    p00, p10, p01, p11 = south(0), south(1), north(0), north(1)
    for p, q in ((p00, west(0)), (p10, east(0)), (p01, west(1)), (p11, east(1))):
        if not approxEq(p, q):
            raise PyErr("corners")

    def call(r, s):
        return south(r) * (1 - s) + north(r) * s + west(s) * (1 - r) + east(s) * r \
            - (p00 * (1 - r) * (1 - s) + p01 * (1 - r) * s + p10 * r * (1 - s) + p11 * r * s) + V(0, 0, 0)
    return call


# Model/Geometry.lean

def SubRangedPath(p, t0, t1):
    return Path(lambda t: p(t0 + t * (t1 - t0)), p.length)


def ReversedPath(p):
    return SubRangedPath(p, 1, 0)


def ElipsePath(centre, thickness, LE_width, side):
    def call(r):
        a, b = LE_width, abs(thickness)
        if side == "bot":
            th = 0 + r * pi / 2
        elif side == "top":
            th = -pi / 2 + r * pi / 2
        else:
            raise PyErr("side")
        xe = a * b / math.sqrt(b * b + (a * tan(th)) ** 2)
        ye = xe * tan(th)
        ang = pi / 2
        return centre + V(xe * math.cos(ang), xe * math.sin(ang), ye)
    return Path(call)


def OffsetPathFunction(p, f):
    def call(t):
        q = p(t)
        return q + f(q.x, q.y, 0)
    return Path(call)


def GeometricMeanPathFunction(p, q):
    return Path(lambda t: (p(t) + q(t)) * 0.5)


def TrailingEdgePath(A0, B0, f):
    return OffsetPathFunction(Line(A0, B0), f)


def OffsetPatchFunction(surf, f):
    def call(r, s):
        p = surf(r, s)
        return p + f(p.x, p.y, p.z)
    return call


def leAngle(line, t):
    if t == 0:
        return pi / 2
    if t == 1:
        return 0
    dt = min(0.001, abs(1 - t), abs(t - 0))
    a, b = line(t + dt), line(t - dt)
    return math.atan2(a.y - b.y, a.x - b.x) + pi / 2


_ell = {}


def normEllipse(thickness, width, side):
    k = (thickness, width, side)
    if k not in _ell:
        _ell[k] = ArcLengthParameterizedPath(ElipsePath(V(0, 0, 0), thickness, width, side))
    return _ell[k]


def MeanLeadingEdgePatchFunction(mean, guide, wf, t0, t1, side):
    def call(t_raw, r):
        t = t1 - t_raw * (t1 - t0)
        m, g = mean(t), guide(t)
        e = normEllipse(m.z - g.z, wf(t), side)(r)
        ang = leAngle(mean, t)
        return m + V(e.y * math.cos(ang), e.y * math.sin(ang), e.z)
    return call


def FlatLeadingEdgePatchFunction(p1, p2, t0, t1):
    def call(t_raw, r):
        t = t1 - t_raw * (t1 - t0)
        a, b = p1(t), p2(t)
        return V(a.x, a.y, (1 - r) * a.z + r * b.z)
    return call


def _tePatch(tip, TE_path, side):
    if side == "top":
        south, north = tip, TE_path
    elif side == "bot":
        south, north = TE_path, tip
    else:
        raise PyErr("side")
    s0, n0, s1, n1 = south(0), north(0), south(1), north(1)
    return CoonsPatch(north, Line(s1, n1), south, Line(s0, n0))


def TrailingEdgePatch(A0, B0, TE_path, fl, fa, side):
    tip = Line(V(A0.x - fl, A0.y, 0 + fl * math.sin(fa)), V(B0.x - fl, B0.y, 0 + fl * math.sin(fa)))
    return _tePatch(tip, TE_path, side)


def MeanTrailingEdgePatch(mean, TE_path, fl, fa, side):
    m0, m1 = mean(0), mean(1)
    tip = Line(V(m0.x - fl * math.cos(fa), m0.y, m0.z + fl * math.sin(fa)),
               V(m1.x - fl * math.cos(fa), m1.y, m1.z + fl * math.sin(fa)))
    return _tePatch(tip, TE_path, side)


def CurvedPatch(surf, direction, fn, fn_dash):
    def call(r, s):
        p = surf(r, s)
        off = fn(p.x, p.y)
        ang = math.atan2(fn_dash(p.x, p.y), 1)
        if direction == "x":
            return V(p.x - p.z * math.sin(ang), p.y, p.z * math.cos(ang) + off)
        if direction == "y":
            return V(p.x, p.y - p.z * math.sin(ang), off + p.z * math.cos(ang))
        raise PyErr("type")
    return call


def RevolvedPatch(line, a0, a1):
    def call(r, s):
        ang = a0 * (1 - s) + a1 * s
        p = line(r)
        return V(p.x, p.y * math.cos(ang) + p.z * math.sin(ang), p.z * math.cos(ang) - p.y * math.sin(ang))
    return call


def linspace01(n):
    return [i / (n - 1) for i in range(n)]


def SweptPatchfromEdges(edges):
    sl = linspace01(len(edges))

    def call(r, s):
        for i, q in enumerate(sl):
            if q == r:
                return edges[i](s)
        above = next(i for i, q in enumerate(sl) if q > r)
        below = len(edges) - 1 if above == 0 else above - 1
        pa, pb = edges[above](s), edges[below](s)
        al = (r - sl[below]) / (sl[above] - sl[below])
        return pb * (1 - al) + pa * al
    return call


def CoonsCorners(p00, p10, p11, p01):
    return CoonsPatch(Line(p01, p11), Line(p10, p11), Line(p00, p10), Line(p00, p01))


def SurfacePerimeter(surf):
    def call(t):
        f = 0.25
        rem = t % f
        if t < 0.25:
            return surf(round(rem / f, 8), 0)
        if t < 0.5:
            return surf(1, round(rem / f, 8))
        if t < 0.75:
            return surf(round(1 - rem / f, 8), 1)
        if t < 1:
            return surf(0, round(1 - rem / f, 8))
        return surf(0, 0)
    return Path(call)


def SweptPatch(sections, axis=2):
    origins = [cs(0, 0)[axis] for cs in sections]
    mn, mx = min(origins), max(origins)
    if mn == mx:
        raise PyErr("exc")
    per = [SurfacePerimeter(cs) for cs in sections]

    def search(dist):
        for i, lv in enumerate(origins):
            if dist == origins[-1]:
                return len(origins) - 2
            if lv <= dist and dist < origins[i + 1]:
                return i
        return len(origins) - 1

    def call(r, s):
        dist = mn + r * (mx - mn)
        i = search(dist)
        lo, up, ls, us = per[i](s), per[i + 1](s), origins[i], origins[i + 1]
        return V(*(dist if a == axis else lo[a] + (dist - ls) * (up[a] - lo[a]) / (us - ls) for a in range(3)))
    return call


def rotAbout(a, ang, p):
    c, s = math.cos(ang), math.sin(ang)
    if a == "x":
        return V(p.x, p.y * c - p.z * s, p.y * s + p.z * c)
    if a == "y":
        return V(p.x * c + p.z * s, p.y, -p.x * s + p.z * c)
    if a == "z":
        return V(p.x * c - p.y * s, p.x * s + p.y * c, p.z)
    raise PyErr("unbound")


def RotatedPatch(surf, ang, axis="x", point=V(0, 0, 0)):
    return lambda r, s: rotAbout(axis, ang, surf(r, s) - point) + point


def MirroredPatch(surf, axis="x"):
    def call(r, s):
        p = surf(r, s)
        return V(p.x * (-1 if axis == "x" else 1), p.y * (-1 if axis == "y" else 1), p.z * (-1 if axis == "z" else 1))
    return call


# Model/Mesh.lean

def defaultVertexFunc(lb, ub, steps, spacing):
    span = ub - lb
    dx = 1 / (steps - 1)
    return [lb + (i * dx) ** spacing * span for i in range(steps)]


def surfceToStl(surf, ni, nj, ic=None, jc=None):
    rl = [ic(q) for q in linspace01(ni + 1)] if ic else defaultVertexFunc(0, 1, ni + 1, 1)
    sl = [jc(q) for q in linspace01(ni + 1)] if jc else defaultVertexFunc(0, 1, nj + 1, 1)
    g = [[surf(r, s) for s in sl[:nj + 1]] for r in rl[:ni + 1]]
    out = []
    for i in range(ni):
        for j in range(nj):
            a, b, c, d = g[i][j], g[i + 1][j], g[i][j + 1], g[i + 1][j + 1]
            m = V(*(0.25 * (a[k] + b[k] + c[k] + d[k]) for k in range(3)))
            out += [(a, b, m), (b, d, m), (d, c, m), (c, a, m)]
    return out


# Model/Bisect.lean

def scipyBisect(f, a=0.0, b=1.0):
    fa, fb = f(a), f(b)
    if fa == 0:
        return a
    if fb == 0:
        return b
    if (fa < 0) == (fb < 0):
        raise PyErr("value")
    xa, d = a, b - a
    for _ in range(100):
        d = d * 0.5
        xm = xa + d
        fm = f(xm)
        if fm == 0 or abs(d) < 2e-12 + 4 * 2 ** -52 * abs(xm):
            return xm
        if (fm < 0) == (fa < 0):
            xa = xm
    raise PyErr("runtime")


bis = scipyBisect


def round6(x):
    return math.floor(x * 10 ** 6 + 0.5) / 10 ** 6


def rounded(f):
    return round6(bis(f))


# Model/Component.lean, Model/Leaf.lean: a component is its type, name, patches (a function making the ordered
# dictionary), resolution and options

class Comp:
    def __init__(self, ty, gen, res, name=None):
        self.ty, self.gen, self.res, self.name = ty, gen, res, name
        self.o = {}

    def copy(self):
        c = Comp(self.ty, self.gen, self.res, self.name)
        c.o = dict(self.o)
        return c


def applyTransf(d, t):
    if t[0] == "rotate":
        return {k: RotatedPatch(p, t[1] * (pi / 180), t[2]) for k, p in d.items()}
    if t[0] == "translate":
        return {k: OffsetPatchFunction(p, lambda x, y, z, v=t[1]: v) for k, p in d.items()}
    raise PyErr("attr")


def genOne(c, angle=0):
    """Model/Vehicle.lean: genOne"""
    d = c.gen()
    if c.o.get("modifier"):
        d = {k: OffsetPatchFunction(p, c.o["modifier"]) for k, p in d.items()}
    for kk in c.o.get("curvatures") or []:
        d = {k: CurvedPatch(p, *kk) for k, p in d.items()}
    d = applyTransf(d, ("rotate", angle, "y"))
    ax = c.o.get("reflection_axis")
    if ax:
        m = {k + "_mirrored": MirroredPatch(p, ax) for k, p in d.items()}
        d = {**d, **m} if c.o.get("append_reflection", True) else m
    for t in c.o.get("transformations") or []:
        d = applyTransf(d, t)
    return d


def meshOf(c, vehT=()):
    d = genOne(c)
    for t in vehT:
        d = applyTransf(d, t)
    ic, jc = c.o.get("clustering", (None, None))
    out = []
    for p in d.values():
        out += surfceToStl(p, c.res, c.res, ic, jc)
    return out


def RevolvedComponent(line, res=4, name=None):
    return Comp("revolved", lambda: {f"revolved_fuse_{i}": RevolvedPatch(line, i * pi / 2, (i + 1) * pi / 2)
                                     for i in range(4)}, res, name)


def Swept(sections, res, name=None):
    n = len(sections[0])
    for cs in sections:
        if len(cs) != n:
            raise PyErr("sections")
        for i in range(n):
            p1, p0 = cs[i](1), cs[(i + 1) % n](0)
            if any(abs(p0[k] - p1[k]) > 1e-12 for k in range(3)):
                raise PyErr("joint")

    def gen():
        d = {f"swept_patch_{e}": SweptPatchfromEdges([cs[e] for cs in sections]) for e in range(n)}
        e = sections[0]
        d["swept_patch_end_0"] = CoonsPatch(ReversedPath(e[2]), e[1], e[0], ReversedPath(e[3]))
        e = sections[-1]
        d["swept_patch_end_1"] = CoonsPatch(e[2], ReversedPath(e[3]), ReversedPath(e[0]), e[1])
        return d
    return Comp("swept", gen, res, name)


def Composite(children, res, name=None):
    def gen():
        d = {}
        for ix, c in enumerate(children):
            for k, p in c.gen().items():
                d[f"{k}_{ix}"] = p
        return d
    return Comp("composite", gen, res, name)


# Model/Wing.lean

def bezierY(pts):
    B = Bezier(pts)
    return lambda r: B(r).y


leadingEdgeWidth = bezierY([V(0, 0.01, 0), V(0.5, 0.1, 0), V(1, 0.01, 0)])


def uniformThickness(t, side):
    return lambda x, y, z: V(0, 0, (-1 if side == "top" else 1) * t / 2)


def Wing(res=2, name=None, A0=V(0, 0, 0), A1=V(0, 0, 0), TT=V(0, 0, 0), B0=V(0, 0, 0), line=None, top_tf=None,
         bot_tf=None, LE_wf=None, LE_type="custom", fl=0, fa=0, close_wing=False):
    wf = leadingEdgeWidth if LE_wf is None and LE_type == "custom" else LE_wf
    TYPE = LE_type.upper()
    tB1 = rounded(lambda t: line(t).x - A1.x)
    tB2 = 0.5 * (1 + tB1)

    def gen():
        B1 = line(tB1)
        B0B1 = SubRangedPath(line, 0, tB1)
        p0 = CoonsPatch(B0B1, Line(A1, B1), Line(A0, A1), Line(A0, B0))
        B1B2 = SubRangedPath(line, tB1, tB2)
        TTB2 = SubRangedPath(line, 1, tB2)
        p1 = CoonsPatch(B1B2, TTB2, Line(A1, TT), Line(A1, B1))
        f0 = CoonsPatch(SubRangedPath(B0B1, 1, 0), Line(A0, B0), Line(A1, A0), Line(A1, B1))
        f1 = CoonsPatch(SubRangedPath(B1B2, 1, 0), Line(A1, B1), Line(TT, A1), TTB2)
        d = {"top_patch_0": OffsetPatchFunction(f0, top_tf), "top_patch_1": OffsetPatchFunction(f1, top_tf),
             "bot_patch_0": OffsetPatchFunction(p0, bot_tf), "bot_patch_1": OffsetPatchFunction(p1, bot_tf)}
        top, bot = OffsetPathFunction(line, top_tf), OffsetPathFunction(line, bot_tf)
        if TYPE == "FLAT":
            d["LE_patch0"] = FlatLeadingEdgePatchFunction(top, bot, 0, tB1)
            d["LE_patch1"] = FlatLeadingEdgePatchFunction(top, bot, tB1, tB2)
            d["LE_patch2"] = FlatLeadingEdgePatchFunction(top, bot, tB1, 1)
        else:
            mean = GeometricMeanPathFunction(top, bot)
            for side, g in (("top", top), ("bot", bot)):
                for i, (a, b) in enumerate(((0, tB1), (tB1, tB2), (tB2, 1))):
                    d[f"LE_{side}_patch_{i}"] = MeanLeadingEdgePatchFunction(mean, g, wf, a, b, side)
        teTop, teBot = TrailingEdgePath(A0, B0, top_tf), TrailingEdgePath(A0, B0, bot_tf)
        teMean = GeometricMeanPathFunction(teTop, teBot)
        d["TE_top_patch"] = MeanTrailingEdgePatch(teMean, teTop, fl, fa, "top")
        d["TE_bot_patch"] = MeanTrailingEdgePatch(teMean, teBot, fl, fa, "bot")
        m, t, b = teMean(1), teTop(1), teBot(1)
        if TYPE == "FLAT":
            north, west = Line(m, b), Line(t, m)
        else:
            tt, tb = m.z - t.z, m.z - b.z
            if tt == 0 or tb == 0:
                raise PyErr("thickness")
            west = ArcLengthParameterizedPath(ElipsePath(m, tt, wf(0), "top"))
            north = ArcLengthParameterizedPath(ElipsePath(m, tb, wf(0), "bot"))
        tip = V(m.x - fl * math.cos(fa), m.y, m.z + fl * math.sin(fa))
        d["TELE_patch"] = CoonsPatch(north, Line(tip, V(m.x, m.y, b.z)), Line(V(m.x, m.y, t.z), tip), west)
        if close_wing:
            TT_top, TT_bot = TT + top_tf(TT.x, TT.y, TT.z), TT + bot_tf(TT.x, TT.y, TT.z)
            TT_mid = (TT_top + TT_bot) * 0.5
            t0, b0, m0 = teTop(0), teBot(0), teMean(0)
            tA, bA = d["top_patch_0"](0, 0), d["bot_patch_0"](1, 0)
            mm = V(bA.x, bA.y, (bA.z + tA.z) / 2)
            mid0, mid1 = Line(m0, mm), Line(mm, TT_mid)
            vT, vB = Line(tA, mm), Line(mm, bA)
            d["wing_close_top_patch0"] = CoonsPatch(mid0, vT, Line(t0, tA), Line(t0, m0))
            d["wing_close_top_patch1"] = CoonsPatch(mid1, Line(TT_top, TT_mid), Line(tA, TT_top), vT)
            d["wing_close_bot_patch0"] = CoonsPatch(Line(b0, bA), vB, mid0, Line(m0, b0))
            d["wing_close_bot_patch1"] = CoonsPatch(Line(bA, TT_bot), Line(TT_mid, TT_bot), mid1, vB)
            et = ArcLengthParameterizedPath(ElipsePath(TT_mid, TT_mid.z - TT_top.z, wf(1), "top"))
            eb = ArcLengthParameterizedPath(ElipsePath(TT_mid, TT_mid.z - TT_bot.z, wf(1), "bot"))
            p5 = CoonsPatch(SubRangedPath(eb, 1, 0), et, Line(TT_mid, TT_top), Line(TT_mid, TT_bot))
            d["interior_ellip"] = RotatedPatch(p5, -90 * pi / 180, "z", TT_mid)
            p = V(m0.x - fl * math.cos(fa), m0.y, m0.z + fl * math.sin(fa))
            d["interior_flap_patch"] = CoonsPatch(Line(t0, p), Line(b0, p), Line(m0, b0), Line(m0, t0))
        return d
    return Comp("wing", gen, res, name)


def Fin(res=2, name=None, p0=None, p1=None, p2=None, p3=None, th=None, angle=None, top_tf=None, bot_tf=None,
        LE_wf=leadingEdgeWidth, rudder_type="flat", rl=0, ra=0, pivot_angle=0, pivot_point=V(0, 0, 0), off=None):
    def gen():
        line = Polyline([Line(p1, p2), Line(p2, p3)])
        pl = CoonsPatch(Line(p1, p2), Line(p3, p2), Line(p0, p3), Line(p0, p1))
        fl = CoonsPatch(Line(p3, p2), Line(p1, p2), Line(p0, p1), Line(p0, p3))
        d = {"top_patch": OffsetPatchFunction(fl, top_tf), "bot_patch": OffsetPatchFunction(pl, bot_tf)}
        top, bot = OffsetPathFunction(line, top_tf), OffsetPathFunction(line, bot_tf)
        mean = GeometricMeanPathFunction(top, bot)
        tB1 = rounded(lambda t: line(t).x - p2.x)
        for side, g in (("top", top), ("bot", bot)):
            for i, (a, b) in enumerate(((0, tB1), (tB1, 1))):
                d[f"LE_{side}_patch_{i}"] = MeanLeadingEdgePatchFunction(mean, g, LE_wf, a, b, side)
        ht = V(0, 0, th / 2)
        et = ArcLengthParameterizedPath(ElipsePath(p3, top_tf(p3.x, p3.y, 0).z, LE_wf(1), "top"))
        eb = ArcLengthParameterizedPath(ElipsePath(p3, bot_tf(p3.x, p3.y, 0).z, LE_wf(1), "bot"))
        pt, pb = Line(p3 - ht, p3), Line(p3, p3 + ht)
        d["bot_ellip"] = RotatedPatch(CoonsPatch(pb, eb, et, pt), -90 * pi / 180, "z", p3)
        d["bot_1"] = CoonsPatch(Line(p3 - ht, p0 - ht), Line(p0, p0 - ht), Line(p3, p0), ReversedPath(pt))
        d["bot_2"] = CoonsPatch(Line(p3, p0), Line(p0 + ht, p0), Line(p3 + ht, p0 + ht), ReversedPath(pb))
        tt, tb = top_tf(p1.x, p1.y, 0), bot_tf(p1.x, p1.y, 0)
        et = ArcLengthParameterizedPath(ElipsePath(p1, tt.z, LE_wf(0), "top"))
        eb = ArcLengthParameterizedPath(ElipsePath(p1, tb.z, LE_wf(0), "bot"))
        if rudder_type == "sharp":
            d["TE_top"] = TrailingEdgePatch(p0, p1, TrailingEdgePath(p0, p1, top_tf), rl, ra, "top")
            d["TE_bot"] = TrailingEdgePatch(p0, p1, TrailingEdgePath(p0, p1, bot_tf), rl, ra, "bot")
            tip = V(p1.x - rl, p1.y, rl * math.sin(ra))
            d["TE_ellipse"] = CoonsPatch(eb, Line(tip, V(p1.x, p1.y, tb.z)), Line(V(p1.x, p1.y, tt.z), tip), et)
            TE = V(p0.x - rl, p0.y, rl * math.sin(ra))
            d["TE_triangle"] = CoonsPatch(Line(TE, p0 + ht), Line(p0, p0 + ht), Line(p0 - ht, p0), Line(p0 - ht, TE))
        else:
            q1, q2 = Line(p1, p1 - ht), Line(p1 + ht, p1)
            d["TE_ellip"] = CoonsPatch(q1, SubRangedPath(et, 1, 0), SubRangedPath(eb, 1, 0), q2)
            d["TE_1"] = CoonsPatch(Line(p0 - ht, p1 - ht), q1, Line(p0, p1), Line(p0, p0 - ht))
            d["TE_2"] = CoonsPatch(Line(p0, p1), q2, Line(p0 + ht, p1 + ht), Line(p0 + ht, p0))
        out = {}
        for k, p in d.items():
            q = RotatedPatch(RotatedPatch(p, pivot_angle, "y", pivot_point), angle)
            out[k] = OffsetPatchFunction(q, lambda x, y, z: off) if off is not None else q
        return out
    return Comp("fin", gen, res, name)


def Ogive(h, r_n, r_o, L_o, res=3):
    x_o = -math.sqrt((r_o - r_n) ** 2 - (r_o - h) ** 2)
    y_t = r_n * (r_o - h) / (r_o - r_n)
    x_t = x_o - math.sqrt(r_n ** 2 - y_t ** 2)
    x_a = x_o - r_n
    a_o, b_o, c_o = V(-x_t, y_t, 0), V(0, h, 0), V(0, -r_o + h, 0)
    a_n, c_n = V(-x_a, 0, 0), V(-x_o, 0, 0)
    f1 = b_o - V(L_o, 0, 0)
    return RevolvedComponent(Polyline([Arc(a_n, a_o, c_n), Arc(a_o, b_o, c_o), Line(b_o, f1), Line(f1, V(f1.x, 0, 0))]), res)


def deg2rad(x):
    return x * (pi / 180)


def rad2deg(x):
    return x * (180 / pi)
