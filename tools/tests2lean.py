#!/usr/bin/env python3
"""Translate the project's own tests (/repo/tests) into Lean checks of the model.

The test files are read as text with `ast`; nothing of the project is imported or run. Every test
function becomes one `example` per report it constructs, closed by `decide +kernel`: the model is
evaluated on the text of the test and must give the asserted values. A statement the translator does
not understand stops it, so that no assertion is dropped silently.

Output: lean/Verif/Tests/*.lean (one module per test file, plus Database.lean with the rows of the
stations and countries the tests mention).
"""
import ast
import glob
import os
import re
from fractions import Fraction

ROOT = os.path.dirname(os.path.dirname(os.path.abspath(__file__)))
OUT = os.path.join(ROOT, "lean", "Verif", "Tests")
REPO = "/repo"

V, D, WD = "({0}.vis)", "({0}.direction)", "({0}.direction)"


def floats(prefix, e, units):
    table = {
        "meters": "%s", "kilometers": "(inKilometers %s)", "sea_miles": "(inSeaMiles %s)",
        "feet": "(inFeet %s)", "knot": "%s", "mps": "(inMps %s)", "kph": "(inKph %s)",
        "miph": "(inMiph %s)", "celsius": "%s", "kelvin": "(inKelvin %s)",
        "fahrenheit": "(inFahrenheit %s)", "rankine": "(inRankine %s)", "hPa": "%s",
        "inHg": "(inInHg %s)", "mbar": "(inMbar %s)", "bar": "(inBar %s)", "atm": "(inAtm %s)",
    }
    return {prefix + "in_" + u: (table[u] % e, "ofloat") for u in units.split()}


def fields(names, cls="ostr", **ren):
    return {n: ("{0}." + ren.get(n, n), cls) for n in names.split()}


DIST = "meters kilometers sea_miles feet"
SPEED = "knot mps kph miph"
TEMP = "celsius kelvin fahrenheit rankine"


def direction(prefix, e, card="cardinal_direction"):
    return {
        prefix[0] + card: (f"({e}.cardinal)", "ostr"),
        prefix[1] + "in_degrees": (f"{e}.value", "ofloat"),
        prefix[1] + "in_radians": (f"({e}.inRadians)", "ofloat"),
    }


def core(expr):
    return {
        "wind": (expr + ".wind", "MetarWind"),
        "prevailing_visibility": (expr + ".prevailing", "Prevailing"),
        "weathers": (expr + ".weathers", "GL:Weather"),
        "clouds": (expr + ".clouds", "GL:Cloud"),
        "flight_rules": ("(" + expr + ".flightRules)", "ostr"),
    }


REPORT = {
    "type_": ("{0}.type", "ReportType"), "station": ("{0}.station", "Station"),
    "time": ("{0}.time", "Time"), "modifier": ("{0}.modifier", "Modifier"),
    "unparsed_groups": ("{0}.unparsed", "strs"), "sections": ("{0}.sections", "strs"),
    "body": ("{0}.body", "str"), **core("{0}.core"),
}

CLASSES = {
    "Metar": {
        **REPORT, "trend": ("{0}.trend", "str"), "remark": ("{0}.remark", "str"),
        "wind_variation": ("{0}.windVariation", "WindVariation"),
        "minimum_visibility": ("{0}.minimumVisibility", "Minimum"),
        "runway_ranges": ("{0}.runwayRanges", "GL:RunwayRange"),
        "temperatures": ("{0}.temperatures", "Temperatures"),
        "pressure": ("{0}.pressure", "MetarPressure"),
        "recent_weather": ("{0}.recentWeather", "RecentWeather"),
        "windshears": ("{0}.windshears", "GL:Windshear"),
        "sea_state": ("{0}.seaState", "SeaState"),
        "runway_state": ("{0}.runwayState", "RunwayState"),
        "weather_trends": ("{0}.weatherTrends", "GL:ChangePeriod"),
    },
    "Taf": {
        **REPORT, "weather_changes": ("{0}.weatherChanges", "str"),
        "missing": ("{0}.missing", "Missing"), "cancelled": ("{0}.cancelled", "Cancelled"),
        "valid": ("{0}.valid", "Valid"),
        "max_temperatures": ("{0}.maxTemperatures", "GL:TafTemperature"),
        "min_temperatures": ("{0}.minTemperatures", "GL:TafTemperature"),
        "changes_forecasted": ("{0}.changes", "GL:ChangeForecasted"),
    },
    "ReportType": fields("code type_"),
    "Modifier": fields("code description"),
    "Missing": {"code": ("{0}.mod.code", "ostr"), "description": ("{0}.mod.description", "ostr"),
                "is_missing": ("{0}.isMissing", "bool")},
    "Cancelled": {"code": ("{0}.code", "ostr"), "is_cancelled": ("{0}.isCancelled", "bool")},
    "Time": {"code": ("{0}.code", "ostr"),
             **{n: ("{0}.time." + n, "nat") for n in "year month day hour minute".split()}},
    "Valid": {"code": ("{0}.code", "ostr"), "duration": ("{0}.duration", "duration"),
              "period_from": ("{0}.from_", "Time"), "period_until": ("{0}.until_", "Time")},
    "Station": {"code": ("{0}.code", "ostr"), "country": ("({0}.country testDb)", "ostr"),
                **{n: ("({0}.row.map (·." + n + "))", "ostr")
                   for n in "name icao iata synop latitude longitude elevation".split()}},
    "MetarWind": {"code": ("{0}.code", "ostr"), **direction(("", "direction_"), "{0}.direction"),
                  "variable": ("{0}.direction.variable_", "bool"),
                  **floats("speed_", "{0}.speed", SPEED), **floats("gust_", "{0}.gust", SPEED)},
    "WindVariation": {"code": ("{0}.code", "ostr"),
                      **direction(("from_", "from_"), "{0}.from_"),
                      **direction(("to_", "to_"), "{0}.to")},
    "Prevailing": {"code": ("{0}.code", "ostr"), **floats("", "{0}.vis", DIST),
                   **direction(("", "direction_"), "{0}.direction"),
                   "cavok": ("{0}.cavok", "bool")},
    "Minimum": {"code": ("{0}.code", "ostr"), **floats("", "{0}.vis", DIST),
                **direction(("", "direction_"), "{0}.direction")},
    "RunwayRange": {"code": ("{0}.code", "ostr"), "name": ("{0}.name", "ostr"),
                    "trend": ("{0}.trend", "ostr"),
                    "low_range": ("(range2str {0}.low {0}.rvrLow)", "str"),
                    "high_range": ("(range2str {0}.high {0}.rvrHigh)", "str"),
                    **floats("low_", "{0}.low", DIST), **floats("high_", "{0}.high", DIST)},
    "Weather": fields("code intensity description precipitation obscuration other"),
    "RecentWeather": fields("code description precipitation obscuration other"),
    "Cloud": {"code": ("{0}.code", "ostr"), "cover": ("{0}.cover", "ostr"),
              "oktas": ("{0}.oktas", "ostr"), "cloud_type": ("{0}.type", "ostr"),
              **floats("height_", "{0}.height", DIST)},
    "Temperatures": {"code": ("{0}.code", "ostr"),
                     **floats("temperature_", "{0}.temperature", TEMP),
                     **floats("dewpoint_", "{0}.dewpoint", TEMP)},
    "MetarPressure": {"code": ("{0}.code", "ostr"),
                      **floats("", "{0}.value", "hPa inHg mbar bar atm")},
    "Windshear": {"code": ("{0}.code", "ostr"), "name": ("{0}.name", "ostr"),
                  "all_": ("{0}.all_", "bool")},
    "SeaState": {"code": ("{0}.code", "ostr"), "state": ("{0}.state", "ostr"),
                 **floats("temperature_", "{0}.temperature", TEMP),
                 "height_in_meters": ("{0}.height", "ofloat"),
                 "height_in_feet": ("(inFeet {0}.height)", "ofloat"),
                 "height_in_centimeters": ("{0}.inCentimeters", "ofloat"),
                 "height_in_decimeters": ("{0}.inDecimeters", "ofloat"),
                 "height_in_inches": ("{0}.inInches", "ofloat")},
    "RunwayState": {**fields("code name deposits contamination"),
                    "deposits_depth": ("{0}.depth", "ostr"),
                    "surface_friction": ("{0}.friction", "ostr"),
                    "snoclo": ("{0}.snoclo", "bool"), "clrd": ("{0}.clrd", "ostr")},
    "TafTemperature": {"code": ("{0}.code", "ostr"), **floats("", "{0}.value", TEMP),
                       "time": ("{0}.time", "Time")},
    "TrendIndicator": {"code": ("{0}.code", "ostr"), "translation": ("{0}.translation", "ostr"),
                       "period_from": ("{0}.from_", "Time"), "period_until": ("{0}.until_", "Time"),
                       "period_at": ("{0}.at_", "OptTime")},
    "TafIndicator": {"code": ("{0}.code", "ostr"), "translation": ("{0}.translation", "ostr"),
                     "valid": ("{0}.valid", "Valid")},
    "ChangePeriod": {"code": ("{0}.code", "ostr"), **core("{0}.core"),
                     "trend_indicator": ("{0}.indicator", "TrendIndicator"),
                     "change_indicator": ("{0}.indicator", "TrendIndicator")},
    "ChangeForecasted": {"code": ("{0}.code", "str"), **core("{0}.core"),
                         "change_indicator": ("{0}.indicator", "TafIndicator")},
}

STR = {
    "Missing": "{0}.mod.str", "Station": "({0}.str testDb)", "MetarPressure": "{0}.str",
    "ChangeForecasted": "{0}.str.1", "Prevailing": "{0}.str", "Minimum": "{0}.str",
    "GL:Windshear": "(windshearsStr {0})", "GL:ChangePeriod": "(trendsStr {0})",
    "GL:ChangeForecasted": "(changesStr {0}).1",
}
DICT = {
    "Station": "({0}.dict testDb)", "Time": "(PyVal.dict {0}.dict)",
    "Modifier": "(PyVal.dict {0}.dict)", "Prevailing": "{0}.dictPrev",
    "Minimum": "(PyVal.dict {0}.dictMin)", "ChangeForecasted": "{0}.dict.1",
    "ChangePeriod": "{0}.dict.1",
}
LEAF = {
    "ostr": "(.ofStr {0})", "str": "(.str {0})", "ofloat": "(.ofFloat {0})", "bool": "(.bool {0})",
    "nat": "(nats {0})", "strs": "(strs {0})", "ostrs": "(ostrs {0})", "val": "{0}",
}
EXC = {"IndexError": ".index", "RangeError": ".range", "ValueError": ".value"}


class Sym:
    """A model value: the report it comes from, the lookups made on the way (`ok src fun v => …`),
    the Lean expression and its class."""

    def __init__(self, root, binds, expr, cls):
        self.root, self.binds, self.expr, self.cls = root, binds, expr, cls

    def with_(self, expr, cls, binds=None):
        return Sym(self.root, self.binds if binds is None else binds, expr, cls)


class Obj:
    def __init__(self, **kw):
        self.__dict__.update(kw)


class Approx:
    def __init__(self, x, rel=1e-6):
        self.x, self.rel = x, rel


def lit(s):
    out = []
    for ch in s:
        if ch in '"\\':
            out.append("\\" + ch)
        elif ch == "\n":
            out.append("\\n")
        elif ch == "\t":
            out.append("\\t")
        else:
            out.append(ch)
    return 'py!"' + "".join(out) + '"' if s else "[]"


def value(x):
    """A Python constant as a `PyVal`."""
    if x is None:
        return ".none"
    if isinstance(x, bool):
        return ".bool " + ("true" if x else "false")
    if isinstance(x, str):
        return ".str " + lit(x)
    if isinstance(x, (int, float)):
        f = Fraction(x)
        n = f"({f.numerator})" if f < 0 else str(f.numerator)
        return f"num {n} {f.denominator}"
    if isinstance(x, (list, tuple)):
        return ".list [" + ", ".join(value(y) for y in x) + "]"
    if isinstance(x, dict):
        return ".dict [" + ", ".join(f"({lit(k)}, {value(v)})" for k, v in x.items()) + "]"
    raise SystemExit(f"value {x!r}")


def rat(x):
    f = Fraction(x)
    return f"(mkRat ({f.numerator}) {f.denominator})"


class Test:
    def __init__(self, name, env):
        self.name, self.env = name, dict(env)
        self.roots, self.count, self.nvar = [], 0, 0

    # expressions
    def ev(self, e):
        if isinstance(e, ast.Constant):
            return e.value
        if isinstance(e, ast.Name):
            return self.env[e.id]
        if isinstance(e, (ast.List, ast.Tuple)):
            return [self.ev(x) for x in e.elts]
        if isinstance(e, ast.Dict):
            return {self.ev(k): self.ev(v) for k, v in zip(e.keys, e.values)}
        if isinstance(e, ast.UnaryOp) and isinstance(e.op, ast.USub):
            return -self.ev(e.operand)
        if isinstance(e, ast.JoinedStr):
            assert all(isinstance(v, ast.Constant) for v in e.values)
            return "".join(v.value for v in e.values)
        if isinstance(e, ast.BinOp):
            l, r = self.ev(e.left), self.ev(e.right)
            if isinstance(l, Sym):
                assert l.cls == "seconds" and isinstance(e.op, ast.Div)
                return Sym(l.root, l.binds, f"({l.expr} / {r})", "seconds")
            assert isinstance(e.op, (ast.Add, ast.Mult))
            return l + r if isinstance(e.op, ast.Add) else l * r
        if isinstance(e, ast.Attribute):
            return self.attr(self.ev(e.value), e.attr)
        if isinstance(e, ast.Subscript):
            return self.item(self.ev(e.value), self.ev(e.slice))
        if isinstance(e, ast.Call):
            return self.call(e)
        raise SystemExit(f"{self.name}: expression {ast.dump(e)}")

    def attr(self, v, name):
        if isinstance(v, Obj):
            return getattr(v, name)
        assert isinstance(v, Sym), (self.name, v, name)
        if v.cls == "OptTime":
            n = self.var()
            return self.attr(v.with_(n, "Time", v.binds + [(n, f"(present {v.expr})")]), name)
        if v.cls.startswith("GL:"):
            item = v.cls[3:]
            if name == "codes":
                if CLASSES[item]["code"][1] == "str":
                    return v.with_(f"({v.expr}.list.map (·.code))", "strs")
                return v.with_(f"({v.expr}.list.map (·.code))", "ostrs")
            if name == "ceiling" and item == "Cloud":
                n = self.var()
                return v.with_(n, "bool", v.binds + [(n, f"(ceiling {v.expr}.list)")])
            if name == "all_runways":
                return v.with_(f"(allRunways {v.expr}.list)", "bool")
            if name == "names":
                return v.with_(f"(windshearNames {v.expr}.list)", "ostrs")
        if v.cls in CLASSES and name in CLASSES[v.cls]:
            t, c = CLASSES[v.cls][name]
            return v.with_(t.format(v.expr), c)
        raise SystemExit(f"{self.name}: {v.cls}.{name}")

    def var(self):
        self.nvar += 1
        return f"v{self.nvar}"

    def item(self, v, i):
        if not isinstance(v, Sym):
            return v[i]
        assert v.cls.startswith("GL:") and isinstance(i, int)
        n = self.var()
        return v.with_(n, v.cls[3:], v.binds + [(n, f"({v.expr}.getItem {i})")])

    def call(self, e):
        kw = {k.arg: self.ev(k.value) for k in e.keywords}
        if isinstance(e.func, ast.Attribute):
            if e.func.attr == "approx":
                return Approx(self.ev(e.args[0]), **kw)
            v = self.ev(e.func.value)
            args = [self.ev(a) for a in e.args]
            if isinstance(v, str) and e.func.attr == "format":
                return v.format(*args)
            assert not args and not kw
            if e.func.attr == "as_dict":
                return self.dict_of(v)
            if e.func.attr == "total_seconds":
                assert v.cls == "duration"
                return v.with_(f"(({v.expr} * 60 : Int) : Rat)", "seconds")
            if e.func.attr == "should_be_cavok":
                n = self.var()
                # the identity test of should_be_cavok.py 45 has either outcome
                r = [v.with_(m, "bool", v.binds + [(m, f"({v.expr}.core.shouldBeCavok {b}).1")])
                     for m, b in ((n + "a", "true"), (n + "b", "false"))]
                return r
            raise SystemExit(f"{self.name}: method {e.func.attr}")
        f = e.func.id
        args = [self.ev(a) for a in e.args]
        if f == "approx":
            return Approx(args[0], **kw)
        if f in ("Metar", "Taf"):
            self.roots.append((f, args[0], kw, []))
            return Sym(len(self.roots) - 1, [], "r", f)
        if f == "ToVerifyCavok":
            return Obj(code=args[0], should_be=args[1])
        if f == "range":
            return list(range(*args))
        if f == "zip":
            return [list(t) for t in zip(*args)]
        if f == "len":
            v = args[0]
            return len(v) if not isinstance(v, Sym) else v.with_(f"{v.expr}.list.length", "nat")
        if f == "str":
            v = args[0]
            if v.cls in STR:
                return v.with_(STR[v.cls].format(v.expr), "str")
            if v.cls.startswith("GL:"):
                t = STR.get(v.cls[3:], "{0}.str").format("x")
                return v.with_(f"({v.expr}.str fun x => {t})", "str")
            return v.with_(f"{v.expr}.str", "str")
        raise SystemExit(f"{self.name}: call {f}")

    def dict_of(self, v):
        if v.cls.startswith("GL:"):
            t = DICT.get(v.cls[3:], "{0}.dict").format("x")
            n = self.var()
            return v.with_(n, "val", v.binds + [(n, f"({v.expr}.asDict fun x => .ok ({t}))")])
        if v.cls in ("Metar", "Taf"):
            n = self.var()
            return v.with_(n, "val", v.binds + [(n, f"({v.expr}.dict testDb)")])
        return v.with_(DICT.get(v.cls, "{0}.dict").format(v.expr), "val")

    # statements
    def emit(self, v, check, binds=None):
        for n, src in reversed(v.binds if binds is None else binds):
            check = f"ok {src} fun {n} => {check}"
        self.roots[v.root][3].append(check)
        self.count += 1

    def compare(self, left, right):
        if isinstance(left, list):
            for x in left:
                self.compare(x, right)
            self.count -= len(left) - 1
            return
        assert isinstance(left, Sym), (self.name, left)
        if left.cls == "seconds":
            self.emit(left, f"decide ({left.expr} = {rat(right)})")
            return
        if left.cls == "OptTime":
            assert right is None
            self.emit(left, f"{left.expr}.isNone")
            return
        e = LEAF[left.cls].format(left.expr)
        if isinstance(right, Approx):
            assert left.cls == "ofloat"
            self.emit(left, f"approx {e} {rat(right.x)} {rat(right.rel)}")
        else:
            self.emit(left, f"same {e} ({value(right)})")

    def run(self, body):
        for s in body:
            if isinstance(s, ast.Assign) and isinstance(s.targets[0], ast.Name):
                self.env[s.targets[0].id] = self.ev(s.value)
            elif isinstance(s, ast.AnnAssign):
                self.env[s.target.id] = self.ev(s.value)
            elif isinstance(s, ast.Assert):
                t = s.test
                assert isinstance(t, ast.Compare) and isinstance(t.ops[0], ast.Eq)
                self.compare(self.ev(t.left), self.ev(t.comparators[0]))
            elif isinstance(s, ast.For):
                for x in self.ev(s.iter):
                    if isinstance(s.target, ast.Tuple):
                        for t, y in zip(s.target.elts, x):
                            self.env[t.id] = y
                    else:
                        self.env[s.target.id] = x
                    self.run(s.body)
            elif isinstance(s, ast.With):
                self.raising(s)
            elif isinstance(s, ast.Expr) and isinstance(s.value, ast.Constant):
                pass
            else:
                raise SystemExit(f"{self.name}: statement {ast.dump(s)[:200]}")

    def raising(self, s):
        call = s.items[0].context_expr
        exc = call.args[0].id
        assert len(s.body) == 1, self.name
        b = s.body[0]
        if isinstance(b, ast.Assert):
            e = b.test.left
        elif isinstance(b, ast.Assign):  # the object of the assigned attribute is looked up first
            e = b.targets[0].value
        else:
            e = b.value.left if isinstance(b.value, ast.Compare) else b.value
        if exc == "ParserError":
            n = len(self.roots)
            v = self.ev(e)
            while isinstance(v, Sym) and not (v.root >= n):
                raise SystemExit(self.name + ": ParserError")
            self.roots[v.root] = self.roots[v.root][:3] + ("parser",)
            self.count += 1
            return
        v = self.ev(e)
        assert isinstance(v, Sym) and v.binds, self.name
        self.emit(v, f"raises {v.binds[-1][1]} {EXC[exc]}", v.binds[:-1])


def render(test):
    out = []
    for kind, code, kw, checks in test.roots:
        args = []
        for k in ("year", "month"):
            args.append(f"some {kw[k]}" if kw.get(k) is not None else "none")
        args.append("true" if kw.get("truncate") else "false")
        assert set(kw) <= {"year", "month", "truncate"}, kw
        new = f"({kind}.new testDb testClock\n    {lit(code)}\n    ⟨{', '.join(args)}⟩)"
        if checks == "parser":
            out.append(f"example : raisesParser {new} = true := by decide +kernel\n")
            continue
        if not checks:
            checks = ["true"]
        body = " &&\n    ".join(f"({c})" for c in checks)
        out.append(f"example : ok {new} (fun r =>\n    {body}) = true := by decide +kernel\n")
    return out


def main():
    files = sorted(glob.glob(REPO + "/tests/*/test_*.py"))
    words, total, ntests, nreports = set(), 0, 0, 0
    for f in glob.glob(OUT + "/*.lean"):
        if os.path.basename(f) not in ("Check.lean",):
            os.remove(f)
    for f in files:
        text = open(f).read()
        words |= set(re.findall(r"\b[A-Z]{4}\b", text))
        tree, env, blocks = ast.parse(text), {}, []
        rel = os.path.relpath(f, REPO)
        top = Test(rel, env)
        for n in tree.body:
            if isinstance(n, (ast.Import, ast.ImportFrom)):
                continue
            if isinstance(n, (ast.Assign, ast.AnnAssign)):
                top.run([n])
                continue
            assert isinstance(n, ast.FunctionDef), ast.dump(n)[:100]
            t = Test(n.name, top.env)
            t.run(n.body)
            total += t.count
            ntests += 1
            nreports += len(t.roots)
            blocks.append(f"/-! `{n.name}` ({rel} {n.lineno}-{n.end_lineno}) -/\n")
            blocks += render(t)
        name = os.path.basename(os.path.dirname(f)).capitalize() + "".join(
            w.capitalize() for w in os.path.basename(f)[5:-3].split("_"))
        with open(os.path.join(OUT, name + ".lean"), "w") as o:
            o.write("import Verif.Tests.Database\n\n/-\n"
                    f"The assertions of {rel}, checked of the model. Generated by "
                    "tools/tests2lean.py.\n-/\n\nnamespace Verif.Tests\n\n")
            o.write("\n".join(blocks))
            o.write("\nend Verif.Tests\n")
    env = {}
    for part, name in (("stations", "STATIONS"), ("countries", "COUNTRIES")):
        tree = ast.parse(open(f"{REPO}/aeromet_py/database/{part}.py").read())
        for n in tree.body:
            if isinstance(n, (ast.Assign, ast.AnnAssign)):
                env[part] = ast.literal_eval(n.value)
    rows = [r for r in env["stations"] if r[1] in words]
    used = {r[7] for r in rows}
    with open(os.path.join(OUT, "Database.lean"), "w") as o:
        o.write("import Verif.Tests.Check\n\n/-\nThe rows of the stations and countries that the "
                "tests mention, in their order in\ndatabase/stations.py and database/countries.py."
                " Generated by tools/tests2lean.py.\n-/\n\nnamespace Verif.Tests\n\n"
                "def testDb : Database where\n  stations := [\n")
        o.write(",\n".join("    ⟨" + ", ".join(lit(c) for c in r) + "⟩" for r in rows))
        o.write("]\n  countries := [\n")
        o.write(",\n".join(f"    ({lit(k)}, {lit(v)})" for k, v in env["countries"].items()
                           if k in used))
        o.write("]\n\n/-- The tests that depend on the date give it as arguments. -/\n"
                "def testClock : Clock := fun _ => ⟨2024, 6⟩\n\nend Verif.Tests\n")
    print(f"{len(files)} files, {ntests} tests, {nreports} reports, {total} assertions")


if __name__ == "__main__":
    main()
