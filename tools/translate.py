#!/usr/bin/env python3
"""Translate the class descriptions of the game data into Lean.

Reads the Python files under simulator/game_data/class_skills as text (with `ast`; nothing is imported or
run) and writes one Lean file per job under lean/Verif/Model/GameData/.  Every method becomes one Lean
function over `Ama.GameData.PyVal`, statement by statement.  Anything the translator does not know makes
it stop with an error.

Usage: translate.py REPO OUTDIR
"""
import ast
import os
import sys

REPO, OUT = sys.argv[1], sys.argv[2]
BASE = os.path.join(REPO, "ama_xiv_combat_sim/simulator/game_data/class_skills")
JOBS = {
    "tank": ["drk", "gnb", "pld", "war"],
    "healer": ["ast", "sch", "sge", "whm"],
    "ranged": ["brd", "dnc", "mch"],
    "caster": ["blm", "pct", "rdm", "smn"],
    "melee": ["drg", "mnk", "nin", "rpr", "sam", "vpr"],
}
PATCH = {"6.55": ".p655", "7.0": ".p70", "7.01": ".p701", "7.05": ".p705", "7.1": ".p71"}
CMP = {ast.Lt: "lt", ast.LtE: "le", ast.Gt: "gt", ast.GtE: "ge", ast.Eq: "eq", ast.NotEq: "ne"}
LEVELCMP = {ast.Lt: "<", ast.LtE: "≤", ast.Gt: ">", ast.GtE: "≥", ast.Eq: "=", ast.NotEq: "≠"}
# constructor -> (Lean function, positional parameters)
CTORS = {
    "Skill": ("newSkill", ["name"]),
    "DamageSpec": ("newDamageSpec", ["potency"]),
    "TimingSpec": ("newTimingSpec", ["base_cast_time"]),
    "StatusEffectSpec": ("newStatusEffectSpec", []),
    "FollowUp": ("newFollowUp", ["skill", "delay_after_parent_application"]),
    "ComboSpec": ("newComboSpec", []),
    "JobResourceSpec": ("newJobResourceSpec", []),
    "JobResourceSettings": ("newJobResourceSettings", []),
    "ChannelingSpec": ("newChannelingSpec", []),
}
CONSTS = {
    "SimConsts.DEFAULT_CONDITION": ".str SimConsts.DEFAULT_CONDITION",
    "math.inf": ".inf",
    "np.inf": ".inf",
    "ForcedCritOrDH.FORCE_YES": ".forced .forceYes",
    "ForcedCritOrDH.FORCE_NO": ".forced .forceNo",
    "DamageClass.PET": ".damageClass .pet",
    "DamageClass.AUTO": ".damageClass .auto",
    "DamageClass.PHYSICAL_DOT": ".damageClass .physicalDot",
    "DamageClass.MAGICAL_DOT": ".damageClass .magicalDot",
    "GameConsts.DAMAGE_SNAPSHOT_TIME_BEFORE_CAST_FINISHES": ".int 500",
}
CLASSATTR = {
    "auto_timing_spec": "autoTimingSpec",
    "instant_timing_spec": "instantTimingSpec",
    "shot_timing_spec": "shotTimingSpec",
}
KEYWORDS = {
    "end", "at", "from", "show", "open", "in", "do", "then", "else", "if", "let", "have", "fun", "by", "mut",
    "return", "for", "where", "with", "match", "section", "namespace", "variable", "prefix", "infix", "local",
    "private", "instance", "class", "structure", "deriving", "import", "set_option", "attribute", "meta",
    "def", "theorem", "example", "axiom", "abbrev", "opaque", "universe", "macro", "syntax", "notation",
    "partial", "unsafe", "extends", "nomatch", "unless", "try", "catch", "finally", "break", "continue",
}


def fail(node, why="unsupported"):
    raise SystemExit(f"{why}: line {getattr(node, 'lineno', '?')}: {ast.unparse(node)[:200]}")


def ident(s):
    s = s.lstrip("_")
    return f"«{s}»" if s in KEYWORDS else s


def lstr(s):
    assert '"' not in s and "\\" not in s and "\n" not in s
    return f'"{s}"'


def ratio(text):
    """The exact value of a decimal literal."""
    text = text.replace("_", "")
    assert "e" not in text.lower(), text
    whole, frac = text.split(".")
    num, den = int((whole or "0") + frac), 10 ** len(frac)
    return f"({num} / {den})" if den != 1 else str(num)


class Ctx:
    def __init__(self, cls, src, table, methods, attrs, consts):
        self.cls, self.src, self.table = cls, src, table
        self.methods, self.attrs, self.consts = methods, attrs, consts
        self.locals = set()


def par(s):
    """An atomic term, or a parenthesised one."""
    if s.startswith("(") and s.endswith(")"):
        depth = 0
        for i, ch in enumerate(s):
            depth += ch == "("
            depth -= ch == ")"
            if depth == 0:
                if i == len(s) - 1:
                    return s
                break
    return s if all(c.isalnum() or c in "_«»" for c in s) else f"({s})"


def cond(c, n):
    """A Lean Bool/Prop (inside `do`) for a Python condition."""
    if isinstance(n, ast.BoolOp):
        op = {ast.Or: " || ", ast.And: " && "}[type(n.op)]
        return "(" + op.join(cond(c, v) for v in n.values) + ")"
    if isinstance(n, ast.Compare):
        if len(n.ops) != 1:
            fail(n)
        left, op, right = n.left, n.ops[0], n.comparators[0]
        src = ast.unparse(left)
        if src == "self._version":
            return f"env.{CMP[type(op)]} {PATCH[right.value]}"
        if src == "self._level":
            return f"decide (env.level {LEVELCMP[type(op)]} {right.value})"
        if isinstance(op, ast.Eq):
            return f"PyVal.keyEq {expr(c, left)} {expr(c, right)}"
        fail(n)
    if isinstance(n, ast.Name):
        return f"(← truthy {expr(c, n)})"
    fail(n)


def args(c, n, positional):
    out = []
    for p, a in zip(positional, n.args):
        out.append((p, expr(c, a)))
    if len(n.args) > len(positional):
        fail(n)
    for k in n.keywords:
        if k.arg is None:
            fail(n)
        out.append((k.arg, expr(c, k.value)))
    return out


def act(s):
    return f"(← {s})"


def expr(c, n):
    """A Lean term of type PyVal, possibly containing `(← ...)`."""
    if isinstance(n, ast.Constant):
        v = n.value
        if v is None:
            return ".none"
        if v is True:
            return "(.bool true)"
        if v is False:
            return "(.bool false)"
        if isinstance(v, int):
            return f"(.int {v})"
        if isinstance(v, float):
            return f"(.float {ratio(ast.get_source_segment(c.src, n))})"
        if isinstance(v, str):
            return f"(.str {lstr(v)})"
        fail(n)
    if isinstance(n, ast.Name):
        if n.id in c.locals:
            return ident(n.id)
        fail(n, "unknown name")
    if isinstance(n, ast.Tuple):
        return seq("(.tuple [", [expr(c, e) for e in n.elts], "])")
    if isinstance(n, ast.List):
        return seq("(.list [", [expr(c, e) for e in n.elts], "])")
    if isinstance(n, ast.Dict):
        items = []
        for k, v in zip(n.keys, n.values):
            if k is None:
                fail(n)
            items.append(f"({expr(c, k)}, {expr(c, v)})")
        return seq("(mkDict [", items, "])")
    if isinstance(n, ast.UnaryOp):
        f = {ast.USub: "PyVal.neg", ast.UAdd: "PyVal.pos"}[type(n.op)]
        return act(f"{f} {expr(c, n.operand)}")
    if isinstance(n, ast.BinOp):
        f = {ast.Add: "PyVal.add", ast.Sub: "PyVal.sub", ast.Mult: "PyVal.mul", ast.Div: "PyVal.div",
             ast.BitOr: "PyVal.union"}[type(n.op)]
        return act(f"{f} {expr(c, n.left)} {expr(c, n.right)}")
    if isinstance(n, ast.IfExp):
        branches = []
        for b in (n.body, n.orelse):
            t = expr(c, b)
            branches.append(f"(do return {shift(t, 2)})" if "←" in t else f"(.ok {shift(t, 2)})")
        line = f"(← ifExp ({cond(c, n.test)}) {branches[0]} {branches[1]})"
        if "\n" not in line and len(line) < 90:
            return line
        return f"(← ifExp ({cond(c, n.test)})\n  {shift(branches[0], 2)}\n  {shift(branches[1], 2)})"
    if isinstance(n, ast.Subscript):
        return act(f"PyVal.getItem {expr(c, n.value)} {expr(c, n.slice)}")
    if isinstance(n, ast.JoinedStr):
        parts = []
        for v in n.values:
            if isinstance(v, ast.Constant):
                parts.append(f"(.str {lstr(v.value)})")
            else:
                if v.conversion != -1 or v.format_spec is not None:
                    fail(n)
                parts.append(expr(c, v.value))
        return act("PyVal.fstring [" + ", ".join(parts) + "]")
    if isinstance(n, ast.Attribute):
        s = ast.unparse(n)
        if s in CONSTS:
            return f"({CONSTS[s]})"
        if isinstance(n.value, ast.Name) and n.value.id == "self":
            if n.attr in CLASSATTR:
                return act(CLASSATTR[n.attr])
            if n.attr in c.attrs:
                return act(f"attr_{ident(n.attr)} env")
            if n.attr in c.consts:
                return f"const_{ident(n.attr)}"
        fail(n)
    if isinstance(n, ast.Call):
        return call(c, n)
    fail(n)


def call(c, n):
    f = ast.unparse(n.func)
    if f in CTORS:
        fn, pos = CTORS[f]
        fields = args(c, n, pos)
        return record(fn, fields)
    data = {"get_skill_data": "getSkillData", "get_potency": "getPotency",
            "get_potency_no_combo": "getPotencyNoCombo", "get_potency_no_positional": "getPotencyNoPositional"}
    for obj in ("self._skill_data", c.table):
        for m, lf in data.items():
            if f == f"{obj}.{m}":
                names = ["skill_name", "param_name"]
                a = dict(args(c, n, names))
                return act(f"{lf} table env " + " ".join(par(a[k]) for k in names if k in a))
    if f == "int" and len(n.args) == 1:
        return act(f"PyVal.toInt {expr(c, n.args[0])}")
    if f in ("max", "min") and len(n.args) == 2:
        return act(f"PyVal.{f} {expr(c, n.args[0])} {expr(c, n.args[1])}")
    if f == "tuple":
        if not n.args:
            return "(.tuple [])"
        return act(f"PyVal.toTuple {expr(c, n.args[0])}")
    if f == "range":
        a = [expr(c, x) for x in n.args]
        if len(a) == 1:
            a = ["(.int 0)"] + a
        if len(a) == 2:
            a = a + ["(.int 1)"]
        return act("PyVal.range " + " ".join(a))
    if isinstance(n.func, ast.Attribute) and n.func.attr in ("keys", "items") and not n.args:
        return act(f"PyVal.{n.func.attr} {expr(c, n.func.value)}")
    if isinstance(n.func, ast.Attribute) and isinstance(n.func.value, ast.Name) and n.func.value.id == "self":
        m = c.methods.get(n.func.attr)
        if m is None:
            fail(n, "unknown method")
        params = [a.arg for a in m.args.args[1:]]
        given = dict(args(c, n, params))
        defaults = dict(zip(params[len(params) - len(m.args.defaults):], m.args.defaults))
        terms = []
        for p in params:
            if p in given:
                terms.append(par(given.pop(p)))
            elif p in defaults:
                terms.append(par(expr(c, defaults[p])))
            else:
                fail(n, "missing argument")
        if given:
            fail(n, "extra argument")
        return act(" ".join([ident(n.func.attr), "env"] + terms))
    fail(n, "unknown call")


def assigned(body, depth=0):
    """(name, depth) of every assignment to a local variable, in order."""
    out = []
    for s in body:
        if isinstance(s, ast.Assign):
            for t in s.targets:
                if isinstance(t, ast.Name):
                    out.append((t.id, depth))
                elif isinstance(t, ast.Subscript):
                    while isinstance(t, ast.Subscript):
                        t = t.value
                    out.append((t.id, depth + 1))
                else:
                    fail(s)
        elif isinstance(s, ast.AugAssign):
            out.append((s.target.id, depth + 1))
        elif isinstance(s, ast.Expr) and isinstance(s.value, ast.Call) and \
                isinstance(s.value.func, ast.Attribute) and s.value.func.attr == "append":
            out.append((s.value.func.value.id, depth + 1))
        elif isinstance(s, ast.If):
            out += assigned(s.body, depth + 1) + assigned(s.orelse, depth + 1)
        elif isinstance(s, ast.For):
            out += assigned(s.body, depth + 1) + assigned(s.orelse, depth + 1)
    return out


def shift(text, ind):
    """Indent all lines after the first."""
    return text.replace("\n", "\n" + " " * ind)


def seq(open_, items, close, limit=90):
    """A bracketed sequence, on one line if it is short, else one item per line."""
    line = open_ + ", ".join(items) + close
    if "\n" not in line and len(line) <= limit:
        return line
    if "\n" not in line and all(i.startswith("(.str ") for i in items):
        lines, cur = [], ""
        for k, i in enumerate(items):
            i += "," if k + 1 < len(items) else ""
            if cur and len(cur) + 1 + len(i) > limit:
                lines.append(cur)
                cur = i
            else:
                cur = (cur + " " + i) if cur else i
        lines.append(cur)
        return open_ + "\n  " + "\n  ".join(lines) + close
    return open_ + "\n  " + ",\n  ".join(shift(i, 2) for i in items) + close


def record(fn, fields):
    line = f"(← {fn} {{ " + ", ".join(f"{k} := {v}" for k, v in fields) + " })"
    if not fields:
        return f"(← {fn} {{}})"
    if "\n" not in line and len(line) <= 90:
        return line
    return f"(← {fn} {{\n  " + "\n  ".join(f"{k} := {shift(v, 2)}" for k, v in fields) + " })"


class Fn:
    def __init__(self, c, mutable):
        self.c, self.mutable, self.out = c, mutable, []

    def emit(self, ind, text):
        self.out.append(" " * ind + shift(text, ind))

    def block(self, body, ind):
        for s in body:
            self.stmt(s, ind)

    def bind(self, name, term, ind):
        self.c.locals.add(name)
        v = ident(name)
        if name in self.mutable:
            self.emit(ind, f"{v} := {term}")
        else:
            self.emit(ind, f"let {v} : PyVal := {term}")

    def stmt(self, s, ind):
        c = self.c
        if isinstance(s, ast.Return):
            self.emit(ind, f"return {expr(c, s.value) if s.value is not None else '.none'}")
        elif isinstance(s, ast.Assign) and len(s.targets) == 1:
            t = s.targets[0]
            if isinstance(t, ast.Name):
                self.bind(t.id, expr(c, s.value), ind)
            elif isinstance(t, ast.Subscript):
                term = expr(c, s.value)
                while isinstance(t, ast.Subscript):
                    term = f"(← PyVal.setItem {expr(c, t.value)} {expr(c, t.slice)} {term})"
                    t = t.value
                self.emit(ind, f"{ident(t.id)} := {term}")
            else:
                fail(s)
        elif isinstance(s, ast.Expr) and isinstance(s.value, ast.Call) and \
                isinstance(s.value.func, ast.Attribute) and s.value.func.attr == "append":
            v = ident(s.value.func.value.id)
            self.emit(ind, f"{v} := (← PyVal.append {v} {expr(c, s.value.args[0])})")
        elif isinstance(s, ast.If):
            self.emit(ind, f"if {cond(c, s.test)} then")
            self.block(s.body, ind + 2)
            if s.orelse:
                self.emit(ind, "else")
                self.block(s.orelse, ind + 2)
        elif isinstance(s, ast.For):
            if s.orelse:
                fail(s)
            it = expr(c, s.iter)
            if isinstance(s.target, ast.Name):
                c.locals.add(s.target.id)
                self.emit(ind, f"for {ident(s.target.id)} in (← PyVal.iter {it}) do")
            else:
                self.emit(ind, f"for item in (← PyVal.iter {it}) do")
                for i, e in enumerate(s.target.elts):
                    c.locals.add(e.id)
                    self.emit(ind + 2, f"let {ident(e.id)} : PyVal := (← PyVal.getItem item (.int {i}))")
            self.block(s.body, ind + 2)
        else:
            fail(s)


def function(c, rel, f, name):
    params = [a.arg for a in f.args.args[1:]]
    c.locals = set(params)
    asg = assigned(f.body)
    names = [n for n, _ in asg]
    mutable = {n for n, d in asg if d > 0 or names.count(n) > 1}
    if mutable & set(params):
        fail(f, "assigned parameter")
    fn = Fn(c, mutable)
    first = (f.decorator_list[0].lineno if f.decorator_list else f.lineno)
    sig = "".join(f" ({ident(p)} : PyVal)" for p in params)
    out = [f"/-- {rel}:{first}-{f.end_lineno} `{f.name}` -/",
           f"def {name} (env : Env){sig} : Py PyVal := do"]
    for v in dict.fromkeys(n for n in names if n in mutable):
        c.locals.add(v)
        out.append(f"  let mut {ident(v)} : PyVal := .unbound")
    fn.block(f.body, 2)
    if not isinstance(f.body[-1], ast.Return):
        fn.emit(2, "return .none")
    text = "\n".join(out + fn.out)
    if "env" not in text.split(":= do", 1)[1]:
        text = text.replace("(env : Env)", "(_env : Env)", 1)
    return text


def dataval(src, n):
    """A table entry: a Lean term of type Py PyVal."""
    c = Ctx(None, src, "", {}, {}, {})
    t = expr(c, n)
    return f"do return {t}" if "←" in t else f".ok {t}"


def table(rel, src, tree, job):
    asg = [s for s in tree.body if isinstance(s, ast.Assign) and s.targets[0].id == "ALL_DATA"][0]
    out = []
    chunks, names = [], []
    seen = set()
    for k, v in zip(asg.value.keys, asg.value.values):
        if k.value in seen:
            fail(k, "duplicate key")
        seen.add(k.value)
        lv, ls = [], set()
        for lk, lval in zip(v.keys, v.values):
            if lk.value in ls:
                fail(lk, "duplicate key")
            ls.add(lk.value)
            ps, pseen = [], set()
            for pk, pval in zip(lval.keys, lval.values):
                if pk.value in pseen:
                    fail(pk, "duplicate key")
                pseen.add(pk.value)
                vs, vseen = [], set()
                for vk, vval in zip(pval.keys, pval.values):
                    if vk.value in vseen:
                        fail(vk, "duplicate key")
                    vseen.add(vk.value)
                    vs.append(f"({PATCH[vk.value]}, {dataval(src, vval)})")
                ps.append(seq(f"({lstr(pk.value)}, [", vs, "])"))
            lv.append(seq(f"({lk.value}, [", ps, "])"))
        chunks.append(seq(f"({lstr(k.value)}, [", lv, "])"))
    out.append(f"/-- {rel}:{asg.lineno}-{asg.end_lineno} `ALL_DATA` -/")
    out.append("def table : Table := [")
    for i, t in enumerate(chunks):
        out.append("  " + shift(t, 2) + ("," if i + 1 < len(chunks) else "]"))
    return "\n".join(out)


def mangled(cls, name):
    return f"_{cls}{name}" if name.startswith("__") and not name.endswith("__") else name


def job(role, j):
    rel = f"class_skills/{role}/{j}.py"
    reld = f"class_skills/{role}/{j}_data.py"
    src = open(os.path.join(BASE, role, j + ".py")).read()
    srcd = open(os.path.join(BASE, role, j + "_data.py")).read()
    tree, treed = ast.parse(src), ast.parse(srcd)
    cls = [s for s in tree.body if isinstance(s, ast.ClassDef)]
    assert len(cls) == 1
    cls = cls[0]
    methods, consts = {}, {}
    for s in cls.body:
        if isinstance(s, ast.FunctionDef):
            if s.name in methods:
                fail(s, "method defined twice")
            methods[s.name] = s
        elif isinstance(s, ast.Assign):
            consts[s.targets[0].id] = s
        elif isinstance(s, ast.Expr) and isinstance(s.value, ast.Constant):
            pass
        else:
            fail(s)
    init = methods.pop("__init__")
    attrs = {}
    jobname = None
    for s in init.body:
        if isinstance(s, ast.Expr):
            assert ast.unparse(s) == f"super().__init__(version=version, level=level, skill_data=all_{j}_skills)", \
                ast.unparse(s)
        elif isinstance(s, ast.Assign) and ast.unparse(s.targets[0]) == "self._job_class":
            jobname = s.value.value
        elif isinstance(s, ast.Assign) and isinstance(s.targets[0], ast.Attribute):
            attrs[s.targets[0].attr] = s
        else:
            fail(s)
    ns = j.capitalize()
    c = Ctx(cls.name, src, f"all_{j}_skills", methods, attrs, consts)
    defs = {}  # lean name -> (text, dependencies)
    leannames = {}
    for m in methods:
        l = ident(m)
        if l in leannames:
            raise SystemExit(f"name clash {m}")
        leannames[l] = m

    def deps(node):
        d = []
        for x in ast.walk(node):
            if isinstance(x, ast.Attribute) and isinstance(x.value, ast.Name) and x.value.id == "self":
                d.append(x.attr)
        return d
    order, state = [], {}

    def visit(a):
        if a in state:
            if state[a] == 1:
                raise SystemExit(f"recursion through {a}")
            return
        state[a] = 1
        node = methods.get(a) or attrs.get(a) or consts.get(a)
        if node is not None:
            for d in deps(node.value if isinstance(node, ast.Assign) else node):
                visit(d)
        state[a] = 2
        if node is not None:
            order.append(a)
    for a in list(consts) + list(attrs) + list(methods):
        visit(a)
    out = [f"import Verif.Model.GameData.Values", "",
           "/-!", f"# {jobname}", "",
           f"Model of `simulator/game_data/{rel}` and `simulator/game_data/{reld}`, written by",
           "`tools/translate.py`: one function per method.  Paths in the comments are relative to",
           "`simulator/game_data`.", "-/", "",
           f"namespace Ama.GameData.{ns}", "", "open PyVal", "", table(reld, srcd, treed, j), ""]
    for a in order:
        if a in consts:
            s = consts[a]
            c.locals = set()
            out += [f"/-- {rel}:{s.lineno} -/", f"def const_{ident(a)} : PyVal := {expr(c, s.value)}", ""]
        elif a in attrs:
            s = attrs[a]
            c.locals = set()
            body = ["  return " + shift(expr(c, s.value), 2)]
            uses = "env" in body[0]
            out += [f"/-- {rel}:{s.lineno}-{s.end_lineno} `{a}`, set by the constructor -/",
                    f"def attr_{ident(a)} ({'env' if uses else '_env'} : Env) : Py PyVal := do"] + body + [""]
        else:
            out += [function(c, rel, methods[a], ident(a)), ""]
    skills, resources = [], []
    for m, f in methods.items():
        for d in f.decorator_list:
            t = ast.unparse(d)
            if t == "GenericJobClass.is_a_skill":
                skills.append(m)
            elif t == "GenericJobClass.is_a_resource":
                resources.append(m)
            else:
                fail(d)
    def nullary(m):
        """The call of a method without arguments."""
        c.locals = set()
        f = methods[m]
        assert len(f.args.defaults) == len(f.args.args) - 1
        return " ".join([ident(m), "env"] + [par(expr(c, d)) for d in f.args.defaults])

    skills.sort(key=lambda m: mangled(cls.name, m))
    resources.sort(key=lambda m: mangled(cls.name, m))
    out += [f"/-- {rel}:{cls.lineno}-{cls.end_lineno} `{cls.name}`; the methods in the order of `dir`. -/",
            "def job (env : Env) : JobClass where",
            f'  jobClass := "{jobname}"']
    if attrs:
        out += ["  init := do"]
        for a in attrs:
            out.append(f"    let _ ← attr_{ident(a)} env")
    if "get_status_effect_priority" in methods:
        out.append("  priority := get_status_effect_priority env")
    if "get_combo_breakers" in methods:
        out.append("  comboBreakers := get_combo_breakers env")
    out += ["  skillMethods := [\n    " + ",\n    ".join(nullary(m) for m in skills) + "]"]
    if resources:
        out += ["  resourceMethods := [" + ", ".join(f"{ident(m)} env" for m in resources) + "]"]
    out += ["", f"end Ama.GameData.{ns}", ""]
    with open(os.path.join(OUT, ns + ".lean"), "w") as fh:
        fh.write("\n".join(out))
    return len(methods), len(skills)


if __name__ == "__main__":
    for role, js in JOBS.items():
        for j in js:
            try:
                print(j, *job(role, j))
            except SystemExit as e:
                print(f"{j}: {e}")
                raise
