#!/usr/bin/env python3
"""Run the expectations of the repository's unit tests against the Lean model.

The test files are read as text (with `ast`); nothing in the repository is imported or run.  The expectations
(rotations and the timelines, damage instances and damages they must give) are written to a JSON file, the
library of the tests (`create_test_skill_library`) is translated to Lean, and a Lean program compares the
model with the expectations.  These are tests of the model's fidelity, not proofs.

Usage: conformance.py REPO LEANDIR WORKDIR
"""
import ast
import json
import os
import subprocess
import sys
from fractions import Fraction

REPO, LEAN, WORK = sys.argv[1], sys.argv[2], sys.argv[3]
SIM = os.path.join(REPO, "ama_xiv_combat_sim/simulator")


class Obj:
    def __init__(self, name, args, kw):
        self.name, self.args, self.kw = name, args, kw
        self.ops = []

    def __repr__(self):
        return f"{self.name}{self.args}{self.kw}"


class Unknown(Exception):
    pass


CONSTS = {
    "SimConsts.DEFAULT_TARGET": "Default Target",
    "SimConsts.DEFAULT_CONDITION": "",
    "SimConsts.COMBO_FAIL": "No Combo",
    "SimConsts.COMBO_SUCCESS": "",
    "SimConsts.COMBO_EXPIRATION_TIME": 30000,
    "GameConsts.COMBO_EXPIRATION_TIME": 30000,
    "ForcedCritOrDH.FORCE_YES": ("forced", "yes"),
    "ForcedCritOrDH.FORCE_NO": ("forced", "no"),
    "ForcedCritOrDH.DEFAULT": ("forced", "default"),
    "DamageClass.PET": ("class", "pet"),
    "DamageClass.AUTO": ("class", "auto"),
    "DamageClass.PHYSICAL_DOT": ("class", "physicalDot"),
    "DamageClass.MAGICAL_DOT": ("class", "magicalDot"),
    "DamageClass.DIRECT": ("class", "direct"),
    "math.inf": ("inf",),
    "GameConsts.MULTI_TARGET_DELAY_PER_TARGET": 135,
}
CTORS = {
    "Stats", "SkillModifier", "RotationBuilder", "DamageBuilder", "DamageSimulator", "StatusEffects", "Skill",
    "DamageSpec", "TimingSpec", "StatusEffectSpec", "FollowUp", "ComboSpec", "JobResourceSpec",
    "JobResourceSettings", "ChannelingSpec", "SkillLibrary", "SnapshotAndApplicationEvents",
    "SnapshotAndApplicationEvents.EventTimes", "JobClassTesterUtil", "create_skill_library",
    "create_test_skill_library",
}
BIN = {
    ast.Add: lambda a, b: a + b, ast.Sub: lambda a, b: a - b, ast.Mult: lambda a, b: a * b,
    ast.Div: lambda a, b: a / b,
}


class Interp:
    """Evaluates the straight-line code of a test, keeping calls to the simulator as data."""

    def __init__(self, cls_env):
        self.env = {}
        self.cls = cls_env
        self.cases = []

    def ev(self, n):
        if isinstance(n, ast.Constant):
            return n.value
        if isinstance(n, ast.Tuple):
            return tuple(self.ev(x) for x in n.elts)
        if isinstance(n, ast.List):
            return [self.ev(x) for x in n.elts]
        if isinstance(n, ast.Dict):
            return {self.ev(k): self.ev(v) for k, v in zip(n.keys, n.values)}
        if isinstance(n, ast.Name):
            if n.id in self.env:
                return self.env[n.id]
            raise Unknown(n.id)
        if isinstance(n, ast.UnaryOp) and isinstance(n.op, ast.USub):
            return -self.ev(n.operand)
        if isinstance(n, ast.BinOp) and type(n.op) in BIN:
            return BIN[type(n.op)](self.ev(n.left), self.ev(n.right))
        if isinstance(n, ast.Subscript) and isinstance(n.slice, ast.Constant):
            return self.ev(n.value)[n.slice.value]
        if isinstance(n, ast.Attribute):
            u = ast.unparse(n)
            if u in CONSTS:
                return CONSTS[u]
            if isinstance(n.value, ast.Name) and n.value.id == "self":
                if n.attr in self.cls:
                    return self.cls[n.attr]
                raise Unknown(u)
            v = self.ev(n.value)
            if isinstance(v, Obj) and n.attr in v.kw:
                return v.kw[n.attr]
            raise Unknown(u)
        if isinstance(n, ast.Call):
            return self.call(n)
        if isinstance(n, ast.ListComp):
            return self.comp(n)
        raise Unknown(ast.unparse(n))

    def comp(self, n):
        g = n.generators[0]
        src = g.iter
        text = ast.unparse(n)
        if isinstance(src, ast.Call) and ast.unparse(src.func) == "range":
            name = ast.unparse(n.elt).split("[")[0]
            v = self.env[name]
        else:
            v = self.ev(src)
        if not (isinstance(v, Obj) and isinstance(n.elt, ast.Subscript)):
            raise Unknown(text)
        sl = n.elt.slice
        return Obj("slice", [v, ast.unparse(sl)], {})

    def call(self, n):
        f = ast.unparse(n.func)
        if f == "range":
            return range(*[self.ev(a) for a in n.args])
        if f == "tuple" and isinstance(n.args[0], ast.GeneratorExp):
            if ast.unparse(n.args[0].elt) == "per_skill_damage[i].expected_damage":
                return Obj("expected_damages", [self.env["per_skill_damage"]], {})
        if f == "set":
            return set(self.ev(n.args[0]))
        if f in ("frozenset", "tuple", "list"):
            return Obj("frozenset", [self.ev(n.args[0])], {}) if f == "frozenset" else self.ev(n.args[0])
        args = [self.ev(a) for a in n.args]
        kw = {k.arg: self.ev(k.value) for k in n.keywords}
        if f in CTORS:
            return Obj(f, args, kw)
        if f == "Utils.transform_time_to_prio":
            return int(args[0] * 1000)
        if f.endswith("__extract_rb_q_info"):
            return Obj("info", args, kw)
        if isinstance(n.func, ast.Attribute):
            if isinstance(n.func.value, ast.Name) and n.func.value.id == "self":
                if n.func.attr in ("_compare_sequential", "_compare_sets"):
                    self.cases.append((n.func.attr, args, kw))
                    return (True, "")
                raise Unknown(f)
            recv = self.ev(n.func.value)
            if isinstance(recv, Obj):
                m = n.func.attr
                if recv.name == "JobClassTesterUtil":
                    self.cases.append((m, args, kw))
                    return (True, "")
                if recv.name in ("RotationBuilder", "SnapshotAndApplicationEvents", "SkillLibrary") and m in (
                        "add", "add_next", "set_enable_autos", "set_ignore_trailing_dots", "add_skill",
                        "set_current_job_class", "add_resource", "set_status_effect_priority"):
                    recv.ops.append((m, args, kw))
                    return None
                if m == "get_stats":
                    return recv.args[0]
                if m == "get_skill_timing":
                    recv.ops.append(("timing", [], {}))
                    r = Obj("timeline", [recv, len(recv.ops)], {})
                    return r
                return Obj("." + m, [recv] + args, kw)
        raise Unknown(f)

    def run(self, body):
        for s in body:
            if isinstance(s, ast.Assign):
                v = self.ev(s.value)
                t = s.targets[0]
                if isinstance(t, ast.Name):
                    self.env[t.id] = v
                elif isinstance(t, ast.Tuple):
                    for x, y in zip(t.elts, v):
                        self.env[x.id] = y
                elif isinstance(t, ast.Subscript):
                    self.ev(t.value)[self.ev(t.slice)] = v
                elif isinstance(t, ast.Attribute):
                    self.cls[t.attr] = v
                else:
                    raise Unknown(ast.unparse(s))
            elif isinstance(s, ast.Expr):
                if isinstance(s.value, ast.Constant):
                    continue
                if ast.unparse(s.value).startswith("super()"):
                    continue
                self.ev(s.value)
            elif isinstance(s, ast.For):
                for x in self.ev(s.iter):
                    if isinstance(s.target, ast.Name):
                        self.env[s.target.id] = x
                    else:
                        for t, y in zip(s.target.elts, x):
                            self.env[t.id] = y
                    self.run(s.body)
            elif isinstance(s, ast.Return):
                try:
                    self.ev(s.value)
                except Unknown:
                    if not any(isinstance(x, ast.BoolOp) for x in ast.walk(s.value)):
                        raise
            else:
                raise Unknown(ast.unparse(s)[:80])


# ---- JSON ---------------------------------------------------------------------------------------

def num(x):
    if x is None:
        return None
    if isinstance(x, bool):
        raise Unknown(f"number {x}")
    f = Fraction(repr(x)) if isinstance(x, float) else Fraction(x)
    return f"{f.numerator}/{f.denominator}"


def forced(x):
    assert x[0] == "forced"
    return x[1]


def modifier(o):
    if o is None:
        return None
    names = ["with_condition", "guaranteed_crit", "guaranteed_dh", "force_combo", "ignore_cast_times",
             "ignore_application_delay", "bonus_percent"]
    d = dict(zip(names, o.args))
    d.update(o.kw)
    assert set(d) <= set(names), d
    return {
        "cond": d.get("with_condition", ""),
        "crit": forced(d.get("guaranteed_crit", ("forced", "default"))),
        "dh": forced(d.get("guaranteed_dh", ("forced", "default"))),
        "combo": d.get("force_combo", False),
        "noCast": d.get("ignore_cast_times", False),
        "noDelay": d.get("ignore_application_delay", False),
        "bonus": num(d.get("bonus_percent")),
    }


def stats(o):
    names = ["wd", "weapon_delay", "main_stat", "det_stat", "crit_stat", "dh_stat", "speed_stat"]
    d = dict(o.kw)
    assert not o.args, o
    res = {}
    for k, v in d.items():
        res[k] = v if k in ("job_class", "version") else (v if k == "level" else num(v))
    return res


def library(o):
    if o.name == "create_test_skill_library":
        return {"test": True}
    d = dict(zip(["version", "level"], o.args))
    d.update(o.kw)
    return {"test": False, "version": d["version"], "level": d["level"]}


def window(w):
    return {"start": num(w[0]), "stop": num(w[1]), "cls": w[2][1] if len(w) > 2 else None}


def builder(o, upto=None):
    names = ["stats", "skill_library", "snap_dots_to_server_tick_starting_at", "enable_autos",
             "ignore_trailing_dots", "fight_start_time", "downtime_windows", "default_target"]
    d = dict(zip(names, o.args))
    d.update(o.kw)
    assert set(d) <= set(names), d
    dt = d.get("downtime_windows", ())
    if isinstance(dt, dict):
        dt = {"dict": [[k, [window(w) for w in v]] for k, v in dt.items()]}
    else:
        dt = {"tuple": [window(w) for w in dt]}
    ops = []
    for m, a, k in o.ops[:upto]:
        if m == "add":
            e = dict(zip(["t", "skill_name", "skill_modifier", "job_class", "targets"], a))
            e.update(k)
            assert set(e) <= {"t", "skill_name", "skill_modifier", "job_class", "targets"}, e
            ops.append({"op": "add", "t": num(e["t"]), "name": e["skill_name"],
                        "mod": modifier(e.get("skill_modifier")), "job": e.get("job_class"),
                        "targets": e.get("targets")})
        elif m == "add_next":
            e = dict(zip(["skill_name", "skill_modifier", "job_class", "num_times", "targets"], a))
            e.update(k)
            assert set(e) <= {"skill_name", "skill_modifier", "job_class", "num_times", "targets"}, e
            ops.append({"op": "addNext", "name": e["skill_name"], "mod": modifier(e.get("skill_modifier")),
                        "job": e.get("job_class"), "n": e.get("num_times", 1), "targets": e.get("targets")})
        elif m == "timing":
            ops.append({"op": "timing"})
        else:
            raise Unknown(m)
    return {
        "stats": stats(d["stats"]), "lib": library(d["skill_library"]),
        "snap": num(d.get("snap_dots_to_server_tick_starting_at")), "autos": d.get("enable_autos", False),
        "trailing": d.get("ignore_trailing_dots", False), "start": num(d.get("fight_start_time")),
        "downtime": dt, "target": d.get("default_target", "Default Target"), "ops": ops,
    }


def skill(o):
    assert o.name == ".get_skill", o
    d = dict(zip(["lib", "skill_name", "job_class"], o.args))
    d.update(o.kw)
    return {"name": d["skill_name"], "job": d["job_class"]}


SE = ["crit_rate_add", "dh_rate_add", "damage_mult", "auto_attack_delay_mult", "main_stat_add", "main_stat_mult",
      "haste_time_mult", "flat_cast_time_reduction", "flat_gcd_recast_time_reduction"]


def effects(o):
    d = dict(zip(SE, o.args))
    d.update(o.kw)
    res = {k: num(d[k]) for k in d if k in SE}
    res["crit"] = forced(d.get("guaranteed_crit", ("forced", "default")))
    res["dh"] = forced(d.get("guaranteed_dh", ("forced", "default")))
    assert set(d) <= set(SE) | {"guaranteed_crit", "guaranteed_dh", "status_effects"}, d
    return res


def event(x, lo, hi):
    names = ["prio", "times", "skill", "mod", "snap", "targets", "id"][lo:hi]
    assert len(names) == len(x), x
    d = dict(zip(names, x))
    res = {}
    if "prio" in d:
        res["prio"] = d["prio"]
    t = d["times"].args
    res["primary"], res["secondary"] = num(t[0]), num(t[1])
    res["skill"] = skill(d["skill"])
    res["mod"] = modifier(d["mod"])
    res["snap"] = list(d["snap"])
    if "targets" in d:
        res["targets"] = list(d["targets"])
    if "id" in d:
        res["id"] = d["id"]
    return res


def instance(x):
    t, s, m, se = x
    return {"time": num(t), "skill": skill(s), "mod": modifier(m), "buffs": effects(se[0]), "debuffs": effects(se[1])}


def queue(o):
    ops = []
    for m, a, k in o.ops:
        assert m == "add"
        e = dict(zip(["priority", "primary_time", "secondary_time", "skill", "skill_modifier", "snapshot_status"], a))
        e.update(k)
        ops.append({"prio": e["priority"], "primary": num(e["primary_time"]), "secondary": num(e["secondary_time"]),
                    "skill": skill(e["skill"]), "mod": modifier(e["skill_modifier"]),
                    "snap": list(e["snapshot_status"]),
                    "targets": list(e["targets"]) if "targets" in e else ["Default Target"]})
        assert set(e) <= {"priority", "primary_time", "secondary_time", "skill", "skill_modifier",
                          "snapshot_status", "targets"}, e
    return ops


def to_case(name, kind, args, kw, lib):
    if kind == "test_skills":
        st, rows = args[0], args[1]
        return [{"name": name, "kind": "skill", "stats": stats(st), "lib": library(lib),
                 "skill": r[0], "mod": modifier(r[1]), "expected": num(r[2])} for r in rows]
    if kind == "test_multi_target_skills":
        st, rows = args
        return [{"name": name, "kind": "multi", "stats": stats(st), "lib": library(lib),
                 "skill": r[0], "targets": r[1], "mod": modifier(r[2]), "expected": [num(x) for x in r[3]]}
                for r in rows]
    if kind == "test_rotation_damage":
        return [{"name": name, "kind": "rotation", "rb": builder(args[0]),
                 "expected": [[x[0], num(x[1])] for x in args[1]]}]
    if kind == "test_aggregate_rotation":
        return [{"name": name, "kind": "aggregate", "rb": builder(args[0]), "expected": num(args[1]),
                 "time": num(args[2])}]
    if kind in ("_compare_sequential", "_compare_sets"):
        res, exp = args[0], args[1]
        if res.name == "slice":
            src, sl = res.args
            if src.name == ".get_q":
                lo, hi = map(int, sl.split(":"))
                tl = src.args[0]
                return [{"name": name, "kind": "timeline", "rb": builder(tl.args[0], tl.args[1]),
                         "expected": [event(x, lo, hi) for x in exp]}]
            if src.name == ".get_damage_instances" and sl == "0:-2":
                db, ev = src.args
                base = {"name": name, "kind": "instances", "expected": [instance(x) for x in exp],
                        "stats": stats(db.args[0]), "lib": library(db.args[1])}
                if ev.name == "timeline":
                    base["rb"] = builder(ev.args[0], ev.args[1])
                else:
                    base["queue"] = queue(ev)
                return [base]
        if res.name == "expected_damages":
            sim = res.args[0].args[0]
            ev = sim.args[1].args[1]
            return [{"name": name, "kind": "rotation", "rb": builder(ev.args[0], ev.args[1]),
                     "expected": [[None, num(x)] for x in exp]}]
        if res.name == "info":
            tl = res.args[0].args[0]
            rows = exp.args[0]
            return [{"name": name, "kind": "info", "rb": builder(tl.args[0], tl.args[1]),
                     "expected": [{"primary": num(t[0]), "secondary": num(t[1]), "skill": s, "targets": list(g)}
                                  for t, s, g in rows]}]
    raise Unknown(f"{kind} {args[:1]}")


FILES = [
    "timeline_builders/test_rotation_builder.py", "timeline_builders/test_rotation_builder_multi.py",
    "timeline_builders/test_damage_builder.py",
    "timeline_builders/test_rotation_builder_and_damage_builder_integration_test.py",
    "test_end_to_end.py",
] + [f"game_data/testing/{d}/{f}" for d in sorted(os.listdir(os.path.join(SIM, "game_data/testing")))
     if d.startswith("patch") for f in sorted(os.listdir(os.path.join(SIM, "game_data/testing", d))) if f.startswith("test_")]


def extract():
    cases, skipped = [], []
    for f in FILES:
        tree = ast.parse(open(os.path.join(SIM, f)).read())
        for c in tree.body:
            if not isinstance(c, ast.ClassDef):
                continue
            cls = {}
            for m in c.body:
                if isinstance(m, ast.FunctionDef) and m.name == "__init__":
                    Interp(cls).run(m.body)
            for m in c.body:
                if isinstance(m, ast.FunctionDef) and m.decorator_list and \
                        "is_a_test" in ast.unparse(m.decorator_list[0]):
                    it = Interp(cls)
                    name = f"{os.path.basename(f)}:{m.lineno} {m.name}"
                    try:
                        it.run(m.body)
                        new = []
                        for kind, args, kw in it.cases:
                            new += to_case(name, kind, args, kw, cls["__skill_library"])
                        if not new:
                            raise Unknown("no expectation")
                        cases += new
                    except (Unknown, AssertionError, AttributeError, KeyError, TypeError, ValueError) as e:
                        skipped.append((name, repr(e)[:200]))
    return cases, skipped


# ---- the library of the tests -------------------------------------------------------------------

NEW = {
    "Skill": ("newSkill", ["name"]), "DamageSpec": ("newDamageSpec", ["potency"]),
    "TimingSpec": ("newTimingSpec", ["base_cast_time"]), "StatusEffectSpec": ("newStatusEffectSpec", []),
    "FollowUp": ("newFollowUp", ["skill", "delay_after_parent_application"]), "ComboSpec": ("newComboSpec", []),
    "JobResourceSpec": ("newJobResourceSpec", []), "JobResourceSettings": ("newJobResourceSettings", []),
    "ChannelingSpec": ("newChannelingSpec", []),
}
LCLS = {"pet": ".pet", "auto": ".auto", "physicalDot": ".physicalDot", "magicalDot": ".magicalDot", "direct": ".direct"}


class LibEmit:
    def __init__(self):
        self.names, self.defs = {}, []

    def val(self, v):
        if isinstance(v, Obj):
            if id(v) not in self.names:
                fn, pos = NEW[v.name]
                d = dict(zip(pos, v.args))
                d.update(v.kw)
                body = ", ".join(f"{k} := {self.val(x)}" for k, x in d.items())
                n = f"v{len(self.names)}"
                self.names[id(v)] = n
                self.keep = getattr(self, "keep", []) + [v]
                self.defs.append(f"def {n} : Py PyVal := do\n  {fn} {{ {body} }}\n")
            return f"(← {self.names[id(v)]})"
        if v is None:
            return ".none"
        if isinstance(v, bool):
            return f"(.bool {'true' if v else 'false'})"
        if isinstance(v, int):
            return f"(.int ({v}))"
        if isinstance(v, float):
            f = Fraction(repr(v))
            return f"(.float (({f.numerator} : ℚ) / {f.denominator}))"
        if isinstance(v, str):
            return "(.str " + json.dumps(v, ensure_ascii=False) + ")"
        if isinstance(v, tuple) and v and v[0] == "forced":
            return "(.forced " + {"yes": ".forceYes", "no": ".forceNo", "default": ".default"}[v[1]] + ")"
        if isinstance(v, tuple) and v and v[0] == "class":
            return f"(.damageClass {LCLS[v[1]]})"
        if v == ("inf",):
            return ".inf"
        if isinstance(v, tuple):
            return "(.tuple [" + ", ".join(self.val(x) for x in v) + "])"
        if isinstance(v, dict):
            return "(PyVal.mkDict [" + ", ".join(f"({self.val(k)}, {self.val(x)})" for k, x in v.items()) + "])"
        raise Unknown(repr(v))


def emit_library():
    tree = ast.parse(open(os.path.join(SIM, "testing/create_test_skill_library.py")).read())
    fn = [x for x in tree.body if isinstance(x, ast.FunctionDef)][0]
    it = Interp({})
    body = [s for s in fn.body if "add_lbs_to_skill_library" not in ast.unparse(s)]
    it.run(body[:-1])
    lib = it.env["skill_library"]
    em = LibEmit()
    ops = []
    for m, a, k in lib.ops:
        if m == "set_current_job_class":
            ops.append(f"  let lib := lib.setCurrentJobClass {json.dumps(a[0])}")
        elif m == "add_skill":
            ops.append(f"  let lib ← addOne lib (← {em.val(a[0])[3:-1]})")
        elif m == "add_resource":
            ops.append(f"  let lib ← addRes lib {json.dumps(a[0])} (← {em.val(a[1])[3:-1]})")
        elif m == "set_status_effect_priority":
            ops.append("  let lib := lib.setStatusEffectPriority [" + ", ".join(json.dumps(x) for x in a[0]) + "]")
        else:
            raise Unknown(m)
    return "".join(em.defs) + "\ndef testLibrary : Py SkillLibrary := do\n" \
        "  let lib : SkillLibrary := emptyLib\n" + "\n".join(ops) + "\n  return lib\n"


HEADER = r'''import Verif.Model.GameData.Library
import Verif.Model.DamageSimulator
import Lean.Data.Json
namespace Ama.Conformance
open GameData PyVal
instance : Inhabited Draw := ⟨⟨1 / 2, 1 / 2, 1 / 2⟩⟩
def emptyLib : SkillLibrary := { version := "test" }
def addOne (lib : SkillLibrary) (v : PyVal) : Py SkillLibrary :=
  match v with
  | .skill r => do lib.addSkill (← mkSkill r)
  | _ => .error .attributeError
def addRes (lib : SkillLibrary) (n : String) (v : PyVal) : Py SkillLibrary :=
  match v with
  | .settings s => lib.addResource n s
  | _ => .error .attributeError
'''

RUNNER = r'''
open Lean in
/-- A number written as a fraction. -/
def getNum (j : Json) (k : String) : Except String ℚ := do
  let s ← (← j.getObjVal? k).getStr?
  match s.splitOn "/" with
  | [a, b] => match a.toInt?, b.toNat? with
    | some x, some y => return mkRat x y
    | _, _ => throw s!"bad number {s}"
  | _ => throw s!"bad number {s}"

open Lean in
def getOpt {α} (j : Json) (k : String) (f : Json → String → Except String α) : Except String (Option α) :=
  match j.getObjVal? k with
  | .ok .null => return Option.none
  | .error _ => return Option.none
  | .ok _ => return some (← f j k)

open Lean in
def getS (j : Json) (k : String) : Except String String := do (← j.getObjVal? k).getStr?
open Lean in
def getB (j : Json) (k : String) : Except String Bool := do (← j.getObjVal? k).getBool?
open Lean in
def getA (j : Json) (k : String) : Except String (List Json) := do return (← (← j.getObjVal? k).getArr?).toList
open Lean in
def getStrs (j : Json) (k : String) : Except String (List String) := do (← getA j k).mapM (·.getStr?)

open Lean in
def getForced (j : Json) (k : String) : Except String Forced := do
  match ← getS j k with
  | "yes" => return .forceYes
  | "no" => return .forceNo
  | "default" => return .default
  | s => throw s

open Lean in
def getMod (j : Json) (k : String) : Except String SkillModifier := do
  let m ← j.getObjVal? k
  return SkillModifier.make (← getS m "cond") (← getForced m "crit") (← getForced m "dh") (← getB m "combo")
    (← getB m "noCast") (← getB m "noDelay") (← getOpt m "bonus" getNum)

open Lean in
def getStats (j : Json) : Except String RawStats := do
  let s ← j.getObjVal? "stats"
  return {
    wd := ← getNum s "wd", weaponDelay := ← getOpt s "weapon_delay" getNum, mainStat := ← getNum s "main_stat"
    detStat := ← getNum s "det_stat", dhStat := ← getNum s "dh_stat", critStat := ← getNum s "crit_stat"
    speedStat := ← getNum s "speed_stat", jobClass := (← getOpt s "job_class" getS).getD ""
    version := (← getOpt s "version" getS).getD "", tenacity := ← getOpt s "tenacity" getNum
    numRolesInParty := (← getOpt s "num_roles_in_party" getNum).getD 5
    healerOrCasterStrength := ← getOpt s "healer_or_caster_strength" getNum
    level := match s.getObjVal? "level" with
      | .ok v => (v.getNat?.toOption).getD 90
      | .error _ => 90 }

open Lean in
def getClass (j : Json) (k : String) : Except String DamageClass := do
  match ← getS j k with
  | "pet" => return .pet
  | "auto" => return .auto
  | "physicalDot" => return .physicalDot
  | "magicalDot" => return .magicalDot
  | "direct" => return .direct
  | s => throw s

open Lean in
def getWindow (j : Json) : Except String RawWindow := do
  return { start := ← getNum j "start", stop := ← getNum j "stop", damageClass := ← getOpt j "cls" getClass }

open Lean in
def getDowntime (j : Json) : Except String RawDowntime := do
  let d ← j.getObjVal? "downtime"
  match d.getObjVal? "tuple" with
  | .ok _ => return .tuple (← (← getA d "tuple").mapM getWindow)
  | .error _ =>
    return .dict (← (← getA d "dict").mapM (fun kv => do
      match ← kv.getArr? with
      | #[k, v] => return (← k.getStr?, ← (← v.getArr?).toList.mapM getWindow)
      | _ => throw "dict"))

abbrev Libs := List ((String × ℕ) × SkillLibrary)

open Lean in
def libKey (j : Json) : Except String (String × ℕ) := do
  let l ← j.getObjVal? "lib"
  if ← getB l "test" then return ("test", 0)
  return (← getS l "version", ← (← l.getObjVal? "level").getNat?)

def liftPy {α} (what : String) (x : Py α) : Except String α :=
  match x with
  | .ok a => .ok a
  | .error e => .error s!"{what}: exception {reprStr e}"

def findLib (libs : Libs) (k : String × ℕ) : Except String SkillLibrary :=
  match libs.find? (fun x => x.1 == k) with
  | some x => .ok x.2
  | Option.none => .error s!"library {k.1}"

open Lean in
def getBuilder (libs : Libs) (j : Json) : Except String RotationBuilder := do
  let b ← j.getObjVal? "rb"
  let lib ← findLib libs (← libKey b)
  let stats ← liftPy "stats" (mkStats (← getStats b))
  let mut rb ← liftPy "init" (RotationBuilder.init stats lib (← getOpt b "snap" getNum) (← getB b "autos")
    (← getB b "trailing") (← getOpt b "start" getNum) (← getDowntime b) (← getS b "target"))
  for o in ← getA b "ops" do
    match ← getS o "op" with
    | "add" =>
      rb ← liftPy "add" (rb.add (← getNum o "t") (← getS o "name") (← getOpt o "mod" getMod)
        (← getOpt o "job" getS) (← getOpt o "targets" getS))
    | "addNext" =>
      rb ← liftPy "add_next" (rb.addNext (← getS o "name") (← getOpt o "mod" getMod)
        (← getOpt o "job" getS) (← (← o.getObjVal? "n").getNat?) (← getOpt o "targets" getS))
    | "timing" => rb ← liftPy "timing" (rb.getSkillTiming 100000)
    | s => throw s
  return rb

def simOf (stats : Stats) (rb : RotationBuilder) : Except String DamageSimulator := do
  let rb' ← liftPy "timing" (rb.getSkillTiming 100000)
  let db ← liftPy "DamageBuilder" (DamageBuilder.init stats rb.lib)
  let (xs, _) ← liftPy "instances" (db.getDamageInstances rb'.events)
  liftPy "simulator" (DamageSimulator.init rb.stats xs 0 (fun _ _ => default) (fun _ _ => default))

def near (tol expected actual : ℚ) : Bool := decide (|expected - actual| / max (1 / 1000000) expected < tol)

def check (b : Bool) (msg : String) : Except String Unit := if b then .ok () else .error msg

def rnd (q : ℚ) : String := toString (q.floor)

open Lean in
def getSkillRef (lib : SkillLibrary) (j : Json) : Except String Skill := do
  let s ← j.getObjVal? "skill"
  liftPy "get_skill" (lib.getSkill (← getS s "name") (← getS s "job"))

open Lean in
def getEffects (j : Json) (k : String) : Except String StatusEffects := do
  let s ← j.getObjVal? k
  return {
    critRateAdd := (← getOpt s "crit_rate_add" getNum).getD 0, dhRateAdd := (← getOpt s "dh_rate_add" getNum).getD 0
    damageMult := (← getOpt s "damage_mult" getNum).getD 1
    autoAttackDelayMult := (← getOpt s "auto_attack_delay_mult" getNum).getD 1
    mainStatAdd := (← getOpt s "main_stat_add" getNum).getD 0
    mainStatMult := (← getOpt s "main_stat_mult" getNum).getD 1
    hasteTimeMult := (← getOpt s "haste_time_mult" getNum).getD 1
    flatCastTimeReduction := (((← getOpt s "flat_cast_time_reduction" getNum).getD 0 : ℚ) : WithTop ℚ)
    flatGcdRecastTimeReduction := (← getOpt s "flat_gcd_recast_time_reduction" getNum).getD 0
    guaranteedCrit := ← getForced s "crit", guaranteedDh := ← getForced s "dh" }

def showEvent (e : Event) : String :=
  s!"({e.primary}, {e.secondary}) {e.skill.name} {e.targets}"

open Lean in
def sameEvent (lib : SkillLibrary) (e : Event) (x : Json) : Except String Unit := do
  check (e.primary = (← getNum x "primary") ∧ e.secondary = (← getOpt x "secondary" getNum)) s!"times {showEvent e}"
  let s ← getSkillRef lib x
  check (decide (e.skill.name = s.name)) s!"skill {showEvent e}"
  check (decide (e.skill = s) || s.name == "follow_up_buff") s!"skill differs {showEvent e}"
  check (e.modifier.pyEq (← getMod x "mod")) s!"modifier {showEvent e}"
  let fl ← (← getA x "snap").mapM (·.getBool?)
  check (decide ([e.snapshotBuffs, e.snapshotDebuffs] = fl.map .flag)) s!"snapshot {showEvent e}"
  match ← getOpt x "targets" getStrs with
  | some t => check (decide (e.targets = t)) s!"targets {showEvent e}"
  | Option.none => pure ()
  match x.getObjVal? "prio" with
  | .ok v => check (decide (e.priority = (← v.getInt?))) s!"priority {showEvent e}"
  | .error _ => pure ()
  match x.getObjVal? "id" with
  | .ok v => check (decide (e.eventId = (← v.getNat?))) s!"id {showEvent e}"
  | .error _ => pure ()

open Lean in
def sameInstance (lib : SkillLibrary) (e : DamageInstance) (x : Json) : Except String Unit := do
  let s ← getSkillRef lib x
  check (e.time = (← getNum x "time")) s!"time {e.time} {e.skill.name}"
  check (decide (e.skill = s)) s!"skill {e.skill.name}"
  check (e.modifier.pyEq (← getMod x "mod")) s!"modifier {e.time} {e.skill.name}"
  check (e.buffs.pyEq (← getEffects x "buffs")) s!"buffs {e.time} {e.skill.name}"
  check (e.debuffs.pyEq (← getEffects x "debuffs")) s!"debuffs {e.time} {e.skill.name}"

open Lean in
def getNums (j : Json) (k : String) : Except String (List ℚ) := do
  (← getA j k).mapM (fun x => getNum (Json.mkObj [("x", x)]) "x")

open Lean in
def runCase (libs : Libs) (j : Json) : Except String Unit := do
  match ← getS j "kind" with
  | "skill" =>
    let lib ← findLib libs (← libKey j)
    let stats ← liftPy "stats" (mkStats (← getStats j))
    let rb ← liftPy "init" (RotationBuilder.init stats lib)
    let rb ← liftPy "add_next" (rb.addNext (← getS j "skill") (← getOpt j "mod" getMod))
    let sim ← simOf stats rb
    let e ← getNum j "expected"
    check (near (6 / 1000) e sim.getExpectedDamage) s!"{← getS j "skill"}: expected {rnd e}, got {rnd sim.getExpectedDamage}"
  | "multi" =>
    let lib ← findLib libs (← libKey j)
    let stats ← liftPy "stats" (mkStats (← getStats j))
    let rb ← liftPy "init" (RotationBuilder.init stats lib)
    let rb ← liftPy "add_next" (rb.addNext (← getS j "skill") (← getOpt j "mod" getMod) Option.none 1 (some (← getS j "targets")))
    let sim ← simOf stats rb
    let es ← getNums j "expected"
    let got := sim.getPerSkillDamage.map (·.expectedDamage)
    check (es.length = got.length && (es.zip got).all (fun p => near (6 / 1000) p.1 p.2))
      s!"{← getS j "skill"}: expected {es.map rnd}, got {got.map rnd}"
  | "rotation" =>
    let rb ← getBuilder libs j
    let sim ← simOf rb.stats rb
    let got := sim.getPerSkillDamage.map (fun p => (p.skillName, p.expectedDamage))
    let es ← (← getA j "expected").mapM (fun x => do
      match ← x.getArr? with
      | #[.null, e] => return (Option.none, ← getNum (Json.mkObj [("x", e)]) "x")
      | #[n, e] => return (some (← n.getStr?), ← getNum (Json.mkObj [("x", e)]) "x")
      | _ => throw "row")
    check (es.length = got.length) s!"expected {es.length} instances, got {got.map (·.1)}"
    for (e, g) in es.zip got do
      check (e.1.all (· == g.1)) s!"expected {e.1}, got {g.1}"
      check (near (5 / 1000) e.2 g.2) s!"{g.1}: expected {rnd e.2}, got {rnd g.2}"
  | "aggregate" =>
    let rb ← getBuilder libs j
    let sim ← simOf rb.stats rb
    let e ← getNum j "expected"
    check (near (6 / 1000) e sim.getExpectedDamage) s!"expected {rnd e}, got {rnd sim.getExpectedDamage}"
    let t ← getNum j "time"
    let ts := sim.getDamageTime
    let total := ts.foldl max (ts.headD 0) - ts.foldl min (ts.headD 0)
    check (decide (|t - total| ≤ 1 / 1000)) s!"expected time {t}, got {total}"
  | "timeline" =>
    let rb ← getBuilder libs j
    let es ← getA j "expected"
    let q := rb.events.getQ
    check (q.length = es.length) s!"expected {es.length} events, got {q.map showEvent}"
    for (e, x) in q.zip es do sameEvent rb.lib e x
  | "info" =>
    let rb ← getBuilder libs j
    let es ← (← getA j "expected").mapM (fun x => do
      return ((← getNum x "primary", ← getOpt x "secondary" getNum), ← getS x "skill", ← getStrs x "targets"))
    let q := rb.events.getQ.map (fun e => ((e.primary, e.secondary), e.skill.name, e.targets))
    check (es.all (· ∈ q) && q.all (· ∈ es)) s!"got {q}"
  | "instances" =>
    let lib ← findLib libs (← libKey j)
    let stats ← liftPy "stats" (mkStats (← getStats j))
    let db ← liftPy "DamageBuilder" (DamageBuilder.init stats lib)
    let events ← match j.getObjVal? "rb" with
      | .ok _ => do pure (← getBuilder libs j).events
      | .error _ => do
        let mut evs : Events := {}
        for o in ← getA j "queue" do
          match ← (← getA o "snap").mapM (·.getBool?) with
          | [a, b] =>
            evs ← liftPy "queue" (evs.add {
              priority := ← (← o.getObjVal? "prio").getInt?, primary := ← getNum o "primary"
              secondary := ← getOpt o "secondary" getNum, skill := ← getSkillRef lib o, modifier := ← getMod o "mod"
              snapshotBuffs := .flag a, snapshotDebuffs := .flag b, targets := ← getStrs o "targets" })
          | _ => throw "snap"
        pure evs
    let (xs, _) ← liftPy "instances" (db.getDamageInstances events)
    let es ← getA j "expected"
    check (xs.length = es.length) s!"expected {es.length} instances, got {xs.map (fun x => (x.time, x.skill.name))}"
    for (e, x) in xs.zip es do sameInstance lib e x
  | s => throw s

open Lean in
def main (args : List String) : IO Unit := do
  let file := args.headD ""
  let part := ((args.getD 1 "0").toNat?).getD 0
  let parts := ((args.getD 2 "1").toNat?).getD 1
  let .ok j := Json.parse (← IO.FS.readFile file) | throw (IO.userError "json")
  let .ok arr := j.getArr? | throw (IO.userError "array")
  let mine := arr.toList.zipIdx.filter (fun c => c.2 % parts = part)
  let mut libs : Libs := []
  let mut good := 0
  let mut bad := 0
  for (c, _) in mine do
    let key := match libKey c with
      | .ok k => k
      | .error _ => match c.getObjVal? "rb" with
        | .ok b => (libKey b).toOption.getD ("", 0)
        | .error _ => ("", 0)
    if (libs.find? (fun x => x.1 == key)).isNone then
      match (if key.1 == "test" then testLibrary else GameData.createSkillLibrary key.1 key.2) with
      | .ok l => libs := (key, l) :: libs
      | .error e => IO.println s!"library {key.1} {key.2}: {reprStr e}"
    let name := (getS c "name").toOption.getD ""
    match runCase libs c with
    | .ok () => good := good + 1
    | .error e =>
      bad := bad + 1
      IO.println s!"FAIL {name} [{(getS c "kind").toOption.getD ""}]: {e}"
  IO.println s!"{good} as expected, {bad} not"
'''


if __name__ == "__main__":
    os.makedirs(WORK, exist_ok=True)
    cases, skipped = extract()
    json.dump(cases, open(os.path.join(WORK, "cases.json"), "w"))
    import collections
    print(collections.Counter(c["kind"] for c in cases))
    print(len(skipped), "skipped:")
    for n, e in skipped:
        print("  ", n, e)
    program = os.path.abspath(os.path.join(WORK, "Conformance.lean"))
    with open(program, "w") as f:
        f.write(HEADER + emit_library() + RUNNER + "end Ama.Conformance\ndef main := Ama.Conformance.main\n")
    data = os.path.abspath(os.path.join(WORK, "cases.json"))
    runs = [subprocess.Popen(["lake", "env", "lean", "--run", program, data, str(i), "3"], cwd=LEAN,
                             stdout=subprocess.PIPE, text=True) for i in range(3)]
    for r in runs:
        print(r.communicate()[0], end="")
