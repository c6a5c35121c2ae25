"""Writes lean/Verif/Model/ExampleRotations/Data.lean from example_rotations/*/*_data.py, read as text."""
import ast, re
from fractions import Fraction
R = '/repo/ama_xiv_combat_sim/example_rotations/'
ORDER = [('tank', 'war pld gnb drk'), ('healer', 'whm sge sch ast'), ('ranged', 'brd dnc mch'),
         ('caster', 'blm pct rdm smn'), ('melee', 'drg mnk nin rpr sam vpr')]
NUM = {'wd': 'wd', 'weapon_delay': 'weaponDelay', 'main_stat': 'mainStat', 'det_stat': 'detStat', 'crit_stat': 'critStat',
       'dh_stat': 'dhStat', 'speed_stat': 'speedStat', 'tenacity': 'tenacity',
       'healer_or_caster_strength': 'healerOrCasterStrength'}
OPT = {'weapon_delay', 'tenacity', 'healer_or_caster_strength'}
def s(x):
    assert isinstance(x, str) and '"' not in x and '\\' not in x
    return '"' + x + '"'
def q(node):
    v = ast.literal_eval(node)
    assert type(v) in (int, float)
    f = Fraction(ast.unparse(node))
    return str(f.numerator) if f.denominator == 1 else f'{f.numerator}/{f.denominator}'
def wrap(items, ind, width=112):
    lines, cur = [], ''
    for i, x in enumerate(items):
        t = x + (',' if i < len(items) - 1 else '')
        if cur and len(ind) + len(cur) + 1 + len(t) > width:
            lines.append(cur); cur = t
        else:
            cur = (cur + ' ' + t).strip()
    lines.append(cur)
    return ('\n' + ind).join(lines)
def pairs(d):
    assert isinstance(d, ast.Dict)
    ks = [ast.literal_eval(k) for k in d.keys]
    assert len(set(ks)) == len(ks)
    return list(zip(ks, d.values))
def stats(d):
    out = []
    for k, v in pairs(d):
        if k == 'job_class':
            out.append('jobClass := ' + s(ast.literal_eval(v)))
        else:
            out.append(f'{NUM[k]} := ' + ('some ' + q(v) if k in OPT else q(v)))
    return '{\n          ' + wrap(out, ' ' * 10) + ' }'
def rotation(d):
    out = []
    for k, v in pairs(d):
        if k == 'stats':
            out.append('stats := ' + stats(v))
        elif k == 'skills':
            assert isinstance(v, ast.Tuple)
            out.append('skills := [\n          ' + wrap([s(ast.literal_eval(e)) for e in v.elts], ' ' * 10) + ']')
        elif k == 'party_skills':
            assert isinstance(v, ast.Tuple)
            es = []
            for e in v.elts:
                assert isinstance(e, ast.Tuple) and len(e.elts) == 3
                es.append(f'⟨{q(e.elts[0])}, {s(ast.literal_eval(e.elts[1]))}, {s(ast.literal_eval(e.elts[2]))}, none⟩')
            out.append('partySkills := some [\n          ' + wrap(es, ' ' * 10) + ']')
        elif k == 'start_version':
            out.append('startVersion := some ' + s(ast.literal_eval(v)))
        else:
            assert k == 'end_version'
            out.append('endVersion := some ' + s(ast.literal_eval(v)))
    return '{\n        ' + ',\n        '.join(out) + ' }'
res = ["""import Verif.Model.ExampleRotations.Rotation

/-!
# The data of the example rotations

Generated by `tools/rotations.py` from `example_rotations/*/*_data.py`.
-/

namespace Ama.ExampleRotations
"""]
for role, jobs in ORDER:
    for j in jobs.split():
        f = f'{role}/{j}_data.py'
        tree = ast.parse(open(R + f).read())
        body = tree.body
        assert isinstance(body[0], ast.ImportFrom)
        assert ast.unparse(body[1]) == f'all_{j}_rotations = SpecificRotations()'
        assert ast.unparse(body[2].targets[0]) == f'ALL_{j.upper()}_ROTATIONS'
        assert ast.unparse(body[3]) == f'for k, v in ALL_{j.upper()}_ROTATIONS.items():\n    all_{j}_rotations.add_rotation_data(k, v)'
        assert len(body) == 4
        d = body[2]
        es = []
        for k, v in pairs(d.value):
            ls = []
            for l, r in pairs(v):
                assert type(l) is int
                ls.append(f'({l}, {rotation(r)})')
            es.append(f'({s(k)}, [\n      ' + ',\n      '.join(ls) + '])')
        res.append(f'/-- example_rotations/{f}:{d.lineno}-{d.end_lineno} -/\ndef {j} : List (String × Dict ℕ RotationData) := [\n    '
                   + ',\n    '.join(es) + ']\n')
res.append('end Ama.ExampleRotations')
open('/verif/lean/Verif/Model/ExampleRotations/Data.lean', 'w').write('\n'.join(res) + '\n')
