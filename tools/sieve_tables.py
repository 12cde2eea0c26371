"""Generate lean/Verif/Model/SieveTables.lean from particle_size_distribution.py (read as text, not imported)."""
import ast
from fractions import Fraction
SRC = '/repo/fluids/particle_size_distribution.py'
text = open(SRC).read()
mod = ast.parse(text)
A = {n.targets[0].id: n for n in mod.body if isinstance(n, ast.Assign)}


def q(node):
    """exact decimal of a literal, as a Lean rational"""
    f = Fraction(ast.get_source_segment(text, node))
    return f'{f.numerator} / {f.denominator}' if f.denominator != 1 else str(f.numerator)


out = ['''/-! Sieve tables of `fluids/particle_size_distribution.py`, generated by `tools/sieve_tables.py`: dictionary key, `designation`,
`opening`, `d_wire_min`, `d_wire`, `d_wire_max`; decimals are exact rationals. -/

namespace Verif.Psd

/-- the fields of `Sieve` (particle_size_distribution.py:130-240) that are data in metres, with the dictionary key -/
structure SieveRow where
  key : String
  designation : String
  opening : ℚ
  d_wire_min : ℚ
  d_wire : ℚ
  d_wire_max : ℚ
''']
for name in ('ASTM_E11_sieves', 'ISO_3310_1_sieves'):
    n = A[name]
    rows = []
    for k, v in zip(n.value.keys, n.value.values):
        kw = {a.arg: a.value for a in v.keywords}
        rows.append(f'  ⟨"{k.value}", "{kw["designation"].value}", ' + ', '.join(q(kw[f]) for f in ('opening', 'd_wire_min', 'd_wire', 'd_wire_max')) + '⟩')
    out.append(f'/-- particle_size_distribution.py:{n.lineno}-{n.end_lineno} `{name}` -/\ndef {name} : List SieveRow := [\n' + ',\n'.join(rows) + ']\n')
lists = {'ASTM_E11_sieve_designations': A['ASTM_E11_sieve_designations'], 'ISO_3310_1_sieve_designations': A['ISO_3310_1_sieve_designations'],
         'ISO_3310_1_R20_keys': A['ISO_3310_1_R20_keys'], 'ISO_3310_1_R40_3_keys': A['ISO_3310_1_R40_3_keys'], 'ISO_3310_1_R10_keys': A['ISO_3310_1_R10_keys']}
for name, n in lists.items():
    out.append(f'/-- particle_size_distribution.py:{n.lineno}-{n.end_lineno} `{name}` -/\ndef {name} : List String := [' + ', '.join(f'"{e.value}"' for e in n.value.elts) + ']\n')
n = A['ISO_3310_1_R20_3']
out.append(f'/-- particle_size_distribution.py:{n.lineno}, the keys of `ISO_3310_1_R20_3` -/\ndef ISO_3310_1_R20_3_keys : List String := [' + ', '.join(f'"{e.value}"' for e in n.value.generators[0].iter.elts) + ']\n')
out.append('end Verif.Psd\n')
open('/verif/lean/Verif/Model/SieveTables.lean', 'w').write('import Mathlib.Data.Rat.Defs\n\n' + '\n'.join(out))
